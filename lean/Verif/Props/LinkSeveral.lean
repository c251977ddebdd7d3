import Verif.LinkSeveralLemmas
import Verif.Props.LinkQueue
import Verif.Props.Several
set_option linter.unusedSimpArgs false
set_option linter.unusedSectionVars false
/-!
# C113: several executers in front of one device, on ways that can fail

As C85, but each user has a way of their own to the device (`dev i`: the device as it answers on the way of user `i`), and on each way the driver may not take a command and
reports errors of the host adapter and its own besides the device's answer, as in C112.
-/

namespace Verif.Platform.Linux.Linked
open Verif.Executer Verif.Spec Verif.Spec.Link
open Verif.Spec.LinkQueue (heard)

variable {S δ : Type}

/-- The device, the users, and what they observed. -/
structure Users (δ S : Type) where
  dev : δ
  user : Nat → Live δ S
  log : List (LinkSeveral.Entry (Told S))

def Users.init (limit : Nat) (m : Nat → Mem) (k : δ) : Users δ S := ⟨k, fun i => Live.init limit (m i) k, []⟩

/-- A user's view of the device replaced. -/
def Live.at (s : Live δ S) (k : δ) : Live δ S :=
  { s with world := { s.world with kernel := { s.world.kernel with dev := k } } }

/-- Something happens at one of the users: they send, the device works on one of their commands, they process a response.  The methods of
their executer do the work (`Live.step`). -/
def Users.step (l : Bool) (parse : Bytes → Py (Option S)) (dev : Nat → Linked δ) (alloc : Nat → Nat → Alloc) (tmo : Int) (room : Nat)
    (s : Users δ S) (x : Nat × LinkQueue.Op) : Users δ S :=
  let a := (s.user x.1).at s.dev
  let b := Live.step l parse (dev x.1) (alloc x.1) tmo room a x.2
  { dev := b.world.kernel.dev,
    user := fun j => if j = x.1 then b else s.user j,
    log := s.log ++ (b.log.drop a.log.length).map (fun e => (x.1, x.2, e)) }

def Users.runFrom (l : Bool) (parse : Bytes → Py (Option S)) (dev : Nat → Linked δ) (alloc : Nat → Nat → Alloc) (tmo : Int) (room : Nat)
    (s : Users δ S) (ops : List (Nat × LinkQueue.Op)) : Users δ S := ops.foldl (Users.step l parse dev alloc tmo room) s

/-! ## Refinement -/

section
variable {l : Bool} {parse : Bytes → Py (Option S)} {dev : Nat → Linked δ} {alloc : Nat → Nat → Alloc} {tmo : Int} {limit : Nat}
  {cmds : Req → Prop}

/-- Every user's executer agrees with the ideal queue, whatever the device's state. -/
structure Agree (l : Bool) (parse : Bytes → Py (Option S)) (alloc : Nat → Nat → Alloc) (tmo : Int) (limit : Nat) (cmds : Req → Prop)
    (a : LinkSeveral.State δ (Told S)) (s : Users δ S) : Prop where
  dev : s.dev = a.dev
  log : s.log = a.log
  each : ∀ i, ∃ d, Inv l parse (alloc i) tmo limit cmds (a.user i) d (s.user i)

/-- Agreement does not depend on the state of the device. -/
theorem Inv.at {al : Nat → Alloc} {a : LinkQueue.State δ (Told S)} {d : List (Nat × Req × Report × Bool)} {s : Live δ S}
    (h : Inv l parse al tmo limit cmds a d s) (k : δ) : Inv l parse al tmo limit cmds { a with dev := k } d (s.at k) :=
  ⟨h.next, h.maxq, h.index, h.log, rfl, h.done, h.kwaiting, h.kdone, h.slots, h.keys, h.each, h.le, h.parses⟩

theorem Agree.step {a : LinkSeveral.State δ (Told S)} {s : Users δ S} (hroom : ∀ i, Room (alloc i) limit cmds) (hl : limit ≤ 2 ^ 31)
    (ht : 0 ≤ tmo ∧ tmo < 2 ^ 32) {room : Nat} (hr : limit ≤ room)
    (hparse : ∀ i k q, (dev i k q).1.HasSense → ∃ sn, parse (padded 255 (dev i k q).1.answer.sense) = .ok sn)
    (h : Agree l parse alloc tmo limit cmds a s) (x : Nat × LinkQueue.Op) (hx : LinkQueue.Sends cmds x.2)
    (hfresh : match x.2 with
      | .send _ _ => (a.user x.1).tickets.length < limit → ∀ t ∈ (a.user x.1).tickets, t % limit ≠ (a.user x.1).next % limit
      | _ => True) :
    Agree l parse alloc tmo limit cmds (LinkSeveral.step dev limit (heard parse) a x) (Users.step l parse dev alloc tmo room s x) := by
  obtain ⟨i, op⟩ := x
  obtain ⟨d, hi⟩ := h.each i
  have hi := hi.at a.dev
  have hstep : ∃ d', Inv l parse (alloc i) tmo limit cmds (LinkQueue.step (dev i) limit (heard parse) { a.user i with dev := a.dev } op) d'
      (Live.step l parse (dev i) (alloc i) tmo room ((s.user i).at a.dev) op) := by
    cases op with
    | send c taken => exact ⟨d, inv_send (hroom i) hl ht room hr hi c taken hx hfresh⟩
    | finish n direct => exact inv_finish (hroom i) hl ht room (hparse i) hi n direct
    | receive n => exact inv_receive (hroom i) hl ht (dev := dev i) room hi n
  obtain ⟨d', h'⟩ := hstep
  refine ⟨?_, ?_, ?_⟩
  · simp only [Users.step, LinkSeveral.step, h.dev]; exact h'.dev
  · simp only [Users.step, LinkSeveral.step, h.dev, h.log, h'.log, hi.log]
  · intro j
    simp only [Users.step, LinkSeveral.step, h.dev]
    by_cases e : j = i
    · subst e; simp only [if_true]; exact ⟨d', h'⟩
    · simp only [if_neg e]; exact h.each j

theorem Agree.run {a : LinkSeveral.State δ (Told S)} {s : Users δ S} (hroom : ∀ i, Room (alloc i) limit cmds) (hl : limit ≤ 2 ^ 31)
    (ht : 0 ≤ tmo ∧ tmo < 2 ^ 32) {room : Nat} (hr : limit ≤ room)
    (hparse : ∀ i k q, (dev i k q).1.HasSense → ∃ sn, parse (padded 255 (dev i k q).1.answer.sense) = .ok sn)
    (h : Agree l parse alloc tmo limit cmds a s) (ops : List (Nat × LinkQueue.Op)) (hops : ∀ x ∈ ops, LinkQueue.Sends cmds x.2)
    (hnw : LinkSeveral.NoWrap dev limit (heard parse) a ops) :
    Agree l parse alloc tmo limit cmds (LinkSeveral.runFrom dev limit (heard parse) a ops) (Users.runFrom l parse dev alloc tmo room s ops) := by
  induction ops generalizing a s with
  | nil => exact h
  | cons x ops ih =>
    exact ih (h.step hroom hl ht hr hparse x (hops x List.mem_cons_self) hnw.1) (fun y hy => hops y (List.mem_cons_of_mem _ hy)) hnw.2

/-- **C113** (partial: no packet number is reused while in use, cf. `C113_false`). Any number of users with an executer each, on one device, each on a way of their own that can fail,
doing anything in any order: what they observe is what one device explains that executes the commands their drivers took one after the other, each at most once; whoever is told about
a command is told the report on it in its turn; a command sent after another one was over (whoever sent it) comes after it; a command the driver did not take is not executed; and
the device is left as that sequence leaves it. -/
theorem C113_partial (hroom : ∀ i, Room (alloc i) limit cmds) (hl : limit ≤ 2 ^ 31)
    (ht : 0 ≤ tmo ∧ tmo < 2 ^ 32) {room : Nat} (hr : limit ≤ room)
    (hparse : ∀ i k q, (dev i k q).1.HasSense → ∃ sn, parse (padded 255 (dev i k q).1.answer.sense) = .ok sn)
    (m : Nat → Mem) (k : δ) (ops : List (Nat × LinkQueue.Op)) (hops : ∀ x ∈ ops, LinkQueue.Sends cmds x.2)
    (hnw : LinkSeveral.NoWrap dev limit (heard parse) (LinkSeveral.State.init k) ops) :
    let s := Users.runFrom l parse dev alloc tmo room (Users.init limit m k) ops
    ∃ order, LinkSeveral.Linear dev k (heard parse) s.log order ∧ s.dev = (LinkSeveral.serial dev k order).2 := by
  intro s
  have h0 : Agree l parse alloc tmo limit cmds (LinkSeveral.State.init k) (Users.init limit m k) :=
    ⟨rfl, rfl, fun i => ⟨[], inv_init l parse (alloc i) tmo limit cmds (m i) k⟩⟩
  have h := h0.run hroom hl ht hr hparse ops hops hnw
  have hg : LinkSeveral.Good dev k (heard parse) (LinkSeveral.runFrom dev limit (heard parse) (LinkSeveral.State.init k) ops) :=
    LinkSeveral.good_run k ops
  exact ⟨_, by rw [show s.log = _ from h.log]; exact hg.lin, by rw [show s.dev = _ from h.dev]; exact hg.final⟩

end

/-! ## Users for whom there is no further condition -/

/-- Users that have at most one command outstanding each. -/
theorem noWrap_oneEach {A : Type} (dev : Nat → Linked δ) (limit : Nat) (hear : Req → Report → A) (ops : List (Nat × LinkQueue.Op))
    (s : LinkSeveral.State δ A) (h : LinkSeveral.OneEach dev limit hear s ops) : LinkSeveral.NoWrap dev limit hear s ops := by
  induction ops generalizing s with
  | nil => trivial
  | cons x ops ih =>
    obtain ⟨i, op⟩ := x
    refine ⟨?_, ih _ h.2⟩
    cases op with
    | send c taken =>
      have h1 : (s.user i).tickets = [] := h.1
      intro _ t ht
      rw [h1] at ht
      cases ht
    | finish n direct => trivial
    | receive n => trivial

/-- The outstanding commands of a user are the most recent ones. -/
def Recent {A : Type} (a : LinkQueue.State δ A) : Prop := ∃ b n, a.tickets = List.range' b n ∧ b + n = a.next

theorem recent_step {A : Type} (dev : Linked δ) (limit : Nat) (hear : Req → Report → A) (a : LinkQueue.State δ A) (h : Recent a) (op : LinkQueue.Op)
    (ho : LinkQueue.InOrder op) (hta : LinkQueue.Takes op) : Recent (LinkQueue.step dev limit hear a op) := by
  obtain ⟨b, n, htk, hn⟩ := h
  cases op with
  | send c taken =>
    have hta : taken = true := hta
    subst hta
    simp only [LinkQueue.step, reduceCtorEq, if_false]
    split
    · exact ⟨b, n, htk, hn⟩
    · refine ⟨b, n + 1, ?_, by simp only; omega⟩
      simp only [LinkQueue.State.tickets, List.map_append, List.map_cons, List.map_nil, ← List.append_assoc]
      simp only [LinkQueue.State.tickets] at htk
      rw [htk, List.range'_concat, ← hn, Nat.one_mul]
  | finish i direct =>
    have hi : i = 0 := ho
    subst hi
    cases hw : a.waiting with
    | nil => simp only [LinkQueue.step, hw, List.getElem?_nil]; exact ⟨b, n, htk, hn⟩
    | cons x r =>
      simp only [LinkQueue.step, hw, List.getElem?_cons_zero, List.eraseIdx_cons_zero]
      refine ⟨b, n, ?_, hn⟩
      simp only [LinkQueue.State.tickets, hw, List.map_cons] at htk
      simp only [LinkQueue.State.tickets, List.map_append, List.map_cons, List.map_nil, List.append_assoc, List.singleton_append]
      exact htk
  | receive i =>
    have hi : i = 0 := ho
    subst hi
    cases hw : a.done with
    | nil =>
      simp only [LinkQueue.step, hw, List.getElem?_nil]
      exact ⟨b, n, by rw [← htk]; simp only [LinkQueue.State.tickets, hw], hn⟩
    | cons x r =>
      simp only [LinkQueue.step, hw, List.getElem?_cons_zero, List.eraseIdx_cons_zero]
      simp only [LinkQueue.State.tickets, hw, List.map_cons, List.cons_append] at htk
      cases n with
      | zero => simp at htk
      | succ n =>
        rw [List.range'_succ] at htk
        simp only [List.cons.injEq] at htk
        refine ⟨b + 1, n, ?_, by simp only; omega⟩
        simp only [LinkQueue.State.tickets]
        exact htk.2

theorem several_noWrap_inOrder {A : Type} (dev : Nat → Linked δ) (limit : Nat) (hear : Req → Report → A) (ops : List (Nat × LinkQueue.Op))
    (ho : ∀ x ∈ ops, LinkQueue.InOrder x.2) (hta : ∀ x ∈ ops, LinkQueue.Takes x.2) (s : LinkSeveral.State δ A) (h : ∀ i, Recent (s.user i)) :
    LinkSeveral.NoWrap dev limit hear s ops := by
  induction ops generalizing s with
  | nil => trivial
  | cons x ops ih =>
    obtain ⟨i, op⟩ := x
    have hop : LinkQueue.InOrder op := ho _ List.mem_cons_self
    refine ⟨?_, ih (fun y hy => ho y (List.mem_cons_of_mem _ hy)) (fun y hy => hta y (List.mem_cons_of_mem _ hy)) _ ?_⟩
    · cases op with
      | send c taken =>
        obtain ⟨b, n, htk, hn⟩ := h i
        intro hlt t ht
        simp only at hlt ht ⊢
        rw [htk] at hlt ht
        rw [List.length_range'] at hlt
        exact range'_mod hn hlt ht
      | finish n direct => trivial
      | receive n => trivial
    · intro j
      simp only [LinkSeveral.step]
      split
      · exact recent_step (dev i) limit hear { s.user i with dev := s.dev } (h i) op hop (hta _ List.mem_cons_self)
      · exact h j

section
variable {l : Bool} {parse : Bytes → Py (Option S)} {dev : Nat → Linked δ} {alloc : Nat → Nat → Alloc} {tmo : Int} {limit : Nat}
  {cmds : Req → Prop}

/-- **C113 for users that wait for each command**: every one of any number of users sends a command only when their previous one is over or was not taken, as
`call` does. No further condition. -/
theorem C113_one_each (hroom : ∀ i, Room (alloc i) limit cmds) (hl : limit ≤ 2 ^ 31)
    (ht : 0 ≤ tmo ∧ tmo < 2 ^ 32) {room : Nat} (hr : limit ≤ room)
    (hparse : ∀ i k q, (dev i k q).1.HasSense → ∃ sn, parse (padded 255 (dev i k q).1.answer.sense) = .ok sn)
    (m : Nat → Mem) (k : δ) (ops : List (Nat × LinkQueue.Op)) (hops : ∀ x ∈ ops, LinkQueue.Sends cmds x.2)
    (h1 : LinkSeveral.OneEach dev limit (heard parse) (LinkSeveral.State.init k) ops) :
    let s := Users.runFrom l parse dev alloc tmo room (Users.init limit m k) ops
    ∃ order, LinkSeveral.Linear dev k (heard parse) s.log order ∧ s.dev = (LinkSeveral.serial dev k order).2 :=
  C113_partial hroom hl ht hr hparse m k ops hops (noWrap_oneEach dev limit (heard parse) ops _ h1)

/-- **C113 for devices that answer each user in order and drivers that take every command**; the commands of different users may overtake each other. No further condition. -/
theorem C113_in_order (hroom : ∀ i, Room (alloc i) limit cmds) (hl : limit ≤ 2 ^ 31)
    (ht : 0 ≤ tmo ∧ tmo < 2 ^ 32) {room : Nat} (hr : limit ≤ room)
    (hparse : ∀ i k q, (dev i k q).1.HasSense → ∃ sn, parse (padded 255 (dev i k q).1.answer.sense) = .ok sn)
    (m : Nat → Mem) (k : δ) (ops : List (Nat × LinkQueue.Op)) (hops : ∀ x ∈ ops, LinkQueue.Sends cmds x.2)
    (ho : ∀ x ∈ ops, LinkQueue.InOrder x.2) (hta : ∀ x ∈ ops, LinkQueue.Takes x.2) :
    let s := Users.runFrom l parse dev alloc tmo room (Users.init limit m k) ops
    ∃ order, LinkSeveral.Linear dev k (heard parse) s.log order ∧ s.dev = (LinkSeveral.serial dev k order).2 :=
  C113_partial hroom hl ht hr hparse m k ops hops (several_noWrap_inOrder dev limit (heard parse) ops ho hta _ fun _ => ⟨0, 0, rfl, rfl⟩)

end

/-! ## The hypotheses can be met; and the condition is needed -/

instance : DecidableEq (LinkSeveral.Entry (Told Unit)) := fun a b => instDecidableEqProd a b

/-- The byte 66 does not get through on the way of user 1 (`DID_NO_CONNECT`), and nothing does on the way of user 2 (`DID_BAD_TARGET`). -/
def echoWays : Nat → Linked Unit := fun i k q =>
  (⟨(echo () q).1, if i = 2 then 4 else if i = 1 ∧ (q.cdb.drop 1).take 1 = [66] then 1 else 0, 0⟩, k)

/-- Three users, who wait for each command: one way is dead, one fails once, one does not take a command. -/
def threeWays : List (Nat × LinkQueue.Op) :=
  [(0, .send (.read [8, 66] 1) false), (1, .send (.read [8, 66] 1) true), (0, .send (.read [8, 66] 1) true), (2, .send (.read [8, 67] 1) true),
    (2, .finish 0 true), (1, .finish 0 false), (0, .finish 0 false), (1, .receive 0), (1, .send (.read [8, 65] 1) true), (2, .receive 0), (0, .receive 0),
    (1, .finish 0 true), (1, .receive 0)]

example : LinkSeveral.OneEach echoWays 2 (heard (S := Unit) (fun _ => .ok none)) (LinkSeveral.State.init ()) threeWays ∧
    (LinkSeveral.run echoWays 2 (heard (S := Unit) (fun _ => .ok none)) () threeWays).log =
      [(0, .send (.read [8, 66] 1) false, .failed), (1, .send (.read [8, 66] 1) true, .accepted 0), (0, .send (.read [8, 66] 1) true, .accepted 1),
        (2, .send (.read [8, 67] 1) true, .accepted 0), (1, .receive 0, .told 0 ⟨none, some .scsi⟩), (1, .send (.read [8, 65] 1) true, .accepted 1),
        (2, .receive 0, .told 0 ⟨none, some .scsi⟩), (0, .receive 0, .told 1 ⟨some (some [66]), none⟩), (1, .receive 0, .told 1 ⟨some (some [65]), none⟩)] := by
  constructor
  · simp [LinkSeveral.OneEach, threeWays, LinkSeveral.step, LinkSeveral.State.init, LinkQueue.step, LinkQueue.State.init, LinkQueue.State.tickets]
  · decide

/-- One user is enough, on a device that answers in order: with one command outstanding and one not taken, the third is told the answer of the first, which no order of
execution explains (`C112_false`). -/
def untaken : List (Nat × LinkQueue.Op) :=
  [(0, .send (.read [8, 65] 1) true), (0, .send (.read [8, 68] 1) false), (0, .send (.read [8, 67] 1) true), (0, .finish 0 false), (0, .receive 0)]

theorem untaken_log :
    (Users.runFrom true (S := Unit) (fun _ => .ok none) echoWays (fun _ => pages) 30000 16 (Users.init 2 (fun _ _ => 0) ()) untaken).log =
      [(0, .send (.read [8, 65] 1) true, .accepted 0), (0, .send (.read [8, 68] 1) false, .failed), (0, .send (.read [8, 67] 1) true, .accepted 2),
        (0, .receive 0, .told 2 ⟨some (some [65]), none⟩)] := by
  decide +kernel

theorem echoWays_serial (k : Unit) (o : List Several.Turn) (i t : Nat) (c : Req) (r : Report)
    (h : (i, t, c, r) ∈ (LinkSeveral.serial echoWays k o).1) : (i, t, c) ∈ o ∧ r = (echoWays i () (asked c)).1 := by
  induction o generalizing k with
  | nil => cases h
  | cons x o ih =>
    obtain ⟨i', t', c'⟩ := x
    simp only [LinkSeveral.serial, List.mem_cons] at h
    rcases h with h | h
    · simp only [Prod.mk.injEq] at h
      obtain ⟨rfl, rfl, rfl, rfl⟩ := h
      exact ⟨List.mem_cons_self, rfl⟩
    · obtain ⟨h1, h2⟩ := ih _ h
      exact ⟨List.mem_cons_of_mem _ h1, h2⟩

/-- **C113 is false in general**, even for devices that answer each user in order. -/
theorem C113_false : ∃ ops : List (Nat × LinkQueue.Op), (∀ x ∈ ops, LinkQueue.Sends Small x.2) ∧ (∀ x ∈ ops, LinkQueue.InOrder x.2) ∧
    ¬ ∃ order, LinkSeveral.Linear echoWays () (heard (S := Unit) (fun _ => .ok none))
      (Users.runFrom true (S := Unit) (fun _ => .ok none) echoWays (fun _ => pages) 30000 16 (Users.init 2 (fun _ _ => 0) ()) ops).log order := by
  refine ⟨untaken, by simp [untaken, LinkQueue.Sends, Small, dataSize, Req.cdb], by simp [untaken, LinkQueue.InOrder], ?_⟩
  rintro ⟨order, h⟩
  rw [untaken_log] at h
  obtain ⟨c, r, h1, h2⟩ := h.told 0 (.receive 0) 2 ⟨some (some [65]), none⟩ (by simp)
  obtain ⟨h3, h4⟩ := echoWays_serial () order 0 2 c r h1
  have h5 := h.sent 0 2 c h3
  simp only [List.mem_cons, Prod.mk.injEq, LinkQueue.Op.send.injEq, LinkQueue.Ev.accepted.injEq, List.not_mem_nil, or_false] at h5
  simp at h5
  subst h5
  rw [h4] at h2
  revert h2
  decide

end Verif.Platform.Linux.Linked
