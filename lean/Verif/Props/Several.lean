import Verif.SeveralLemmas
import Verif.Props.Queue
set_option linter.unusedSimpArgs false
set_option linter.unusedSectionVars false
/-!
# C85: several executers in front of one device

Every user has a file descriptor of their own on the sg device, an executer on it and memory of their own; the device is one.  The sg
driver keeps the requests of each file descriptor apart (`drivers/scsi/sg.c`, `Sg_fd`), so a user is a `Live` (`Props/Queue`) that
finds the device as the last one to use it left it.  Threads of one process with an executer each are users as well: their buffers are
different allocations, which is all that memory of their own says.

What all users observe together is what one device working on one command after the other explains (`Spec.Several.Linear`).
-/

namespace Verif.Platform.Linux
open Verif.Executer Verif.Spec

variable {S δ : Type}

/-- The device, the users, and what they observed. -/
structure Users (δ S : Type) where
  dev : δ
  user : Nat → Live δ S
  log : List (Several.Entry (Told S))

def Users.init (limit : Nat) (m : Nat → Mem) (k : δ) : Users δ S := ⟨k, fun i => Live.init limit (m i) k, []⟩

/-- A user's view of the device replaced. -/
def Live.at (s : Live δ S) (k : δ) : Live δ S :=
  { s with world := { s.world with kernel := { s.world.kernel with dev := k } } }

/-- Something happens at one of the users: they send, the device works on one of their commands, they process a response.  The methods of
their executer do the work (`Live.step`). -/
def Users.step (l : Bool) (parse : Bytes → Py (Option S)) (dev : Device δ) (alloc : Nat → Nat → Alloc) (tmo : Int) (room : Nat)
    (s : Users δ S) (x : Nat × Queue.Op) : Users δ S :=
  let a := (s.user x.1).at s.dev
  let b := Live.step l parse dev (alloc x.1) tmo room a x.2
  { dev := b.world.kernel.dev,
    user := fun j => if j = x.1 then b else s.user j,
    log := s.log ++ (b.log.drop a.log.length).map (fun e => (x.1, x.2, e)) }

def Users.runFrom (l : Bool) (parse : Bytes → Py (Option S)) (dev : Device δ) (alloc : Nat → Nat → Alloc) (tmo : Int) (room : Nat)
    (s : Users δ S) (ops : List (Nat × Queue.Op)) : Users δ S := ops.foldl (Users.step l parse dev alloc tmo room) s

/-! ## Refinement -/

section
variable {l : Bool} {parse : Bytes → Py (Option S)} {dev : Device δ} {alloc : Nat → Nat → Alloc} {tmo : Int} {limit : Nat}
  {cmds : Req → Prop}

/-- Every user's executer agrees with the ideal queue, whatever the device's state. -/
structure Agree (l : Bool) (parse : Bytes → Py (Option S)) (alloc : Nat → Nat → Alloc) (tmo : Int) (limit : Nat) (cmds : Req → Prop)
    (a : Several.State δ (Told S)) (s : Users δ S) : Prop where
  dev : s.dev = a.dev
  log : s.log = a.log
  each : ∀ i, ∃ d, Inv l parse (alloc i) tmo limit cmds (a.user i) d (s.user i)

/-- Agreement does not depend on the state of the device. -/
theorem Inv.at {al : Nat → Alloc} {a : Queue.State δ (Told S)} {d : List (Nat × Req × Answer × Bool)} {s : Live δ S}
    (h : Inv l parse al tmo limit cmds a d s) (k : δ) : Inv l parse al tmo limit cmds { a with dev := k } d (s.at k) :=
  ⟨h.next, h.maxq, h.index, h.log, rfl, h.done, h.kwaiting, h.kdone, h.slots, h.keys, h.each, h.le, h.parses⟩

theorem Agree.step {a : Several.State δ (Told S)} {s : Users δ S} (hroom : ∀ i, Room (alloc i) limit cmds) (hl : limit ≤ 2 ^ 31)
    (ht : 0 ≤ tmo ∧ tmo < 2 ^ 32) {room : Nat} (hr : limit ≤ room)
    (hparse : ∀ k q, (dev k q).1.status.toNat / 2 % 2 = 1 → ∃ sn, parse (padded 255 (dev k q).1.sense) = .ok sn)
    (h : Agree l parse alloc tmo limit cmds a s) (x : Nat × Queue.Op) (hx : Queue.Sends cmds x.2)
    (hfresh : match x.2 with
      | .send _ => (a.user x.1).tickets.length < limit → ∀ t ∈ (a.user x.1).tickets, t % limit ≠ (a.user x.1).next % limit
      | _ => True) :
    Agree l parse alloc tmo limit cmds (Several.step dev limit (hear parse) a x) (Users.step l parse dev alloc tmo room s x) := by
  obtain ⟨i, op⟩ := x
  obtain ⟨d, hi⟩ := h.each i
  have hi := hi.at a.dev
  have hstep : ∃ d', Inv l parse (alloc i) tmo limit cmds (Queue.step dev limit (hear parse) { a.user i with dev := a.dev } op) d'
      (Live.step l parse dev (alloc i) tmo room ((s.user i).at a.dev) op) := by
    cases op with
    | send c => exact ⟨d, inv_send (hroom i) hl ht room hr hi c hx hfresh⟩
    | finish n direct => exact inv_finish (hroom i) hl ht room hparse hi n direct
    | receive n => exact inv_receive (hroom i) hl ht (dev := dev) room hi n
  obtain ⟨d', h'⟩ := hstep
  refine ⟨?_, ?_, ?_⟩
  · simp only [Users.step, Several.step, h.dev]; exact h'.dev
  · simp only [Users.step, Several.step, h.dev, h.log, h'.log, hi.log]
  · intro j
    simp only [Users.step, Several.step, h.dev]
    by_cases e : j = i
    · subst e; simp only [if_true]; exact ⟨d', h'⟩
    · simp only [if_neg e]; exact h.each j

theorem Agree.run {a : Several.State δ (Told S)} {s : Users δ S} (hroom : ∀ i, Room (alloc i) limit cmds) (hl : limit ≤ 2 ^ 31)
    (ht : 0 ≤ tmo ∧ tmo < 2 ^ 32) {room : Nat} (hr : limit ≤ room)
    (hparse : ∀ k q, (dev k q).1.status.toNat / 2 % 2 = 1 → ∃ sn, parse (padded 255 (dev k q).1.sense) = .ok sn)
    (h : Agree l parse alloc tmo limit cmds a s) (ops : List (Nat × Queue.Op)) (hops : ∀ x ∈ ops, Queue.Sends cmds x.2)
    (hnw : Several.NoWrap dev limit (hear parse) a ops) :
    Agree l parse alloc tmo limit cmds (Several.runFrom dev limit (hear parse) a ops) (Users.runFrom l parse dev alloc tmo room s ops) := by
  induction ops generalizing a s with
  | nil => exact h
  | cons x ops ih =>
    exact ih (h.step hroom hl ht hr hparse x (hops x List.mem_cons_self) hnw.1) (fun y hy => hops y (List.mem_cons_of_mem _ hy)) hnw.2

/-- **C85** (partial: no packet number is reused while in use, cf. `C85_false`).  Any number of users with an executer each, on one device,
doing anything in any order: what they observe is what one device explains that executes the accepted commands one after the other, each at
most once; whoever is told about a command is told the device's answer to it in its turn; a command sent after another one was over (whoever
sent it) comes after it; and the device is left as that sequence leaves it. -/
theorem C85_partial (hroom : ∀ i, Room (alloc i) limit cmds) (hl : limit ≤ 2 ^ 31)
    (ht : 0 ≤ tmo ∧ tmo < 2 ^ 32) {room : Nat} (hr : limit ≤ room)
    (hparse : ∀ k q, (dev k q).1.status.toNat / 2 % 2 = 1 → ∃ sn, parse (padded 255 (dev k q).1.sense) = .ok sn)
    (m : Nat → Mem) (k : δ) (ops : List (Nat × Queue.Op)) (hops : ∀ x ∈ ops, Queue.Sends cmds x.2)
    (hnw : Several.NoWrap dev limit (hear parse) (Several.State.init k) ops) :
    let s := Users.runFrom l parse dev alloc tmo room (Users.init limit m k) ops
    ∃ order, Several.Linear dev k (hear parse) s.log order ∧ s.dev = (Several.serial dev k order).2 := by
  intro s
  have h0 : Agree l parse alloc tmo limit cmds (Several.State.init k) (Users.init limit m k) :=
    ⟨rfl, rfl, fun i => ⟨[], inv_init l parse (alloc i) tmo limit cmds (m i) k⟩⟩
  have h := h0.run hroom hl ht hr hparse ops hops hnw
  have hg : Several.Good dev k (hear parse) (Several.runFrom dev limit (hear parse) (Several.State.init k) ops) :=
    Several.good_run k ops
  exact ⟨_, by rw [show s.log = _ from h.log]; exact hg.lin, by rw [show s.dev = _ from h.dev]; exact hg.final⟩

end

/-! ## Users for whom there is no further condition -/

/-- Users that have at most one command outstanding each. -/
theorem noWrap_oneEach {A : Type} (dev : Device δ) (limit : Nat) (hear : Req → Answer → A) (ops : List (Nat × Queue.Op))
    (s : Several.State δ A) (h : Several.OneEach dev limit hear s ops) : Several.NoWrap dev limit hear s ops := by
  induction ops generalizing s with
  | nil => trivial
  | cons x ops ih =>
    obtain ⟨i, op⟩ := x
    refine ⟨?_, ih _ h.2⟩
    cases op with
    | send c =>
      have h1 : (s.user i).tickets = [] := h.1
      intro _ t ht
      rw [h1] at ht
      cases ht
    | finish n direct => trivial
    | receive n => trivial

/-- The outstanding commands of a user are the most recent ones. -/
def Recent {A : Type} (a : Queue.State δ A) : Prop := ∃ b n, a.tickets = List.range' b n ∧ b + n = a.next

theorem recent_step {A : Type} (dev : Device δ) (limit : Nat) (hear : Req → Answer → A) (a : Queue.State δ A) (h : Recent a) (op : Queue.Op)
    (ho : Queue.InOrder op) : Recent (Queue.step dev limit hear a op) := by
  obtain ⟨b, n, htk, hn⟩ := h
  cases op with
  | send c =>
    simp only [Queue.step]
    split
    · exact ⟨b, n, htk, hn⟩
    · refine ⟨b, n + 1, ?_, by simp only; omega⟩
      simp only [Queue.State.tickets, List.map_append, List.map_cons, List.map_nil, ← List.append_assoc]
      simp only [Queue.State.tickets] at htk
      rw [htk, List.range'_concat, ← hn, Nat.one_mul]
  | finish i direct =>
    have hi : i = 0 := ho
    subst hi
    cases hw : a.waiting with
    | nil => simp only [Queue.step, hw, List.getElem?_nil]; exact ⟨b, n, htk, hn⟩
    | cons x r =>
      simp only [Queue.step, hw, List.getElem?_cons_zero, List.eraseIdx_cons_zero]
      refine ⟨b, n, ?_, hn⟩
      simp only [Queue.State.tickets, hw, List.map_cons] at htk
      simp only [Queue.State.tickets, List.map_append, List.map_cons, List.map_nil, List.append_assoc, List.singleton_append]
      exact htk
  | receive i =>
    have hi : i = 0 := ho
    subst hi
    cases hw : a.done with
    | nil =>
      simp only [Queue.step, hw, List.getElem?_nil]
      exact ⟨b, n, by rw [← htk]; simp only [Queue.State.tickets, hw], hn⟩
    | cons x r =>
      simp only [Queue.step, hw, List.getElem?_cons_zero, List.eraseIdx_cons_zero]
      simp only [Queue.State.tickets, hw, List.map_cons, List.cons_append] at htk
      cases n with
      | zero => simp at htk
      | succ n =>
        rw [List.range'_succ] at htk
        simp only [List.cons.injEq] at htk
        refine ⟨b + 1, n, ?_, by simp only; omega⟩
        simp only [Queue.State.tickets]
        exact htk.2

theorem several_noWrap_inOrder {A : Type} (dev : Device δ) (limit : Nat) (hear : Req → Answer → A) (ops : List (Nat × Queue.Op))
    (ho : ∀ x ∈ ops, Queue.InOrder x.2) (s : Several.State δ A) (h : ∀ i, Recent (s.user i)) : Several.NoWrap dev limit hear s ops := by
  induction ops generalizing s with
  | nil => trivial
  | cons x ops ih =>
    obtain ⟨i, op⟩ := x
    have hop : Queue.InOrder op := ho _ List.mem_cons_self
    refine ⟨?_, ih (fun y hy => ho y (List.mem_cons_of_mem _ hy)) _ ?_⟩
    · cases op with
      | send c =>
        obtain ⟨b, n, htk, hn⟩ := h i
        intro hlt t ht
        simp only at hlt ht ⊢
        rw [htk] at hlt ht
        rw [List.length_range'] at hlt
        exact range'_mod hn hlt ht
      | finish n direct => trivial
      | receive n => trivial
    · intro j
      simp only [Several.step]
      split
      · exact recent_step dev limit hear { s.user i with dev := s.dev } (h i) op hop
      · exact h j

section
variable {l : Bool} {parse : Bytes → Py (Option S)} {dev : Device δ} {alloc : Nat → Nat → Alloc} {tmo : Int} {limit : Nat}
  {cmds : Req → Prop}

/-- **C85 for users that wait for each command**: every one of any number of users sends a command only when their previous one is over, as
`call` does.  No further condition. -/
theorem C85_one_each (hroom : ∀ i, Room (alloc i) limit cmds) (hl : limit ≤ 2 ^ 31)
    (ht : 0 ≤ tmo ∧ tmo < 2 ^ 32) {room : Nat} (hr : limit ≤ room)
    (hparse : ∀ k q, (dev k q).1.status.toNat / 2 % 2 = 1 → ∃ sn, parse (padded 255 (dev k q).1.sense) = .ok sn)
    (m : Nat → Mem) (k : δ) (ops : List (Nat × Queue.Op)) (hops : ∀ x ∈ ops, Queue.Sends cmds x.2)
    (h1 : Several.OneEach dev limit (hear parse) (Several.State.init k) ops) :
    let s := Users.runFrom l parse dev alloc tmo room (Users.init limit m k) ops
    ∃ order, Several.Linear dev k (hear parse) s.log order ∧ s.dev = (Several.serial dev k order).2 :=
  C85_partial hroom hl ht hr hparse m k ops hops (noWrap_oneEach dev limit (hear parse) ops _ h1)

/-- **C85 for devices that answer each user in order**; the commands of different users may overtake each other.  No further condition. -/
theorem C85_in_order (hroom : ∀ i, Room (alloc i) limit cmds) (hl : limit ≤ 2 ^ 31)
    (ht : 0 ≤ tmo ∧ tmo < 2 ^ 32) {room : Nat} (hr : limit ≤ room)
    (hparse : ∀ k q, (dev k q).1.status.toNat / 2 % 2 = 1 → ∃ sn, parse (padded 255 (dev k q).1.sense) = .ok sn)
    (m : Nat → Mem) (k : δ) (ops : List (Nat × Queue.Op)) (hops : ∀ x ∈ ops, Queue.Sends cmds x.2)
    (ho : ∀ x ∈ ops, Queue.InOrder x.2) :
    let s := Users.runFrom l parse dev alloc tmo room (Users.init limit m k) ops
    ∃ order, Several.Linear dev k (hear parse) s.log order ∧ s.dev = (Several.serial dev k order).2 :=
  C85_partial hroom hl ht hr hparse m k ops hops (several_noWrap_inOrder dev limit (hear parse) ops ho _ fun _ => ⟨0, 0, rfl, rfl⟩)

end

/-! ## The condition is needed -/

/-- One user is enough: with two commands in flight that finish in the other order, the third is told the answer of the first, which no
order of execution explains (`C67_false`). -/
def overtaken : List (Nat × Queue.Op) :=
  [(0, .send (.read [8, 65] 1)), (0, .send (.read [8, 66] 1)), (0, .finish 1 false), (0, .receive 0), (0, .send (.read [8, 67] 1)),
    (0, .finish 0 false), (0, .receive 0)]

instance : DecidableEq (Queue.Op × Queue.Ev (Told Unit)) := inferInstance

instance : DecidableEq (Several.Entry (Told Unit)) := fun a b => instDecidableEqProd a b

theorem overtaken_log :
    (Users.runFrom true (S := Unit) (fun _ => .ok none) echo (fun _ => pages) 30000 16 (Users.init 2 (fun _ _ => 0) ()) overtaken).log =
      [(0, .send (.read [8, 65] 1), .accepted 0), (0, .send (.read [8, 66] 1), .accepted 1),
        (0, .receive 0, .told 1 ⟨some (some [66]), none⟩), (0, .send (.read [8, 67] 1), .accepted 2),
        (0, .receive 0, .told 2 ⟨some (some [65]), none⟩)] := by
  decide +kernel

theorem echo_serial (k : Unit) (o : List Several.Turn) (i t : Nat) (c : Req) (ans : Answer)
    (h : (i, t, c, ans) ∈ (Several.serial echo k o).1) : (i, t, c) ∈ o ∧ ans = (echo () (asked c)).1 := by
  induction o generalizing k with
  | nil => cases h
  | cons x o ih =>
    obtain ⟨i', t', c'⟩ := x
    simp only [Several.serial, List.mem_cons] at h
    rcases h with h | h
    · simp only [Prod.mk.injEq] at h
      obtain ⟨rfl, rfl, rfl, rfl⟩ := h
      exact ⟨List.mem_cons_self, rfl⟩
    · obtain ⟨h1, h2⟩ := ih _ h
      exact ⟨List.mem_cons_of_mem _ h1, h2⟩

/-- **C85 is false in general** -/
theorem C85_false : ∃ ops : List (Nat × Queue.Op), (∀ x ∈ ops, Queue.Sends Small x.2) ∧
    ¬ ∃ order, Several.Linear echo () (hear (S := Unit) (fun _ => .ok none))
      (Users.runFrom true (S := Unit) (fun _ => .ok none) echo (fun _ => pages) 30000 16 (Users.init 2 (fun _ _ => 0) ()) ops).log order := by
  refine ⟨overtaken, by simp [overtaken, Queue.Sends, Small, dataSize, Req.cdb], ?_⟩
  rintro ⟨order, h⟩
  rw [overtaken_log] at h
  obtain ⟨c, ans, h1, h2⟩ := h.told 0 (.receive 0) 2 ⟨some (some [65]), none⟩ (by simp)
  obtain ⟨h3, h4⟩ := echo_serial () order 0 2 c ans h1
  have h5 := h.sent 0 2 c h3
  simp only [List.mem_cons, Prod.mk.injEq, Queue.Op.send.injEq, Queue.Ev.accepted.injEq, List.not_mem_nil, or_false] at h5
  simp at h5
  subst h5
  rw [h4] at h2
  revert h2
  decide

end Verif.Platform.Linux
