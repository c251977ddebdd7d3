import Verif.Spec.LinkSeveralDisk
import Verif.Props.LinkSeveral
import Verif.Props.SeveralDisk
import Verif.Props.Link
set_option linter.unusedSimpArgs false
set_option linter.unusedSectionVars false
/-!
# C113: what one user has written is what the others read, or they are told that they could not

The device of `C113` is a disk that follows SBC-3 and the commands are those the library builds. Commands that fail may have been carried out in part.
-/

namespace Verif.Commands
open Verif.Executer Verif.Coroutine Verif.ExecuterGen Verif.Platform Verif.Spec Verif.Spec.Disk Verif.Sense
open Verif.Spec.Link (Fault Report unreliable)
open Verif.Spec.LinkSeveral (Ways ways Shown)
open Verif.Spec.LinkQueue (heard)

/-! ## What is heard -/

theorem blank_parses : ∃ sn, getSense (padded 255 []) = .ok sn := by
  have h : (getSense (padded 255 [])).isOk = true := by decide +kernel
  cases hx : getSense (padded 255 []) with
  | ok sn => exact ⟨sn, rfl⟩
  | error e => rw [hx] at h; cases h

theorem heard_fault (c : Req) (f : Fault) (h : Shown f) : ∃ e, heard getSense c ⟨⟨f.status, [], f.data⟩, f.host, f.driver⟩ = ⟨none, some e⟩ := by
  obtain ⟨sn, hsn⟩ := blank_parses
  unfold heard Link.told
  split
  · rename_i d hd
    exfalso
    revert hd
    split
    · rw [hsn]; nofun
    · split
      · rename_i hf
        exact absurd hf h
      · split
        · nofun
        · split <;> nofun
  · exact ⟨_, rfl⟩
  · rename_i h1 h2
    exfalso
    revert h1 h2
    split
    · rw [hsn]; intro _ h2; exact h2 _ rfl
    · split
      · intro h1 _; exact h1 _ rfl
      · split
        · intro _ h2; exact h2 _ rfl
        · split
          · intro _ h2; exact h2 _ rfl
          · intro _ h2; exact h2 _ rfl

theorem heard_fine (c : Req) (ans : Answer) : heard getSense c ⟨ans, 0, 0⟩ = Linux.hear getSense c ans := by
  unfold heard Linux.hear
  rw [Clients.Link.told_fine]
  unfold Platform.outcome
  by_cases h1 : ans.status.toNat / 2 % 2 = 1
  · simp only [if_pos h1]
    cases getSense (padded 255 ans.sense) <;> rfl
  · by_cases h2 : ans.status ≠ 0
    · simp only [if_neg h1, if_pos h2]
    · simp only [if_neg h1, if_neg h2]

/-! ## The blocks -/

theorem readAt_congr {m m' : Contents} {a k : Nat} (h : ∀ x, a ≤ x → x < a + k → m x = m' x) : readAt m a k = readAt m' a k := by
  refine List.map_congr_left fun i hi => h _ (by omega) ?_
  have := List.mem_range.mp hi
  omega

theorem readAt_eq {m m' : Contents} {a k : Nat} (h : readAt m a k = readAt m' a k) (x : Nat) (h1 : a ≤ x) (h2 : x < a + k) : m x = m' x := by
  have := List.map_inj_left.mp h (x - a) (List.mem_range.mpr (by omega))
  rwa [show a + (x - a) = x by omega] at this

/-- What holds of the blocks before and after a command holds when it came only so far. -/
theorem partly_read (g : Geometry) (which : Nat → Bool) {m m' : Contents} {a k : Nat} {data : Bytes} (h : readAt m a k = data) (h' : readAt m' a k = data) :
    readAt (Aborted.partly g which m m') a k = data := by
  rw [← h]
  refine readAt_congr fun x h1 h2 => ?_
  unfold Aborted.partly
  split
  · exact readAt_eq (h'.trans h.symm) x h1 h2
  · rfl

/-- Once the data is in the blocks, it stays there: commands that spare the blocks leave it alone, and so do further attempts to write it. -/
theorem kept {g : Geometry} (hg : Valid g) {q : Req} {op : Disk.Op} {lba n : Nat} {data : Bytes} (hd : data.length = n * g.size) (hin : lba + n ≤ g.blocks)
    (hs : Sent g q op) (hop : op.Spares g lba n ∨ op = .write lba data) (m : Contents) (hm : readAt m (lba * g.size) (n * g.size) = data) :
    readAt (disk g m (asked q)).2 (lba * g.size) (n * g.size) = data := by
  rw [hs.run hg someLib]
  rcases hop with h | rfl
  · obtain ⟨L, c, ha, -⟩ := hs
    rw [run_spared g m lba n op (asks_whole hg.size.1 ha) h, hm]
  · have hk : data.length / g.size = n := by rw [hd, Nat.mul_div_cancel _ hg.size.1]
    simp only [Disk.Op.run, hk, if_pos hin]
    rw [← hd, readAt_writeAt]

theorem ways_kept {g : Geometry} (hg : Valid g) {q : Req} {op : Disk.Op} {lba n : Nat} {data : Bytes} (hd : data.length = n * g.size) (hin : lba + n ≤ g.blocks)
    (hs : Sent g q op) (hop : op.Spares g lba n ∨ op = .write lba data) (i : Nat) (s : Ways) (hm : readAt s.contents (lba * g.size) (n * g.size) = data) :
    readAt (ways g i s (asked q)).2.contents (lba * g.size) (n * g.size) = data := by
  have h := kept hg hd hin hs hop s.contents hm
  simp only [ways, unreliable]
  cases (s.faults i).headD none with
  | none => exact h
  | some f => exact partly_read g f.which hm h

theorem serial_kept {g : Geometry} (hg : Valid g) {lba n : Nat} {data : Bytes} (hd : data.length = n * g.size) (hin : lba + n ≤ g.blocks) (o : List Several.Turn) (s : Ways)
    (h : ∀ i t q, (i, t, q) ∈ o → ∃ op, Sent g q op ∧ (op.Spares g lba n ∨ op = .write lba data)) (hm : readAt s.contents (lba * g.size) (n * g.size) = data) :
    readAt (LinkSeveral.serial (ways g) s o).2.contents (lba * g.size) (n * g.size) = data := by
  induction o generalizing s with
  | nil => exact hm
  | cons x o ih =>
    obtain ⟨i, t, q⟩ := x
    obtain ⟨op, hs, hop⟩ := h i t q List.mem_cons_self
    simp only [LinkSeveral.serial]
    exact ih _ (fun i t q hx => h i t q (List.mem_cons_of_mem _ hx)) (ways_kept hg hd hin hs hop i s hm)

/-- Faults get fewer. -/
theorem serial_faults {g : Geometry} (o : List Several.Turn) (s : Ways) (i : Nat) (f : Fault)
    (h : some f ∈ (LinkSeveral.serial (ways g) s o).2.faults i) : some f ∈ s.faults i := by
  induction o generalizing s with
  | nil => exact h
  | cons x o ih =>
    obtain ⟨j, t, q⟩ := x
    simp only [LinkSeveral.serial] at h
    have h := ih _ h
    have ht : (unreliable g ⟨s.contents, s.faults j⟩ (asked q)).2.faults = (s.faults j).tail := by
      simp only [unreliable]
      cases (s.faults j).headD none <;> rfl
    simp only [ways, ht] at h
    split at h
    · rename_i e
      subst e
      exact List.mem_of_mem_tail h
    · exact h

/-- A command fares as on a disk without faults, or its sender is told an error. -/
theorem ways_heard (g : Geometry) (i : Nat) (s : Ways) (q : Req) (hs : ∀ f, some f ∈ s.faults i → Shown f) :
    (heard getSense q (ways g i s (asked q)).1 = Linux.hear getSense q (disk g s.contents (asked q)).1 ∧
      (ways g i s (asked q)).2.contents = (disk g s.contents (asked q)).2) ∨
    ∃ e, heard getSense q (ways g i s (asked q)).1 = ⟨none, some e⟩ := by
  simp only [ways, unreliable]
  cases hf : (s.faults i).headD none with
  | none => exact .inl ⟨heard_fine _ _, rfl⟩
  | some f =>
    refine .inr (heard_fault q f (hs f ?_))
    cases h : s.faults i with
    | nil => rw [h] at hf; cases hf
    | cons a as => rw [h] at hf; rw [show a = some f from hf]; exact List.mem_cons_self

/-! ## Users -/

theorem linked_at {δ : Type} (dev : Nat → Link.Linked δ) (k : δ) (o p : List Several.Turn) (i t : Nat) (q : Req) :
    (i, t, q, (dev i (LinkSeveral.serial dev k o).2 (asked q)).1) ∈ (LinkSeveral.serial dev k (o ++ (i, t, q) :: p)).1 := by
  rw [LinkSeveral.serial_append]
  exact List.mem_append_right _ List.mem_cons_self

/-- In a sequence without repetition, a command has one report. -/
theorem linked_unique {δ : Type} {dev : Nat → Link.Linked δ} {k : δ} {o : List Several.Turn} (hnd : (o.map Several.Turn.key).Nodup) {i t : Nat} {q q' : Req} {a a' : Report}
    (h : (i, t, q, a) ∈ (LinkSeveral.serial dev k o).1) (h' : (i, t, q', a') ∈ (LinkSeveral.serial dev k o).1) : q = q' ∧ a = a' := by
  have hk : (LinkSeveral.serial dev k o).1.map (fun x => (x.1, x.2.1)) = o.map Several.Turn.key := by
    have := congrArg (List.map Several.Turn.key) (LinkSeveral.serial_keys (dev := dev) k o)
    rw [List.map_map] at this
    exact this
  rw [← hk] at hnd
  obtain ⟨n, hn, e⟩ := List.getElem_of_mem h
  obtain ⟨n', hn', e'⟩ := List.getElem_of_mem h'
  have : ((LinkSeveral.serial dev k o).1.map (fun x => (x.1, x.2.1)))[n]'(by simpa using hn) =
      ((LinkSeveral.serial dev k o).1.map (fun x => (x.1, x.2.1)))[n']'(by simpa using hn') := by
    simp only [List.getElem_map, e, e']
  have := (List.getElem_inj hnd).mp this
  subst this
  rw [e] at e'
  simp only [Prod.mk.injEq, true_and] at e'
  exact e'

/-- The command with a number. -/
theorem linked_accepted {A : Type} {log : List (LinkSeveral.Entry A)} (h : (log.filterMap LinkSeveral.acceptedKey).Nodup) {i t : Nat} {op op' : LinkQueue.Op}
    (h1 : (i, op, .accepted t) ∈ log) (h2 : (i, op', .accepted t) ∈ log) : op = op' := by
  induction log with
  | nil => cases h1
  | cons x l ih =>
    have key : ∀ op, (i, op, LinkQueue.Ev.accepted t) ∈ l → (i, t) ∈ l.filterMap LinkSeveral.acceptedKey :=
      fun op hm => List.mem_filterMap.mpr ⟨_, hm, rfl⟩
    rcases List.mem_cons.mp h1 with e1 | m1 <;> rcases List.mem_cons.mp h2 with e2 | m2
    · rw [← e1] at e2; simp only [Prod.mk.injEq, and_true, true_and] at e2; exact e2.symm
    · subst e1
      rw [List.filterMap_cons] at h
      exact absurd (key _ m2) (List.nodup_cons.mp h).1
    · subst e2
      rw [List.filterMap_cons] at h
      exact absurd (key _ m1) (List.nodup_cons.mp h).1
    · refine ih ?_ m1 m2
      rw [List.filterMap_cons] at h
      cases hx : LinkSeveral.acceptedKey x with
      | none => rw [hx] at h; exact h
      | some y => rw [hx] at h; exact (List.nodup_cons.mp h).2

theorem linked_visible {g : Geometry} (hg : Valid g) {k : Ways} (hk : ∀ i f, some f ∈ k.faults i → Shown f) {log : List (LinkSeveral.Entry (Linux.Told Sense))}
    {order : List Several.Turn} (h : LinkSeveral.Linear (ways g) k (heard getSense) log order) {lba n : Nat} {data : Bytes} (hd : data.length = n * g.size) (hn : 0 < n)
    (hin : lba + n ≤ g.blocks) {i t j u : Nat} {qw qr : Req} {l1 l2 : List (LinkSeveral.Entry (Linux.Told Sense))}
    (hw : Sent g qw (.write lba data)) (hr : Sent g qr (.read lba n))
    (hlog : log = l1 ++ (j, .send qr true, .accepted u) :: l2) (hwrite : (i, .send qw true, .accepted t) ∈ log)
    {opw : LinkQueue.Op} {b : Linux.Told Sense} (hover : (i, opw, .told t b) ∈ l1) (hb : b.exc = none)
    (hrest : ∀ i' t' q, (i', .send q true, .accepted t') ∈ log → (i', t') ≠ (i, t) → ∃ op, Sent g q op ∧ (op.Spares g lba n ∨ op = .write lba data))
    {op : LinkQueue.Op} {a : Linux.Told Sense} (htold : (j, op, .told u a) ∈ log) : a = ⟨some (some data), none⟩ ∨ ∃ e, a = ⟨none, some e⟩ := by
  obtain ⟨q, ans, hser, ha⟩ := h.told j op u a htold
  obtain ⟨qb, ansb, hserb, hbh⟩ := h.told i opw t b (by rw [hlog]; exact List.mem_append_left _ hover)
  have hsent : ∀ {i t q ans}, (i, t, q, ans) ∈ (LinkSeveral.serial (ways g) k order).1 → (i, t, q) ∈ order := by
    intro i t q ans hm
    have := List.mem_map_of_mem (f := fun x : Nat × Nat × Req × Report => (x.1, x.2.1, x.2.2.1)) hm
    rwa [LinkSeveral.serial_keys] at this
  have hread : (j, LinkQueue.Op.send qr true, LinkQueue.Ev.accepted u) ∈ log := by rw [hlog]; simp
  have hq : q = qr := by
    have := linked_accepted h.numbers (h.sent j u q (hsent hser)) hread
    exact (LinkQueue.Op.send.inj this).1
  have hqb : qb = qw := by
    have := linked_accepted h.numbers (h.sent i t qb (hsent hserb)) hwrite
    exact (LinkQueue.Op.send.inj this).1
  subst hq; subst hqb
  obtain ⟨o1, o2, ho, hm1, hm2⟩ := h.time l1 l2 i t j _ u hlog (List.mem_filterMap.mpr ⟨_, hover, rfl⟩) (List.mem_map_of_mem (f := Several.Turn.key) (hsent hser))
  obtain ⟨⟨i', t', qw'⟩, hx1, hk1⟩ := List.mem_map.mp hm1
  obtain ⟨⟨j', u', q'⟩, hx2, hk2⟩ := List.mem_map.mp hm2
  simp only [Several.Turn.key, Prod.mk.injEq] at hk1 hk2
  obtain ⟨rfl, rfl⟩ := hk1
  obtain ⟨rfl, rfl⟩ := hk2
  have hw' : qw' = qb := by
    have := linked_accepted h.numbers (h.sent i' t' qw' (by rw [ho]; exact List.mem_append_left _ hx1)) hwrite
    exact (LinkQueue.Op.send.inj this).1
  have hq' : q' = q := by
    have := linked_accepted h.numbers (h.sent j' u' q' (by rw [ho]; exact List.mem_append_right _ hx2)) hread
    exact (LinkQueue.Op.send.inj this).1
  subst hw'; subst hq'
  obtain ⟨p1, p2, e1⟩ := List.append_of_mem hx1
  obtain ⟨r1, r2, e2⟩ := List.append_of_mem hx2
  have hat := linked_at (ways g) k (o1 ++ r1) r2 j' u' q'
  rw [List.append_assoc, ← e2, ← ho] at hat
  obtain ⟨-, hans⟩ := linked_unique h.once hser hat
  have hatw := linked_at (ways g) k p1 (p2 ++ o2) i' t' qw'
  rw [show p1 ++ (i', t', qw') :: (p2 ++ o2) = order by rw [ho, e1]; simp] at hatw
  obtain ⟨-, hansw⟩ := linked_unique h.once hserb hatw
  -- the others
  have hnd := h.once
  rw [ho, e1, List.append_assoc, List.map_append, List.cons_append, List.map_cons] at hnd
  have hnot := List.nodup_cons.mp (List.nodup_append.mp hnd).2.1
  have hsp : ∀ i'' t'' q, (i'', t'', q) ∈ p2 ++ r1 → ∃ op, Sent g q op ∧ (op.Spares g lba n ∨ op = .write lba data) := by
    intro i'' t'' q hm
    have hmo : (i'', t'', q) ∈ order := by
      rw [ho, e1, e2]
      rcases List.mem_append.mp hm with hm | hm
      · simp [hm]
      · simp [hm]
    refine hrest i'' t'' q (h.sent _ _ _ hmo) ?_
    intro e
    apply hnot.1
    refine List.mem_map.mpr ⟨(i'', t'', q), ?_, e⟩
    rw [e2]
    rcases List.mem_append.mp hm with hm | hm
    · simp [hm]
    · simp [hm]
  -- the write was carried out
  have hdone : readAt (ways g i' (LinkSeveral.serial (ways g) k p1).2 (asked qw')).2.contents (lba * g.size) (n * g.size) = data := by
    rcases ways_heard g i' (LinkSeveral.serial (ways g) k p1).2 qw' (fun f hf => hk i' f (serial_faults p1 k i' f hf)) with ⟨-, h2⟩ | ⟨e, h2⟩
    · rw [h2, hw.run hg someLib]
      have hk : data.length / g.size = n := by rw [hd, Nat.mul_div_cancel _ hg.size.1]
      simp only [Disk.Op.run, hk, if_pos hin]
      rw [← hd, readAt_writeAt]
    · rw [hbh, hansw, h2] at hb
      cases hb
  have hcont : readAt (LinkSeveral.serial (ways g) k (o1 ++ r1)).2.contents (lba * g.size) (n * g.size) = data := by
    rw [e1, List.append_assoc, List.cons_append, LinkSeveral.serial_append]
    simp only [LinkSeveral.serial]
    exact serial_kept hg hd hin (p2 ++ r1) _ hsp hdone
  rcases ways_heard g j' (LinkSeveral.serial (ways g) k (o1 ++ r1)).2 q' (fun f hf => hk j' f (serial_faults _ k j' f hf)) with ⟨h1, -⟩ | ⟨e, h1⟩
  · left
    rw [ha, hans, h1, hr.read hg someLib _ hn hin, hcont]
  · right
    exact ⟨e, by rw [ha, hans, h1]⟩

theorem ways_parses (g : Geometry) (i : Nat) (k : Ways) (q : OsRequest) (h : (ways g i k q).1.HasSense) :
    ∃ sn, getSense (padded 255 (ways g i k q).1.answer.sense) = .ok sn := Clients.Link.unreliable_parses g _ q h

/-- **C113 on a disk**: once a write was over without an error, a read of its blocks that is sent after that, whoever sent the two and on whichever way, is told the data written or an
error, if all other commands of all users leave the blocks alone or write the same data to them (as attempts that failed do, whether they came to nothing or were carried out in part). Users
wait for each command, or the device answers each of them in order and the drivers take every command. -/
theorem C113_visible (l : Bool) {g : Geometry} (hg : Valid g) (alloc : Nat → Nat → Alloc) (tmo : Int) (limit room : Nat) (cmds : Req → Prop)
    (hroom : ∀ i, Linux.Room (alloc i) limit cmds) (hl : limit ≤ 2 ^ 31) (ht : 0 ≤ tmo ∧ tmo < 2 ^ 32) (hlr : limit ≤ room)
    (mem : Nat → Mem) (k : Ways) (hk : ∀ i f, some f ∈ k.faults i → Shown f) (ops : List (Nat × LinkQueue.Op)) (hops : ∀ x ∈ ops, LinkQueue.Sends cmds x.2)
    (hone : LinkSeveral.OneEach (ways g) limit (heard getSense) (LinkSeveral.State.init k) ops ∨ ∀ x ∈ ops, LinkQueue.InOrder x.2 ∧ LinkQueue.Takes x.2)
    {lba n : Nat} {data : Bytes} (hd : data.length = n * g.size) (hn : 0 < n) (hin : lba + n ≤ g.blocks) {i t j u : Nat} {qw qr : Req}
    (hw : Sent g qw (.write lba data)) (hr : Sent g qr (.read lba n)) :
    let s := Linux.Linked.Users.runFrom l getSense (ways g) alloc tmo room (Linux.Linked.Users.init limit mem k) ops
    ∀ l1 l2 opw b op a, s.log = l1 ++ (j, .send qr true, .accepted u) :: l2 → (i, .send qw true, .accepted t) ∈ s.log → (i, opw, .told t b) ∈ l1 → b.exc = none →
      (∀ i' t' q, (i', .send q true, .accepted t') ∈ s.log → (i', t') ≠ (i, t) → ∃ op, Sent g q op ∧ (op.Spares g lba n ∨ op = .write lba data)) →
      (j, op, .told u a) ∈ s.log → a = ⟨some (some data), none⟩ ∨ ∃ e, a = ⟨none, some e⟩ := by
  intro s l1 l2 opw b op a hlog hwrite hover hb hrest htold
  have h : ∃ order, LinkSeveral.Linear (ways g) k (heard getSense) s.log order ∧ s.dev = (LinkSeveral.serial (ways g) k order).2 := by
    rcases hone with h1 | h1
    · exact Linux.Linked.C113_one_each hroom hl ht hlr (ways_parses g) mem k ops hops h1
    · exact Linux.Linked.C113_in_order hroom hl ht hlr (ways_parses g) mem k ops hops (fun x hx => (h1 x hx).1) (fun x hx => (h1 x hx).2)
  obtain ⟨order, h, -⟩ := h
  exact linked_visible hg hk h hd hn hin hw hr hlog hwrite hover hb hrest htold

/-! ## The hypotheses can be met -/

/-- The command is reported as failed (`DID_NO_CONNECT`), though it was carried out. -/
def lostReport : Fault := ⟨0, 1, 0, [], fun _ => true⟩

/-- Two users. What the first writes, at the second attempt, the second reads, at the second attempt. -/
def secondAttempt : List (Nat × LinkQueue.Op) :=
  [(0, .send (.write [0x2A, 0, 0, 0, 0, 5, 0, 0, 1, 0] [1, 2, 3, 4]) true), (0, .finish 0 false), (0, .receive 0),
    (0, .send (.write [0x2A, 0, 0, 0, 0, 5, 0, 0, 1, 0] [1, 2, 3, 4]) true), (0, .finish 0 false), (0, .receive 0),
    (1, .send (.read [0x28, 0, 0, 0, 0, 5, 0, 0, 1, 0] 4) true), (1, .finish 0 true), (1, .receive 0),
    (1, .send (.read [0x28, 0, 0, 0, 0, 5, 0, 0, 1, 0] 4) true), (1, .finish 0 true), (1, .receive 0)]

/-- The first command of each of the two is lost. -/
def rough : Ways := ⟨fun _ => 0, fun i => if i < 2 then [some lostReport] else []⟩

instance : DecidableEq (LinkQueue.Op × LinkQueue.Ev (Linux.Told Sense)) := inferInstance

instance : DecidableEq (LinkSeveral.Entry (Linux.Told Sense)) := fun a b => instDecidableEqProd a b

theorem secondAttempt_log :
    (Linux.Linked.Users.runFrom true getSense (ways ⟨4, 8⟩) (fun _ => Linux.pages) 30000 16 (Linux.Linked.Users.init 16 (fun _ _ => 0) rough) secondAttempt).log =
      [(0, .send (.write [0x2A, 0, 0, 0, 0, 5, 0, 0, 1, 0] [1, 2, 3, 4]) true, .accepted 0), (0, .receive 0, .told 0 ⟨none, some .scsi⟩),
        (0, .send (.write [0x2A, 0, 0, 0, 0, 5, 0, 0, 1, 0] [1, 2, 3, 4]) true, .accepted 1), (0, .receive 0, .told 1 ⟨some none, none⟩),
        (1, .send (.read [0x28, 0, 0, 0, 0, 5, 0, 0, 1, 0] 4) true, .accepted 0), (1, .receive 0, .told 0 ⟨none, some .scsi⟩),
        (1, .send (.read [0x28, 0, 0, 0, 0, 5, 0, 0, 1, 0] 4) true, .accepted 1), (1, .receive 0, .told 1 ⟨some (some [1, 2, 3, 4]), none⟩)] := by
  decide +kernel

/-- `C113_visible` applies to it. -/
example (a : Linux.Told Sense) (h : (1, .receive 0, .told 1 a) ∈ (Linux.Linked.Users.runFrom true getSense (ways ⟨4, 8⟩) (fun _ => Linux.pages) 30000 16
    (Linux.Linked.Users.init 16 (fun _ _ => 0) rough) secondAttempt).log) : a = ⟨some (some [1, 2, 3, 4]), none⟩ ∨ ∃ e, a = ⟨none, some e⟩ :=
  C113_visible true (g := ⟨4, 8⟩) ⟨by decide, by decide⟩ (fun _ => Linux.pages) 30000 16 16 Linux.Small (fun _ => Linux.pages_room 16 (by decide)) (by decide)
    (by decide) (by decide) (fun _ _ => 0) rough
    (by
      intro i f hf
      simp only [rough] at hf
      split at hf
      · rw [List.mem_singleton] at hf
        cases hf
        simp [Shown, lostReport]
      · cases hf)
    secondAttempt (by simp [secondAttempt, LinkQueue.Sends, Linux.Small, dataSize, Req.cdb])
    (.inr (by simp [secondAttempt, LinkQueue.InOrder, LinkQueue.Takes])) (lba := 5) (n := 1) (data := [1, 2, 3, 4]) (i := 0) (t := 1) (j := 1) (u := 1)
    (by decide) (by decide) (by decide) write_sent read_sent [_, _, _, _, _, _] [_] (.receive 0) ⟨some none, none⟩ (.receive 0) a secondAttempt_log
    (by rw [secondAttempt_log]; simp) (by simp) rfl
    (by
      intro i' t' q hm hne
      rw [secondAttempt_log] at hm
      simp only [List.mem_cons, Prod.mk.injEq, LinkQueue.Op.send.injEq, LinkQueue.Ev.accepted.injEq, List.not_mem_nil, or_false, reduceCtorEq, false_and, and_false, false_or] at hm
      rcases hm with ⟨rfl, ⟨rfl, -⟩, rfl⟩ | ⟨rfl, ⟨rfl, -⟩, rfl⟩ | ⟨rfl, ⟨rfl, -⟩, rfl⟩ | ⟨rfl, ⟨rfl, -⟩, rfl⟩
      · exact ⟨_, write_sent, .inr rfl⟩
      · exact absurd rfl hne
      · exact ⟨_, read_sent, .inl trivial⟩
      · exact ⟨_, read_sent, .inl trivial⟩)
    h

end Verif.Commands
