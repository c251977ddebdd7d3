import Verif.Props.Several
import Verif.Props.Disk
import Verif.Recorded
set_option linter.unusedSimpArgs false
set_option linter.unusedSectionVars false
/-!
# C85: what one user has written is what the others read

The device of `C85` is a disk that follows SBC-3 and the commands are those the library builds.
-/

namespace Verif.Commands
open Verif.Executer Verif.Coroutine Verif.ExecuterGen Verif.Platform Verif.Spec Verif.Spec.Disk Verif.Sense

/-- A request that a command object for the operation hands to its executer. -/
def Sent (g : Geometry) (q : Req) (op : Disk.Op) : Prop := ∃ L c, Asks g c op ∧ Cdb.request L c.cdb = .ok q

theorem Sent.run {g : Geometry} (hg : Valid g) {q : Req} {op : Disk.Op} (B : Parse.BufLib) (h : Sent g q op) (m : Contents) :
    (disk g m (asked q)).2 = (op.run g m).2 := by
  obtain ⟨L, c, ha, hq⟩ := h
  obtain ⟨q', h1, h2, -⟩ := step L B (fun _ => .ok []) m hg outcome_delivers ha
  have h1 : Cdb.request L c.cdb = .ok q' := h1
  rw [hq] at h1
  cases h1
  exact h2

theorem Sent.read {g : Geometry} (hg : Valid g) {q : Req} {lba n : Nat} (B : Parse.BufLib) (h : Sent g q (.read lba n)) (m : Contents) (hn : 0 < n)
    (hin : lba + n ≤ g.blocks) :
    Linux.hear getSense q (disk g m (asked q)).1 = ⟨some (some (readAt m (lba * g.size) (n * g.size))), none⟩ := by
  obtain ⟨L, c, ha, hq⟩ := h
  obtain ⟨q', h1, -, h3⟩ := step L B (fun _ => .ok []) m hg outcome_delivers ha
  have h1 : Cdb.request L c.cdb = .ok q' := h1
  rw [hq] at h1
  cases h1
  have hne : readAt m (lba * g.size) (n * g.size) ≠ [] := by
    intro h0
    have h1 := readAt_length m (lba * g.size) (n * g.size)
    rw [h0] at h1
    have := Nat.mul_pos hn hg.size.1
    simp at h1
    omega
  simp only [Disk.Op.run, if_pos hin, Shows, hne, if_false] at h3
  generalize (disk g m (asked q)).1 = ans at h3 ⊢
  generalize readAt m (lba * g.size) (n * g.size) = d at h3 ⊢
  have hdec : ∀ x, c.decode B (fun _ => .ok []) x = .ok (.raw x) := by
    cases ha <;> intro x <;> rfl
  unfold Platform.outcome at h3
  unfold Linux.hear
  by_cases c1 : ans.status.toNat / 2 % 2 = 1
  · simp only [c1, if_true] at h3
    cases hgs : getSense (padded 255 ans.sense) <;> rw [hgs] at h3 <;> cases h3
  · by_cases c2 : ans.status ≠ 0
    · rw [if_neg c1, if_pos c2] at h3; cases h3
    · rw [if_neg c1, if_neg c2] at h3 ⊢
      simp [decoded, Cmd.command, hdec] at h3
      rw [h3]

/-- The structure library plays no part: one that exists. -/
def someLib : Parse.BufLib := Recorded.lib false false true

/-- Commands that spare the blocks leave their contents alone. -/
theorem serial_spared {g : Geometry} (hg : Valid g) (lba n : Nat) (o : List Several.Turn) (m : Contents)
    (h : ∀ i t q, (i, t, q) ∈ o → ∃ op, Sent g q op ∧ op.Spares g lba n) :
    readAt (Several.serial (disk g) m o).2 (lba * g.size) (n * g.size) = readAt m (lba * g.size) (n * g.size) := by
  induction o generalizing m with
  | nil => rfl
  | cons x o ih =>
    obtain ⟨i, t, q⟩ := x
    obtain ⟨op, hs, hsp⟩ := h i t q List.mem_cons_self
    simp only [Several.serial]
    rw [ih _ fun i t q hm => h i t q (List.mem_cons_of_mem _ hm), hs.run hg someLib]
    obtain ⟨L, c, ha, -⟩ := hs
    exact run_spared g m lba n op (asks_whole hg.size.1 ha) hsp

theorem serial_at {δ : Type} (dev : Device δ) (k : δ) (o p : List Several.Turn) (i t : Nat) (q : Req) :
    (i, t, q, (dev (Several.serial dev k o).2 (asked q)).1) ∈ (Several.serial dev k (o ++ (i, t, q) :: p)).1 := by
  rw [Several.serial_append]
  exact List.mem_append_right _ List.mem_cons_self

/-- In a sequence without repetition, a command has one answer. -/
theorem serial_unique {δ : Type} {dev : Device δ} {k : δ} {o : List Several.Turn} (hnd : (o.map Several.Turn.key).Nodup) {i t : Nat} {q q' : Req} {a a' : Answer}
    (h : (i, t, q, a) ∈ (Several.serial dev k o).1) (h' : (i, t, q', a') ∈ (Several.serial dev k o).1) : q = q' ∧ a = a' := by
  have hk : (Several.serial dev k o).1.map (fun x => (x.1, x.2.1)) = o.map Several.Turn.key := by
    have := congrArg (List.map Several.Turn.key) (Several.serial_keys (dev := dev) k o)
    rw [List.map_map] at this
    exact this
  rw [← hk] at hnd
  obtain ⟨n, hn, e⟩ := List.getElem_of_mem h
  obtain ⟨n', hn', e'⟩ := List.getElem_of_mem h'
  have : ((Several.serial dev k o).1.map (fun x => (x.1, x.2.1)))[n]'(by simpa using hn) =
      ((Several.serial dev k o).1.map (fun x => (x.1, x.2.1)))[n']'(by simpa using hn') := by
    simp only [List.getElem_map, e, e']
  have := (List.getElem_inj hnd).mp this
  subst this
  rw [e] at e'
  simp only [Prod.mk.injEq, true_and] at e'
  exact e'

/-- The command with a number. -/
theorem accepted_unique {A : Type} {log : List (Several.Entry A)} (h : (log.filterMap Several.acceptedKey).Nodup) {i t : Nat} {op op' : Queue.Op}
    (h1 : (i, op, .accepted t) ∈ log) (h2 : (i, op', .accepted t) ∈ log) : op = op' := by
  induction log with
  | nil => cases h1
  | cons x l ih =>
    have key : ∀ op, (i, op, Queue.Ev.accepted t) ∈ l → (i, t) ∈ l.filterMap Several.acceptedKey :=
      fun op hm => List.mem_filterMap.mpr ⟨_, hm, rfl⟩
    rcases List.mem_cons.mp h1 with e1 | m1 <;> rcases List.mem_cons.mp h2 with e2 | m2
    · rw [← e1] at e2; simp only [Prod.mk.injEq, and_true, true_and] at e2; exact e2.symm
    · subst e1
      rw [List.filterMap_cons] at h
      exact absurd (key _ m2) (List.nodup_cons.mp h).1
    · subst e2
      rw [List.filterMap_cons] at h
      exact absurd (key _ m1) (List.nodup_cons.mp h).1
    · refine ih ?_ m1 m2
      rw [List.filterMap_cons] at h
      cases hx : Several.acceptedKey x with
      | none => rw [hx] at h; exact h
      | some y => rw [hx] at h; exact (List.nodup_cons.mp h).2

/-- Whenever the observations of users are explained by one order of execution, a read of blocks that was sent after the write of
those blocks was over, by whomever, is told the data written, provided that no other command of any user touches the blocks. -/
theorem linear_visible {g : Geometry} (hg : Valid g) {m : Contents} {log : List (Several.Entry (Linux.Told Sense))} {order : List Several.Turn}
    (h : Several.Linear (disk g) m (Linux.hear getSense) log order) {lba n : Nat} {data : Bytes} (hd : data.length = n * g.size) (hn : 0 < n)
    (hin : lba + n ≤ g.blocks) {i t j u : Nat} {qw qr : Req} {l1 l2 : List (Several.Entry (Linux.Told Sense))}
    (hw : Sent g qw (.write lba data)) (hr : Sent g qr (.read lba n))
    (hlog : log = l1 ++ (j, .send qr, .accepted u) :: l2) (hwrite : (i, .send qw, .accepted t) ∈ log) (hover : (i, t) ∈ l1.filterMap Several.toldKey)
    (hrest : ∀ i' t' q, (i', .send q, .accepted t') ∈ log → (i', t') ≠ (i, t) → ∃ op, Sent g q op ∧ op.Spares g lba n)
    {op : Queue.Op} {a : Linux.Told Sense} (htold : (j, op, .told u a) ∈ log) : a = ⟨some (some data), none⟩ := by
  obtain ⟨q, ans, hser, ha⟩ := h.told j op u a htold
  have hsent : ∀ {i t q ans}, (i, t, q, ans) ∈ (Several.serial (disk g) m order).1 → (i, t, q) ∈ order := by
    intro i t q ans hm
    have := List.mem_map_of_mem (f := fun x : Nat × Nat × Req × Answer => (x.1, x.2.1, x.2.2.1)) hm
    rwa [Several.serial_keys] at this
  have hread : (j, Queue.Op.send qr, Queue.Ev.accepted u) ∈ log := by rw [hlog]; simp
  have hq : q = qr := by
    have := accepted_unique h.numbers (h.sent j u q (hsent hser)) hread
    exact Queue.Op.send.inj this
  subst hq
  obtain ⟨o1, o2, ho, hm1, hm2⟩ := h.time l1 l2 i t j _ u hlog hover (List.mem_map_of_mem (f := Several.Turn.key) (hsent hser))
  obtain ⟨⟨i', t', qw'⟩, hx1, hk1⟩ := List.mem_map.mp hm1
  obtain ⟨⟨j', u', q'⟩, hx2, hk2⟩ := List.mem_map.mp hm2
  simp only [Several.Turn.key, Prod.mk.injEq] at hk1 hk2
  obtain ⟨rfl, rfl⟩ := hk1
  obtain ⟨rfl, rfl⟩ := hk2
  have hw' : qw' = qw := by
    have := accepted_unique h.numbers (h.sent i' t' qw' (by rw [ho]; exact List.mem_append_left _ hx1)) hwrite
    exact Queue.Op.send.inj this
  have hq' : q' = q := by
    have := accepted_unique h.numbers (h.sent j' u' q' (by rw [ho]; exact List.mem_append_right _ hx2)) hread
    exact Queue.Op.send.inj this
  subst hw'; subst hq'
  obtain ⟨p1, p2, e1⟩ := List.append_of_mem hx1
  obtain ⟨r1, r2, e2⟩ := List.append_of_mem hx2
  have hat := serial_at (disk g) m (o1 ++ r1) r2 j' u' q'
  rw [List.append_assoc, ← e2, ← ho] at hat
  obtain ⟨-, hans⟩ := serial_unique h.once hser hat
  -- the others spare the blocks
  have hnd := h.once
  rw [ho, e1, List.append_assoc, List.map_append, List.cons_append, List.map_cons] at hnd
  have hnot := List.nodup_cons.mp (List.nodup_append.mp hnd).2.1
  have hsp : ∀ i'' t'' q, (i'', t'', q) ∈ p2 ++ r1 → ∃ op, Sent g q op ∧ op.Spares g lba n := by
    intro i'' t'' q hm
    have hmo : (i'', t'', q) ∈ order := by
      rw [ho, e1, e2]
      rcases List.mem_append.mp hm with hm | hm
      · simp [hm]
      · simp [hm]
    refine hrest i'' t'' q (h.sent _ _ _ hmo) ?_
    intro e
    apply hnot.1
    refine List.mem_map.mpr ⟨(i'', t'', q), ?_, e⟩
    rw [e2]
    rcases List.mem_append.mp hm with hm | hm
    · simp [hm]
    · simp [hm]
  have hcont : readAt (Several.serial (disk g) m (o1 ++ r1)).2 (lba * g.size) (n * g.size) = data := by
    rw [e1, List.append_assoc, List.cons_append, Several.serial_append]
    simp only [Several.serial]
    rw [serial_spared hg lba n _ _ hsp, hw.run hg someLib]
    have hk : data.length / g.size = n := by rw [hd, Nat.mul_div_cancel _ hg.size.1]
    simp only [Disk.Op.run, hk, if_pos hin]
    rw [← hd, readAt_writeAt]
  rw [ha, hans, hr.read hg someLib _ hn hin, hcont]

/-- **C85 on a disk**: a read of blocks that was sent after the write of those blocks was over is told the data written, whoever sent the two, if no
other command of any user touches the blocks.  Users have one command outstanding each, or the device answers each of them in order. -/
theorem C85_visible (l : Bool) {g : Geometry} (hg : Valid g) (alloc : Nat → Nat → Alloc) (tmo : Int) (limit room : Nat) (cmds : Req → Prop)
    (hroom : ∀ i, Linux.Room (alloc i) limit cmds) (hl : limit ≤ 2 ^ 31) (ht : 0 ≤ tmo ∧ tmo < 2 ^ 32) (hlr : limit ≤ room)
    (mem : Nat → Mem) (m : Contents) (ops : List (Nat × Queue.Op)) (hops : ∀ x ∈ ops, Queue.Sends cmds x.2)
    (hone : Several.OneEach (disk g) limit (Linux.hear getSense) (Several.State.init m) ops ∨ ∀ x ∈ ops, Queue.InOrder x.2)
    {lba n : Nat} {data : Bytes} (hd : data.length = n * g.size) (hn : 0 < n) (hin : lba + n ≤ g.blocks) {i t j u : Nat} {qw qr : Req}
    (hw : Sent g qw (.write lba data)) (hr : Sent g qr (.read lba n)) :
    let s := Linux.Users.runFrom l getSense (disk g) alloc tmo room (Linux.Users.init limit mem m) ops
    ∀ l1 l2 op a, s.log = l1 ++ (j, .send qr, .accepted u) :: l2 → (i, .send qw, .accepted t) ∈ s.log → (i, t) ∈ l1.filterMap Several.toldKey →
      (∀ i' t' q, (i', .send q, .accepted t') ∈ s.log → (i', t') ≠ (i, t) → ∃ op, Sent g q op ∧ op.Spares g lba n) →
      (j, op, .told u a) ∈ s.log → a = ⟨some (some data), none⟩ := by
  intro s l1 l2 op a hlog hwrite hover hrest htold
  have hparse : ∀ k q, (disk g k q).1.status.toNat / 2 % 2 = 1 → ∃ sn, getSense (padded 255 (disk g k q).1.sense) = .ok sn := by
    intro k q hs
    refine disk_parses g k q ?_
    intro h0
    rw [h0] at hs
    simp at hs
  have h : ∃ order, Several.Linear (disk g) m (Linux.hear getSense) s.log order ∧ s.dev = (Several.serial (disk g) m order).2 := by
    rcases hone with h1 | h1
    · exact Linux.C85_one_each hroom hl ht hlr hparse mem m ops hops h1
    · exact Linux.C85_in_order hroom hl ht hlr hparse mem m ops hops h1
  obtain ⟨order, h, -⟩ := h
  exact linear_visible hg h hd hn hin hw hr hlog hwrite hover hrest htold

/-! ## The hypotheses can be met -/

/-- Two users; what the first writes the second reads. -/
def handOver : List (Nat × Queue.Op) :=
  [(0, .send (.write [0x2A, 0, 0, 0, 0, 5, 0, 0, 1, 0] [1, 2, 3, 4])), (0, .finish 0 false), (0, .receive 0),
    (1, .send (.read [0x28, 0, 0, 0, 0, 5, 0, 0, 1, 0] 4)), (1, .finish 0 true), (1, .receive 0)]

instance : DecidableEq (Queue.Op × Queue.Ev (Linux.Told Sense)) := inferInstance

instance : DecidableEq (Several.Entry (Linux.Told Sense)) := fun a b => instDecidableEqProd a b

theorem handOver_log :
    (Linux.Users.runFrom true getSense (disk ⟨4, 8⟩) (fun _ => Linux.pages) 30000 16 (Linux.Users.init 16 (fun _ _ => 0) fun _ => 0) handOver).log =
      [(0, .send (.write [0x2A, 0, 0, 0, 0, 5, 0, 0, 1, 0] [1, 2, 3, 4]), .accepted 0), (0, .receive 0, .told 0 ⟨some none, none⟩),
        (1, .send (.read [0x28, 0, 0, 0, 0, 5, 0, 0, 1, 0] 4), .accepted 0), (1, .receive 0, .told 0 ⟨some (some [1, 2, 3, 4]), none⟩)] := by
  decide +kernel

theorem write_sent : Sent ⟨4, 8⟩ (.write [0x2A, 0, 0, 0, 0, 5, 0, 0, 1, 0] [1, 2, 3, 4]) (.write 5 [1, 2, 3, 4]) :=
  ⟨.strict, .write10 5 [1, 2, 3, 4] 4, .write10 (n := 1) (by decide) (by decide) (by decide), by decide +kernel⟩

theorem read_sent : Sent ⟨4, 8⟩ (.read [0x28, 0, 0, 0, 0, 5, 0, 0, 1, 0] 4) (.read 5 1) :=
  ⟨.strict, .read10 5 1 4, .read10 (by decide) (by decide), by decide +kernel⟩

/-- `C85_visible` applies to it. -/
example (a : Linux.Told Sense) (h : (1, .receive 0, .told 0 a) ∈ (Linux.Users.runFrom true getSense (disk ⟨4, 8⟩) (fun _ => Linux.pages) 30000 16
    (Linux.Users.init 16 (fun _ _ => 0) fun _ => 0) handOver).log) : a = ⟨some (some [1, 2, 3, 4]), none⟩ :=
  C85_visible true (g := ⟨4, 8⟩) ⟨by decide, by decide⟩ (fun _ => Linux.pages) 30000 16 16 Linux.Small (fun _ => Linux.pages_room 16 (by decide)) (by decide)
    (by decide) (by decide) (fun _ _ => 0) (fun _ => 0) handOver (by simp [handOver, Queue.Sends, Linux.Small, dataSize, Req.cdb])
    (.inr (by simp [handOver, Queue.InOrder])) (lba := 5) (n := 1) (data := [1, 2, 3, 4]) (i := 0) (t := 0) (j := 1) (u := 0) (by decide) (by decide) (by decide)
    write_sent read_sent [_, _] [_] (.receive 0) a handOver_log (by rw [handOver_log]; simp) (by simp [Several.toldKey])
    (by
      intro i' t' q hm hne
      rw [handOver_log] at hm
      simp only [List.mem_cons, Prod.mk.injEq, Queue.Op.send.injEq, Queue.Ev.accepted.injEq, List.not_mem_nil, or_false] at hm
      rcases hm with ⟨rfl, rfl, rfl⟩ | ⟨-, h, -⟩ | ⟨rfl, rfl, rfl⟩ | ⟨-, h, -⟩
      · exact absurd rfl hne
      · cases h
      · exact ⟨_, read_sent, trivial⟩
      · cases h)
    h

end Verif.Commands
