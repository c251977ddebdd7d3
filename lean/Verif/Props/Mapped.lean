import Verif.Spec.Mapped
import Verif.Props.LinuxDevice
import Verif.Props.Disk
/-!
# C66: a disk behind the device mapper (`linux_dm`)

`create_platform_command_executer(..., "linux_dm")` gives the executer that passes the header to `ioctl(SG_IO)` and afterwards reads its own copy
of the header (linux.py:279-293).
-/
set_option linter.unusedSimpArgs false
set_option linter.unusedSectionVars false

namespace Verif.Platform.Linux
open Verif.Executer Verif.Spec

variable {S κ δ K : Type}

/-- `ioctl(SG_IO)` in front of a device: the header is decoded, the command is run, data and sense are stored through the header's pointers, and
the kernel's copy of the header gets the SCSI status. -/
def ioctlDevice (l : Bool) (dev : Device δ) : IoctlDriver δ :=
  { ioctl := fun raw w =>
      match sgView l raw w.mem with
      | none => (.error .ioError, w)
      | some req =>
        let r := dev w.kernel req
        let m := writeMem w.mem (word l raw 16 8) (r.1.data.take req.fromDevice)
        let m := writeMem m (sgSensePtr l raw) (r.1.sense.take req.senseRoom)
        (.ok (splice raw 64 [r.1.status]), { mem := m, kernel := r.2 }) }

/-- **C66 (one command)**: the device is asked exactly what the command asks, once; the caller gets the data the device sent, padded with zeros,
whatever status the device gave. -/
theorem C66_ioctl (l : Bool) (parse : Bytes → Py (Option S)) (dev : Device δ) (alloc : Nat → Alloc) (t : Int) (c : Req)
    (s : St Handle (Option K)) (m : Mem) (k : δ) (old : Option Bytes) (hs : s.pending = []) (hq : 0 < s.maxq) (hidx : s.index < 2 ^ 31)
    (hcdb : c.cdb.length ≤ 255) (hd : dataSize c < 2 ^ 32) (ht : 0 ≤ t ∧ t < 2 ^ 32)
    (hsep : Separate 64 [((alloc s.index).block, 88), ((alloc s.index).sense, 255), ((alloc s.index).cmd, c.cdb.length),
      ((alloc s.index).data, dataSize c)]) :
    let r := ioctlCall l parse (ioctlDevice l dev) alloc t c s { world := { mem := m, kernel := k }, buffer := old }
    r.out = .ok (some (delivered c (dev k (asked c)).1)) ∧ r.os.world.kernel = (dev k (asked c)).2 ∧
      r.st = { s with index := (s.index + 1) % s.maxq } := by
  intro r
  have hap := handle_apart l (alloc s.index) s.index c t hsep
  have hb := hsep.2
  simp only [List.mem_cons, List.not_mem_nil, or_false, forall_eq_or_imp, forall_eq] at hb
  obtain ⟨-, hb2, hb3, hb4⟩ := hb
  have hf := create_fields l (alloc s.index) s.index c t hidx hcdb hd ht hb2 hb3 hb4
  obtain ⟨hv, hpk, -, hsp⟩ := C18_linux l (alloc s.index) s.index c t m hidx hcdb hd ht hsep
  have hdata : ∀ n cdb, c = .read cdb n → n > 0 →
      (create (lp64 l) (alloc s.index) s.index c t).data = some ((alloc s.index).data, zeros n.toNat) := by
    intro n cdb hc hn
    rw [create_data, hc, bufOf, if_pos hn]
  have hcd := create_data (lp64 l) (alloc s.index) s.index c t
  have hin := fun x d h => install_data hap m (x := x) (d := d) h
  have hib := install_block (create (lp64 l) (alloc s.index) s.index c t) m
  have hr : r = call (prepare (lp64 l) alloc t c) (ioctlSend (ioctlDevice l dev)) (ioctlReceive (lp64 l) parse) s
    { world := { mem := m, kernel := k }, buffer := old } := rfl
  rw [call_idle _ _ _ s _ hs hq _ (show prepare (lp64 l) alloc t c s.index = .ok _ from rfl)] at hr
  have hba := create_blockAddr (lp64 l) (alloc s.index) s.index c t
  generalize create (lp64 l) (alloc s.index) s.index c t = h at *
  generalize alloc s.index = al at *
  have hsend : ioctlSend (ioctlDevice l dev) h { world := { mem := m, kernel := k }, buffer := old } =
      (.ok (), ⟨⟨writeMem (writeMem (h.install m) (word l h.block 16 8) ((dev k (asked c)).1.data.take (asked c).fromDevice))
        al.sense ((dev k (asked c)).1.sense.take 255), (dev k (asked c)).2⟩, some h.block⟩) := by
    simp only [ioctlSend, ioctlDevice]
    rw [hv]
    simp only [hsp]
    cases c <;> rfl
  rw [hsend] at hr
  simp only [ioctlReceive] at hr
  have e1 : sgStatus h.block = 0 := by rw [sgStatus, ← word_one l, word_lp64, hf.status]; rfl
  have e2 : sgHostStatus l h.block = 0 := by rw [sgHostStatus, word_lp64, hf.host]; rfl
  have e3 : sgDriverStatus l h.block = 0 := by rw [sgDriverStatus, word_lp64, hf.driver]; rfl
  have e4 : sgPackId l h.block = s.index := by rw [sgPackId, sword_lp64, hf.packId]
  rw [handle_eq l parse _ _ _ (by rw [hf.len]; omega), e1, e2, e3, e4] at hr
  generalize (dev k (asked c)).1 = ans at *
  generalize (dev k (asked c)).2 = k' at *
  obtain ⟨hp, -⟩ := hsep
  simp only [List.pairwise_cons, List.mem_cons, List.not_mem_nil, or_false, forall_eq_or_imp, forall_eq] at hp
  obtain ⟨⟨h1, h2, h3⟩, ⟨h4, h5⟩, h6, -⟩ := hp
  have hptr : word l h.block 16 8 = al.data ∨ (asked c).fromDevice = 0 := by
    rw [word_lp64, hf.dataPtr]
    cases c with
    | read cdb n =>
      by_cases hn : n > 0
      · left; simp [dirOf, hn]
      · right; simp only [asked]; omega
    | write cdb d => right; rfl
  have hM : ∃ M, M = writeMem (writeMem (h.install m) (word l h.block 16 8) (ans.data.take (asked c).fromDevice)) al.sense (ans.sense.take 255) ∧
      M = writeMem (writeMem (h.install m) al.data (ans.data.take (asked c).fromDevice)) al.sense (ans.sense.take 255) := by
    refine ⟨_, rfl, ?_⟩
    rcases hptr with hptr | hptr
    · rw [hptr]
    · rw [hptr]
      have hnil : ∀ x, writeMem (h.install m) x (ans.data.take 0) = h.install m := by
        intro x; exact writeMem_nil _ _
      rw [hnil, hnil]
  obtain ⟨M, hM1, hM2⟩ := hM
  rw [← hM1] at hr
  have hfd : (asked c).fromDevice ≤ dataSize c := by
    cases c with
    | read cdb n => exact Nat.le_refl _
    | write cdb d => exact Nat.zero_le _
  have F2 : readMem M h.blockAddr 88 = h.block := by
    rw [hM2, readMem_writeMem_other (by rw [List.length_take]; omega), readMem_writeMem_other (by rw [List.length_take]; omega)]
    rw [← hf.len]; exact hib
  have F3 : ∀ cdb n, c = .read cdb n → n > 0 → readMem M al.data n.toNat = padded n.toNat ans.data := by
    intro cdb n hc hn
    rw [hM2, readMem_writeMem_other (by rw [List.length_take]; rw [hc] at h5; simp only [dataSize] at h5; omega), hc]
    apply readMem_padded
    have := hin al.data (zeros n.toNat) (hdata n cdb hc hn)
    rwa [zeros_length] at this
  have hget : getOs (oneFlight s h) (s.index : Int) = some h := by
    simp [getOs, getOsData, oneFlight, Dict.get]
  have hsd := successData_eq l al s.index c t h M hf hcd F2
  rw [hget, hsd] at hr
  have hdb : dataBack c M al.data = delivered c ans := by
    cases c with
    | read cdb n =>
      simp only [delivered, dataBack]
      by_cases hn : n > 0
      · rw [if_pos hn, if_pos hn, F3 cdb n rfl hn]
      · rw [if_neg hn, if_neg hn]
    | write cdb d => rfl
  rw [hdb] at hr
  simp only [Nat.zero_and, ne_eq, not_true_eq_false, or_false, if_false, toRecv, Int.natCast_nonneg, if_true, Int.toNat_natCast] at hr
  rw [hr]
  exact ⟨rfl, rfl, rfl⟩

end Verif.Platform.Linux

namespace Verif.Commands

open Verif.Executer Verif.Coroutine Verif.ExecuterGen Verif.Platform Verif.Spec Verif.Spec.Disk Verif.Sense

variable {δ S K T R : Type} [DecidableEq K]

/-- An ioctl executer at rest. -/
def MappedIdle (s : St Handle (Option K)) (o : Linux.IoctlWorld δ) (k : δ) : Prop :=
  s.pending = [] ∧ 0 < s.maxq ∧ s.maxq ≤ 2 ^ 31 ∧ s.index < s.maxq ∧ o.world.kernel = k

/-- What `execute` gives for any answer of the device. -/
def unlooked (c : Req) (ans : Answer) : Except (Exn (DevErr S)) (Option (Option Bytes)) := .ok (some (delivered c ans))

theorem mapped_faithful (l : Bool) (parse : Bytes → Py (Option S)) (dev : Device δ) (alloc : Nat → Alloc) (t : Int) (ht : 0 ≤ t ∧ t < 2 ^ 32) :
    Faithful (K := K) (Linux.prepare (lp64 l) alloc t) (Linux.ioctlSend (Linux.ioctlDevice l dev)) (Linux.ioctlReceive (lp64 l) parse)
      dev unlooked (LinuxOk alloc) MappedIdle := by
  rintro c s ⟨⟨m, k'⟩, old⟩ k ⟨h1, h2, h3⟩ ⟨hs, hq, hmax, hidx, hk⟩
  simp only at hk
  subst hk
  obtain ⟨r1, r2, r3⟩ := Linux.C66_ioctl l parse dev alloc t c s m k' old hs hq (by omega) h1 h2 ht (h3 s.index)
  simp only [Linux.ioctlCall] at r2 r3
  refine ⟨r1, fun _ => ⟨by rw [r3]; exact hs, by rw [r3]; exact hq, by rw [r3]; exact hmax, by rw [r3]; exact Nat.mod_lt _ hq, r2⟩⟩

/-- **C66 (any device).** Any sequence of commands, each executed with `sync_wait(cmd.execute(executer))` on the executer of `linux_dm`: the device
gets exactly the requests that can be built, in order, each once and as asked; every caller gets its command's data decoded as if the device had
succeeded. -/
theorem C66_session (l : Bool) (parse : Bytes → Py (Option S)) (dev : Device δ) (alloc : Nat → Alloc) (t : Int) (ht : 0 ≤ t ∧ t < 2 ^ 32)
    (cmds : List (Command Req (Option Bytes) R)) (hok : ∀ c ∈ cmds, ∀ q, c.request = .ok q → LinuxOk alloc q)
    (w : W Handle K (Option Bytes) (DevErr S) (Linux.IoctlWorld δ)) (k : δ) (hw : MappedIdle w.st w.os k) :
    ∃ w', RunAll (machine (T := T) (Linux.ioctlBlocking (lp64 l) parse (Linux.ioctlDevice l dev)).plat (Linux.prepare (lp64 l) alloc t)) cmds w
        (askAll dev unlooked cmds k).1 w' ∧
      MappedIdle w'.st w'.os (askAll dev (unlooked (S := S)) cmds k).2 := by
  have hP := (Linux.ioctlBlocking (K := K) (lp64 l) parse (Linux.ioctlDevice l dev)).implements (R := R) (T := T) .actual
  rw [Linux.ioctlBlocking_send, Linux.ioctlBlocking_receive] at hP
  exact C51_session hP (mapped_faithful l parse dev alloc t ht) (fun c k _ e => by simp [unlooked]) cmds hok w k hw

/-! ## A disk -/

theorem padded_nil (n : Nat) : padded n [] = zeros n := by simp [padded, List.take_of_length_le]

section step

variable {g : Geometry} (L : Lib) (B : Parse.BufLib) (other : Bytes → Py (List (String × Int))) (m : Contents)

theorem disk_answer (g : Geometry) (m : Contents) (q : OsRequest) :
    (disk g m q).1.status = 0 ∨ ∃ key asc, (disk g m q).1 = failed key asc 0 := by
  have key : ∀ a : Answer, ((∃ d, a = good d) ∨ ∃ k c, a = failed k c 0) → a.status = 0 ∨ ∃ k c, a = failed k c 0 := by
    rintro a (⟨d, rfl⟩ | h)
    · exact .inl rfl
    · exact .inr h
  apply key
  unfold disk
  split
  · exact .inl ⟨_, rfl⟩
  split
  · exact .inl ⟨_, rfl⟩
  split
  · unfold perform
    repeat' split
    all_goals first | exact .inl ⟨_, rfl⟩ | exact .inr ⟨_, _, rfl⟩
  · exact .inr ⟨_, _, rfl⟩

/-- The request of a command that reads or writes blocks, and what its decoder does. -/
theorem asks_shape (hsz : 0 < g.size) {c : Cmd} {op : Op} (h : Asks g c op) {q : Req} (hq : (c.command L B other).request = .ok q) :
    (∀ lba n, op = .read lba n → ∃ cdb len, q = .read cdb len ∧ len.toNat = n * g.size ∧ ∀ d, c.decode B other d = .ok (.raw d)) ∧
    ((∀ lba n, op ≠ .read lba n) → op ≠ .ready → op ≠ .capacity → op ≠ .bigCapacity →
      ∃ cdb data, q = .write cdb data ∧ ∀ d, c.decode B other d = .ok (.raw d)) := by
  have hq' : Cdb.request L c.cdb = .ok q := hq
  cases h with
  | ready => exact ⟨nofun, fun _ h => absurd rfl h⟩
  | capacity10 => exact ⟨nofun, fun _ _ h => absurd rfl h⟩
  | capacity16 => exact ⟨nofun, fun _ _ _ h => absurd rfl h⟩
  | @read6 lba n h1 h2 h3 =>
    have := Cdb.C26_read6 L lba n g.size ⟨by omega, by omega⟩ ⟨by omega, by omega⟩ (by omega) (by omega)
    cases this.symm.trans hq'
    refine ⟨?_, fun h => absurd rfl (h _ _)⟩
    rintro _ _ ⟨⟩
    exact ⟨_, _, rfl, by simp [Int.toNat_mul], fun _ => rfl⟩
  | @read6_256 lba h1 h2 =>
    obtain ⟨cdb, len, hr, -, hlen⟩ := Cdb.C27_partial L lba 512 ⟨by omega, by omega⟩ rfl
    cases hr.symm.trans hq'
    refine ⟨?_, fun h => absurd rfl (h _ _)⟩
    rintro _ _ ⟨⟩
    exact ⟨_, _, rfl, by rw [hlen, h2]; rfl, fun _ => rfl⟩
  | @read10 lba n h1 h2 =>
    have := Cdb.C26_read10 L lba n g.size ⟨by omega, by omega⟩ ⟨by omega, by omega⟩
    cases this.symm.trans hq'
    refine ⟨?_, fun h => absurd rfl (h _ _)⟩
    rintro _ _ ⟨⟩
    exact ⟨_, _, rfl, by simp [Int.toNat_mul], fun _ => rfl⟩
  | @read12 lba n h1 h2 =>
    have := Cdb.C26_read12 L lba n g.size ⟨by omega, by omega⟩ ⟨by omega, by omega⟩
    cases this.symm.trans hq'
    refine ⟨?_, fun h => absurd rfl (h _ _)⟩
    rintro _ _ ⟨⟩
    exact ⟨_, _, rfl, by simp [Int.toNat_mul], fun _ => rfl⟩
  | @read16 lba n h1 h2 =>
    have := Cdb.C26_read16 L lba n g.size ⟨by omega, by omega⟩ ⟨by omega, by omega⟩
    cases this.symm.trans hq'
    refine ⟨?_, fun h => absurd rfl (h _ _)⟩
    rintro _ _ ⟨⟩
    exact ⟨_, _, rfl, by simp [Int.toNat_mul], fun _ => rfl⟩
  | @write6 lba n data h1 h2 h3 h4 =>
    obtain ⟨-, _, -, -, -, -, rfl⟩ := (Cdb.C28_write6 L lba data g.size q (by omega)).1 hq'
    exact ⟨nofun, fun _ _ _ _ => ⟨_, _, rfl, fun _ => rfl⟩⟩
  | @write10 lba n data h1 h2 h3 =>
    obtain ⟨-, _, -, -, -, rfl⟩ := (Cdb.C28_write10 L lba data g.size q).1 hq'
    exact ⟨nofun, fun _ _ _ _ => ⟨_, _, rfl, fun _ => rfl⟩⟩
  | @write12 lba n data h1 h2 h3 h4 =>
    obtain ⟨-, _, -, -, -, -, rfl⟩ := (Cdb.C28_write12 L lba data g.size q).1 hq'
    exact ⟨nofun, fun _ _ _ _ => ⟨_, _, rfl, fun _ => rfl⟩⟩
  | @write16 lba n data h1 h2 h3 =>
    obtain ⟨-, _, -, -, -, rfl⟩ := (Cdb.C28_write16 L lba data g.size q).1 hq'
    exact ⟨nofun, fun _ _ _ _ => ⟨_, _, rfl, fun _ => rfl⟩⟩
  | @fill10 lba n block h1 h2 h3 h4 =>
    obtain ⟨-, -, -, rfl⟩ := (Cdb.C30_partial L lba block n g.size q).1.1 hq'
    exact ⟨nofun, fun _ _ _ _ => ⟨_, _, rfl, fun _ => rfl⟩⟩
  | @fill16 lba n block h1 h2 h3 h4 =>
    obtain ⟨-, -, -, rfl⟩ := (Cdb.C30_partial L lba block n g.size q).2.1 hq'
    exact ⟨nofun, fun _ _ _ _ => ⟨_, _, rfl, fun _ => rfl⟩⟩
  | @exchange lba n old new h1 h2 h3 h4 =>
    obtain ⟨-, -, -, -, rfl⟩ := (Cdb.C31_partial L lba (old ++ new) n g.size q).1 hq'
    exact ⟨nofun, fun _ _ _ _ => ⟨_, _, rfl, fun _ => rfl⟩⟩
  | @discard ranges h hn =>
    obtain ⟨_, _, rfl, -⟩ := (Cdb.C32_partial L _).1 q hq'
    exact ⟨nofun, fun _ _ _ _ => ⟨_, _, rfl, fun _ => rfl⟩⟩

/-- One command: the disk changes as the operation says; the caller sees the reply without the failure. -/
theorem blind_step (hg : Valid g) {c : Cmd} {op : Op} (h : Asks g c op) :
    ∃ q, (c.command L B other).request = .ok q ∧ (disk g m (asked q)).2 = (op.run g m).2 ∧
      Shows (decoded (c.command L B other) (unlooked q (disk g m (asked q)).1)) (op.blind g (op.run g m).1) := by
  obtain ⟨q, hq, hm, hs⟩ := step L B other m hg outcome_delivers h
  refine ⟨q, hq, hm, ?_⟩
  rcases disk_answer g m (asked q) with h0 | ⟨key, asc, h0⟩
  · -- success: as on the sg device
    have e : Platform.outcome getSense q (disk g m (asked q)).1 = unlooked q (disk g m (asked q)).1 := by
      simp [Platform.outcome, unlooked, h0]
    rw [e] at hs
    cases hr : (op.run g m).1 with
    | failed key asc ascq =>
      rw [hr] at hs
      obtain ⟨raw, s, hs, -⟩ := hs
      simp only [unlooked, decoded] at hs
      split at hs <;> simp at hs
    | ready => rw [hr] at hs; cases op <;> exact hs
    | capacity a b => rw [hr] at hs; cases op <;> exact hs
    | data a => rw [hr] at hs; cases op <;> exact hs
    | done => rw [hr] at hs; cases op <;> exact hs
  · -- failure: not noticed
    rw [h0] at hs ⊢
    have hf : ∃ key asc ascq, (op.run g m).1 = .failed key asc ascq := by
      have he : ∃ e, decoded (c.command L B other) (Platform.outcome getSense q (failed key asc 0)) = .error e := by
        unfold Platform.outcome
        rw [if_pos (show (failed key asc 0).status.toNat / 2 % 2 = 1 by simp [failed])]
        split <;> exact ⟨_, rfl⟩
      obtain ⟨e, he⟩ := he
      rw [he] at hs
      cases hr : (op.run g m).1 with
      | failed key asc ascq => exact ⟨_, _, _, rfl⟩
      | capacity a b => rw [hr] at hs; obtain ⟨_, hs, -⟩ := hs; cases hs
      | ready => rw [hr] at hs; cases hs
      | data a => rw [hr] at hs; cases hs
      | done => rw [hr] at hs; cases hs
    obtain ⟨k, a, x, hf⟩ := hf
    rw [hf]
    obtain ⟨s1, s2⟩ := asks_shape L B other hg.size.1 h hq
    cases op with
    | ready => cases hf
    | capacity => cases hf
    | bigCapacity => cases hf
    | read lba n =>
      obtain ⟨cdb, len, rfl, hlen, hd⟩ := s1 lba n rfl
      simp only [Op.blind, Shows, unlooked, decoded, Cmd.command, delivered, failed, padded_nil, hlen, Option.getD_some, hd]
      by_cases hl : len > 0
      · rw [if_pos hl, if_neg (by intro h0; have := congrArg List.length h0; rw [zeros_length, ← hlen] at this; simp at this; omega)]
      · rw [if_neg hl, ← hlen, show len.toNat = 0 by omega]; rfl
    | write lba data =>
      obtain ⟨cdb, d, rfl, hd⟩ := s2 (by simp) (by simp) (by simp) (by simp)
      simp only [Op.blind, Shows, unlooked, decoded, Cmd.command, delivered, hd, Option.getD_some]
    | fill lba n block =>
      obtain ⟨cdb, d, rfl, hd⟩ := s2 (by simp) (by simp) (by simp) (by simp)
      simp only [Op.blind, Shows, unlooked, decoded, Cmd.command, delivered, hd, Option.getD_some]
    | exchange lba old new =>
      obtain ⟨cdb, d, rfl, hd⟩ := s2 (by simp) (by simp) (by simp) (by simp)
      simp only [Op.blind, Shows, unlooked, decoded, Cmd.command, delivered, hd, Option.getD_some]
    | discard ranges =>
      obtain ⟨cdb, d, rfl, hd⟩ := s2 (by simp) (by simp) (by simp) (by simp)
      simp only [Op.blind, Shows, unlooked, decoded, Cmd.command, delivered, hd, Option.getD_some]

theorem askAll_blind (hg : Valid g) {cmds : List Cmd} {ops : List Op} (h : Each (Asks g) cmds ops) :
    Each Shows (askAll (disk g) unlooked (cmds.map (·.command L B other)) m).1 (blindOps g ops m).1 ∧
      (askAll (disk g) (unlooked (S := Sense)) (cmds.map (·.command L B other)) m).2 = (blindOps g ops m).2 := by
  induction h generalizing m with
  | nil => exact ⟨.nil, rfl⟩
  | @cons c op cs ops h _ ih =>
    obtain ⟨q, hq, hm, hs⟩ := blind_step L B other m hg h
    have := ih (op.run g m).2
    simp only [List.map_cons, askAll, hq, blindOps]
    rw [hm]
    exact ⟨.cons hs this.1, this.2⟩

end step

theorem blindOps_state (g : Geometry) (ops : List Op) (m : Contents) : (blindOps g ops m).2 = (runOps g ops m).2 := by
  induction ops generalizing m with
  | nil => rfl
  | cons o os ih => exact ih _

theorem blindOps_succeeding (g : Geometry) (ops : List Op) (m : Contents) (h : ∀ key asc ascq, .failed key asc ascq ∉ (runOps g ops m).1) :
    (blindOps g ops m).1 = (runOps g ops m).1 := by
  induction ops generalizing m with
  | nil => rfl
  | cons o os ih =>
    simp only [runOps, List.mem_cons, not_or] at h
    simp only [blindOps, runOps]
    rw [ih _ fun k a q => (h k a q).2]
    cases hr : (o.run g m).1 with
    | failed k a q => exact absurd hr.symm (h k a q).1
    | ready => rfl
    | capacity a b => rfl
    | data a => rfl
    | done => rfl

variable (L : Lib) (B : Parse.BufLib) (other : Bytes → Py (List (String × Int)))

/-- **C66, what happens.** Any sequence of READ, WRITE, WRITE SAME, COMPARE AND WRITE, READ CAPACITY and TEST UNIT READY commands executed through
the executer of `linux_dm` in front of a disk: the disk ends with the contents these operations give; each caller sees that operation's reply,
but an operation that failed is shown as done and a read that failed as zeros. -/
theorem C66_told (l : Bool) (g : Geometry) (hg : Valid g) (alloc : Nat → Alloc) (t : Int) (ht : 0 ≤ t ∧ t < 2 ^ 32) (cmds : List Cmd) (ops : List Op)
    (hask : Each (Asks g) cmds ops) (hok : Carried L (LinuxOk alloc) cmds)
    (w : W Handle K (Option Bytes) (DevErr Sense) (Linux.IoctlWorld Contents)) (m : Contents) (hw : MappedIdle w.st w.os m) :
    ∃ w' as, RunAll (machine (T := T) (Linux.ioctlBlocking (lp64 l) getSense (Linux.ioctlDevice l (disk g))).plat (Linux.prepare (lp64 l) alloc t))
        (cmds.map (·.command L B other)) w as w' ∧ Each Shows as (blindOps g ops m).1 ∧ MappedIdle w'.st w'.os (runOps g ops m).2 := by
  obtain ⟨w', h1, h2⟩ := C66_session (K := K) (T := T) l getSense (disk g) alloc t ht (cmds.map (·.command L B other)) (carried_map B other hok) w m hw
  obtain ⟨e1, e2⟩ := askAll_blind L B other m hg hask
  exact ⟨w', _, h1, e1, by rw [← blindOps_state, ← e2]; exact h2⟩

/-- **C66 (what holds)**: as long as no operation fails, a disk behind `linux_dm` acts as the array of bytes, like on the other platforms (C59). -/
theorem C66_partial (l : Bool) (g : Geometry) (hg : Valid g) (alloc : Nat → Alloc) (t : Int) (ht : 0 ≤ t ∧ t < 2 ^ 32) (cmds : List Cmd) (ops : List Op)
    (hask : Each (Asks g) cmds ops) (hok : Carried L (LinuxOk alloc) cmds)
    (w : W Handle K (Option Bytes) (DevErr Sense) (Linux.IoctlWorld Contents)) (m : Contents) (hw : MappedIdle w.st w.os m)
    (hgood : ∀ key asc ascq, .failed key asc ascq ∉ (runOps g ops m).1) :
    ∃ w' as, RunAll (machine (T := T) (Linux.ioctlBlocking (lp64 l) getSense (Linux.ioctlDevice l (disk g))).plat (Linux.prepare (lp64 l) alloc t))
        (cmds.map (·.command L B other)) w as w' ∧ Each Shows as (runOps g ops m).1 ∧ MappedIdle w'.st w'.os (runOps g ops m).2 := by
  obtain ⟨w', as, h1, h2, h3⟩ := C66_told (K := K) (T := T) L B other l g hg alloc t ht cmds ops hask hok w m hw
  exact ⟨w', as, h1, by rw [← blindOps_succeeding g ops m hgood]; exact h2, h3⟩

/-- Two hosts take a lock kept in block 7 by exchanging its zeros for their name; then the holder is read, and a block that does not exist. -/
def race (mine theirs : Bytes) : List Op :=
  [.exchange 7 (zeros 512) mine, .exchange 7 (zeros 512) theirs, .read 7 1, .read 1000 1]

def raceCmds (mine theirs : Bytes) : List Cmd :=
  [.compareAndWrite 7 (zeros 512 ++ mine) 1 512, .compareAndWrite 7 (zeros 512 ++ theirs) 1 512,
   .read10 7 1 512, .read16 1000 1 512]

theorem race_asks (mine theirs : Bytes) (hm : mine.length = 512) (ht : theirs.length = 512) : Each (Asks ⟨512, 1000⟩) (raceCmds mine theirs) (race mine theirs) :=
  .cons (Asks.exchange (g := ⟨512, 1000⟩) (lba := 7) (n := 1) (by decide) (by decide) (by rw [zeros_length, Nat.one_mul]) (by rw [hm, Nat.one_mul]))
    (.cons (Asks.exchange (g := ⟨512, 1000⟩) (lba := 7) (n := 1) (by decide) (by decide) (by rw [zeros_length, Nat.one_mul]) (by rw [ht, Nat.one_mul]))
      (.cons (Asks.read10 (g := ⟨512, 1000⟩) (lba := 7) (n := 1) (by decide) (by decide))
        (.cons (Asks.read16 (g := ⟨512, 1000⟩) (lba := 1000) (n := 1) (by decide) (by decide)) .nil)))

theorem race_run (mine theirs : Bytes) (hm : mine.length = 512) (h : mine ≠ zeros 512) (m : Contents) (hz : readAt m 3584 512 = zeros 512) :
    (runOps ⟨512, 1000⟩ (race mine theirs) m).1 = [.done, .failed 0x0E 0x1D 0, .data mine, .failed 5 0x21 0] ∧
    (blindOps ⟨512, 1000⟩ (race mine theirs) m).1 = [.done, .done, .data mine, .data (zeros 512)] := by
  have h1 : readAt (writeAt m 3584 mine) 3584 512 = mine := by
    have := readAt_writeAt m 3584 mine
    rwa [hm] at this
  simp [race, runOps, blindOps, Op.run, Op.blind, hz, h1, h]

def lockAlloc : Nat → Alloc := fun _ => { block := 4096, sense := 8192, cmd := 12288, data := 16384 }

theorem race_carried (L : Lib) (mine theirs : Bytes) (hm : mine.length = 512) (ht : theirs.length = 512) : Carried L (LinuxOk lockAlloc) (raceCmds mine theirs) := by
  have fit : ∀ q : Req, q.cdb.length ≤ 16 → dataSize q ≤ 1024 → LinuxOk lockAlloc q := by
    intro q h1 h2
    refine ⟨by omega, by omega, fun _ => ⟨?_, ?_⟩⟩
    · simp [lockAlloc]; omega
    · simp [lockAlloc]
  intro c hc q hq
  simp only [raceCmds, List.mem_cons, List.not_mem_nil, or_false] at hc
  rcases hc with rfl | rfl | rfl | rfl
  · obtain ⟨-, -, -, -, rfl⟩ := (Cdb.C31_partial L 7 _ 1 512 q).1 hq
    exact fit _ (by simp [Req.cdb, Spec.Cdb.compareAndWrite, Spec.Cdb.cdb10, Spec.Cdb.cdb16]) (by simp [dataSize, hm])
  · obtain ⟨-, -, -, -, rfl⟩ := (Cdb.C31_partial L 7 _ 1 512 q).1 hq
    exact fit _ (by simp [Req.cdb, Spec.Cdb.compareAndWrite, Spec.Cdb.cdb10, Spec.Cdb.cdb16]) (by simp [dataSize, ht])
  · cases (Cdb.C26_read10 L 7 1 512 (by simp [Cdb.Fits]) (by simp [Cdb.Fits])).symm.trans hq
    exact fit _ (by simp [Req.cdb, Spec.Cdb.read10, Spec.Cdb.cdb10, Spec.Cdb.cdb16]) (by simp [dataSize])
  · cases (Cdb.C26_read16 L 1000 1 512 (by simp [Cdb.Fits]) (by simp [Cdb.Fits])).symm.trans hq
    exact fit _ (by simp [Req.cdb, Spec.Cdb.read16, Spec.Cdb.cdb10, Spec.Cdb.cdb16]) (by simp [dataSize])

/-- An idle `linux_dm` executer (its queue holds one command) in front of a disk with contents `m`. -/
def mappedWorld (m : Contents) : W Handle Unit (Option Bytes) (DevErr Sense) (Linux.IoctlWorld Contents) :=
  { st := { pending := [], index := 0, maxq := 1 }, os := { world := { mem := fun _ => 0, kernel := m }, buffer := none }, fired := [], box := fun _ => [] }

/-- **C66, a lock taken twice.** Both hosts are told that they hold the lock; and the read of a block that does not exist returns zeros. -/
theorem C66_race (mine theirs : Bytes) (hm : mine.length = 512) (ht : theirs.length = 512) (h : mine ≠ zeros 512) (m : Contents) (hz : readAt m 3584 512 = zeros 512) :
    ∃ w', RunAll (machine (T := Unit) (Linux.ioctlBlocking (lp64 true) getSense (Linux.ioctlDevice true (disk ⟨512, 1000⟩))).plat
        (Linux.prepare (lp64 true) lockAlloc 30000)) ((raceCmds mine theirs).map (·.command L B other)) (mappedWorld m)
      [.ok (some (.obj (.raw none))), .ok (some (.obj (.raw none))), .ok (some (.obj (.raw (some mine)))),
        .ok (some (.obj (.raw (some (zeros 512)))))] w' := by
  obtain ⟨w', as, h1, h2, -⟩ := C66_told (K := Unit) (T := Unit) L B other true ⟨512, 1000⟩ ⟨by decide, by decide⟩ lockAlloc 30000 (by decide)
    _ _ (race_asks mine theirs hm ht) (race_carried L mine theirs hm ht) (mappedWorld m) m ⟨rfl, by simp [mappedWorld], by simp [mappedWorld], by simp [mappedWorld], rfl⟩
  rw [(race_run mine theirs hm h m hz).2] at h2
  cases h2 with
  | cons a1 h2 =>
  cases h2 with
  | cons a2 h2 =>
  cases h2 with
  | cons a3 h2 =>
  cases h2 with
  | cons a4 h2 =>
  cases h2
  have n1 : mine ≠ [] := by intro h; rw [h] at hm; cases hm
  have n2 : zeros 512 ≠ [] := by intro h; have := congrArg List.length h; rw [zeros_length] at this; cases this
  simp only [Shows, n1, n2, if_false] at a1 a2 a3 a4
  subst a1 a2 a3 a4
  exact ⟨w', h1⟩

/-- **C66 is false**: a disk behind `linux_dm` does not act as the array of bytes (the statement of C59 on this platform). -/
theorem C66_false : ¬ ∀ (cmds : List Cmd) (ops : List Op) (m : Contents), Each (Asks ⟨512, 1000⟩) cmds ops → Carried L (LinuxOk lockAlloc) cmds →
    ∃ w' as, RunAll (machine (T := Unit) (Linux.ioctlBlocking (lp64 true) getSense (Linux.ioctlDevice true (disk ⟨512, 1000⟩))).plat
        (Linux.prepare (lp64 true) lockAlloc 30000)) (cmds.map (·.command L B other)) (mappedWorld m) as w' ∧
      Each Shows as (runOps ⟨512, 1000⟩ ops m).1 := by
  intro h
  have hz : readAt (fun _ => 0) 3584 512 = zeros 512 := by
    apply List.ext_getElem
    · rw [readAt_length, zeros_length]
    · intro i _ _
      simp only [readAt, zeros, List.getElem_map, List.getElem_replicate]
  have h1 : (List.replicate 512 (1 : UInt8)).length = 512 := List.length_replicate
  have hne : List.replicate 512 (1 : UInt8) ≠ zeros 512 := by
    intro h
    have := congrArg (fun x => x.getD 0 7) h
    exact absurd (show (1 : UInt8) = 0 from this) (by decide)
  obtain ⟨w1, as, h3, h2⟩ := h (raceCmds _ _) (race _ _) (fun _ => 0) (race_asks _ _ h1 h1) (race_carried L _ _ h1 h1)
  obtain ⟨w2, h4⟩ := C66_race L B other _ _ h1 h1 hne (fun _ => 0) hz
  obtain ⟨rfl, -⟩ := runAll_unique h4 h3
  rw [(race_run _ _ h1 hne _ hz).1] at h2
  cases h2 with
  | cons a1 h2 =>
  cases h2 with
  | cons a2 h2 =>
  obtain ⟨raw, s, he, -⟩ := a2
  cases he

end Verif.Commands
