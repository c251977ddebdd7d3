import Verif.Spec.Link
import Verif.Props.Aborted
/-!
# C107: errors of the host adapter and of the driver, on Linux
-/
set_option linter.unusedSimpArgs false
set_option linter.unusedSectionVars false

namespace Verif.Platform.Linux
open Verif.Executer Verif.Spec Verif.Spec.Link

variable {S κ δ K : Type}

/-- The header with what the driver fills in: `status`, `host_status`, `driver_status`. -/
def completed (l : Bool) (raw : Bytes) (r : Report) : Bytes := splice (splice (splice raw 64 [r.answer.status]) 68 (bytes16 l r.host)) 70 (bytes16 l r.driver)

/-- The sg driver in front of a device it reaches by a host adapter: as `sgDevice`, but for `host_status` and `driver_status`. -/
def sgLink (l : Bool) (dev : Linked δ) : SgDriver (δ × Option Bytes) :=
  { write := fun raw w =>
      match sgView l raw w.mem with
      | none => (.error .ioError, w)
      | some req =>
        let r := dev w.kernel.1 req
        let m := writeMem w.mem (word l raw 16 8) (r.1.answer.data.take req.fromDevice)
        let m := writeMem m (sgSensePtr l raw) (r.1.answer.sense.take req.senseRoom)
        (.ok (), { mem := m, kernel := (r.2, some (completed l raw r.1)) })
    read := fun n w =>
      match w.kernel.2 with
      | none => (.error .ioError, w)
      | some raw => (.ok (raw.take n), { w with kernel := (w.kernel.1, none) }) }

theorem bytes16_length (l : Bool) (x : UInt16) : (bytes16 l x).length = 2 := by cases l <;> rfl

theorem completed_length (l : Bool) (raw : Bytes) (r : Report) : (completed l raw r).length = raw.length := by
  simp only [completed, splice_length]

/-- The other fields are as they were. -/
theorem load_completed (l : Bool) (raw : Bytes) (r : Report) (o z : Nat) (g : Bool) (h : o + z ≤ 64 ∨ 72 ≤ o) :
    load (lp64 l) ⟨"", o, z, g⟩ (completed l raw r) = load (lp64 l) ⟨"", o, z, g⟩ raw := by
  unfold load completed
  simp only
  rw [slice_splice_other (by rw [bytes16_length]; omega), slice_splice_other (by rw [bytes16_length]; omega), slice_splice_other (by simp only [List.length_singleton]; omega)]

theorem completed_status (l : Bool) (raw : Bytes) (r : Report) (h : raw.length = 88) : sgStatus (completed l raw r) = r.answer.status.toNat := by
  rw [← status_splice raw r.answer.status h, sgStatus, sgStatus, word_lp64, word_lp64]
  unfold load completed
  simp only
  rw [slice_splice_other (by rw [bytes16_length]; omega), slice_splice_other (by rw [bytes16_length]; omega)]

theorem native_bytes16 (l : Bool) (x : UInt16) : nativeNat (lp64 l) (bytes16 l x) = x.toNat := by
  have := x.toNat_lt
  cases l <;> simp [nativeNat, lp64, bytes16, beNat] <;> omega

theorem completed_driver (l : Bool) (raw : Bytes) (r : Report) (h : raw.length = 88) : sgDriverStatus l (completed l raw r) = r.driver.toNat := by
  rw [sgDriverStatus, word_lp64]
  unfold load completed
  have h2 := slice_splice_same (raw := splice (splice raw 64 [r.answer.status]) 68 (bytes16 l r.host)) (off := 70) (new := bytes16 l r.driver) (by simp only [splice_length, bytes16_length]; omega)
  simp only [bytes16_length] at h2
  simp only [h2, native_bytes16]
  rfl

theorem completed_host (l : Bool) (raw : Bytes) (r : Report) (h : raw.length = 88) : sgHostStatus l (completed l raw r) = r.host.toNat := by
  rw [sgHostStatus, word_lp64]
  unfold load completed
  have h2 := slice_splice_same (raw := splice raw 64 [r.answer.status]) (off := 68) (new := bytes16 l r.host) (by simp only [splice_length, bytes16_length]; omega)
  simp only [bytes16_length] at h2
  simp only
  rw [slice_splice_other (by rw [bytes16_length]; omega), h2, native_bytes16]
  rfl

theorem told_ne (parse : Bytes → Py (Option S)) (c : Req) (r : Report) (hparse : r.HasSense → ∃ sn, parse (padded 255 r.answer.sense) = .ok sn) (e : PyErr) :
    told parse c r ≠ .error (.py e) := by
  unfold told
  split
  · rename_i hcc
    obtain ⟨sn, hsn⟩ := hparse hcc
    rw [hsn]; simp
  · repeat' split
    all_goals simp

/-- One command. -/
theorem link_call (l : Bool) (parse : Bytes → Py (Option S)) (dev : Linked δ) (alloc : Nat → Alloc) (t : Int) (c : Req)
    (s : St Handle (Option K)) (m : Mem) (k : δ) (old : Option Bytes) (hs : s.pending = []) (hq : 0 < s.maxq) (hidx : s.index < 2 ^ 31)
    (hcdb : c.cdb.length ≤ 255) (hd : dataSize c < 2 ^ 32) (ht : 0 ≤ t ∧ t < 2 ^ 32)
    (hsep : Separate 64 [((alloc s.index).block, 88), ((alloc s.index).sense, 255), ((alloc s.index).cmd, c.cdb.length),
      ((alloc s.index).data, dataSize c)]) :
    let r := sgCall l parse (sgLink l dev) alloc t c s { mem := m, kernel := (k, old) }
    r.out = told parse c (dev k (asked c)).1 ∧ r.os.kernel = ((dev k (asked c)).2, none) ∧
    ((∀ e, r.out ≠ .error (.py e)) → r.st = { s with index := (s.index + 1) % s.maxq }) := by
  intro r
  have hap := handle_apart l (alloc s.index) s.index c t hsep
  have hb := hsep.2
  simp only [List.mem_cons, List.not_mem_nil, or_false, forall_eq_or_imp, forall_eq] at hb
  obtain ⟨-, hb2, hb3, hb4⟩ := hb
  have hf := create_fields l (alloc s.index) s.index c t hidx hcdb hd ht hb2 hb3 hb4
  obtain ⟨hv, hpk, -, hsp⟩ := C18_linux l (alloc s.index) s.index c t m hidx hcdb hd ht hsep
  have hdata : ∀ n cdb, c = .read cdb n → n > 0 →
      (create (lp64 l) (alloc s.index) s.index c t).data = some ((alloc s.index).data, zeros n.toNat) := by
    intro n cdb hc hn
    rw [create_data, hc, bufOf, if_pos hn]
  have hcd := create_data (lp64 l) (alloc s.index) s.index c t
  have hse := install_sense hap m
  have hin := fun x d h => install_data hap m (x := x) (d := d) h
  have hib := install_block (create (lp64 l) (alloc s.index) s.index c t) m
  have hr : r = call (prepare (lp64 l) alloc t c) (sgSend (sgLink l dev)) (sgReceive (lp64 l) parse (sgLink l dev)) s
    { mem := m, kernel := (k, old) } := rfl
  rw [call_idle _ _ _ s _ hs hq _ (show prepare (lp64 l) alloc t c s.index = .ok _ from rfl)] at hr
  have hsi := create_senseInit (lp64 l) (alloc s.index) s.index c t
  have hba := create_blockAddr (lp64 l) (alloc s.index) s.index c t
  have hsa := create_senseAddr (lp64 l) (alloc s.index) s.index c t
  have hsz : (create (lp64 l) (alloc s.index) s.index c t).senseInit = zeros 255 := rfl
  generalize create (lp64 l) (alloc s.index) s.index c t = h at *
  generalize alloc s.index = al at *
  -- the request reaches the device
  have hsend : sgSend (sgLink l dev) h { mem := m, kernel := (k, old) } =
      (.ok (), { mem := writeMem (writeMem (h.install m) (word l h.block 16 8) ((dev k (asked c)).1.answer.data.take (asked c).fromDevice))
                    al.sense ((dev k (asked c)).1.answer.sense.take 255),
                 kernel := ((dev k (asked c)).2, some (completed l h.block (dev k (asked c)).1)) }) := by
    simp only [sgSend, sgLink]
    rw [hv]
    simp only [hsp]
    cases c <;> rfl
  rw [hsend] at hr
  simp only [sgReceive, sizeValue, sgLink] at hr
  rw [show (completed l h.block (dev k (asked c)).1).take 88 = completed l h.block (dev k (asked c)).1 from
    List.take_of_length_le (by rw [completed_length, hf.len]; exact Nat.le_refl _)] at hr
  have hlen : 88 ≤ (completed l h.block (dev k (asked c)).1).length := by rw [completed_length, hf.len]; exact Nat.le_refl _
  have e1 := completed_status l h.block (dev k (asked c)).1 hf.len
  have e2 := completed_host l h.block (dev k (asked c)).1 hf.len
  have e3 := completed_driver l h.block (dev k (asked c)).1 hf.len
  have e4 : sgPackId l (completed l h.block (dev k (asked c)).1) = s.index := by
    rw [sgPackId, sword_lp64, load_completed _ _ _ _ _ _ (by omega), hf.packId]
  have e5 : sgSensePtr l (completed l h.block (dev k (asked c)).1) = al.sense := by
    rw [sgSensePtr, word_lp64, load_completed _ _ _ _ _ _ (by omega), hf.sensePtr]; rfl
  rw [handle_eq l parse _ _ _ hlen, e1, e2, e3, e4, e5] at hr
  generalize (dev k (asked c)).1 = rep at *
  generalize (dev k (asked c)).2 = k' at *
  obtain ⟨hp, -⟩ := hsep
  simp only [List.pairwise_cons, List.mem_cons, List.not_mem_nil, or_false, forall_eq_or_imp, forall_eq] at hp
  obtain ⟨⟨h1, h2, h3⟩, ⟨h4, h5⟩, h6, -⟩ := hp
  -- the data goes to the data buffer
  have hptr : word l h.block 16 8 = al.data ∨ (asked c).fromDevice = 0 := by
    rw [word_lp64, hf.dataPtr]
    cases c with
    | read cdb n =>
      by_cases hn : n > 0
      · left; simp [dirOf, hn]
      · right; simp only [asked]; omega
    | write cdb d => right; rfl
  have hM : ∃ M, M = writeMem (writeMem (h.install m) (word l h.block 16 8) (rep.answer.data.take (asked c).fromDevice)) al.sense (rep.answer.sense.take 255) ∧
      M = writeMem (writeMem (h.install m) al.data (rep.answer.data.take (asked c).fromDevice)) al.sense (rep.answer.sense.take 255) := by
    refine ⟨_, rfl, ?_⟩
    rcases hptr with hptr | hptr
    · rw [hptr]
    · rw [hptr]
      have hnil : ∀ x, writeMem (h.install m) x (rep.answer.data.take 0) = h.install m := by
        intro x; exact writeMem_nil _ _
      rw [hnil, hnil]
  obtain ⟨M, hM1, hM2⟩ := hM
  rw [← hM1] at hr
  have hfd : (asked c).fromDevice ≤ dataSize c := by
    cases c with
    | read cdb n => exact Nat.le_refl _
    | write cdb d => exact Nat.zero_le _
  have F1 : readMem M al.sense 255 = padded 255 rep.answer.sense := by
    rw [hM2]
    apply readMem_padded
    rw [readMem_writeMem_other (by rw [List.length_take]; omega), ← hsa, ← hsi, hse, hsi, hsz]
  have F2 : readMem M h.blockAddr 88 = h.block := by
    rw [hM2, readMem_writeMem_other (by rw [List.length_take]; omega), readMem_writeMem_other (by rw [List.length_take]; omega)]
    rw [← hf.len]; exact hib
  have F3 : ∀ cdb n, c = .read cdb n → n > 0 → readMem M al.data n.toNat = padded n.toNat rep.answer.data := by
    intro cdb n hc hn
    rw [hM2, readMem_writeMem_other (by rw [List.length_take]; rw [hc] at h5; simp only [dataSize] at h5; omega), hc]
    apply readMem_padded
    have := hin al.data (zeros n.toNat) (hdata n cdb hc hn)
    rwa [zeros_length] at this
  have hget : getOs (oneFlight s h) (s.index : Int) = some h := by
    simp [getOs, getOsData, oneFlight, Dict.get]
  have hsd := successData_eq l al s.index c t h M hf hcd F2
  rw [F1, hget, hsd] at hr
  have hmatch : rep.answer.status.toNat = 0 ↔ rep.answer.status = 0 := by
    constructor
    · intro hx; exact UInt8.toNat_inj.mp hx
    · intro hx; rw [hx]; rfl
  have hdb : dataBack c M al.data = delivered c rep.answer := by
    cases c with
    | read cdb n =>
      simp only [delivered, dataBack]
      by_cases hn : n > 0
      · rw [if_pos hn, if_pos hn, F3 cdb n rfl hn]
      · rw [if_neg hn, if_neg hn]
    | write cdb d => rfl
  have hh : ∀ n : Nat, n < 65536 → (rep.host.toNat = n ↔ rep.host = n.toUInt16) := by
    intro n hn
    rw [← UInt16.toNat_inj]
    simp [Nat.mod_eq_of_lt hn]
  have h7 := hh 7 (by decide)
  have h18 := hh 0x18 (by decide)
  have h00 := hh 0 (by decide)
  simp only [Nat.toUInt16_eq, UInt16.reduceOfNat] at h7 h18 h00
  simp only [told, Report.HasSense, Report.Fine]
  simp only [and_2, and_8, and_15] at hr
  simp only [ne_eq] at hr
  by_cases c1 : rep.answer.status.toNat / 2 % 2 = 1 ∨ rep.driver.toNat / 8 % 2 = 1
  · simp only [c1, if_true, checkCondition] at hr ⊢
    cases hpp : parse (padded 255 rep.answer.sense) with
    | error e =>
      rw [hpp] at hr
      simp only [toRecv] at hr
      rw [hr]
      refine ⟨rfl, rfl, ?_⟩
      intro hx; exact absurd rfl (hx e)
    | ok sn =>
      rw [hpp] at hr
      simp only [toRecv, Int.natCast_nonneg, if_true, Int.toNat_natCast] at hr
      rw [hr]
      exact ⟨rfl, rfl, fun _ => rfl⟩
  · rw [if_neg c1] at hr
    rw [if_neg c1]
    by_cases c2 : rep.answer.status = 0
    · by_cases c3 : rep.driver.toNat % 16 = 0
      · by_cases c4 : rep.host = 0
        · simp only [hmatch.2 c2, c3, h00.2 c4, not_true_eq_false, if_false, toRecv, Int.natCast_nonneg, if_true, Int.toNat_natCast] at hr
          rw [hr, hdb]
          simp only [c2, c3, c4, and_self, if_true]
          refine ⟨?_, ?_, fun _ => ?_⟩ <;> first | trivial | rfl
        · simp only [hmatch.2 c2, c3, mt h00.1 c4, not_true_eq_false, not_false_eq_true, if_false, toRecv, Int.natCast_nonneg, if_true, Int.toNat_natCast] at hr
          rw [hr]
          simp only [c2, c3, c4, and_true, and_false, if_false, not_true_eq_false, false_and, ne_eq]
          refine ⟨?_, ?_, fun _ => ?_⟩ <;> first | trivial | rfl
      · simp only [hmatch.2 c2, c3, not_true_eq_false, not_false_eq_true, if_false, toRecv, Int.natCast_nonneg, if_true, Int.toNat_natCast] at hr
        rw [hr]
        simp only [c2, c3, and_true, and_false, if_false, not_true_eq_false, false_and, ne_eq]
        refine ⟨?_, ?_, fun _ => ?_⟩ <;> first | trivial | rfl
    · have c3 : ¬ rep.answer.status.toNat = 0 := fun hx => c2 (hmatch.1 hx)
      simp only [c2, false_and, if_false, ne_eq, not_false_eq_true, true_and]
      simp only [c3, not_false_eq_true, if_true, h7, h18] at hr
      by_cases c5 : rep.host = 7
      · simp only [c5, if_true, toRecv, Int.natCast_nonneg, Int.toNat_natCast] at hr ⊢
        rw [hr]
        exact ⟨rfl, rfl, fun _ => rfl⟩
      · by_cases c6 : rep.host = 0x18
        · simp only [c6, show ¬ ((0x18 : UInt16) = 7) by decide, if_false, if_true, toRecv, Int.natCast_nonneg, Int.toNat_natCast] at hr ⊢
          rw [hr]
          exact ⟨rfl, rfl, fun _ => rfl⟩
        · simp only [c5, c6, if_false, if_true, toRecv, Int.natCast_nonneg, Int.toNat_natCast] at hr ⊢
          rw [hr]
          exact ⟨rfl, rfl, fun _ => rfl⟩

end Verif.Platform.Linux

namespace Verif.Commands.Clients.Link

open Verif.Executer Verif.Coroutine Verif.ExecuterGen Verif.Platform Verif.Spec Verif.Spec.Cdb Verif.Sense Verif.Spec.Disk Verif.Spec.Link
open Verif.Spec.Patient (patient)
open Verif.Spec.Aborted (partly Again)
open Verif.Platform.Linux (sgLink)

variable {S R K T δ σ A A' : Type}

/-- **C107, sessions.** Any sequence of commands, each executed with `sync_wait(cmd.execute(executer))`, in front of any device reached by any host adapter, whatever errors these report: the
device gets exactly the requests that can be built, in order, each once and as asked; every caller is told what became of its own command, and gets data only if neither the device
nor the host adapter nor the driver had an error; the executer ends idle. (As for C51, sense data that cannot be decoded is excluded.) -/
theorem C107_session [DecidableEq K] (l : Bool) (parse : Bytes → Py (Option S)) (dev : Linked δ) (alloc : Nat → Alloc) (t : Int) (ht : 0 ≤ t ∧ t < 2 ^ 32)
    (hparse : ∀ k q, (dev k q).1.HasSense → ∃ sn, parse (padded 255 (dev k q).1.answer.sense) = .ok sn)
    (cmds : List (Command Req (Option Bytes) R)) (hok : ∀ c ∈ cmds, ∀ q, c.request = .ok q → LinuxOk alloc q)
    (w : W Handle K (Option Bytes) (DevErr S) (World (δ × Option Bytes))) (k : δ) (hw : LinuxIdle w.st w.os k) :
    ∃ w', RunAll (machine (T := T) (Linux.sgBlocking (lp64 l) parse (sgLink l dev)).plat (Linux.prepare (lp64 l) alloc t)) cmds w (askLinked parse dev cmds k).1 w' ∧
      LinuxIdle w'.st w'.os (askLinked parse dev cmds k).2 := by
  have hP := (Linux.sgBlocking (K := K) (lp64 l) parse (sgLink l dev)).implements (R := R) (T := T) .actual
  rw [Linux.sgBlocking_send, Linux.sgBlocking_receive] at hP
  induction cmds generalizing w k with
  | nil => exact ⟨w, .nil w, hw⟩
  | cons c cs ih =>
    have hcs : ∀ c ∈ cs, ∀ q, c.request = .ok q → LinuxOk alloc q := fun c' hc' => hok c' (List.mem_cons_of_mem _ hc')
    cases hreq : c.request with
    | error e =>
      obtain ⟨w', h1, h2⟩ := ih hcs w k hw
      simp only [askLinked, hreq]
      exact ⟨w', .cons (execute_error c _ w hreq) h1, h2⟩
    | ok q =>
      obtain ⟨f, hf, h1, h2, h3, -⟩ := execute_ok hP c (Linux.prepare (lp64 l) alloc t) w hreq
      obtain ⟨g1, g2, g3⟩ := hok c (List.mem_cons_self ..) q hreq
      obtain ⟨hs, hq, hmax, hidx, hk⟩ := hw
      obtain ⟨r1, r2, r3⟩ := Linux.link_call l parse dev alloc t q w.st w.os.mem k w.os.kernel.2 hs hq (by omega) g1 g2 ht (g3 w.st.index)
      have hos : w.os = { mem := w.os.mem, kernel := (k, w.os.kernel.2) } := by rw [← hk]
      rw [← hos] at r1 r2 r3
      have hst := r3 (by rw [r1]; exact Linux.told_ne parse q _ (hparse k (asked q)))
      simp only [Linux.sgCall] at r1 r2 hst
      rw [r1] at h1
      have hinv : LinuxIdle (world f).st (world f).os (dev k (asked q)).2 := by
        refine ⟨by rw [h2, hst]; exact hs, by rw [h2, hst]; exact hq, by rw [h2, hst]; exact hmax, by rw [h2, hst]; exact Nat.mod_lt _ hq, by rw [h3, r2]⟩
      obtain ⟨w', h4, h5⟩ := ih hcs (world f) _ hinv
      simp only [askLinked, hreq]
      refine ⟨w', ?_, h5⟩
      rw [← h1]
      exact .cons hf h4

/-! ## Programs -/

/-- Giving a command to the device. -/
def DirectLink (parse : Bytes → Py (Option S)) (dev : Linked δ) (c : Command Req (Option Bytes) R) (k : δ) (r : Except (Exn (DevErr S)) (Option (Val (Option Bytes) (DevErr S) R)))
    (k' : δ) : Prop :=
  askLinked parse dev [c] k = ([r], k')

theorem link_unique {parse : Bytes → Py (Option S)} {dev : Linked δ} (c : Command Req (Option Bytes) R) (k : δ) (r k' r₁ k₁) (h : DirectLink parse dev c k r k')
    (h' : DirectLink parse dev c k r₁ k₁) : r = r₁ ∧ k' = k₁ := by
  rw [DirectLink] at h h'
  rw [h] at h'
  injection h' with h1 h2
  exact ⟨(List.cons.inj h1).1, h2⟩

/-- Using the library is using the device by the host adapter. -/
theorem same_link [DecidableEq K] (l : Bool) (parse : Bytes → Py (Option S)) (dev : Linked δ) (alloc : Nat → Alloc) (t : Int) (ht : 0 ≤ t ∧ t < 2 ^ 32)
    (hparse : ∀ k q, (dev k q).1.HasSense → ∃ sn, parse (padded 255 (dev k q).1.answer.sense) = .ok sn)
    {p : Client σ (Command Req (Option Bytes) R) (Except (Exn (DevErr S)) (Option (Val (Option Bytes) (DevErr S) R))) A} {ok : σ → Prop}
    (hok : ∀ s, ok s → ∀ q, (p.ask s).request = .ok q → LinuxOk alloc q) (s : σ) (w : W Handle K (Option Bytes) (DevErr S) (World (δ × Option Bytes))) (k : δ)
    (hw : LinuxIdle w.st w.os k) (a : A) (n : Nat) :
    let M := machine (T := T) (Linux.sgBlocking (lp64 l) parse (sgLink l dev)).plat (Linux.prepare (lp64 l) alloc t)
    (∀ k', p.Runs ok (DirectLink parse dev) s k a k' n → ∃ w', p.Runs ok (Through M) s w a w' n ∧ LinuxIdle w'.st w'.os k') ∧
    (∀ w', p.Runs ok (Through M) s w a w' n → ∃ k', p.Runs ok (DirectLink parse dev) s k a k' n ∧ LinuxIdle w'.st w'.os k') := by
  intro M
  have hS := fun (c : Command Req (Option Bytes) R) w k (hc : ∀ q, c.request = .ok q → LinuxOk alloc q) hw =>
    C107_session (T := T) (K := K) l parse dev alloc t ht hparse [c] (fun c' h => by rw [List.mem_singleton.1 h]; exact hc) w k hw
  constructor
  · intro k' h
    exact runs_sim (exec₂ := Through M) (rel := fun (k : δ) (w : W Handle K (Option Bytes) (DevErr S) (World (δ × Option Bytes))) => LinuxIdle w.st w.os k)
      (fun s ho k w r k' hw he => by
        obtain ⟨w', h1, h2⟩ := hS (p.ask s) w k (hok s ho) hw
        rw [DirectLink] at he
        rw [he] at h1 h2
        exact ⟨w', h1, h2⟩) h w hw
  · intro w' h
    exact runs_sim (exec₂ := DirectLink parse dev) (rel := fun (w : W Handle K (Option Bytes) (DevErr S) (World (δ × Option Bytes))) (k : δ) => LinuxIdle w.st w.os k)
      (fun s ho w k r w' hw he => by
        obtain ⟨w₁, h1, h2⟩ := hS (p.ask s) w k (hok s ho) hw
        obtain ⟨e1, e2⟩ := runAll_unique he h1
        exact ⟨_, Prod.ext e1 rfl, by rw [← e2]; exact h2⟩) h k hw

/-- In the manner of

    except AsiSCSIError as e:
        if type(e) is AsiSCSIError:
            continue
-/
def isPlain : Seen → Bool
  | .error (.dev .scsi) => true
  | _ => false

theorem told_fine (c : Req) (ans : Answer) : told getSense c ⟨ans, 0, 0⟩ = Platform.outcome getSense c ans := by
  simp only [told, Platform.outcome, Report.HasSense, Report.Fine]
  by_cases h1 : ans.status.toNat / 2 % 2 = 1
  · simp only [h1, true_or, if_true]
    rfl
  · by_cases h2 : ans.status = 0 <;> simp [h1, h2]

theorem told_plain (c : Req) (f : Fault) (h : f.Plain) : told getSense c ⟨⟨f.status, [], f.data⟩, f.host, f.driver⟩ = .error (.dev .scsi) := by
  obtain ⟨h1, h2, h3, h4⟩ := h
  simp only [told, Report.HasSense, Report.Fine]
  rw [if_neg (by omega), if_neg h3, if_neg (fun h => (h4 h.1).1 h.2), if_neg (fun h => (h4 h.1).2 h.2)]

theorem shown_plain {r : Seen} {reply : Reply} (h : Shows r reply) : isPlain r = false := by
  cases reply with
  | failed => obtain ⟨_, _, rfl, -⟩ := h; rfl
  | capacity => obtain ⟨_, rfl, -⟩ := h; rfl
  | ready => rw [show r = _ from h]; rfl
  | data => rw [show r = _ from h]; rfl
  | done => rw [show r = _ from h]; rfl

/-- All faults are of the kind the program expects. -/
abbrev AllPlain (fs : List (Option Fault)) : Prop := ∀ f, some f ∈ fs → f.Plain

section direct

variable (L : Lib) (B : Parse.BufLib) (other : Bytes → Py (List (String × Int))) {g : Geometry} (hg : Valid g)
include hg

/-- One command. -/
theorem unreliable_direct {c : Cmd} {op : Op} (h : Asks g c op) (s : State) (hp : AllPlain s.faults) :
    (s.faults.headD none = none ∧ ∃ r : Seen, DirectLink getSense (unreliable g) (c.command L B other) s r ⟨(op.run g s.contents).2, s.faults.tail⟩ ∧ Shows r (op.run g s.contents).1) ∨
    ∃ f, s.faults = some f :: s.faults.tail ∧
      ∃ r : Seen, DirectLink getSense (unreliable g) (c.command L B other) s r ⟨partly g f.which s.contents (op.run g s.contents).2, s.faults.tail⟩ ∧ isPlain r = true := by
  obtain ⟨q, hq, hm, hs⟩ := step L B other s.contents hg outcome_delivers h
  cases hf : s.faults.headD none with
  | none =>
    refine .inl ⟨rfl, _, ?_, hs⟩
    simp only [DirectLink, askLinked, hq, unreliable, hf, told_fine, hm]
  | some f =>
    have hcons : s.faults = some f :: s.faults.tail := by
      cases h : s.faults with
      | nil => rw [h] at hf; cases hf
      | cons a as => rw [h] at hf; rw [show a = some f from hf]; rfl
    refine .inr ⟨f, hcons, .error (.dev .scsi), ?_, rfl⟩
    have := told_plain q f (hp f (by rw [hcons]; exact List.mem_cons_self ..))
    simp only [DirectLink, askLinked, hq, unreliable, hf, this, hm]
    rfl

/-- The attempts at one command. -/
theorem attempts {p : Client σ Cmd Seen A} {ok : σ → Prop} {s : σ} (ho : ok s) {op : Op} (hask : Asks g (p.ask s) op) (ha : Again op) : ∀ (fs : List (Option Fault)) (m : Contents), AllPlain fs →
    ∃ (fs' : List (Option Fault)) (j : Nat) (r : Seen), fs' = fs.drop (j + 1) ∧ ahead fs = j + ahead fs' ∧ Shows r (op.run g m).1 ∧
      (∀ a, p.next s r = .inr a → (on L B other (patient isPlain p)).Runs ok (DirectLink getSense (unreliable g)) s ⟨m, fs⟩ a ⟨(op.run g m).2, fs'⟩ (j + 1)) ∧
      ∀ s' a k n, p.next s r = .inl s' → (on L B other (patient isPlain p)).Runs ok (DirectLink getSense (unreliable g)) s' ⟨(op.run g m).2, fs'⟩ a k n →
        (on L B other (patient isPlain p)).Runs ok (DirectLink getSense (unreliable g)) s ⟨m, fs⟩ a k (n + j + 1) := by
  intro fs
  induction fs with
  | nil =>
    intro m hp
    rcases unreliable_direct L B other hg hask ⟨m, []⟩ hp with ⟨-, r, h1, h2⟩ | ⟨f, h, -⟩
    · refine ⟨[], 0, r, rfl, rfl, h2, fun a h => .done ho h1 ?_, fun s' a k n h h' => .more ho h1 ?_ h'⟩ <;>
      · show (if isPlain r then _ else _) = _
        rw [shown_plain h2]
        exact h
    · cases h
  | cons x fs ih =>
    intro m hp
    rcases unreliable_direct L B other hg hask ⟨m, x :: fs⟩ hp with ⟨hx, r, h1, h2⟩ | ⟨f, hx, r, h1, h2⟩
    · rw [show x = none from hx]
      rw [show x = none from hx] at h1
      refine ⟨fs, 0, r, rfl, by simp [ahead], h2, fun a h => .done ho h1 ?_, fun s' a k n h h' => .more ho h1 ?_ h'⟩ <;>
      · show (if isPlain r then _ else _) = _
        rw [shown_plain h2]
        exact h
    · rw [show x = some f from (List.cons.inj hx).1]
      rw [show x = some f from (List.cons.inj hx).1] at h1
      obtain ⟨fs', j, r', hdrop, h3, h4, h5, h6⟩ := ih (partly g f.which m (op.run g m).2) fun f h => hp f (List.mem_cons_of_mem _ h)
      rw [Aborted.run_again g f.which m ha] at h4 h5 h6
      have hnext : (on L B other (patient isPlain p)).next s r = .inl s := by
        show (if isPlain r then _ else _) = _
        rw [h2]; rfl
      refine ⟨fs', j + 1, r', hdrop, ?_, h4, fun a h => .more ho h1 hnext (h5 a h), fun s' a k n h h' => .more ho h1 hnext (h6 s' a k n h h')⟩
      rw [show ahead (some f :: fs) = ahead fs + 1 from by simp [ahead], h3]
      omega

theorem repeated_direct {p : Client σ Cmd Seen A} {q : Client σ Op Reply A'} {ok : σ → Prop} {Rel : A → A' → Prop} (hask : ∀ s, ok s → Asks g (p.ask s) (q.ask s))
    (hagain : ∀ s, ok s → Again (q.ask s)) (hnext : ∀ s r reply, ok s → Shows r reply → Along Rel (p.next s r) (q.next s reply)) {s : σ} {m m' : Contents} {a' : A'} {n : Nat}
    (h : q.Runs ok (OnArray g) s m a' m' n) : ∀ fs : List (Option Fault), AllPlain fs → ∃ a fs' j, Rel a a' ∧ fs' = fs.drop (n + j) ∧ ahead fs = j + ahead fs' ∧
      (on L B other (patient isPlain p)).Runs ok (DirectLink getSense (unreliable g)) s ⟨m, fs⟩ a ⟨m', fs'⟩ (n + j) := by
  induction h with
  | @done s m reply m' a' ho hd hn =>
    intro fs hp
    obtain ⟨fs', j, r, h0, h1, h2, h3, -⟩ := attempts L B other hg (p := p) ho (hask s ho) (hagain s ho) fs m hp
    rw [OnArray] at hd
    rw [hd] at h2 h3
    have h5 := hnext s r reply ho h2
    rw [hn] at h5
    cases hp : p.next s r with
    | inl s' => rw [hp] at h5; exact h5.elim
    | inr a => rw [hp] at h5; exact ⟨a, fs', j, h5, by rw [Nat.add_comm]; exact h0, h1, by rw [Nat.add_comm]; exact h3 a hp⟩
  | @more s m reply m' s' a' m'' n ho hd hn _ ih =>
    intro fs hpl
    obtain ⟨fs', j, r, h0, h1, h2, -, h3⟩ := attempts L B other hg (p := p) ho (hask s ho) (hagain s ho) fs m hpl
    rw [OnArray] at hd
    rw [hd] at h2 h3
    have h5 := hnext s r reply ho h2
    rw [hn] at h5
    cases hp : p.next s r with
    | inl s1 =>
      rw [hp] at h5
      obtain ⟨a, fs'', i, h6, h9, h7, h8⟩ := ih fs' fun f h => hpl f (List.mem_of_mem_drop (h0 ▸ h))
      refine ⟨a, fs'', i + j, h6, ?_, by omega, ?_⟩
      · rw [h9, h0, List.drop_drop]
        exact congrArg (fs.drop ·) (by omega)
      rw [← show s1 = s' from h5] at h8
      have := h3 s1 a _ (n + i) hp h8
      rw [show n + 1 + (i + j) = n + i + j + 1 by omega]
      exact this
    | inr a => rw [hp] at h5; exact h5.elim

end direct

theorem unreliable_parses (g : Geometry) (k : State) (q : OsRequest) (h : (unreliable g k q).1.HasSense) :
    ∃ sn, getSense (padded 255 (unreliable g k q).1.answer.sense) = .ok sn := by
  have hz : ∃ sn, getSense (padded 255 []) = .ok sn := by
    have h : (getSense (padded 255 [])).isOk = true := by decide +kernel
    cases hx : getSense (padded 255 []) with
    | ok sn => exact ⟨sn, rfl⟩
    | error e => rw [hx] at h; cases h
  simp only [unreliable] at h ⊢
  cases hf : k.faults.headD none with
  | none =>
    rw [hf] at h
    simp only [Report.HasSense] at h
    exact disk_parses g k.contents q (by intro h0; rw [h0] at h; simp at h)
  | some f => exact hz

/-- **C107, programs.** `q` is a program on an array of bytes that does not use COMPARE AND WRITE; `p` is the same program with command objects of the library, and gives each
again while it ends with `AsiSCSIError` (and no subclass of it). Whichever commands fail on the way to the disk or back, with whatever host status, driver status and SCSI status that say so
without sense data, and however far they came: when `q` ends, `p` ends, in one way only, with the same result, leaving the same contents; it executed as many commands more as failed. -/
theorem C107_programs [DecidableEq K] (l : Bool) (alloc : Nat → Alloc) (t : Int) (ht : 0 ≤ t ∧ t < 2 ^ 32) (L : Lib) (B : Parse.BufLib) (other : Bytes → Py (List (String × Int)))
    (g : Geometry) (hg : Valid g) (p : Client σ Cmd Seen A) (q : Client σ Op Reply A') (ok : σ → Prop) (Rel : A → A' → Prop)
    (hask : ∀ s, ok s → Asks g (p.ask s) (q.ask s)) (hagain : ∀ s, ok s → Again (q.ask s)) (hfit : ∀ s, ok s → ∀ r, Cdb.request L (p.ask s).cdb = .ok r → LinuxOk alloc r)
    (hnext : ∀ s r reply, ok s → Shows r reply → Along Rel (p.next s r) (q.next s reply))
    (w : W Handle K (Option Bytes) (DevErr Sense) (World (State × Option Bytes))) (m m' : Contents) (fs : List (Option Fault)) (hplain : ∀ f, some f ∈ fs → f.Plain)
    (hw : LinuxIdle w.st w.os ⟨m, fs⟩) (s : σ) (a' : A') (n : Nat) (h : q.Runs ok (OnArray g) s m a' m' n) :
    let Runs := fun a w' N => (on L B other (patient isPlain p)).Runs ok (Through (machine (T := T) (Linux.sgBlocking (lp64 l) getSense (sgLink l (unreliable g))).plat (Linux.prepare (lp64 l) alloc t))) s w a w' N
    (∃ a w' N, Runs a w' N) ∧ ∀ a w' N, Runs a w' N → Rel a a' ∧ LinuxIdle w'.st w'.os ⟨m', fs.drop N⟩ ∧ N + ahead (fs.drop N) = n + ahead fs := by
  obtain ⟨a, _, j, h1, rfl, h2, h3⟩ := repeated_direct L B other hg hask hagain hnext h fs hplain
  have same := fun a N => same_link (T := T) (K := K) l getSense (unreliable g) alloc t ht (unreliable_parses g) (p := on L B other (patient isPlain p)) (ok := ok) hfit s w ⟨m, fs⟩ hw a N
  obtain ⟨w', h4, -⟩ := (same a (n + j)).1 ⟨m', fs.drop (n + j)⟩ h3
  refine ⟨⟨a, w', n + j, h4⟩, fun a₁ w₁ N₁ h => ?_⟩
  obtain ⟨k₁, h5, h6⟩ := (same a₁ N₁).2 w₁ h
  obtain ⟨rfl, rfl, rfl⟩ := runs_unique link_unique h3 h5
  exact ⟨h1, h6, by omega⟩

/-! The hypotheses are met. -/

/-- A computer with a disk of 1000 blocks of 512 bytes. -/
def start (m : Contents) (fs : List (Option Fault)) : W Handle Unit (Option Bytes) (DevErr Sense) (World (State × Option Bytes)) :=
  { st := { pending := [], index := 6, maxq := 7 }, os := { mem := fun _ => 0xEE, kernel := (⟨m, fs⟩, none) }, fired := [], box := fun _ => [] }

abbrev computer := machine (R := Result) (T := Unit) (Linux.sgBlocking (K := Unit) (lp64 true) getSense (sgLink true (unreliable ⟨512, 1000⟩))).plat (Linux.prepare (lp64 true) Aborted.room 30000)

/-- The host adapter lost the connection (DID_NO_CONNECT) before anything was written. -/
def noConnect : Fault := { status := 0, host := 1, driver := 0, data := [], which := fun _ => false }

/-- The command timed out (DID_TIME_OUT, DRIVER_TIMEOUT) when every other block was written. -/
def timeout : Fault := { status := 0, host := 3, driver := 6, data := [1, 2, 3], which := fun b => b % 2 == 0 }

/-- The device was busy. -/
def busy : Fault := { status := 8, host := 0, driver := 0, data := [], which := fun _ => false }

theorem all_plain : ∀ f, some f ∈ [some noConnect, none, some timeout, some busy] → f.Plain := by
  intro f h
  simp only [List.mem_cons, Option.some.injEq, List.not_mem_nil, or_false, reduceCtorEq, false_or] at h
  rcases h with rfl | rfl | rfl <;> simp [Fault.Plain, noConnect, timeout, busy]

/-- The connection is lost, the disk is asked again and is ready; then WRITE(16) of two blocks times out, finds the device busy, and is carried out. -/
example (L : Lib) (B : Parse.BufLib) (other : Bytes → Py (List (String × Int))) (m : Contents) (data : Bytes) (hd : data.length = 2 * 512) :
    let p : Client Bool Cmd Seen Seen := { ask := fun b => if b then .write16 7 data 512 else .testUnitReady, next := fun b r => if b then .inr r else .inl true }
    ∃ a w', (on L B other (patient isPlain p)).Runs (fun _ => True) (Through computer) false (start m [some noConnect, none, some timeout, some busy]) a w' 5 ∧
      Shows a .done ∧ LinuxIdle w'.st w'.os ⟨writeAt m (7 * 512) data, []⟩ := by
  intro p
  have hsmall : ∀ b, ∀ q, Cdb.request L (p.ask b).cdb = .ok q → LinuxOk Aborted.room q := by
    intro b q hq
    cases b with
    | true =>
      obtain ⟨-, c, -, -, -, rfl⟩ := (Cdb.C28_write16 L 7 data 512 q).1 hq
      exact example_fits _ ⟨by simp [Req.cdb, Spec.Cdb.write16, cdb16], by simp only [dataSize, hd]; decide⟩
    | false =>
      cases (Cdb.C36_test_unit_ready L).symm.trans hq
      exact ⟨by decide, by decide, fun _ => ⟨by simp [dataSize, Req.cdb], by simp⟩⟩
  let q : Client Bool Op Reply Reply := { ask := fun b => if b then .write 7 data else .ready, next := fun b r => if b then .inr r else .inl true }
  have hrun : q.Runs (fun _ => True) (OnArray ⟨512, 1000⟩) false m .done (writeAt m (7 * 512) data) 2 := by
    refine .more (s' := true) (w' := m) (r := .ready) trivial (show Op.run ⟨512, 1000⟩ m .ready = _ from rfl) rfl (.done (r := .done) trivial ?_ rfl)
    simp only [q, if_true, OnArray, Op.run, hd, Nat.reduceMul, Nat.reduceDiv, Nat.reduceAdd, Nat.reduceLeDiff]
  obtain ⟨⟨a, w', N, h1⟩, h2⟩ := C107_programs (T := Unit) (K := Unit) true Aborted.room 30000 (by decide) L B other
    ⟨512, 1000⟩ ⟨by decide, by decide⟩ p q (fun _ => True) Shows
    (fun b _ => by
      cases b with
      | true => exact .write16 (g := ⟨512, 1000⟩) (by decide) hd (by decide)
      | false => exact .ready) (fun b _ => by cases b <;> exact trivial) (fun b _ => hsmall b)
    (fun b r reply _ hs => by
      cases b with
      | true => exact hs
      | false => rfl)
    (start m [some noConnect, none, some timeout, some busy]) m (writeAt m (7 * 512) data) [some noConnect, none, some timeout, some busy] all_plain
    ⟨rfl, by simp [start], by simp [start], by simp [start], rfl⟩ false .done 2 hrun
  obtain ⟨h3, h4, h5⟩ := h2 a w' N h1
  have hN : N = 5 := by
    match N, h5 with
    | 0, h => exact absurd h (by decide)
    | 1, h => exact absurd h (by decide)
    | 2, h => exact absurd h (by decide)
    | 3, h => exact absurd h (by decide)
    | N + 4, h => simp [ahead] at h; omega
  subst hN
  exact ⟨a, w', h1, h3, h4⟩

/-- A session: the first READ(16) finds no connection, the second one a target that reports sense data by way of the driver status, the third is answered. -/
example (L : Lib) (B : Parse.BufLib) (other : Bytes → Py (List (String × Int))) :
    let dev : Linked Nat := fun k _ => (⟨if k = 1 then ⟨0, [0x70, 0, 6], []⟩ else if k = 2 then ⟨0, [], [7, 7]⟩ else ⟨0, [], [1]⟩, if k = 0 then 1 else 0, if k = 1 then 8 else 0⟩, k + 1)
    let c := (Cmd.read16 0 1 512).command L B other
    ∃ sn w', RunAll (machine (R := Result) (T := Unit) (Linux.sgBlocking (K := Unit) (lp64 false) (fun b => .ok (some b)) (sgLink false dev)).plat (Linux.prepare (lp64 false) Aborted.room 30000)) [c, c, c]
      { st := { pending := [], index := 6, maxq := 7 }, os := { mem := fun _ => 0xEE, kernel := (0, none) }, fired := [], box := fun _ => [] }
      [.error (.dev .scsi), .error (.dev (.checkCondition (padded 255 [0x70, 0, 6]) (some sn))), .ok (some (.obj (.raw (some (padded 512 [7, 7])))))] w' := by
  intro dev c
  have hq : c.request = .ok (.read (Spec.Cdb.read16 0 1) 512) := Cdb.C26_read16 L 0 1 512 ⟨by omega, by omega⟩ ⟨by omega, by omega⟩
  obtain ⟨w', h, -⟩ := C107_session (T := Unit) (K := Unit) false (fun b => .ok (some b)) dev Aborted.room 30000 (by decide) (fun _ _ _ => ⟨_, rfl⟩) [c, c, c]
    (fun c' h q h' => by
      simp only [List.mem_cons, List.not_mem_nil, or_false, or_self] at h
      subst h
      cases hq.symm.trans h'
      exact example_fits _ ⟨by simp [Req.cdb, Spec.Cdb.read16, cdb16], by simp [dataSize]⟩)
    { st := { pending := [], index := 6, maxq := 7 }, os := { mem := fun _ => 0xEE, kernel := (0, none) }, fired := [], box := fun _ => [] } 0
    ⟨rfl, by decide, by decide, by decide, rfl⟩
  refine ⟨padded 255 [0x70, 0, 6], w', ?_⟩
  have e0 : told (fun b => .ok (some b)) (.read (Spec.Cdb.read16 0 1) 512) (dev 0 (asked (.read (Spec.Cdb.read16 0 1) 512))).1 = .error (.dev .scsi) := by
    simp [told, dev, Report.HasSense, Report.Fine]
  have e1 : told (fun b => .ok (some b)) (.read (Spec.Cdb.read16 0 1) 512) (dev 1 (asked (.read (Spec.Cdb.read16 0 1) 512))).1 =
      .error (.dev (.checkCondition (padded 255 [0x70, 0, 6]) (some (padded 255 [0x70, 0, 6])))) := by
    simp [told, dev, Report.HasSense, Report.Fine]
  have e2 : told (fun b => .ok (some b)) (.read (Spec.Cdb.read16 0 1) 512) (dev 2 (asked (.read (Spec.Cdb.read16 0 1) 512))).1 = .ok (some (some (padded 512 [7, 7]))) := by
    simp [told, dev, delivered, Report.HasSense, Report.Fine]
  have hk : ∀ k q, (dev k q).2 = k + 1 := fun _ _ => rfl
  simp only [askLinked, hq, hk, e0, e1, e2] at h
  exact h

end Verif.Commands.Clients.Link
