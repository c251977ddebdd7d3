import Verif.Props.Linux
import Verif.Platform.Common
set_option linter.unusedSimpArgs false
/-!
# C52: the Linux sg executer is a faithful transport

An ideal device is put behind a model of the sg driver; every command executed through `call` reaches the device exactly once, exactly as
asked, and the caller gets exactly the device's answer. This also shows that the hypotheses of the C15 theorems are met for every
command.
-/

namespace Verif.Platform.Linux
open Verif.Executer Verif.Spec

variable {S κ δ K : Type}

/-- The sg driver in front of a device: a written header is decoded, the command is run, data and sense are stored through the header's
pointers, and the header with the SCSI status filled in waits to be read. -/
def sgDevice (l : Bool) (dev : Device δ) : SgDriver (δ × Option Bytes) :=
  { write := fun raw w =>
      match sgView l raw w.mem with
      | none => (.error .ioError, w)
      | some req =>
        let r := dev w.kernel.1 req
        let m := writeMem w.mem (word l raw 16 8) (r.1.data.take req.fromDevice)
        let m := writeMem m (sgSensePtr l raw) (r.1.sense.take req.senseRoom)
        (.ok (), { mem := m, kernel := (r.2, some (splice raw 64 [r.1.status])) })
    read := fun n w =>
      match w.kernel.2 with
      | none => (.error .ioError, w)
      | some raw => (.ok (raw.take n), { w with kernel := (w.kernel.1, none) }) }

/-- Splicing the status byte leaves every other field alone. -/
theorem load_splice_status (l : Bool) (raw : Bytes) (b : UInt8) (o z : Nat) (g : Bool) (h : o + z ≤ 64 ∨ 65 ≤ o) :
    load (lp64 l) ⟨"", o, z, g⟩ (splice raw 64 [b]) = load (lp64 l) ⟨"", o, z, g⟩ raw := by
  unfold load
  simp only
  rw [slice_splice_other (by simp only [List.length_singleton]; omega)]

theorem status_splice (raw : Bytes) (b : UInt8) (h : raw.length = 88) : sgStatus (splice raw 64 [b]) = b.toNat := by
  rw [sgStatus, word_lp64]
  unfold load
  have h2 := slice_splice_same (raw := raw) (off := 64) (new := [b]) (by simp only [List.length_singleton]; omega)
  simp only [List.length_singleton] at h2
  simp only [h2]
  simp [nativeNat, lp64, beNat]

/-- **C52 (one command)**: the device is asked exactly what the command asks, once; and the caller gets the device's answer. -/
theorem C52_linux (l : Bool) (parse : Bytes → Py (Option S)) (dev : Device δ) (alloc : Nat → Alloc) (t : Int) (c : Req)
    (s : St Handle (Option K)) (m : Mem) (k : δ) (old : Option Bytes) (hs : s.pending = []) (hq : 0 < s.maxq) (hidx : s.index < 2 ^ 31)
    (hcdb : c.cdb.length ≤ 255) (hd : dataSize c < 2 ^ 32) (ht : 0 ≤ t ∧ t < 2 ^ 32)
    (hsep : Separate 64 [((alloc s.index).block, 88), ((alloc s.index).sense, 255), ((alloc s.index).cmd, c.cdb.length),
      ((alloc s.index).data, dataSize c)]) :
    let r := sgCall l parse (sgDevice l dev) alloc t c s { mem := m, kernel := (k, old) }
    r.out = outcome parse c (dev k (asked c)).1 ∧ r.os.kernel = ((dev k (asked c)).2, none) ∧
    ((∀ e, r.out ≠ .error (.py e)) → r.st = { s with index := (s.index + 1) % s.maxq }) := by
  intro r
  have hap := handle_apart l (alloc s.index) s.index c t hsep
  have hb := hsep.2
  simp only [List.mem_cons, List.not_mem_nil, or_false, forall_eq_or_imp, forall_eq] at hb
  obtain ⟨-, hb2, hb3, hb4⟩ := hb
  have hf := create_fields l (alloc s.index) s.index c t hidx hcdb hd ht hb2 hb3 hb4
  obtain ⟨hv, hpk, -, hsp⟩ := C18_linux l (alloc s.index) s.index c t m hidx hcdb hd ht hsep
  have hdata : ∀ n cdb, c = .read cdb n → n > 0 →
      (create (lp64 l) (alloc s.index) s.index c t).data = some ((alloc s.index).data, zeros n.toNat) := by
    intro n cdb hc hn
    rw [create_data, hc, bufOf, if_pos hn]
  have hcd := create_data (lp64 l) (alloc s.index) s.index c t
  have hse := install_sense hap m
  have hin := fun x d h => install_data hap m (x := x) (d := d) h
  have hib := install_block (create (lp64 l) (alloc s.index) s.index c t) m
  have hr : r = call (prepare (lp64 l) alloc t c) (sgSend (sgDevice l dev)) (sgReceive (lp64 l) parse (sgDevice l dev)) s
    { mem := m, kernel := (k, old) } := rfl
  rw [call_idle _ _ _ s _ hs hq _ (show prepare (lp64 l) alloc t c s.index = .ok _ from rfl)] at hr
  have hsi := create_senseInit (lp64 l) (alloc s.index) s.index c t
  have hba := create_blockAddr (lp64 l) (alloc s.index) s.index c t
  have hsa := create_senseAddr (lp64 l) (alloc s.index) s.index c t
  have hsz : (create (lp64 l) (alloc s.index) s.index c t).senseInit = zeros 255 := rfl
  generalize create (lp64 l) (alloc s.index) s.index c t = h at *
  generalize alloc s.index = al at *
  -- the request reaches the device
  have hsend : sgSend (sgDevice l dev) h { mem := m, kernel := (k, old) } =
      (.ok (), { mem := writeMem (writeMem (h.install m) (word l h.block 16 8) ((dev k (asked c)).1.data.take (asked c).fromDevice))
                    al.sense ((dev k (asked c)).1.sense.take 255),
                 kernel := ((dev k (asked c)).2, some (splice h.block 64 [(dev k (asked c)).1.status])) }) := by
    simp only [sgSend, sgDevice]
    rw [hv]
    simp only [hsp]
    cases c <;> rfl
  rw [hsend] at hr
  simp only [sgReceive, sizeValue, sgDevice] at hr
  rw [show (splice h.block 64 [(dev k (asked c)).1.status]).take 88 = splice h.block 64 [(dev k (asked c)).1.status] from
    List.take_of_length_le (by rw [splice_length, hf.len]; exact Nat.le_refl _)] at hr
  have hlen : 88 ≤ (splice h.block 64 [(dev k (asked c)).1.status]).length := by rw [splice_length, hf.len]; exact Nat.le_refl _
  have e1 := status_splice h.block (dev k (asked c)).1.status hf.len
  have e2 : sgHostStatus l (splice h.block 64 [(dev k (asked c)).1.status]) = 0 := by
    rw [sgHostStatus, word_lp64, load_splice_status _ _ _ _ _ _ (by omega), hf.host]; rfl
  have e3 : sgDriverStatus l (splice h.block 64 [(dev k (asked c)).1.status]) = 0 := by
    rw [sgDriverStatus, word_lp64, load_splice_status _ _ _ _ _ _ (by omega), hf.driver]; rfl
  have e4 : sgPackId l (splice h.block 64 [(dev k (asked c)).1.status]) = s.index := by
    rw [sgPackId, sword_lp64, load_splice_status _ _ _ _ _ _ (by omega), hf.packId]
  have e5 : sgSensePtr l (splice h.block 64 [(dev k (asked c)).1.status]) = al.sense := by
    rw [sgSensePtr, word_lp64, load_splice_status _ _ _ _ _ _ (by omega), hf.sensePtr]; rfl
  rw [handle_eq l parse _ _ _ hlen, e1, e2, e3, e4, e5] at hr
  generalize (dev k (asked c)).1 = ans at *
  generalize (dev k (asked c)).2 = k' at *
  obtain ⟨hp, -⟩ := hsep
  simp only [List.pairwise_cons, List.mem_cons, List.not_mem_nil, or_false, forall_eq_or_imp, forall_eq] at hp
  obtain ⟨⟨h1, h2, h3⟩, ⟨h4, h5⟩, h6, -⟩ := hp
  -- the data goes to the data buffer
  have hptr : word l h.block 16 8 = al.data ∨ (asked c).fromDevice = 0 := by
    rw [word_lp64, hf.dataPtr]
    cases c with
    | read cdb n =>
      by_cases hn : n > 0
      · left; simp [dirOf, hn]
      · right; simp only [asked]; omega
    | write cdb d => right; rfl
  have hM : ∃ M, M = writeMem (writeMem (h.install m) (word l h.block 16 8) (ans.data.take (asked c).fromDevice)) al.sense (ans.sense.take 255) ∧
      M = writeMem (writeMem (h.install m) al.data (ans.data.take (asked c).fromDevice)) al.sense (ans.sense.take 255) := by
    refine ⟨_, rfl, ?_⟩
    rcases hptr with hptr | hptr
    · rw [hptr]
    · rw [hptr]
      have hnil : ∀ x, writeMem (h.install m) x (ans.data.take 0) = h.install m := by
        intro x; exact writeMem_nil _ _
      rw [hnil, hnil]
  obtain ⟨M, hM1, hM2⟩ := hM
  rw [← hM1] at hr
  have hfd : (asked c).fromDevice ≤ dataSize c := by
    cases c with
    | read cdb n => exact Nat.le_refl _
    | write cdb d => exact Nat.zero_le _
  have F1 : readMem M al.sense 255 = padded 255 ans.sense := by
    rw [hM2]
    apply readMem_padded
    rw [readMem_writeMem_other (by rw [List.length_take]; omega), ← hsa, ← hsi, hse, hsi, hsz]
  have F2 : readMem M h.blockAddr 88 = h.block := by
    rw [hM2, readMem_writeMem_other (by rw [List.length_take]; omega), readMem_writeMem_other (by rw [List.length_take]; omega)]
    rw [← hf.len]; exact hib
  have F3 : ∀ cdb n, c = .read cdb n → n > 0 → readMem M al.data n.toNat = padded n.toNat ans.data := by
    intro cdb n hc hn
    rw [hM2, readMem_writeMem_other (by rw [List.length_take]; rw [hc] at h5; simp only [dataSize] at h5; omega), hc]
    apply readMem_padded
    have := hin al.data (zeros n.toNat) (hdata n cdb hc hn)
    rwa [zeros_length] at this
  have hget : getOs (oneFlight s h) (s.index : Int) = some h := by
    simp [getOs, getOsData, oneFlight, Dict.get]
  have hsd := successData_eq l al s.index c t h M hf hcd F2
  rw [F1, hget, hsd] at hr
  have hmatch : ans.status.toNat = 0 ↔ ans.status = 0 := by
    constructor
    · intro hx; exact UInt8.toNat_inj.mp hx
    · intro hx; rw [hx]; rfl
  unfold outcome
  simp only [and_2, Nat.zero_and, ne_eq, not_true_eq_false, or_false, if_false] at hr
  by_cases c1 : ans.status.toNat / 2 % 2 = 1
  · simp only [c1, if_true, checkCondition] at hr ⊢
    cases hpp : parse (padded 255 ans.sense) with
    | error e =>
      rw [hpp] at hr
      simp only [toRecv] at hr
      rw [hr]
      refine ⟨rfl, rfl, ?_⟩
      intro hx; exact absurd rfl (hx e)
    | ok sn =>
      rw [hpp] at hr
      simp only [toRecv, Int.natCast_nonneg, if_true, Int.toNat_natCast] at hr
      rw [hr]
      exact ⟨rfl, rfl, fun _ => rfl⟩
  · by_cases c2 : ans.status = 0
    · have c3 := hmatch.2 c2
      rw [if_neg c1] at hr
      simp only [c3, if_false, not_true_eq_false] at hr
      simp only [c1, c2, if_false, ne_eq, not_true_eq_false]
      simp only [toRecv, Int.natCast_nonneg, if_true, Int.toNat_natCast] at hr
      rw [hr]
      have hdb : dataBack c M al.data = delivered c ans := by
        cases c with
        | read cdb n =>
          simp only [delivered, dataBack]
          by_cases hn : n > 0
          · rw [if_pos hn, if_pos hn, F3 cdb n rfl hn]
          · rw [if_neg hn, if_neg hn]
        | write cdb d => rfl
      rw [hdb]
      exact ⟨rfl, rfl, fun _ => rfl⟩
    · have c3 : ¬ ans.status.toNat = 0 := fun hx => c2 (hmatch.1 hx)
      simp only [c1, c2, c3, if_false, not_false_eq_true, if_true, ne_eq] at hr ⊢
      simp only [toRecv, Int.natCast_nonneg, if_true, Int.toNat_natCast, Nat.reduceEqDiff, if_false] at hr
      rw [hr]
      exact ⟨rfl, rfl, fun _ => rfl⟩

/-- Commands executed one after another on the same executer: what each `call` returns or raises. -/
def runSg (l : Bool) (parse : Bytes → Py (Option S)) (k : SgDriver κ) (alloc : Nat → Alloc) (t : Int) :
    List Req → St Handle (Option K) → World κ → List (Except (Exn (DevErr S)) (Option (Option Bytes)))
  | [], _, _ => []
  | c :: cs, s, w =>
    let r := sgCall l parse k alloc t c s w
    r.out :: runSg l parse k alloc t cs r.st r.os

/-- **C52**: a whole session. Every command of any sequence, executed one after another on an idle sg executer, gets the answer the
device gives when asked directly: no answer is lost, repeated or given to another command. (`parse` not raising is what lets the
executer go on; a sense buffer that cannot be decoded leaves its command pending.) -/
theorem C52_session (l : Bool) (parse : Bytes → Py (Option S)) (dev : Device δ) (alloc : Nat → Alloc) (t : Int) (cs : List Req)
    (s : St Handle (Option K)) (m : Mem) (k : δ) (old : Option Bytes)
    (hparse : ∀ k q, (dev k q).1.status.toNat / 2 % 2 = 1 → ∃ sn, parse (padded 255 (dev k q).1.sense) = .ok sn)
    (hs : s.pending = []) (hq : 0 < s.maxq) (hmax : s.maxq ≤ 2 ^ 31) (hidx : s.index < s.maxq) (ht : 0 ≤ t ∧ t < 2 ^ 32)
    (hcs : ∀ c ∈ cs, c.cdb.length ≤ 255 ∧ dataSize c < 2 ^ 32 ∧ ∀ i, Separate 64 [((alloc i).block, 88), ((alloc i).sense, 255),
      ((alloc i).cmd, c.cdb.length), ((alloc i).data, dataSize c)]) :
    runSg l parse (sgDevice l dev) alloc t cs s { mem := m, kernel := (k, old) } = expected parse dev cs k := by
  induction cs generalizing s m k old with
  | nil => rfl
  | cons c cs ih =>
    obtain ⟨h1, h2, h3⟩ := hcs c (List.mem_cons_self ..)
    obtain ⟨r1, r2, r3⟩ := C52_linux l parse dev alloc t c s m k old hs hq (by omega) h1 h2 ht (h3 s.index)
    simp only [runSg, expected]
    have hne : ∀ e, outcome parse c (dev k (asked c)).1 ≠ .error (.py e) := outcome_ne parse c _ (hparse k (asked c))
    rw [r1, r3 (by rw [r1]; exact hne)]
    rw [show (sgCall l parse (sgDevice l dev) alloc t c s { mem := m, kernel := (k, old) }).os =
      { mem := (sgCall l parse (sgDevice l dev) alloc t c s { mem := m, kernel := (k, old) }).os.mem,
        kernel := ((dev k (asked c)).2, none) } by rw [← r2]]
    rw [ih { s with index := (s.index + 1) % s.maxq } _ _ none hs hq hmax (Nat.mod_lt _ hq)
      (fun c' hc' => hcs c' (List.mem_cons_of_mem _ hc'))]

/-- A device that answers INQUIRY with eight bytes, anything else with CHECK CONDITION. -/
def toyDevice : Device Nat := fun n req =>
  if req.cdb.head? = some 0x12 then ({ status := 0, sense := [], data := [0, 0, 5, 2, 31, 0, 0, 0] }, n + 1)
  else ({ status := 2, sense := [0x70, 0, 5], data := [] }, n + 1)

/-- The hypotheses are met: an INQUIRY of 36 bytes, then a WRITE of four bytes. -/
example :
    runSg true (fun b => .ok (some b)) (sgDevice true toyDevice)
      (fun _ => { block := 4096, sense := 8192, cmd := 12288, data := 16384 }) 30000
      [.read [0x12, 0, 0, 0, 36, 0] 36, .write [0x2A, 0, 0, 0] [1, 2, 3, 4]]
      ({ pending := [], index := 0, maxq := 1 } : St Handle (Option Unit)) { mem := fun _ => 0xEE, kernel := (0, none) } =
    [.ok (some (some (padded 36 [0, 0, 5, 2, 31, 0, 0, 0]))),
     .error (.dev (.checkCondition (padded 255 [0x70, 0, 5]) (some (padded 255 [0x70, 0, 5]))))] := by
  rw [C52_session]
  · simp [expected, outcome, toyDevice, asked, delivered]
  · intro _ _ _; exact ⟨_, rfl⟩
  · rfl
  · decide
  · decide
  · decide
  · decide
  · intro c hc
    simp only [List.mem_cons, List.not_mem_nil, or_false] at hc
    rcases hc with rfl | rfl
    · refine ⟨by decide, by decide, fun _ => ⟨by simp [dataSize, Req.cdb], by simp⟩⟩
    · refine ⟨by decide, by decide, fun _ => ⟨by simp [dataSize, Req.cdb], by simp⟩⟩

end Verif.Platform.Linux
