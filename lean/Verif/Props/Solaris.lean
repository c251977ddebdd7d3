import Verif.Platform.SolarisLemmas
import Verif.CallLemmas
import Verif.Props.LinuxDevice
set_option linter.unusedSimpArgs false
/-!
# C18 (Solaris), C21, C53

The executer is used as `executers.py` creates it: `max_queue_size = 1`, so its packet number is always 0, the number
`_handle_raw_response` assumes.
-/

namespace Verif.Platform.Solaris
open Verif.Executer Verif.Spec

variable {S κ δ K : Type}

/-- One command on the Solaris executer. -/
def solCall (l : Bool) (parse : Bytes → Py (Option S)) (k : TargetDriver κ) (alloc : Nat → Alloc) (t : Int) (c : Req)
    (s : St Handle (Option K)) (w : SolWorld κ) : CallResult Handle (Option K) (Option Bytes) (DevErr S) (SolWorld κ) :=
  call (prepare (lp64 l) alloc t c) (osSend k) (osReceive (lp64 l) parse) s w

theorem status_eq (l : Bool) (raw : Bytes) (h : 6 ≤ raw.length) :
    (load (lp64 l) ⟨"", 4, 2, true⟩ raw % 256).toNat = uscsiStatus l raw := by
  obtain ⟨a, b, r, hr⟩ : ∃ a b r, raw.drop 4 = a :: b :: r := by
    have hlen : (raw.drop 4).length = raw.length - 4 := List.length_drop ..
    match hd : raw.drop 4 with
    | [] => rw [hd] at hlen; simp at hlen; omega
    | [_] => rw [hd] at hlen; simp at hlen; omega
    | a :: b :: r => exact ⟨a, b, r, rfl⟩
  have h5 : raw.drop 5 = b :: r := by
    have : raw.drop 5 = (raw.drop 4).drop 1 := by rw [List.drop_drop]
    rw [this, hr]; rfl
  have ha := a.toNat_lt
  have hb := b.toNat_lt
  rw [← sword_lp64, sword, toSigned]
  cases l
  · simp only [uscsiStatus, word, hr, h5, if_true, if_false, Bool.false_eq_true, List.take, List.reverse_cons, List.reverse_nil, List.nil_append, beNat,
      List.foldl_cons, List.foldl_nil]
    simp [beNat]
    split <;> omega
  · simp only [uscsiStatus, word, hr, h5, if_true, if_false, Bool.false_eq_true, List.take, List.reverse_cons, List.reverse_nil, List.nil_append]
    simp [beNat]
    split <;> omega

/-- The response classification, in terms of the block's bytes. -/
theorem handle_eq (l : Bool) (parse : Bytes → Py (Option S)) (req : Option Handle) (m : Mem) (raw : Bytes)
    (hlen : 64 ≤ raw.length) :
    handleRawResponse (lp64 l) parse req m raw =
      if uscsiStatus l raw &&& 2 ≠ 0 then
        match checkCondition parse (readMem m (uscsiSensePtr l raw) 255) with
        | .ok e => .ok (.exc e, 0)
        | .error e => .error e
      else if uscsiStatus l raw ≠ 0 then .ok (.exc .scsi, 0)
      else if uscsiRqStatus raw ≠ 0 then .ok (.exc .scsi, 0)
      else
        match successData (lp64 l) m req with
        | .ok d => .ok (.data d, 0)
        | .error e => .error e := by
  have hs := status_eq l raw (by omega)
  have hr : load (lp64 l) (fld (lp64 l) "uscsi_rqstatus") raw = (uscsiRqStatus raw : Int) := by
    rw [uscsiRqStatus, ← Linux.word_one l, word_lp64, fld_uscsi_rqstatus, Int.toNat_of_nonneg (load_nonneg ..)]; rfl
  have hb : uscsiSensePtr l raw = (load (lp64 l) (fld (lp64 l) "uscsi_rqbuf") raw).toNat := by
    rw [uscsiSensePtr, word_lp64, fld_uscsi_rqbuf]; rfl
  unfold handleRawResponse
  rw [sizeValue, if_neg (by omega), hr, ← hb]
  simp only [fld_uscsi_status, load_name _ "uscsi_status", hs, senseSize, ne_eq, Int.natCast_eq_zero]
  rfl

/-- **C21 (a)**: only a completion whose SCSI status and request-sense status are zero is handed over as data. -/
theorem C21_response (l : Bool) (parse : Bytes → Py (Option S)) (req : Option Handle) (m : Mem) (raw : Bytes)
    (d : Option Bytes) (i : Nat) (h : handleRawResponse (lp64 l) parse req m raw = .ok (.data d, i)) :
    64 ≤ raw.length ∧ uscsiStatus l raw = 0 ∧ uscsiRqStatus raw = 0 := by
  have hlen : 64 ≤ raw.length := by
    by_cases hl : 64 ≤ raw.length
    · exact hl
    · unfold handleRawResponse at h
      rw [sizeValue, if_pos (by omega)] at h; cases h
  rw [handle_eq l parse req m raw hlen] at h
  refine ⟨hlen, ?_⟩
  split at h
  · split at h <;> simp at h
  · split at h
    · simp at h
    · split at h
      · simp at h
      · rename_i h1 h2 h3
        exact ⟨by simpa using h2, by simpa using h3⟩

/-- What the driver gets: the code, the block (and a NUL byte), and the memory with the buffers in place. -/
def submitted (l : Bool) (k : TargetDriver κ) (alloc : Nat → Alloc) (t : Int) (c : Req) (i : Nat) (w : SolWorld κ) : Py Bytes × World κ :=
  let h := create (lp64 l) (alloc i) c t
  k.ioctl uscsiCmd (h.block ++ [0]) { w.world with mem := h.install w.world.mem }

theorem osSend_eq (l : Bool) (k : TargetDriver κ) (alloc : Nat → Alloc) (t : Int) (c : Req) (i : Nat) (w : SolWorld κ) :
    osSend k (create (lp64 l) (alloc i) c t) w =
      match submitted l k alloc t c i w with
      | (.error e, w') => (.error e, { world := w', buffer := some (create (lp64 l) (alloc i) c t).block })
      | (.ok raw, w') => (.ok (), { world := w', buffer := some raw }) := rfl

/-- **C21 (b)**: `call` returns normally only if the driver completed the command with zero SCSI and request-sense status. -/
theorem C21_call (l : Bool) (parse : Bytes → Py (Option S)) (k : TargetDriver κ) (alloc : Nat → Alloc) (t : Int) (c : Req)
    (s : St Handle (Option K)) (w : SolWorld κ) (hs : s.pending = []) (hq : 0 < s.maxq) (d : Option (Option Bytes))
    (h : (solCall l parse k alloc t c s w).out = .ok d) :
    ∃ raw w1, submitted l k alloc t c s.index w = (.ok raw, w1) ∧ 64 ≤ raw.length ∧ uscsiStatus l raw = 0 ∧ uscsiRqStatus raw = 0 := by
  unfold solCall at h
  rw [call_idle _ _ _ s w hs hq _ (show prepare (lp64 l) alloc t c s.index = .ok _ from rfl), osSend_eq] at h
  rcases hsub : submitted l k alloc t c s.index w with ⟨r, w1⟩
  rw [hsub] at h
  cases r with
  | error e => simp at h
  | ok raw =>
    simp only [osReceive] at h
    rcases hh : handleRawResponse (lp64 l) parse (getOsData (oneFlight s (create (lp64 l) (alloc s.index) c t)) 0) w1.mem raw with e | ⟨o, i⟩
    · rw [hh] at h; simp at h
    · rw [hh] at h
      simp only at h
      split at h
      · cases o with
        | exc e => simp at h
        | data d' =>
          obtain ⟨a, b, e⟩ := C21_response l parse _ _ raw d' i hh
          exact ⟨raw, w1, rfl, a, b, e⟩
      · simp at h

/-- **C21 (c)**: a completion with the check-condition bit raises `AsiCheckConditionError` with the sense buffer. -/
theorem C21_check_condition (l : Bool) (parse : Bytes → Py (Option S)) (k : TargetDriver κ) (alloc : Nat → Alloc) (t : Int) (c : Req)
    (s : St Handle (Option K)) (w : SolWorld κ) (w1 : World κ) (raw : Bytes) (sense : Option S) (hs : s.pending = []) (hq : 0 < s.maxq)
    (h0 : s.index = 0) (hsub : submitted l k alloc t c 0 w = (.ok raw, w1)) (hlen : 64 ≤ raw.length)
    (hptr : uscsiSensePtr l raw = (alloc 0).sense) (hc : uscsiStatus l raw / 2 % 2 = 1)
    (hp : parse (readMem w1.mem (alloc 0).sense 255) = .ok sense) :
    (solCall l parse k alloc t c s w).out = .error (.dev (.checkCondition (readMem w1.mem (alloc 0).sense 255) sense)) := by
  unfold solCall
  rw [call_idle _ _ _ s w hs hq _ (show prepare (lp64 l) alloc t c s.index = .ok _ from rfl), osSend_eq, h0, hsub]
  simp only [osReceive]
  rw [handle_eq l parse _ _ raw hlen, if_pos (by rw [and_2]; exact hc), hptr, checkCondition, hp]
  simp

/-- **C21 (d)**: a completion without error returns the data of a read. -/
theorem C21_success (l : Bool) (parse : Bytes → Py (Option S)) (k : TargetDriver κ) (alloc : Nat → Alloc) (t : Int) (c : Req)
    (s : St Handle (Option K)) (w : SolWorld κ) (w1 : World κ) (raw : Bytes) (hs : s.pending = []) (hq : 0 < s.maxq)
    (h0 : s.index = 0) (hcdb : c.cdb.length ≤ 255) (hd : dataSize c < 2 ^ 64) (ht : 0 ≤ t ∧ t < 2 ^ 15)
    (hal : (alloc 0).sense < 2 ^ 64 ∧ (alloc 0).cmd < 2 ^ 64 ∧ (alloc 0).data < 2 ^ 64)
    (hsub : submitted l k alloc t c 0 w = (.ok raw, w1)) (hlen : 64 ≤ raw.length)
    (hblock : readMem w1.mem (alloc 0).block 64 = (create (lp64 l) (alloc 0) c t).block)
    (hst : uscsiStatus l raw = 0) (hrq : uscsiRqStatus raw = 0) :
    (solCall l parse k alloc t c s w).out = .ok (some (dataBack c w1.mem (alloc 0).data)) := by
  unfold solCall
  rw [call_idle _ _ _ s w hs hq _ (show prepare (lp64 l) alloc t c s.index = .ok _ from rfl), osSend_eq, h0, hsub]
  simp only [osReceive]
  have hf := create_fields l (alloc 0) c t hcdb hd ht hal.1 hal.2.1 hal.2.2
  have hbu := create_built l (alloc 0) c t
  have hget : getOsData (oneFlight s (create (lp64 l) (alloc 0) c t)) 0 = some (create (lp64 l) (alloc 0) c t) := by
    simp [getOsData, oneFlight, Dict.get, h0]
  have hsd := successData_eq l (alloc 0) c t (create (lp64 l) (alloc 0) c t) w1.mem hf hbu.data (by rw [hbu.blockAddr]; exact hblock)
  rw [handle_eq l parse _ _ raw hlen, hst, hrq, hget, hsd]
  rfl

/-- **C18 (Solaris)**: what the target driver reads in the block is exactly what the command asks for, and it is not to
retry by itself (`USCSI_DIAGNOSE`). -/
theorem C18_solaris (l : Bool) (al : Alloc) (c : Req) (t : Int) (m : Mem)
    (hcdb : c.cdb.length ≤ 255) (hd : dataSize c < 2 ^ 64) (ht : 0 ≤ t ∧ t < 2 ^ 15)
    (hsep : Separate 64 (regions al c 64)) :
    let h := create (lp64 l) al c t
    uscsiView l (h.block ++ [0]) (h.install m) = some (asked c) ∧ uscsiSensePtr l (h.block ++ [0]) = al.sense ∧
    sword l (h.block ++ [0]) 6 2 = t ∧ word l (h.block ++ [0]) 0 4 / 2 % 2 = 1 := by
  intro h
  obtain ⟨-, hb2, hb3, hb4⟩ := regions_bits hsep
  have hf : BlockFields l al c t h.block := create_fields l al c t hcdb hd ht hb2 hb3 hb4
  have hbu : Built h al c 64 := create_built l al c t
  have hcmd : readMem (h.install m) al.cmd c.cdb.length = c.cdb := installed_cmd hbu hsep m
  have hdat := installed_data hbu hsep m
  have happ := fun o z g (hh : o + z ≤ 64) => load_append l h.block [0] o z g (by rw [hf.len]; exact hh)
  have hlen : (h.block ++ [(0 : UInt8)]).length = 65 := by rw [List.length_append, hf.len]; rfl
  have hfl : word l (h.block ++ [0]) 0 4 = (flagsOf c).toNat := by
    have : word l (h.block ++ [0]) 0 4 = (load (lp64 l) ⟨"", 0, 4, true⟩ h.block % 2 ^ 32).toNat := by
      rw [← happ 0 4 true (by omega), ← sword_lp64, sword, toSigned]
      have hlt : word l (h.block ++ [0]) 0 4 < 2 ^ 32 := by
        have := nativeNat_lt (lp64 l) (slice (h.block ++ [(0 : UInt8)]) 0 4)
        have h2 : (slice (h.block ++ [(0 : UInt8)]) 0 4).length ≤ 4 := by simp [slice]; omega
        rw [word_lp64]
        simp only [load]
        calc _ ≤ nativeNat (lp64 l) (slice (h.block ++ [(0 : UInt8)]) 0 4) := by simp
          _ < 256 ^ (slice (h.block ++ [(0 : UInt8)]) 0 4).length := this
          _ ≤ 256 ^ 4 := Nat.pow_le_pow_right (by decide) h2
      split <;> omega
    rw [this, hf.flags]
    cases c with
    | read cdb n => simp only [flagsOf]; split <;> rfl
    | write cdb d => rfl
  refine ⟨?_, ?_, ?_, ?_⟩
  · unfold uscsiView
    simp only [word_lp64] at hfl ⊢
    rw [hfl]
    simp only [happ _ _ _ (show 24 + 8 ≤ 64 by decide), happ _ _ _ (show 16 + 8 ≤ 64 by decide), happ _ _ _ (show 8 + 8 ≤ 64 by decide),
      happ _ _ _ (show 40 + 1 ≤ 64 by decide), happ _ _ _ (show 41 + 1 ≤ 64 by decide), hlen, hf.cmdLen, hf.senseMax, hf.dataLen, hf.dataPtr,
      hf.cmdPtr, Int.toNat_natCast, hcmd]
    cases c with
    | read cdb n =>
      by_cases hn : n > 0
      · simp [flagsOf, hn, asked, dataSize, Req.cdb]
      · have : n.toNat = 0 := by omega
        simp [flagsOf, hn, asked, dataSize, Req.cdb, this, readMem_zero, Linux.bufOf]
    | write cdb d =>
      simp [flagsOf, asked, dataSize, Req.cdb, hdat cdb d rfl, Linux.bufOf]
  · rw [uscsiSensePtr, word_lp64, happ _ _ _ (by decide), hf.sensePtr, Int.toNat_natCast]
  · rw [sword_lp64, happ _ _ _ (by decide), hf.timeout]
  · have hv : (flagsOf c).toNat = 0x21000A ∨ (flagsOf c).toNat = 0x210002 := by
      cases c with
      | read cdb n => simp only [flagsOf]; split <;> simp only [Int.reduceToNat, true_or, or_true]
      | write cdb d => exact .inr (Int.toNat_natCast _)
    rw [hfl]
    rcases hv with hv | hv <;> rw [hv]

/-! ## C53: faithful transport -/

/-- The target driver in front of a device: decodes the block, runs the command, stores data and sense through the block's pointers and
completes the block with the SCSI status. -/
def uscsiDevice (l : Bool) (dev : Device δ) : TargetDriver δ :=
  { ioctl := fun code raw w =>
      if code ≠ 1225 then (.error .ioError, w)
      else
        match uscsiView l raw w.mem with
        | none => (.error .ioError, w)
        | some req =>
          let r := dev w.kernel req
          let m := writeMem w.mem (word l raw 16 8) (r.1.data.take req.fromDevice)
          let m := writeMem m (uscsiSensePtr l raw) (r.1.sense.take req.senseRoom)
          (.ok (splice raw (if l then 4 else 5) [r.1.status]), { mem := m, kernel := r.2 }) }

/-- Splicing the status byte leaves every other field alone. -/
theorem load_splice_status (l : Bool) (raw : Bytes) (b : UInt8) (o z : Nat) (g : Bool) (h : o + z ≤ 4 ∨ 6 ≤ o) :
    load (lp64 l) ⟨"", o, z, g⟩ (splice raw (if l then 4 else 5) [b]) = load (lp64 l) ⟨"", o, z, g⟩ raw := by
  unfold load
  simp only
  rw [slice_splice_other (by simp only [List.length_singleton]; split <;> omega)]

theorem status_splice (l : Bool) (raw : Bytes) (b : UInt8) (h : 64 ≤ raw.length) :
    uscsiStatus l (splice raw (if l then 4 else 5) [b]) = b.toNat := by
  rw [uscsiStatus, word_lp64]
  unfold load
  have h2 := slice_splice_same (raw := raw) (off := if l then 4 else 5) (new := [b])
    (by simp only [List.length_singleton]; split <;> omega)
  simp only [List.length_singleton] at h2
  simp only [h2]
  simp [nativeNat, lp64, beNat]

/-- **C53 (one command)**: the device is asked exactly what the command asks, once; and the caller gets the device's answer. -/
theorem C53_solaris (l : Bool) (parse : Bytes → Py (Option S)) (dev : Device δ) (alloc : Nat → Alloc) (t : Int) (c : Req)
    (s : St Handle (Option K)) (m : Mem) (k : δ) (old : Option Bytes) (hs : s.pending = []) (hq : 0 < s.maxq) (h0 : s.index = 0)
    (hcdb : c.cdb.length ≤ 255) (hd : dataSize c < 2 ^ 64) (ht : 0 ≤ t ∧ t < 2 ^ 15) (hsep : Separate 64 (regions (alloc 0) c 64)) :
    let r := solCall l parse (uscsiDevice l dev) alloc t c s { world := { mem := m, kernel := k }, buffer := old }
    r.out = outcome parse c (dev k (asked c)).1 ∧ r.os.world.kernel = (dev k (asked c)).2 ∧
    ((∀ e, r.out ≠ .error (.py e)) → r.st = { s with index := 1 % s.maxq }) := by
  intro r
  obtain ⟨-, hb2, hb3, hb4⟩ := regions_bits hsep
  have hf := create_fields l (alloc 0) c t hcdb hd ht hb2 hb3 hb4
  have hbu := create_built l (alloc 0) c t
  obtain ⟨hv, hsp, -⟩ := C18_solaris l (alloc 0) c t m hcdb hd ht hsep
  have hr : r = call (prepare (lp64 l) alloc t c) (osSend (uscsiDevice l dev)) (osReceive (lp64 l) parse) s
    { world := { mem := m, kernel := k }, buffer := old } := rfl
  rw [call_idle _ _ _ s _ hs hq _ (show prepare (lp64 l) alloc t c s.index = .ok _ from rfl), h0] at hr
  have hget : getOsData (oneFlight s (create (lp64 l) (alloc 0) c t)) 0 = some (create (lp64 l) (alloc 0) c t) := by
    simp [getOsData, oneFlight, Dict.get, h0]
  have hM := answered_sense hbu hsep m (dev k (asked c)).1
  have hB := answered_block hbu hsep m (dev k (asked c)).1
  have hD := answered_data hbu hsep m (dev k (asked c)).1
  have hlen : 64 ≤ ((create (lp64 l) (alloc 0) c t).block ++ [(0 : UInt8)]).length := by
    rw [List.length_append, hf.len]; decide
  have happ := fun o z g (hh : o + z ≤ 64) => load_append l (create (lp64 l) (alloc 0) c t).block [0] o z g (by rw [hf.len]; exact hh)
  generalize create (lp64 l) (alloc 0) c t = h at *
  generalize alloc 0 = al at *
  have hptr : word l (h.block ++ [0]) 16 8 = al.data ∨ (asked c).fromDevice = 0 := by
    rw [word_lp64, happ _ _ _ (by decide), hf.dataPtr]
    cases c with
    | read cdb n =>
      by_cases hn : n > 0
      · left; simp [Linux.bufOf, hn]
      · right; simp only [asked]; omega
    | write cdb d => right; rfl
  have hsend : osSend (uscsiDevice l dev) h { world := { mem := m, kernel := k }, buffer := old } =
      (.ok (), { world := { mem := answered (h.install m) al c (dev k (asked c)).1, kernel := (dev k (asked c)).2 },
                 buffer := some (splice (h.block ++ [0]) (if l then 4 else 5) [(dev k (asked c)).1.status]) }) := by
    rw [← answered_of_ptr _ _ _ _ _ hptr]
    simp only [osSend, uscsiDevice]
    rw [if_neg (by decide), hv]
    simp only [hsp]
    cases c <;> rfl
  rw [hsend] at hr
  simp only [osReceive] at hr
  generalize h.block ++ [(0 : UInt8)] = blk at *
  have hlen' : 64 ≤ (splice blk (if l then 4 else 5) [(dev k (asked c)).1.status]).length := by rw [splice_length]; exact hlen
  have e1 := status_splice l blk (dev k (asked c)).1.status hlen
  have e2 : uscsiRqStatus (splice blk (if l then 4 else 5) [(dev k (asked c)).1.status]) = 0 := by
    rw [uscsiRqStatus, ← Linux.word_one l, word_lp64, load_splice_status _ _ _ _ _ _ (by omega), happ _ _ _ (by decide), hf.rqStatus]; rfl
  have e3 : uscsiSensePtr l (splice blk (if l then 4 else 5) [(dev k (asked c)).1.status]) = al.sense := by
    rw [uscsiSensePtr, word_lp64, load_splice_status _ _ _ _ _ _ (by omega), happ _ _ _ (by decide), hf.sensePtr]; rfl
  have hsd := successData_eq l al c t h (answered (h.install m) al c (dev k (asked c)).1) hf hbu.data (by rw [hbu.blockAddr]; exact hB)
  rw [handle_eq l parse _ _ _ hlen', e1, e2, e3, hget, hsd, hM, hD] at hr
  generalize (dev k (asked c)).1 = ans at *
  have hmatch : ans.status.toNat = 0 ↔ ans.status = 0 := by
    constructor
    · intro hx; exact UInt8.toNat_inj.mp hx
    · intro hx; rw [hx]; rfl
  unfold outcome
  simp only [and_2, ne_eq, not_true_eq_false, if_false] at hr
  by_cases c1 : ans.status.toNat / 2 % 2 = 1
  · simp only [c1, if_true, checkCondition] at hr ⊢
    cases hpp : parse (padded 255 ans.sense) with
    | error e =>
      rw [hpp] at hr
      rw [hr]
      exact ⟨rfl, rfl, fun hx => absurd rfl (hx e)⟩
    | ok sn =>
      rw [hpp] at hr
      rw [hr]
      exact ⟨rfl, rfl, fun _ => rfl⟩
  · by_cases c2 : ans.status = 0
    · rw [if_neg c1] at hr
      simp only [hmatch.2 c2, if_false, not_true_eq_false] at hr
      simp only [c1, c2, if_false, ne_eq, not_true_eq_false]
      rw [hr]
      exact ⟨rfl, rfl, fun _ => rfl⟩
    · have c3 : ¬ ans.status.toNat = 0 := fun hx => c2 (hmatch.1 hx)
      simp only [c1, c2, c3, if_false, not_false_eq_true, if_true, ne_eq] at hr ⊢
      rw [hr]
      exact ⟨rfl, rfl, fun _ => rfl⟩

/-- Commands executed one after another. -/
def runSol (l : Bool) (parse : Bytes → Py (Option S)) (k : TargetDriver κ) (alloc : Nat → Alloc) (t : Int) :
    List Req → St Handle (Option K) → SolWorld κ → List (Except (Exn (DevErr S)) (Option (Option Bytes)))
  | [], _, _ => []
  | c :: cs, s, w =>
    let r := solCall l parse k alloc t c s w
    r.out :: runSol l parse k alloc t cs r.st r.os

/-- **C53**: a whole session on an executer with `max_queue_size = 1`. -/
theorem C53_session (l : Bool) (parse : Bytes → Py (Option S)) (dev : Device δ) (alloc : Nat → Alloc) (t : Int) (cs : List Req)
    (s : St Handle (Option K)) (m : Mem) (k : δ) (old : Option Bytes)
    (hparse : ∀ k q, (dev k q).1.status.toNat / 2 % 2 = 1 → ∃ sn, parse (padded 255 (dev k q).1.sense) = .ok sn)
    (hs : s.pending = []) (hq : s.maxq = 1) (hidx : s.index = 0) (ht : 0 ≤ t ∧ t < 2 ^ 15)
    (hcs : ∀ c ∈ cs, c.cdb.length ≤ 255 ∧ dataSize c < 2 ^ 64 ∧ Separate 64 (regions (alloc 0) c 64)) :
    runSol l parse (uscsiDevice l dev) alloc t cs s { world := { mem := m, kernel := k }, buffer := old } = expected parse dev cs k := by
  induction cs generalizing s m k old with
  | nil => rfl
  | cons c cs ih =>
    obtain ⟨h1, h2, h3⟩ := hcs c (List.mem_cons_self ..)
    obtain ⟨r1, r2, r3⟩ := C53_solaris l parse dev alloc t c s m k old hs (by omega) hidx h1 h2 ht h3
    simp only [runSol, expected]
    have hne : ∀ e, outcome parse c (dev k (asked c)).1 ≠ .error (.py e) := outcome_ne parse c _ (hparse k (asked c))
    rw [r1, r3 (by rw [r1]; exact hne)]
    generalize solCall l parse (uscsiDevice l dev) alloc t c s { world := { mem := m, kernel := k }, buffer := old } = r at *
    obtain ⟨_, _, _, ⟨mm, kk⟩, bb⟩ := r
    simp only at r2
    subst r2
    rw [ih { s with index := 1 % s.maxq } _ _ _ hs hq (by simp [hq]) (fun c' hc' => hcs c' (List.mem_cons_of_mem _ hc'))]

/-- The hypotheses are met. -/
example :
    runSol false (fun b => .ok (some b)) (uscsiDevice false Linux.toyDevice)
      (fun _ => { block := 4096, sense := 8192, cmd := 12288, data := 16384 }) 30
      [.read [0x12, 0, 0, 0, 36, 0] 36, .write [0x2A, 0, 0, 0] [1, 2, 3, 4]]
      ({ pending := [], index := 0, maxq := 1 } : St Handle (Option Unit)) { world := { mem := fun _ => 0xEE, kernel := 0 }, buffer := none } =
    [.ok (some (some (padded 36 [0, 0, 5, 2, 31, 0, 0, 0]))),
     .error (.dev (.checkCondition (padded 255 [0x70, 0, 5]) (some (padded 255 [0x70, 0, 5]))))] := by
  rw [C53_session]
  · simp [expected, outcome, Linux.toyDevice, asked, delivered]
  · intro _ _ _; exact ⟨_, rfl⟩
  · rfl
  · decide
  · decide
  · decide
  · intro c hc
    simp only [List.mem_cons, List.not_mem_nil, or_false] at hc
    rcases hc with rfl | rfl
    · refine ⟨by decide, by decide, ⟨by simp [regions, dataSize, Req.cdb], by simp [regions]⟩⟩
    · refine ⟨by decide, by decide, ⟨by simp [regions, dataSize, Req.cdb], by simp [regions]⟩⟩

end Verif.Platform.Solaris
