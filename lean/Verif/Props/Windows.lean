import Verif.Platform.Win32Lemmas
import Verif.CallLemmas
import Verif.Props.LinuxDevice
set_option linter.unusedSimpArgs false
/-!
# C18 (Windows), C19, C55

`b = true` is 64-bit Windows, `b = false` 32-bit Windows.
-/

namespace Verif.Platform.Win32
open Verif.Executer Verif.Spec

variable {S κ δ K : Type}

/-- One command on the Windows executer. -/
def winCall (b : Bool) (parse : Bytes → Py (Option S)) (k : PortDriver κ) (alloc : Nat → Alloc) (c : Req)
    (s : St Spt (Option K)) (w : WinWorld κ) : CallResult Spt (Option K) (Option Bytes) (DevErr S) (WinWorld κ) :=
  call (prepare (W b) alloc c) (osSend (W b) k) (osReceive (W b) parse) s w

/-- The two memory regions of a command: the block with its sense area, and the data buffer. -/
def winRegions (b : Bool) (al : Alloc) (c : Req) : List (Nat × Nat) :=
  [(al.block, if b then 311 else 299), (al.data, dataSize c)]

/-- Pointer width in bits. -/
def bits (b : Bool) : Nat := if b then 64 else 32

theorem bits_eq (b : Bool) : 8 * optr b = bits b := by cases b <;> rfl
theorem total_eq (b : Bool) : osz b + 255 = if b then 311 else 299 := by cases b <;> rfl

theorem win_apart {b : Bool} {al : Alloc} {c : Req} (h : Separate (bits b) (winRegions b al c)) :
    (al.block + (osz b + 255) ≤ al.data ∨ al.data + dataSize c ≤ al.block) ∧ al.data < 2 ^ (8 * optr b) := by
  obtain ⟨h1, h2⟩ := h
  simp only [winRegions, List.pairwise_cons, List.mem_cons, List.not_mem_nil, or_false, forall_eq_or_imp, forall_eq] at h1 h2
  rw [bits_eq, total_eq]
  exact ⟨h1.1, h2.2⟩

/-- **C18 (Windows)**: what the port driver reads in the block is exactly what the command asks for, with a timeout of ten seconds. -/
theorem C18_windows (b : Bool) (al : Alloc) (id : Nat) (c : Req) (m : Mem) (hcdb : c.cdb.length ≤ 16) (hd : dataSize c < 2 ^ 32)
    (hsep : Separate (bits b) (winRegions b al c)) :
    ∃ h, create (W b) al id c = .ok h ∧ h.packetId = id ∧ h.block.length = (if b then 311 else 299) ∧
      readMem (h.install m) al.block (if b then 311 else 299) = h.block ∧
      sptView (if b then 8 else 4) h.block (h.install m) = some (asked c) ∧ word true h.block 16 4 = 10 := by
  obtain ⟨ha, hx⟩ := win_apart hsep
  obtain ⟨h, hc, hb⟩ := create_built b al id c hcdb hd hx
  have hf := hb.fields
  refine ⟨h, hc, hb.id, by rw [hf.len, total_eq], ?_, ?_, by rw [word_W b, hf.timeout]; rfl⟩
  · rw [← total_eq, ← hf.len, ← hb.blockAddr]
    unfold Spt.install
    exact readMem_writeMem_same ..
  · have e0 : word true h.block 0 2 = osz b := by rw [word_W b, hf.size]; rfl
    have e1 : word true h.block 6 1 = c.cdb.length := by rw [word_W b, hf.cmdLen]; rfl
    have e2 : word true h.block 12 4 = dataSize c := by rw [word_W b, hf.dataLen]; rfl
    have e3 : word true h.block (obuf b) (optr b) = if (bufOf al c).isSome then al.data else 0 := by
      rw [word_W b, hf.dataPtr]; split <;> rfl
    have e4 : word true h.block (oso b) 4 = osz b := by rw [word_W b, hf.senseOff]; rfl
    have e5 : word true h.block 7 1 = 255 := by rw [word_W b, hf.senseMax]; rfl
    have e6 : word true h.block 8 1 = (dirOf c).toNat := by rw [word_W b, hf.dir]
    have key : ∀ (p : Nat), p = optr b →
        (if p = 8 then 56 else 44) = osz b ∧ (if p = 8 then 24 else 20) = obuf b ∧ (if p = 8 then 32 else 24) = oso b ∧
        (if p = 8 then 36 else 28) = ocdb b := by
      intro p hp; subst hp; cases b <;> simp [optr, osz, obuf, oso, ocdb]
    have hp : (if b then 8 else 4) = optr b := rfl
    obtain ⟨k0, k1, k2, k3⟩ := key _ hp
    have hdat : ∀ cdb d, c = .write cdb d → 0 < d.length → readMem (h.install m) al.data d.length = d := by
      intro cdb d hcc hpos
      have hdd : h.data = some (al.data, d) := by rw [hb.data, hcc]; simp [bufOf, hpos]
      unfold Spt.install
      rw [hdd, hb.blockAddr]
      subst hcc
      simp only [dataSize] at ha
      rw [readMem_writeMem_other (by rw [hf.len]; omega), readMem_writeMem_same]
    unfold sptView
    simp only [k0, k1, k2, k3]
    rw [hp, e0, e1, e2, e3, e4, e5, e6, hf.cdb, hf.len]
    rw [if_neg (by simp), if_neg (by omega), if_neg (by omega)]
    cases c with
    | read cdb n =>
      by_cases hn : n > 0
      · simp [dirOf, hn, asked, dataSize, Req.cdb]
      · have : n.toNat = 0 := by omega
        simp [dirOf, hn, asked, dataSize, Req.cdb, this]
    | write cdb d =>
      by_cases hn : d.length > 0
      · simp only [dirOf, if_pos hn, bufOf, asked, dataSize, Req.cdb, Option.isSome_some, if_true, hdat cdb d rfl hn]
        simp
      · have : d = [] := List.length_eq_zero_iff.1 (by omega)
        simp [dirOf, hn, asked, dataSize, Req.cdb, this]

/-- **C18 (Windows), longer commands**: a CDB that does not fit the 16 byte field is refused with `IndexError` before anything is sent,
and nothing stays pending. -/
theorem C18_windows_long (b : Bool) (parse : Bytes → Py (Option S)) (k : PortDriver κ) (alloc : Nat → Alloc) (c : Req)
    (s : St Spt (Option K)) (w : WinWorld κ) (hs : s.pending = []) (hq : 0 < s.maxq) (h : 16 < c.cdb.length) :
    (winCall b parse k alloc c s w).out = .error (.py .indexError) ∧ (winCall b parse k alloc c s w).os = w ∧
    (winCall b parse k alloc c s w).st.pending = [] := by
  have hp : ∀ i, prepare (W b) alloc c i = .error .indexError := fun i => create_long b (alloc i) i c h
  obtain ⟨pend, idx, mq⟩ := s
  simp only at hs hq
  subst hs
  have hlt : ¬ (([] : Dict (Spt × Option (Option K))).length ≥ mq) := by simp; omega
  unfold winCall call send nextPacketIndex
  simp only [hlt, if_false, hp]
  exact ⟨trivial, trivial, trivial⟩

/-- The classification, in terms of the block's bytes. -/
theorem classify_eq (b : Bool) (parse : Bytes → Py (Option S)) (h : Spt) (m : Mem) :
    classify (W b) parse h m =
      let raw := readMem m h.blockAddr h.block.length
      if word true raw 2 1 = 2 then
        match checkCondition parse ((raw.drop (osz b)).take 255) with
        | .ok e => .ok (.exc e)
        | .error e => .error e
      else if word true raw 2 1 ≠ 0 then .ok (.exc .scsi)
      else if word true raw 8 1 = 1 ∧ word true raw 12 4 ≠ 0 then
        match cutData h m (word true raw 12 4) with
        | .ok d => .ok (.data (some d))
        | .error e => .error e
      else .ok (.data none) := by
  have e1 : ∀ raw, load (W b) ⟨"", 8, 1, false⟩ raw = 1 ↔ word true raw 8 1 = 1 := by
    intro raw; rw [word_W b]; have := load_nonneg (W b) "" 8 1 raw; omega
  have e2 : ∀ raw, load (W b) ⟨"", 12, 4, false⟩ raw ≠ 0 ↔ word true raw 12 4 ≠ 0 := by
    intro raw; rw [word_W b]; have := load_nonneg (W b) "" 12 4 raw; omega
  unfold classify
  simp only [fld_status, fld_dataIn, fld_len, fld_sense, load_name _ "ScsiStatus", load_name _ "DataIn", load_name _ "DataTransferLength",
    e1, e2, ← word_W b, senseSize, slice, List.drop_take, Nat.add_sub_cancel_left]
  generalize readMem m h.blockAddr h.block.length = raw
  by_cases h1 : word true raw 2 1 = 2
  · simp [h1]; rfl
  · by_cases h2 : word true raw 2 1 = 0
    · simp [h2]; rfl
    · simp [h1, h2]

/-- What the driver does with the request. -/
def submitted (b : Bool) (k : PortDriver κ) (h : Spt) (w : WinWorld κ) : Py Unit × World κ :=
  k.ioctl 0x4D014 h.blockAddr (if b then 311 else 299) { w.world with mem := h.install w.world.mem }

theorem osSend_eq (b : Bool) (k : PortDriver κ) (h : Spt) (w : WinWorld κ) :
    osSend (W b) k h w = match submitted b k h w with
      | (.error e, w') => (.error e, { w with world := w' })
      | (.ok (), w') => (.ok (), { world := w', incoming := h :: w.incoming }) := by
  unfold osSend submitted
  rw [sptSize_W, total_eq]
  rfl

/-- `call`, once the driver accepted the request. -/
theorem winCall_eq (b : Bool) (parse : Bytes → Py (Option S)) (k : PortDriver κ) (alloc : Nat → Alloc) (c : Req)
    (s : St Spt (Option K)) (w : WinWorld κ) (hs : s.pending = []) (hq : 0 < s.maxq) (h : Spt)
    (hc : create (W b) (alloc s.index) s.index c = .ok h) (hid : h.packetId = s.index) :
    winCall b parse k alloc c s w =
      match submitted b k h w with
      | (.error e, w') => ⟨.error (.py e), [], { s with index := (s.index + 1) % s.maxq }, { w with world := w' }⟩
      | (.ok (), w') =>
        match classify (W b) parse h w'.mem with
        | .error e => ⟨.error (.py e), [], oneFlight s h, { world := w', incoming := w.incoming }⟩
        | .ok o => ⟨match o with | .data d => .ok (some d) | .exc e => .error (.dev e), [],
            { s with index := (s.index + 1) % s.maxq }, { world := w', incoming := w.incoming }⟩ := by
  unfold winCall
  rw [call_idle _ _ _ s w hs hq _ (show prepare (W b) alloc c s.index = .ok h from hc), osSend_eq]
  rcases submitted b k h w with ⟨r, w'⟩
  cases r with
  | error e => rfl
  | ok u =>
    simp only [osReceive]
    cases classify (W b) parse h w'.mem with
    | error e => rfl
    | ok o => cases o <;> simp [hid]

/-- `call`, once the driver completed the request. -/
theorem winCall_ok (b : Bool) (parse : Bytes → Py (Option S)) (k : PortDriver κ) (alloc : Nat → Alloc) (c : Req)
    (s : St Spt (Option K)) (w : WinWorld κ) (hs : s.pending = []) (hq : 0 < s.maxq) (h : Spt)
    (hc : create (W b) (alloc s.index) s.index c = .ok h) (hid : h.packetId = s.index) (w1 : World κ)
    (hsub : submitted b k h w = (.ok (), w1)) :
    winCall b parse k alloc c s w =
      match classify (W b) parse h w1.mem with
      | .error e => ⟨.error (.py e), [], oneFlight s h, { world := w1, incoming := w.incoming }⟩
      | .ok o => ⟨match o with | .data d => .ok (some d) | .exc e => .error (.dev e), [],
          { s with index := (s.index + 1) % s.maxq }, { world := w1, incoming := w.incoming }⟩ := by
  rw [winCall_eq b parse k alloc c s w hs hq h hc hid, hsub]

section
variable (b : Bool) (parse : Bytes → Py (Option S)) (k : PortDriver κ) (alloc : Nat → Alloc) (c : Req)
  (s : St Spt (Option K)) (w : WinWorld κ) (hs : s.pending = []) (hq : 0 < s.maxq) (h : Spt)
  (hc : create (W b) (alloc s.index) s.index c = .ok h) (hid : h.packetId = s.index)
include hs hq hc hid

/-- **C19 (a)**: a request refused by the driver raises. -/
theorem C19_refused (e : PyErr) (w1 : World κ) (hsub : submitted b k h w = (.error e, w1)) :
    (winCall b parse k alloc c s w).out = .error (.py e) ∧ (winCall b parse k alloc c s w).st.pending = [] := by
  rw [winCall_eq b parse k alloc c s w hs hq h hc hid, hsub]
  exact ⟨rfl, hs⟩

variable (w1 : World κ) (hsub : submitted b k h w = (.ok (), w1))
include hsub

/-- **C19 (b)**: status 2 raises `AsiCheckConditionError` with the sense area of the block. -/
theorem C19_check_condition (hst : word true (readMem w1.mem h.blockAddr h.block.length) 2 1 = 2) (sense : Option S)
    (hp : parse (((readMem w1.mem h.blockAddr h.block.length).drop (if b then 56 else 44)).take 255) = .ok sense) :
    (winCall b parse k alloc c s w).out = .error (.dev (.checkCondition
      (((readMem w1.mem h.blockAddr h.block.length).drop (if b then 56 else 44)).take 255) sense)) := by
  rw [winCall_ok b parse k alloc c s w hs hq h hc hid w1 hsub, classify_eq]
  simp only [hst, if_true]
  rw [show osz b = if b then 56 else 44 from rfl, checkCondition, hp]

/-- **C19 (c)**: any other non-zero status raises `AsiSCSIError`. -/
theorem C19_other_status (hst : word true (readMem w1.mem h.blockAddr h.block.length) 2 1 ≠ 0)
    (hst2 : word true (readMem w1.mem h.blockAddr h.block.length) 2 1 ≠ 2) :
    (winCall b parse k alloc c s w).out = .error (.dev .scsi) := by
  rw [winCall_ok b parse k alloc c s w hs hq h hc hid w1 hsub, classify_eq]
  simp only [if_neg hst2, if_pos hst]

/-- **C19 (d)**: with status 0 a read returns the data buffer cut to the length the driver reports (and no data if that is 0). -/
theorem C19_read (cdb : Bytes) (n : Int) (hn : n > 0) (hcc : c = .read cdb n) (hd : n < 2 ^ 32) (hx : (alloc s.index).data < 2 ^ (bits b))
    (hst : word true (readMem w1.mem h.blockAddr h.block.length) 2 1 = 0)
    (hin : word true (readMem w1.mem h.blockAddr h.block.length) 8 1 = word true h.block 8 1) :
    (winCall b parse k alloc c s w).out =
      .ok (some (if word true (readMem w1.mem h.blockAddr h.block.length) 12 4 = 0 then none
        else some ((readMem w1.mem (alloc s.index).data n.toNat).take (word true (readMem w1.mem h.blockAddr h.block.length) 12 4)))) := by
  subst hcc
  have hcdb : (Req.read cdb n).cdb.length ≤ 16 := by
    by_cases hl : (Req.read cdb n).cdb.length ≤ 16
    · exact hl
    · rw [create_long b _ _ _ (by omega)] at hc; cases hc
  obtain ⟨h', hc', hb⟩ := create_built b (alloc s.index) s.index (.read cdb n) hcdb (by simp only [dataSize]; omega) (by rw [bits_eq]; exact hx)
  rw [hc] at hc'; cases hc'
  have hdir : word true h.block 8 1 = 1 := by rw [word_W b, hb.fields.dir]; simp [dirOf, hn]
  have hdata : h.data = some ((alloc s.index).data, zeros n.toNat) := by rw [hb.data]; simp [bufOf, hn]
  rw [winCall_ok b parse k alloc _ s w hs hq h hc hid w1 hsub, classify_eq]
  simp only [hst, hin, hdir, cutData, hdata, zeros_length]
  by_cases hl : word true (readMem w1.mem h.blockAddr h.block.length) 12 4 = 0
  · simp [hl]
  · simp [hl]

/-- **C19 (e)**: with status 0 a write, or a read of nothing, returns no data. -/
theorem C19_no_data (hno : ∀ cdb n, c = .read cdb n → n ≤ 0) (hd : dataSize c < 2 ^ 32) (hx : (alloc s.index).data < 2 ^ (bits b))
    (hst : word true (readMem w1.mem h.blockAddr h.block.length) 2 1 = 0)
    (hin : word true (readMem w1.mem h.blockAddr h.block.length) 8 1 = word true h.block 8 1) :
    (winCall b parse k alloc c s w).out = .ok (some none) := by
  have hcdb : c.cdb.length ≤ 16 := by
    by_cases hl : c.cdb.length ≤ 16
    · exact hl
    · rw [create_long b _ _ _ (by omega)] at hc; cases hc
  obtain ⟨h', hc', hb⟩ := create_built b (alloc s.index) s.index c hcdb hd (by rw [bits_eq]; exact hx)
  rw [hc] at hc'; cases hc'
  have hdir : word true h.block 8 1 ≠ 1 := by
    rw [word_W b, hb.fields.dir]
    cases c with
    | read cdb n => have := hno cdb n rfl; simp [dirOf, show ¬ n > 0 by omega]
    | write cdb d => simp only [dirOf]; split <;> decide
  rw [winCall_ok b parse k alloc _ s w hs hq h hc hid w1 hsub, classify_eq]
  simp [hst, hin, hdir]

/-- **C19 (f)**: whatever the driver wrote, `call` returns normally only with status 0, and never more data than the reported
transfer length. -/
theorem C19_ok (d : Option (Option Bytes)) (ho : (winCall b parse k alloc c s w).out = .ok d) :
    word true (readMem w1.mem h.blockAddr h.block.length) 2 1 = 0 ∧
    ∀ x, d = some (some x) → x.length ≤ word true (readMem w1.mem h.blockAddr h.block.length) 12 4 := by
  rw [winCall_ok b parse k alloc c s w hs hq h hc hid w1 hsub, classify_eq] at ho
  simp only at ho
  by_cases h1 : word true (readMem w1.mem h.blockAddr h.block.length) 2 1 = 2
  · simp only [h1, if_true] at ho
    unfold checkCondition at ho
    rcases hpp : parse (((readMem w1.mem h.blockAddr h.block.length).drop (osz b)).take 255) with e | sn
    · rw [hpp] at ho; cases ho
    · rw [hpp] at ho; cases ho
  · by_cases h2 : word true (readMem w1.mem h.blockAddr h.block.length) 2 1 = 0
    · refine ⟨h2, ?_⟩
      simp only [h2] at ho
      simp only [show ¬ ((0 : Nat) = 2) by decide, if_false, ne_eq, not_true_eq_false] at ho
      intro x hx
      by_cases h3 : word true (readMem w1.mem h.blockAddr h.block.length) 8 1 = 1 ∧
          ¬ word true (readMem w1.mem h.blockAddr h.block.length) 12 4 = 0
      · rw [if_pos h3] at ho
        cases hcut : cutData h w1.mem (word true (readMem w1.mem h.blockAddr h.block.length) 12 4) with
        | error e => rw [hcut] at ho; cases ho
        | ok y =>
          rw [hcut] at ho
          simp only [Except.ok.injEq] at ho
          subst ho; cases hx
          unfold cutData at hcut
          split at hcut
          · cases hcut; rw [List.length_take]; omega
          · cases hcut
      · rw [if_neg h3] at ho
        simp only [Except.ok.injEq] at ho
        subst ho; cases hx
    · simp only [if_neg h1, if_pos h2] at ho
      cases ho

end

/-! ## C55: faithful transport -/

/-- What executing a command on Windows must lead to when the device answers `ans`. -/
def winOutcome (parse : Bytes → Py (Option S)) (c : Req) (ans : Answer) : Except (Exn (DevErr S)) (Option (Option Bytes)) :=
  if ans.status = 2 then
    match parse (padded 255 ans.sense) with
    | .ok s => .error (.dev (.checkCondition (padded 255 ans.sense) s))
    | .error e => .error (.py e)
  else if ans.status ≠ 0 then .error (.dev .scsi)
  else match c with
    | .read _ n => .ok (some (if ans.data.take n.toNat = [] then none else some (ans.data.take n.toNat)))
    | .write _ _ => .ok (some none)

/-- The port driver in front of a device: decodes the block in memory, runs the command, stores the data through `DataBuffer`, the sense
data at `SenseInfoOffset`, the number of bytes moved in `DataTransferLength` and the status in `ScsiStatus`. -/
def sptDevice (b : Bool) (dev : Device δ) : PortDriver δ :=
  { ioctl := fun code addr size w =>
      if code ≠ 0x4D014 ∨ size ≠ (if b then 311 else 299) then (.error .asiOs, w)
      else
        let raw := readMem w.mem addr size
        match sptView (if b then 8 else 4) raw w.mem with
        | none => (.error .asiOs, w)
        | some req =>
          let r := dev w.kernel req
          let back := r.1.data.take req.fromDevice
          let m := writeMem w.mem (word true raw (if b then 24 else 20) (if b then 8 else 4)) back
          let m := writeMem m (addr + word true raw (if b then 32 else 24) 4) (r.1.sense.take req.senseRoom)
          let m := writeMem m (addr + 12) (be 4 (back.length + req.toDevice.length)).reverse
          let m := writeMem m (addr + 2) [r.1.status]
          (.ok (), { mem := m, kernel := r.2 }) }

theorem drop_readMem (m : Mem) (x n o z : Nat) (h : o + z ≤ n) : ((readMem m x n).drop o).take z = readMem m (x + o) z := by
  apply List.ext_getElem?
  intro i
  rw [List.getElem?_take, List.getElem?_drop, getElem?_readMem, getElem?_readMem]
  by_cases hi : i < z
  · rw [if_pos hi, if_pos (by omega), if_pos hi, Nat.add_assoc]
  · rw [if_neg hi, if_neg hi]

theorem word_readMem (m : Mem) (x n o z : Nat) (h : o + z ≤ n) :
    word true (readMem m x n) o z = beNat (readMem m (x + o) z).reverse := by
  simp only [word, if_true]
  rw [drop_readMem m x n o z h]

theorem take_readMem (m : Mem) (x n k : Nat) (h : k ≤ n) : (readMem m x n).take k = readMem m x k := by
  have := drop_readMem m x n 0 k (by omega)
  simpa using this

/-- **C55 (one command)**: the device is asked exactly what the command asks, once; and the caller gets the device's answer. -/
theorem C55_windows (b : Bool) (parse : Bytes → Py (Option S)) (dev : Device δ) (alloc : Nat → Alloc) (c : Req)
    (s : St Spt (Option K)) (m : Mem) (k : δ) (inc : List Spt) (hs : s.pending = []) (hq : 0 < s.maxq)
    (hcdb : c.cdb.length ≤ 16) (hd : dataSize c < 2 ^ 32) (hsep : Separate (bits b) (winRegions b (alloc s.index) c)) :
    let r := winCall b parse (sptDevice b dev) alloc c s { world := { mem := m, kernel := k }, incoming := inc }
    r.out = winOutcome parse c (dev k (asked c)).1 ∧ r.os.world.kernel = (dev k (asked c)).2 ∧
    ((∀ e, r.out ≠ .error (.py e)) → r.st = { s with index := (s.index + 1) % s.maxq }) := by
  intro r
  obtain ⟨ha, hx⟩ := win_apart hsep
  obtain ⟨h, hc, hb⟩ := create_built b (alloc s.index) s.index c hcdb hd hx
  obtain ⟨h', hc', -, hlen, hblk, hview, -⟩ := C18_windows b (alloc s.index) s.index c m hcdb hd hsep
  rw [hc] at hc'; cases hc'
  have hf := hb.fields
  generalize hal : alloc s.index = al at *
  let ans := (dev k (asked c)).1
  let back := ans.data.take (asked c).fromDevice
  let ptr := word true h.block (if b then 24 else 20) (if b then 8 else 4)
  let m1 := writeMem (h.install m) ptr back
  let m2 := writeMem m1 (al.block + osz b) (ans.sense.take 255)
  let m3 := writeMem m2 (al.block + 12) (be 4 (back.length + (asked c).toDevice.length)).reverse
  let m4 := writeMem m3 (al.block + 2) [ans.status]
  have hsub : submitted b (sptDevice b dev) h { world := { mem := m, kernel := k }, incoming := inc } =
      (.ok (), { mem := m4, kernel := (dev k (asked c)).2 }) := by
    have e4 : word true h.block (if b then 32 else 24) 4 = osz b := by
      rw [show (if b then 32 else 24) = oso b from rfl, word_W b, hf.senseOff]; rfl
    unfold submitted sptDevice
    simp only
    rw [if_neg (by simp), hb.blockAddr, hblk, hview]
    simp only [e4]
    rw [show (asked c).senseRoom = 255 by cases c <;> rfl]
  have hr : r = _ := winCall_ok b parse (sptDevice b dev) alloc c s { world := { mem := m, kernel := k }, incoming := inc } hs hq h
    (by rw [hal]; exact hc) hb.id _ hsub
  have hback : back.length ≤ (asked c).fromDevice := by simp only [back, List.length_take]; omega
  -- the data pointer
  have hptr : ptr = al.data ∨ back = [] := by
    simp only [ptr]
    rw [show (if b then 24 else 20) = obuf b from rfl, show (if b then 8 else 4) = optr b from rfl, word_W b, hf.dataPtr]
    cases c with
    | read cdb n =>
      by_cases hn : n > 0
      · left; simp [bufOf, hn]
      · right; simp only [back, asked]; rw [show n.toNat = 0 by omega]; rfl
    | write cdb d => right; simp [back, asked]
  have hm1 : m1 = writeMem (h.install m) al.data back := by
    simp only [m1]
    rcases hptr with hp | hp
    · rw [hp]
    · rw [hp, writeMem_nil, writeMem_nil]
  have hfd := fromDevice_le c
  have hosz : 12 + 4 ≤ osz b := by cases b <;> decide
  have hlen4 : (be 4 (back.length + (asked c).toDevice.length)).reverse.length = 4 := by simp
  -- what is read back
  have r2 : readMem m4 (al.block + 2) 1 = [ans.status] := readMem_writeMem_same m3 (al.block + 2) [ans.status]
  have inBlock : ∀ o z, o + z ≤ osz b + 255 → readMem m1 (al.block + o) z = (h.block.drop o).take z := by
    intro o z hoz
    rw [hm1, readMem_writeMem_other (by omega)]
    rw [← hblk, ← total_eq, drop_readMem _ _ _ _ _ hoz]
  have r8 : readMem m4 (al.block + 8) 1 = (h.block.drop 8).take 1 := by
    simp only [m4, m3, m2]
    rw [readMem_writeMem_other (by simp only [List.length_singleton]; omega), readMem_writeMem_other (by omega),
      readMem_writeMem_other (by omega), inBlock 8 1 (by omega)]
  have r12 : readMem m4 (al.block + 12) 4 = (be 4 (back.length + (asked c).toDevice.length)).reverse := by
    simp only [m4, m3]
    rw [readMem_writeMem_other (by simp only [List.length_singleton]; omega)]
    have := readMem_writeMem_same m2 (al.block + 12) (be 4 (back.length + (asked c).toDevice.length)).reverse
    rwa [hlen4] at this
  have rs : readMem m4 (al.block + osz b) 255 = padded 255 ans.sense := by
    have g : ∀ N, readMem m4 (al.block + osz b) N = readMem m2 (al.block + osz b) N := by
      intro N
      simp only [m4, m3]
      rw [readMem_writeMem_other (by simp only [List.length_singleton]; omega), readMem_writeMem_other (by omega)]
    rw [g]
    exact readMem_padded _ _ _ _ (by rw [inBlock _ _ (Nat.le_refl _), hf.sense])
  have rd : ∀ cdb n, c = .read cdb n → (readMem m4 al.data n.toNat).take back.length = back := by
    intro cdb n hcc
    have hds : dataSize c = n.toNat := by rw [hcc]; rfl
    have hfd' : (asked c).fromDevice = n.toNat := by rw [hcc]; rfl
    simp only [m4, m3, m2]
    rw [readMem_writeMem_other (by simp only [List.length_singleton]; omega), readMem_writeMem_other (by omega),
      readMem_writeMem_other (by rw [List.length_take]; omega), take_readMem _ _ _ _ (by omega), hm1, readMem_writeMem_same]
  -- classification
  have hsmall : back.length + (asked c).toDevice.length < 256 ^ 4 := by
    cases c with
    | read cdb n => simp only [dataSize] at hd; simp only [asked] at hback ⊢; simp; omega
    | write cdb d => simp only [dataSize] at hd; simp only [asked] at hback ⊢; omega
  rw [classify_eq] at hr
  simp only [hb.blockAddr, hf.len] at hr
  rw [word_readMem _ _ _ 2 1 (by omega), word_readMem _ _ _ 8 1 (by omega), word_readMem _ _ _ 12 4 (by omega),
    drop_readMem _ _ _ _ _ (Nat.le_refl _), r2, r8, r12, rs] at hr
  have hdir : beNat ((h.block.drop 8).take 1).reverse = (dirOf c).toNat := by
    have := word_W b h.block 8 1
    rw [hf.dir] at this
    simpa [word] using this
  rw [hdir, List.reverse_reverse, beNat_be_of_lt hsmall] at hr
  have hst : beNat [ans.status].reverse = ans.status.toNat := by simp [beNat]
  rw [hst] at hr
  have h2 : ans.status.toNat = 2 ↔ ans.status = 2 := ⟨fun hx => UInt8.toNat_inj.mp hx, fun hx => by rw [hx]; rfl⟩
  have h0 : ans.status.toNat = 0 ↔ ans.status = 0 := ⟨fun hx => UInt8.toNat_inj.mp hx, fun hx => by rw [hx]; rfl⟩
  simp only [h2, ne_eq, h0] at hr
  unfold winOutcome
  change r.out = (if ans.status = 2 then _ else _) ∧ _
  by_cases c1 : ans.status = 2
  · rw [if_pos c1] at hr ⊢
    unfold checkCondition at hr
    change r.out = (match parse (padded 255 ans.sense) with | .ok s => _ | .error e => _) ∧ _
    cases hpp : parse (padded 255 ans.sense) with
    | error e => rw [hpp] at hr; rw [hr]; exact ⟨rfl, rfl, fun hx => absurd rfl (hx e)⟩
    | ok sn => rw [hpp] at hr; rw [hr]; exact ⟨rfl, rfl, fun _ => rfl⟩
  · rw [if_neg c1] at hr ⊢
    by_cases c2 : ans.status = 0
    · rw [if_neg (by simp [c2])] at hr
      rw [if_neg (by simp [ans] at c2; simp [c2])]
      cases c with
      | read cdb n =>
        have hbk : back = ans.data.take n.toNat := rfl
        have htd : (asked (.read cdb n)).toDevice.length = 0 := rfl
        by_cases hn : n > 0
        · by_cases hbe : back = []
          · rw [if_neg (by rw [htd, hbe]; simp)] at hr
            simp only
            change r.out = .ok (some (if ans.data.take n.toNat = [] then _ else _)) ∧ _
            rw [if_pos (by rw [← hbk]; exact hbe), hr]
            exact ⟨rfl, rfl, fun _ => rfl⟩
          · have hpos : back.length ≠ 0 := fun hx => hbe (List.length_eq_zero_iff.1 hx)
            rw [if_pos (by rw [htd]; simp [dirOf, hn]; exact hbe)] at hr
            have hcut : cutData h m4 (back.length + (asked (.read cdb n)).toDevice.length) = .ok back := by
              unfold cutData
              rw [hb.data]
              simp only [bufOf, if_pos hn, zeros_length]
              rw [htd, Nat.add_zero, rd cdb n rfl]
            rw [hcut] at hr
            simp only
            change r.out = .ok (some (if ans.data.take n.toNat = [] then _ else some (ans.data.take n.toNat))) ∧ _
            rw [if_neg (by rw [← hbk]; exact hbe), hr]
            exact ⟨rfl, rfl, fun _ => rfl⟩
        · rw [if_neg (by simp [dirOf, hn])] at hr
          simp only
          rw [show n.toNat = 0 by omega, hr]
          exact ⟨by simp, rfl, fun _ => rfl⟩
      | write cdb d =>
        rw [if_neg (by simp only [dirOf]; split <;> simp)] at hr
        rw [hr]
        exact ⟨rfl, rfl, fun _ => rfl⟩
    · rw [if_pos c2] at hr
      rw [if_pos c2, hr]
      exact ⟨rfl, rfl, fun _ => rfl⟩

/-- Commands executed one after another. -/
def runWin (b : Bool) (parse : Bytes → Py (Option S)) (k : PortDriver κ) (alloc : Nat → Alloc) :
    List Req → St Spt (Option K) → WinWorld κ → List (Except (Exn (DevErr S)) (Option (Option Bytes)))
  | [], _, _ => []
  | c :: cs, s, w =>
    let r := winCall b parse k alloc c s w
    r.out :: runWin b parse k alloc cs r.st r.os

/-- The device asked directly, command after command. -/
def winExpected (parse : Bytes → Py (Option S)) (dev : Device δ) : List Req → δ → List (Except (Exn (DevErr S)) (Option (Option Bytes)))
  | [], _ => []
  | c :: cs, k => winOutcome parse c (dev k (asked c)).1 :: winExpected parse dev cs (dev k (asked c)).2

/-- **C55**: a whole session. -/
theorem C55_session (b : Bool) (parse : Bytes → Py (Option S)) (dev : Device δ) (alloc : Nat → Alloc) (cs : List Req)
    (s : St Spt (Option K)) (m : Mem) (k : δ) (inc : List Spt)
    (hparse : ∀ k q, (dev k q).1.status = 2 → ∃ sn, parse (padded 255 (dev k q).1.sense) = .ok sn)
    (hs : s.pending = []) (hq : 0 < s.maxq)
    (hcs : ∀ c ∈ cs, c.cdb.length ≤ 16 ∧ dataSize c < 2 ^ 32 ∧ ∀ i, Separate (bits b) (winRegions b (alloc i) c)) :
    runWin b parse (sptDevice b dev) alloc cs s { world := { mem := m, kernel := k }, incoming := inc } = winExpected parse dev cs k := by
  induction cs generalizing s m k inc with
  | nil => rfl
  | cons c cs ih =>
    obtain ⟨h1, h2, h3⟩ := hcs c (List.mem_cons_self ..)
    obtain ⟨r1, r2, r3⟩ := C55_windows b parse dev alloc c s m k inc hs hq h1 h2 (h3 _)
    simp only [runWin, winExpected]
    have hne : ∀ e, winOutcome parse c (dev k (asked c)).1 ≠ .error (.py e) := by
      intro e
      unfold winOutcome
      split
      · rename_i hcc
        obtain ⟨sn, hsn⟩ := hparse k (asked c) hcc
        rw [hsn]; simp
      · split
        · simp
        · split <;> simp
    rw [r1, r3 (by rw [r1]; exact hne)]
    generalize winCall b parse (sptDevice b dev) alloc c s { world := { mem := m, kernel := k }, incoming := inc } = r at *
    obtain ⟨_, _, _, ⟨mm, kk⟩, bb⟩ := r
    simp only at r2
    subst r2
    rw [ih { s with index := (s.index + 1) % s.maxq } _ _ _ hs hq (fun c' hc' => hcs c' (List.mem_cons_of_mem _ hc'))]

/-- The hypotheses are met, with a queue of depth 4. -/
example (b : Bool) :
    runWin b (fun b => .ok (some b)) (sptDevice b Linux.toyDevice)
      (fun _ => { block := 4096, sense := 0, cmd := 0, data := 16384 })
      [.read [0x12, 0, 0, 0, 36, 0] 36, .write [0x2A, 0, 0, 0] [1, 2, 3, 4]]
      ({ pending := [], index := 3, maxq := 4 } : St Spt (Option Unit)) { world := { mem := fun _ => 0xEE, kernel := 0 }, incoming := [] } =
    [.ok (some (some [0, 0, 5, 2, 31, 0, 0, 0])),
     .error (.dev (.checkCondition (padded 255 [0x70, 0, 5]) (some (padded 255 [0x70, 0, 5]))))] := by
  rw [C55_session]
  · simp [winExpected, winOutcome, Linux.toyDevice, asked]
  · intro _ _ _; exact ⟨_, rfl⟩
  · rfl
  · decide
  · intro c hc
    simp only [List.mem_cons, List.not_mem_nil, or_false] at hc
    rcases hc with rfl | rfl
    · refine ⟨by decide, by decide, fun i => ⟨by cases b <;> simp [winRegions, dataSize], by cases b <;> simp [winRegions, bits]⟩⟩
    · refine ⟨by decide, by decide, fun i => ⟨by cases b <;> simp [winRegions, dataSize], by cases b <;> simp [winRegions, bits]⟩⟩

end Verif.Platform.Win32
