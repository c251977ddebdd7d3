import Verif.Platform.AixLemmas
import Verif.CallLemmas
import Verif.Props.LinuxDevice
set_option linter.unusedSimpArgs false
/-!
# C18 (AIX), C20, C54

AIX is big-endian (`lp64 false`). The executer is used as `executers.py` creates it: `max_queue_size = 1`, so its packet
number is always 0, the number `_handle_raw_response` assumes.
-/

namespace Verif.Platform.Aix
open Verif.Executer Verif.Spec

variable {S κ δ K : Type}

/-- The machine: 64-bit, big-endian. -/
local notation "abi" => lp64 false

/-- One command on the AIX executer. -/
def aixCall (parse : Bytes → Py (Option S)) (b : Binding) (k : DiskDriver κ) (alloc : Nat → Alloc) (t : Int) (c : Req)
    (s : St Handle (Option K)) (w : AixWorld κ) : CallResult Handle (Option K) (Option Bytes) (DevErr S) (AixWorld κ) :=
  call (prepare abi alloc t c) (osSend abi b k) (osReceive abi parse) s w

theorem and_30_2 (n : Nat) : n &&& 30 &&& 2 ≠ 0 ↔ n / 2 % 2 = 1 := by
  rw [Nat.and_assoc, show 30 &&& 2 = 2 by rfl, and_2]

/-- The response classification, in terms of the block's bytes. -/
theorem handle_eq (parse : Bytes → Py (Option S)) (req : Option Handle) (m : Mem) (raw : Bytes) (hlen : 168 ≤ raw.length) :
    handleRawResponse abi parse req m raw =
      if scValidity raw ≠ 0 then
        if scValidity raw = 1 ∧ scBusStatus raw / 2 % 2 = 1 then
          match checkCondition parse (readMem m (scSensePtr raw) 255) with
          | .ok e => .ok (.exc e, 0)
          | .error e => .error e
        else .ok (.exc .scsi, 0)
      else
        match successData abi m req with
        | .ok d => .ok (.data d, 0)
        | .error e => .error e := by
  have hv : scValidity raw = (load abi (fld abi "status_validity") raw).toNat := by
    rw [scValidity, word_lp64, fld_status_validity]; rfl
  have hs : scBusStatus raw = (load abi (fld abi "scsi_bus_status") raw).toNat := by
    rw [scBusStatus, word_lp64, fld_scsi_bus_status]; rfl
  have hb : scSensePtr raw = (load abi (fld abi "autosense_buffer_ptr") raw).toNat := by
    rw [scSensePtr, word_lp64, fld_autosense_buffer_ptr]; rfl
  unfold handleRawResponse
  rw [sizeValue, if_neg (by omega), ← hv, ← hs, ← hb]
  simp only [and_30_2, senseSize]
  by_cases h1 : scValidity raw = 1
  · by_cases h2 : scBusStatus raw / 2 % 2 = 1
    · simp [h1, h2]; rfl
    · simp [h1, h2]
  · simp [h1]; rfl

/-- **C20 (a)**: only a completion without valid SCSI or adapter status is handed over as data. -/
theorem C20_response (parse : Bytes → Py (Option S)) (req : Option Handle) (m : Mem) (raw : Bytes)
    (d : Option Bytes) (i : Nat) (h : handleRawResponse abi parse req m raw = .ok (.data d, i)) :
    168 ≤ raw.length ∧ scValidity raw = 0 := by
  have hlen : 168 ≤ raw.length := by
    by_cases hl : 168 ≤ raw.length
    · exact hl
    · unfold handleRawResponse at h
      rw [sizeValue, if_pos (by omega)] at h; cases h
  rw [handle_eq parse req m raw hlen] at h
  refine ⟨hlen, ?_⟩
  split at h
  · split at h
    · split at h <;> simp at h
    · simp at h
  · rename_i h1; simpa using h1

/-- What the driver does: `true` if the call failed, and the new state of the world. -/
def submitted (k : DiskDriver κ) (alloc : Nat → Alloc) (t : Int) (c : Req) (i : Nat) (w : AixWorld κ) : Bool × World κ :=
  let h := create abi (alloc i) c t
  k.ioctl 23 (alloc i).block { w.world with mem := h.install w.world.mem }

/-- The block as the driver left it. -/
def blockAfter (w : World κ) (al : Alloc) : Bytes := readMem w.mem al.block 168

theorem osSend_eq (b : Binding) (k : DiskDriver κ) (alloc : Nat → Alloc) (t : Int) (c : Req) (i : Nat) (w : AixWorld κ)
    (hp : Passes b (alloc i).block) :
    osSend abi b k (create abi (alloc i) c t) w =
      let r := submitted k alloc t c i w
      let raw := blockAfter r.2 (alloc i)
      if r.1 = true ∧ b = .fcntl ∧ (scEinval raw ≠ 0 ∨ scValidity raw = 0) then (.error .asiOs, { w with world := r.2 })
      else (.ok (), { world := r.2, buffer := some raw }) := by
  have hb := create_built false (alloc i) c t
  have hv : ∀ raw, load abi (fld abi "status_validity") raw = 0 ↔ scValidity raw = 0 := by
    intro raw
    rw [scValidity, word_lp64, fld_status_validity, load_name _ "status_validity"]
    have := load_nonneg abi "" 2 1 raw
    omega
  have he : ∀ raw, load abi (fld abi "einval_arg") raw ≠ 0 ↔ scEinval raw ≠ 0 := by
    intro raw
    rw [scEinval, word_lp64, fld_einval_arg, load_name _ "einval_arg"]
    have := load_nonneg abi "" 16 2 raw
    omega
  obtain ⟨io⟩ := k
  unfold osSend
  rw [hb.blockAddr, hb.len, if_pos hp]
  simp only [hv, he]
  unfold submitted blockAfter dkPassthru
  simp only
  generalize io 23 (alloc i).block { w.world with mem := (create abi (alloc i) c t).install w.world.mem } = r
  obtain ⟨f, w1⟩ := r
  cases f
  · simp
  · cases b
    · simp only [true_and, and_true, if_true]
      by_cases h1 : scEinval (readMem w1.mem (alloc i).block 168) ≠ 0
      · simp [h1]
      · simp only [ne_eq, Decidable.not_not] at h1
        by_cases h2 : scValidity (readMem w1.mem (alloc i).block 168) = 0
        · simp [h1, h2]
        · simp [h1, h2]
    · simp

/-- An address that the binding cannot pass: nothing is sent. -/
theorem osSend_overflow (b : Binding) (k : DiskDriver κ) (alloc : Nat → Alloc) (t : Int) (c : Req) (i : Nat) (w : AixWorld κ)
    (hp : ¬ Passes b (alloc i).block) :
    osSend abi b k (create abi (alloc i) c t) w =
      (.error overflowError, { w with world := { w.world with mem := (create abi (alloc i) c t).install w.world.mem } }) := by
  unfold osSend
  rw [(create_built false (alloc i) c t).blockAddr, if_neg hp]

/-- **C20 (b)**: with either binding `call` returns normally only if the driver completed the command without a valid SCSI or adapter
status; with the `fcntl` binding, moreover only if the ioctl did not fail. (Missing for the libc binding: see `C20_false`.) -/
theorem C20_call_partial (parse : Bytes → Py (Option S)) (b : Binding) (k : DiskDriver κ) (alloc : Nat → Alloc) (t : Int) (c : Req)
    (s : St Handle (Option K)) (w : AixWorld κ) (hs : s.pending = []) (hq : 0 < s.maxq) (d : Option (Option Bytes))
    (h : (aixCall parse b k alloc t c s w).out = .ok d) :
    scValidity (blockAfter (submitted k alloc t c s.index w).2 (alloc s.index)) = 0 ∧
    (b = .fcntl → (submitted k alloc t c s.index w).1 = false) := by
  by_cases hp : Passes b (alloc s.index).block
  case neg =>
    unfold aixCall at h
    rw [call_idle _ _ _ s w hs hq _ (show prepare abi alloc t c s.index = .ok _ from rfl), osSend_overflow _ _ _ _ _ _ _ hp] at h
    simp at h
  unfold aixCall at h
  rw [call_idle _ _ _ s w hs hq _ (show prepare abi alloc t c s.index = .ok _ from rfl), osSend_eq _ _ _ _ _ _ _ hp] at h
  generalize submitted k alloc t c s.index w = r at *
  simp only at h
  split at h
  · rename_i h0
    split at h0
    · simp at h
    · simp at h0
  · rename_i w1 h0
    split at h0
    · simp at h0
    · rename_i hcond
      simp only [Prod.mk.injEq, true_and] at h0
      subst h0
      simp only [osReceive] at h
      rcases hh : handleRawResponse abi parse (getOsData (oneFlight s (create abi (alloc s.index) c t)) 0) r.2.mem
        (blockAfter r.2 (alloc s.index)) with e | ⟨o, i⟩
      · rw [hh] at h; simp at h
      · rw [hh] at h
        simp only at h
        split at h
        · cases o with
          | exc e => simp at h
          | data d' =>
            obtain ⟨_, h2⟩ := C20_response parse _ _ _ d' i hh
            refine ⟨h2, ?_⟩
            intro hb
            cases hr : r.1 with
            | false => rfl
            | true => exact absurd ⟨hr, hb, Or.inr h2⟩ hcond
        · simp at h

/-- **C20 (c)**: with the `fcntl` binding, an ioctl refused by the driver (an invalid field, or no valid status) raises `AsiOSError`, and
nothing stays pending. -/
theorem C20_refused (parse : Bytes → Py (Option S)) (k : DiskDriver κ) (alloc : Nat → Alloc) (t : Int) (c : Req)
    (s : St Handle (Option K)) (w : AixWorld κ) (hs : s.pending = []) (hq : 0 < s.maxq)
    (hp : (alloc s.index).block < 2 ^ 31) (hf : (submitted k alloc t c s.index w).1 = true)
    (hr : scEinval (blockAfter (submitted k alloc t c s.index w).2 (alloc s.index)) ≠ 0 ∨
      scValidity (blockAfter (submitted k alloc t c s.index w).2 (alloc s.index)) = 0) :
    (aixCall parse .fcntl k alloc t c s w).out = .error (.py .asiOs) ∧ (aixCall parse .fcntl k alloc t c s w).st.pending = [] := by
  unfold aixCall
  rw [call_idle _ _ _ s w hs hq _ (show prepare abi alloc t c s.index = .ok _ from rfl), osSend_eq _ _ _ _ _ _ _ (fun _ => hp)]
  simp only
  rw [if_pos ⟨hf, trivial, hr⟩]
  exact ⟨rfl, hs⟩

/-- **C20 (d)**: a completion with a valid SCSI status that has the check-condition bit raises `AsiCheckConditionError` with the sense
buffer, with either binding; any other valid SCSI status, adapter status or unknown validity raises `AsiSCSIError`. -/
theorem C20_status (parse : Bytes → Py (Option S)) (b : Binding) (k : DiskDriver κ) (alloc : Nat → Alloc) (t : Int) (c : Req)
    (s : St Handle (Option K)) (w : AixWorld κ) (w1 : World κ) (f : Bool) (hs : s.pending = []) (hq : 0 < s.maxq) (h0 : s.index = 0)
    (hsub : submitted k alloc t c 0 w = (f, w1)) (he : scEinval (blockAfter w1 (alloc 0)) = 0)
    (hv : scValidity (blockAfter w1 (alloc 0)) ≠ 0) (hptr : scSensePtr (blockAfter w1 (alloc 0)) = (alloc 0).sense)
    (hp : Passes b (alloc 0).block) :
    (scValidity (blockAfter w1 (alloc 0)) = 1 → scBusStatus (blockAfter w1 (alloc 0)) / 2 % 2 = 1 →
      ∀ sense, parse (readMem w1.mem (alloc 0).sense 255) = .ok sense →
      (aixCall parse b k alloc t c s w).out = .error (.dev (.checkCondition (readMem w1.mem (alloc 0).sense 255) sense))) ∧
    (¬ (scValidity (blockAfter w1 (alloc 0)) = 1 ∧ scBusStatus (blockAfter w1 (alloc 0)) / 2 % 2 = 1) →
      (aixCall parse b k alloc t c s w).out = .error (.dev .scsi)) := by
  have hlen : 168 ≤ (blockAfter w1 (alloc 0)).length := by simp [blockAfter, readMem]
  have key : (aixCall parse b k alloc t c s w).out =
      match handleRawResponse abi parse (getOsData (oneFlight s (create abi (alloc 0) c t)) 0) w1.mem (blockAfter w1 (alloc 0)) with
      | .error e => .error (.py e)
      | .ok (o, j) => if 0 = j then (match o with | .data d => .ok (some d) | .exc e => .error (.dev e)) else .error (.py .asiInternal) := by
    unfold aixCall
    rw [call_idle _ _ _ s w hs hq _ (show prepare abi alloc t c s.index = .ok _ from rfl), osSend_eq _ _ _ _ _ _ _ (by rw [h0]; exact hp), h0, hsub]
    simp only
    rw [if_neg (by simp [he, hv])]
    simp only [osReceive]
    rcases handleRawResponse abi parse (getOsData (oneFlight s (create abi (alloc 0) c t)) 0) w1.mem (blockAfter w1 (alloc 0)) with e | ⟨o, j⟩
    · rfl
    · simp only
      split
      · rename_i h; subst h; cases o <;> rfl
      · rfl
  rw [key, handle_eq parse _ _ _ hlen, if_pos hv]
  constructor
  · intro h1 h2 sense hp
    rw [if_pos ⟨h1, h2⟩, hptr, checkCondition, hp]
    rfl
  · intro h1
    rw [if_neg h1]
    rfl

/-- **C20 (e)**: a completion without error returns the data of a read (with the libc binding, whether or not the ioctl failed). -/
theorem C20_success (parse : Bytes → Py (Option S)) (b : Binding) (k : DiskDriver κ) (alloc : Nat → Alloc) (t : Int) (c : Req)
    (s : St Handle (Option K)) (w : AixWorld κ) (w1 : World κ) (f : Bool) (hs : s.pending = []) (hq : 0 < s.maxq) (h0 : s.index = 0)
    (hsub : submitted k alloc t c 0 w = (f, w1)) (hok : f = false ∨ b = .libc) (hv : scValidity (blockAfter w1 (alloc 0)) = 0)
    (hfl : word false (blockAfter w1 (alloc 0)) 10 1 = word false (create abi (alloc 0) c t).block 10 1)
    (hdl : word false (blockAfter w1 (alloc 0)) 24 8 = word false (create abi (alloc 0) c t).block 24 8)
    (hcdb : c.cdb.length < 65536) (hd : dataSize c < 2 ^ 64) (ht : 0 ≤ t ∧ t < 2 ^ 32)
    (hal : (alloc 0).sense < 2 ^ 64 ∧ (alloc 0).data < 2 ^ 64) (hp : Passes b (alloc 0).block) :
    (aixCall parse b k alloc t c s w).out = .ok (some (dataBack c w1.mem (alloc 0).data)) := by
  have hlen : 168 ≤ (blockAfter w1 (alloc 0)).length := by simp [blockAfter, readMem]
  have hf := create_fields false (alloc 0) c t hcdb hd ht hal.1 hal.2
  have hbu := create_built false (alloc 0) c t
  have hget : getOsData (oneFlight s (create abi (alloc 0) c t)) 0 = some (create abi (alloc 0) c t) := by
    simp [getOsData, oneFlight, Dict.get, h0]
  have hw : ∀ o z, word false (blockAfter w1 (alloc 0)) o z = word false (create abi (alloc 0) c t).block o z →
      load abi ⟨"", o, z, false⟩ (readMem w1.mem (create abi (alloc 0) c t).blockAddr 168) = load abi ⟨"", o, z, false⟩ (create abi (alloc 0) c t).block := by
    intro o z h
    rw [word_lp64, word_lp64] at h
    have h1 := load_nonneg abi "" o z (blockAfter w1 (alloc 0))
    have h2 := load_nonneg abi "" o z (create abi (alloc 0) c t).block
    rw [hbu.blockAddr]
    unfold blockAfter at h h1
    omega
  have hsd := successData_eq false (alloc 0) c (create abi (alloc 0) c t) w1.mem hbu.len ((hw _ _ hfl).trans hf.flags)
    ((hw _ _ hdl).trans hf.dataLen) hbu.data
  unfold aixCall
  rw [call_idle _ _ _ s w hs hq _ (show prepare abi alloc t c s.index = .ok _ from rfl), osSend_eq _ _ _ _ _ _ _ (by rw [h0]; exact hp), h0, hsub]
  simp only
  rw [if_neg (by rcases hok with rfl | rfl <;> simp)]
  simp only [osReceive]
  rw [handle_eq parse _ _ _ hlen, hv, hget, hsd]
  rfl

/-- A driver that refuses everything with `EINVAL`, naming field 13. -/
def refusing : DiskDriver Unit :=
  { ioctl := fun _ addr w => (true, { w with mem := writeMem w.mem (addr + 16) [0, 13] }) }

/-- **C20 is false with the libc binding**: the driver refuses a TEST UNIT READY, nothing was executed, and `call` reports
success (with the `fcntl` binding the same refusal raises `AsiOSError`). -/
theorem C20_false : ∃ (s : St Handle (Option Unit)) (alloc : Nat → Alloc) (w : AixWorld Unit) (c : Req),
    s.pending = [] ∧ s.index = 0 ∧ s.maxq = 1 ∧
    (submitted refusing alloc 30 c 0 w).1 = true ∧
    (aixCall (fun _ => .ok (none : Option Unit)) .libc refusing alloc 30 c s w).out = .ok (some none) ∧
    (aixCall (fun _ => .ok (none : Option Unit)) .fcntl refusing alloc 30 c s w).out = .error (.py .asiOs) := by
  let al : Alloc := { block := 4096, sense := 8192, cmd := 12288, data := 16384 }
  let c : Req := .read [0, 0, 0, 0, 0, 0] 0
  let w : AixWorld Unit := { world := { mem := fun _ => 0, kernel := () }, buffer := none }
  let s : St Handle (Option Unit) := { pending := [], index := 0, maxq := 1 }
  refine ⟨s, fun _ => al, w, c, rfl, rfl, rfl, rfl, ?_, ?_⟩
  all_goals
    have hbu := create_built false al c 30
    have hf := create_fields false al c 30 (by decide) (by decide) (by decide) (by decide) (by decide)
    have hsub : submitted refusing (fun _ => al) 30 c 0 w =
        (true, { mem := writeMem ((create abi al c 30).install w.world.mem) (al.block + 16) [0, 13], kernel := () }) := rfl
    have hraw : blockAfter (submitted refusing (fun _ => al) 30 c 0 w).2 al = splice (create abi al c 30).block 16 [0, 13] := by
      have hib := install_block (create abi al c 30) w.world.mem
      rw [hbu.len, hbu.blockAddr] at hib
      rw [hsub]
      unfold blockAfter
      rw [readMem_writeMem_inside _ al.block 16 168 [0, 13] (by decide), hib]
    have hval : scValidity (splice (create abi al c 30).block 16 [0, 13]) = 0 := by
      rw [scValidity, word_lp64, load_splice_other (by decide), hf.validity]; rfl
  · refine C20_success _ _ _ _ _ _ s w _ true rfl (by decide) rfl hsub (.inr rfl) ?_ ?_ ?_ (by decide) (by decide) (by decide) (by decide) (by decide)
    · rw [hsub] at hraw; rw [hraw, hval]
    · rw [hsub] at hraw; rw [hraw, word_lp64, word_lp64, load_splice_other (by decide)]
    · rw [hsub] at hraw; rw [hraw, word_lp64, word_lp64, load_splice_other (by decide)]
  · exact (C20_refused _ _ _ _ _ s w rfl (by decide) (by decide) rfl (.inr (by rw [show s.index = 0 from rfl, hraw, hval]))).1

/-- **C18 (AIX)**: what the disk driver reads in the block is exactly what the command asks for; other users of the disk are not held up
(`SC_MIX_IO`). -/
theorem C18_aix (al : Alloc) (c : Req) (t : Int) (m : Mem)
    (hcdb : c.cdb.length ≤ 64) (hd : dataSize c < 2 ^ 64) (ht : 0 ≤ t ∧ t < 2 ^ 32)
    (hsep : Separate 64 (regions al c 168)) :
    let h := create abi al c t
    scPassthruView h.block (h.install m) = some (asked c) ∧ scSensePtr h.block = al.sense ∧ word false h.block 20 4 = t ∧
    word false h.block 11 1 = 1 := by
  intro h
  obtain ⟨-, hb2, hb3, hb4⟩ := regions_bits hsep
  have hf : BlockFields false al c t h.block := create_fields false al c t (by omega) hd ht hb2 hb4
  have hbu : Built h al c 168 := create_built false al c t
  have hdat := installed_data hbu hsep m
  refine ⟨?_, ?_, ?_, ?_⟩
  · unfold scPassthruView
    simp only [word_lp64, hf.version, hf.cmdLen, hf.varLen, hf.qTag, hf.devflags, hf.qFlags, hf.flags, hf.dataLen, hf.dataPtr, hf.senseMax, Int.toNat_natCast, hf.cdb hcdb]
    rw [if_neg (by decide), if_neg (by omega), if_neg (by decide), if_neg (by decide)]
    cases c with
    | read cdb n =>
      by_cases hn : n > 0
      · simp [flagsOf, hn, asked, dataSize, Req.cdb]
      · have : n.toNat = 0 := by omega
        simp [flagsOf, hn, asked, dataSize, Req.cdb, this, readMem_zero, Linux.bufOf]
    | write cdb d =>
      simp [flagsOf, asked, dataSize, Req.cdb, hdat cdb d rfl, Linux.bufOf]
  · rw [scSensePtr, word_lp64, hf.sensePtr, Int.toNat_natCast]
  · rw [word_lp64, hf.timeout, Int.toNat_of_nonneg ht.1]
  · rw [word_lp64, hf.devflags]; rfl

/-! ## C54: faithful transport -/

/-- The disk driver in front of a device: decodes the block in memory, runs the command, stores data and sense through the block's
pointers, and reports a non-zero SCSI status in the block and by failing the ioctl. -/
def scDevice (dev : Device δ) : DiskDriver δ :=
  { ioctl := fun code addr w =>
      if code ≠ 23 then (true, w)
      else
        match scPassthruView (readMem w.mem addr 168) w.mem with
        | none => (true, { w with mem := writeMem w.mem (addr + 16) [0, 1] })
        | some req =>
          let r := dev w.kernel req
          let m := writeMem w.mem (word false (readMem w.mem addr 168) 48 8) (r.1.data.take req.fromDevice)
          let m := writeMem m (scSensePtr (readMem w.mem addr 168)) (r.1.sense.take req.senseRoom)
          let m := writeMem m (addr + 2) [if r.1.status = 0 then 0 else 1, r.1.status]
          (decide (r.1.status ≠ 0), { mem := m, kernel := r.2 }) }

theorem splice_status (raw : Bytes) (v st : UInt8) (h : raw.length = 168) :
    scValidity (splice raw 2 [v, st]) = v.toNat ∧ scBusStatus (splice raw 2 [v, st]) = st.toNat := by
  have h2 : slice (splice raw 2 [v, st]) 2 4 = [v, st] :=
    slice_splice_same (raw := raw) (off := 2) (new := [v, st]) (by simp only [List.length_cons, List.length_nil]; omega)
  have h3 : ((splice raw 2 [v, st]).drop 2).take 2 = [v, st] := by simpa [slice, List.drop_take] using h2
  obtain ⟨r, hr⟩ : ∃ r, (splice raw 2 [v, st]).drop 2 = v :: st :: r := by
    generalize (splice raw 2 [v, st]).drop 2 = x at h3
    match x, h3 with
    | a :: b :: r, h3 => simp at h3; exact ⟨r, by rw [h3.1, h3.2]⟩
  have h5 : (splice raw 2 [v, st]).drop 3 = st :: r := by
    have : (splice raw 2 [v, st]).drop 3 = ((splice raw 2 [v, st]).drop 2).drop 1 := by rw [List.drop_drop]
    rw [this, hr]; rfl
  constructor
  · simp [scValidity, word, hr, beNat]
  · simp [scBusStatus, word, h5, beNat]

/-- **C54 (one command, partial)**: the device is asked exactly what the command asks, once; and the caller gets the device's answer, with
the `fcntl` binding if the block is at an address it can pass (`C54_false` otherwise). -/
theorem C54_aix_partial (parse : Bytes → Py (Option S)) (b : Binding) (dev : Device δ) (alloc : Nat → Alloc) (t : Int) (c : Req)
    (s : St Handle (Option K)) (m : Mem) (k : δ) (old : Option Bytes) (hs : s.pending = []) (hq : 0 < s.maxq) (h0 : s.index = 0)
    (hcdb : c.cdb.length ≤ 64) (hd : dataSize c < 2 ^ 64) (ht : 0 ≤ t ∧ t < 2 ^ 32) (hsep : Separate 64 (regions (alloc 0) c 168))
    (hp : Passes b (alloc 0).block) :
    let r := aixCall parse b (scDevice dev) alloc t c s { world := { mem := m, kernel := k }, buffer := old }
    r.out = outcome parse c (dev k (asked c)).1 ∧ r.os.world.kernel = (dev k (asked c)).2 ∧
    ((∀ e, r.out ≠ .error (.py e)) → r.st = { s with index := 1 % s.maxq }) := by
  intro r
  obtain ⟨hb1, hb2, hb3, hb4⟩ := regions_bits hsep
  obtain ⟨ha1, ha2, ha3, ha4, ha5, ha6⟩ := regions_apart hsep
  have hf := create_fields false (alloc 0) c t (by omega) hd ht hb2 hb4
  have hbu := create_built false (alloc 0) c t
  obtain ⟨hv, hsp, -⟩ := C18_aix (alloc 0) c t m hcdb hd ht hsep
  have hr : r = call (prepare abi alloc t c) (osSend abi b (scDevice dev)) (osReceive abi parse) s
    { world := { mem := m, kernel := k }, buffer := old } := rfl
  rw [call_idle _ _ _ s _ hs hq _ (show prepare abi alloc t c s.index = .ok _ from rfl), h0, osSend_eq _ _ _ _ _ _ _ hp] at hr
  have hget : getOsData (oneFlight s (create abi (alloc 0) c t)) 0 = some (create abi (alloc 0) c t) := by
    simp [getOsData, oneFlight, Dict.get, h0]
  have hM := answered_sense hbu hsep m (dev k (asked c)).1
  have hB := answered_block hbu hsep m (dev k (asked c)).1
  have hD := answered_data hbu hsep m (dev k (asked c)).1
  have hib := install_block (create abi (alloc 0) c t) m
  rw [hbu.len, hbu.blockAddr] at hib
  have hsub : submitted (scDevice dev) alloc t c 0 { world := { mem := m, kernel := k }, buffer := old } =
      (decide ((dev k (asked c)).1.status ≠ 0),
        { mem := writeMem (answered ((create abi (alloc 0) c t).install m) (alloc 0) c (dev k (asked c)).1) ((alloc 0).block + 2)
            [if (dev k (asked c)).1.status = 0 then 0 else 1, (dev k (asked c)).1.status], kernel := (dev k (asked c)).2 }) := by
    have hptr : word false (create abi (alloc 0) c t).block 48 8 = (alloc 0).data ∨ (asked c).fromDevice = 0 := by
      rw [word_lp64, hf.dataPtr]
      cases c with
      | read cdb n =>
        by_cases hn : n > 0
        · left; simp [Linux.bufOf, hn]
        · right; simp only [asked]; omega
      | write cdb d => right; rfl
    rw [← answered_of_ptr _ _ _ _ _ hptr]
    unfold submitted
    dsimp only
    generalize create abi (alloc 0) c t = h at *
    simp only [scDevice]
    rw [if_neg (by decide), hib, hv]
    simp only [hsp]
    cases c <;> rfl
  rw [hsub] at hr
  simp only at hr
  have hraw : blockAfter (World.mk (writeMem (answered ((create abi (alloc 0) c t).install m) (alloc 0) c (dev k (asked c)).1) ((alloc 0).block + 2)
      [if (dev k (asked c)).1.status = 0 then 0 else 1, (dev k (asked c)).1.status]) (dev k (asked c)).2) (alloc 0) =
      splice (create abi (alloc 0) c t).block 2 [if (dev k (asked c)).1.status = 0 then 0 else 1, (dev k (asked c)).1.status] := by
    unfold blockAfter
    simp only
    rw [readMem_writeMem_inside _ _ 2 168 _ (by simp only [List.length_cons, List.length_nil]; omega), hB]
  rw [hraw] at hr
  have hM' : readMem (writeMem (answered ((create abi (alloc 0) c t).install m) (alloc 0) c (dev k (asked c)).1)
      ((alloc 0).block + 2) [if (dev k (asked c)).1.status = 0 then 0 else 1, (dev k (asked c)).1.status]) (alloc 0).sense 255 =
      padded 255 (dev k (asked c)).1.sense := by
    rw [readMem_writeMem_other (by simp only [List.length_cons, List.length_nil]; omega), hM]
  have hD' : dataBack c (writeMem (answered ((create abi (alloc 0) c t).install m) (alloc 0) c (dev k (asked c)).1)
      ((alloc 0).block + 2) [if (dev k (asked c)).1.status = 0 then 0 else 1, (dev k (asked c)).1.status]) (alloc 0).data =
      delivered c (dev k (asked c)).1 := by
    rw [← hD]
    cases c with
    | read cdb len =>
      simp only [dataBack, dataSize] at ha3 ⊢
      rw [readMem_writeMem_other (by simp only [List.length_cons, List.length_nil]; omega)]
    | write cdb d => rfl
  have hB' : readMem (writeMem (answered ((create abi (alloc 0) c t).install m) (alloc 0) c (dev k (asked c)).1)
      ((alloc 0).block + 2) [if (dev k (asked c)).1.status = 0 then 0 else 1, (dev k (asked c)).1.status]) (alloc 0).block 168 =
      splice (create abi (alloc 0) c t).block 2 [if (dev k (asked c)).1.status = 0 then 0 else 1, (dev k (asked c)).1.status] := hraw
  have hsd := successData_eq false (alloc 0) c (create abi (alloc 0) c t)
    (writeMem (answered ((create abi (alloc 0) c t).install m) (alloc 0) c (dev k (asked c)).1)
      ((alloc 0).block + 2) [if (dev k (asked c)).1.status = 0 then 0 else 1, (dev k (asked c)).1.status]) hbu.len
    (by rw [hbu.blockAddr, hB', load_splice_other (by simp only [List.length_cons, List.length_nil]; omega), hf.flags])
    (by rw [hbu.blockAddr, hB', load_splice_other (by simp only [List.length_cons, List.length_nil]; omega), hf.dataLen]) hbu.data
  have hptr : scSensePtr (splice (create abi (alloc 0) c t).block 2 [if (dev k (asked c)).1.status = 0 then 0 else 1, (dev k (asked c)).1.status]) =
      (alloc 0).sense := by
    rw [scSensePtr, word_lp64, load_splice_other (by simp only [List.length_cons, List.length_nil]; omega), hf.sensePtr]; rfl
  have hein : scEinval (splice (create abi (alloc 0) c t).block 2 [if (dev k (asked c)).1.status = 0 then 0 else 1, (dev k (asked c)).1.status]) = 0 := by
    rw [scEinval, word_lp64, load_splice_other (by simp only [List.length_cons, List.length_nil]; omega), hf.einval]; rfl
  have hvs := splice_status (create abi (alloc 0) c t).block (if (dev k (asked c)).1.status = 0 then 0 else 1) (dev k (asked c)).1.status hbu.len
  have hlen : 168 ≤ (splice (create abi (alloc 0) c t).block 2 [if (dev k (asked c)).1.status = 0 then 0 else 1, (dev k (asked c)).1.status]).length := by
    rw [splice_length, hbu.len]; exact Nat.le_refl _
  rw [if_neg (by
    rw [hein, hvs.1]
    by_cases c2 : (dev k (asked c)).1.status = 0
    · simp [c2]
    · simp [c2])] at hr
  simp only [osReceive] at hr
  rw [handle_eq parse _ _ _ hlen, hvs.1, hvs.2, hptr, hget, hsd, hM', hD'] at hr
  clear hsd hD' hM' hB' hraw hsub hD hB hM hlen hptr hein hvs hib
  generalize create abi (alloc 0) c t = h at *
  generalize hans : dev k (asked c) = da at *
  obtain ⟨ans, k'⟩ := da
  simp only at hr ⊢
  unfold outcome
  by_cases c2 : ans.status = 0
  · simp only [c2] at hr ⊢
    rw [hr]
    exact ⟨rfl, rfl, fun _ => rfl⟩
  · simp only [if_neg c2] at hr
    by_cases c1 : ans.status.toNat / 2 % 2 = 1
    · rw [if_pos (by decide), if_pos ⟨rfl, c1⟩] at hr
      rw [if_pos c1]
      simp only [checkCondition] at hr
      cases hpp : parse (padded 255 ans.sense) with
      | error e =>
        rw [hpp] at hr
        rw [hr]
        exact ⟨rfl, rfl, fun hx => absurd rfl (hx e)⟩
      | ok sn =>
        rw [hpp] at hr
        rw [hr]
        exact ⟨rfl, rfl, fun _ => rfl⟩
    · rw [if_pos (by decide), if_neg (fun hx => c1 hx.2)] at hr
      rw [if_neg c1, if_pos c2, hr]
      exact ⟨rfl, rfl, fun _ => rfl⟩

/-- Commands executed one after another. -/
def runAix (parse : Bytes → Py (Option S)) (b : Binding) (k : DiskDriver κ) (alloc : Nat → Alloc) (t : Int) :
    List Req → St Handle (Option K) → AixWorld κ → List (Except (Exn (DevErr S)) (Option (Option Bytes)))
  | [], _, _ => []
  | c :: cs, s, w =>
    let r := aixCall parse b k alloc t c s w
    r.out :: runAix parse b k alloc t cs r.st r.os

/-- **C54 (partial)**: a whole session on an executer with `max_queue_size = 1`. Missing: blocks at addresses that the `fcntl` binding
cannot pass, see `C54_false`. -/
theorem C54_session_partial (parse : Bytes → Py (Option S)) (b : Binding) (dev : Device δ) (alloc : Nat → Alloc) (t : Int) (cs : List Req)
    (s : St Handle (Option K)) (m : Mem) (k : δ) (old : Option Bytes)
    (hparse : ∀ k q, (dev k q).1.status.toNat / 2 % 2 = 1 → ∃ sn, parse (padded 255 (dev k q).1.sense) = .ok sn)
    (hs : s.pending = []) (hq : s.maxq = 1) (hidx : s.index = 0) (ht : 0 ≤ t ∧ t < 2 ^ 32)
    (hcs : ∀ c ∈ cs, c.cdb.length ≤ 64 ∧ dataSize c < 2 ^ 64 ∧ Separate 64 (regions (alloc 0) c 168)) (hp : Passes b (alloc 0).block) :
    runAix parse b (scDevice dev) alloc t cs s { world := { mem := m, kernel := k }, buffer := old } = expected parse dev cs k := by
  induction cs generalizing s m k old with
  | nil => rfl
  | cons c cs ih =>
    obtain ⟨h1, h2, h3⟩ := hcs c (List.mem_cons_self ..)
    obtain ⟨r1, r2, r3⟩ := C54_aix_partial parse b dev alloc t c s m k old hs (by omega) hidx h1 h2 ht h3 hp
    simp only [runAix, expected]
    have hne : ∀ e, outcome parse c (dev k (asked c)).1 ≠ .error (.py e) := outcome_ne parse c _ (hparse k (asked c))
    rw [r1, r3 (by rw [r1]; exact hne)]
    generalize aixCall parse b (scDevice dev) alloc t c s { world := { mem := m, kernel := k }, buffer := old } = r at *
    obtain ⟨_, _, _, ⟨mm, kk⟩, bb⟩ := r
    simp only at r2
    subst r2
    rw [ih { s with index := 1 % s.maxq } _ _ _ hs hq (by simp [hq]) (fun c' hc' => hcs c' (List.mem_cons_of_mem _ hc'))]

/-- The hypotheses are met. -/
example (b : Binding) :
    runAix (fun b => .ok (some b)) b (scDevice Linux.toyDevice)
      (fun _ => { block := 4096, sense := 8192, cmd := 12288, data := 16384 }) 30
      [.read [0x12, 0, 0, 0, 36, 0] 36, .write [0x2A, 0, 0, 0] [1, 2, 3, 4]]
      ({ pending := [], index := 0, maxq := 1 } : St Handle (Option Unit)) { world := { mem := fun _ => 0xEE, kernel := 0 }, buffer := none } =
    [.ok (some (some (padded 36 [0, 0, 5, 2, 31, 0, 0, 0]))),
     .error (.dev (.checkCondition (padded 255 [0x70, 0, 5]) (some (padded 255 [0x70, 0, 5]))))] := by
  rw [C54_session_partial]
  · simp [expected, outcome, Linux.toyDevice, asked, delivered]
  · intro _ _ _; exact ⟨_, rfl⟩
  · rfl
  · decide
  · decide
  · decide
  · intro c hc
    simp only [List.mem_cons, List.not_mem_nil, or_false] at hc
    rcases hc with rfl | rfl
    · refine ⟨by decide, by decide, ⟨by simp [regions, dataSize, Req.cdb], by simp [regions]⟩⟩
    · refine ⟨by decide, by decide, ⟨by simp [regions, dataSize, Req.cdb], by simp [regions]⟩⟩
  · intro _; decide

/-- **C54 is false with the `fcntl` binding** as soon as the block is at an address of 2^31 or more, as everything a 64-bit AIX program
allocates is: whatever the driver, the device and the command, nothing is sent, `call` raises `OverflowError` (which is not an
`AsiException`), and the executer is left as it was. -/
theorem C54_false (parse : Bytes → Py (Option S)) (k : DiskDriver κ) (alloc : Nat → Alloc) (t : Int) (c : Req)
    (s : St Handle (Option K)) (w : AixWorld κ) (hs : s.pending = []) (hq : 0 < s.maxq) (ha : 2 ^ 31 ≤ (alloc s.index).block) :
    let r := aixCall parse .fcntl k alloc t c s w
    r.out = .error (.py overflowError) ∧ r.os.world.kernel = w.world.kernel ∧ r.st.pending = [] := by
  intro r
  have hp : ¬ Passes .fcntl (alloc s.index).block := fun h => absurd (h rfl) (by omega)
  have hr : r = call (prepare abi alloc t c) (osSend abi .fcntl k) (osReceive abi parse) s w := rfl
  rw [call_idle _ _ _ s w hs hq _ (show prepare abi alloc t c s.index = .ok _ from rfl), osSend_overflow _ _ _ _ _ _ _ hp] at hr
  rw [hr]
  exact ⟨rfl, rfl, hs⟩

/-- With libc's `ioctl` any address will do. -/
theorem passes_libc (addr : Nat) : Passes .libc addr := fun h => by cases h

example : ¬ Passes .fcntl 0x110000000 ∧ Passes .libc 0x110000000 ∧ Passes .fcntl 0x20001000 := by decide

end Verif.Platform.Aix
