import Verif.Platform.LinuxLemmas
import Verif.Platform.BitLemmas
import Verif.CallLemmas
set_option linter.unusedSimpArgs false
/-!
# C15, C16, C17, C18 (Linux) and C07 on Linux

Statements speak about the bytes of the `sg_io_hdr` (`Verif.Spec.Platform`: literal offsets of the C structure) and about the outcome
of `call`; the device and its driver are arbitrary.
-/

namespace Verif.Platform.Linux
open Verif.Executer Verif.Spec

variable {S κ K : Type}

/-- `execute one command on the sg executer`. -/
def sgCall (l : Bool) (parse : Bytes → Py (Option S)) (k : SgDriver κ) (alloc : Nat → Alloc) (t : Int) (c : Req)
    (s : St Handle (Option K)) (w : World κ) : CallResult Handle (Option K) (Option Bytes) (DevErr S) (World κ) :=
  call (prepare (lp64 l) alloc t c) (sgSend k) (sgReceive (lp64 l) parse k) s w

/-- The response asks for a check condition: CHECK CONDITION bit of the status, or DRIVER_SENSE bit of the driver status. -/
def CheckCondition (l : Bool) (raw : Bytes) : Prop := sgStatus raw / 2 % 2 = 1 ∨ sgDriverStatus l raw / 8 % 2 = 1

/-- SCSI status, host status and driver status code are all zero. -/
def AllGood (l : Bool) (raw : Bytes) : Prop :=
  sgStatus raw = 0 ∧ sgHostStatus l raw = 0 ∧ sgDriverStatus l raw % 16 = 0

theorem word_one (l : Bool) (raw : Bytes) (off : Nat) : word l raw off 1 = word true raw off 1 := by
  unfold word
  have h : ∀ bs : Bytes, (bs.take 1).reverse = bs.take 1 := by
    intro bs; cases bs <;> rfl
  cases l
  · simp only [if_true, h]; rfl
  · rfl

/-- The response classification, in terms of the header's bytes. -/
theorem handle_eq (l : Bool) (parse : Bytes → Py (Option S)) (getOs : Int → Option Handle) (m : Mem) (raw : Bytes)
    (hlen : 88 ≤ raw.length) :
    handleRawResponse (lp64 l) parse getOs m raw =
      if sgStatus raw &&& 2 ≠ 0 ∨ sgDriverStatus l raw &&& 8 ≠ 0 then
        match checkCondition parse (readMem m (sgSensePtr l raw) 255) with
        | .ok e => .ok (.exc e, sgPackId l raw)
        | .error e => .error e
      else if sgStatus raw ≠ 0 then
        if sgHostStatus l raw = 7 then .ok (.exc .queueFull, sgPackId l raw)
        else if sgHostStatus l raw = 0x18 then .ok (.exc .reservationConflict, sgPackId l raw)
        else .ok (.exc .scsi, sgPackId l raw)
      else if sgDriverStatus l raw &&& 15 ≠ 0 then .ok (.exc .scsi, sgPackId l raw)
      else if sgHostStatus l raw ≠ 0 then .ok (.exc .scsi, sgPackId l raw)
      else
        match successData (lp64 l) m (getOs (sgPackId l raw)) with
        | .ok d => .ok (.data d, sgPackId l raw)
        | .error e => .error e := by
  have hs : sgStatus raw = (load (lp64 l) (fld (lp64 l) "status") raw).toNat := by
    rw [sgStatus, ← word_one l, word_lp64, fld_status]; rfl
  have hd : sgDriverStatus l raw = (load (lp64 l) (fld (lp64 l) "driver_status") raw).toNat := by
    rw [sgDriverStatus, word_lp64, fld_driver_status]; rfl
  have hh : sgHostStatus l raw = (load (lp64 l) (fld (lp64 l) "host_status") raw).toNat := by
    rw [sgHostStatus, word_lp64, fld_host_status]; rfl
  have hp : sgPackId l raw = load (lp64 l) (fld (lp64 l) "pack_id") raw := by
    rw [sgPackId, sword_lp64, fld_pack_id]; rfl
  have hb : sgSensePtr l raw = (load (lp64 l) (fld (lp64 l) "sbp") raw).toNat := by
    rw [sgSensePtr, word_lp64, fld_sbp]; rfl
  unfold handleRawResponse
  rw [sizeValue, if_neg (by omega)]
  simp only [hs, hd, hh, hp, hb, senseSize]
  rfl

/-- **C15 (a)**: a response is handed over as data only if its SCSI status, host status and driver status code are all zero; this
is for every executer state and every response. -/
theorem C15_response (l : Bool) (parse : Bytes → Py (Option S)) (getOs : Int → Option Handle) (m : Mem) (raw : Bytes)
    (d : Option Bytes) (i : Int) (h : handleRawResponse (lp64 l) parse getOs m raw = .ok (.data d, i)) :
    88 ≤ raw.length ∧ AllGood l raw ∧ i = sgPackId l raw := by
  have hlen : 88 ≤ raw.length := by
    by_cases hl : 88 ≤ raw.length
    · exact hl
    · unfold handleRawResponse at h
      rw [sizeValue, if_pos (by omega)] at h; cases h
  rw [handle_eq l parse getOs m raw hlen] at h
  refine ⟨hlen, ?_⟩
  split at h
  · split at h <;> simp at h
  · split at h
    · split at h
      · simp at h
      · split at h <;> simp at h
    · split at h
      · simp at h
      · split at h
        · simp at h
        · rename_i h1 h2 h3 h4
          split at h
          · simp only [Except.ok.injEq, Prod.mk.injEq] at h
            exact ⟨⟨by simpa using h2, by simpa using h4, by simpa [and_15] using h3⟩, h.2.symm⟩
          · simp at h

/-- The world right after `call` transmitted its request. -/
def afterSend (l : Bool) (k : SgDriver κ) (alloc : Nat → Alloc) (t : Int) (c : Req) (i : Nat) (w : World κ) :
    Py Unit × World κ :=
  let h := create (lp64 l) (alloc i) i c t
  k.write h.block { w with mem := h.install w.mem }

/-- **C15 (b)**: with any driver whatsoever, `call` on an idle executer returns normally only if the driver accepted the
request and then answered with a header in which SCSI status, host status and driver status code are all zero. -/
theorem C15_call (l : Bool) (parse : Bytes → Py (Option S)) (k : SgDriver κ) (alloc : Nat → Alloc) (t : Int) (c : Req)
    (s : St Handle (Option K)) (w : World κ) (hs : s.pending = []) (hq : 0 < s.maxq) (d : Option (Option Bytes))
    (h : (sgCall l parse k alloc t c s w).out = .ok d) :
    ∃ w1 raw w2, afterSend l k alloc t c s.index w = (.ok (), w1) ∧ k.read 88 w1 = (.ok raw, w2) ∧
      88 ≤ raw.length ∧ AllGood l raw ∧ sgPackId l raw = s.index := by
  unfold sgCall at h
  rw [call_idle _ _ _ s w hs hq _ (show prepare (lp64 l) alloc t c s.index = .ok _ from rfl)] at h
  rw [show sgSend k (create (lp64 l) (alloc s.index) s.index c t) w = afterSend l k alloc t c s.index w from rfl] at h
  rcases hsend : afterSend l k alloc t c s.index w with ⟨r, w1⟩
  rw [hsend] at h
  cases r with
  | error e => simp at h
  | ok u =>
    simp only [sgReceive, sizeValue] at h
    rcases hread : k.read 88 w1 with ⟨rr, w2⟩
    rw [hread] at h
    cases rr with
    | error e => simp at h
    | ok raw =>
      simp only at h
      rcases hh : handleRawResponse (lp64 l) parse (getOs (oneFlight s (create (lp64 l) (alloc s.index) s.index c t))) w2.mem raw with e | ⟨o, i⟩
      · rw [hh] at h; simp [toRecv] at h
      · rw [hh] at h
        simp only [toRecv] at h
        by_cases hi : 0 ≤ i
        · simp only [hi, if_true] at h
          by_cases hidx : s.index = i.toNat
          · simp only [hidx, if_true] at h
            cases o with
            | exc e => simp at h
            | data d' =>
              obtain ⟨h1, h2, h3⟩ := C15_response l parse _ _ raw d' i hh
              exact ⟨w1, raw, w2, rfl, hread, h1, h2, by omega⟩
          · simp [hidx] at h
        · simp [hi] at h

/-- **C15 (c)**: whenever the check-condition bit or the driver-sense flag is set in the answer to the command, `call` raises
`AsiCheckConditionError` carrying the 255 bytes of the sense buffer (unless decoding the sense itself raises). -/
theorem C15_check_condition (l : Bool) (parse : Bytes → Py (Option S)) (k : SgDriver κ) (alloc : Nat → Alloc) (t : Int) (c : Req)
    (s : St Handle (Option K)) (w w1 w2 : World κ) (raw : Bytes) (sense : Option S) (hs : s.pending = []) (hq : 0 < s.maxq)
    (hsend : afterSend l k alloc t c s.index w = (.ok (), w1)) (hread : k.read 88 w1 = (.ok raw, w2))
    (hlen : 88 ≤ raw.length) (hid : sgPackId l raw = s.index) (hptr : sgSensePtr l raw = (alloc s.index).sense)
    (hc : CheckCondition l raw) (hp : parse (readMem w2.mem (alloc s.index).sense 255) = .ok sense) :
    (sgCall l parse k alloc t c s w).out =
      .error (.dev (.checkCondition (readMem w2.mem (alloc s.index).sense 255) sense)) := by
  unfold sgCall
  rw [call_idle _ _ _ s w hs hq _ (show prepare (lp64 l) alloc t c s.index = .ok _ from rfl)]
  rw [show sgSend k (create (lp64 l) (alloc s.index) s.index c t) w = afterSend l k alloc t c s.index w from rfl]
  rw [hsend]
  simp only [sgReceive, sizeValue, hread]
  rw [handle_eq l parse _ _ raw hlen, if_pos (by rw [and_2, and_8]; exact hc), hptr, checkCondition, hp]
  simp [toRecv, hid]

/-- **C15 (d)**: an answer whose three statuses are zero makes `call` return: the data buffer's contents for a read command with a
positive length, `None` for any other command. (The driver must not have overwritten the request block.) -/
theorem C15_success (l : Bool) (parse : Bytes → Py (Option S)) (k : SgDriver κ) (alloc : Nat → Alloc) (t : Int) (c : Req)
    (s : St Handle (Option K)) (w w1 w2 : World κ) (raw : Bytes) (hs : s.pending = []) (hq : 0 < s.maxq)
    (hidx : s.index < 2 ^ 31) (hcdb : c.cdb.length ≤ 255) (hd : dataSize c < 2 ^ 32) (ht : 0 ≤ t ∧ t < 2 ^ 32)
    (hal : (alloc s.index).sense < 2 ^ 64 ∧ (alloc s.index).cmd < 2 ^ 64 ∧ (alloc s.index).data < 2 ^ 64)
    (hsend : afterSend l k alloc t c s.index w = (.ok (), w1)) (hread : k.read 88 w1 = (.ok raw, w2))
    (hblock : readMem w2.mem (alloc s.index).block 88 = (create (lp64 l) (alloc s.index) s.index c t).block)
    (hlen : 88 ≤ raw.length) (hid : sgPackId l raw = s.index) (hg : AllGood l raw)
    (hbit : sgDriverStatus l raw / 8 % 2 = 0) :
    (sgCall l parse k alloc t c s w).out = .ok (some (dataBack c w2.mem (alloc s.index).data)) := by
  unfold sgCall
  rw [call_idle _ _ _ s w hs hq _ (show prepare (lp64 l) alloc t c s.index = .ok _ from rfl)]
  rw [show sgSend k (create (lp64 l) (alloc s.index) s.index c t) w = afterSend l k alloc t c s.index w from rfl]
  rw [hsend]
  simp only [sgReceive, sizeValue, hread]
  obtain ⟨g1, g2, g3⟩ := hg
  rw [handle_eq l parse _ _ raw hlen, if_neg (by rw [and_2, and_8]; omega), if_neg (by omega),
    if_neg (by rw [and_15]; omega), if_neg (by omega), hid]
  have hget : getOs (oneFlight s (create (lp64 l) (alloc s.index) s.index c t)) (s.index : Int) =
      some (create (lp64 l) (alloc s.index) s.index c t) := by
    simp [getOs, getOsData, oneFlight, Dict.get]
  have hf := create_fields l (alloc s.index) s.index c t hidx hcdb hd ht hal.1 hal.2.1 hal.2.2
  have hsd := successData_eq l (alloc s.index) s.index c t (create (lp64 l) (alloc s.index) s.index c t) w2.mem hf
    (create_data ..) (by rw [create_blockAddr]; exact hblock)
  rw [hget, hsd]
  simp [toRecv]

/-! ## C16 -/

/-- **C16 (negation)**: no response with status RESERVATION CONFLICT and no transport error is ever reported as
`AsiReservationConflictError`. -/
theorem C16_never (l : Bool) (parse : Bytes → Py (Option S)) (getOs : Int → Option Handle) (m : Mem) (raw : Bytes)
    (hlen : 88 ≤ raw.length) (hs : sgStatus raw = 0x18) (hh : sgHostStatus l raw = 0) (hd : sgDriverStatus l raw = 0) :
    handleRawResponse (lp64 l) parse getOs m raw = .ok (.exc .scsi, sgPackId l raw) := by
  rw [handle_eq l parse getOs m raw hlen, hs, hd, hh]
  rfl

/-- A header with status 18h and nothing else set. -/
def conflictHeader : Bytes := zeros 64 ++ 0x18 :: zeros 23

theorem conflictHeader_fields (l : Bool) : conflictHeader.length = 88 ∧ sgStatus conflictHeader = 0x18 ∧
    sgHostStatus l conflictHeader = 0 ∧ sgDriverStatus l conflictHeader = 0 := by
  cases l <;> decide

/-- **C16 is false**: not every RESERVATION CONFLICT is reported as `AsiReservationConflictError`. -/
theorem C16_false (l : Bool) (parse : Bytes → Py (Option S)) : ¬ ∀ (getOs : Int → Option Handle) (m : Mem) (raw : Bytes), 88 ≤ raw.length →
    sgStatus raw = 0x18 → sgHostStatus l raw = 0 → sgDriverStatus l raw = 0 →
    handleRawResponse (lp64 l) parse getOs m raw = .ok (.exc .reservationConflict, sgPackId l raw) := by
  intro h
  obtain ⟨h1, h2, h3, h4⟩ := conflictHeader_fields l
  have a := h (fun _ => none) (fun _ => 0) conflictHeader (by omega) h2 h3 h4
  have b := C16_never l parse (fun _ => none) (fun _ => 0) conflictHeader (by omega) h2 h3 h4
  rw [a] at b
  simp at b

/-- **C16 (what holds)**: a reservation conflict is an exception, of class `AsiSCSIError` (the superclass); and
`AsiReservationConflictError` is raised only for a non-zero SCSI status (with host status 18h). -/
theorem C16_partial (l : Bool) (parse : Bytes → Py (Option S)) (getOs : Int → Option Handle) (m : Mem) (raw : Bytes)
    (hlen : 88 ≤ raw.length) :
    (sgStatus raw = 0x18 → sgHostStatus l raw = 0 → sgDriverStatus l raw = 0 →
      handleRawResponse (lp64 l) parse getOs m raw = .ok (.exc .scsi, sgPackId l raw)) ∧
    (∀ i, handleRawResponse (lp64 l) parse getOs m raw = .ok (.exc .reservationConflict, i) →
      sgStatus raw ≠ 0 ∧ sgHostStatus l raw = 0x18 ∧ ¬ CheckCondition l raw) := by
  refine ⟨C16_never l parse getOs m raw hlen, ?_⟩
  intro i h
  rw [handle_eq l parse getOs m raw hlen] at h
  split at h
  · unfold checkCondition at h
    split at h
    · rename_i hx; split at hx <;> simp at hx; subst hx; simp at h
    · simp at h
  · rename_i hcc
    rw [and_2, and_8] at hcc
    split at h
    · rename_i hst
      split at h
      · simp at h
      · split at h
        · rename_i hh; exact ⟨hst, hh, hcc⟩
        · simp at h
    · split at h
      · simp at h
      · split at h
        · simp at h
        · split at h <;> simp at h

/-! ## C17 -/

/-- One command on the ioctl executer (`linux_dm`). -/
def ioctlCall (l : Bool) (parse : Bytes → Py (Option S)) (k : IoctlDriver κ) (alloc : Nat → Alloc) (t : Int) (c : Req)
    (s : St Handle (Option K)) (w : IoctlWorld κ) :
    CallResult Handle (Option K) (Option Bytes) (DevErr S) (IoctlWorld κ) :=
  call (prepare (lp64 l) alloc t c) (ioctlSend k) (ioctlReceive (lp64 l) parse) s w

/-- **C17 (negation)**: whatever statuses the kernel writes into the block it completes (`answer`), `call` on an idle ioctl executer
reports success. -/
theorem C17_always_success (l : Bool) (parse : Bytes → Py (Option S)) (k : IoctlDriver κ) (alloc : Nat → Alloc) (t : Int) (c : Req)
    (s : St Handle (Option K)) (w : IoctlWorld κ) (w1 : World κ) (answer : Bytes) (hs : s.pending = []) (hq : 0 < s.maxq)
    (hidx : s.index < 2 ^ 31) (hcdb : c.cdb.length ≤ 255) (hd : dataSize c < 2 ^ 32) (ht : 0 ≤ t ∧ t < 2 ^ 32)
    (hal : (alloc s.index).sense < 2 ^ 64 ∧ (alloc s.index).cmd < 2 ^ 64 ∧ (alloc s.index).data < 2 ^ 64)
    (hio : let h := create (lp64 l) (alloc s.index) s.index c t
      k.ioctl h.block { w.world with mem := h.install w.world.mem } = (.ok answer, w1))
    (hblock : readMem w1.mem (alloc s.index).block 88 = (create (lp64 l) (alloc s.index) s.index c t).block) :
    ∃ d, (ioctlCall l parse k alloc t c s w).out = .ok d := by
  unfold ioctlCall
  rw [call_idle _ _ _ s w hs hq _ (show prepare (lp64 l) alloc t c s.index = .ok _ from rfl)]
  simp only [ioctlSend]
  simp only at hio
  rw [hio]
  simp only [ioctlReceive]
  have hf := create_fields l (alloc s.index) s.index c t hidx hcdb hd ht hal.1 hal.2.1 hal.2.2
  have e1 : sgStatus (create (lp64 l) (alloc s.index) s.index c t).block = 0 := by
    rw [sgStatus, ← word_one l, word_lp64, hf.status]; rfl
  have e2 : sgHostStatus l (create (lp64 l) (alloc s.index) s.index c t).block = 0 := by
    rw [sgHostStatus, word_lp64, hf.host]; rfl
  have e3 : sgDriverStatus l (create (lp64 l) (alloc s.index) s.index c t).block = 0 := by
    rw [sgDriverStatus, word_lp64, hf.driver]; rfl
  have e4 : sgPackId l (create (lp64 l) (alloc s.index) s.index c t).block = s.index := by
    rw [sgPackId, sword_lp64, hf.packId]
  rw [handle_eq l parse _ _ _ (by rw [create_length]; omega), e1, e2, e3, e4]
  have hget : getOs (oneFlight s (create (lp64 l) (alloc s.index) s.index c t)) (s.index : Int) =
      some (create (lp64 l) (alloc s.index) s.index c t) := by
    simp [getOs, getOsData, oneFlight, Dict.get]
  rw [hget]
  have hsd := successData_eq l (alloc s.index) s.index c t (create (lp64 l) (alloc s.index) s.index c t) w1.mem hf
    (create_data ..) (by rw [create_blockAddr]; exact hblock)
  rw [hsd]
  exact ⟨some _, by simp [toRecv]; rfl⟩

/-- A kernel that completes the command with RESERVATION CONFLICT. -/
def conflictKernel : IoctlDriver Unit :=
  { ioctl := fun raw w => (.ok (splice raw 64 [0x18]), w) }

/-- **C17 is false**: the kernel completed TEST UNIT READY with status 18h; `call` reports success. -/
theorem C17_false : ¬ ∀ (k : IoctlDriver Unit) (s : St Handle (Option Unit)) (w : IoctlWorld Unit) (c : Req) (alloc : Nat → Alloc)
      (answer : Bytes) (w1 : World Unit),
    s.pending = [] → 0 < s.maxq →
    (let h := create (lp64 true) (alloc s.index) s.index c 30000
     k.ioctl h.block { w.world with mem := h.install w.world.mem } = (.ok answer, w1)) →
    ¬ AllGood true answer →
    ∃ e, (ioctlCall true (fun _ => .ok (none : Option Unit)) k alloc 30000 c s w).out = .error e := by
  intro h
  let al : Nat → Alloc := fun _ => { block := 4096, sense := 8192, cmd := 12288, data := 16384 }
  let s : St Handle (Option Unit) := { pending := [], index := 0, maxq := 1 }
  let w : IoctlWorld Unit := { world := { mem := fun _ => 0, kernel := () }, buffer := none }
  let c : Req := .read (zeros 6) 0
  obtain ⟨e, he⟩ := h conflictKernel s w c al _ _ rfl (by decide) rfl (by
    have hsz : (create (lp64 true) (al 0) 0 c 30000).block.length = 88 := create_length ..
    intro hg
    have := hg.1
    rw [sgStatus, word_lp64] at this
    simp only [load] at this
    have h2 := slice_splice_same (raw := (create (lp64 true) (al 0) 0 c 30000).block) (off := 64) (new := [(0x18 : UInt8)])
      (by simp only [List.length_singleton]; omega)
    simp only [List.length_singleton] at h2
    simp only [s, h2] at this
    revert this
    decide)
  obtain ⟨d, hd⟩ := C17_always_success true (fun _ => .ok (none : Option Unit)) conflictKernel al 30000 c s w _ _ rfl (by decide)
    (by decide) (by decide) (by decide) (by decide) (by decide) rfl (by
      have := install_block (create (lp64 true) (al 0) 0 c 30000) (fun _ => 0)
      rw [create_length] at this
      exact this)
  rw [hd] at he
  cases he

/-- **C17 (what holds)**: an ioctl that itself fails raises that error, and nothing stays pending. -/
theorem C17_partial (l : Bool) (parse : Bytes → Py (Option S)) (k : IoctlDriver κ) (alloc : Nat → Alloc) (t : Int) (c : Req)
    (s : St Handle (Option K)) (w : IoctlWorld κ) (w1 : World κ) (e : PyErr) (hs : s.pending = []) (hq : 0 < s.maxq)
    (hio : let h := create (lp64 l) (alloc s.index) s.index c t
      k.ioctl h.block { w.world with mem := h.install w.world.mem } = (.error e, w1)) :
    (ioctlCall l parse k alloc t c s w).out = .error (.py e) ∧ (ioctlCall l parse k alloc t c s w).st.pending = [] := by
  unfold ioctlCall
  rw [call_idle _ _ _ s w hs hq _ (show prepare (lp64 l) alloc t c s.index = .ok _ from rfl)]
  simp only [ioctlSend]
  simp only at hio
  rw [hio]
  exact ⟨rfl, hs⟩

/-! ## C18 (Linux) -/

theorem handle_apart (l : Bool) (al : Alloc) (i : Nat) (c : Req) (t : Int)
    (hsep : Separate 64 [(al.block, 88), (al.sense, 255), (al.cmd, c.cdb.length), (al.data, dataSize c)]) :
    (create (lp64 l) al i c t).Apart := by
  obtain ⟨hp, -⟩ := hsep
  simp only [List.pairwise_cons, List.mem_cons, List.not_mem_nil, or_false, forall_eq_or_imp, forall_eq] at hp
  obtain ⟨⟨h1, h2, h3⟩, ⟨h4, h5⟩, h6, -⟩ := hp
  have hbl := create_length l al i c t
  have hsi := create_senseInit (lp64 l) al i c t
  refine ⟨?_, ?_, ?_, ?_⟩
  · rw [hbl, hsi, create_blockAddr, create_senseAddr]; exact h1
  · rw [hbl, create_blockAddr, create_cmdAddr, create_cmd]; exact h2
  · rw [hsi, create_senseAddr, create_cmdAddr, create_cmd]; exact h4
  · intro x d hd
    rw [create_data] at hd
    have hx : x = al.data ∧ d.length = dataSize c := by
      cases c with
      | read cdb n =>
        simp only [bufOf] at hd
        split at hd
        · simp only [Option.some.injEq, Prod.mk.injEq] at hd
          obtain ⟨rfl, rfl⟩ := hd
          exact ⟨rfl, by rw [zeros_length]; rfl⟩
        · cases hd
      | write cdb dd =>
        simp only [bufOf, Option.some.injEq, Prod.mk.injEq] at hd
        obtain ⟨rfl, rfl⟩ := hd
        exact ⟨rfl, rfl⟩
    obtain ⟨rfl, hdl⟩ := hx
    rw [hbl, hdl, hsi, create_blockAddr, create_senseAddr, create_cmdAddr, create_cmd]
    exact ⟨h3, h5, h6⟩

/-- **C18 (Linux)**: what the sg driver reads in the block `create` builds, in the memory as the request object leaves it, is exactly what the
command asks for: its CDB, the bytes to write or the number of bytes to read; and the block carries the packet number and timeout, and asks for direct I/O
and nothing else. -/
theorem C18_linux (l : Bool) (al : Alloc) (i : Nat) (c : Req) (t : Int) (m : Mem)
    (hi : i < 2 ^ 31) (hcdb : c.cdb.length ≤ 255) (hd : dataSize c < 2 ^ 32) (ht : 0 ≤ t ∧ t < 2 ^ 32)
    (hsep : Separate 64 [(al.block, 88), (al.sense, 255), (al.cmd, c.cdb.length), (al.data, dataSize c)]) :
    let h := create (lp64 l) al i c t
    sgView l h.block (h.install m) = some (asked c) ∧ sgPackId l h.block = i ∧ (word l h.block 40 4 : Int) = t ∧
    sgSensePtr l h.block = al.sense ∧ word l h.block 44 4 = 1 := by
  intro h
  have hap := handle_apart l al i c t hsep
  have hb := hsep.2
  simp only [List.mem_cons, List.not_mem_nil, or_false, forall_eq_or_imp, forall_eq] at hb
  obtain ⟨-, hb2, hb3, hb4⟩ := hb
  have hf : BlockFields l al i c t h.block := create_fields l al i c t hi hcdb hd ht hb2 hb3 hb4
  have hcmd : readMem (h.install m) al.cmd c.cdb.length = c.cdb := install_cmd hap m
  have hdat : ∀ cdb d, c = .write cdb d → readMem (h.install m) al.data d.length = d := by
    intro cdb d hc
    exact install_data hap m (x := al.data) (d := d) (by rw [create_data, hc]; rfl)
  refine ⟨?_, ?_, ?_, ?_, ?_⟩
  · unfold sgView
    simp only [word_lp64, sword_lp64, hf.len, hf.iface, hf.iovec, hf.flags, hf.dir, hf.cmdLen, hf.senseMax, hf.dataLen, hf.dataPtr, hf.cmdPtr,
      Int.toNat_natCast, hcmd]
    cases c with
    | read cdb n =>
      by_cases hn : n > 0
      · simp [dirOf, hn, asked, dataSize, Req.cdb]
      · have : n.toNat = 0 := by omega
        simp [dirOf, hn, asked, dataSize, Req.cdb, this]
    | write cdb d =>
      simp [dirOf, asked, dataSize, Req.cdb, hdat cdb d rfl]
  · rw [sgPackId, sword_lp64]; exact hf.packId
  · rw [word_lp64, hf.timeout, Int.toNat_of_nonneg ht.1]
  · rw [sgSensePtr, word_lp64, hf.sensePtr, Int.toNat_natCast]
  · rw [word_lp64, hf.flags]; rfl

/-! ## C07 on Linux -/

/-- **C07 (Linux)**: a response whose packet number belongs to no outstanding command always raises, calls nobody and leaves every
outstanding command outstanding. (The error is `AsiInternalError` unless the response reports success.) -/
theorem C07_linux_partial (l : Bool) (parse : Bytes → Py (Option S)) (k : SgDriver κ) (s : St Handle K) (w w' : World κ) (raw : Bytes)
    (hread : k.read 88 w = (.ok raw, w')) (hlen : 88 ≤ raw.length)
    (hid : ∀ i : Nat, sgPackId l raw = i → i ∉ Dict.keys s.pending) :
    let r := process (sgReceive (lp64 l) parse k) s w
    (∃ e, r.out = .error e) ∧ r.fired = none ∧ r.st = s ∧
    (¬ AllGood l raw → ¬ CheckCondition l raw → r.out = .error .asiInternal) := by
  intro r
  have hnone : ∀ i : Nat, sgPackId l raw = i → Dict.get s.pending i = none := by
    intro i hi
    have := hid i hi
    cases hg : Dict.get s.pending i with
    | none => rfl
    | some v =>
      exfalso
      apply this
      clear this hid
      generalize s.pending = p at hg
      induction p with
      | nil => simp [Dict.get] at hg
      | cons q p ih =>
        obtain ⟨k', v'⟩ := q
        simp only [Dict.get] at hg
        split at hg
        · rename_i hk; simp [Dict.keys, hk]
        · have := ih hg
          simp only [Dict.keys, List.map_cons, List.mem_cons] at this ⊢
          exact Or.inr this
  have hgo : getOs s (sgPackId l raw) = none := by
    unfold getOs
    split
    · rename_i h0
      rw [getOsData, hnone _ (Int.toNat_of_nonneg h0).symm]; rfl
    · rfl
  have hr : r = process (sgReceive (lp64 l) parse k) s w := rfl
  unfold process sgReceive at hr
  rw [sizeValue, hread] at hr
  simp only at hr
  rcases hh : handleRawResponse (lp64 l) parse (getOs s) w'.mem raw with e | ⟨o, i⟩
  · rw [hh] at hr
    simp only [toRecv] at hr
    rw [hr]
    refine ⟨⟨e, rfl⟩, rfl, rfl, ?_⟩
    intro hg hc
    exfalso
    rw [handle_eq l parse _ _ raw hlen, if_neg (by rw [and_2, and_8]; exact hc)] at hh
    split at hh
    · split at hh
      · simp at hh
      · split at hh <;> simp at hh
    · split at hh
      · simp at hh
      · split at hh
        · simp at hh
        · rename_i h1 h2 h3
          exact hg ⟨by simpa using h1, by simpa using h3, by simpa [and_15] using h2⟩
  · have hi : i = sgPackId l raw := by
      rw [handle_eq l parse _ _ raw hlen] at hh
      split at hh
      · split at hh <;> simp at hh
        exact hh.2.symm
      · split at hh
        · split at hh
          · simp at hh; exact hh.2.symm
          · split at hh <;> (simp at hh; exact hh.2.symm)
        · split at hh
          · simp at hh; exact hh.2.symm
          · split at hh
            · simp at hh; exact hh.2.symm
            · split at hh <;> simp at hh
              exact hh.2.symm
    rw [hh] at hr
    by_cases h0 : 0 ≤ i
    · simp only [toRecv, h0, if_true] at hr
      rw [hnone i.toNat (by rw [← hi, Int.toNat_of_nonneg h0])] at hr
      simp only at hr
      rw [hr]
      exact ⟨⟨_, rfl⟩, rfl, rfl, fun _ _ => rfl⟩
    · simp only [toRecv, h0, if_false] at hr
      rw [hr]
      exact ⟨⟨_, rfl⟩, rfl, rfl, fun _ _ => rfl⟩

/-- **C07 (Linux, negation)**: when an unsolicited response reports success, the error raised is an `AttributeError`
instead of `AsiInternalError`. -/
theorem C07_linux_false : ∃ (k : SgDriver Unit) (s : St Handle Unit) (w : World Unit) (raw : Bytes),
    (k.read 88 w).1 = .ok raw ∧ raw.length = 88 ∧ s.pending = [] ∧
    (process (sgReceive (lp64 true) (fun _ => .ok (none : Option Unit)) k) s w).out = .error .attribute := by
  refine ⟨{ write := fun _ w => (.ok (), w), read := fun n w => (.ok (zeros n), w) },
    { pending := [], index := 0, maxq := 15 }, { mem := fun _ => 0, kernel := () }, zeros 88, rfl, zeros_length 88, rfl, ?_⟩
  unfold process sgReceive
  rw [sizeValue]
  simp only
  rw [handle_eq _ _ _ _ _ (by rw [zeros_length]; omega)]
  have h1 : sgStatus (zeros 88) = 0 := by decide
  have h2 : sgDriverStatus true (zeros 88) = 0 := by decide
  have h3 : sgHostStatus true (zeros 88) = 0 := by decide
  have h4 : sgPackId true (zeros 88) = 0 := by decide
  rw [h1, h2, h3, h4]
  rfl

end Verif.Platform.Linux
