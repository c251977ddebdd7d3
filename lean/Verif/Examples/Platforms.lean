import Verif.Props.Linux
import Verif.Props.LinuxDevice
import Verif.Props.Solaris
import Verif.Props.Aix
import Verif.Props.Windows
import Verif.Props.CheckCondition

/-! Concrete cases that meet the hypotheses of theorems about the four platforms. Nothing here is a claim: each example applies a
theorem of `Verif/Props` to one non-trivial case, to show that the theorem is not empty. -/

namespace Verif.Platform
open Verif.Executer Verif.Spec

/-- Where the examples keep their buffers. -/
def exampleAlloc : Nat → Alloc := fun _ => { block := 4096, sense := 8192, cmd := 12288, data := 16384 }

/-- An INQUIRY of 36 bytes, and a WRITE of four bytes. -/
def exampleRead : Req := .read [0x12, 0, 0, 0, 36, 0] 36
def exampleWrite : Req := .write [0x2A, 0, 0, 0] [1, 2, 3, 4]

/-- Memory that holds something else, except for the first bytes of the sense buffer. -/
def exampleMem : Mem := fun a => if a = 8192 then 0x70 else if a = 8194 then 5 else 0xEE

theorem exampleRead_separate (n : Nat) (hn : n ≤ 4096) : Separate 64 (regions (exampleAlloc 0) exampleRead n) := by
  refine ⟨?_, ?_⟩
  · simp [regions, exampleAlloc, exampleRead, dataSize, Req.cdb]; omega
  · simp [regions, exampleAlloc, exampleRead]

theorem exampleWrite_separate (n : Nat) (hn : n ≤ 4096) : Separate 64 (regions (exampleAlloc 0) exampleWrite n) := by
  refine ⟨?_, ?_⟩
  · simp [regions, exampleAlloc, exampleWrite, dataSize, Req.cdb]; omega
  · simp [regions, exampleAlloc, exampleWrite]

namespace Linux

/-- A 64-bit `sg_io_hdr` with the given pack_id, status, host status and driver status; its sense buffer is at 8192. -/
def exampleHeader (id status host driver : UInt8) : Bytes :=
  zeros 32 ++ [0, 32, 0, 0, 0, 0, 0, 0] ++ zeros 8 ++ [id, 0, 0, 0] ++ zeros 12 ++ [status, 0, 0, 0] ++ [host, 0, driver, 0] ++ zeros 16

/-- A driver that takes every request and answers with one header. -/
def answering (raw : Bytes) : SgDriver Unit := { write := fun _ w => (.ok (), w), read := fun _ w => (.ok raw, w) }

/-- `C15_call`: an INQUIRY that the device answers. -/
example : ∃ w1 raw w2,
    afterSend true (sgDevice true toyDevice) exampleAlloc 30000 exampleRead 3 { mem := exampleMem, kernel := (0, none) } = (.ok (), w1) ∧
    (sgDevice true toyDevice).read 88 w1 = (.ok raw, w2) ∧ 88 ≤ raw.length ∧ AllGood true raw ∧ sgPackId true raw = 3 :=
  C15_call true (fun b => .ok (some b)) (sgDevice true toyDevice) exampleAlloc 30000 exampleRead
    (⟨[], 3, 7⟩ : St Handle (Option Unit)) { mem := exampleMem, kernel := (0, none) } rfl (by decide)
    (some (some (padded 36 [0, 0, 5, 2, 31, 0, 0, 0])))
    (C52_linux true (fun b => .ok (some b)) toyDevice exampleAlloc 30000 exampleRead (⟨[], 3, 7⟩ : St Handle (Option Unit)) exampleMem 0 none rfl
      (by decide) (by decide) (by decide) (by decide) (by decide) (exampleRead_separate 88 (by decide))).1

/-- `C15_check_condition`: a header with status 2; the sense parser is any that accepts the sense buffer. -/
example (n : Nat) : ∃ raw, (sgCall true (fun _ => .ok (some n)) (answering (exampleHeader 3 2 0 0)) exampleAlloc 30000 exampleWrite
      (⟨[], 3, 7⟩ : St Handle (Option Unit)) { mem := exampleMem, kernel := () }).out = .error (.dev (.checkCondition raw (some n))) := by
  have hsend : ∃ w1, afterSend true (answering (exampleHeader 3 2 0 0)) exampleAlloc 30000 exampleWrite 3 { mem := exampleMem, kernel := () } =
      (.ok (), w1) := ⟨_, rfl⟩
  obtain ⟨w1, hsend⟩ := hsend
  exact ⟨_, C15_check_condition true _ (answering (exampleHeader 3 2 0 0)) exampleAlloc 30000 exampleWrite ⟨[], 3, 7⟩ _ w1 w1
    (exampleHeader 3 2 0 0) (some n) rfl (by decide) hsend rfl (by decide) (by decide) (by decide) (.inl (by decide)) rfl⟩

/-- `C16_partial`: a device that answers RESERVATION CONFLICT. -/
example (getOs : Int → Option Handle) (m : Mem) :
    handleRawResponse (lp64 true) (fun b => .ok (some b)) getOs m (exampleHeader 3 0x18 0 0) =
      .ok (.exc .scsi, sgPackId true (exampleHeader 3 0x18 0 0)) :=
  (C16_partial true _ getOs m (exampleHeader 3 0x18 0 0) (by decide)).1 (by decide) (by decide) (by decide)

/-- `C17_partial`: the ioctl fails. -/
example : (ioctlCall true (fun b => .ok (some b)) ({ ioctl := fun _ w => (.error .ioError, w) } : IoctlDriver Unit) exampleAlloc 30000 exampleRead
      (⟨[], 0, 1⟩ : St Handle (Option Unit)) { world := { mem := exampleMem, kernel := () }, buffer := none }).out = .error (.py .ioError) :=
  (C17_partial true _ _ exampleAlloc 30000 exampleRead _ _ _ .ioError rfl (by decide) rfl).1

/-- `C07_linux_partial`: command 3 is outstanding, the response carries number 4 and the host status of a lost device. -/
example : (process (sgReceive (lp64 true) (fun b => .ok (some b)) (answering (exampleHeader 4 0 1 0)))
      (⟨[(3, (create (lp64 true) (exampleAlloc 3) 3 exampleRead 30000, some ()))], 4, 7⟩ : St Handle (Option Unit))
      { mem := exampleMem, kernel := () }).out = .error .asiInternal :=
  (C07_linux_partial true _ (answering (exampleHeader 4 0 1 0)) _ _ _ (exampleHeader 4 0 1 0) rfl (by decide) (by
    intro i hi
    have h4 : sgPackId true (exampleHeader 4 0 1 0) = 4 := by decide
    rw [h4] at hi
    simp only [Dict.keys, List.map_cons, List.map_nil, List.mem_cons, List.not_mem_nil, or_false]
    omega)).2.2.2 (by unfold AllGood; decide) (by unfold CheckCondition; decide)

end Linux

namespace Solaris

/-- `C21_call`: an INQUIRY that the device answers. -/
example : ∃ raw w1, submitted false (uscsiDevice false Linux.toyDevice) exampleAlloc 30 exampleRead 0
      { world := { mem := exampleMem, kernel := 0 }, buffer := none } = (.ok raw, w1) ∧
    64 ≤ raw.length ∧ uscsiStatus false raw = 0 ∧ uscsiRqStatus raw = 0 :=
  C21_call false (fun b => .ok (some b)) (uscsiDevice false Linux.toyDevice) exampleAlloc 30 exampleRead
    (⟨[], 0, 1⟩ : St Handle (Option Unit)) { world := { mem := exampleMem, kernel := 0 }, buffer := none } rfl (by decide)
    (some (some (padded 36 [0, 0, 5, 2, 31, 0, 0, 0])))
    (C53_solaris false (fun b => .ok (some b)) Linux.toyDevice exampleAlloc 30 exampleRead (⟨[], 0, 1⟩ : St Handle (Option Unit)) exampleMem 0
      none rfl (by decide) rfl (by decide) (by decide) (by decide) (exampleRead_separate 64 (by decide))).1

/-- A big-endian 64-bit `uscsi_cmd` with the given status; its sense buffer is at 8192. -/
def exampleBlock (status : UInt8) : Bytes := zeros 5 ++ [status] ++ zeros 42 ++ [0, 0, 0, 0, 0, 0, 32, 0] ++ zeros 8

/-- `C21_check_condition`: a block that comes back with status 2. -/
example (n : Nat) : ∃ raw, (solCall false (fun _ => .ok (some n)) ({ ioctl := fun _ _ w => (.ok (exampleBlock 2), w) } : TargetDriver Unit)
      exampleAlloc 30 exampleWrite (⟨[], 0, 1⟩ : St Handle (Option Unit)) { world := { mem := exampleMem, kernel := () }, buffer := none }).out =
    .error (.dev (.checkCondition raw (some n))) := by
  have hsub : ∃ w1, submitted false ({ ioctl := fun _ _ w => (.ok (exampleBlock 2), w) } : TargetDriver Unit) exampleAlloc 30 exampleWrite 0
      { world := { mem := exampleMem, kernel := () }, buffer := none } = (.ok (exampleBlock 2), w1) := ⟨_, rfl⟩
  obtain ⟨w1, hsub⟩ := hsub
  exact ⟨_, C21_check_condition false _ _ exampleAlloc 30 exampleWrite ⟨[], 0, 1⟩ _ w1 (exampleBlock 2) (some n) rfl (by decide) rfl hsub
    (by decide) (by decide) (by decide) rfl⟩

end Solaris

namespace Aix

/-- `C20_call_partial`: an INQUIRY that the device answers. -/
example (b : Binding) : scValidity (blockAfter (submitted (scDevice Linux.toyDevice) exampleAlloc 30 exampleRead 0
      { world := { mem := exampleMem, kernel := 0 }, buffer := none }).2 (exampleAlloc 0)) = 0 :=
  (C20_call_partial (fun b => .ok (some b)) b (scDevice Linux.toyDevice) exampleAlloc 30 exampleRead
    (⟨[], 0, 1⟩ : St Handle (Option Unit)) { world := { mem := exampleMem, kernel := 0 }, buffer := none } rfl (by decide)
    (some (some (padded 36 [0, 0, 5, 2, 31, 0, 0, 0])))
    (C54_aix_partial (fun b => .ok (some b)) b Linux.toyDevice exampleAlloc 30 exampleRead (⟨[], 0, 1⟩ : St Handle (Option Unit)) exampleMem 0
      none rfl (by decide) rfl (by decide) (by decide) (by decide) (exampleRead_separate 168 (by decide)) (by cases b <;> decide)).1).1

end Aix

namespace Win32

/-- The request block of an INQUIRY of 36 bytes on 64-bit Windows. -/
theorem exampleSpt : ∃ h, create (W true) (exampleAlloc 3) 3 exampleRead = .ok h ∧ h.packetId = 3 ∧ h.blockAddr = 4096 ∧ h.block.length = 311 := by
  obtain ⟨h, hc, hb⟩ := create_built true (exampleAlloc 3) 3 exampleRead (by decide) (by decide) (by decide)
  exact ⟨h, hc, hb.id, hb.blockAddr, hb.fields.len⟩

/-- A driver that completes every request with one status and nothing else. -/
def completing (status : UInt8) : PortDriver Unit :=
  { ioctl := fun _ addr _ w => (.ok (), { w with mem := fun a => if a = addr + 2 then status else w.mem a }) }

theorem completing_status (status : UInt8) (h : Spt) (hlen : h.block.length = 311) (w : WinWorld Unit) :
    ∃ w1, submitted true (completing status) h w = (.ok (), w1) ∧
      word true (readMem w1.mem h.blockAddr h.block.length) 2 1 = status.toNat := by
  refine ⟨_, rfl, ?_⟩
  rw [hlen]
  unfold word
  rw [drop_readMem _ _ _ _ _ (by omega)]
  simp [readMem, beNat, List.range, List.range.loop]

/-- `C19_check_condition`: a driver that answers status 2. -/
example (n : Nat) : ∃ raw, (winCall true (fun _ => .ok (some n)) (completing 2) exampleAlloc exampleRead (⟨[], 3, 4⟩ : St Spt (Option Unit))
      { world := { mem := exampleMem, kernel := () }, incoming := [] }).out = .error (.dev (.checkCondition raw (some n))) := by
  obtain ⟨h, hc, hid, -, hlen⟩ := exampleSpt
  obtain ⟨w1, hsub, hst⟩ := completing_status 2 h hlen { world := { mem := exampleMem, kernel := () }, incoming := [] }
  exact ⟨_, C19_check_condition true _ (completing 2) exampleAlloc exampleRead ⟨[], 3, 4⟩ _ rfl (by decide) h hc hid w1 hsub hst (some n) rfl⟩

/-- `C19_ok`: an INQUIRY that the device answers with eight bytes. -/
example : ∃ h w1, submitted true (sptDevice true Linux.toyDevice) h { world := { mem := exampleMem, kernel := 0 }, incoming := [] } = (.ok (), w1) ∧
    8 ≤ word true (readMem w1.mem h.blockAddr h.block.length) 12 4 := by
  obtain ⟨h, hc, hid, -, hlen⟩ := exampleSpt
  have ho := (C55_windows true (fun b => .ok (some b)) Linux.toyDevice exampleAlloc exampleRead (⟨[], 3, 4⟩ : St Spt (Option Unit)) exampleMem 0 []
    rfl (by decide) (by decide) (by decide)
    ⟨by simp [winRegions, exampleAlloc, exampleRead, dataSize], by simp [winRegions, exampleAlloc, bits]⟩).1
  rcases hsub : submitted true (sptDevice true Linux.toyDevice) h { world := { mem := exampleMem, kernel := 0 }, incoming := [] } with ⟨r, w1⟩
  cases r with
  | error e =>
    have := (C19_refused true (fun b => .ok (some b)) (sptDevice true Linux.toyDevice) exampleAlloc exampleRead (⟨[], 3, 4⟩ : St Spt (Option Unit)) _
      rfl (by decide) h hc hid e w1 hsub).1
    rw [this] at ho
    simp [winOutcome, Linux.toyDevice, asked, exampleRead] at ho
  | ok u =>
    refine ⟨h, w1, hsub, ?_⟩
    have := (C19_ok true (fun b => .ok (some b)) (sptDevice true Linux.toyDevice) exampleAlloc exampleRead (⟨[], 3, 4⟩ : St Spt (Option Unit)) _
      rfl (by decide) h hc hid w1 hsub _ ho).2 [0, 0, 5, 2, 31, 0, 0, 0] (by simp [Linux.toyDevice, asked, exampleRead])
    simpa using this

end Win32
end Verif.Platform

namespace Verif.Sense
open Verif.Executer Verif.Spec Verif.Platform

/-- `C57_linux`, `C57_solaris`, `C57_aix`, `C57_windows`: a WRITE that the device rejects with ILLEGAL REQUEST. -/
theorem toy_rejects (k : Nat) : (Linux.toyDevice k (asked exampleWrite)).1.status = 2 ∧
    ReportsSense (Linux.toyDevice k (asked exampleWrite)).1.sense 5 0 0 := by
  refine ⟨by simp [Linux.toyDevice, asked, exampleWrite], ?_⟩
  left
  simp [Linux.toyDevice, asked, exampleWrite, Spec.responseCode, Spec.bitsAt, Spec.byteAt]

example : RaisesSense (Linux.sgCall true getSense (Linux.sgDevice true Linux.toyDevice) exampleAlloc 30000 exampleWrite
    (⟨[], 3, 7⟩ : St Handle (Option Unit)) { mem := exampleMem, kernel := (0, none) }).out 5 0 0 :=
  (C57_linux true Linux.toyDevice exampleAlloc 30000 exampleWrite ⟨[], 3, 7⟩ exampleMem 0 none rfl (by decide) (by decide) (by decide) (by decide)
    (by decide) (exampleWrite_separate 88 (by decide)) 5 0 0 (toy_rejects 0).1 (toy_rejects 0).2).1

example : RaisesSense (Solaris.solCall false getSense (Solaris.uscsiDevice false Linux.toyDevice) exampleAlloc 30 exampleWrite
    (⟨[], 0, 1⟩ : St Handle (Option Unit)) { world := { mem := exampleMem, kernel := 0 }, buffer := none }).out 5 0 0 :=
  (C57_solaris false Linux.toyDevice exampleAlloc 30 exampleWrite ⟨[], 0, 1⟩ exampleMem 0 none rfl (by decide) rfl (by decide) (by decide)
    (by decide) (exampleWrite_separate 64 (by decide)) 5 0 0 (toy_rejects 0).1 (toy_rejects 0).2).1

example (b : Aix.Binding) : RaisesSense (Aix.aixCall getSense b (Aix.scDevice Linux.toyDevice) exampleAlloc 30 exampleWrite
    (⟨[], 0, 1⟩ : St Handle (Option Unit)) { world := { mem := exampleMem, kernel := 0 }, buffer := none }).out 5 0 0 :=
  (C57_aix b Linux.toyDevice exampleAlloc 30 exampleWrite ⟨[], 0, 1⟩ exampleMem 0 none rfl (by decide) rfl (by decide) (by decide)
    (by decide) (exampleWrite_separate 168 (by decide)) (by cases b <;> decide) 5 0 0 (toy_rejects 0).1 (toy_rejects 0).2).1

example : RaisesSense (Win32.winCall true getSense (Win32.sptDevice true Linux.toyDevice) exampleAlloc exampleWrite
    (⟨[], 3, 4⟩ : St Win32.Spt (Option Unit)) { world := { mem := exampleMem, kernel := 0 }, incoming := [] }).out 5 0 0 :=
  (C57_windows true Linux.toyDevice exampleAlloc exampleWrite ⟨[], 3, 4⟩ exampleMem 0 [] rfl (by decide) (by decide) (by decide)
    ⟨by simp [Win32.winRegions, exampleAlloc, exampleWrite, dataSize], by simp [Win32.winRegions, exampleAlloc, Win32.bits]⟩ 5 0 0
    (toy_rejects 0).1 (toy_rejects 0).2).1

end Verif.Sense
