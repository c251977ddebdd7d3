import Verif.Spec.Errors
import Verif.Props.CheckCondition
import Verif.Props.Executer
/-!
# C74: whichever way a command fails, the caller can catch it as an `AsiException`

On AIX and Windows this holds for every driver. On Linux and Solaris the errors of the operating system leave `call` unchanged, as
`IOError`; and on Solaris, where the executer asks the driver to fail the request if any error occurs (`USCSI_DIAGNOSE`), this concerns
every error of the device.
-/
set_option linter.unusedSimpArgs false

namespace Verif.Errors
open Verif Verif.Spec Verif.Executer Verif.Platform

variable {S κ δ K : Type}

/-- The exception comes from decoding 255 bytes of sense data. -/
def Undecodable (parse : Bytes → Py (Option S)) (e : Exn (DevErr S)) : Prop :=
  ∃ buf x, buf.length = 255 ∧ parse buf = .error x ∧ e = .py x

theorem checkCondition_error {parse : Bytes → Py (Option S)} {buf : Bytes} {x : PyErr} (hl : buf.length = 255)
    (h : checkCondition parse buf = .error x) : Undecodable parse (.py x) := by
  refine ⟨buf, x, hl, ?_, rfl⟩
  unfold checkCondition at h
  rcases hp : parse buf with e | s
  · rw [hp] at h; cases h; rfl
  · rw [hp] at h; cases h

theorem readMem_length (m : Mem) (a n : Nat) : (readMem m a n).length = n := by simp [readMem]

/-- Sense data with the reserved byte zero can be decoded, so `Undecodable` does not arise from it. -/
theorem C74_decodes (b : Bytes) (h : 17 ≤ b.length) (hr : ReservedZero b) : ∃ s, Sense.getSense b = .ok s := by
  by_cases h70 : responseCode b = 0x70 ∨ responseCode b = 0x71
  · obtain ⟨s, hs, -⟩ := Sense.getSense_says b h _ _ _ (Or.inl ⟨h70, rfl, rfl, rfl⟩)
    exact ⟨_, hs⟩
  · by_cases h72 : responseCode b = 0x72 ∨ responseCode b = 0x73
    · rcases hr with ⟨h1, h2⟩ | h6
      · omega
      · obtain ⟨s, hs, -⟩ := Sense.getSense_says b h _ _ _ (Or.inr ⟨h72, h6, rfl, rfl, rfl⟩)
        exact ⟨_, hs⟩
    · refine ⟨none, ?_⟩
      unfold Sense.getSense
      rw [Sense.responseCode_eq _ (by omega)]
      simp only [bind, Except.bind, List.lookup, BEq.rfl, Option.getD_some]
      rw [if_neg h70, if_neg h72]

/-! ## AIX -/

/-- **C74, AIX** (partial: decoding of sense data may raise; an address that `fcntl.ioctl` cannot pass, `C74_aix_false`): with either binding and every driver that leaves the direction and the
length of the request as they are, whatever `call` raises is an `AsiException`. -/
theorem C74_aix_partial (parse : Bytes → Py (Option S)) (b : Aix.Binding) (k : Aix.DiskDriver κ) (alloc : Nat → Alloc) (t : Int) (c : Req)
    (s : St Handle (Option K)) (w : Aix.AixWorld κ) (w1 : World κ) (f : Bool) (hs : s.pending = []) (hq : 0 < s.maxq) (h0 : s.index = 0)
    (hsub : Aix.submitted k alloc t c 0 w = (f, w1))
    (hfl : word false (Aix.blockAfter w1 (alloc 0)) 10 1 = word false (Aix.create (lp64 false) (alloc 0) c t).block 10 1)
    (hdl : word false (Aix.blockAfter w1 (alloc 0)) 24 8 = word false (Aix.create (lp64 false) (alloc 0) c t).block 24 8)
    (hcdb : c.cdb.length < 65536) (hd : dataSize c < 2 ^ 64) (ht : 0 ≤ t ∧ t < 2 ^ 32)
    (hal : (alloc 0).sense < 2 ^ 64 ∧ (alloc 0).data < 2 ^ 64) (hp : Aix.Passes b (alloc 0).block) (e : Exn (DevErr S))
    (he : (Aix.aixCall parse b k alloc t c s w).out = .error e) : Caught e ∨ Undecodable parse e := by
  have hlen : 168 ≤ (Aix.blockAfter w1 (alloc 0)).length := by simp [Aix.blockAfter, readMem]
  by_cases hv : scValidity (Aix.blockAfter w1 (alloc 0)) = 0
  · by_cases hok : f = false ∨ b = .libc
    · rw [Aix.C20_success parse b k alloc t c s w w1 f hs hq h0 hsub hok hv hfl hdl hcdb hd ht hal hp] at he
      cases he
    · have hf : f = true := by cases f <;> simp_all
      have hb : b = .fcntl := by cases b <;> simp_all
      subst hf hb
      have := (Aix.C20_refused parse k alloc t c s w hs hq (by rw [h0]; exact hp rfl) (by rw [h0, hsub]) (Or.inr (by rw [h0, hsub]; exact hv))).1
      rw [this] at he; cases he
      exact Or.inl trivial
  · by_cases hE : f = true ∧ b = .fcntl ∧ scEinval (Aix.blockAfter w1 (alloc 0)) ≠ 0
    · obtain ⟨rfl, rfl, hE⟩ := hE
      have := (Aix.C20_refused parse k alloc t c s w hs hq (by rw [h0]; exact hp rfl) (by rw [h0, hsub]) (Or.inl (by rw [h0, hsub]; exact hE))).1
      rw [this] at he; cases he
      exact Or.inl trivial
    · unfold Aix.aixCall at he
      rw [call_idle _ _ _ s w hs hq _ (show Aix.prepare (lp64 false) alloc t c s.index = .ok _ from rfl), Aix.osSend_eq _ _ _ _ _ _ _ (by rw [h0]; exact hp), h0, hsub] at he
      simp only at he
      rw [if_neg (by rintro ⟨h1, h2, h3⟩; rcases h3 with h3 | h3; exact hE ⟨h1, h2, h3⟩; exact hv h3)] at he
      simp only [Aix.osReceive] at he
      rw [Aix.handle_eq parse _ _ _ hlen, if_pos hv] at he
      by_cases hcb : scValidity (Aix.blockAfter w1 (alloc 0)) = 1 ∧ scBusStatus (Aix.blockAfter w1 (alloc 0)) / 2 % 2 = 1
      · rw [if_pos hcb] at he
        rcases hcc : checkCondition parse (readMem w1.mem (scSensePtr (Aix.blockAfter w1 (alloc 0))) 255) with x | d
        · rw [hcc] at he; cases he
          exact Or.inr (checkCondition_error (readMem_length ..) hcc)
        · rw [hcc] at he; cases he; exact Or.inl trivial
      · rw [if_neg hcb] at he
        cases he; exact Or.inl trivial

/-- What the device said is not lost on AIX when the driver fails the ioctl because of it: a failing ioctl with a valid SCSI status
still raises the device's error (this is `C20_status` with `f = true`). -/
theorem C74_aix_kept (parse : Bytes → Py (Option S)) (b : Aix.Binding) (k : Aix.DiskDriver κ) (alloc : Nat → Alloc) (t : Int) (c : Req)
    (s : St Handle (Option K)) (w : Aix.AixWorld κ) (w1 : World κ) (hs : s.pending = []) (hq : 0 < s.maxq) (h0 : s.index = 0)
    (hsub : Aix.submitted k alloc t c 0 w = (true, w1)) (he : scEinval (Aix.blockAfter w1 (alloc 0)) = 0)
    (hv : scValidity (Aix.blockAfter w1 (alloc 0)) = 1) (hptr : scSensePtr (Aix.blockAfter w1 (alloc 0)) = (alloc 0).sense)
    (hp : Aix.Passes b (alloc 0).block)
    (hcc : scBusStatus (Aix.blockAfter w1 (alloc 0)) = 2) (sense : Option S) (hpa : parse (readMem w1.mem (alloc 0).sense 255) = .ok sense) :
    (Aix.aixCall parse b k alloc t c s w).out = .error (.dev (.checkCondition (readMem w1.mem (alloc 0).sense 255) sense)) :=
  (Aix.C20_status parse b k alloc t c s w w1 true hs hq h0 hsub he (by rw [hv]; decide) hptr hp).1 hv (by rw [hcc]) sense hpa

/-- **C74 is false on AIX** with the `fcntl` binding and a block at an address of 2^31 or more: `OverflowError`, whatever the driver. -/
theorem C74_aix_false (parse : Bytes → Py (Option S)) (k : Aix.DiskDriver κ) (alloc : Nat → Alloc) (t : Int) (c : Req)
    (s : St Handle (Option K)) (w : Aix.AixWorld κ) (hs : s.pending = []) (hq : 0 < s.maxq) (ha : 2 ^ 31 ≤ (alloc s.index).block) :
    ∃ e, (Aix.aixCall parse .fcntl k alloc t c s w).out = .error e ∧ ¬ Caught e :=
  ⟨_, (Aix.C54_false parse k alloc t c s w hs hq ha).1, fun h => h⟩

/-! ## Windows -/

/-- **C74, Windows** (partial: decoding of sense data may raise; a CDB longer than 16 bytes is an `IndexError`, `C18_windows_long`): with
every driver whose refusals are `AsiWin32OSError`, as win32.py raises them, and that leaves the direction of the request as it is,
whatever `call` raises is an `AsiException`. -/
theorem C74_windows_partial (b : Bool) (parse : Bytes → Py (Option S)) (k : Win32.PortDriver κ) (alloc : Nat → Alloc) (c : Req)
    (s : St Win32.Spt (Option K)) (w : Win32.WinWorld κ) (hs : s.pending = []) (hq : 0 < s.maxq) (h : Win32.Spt)
    (hc : Win32.create (Win32.W b) (alloc s.index) s.index c = .ok h)
    (hd : dataSize c < 2 ^ 32) (hx : (alloc s.index).data < 2 ^ (Win32.bits b))
    (hk : ∀ x w1, Win32.submitted b k h w = (.error x, w1) → x = .asiOs)
    (hin : ∀ w1, Win32.submitted b k h w = (.ok (), w1) →
      word true (readMem w1.mem h.blockAddr h.block.length) 8 1 = word true h.block 8 1)
    (e : Exn (DevErr S)) (he : (Win32.winCall b parse k alloc c s w).out = .error e) : Caught e ∨ Undecodable parse e := by
  have hcdb : c.cdb.length ≤ 16 := by
    by_cases hl : c.cdb.length ≤ 16
    · exact hl
    · rw [Win32.create_long b _ _ _ (by omega)] at hc; cases hc
  obtain ⟨h', hc', hb⟩ := Win32.create_built b (alloc s.index) s.index c hcdb hd (by rw [Win32.bits_eq]; exact hx)
  rw [hc] at hc'; cases hc'
  have hid := hb.id
  have hlen := hb.fields.len
  rcases hsub : Win32.submitted b k h w with ⟨r, w1⟩
  cases r with
  | error x =>
    rw [(Win32.C19_refused b parse k alloc c s w hs hq h hc hid x w1 hsub).1, hk x w1 hsub] at he
    cases he; exact Or.inl trivial
  | ok u =>
    by_cases h2 : word true (readMem w1.mem h.blockAddr h.block.length) 2 1 = 2
    · rw [Win32.winCall_ok b parse k alloc c s w hs hq h hc hid w1 hsub, Win32.classify_eq] at he
      simp only [h2, if_true] at he
      rcases hcc : checkCondition parse ((List.drop (Win32.osz b) (readMem w1.mem h.blockAddr h.block.length)).take 255) with x | d
      · rw [hcc] at he; cases he
        refine Or.inr (checkCondition_error ?_ hcc)
        rw [List.length_take, List.length_drop, readMem_length, hlen]
        cases b <;> decide
      · rw [hcc] at he; cases he; exact Or.inl trivial
    · by_cases h1 : word true (readMem w1.mem h.blockAddr h.block.length) 2 1 = 0
      · by_cases hno : ∀ cdb n, c = .read cdb n → n ≤ 0
        · rw [Win32.C19_no_data b parse k alloc c s w hs hq h hc hid w1 hsub hno hd hx h1 (hin w1 hsub)] at he
          cases he
        · cases c with
          | write cdb d => exact absurd (by simp) hno
          | read cdb n =>
            have hn : n > 0 := by
              apply Int.not_le.1
              intro hle
              exact hno (by intro cdb' n' hh; cases hh; exact hle)
            rw [Win32.C19_read b parse k alloc _ s w hs hq h hc hid w1 hsub cdb n hn rfl
              (by simp only [dataSize] at hd; omega) hx h1 (hin w1 hsub)] at he
            cases he
      · rw [Win32.C19_other_status b parse k alloc c s w hs hq h hc hid w1 hsub h1 h2] at he
        cases he; exact Or.inl trivial

/-! ## Linux -/

/-- What the sg driver answers is a whole header with the packet number of the command, and the command's block was left alone. -/
def Answers (l : Bool) (k : Linux.SgDriver κ) (alloc : Nat → Alloc) (t : Int) (c : Req) (i : Nat) (w : World κ) : Prop :=
  ∀ w1 raw w2, Linux.afterSend l k alloc t c i w = (.ok (), w1) → k.read 88 w1 = (.ok raw, w2) →
    88 ≤ raw.length ∧ sgPackId l raw = i ∧
      readMem w2.mem (alloc i).block 88 = (Linux.create (lp64 l) (alloc i) i c t).block

/-- The operating system refused the request or failed to answer, with this exception. -/
def SystemError (l : Bool) (k : Linux.SgDriver κ) (alloc : Nat → Alloc) (t : Int) (c : Req) (i : Nat) (w : World κ) (x : PyErr) : Prop :=
  (Linux.afterSend l k alloc t c i w).1 = .error x ∨
    ∃ w1, Linux.afterSend l k alloc t c i w = (.ok (), w1) ∧ (k.read 88 w1).1 = .error x

/-- **C74, Linux** (partial: the exceptions of `write` and `read` are passed on as they are, and decoding of sense data may raise):
everything else that `call` raises is an `AsiException`. -/
theorem C74_linux_partial (l : Bool) (parse : Bytes → Py (Option S)) (k : Linux.SgDriver κ) (alloc : Nat → Alloc) (t : Int) (c : Req)
    (s : St Handle (Option K)) (w : World κ) (hs : s.pending = []) (hq : 0 < s.maxq)
    (hidx : s.index < 2 ^ 31) (hcdb : c.cdb.length ≤ 255) (hd : dataSize c < 2 ^ 32) (ht : 0 ≤ t ∧ t < 2 ^ 32)
    (hal : (alloc s.index).sense < 2 ^ 64 ∧ (alloc s.index).cmd < 2 ^ 64 ∧ (alloc s.index).data < 2 ^ 64)
    (hans : Answers l k alloc t c s.index w) (e : Exn (DevErr S)) (he : (Linux.sgCall l parse k alloc t c s w).out = .error e) :
    Caught e ∨ Undecodable parse e ∨ ∃ x, SystemError l k alloc t c s.index w x ∧ e = .py x := by
  have hcall : Linux.sgCall l parse k alloc t c s w = _ :=
    call_idle (Linux.prepare (lp64 l) alloc t c) (Linux.sgSend k) (Linux.sgReceive (lp64 l) parse k) s w hs hq _
      (show Linux.prepare (lp64 l) alloc t c s.index = .ok _ from rfl)
  rw [show Linux.sgSend k (Linux.create (lp64 l) (alloc s.index) s.index c t) w = Linux.afterSend l k alloc t c s.index w from rfl] at hcall
  rcases hsend : Linux.afterSend l k alloc t c s.index w with ⟨r, w1⟩
  cases r with
  | error x =>
    rw [hcall, hsend] at he
    cases he
    exact Or.inr (Or.inr ⟨x, Or.inl (by rw [hsend]), rfl⟩)
  | ok u =>
    rcases hread : k.read 88 w1 with ⟨rr, w2⟩
    cases rr with
    | error x =>
      rw [hcall, hsend] at he
      simp only [Linux.sgReceive, Linux.sizeValue, hread] at he
      cases he
      exact Or.inr (Or.inr ⟨x, Or.inr ⟨w1, hsend, by rw [hread]⟩, rfl⟩)
    | ok raw =>
      obtain ⟨hlen, hid, hblock⟩ := hans w1 raw w2 hsend hread
      by_cases hbad : sgStatus raw &&& 2 ≠ 0 ∨ sgDriverStatus l raw &&& 8 ≠ 0
      · rw [hcall, hsend] at he
        simp only [Linux.sgReceive, Linux.sizeValue, hread] at he
        rw [Linux.handle_eq l parse _ _ raw hlen, if_pos hbad] at he
        rcases hcc : checkCondition parse (readMem w2.mem (sgSensePtr l raw) 255) with x | d
        · rw [hcc] at he; cases he
          exact Or.inr (Or.inl (checkCondition_error (readMem_length ..) hcc))
        · rw [hcc] at he
          simp only [toRecv, hid, Int.natCast_nonneg, if_true, Int.toNat_natCast] at he
          cases he; exact Or.inl trivial
      · by_cases hg : Linux.AllGood l raw
        · have hbit : sgDriverStatus l raw / 8 % 2 = 0 := by
            have : ¬ sgDriverStatus l raw &&& 8 ≠ 0 := fun h => hbad (Or.inr h)
            rw [and_8] at this; omega
          rw [Linux.C15_success l parse k alloc t c s w w1 w2 raw hs hq hidx hcdb hd ht hal hsend hread hblock hlen hid hg hbit] at he
          cases he
        · rw [hcall, hsend] at he
          simp only [Linux.sgReceive, Linux.sizeValue, hread] at he
          rw [Linux.handle_eq l parse _ _ raw hlen, if_neg hbad] at he
          have hdev : ∃ d, e = .dev d := by
            by_cases h1 : sgStatus raw ≠ 0
            · rw [if_pos h1] at he
              by_cases h7 : sgHostStatus l raw = 7
              · simp only [h7, if_true, toRecv, hid, Int.natCast_nonneg, Int.toNat_natCast] at he
                cases he; exact ⟨_, rfl⟩
              · by_cases h18 : sgHostStatus l raw = 0x18
                · rw [if_neg h7, if_pos h18] at he
                  simp only [if_true, toRecv, hid, Int.natCast_nonneg, Int.toNat_natCast] at he
                  cases he; exact ⟨_, rfl⟩
                · simp only [if_neg h7, if_neg h18, if_true, toRecv, hid, Int.natCast_nonneg, Int.toNat_natCast] at he
                  cases he; exact ⟨_, rfl⟩
            · rw [if_neg h1] at he
              by_cases h2 : sgDriverStatus l raw &&& 15 ≠ 0
              · simp only [if_pos h2, if_true, toRecv, hid, Int.natCast_nonneg, Int.toNat_natCast] at he
                cases he; exact ⟨_, rfl⟩
              · rw [if_neg h2] at he
                by_cases h3 : sgHostStatus l raw ≠ 0
                · simp only [if_pos h3, if_true, toRecv, hid, Int.natCast_nonneg, Int.toNat_natCast] at he
                  cases he; exact ⟨_, rfl⟩
                · exact absurd ⟨by omega, by omega, by rw [and_15] at h2; omega⟩ hg
          obtain ⟨d, rfl⟩ := hdev
          exact Or.inl trivial

/-- **C74 is false on Linux**: whatever the driver, the command and the (idle) executer, a request that the operating system refuses with
`IOError` leaves `call` as that `IOError`, which `except AsiException` does not catch; and so does an answer that cannot be read. -/
theorem C74_linux_false (l : Bool) (parse : Bytes → Py (Option S)) (k : Linux.SgDriver κ) (alloc : Nat → Alloc) (t : Int) (c : Req)
    (s : St Handle (Option K)) (w : World κ) (hs : s.pending = []) (hq : 0 < s.maxq)
    (hx : SystemError l k alloc t c s.index w .ioError) :
    ∃ e, (Linux.sgCall l parse k alloc t c s w).out = .error e ∧ ¬ Caught e := by
  refine ⟨.py .ioError, ?_, id⟩
  have hcall : Linux.sgCall l parse k alloc t c s w = _ :=
    call_idle (Linux.prepare (lp64 l) alloc t c) (Linux.sgSend k) (Linux.sgReceive (lp64 l) parse k) s w hs hq _
      (show Linux.prepare (lp64 l) alloc t c s.index = .ok _ from rfl)
  rw [show Linux.sgSend k (Linux.create (lp64 l) (alloc s.index) s.index c t) w = Linux.afterSend l k alloc t c s.index w from rfl] at hcall
  rw [hcall]
  rcases hsend : Linux.afterSend l k alloc t c s.index w with ⟨r, w1⟩
  rcases hx with h1 | ⟨w1', h1, h2⟩
  · rw [hsend] at h1
    simp only at h1
    subst h1
    rfl
  · rw [hsend] at h1
    cases h1
    rcases hread : k.read 88 w1 with ⟨rr, w2⟩
    rw [hread] at h2
    simp only at h2
    subst h2
    simp only [Linux.sgReceive, Linux.sizeValue, hread]

/-! ## Solaris -/

/-- **C74, Solaris** (partial: the exception of the ioctl is passed on as it is, cf. `C74_solaris_false`, and decoding of sense data may
raise). -/
theorem C74_solaris_partial (l : Bool) (parse : Bytes → Py (Option S)) (k : Solaris.TargetDriver κ) (alloc : Nat → Alloc) (t : Int) (c : Req)
    (s : St Handle (Option K)) (w : Solaris.SolWorld κ) (hs : s.pending = []) (hq : 0 < s.maxq)
    (h0 : s.index = 0) (hcdb : c.cdb.length ≤ 255) (hd : dataSize c < 2 ^ 64) (ht : 0 ≤ t ∧ t < 2 ^ 15)
    (hal : (alloc 0).sense < 2 ^ 64 ∧ (alloc 0).cmd < 2 ^ 64 ∧ (alloc 0).data < 2 ^ 64)
    (hans : ∀ raw w1, Solaris.submitted l k alloc t c 0 w = (.ok raw, w1) →
      64 ≤ raw.length ∧ readMem w1.mem (alloc 0).block 64 = (Solaris.create (lp64 l) (alloc 0) c t).block)
    (e : Exn (DevErr S)) (he : (Solaris.solCall l parse k alloc t c s w).out = .error e) :
    Caught e ∨ Undecodable parse e ∨ ∃ x w1, Solaris.submitted l k alloc t c 0 w = (.error x, w1) ∧ e = .py x := by
  have hcall : Solaris.solCall l parse k alloc t c s w = _ :=
    call_idle (Solaris.prepare (lp64 l) alloc t c) (Solaris.osSend k) (Solaris.osReceive (lp64 l) parse) s w hs hq _
      (show Solaris.prepare (lp64 l) alloc t c s.index = .ok _ from rfl)
  rw [Solaris.osSend_eq, h0] at hcall
  rcases hsub : Solaris.submitted l k alloc t c 0 w with ⟨r, w1⟩
  cases r with
  | error x =>
    rw [hcall, hsub] at he
    cases he
    exact Or.inr (Or.inr ⟨x, w1, rfl, rfl⟩)
  | ok raw =>
    obtain ⟨hlen, hblock⟩ := hans raw w1 hsub
    by_cases hz : uscsiStatus l raw = 0 ∧ uscsiRqStatus raw = 0
    · rw [Solaris.C21_success l parse k alloc t c s w w1 raw hs hq h0 hcdb hd ht hal hsub hlen hblock hz.1 hz.2] at he
      cases he
    · rw [hcall, hsub] at he
      simp only [Solaris.osReceive] at he
      rw [Solaris.handle_eq l parse _ _ raw hlen] at he
      by_cases h2 : uscsiStatus l raw &&& 2 ≠ 0
      · rw [if_pos h2] at he
        rcases hcc : checkCondition parse (readMem w1.mem (uscsiSensePtr l raw) 255) with x | d
        · rw [hcc] at he; cases he
          exact Or.inr (Or.inl (checkCondition_error (readMem_length ..) hcc))
        · rw [hcc] at he; cases he; exact Or.inl trivial
      · rw [if_neg h2] at he
        by_cases h1 : uscsiStatus l raw ≠ 0
        · rw [if_pos h1] at he; cases he; exact Or.inl trivial
        · rw [if_neg h1, if_pos (by intro h3; exact hz ⟨by omega, h3⟩)] at he
          cases he; exact Or.inl trivial

/-- The target driver in front of a device, taking `USCSI_DIAGNOSE` (flag 2, "fail if any error occurs", solaris.py:41, 75) at its word:
when the flag is set and the status is not zero, the ioctl fails with `EIO` (after the block was completed). -/
def uscsiDiagnose (l : Bool) (dev : Device δ) : Solaris.TargetDriver δ :=
  { ioctl := fun code raw w =>
      match (Solaris.uscsiDevice l dev).ioctl code raw w with
      | (.ok done, w') => if word l raw 0 4 / 2 % 2 = 1 ∧ uscsiStatus l done ≠ 0 then (.error .ioError, w') else (.ok done, w')
      | (.error e, w') => (.error e, w') }

/-- The executer sets `USCSI_DIAGNOSE` on every command. -/
theorem diagnose_set (l : Bool) (al : Alloc) (c : Req) (t : Int) (hcdb : c.cdb.length ≤ 255) (hd : dataSize c < 2 ^ 64) (ht : 0 ≤ t ∧ t < 2 ^ 15)
    (hsep : Separate 64 (regions al c 64)) :
    word l ((Solaris.create (lp64 l) al c t).block ++ [0]) 0 4 / 2 % 2 = 1 := by
  obtain ⟨-, hb2, hb3, hb4⟩ := regions_bits hsep
  have hf := Solaris.create_fields l al c t hcdb hd ht hb2 hb3 hb4
  generalize (Solaris.create (lp64 l) al c t) = h at *
  have happ := Solaris.load_append l h.block [0] 0 4 true (by rw [hf.len]; decide)
  have hfl : word l (h.block ++ [0]) 0 4 = (Solaris.flagsOf c).toNat := by
    have : word l (h.block ++ [0]) 0 4 = (load (lp64 l) ⟨"", 0, 4, true⟩ h.block % 2 ^ 32).toNat := by
      rw [← happ, ← sword_lp64, sword, toSigned]
      have hlt : word l (h.block ++ [0]) 0 4 < 2 ^ 32 := by
        have := nativeNat_lt (lp64 l) (slice (h.block ++ [(0 : UInt8)]) 0 4)
        have h2 : (slice (h.block ++ [(0 : UInt8)]) 0 4).length ≤ 4 := by simp [slice]; omega
        rw [word_lp64]
        simp only [load]
        calc _ ≤ nativeNat (lp64 l) (slice (h.block ++ [(0 : UInt8)]) 0 4) := by simp
          _ < 256 ^ (slice (h.block ++ [(0 : UInt8)]) 0 4).length := this
          _ ≤ 256 ^ 4 := Nat.pow_le_pow_right (by decide) h2
      split <;> omega
    rw [this, hf.flags]
    cases c with
    | read cdb n => by_cases hn : n > 0 <;> simp [Solaris.flagsOf, hn]
    | write cdb d => simp [Solaris.flagsOf]
  have hv : Solaris.flagsOf c = 2162698 ∨ Solaris.flagsOf c = 2162690 := by
    cases c with
    | read cdb n => by_cases hn : n > 0 <;> simp [Solaris.flagsOf, hn]
    | write cdb d => simp [Solaris.flagsOf]
  omega

/-- What the executer's request leads to in `uscsiDevice`. -/
theorem submitted_device (l : Bool) (dev : Device δ) (alloc : Nat → Alloc) (t : Int) (c : Req) (m : Mem) (k : δ) (old : Option Bytes)
    (hcdb : c.cdb.length ≤ 255) (hd : dataSize c < 2 ^ 64) (ht : 0 ≤ t ∧ t < 2 ^ 15) (hsep : Separate 64 (regions (alloc 0) c 64)) :
    ∃ done w', Solaris.submitted l (Solaris.uscsiDevice l dev) alloc t c 0 ⟨⟨m, k⟩, old⟩ = (.ok done, w') ∧
      uscsiStatus l done = (dev k (asked c)).1.status.toNat ∧ w'.kernel = (dev k (asked c)).2 := by
  obtain ⟨-, hb2, hb3, hb4⟩ := regions_bits hsep
  have hf := Solaris.create_fields l (alloc 0) c t hcdb hd ht hb2 hb3 hb4
  obtain ⟨hv, hsp, -⟩ := Solaris.C18_solaris l (alloc 0) c t m hcdb hd ht hsep
  have hlen : 64 ≤ ((Solaris.create (lp64 l) (alloc 0) c t).block ++ [(0 : UInt8)]).length := by
    rw [List.length_append, hf.len]; decide
  unfold Solaris.submitted Solaris.uscsiDevice
  simp only
  rw [if_neg (by decide), hv]
  exact ⟨_, _, rfl, Solaris.status_splice l _ _ hlen, rfl⟩

/-- **C74 is false on Solaris**: with the driver that fails requests as the executer's own flag asks it to, every error of every device,
in every state and to every command, reaches the caller as a bare `IOError`: it is not an `AsiException`, and the SCSI status and the
sense data that the device sent are lost, though the device did process the command. -/
theorem C74_solaris_false (l : Bool) (parse : Bytes → Py (Option S)) (dev : Device δ) (alloc : Nat → Alloc) (t : Int) (c : Req)
    (s : St Handle (Option K)) (m : Mem) (k : δ) (old : Option Bytes) (hs : s.pending = []) (hq : 0 < s.maxq) (h0 : s.index = 0)
    (hcdb : c.cdb.length ≤ 255) (hd : dataSize c < 2 ^ 64) (ht : 0 ≤ t ∧ t < 2 ^ 15) (hsep : Separate 64 (regions (alloc 0) c 64))
    (hst : (dev k (asked c)).1.status ≠ 0) :
    let r := Solaris.solCall l parse (uscsiDiagnose l dev) alloc t c s { world := { mem := m, kernel := k }, buffer := old }
    r.out = .error (.py .ioError) ∧ (∀ e, r.out = .error e → ¬ Caught e) ∧ r.os.world.kernel = (dev k (asked c)).2 := by
  intro r
  obtain ⟨done, w', hsub, hstat, hker⟩ := submitted_device l dev alloc t c m k old hcdb hd ht hsep
  have hdiag := diagnose_set l (alloc 0) c t hcdb hd ht hsep
  have hne : uscsiStatus l done ≠ 0 := by
    rw [hstat]; intro h; exact hst (UInt8.toNat_inj.mp h)
  have hsub' : Solaris.submitted l (uscsiDiagnose l dev) alloc t c 0 ⟨⟨m, k⟩, old⟩ = (.error .ioError, w') := by
    unfold Solaris.submitted at hsub ⊢
    simp only [uscsiDiagnose] at hsub ⊢
    rw [hsub]
    simp only [hdiag, hne, ne_eq, not_false_eq_true, and_self, if_true]
  have hr : r = _ :=
    call_idle (Solaris.prepare (lp64 l) alloc t c) (Solaris.osSend (uscsiDiagnose l dev)) (Solaris.osReceive (lp64 l) parse) s _ hs hq _
      (show Solaris.prepare (lp64 l) alloc t c s.index = .ok _ from rfl)
  rw [Solaris.osSend_eq, h0, hsub'] at hr
  rw [hr]
  exact ⟨rfl, by intro e he; cases he; exact id, hker⟩

/-- With the same driver a command that the device completes with GOOD status does return, as with `uscsiDevice` (`C53_solaris`). -/
theorem C74_solaris_good (l : Bool) (parse : Bytes → Py (Option S)) (dev : Device δ) (alloc : Nat → Alloc) (t : Int) (c : Req)
    (s : St Handle (Option K)) (m : Mem) (k : δ) (old : Option Bytes) (hs : s.pending = []) (hq : 0 < s.maxq) (h0 : s.index = 0)
    (hcdb : c.cdb.length ≤ 255) (hd : dataSize c < 2 ^ 64) (ht : 0 ≤ t ∧ t < 2 ^ 15) (hsep : Separate 64 (regions (alloc 0) c 64))
    (hst : (dev k (asked c)).1.status = 0) :
    let r := Solaris.solCall l parse (uscsiDiagnose l dev) alloc t c s { world := { mem := m, kernel := k }, buffer := old }
    r.out = .ok (some (delivered c (dev k (asked c)).1)) ∧ r.os.world.kernel = (dev k (asked c)).2 := by
  intro r
  obtain ⟨done, w', hsub, hstat, hker⟩ := submitted_device l dev alloc t c m k old hcdb hd ht hsep
  have hz : uscsiStatus l done = 0 := by rw [hstat, hst]; rfl
  have hsub' : Solaris.submitted l (uscsiDiagnose l dev) alloc t c 0 ⟨⟨m, k⟩, old⟩ =
      Solaris.submitted l (Solaris.uscsiDevice l dev) alloc t c 0 ⟨⟨m, k⟩, old⟩ := by
    rw [hsub]
    unfold Solaris.submitted at hsub ⊢
    simp only [uscsiDiagnose] at hsub ⊢
    rw [hsub]
    simp [hz]
  have hsame : r = Solaris.solCall l parse (Solaris.uscsiDevice l dev) alloc t c s { world := { mem := m, kernel := k }, buffer := old } := by
    have h1 : r = _ :=
      call_idle (Solaris.prepare (lp64 l) alloc t c) (Solaris.osSend (uscsiDiagnose l dev)) (Solaris.osReceive (lp64 l) parse) s _ hs hq _
        (show Solaris.prepare (lp64 l) alloc t c s.index = .ok _ from rfl)
    have h2 : Solaris.solCall l parse (Solaris.uscsiDevice l dev) alloc t c s { world := { mem := m, kernel := k }, buffer := old } = _ :=
      call_idle (Solaris.prepare (lp64 l) alloc t c) (Solaris.osSend (Solaris.uscsiDevice l dev)) (Solaris.osReceive (lp64 l) parse) s _ hs hq _
        (show Solaris.prepare (lp64 l) alloc t c s.index = .ok _ from rfl)
    rw [h1, h2, Solaris.osSend_eq, Solaris.osSend_eq, h0, hsub']
  obtain ⟨ho, hk, -⟩ := Solaris.C53_solaris l parse dev alloc t c s m k old hs hq h0 hcdb hd ht hsep
  rw [hsame]
  refine ⟨?_, hk⟩
  rw [ho]
  unfold outcome
  rw [hst]
  rfl

/-! ## A full queue -/

/-- **C74 is false for a full queue**, on every platform: the error is a `NameError` (the class is not imported in the module that raises
it), which `except AsiException` does not catch. -/
theorem C74_queue_full_false (prepare : Nat → Py Handle) (osSend : Handle → κ → Py Unit × κ) (cb : Option K) (s : St Handle K) (w : κ)
    (hfull : s.maxq ≤ s.pending.length) :
    ∃ e, (send prepare osSend cb s w).out = .error e ∧ ¬ Caught (.py e : Exn (DevErr S)) := by
  refine ⟨.nameError, ?_, id⟩
  simp [send, nextPacketIndex, hfull]

/-! ## The errors of the device, with the library's own decoder -/

theorem reservedZero_padded (b : Bytes) (h : ReservedZero b) : ReservedZero (padded 255 b) := by
  unfold ReservedZero responseCode bitsAt at *
  rw [Sense.byteAt_padded 255 b 0 (by decide), Sense.byteAt_padded 255 b 6 (by decide)]
  exact h

/-- The device never sets the reserved byte when it reports a check condition. -/
def CleanSense (dev : Device δ) : Prop := ∀ k q, (dev k q).1.status.toNat / 2 % 2 = 1 → ReservedZero (dev k q).1.sense

theorem outcome_caught (c : Req) (ans : Answer) (hr : ans.status.toNat / 2 % 2 = 1 → ReservedZero ans.sense) (e : Exn (DevErr Sense.Sense))
    (he : outcome Sense.getSense c ans = .error e) : Caught e := by
  unfold outcome at he
  split at he
  · rename_i h2
    obtain ⟨s, hs⟩ := C74_decodes (padded 255 ans.sense) (by rw [Sense.padded_length]; decide) (reservedZero_padded _ (hr h2))
    rw [hs] at he
    cases he; trivial
  · split at he
    · cases he; trivial
    · cases he

/-- **C74, errors of the device on Linux**: in front of every device with clean sense data, whatever `call` raises is an `AsiException`. -/
theorem C74_device_linux (l : Bool) (dev : Device δ) (alloc : Nat → Alloc) (t : Int) (c : Req)
    (s : St Handle (Option K)) (m : Mem) (k : δ) (old : Option Bytes) (hs : s.pending = []) (hq : 0 < s.maxq) (hidx : s.index < 2 ^ 31)
    (hcdb : c.cdb.length ≤ 255) (hd : dataSize c < 2 ^ 32) (ht : 0 ≤ t ∧ t < 2 ^ 32)
    (hsep : Separate 64 [((alloc s.index).block, 88), ((alloc s.index).sense, 255), ((alloc s.index).cmd, c.cdb.length),
      ((alloc s.index).data, dataSize c)]) (hdev : CleanSense dev) (e : Exn (DevErr Sense.Sense))
    (he : (Linux.sgCall l Sense.getSense (Linux.sgDevice l dev) alloc t c s { mem := m, kernel := (k, old) }).out = .error e) : Caught e := by
  rw [(Linux.C52_linux l Sense.getSense dev alloc t c s m k old hs hq hidx hcdb hd ht hsep).1] at he
  exact outcome_caught c _ (hdev _ _) e he

/-- **C74, errors of the device on Solaris**, if the driver reports them in the block (`uscsiDevice`; but see `C74_solaris_false`). -/
theorem C74_device_solaris (l : Bool) (dev : Device δ) (alloc : Nat → Alloc) (t : Int) (c : Req)
    (s : St Handle (Option K)) (m : Mem) (k : δ) (old : Option Bytes) (hs : s.pending = []) (hq : 0 < s.maxq) (h0 : s.index = 0)
    (hcdb : c.cdb.length ≤ 255) (hd : dataSize c < 2 ^ 64) (ht : 0 ≤ t ∧ t < 2 ^ 15) (hsep : Separate 64 (regions (alloc 0) c 64))
    (hdev : CleanSense dev) (e : Exn (DevErr Sense.Sense))
    (he : (Solaris.solCall l Sense.getSense (Solaris.uscsiDevice l dev) alloc t c s ⟨⟨m, k⟩, old⟩).out = .error e) : Caught e := by
  rw [(Solaris.C53_solaris l Sense.getSense dev alloc t c s m k old hs hq h0 hcdb hd ht hsep).1] at he
  exact outcome_caught c _ (hdev _ _) e he

/-- **C74, errors of the device on AIX**, with either binding. -/
theorem C74_device_aix (b : Aix.Binding) (dev : Device δ) (alloc : Nat → Alloc) (t : Int) (c : Req)
    (s : St Handle (Option K)) (m : Mem) (k : δ) (old : Option Bytes) (hs : s.pending = []) (hq : 0 < s.maxq) (h0 : s.index = 0)
    (hcdb : c.cdb.length ≤ 64) (hd : dataSize c < 2 ^ 64) (ht : 0 ≤ t ∧ t < 2 ^ 32) (hsep : Separate 64 (regions (alloc 0) c 168))
    (hp : Aix.Passes b (alloc 0).block) (hdev : CleanSense dev) (e : Exn (DevErr Sense.Sense))
    (he : (Aix.aixCall Sense.getSense b (Aix.scDevice dev) alloc t c s ⟨⟨m, k⟩, old⟩).out = .error e) : Caught e := by
  rw [(Aix.C54_aix_partial Sense.getSense b dev alloc t c s m k old hs hq h0 hcdb hd ht hsep hp).1] at he
  exact outcome_caught c _ (hdev _ _) e he

/-- **C74, errors of the device on Windows**. -/
theorem C74_device_windows (b : Bool) (dev : Device δ) (alloc : Nat → Alloc) (c : Req)
    (s : St Win32.Spt (Option K)) (m : Mem) (k : δ) (inc : List Win32.Spt) (hs : s.pending = []) (hq : 0 < s.maxq)
    (hcdb : c.cdb.length ≤ 16) (hd : dataSize c < 2 ^ 32) (hsep : Separate (Win32.bits b) (Win32.winRegions b (alloc s.index) c))
    (hdev : CleanSense dev) (e : Exn (DevErr Sense.Sense))
    (he : (Win32.winCall b Sense.getSense (Win32.sptDevice b dev) alloc c s ⟨⟨m, k⟩, inc⟩).out = .error e) : Caught e := by
  rw [(Win32.C55_windows b Sense.getSense dev alloc c s m k inc hs hq hcdb hd hsep).1] at he
  generalize hans : (dev k (asked c)).1 = ans at he
  unfold Win32.winOutcome at he
  split at he
  · rename_i h2
    obtain ⟨s, hs⟩ := C74_decodes (padded 255 ans.sense) (by rw [Sense.padded_length]; decide)
      (reservedZero_padded _ (by rw [← hans]; exact hdev _ _ (by rw [hans, h2]; decide)))
    rw [hs] at he
    cases he; trivial
  · split at he
    · cases he; trivial
    · split at he
      · split at he <;> cases he
      · cases he

/-- **C74 is false for sense data of the descriptor format with the reserved byte set**: the library takes this byte for the length of
the descriptors, and a check condition (here: INVALID FIELD IN CDB, with an information descriptor cut short) leaves as an error of
infi.instruct. -/
theorem C74_sense_false : ∃ (ans : Answer) (e : Exn (DevErr Sense.Sense)), ans.status = 2 ∧ responseCode ans.sense = 0x72 ∧
    outcome Sense.getSense (.read [] 0) ans = .error e ∧ ¬ Caught e :=
  ⟨⟨2, [0x72, 5, 0x24, 0, 0, 0, 1, 0, 0, 5], []⟩, .py .instruct, rfl, by decide, by decide +kernel, id⟩

/-! ## Examples -/

/-- A driver that accepts nothing. -/
def unplugged : Linux.SgDriver Unit :=
  { write := fun _ w => (.error .ioError, w), read := fun _ w => (.error .ioError, w) }

example : SystemError (κ := Unit) true unplugged (fun _ => ⟨4096, 8192, 12288, 16384⟩) 30 (.read [0, 0, 0, 0, 0, 0] 0) 0 ⟨fun _ => 0, ()⟩ .ioError :=
  Or.inl rfl

example : Answers (κ := Unit) true unplugged (fun _ => ⟨4096, 8192, 12288, 16384⟩) 30 (.read [0, 0, 0, 0, 0, 0] 0) 0 ⟨fun _ => 0, ()⟩ := by
  intro w1 raw w2 h; cases h

/-- A device that rejects everything: INVALID COMMAND OPERATION CODE. -/
def rejecting : Device Nat := fun k _ => (⟨2, [0x70, 0, 5, 0, 0, 0, 0, 10, 0, 0, 0, 0, 0x20, 0], []⟩, k + 1)

example : CleanSense rejecting := by
  intro k q _; left; simp only [rejecting]; decide

/-- On Solaris INQUIRY to this device raises `IOError`. -/
example : (Solaris.solCall false (fun b => .ok (some b)) (uscsiDiagnose false rejecting) (fun _ => ⟨4096, 8192, 12288, 16384⟩) 30
    (.read [0x12, 0, 0, 0, 36, 0] 36) ({ pending := [], index := 0, maxq := 1 } : St Handle (Option Unit)) ⟨⟨fun _ => 0xEE, 0⟩, none⟩).out =
    .error (.py .ioError) :=
  (C74_solaris_false false _ rejecting _ 30 _ _ _ 0 none rfl (by decide) rfl (by decide) (by decide) (by decide)
    ⟨by simp [regions, dataSize, Req.cdb], by simp [regions]⟩ (by decide)).1

/-- The hypotheses of `C74_aix_partial` hold for a driver that refuses everything with `EINVAL`. -/
example : ∃ w1, Aix.submitted Aix.refusing (fun _ => ⟨4096, 8192, 12288, 16384⟩) 30 (.read [0, 0, 0, 0, 0, 0] 0) 0
      { world := { mem := fun _ => 0, kernel := () }, buffer := none } = (true, w1) ∧
    word false (Aix.blockAfter w1 ⟨4096, 8192, 12288, 16384⟩) 10 1 =
      word false (Aix.create (lp64 false) ⟨4096, 8192, 12288, 16384⟩ (.read [0, 0, 0, 0, 0, 0] 0) 30).block 10 1 ∧
    word false (Aix.blockAfter w1 ⟨4096, 8192, 12288, 16384⟩) 24 8 =
      word false (Aix.create (lp64 false) ⟨4096, 8192, 12288, 16384⟩ (.read [0, 0, 0, 0, 0, 0] 0) 30).block 24 8 := by
  let al : Alloc := ⟨4096, 8192, 12288, 16384⟩
  let c : Req := .read [0, 0, 0, 0, 0, 0] 0
  have hbu := Aix.create_built false al c 30
  have hraw : Aix.blockAfter ⟨writeMem ((Aix.create (lp64 false) al c 30).install fun _ => 0) (al.block + 16) [0, 13], ()⟩ al =
      splice (Aix.create (lp64 false) al c 30).block 16 [0, 13] := by
    have hib := install_block (Aix.create (lp64 false) al c 30) fun _ => 0
    rw [hbu.len, hbu.blockAddr] at hib
    unfold Aix.blockAfter
    rw [readMem_writeMem_inside _ al.block 16 168 [0, 13] (by decide), hib]
  refine ⟨_, rfl, ?_, ?_⟩
  · show word false (Aix.blockAfter ⟨writeMem ((Aix.create (lp64 false) al c 30).install fun _ => 0) (al.block + 16) [0, 13], ()⟩ al) 10 1 = _
    rw [hraw, word_lp64, word_lp64, load_splice_other (by decide)]
  · show word false (Aix.blockAfter ⟨writeMem ((Aix.create (lp64 false) al c 30).install fun _ => 0) (al.block + 16) [0, 13], ()⟩ al) 24 8 = _
    rw [hraw, word_lp64, word_lp64, load_splice_other (by decide)]

/-- The hypotheses of `C74_windows_partial` hold for a driver that refuses everything. -/
example (b : Bool) (h : Win32.Spt) (w : Win32.WinWorld Unit) :
    let k : Win32.PortDriver Unit := { ioctl := fun _ _ _ w => (.error .asiOs, w) }
    (∀ x w1, Win32.submitted b k h w = (.error x, w1) → x = .asiOs) ∧
    (∀ w1, Win32.submitted b k h w = (.ok (), w1) → word true (readMem w1.mem h.blockAddr h.block.length) 8 1 = word true h.block 8 1) :=
  ⟨by intro x w1 h; cases h; rfl, by intro w1 h; cases h⟩

end Verif.Errors
