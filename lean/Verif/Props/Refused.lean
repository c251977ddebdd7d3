import Verif.Spec.Refused
import Verif.Props.Aborted
/-!
# C108: calls of the operating system that fail
-/
set_option linter.unusedSimpArgs false
set_option linter.unusedSectionVars false

namespace Verif.Platform
open Verif.Executer Verif.Spec Verif.Spec.Refused

variable {Q K D E S δ ω : Type}

/-- The device when nothing fails. -/
def sound (dev : Served δ) : Device δ := fun k q =>
  match dev k q with
  | (.ok ans, k') => (ans, k')
  | (.error _, k') => (⟨0, [], []⟩, k')

/-- A call that comes to nothing: the caller is told, and the executer forgets it. -/
theorem call_refused (prepare : Nat → Py Q) (osSend : Q → ω → Py Unit × ω) (recv : St Q (Option K) → ω → Py (Outcome D E × Nat) × ω) (s : St Q (Option K)) (w : ω)
    (hs : s.pending = []) (hq : 0 < s.maxq) (q : Q) (hprep : prepare s.index = .ok q) (e : PyErr) (w1 : ω) (hsend : osSend q w = (.error e, w1)) :
    call prepare osSend recv s w = ⟨.error (.py e), [], { s with index := (s.index + 1) % s.maxq }, w1⟩ := by
  rw [call_idle _ _ _ s _ hs hq _ hprep, hsend]

/-- Only what is sent now matters. -/
theorem call_congr (prepare : Nat → Py Q) (osSend osSend' : Q → ω → Py Unit × ω) (recv : St Q (Option K) → ω → Py (Outcome D E × Nat) × ω) (s : St Q (Option K)) (w : ω)
    (hs : s.pending = []) (hq : 0 < s.maxq) (q : Q) (hprep : prepare s.index = .ok q) (hsend : osSend q w = osSend' q w) :
    call prepare osSend recv s w = call prepare osSend' recv s w := by
  rw [call_idle _ _ _ s _ hs hq _ hprep, call_idle _ _ _ s _ hs hq _ hprep, hsend]

/-! ## Linux -/

namespace Linux

/-- The sg driver, whose `write` can fail: then it tells of nothing to be read. -/
def sgServed (l : Bool) (dev : Served δ) : SgDriver (δ × Option Bytes) :=
  { write := fun raw w =>
      match sgView l raw w.mem with
      | none => (.error .ioError, w)
      | some req =>
        match (dev w.kernel.1 req).1 with
        | .error f => (.error .ioError, { mem := writeMem w.mem (word l raw 16 8) (f.data.take req.fromDevice), kernel := ((dev w.kernel.1 req).2, w.kernel.2) })
        | .ok _ => (sgDevice l (sound dev)).write raw w
    read := (sgDevice l (sound dev)).read }

theorem served_call (l : Bool) (parse : Bytes → Py (Option S)) (dev : Served δ) (alloc : Nat → Alloc) (t : Int) (c : Req)
    (s : St Handle (Option K)) (m : Mem) (k : δ) (old : Option Bytes) (hs : s.pending = []) (hq : 0 < s.maxq) (hidx : s.index < 2 ^ 31)
    (hcdb : c.cdb.length ≤ 255) (hd : dataSize c < 2 ^ 32) (ht : 0 ≤ t ∧ t < 2 ^ 32)
    (hsep : Separate 64 [((alloc s.index).block, 88), ((alloc s.index).sense, 255), ((alloc s.index).cmd, c.cdb.length), ((alloc s.index).data, dataSize c)])
    (hout : ∀ ans e, (dev k (asked c)).1 = .ok ans → outcome parse c ans ≠ .error (.py e)) :
    let r := sgCall l parse (sgServed l dev) alloc t c s { mem := m, kernel := (k, old) }
    r.out = heard .ioError (outcome parse) c (dev k (asked c)).1 ∧ r.os.kernel.1 = (dev k (asked c)).2 ∧ r.st = { s with index := (s.index + 1) % s.maxq } := by
  intro r
  obtain ⟨hv, -⟩ := C18_linux l (alloc s.index) s.index c t m hidx hcdb hd ht hsep
  have hr : r = call (prepare (lp64 l) alloc t c) (sgSend (sgServed l dev)) (sgReceive (lp64 l) parse (sgServed l dev)) s { mem := m, kernel := (k, old) } := rfl
  have hprep : prepare (lp64 l) alloc t c s.index = .ok _ := rfl
  cases hx : (dev k (asked c)).1 with
  | error f =>
    obtain ⟨w1, h1, h2⟩ : ∃ w1 : World (δ × Option Bytes), w1.kernel.1 = (dev k (asked c)).2 ∧
        sgSend (sgServed l dev) (create (lp64 l) (alloc s.index) s.index c t) { mem := m, kernel := (k, old) } = (.error .ioError, w1) := by
      simp only [sgSend, sgServed]
      rw [hv]
      simp only [hx]
      exact ⟨_, rfl, rfl⟩
    rw [call_refused _ _ _ s _ hs hq _ hprep .ioError _ h2] at hr
    rw [hr]
    exact ⟨rfl, h1, rfl⟩
  | ok ans =>
    have hr2 : r = sgCall l parse (sgDevice l (sound dev)) alloc t c s { mem := m, kernel := (k, old) } := by
      rw [hr]
      exact call_congr _ (sgSend (sgServed l dev)) (sgSend (sgDevice l (sound dev))) (sgReceive (lp64 l) parse (sgDevice l (sound dev))) s _ hs hq _ hprep (by
        simp only [sgSend, sgServed]
        rw [hv]
        simp only [hx])
    have hsound : sound dev k (asked c) = (ans, (dev k (asked c)).2) := by
      rw [sound, show dev k (asked c) = (.ok ans, (dev k (asked c)).2) from Prod.ext hx rfl]
    obtain ⟨r1, r2, r3⟩ := C52_linux l parse (sound dev) alloc t c s m k old hs hq hidx hcdb hd ht hsep
    rw [← hr2] at r1 r2 r3
    rw [hsound] at r1 r2
    exact ⟨r1, by rw [r2], r3 (fun e => by rw [r1]; exact hout ans e hx)⟩

end Linux

/-! ## Solaris -/

namespace Solaris

/-- The target driver, whose `ioctl` can fail. -/
def uscsiServed (l : Bool) (dev : Served δ) : TargetDriver δ :=
  { ioctl := fun code raw w =>
      if code ≠ 1225 then (.error .ioError, w) else
      match uscsiView l raw w.mem with
      | none => (.error .ioError, w)
      | some req =>
        match (dev w.kernel req).1 with
        | .error f => (.error .ioError, { mem := writeMem w.mem (word l raw 16 8) (f.data.take req.fromDevice), kernel := (dev w.kernel req).2 })
        | .ok _ => (uscsiDevice l (sound dev)).ioctl code raw w }

theorem served_call (l : Bool) (parse : Bytes → Py (Option S)) (dev : Served δ) (alloc : Nat → Alloc) (t : Int) (c : Req)
    (s : St Handle (Option K)) (m : Mem) (k : δ) (old : Option Bytes) (hs : s.pending = []) (hq : 0 < s.maxq) (h0 : s.index = 0)
    (hcdb : c.cdb.length ≤ 255) (hd : dataSize c < 2 ^ 64) (ht : 0 ≤ t ∧ t < 2 ^ 15) (hsep : Separate 64 (regions (alloc 0) c 64))
    (hout : ∀ ans e, (dev k (asked c)).1 = .ok ans → outcome parse c ans ≠ .error (.py e)) :
    let r := solCall l parse (uscsiServed l dev) alloc t c s { world := { mem := m, kernel := k }, buffer := old }
    r.out = heard .ioError (outcome parse) c (dev k (asked c)).1 ∧ r.os.world.kernel = (dev k (asked c)).2 ∧ r.st = { s with index := 1 % s.maxq } := by
  intro r
  obtain ⟨hv, -⟩ := C18_solaris l (alloc 0) c t m hcdb hd ht hsep
  have hr : r = call (prepare (lp64 l) alloc t c) (osSend (uscsiServed l dev)) (osReceive (lp64 l) parse) s { world := { mem := m, kernel := k }, buffer := old } := rfl
  have hprep : prepare (lp64 l) alloc t c s.index = .ok (create (lp64 l) (alloc 0) c t) := by rw [h0]; rfl
  cases hx : (dev k (asked c)).1 with
  | error f =>
    obtain ⟨w1, h1, h2⟩ : ∃ w1 : SolWorld δ, w1.world.kernel = (dev k (asked c)).2 ∧
        osSend (uscsiServed l dev) (create (lp64 l) (alloc 0) c t) { world := { mem := m, kernel := k }, buffer := old } = (.error .ioError, w1) := by
      simp only [osSend, uscsiServed]
      rw [if_neg (by decide), hv]
      simp only [hx]
      exact ⟨_, rfl, rfl⟩
    rw [call_refused _ _ _ s _ hs hq _ hprep .ioError _ h2] at hr
    rw [hr, h0]
    exact ⟨rfl, h1, rfl⟩
  | ok ans =>
    have hr2 : r = solCall l parse (uscsiDevice l (sound dev)) alloc t c s { world := { mem := m, kernel := k }, buffer := old } := by
      rw [hr]
      exact call_congr _ (osSend (uscsiServed l dev)) (osSend (uscsiDevice l (sound dev))) (osReceive (lp64 l) parse) s _ hs hq _ hprep (by
        simp only [osSend, uscsiServed]
        rw [if_neg (by decide), hv]
        simp only [hx])
    have hsound : sound dev k (asked c) = (ans, (dev k (asked c)).2) := by
      rw [sound, show dev k (asked c) = (.ok ans, (dev k (asked c)).2) from Prod.ext hx rfl]
    obtain ⟨r1, r2, r3⟩ := C53_solaris l parse (sound dev) alloc t c s m k old hs hq h0 hcdb hd ht hsep
    rw [← hr2] at r1 r2 r3
    rw [hsound] at r1 r2
    exact ⟨r1, by rw [r2], r3 (fun e => by rw [r1]; exact hout ans e hx)⟩

end Solaris

/-! ## AIX -/

namespace Aix

/-- The disk driver, whose `ioctl` can fail without the device having answered: then it puts the reason into `einval_arg` (zero if there is none to tell) and says that there is no valid status. -/
def scServed (dev : Served δ) : DiskDriver δ :=
  { ioctl := fun code addr w =>
      if code ≠ 23 then (true, w) else
      match scPassthruView (readMem w.mem addr 168) w.mem with
      | none => (true, { w with mem := writeMem w.mem (addr + 16) [0, 1] })
      | some req =>
        match (dev w.kernel req).1 with
        | .error f =>
          let m := writeMem w.mem (word false (readMem w.mem addr 168) 48 8) (f.data.take req.fromDevice)
          let m := writeMem m (addr + 16) [(f.reason.toNat / 256).toUInt8, (f.reason.toNat % 256).toUInt8]
          (true, { mem := writeMem m (addr + 2) [0, 0], kernel := (dev w.kernel req).2 })
        | .ok _ => (scDevice (sound dev)).ioctl code addr w }

theorem served_call (parse : Bytes → Py (Option S)) (dev : Served δ) (alloc : Nat → Alloc) (t : Int) (c : Req)
    (s : St Handle (Option K)) (m : Mem) (k : δ) (old : Option Bytes) (hs : s.pending = []) (hq : 0 < s.maxq) (h0 : s.index = 0)
    (hcdb : c.cdb.length ≤ 64) (hd : dataSize c < 2 ^ 64) (ht : 0 ≤ t ∧ t < 2 ^ 32) (hsep : Separate 64 (regions (alloc 0) c 168))
    (hp : Passes .fcntl (alloc 0).block) (hout : ∀ ans e, (dev k (asked c)).1 = .ok ans → outcome parse c ans ≠ .error (.py e)) :
    let r := aixCall parse .fcntl (scServed dev) alloc t c s { world := { mem := m, kernel := k }, buffer := old }
    r.out = heard .asiOs (outcome parse) c (dev k (asked c)).1 ∧ r.os.world.kernel = (dev k (asked c)).2 ∧ r.st = { s with index := 1 % s.maxq } := by
  intro r
  obtain ⟨hv, -⟩ := C18_aix (alloc 0) c t m hcdb hd ht hsep
  have hbu := create_built false (alloc 0) c t
  have hib := install_block (create (lp64 false) (alloc 0) c t) m
  rw [hbu.len, hbu.blockAddr] at hib
  have hr : r = call (prepare (lp64 false) alloc t c) (osSend (lp64 false) .fcntl (scServed dev)) (osReceive (lp64 false) parse) s { world := { mem := m, kernel := k }, buffer := old } := rfl
  have hprep : prepare (lp64 false) alloc t c s.index = .ok (create (lp64 false) (alloc 0) c t) := by rw [h0]; rfl
  cases hx : (dev k (asked c)).1 with
  | error f =>
    have hsend : ∃ w1, w1.world.kernel = (dev k (asked c)).2 ∧
        osSend (lp64 false) .fcntl (scServed dev) (create (lp64 false) (alloc 0) c t) { world := { mem := m, kernel := k }, buffer := old } = (.error .asiOs, w1) := by
      rw [osSend_eq _ _ _ _ _ _ _ hp]
      have hsub : ∃ m', submitted (scServed dev) alloc t c 0 { world := { mem := m, kernel := k }, buffer := old } =
          (true, { mem := writeMem m' ((alloc 0).block + 2) [0, 0], kernel := (dev k (asked c)).2 }) := by
        unfold submitted
        simp only [scServed]
        rw [if_neg (by decide), hib, hv]
        simp only [hx]
        exact ⟨_, rfl⟩
      obtain ⟨m', hm⟩ := hsub
      rw [hm]
      have hval : scValidity (blockAfter { mem := writeMem m' ((alloc 0).block + 2) [0, 0], kernel := (dev k (asked c)).2 } (alloc 0)) = 0 := by
        unfold blockAfter
        simp only
        rw [readMem_writeMem_inside _ _ 2 168 _ (by simp only [List.length_cons, List.length_nil]; omega)]
        exact (splice_status _ 0 0 (readMem_length _ _ _)).1
      exact ⟨_, rfl, if_pos ⟨rfl, rfl, .inr hval⟩⟩
    obtain ⟨w1, h1, h2⟩ := hsend
    rw [call_refused _ _ _ s _ hs hq _ hprep .asiOs _ h2] at hr
    rw [hr, h0]
    exact ⟨rfl, h1, rfl⟩
  | ok ans =>
    have hr2 : r = aixCall parse .fcntl (scDevice (sound dev)) alloc t c s { world := { mem := m, kernel := k }, buffer := old } := by
      rw [hr]
      exact call_congr _ (osSend (lp64 false) .fcntl (scServed dev)) (osSend (lp64 false) .fcntl (scDevice (sound dev))) (osReceive (lp64 false) parse) s _ hs hq _ hprep (by
        rw [osSend_eq _ _ _ _ _ _ _ hp, osSend_eq _ _ _ _ _ _ _ hp]
        have : submitted (scServed dev) alloc t c 0 { world := { mem := m, kernel := k }, buffer := old } =
            submitted (scDevice (sound dev)) alloc t c 0 { world := { mem := m, kernel := k }, buffer := old } := by
          unfold submitted
          simp only [scServed]
          rw [if_neg (by decide), hib, hv]
          simp only [hx]
        rw [this])
    have hsound : sound dev k (asked c) = (ans, (dev k (asked c)).2) := by
      rw [sound, show dev k (asked c) = (.ok ans, (dev k (asked c)).2) from Prod.ext hx rfl]
    obtain ⟨r1, r2, r3⟩ := C54_aix_partial parse .fcntl (sound dev) alloc t c s m k old hs hq h0 hcdb hd ht hsep hp
    rw [← hr2] at r1 r2 r3
    rw [hsound] at r1 r2
    exact ⟨r1, by rw [r2], r3 (fun e => by rw [r1]; exact hout ans e hx)⟩

theorem kernel_after (parse : Bytes → Py (Option S)) (b : Binding) (k : DiskDriver δ) (alloc : Nat → Alloc) (t : Int) (c : Req) (s : St Handle (Option K)) (w : AixWorld δ)
    (hs : s.pending = []) (hq : 0 < s.maxq) (h0 : s.index = 0) (hp : Passes b (alloc 0).block) :
    (aixCall parse b k alloc t c s w).os.world.kernel = (submitted k alloc t c 0 w).2.kernel := by
  have hprep : prepare (lp64 false) alloc t c s.index = .ok (create (lp64 false) (alloc 0) c t) := by rw [h0]; rfl
  unfold aixCall
  rw [call_idle _ _ _ s _ hs hq _ hprep, osSend_eq _ _ _ _ _ _ _ hp]
  by_cases hc : (submitted k alloc t c 0 w).1 = true ∧ b = .fcntl ∧
      (scEinval (blockAfter (submitted k alloc t c 0 w).2 (alloc 0)) ≠ 0 ∨ scValidity (blockAfter (submitted k alloc t c 0 w).2 (alloc 0)) = 0)
  · simp only [hc]
    simp
  · simp only [if_neg hc, osReceive]
    split
    · rename_i h; injection h with _ h; rw [← h]
    · rename_i h; injection h with _ h; rw [← h]; split <;> rfl

/-- With libc's `ioctl`, a failed call goes unnoticed: whoever sent data is told that all went well. -/
theorem unnoticed (parse : Bytes → Py (Option S)) (dev : Served δ) (alloc : Nat → Alloc) (t : Int) (cdb data : Bytes)
    (s : St Handle (Option K)) (m : Mem) (k : δ) (old : Option Bytes) (hs : s.pending = []) (hq : 0 < s.maxq) (h0 : s.index = 0)
    (hcdb : cdb.length ≤ 64) (hd : data.length < 2 ^ 64) (ht : 0 ≤ t ∧ t < 2 ^ 32) (hsep : Separate 64 (regions (alloc 0) (.write cdb data) 168))
    (f : Failure) (hx : (dev k (asked (.write cdb data))).1 = .error f) :
    let r := aixCall parse .libc (scServed dev) alloc t (.write cdb data) s { world := { mem := m, kernel := k }, buffer := old }
    r.out = .ok (some none) ∧ r.os.world.kernel = (dev k (asked (.write cdb data))).2 := by
  intro r
  have hp : Passes .libc (alloc 0).block := passes_libc _
  obtain ⟨hb1, hb2, hb3, hb4⟩ := regions_bits hsep
  obtain ⟨hv, -⟩ := C18_aix (alloc 0) (.write cdb data) t m hcdb hd ht hsep
  have hf := create_fields false (alloc 0) (.write cdb data) t (by simp only [Req.cdb]; omega) hd ht hb2 hb4
  have hbu := create_built false (alloc 0) (.write cdb data) t
  have hib := install_block (create (lp64 false) (alloc 0) (.write cdb data) t) m
  rw [hbu.len, hbu.blockAddr] at hib
  have hsub : submitted (scServed dev) alloc t (.write cdb data) 0 { world := { mem := m, kernel := k }, buffer := old } =
      (true, { mem := writeMem (writeMem ((create (lp64 false) (alloc 0) (.write cdb data) t).install m) ((alloc 0).block + 16)
          [(f.reason.toNat / 256).toUInt8, (f.reason.toNat % 256).toUInt8]) ((alloc 0).block + 2) [0, 0], kernel := (dev k (asked (.write cdb data))).2 }) := by
    unfold submitted
    simp only [scServed]
    rw [if_neg (by decide), hib, hv]
    simp only [hx]
    rw [show (asked (.write cdb data)).fromDevice = 0 from rfl, List.take_zero, writeMem_nil]
  have hraw : blockAfter (submitted (scServed dev) alloc t (.write cdb data) 0 { world := { mem := m, kernel := k }, buffer := old }).2 (alloc 0) =
      splice (splice (create (lp64 false) (alloc 0) (.write cdb data) t).block 16 [(f.reason.toNat / 256).toUInt8, (f.reason.toNat % 256).toUInt8]) 2 [0, 0] := by
    rw [hsub]
    unfold blockAfter
    simp only
    rw [readMem_writeMem_inside _ _ 2 168 _ (by simp only [List.length_cons, List.length_nil]; omega),
      readMem_writeMem_inside _ _ 16 168 _ (by simp only [List.length_cons, List.length_nil]; omega), hib]
  refine ⟨?_, ?_⟩
  · rw [hsub] at hraw
    have := C20_success parse .libc (scServed dev) alloc t (.write cdb data) s { world := { mem := m, kernel := k }, buffer := old } _ true hs hq h0 hsub (.inr rfl)
      (by rw [hraw]; exact (splice_status _ 0 0 (by rw [splice_length, hbu.len])).1)
      (by rw [hraw, word_lp64, word_lp64, load_splice_other (by decide), load_splice_other (by simp only [List.length_cons, List.length_nil]; omega)])
      (by rw [hraw, word_lp64, word_lp64, load_splice_other (by decide), load_splice_other (by simp only [List.length_cons, List.length_nil]; omega)])
      (by simp only [Req.cdb]; omega) hd ht ⟨hb2, hb4⟩ hp
    exact this
  · show (aixCall parse .libc (scServed dev) alloc t (.write cdb data) s { world := { mem := m, kernel := k }, buffer := old }).os.world.kernel = _
    rw [kernel_after parse .libc (scServed dev) alloc t _ s _ hs hq h0 hp, hsub]

end Aix

/-! ## Windows -/

namespace Win32

/-- The port driver, whose `DeviceIoControl` can fail. -/
def sptServed (b : Bool) (dev : Served δ) : PortDriver δ :=
  { ioctl := fun code addr size w =>
      if code ≠ 0x4D014 ∨ size ≠ (if b then 311 else 299) then (.error .asiOs, w) else
      let raw := readMem w.mem addr size
      match sptView (if b then 8 else 4) raw w.mem with
      | none => (.error .asiOs, w)
      | some req =>
        match (dev w.kernel req).1 with
        | .error f => (.error .asiOs, { mem := writeMem w.mem (word true raw (if b then 24 else 20) (if b then 8 else 4)) (f.data.take req.fromDevice), kernel := (dev w.kernel req).2 })
        | .ok _ => (sptDevice b (sound dev)).ioctl code addr size w }

theorem served_call (b : Bool) (parse : Bytes → Py (Option S)) (dev : Served δ) (alloc : Nat → Alloc) (c : Req)
    (s : St Spt (Option K)) (m : Mem) (k : δ) (inc : List Spt) (hs : s.pending = []) (hq : 0 < s.maxq)
    (hcdb : c.cdb.length ≤ 16) (hd : dataSize c < 2 ^ 32) (hsep : Separate (bits b) (winRegions b (alloc s.index) c))
    (hout : ∀ ans e, (dev k (asked c)).1 = .ok ans → winOutcome parse c ans ≠ .error (.py e)) :
    let r := winCall b parse (sptServed b dev) alloc c s { world := { mem := m, kernel := k }, incoming := inc }
    r.out = heard .asiOs (winOutcome parse) c (dev k (asked c)).1 ∧ r.os.world.kernel = (dev k (asked c)).2 ∧ r.st = { s with index := (s.index + 1) % s.maxq } := by
  intro r
  obtain ⟨ha, hx⟩ := win_apart hsep
  obtain ⟨h, hc, hb⟩ := create_built b (alloc s.index) s.index c hcdb hd hx
  obtain ⟨h', hc', -, hlen, hblk, hview, -⟩ := C18_windows b (alloc s.index) s.index c m hcdb hd hsep
  rw [hc] at hc'; cases hc'
  have hr : r = call (prepare (W b) alloc c) (osSend (W b) (sptServed b dev)) (osReceive (W b) parse) s { world := { mem := m, kernel := k }, incoming := inc } := rfl
  have hprep : prepare (W b) alloc c s.index = .ok h := hc
  have hsize : sptSize (W b) = if b then 311 else 299 := by cases b <;> decide +kernel
  have hba := hb.blockAddr
  cases hx : (dev k (asked c)).1 with
  | error f =>
    obtain ⟨w1, h1, h2⟩ : ∃ w1 : WinWorld δ, w1.world.kernel = (dev k (asked c)).2 ∧
        osSend (W b) (sptServed b dev) h { world := { mem := m, kernel := k }, incoming := inc } = (.error .asiOs, w1) := by
      simp only [osSend, sptServed]
      rw [hba, hsize, if_neg (fun h => h.elim (fun h => h (by unfold ioctlCode; rfl)) (fun h => h rfl)), hblk, hview]
      simp only [hx]
      exact ⟨_, rfl, rfl⟩
    rw [call_refused _ _ _ s _ hs hq _ hprep .asiOs _ h2] at hr
    rw [hr]
    exact ⟨rfl, h1, rfl⟩
  | ok ans =>
    have hr2 : r = winCall b parse (sptDevice b (sound dev)) alloc c s { world := { mem := m, kernel := k }, incoming := inc } := by
      rw [hr]
      exact call_congr _ (osSend (W b) (sptServed b dev)) (osSend (W b) (sptDevice b (sound dev))) (osReceive (W b) parse) s _ hs hq _ hprep (by
        simp only [osSend, sptServed]
        rw [hba, hsize, if_neg (fun h => h.elim (fun h => h (by unfold ioctlCode; rfl)) (fun h => h rfl)), hblk, hview]
        simp only [hx])
    have hsound : sound dev k (asked c) = (ans, (dev k (asked c)).2) := by
      rw [sound, show dev k (asked c) = (.ok ans, (dev k (asked c)).2) from Prod.ext hx rfl]
    obtain ⟨r1, r2, r3⟩ := C55_windows b parse (sound dev) alloc c s m k inc hs hq hcdb hd hsep
    rw [← hr2] at r1 r2 r3
    rw [hsound] at r1 r2
    exact ⟨r1, by rw [r2], r3 (fun e => by rw [r1]; exact hout ans e hx)⟩

end Win32

end Verif.Platform

namespace Verif.Commands.Clients.Refused

open Verif.Executer Verif.Coroutine Verif.ExecuterGen Verif.Platform Verif.Spec Verif.Spec.Cdb Verif.Sense Verif.Spec.Disk Verif.Spec.Refused
open Verif.Spec.Aborted (Again partly)
open Verif.Spec.Patient (patient)

variable {Q K D E S R Gp T ω δ σ A A' : Type}

/-! ## Sessions -/

/-- `call` on a platform: it asks the device once, tells the caller what became of the request, and ends at rest. -/
def Truthful (prepare : Req → Nat → Py Q) (osSend : Q → ω → Py Unit × ω) (recv : St Q (Option K) → ω → Py (Outcome D E × Nat) × ω)
    (dev : Served δ) (failed : PyErr) (out : Req → Answer → Except (Exn E) (Option D)) (ok : Req → Prop) (Inv : St Q (Option K) → ω → δ → Prop) : Prop :=
  ∀ c s o k, ok c → Inv s o k →
    let x := call (prepare c) osSend recv s o
    x.out = heard failed out c (dev k (asked c)).1 ∧ Inv x.st x.os (dev k (asked c)).2

theorem session [DecidableEq K] {P : Plat Gp Q K D E R T ω} {osSend : Q → ω → Py Unit × ω} {recv : St Q (Option K) → ω → Py (Outcome D E × Nat) × ω} (hP : Implements .actual P osSend recv)
    {prepare : Req → Nat → Py Q} {dev : Served δ} {failed : PyErr} {out : Req → Answer → Except (Exn E) (Option D)} {ok : Req → Prop} {Inv : St Q (Option K) → ω → δ → Prop}
    (hF : Truthful prepare osSend recv dev failed out ok Inv)
    (cmds : List (Command Req D R)) (hok : ∀ c ∈ cmds, ∀ q, c.request = .ok q → ok q) (w : W Q K D E ω) (k : δ) (hw : Inv w.st w.os k) :
    ∃ w', RunAll (machine P prepare) cmds w (askServed failed out dev cmds k).1 w' ∧ Inv w'.st w'.os (askServed failed out dev cmds k).2 := by
  induction cmds generalizing w k with
  | nil => exact ⟨w, .nil w, hw⟩
  | cons c cs ih =>
    have hcs : ∀ c ∈ cs, ∀ q, c.request = .ok q → ok q := fun c' hc' => hok c' (List.mem_cons_of_mem _ hc')
    cases hreq : c.request with
    | error e =>
      obtain ⟨w', h1, h2⟩ := ih hcs w k hw
      simp only [askServed, hreq]
      exact ⟨w', .cons (execute_error c prepare w hreq) h1, h2⟩
    | ok q =>
      obtain ⟨f, hf, h1, h2, h3, -⟩ := execute_ok hP c prepare w hreq
      obtain ⟨ho, hinv⟩ := hF q w.st w.os k (hok c (List.mem_cons_self ..) q hreq) hw
      rw [ho] at h1
      rw [← h2, ← h3] at hinv
      obtain ⟨w', h4, h5⟩ := ih hcs (world f) _ hinv
      simp only [askServed, hreq]
      refine ⟨w', ?_, h5⟩
      rw [← h1]
      exact .cons hf h4

theorem truthful_linux (l : Bool) (parse : Bytes → Py (Option S)) (dev : Served δ) (alloc : Nat → Alloc) (t : Int) (ht : 0 ≤ t ∧ t < 2 ^ 32)
    (hparse : ∀ k q ans, (dev k q).1 = .ok ans → ans.status.toNat / 2 % 2 = 1 → ∃ sn, parse (padded 255 ans.sense) = .ok sn) :
    Truthful (K := K) (Linux.prepare (lp64 l) alloc t) (Linux.sgSend (Linux.sgServed l dev)) (Linux.sgReceive (lp64 l) parse (Linux.sgServed l dev)) dev .ioError (Platform.outcome parse) (LinuxOk alloc) LinuxIdle := by
  rintro c s ⟨m, k', old⟩ k ⟨h1, h2, h3⟩ ⟨hs, hq, hmax, hidx, hk⟩
  simp only at hk
  subst hk
  obtain ⟨r1, r2, r3⟩ := Linux.served_call l parse dev alloc t c s m k' old hs hq (by omega) h1 h2 ht (h3 s.index) (fun ans e h => outcome_ne parse c ans (hparse _ _ ans h) e)
  simp only [Linux.sgCall] at r1 r2 r3
  exact ⟨r1, by rw [r3]; exact hs, by rw [r3]; exact hq, by rw [r3]; exact hmax, by rw [r3]; exact Nat.mod_lt _ hq, r2⟩

/-- **C108 on Linux** (sg executer). Any sequence of commands, each executed with `sync_wait(cmd.execute(executer))`, in front of any device, when any of the calls `write` can fail, after
any effect on the device and on the caller's buffer: the device gets exactly the requests that can be built, in order, each once and as asked; a caller whose call failed gets `OSError`,
every other caller what the device answered to its own command; the executer ends idle. (As for C51, sense data that cannot be decoded is excluded.) -/
theorem C108_linux [DecidableEq K] (l : Bool) (parse : Bytes → Py (Option S)) (dev : Served δ) (alloc : Nat → Alloc) (t : Int) (ht : 0 ≤ t ∧ t < 2 ^ 32)
    (hparse : ∀ k q ans, (dev k q).1 = .ok ans → ans.status.toNat / 2 % 2 = 1 → ∃ sn, parse (padded 255 ans.sense) = .ok sn)
    (cmds : List (Command Req (Option Bytes) R)) (hok : ∀ c ∈ cmds, ∀ q, c.request = .ok q → LinuxOk alloc q)
    (w : W Handle K (Option Bytes) (DevErr S) (World (δ × Option Bytes))) (k : δ) (hw : LinuxIdle w.st w.os k) :
    ∃ w', RunAll (machine (T := T) (Linux.sgBlocking (lp64 l) parse (Linux.sgServed l dev)).plat (Linux.prepare (lp64 l) alloc t)) cmds w (askServed .ioError (Platform.outcome parse) dev cmds k).1 w' ∧
      LinuxIdle w'.st w'.os (askServed .ioError (Platform.outcome parse) dev cmds k).2 := by
  have hP := (Linux.sgBlocking (K := K) (lp64 l) parse (Linux.sgServed l dev)).implements (R := R) (T := T) .actual
  rw [Linux.sgBlocking_send, Linux.sgBlocking_receive] at hP
  exact session hP (truthful_linux l parse dev alloc t ht hparse) cmds hok w k hw

theorem truthful_solaris (l : Bool) (parse : Bytes → Py (Option S)) (dev : Served δ) (alloc : Nat → Alloc) (t : Int) (ht : 0 ≤ t ∧ t < 2 ^ 15)
    (hparse : ∀ k q ans, (dev k q).1 = .ok ans → ans.status.toNat / 2 % 2 = 1 → ∃ sn, parse (padded 255 ans.sense) = .ok sn) :
    Truthful (K := K) (Solaris.prepare (lp64 l) alloc t) (Solaris.osSend (Solaris.uscsiServed l dev)) (Solaris.osReceive (lp64 l) parse) dev .ioError (Platform.outcome parse) (SolarisOk alloc) SolarisIdle := by
  rintro c s ⟨⟨m, k'⟩, old⟩ k ⟨h1, h2, h3⟩ ⟨hs, hq, hidx, hk⟩
  simp only at hk
  subst hk
  obtain ⟨r1, r2, r3⟩ := Solaris.served_call l parse dev alloc t c s m k' old hs (by omega) hidx h1 h2 ht h3 (fun ans e h => outcome_ne parse c ans (hparse _ _ ans h) e)
  simp only [Solaris.solCall] at r1 r2 r3
  exact ⟨r1, by rw [r3]; exact hs, by rw [r3]; exact hq, by rw [r3, hq], r2⟩

/-- **C108 on Solaris.** -/
theorem C108_solaris [DecidableEq K] (l : Bool) (parse : Bytes → Py (Option S)) (dev : Served δ) (alloc : Nat → Alloc) (t : Int) (ht : 0 ≤ t ∧ t < 2 ^ 15)
    (hparse : ∀ k q ans, (dev k q).1 = .ok ans → ans.status.toNat / 2 % 2 = 1 → ∃ sn, parse (padded 255 ans.sense) = .ok sn)
    (cmds : List (Command Req (Option Bytes) R)) (hok : ∀ c ∈ cmds, ∀ q, c.request = .ok q → SolarisOk alloc q)
    (w : W Handle K (Option Bytes) (DevErr S) (Solaris.SolWorld δ)) (k : δ) (hw : SolarisIdle w.st w.os k) :
    ∃ w', RunAll (machine (T := T) (Solaris.solBlocking (lp64 l) parse (Solaris.uscsiServed l dev)).plat (Solaris.prepare (lp64 l) alloc t)) cmds w (askServed .ioError (Platform.outcome parse) dev cmds k).1 w' ∧
      SolarisIdle w'.st w'.os (askServed .ioError (Platform.outcome parse) dev cmds k).2 := by
  have hP := (Solaris.solBlocking (K := K) (lp64 l) parse (Solaris.uscsiServed l dev)).implements (R := R) (T := T) .actual
  rw [Solaris.solBlocking_send, Solaris.solBlocking_receive] at hP
  exact session hP (truthful_solaris l parse dev alloc t ht hparse) cmds hok w k hw

theorem truthful_aix (parse : Bytes → Py (Option S)) (dev : Served δ) (alloc : Nat → Alloc) (t : Int) (ht : 0 ≤ t ∧ t < 2 ^ 32)
    (hparse : ∀ k q ans, (dev k q).1 = .ok ans → ans.status.toNat / 2 % 2 = 1 → ∃ sn, parse (padded 255 ans.sense) = .ok sn) :
    Truthful (K := K) (Aix.prepare (lp64 false) alloc t) (Aix.osSend (lp64 false) .fcntl (Aix.scServed dev)) (Aix.osReceive (lp64 false) parse) dev .asiOs (Platform.outcome parse) (AixOk .fcntl alloc) AixIdle := by
  rintro c s ⟨⟨m, k'⟩, old⟩ k ⟨h1, h2, h3, h4⟩ ⟨hs, hq, hidx, hk⟩
  simp only at hk
  subst hk
  obtain ⟨r1, r2, r3⟩ := Aix.served_call parse dev alloc t c s m k' old hs (by omega) hidx h1 h2 ht h3 h4 (fun ans e h => outcome_ne parse c ans (hparse _ _ ans h) e)
  simp only [Aix.aixCall] at r1 r2 r3
  exact ⟨r1, by rw [r3]; exact hs, by rw [r3]; exact hq, by rw [r3, hq], r2⟩

/-- **C108 on AIX**, with the `fcntl` binding only (see `C108_aix_false`); what is raised is `AsiOSError`. -/
theorem C108_aix_partial [DecidableEq K] (parse : Bytes → Py (Option S)) (dev : Served δ) (alloc : Nat → Alloc) (t : Int) (ht : 0 ≤ t ∧ t < 2 ^ 32)
    (hparse : ∀ k q ans, (dev k q).1 = .ok ans → ans.status.toNat / 2 % 2 = 1 → ∃ sn, parse (padded 255 ans.sense) = .ok sn)
    (cmds : List (Command Req (Option Bytes) R)) (hok : ∀ c ∈ cmds, ∀ q, c.request = .ok q → AixOk .fcntl alloc q)
    (w : W Handle K (Option Bytes) (DevErr S) (Aix.AixWorld δ)) (k : δ) (hw : AixIdle w.st w.os k) :
    ∃ w', RunAll (machine (T := T) (Aix.aixBlocking (lp64 false) parse .fcntl (Aix.scServed dev)).plat (Aix.prepare (lp64 false) alloc t)) cmds w (askServed .asiOs (Platform.outcome parse) dev cmds k).1 w' ∧
      AixIdle w'.st w'.os (askServed .asiOs (Platform.outcome parse) dev cmds k).2 := by
  have hP := (Aix.aixBlocking (K := K) (lp64 false) parse .fcntl (Aix.scServed dev)).implements (R := R) (T := T) .actual
  rw [Aix.aixBlocking_send, Aix.aixBlocking_receive] at hP
  exact session hP (truthful_aix parse dev alloc t ht hparse) cmds hok w k hw

theorem truthful_windows (b : Bool) (parse : Bytes → Py (Option S)) (dev : Served δ) (alloc : Nat → Alloc)
    (hparse : ∀ k q ans, (dev k q).1 = .ok ans → ans.status = 2 → ∃ sn, parse (padded 255 ans.sense) = .ok sn) :
    Truthful (K := K) (Win32.prepare (Win32.W b) alloc) (Win32.osSend (Win32.W b) (Win32.sptServed b dev)) (Win32.osReceive (Win32.W b) parse) dev .asiOs (Win32.winOutcome parse) (WindowsOk b alloc) WindowsIdle := by
  rintro c s ⟨⟨m, k'⟩, inc⟩ k ⟨h1, h2, h3⟩ ⟨hs, hq, hk⟩
  simp only at hk
  subst hk
  obtain ⟨r1, r2, r3⟩ := Win32.served_call b parse dev alloc c s m k' inc hs hq h1 h2 (h3 s.index) (fun ans e h => winOutcome_ne parse c ans (hparse _ _ ans h) e)
  simp only [Win32.winCall] at r1 r2 r3
  exact ⟨r1, by rw [r3]; exact hs, by rw [r3]; exact hq, r2⟩

/-- **C108 on Windows**; what is raised is `AsiOSError`. -/
theorem C108_windows [DecidableEq K] (b : Bool) (parse : Bytes → Py (Option S)) (dev : Served δ) (alloc : Nat → Alloc)
    (hparse : ∀ k q ans, (dev k q).1 = .ok ans → ans.status = 2 → ∃ sn, parse (padded 255 ans.sense) = .ok sn)
    (cmds : List (Command Req (Option Bytes) R)) (hok : ∀ c ∈ cmds, ∀ q, c.request = .ok q → WindowsOk b alloc q)
    (w : W Win32.Spt K (Option Bytes) (DevErr S) (Win32.WinWorld δ)) (k : δ) (hw : WindowsIdle w.st w.os k) :
    ∃ w', RunAll (machine (T := T) (Win32.winPlat (Win32.W b) parse (Win32.sptServed b dev)) (Win32.prepare (Win32.W b) alloc)) cmds w (askServed .asiOs (Win32.winOutcome parse) dev cmds k).1 w' ∧
      WindowsIdle w'.st w'.os (askServed .asiOs (Win32.winOutcome parse) dev cmds k).2 := by
  have hP := Win32.winPlat_implements (K := K) (R := R) (T := T) (Win32.W b) parse (Win32.sptServed b dev) .actual
  exact session hP (truthful_windows b parse dev alloc hparse) cmds hok w k hw

/-! ## Programs -/

/-- Giving a command to the device. -/
def DirectServed (failed : PyErr) (out : Req → Answer → Except (Exn E) (Option D)) (dev : Served δ) (c : Command Req D R) (k : δ) (r : Except (Exn E) (Option (Val D E R))) (k' : δ) : Prop :=
  askServed failed out dev [c] k = ([r], k')

theorem served_unique {failed : PyErr} {out : Req → Answer → Except (Exn E) (Option D)} {dev : Served δ} (c : Command Req D R) (k : δ) (r k' r₁ k₁) (h : DirectServed failed out dev c k r k')
    (h' : DirectServed failed out dev c k r₁ k₁) : r = r₁ ∧ k' = k₁ := by
  rw [DirectServed] at h h'
  rw [h] at h'
  injection h' with h1 h2
  exact ⟨(List.cons.inj h1).1, h2⟩

/-- A platform that carries one command at a time. -/
def Carries (M : Machine (Frame Req Q K D R Gp) (W Q K D E ω) (Val D E R) (Exn E) T) (failed : PyErr) (out : Req → Answer → Except (Exn E) (Option D)) (dev : Served δ)
    (fits : Req → Prop) (idle : W Q K D E ω → δ → Prop) : Prop :=
  ∀ (c : Command Req D R) w k, (∀ q, c.request = .ok q → fits q) → idle w k →
    ∃ w', RunAll M [c] w (askServed failed out dev [c] k).1 w' ∧ idle w' (askServed failed out dev [c] k).2

/-- Using the library is using the device by the operating system. -/
theorem same_served [DecidableEq K] {M : Machine (Frame Req Q K D R Gp) (W Q K D E ω) (Val D E R) (Exn E) T} {dev : Served δ} {failed : PyErr} {out : Req → Answer → Except (Exn E) (Option D)}
    {fits : Req → Prop} {idle : W Q K D E ω → δ → Prop} {p : Client σ (Command Req D R) (Except (Exn E) (Option (Val D E R))) A} {ok : σ → Prop}
    (hS : Carries M failed out dev fits idle) (hok : ∀ s, ok s → ∀ q, (p.ask s).request = .ok q → fits q) (s : σ) (w : W Q K D E ω) (k : δ) (hw : idle w k) (a : A) (n : Nat) :
    (∀ k', p.Runs ok (DirectServed failed out dev) s k a k' n → ∃ w', p.Runs ok (Through M) s w a w' n ∧ idle w' k') ∧
    (∀ w', p.Runs ok (Through M) s w a w' n → ∃ k', p.Runs ok (DirectServed failed out dev) s k a k' n ∧ idle w' k') := by
  constructor
  · intro k' h
    exact runs_sim (exec₂ := Through M) (rel := fun (k : δ) (w : W Q K D E ω) => idle w k)
      (fun s ho k w r k' hw he => by
        obtain ⟨w', h1, h2⟩ := hS (p.ask s) w k (hok s ho) hw
        rw [DirectServed] at he
        rw [he] at h1 h2
        exact ⟨w', h1, h2⟩) h w hw
  · intro w' h
    exact runs_sim (exec₂ := DirectServed failed out dev) (rel := fun (w : W Q K D E ω) (k : δ) => idle w k)
      (fun s ho w k r w' hw he => by
        obtain ⟨w₁, h1, h2⟩ := hS (p.ask s) w k (hok s ho) hw
        obtain ⟨e1, e2⟩ := runAll_unique he h1
        exact ⟨_, Prod.ext e1 rfl, by rw [← e2]; exact h2⟩) h k hw

/-- In the manner of

    except OSError:
        continue

(`AsiOSError` on AIX and Windows). -/
def isFailure (failed : PyErr) : Seen → Bool
  | .error (.py e) => e == failed
  | _ => false

theorem shown_none {failed : PyErr} {r : Seen} {reply : Reply} (h : Shows r reply) : isFailure failed r = false := by
  cases reply with
  | failed => obtain ⟨_, _, rfl, -⟩ := h; rfl
  | capacity => obtain ⟨_, rfl, -⟩ := h; rfl
  | ready => rw [show r = _ from h]; rfl
  | data => rw [show r = _ from h]; rfl
  | done => rw [show r = _ from h]; rfl

section direct

variable (L : Lib) (B : Parse.BufLib) (other : Bytes → Py (List (String × Int))) {g : Geometry} (hg : Valid g) {failed : PyErr}
  {out : Req → Answer → Except (Exn (DevErr Sense)) (Option (Option Bytes))} (hD : Delivers out)
include hg hD

/-- One command. -/
theorem unreliable_direct {c : Cmd} {op : Op} (h : Asks g c op) (s : State) :
    (s.faults.headD none = none ∧ ∃ r : Seen, DirectServed failed out (unreliable g) (c.command L B other) s r ⟨(op.run g s.contents).2, s.faults.tail⟩ ∧ Shows r (op.run g s.contents).1) ∨
    ∃ f, s.faults = some f :: s.faults.tail ∧
      ∃ r : Seen, DirectServed failed out (unreliable g) (c.command L B other) s r ⟨partly g f.which s.contents (op.run g s.contents).2, s.faults.tail⟩ ∧ isFailure failed r = true := by
  obtain ⟨q, hq, hm, hs⟩ := step L B other s.contents hg hD h
  cases hf : s.faults.headD none with
  | none =>
    refine .inl ⟨rfl, _, ?_, hs⟩
    simp only [DirectServed, askServed, hq, unreliable, hf, heard, hm]
  | some f =>
    have hcons : s.faults = some f :: s.faults.tail := by
      cases h : s.faults with
      | nil => rw [h] at hf; cases hf
      | cons a as => rw [h] at hf; rw [show a = some f from hf]; rfl
    refine .inr ⟨f, hcons, .error (.py failed), ?_, by simp [isFailure]⟩
    simp only [DirectServed, askServed, hq, unreliable, hf, heard, hm]
    rfl

/-- The attempts at one command. -/
theorem attempts {p : Client σ Cmd Seen A} {ok : σ → Prop} {s : σ} (ho : ok s) {op : Op} (hask : Asks g (p.ask s) op) (ha : Again op) : ∀ (fs : List (Option Fault)) (m : Contents),
    ∃ (fs' : List (Option Fault)) (j : Nat) (r : Seen), fs' = fs.drop (j + 1) ∧ ahead fs = j + ahead fs' ∧ Shows r (op.run g m).1 ∧
      (∀ a, p.next s r = .inr a → (on L B other (patient (isFailure failed) p)).Runs ok (DirectServed failed out (unreliable g)) s ⟨m, fs⟩ a ⟨(op.run g m).2, fs'⟩ (j + 1)) ∧
      ∀ s' a k n, p.next s r = .inl s' → (on L B other (patient (isFailure failed) p)).Runs ok (DirectServed failed out (unreliable g)) s' ⟨(op.run g m).2, fs'⟩ a k n →
        (on L B other (patient (isFailure failed) p)).Runs ok (DirectServed failed out (unreliable g)) s ⟨m, fs⟩ a k (n + j + 1) := by
  intro fs
  induction fs with
  | nil =>
    intro m
    rcases unreliable_direct L B other hg hD (failed := failed) hask ⟨m, []⟩ with ⟨-, r, h1, h2⟩ | ⟨f, h, -⟩
    · refine ⟨[], 0, r, rfl, rfl, h2, fun a h => .done ho h1 ?_, fun s' a k n h h' => .more ho h1 ?_ h'⟩ <;>
      · show (if isFailure failed r then _ else _) = _
        rw [shown_none h2]
        exact h
    · cases h
  | cons x fs ih =>
    intro m
    rcases unreliable_direct L B other hg hD (failed := failed) hask ⟨m, x :: fs⟩ with ⟨hx, r, h1, h2⟩ | ⟨f, hx, r, h1, h2⟩
    · rw [show x = none from hx]
      rw [show x = none from hx] at h1
      refine ⟨fs, 0, r, rfl, by simp [ahead], h2, fun a h => .done ho h1 ?_, fun s' a k n h h' => .more ho h1 ?_ h'⟩ <;>
      · show (if isFailure failed r then _ else _) = _
        rw [shown_none h2]
        exact h
    · rw [show x = some f from (List.cons.inj hx).1]
      rw [show x = some f from (List.cons.inj hx).1] at h1
      obtain ⟨fs', j, r', hdrop, h3, h4, h5, h6⟩ := ih (partly g f.which m (op.run g m).2)
      rw [Aborted.run_again g f.which m ha] at h4 h5 h6
      have hnext : (on L B other (patient (isFailure failed) p)).next s r = .inl s := by
        show (if isFailure failed r then _ else _) = _
        rw [h2]; rfl
      refine ⟨fs', j + 1, r', hdrop, ?_, h4, fun a h => .more ho h1 hnext (h5 a h), fun s' a k n h h' => .more ho h1 hnext (h6 s' a k n h h')⟩
      rw [show ahead (some f :: fs) = ahead fs + 1 from by simp [ahead], h3]
      omega

theorem repeated_direct {p : Client σ Cmd Seen A} {q : Client σ Op Reply A'} {ok : σ → Prop} {Rel : A → A' → Prop} (hask : ∀ s, ok s → Asks g (p.ask s) (q.ask s))
    (hagain : ∀ s, ok s → Again (q.ask s)) (hnext : ∀ s r reply, ok s → Shows r reply → Along Rel (p.next s r) (q.next s reply)) {s : σ} {m m' : Contents} {a' : A'} {n : Nat}
    (h : q.Runs ok (OnArray g) s m a' m' n) : ∀ fs : List (Option Fault), ∃ a fs' j, Rel a a' ∧ fs' = fs.drop (n + j) ∧ ahead fs = j + ahead fs' ∧
      (on L B other (patient (isFailure failed) p)).Runs ok (DirectServed failed out (unreliable g)) s ⟨m, fs⟩ a ⟨m', fs'⟩ (n + j) := by
  induction h with
  | @done s m reply m' a' ho hd hn =>
    intro fs
    obtain ⟨fs', j, r, h0, h1, h2, h3, -⟩ := attempts L B other hg hD (failed := failed) (p := p) ho (hask s ho) (hagain s ho) fs m
    rw [OnArray] at hd
    rw [hd] at h2 h3
    have h5 := hnext s r reply ho h2
    rw [hn] at h5
    cases hp : p.next s r with
    | inl s' => rw [hp] at h5; exact h5.elim
    | inr a => rw [hp] at h5; exact ⟨a, fs', j, h5, by rw [Nat.add_comm]; exact h0, h1, by rw [Nat.add_comm]; exact h3 a hp⟩
  | @more s m reply m' s' a' m'' n ho hd hn _ ih =>
    intro fs
    obtain ⟨fs', j, r, h0, h1, h2, -, h3⟩ := attempts L B other hg hD (failed := failed) (p := p) ho (hask s ho) (hagain s ho) fs m
    rw [OnArray] at hd
    rw [hd] at h2 h3
    have h5 := hnext s r reply ho h2
    rw [hn] at h5
    cases hp : p.next s r with
    | inl s1 =>
      rw [hp] at h5
      obtain ⟨a, fs'', i, h6, h9, h7, h8⟩ := ih fs'
      refine ⟨a, fs'', i + j, h6, ?_, by omega, ?_⟩
      · rw [h9, h0, List.drop_drop]
        exact congrArg (fs.drop ·) (by omega)
      rw [← show s1 = s' from h5] at h8
      have := h3 s1 a _ (n + i) hp h8
      rw [show n + 1 + (i + j) = n + i + j + 1 by omega]
      exact this
    | inr a => rw [hp] at h5; exact h5.elim

end direct


/-- Programs that repeat what failed. -/
theorem programs [DecidableEq K] (L : Lib) (B : Parse.BufLib) (other : Bytes → Py (List (String × Int))) {g : Geometry} (hg : Valid g) {failed : PyErr}
    {out : Req → Answer → Except (Exn (DevErr Sense)) (Option (Option Bytes))} (hD : Delivers out)
    {M : Machine (Frame Req Q K (Option Bytes) Result Gp) (W Q K (Option Bytes) (DevErr Sense) ω) (Val (Option Bytes) (DevErr Sense) Result) (Exn (DevErr Sense)) T}
    {fits : Req → Prop} {idle : W Q K (Option Bytes) (DevErr Sense) ω → State → Prop} (hS : Carries M failed out (unreliable g) fits idle)
    {p : Client σ Cmd Seen A} {q : Client σ Op Reply A'} {ok : σ → Prop} {Rel : A → A' → Prop}
    (hask : ∀ s, ok s → Asks g (p.ask s) (q.ask s)) (hagain : ∀ s, ok s → Again (q.ask s)) (hfit : ∀ s, ok s → ∀ r, Cdb.request L (p.ask s).cdb = .ok r → fits r)
    (hnext : ∀ s r reply, ok s → Shows r reply → Along Rel (p.next s r) (q.next s reply))
    (w : W Q K (Option Bytes) (DevErr Sense) ω) (m m' : Contents) (fs : List (Option Fault)) (hw : idle w ⟨m, fs⟩) (s : σ) (a' : A') (n : Nat) (h : q.Runs ok (OnArray g) s m a' m' n) :
    let Runs := fun a w' N => (on L B other (patient (isFailure failed) p)).Runs ok (Through M) s w a w' N
    (∃ a w' N, Runs a w' N) ∧ ∀ a w' N, Runs a w' N → Rel a a' ∧ idle w' ⟨m', fs.drop N⟩ ∧ N + ahead (fs.drop N) = n + ahead fs := by
  obtain ⟨a, _, j, h1, rfl, h2, h3⟩ := repeated_direct L B other hg hD (failed := failed) hask hagain hnext h fs
  have same := fun a N => same_served hS (p := on L B other (patient (isFailure failed) p)) (ok := ok) hfit s w ⟨m, fs⟩ hw a N
  obtain ⟨w', h4, -⟩ := (same a (n + j)).1 ⟨m', fs.drop (n + j)⟩ h3
  refine ⟨⟨a, w', n + j, h4⟩, fun a₁ w₁ N₁ h => ?_⟩
  obtain ⟨k₁, h5, h6⟩ := (same a₁ N₁).2 w₁ h
  obtain ⟨rfl, rfl, rfl⟩ := runs_unique served_unique h3 h5
  exact ⟨h1, h6, by omega⟩

theorem unreliable_parses (g : Geometry) (k : State) (q : OsRequest) (ans : Answer) (h : (unreliable g k q).1 = .ok ans) (h0 : ans.status ≠ 0) :
    ∃ sn, getSense (padded 255 ans.sense) = .ok sn := by
  simp only [unreliable] at h
  cases hf : k.faults.headD none with
  | none =>
    rw [hf] at h
    injection h with h
    rw [← h] at h0 ⊢
    exact disk_parses g k.contents q h0
  | some f => rw [hf] at h; cases h

/-- **C108, programs on Linux.** `q` is a program on an array of bytes that does not use COMPARE AND WRITE; `p` is the same program with command objects of the library, and gives each
again while it ends with `OSError`. Whichever calls fail, and however far the commands came: when `q` ends, `p` ends, in one way only, with the same result, leaving the same
contents; it executed as many commands more as failed. -/
theorem C108_linux_programs [DecidableEq K] (l : Bool) (alloc : Nat → Alloc) (t : Int) (ht : 0 ≤ t ∧ t < 2 ^ 32) (L : Lib) (B : Parse.BufLib) (other : Bytes → Py (List (String × Int)))
    (g : Geometry) (hg : Valid g) (p : Client σ Cmd Seen A) (q : Client σ Op Reply A') (ok : σ → Prop) (Rel : A → A' → Prop)
    (hask : ∀ s, ok s → Asks g (p.ask s) (q.ask s)) (hagain : ∀ s, ok s → Again (q.ask s)) (hfit : ∀ s, ok s → ∀ r, Cdb.request L (p.ask s).cdb = .ok r → LinuxOk alloc r)
    (hnext : ∀ s r reply, ok s → Shows r reply → Along Rel (p.next s r) (q.next s reply))
    (w : W Handle K (Option Bytes) (DevErr Sense) (World (State × Option Bytes))) (m m' : Contents) (fs : List (Option Fault)) (hw : LinuxIdle w.st w.os ⟨m, fs⟩) (s : σ) (a' : A') (n : Nat)
    (h : q.Runs ok (OnArray g) s m a' m' n) :
    let Runs := fun a w' N => (on L B other (patient (isFailure .ioError) p)).Runs ok (Through (machine (T := T) (Linux.sgBlocking (lp64 l) getSense (Linux.sgServed l (unreliable g))).plat (Linux.prepare (lp64 l) alloc t))) s w a w' N
    (∃ a w' N, Runs a w' N) ∧ ∀ a w' N, Runs a w' N → Rel a a' ∧ LinuxIdle w'.st w'.os ⟨m', fs.drop N⟩ ∧ N + ahead (fs.drop N) = n + ahead fs :=
  programs L B other hg outcome_delivers (idle := fun w k => LinuxIdle w.st w.os k)
    (fun c w k hc hw => C108_linux (T := T) l getSense (unreliable g) alloc t ht (fun k q ans h h' => unreliable_parses g k q ans h (by intro h0; rw [h0] at h'; simp at h')) [c] (fun c' h => by rw [List.mem_singleton.1 h]; exact hc) w k hw)
    hask hagain hfit hnext w m m' fs hw s a' n h

/-- **C108, programs on Solaris.** -/
theorem C108_solaris_programs [DecidableEq K] (l : Bool) (alloc : Nat → Alloc) (t : Int) (ht : 0 ≤ t ∧ t < 2 ^ 15) (L : Lib) (B : Parse.BufLib) (other : Bytes → Py (List (String × Int)))
    (g : Geometry) (hg : Valid g) (p : Client σ Cmd Seen A) (q : Client σ Op Reply A') (ok : σ → Prop) (Rel : A → A' → Prop)
    (hask : ∀ s, ok s → Asks g (p.ask s) (q.ask s)) (hagain : ∀ s, ok s → Again (q.ask s)) (hfit : ∀ s, ok s → ∀ r, Cdb.request L (p.ask s).cdb = .ok r → SolarisOk alloc r)
    (hnext : ∀ s r reply, ok s → Shows r reply → Along Rel (p.next s r) (q.next s reply))
    (w : W Handle K (Option Bytes) (DevErr Sense) (Solaris.SolWorld State)) (m m' : Contents) (fs : List (Option Fault)) (hw : SolarisIdle w.st w.os ⟨m, fs⟩) (s : σ) (a' : A') (n : Nat)
    (h : q.Runs ok (OnArray g) s m a' m' n) :
    let Runs := fun a w' N => (on L B other (patient (isFailure .ioError) p)).Runs ok (Through (machine (T := T) (Solaris.solBlocking (lp64 l) getSense (Solaris.uscsiServed l (unreliable g))).plat (Solaris.prepare (lp64 l) alloc t))) s w a w' N
    (∃ a w' N, Runs a w' N) ∧ ∀ a w' N, Runs a w' N → Rel a a' ∧ SolarisIdle w'.st w'.os ⟨m', fs.drop N⟩ ∧ N + ahead (fs.drop N) = n + ahead fs :=
  programs L B other hg outcome_delivers (idle := fun w k => SolarisIdle w.st w.os k)
    (fun c w k hc hw => C108_solaris (T := T) l getSense (unreliable g) alloc t ht (fun k q ans h h' => unreliable_parses g k q ans h (by intro h0; rw [h0] at h'; simp at h')) [c] (fun c' h => by rw [List.mem_singleton.1 h]; exact hc) w k hw)
    hask hagain hfit hnext w m m' fs hw s a' n h

/-- **C108, programs on AIX**, with the `fcntl` binding only. -/
theorem C108_aix_programs_partial [DecidableEq K] (alloc : Nat → Alloc) (t : Int) (ht : 0 ≤ t ∧ t < 2 ^ 32) (L : Lib) (B : Parse.BufLib) (other : Bytes → Py (List (String × Int)))
    (g : Geometry) (hg : Valid g) (p : Client σ Cmd Seen A) (q : Client σ Op Reply A') (ok : σ → Prop) (Rel : A → A' → Prop)
    (hask : ∀ s, ok s → Asks g (p.ask s) (q.ask s)) (hagain : ∀ s, ok s → Again (q.ask s)) (hfit : ∀ s, ok s → ∀ r, Cdb.request L (p.ask s).cdb = .ok r → AixOk .fcntl alloc r)
    (hnext : ∀ s r reply, ok s → Shows r reply → Along Rel (p.next s r) (q.next s reply))
    (w : W Handle K (Option Bytes) (DevErr Sense) (Aix.AixWorld State)) (m m' : Contents) (fs : List (Option Fault)) (hw : AixIdle w.st w.os ⟨m, fs⟩) (s : σ) (a' : A') (n : Nat)
    (h : q.Runs ok (OnArray g) s m a' m' n) :
    let Runs := fun a w' N => (on L B other (patient (isFailure .asiOs) p)).Runs ok (Through (machine (T := T) (Aix.aixBlocking (lp64 false) getSense .fcntl (Aix.scServed (unreliable g))).plat (Aix.prepare (lp64 false) alloc t))) s w a w' N
    (∃ a w' N, Runs a w' N) ∧ ∀ a w' N, Runs a w' N → Rel a a' ∧ AixIdle w'.st w'.os ⟨m', fs.drop N⟩ ∧ N + ahead (fs.drop N) = n + ahead fs :=
  programs L B other hg outcome_delivers (idle := fun w k => AixIdle w.st w.os k)
    (fun c w k hc hw => C108_aix_partial (T := T) getSense (unreliable g) alloc t ht (fun k q ans h h' => unreliable_parses g k q ans h (by intro h0; rw [h0] at h'; simp at h')) [c] (fun c' h => by rw [List.mem_singleton.1 h]; exact hc) w k hw)
    hask hagain hfit hnext w m m' fs hw s a' n h

/-- **C108, programs on Windows.** -/
theorem C108_windows_programs [DecidableEq K] (b : Bool) (alloc : Nat → Alloc) (L : Lib) (B : Parse.BufLib) (other : Bytes → Py (List (String × Int)))
    (g : Geometry) (hg : Valid g) (p : Client σ Cmd Seen A) (q : Client σ Op Reply A') (ok : σ → Prop) (Rel : A → A' → Prop)
    (hask : ∀ s, ok s → Asks g (p.ask s) (q.ask s)) (hagain : ∀ s, ok s → Again (q.ask s)) (hfit : ∀ s, ok s → ∀ r, Cdb.request L (p.ask s).cdb = .ok r → WindowsOk b alloc r)
    (hnext : ∀ s r reply, ok s → Shows r reply → Along Rel (p.next s r) (q.next s reply))
    (w : W Win32.Spt K (Option Bytes) (DevErr Sense) (Win32.WinWorld State)) (m m' : Contents) (fs : List (Option Fault)) (hw : WindowsIdle w.st w.os ⟨m, fs⟩) (s : σ) (a' : A') (n : Nat)
    (h : q.Runs ok (OnArray g) s m a' m' n) :
    let Runs := fun a w' N => (on L B other (patient (isFailure .asiOs) p)).Runs ok (Through (machine (T := T) (Win32.winPlat (Win32.W b) getSense (Win32.sptServed b (unreliable g))) (Win32.prepare (Win32.W b) alloc))) s w a w' N
    (∃ a w' N, Runs a w' N) ∧ ∀ a w' N, Runs a w' N → Rel a a' ∧ WindowsIdle w'.st w'.os ⟨m', fs.drop N⟩ ∧ N + ahead (fs.drop N) = n + ahead fs :=
  programs L B other hg winOutcome_delivers (idle := fun w k => WindowsIdle w.st w.os k)
    (fun c w k hc hw => C108_windows (T := T) b getSense (unreliable g) alloc (fun k q ans h h' => unreliable_parses g k q ans h (by rw [h']; decide)) [c] (fun c' h => by rw [List.mem_singleton.1 h]; exact hc) w k hw)
    hask hagain hfit hnext w m m' fs hw s a' n h

/-- **C108 is false on AIX with libc's `ioctl`**, which the library takes where it can be loaded: whenever the call of a WRITE(16) fails before the disk got anything, whatever the reason
given, its caller is told that all went well, and the disk is as it was. -/
theorem C108_aix_false [DecidableEq K] (L : Lib) (B : Parse.BufLib) (other : Bytes → Py (List (String × Int))) (m : Contents) (data : Bytes) (hd : data.length = 2 * 512) (f : Failure)
    (w : W Handle K (Option Bytes) (DevErr Sense) (Aix.AixWorld State)) (hw : AixIdle w.st w.os ⟨m, [some ⟨f, fun _ => false⟩]⟩) :
    ∃ r w', RunAll (machine (T := T) (Aix.aixBlocking (lp64 false) getSense .libc (Aix.scServed (unreliable ⟨512, 1000⟩))).plat (Aix.prepare (lp64 false) Aborted.room 30))
        [(Cmd.write16 7 data 512).command L B other] w [r] w' ∧
      Shows r .done ∧ w'.os.world.kernel.contents = m := by
  have hP := (Aix.aixBlocking (K := K) (lp64 false) getSense .libc (Aix.scServed (unreliable ⟨512, 1000⟩))).implements (R := Result) (T := T) .actual
  rw [Aix.aixBlocking_send, Aix.aixBlocking_receive] at hP
  obtain ⟨q, hq, hm, hs⟩ := step L B other m (g := ⟨512, 1000⟩) ⟨by decide, by decide⟩ outcome_delivers (.write16 (lba := 7) (data := data) (by decide) hd (by decide))
  obtain ⟨-, c, -, -, -, rfl⟩ := (Cdb.C28_write16 L 7 data 512 q).1 hq
  obtain ⟨fr, hf, h1, h2, h3, -⟩ := execute_ok hP _ (Aix.prepare (lp64 false) Aborted.room 30) w hq
  obtain ⟨hp, hmax, hidx, hk⟩ := hw
  have hos : w.os = { world := { mem := w.os.world.mem, kernel := ⟨m, [some ⟨f, fun _ => false⟩]⟩ }, buffer := w.os.buffer } := by rw [← hk]
  obtain ⟨r1, r2⟩ := Aix.unnoticed getSense (unreliable ⟨512, 1000⟩) Aborted.room 30 (Spec.Cdb.write16 7 c) data w.st w.os.world.mem ⟨m, [some ⟨f, fun _ => false⟩]⟩ w.os.buffer hp (by omega) hidx
    (by simp [Spec.Cdb.write16, cdb16]) (by rw [hd]; decide) (by decide)
    ⟨by simp [regions, dataSize, Req.cdb, Spec.Cdb.write16, cdb16, hd], by simp [regions, dataSize, Req.cdb, Spec.Cdb.write16, cdb16, hd]⟩ f rfl
  rw [← hos] at r1 r2
  simp only [Aix.aixCall] at r1 r2
  rw [show Int.toNat 7 = 7 from rfl] at h1 h3
  rw [r1] at h1
  refine ⟨_, world fr, .cons hf (.nil _), ?_, ?_⟩
  · rw [h1]; rfl
  · rw [h3, r2]
    simp only [unreliable, List.headD_cons]
    funext x
    simp only [partly, Bool.false_eq_true, if_false]

/-- That is not what it should be. -/
example : (fun _ => 0 : Contents) ≠ writeAt (fun _ => 0) (7 * 512) (List.replicate (2 * 512) 1) := fun h => by
  have h1 : writeAt (fun _ => 0) (7 * 512) (List.replicate (2 * 512) 1) (7 * 512) = 1 := by decide +kernel
  rw [← h] at h1
  exact absurd h1 (by decide)

/-! The hypotheses are met. -/

/-- The driver had no memory for the request. -/
def noMemory : Fault := { failure := { data := [], reason := 0 }, which := fun _ => false }

/-- The call was interrupted when every other block was written, and some data had arrived. -/
def interrupted : Fault := { failure := { data := [1, 2, 3], reason := 4 }, which := fun b => b % 2 == 0 }

/-- The disk did all of it. -/
def lost : Fault := { failure := { data := [], reason := 0 }, which := fun _ => true }

/-- Asks whether the disk is ready, then writes two blocks. -/
def writer (data : Bytes) : Client Bool Cmd Seen Seen := { ask := fun b => if b then .write16 7 data 512 else .testUnitReady, next := fun b r => if b then .inr r else .inl true }

def writes (data : Bytes) : Client Bool Op Reply Reply := { ask := fun b => if b then .write 7 data else .ready, next := fun b r => if b then .inr r else .inl true }

theorem writer_asks (data : Bytes) (hd : data.length = 2 * 512) : ∀ b, Asks ⟨512, 1000⟩ ((writer data).ask b) ((writes data).ask b) := fun b => by
  cases b with
  | true => exact .write16 (g := ⟨512, 1000⟩) (by decide) hd (by decide)
  | false => exact .ready

theorem writer_next (data : Bytes) : ∀ b r reply, Shows r reply → Along Shows ((writer data).next b r) ((writes data).next b reply) := fun b r reply hs => by
  cases b with
  | true => exact hs
  | false => rfl

theorem writes_runs (m : Contents) (data : Bytes) (hd : data.length = 2 * 512) : (writes data).Runs (fun _ => True) (OnArray ⟨512, 1000⟩) false m .done (writeAt m (7 * 512) data) 2 := by
  refine .more (s' := true) (w' := m) (r := .ready) trivial (show Op.run ⟨512, 1000⟩ m .ready = _ from rfl) rfl (.done (r := .done) trivial ?_ rfl)
  simp only [writes, if_true, OnArray, Op.run, hd, Nat.reduceMul, Nat.reduceDiv, Nat.reduceAdd, Nat.reduceLeDiff]

theorem writer_request (L : Lib) (data : Bytes) (b : Bool) (r : Req) (h : Cdb.request L ((writer data).ask b).cdb = .ok r) :
    (∃ c, r = .write (Spec.Cdb.write16 7 c) data) ∨ r = .read [0, 0, 0, 0, 0, 0] 0 := by
  cases b with
  | true => obtain ⟨-, c, -, -, -, rfl⟩ := (Cdb.C28_write16 L 7 data 512 r).1 h; exact .inl ⟨c, rfl⟩
  | false => cases (Cdb.C36_test_unit_ready L).symm.trans h; exact .inr rfl

theorem five_calls {N : Nat} (h : N + ahead ([some noMemory, none, some interrupted, some lost].drop N) = 2 + ahead [some noMemory, none, some interrupted, some lost]) : N = 5 := by
  match N, h with
  | 0, h => exact absurd h (by decide)
  | 1, h => exact absurd h (by decide)
  | 2, h => exact absurd h (by decide)
  | 3, h => exact absurd h (by decide)
  | N + 4, h => simp [ahead] at h; omega

/-- Linux: the first call fails and is made again; then WRITE(16) fails in the middle, fails at the end, and succeeds. -/
example (L : Lib) (B : Parse.BufLib) (other : Bytes → Py (List (String × Int))) (m : Contents) (data : Bytes) (hd : data.length = 2 * 512) :
    let w : W Handle Unit (Option Bytes) (DevErr Sense) (World (State × Option Bytes)) :=
      { st := { pending := [], index := 6, maxq := 7 }, os := { mem := fun _ => 0xEE, kernel := (⟨m, [some noMemory, none, some interrupted, some lost]⟩, none) }, fired := [], box := fun _ => [] }
    ∃ a w', (on L B other (patient (isFailure .ioError) (writer data))).Runs (fun _ => True)
        (Through (machine (T := Unit) (Linux.sgBlocking (lp64 true) getSense (Linux.sgServed true (unreliable ⟨512, 1000⟩))).plat (Linux.prepare (lp64 true) Aborted.room 30000))) false w a w' 5 ∧
      Shows a .done ∧ LinuxIdle w'.st w'.os ⟨writeAt m (7 * 512) data, []⟩ := by
  intro w
  obtain ⟨⟨a, w', N, h1⟩, h2⟩ := C108_linux_programs (T := Unit) (K := Unit) true Aborted.room 30000 (by decide) L B other ⟨512, 1000⟩ ⟨by decide, by decide⟩ (writer data) (writes data)
    (fun _ => True) Shows (fun b _ => writer_asks data hd b) (fun b _ => by cases b <;> exact trivial)
    (fun b _ r h => by
      rcases writer_request L data b r h with ⟨c, rfl⟩ | rfl
      · exact example_fits _ ⟨by simp [Req.cdb, Spec.Cdb.write16, cdb16], by simp only [dataSize, hd]; decide⟩
      · exact ⟨by decide, by decide, fun _ => ⟨by simp [dataSize, Req.cdb], by simp⟩⟩)
    (fun b r reply _ hs => writer_next data b r reply hs) w m (writeAt m (7 * 512) data) [some noMemory, none, some interrupted, some lost]
    ⟨rfl, by show 0 < 7; decide, by show 7 ≤ 2 ^ 31; decide, by show 6 < 7; decide, rfl⟩ false .done 2 (writes_runs m data hd)
  obtain ⟨h3, h4, h5⟩ := h2 a w' N h1
  cases five_calls h5
  exact ⟨a, w', h1, h3, h4⟩

/-- The same on Windows. -/
example (L : Lib) (B : Parse.BufLib) (other : Bytes → Py (List (String × Int))) (m : Contents) (data : Bytes) (hd : data.length = 2 * 512) :
    let w : W Win32.Spt Unit (Option Bytes) (DevErr Sense) (Win32.WinWorld State) :=
      { st := { pending := [], index := 6, maxq := 7 }, os := { world := { mem := fun _ => 0xEE, kernel := ⟨m, [some noMemory, none, some interrupted, some lost]⟩ }, incoming := [] }, fired := [], box := fun _ => [] }
    ∃ a w', (on L B other (patient (isFailure .asiOs) (writer data))).Runs (fun _ => True)
        (Through (machine (T := Unit) (Win32.winPlat (Win32.W true) getSense (Win32.sptServed true (unreliable ⟨512, 1000⟩))) (Win32.prepare (Win32.W true) Aborted.room))) false w a w' 5 ∧
      Shows a .done ∧ WindowsIdle w'.st w'.os ⟨writeAt m (7 * 512) data, []⟩ := by
  intro w
  obtain ⟨⟨a, w', N, h1⟩, h2⟩ := C108_windows_programs (T := Unit) (K := Unit) true Aborted.room L B other ⟨512, 1000⟩ ⟨by decide, by decide⟩ (writer data) (writes data)
    (fun _ => True) Shows (fun b _ => writer_asks data hd b) (fun b _ => by cases b <;> exact trivial)
    (fun b _ r h => by
      rcases writer_request L data b r h with ⟨c, rfl⟩ | rfl
      · exact ⟨by simp [Req.cdb, Spec.Cdb.write16, cdb16], by simp only [dataSize, hd]; decide,
          fun _ => ⟨by simp [Win32.winRegions, Win32.osz, dataSize, Req.cdb, hd], by simp [Win32.winRegions, Win32.bits, dataSize, Req.cdb, hd]⟩⟩
      · exact ⟨by decide, by decide, fun _ => ⟨by simp [Win32.winRegions, Win32.osz, dataSize, Req.cdb], by simp [Win32.winRegions, Win32.bits]⟩⟩)
    (fun b r reply _ hs => writer_next data b r reply hs) w m (writeAt m (7 * 512) data) [some noMemory, none, some interrupted, some lost]
    ⟨rfl, by show 0 < 7; decide, rfl⟩ false .done 2 (writes_runs m data hd)
  obtain ⟨h3, h4, h5⟩ := h2 a w' N h1
  cases five_calls h5
  exact ⟨a, w', h1, h3, h4⟩

/-- Solaris and AIX. -/
example (L : Lib) (data : Bytes) (hd : data.length = 2 * 512) (b : Bool) (r : Req) (h : Cdb.request L ((writer data).ask b).cdb = .ok r) :
    SolarisOk Aborted.room r ∧ AixOk .fcntl Aborted.room r := by
  rcases writer_request L data b r h with ⟨c, rfl⟩ | rfl
  · have hs : ∀ n, n = 64 ∨ n = 168 → Separate 64 (regions (Aborted.room 0) (.write (Spec.Cdb.write16 7 c) data) n) := by
      rintro n (rfl | rfl) <;> exact ⟨by simp [regions, dataSize, Req.cdb, Spec.Cdb.write16, cdb16, hd], by simp [regions, dataSize, Req.cdb, Spec.Cdb.write16, cdb16, hd]⟩
    exact ⟨⟨by simp [Req.cdb, Spec.Cdb.write16, cdb16], by simp only [dataSize, hd]; decide, hs 64 (.inl rfl)⟩,
      by simp [Req.cdb, Spec.Cdb.write16, cdb16], by simp only [dataSize, hd]; decide, hs 168 (.inr rfl), by decide⟩
  · exact ⟨⟨by decide, by decide, by simp [regions, dataSize, Req.cdb], by simp [regions, dataSize, Req.cdb]⟩,
      by decide, by decide, ⟨by simp [regions, dataSize, Req.cdb], by simp [regions, dataSize, Req.cdb]⟩, by decide⟩

end Verif.Commands.Clients.Refused
