import Verif.Props.Sense
import Verif.Props.LinuxDevice
import Verif.Props.Solaris
import Verif.Props.Aix
import Verif.Props.Windows
/-!
# C57: what a failing device says reaches the caller

The platform theorems C52–C55 hold for every decoder of sense data; here the decoder is the library's own.
-/
set_option linter.unusedSimpArgs false

namespace Verif.Sense
open Verif Verif.Spec Verif.Executer Verif.Platform

/-- The sense object says: this key, this additional sense code, this qualifier. -/
def Says (s : Sense) (key asc ascq : Nat) : Prop :=
  s.key = Spec.senseKeyName key ∧ s.attrs.lookup "additional_sense_code.code" = some asc ∧ s.attrs.lookup "additional_sense_code.qualifier" = some ascq

theorem getSense_says (b : Bytes) (h : 17 ≤ b.length) (key asc ascq : Nat) (hr : ReportsSense b key asc ascq) :
    ∃ s, getSense b = .ok (some s) ∧ Says s key asc ascq := by
  rcases hr with ⟨hc, rfl, rfl, rfl⟩ | ⟨hc, h6, rfl, rfl, rfl⟩
  · exact ⟨_, C40_fixed_partial b hc h, rfl, rfl, rfl⟩
  · obtain ⟨x, n, ds, rfl, hx⟩ : ∃ x n ds, b = x ++ n :: ds ∧ x.length = 6 := by
      refine ⟨b.take 6, b[6], b.drop 7, ?_, by simp; omega⟩
      rw [List.getElem_cons_drop, List.take_append_drop]
    have hn : n.toNat = 0 := by
      rw [byteAt_append_right' x n ds hx] at h6; exact h6
    have hb : ∀ i, i < 6 → Spec.byteAt (x ++ n :: ds) i = Spec.byteAt x i := fun i hi => Parse.byteAt_append_left x _ i (by omega)
    have hd := descriptorBased_eq x ds n hx [] (by rw [hn]; simp [Parse.sumSize])
    refine ⟨.descriptorBased (Spec.senseKeyName (Spec.bitsAt x 1 3 0)) (headerAttrs x) [], ?_, ?_, ?_, ?_⟩
    · unfold getSense
      rw [responseCode_eq _ (by simp; omega), hd]
      simp only [bind, Except.bind, List.lookup, BEq.rfl, Option.getD_some]
      rw [if_neg (by omega), if_pos hc]
    · simp only [Sense.key, Spec.bitsAt, hb 1 (by omega)]
    · rw [hb 2 (by omega)]; rfl
    · rw [hb 3 (by omega)]; rfl
where
  byteAt_append_right' (x : Bytes) (n : UInt8) (ds : Bytes) (hx : x.length = 6) : Spec.byteAt (x ++ n :: ds) 6 = n.toNat := by
    simp [Spec.byteAt, List.getD_eq_getElem?_getD, List.getElem?_append_right, hx]

theorem padded_length (n : Nat) (b : Bytes) : (padded n b).length = n := by simp [padded]

theorem byteAt_padded (n : Nat) (b : Bytes) (i : Nat) (h : i < n) : Spec.byteAt (padded n b) i = Spec.byteAt b i := by
  simp only [Spec.byteAt, padded, List.getD_eq_getElem?_getD, List.getElem?_take, if_pos h]
  by_cases hi : i < b.length
  · rw [List.getElem?_append_left hi]
  · rw [List.getElem?_append_right (by omega), List.getElem?_eq_none (by omega : b.length ≤ i)]
    simp [zeros, List.getElem?_replicate]
    split <;> rfl

theorem reports_padded (b : Bytes) (key asc ascq : Nat) (hr : ReportsSense b key asc ascq) : ReportsSense (padded 255 b) key asc ascq := by
  unfold ReportsSense Spec.responseCode Spec.bitsAt at *
  rw [byteAt_padded 255 b 0 (by decide), byteAt_padded 255 b 1 (by decide), byteAt_padded 255 b 2 (by decide), byteAt_padded 255 b 3 (by decide),
    byteAt_padded 255 b 6 (by decide), byteAt_padded 255 b 12 (by decide), byteAt_padded 255 b 13 (by decide)]
  exact hr

/-- The exception raised is AsiCheckConditionError, and its sense object says what the device said. -/
def RaisesSense (r : Except (Exn (DevErr Sense)) (Option (Option Bytes))) (key asc ascq : Nat) : Prop :=
  ∃ raw s, r = .error (.dev (.checkCondition raw (some s))) ∧ Says s key asc ascq

theorem outcome_raises (c : Req) (ans : Answer) (key asc ascq : Nat) (hst : ans.status = 2) (hr : ReportsSense ans.sense key asc ascq) :
    RaisesSense (outcome getSense c ans) key asc ascq := by
  obtain ⟨s, hs, hsay⟩ := getSense_says (padded 255 ans.sense) (by rw [padded_length]; decide) key asc ascq (reports_padded _ _ _ _ hr)
  refine ⟨padded 255 ans.sense, s, ?_, hsay⟩
  unfold outcome
  rw [hst, hs]; rfl

/-- **C57, Linux**: whenever the device answers CHECK CONDITION with sense data of either format, in any state and to any command, the
caller gets AsiCheckConditionError with the device's sense key and additional sense code, and the executer is idle again. -/
theorem C57_linux (l : Bool) (dev : Device δ) (alloc : Nat → Alloc) (t : Int) (c : Req)
    (s : St Handle (Option K)) (m : Mem) (k : δ) (old : Option Bytes) (hs : s.pending = []) (hq : 0 < s.maxq) (hidx : s.index < 2 ^ 31)
    (hcdb : c.cdb.length ≤ 255) (hd : dataSize c < 2 ^ 32) (ht : 0 ≤ t ∧ t < 2 ^ 32)
    (hsep : Separate 64 [((alloc s.index).block, 88), ((alloc s.index).sense, 255), ((alloc s.index).cmd, c.cdb.length),
      ((alloc s.index).data, dataSize c)]) (key asc ascq : Nat)
    (hst : (dev k (asked c)).1.status = 2) (hr : ReportsSense (dev k (asked c)).1.sense key asc ascq) :
    let r := Linux.sgCall l getSense (Linux.sgDevice l dev) alloc t c s { mem := m, kernel := (k, old) }
    RaisesSense r.out key asc ascq ∧ r.st.pending = [] := by
  intro r
  obtain ⟨h1, -, h3⟩ := Linux.C52_linux l getSense dev alloc t c s m k old hs hq hidx hcdb hd ht hsep
  have ho := outcome_raises c _ key asc ascq hst hr
  rw [← h1] at ho
  refine ⟨ho, ?_⟩
  obtain ⟨raw, sn, he, -⟩ := ho
  have := h3 (by intro e; rw [he]; simp)
  show r.st.pending = []
  rw [this]; exact hs

/-- **C57, Solaris**. -/
theorem C57_solaris (l : Bool) (dev : Device δ) (alloc : Nat → Alloc) (t : Int) (c : Req)
    (s : St Handle (Option K)) (m : Mem) (k : δ) (old : Option Bytes) (hs : s.pending = []) (hq : 0 < s.maxq) (h0 : s.index = 0)
    (hcdb : c.cdb.length ≤ 255) (hd : dataSize c < 2 ^ 64) (ht : 0 ≤ t ∧ t < 2 ^ 15) (hsep : Separate 64 (regions (alloc 0) c 64)) (key asc ascq : Nat)
    (hst : (dev k (asked c)).1.status = 2) (hr : ReportsSense (dev k (asked c)).1.sense key asc ascq) :
    let r := Solaris.solCall l getSense (Solaris.uscsiDevice l dev) alloc t c s { world := { mem := m, kernel := k }, buffer := old }
    RaisesSense r.out key asc ascq ∧ r.st.pending = [] := by
  intro r
  obtain ⟨h1, -, h3⟩ := Solaris.C53_solaris l getSense dev alloc t c s m k old hs hq h0 hcdb hd ht hsep
  have ho := outcome_raises c _ key asc ascq hst hr
  rw [← h1] at ho
  refine ⟨ho, ?_⟩
  obtain ⟨raw, sn, he, -⟩ := ho
  have := h3 (by intro e; rw [he]; simp)
  show r.st.pending = []
  rw [this]; exact hs

/-- **C57, AIX**, with either binding. -/
theorem C57_aix (b : Aix.Binding) (dev : Device δ) (alloc : Nat → Alloc) (t : Int) (c : Req)
    (s : St Handle (Option K)) (m : Mem) (k : δ) (old : Option Bytes) (hs : s.pending = []) (hq : 0 < s.maxq) (h0 : s.index = 0)
    (hcdb : c.cdb.length ≤ 64) (hd : dataSize c < 2 ^ 64) (ht : 0 ≤ t ∧ t < 2 ^ 32) (hsep : Separate 64 (regions (alloc 0) c 168)) (hp : Aix.Passes b (alloc 0).block)
    (key asc ascq : Nat) (hst : (dev k (asked c)).1.status = 2) (hr : ReportsSense (dev k (asked c)).1.sense key asc ascq) :
    let r := Aix.aixCall getSense b (Aix.scDevice dev) alloc t c s { world := { mem := m, kernel := k }, buffer := old }
    RaisesSense r.out key asc ascq ∧ r.st.pending = [] := by
  intro r
  obtain ⟨h1, -, h3⟩ := Aix.C54_aix_partial getSense b dev alloc t c s m k old hs hq h0 hcdb hd ht hsep hp
  have ho := outcome_raises c _ key asc ascq hst hr
  rw [← h1] at ho
  refine ⟨ho, ?_⟩
  obtain ⟨raw, sn, he, -⟩ := ho
  have := h3 (by intro e; rw [he]; simp)
  show r.st.pending = []
  rw [this]; exact hs

/-- **C57, Windows**. -/
theorem C57_windows (b : Bool) (dev : Device δ) (alloc : Nat → Alloc) (c : Req)
    (s : St Win32.Spt (Option K)) (m : Mem) (k : δ) (inc : List Win32.Spt) (hs : s.pending = []) (hq : 0 < s.maxq)
    (hcdb : c.cdb.length ≤ 16) (hd : dataSize c < 2 ^ 32) (hsep : Separate (Win32.bits b) (Win32.winRegions b (alloc s.index) c)) (key asc ascq : Nat)
    (hst : (dev k (asked c)).1.status = 2) (hr : ReportsSense (dev k (asked c)).1.sense key asc ascq) :
    let r := Win32.winCall b getSense (Win32.sptDevice b dev) alloc c s { world := { mem := m, kernel := k }, incoming := inc }
    RaisesSense r.out key asc ascq ∧ r.st.pending = [] := by
  intro r
  obtain ⟨h1, -, h3⟩ := Win32.C55_windows b getSense dev alloc c s m k inc hs hq hcdb hd hsep
  have ho : RaisesSense (Win32.winOutcome getSense c (dev k (asked c)).1) key asc ascq := by
    obtain ⟨sn, hs, hsay⟩ := getSense_says (padded 255 (dev k (asked c)).1.sense) (by rw [padded_length]; decide) key asc ascq (reports_padded _ _ _ _ hr)
    refine ⟨padded 255 (dev k (asked c)).1.sense, sn, ?_, hsay⟩
    unfold Win32.winOutcome
    rw [if_pos hst, hs]
  rw [← h1] at ho
  refine ⟨ho, ?_⟩
  obtain ⟨raw, sn, he, -⟩ := ho
  have := h3 (by intro e; rw [he]; simp)
  show r.st.pending = []
  rw [this]; exact hs

/-- Devices that send sense data whenever they fail: the library's decoder never stops a session on them, so the session theorems
(`C52_session`, `C53_session`, `C54_session_partial`, `C55_session`) hold with it. -/
theorem C57_decodable (dev : Device δ) (h : ∀ k q, (dev k q).1.status.toNat / 2 % 2 = 1 → ∃ key asc ascq, ReportsSense (dev k q).1.sense key asc ascq) :
    ∀ k q, (dev k q).1.status.toNat / 2 % 2 = 1 → ∃ sn, getSense (padded 255 (dev k q).1.sense) = .ok sn := by
  intro k q hst
  obtain ⟨key, asc, ascq, hr⟩ := h k q hst
  obtain ⟨s, hs, -⟩ := getSense_says (padded 255 (dev k q).1.sense) (by rw [padded_length]; decide) key asc ascq (reports_padded _ _ _ _ hr)
  exact ⟨_, hs⟩

/-- A whole session on Linux with the library's decoder. -/
theorem C57_session (l : Bool) (dev : Device δ) (alloc : Nat → Alloc) (t : Int) (cs : List Req) (s : St Handle (Option K)) (m : Mem) (k : δ)
    (old : Option Bytes) (h : ∀ k q, (dev k q).1.status.toNat / 2 % 2 = 1 → ∃ key asc ascq, ReportsSense (dev k q).1.sense key asc ascq)
    (hs : s.pending = []) (hq : 0 < s.maxq) (hmax : s.maxq ≤ 2 ^ 31) (hidx : s.index < s.maxq) (ht : 0 ≤ t ∧ t < 2 ^ 32)
    (hcs : ∀ c ∈ cs, c.cdb.length ≤ 255 ∧ dataSize c < 2 ^ 32 ∧ ∀ i, Separate 64 [((alloc i).block, 88), ((alloc i).sense, 255),
      ((alloc i).cmd, c.cdb.length), ((alloc i).data, dataSize c)]) :
    Linux.runSg l getSense (Linux.sgDevice l dev) alloc t cs s { mem := m, kernel := (k, old) } = expected getSense dev cs k :=
  Linux.C52_session l getSense dev alloc t cs s m k old (C57_decodable dev h) hs hq hmax hidx ht hcs

/-- The device of the example of C52 reports ILLEGAL REQUEST for everything but INQUIRY. -/
example : ∀ k q, (Linux.toyDevice k q).1.status.toNat / 2 % 2 = 1 → ReportsSense (Linux.toyDevice k q).1.sense 5 0 0 := by
  intro k q
  unfold Linux.toyDevice
  split
  · intro h; simp at h
  · intro _; left; simp [Spec.responseCode, Spec.bitsAt, Spec.byteAt]

end Verif.Sense
