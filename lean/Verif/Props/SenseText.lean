import Verif.Props.Messages
import Verif.Props.CheckCondition
/-!
# C89: the text of an AsiCheckConditionError shows the sense data

Whatever `repr` of the sense object is (brackets included), the bytes in the last brackets of the text are the sense buffer. On each platform
this is what the device sent, followed by zeros up to 255 bytes.
-/
namespace Verif.Messages
open Verif.Platform Verif.Executer Verif.Spec Verif.Spec.Messages Verif.Sense

set_option linter.unusedSimpArgs false

theorem hex_pair (x : UInt8) : digitValue (digit (x.toNat / 16)) = some (x.toNat / 16) ∧ digitValue (digit (x.toNat % 16)) = some (x.toNat % 16) :=
  ⟨digit_value (by have := x.toNat_lt; omega), digit_value (by omega)⟩

theorem hexPairs_hexlify (b : Bytes) : hexPairs (hexlify b) = some b := by
  induction b with
  | nil => rfl
  | cons x b ih =>
    simp only [hexlify, List.flatMap_cons, List.cons_append, List.nil_append] at ih ⊢
    rw [hexPairs, (hex_pair x).1, (hex_pair x).2, ih]
    simp only [Option.some.injEq, List.cons.injEq, and_true]
    rw [show 16 * (x.toNat / 16) + x.toNat % 16 = x.toNat from Nat.div_add_mod _ _]
    exact UInt8.ofNat_toNat

theorem digit_plain (n : Nat) (h : n < 16) : digit n ≠ '[' ∧ digit n ≠ ']' ∧ digit n ≠ '\'' := by
  have : ∀ n : Fin 16, digit n.1 ≠ '[' ∧ digit n.1 ≠ ']' ∧ digit n.1 ≠ '\'' := by decide
  exact this ⟨n, h⟩

theorem hexlify_plain (b : Bytes) : ∀ c ∈ hexlify b, c ≠ '[' ∧ c ≠ ']' ∧ c ≠ '\'' := by
  intro c hc
  simp only [hexlify, List.mem_flatMap, List.mem_cons, List.not_mem_nil, or_false] at hc
  obtain ⟨x, -, rfl | rfl⟩ := hc
  · exact digit_plain _ (by have := x.toNat_lt; omega)
  · exact digit_plain _ (by omega)

theorem format_plain (py3 : Bool) (b : Bytes) : ∀ c ∈ formatBytes py3 (hexlify b), c ≠ '[' := by
  intro c hc
  unfold formatBytes at hc
  split at hc
  · simp only [List.mem_append, List.mem_cons, List.not_mem_nil, or_false] at hc
    rcases hc with ((rfl | rfl) | hc) | rfl
    · decide
    · decide
    · exact (hexlify_plain b c hc).1
    · decide
  · exact (hexlify_plain b c hc).1

theorem inside_brackets (front body : List Char) (h : ∀ c ∈ body, c ≠ '[') :
    ((((front ++ ['['] ++ body ++ [']']).reverse.dropWhile (· ≠ ']')).drop 1).takeWhile (· ≠ '[')).reverse = body := by
  have e : (front ++ ['['] ++ body ++ [']']).reverse = ']' :: (body.reverse ++ '[' :: front.reverse) := by simp
  rw [e, List.dropWhile_cons_of_neg (by decide), List.drop_succ_cons, List.drop_zero,
    takeWhile_stop _ _ _ _ (by intro c hc; exact decide_eq_true (h c (List.mem_reverse.1 hc))) (by decide), List.reverse_reverse]

/-- **C89.** The last brackets of the text hold the sense buffer, whatever `repr` gives for the sense object, in Python 2 and 3. -/
theorem C89_sense (py3 : Bool) (repr : List Char) (buffer : Bytes) : senseTold (checkConditionText py3 repr buffer) = some buffer := by
  obtain ⟨front, e⟩ : ∃ front, checkConditionText py3 repr buffer = front ++ ['['] ++ formatBytes py3 (hexlify buffer) ++ [']'] :=
    ⟨"SCSI Check Condition status, sense ".toList ++ repr ++ [' '], by
      unfold checkConditionText
      rw [show " [".toList = [' ', '['] from rfl, show "]".toList = [']'] from rfl]
      simp only [List.append_assoc, List.cons_append, List.nil_append]⟩
  unfold senseTold lastBrackets
  rw [e, inside_brackets _ _ (format_plain py3 buffer)]
  cases py3 with
  | true =>
    have hl : (formatBytes true (hexlify buffer)).getLast? = some '\'' := by
      rw [show formatBytes true (hexlify buffer) = (['b', '\''] ++ hexlify buffer) ++ ['\''] from rfl, List.getLast?_concat]
    simp only [hl, if_true]
    have hd : ((formatBytes true (hexlify buffer)).drop 2).dropLast = hexlify buffer := by simp [formatBytes]
    rw [hd]
    exact hexPairs_hexlify buffer
  | false =>
    have hl : (formatBytes false (hexlify buffer)).getLast? ≠ some '\'' := by
      intro h
      exact (hexlify_plain buffer _ (List.mem_of_getLast? h)).2.2 rfl
    simp only [if_neg hl]
    exact hexPairs_hexlify buffer

/-- The exception has a text that shows these sense data, with zeros behind them. -/
def ShowsSense {D : Type} (r : Except (Exn (DevErr Sense.Sense)) D) (sense : Bytes) : Prop :=
  ∀ (py3 : Bool) (repr : Option Sense.Sense → List Char),
    ∃ e text, r = .error e ∧ senseText py3 repr e = some text ∧ senseTold text = some (padded 255 sense)

theorem shows {D : Type} {r : Except (Exn (DevErr Sense.Sense)) D} {sense : Bytes} {sn : Option Sense.Sense}
    (h : r = .error (.dev (.checkCondition (padded 255 sense) sn))) : ShowsSense r sense :=
  fun py3 repr => ⟨_, _, h, rfl, C89_sense py3 (repr sn) _⟩

variable {δ K : Type}

theorem outcome_shows (c : Req) (ans : Answer) (hst : ans.status = 2) {sn : Option Sense.Sense} (hs : getSense (padded 255 ans.sense) = .ok sn) :
    ShowsSense (outcome getSense c ans) ans.sense := by
  refine shows (sn := sn) ?_
  unfold outcome
  rw [hst, hs]; rfl

/-- **C89 on Linux**: when the device answers CHECK CONDITION (with sense data the library can decode), the text shows its sense data. -/
theorem C89_sense_linux (l : Bool) (dev : Device δ) (alloc : Nat → Alloc) (t : Int) (c : Req)
    (s : St Handle (Option K)) (m : Mem) (k : δ) (old : Option Bytes) (hs : s.pending = []) (hq : 0 < s.maxq) (hidx : s.index < 2 ^ 31)
    (hcdb : c.cdb.length ≤ 255) (hd : dataSize c < 2 ^ 32) (ht : 0 ≤ t ∧ t < 2 ^ 32)
    (hsep : Separate 64 [((alloc s.index).block, 88), ((alloc s.index).sense, 255), ((alloc s.index).cmd, c.cdb.length),
      ((alloc s.index).data, dataSize c)]) (hst : (dev k (asked c)).1.status = 2) {sn : Option Sense.Sense}
    (hsn : getSense (padded 255 (dev k (asked c)).1.sense) = .ok sn) :
    ShowsSense (Linux.sgCall l getSense (Linux.sgDevice l dev) alloc t c s { mem := m, kernel := (k, old) }).out (dev k (asked c)).1.sense := by
  rw [(Linux.C52_linux l getSense dev alloc t c s m k old hs hq hidx hcdb hd ht hsep).1]
  exact outcome_shows c _ hst hsn

/-- **C89 on Solaris.** -/
theorem C89_sense_solaris (l : Bool) (dev : Device δ) (alloc : Nat → Alloc) (t : Int) (c : Req)
    (s : St Handle (Option K)) (m : Mem) (k : δ) (old : Option Bytes) (hs : s.pending = []) (hq : 0 < s.maxq) (h0 : s.index = 0)
    (hcdb : c.cdb.length ≤ 255) (hd : dataSize c < 2 ^ 64) (ht : 0 ≤ t ∧ t < 2 ^ 15) (hsep : Separate 64 (regions (alloc 0) c 64))
    (hst : (dev k (asked c)).1.status = 2) {sn : Option Sense.Sense} (hsn : getSense (padded 255 (dev k (asked c)).1.sense) = .ok sn) :
    ShowsSense (Solaris.solCall l getSense (Solaris.uscsiDevice l dev) alloc t c s { world := { mem := m, kernel := k }, buffer := old }).out
      (dev k (asked c)).1.sense := by
  rw [(Solaris.C53_solaris l getSense dev alloc t c s m k old hs hq h0 hcdb hd ht hsep).1]
  exact outcome_shows c _ hst hsn

/-- **C89 on AIX.** -/
theorem C89_sense_aix (b : Aix.Binding) (dev : Device δ) (alloc : Nat → Alloc) (t : Int) (c : Req)
    (s : St Handle (Option K)) (m : Mem) (k : δ) (old : Option Bytes) (hs : s.pending = []) (hq : 0 < s.maxq) (h0 : s.index = 0)
    (hcdb : c.cdb.length ≤ 64) (hd : dataSize c < 2 ^ 64) (ht : 0 ≤ t ∧ t < 2 ^ 32) (hsep : Separate 64 (regions (alloc 0) c 168)) (hp : Aix.Passes b (alloc 0).block)
    (hst : (dev k (asked c)).1.status = 2) {sn : Option Sense.Sense} (hsn : getSense (padded 255 (dev k (asked c)).1.sense) = .ok sn) :
    ShowsSense (Aix.aixCall getSense b (Aix.scDevice dev) alloc t c s { world := { mem := m, kernel := k }, buffer := old }).out
      (dev k (asked c)).1.sense := by
  rw [(Aix.C54_aix_partial getSense b dev alloc t c s m k old hs hq h0 hcdb hd ht hsep hp).1]
  exact outcome_shows c _ hst hsn

/-- **C89 on Windows.** -/
theorem C89_sense_windows (b : Bool) (dev : Device δ) (alloc : Nat → Alloc) (c : Req)
    (s : St Win32.Spt (Option K)) (m : Mem) (k : δ) (inc : List Win32.Spt) (hs : s.pending = []) (hq : 0 < s.maxq)
    (hcdb : c.cdb.length ≤ 16) (hd : dataSize c < 2 ^ 32) (hsep : Separate (Win32.bits b) (Win32.winRegions b (alloc s.index) c))
    (hst : (dev k (asked c)).1.status = 2) {sn : Option Sense.Sense} (hsn : getSense (padded 255 (dev k (asked c)).1.sense) = .ok sn) :
    ShowsSense (Win32.winCall b getSense (Win32.sptDevice b dev) alloc c s { world := { mem := m, kernel := k }, incoming := inc }).out
      (dev k (asked c)).1.sense := by
  rw [(Win32.C55_windows b getSense dev alloc c s m k inc hs hq hcdb hd hsep).1]
  refine shows (sn := sn) ?_
  unfold Win32.winOutcome
  rw [if_pos hst, hsn]

/-- A `repr` with brackets of its own does not disturb the reader. -/
example : checkConditionText true "<x [1]>".toList [0x70, 0x05] = "SCSI Check Condition status, sense <x [1]> [b'7005']".toList ∧
    senseTold "SCSI Check Condition status, sense <x [1]> [b'7005']".toList = some [0x70, 0x05] ∧
    checkConditionText false "None".toList [0xB0] = "SCSI Check Condition status, sense None [b0]".toList := by
  decide +kernel

/-- The device of the example of C52 reports sense data that can be decoded, for everything but INQUIRY. -/
example : ∃ sn, (Linux.toyDevice 0 (asked (.read [0, 0, 0, 0, 0, 0] 36))).1.status = 2 ∧
    getSense (padded 255 (Linux.toyDevice 0 (asked (.read [0, 0, 0, 0, 0, 0] 36))).1.sense) = .ok sn :=
  let ⟨_, h, _⟩ := getSense_says (padded 255 [0x70, 0, 5]) (by rw [padded_length]; omega) 5 0 0
    (reports_padded _ _ _ _ (by simp [ReportsSense, Spec.responseCode, Spec.bitsAt, Spec.byteAt]))
  ⟨_, rfl, h⟩

end Verif.Messages
