import Verif.Props.Inquiry
import Verif.Props.StandardInquiry
import Verif.Props.Ses
import Verif.Props.Responses
import Verif.Props.Sense
/-!
# The recorded examples of `/repo/tests`

The byte strings recorded in the tests of the repository, run through the model. Each statement is one assertion of a test with the model's function in
place of the library's. These are tests of the model, not proofs of anything about all inputs: they are here because the tests state, on real
responses, what the authors (and the external library, which the model does not see) make of them. The bytes are copied from the tests by a script.

Every statement is checked for both readings of unsigned/signed `be_int_field` and of joined references (`BufLib.sg`, `BufLib.lowFirst`), for two ways
of dropping the padding of texts, and for two ways of encoding integers (`Lib`); no recorded example distinguishes them.
-/

set_option linter.unusedSimpArgs false
set_option maxRecDepth 20000

namespace Verif.Recorded

open Verif.Parse Verif.Cdb

/-! ## Libraries that meet the model's assumptions -/

/-- `rstrip` of any mixture of the characters. -/
def rstrip (cs : List UInt8) (b : Bytes) : Bytes := (b.reverse.dropWhile (cs.contains ·)).reverse

theorem rstrip_snoc (cs : List UInt8) (b : Bytes) (c : UInt8) : rstrip cs (b ++ [c]) = if cs.contains c then rstrip cs b else b ++ [c] := by
  unfold rstrip
  rw [List.reverse_append, List.reverse_singleton, List.singleton_append, List.dropWhile_cons]
  by_cases h : cs.contains c = true
  · rw [if_pos h, if_pos h]
  · rw [if_neg h, if_neg h, List.reverse_cons, List.reverse_reverse]

theorem rstrip_end {cs : List UInt8} {t : Bytes} (h : ∀ x, t.getLast? = some x → cs.contains x = false) : rstrip cs t = t := by
  rcases List.eq_nil_or_concat t with rfl | ⟨t', c, rfl⟩
  · rfl
  · rw [List.concat_eq_append] at h ⊢
    rw [rstrip_snoc, h c (by simp)]; rfl

theorem rstrip_pad {cs : List UInt8} {t : Bytes} {n : Nat} {c : UInt8} (hc : cs.contains c = true) (h : ∀ x, t.getLast? = some x → cs.contains x = false) :
    rstrip cs (t ++ List.replicate n c) = t := by
  induction n with
  | zero => simpa using rstrip_end h
  | succ n ih => rw [List.replicate_succ', ← List.append_assoc, rstrip_snoc, if_pos hc, ih]

theorem rstrip_prefix (cs : List UInt8) (b : Bytes) : ∃ n, rstrip cs b = b.take n := by
  suffices h : ∀ r : Bytes, ∃ n, rstrip cs r.reverse = r.reverse.take n by simpa using h b.reverse
  intro r
  induction r with
  | nil => exact ⟨0, rfl⟩
  | cons c r ih =>
    obtain ⟨n, hn⟩ := ih
    rw [List.reverse_cons, rstrip_snoc]
    by_cases h : cs.contains c = true
    · rw [if_pos h, hn]
      exact ⟨min n r.reverse.length, by rw [List.take_append_of_le_length (Nat.min_le_right ..), List.take_eq_take_min]⟩
    · rw [if_neg h]
      exact ⟨(r.reverse ++ [c]).length, by rw [List.take_length]⟩

theorem visible {cs : List UInt8} (hcs : ∀ c ∈ cs, c = 0 ∨ c = 0x20) {t : Bytes} (h : ∀ x, t.getLast? = some x → 0x20 < x.toNat ∧ x.toNat < 0x7F) :
    ∀ x, t.getLast? = some x → cs.contains x = false := by
  intro x hx
  have := h x hx
  rw [Bool.eq_false_iff]
  intro hc
  rcases hcs x (by simpa using hc) with rfl | rfl <;> simp at this

/-- A library that strips NULs and spaces from the end of texts in any order, or first NULs and then spaces. -/
def lib (sg lowFirst mixed : Bool) : BufLib where
  sg := sg
  lowFirst := lowFirst
  text := fun _ => .error .valueError
  packOther := fun _ _ => .error .valueError
  trim := fun b => if mixed then rstrip [0, 0x20] b else rstrip [0x20] (rstrip [0] b)
  trim_padding := by
    intro t n c h hc
    cases mixed with
    | true => exact rstrip_pad (by rcases hc with rfl | rfl <;> rfl) (visible (by simp) h)
    | false =>
      simp only [Bool.false_eq_true, if_false]
      rcases hc with rfl | rfl
      · rw [rstrip_pad rfl (visible (by simp) h), rstrip_end (visible (by simp) h)]
      · by_cases hn : n = 0
        · subst hn
          rw [List.replicate_zero, List.append_nil, rstrip_end (cs := [0]) (visible (by simp) h), rstrip_end (visible (by simp) h)]
        · obtain ⟨m, rfl⟩ : ∃ m, n = m + 1 := ⟨n - 1, by omega⟩
          rw [rstrip_end (cs := [0]) (t := t ++ List.replicate (m + 1) 0x20), rstrip_pad rfl (visible (by simp) h)]
          intro x hx
          rw [List.replicate_succ', ← List.append_assoc, List.getLast?_concat] at hx
          cases hx; rfl
  trim_prefix := by
    intro b
    cases mixed with
    | true => exact rstrip_prefix _ b
    | false =>
      simp only [Bool.false_eq_true, if_false]
      obtain ⟨n, hn⟩ := rstrip_prefix [0] b
      rw [hn]
      obtain ⟨m, hm⟩ := rstrip_prefix [0x20] (b.take n)
      exact ⟨min m n, by rw [hm, List.take_take]⟩

/-- The assertion holds for every library of this file. -/
def Always (p : BufLib → Bool) : Prop := ∀ sg lowFirst mixed, p (lib sg lowFirst mixed) = true

instance (p : BufLib → Bool) : Decidable (Always p) := inferInstanceAs (Decidable (∀ sg lowFirst mixed, p (lib sg lowFirst mixed) = true))

/-- The call returns and `f` holds of what it returns. -/
def returns {α : Type} (r : Py α) (f : α → Bool) : Bool := match r with | .ok a => f a | .error _ => false

/-- Both libraries of `Instruct` make these bytes. -/
def Packs (f : Lib → Py Bytes) (b : Bytes) : Prop := f .strict = .ok b ∧ f .truncating = .ok b

instance (f : Lib → Py Bytes) (b : Bytes) : Decidable (Packs f b) := inferInstanceAs (Decidable (_ ∧ _))


/-! ## `test_sense.py` -/

/-- `test_sense.py: test_illegal_request` -/
def test_illegal_request : Bytes :=
  [240, 0, 5, 0, 0, 0, 0, 10, 0, 0, 0, 0, 36, 0, 0, 192, 0, 2]

/-- `test_sense.py: test_tur` -/
def test_tur : Bytes :=
  [240, 0, 2, 0, 0, 0, 0, 10, 0, 0, 0, 0, 58, 0, 0, 0, 0]

/-- `test_sense.py: test_sense` -/
def test_sense : Bytes :=
  [112, 0, 6, 0, 0, 0, 0, 10, 0, 0, 0, 0, 41, 2, 0, 0, 0, 0]

/-- `test_sense.py: test_sense2` -/
def test_sense2 : Bytes :=
  [112, 0, 5, 0, 0, 0, 0, 10, 0, 0, 0, 0, 36, 0, 0, 200, 0, 1]

/-- `test_sense.py:5-9` -/
example : returns (Sense.fixed test_illegal_request) fun s => s.key == "ILLEGAL_REQUEST" &&
    s.attrs.lookup "response_code.code" == some 112 &&
    s.attrs.lookup "response_code.valid" == some 1 := by decide +kernel

/-- `test_sense.py:11-23` -/
example : returns (Sense.fixed test_tur) fun s => s.key == "NOT_READY" &&
    s.attrs.lookup "response_code.code" == some 112 &&
    s.attrs.lookup "response_code.valid" == some 1 &&
    s.attrs.lookup "ili" == some 0 &&
    s.attrs.lookup "eom" == some 0 &&
    s.attrs.lookup "filemark" == some 0 &&
    s.attrs.lookup "additional_sense_length" == some 10 &&
    s.attrs.lookup "field_replaceable_unit_code" == some 0 &&
    s.attrs.lookup "sense_key_specific_high" == some 0 &&
    s.attrs.lookup "sense_key_specific_low" == some 0 &&
    s.attrs.lookup "sksv" == some 0 &&
    s.attrs.lookup "additional_sense_code.code" == some 58 &&
    s.attrs.lookup "additional_sense_code.qualifier" == some 0 := by decide +kernel

/-- `test_sense.py:25-29` -/
example : returns (Sense.fixed test_sense) fun s => s.key == "UNIT_ATTENTION" &&
    s.attrs.lookup "response_code.code" == some 112 &&
    s.attrs.lookup "response_code.valid" == some 0 := by decide +kernel

/-- `test_sense.py:31-34` -/
example : returns (Sense.fixed test_sense2) fun s => s.key == "ILLEGAL_REQUEST" &&
    s.attrs.lookup "response_code.code" == some 112 &&
    s.attrs.lookup "response_code.valid" == some 0 &&
    s.attrs.lookup "ili" == some 0 &&
    s.attrs.lookup "eom" == some 0 &&
    s.attrs.lookup "filemark" == some 0 &&
    s.attrs.lookup "information" == some 0 &&
    s.attrs.lookup "additional_sense_length" == some 10 &&
    s.attrs.lookup "command_specific_information" == some 0 &&
    s.attrs.lookup "additional_sense_code.code" == some 36 &&
    s.attrs.lookup "additional_sense_code.qualifier" == some 0 &&
    s.attrs.lookup "field_replaceable_unit_code" == some 0 &&
    s.attrs.lookup "sense_key_specific_high" == some 72 &&
    s.attrs.lookup "sksv" == some 1 &&
    s.attrs.lookup "sense_key_specific_low" == some 0 := by decide +kernel

/-- `test_sense.py:18, 34: the names of these codes` -/
example : Sense.codeName 0x3a 0 = .ok "MEDIUM NOT PRESENT" ∧ Sense.codeName 0x24 0 = .ok "INVALID FIELD IN CDB" := by decide +kernel

/-! ## `test_inquiry.py`, `test_designators.py` -/

/-- `test_inquiry.py: test__recorded_example_1` -/
def identification1 : Bytes :=
  [0, 131, 0, 36, 1, 3, 0, 16, 96, 0, 64, 32, 1, 244, 94, 181, 102, 212, 28, 195, 0, 0, 0, 0, 1, 20, 0, 4, 0, 0, 0, 2, 1, 21, 0, 4, 0, 0, 0, 2]

/-- `test_inquiry.py: test__recorded_example_2` -/
def identification2 : Bytes :=
  [0, 131, 0, 100, 1, 3, 0, 8, 87, 66, 176, 240, 16, 48, 0, 0, 2, 0, 0, 19, 105, 112, 61, 50, 53, 49, 46, 50, 53, 50, 46, 50, 53, 51, 46, 50, 53, 52, 0, 
   1, 20, 0, 4, 0, 0, 32, 3, 1, 21, 0, 4, 0, 0, 32, 3, 3, 8, 0, 29, 104, 111, 115, 116, 61, 106, 117, 115, 116, 95, 102, 111, 114, 95, 116, 101, 115, 
   116, 95, 104, 111, 115, 116, 95, 110, 97, 109, 101, 0, 3, 8, 0, 12, 118, 111, 108, 61, 86, 71, 88, 49, 53, 83, 32, 0]

/-- `test_designators.py: test_designator_1` -/
def identification3 : Bytes :=
  [0, 131, 0, 36, 1, 3, 0, 16, 96, 0, 64, 32, 1, 244, 94, 181, 102, 212, 28, 209, 0, 0, 0, 0, 1, 20, 0, 4, 0, 0, 0, 1, 1, 21, 0, 4, 0, 0, 0, 1]

/-- `test_inquiry.py: test__serial_number` -/
def serial : Bytes :=
  [12, 128, 0, 32, 55, 52, 50, 98, 48, 102, 48, 48, 48, 48, 48, 55, 53, 51, 54, 48, 48, 48, 48, 48, 48, 48, 48, 48, 48, 48, 48, 48, 48, 48, 48, 0]

/-- `test_inquiry.py: test__ata_information` -/
def ata1 : Bytes :=
  [0, 137, 2, 56, 0, 0, 0, 0, 108, 105, 110, 117, 120, 32, 32, 32, 108, 105, 98, 97, 116, 97, 32, 32, 32, 32, 32, 32, 32, 32, 32, 32, 83, 84, 54, 79, 
   52, 128, 64, 0, 1, 0, 0, 0, 0, 0, 0, 0, 1, 0, 0, 0, 0, 0, 0, 0, 236, 0, 0, 0, 90, 4, 255, 63, 55, 200, 16, 0, 0, 0, 0, 0, 63, 0, 0, 0, 0, 0, 0, 0, 
   32, 32, 32, 32, 32, 32, 84, 83, 54, 82, 55, 48, 83, 77, 65, 50, 78, 80, 83, 76, 3, 0, 82, 241, 56, 0, 84, 83, 79, 54, 51, 65, 65, 65, 105, 72, 97, 
   116, 104, 99, 32, 105, 68, 72, 55, 69, 49, 50, 49, 48, 83, 48, 65, 76, 51, 51, 32, 48, 32, 32, 32, 32, 32, 32, 32, 32, 32, 32, 32, 32, 32, 32, 32, 
   32, 16, 128, 0, 64, 0, 47, 0, 64, 0, 2, 0, 2, 7, 0, 255, 63, 16, 0, 63, 0, 16, 252, 251, 0, 16, 1, 255, 255, 255, 15, 0, 0, 7, 0, 3, 0, 120, 0, 120, 
   0, 120, 0, 120, 0, 0, 0, 0, 0, 0, 0, 0, 0, 0, 0, 0, 0, 31, 0, 6, 23, 0, 0, 94, 0, 64, 0, 252, 1, 41, 0, 107, 52, 233, 127, 115, 71, 105, 52, 1, 190, 
   99, 71, 127, 64, 162, 0, 0, 0, 0, 0, 254, 255, 0, 0, 254, 128, 8, 0, 202, 0, 249, 0, 16, 39, 0, 0, 176, 109, 112, 116, 0, 0, 0, 0, 202, 0, 0, 0, 0, 
   0, 135, 90, 0, 80, 163, 204, 225, 94, 11, 12, 0, 0, 0, 0, 0, 0, 0, 0, 0, 0, 0, 0, 0, 0, 20, 64, 20, 64, 0, 0, 0, 0, 0, 0, 0, 0, 0, 0, 0, 0, 0, 0, 9, 
   0, 11, 0, 0, 0, 0, 0, 128, 41, 177, 13, 32, 254, 1, 0, 0, 64, 4, 4, 49, 133, 0, 0, 0, 0, 5, 6, 3, 5, 3, 6, 4, 5, 3, 6, 5, 3, 255, 92, 138, 172, 200, 
   68, 0, 128, 0, 0, 88, 54, 51, 67, 0, 0, 6, 232, 0, 0, 0, 0, 0, 0, 0, 0, 0, 0, 0, 0, 0, 0, 0, 0, 0, 0, 0, 0, 0, 0, 0, 0, 0, 0, 0, 0, 0, 0, 0, 0, 0, 0, 
   0, 0, 0, 0, 0, 0, 0, 0, 0, 0, 0, 0, 0, 0, 0, 0, 0, 0, 0, 0, 0, 0, 0, 0, 0, 0, 0, 0, 0, 0, 0, 0, 0, 0, 0, 0, 0, 0, 0, 0, 0, 0, 0, 0, 0, 0, 0, 0, 0, 0, 
   0, 0, 0, 0, 0, 0, 0, 0, 0, 0, 0, 0, 0, 0, 0, 0, 61, 0, 0, 0, 0, 0, 0, 0, 0, 0, 0, 0, 0, 0, 0, 0, 0, 0, 0, 0, 0, 0, 32, 28, 0, 0, 0, 0, 0, 0, 0, 0, 
   31, 16, 33, 0, 0, 0, 0, 0, 0, 0, 0, 0, 0, 0, 0, 0, 0, 0, 0, 0, 0, 0, 0, 0, 1, 0, 224, 3, 0, 0, 0, 0, 0, 0, 0, 0, 0, 0, 0, 0, 0, 0, 0, 0, 0, 0, 0, 0, 
   0, 0, 0, 0, 0, 0, 0, 0, 0, 0, 0, 0, 0, 0, 0, 0, 0, 0, 165, 66]

/-- `test_inquiry.py: test__ata_information_2` -/
def ata2 : Bytes :=
  [0, 137, 2, 56, 0, 0, 0, 0, 76, 83, 73, 32, 32, 32, 32, 32, 76, 83, 73, 83, 83, 50, 53, 120, 48, 32, 32, 32, 32, 32, 32, 32, 48, 48, 48, 48, 52, 64, 
   80, 1, 1, 0, 0, 0, 0, 0, 0, 0, 1, 0, 0, 0, 0, 0, 0, 0, 236, 0, 0, 0, 90, 4, 255, 63, 55, 200, 16, 0, 0, 0, 0, 0, 63, 0, 0, 0, 0, 0, 0, 0, 32, 32, 32, 
   32, 32, 32, 80, 74, 57, 87, 48, 75, 68, 72, 54, 50, 77, 87, 76, 72, 3, 0, 95, 234, 56, 0, 80, 74, 79, 52, 51, 65, 65, 69, 105, 72, 97, 116, 104, 99, 
   32, 105, 85, 72, 55, 65, 50, 50, 49, 48, 67, 48, 65, 76, 51, 51, 32, 48, 32, 32, 32, 32, 32, 32, 32, 32, 32, 32, 32, 32, 32, 32, 32, 32, 16, 128, 0, 
   64, 0, 47, 0, 64, 0, 2, 0, 2, 7, 0, 255, 63, 16, 0, 63, 0, 16, 252, 251, 0, 0, 1, 255, 255, 255, 15, 0, 0, 7, 4, 3, 0, 120, 0, 120, 0, 120, 0, 120, 
   0, 0, 0, 0, 0, 0, 0, 0, 0, 0, 0, 0, 0, 31, 0, 6, 23, 0, 0, 94, 0, 64, 0, 252, 1, 41, 0, 107, 52, 105, 125, 115, 71, 73, 52, 65, 188, 99, 71, 127, 0, 
   116, 0, 0, 0, 0, 0, 254, 255, 0, 0, 0, 0, 8, 0, 202, 0, 249, 0, 16, 39, 0, 0, 176, 109, 112, 116, 0, 0, 0, 0, 202, 0, 0, 0, 0, 0, 135, 90, 0, 80, 
   163, 204, 223, 115, 243, 80, 0, 0, 0, 0, 0, 0, 0, 0, 0, 0, 0, 0, 0, 0, 20, 64, 20, 64, 0, 0, 0, 0, 0, 0, 0, 0, 0, 0, 0, 0, 0, 0, 1, 0, 11, 0, 0, 0, 
   0, 0, 128, 32, 241, 13, 32, 250, 1, 0, 0, 64, 4, 4, 106, 2, 0, 0, 0, 0, 6, 7, 6, 7, 6, 5, 9, 6, 0, 0, 0, 0, 0, 0, 0, 0, 0, 0, 0, 0, 0, 0, 55, 52, 51, 
   72, 0, 0, 4, 120, 0, 0, 189, 93, 211, 161, 0, 128, 0, 0, 0, 0, 0, 0, 0, 0, 0, 0, 0, 0, 0, 0, 0, 0, 2, 0, 0, 0, 0, 0, 0, 0, 0, 0, 0, 0, 0, 0, 0, 0, 0, 
   0, 0, 0, 0, 0, 0, 0, 0, 0, 0, 0, 0, 0, 0, 0, 0, 0, 0, 0, 0, 0, 0, 0, 0, 0, 0, 0, 0, 0, 0, 0, 0, 0, 0, 0, 0, 0, 0, 0, 0, 0, 0, 0, 0, 0, 0, 0, 0, 0, 0, 
   0, 0, 0, 0, 0, 0, 0, 0, 0, 61, 0, 0, 0, 0, 0, 0, 0, 0, 0, 0, 0, 0, 0, 0, 0, 0, 0, 0, 0, 0, 0, 32, 28, 0, 0, 0, 0, 0, 0, 0, 0, 31, 16, 33, 0, 0, 0, 0, 
   0, 0, 0, 0, 0, 0, 0, 0, 0, 0, 0, 0, 0, 0, 0, 0, 0, 1, 0, 224, 3, 0, 0, 0, 0, 0, 0, 0, 0, 0, 0, 0, 0, 0, 0, 0, 0, 0, 0, 0, 0, 0, 0, 0, 0, 0, 0, 0, 0, 
   0, 0, 0, 0, 0, 0, 0, 0, 0, 0, 165, 25]

/-- `test_inquiry.py: test__recorded_example_1` -/
example : Always fun L => returns (deviceIdentification L identification1) fun r => r.2.length == 3 := by decide +kernel

/-- `test_inquiry.py: what the comment on test__recorded_example_1 shows of the page` -/
example : Always fun L => returns (deviceIdentification L identification1) fun r => r.2.map (·.cls) ==
    ["NAA_IEEE_Registered_Extended_Designator", "RelativeTargetPortDesignator", "TargetPortGroupDesignator"] &&
    (r.2.map fun d => (d.attrs.lookup "relative_target_port_identifier", d.attrs.lookup "target_port_group")) == [(none, none), (some 2, none), (none, some 2)] := by decide +kernel

/-- `test_inquiry.py: test__recorded_example_2` -/
example : Always fun L => returns (deviceIdentification L identification2) fun r => r.2.length == 6 := by decide +kernel

/-- `test_inquiry.py: what the comment on test__recorded_example_2 shows of the page` -/
example : Always fun L => returns (deviceIdentification L identification2) fun r => (r.2.map (·.data)) ==
    [[], [("vendor_specific_identifier", [105, 112, 61, 50, 53, 49, 46, 50, 53, 50, 46, 50, 53, 51, 46, 50, 53, 52, 0])], [], [],
     [("scsi_name_string", [104, 111, 115, 116, 61, 106, 117, 115, 116, 95, 102, 111, 114, 95, 116, 101, 115, 116, 95, 104, 111, 115, 116, 95, 110, 97, 109, 101, 0])], [("scsi_name_string", [118, 111, 108, 61, 86, 71, 88, 49, 53, 83, 32, 0])]] := by decide +kernel

/-- `test_designators.py: test_designator_1` -/
example : Always fun L => returns (deviceIdentification L identification3) fun r => r.2.length == 3 := by decide +kernel

/-- `test_inquiry.py: test__serial_number` -/
example : Always fun L => returns (unitSerial L serial) fun r => r.2 == [55, 52, 50, 98, 48, 102, 48, 48, 48, 48, 48, 55, 53, 51, 54, 48, 48, 48, 48, 48, 48, 48, 48, 48, 48, 48, 48, 48, 48, 48, 48] := by decide +kernel

/-- `test_inquiry.py: test__ata_information` -/
example : Always fun L => returns (ataInformation L ata1) fun a => a.vendor == [108, 105, 110, 117, 120] && a.product == [108, 105, 98, 97, 116, 97] &&
    a.revision == [83, 84, 54, 79] && a.identify.firmware == [83, 84, 54, 79, 65, 51, 65, 65] &&
    a.identify.serial == [32, 32, 32, 32, 32, 32, 83, 84, 82, 54, 48, 55, 77, 83, 50, 65, 80, 78, 76, 83] &&
    a.identify.model == [72, 105, 116, 97, 99, 104, 105, 32, 72, 68, 69, 55, 50, 49, 48, 49, 48, 83, 76, 65, 51, 51, 48] := by decide +kernel

/-- `test_inquiry.py: test__ata_information_2` -/
example : Always fun L => returns (ataInformation L ata2) fun a => a.vendor == [76, 83, 73] && a.product == [76, 83, 73, 83, 83, 50, 53, 120, 48] &&
    a.revision == [48, 48, 48, 48] && a.identify.firmware == [74, 80, 52, 79, 65, 51, 69, 65] &&
    a.identify.serial == [32, 32, 32, 32, 32, 32, 74, 80, 87, 57, 75, 48, 72, 68, 50, 54, 87, 77, 72, 76] &&
    a.identify.model == [72, 105, 116, 97, 99, 104, 105, 32, 72, 85, 65, 55, 50, 50, 48, 49, 48, 67, 76, 65, 51, 51, 48] := by decide +kernel

/-! ## `test_standard_inquiry.py` -/

/-- `test_standard_inquiry.py: test_unpack__sas_drive` -/
def sasDrive : Bytes :=
  [0, 0, 5, 2, 159, 0, 16, 2, 65, 84, 65, 32, 32, 32, 32, 32, 72, 105, 116, 97, 99, 104, 105, 32, 72, 68, 80, 55, 50, 53, 48, 53, 65, 53, 67, 65, 71, 
   69, 65, 53, 51, 52, 82, 86, 0, 0, 0, 0, 0, 0, 0, 0, 0, 0, 0, 0, 0, 0, 0, 96, 30, 192, 3, 0, 4, 192, 12, 0, 12, 32, 22, 0, 22, 35, 0, 0, 0, 0, 0, 0, 
   0, 0, 0, 0, 0, 0, 0, 0, 0, 0, 0, 0, 0, 0, 0, 0, 0, 0, 0, 0, 0, 0, 0, 0, 0, 2, 0, 0, 0, 0, 0, 0, 0, 0, 0, 0, 0, 0, 0, 0, 0, 0, 0, 0, 0, 0, 0, 0, 0, 0, 
   0, 0, 0, 0, 0, 0, 0, 0, 0, 0, 0, 0, 0, 0, 0, 0, 0, 0, 0, 0, 0, 0, 0, 0, 0, 0, 0, 0, 0, 0, 0, 0, 0, 0]

/-- `test_standard_inquiry.py: test_unpack__enclosure` -/
def enclosure : Bytes :=
  [13, 0, 3, 2, 31, 0, 64, 0, 83, 65, 83, 32, 69, 32, 32, 32, 120, 50, 56, 45, 48, 53, 46, 55, 53, 46, 66, 48, 48, 50, 32, 32, 48, 48, 48, 32]

/-- `test_standard_inquiry.py: test_pack__enclosure_no_extended_data` -/
def enclosurePacked : Bytes :=
  [13, 0, 3, 2, 31, 0, 64, 0, 83, 65, 83, 32, 69, 32, 32, 32, 120, 50, 56, 45, 48, 53, 46, 55, 53, 46, 66, 48, 48, 50, 32, 32, 48, 48, 48, 32]

/-- `test_standard_inquiry.py: test_unpack__sas_drive` -/
example : Always fun L => returns (standardInquiry L sasDrive) fun r => r.page.attrs.lookup "additional_length" == some 0x9f &&
    r.vendor == [65, 84, 65] && r.product == [72, 105, 116, 97, 99, 104, 105, 32, 72, 68, 80, 55, 50, 53, 48, 53] && r.revision == [65, 53, 67, 65] &&
    (r.extended.bind (·.versions)) == some [0x0060, 0x1ec0, 0x0300, 0x04c0, 0x0c00, 0xc20, 0x1600, 0x1623] := by decide +kernel

/-- `test_standard_inquiry.py: test_unpack__enclosure, with what its comment shows` -/
example : Always fun L => returns (standardInquiry L enclosure) fun r => r.page.peripheral.lookup "type" == some 13 &&
    r.page.attrs.lookup "version" == some 3 &&
    r.page.attrs.lookup "response_data_format" == some 2 &&
    r.page.attrs.lookup "enc_serv" == some 1 &&
    r.page.attrs.lookup "multi_p" == some 0 &&
    r.page.attrs.lookup "additional_length" == some 31 &&
    r.vendor == [83, 65, 83, 32, 69] && r.product == [120, 50, 56, 45, 48, 53, 46, 55, 53, 46, 66, 48, 48, 50] && r.revision == [48, 48, 48] && r.extended.isNone := by decide +kernel

/-- `test_standard_inquiry.py: test_pack__enclosure_no_extended_data` -/
example : Always fun L => returns (packStandard L Lib.strict ⟨13, 0, 0, 0, 3, 2, 0, 0, 0, 0, 0, 0, 0, 0, 0, 1, 0, 0, 0, [83, 65, 83, 32, 69],
    [120, 50, 56, 45, 48, 53, 46, 55, 53, 46, 66, 48, 48, 50], [48, 48, 48], none⟩) (· == enclosurePacked) := by decide +kernel

/-! ## `test_block_limits.py`, `test_logical_block_provisioning.py`, `test_veritas_vpd.py` -/

/-- `test_block_limits.py: test_parsing` -/
example : Always fun L => returns (blockLimits L (List.replicate 64 0)) fun _ => true := by decide +kernel

/-- `test_logical_block_provisioning.py: test_without_provisioning_group_descriptor` -/
example : Always fun L => returns (provisioning L (List.replicate 8 0)) fun r => r.2.isNone := by decide +kernel

/-- `test_logical_block_provisioning.py: test_with_vendor_specific_provisioning_group_descriptor` -/
example : Always fun L => returns (provisioning L (List.replicate 8 0 ++ List.replicate 4 0)) fun r => (r.2.bind (·.data.lookup "vendor_specific_identifier")) == some [] := by decide +kernel

/-- `test_veritas_vpd.py: test_parsing` -/
example : Always fun L => returns (veritas L (List.replicate 6 0)) fun _ => true := by decide +kernel

/-! ## `test_report_luns.py`, `test_receive_copy_operating_parameters.py` -/

/-- `test_report_luns.py: DATA` -/
def luns : Bytes :=
  [0, 0, 1, 88, 0, 0, 0, 0, 0, 0, 0, 0, 0, 0, 0, 0, 0, 0, 0, 0, 0, 0, 0, 1, 0, 0, 0, 0, 0, 0, 0, 2, 0, 0, 0, 0, 0, 0, 0, 3, 0, 0, 0, 0, 0, 0, 0, 4, 0, 
   0, 0, 0, 0, 0, 0, 5, 0, 0, 0, 0, 0, 0, 0, 6, 0, 0, 0, 0, 0, 0, 0, 7, 0, 0, 0, 0, 0, 0, 0, 8, 0, 0, 0, 0, 0, 0, 0, 9, 0, 0, 0, 0, 0, 0, 0, 10, 0, 0, 
   0, 0, 0, 0, 0, 11, 0, 0, 0, 0, 0, 0, 0, 12, 0, 0, 0, 0, 0, 0, 0, 13, 0, 0, 0, 0, 0, 0, 0, 14, 0, 0, 0, 0, 0, 0, 0, 15, 0, 0, 0, 0, 0, 0, 0, 16, 0, 0, 
   0, 0, 0, 0, 0, 17, 0, 0, 0, 0, 0, 0, 0, 18, 0, 0, 0, 0, 0, 0, 0, 19, 0, 0, 0, 0, 0, 0, 0, 20, 0, 0, 0, 0, 0, 0, 0, 21, 0, 0, 0, 0, 0, 0, 0, 22, 0, 0, 
   0, 0, 0, 0, 0, 23, 0, 0, 0, 0, 0, 0, 0, 24, 0, 0, 0, 0, 0, 0, 0, 25, 0, 0, 0, 0, 0, 0, 0, 26, 0, 0, 0, 0, 0, 0, 0, 27, 0, 0, 0, 0, 0, 0, 0, 28, 0, 0, 
   0, 0, 0, 0, 0, 29, 0, 0, 0, 0, 0, 0, 0, 30, 0, 0, 0, 0, 0, 0, 0, 31, 0, 0, 0, 0, 0, 0, 0, 32, 0, 0, 0, 0, 0, 0, 0, 33, 0, 0, 0, 0, 0, 0, 0, 34, 0, 0, 
   0, 0, 0, 0, 0, 35, 0, 0, 0, 0, 0, 0, 0, 36, 0, 0, 0, 0, 0, 0, 0, 37, 0, 0, 0, 0, 0, 0, 0, 38, 0, 0, 0, 0, 0, 0, 0, 39, 0, 0, 0, 0, 0, 0, 0, 40, 0, 0, 
   0, 0, 0, 0, 0, 41, 0, 0, 0, 0, 0, 0, 0, 42]

/-- `test_report_luns.py: test_report_luns_data, of the list before it is normalized (`create_from_string` alone)` -/
example : returns (reportLunsData true luns) fun r => r.entries == List.range 43 := by decide +kernel

/-- `test_receive_copy_operating_parameters.py: the command` -/
def copyCdb : Bytes :=
  [132, 3, 0, 0, 0, 0, 0, 0, 0, 0, 0, 0, 2, 8, 0, 0]

/-- `test_receive_copy_operating_parameters.py: the response` -/
def copyResponse : Bytes :=
  [0, 0, 0, 42, 1, 0, 0, 0, 0, 2, 0, 1, 0, 0, 0, 92, 0, 0, 0, 0, 0, 0, 0, 0, 0, 0, 0, 0, 0, 0, 0, 0, 0, 0, 0, 8, 8, 16, 16, 16, 0, 0, 0, 2, 2, 228, 45, 
   97, 103, 101, 61, 48, 13, 10, 73, 102, 45, 77, 111, 100, 105, 102, 105, 101, 0, 80, 86, 153, 144, 100, 64, 85, 57, 36, 158, 193, 8, 0, 69, 16, 0, 52, 
   45, 57, 64, 0, 63, 6, 66, 241, 192, 168, 10, 103, 172, 16, 84, 106, 213, 67, 0, 22, 126, 228, 204, 224, 149, 79, 71, 197, 128, 16, 1, 97, 216, 143, 
   0, 0, 1, 1, 8, 10, 1, 66, 212, 249, 36, 247, 215, 219, 47, 251, 212, 76, 206, 189, 45, 35, 126, 84, 66, 115, 30, 176, 161, 36, 157, 98, 201, 120, 78, 
   116, 167, 68, 173, 226, 20, 254, 236, 196, 196, 233, 211, 102, 141, 46, 138, 149, 238, 42, 28, 144, 196, 137, 54, 6, 120, 98, 101, 115, 115, 97, 103, 
   101, 73, 68, 61, 34, 51, 79, 67, 48, 65, 67, 34, 47, 62, 42, 83, 61, 183, 17, 148, 71, 165, 163, 38, 158, 113, 73, 116, 129, 122, 235, 203, 45, 39, 
   223, 80, 128, 235, 174, 140, 201, 139, 176, 57, 152, 54, 109, 250, 24, 208, 135, 222, 203, 173, 148, 32, 231, 25, 221, 86, 68, 44, 185, 211, 81, 106, 
   164, 204, 91, 199, 162, 134, 218, 55, 146, 170, 219, 171, 74, 243, 249, 111, 139, 181, 49, 133, 101, 80, 45, 83, 206, 48, 9, 110, 217, 73, 173, 43, 
   52, 158, 164, 91, 132, 250, 105, 150, 94, 14, 117, 109, 221, 7, 102, 37, 3, 169, 183, 74, 3, 46, 218, 37, 225, 77, 30, 243, 171, 69, 185, 139, 142, 
   15, 51, 208, 43, 7, 42, 29, 42, 192, 15, 128, 156, 90, 35, 9, 92, 73, 138, 162, 108, 179, 24, 60, 230, 89, 72, 9, 33, 71, 126, 235, 123, 224, 0, 136, 
   70, 126, 21, 114, 235, 128, 250, 180, 78, 181, 111, 201, 105, 94, 131, 208, 24, 231, 57, 227, 113, 139, 1, 15, 93, 219, 201, 132, 71, 188, 158, 103, 
   110, 10, 150, 193, 201, 75, 157, 162, 72, 53, 245, 170, 17, 240, 62, 15, 180, 182, 194, 43, 56, 158, 198, 126, 227, 242, 237, 206, 132, 58, 129, 39, 
   210, 30, 206, 170, 181, 151, 78, 236, 69, 133, 227, 203, 113, 129, 179, 54, 158, 14, 149, 165, 17, 193, 115, 61, 207, 71, 119, 43, 60, 232, 202, 125, 
   104, 12, 235, 112, 107, 171, 77, 75, 183, 177, 148, 120, 209, 204, 47, 56, 124, 1, 116, 44, 164, 137, 95, 71, 123, 208, 160, 211, 14, 133, 88, 87, 
   120, 169, 21, 110, 53, 223, 185, 196, 1, 154, 179, 179, 17, 95, 114, 38, 219, 210, 151, 238, 170, 159, 99, 28, 248, 87, 163, 73, 144, 243, 100, 83, 
   199, 218, 104, 160, 237, 20, 220, 134, 177, 31, 89]

/-- `test_receive_copy_operating_parameters.py: test_pack_command` -/
example : Packs (fun L => (receiveCopyOperatingParameters L 520 0).map (·.cdb)) copyCdb := by decide +kernel

/-- `test_receive_copy_operating_parameters.py: test_unpack_response` -/
example : ∀ sg, returns (receiveCopy sg copyResponse) (fun r => r.descriptors == [2, 228] &&
    r.attrs.lookup "available_data" == some 42 &&
    r.attrs.lookup "snlid" == some 1 &&
    r.attrs.lookup "max_cscd_descriptor_count" == some 2 &&
    r.attrs.lookup "max_segment_descriptor_count" == some 1 &&
    r.attrs.lookup "max_descriptor_list_length" == some 92 &&
    r.attrs.lookup "max_segment_length" == some 0 &&
    r.attrs.lookup "max_inline_data_length" == some 0 &&
    r.attrs.lookup "held_data_limit" == some 0 &&
    r.attrs.lookup "max_stream_device_transfer_size" == some 0 &&
    r.attrs.lookup "total_concurrent_copies" == some 8 &&
    r.attrs.lookup "max_concurrent_copies" == some 8 &&
    r.attrs.lookup "data_segment_granularity" == some 16 &&
    r.attrs.lookup "inline_data_granularity" == some 16 &&
    r.attrs.lookup "held_data_granularity" == some 16 &&
    r.attrs.lookup "implemented_descriptor_list_length" == some 2) = true := by decide +kernel

/-! ## `test_reserve.py`, `test_release.py` -/

/-- `test_reserve.py: test_generate_command` -/
example : Packs (fun L => (reserve6 L).map (·.cdb)) [22, 0, 0, 0, 0, 0] := by decide +kernel

/-- `test_reserve.py: third_party_device_id=0` -/
example : reserve10 .strict 0 = .ok (.write [86, 0, 0, 0, 0, 0, 0, 0, 0, 0] []) ∧ reserve10 .truncating 0 = .ok (.write [86, 0, 0, 0, 0, 0, 0, 0, 0, 0] []) := by decide +kernel

/-- `test_reserve.py: third_party_device_id=0x77` -/
example : reserve10 .strict 0x77 = .ok (.write [86, 16, 0, 119, 0, 0, 0, 0, 0, 0] []) ∧ reserve10 .truncating 0x77 = .ok (.write [86, 16, 0, 119, 0, 0, 0, 0, 0, 0] []) := by decide +kernel

/-- `test_reserve.py: third_party_device_id=0x177` -/
example : reserve10 .strict 0x177 = .ok (.write [86, 18, 0, 0, 0, 0, 0, 0, 8, 0] [0, 0, 0, 0, 0, 0, 1, 119]) ∧ reserve10 .truncating 0x177 = .ok (.write [86, 18, 0, 0, 0, 0, 0, 0, 8, 0] [0, 0, 0, 0, 0, 0, 1, 119]) := by decide +kernel

/-- `test_reserve.py: third_party_device_id=0xABABABABABABABAB` -/
example : reserve10 .strict 0xABABABABABABABAB = .ok (.write [86, 18, 0, 0, 0, 0, 0, 0, 8, 0] [171, 171, 171, 171, 171, 171, 171, 171]) ∧ reserve10 .truncating 0xABABABABABABABAB = .ok (.write [86, 18, 0, 0, 0, 0, 0, 0, 8, 0] [171, 171, 171, 171, 171, 171, 171, 171]) := by decide +kernel

/-- `test_release.py: test_generate_command` -/
example : Packs (fun L => (release6 L).map (·.cdb)) [23, 0, 0, 0, 0, 0] := by decide +kernel

/-- `test_release.py: third_party_device_id=0` -/
example : release10 .strict 0 = .ok (.write [87, 0, 0, 0, 0, 0, 0, 0, 0, 0] []) ∧ release10 .truncating 0 = .ok (.write [87, 0, 0, 0, 0, 0, 0, 0, 0, 0] []) := by decide +kernel

/-- `test_release.py: third_party_device_id=0x77` -/
example : release10 .strict 0x77 = .ok (.write [87, 16, 0, 119, 0, 0, 0, 0, 0, 0] []) ∧ release10 .truncating 0x77 = .ok (.write [87, 16, 0, 119, 0, 0, 0, 0, 0, 0] []) := by decide +kernel

/-- `test_release.py: third_party_device_id=0x177` -/
example : release10 .strict 0x177 = .ok (.write [87, 18, 0, 0, 0, 0, 0, 0, 8, 0] [0, 0, 0, 0, 0, 0, 1, 119]) ∧ release10 .truncating 0x177 = .ok (.write [87, 18, 0, 0, 0, 0, 0, 0, 8, 0] [0, 0, 0, 0, 0, 0, 1, 119]) := by decide +kernel

/-- `test_release.py: third_party_device_id=0xABABABABABABABAB` -/
example : release10 .strict 0xABABABABABABABAB = .ok (.write [87, 18, 0, 0, 0, 0, 0, 0, 8, 0] [171, 171, 171, 171, 171, 171, 171, 171]) ∧ release10 .truncating 0xABABABABABABABAB = .ok (.write [87, 18, 0, 0, 0, 0, 0, 0, 8, 0] [171, 171, 171, 171, 171, 171, 171, 171]) := by decide +kernel

/-! ## `test_persistent_reserve.py` -/

/-- `test_persistent_reserve.py: TestPersistentReserveIn.test_generate_command` -/
example : Packs (fun L => (persistentReserveIn L 1 0x2000).map (·.cdb)) [94, 1, 0, 0, 0, 0, 0, 32, 0, 0] := by decide +kernel

/-- `test_persistent_reserve.py: test_parse_read_keys` -/
example : ∀ sg, returns (readKeys sg [0, 0, 0, 53, 0, 0, 0, 8, 0, 0, 0, 0, 0, 0, 171, 186])
    (fun r => r.attrs.lookup "pr_generation" == some 0x35 && r.keys == some [0xABBA] && requiredLength r.attrs == 16) = true := by decide +kernel

/-- `test_persistent_reserve.py: PRI_READ_RESERVATIONS_RESPONSE_SAMPLE` -/
def reservation : Bytes :=
  [0, 0, 0, 55, 0, 0, 0, 16, 0, 0, 0, 0, 0, 0, 171, 186, 0, 0, 0, 0, 0, 1, 0, 0]

/-- `test_persistent_reserve.py: test_parse_read_reservations` -/
example : ∀ sg, returns (readReservation sg reservation) (fun r => r.lookup "pr_generation" == some 0x37 && r.lookup "reservation_key" == some 0xABBA &&
    r.lookup "pr_type" == some 1 && r.lookup "scope" == some 0 && requiredLength r == 24) = true := by decide +kernel

/-- `test_persistent_reserve.py: test_parse_report_capabilities_of_infinibox_machine` -/
example : ∀ sg, returns (reportCapabilities sg [0, 8, 16, 0, 0, 0, 0, 0]) (fun r => r.lookup "length" == some 8 &&
    r.lookup "persist_through_power_lost_capable" == some 0 &&
    r.lookup "reserved_1" == some 0 &&
    r.lookup "all_target_ports_capable" == some 0 &&
    r.lookup "specify_initiator_ports_capable" == some 0 &&
    r.lookup "compatible_reservation_handling" == some 1 &&
    r.lookup "reserved_2" == some 0 &&
    r.lookup "replace_lost_reservation_capable" == some 0 &&
    r.lookup "persist_through_power_lost_activates" == some 0 &&
    r.lookup "reserved_3" == some 0 &&
    r.lookup "allow_commands" == some 0 &&
    r.lookup "type_mask_valid" == some 0 &&
    r.lookup "write_exclusive" == some 0 &&
    r.lookup "exclusive_access" == some 0 &&
    r.lookup "write_exclusive_registrants_only" == some 0 &&
    r.lookup "exclusive_access_registrants_only" == some 0 &&
    r.lookup "write_exclusive_all_registrants" == some 0 &&
    r.lookup "exclusive_access_all_registrants" == some 0 &&
    r.lookup "reserved_4" == some 0) = true := by decide +kernel

/-- `test_persistent_reserve.py: test_parse_report_capabilities_of_highly_capable_machine` -/
example : ∀ sg, returns (reportCapabilities sg [0, 8, 137, 241, 162, 1, 0, 0]) (fun r => r.lookup "length" == some 8 &&
    r.lookup "persist_through_power_lost_capable" == some 1 &&
    r.lookup "reserved_1" == some 0 &&
    r.lookup "all_target_ports_capable" == some 0 &&
    r.lookup "specify_initiator_ports_capable" == some 1 &&
    r.lookup "compatible_reservation_handling" == some 0 &&
    r.lookup "reserved_2" == some 0 &&
    r.lookup "replace_lost_reservation_capable" == some 1 &&
    r.lookup "persist_through_power_lost_activates" == some 1 &&
    r.lookup "reserved_3" == some 0 &&
    r.lookup "allow_commands" == some 7 &&
    r.lookup "type_mask_valid" == some 1 &&
    r.lookup "write_exclusive" == some 1 &&
    r.lookup "exclusive_access" == some 0 &&
    r.lookup "write_exclusive_registrants_only" == some 1 &&
    r.lookup "exclusive_access_registrants_only" == some 0 &&
    r.lookup "write_exclusive_all_registrants" == some 1 &&
    r.lookup "exclusive_access_all_registrants" == some 1 &&
    r.lookup "reserved_4" == some 0) = true := by decide +kernel

/-- `test_persistent_reserve.py: PRO_READ_RESERVATIONS_BASIC_PARAMETERS_SAMPLE` -/
def basicList : Bytes :=
  [0, 0, 0, 0, 0, 0, 10, 187, 0, 0, 0, 0, 0, 0, 0, 0, 0, 0, 0, 0, 0, 0, 0, 0]

/-- `test_persistent_reserve.py: PRO_READ_RESERVATIONS_REGISTER_AND_MOVE_PARAMETERS_SAMPLE` -/
def moveList : Bytes :=
  [0, 0, 0, 0, 0, 0, 10, 187, 0, 0, 0, 0, 0, 0, 0, 0, 0, 1, 0, 7, 0, 0, 0, 8, 1, 1, 2, 3, 4, 5, 6, 7]

/-- `test_persistent_reserve.py: TestPersistentReserveOut.test_generate_command` -/
example : Packs (fun L => (persistentReserveOut L ⟨1, 0, 0, 1, 0, 0, 0, 0, 0, none⟩).map (·.cdb)) [95, 1, 1, 0, 0, 0, 0, 0, 24, 0] := by decide +kernel

/-- `test_persistent_reserve.py: test_generate_parameter_list_basic` -/
example : Packs (fun L => proutBasic L ⟨1, 0xabb, 0, 1, 0, 0, 0, 0, 0, none⟩) basicList := by decide +kernel

/-- `test_persistent_reserve.py: test_generate_parameter_list_register_and_move` -/
example : Packs (fun L => proutRegisterAndMove L ⟨7, 0xabb, 0, 1, 1, 0, 0, 0, 7, some ⟨1, 0, [1, 2, 3, 4, 5, 6, 7]⟩⟩) moveList := by decide +kernel

/-! ## `test_diagnostic.py` -/

/-- `test_diagnostic.py: test__supported_pages` -/
def supportedDiagnostic : Bytes :=
  [0, 0, 0, 0, 0, 1, 2, 4, 5, 7, 10, 14, 128]

/-- `test_diagnostic.py: test__vendor0x80_page` -/
def vendor80 : Bytes :=
  [128, 0, 0, 128, 255, 255, 255, 255, 5, 0, 255, 255, 255]

/-- `test_diagnostic.py: SES_CONFIGURATION_PAGE_SAMPLE` -/
def sesConfiguration : Bytes :=
  [1, 0, 0, 204, 0, 0, 0, 1, 34, 0, 8, 36, 80, 0, 147, 208, 0, 95, 192, 0, 78, 69, 87, 73, 83, 89, 83, 32, 78, 68, 83, 45, 52, 54, 48, 48, 45, 74, 68, 
   32, 32, 32, 32, 32, 66, 53, 48, 55, 23, 60, 0, 16, 158, 1, 0, 16, 2, 2, 0, 16, 3, 4, 0, 16, 4, 6, 0, 16, 6, 1, 0, 16, 7, 2, 0, 16, 24, 6, 0, 16, 65, 
   114, 114, 97, 121, 32, 68, 101, 118, 32, 83, 108, 111, 116, 32, 32, 52, 54, 48, 48, 32, 69, 110, 99, 108, 111, 115, 117, 114, 101, 32, 32, 80, 111, 
   119, 101, 114, 32, 83, 117, 112, 112, 108, 121, 32, 32, 32, 32, 67, 111, 111, 108, 105, 110, 103, 32, 70, 97, 110, 32, 32, 32, 32, 32, 84, 101, 109, 
   112, 32, 83, 101, 110, 115, 111, 114, 32, 32, 32, 32, 32, 66, 117, 122, 122, 101, 114, 32, 32, 32, 32, 32, 32, 32, 32, 32, 32, 69, 83, 32, 80, 114, 
   111, 99, 101, 115, 115, 111, 114, 32, 32, 32, 32, 83, 65, 83, 32, 69, 120, 112, 97, 110, 100, 101, 114, 32, 32, 32, 32]

/-- `test_diagnostic.py: SES_ENCL_STATUS_PAGE_SAMPLE` -/
def sesStatus : Bytes :=
  [1, 0, 0, 204, 0, 0, 0, 1, 0, 0, 0, 0, 1, 0, 0, 0, 1, 0, 0, 0, 1, 0, 0, 0, 1, 0, 0, 0, 1, 0, 0, 0, 1, 0, 0, 0, 1, 0, 0, 0, 1, 0, 0, 0, 1, 0, 0, 0, 1, 
   0, 0, 0, 1, 0, 0, 0, 1, 0, 0, 0, 1, 0, 0, 0, 1, 0, 0, 0, 1, 0, 0, 0, 1, 0, 0, 0, 1, 0, 0, 0, 1, 0, 0, 0, 1, 0, 0, 0, 1, 0, 0, 0, 1, 0, 0, 0, 1, 0, 0, 
   0, 1, 0, 0, 0, 1, 0, 0, 0, 1, 0, 0, 0, 1, 0, 0, 0, 1, 0, 0, 0, 1, 0, 0, 0, 1, 0, 0, 0, 1, 0, 0, 0, 1, 0, 0, 0, 1, 0, 0, 0, 1, 0, 0, 0, 1, 0, 0, 0, 1, 
   0, 0, 0, 1, 0, 0, 0, 1, 0, 0, 0, 1, 0, 0, 0, 1, 0, 0, 0, 1, 0, 0, 0, 1, 0, 0, 0, 1, 0, 0, 0, 1, 0, 0, 0, 1, 0, 0, 0, 1, 0, 0, 0, 1, 0, 0, 0, 1, 0, 0, 
   0, 1, 0, 0, 0, 1, 0, 0, 0, 1, 0, 0, 0, 1, 0, 0, 0, 1, 0, 0, 0, 1, 0, 0, 0, 1, 0, 0, 0, 1, 0, 0, 0, 1, 0, 0, 0, 1, 0, 0, 0, 1, 0, 0, 0, 1, 0, 0, 0, 1, 
   0, 0, 0, 0, 0, 0, 0, 1, 0, 0, 0, 0, 0, 0, 32, 1, 0, 0, 32, 1, 0, 0, 32, 0, 0, 0, 0, 1, 3, 137, 37, 1, 3, 142, 37, 1, 3, 139, 37, 1, 3, 144, 37, 0, 0, 
   0, 0, 1, 0, 55, 0, 1, 0, 54, 0, 1, 0, 56, 0, 1, 0, 58, 0, 1, 0, 48, 0, 1, 0, 48, 0, 0, 0, 0, 0, 1, 0, 0, 0, 0, 0, 0, 0, 1, 0, 0, 0, 1, 0, 1, 0, 0, 0, 
   0, 0, 1, 0, 0, 0, 1, 0, 0, 0, 1, 0, 0, 0, 1, 0, 0, 0, 1, 0, 0, 0, 1, 0, 0, 0]

/-- `test_diagnostic.py: SES_ELEMENT_DESCR_PAGE_SAMPLE` -/
def sesDescriptors : Bytes :=
  [1, 0, 0, 204, 0, 0, 0, 1, 0, 0, 0, 0, 0, 0, 0, 12, 83, 76, 79, 84, 32, 32, 49, 32, 48, 48, 32, 32, 0, 0, 0, 12, 83, 76, 79, 84, 32, 32, 50, 32, 48, 
   49, 32, 32, 0, 0, 0, 12, 83, 76, 79, 84, 32, 32, 51, 32, 48, 50, 32, 32, 0, 0, 0, 12, 83, 76, 79, 84, 32, 32, 52, 32, 48, 51, 32, 32, 0, 0, 0, 12, 
   83, 76, 79, 84, 32, 32, 53, 32, 48, 52, 32, 32, 0, 0, 0, 12, 83, 76, 79, 84, 32, 32, 54, 32, 48, 53, 32, 32, 0, 0, 0, 12, 83, 76, 79, 84, 32, 32, 55, 
   32, 48, 54, 32, 32, 0, 0, 0, 12, 83, 76, 79, 84, 32, 32, 56, 32, 48, 55, 32, 32, 0, 0, 0, 12, 83, 76, 79, 84, 32, 32, 57, 32, 48, 56, 32, 32, 0, 0, 
   0, 12, 83, 76, 79, 84, 32, 49, 48, 32, 48, 57, 32, 32, 0, 0, 0, 12, 83, 76, 79, 84, 32, 49, 49, 32, 48, 65, 32, 32, 0, 0, 0, 12, 83, 76, 79, 84, 32, 
   49, 50, 32, 48, 66, 32, 32, 0, 0, 0, 12, 83, 76, 79, 84, 32, 49, 51, 32, 49, 48, 32, 32, 0, 0, 0, 12, 83, 76, 79, 84, 32, 49, 52, 32, 49, 49, 32, 32, 
   0, 0, 0, 12, 83, 76, 79, 84, 32, 49, 53, 32, 49, 50, 32, 32, 0, 0, 0, 12, 83, 76, 79, 84, 32, 49, 54, 32, 49, 51, 32, 32, 0, 0, 0, 12, 83, 76, 79, 
   84, 32, 49, 55, 32, 49, 52, 32, 32, 0, 0, 0, 12, 83, 76, 79, 84, 32, 49, 56, 32, 49, 53, 32, 32, 0, 0, 0, 12, 83, 76, 79, 84, 32, 49, 57, 32, 49, 54, 
   32, 32, 0, 0, 0, 12, 83, 76, 79, 84, 32, 50, 48, 32, 49, 55, 32, 32, 0, 0, 0, 12, 83, 76, 79, 84, 32, 50, 49, 32, 49, 56, 32, 32, 0, 0, 0, 12, 83, 
   76, 79, 84, 32, 50, 50, 32, 49, 57, 32, 32, 0, 0, 0, 12, 83, 76, 79, 84, 32, 50, 51, 32, 49, 65, 32, 32, 0, 0, 0, 12, 83, 76, 79, 84, 32, 50, 52, 32, 
   49, 66, 32, 32, 0, 0, 0, 12, 83, 76, 79, 84, 32, 50, 53, 32, 50, 48, 32, 32, 0, 0, 0, 12, 83, 76, 79, 84, 32, 50, 54, 32, 50, 49, 32, 32, 0, 0, 0, 
   12, 83, 76, 79, 84, 32, 50, 55, 32, 50, 50, 32, 32, 0, 0, 0, 12, 83, 76, 79, 84, 32, 50, 56, 32, 50, 51, 32, 32, 0, 0, 0, 12, 83, 76, 79, 84, 32, 50, 
   57, 32, 50, 52, 32, 32, 0, 0, 0, 12, 83, 76, 79, 84, 32, 51, 48, 32, 50, 53, 32, 32, 0, 0, 0, 12, 83, 76, 79, 84, 32, 51, 49, 32, 50, 54, 32, 32, 0, 
   0, 0, 12, 83, 76, 79, 84, 32, 51, 50, 32, 50, 55, 32, 32, 0, 0, 0, 12, 83, 76, 79, 84, 32, 51, 51, 32, 50, 56, 32, 32, 0, 0, 0, 12, 83, 76, 79, 84, 
   32, 51, 52, 32, 50, 57, 32, 32, 0, 0, 0, 12, 83, 76, 79, 84, 32, 51, 53, 32, 50, 65, 32, 32, 0, 0, 0, 12, 83, 76, 79, 84, 32, 51, 54, 32, 50, 66, 32, 
   32, 0, 0, 0, 12, 83, 76, 79, 84, 32, 51, 55, 32, 51, 48, 32, 32, 0, 0, 0, 12, 83, 76, 79, 84, 32, 51, 56, 32, 51, 49, 32, 32, 0, 0, 0, 12, 83, 76, 
   79, 84, 32, 51, 57, 32, 51, 50, 32, 32, 0, 0, 0, 12, 83, 76, 79, 84, 32, 52, 48, 32, 51, 51, 32, 32, 0, 0, 0, 12, 83, 76, 79, 84, 32, 52, 49, 32, 51, 
   52, 32, 32, 0, 0, 0, 12, 83, 76, 79, 84, 32, 52, 50, 32, 51, 53, 32, 32, 0, 0, 0, 12, 83, 76, 79, 84, 32, 52, 51, 32, 51, 54, 32, 32, 0, 0, 0, 12, 
   83, 76, 79, 84, 32, 52, 52, 32, 51, 55, 32, 32, 0, 0, 0, 12, 83, 76, 79, 84, 32, 52, 53, 32, 51, 56, 32, 32, 0, 0, 0, 12, 83, 76, 79, 84, 32, 52, 54, 
   32, 51, 57, 32, 32, 0, 0, 0, 12, 83, 76, 79, 84, 32, 52, 55, 32, 51, 65, 32, 32, 0, 0, 0, 12, 83, 76, 79, 84, 32, 52, 56, 32, 51, 66, 32, 32, 0, 0, 
   0, 12, 83, 76, 79, 84, 32, 52, 57, 32, 52, 48, 32, 32, 0, 0, 0, 12, 83, 76, 79, 84, 32, 53, 48, 32, 52, 49, 32, 32, 0, 0, 0, 12, 83, 76, 79, 84, 32, 
   53, 49, 32, 52, 50, 32, 32, 0, 0, 0, 12, 83, 76, 79, 84, 32, 53, 50, 32, 52, 51, 32, 32, 0, 0, 0, 12, 83, 76, 79, 84, 32, 53, 51, 32, 52, 52, 32, 32, 
   0, 0, 0, 12, 83, 76, 79, 84, 32, 53, 52, 32, 52, 53, 32, 32, 0, 0, 0, 12, 83, 76, 79, 84, 32, 53, 53, 32, 52, 54, 32, 32, 0, 0, 0, 12, 83, 76, 79, 
   84, 32, 53, 54, 32, 52, 55, 32, 32, 0, 0, 0, 12, 83, 76, 79, 84, 32, 53, 55, 32, 52, 56, 32, 32, 0, 0, 0, 12, 83, 76, 79, 84, 32, 53, 56, 32, 52, 57, 
   32, 32, 0, 0, 0, 12, 83, 76, 79, 84, 32, 53, 57, 32, 52, 65, 32, 32, 0, 0, 0, 12, 83, 76, 79, 84, 32, 54, 48, 32, 52, 66, 32, 32, 0, 0, 0, 0, 0, 0, 
   0, 168, 32, 32, 32, 32, 32, 32, 32, 32, 32, 32, 32, 32, 32, 32, 32, 32, 32, 32, 32, 32, 32, 32, 32, 32, 32, 32, 32, 32, 32, 32, 32, 32, 32, 32, 32, 
   32, 32, 32, 32, 32, 32, 32, 32, 32, 32, 32, 32, 32, 32, 32, 32, 32, 32, 32, 32, 32, 32, 32, 32, 32, 84, 67, 65, 45, 48, 48, 51, 52, 49, 45, 48, 49, 
   45, 66, 45, 65, 50, 32, 32, 32, 77, 88, 69, 51, 52, 48, 48, 48, 50, 56, 56, 82, 66, 48, 51, 49, 84, 67, 65, 45, 48, 48, 51, 52, 48, 45, 48, 49, 45, 
   66, 32, 32, 77, 88, 69, 51, 52, 48, 48, 48, 50, 56, 80, 82, 65, 49, 54, 49, 84, 67, 65, 45, 48, 48, 51, 52, 48, 45, 48, 49, 45, 66, 32, 32, 77, 88, 
   69, 51, 52, 48, 48, 48, 50, 56, 86, 82, 65, 49, 48, 67, 48, 48, 48, 57, 48, 48, 48, 49, 0, 0, 0, 0, 0, 0, 0, 92, 80, 67, 77, 32, 65, 32, 32, 32, 80, 
   87, 82, 45, 48, 48, 48, 53, 57, 45, 48, 49, 45, 66, 48, 48, 84, 72, 68, 69, 76, 48, 48, 48, 49, 53, 78, 82, 69, 49, 50, 70, 65, 49, 48, 48, 48, 48, 
   48, 48, 84, 68, 80, 83, 45, 49, 50, 48, 48, 65, 66, 32, 65, 48, 48, 48, 65, 66, 77, 84, 49, 49, 50, 49, 48, 48, 49, 56, 49, 50, 48, 48, 48, 48, 70, 
   48, 48, 48, 48, 48, 48, 49, 48, 57, 0, 0, 0, 92, 80, 67, 77, 32, 66, 32, 32, 32, 80, 87, 82, 45, 48, 48, 48, 53, 57, 45, 48, 49, 45, 66, 48, 48, 84, 
   72, 68, 69, 76, 48, 48, 48, 49, 53, 78, 82, 69, 49, 53, 51, 65, 49, 48, 48, 48, 48, 48, 48, 84, 68, 80, 83, 45, 49, 50, 48, 48, 65, 66, 32, 65, 48, 
   48, 48, 65, 66, 77, 84, 49, 49, 50, 49, 48, 48, 49, 56, 52, 56, 48, 48, 48, 48, 70, 48, 48, 48, 48, 48, 48, 49, 48, 57, 0, 0, 0, 0, 0, 0, 0, 40, 80, 
   67, 77, 65, 70, 65, 78, 49, 80, 87, 82, 45, 48, 48, 48, 53, 57, 45, 48, 49, 45, 66, 48, 48, 84, 72, 68, 69, 76, 48, 48, 48, 49, 53, 78, 82, 69, 49, 
   50, 70, 0, 0, 0, 40, 80, 67, 77, 65, 70, 65, 78, 50, 80, 87, 82, 45, 48, 48, 48, 53, 57, 45, 48, 49, 45, 66, 48, 48, 84, 72, 68, 69, 76, 48, 48, 48, 
   49, 53, 78, 82, 69, 49, 50, 70, 0, 0, 0, 40, 80, 67, 77, 66, 70, 65, 78, 49, 80, 87, 82, 45, 48, 48, 48, 53, 57, 45, 48, 49, 45, 66, 48, 48, 84, 72, 
   68, 69, 76, 48, 48, 48, 49, 53, 78, 82, 69, 49, 53, 51, 0, 0, 0, 40, 80, 67, 77, 66, 70, 65, 78, 50, 80, 87, 82, 45, 48, 48, 48, 53, 57, 45, 48, 49, 
   45, 66, 48, 48, 84, 72, 68, 69, 76, 48, 48, 48, 49, 53, 78, 82, 69, 49, 53, 51, 0, 0, 0, 0, 0, 0, 0, 44, 80, 67, 77, 32, 65, 32, 32, 32, 80, 87, 82, 
   45, 48, 48, 48, 53, 57, 45, 48, 49, 45, 66, 48, 48, 32, 32, 32, 32, 84, 72, 68, 69, 76, 48, 48, 48, 49, 53, 78, 82, 69, 49, 50, 70, 0, 0, 0, 44, 80, 
   67, 77, 32, 66, 32, 32, 32, 80, 87, 82, 45, 48, 48, 48, 53, 57, 45, 48, 49, 45, 66, 48, 48, 32, 32, 32, 32, 84, 72, 68, 69, 76, 48, 48, 48, 49, 53, 
   78, 82, 69, 49, 53, 51, 0, 0, 0, 44, 73, 79, 77, 32, 65, 32, 32, 32, 84, 67, 65, 45, 48, 48, 51, 52, 48, 45, 48, 49, 45, 66, 32, 32, 32, 32, 32, 32, 
   77, 88, 69, 51, 52, 48, 48, 48, 50, 56, 80, 82, 65, 49, 54, 49, 0, 0, 0, 44, 73, 79, 77, 32, 66, 32, 32, 32, 84, 67, 65, 45, 48, 48, 51, 52, 48, 45, 
   48, 49, 45, 66, 32, 32, 32, 32, 32, 32, 77, 88, 69, 51, 52, 48, 48, 48, 50, 56, 86, 82, 65, 49, 48, 67, 0, 0, 0, 44, 66, 115, 66, 111, 97, 114, 100, 
   49, 84, 67, 65, 45, 48, 48, 51, 52, 49, 45, 48, 49, 45, 66, 45, 65, 50, 32, 32, 32, 77, 88, 69, 51, 52, 48, 48, 48, 50, 56, 56, 82, 66, 48, 51, 49, 
   0, 0, 0, 44, 66, 115, 66, 111, 97, 114, 100, 50, 84, 67, 65, 45, 48, 48, 51, 52, 49, 45, 48, 49, 45, 66, 45, 65, 50, 32, 32, 32, 77, 88, 69, 51, 52, 
   48, 48, 48, 50, 56, 56, 82, 66, 48, 51, 49, 0, 0, 0, 0, 0, 0, 0, 44, 66, 115, 66, 111, 97, 114, 100, 32, 84, 67, 65, 45, 48, 48, 51, 52, 49, 45, 48, 
   49, 45, 66, 45, 65, 50, 32, 32, 32, 77, 88, 69, 51, 52, 48, 48, 48, 50, 56, 56, 82, 66, 48, 51, 49, 0, 0, 0, 0, 0, 0, 0, 48, 73, 79, 77, 32, 65, 32, 
   32, 32, 84, 67, 65, 45, 48, 48, 51, 52, 48, 45, 48, 49, 45, 66, 32, 32, 77, 88, 69, 51, 52, 48, 48, 48, 50, 56, 80, 82, 65, 49, 54, 49, 66, 53, 46, 
   48, 55, 46, 49, 54, 0, 0, 0, 48, 73, 79, 77, 32, 66, 32, 32, 32, 84, 67, 65, 45, 48, 48, 51, 52, 48, 45, 48, 49, 45, 66, 32, 32, 77, 88, 69, 51, 52, 
   48, 48, 48, 50, 56, 86, 82, 65, 49, 48, 67, 66, 53, 46, 48, 55, 46, 49, 54, 0, 0, 0, 0, 0, 0, 0, 56, 83, 88, 80, 95, 65, 95, 80, 32, 84, 67, 65, 45, 
   48, 48, 51, 52, 48, 45, 48, 49, 45, 66, 32, 32, 77, 88, 69, 51, 52, 48, 48, 48, 50, 56, 80, 82, 65, 49, 54, 49, 66, 53, 46, 48, 55, 46, 49, 54, 66, 
   53, 46, 48, 55, 46, 49, 54, 0, 0, 0, 56, 83, 88, 80, 95, 65, 95, 83, 49, 84, 67, 65, 45, 48, 48, 51, 52, 48, 45, 48, 49, 45, 66, 32, 32, 77, 88, 69, 
   51, 52, 48, 48, 48, 50, 56, 80, 82, 65, 49, 54, 49, 66, 53, 46, 48, 55, 46, 49, 54, 66, 53, 46, 48, 55, 46, 49, 54, 0, 0, 0, 56, 83, 88, 80, 95, 65, 
   95, 83, 50, 84, 67, 65, 45, 48, 48, 51, 52, 48, 45, 48, 49, 45, 66, 32, 32, 77, 88, 69, 51, 52, 48, 48, 48, 50, 56, 80, 82, 65, 49, 54, 49, 66, 53, 
   46, 48, 55, 46, 49, 54, 66, 53, 46, 48, 55, 46, 49, 54, 0, 0, 0, 56, 83, 88, 80, 95, 66, 95, 80, 32, 84, 67, 65, 45, 48, 48, 51, 52, 48, 45, 48, 49, 
   45, 66, 32, 32, 77, 88, 69, 51, 52, 48, 48, 48, 50, 56, 86, 82, 65, 49, 48, 67, 66, 53, 46, 48, 55, 46, 49, 54, 66, 53, 46, 48, 55, 46, 49, 54, 0, 0, 
   0, 56, 83, 88, 80, 95, 66, 95, 83, 49, 84, 67, 65, 45, 48, 48, 51, 52, 48, 45, 48, 49, 45, 66, 32, 32, 77, 88, 69, 51, 52, 48, 48, 48, 50, 56, 86, 
   82, 65, 49, 48, 67, 66, 53, 46, 48, 55, 46, 49, 54, 66, 53, 46, 48, 55, 46, 49, 54, 0, 0, 0, 56, 83, 88, 80, 95, 66, 95, 83, 50, 84, 67, 65, 45, 48, 
   48, 51, 52, 48, 45, 48, 49, 45, 66, 32, 32, 77, 88, 69, 51, 52, 48, 48, 48, 50, 56, 86, 82, 65, 49, 48, 67, 66, 53, 46, 48, 55, 46, 49, 54, 66, 53, 
   46, 48, 55, 46, 49, 54]

/-- `test_diagnostic.py: test__supported_pages` -/
example : Always fun L => returns (Ses.bytesPage L supportedDiagnostic) fun r => r.2 == [0x0, 0x1, 0x2, 0x4, 0x5, 0x7, 0xa, 0xe, 0x80] := by decide +kernel

/-- `test_diagnostic.py: test__vendor0x80_page` -/
example : Always fun L => returns (Ses.bytesPage L vendor80) fun r => r.2[4]? == some 0x05 := by decide +kernel

/-- `test_diagnostic.py: test_configuration_diagnostics_page` -/
example : Always fun L => returns (Ses.configuration L sesConfiguration) fun r => r.enclosures.length == 1 && r.headers.length == 8 && r.texts.length == 8 := by decide +kernel

/-- `test_diagnostic.py: what the comment on test_configuration_diagnostics_page shows of the page` -/
example : Always fun L => returns (Ses.configuration L sesConfiguration) fun r =>
    (r.enclosures.map fun e => (e.vendor, e.product, e.revision)) == [([78, 69, 87, 73, 83, 89, 83], [78, 68, 83, 45, 52, 54, 48, 48, 45, 74, 68], [66, 53, 48, 55])] &&
    (r.headers.map fun h => (h.lookup "element_type", h.lookup "possible_elements_num")) == [(some 0x17, some 60), (some 0x9e, some 1), (some 2, some 2),
      (some 3, some 4), (some 4, some 6), (some 6, some 1), (some 7, some 2), (some 0x18, some 6)] := by decide +kernel

/-- `test_diagnostic.py: test_enclosure_status_diagnostics_page` -/
example : Always fun L => returns (do let c ← Ses.configuration L sesConfiguration; let s ← Ses.enclosureStatus L c sesStatus; .ok (c, s)) fun r =>
    r.2.descriptors.length == r.1.headers.length &&
    (r.2.descriptors.map fun d => some (d.individual.length : Int)) == r.1.headers.map (·.lookup "possible_elements_num") := by decide +kernel

/-- `test_diagnostic.py: test_element_descriptor_diagnostics_page` -/
example : Always fun L => returns (do let c ← Ses.configuration L sesConfiguration; let s ← Ses.elementDescriptors L c sesDescriptors; .ok (c, s)) fun r =>
    r.2.descriptors.length == r.1.headers.length &&
    (r.2.descriptors.map fun d => some (d.individual.length : Int)) == r.1.headers.map (·.lookup "possible_elements_num") := by decide +kernel

/-! ## `test_ses_pages.py`

The tests ask only that `unpack` does not raise. `PAGE_01` and `PAGE_02` were recorded without their first four bytes, so what is unpacked is nonsense:
the number of type descriptor headers is read from a byte 93h. As an unsigned number it asks for 147 headers and the page is too short; as a signed number
it is negative, and there are none. The tests pass only in the second case. This is the one recorded example that tells the two readings of
`be_int_field` apart. -/

/-- `test_ses_pages.py: RECEIVE_DIAGNOSTICS_RESULT_PAGE_00` -/
def page00 : Bytes :=
  [0, 0, 0, 9, 0, 1, 2, 4, 5, 7, 10, 14, 128]

/-- `test_ses_pages.py: RECEIVE_DIAGNOSTICS_RESULT_PAGE_01` -/
def page01 : Bytes :=
  [0, 0, 0, 1, 18, 0, 8, 37, 80, 0, 147, 208, 1, 60, 64, 0, 78, 69, 87, 73, 83, 89, 83, 32, 78, 68, 83, 45, 52, 54, 48, 48, 45, 74, 68, 32, 32, 32, 32, 
   32, 48, 53, 48, 57, 5, 23, 60, 0, 16, 158, 1, 0, 16, 2, 2, 0, 16, 3, 4, 0, 16, 4, 6, 0, 16, 6, 1, 0, 16, 7, 2, 0, 16, 24, 6, 0, 16, 65, 114, 114, 97, 
   121, 32, 68, 101, 118, 32, 83, 108, 111, 116, 32, 32, 52, 54, 48, 48, 32, 69, 110, 99, 108, 111, 115, 117, 114, 101, 32, 32, 80, 111, 119, 101, 114, 
   32, 83, 117, 112, 112, 108, 121, 32, 32, 32, 32, 67, 111, 111, 108, 105, 110, 103, 32, 70, 97, 110, 32, 32, 32, 32, 32, 84, 101, 109, 112, 32, 83, 
   101, 110, 115, 111, 114, 32, 32, 32, 32, 32, 66, 117, 122, 122, 101, 114, 32, 32, 32, 32, 32, 32, 32, 32, 32, 32, 69, 83, 32, 80, 114, 111, 99, 101, 
   115, 115, 111, 114, 32, 32, 32, 32, 83, 65, 83, 32, 69, 120, 112, 97, 110, 100, 101, 114, 32, 32, 32, 32]

/-- `test_ses_pages.py: RECEIVE_DIAGNOSTICS_RESULT_PAGE_01_ALT` -/
def page01alt : Bytes :=
  [1, 0, 0, 205, 0, 0, 0, 1, 18, 0, 8, 37, 80, 0, 147, 208, 1, 69, 64, 0, 78, 69, 87, 73, 83, 89, 83, 32, 78, 68, 83, 45, 52, 54, 48, 48, 45, 74, 68, 
   32, 32, 32, 32, 32, 48, 53, 48, 57, 1, 23, 60, 0, 16, 158, 1, 0, 16, 2, 2, 0, 16, 3, 4, 0, 16, 4, 6, 0, 16, 6, 1, 0, 16, 7, 2, 0, 16, 24, 6, 0, 16, 
   65, 114, 114, 97, 121, 32, 68, 101, 118, 32, 83, 108, 111, 116, 32, 32, 52, 54, 48, 48, 32, 69, 110, 99, 108, 111, 115, 117, 114, 101, 32, 32, 80, 
   111, 119, 101, 114, 32, 83, 117, 112, 112, 108, 121, 32, 32, 32, 32, 67, 111, 111, 108, 105, 110, 103, 32, 70, 97, 110, 32, 32, 32, 32, 32, 84, 101, 
   109, 112, 32, 83, 101, 110, 115, 111, 114, 32, 32, 32, 32, 32, 66, 117, 122, 122, 101, 114, 32, 32, 32, 32, 32, 32, 32, 32, 32, 32, 69, 83, 32, 80, 
   114, 111, 99, 101, 115, 115, 111, 114, 32, 32, 32, 32, 83, 65, 83, 32, 69, 120, 112, 97, 110, 100, 101, 114, 32, 32, 32, 32]

/-- `test_ses_pages.py: RECEIVE_DIAGNOSTICS_RESULT_PAGE_02` -/
def page02 : Bytes :=
  [0, 0, 0, 1, 0, 0, 0, 0, 1, 0, 0, 0, 1, 0, 0, 0, 1, 0, 0, 0, 1, 0, 0, 0, 1, 0, 0, 0, 1, 0, 0, 0, 1, 0, 0, 0, 1, 0, 0, 0, 1, 0, 0, 0, 1, 0, 0, 0, 1, 0, 
   0, 0, 1, 0, 0, 0, 1, 0, 0, 0, 1, 0, 0, 0, 1, 0, 0, 0, 1, 0, 0, 0, 1, 0, 0, 0, 1, 0, 0, 0, 1, 0, 0, 0, 1, 0, 0, 0, 1, 0, 0, 0, 1, 0, 0, 0, 1, 0, 0, 0, 
   1, 0, 0, 0, 1, 0, 0, 0, 1, 0, 0, 0, 1, 0, 0, 0, 1, 0, 0, 0, 1, 0, 0, 0, 1, 0, 0, 0, 1, 0, 0, 0, 1, 0, 0, 0, 1, 0, 0, 0, 1, 0, 0, 0, 1, 0, 0, 0, 1, 0, 
   0, 0, 1, 0, 0, 0, 1, 0, 0, 0, 1, 0, 0, 0, 1, 0, 0, 0, 1, 0, 0, 0, 1, 0, 0, 0, 1, 0, 0, 0, 1, 0, 0, 0, 1, 0, 0, 0, 1, 0, 0, 0, 1, 0, 0, 0, 1, 0, 0, 0, 
   1, 0, 0, 0, 1, 0, 0, 0, 1, 0, 0, 0, 1, 0, 0, 0, 1, 0, 0, 0, 1, 0, 0, 0, 1, 0, 0, 0, 1, 0, 0, 0, 1, 0, 0, 0, 1, 0, 0, 0, 1, 0, 0, 0, 1, 0, 0, 0, 0, 0, 
   0, 0, 1, 0, 0, 0, 0, 0, 0, 32, 1, 0, 0, 32, 1, 0, 0, 32, 0, 0, 0, 0, 1, 2, 188, 34, 1, 2, 193, 34, 1, 2, 203, 34, 1, 2, 195, 34, 0, 0, 0, 0, 1, 0, 
   52, 0, 1, 0, 51, 0, 1, 0, 54, 0, 1, 0, 55, 0, 1, 0, 43, 0, 1, 0, 42, 0, 32, 0, 0, 0, 33, 0, 0, 0, 0, 0, 0, 0, 1, 0, 1, 0, 1, 0, 0, 0, 0, 0, 0, 0, 1, 
   0, 0, 0, 1, 0, 0, 0, 1, 0, 0, 0, 1, 0, 0, 0, 1, 0, 0, 0, 1, 0, 0, 0]

/-- `test_ses_pages.py: RECEIVE_DIAGNOSTICS_RESULT_PAGE_07` -/
def page07 : Bytes :=
  [7, 0, 9, 32, 0, 0, 0, 1, 0, 0, 0, 0, 0, 0, 0, 12, 83, 76, 79, 84, 32, 32, 49, 32, 48, 48, 32, 32, 0, 0, 0, 12, 83, 76, 79, 84, 32, 32, 50, 32, 48, 
   49, 32, 32, 0, 0, 0, 12, 83, 76, 79, 84, 32, 32, 51, 32, 48, 50, 32, 32, 0, 0, 0, 12, 83, 76, 79, 84, 32, 32, 52, 32, 48, 51, 32, 32, 0, 0, 0, 12, 
   83, 76, 79, 84, 32, 32, 53, 32, 48, 52, 32, 32, 0, 0, 0, 12, 83, 76, 79, 84, 32, 32, 54, 32, 48, 53, 32, 32, 0, 0, 0, 12, 83, 76, 79, 84, 32, 32, 55, 
   32, 48, 54, 32, 32, 0, 0, 0, 12, 83, 76, 79, 84, 32, 32, 56, 32, 48, 55, 32, 32, 0, 0, 0, 12, 83, 76, 79, 84, 32, 32, 57, 32, 48, 56, 32, 32, 0, 0, 
   0, 12, 83, 76, 79, 84, 32, 49, 48, 32, 48, 57, 32, 32, 0, 0, 0, 12, 83, 76, 79, 84, 32, 49, 49, 32, 48, 65, 32, 32, 0, 0, 0, 12, 83, 76, 79, 84, 32, 
   49, 50, 32, 48, 66, 32, 32, 0, 0, 0, 12, 83, 76, 79, 84, 32, 49, 51, 32, 49, 48, 32, 32, 0, 0, 0, 12, 83, 76, 79, 84, 32, 49, 52, 32, 49, 49, 32, 32, 
   0, 0, 0, 12, 83, 76, 79, 84, 32, 49, 53, 32, 49, 50, 32, 32, 0, 0, 0, 12, 83, 76, 79, 84, 32, 49, 54, 32, 49, 51, 32, 32, 0, 0, 0, 12, 83, 76, 79, 
   84, 32, 49, 55, 32, 49, 52, 32, 32, 0, 0, 0, 12, 83, 76, 79, 84, 32, 49, 56, 32, 49, 53, 32, 32, 0, 0, 0, 12, 83, 76, 79, 84, 32, 49, 57, 32, 49, 54, 
   32, 32, 0, 0, 0, 12, 83, 76, 79, 84, 32, 50, 48, 32, 49, 55, 32, 32, 0, 0, 0, 12, 83, 76, 79, 84, 32, 50, 49, 32, 49, 56, 32, 32, 0, 0, 0, 12, 83, 
   76, 79, 84, 32, 50, 50, 32, 49, 57, 32, 32, 0, 0, 0, 12, 83, 76, 79, 84, 32, 50, 51, 32, 49, 65, 32, 32, 0, 0, 0, 12, 83, 76, 79, 84, 32, 50, 52, 32, 
   49, 66, 32, 32, 0, 0, 0, 12, 83, 76, 79, 84, 32, 50, 53, 32, 50, 48, 32, 32, 0, 0, 0, 12, 83, 76, 79, 84, 32, 50, 54, 32, 50, 49, 32, 32, 0, 0, 0, 
   12, 83, 76, 79, 84, 32, 50, 55, 32, 50, 50, 32, 32, 0, 0, 0, 12, 83, 76, 79, 84, 32, 50, 56, 32, 50, 51, 32, 32, 0, 0, 0, 12, 83, 76, 79, 84, 32, 50, 
   57, 32, 50, 52, 32, 32, 0, 0, 0, 12, 83, 76, 79, 84, 32, 51, 48, 32, 50, 53, 32, 32, 0, 0, 0, 12, 83, 76, 79, 84, 32, 51, 49, 32, 50, 54, 32, 32, 0, 
   0, 0, 12, 83, 76, 79, 84, 32, 51, 50, 32, 50, 55, 32, 32, 0, 0, 0, 12, 83, 76, 79, 84, 32, 51, 51, 32, 50, 56, 32, 32, 0, 0, 0, 12, 83, 76, 79, 84, 
   32, 51, 52, 32, 50, 57, 32, 32, 0, 0, 0, 12, 83, 76, 79, 84, 32, 51, 53, 32, 50, 65, 32, 32, 0, 0, 0, 12, 83, 76, 79, 84, 32, 51, 54, 32, 50, 66, 32, 
   32, 0, 0, 0, 12, 83, 76, 79, 84, 32, 51, 55, 32, 51, 48, 32, 32, 0, 0, 0, 12, 83, 76, 79, 84, 32, 51, 56, 32, 51, 49, 32, 32, 0, 0, 0, 12, 83, 76, 
   79, 84, 32, 51, 57, 32, 51, 50, 32, 32, 0, 0, 0, 12, 83, 76, 79, 84, 32, 52, 48, 32, 51, 51, 32, 32, 0, 0, 0, 12, 83, 76, 79, 84, 32, 52, 49, 32, 51, 
   52, 32, 32, 0, 0, 0, 12, 83, 76, 79, 84, 32, 52, 50, 32, 51, 53, 32, 32, 0, 0, 0, 12, 83, 76, 79, 84, 32, 52, 51, 32, 51, 54, 32, 32, 0, 0, 0, 12, 
   83, 76, 79, 84, 32, 52, 52, 32, 51, 55, 32, 32, 0, 0, 0, 12, 83, 76, 79, 84, 32, 52, 53, 32, 51, 56, 32, 32, 0, 0, 0, 12, 83, 76, 79, 84, 32, 52, 54, 
   32, 51, 57, 32, 32, 0, 0, 0, 12, 83, 76, 79, 84, 32, 52, 55, 32, 51, 65, 32, 32, 0, 0, 0, 12, 83, 76, 79, 84, 32, 52, 56, 32, 51, 66, 32, 32, 0, 0, 
   0, 12, 83, 76, 79, 84, 32, 52, 57, 32, 52, 48, 32, 32, 0, 0, 0, 12, 83, 76, 79, 84, 32, 53, 48, 32, 52, 49, 32, 32, 0, 0, 0, 12, 83, 76, 79, 84, 32, 
   53, 49, 32, 52, 50, 32, 32, 0, 0, 0, 12, 83, 76, 79, 84, 32, 53, 50, 32, 52, 51, 32, 32, 0, 0, 0, 12, 83, 76, 79, 84, 32, 53, 51, 32, 52, 52, 32, 32, 
   0, 0, 0, 12, 83, 76, 79, 84, 32, 53, 52, 32, 52, 53, 32, 32, 0, 0, 0, 12, 83, 76, 79, 84, 32, 53, 53, 32, 52, 54, 32, 32, 0, 0, 0, 12, 83, 76, 79, 
   84, 32, 53, 54, 32, 52, 55, 32, 32, 0, 0, 0, 12, 83, 76, 79, 84, 32, 53, 55, 32, 52, 56, 32, 32, 0, 0, 0, 12, 83, 76, 79, 84, 32, 53, 56, 32, 52, 57, 
   32, 32, 0, 0, 0, 12, 83, 76, 79, 84, 32, 53, 57, 32, 52, 65, 32, 32, 0, 0, 0, 12, 83, 76, 79, 84, 32, 54, 48, 32, 52, 66, 32, 32, 0, 0, 0, 0, 0, 0, 
   0, 168, 32, 32, 32, 32, 32, 32, 32, 32, 32, 32, 32, 32, 32, 32, 32, 32, 32, 32, 32, 32, 32, 32, 32, 32, 32, 32, 32, 32, 32, 32, 32, 32, 32, 32, 32, 
   32, 32, 32, 32, 32, 32, 32, 32, 32, 32, 32, 32, 32, 32, 32, 32, 32, 32, 32, 32, 32, 32, 32, 32, 32, 84, 67, 65, 45, 48, 48, 51, 52, 49, 45, 48, 49, 
   45, 66, 45, 65, 50, 32, 32, 32, 77, 88, 69, 51, 52, 48, 48, 48, 51, 51, 81, 82, 66, 48, 48, 51, 84, 67, 65, 45, 48, 48, 51, 52, 48, 45, 48, 49, 45, 
   66, 32, 32, 77, 88, 69, 51, 52, 48, 48, 48, 50, 65, 73, 82, 65, 48, 68, 67, 84, 67, 65, 45, 48, 48, 51, 52, 48, 45, 48, 49, 45, 66, 32, 32, 77, 88, 
   69, 51, 52, 48, 48, 48, 50, 56, 86, 82, 65, 48, 69, 54, 48, 48, 48, 66, 48, 48, 48, 49, 0, 0, 0, 0, 0, 0, 0, 92, 80, 67, 77, 32, 65, 32, 32, 32, 80, 
   87, 82, 45, 48, 48, 48, 53, 57, 45, 48, 49, 45, 66, 48, 48, 84, 72, 68, 69, 76, 48, 48, 48, 49, 51, 86, 82, 69, 48, 52, 51, 65, 49, 48, 48, 48, 48, 
   48, 48, 84, 68, 80, 83, 45, 49, 50, 48, 48, 65, 66, 32, 65, 48, 48, 48, 65, 66, 77, 84, 49, 49, 49, 51, 48, 48, 48, 54, 54, 54, 48, 48, 83, 52, 70, 
   48, 48, 48, 48, 48, 48, 49, 48, 57, 0, 0, 0, 92, 80, 67, 77, 32, 66, 32, 32, 32, 80, 87, 82, 45, 48, 48, 48, 53, 57, 45, 48, 49, 45, 66, 48, 48, 84, 
   72, 68, 69, 76, 48, 48, 48, 49, 51, 86, 82, 69, 48, 51, 70, 65, 49, 48, 48, 48, 48, 48, 48, 84, 68, 80, 83, 45, 49, 50, 48, 48, 65, 66, 32, 65, 48, 
   48, 48, 65, 66, 77, 84, 49, 49, 49, 51, 48, 48, 48, 54, 54, 50, 48, 48, 83, 52, 70, 48, 48, 48, 48, 48, 48, 49, 48, 57, 0, 0, 0, 0, 0, 0, 0, 40, 80, 
   67, 77, 65, 70, 65, 78, 49, 80, 87, 82, 45, 48, 48, 48, 53, 57, 45, 48, 49, 45, 66, 48, 48, 84, 72, 68, 69, 76, 48, 48, 48, 49, 51, 86, 82, 69, 48, 
   52, 51, 0, 0, 0, 40, 80, 67, 77, 65, 70, 65, 78, 50, 80, 87, 82, 45, 48, 48, 48, 53, 57, 45, 48, 49, 45, 66, 48, 48, 84, 72, 68, 69, 76, 48, 48, 48, 
   49, 51, 86, 82, 69, 48, 52, 51, 0, 0, 0, 40, 80, 67, 77, 66, 70, 65, 78, 49, 80, 87, 82, 45, 48, 48, 48, 53, 57, 45, 48, 49, 45, 66, 48, 48, 84, 72, 
   68, 69, 76, 48, 48, 48, 49, 51, 86, 82, 69, 48, 51, 70, 0, 0, 0, 40, 80, 67, 77, 66, 70, 65, 78, 50, 80, 87, 82, 45, 48, 48, 48, 53, 57, 45, 48, 49, 
   45, 66, 48, 48, 84, 72, 68, 69, 76, 48, 48, 48, 49, 51, 86, 82, 69, 48, 51, 70, 0, 0, 0, 0, 0, 0, 0, 44, 80, 67, 77, 32, 65, 32, 32, 32, 80, 87, 82, 
   45, 48, 48, 48, 53, 57, 45, 48, 49, 45, 66, 48, 48, 32, 32, 32, 32, 84, 72, 68, 69, 76, 48, 48, 48, 49, 51, 86, 82, 69, 48, 52, 51, 0, 0, 0, 44, 80, 
   67, 77, 32, 66, 32, 32, 32, 80, 87, 82, 45, 48, 48, 48, 53, 57, 45, 48, 49, 45, 66, 48, 48, 32, 32, 32, 32, 84, 72, 68, 69, 76, 48, 48, 48, 49, 51, 
   86, 82, 69, 48, 51, 70, 0, 0, 0, 44, 73, 79, 77, 32, 65, 32, 32, 32, 84, 67, 65, 45, 48, 48, 51, 52, 48, 45, 48, 49, 45, 66, 32, 32, 32, 32, 32, 32, 
   77, 88, 69, 51, 52, 48, 48, 48, 50, 65, 73, 82, 65, 48, 68, 67, 0, 0, 0, 44, 73, 79, 77, 32, 66, 32, 32, 32, 84, 67, 65, 45, 48, 48, 51, 52, 48, 45, 
   48, 49, 45, 66, 32, 32, 32, 32, 32, 32, 77, 88, 69, 51, 52, 48, 48, 48, 50, 56, 86, 82, 65, 48, 69, 54, 0, 0, 0, 44, 66, 115, 66, 111, 97, 114, 100, 
   49, 84, 67, 65, 45, 48, 48, 51, 52, 49, 45, 48, 49, 45, 66, 45, 65, 50, 32, 32, 32, 77, 88, 69, 51, 52, 48, 48, 48, 51, 51, 81, 82, 66, 48, 48, 51, 
   0, 0, 0, 44, 66, 115, 66, 111, 97, 114, 100, 50, 84, 67, 65, 45, 48, 48, 51, 52, 49, 45, 48, 49, 45, 66, 45, 65, 50, 32, 32, 32, 77, 88, 69, 51, 52, 
   48, 48, 48, 51, 51, 81, 82, 66, 48, 48, 51, 0, 0, 0, 0, 0, 0, 0, 44, 66, 115, 66, 111, 97, 114, 100, 32, 84, 67, 65, 45, 48, 48, 51, 52, 49, 45, 48, 
   49, 45, 66, 45, 65, 50, 32, 32, 32, 77, 88, 69, 51, 52, 48, 48, 48, 51, 51, 81, 82, 66, 48, 48, 51, 0, 0, 0, 0, 0, 0, 0, 48, 73, 79, 77, 32, 65, 32, 
   32, 32, 84, 67, 65, 45, 48, 48, 51, 52, 48, 45, 48, 49, 45, 66, 32, 32, 77, 88, 69, 51, 52, 48, 48, 48, 50, 65, 73, 82, 65, 48, 68, 67, 48, 53, 46, 
   48, 57, 46, 48, 48, 0, 0, 0, 48, 73, 79, 77, 32, 66, 32, 32, 32, 84, 67, 65, 45, 48, 48, 51, 52, 48, 45, 48, 49, 45, 66, 32, 32, 77, 88, 69, 51, 52, 
   48, 48, 48, 50, 56, 86, 82, 65, 48, 69, 54, 48, 53, 46, 48, 57, 46, 48, 48, 0, 0, 0, 0, 0, 0, 0, 56, 83, 88, 80, 95, 65, 95, 80, 32, 84, 67, 65, 45, 
   48, 48, 51, 52, 48, 45, 48, 49, 45, 66, 32, 32, 77, 88, 69, 51, 52, 48, 48, 48, 50, 65, 73, 82, 65, 48, 68, 67, 48, 53, 46, 48, 57, 46, 48, 48, 48, 
   53, 46, 48, 57, 46, 48, 48, 0, 0, 0, 56, 83, 88, 80, 95, 65, 95, 83, 49, 84, 67, 65, 45, 48, 48, 51, 52, 48, 45, 48, 49, 45, 66, 32, 32, 77, 88, 69, 
   51, 52, 48, 48, 48, 50, 65, 73, 82, 65, 48, 68, 67, 48, 53, 46, 48, 57, 46, 48, 48, 48, 53, 46, 48, 57, 46, 48, 48, 0, 0, 0, 56, 83, 88, 80, 95, 65, 
   95, 83, 50, 84, 67, 65, 45, 48, 48, 51, 52, 48, 45, 48, 49, 45, 66, 32, 32, 77, 88, 69, 51, 52, 48, 48, 48, 50, 65, 73, 82, 65, 48, 68, 67, 48, 53, 
   46, 48, 57, 46, 48, 48, 48, 53, 46, 48, 57, 46, 48, 48, 0, 0, 0, 56, 83, 88, 80, 95, 66, 95, 80, 32, 84, 67, 65, 45, 48, 48, 51, 52, 48, 45, 48, 49, 
   45, 66, 32, 32, 77, 88, 69, 51, 52, 48, 48, 48, 50, 56, 86, 82, 65, 48, 69, 54, 48, 53, 46, 48, 57, 46, 48, 48, 48, 53, 46, 48, 57, 46, 48, 48, 0, 0, 
   0, 56, 83, 88, 80, 95, 66, 95, 83, 49, 84, 67, 65, 45, 48, 48, 51, 52, 48, 45, 48, 49, 45, 66, 32, 32, 77, 88, 69, 51, 52, 48, 48, 48, 50, 56, 86, 
   82, 65, 48, 69, 54, 48, 53, 46, 48, 57, 46, 48, 48, 48, 53, 46, 48, 57, 46, 48, 48, 0, 0, 0, 56, 83, 88, 80, 95, 66, 95, 83, 50, 84, 67, 65, 45, 48, 
   48, 51, 52, 48, 45, 48, 49, 45, 66, 32, 32, 77, 88, 69, 51, 52, 48, 48, 48, 50, 56, 86, 82, 65, 48, 69, 54, 48, 53, 46, 48, 57, 46, 48, 48, 48, 53, 
   46, 48, 57, 46, 48, 48]

/-- `test_ses_pages.py: test_page_00` -/
example : Always fun L => returns (Ses.bytesPage L page00) fun r => r.2 == [0, 1, 2, 4, 5, 7, 0xa, 0xe, 0x80] := by decide +kernel

/-- `test_ses_pages.py: test_page_01: passes exactly if `be_int_field` is signed by default` -/
example : Always fun L => returns (Ses.configuration L page01) (fun _ => true) == L.sg := by decide +kernel

/-- `test_ses_pages.py: test_page_01_alt` -/
example : Always fun L => returns (Ses.configuration L page01alt) (fun r => r.headers.length == 8) := by decide +kernel

/-- `test_ses_pages.py: test_page_02` -/
example : Always fun L => !L.sg || returns (do let c ← Ses.configuration L page01; Ses.enclosureStatus L c page02) fun _ => true := by decide +kernel

/-- `test_ses_pages.py: test_page_07` -/
example : Always fun L => !L.sg || returns (do let c ← Ses.configuration L page01; Ses.elementDescriptors L c page07) fun _ => true := by decide +kernel

/-- `test_ses_pages.py: the element descriptors with the configuration recorded with its header` -/
example : Always fun L => returns (do let c ← Ses.configuration L page01alt; Ses.elementDescriptors L c page07) fun r => r.descriptors.map (·.individual.length) == [60, 1, 2, 4, 6, 1, 2, 6] := by decide +kernel

/-! ## Declared structures are made of whole bytes

`infi.instruct` groups consecutive bit fields into bytes; a group that is not a whole number of bytes cannot be declared. The model does not check this
when packing, so it is checked here for the structures of the model. -/

/-- Every group of bits is a whole number of bytes. -/
def whole (ds : List Decl) : Bool := ds.all fun | .bits bs => bitsWidth bs % 8 == 0 | _ => true

example : [read10Fields, read12Fields, read16Fields, write10Fields, write12Fields, write16Fields, writeSame10Fields, writeSame16Fields,
    compareAndWriteFields, unmapFields, Sense.fixedDecls, Sense.descriptorHeader, capacity10Decls, capacity16Decls].all whole := by decide

example (op : Nat) : whole (fields6 op) := by simp [whole, fields6, opcode, Cdb.control, bitsWidth, BitDecl.width]

end Verif.Recorded
