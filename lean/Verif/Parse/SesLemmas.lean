import Verif.Parse.Ses
import Verif.Parse.InquiryLemmas
import Verif.Spec.Ses
/-!
# Lemmas about the SES parsers
-/

set_option linter.unusedSimpArgs false

namespace Verif.Parse.Ses

open Verif.Spec

/-- How the library reads a status element: the parameters that `/repo` leaves open, and the requests of byte 2. -/
def reading (L : BufLib) : Spec.Ses.Reading := ⟨L.sg, L.sg, L.lowFirst, 2⟩

def elementObject (L : BufLib) (code : Nat) (e : Bytes) : StatusElement :=
  ⟨Spec.Ses.className code, Spec.Ses.common e, Spec.Ses.info (reading L) code e, Spec.Ses.general (reading L) code e⟩

theorem statusClass_other (n : Nat) (h : n = 0 ∨ 0x19 < n) : statusClass n = generalStatus := by
  unfold statusClass
  rcases h with rfl | h
  · rfl
  by_cases h9 : n = 0x9e
  · subst h9; rfl
  have : elementTypes.lookup (n : Int) = none := by
    rw [List.lookup_eq_none_iff]
    simp [elementTypes]
    omega
  rw [this]; rfl

theorem className_other (n : Nat) (h : n = 0 ∨ 0x19 < n) : Spec.Ses.className n = "GeneralStatusElement" := by
  unfold Spec.Ses.className; split <;> first | omega | rfl

theorem info_other (r : Spec.Ses.Reading) (n : Nat) (e : Bytes) (h : n = 0 ∨ 0x19 < n) : Spec.Ses.info r n e = [] := by
  unfold Spec.Ses.info; split <;> first | omega | rfl

theorem asInt_one (sg : Bool) (c : UInt8) : (if sg then toSigned 1 c.toNat else (c.toNat : Int)) = asInt sg 1 c.toNat := rfl

theorem length_four (e : Bytes) (h : e.length = 4) : ∃ a b c d, e = [a, b, c, d] := by
  match e, h with
  | [a, b, c, d], _ => exact ⟨a, b, c, d, rfl⟩

theorem general_eq (L : BufLib) (n : Nat) (e rest : Bytes) (he : e.length = 4) (h : n = 0 ∨ 0x19 < n) :
    statusElement L generalStatus (e ++ rest) = .ok (elementObject L n e, 4) := by
  obtain ⟨a, b, c, d, rfl⟩ := length_four e he
  unfold elementObject
  rw [className_other n h, info_other _ n _ h, Spec.Ses.general, if_neg (by omega)]
  rfl

theorem statusInfo_eq (L : BufLib) (i : InfoClass) (b : Bytes) (ho : ∀ f ∈ i.fields, Ref.Ok f.ref) (hc : ∀ c ∈ i.cats, ∀ r ∈ c.2, Ref.Ok r)
    (h : fieldsEnd i.fields ≤ b.length) (hce : catsEnd i.cats ≤ b.length) :
    statusInfo L (some i) b = .ok ((i.fields.map fun f => (f.name, fieldVal L.sg b f)) ++
      (i.cats.map fun c => (c.1, ((joinParts L (c.2.map fun r => (refNum b r, r.width)) : Nat) : Int))), []) := by
  simp only [statusInfo, unpackFields_eq L.sg i.fields b ho h, readCats_eq L i.cats b hc hce]
  rfl

theorem elementOf (L : BufLib) (n : Nat) (i : InfoClass) (name : String) (a b c d : UInt8) (rest : Bytes) (hs : statusClass n = ⟨name, some i⟩)
    (hn : Spec.Ses.className n = name) (hg : 1 ≤ n ∧ n ≤ 0x19)
    (ho : ∀ f ∈ i.fields, Ref.Ok f.ref) (hc : ∀ c ∈ i.cats, ∀ r ∈ c.2, Ref.Ok r) (h : fieldsEnd i.fields ≤ 3) (hce : catsEnd i.cats ≤ 3)
    (hi : (i.fields.map fun f => (f.name, fieldVal L.sg [b, c, d] f)) ++
      (i.cats.map fun x => (x.1, ((joinParts L (x.2.map fun r => (refNum [b, c, d] r, r.width)) : Nat) : Int))) =
      Spec.Ses.info (reading L) n [a, b, c, d]) :
    statusElement L (statusClass n) ([a, b, c, d] ++ rest) = .ok (elementObject L n [a, b, c, d], 4) := by
  have hb : unpackFields L.sg baseFields ([a, b, c, d] ++ rest) = .ok (Spec.Ses.common [a, b, c, d]) := rfl
  unfold statusElement
  rw [hb, hs, show slice ([a, b, c, d] ++ rest) 1 4 = [b, c, d] from rfl]
  simp only [bind, Except.bind, statusInfo_eq L i [b, c, d] ho hc h hce, hi]
  unfold elementObject
  rw [hn, Spec.Ses.general, if_pos hg]

theorem cooling_info (L : BufLib) (a b c d : UInt8) :
    (coolingElementInfo.fields.map fun f => (f.name, fieldVal L.sg [b, c, d] f)) ++
      (coolingElementInfo.cats.map fun x => (x.1, ((joinParts L (x.2.map fun r => (refNum [b, c, d] r, r.width)) : Nat) : Int))) =
      Spec.Ses.info (reading L) 3 [a, b, c, d] := by
  have h : joinParts L [(bitsAt [b, c, d] 0 2 0, 3), (num [b, c, d] 1 1, 8)] = Spec.Ses.fanSpeed (reading L) [a, b, c, d] := by
    rw [num_one]
    unfold joinParts Spec.Ses.fanSpeed
    show (if L.lowFirst = true then _ else _) = (if L.lowFirst = true then _ else _)
    split
    · rfl
    · simp only [joinHigh, Nat.zero_mul, Nat.zero_add]
      rw [Nat.mul_comm]; rfl
  simp only [coolingElementInfo, List.map_cons, List.map_nil, UField.name, fieldVal, refNum, intValue, Ref.width, Nat.reduceSub]
  rw [h]
  rfl

theorem statusElement_eq (L : BufLib) (n : Nat) (e rest : Bytes) (he : e.length = 4) :
    statusElement L (statusClass n) (e ++ rest) = .ok (elementObject L n e, 4) := by
  by_cases h : n = 0 ∨ 0x19 < n
  · rw [statusClass_other n h]; exact general_eq L n e rest he h
  obtain ⟨a, b, c, d, rfl⟩ := length_four e he
  have : n = 1 ∨ n = 2 ∨ n = 3 ∨ n = 4 ∨ n = 5 ∨ n = 6 ∨ n = 7 ∨ n = 8 ∨ n = 9 ∨ n = 10 ∨ n = 11 ∨ n = 12 ∨ n = 13 ∨ n = 14 ∨ n = 15 ∨
    n = 16 ∨ n = 17 ∨ n = 18 ∨ n = 19 ∨ n = 20 ∨ n = 21 ∨ n = 22 ∨ n = 23 ∨ n = 24 ∨ n = 25 := by omega
  clear h he
  rcases this with h | h | h | h | h | h | h | h | h | h | h | h | h | h | h | h | h | h | h | h | h | h | h | h | h <;> subst h
  all_goals first
    | rfl
    | (refine elementOf L _ _ _ a b c d rest rfl rfl (by decide) ?_ ?_ ?_ ?_ ?_
       · simp [deviceSlotElementInfo, coolingElementInfo, tempSensorElementInfo, nonVolotileCacheElementInfo, invalidOpReasonElementInfo,
           uninterruptiblePowerSupplyElementInfo, displayElementInfo, languageElementInfo, voltageSensorElementInfo, currentSensorElementInfo,
           simpleSubenclosureElementInfo, sasConnectorElementInfo, UField.ref, Ref.Ok]
       · simp [deviceSlotElementInfo, coolingElementInfo, tempSensorElementInfo, nonVolotileCacheElementInfo, invalidOpReasonElementInfo,
           uninterruptiblePowerSupplyElementInfo, displayElementInfo, languageElementInfo, voltageSensorElementInfo, currentSensorElementInfo,
           simpleSubenclosureElementInfo, sasConnectorElementInfo, UField.ref, Ref.Ok]
       · decide
       · decide
       · first
         | rfl
         | (simp only [deviceSlotElementInfo, coolingElementInfo, tempSensorElementInfo, nonVolotileCacheElementInfo, invalidOpReasonElementInfo,
             uninterruptiblePowerSupplyElementInfo, displayElementInfo, languageElementInfo, voltageSensorElementInfo, currentSensorElementInfo,
             simpleSubenclosureElementInfo, sasConnectorElementInfo, List.map_cons, List.map_nil, UField.name, fieldVal, refNum, intValue,
             Nat.reduceSub, num_one]; rfl)
         | exact cooling_info L a b c d)

end Verif.Parse.Ses
