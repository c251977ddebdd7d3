import Verif.Parse.InquiryLemmas
/-! # Lemmas for designators and joined references -/
set_option linter.unusedSimpArgs false

namespace Verif.Parse
open Verif

/-- The object the library should return for a designation descriptor. -/
def designatorObject (L : BufLib) (d : Bytes) : Designator :=
  { cls := Spec.designatorClass d, attrs := Spec.designatorHeader d ++ Spec.designatorNumbers d, data := Spec.designatorData L.trim d }

theorem designatorHeader_eq (sg : Bool) (d : Bytes) (h : 4 ≤ d.length) :
    unpackFields sg designatorHeader d = .ok (Spec.designatorHeader d) := by
  rw [unpackFields_eq sg _ _ (by simp [designatorHeader, UField.ref, Ref.Ok]) (by simpa [designatorHeader, fieldsEnd, UField.ref, Ref.stop] using h)]
  simp only [designatorHeader, List.map_cons, List.map_nil, UField.name, fieldVal, refNum, Nat.reduceSub, num_one]
  rfl

theorem header_type (d : Bytes) : get (Spec.designatorHeader d) "designator_type" = (Spec.designatorType d : Int) := by
  simp [get, Spec.designatorHeader, List.lookup, Spec.designatorType]

theorem header_length (d : Bytes) : get (Spec.designatorHeader d) "designator_length" = (Spec.byteAt d 3 : Int) := by
  simp [get, Spec.designatorHeader, List.lookup]

theorem naaHeader_eq (sg : Bool) (d : Bytes) (h : 5 ≤ d.length) :
    unpackFields sg (designatorHeader ++ [naaField]) d = .ok (Spec.designatorHeader d ++ [("naa", (Spec.naa d : Int))]) := by
  rw [unpackFields_eq sg _ _ (by simp [designatorHeader, naaField, UField.ref, Ref.Ok])
    (by simpa [designatorHeader, naaField, fieldsEnd, UField.ref, Ref.stop] using h)]
  simp only [designatorHeader, naaField, List.map_append, List.map_cons, List.map_nil, UField.name, fieldVal, refNum, Nat.reduceSub, num_one]
  rfl

theorem naaHeader_naa (d : Bytes) : get (Spec.designatorHeader d ++ [("naa", (Spec.naa d : Int))]) "naa" = (Spec.naa d : Int) := by
  simp [get, Spec.designatorHeader, List.lookup]

theorem unpackDesignator_eq (L : BufLib) (c : DesignatorClass) (d : Bytes) (dat : List (String × Bytes)) (h4 : 4 ≤ d.length)
    (hl : d.length = 4 + Spec.byteAt d 3) (hi : ∀ f ∈ c.ints, Ref.Ok f.ref) (hc : ∀ x ∈ c.cats, ∀ r ∈ x.2, Ref.Ok r)
    (hie : fieldsEnd c.ints ≤ d.length) (hce : catsEnd c.cats ≤ d.length) (hd : unpackData L d.length d c.data = .ok dat) :
    unpackDesignator L c d = .ok (⟨c.name, Spec.designatorHeader d ++ (c.ints.map fun f => (f.name, fieldVal L.sg d f)) ++
      (c.cats.map fun x => (x.1, ((joinParts L (x.2.map fun r => (refNum d r, r.width)) : Nat) : Int))), dat⟩,
      max 4 (max (fieldsEnd c.ints) (max (catsEnd c.cats) (dataEnd d.length c.data)))) := by
  unfold unpackDesignator
  rw [designatorHeader_eq L.sg d h4, unpackFields_eq L.sg c.ints d hi hie, readCats_eq L c.cats d hc hce]
  simp only [bind, Except.bind, header_length, Int.toNat_natCast, ← hl, hd]

theorem type_lt (d : Bytes) : Spec.designatorType d < 16 := Nat.mod_lt _ (by decide)

/-- The class chosen for each of the standard's formats. -/
theorem determine_eq (L : BufLib) (d : Bytes) (hd : Spec.IsDesignator d) :
    determineDesignator L d = .ok (match Spec.designatorType d with
      | 0 => vendorSpecific
      | 1 => t10Vendor
      | 2 => if Spec.byteAt d 3 = 8 then eui64 else if Spec.byteAt d 3 = 12 then eui64_12 else eui64_16
      | 3 => if Spec.naa d = 2 then naaExtended else if Spec.naa d = 3 then naaLocal else if Spec.naa d = 5 then naaRegistered
             else naaRegisteredExtended
      | 4 => relativePort
      | 5 => portGroup
      | 6 => unitGroup
      | 7 => md5
      | 8 => scsiName
      | _ => reservedDesignator) := by
  obtain ⟨h4, hl, hs⟩ := hd
  unfold determineDesignator
  rw [designatorHeader_eq L.sg d h4]
  simp only [bind, Except.bind, header_type, header_length]
  have hlt := type_lt d
  unfold Spec.DesignatorSize at hs
  generalize hT : Spec.designatorType d = T at hs hlt
  match T, hlt with
  | 0, _ => rfl
  | 1, _ => rfl
  | 2, _ =>
    simp only [show singleType.lookup ((2 : Nat) : Int) = none from rfl] at hs ⊢
    rcases hs with h | h | h <;> simp only [h] <;> rfl
  | 3, _ =>
    simp only at hs
    simp only [show singleType.lookup ((3 : Nat) : Int) = none from rfl, naaHeader_eq L.sg d (by omega), naaHeader_naa]
    rcases hs with ⟨h | h | h, _⟩ | ⟨h, _⟩ <;> simp only [h] <;> rfl
  | 4, _ => rfl
  | 5, _ => rfl
  | 6, _ => rfl
  | 7, _ => rfl
  | 8, _ => rfl
  | 9, _ => rfl
  | 10, _ => rfl
  | 11, _ => rfl
  | 12, _ => rfl
  | 13, _ => rfl
  | 14, _ => rfl
  | 15, _ => rfl
  | n + 16, h => omega

theorem slice_to_end (d : Bytes) (lo : Nat) : slice d lo d.length = d.drop lo := by simp [slice]

theorem joinLow_four (a b c e : Nat) : joinLow [(a, 8), (b, 8), (c, 8), (e, 4)] = a + 256 * (b + 256 * (c + 256 * e)) := by
  simp [joinLow]

/-- The 64-bit number of an NAA designator, byte by byte. -/
theorem num8 (d : Bytes) : Spec.num d 4 8 = 256 * (256 * (256 * (256 * (256 * (256 * (256 * Spec.byteAt d 4 + Spec.byteAt d 5) +
    Spec.byteAt d 6) + Spec.byteAt d 7) + Spec.byteAt d 8) + Spec.byteAt d 9) + Spec.byteAt d 10) + Spec.byteAt d 11 := by
  simp [Spec.num]

theorem byteAt_lt (d : Bytes) (i : Nat) : Spec.byteAt d i < 256 := byte_lt _

/-- With the first reference least significant, the joined NAA numbers are the standard's. -/
theorem naa_a (L : BufLib) (d : Bytes) (hL : L.lowFirst = true) :
    joinParts L ([Ref.bytes 5 6, .bits 4 0 4].map fun r => (refNum d r, r.width)) = Spec.num d 4 2 % 2 ^ 12 := by
  have h4 := byteAt_lt d 4
  have h5 := byteAt_lt d 5
  simp only [joinParts, hL, if_true, List.map_cons, List.map_nil, refNum, Ref.width, joinLow, Spec.bitsAt, num_one, Spec.num, Nat.reduceSub,
    Nat.reduceMul, Nat.reducePow, Nat.reduceAdd, Nat.div_one]
  omega

theorem naa_local (L : BufLib) (d : Bytes) (hL : L.lowFirst = true) :
    joinParts L ([Ref.bytes 11 12, .bytes 10 11, .bytes 9 10, .bytes 8 9, .bytes 7 8, .bytes 6 7, .bytes 5 6, .bits 4 0 4].map
      fun r => (refNum d r, r.width)) = Spec.num d 4 8 % 2 ^ 60 := by
  have := byteAt_lt d 4; have := byteAt_lt d 5; have := byteAt_lt d 6; have := byteAt_lt d 7
  have := byteAt_lt d 8; have := byteAt_lt d 9; have := byteAt_lt d 10; have := byteAt_lt d 11
  rw [num8]
  simp only [joinParts, hL, if_true, List.map_cons, List.map_nil, refNum, Ref.width, joinLow, Spec.bitsAt, Nat.reduceSub,
    Nat.reduceMul, Nat.reducePow, Nat.reduceAdd, Nat.div_one, num_one]
  omega

theorem naa_company (L : BufLib) (d : Bytes) (hL : L.lowFirst = true) :
    joinParts L ([Ref.bits 7 4 8, .bytes 6 7, .bytes 5 6, .bits 4 0 4].map fun r => (refNum d r, r.width)) =
      Spec.num d 4 8 / 2 ^ 36 % 2 ^ 24 := by
  have := byteAt_lt d 4; have := byteAt_lt d 5; have := byteAt_lt d 6; have := byteAt_lt d 7
  have := byteAt_lt d 8; have := byteAt_lt d 9; have := byteAt_lt d 10; have := byteAt_lt d 11
  rw [num8]
  simp only [joinParts, hL, if_true, List.map_cons, List.map_nil, refNum, Ref.width, joinLow, Spec.bitsAt, Nat.reduceSub,
    Nat.reduceMul, Nat.reducePow, Nat.reduceAdd, Nat.div_one, num_one]
  omega

theorem naa_vendor (L : BufLib) (d : Bytes) (hL : L.lowFirst = true) :
    joinParts L ([Ref.bytes 11 12, .bytes 10 11, .bytes 9 10, .bytes 8 9, .bits 7 0 4].map fun r => (refNum d r, r.width)) =
      Spec.num d 4 8 % 2 ^ 36 := by
  have := byteAt_lt d 4; have := byteAt_lt d 5; have := byteAt_lt d 6; have := byteAt_lt d 7
  have := byteAt_lt d 8; have := byteAt_lt d 9; have := byteAt_lt d 10; have := byteAt_lt d 11
  rw [num8]
  simp only [joinParts, hL, if_true, List.map_cons, List.map_nil, refNum, Ref.width, joinLow, Spec.bitsAt, Nat.reduceSub,
    Nat.reduceMul, Nat.reducePow, Nat.reduceAdd, Nat.div_one, num_one]
  omega

theorem take_drop_eq_slice (d : Bytes) (a n : Nat) : (d.drop a).take n = slice d a (a + n) := take_drop_slice d a n

theorem vendorSpecific_eq (L : BufLib) (d : Bytes) (h4 : 4 ≤ d.length) (hl : d.length = 4 + Spec.byteAt d 3) :
    unpackDesignator L vendorSpecific d = .ok (⟨"VendorSpecificDesignator", Spec.designatorHeader d ++ [], [("vendor_specific_identifier", d.drop 4)]⟩, d.length) := by
  rw [unpackDesignator_eq L vendorSpecific d [("vendor_specific_identifier", d.drop 4)] h4 hl (by simp [vendorSpecific])
    (by simp [vendorSpecific]) (by simp [vendorSpecific, fieldsEnd]) (by simp [vendorSpecific, catsEnd])
    (by simp only [vendorSpecific, unpackData, DField.unpack, Option.getD_none, slice_to_end]; rfl)]
  simp only [vendorSpecific, List.map_nil, List.append_nil, dataEnd, fieldsEnd, catsEnd, Option.getD_none]
  rw [show max 4 (max 0 (max 0 (max d.length 0))) = d.length by omega]

theorem md5_eq (L : BufLib) (d : Bytes) (h4 : 4 ≤ d.length) (hl : d.length = 4 + Spec.byteAt d 3) :
    unpackDesignator L md5 d = .ok (⟨"MD5LogicalUnitDesignator", Spec.designatorHeader d ++ [], [("md5_logical_unit_identifier", d.drop 4)]⟩, d.length) := by
  rw [unpackDesignator_eq L md5 d [("md5_logical_unit_identifier", d.drop 4)] h4 hl (by simp [md5])
    (by simp [md5]) (by simp [md5, fieldsEnd]) (by simp [md5, catsEnd])
    (by simp only [md5, unpackData, DField.unpack, Option.getD_none, slice_to_end]; rfl)]
  simp only [md5, List.map_nil, List.append_nil, dataEnd, fieldsEnd, catsEnd, Option.getD_none]
  rw [show max 4 (max 0 (max 0 (max d.length 0))) = d.length by omega]

theorem scsiName_eq (L : BufLib) (d : Bytes) (h4 : 4 ≤ d.length) (hl : d.length = 4 + Spec.byteAt d 3) :
    unpackDesignator L scsiName d = .ok (⟨"SCSINameDesignator", Spec.designatorHeader d ++ [], [("scsi_name_string", d.drop 4)]⟩, d.length) := by
  rw [unpackDesignator_eq L scsiName d [("scsi_name_string", d.drop 4)] h4 hl (by simp [scsiName])
    (by simp [scsiName]) (by simp [scsiName, fieldsEnd]) (by simp [scsiName, catsEnd])
    (by simp only [scsiName, unpackData, DField.unpack, Option.getD_none, slice_to_end]; rfl)]
  simp only [scsiName, List.map_nil, List.append_nil, dataEnd, fieldsEnd, catsEnd, Option.getD_none]
  rw [show max 4 (max 0 (max 0 (max d.length 0))) = d.length by omega]

theorem reservedDesignator_eq (L : BufLib) (d : Bytes) (h4 : 4 ≤ d.length) (hl : d.length = 4 + Spec.byteAt d 3) (ha : Spec.Ascii (d.drop 4)) :
    unpackDesignator L reservedDesignator d = .ok (⟨"Reserved_Designator", Spec.designatorHeader d ++ [], [("desginator", L.trim (d.drop 4))]⟩, d.length) := by
  rw [unpackDesignator_eq L reservedDesignator d [("desginator", L.trim (d.drop 4))] h4 hl (by simp [reservedDesignator])
    (by simp [reservedDesignator]) (by simp [reservedDesignator, fieldsEnd]) (by simp [reservedDesignator, catsEnd])
    (by simp only [reservedDesignator, unpackData, DField.unpack, Option.getD_none, slice_to_end, textOf_default L _ ha]; rfl)]
  simp only [reservedDesignator, List.map_nil, List.append_nil, dataEnd, fieldsEnd, catsEnd, Option.getD_none]
  rw [show max 4 (max 0 (max 0 (max d.length 0))) = d.length by omega]

theorem t10Vendor_eq (L : BufLib) (d : Bytes) (h4 : 4 ≤ d.length) (hl : d.length = 4 + Spec.byteAt d 3) (hs : 8 ≤ Spec.byteAt d 3)
    (ha : Spec.Ascii ((d.drop 4).take 8)) :
    unpackDesignator L t10Vendor d = .ok (⟨"T10VendorIDDesignator", Spec.designatorHeader d ++ [],
      [("t10_vendor_identification", L.trim ((d.drop 4).take 8)), ("vendor_specific_identifier", d.drop 12)]⟩, d.length) := by
  rw [take_drop_eq_slice] at ha ⊢
  rw [unpackDesignator_eq L t10Vendor d
    [("t10_vendor_identification", L.trim (slice d 4 12)), ("vendor_specific_identifier", d.drop 12)] h4 hl (by simp [t10Vendor])
    (by simp [t10Vendor]) (by simp [t10Vendor, fieldsEnd]) (by simp [t10Vendor, catsEnd])
    (by simp only [t10Vendor, unpackData, DField.unpack, Option.getD_none, Option.getD_some, slice_to_end, textOf_default L _ ha]; rfl)]
  simp only [t10Vendor, List.map_nil, List.append_nil, dataEnd, fieldsEnd, catsEnd, Option.getD_none, Option.getD_some]
  rw [show max 4 (max 0 (max 0 (max 12 (max d.length 0)))) = d.length by omega]

theorem eui64_eq (L : BufLib) (d : Bytes) (h4 : 4 ≤ d.length) (hl : d.length = 4 + Spec.byteAt d 3) (hs : Spec.byteAt d 3 = 8) :
    unpackDesignator L eui64 d = .ok (⟨"EUI64_Designator", Spec.designatorHeader d ++
      [("ieee_company", (Spec.num d 4 3 : Int)), ("vendor_specific_extension_identifer", (Spec.num d 7 5 : Int))], []⟩, d.length) := by
  rw [unpackDesignator_eq L eui64 d [] h4 hl (by simp [eui64, UField.ref, Ref.Ok]) (by simp [eui64])
    (by simp [eui64, fieldsEnd, UField.ref, Ref.stop]; omega) (by simp [eui64, catsEnd]) rfl]
  simp only [eui64, List.map_nil, List.append_nil, dataEnd, catsEnd, fieldsEnd, UField.ref, Ref.stop, List.map_cons, UField.name, fieldVal, refNum,
    Nat.reduceSub]
  rw [show max 4 (max (max 7 (max 12 0)) (max 0 0)) = d.length by omega]

theorem eui64_12_eq (L : BufLib) (d : Bytes) (h4 : 4 ≤ d.length) (hl : d.length = 4 + Spec.byteAt d 3) (hs : Spec.byteAt d 3 = 12) :
    unpackDesignator L eui64_12 d = .ok (⟨"EUI64_12Byte_Designator", Spec.designatorHeader d ++
      [("ieee_company", (Spec.num d 4 3 : Int)), ("vendor_specific_extension_identifer", (Spec.num d 7 5 : Int)), ("directory_id", (Spec.num d 12 4 : Int))], []⟩, d.length) := by
  rw [unpackDesignator_eq L eui64_12 d [] h4 hl (by simp [eui64_12, UField.ref, Ref.Ok]) (by simp [eui64_12])
    (by simp [eui64_12, fieldsEnd, UField.ref, Ref.stop]; omega) (by simp [eui64_12, catsEnd]) rfl]
  simp only [eui64_12, List.map_nil, List.append_nil, dataEnd, catsEnd, fieldsEnd, UField.ref, Ref.stop, List.map_cons, UField.name, fieldVal, refNum,
    Nat.reduceSub]
  rw [show max 4 (max (max 7 (max 12 (max 16 0))) (max 0 0)) = d.length by omega]

theorem eui64_16_eq (L : BufLib) (d : Bytes) (h4 : 4 ≤ d.length) (hl : d.length = 4 + Spec.byteAt d 3) (hs : Spec.byteAt d 3 = 16) :
    unpackDesignator L eui64_16 d = .ok (⟨"EUI64_16Byte_Designator", Spec.designatorHeader d ++
      [("identifier_extension", (Spec.num d 4 8 : Int)), ("ieee_company", (Spec.num d 12 3 : Int)), ("vendor_specific_extension_identifer", (Spec.num d 15 5 : Int))], []⟩, d.length) := by
  rw [unpackDesignator_eq L eui64_16 d [] h4 hl (by simp [eui64_16, UField.ref, Ref.Ok]) (by simp [eui64_16])
    (by simp [eui64_16, fieldsEnd, UField.ref, Ref.stop]; omega) (by simp [eui64_16, catsEnd]) rfl]
  simp only [eui64_16, List.map_nil, List.append_nil, dataEnd, catsEnd, fieldsEnd, UField.ref, Ref.stop, List.map_cons, UField.name, fieldVal, refNum,
    Nat.reduceSub]
  rw [show max 4 (max (max 12 (max 15 (max 20 0))) (max 0 0)) = d.length by omega]

theorem relativePort_eq (L : BufLib) (d : Bytes) (h4 : 4 ≤ d.length) (hl : d.length = 4 + Spec.byteAt d 3) (hs : Spec.byteAt d 3 = 4) :
    unpackDesignator L relativePort d = .ok (⟨"RelativeTargetPortDesignator", Spec.designatorHeader d ++
      [("relative_target_port_identifier", (Spec.num d 6 2 : Int))], []⟩, d.length) := by
  rw [unpackDesignator_eq L relativePort d [] h4 hl (by simp [relativePort, UField.ref, Ref.Ok]) (by simp [relativePort])
    (by simp [relativePort, fieldsEnd, UField.ref, Ref.stop]; omega) (by simp [relativePort, catsEnd]) rfl]
  simp only [relativePort, List.map_nil, List.append_nil, dataEnd, catsEnd, fieldsEnd, UField.ref, Ref.stop, List.map_cons, UField.name, fieldVal, refNum,
    Nat.reduceSub]
  rw [show max 4 (max (max 8 0) (max 0 0)) = d.length by omega]

theorem portGroup_eq (L : BufLib) (d : Bytes) (h4 : 4 ≤ d.length) (hl : d.length = 4 + Spec.byteAt d 3) (hs : Spec.byteAt d 3 = 4) :
    unpackDesignator L portGroup d = .ok (⟨"TargetPortGroupDesignator", Spec.designatorHeader d ++
      [("target_port_group", (Spec.num d 6 2 : Int))], []⟩, d.length) := by
  rw [unpackDesignator_eq L portGroup d [] h4 hl (by simp [portGroup, UField.ref, Ref.Ok]) (by simp [portGroup])
    (by simp [portGroup, fieldsEnd, UField.ref, Ref.stop]; omega) (by simp [portGroup, catsEnd]) rfl]
  simp only [portGroup, List.map_nil, List.append_nil, dataEnd, catsEnd, fieldsEnd, UField.ref, Ref.stop, List.map_cons, UField.name, fieldVal, refNum,
    Nat.reduceSub]
  rw [show max 4 (max (max 8 0) (max 0 0)) = d.length by omega]

theorem unitGroup_eq (L : BufLib) (d : Bytes) (h4 : 4 ≤ d.length) (hl : d.length = 4 + Spec.byteAt d 3) (hs : Spec.byteAt d 3 = 4) :
    unpackDesignator L unitGroup d = .ok (⟨"LogicalUnitGroupDesignator", Spec.designatorHeader d ++
      [("logical_unit_group", (Spec.num d 6 2 : Int))], []⟩, d.length) := by
  rw [unpackDesignator_eq L unitGroup d [] h4 hl (by simp [unitGroup, UField.ref, Ref.Ok]) (by simp [unitGroup])
    (by simp [unitGroup, fieldsEnd, UField.ref, Ref.stop]; omega) (by simp [unitGroup, catsEnd]) rfl]
  simp only [unitGroup, List.map_nil, List.append_nil, dataEnd, catsEnd, fieldsEnd, UField.ref, Ref.stop, List.map_cons, UField.name, fieldVal, refNum,
    Nat.reduceSub]
  rw [show max 4 (max (max 8 0) (max 0 0)) = d.length by omega]

theorem naaExtended_eq (L : BufLib) (d : Bytes) (hL : L.lowFirst = true) (h4 : 4 ≤ d.length) (hl : d.length = 4 + Spec.byteAt d 3)
    (hs : Spec.byteAt d 3 = 8) :
    unpackDesignator L naaExtended d = .ok (⟨"NAA_IEEE_Extended_Designator", Spec.designatorHeader d ++
      [("naa", (Spec.naa d : Int)), ("ieee_company", (Spec.num d 6 3 : Int)), ("vendor_specific_identifier_b", (Spec.num d 9 3 : Int)),
      ("vendor_specific_identifier_a", ((Spec.num d 4 2 % 2 ^ 12 : Nat) : Int))], []⟩, d.length) := by
  rw [unpackDesignator_eq L naaExtended d [] h4 hl (by simp [naaExtended, naaField, UField.ref, Ref.Ok]) (by simp [naaExtended, Ref.Ok])
    (by simp [naaExtended, naaField, fieldsEnd, UField.ref, Ref.stop]; omega) (by simp [naaExtended, catsEnd, refsEnd, Ref.stop]; omega) rfl]
  have hend : max 4 (max (fieldsEnd naaExtended.ints) (max (catsEnd naaExtended.cats) (dataEnd d.length naaExtended.data))) = d.length := by
    simp only [naaExtended, naaField, dataEnd, catsEnd, refsEnd, fieldsEnd, UField.ref, Ref.stop]; omega
  rw [hend]
  simp only [naaExtended, naaField, List.map_cons (l := []), List.map_cons (f := fun f : UField => (f.name, fieldVal L.sg d f)),
    List.map_cons (f := fun x : String × List Ref => (x.1, ((joinParts L (x.2.map fun r => (refNum d r, r.width)) : Nat) : Int))),
    List.map_nil, UField.name, fieldVal, naa_a L d hL]
  simp only [refNum, Nat.reduceSub, List.append_assoc, List.cons_append, List.nil_append]; rfl

theorem naaLocal_eq (L : BufLib) (d : Bytes) (hL : L.lowFirst = true) (h4 : 4 ≤ d.length) (hl : d.length = 4 + Spec.byteAt d 3)
    (hs : Spec.byteAt d 3 = 8) :
    unpackDesignator L naaLocal d = .ok (⟨"NAA_Locally_Assigned_Designator", Spec.designatorHeader d ++
      [("naa", (Spec.naa d : Int)), ("locally_administered_value", ((Spec.num d 4 8 % 2 ^ 60 : Nat) : Int))], []⟩, d.length) := by
  rw [unpackDesignator_eq L naaLocal d [] h4 hl (by simp [naaLocal, naaField, UField.ref, Ref.Ok]) (by simp [naaLocal, Ref.Ok])
    (by simp [naaLocal, naaField, fieldsEnd, UField.ref, Ref.stop]; omega) (by simp [naaLocal, catsEnd, refsEnd, Ref.stop]; omega) rfl]
  have hend : max 4 (max (fieldsEnd naaLocal.ints) (max (catsEnd naaLocal.cats) (dataEnd d.length naaLocal.data))) = d.length := by
    simp only [naaLocal, naaField, dataEnd, catsEnd, refsEnd, fieldsEnd, UField.ref, Ref.stop]; omega
  rw [hend]
  simp only [naaLocal, naaField, List.map_cons (l := []), List.map_cons (f := fun f : UField => (f.name, fieldVal L.sg d f)),
    List.map_cons (f := fun x : String × List Ref => (x.1, ((joinParts L (x.2.map fun r => (refNum d r, r.width)) : Nat) : Int))),
    List.map_nil, UField.name, fieldVal, naa_local L d hL]
  simp only [refNum, Nat.reduceSub, List.append_assoc, List.cons_append, List.nil_append]; rfl

theorem naaRegistered_eq (L : BufLib) (d : Bytes) (hL : L.lowFirst = true) (h4 : 4 ≤ d.length) (hl : d.length = 4 + Spec.byteAt d 3)
    (hs : Spec.byteAt d 3 = 8) :
    unpackDesignator L naaRegistered d = .ok (⟨"NAA_IEEE_Registered_Designator", Spec.designatorHeader d ++
      [("naa", (Spec.naa d : Int)), ("ieee_company_id", ((Spec.num d 4 8 / 2 ^ 36 % 2 ^ 24 : Nat) : Int)),
      ("vendor_specific_identifier", ((Spec.num d 4 8 % 2 ^ 36 : Nat) : Int))], []⟩, d.length) := by
  rw [unpackDesignator_eq L naaRegistered d [] h4 hl (by simp [naaRegistered, naaField, UField.ref, Ref.Ok]) (by simp [naaRegistered, registeredCats, Ref.Ok])
    (by simp [naaRegistered, naaField, fieldsEnd, UField.ref, Ref.stop]; omega) (by simp [naaRegistered, registeredCats, catsEnd, refsEnd, Ref.stop]; omega) rfl]
  have hend : max 4 (max (fieldsEnd naaRegistered.ints) (max (catsEnd naaRegistered.cats) (dataEnd d.length naaRegistered.data))) = d.length := by
    simp only [naaRegistered, registeredCats, naaField, dataEnd, catsEnd, refsEnd, fieldsEnd, UField.ref, Ref.stop]; omega
  rw [hend]
  simp only [naaRegistered, registeredCats, naaField, List.map_cons (l := []), List.map_cons (f := fun f : UField => (f.name, fieldVal L.sg d f)),
    List.map_cons (f := fun x : String × List Ref => (x.1, ((joinParts L (x.2.map fun r => (refNum d r, r.width)) : Nat) : Int))),
    List.map_nil, UField.name, fieldVal, naa_company L d hL, naa_vendor L d hL]
  simp only [refNum, Nat.reduceSub, List.append_assoc, List.cons_append, List.nil_append]; rfl

theorem naaRegisteredExtended_eq (L : BufLib) (d : Bytes) (hL : L.lowFirst = true) (h4 : 4 ≤ d.length) (hl : d.length = 4 + Spec.byteAt d 3)
    (hs : Spec.byteAt d 3 = 16) :
    unpackDesignator L naaRegisteredExtended d = .ok (⟨"NAA_IEEE_Registered_Extended_Designator", Spec.designatorHeader d ++
      [("naa", (Spec.naa d : Int)), ("vendor_specific_identifier_extension", (Spec.num d 12 8 : Int)),
      ("ieee_company_id", ((Spec.num d 4 8 / 2 ^ 36 % 2 ^ 24 : Nat) : Int)), ("vendor_specific_identifier", ((Spec.num d 4 8 % 2 ^ 36 : Nat) : Int))], []⟩, d.length) := by
  rw [unpackDesignator_eq L naaRegisteredExtended d [] h4 hl (by simp [naaRegisteredExtended, naaField, UField.ref, Ref.Ok]) (by simp [naaRegisteredExtended, registeredCats, Ref.Ok])
    (by simp [naaRegisteredExtended, naaField, fieldsEnd, UField.ref, Ref.stop]; omega) (by simp [naaRegisteredExtended, registeredCats, catsEnd, refsEnd, Ref.stop]; omega) rfl]
  have hend : max 4 (max (fieldsEnd naaRegisteredExtended.ints) (max (catsEnd naaRegisteredExtended.cats) (dataEnd d.length naaRegisteredExtended.data))) = d.length := by
    simp only [naaRegisteredExtended, registeredCats, naaField, dataEnd, catsEnd, refsEnd, fieldsEnd, UField.ref, Ref.stop]; omega
  rw [hend]
  simp only [naaRegisteredExtended, registeredCats, naaField, List.map_cons (l := []), List.map_cons (f := fun f : UField => (f.name, fieldVal L.sg d f)),
    List.map_cons (f := fun x : String × List Ref => (x.1, ((joinParts L (x.2.map fun r => (refNum d r, r.width)) : Nat) : Int))),
    List.map_nil, UField.name, fieldVal, naa_company L d hL, naa_vendor L d hL]
  simp only [refNum, Nat.reduceSub, List.append_assoc, List.cons_append, List.nil_append]; rfl

/-- A designation descriptor in one of the standard's formats decodes to the standard's values and takes all of its bytes. -/
theorem designator_eq (L : BufLib) (d : Bytes) (hd : Spec.IsDesignator d) (ht : Spec.TextOk d)
    (ho : L.lowFirst = true ∨ Spec.designatorType d ≠ 3) : designator L d = .ok (designatorObject L d, d.length) := by
  obtain ⟨h4, hl, hs⟩ := hd
  unfold designator
  rw [determine_eq L d ⟨h4, hl, hs⟩]
  simp only [bind, Except.bind]
  obtain ⟨ht1, ht9⟩ := ht
  have hlt := type_lt d
  unfold Spec.DesignatorSize at hs
  unfold designatorObject Spec.designatorClass Spec.designatorNumbers Spec.designatorData
  generalize Spec.designatorType d = T at hs hlt ht1 ht9 ho
  match T, hlt with
  | 0, _ => exact vendorSpecific_eq L d h4 hl
  | 1, _ => exact t10Vendor_eq L d h4 hl hs (ht1 rfl)
  | 2, _ =>
    simp only at hs ⊢
    rcases hs with h | h | h
    · simp only [h, reduceIte]; exact eui64_eq L d h4 hl h
    · simp only [h, reduceIte, Nat.reduceEqDiff]; exact eui64_12_eq L d h4 hl h
    · simp only [h, reduceIte, Nat.reduceEqDiff]; exact eui64_16_eq L d h4 hl h
  | 3, _ =>
    have hL : L.lowFirst = true := by rcases ho with h | h; exact h; exact absurd rfl h
    simp only at hs ⊢
    rcases hs with ⟨h | h | h, h8⟩ | ⟨h, h8⟩
    · rw [if_pos h, if_pos h, if_pos h]; exact naaExtended_eq L d hL h4 hl h8
    · have h2 : ¬ Spec.naa d = 2 := by omega
      simp only [if_neg h2, if_pos h]; exact naaLocal_eq L d hL h4 hl h8
    · have h2 : ¬ Spec.naa d = 2 := by omega
      have h3 : ¬ Spec.naa d = 3 := by omega
      simp only [if_neg h2, if_neg h3, if_pos h]; exact naaRegistered_eq L d hL h4 hl h8
    · have h2 : ¬ Spec.naa d = 2 := by omega
      have h3 : ¬ Spec.naa d = 3 := by omega
      have h5 : ¬ Spec.naa d = 5 := by omega
      simp only [if_neg h2, if_neg h3, if_neg h5]; exact naaRegisteredExtended_eq L d hL h4 hl h8
  | 4, _ => exact relativePort_eq L d h4 hl hs
  | 5, _ => exact portGroup_eq L d h4 hl hs
  | 6, _ => exact unitGroup_eq L d h4 hl hs
  | 7, _ => exact md5_eq L d h4 hl
  | 8, _ => exact scsiName_eq L d h4 hl
  | 9, _ => exact reservedDesignator_eq L d h4 hl (ht9 (by omega))
  | 10, _ => exact reservedDesignator_eq L d h4 hl (ht9 (by omega))
  | 11, _ => exact reservedDesignator_eq L d h4 hl (ht9 (by omega))
  | 12, _ => exact reservedDesignator_eq L d h4 hl (ht9 (by omega))
  | 13, _ => exact reservedDesignator_eq L d h4 hl (ht9 (by omega))
  | 14, _ => exact reservedDesignator_eq L d h4 hl (ht9 (by omega))
  | 15, _ => exact reservedDesignator_eq L d h4 hl (ht9 (by omega))
  | n + 16, h => omega

end Verif.Parse
