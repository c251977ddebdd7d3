import Verif.Parse.DesignatorLemmas
import Verif.Parse.PackLemmas
/-!
# C43, C44: device identification and the other VPD pages

The specification is `Spec/Inquiry.lean`: positions and formats of the standards' tables.
-/
set_option linter.unusedSimpArgs false

namespace Verif.Parse
open Verif

/-! ## C43 — device identification -/

theorem headerPage_eq (L : BufLib) (b : Bytes) (h : 4 ≤ b.length) :
    fixedPage L [.u "page_code" (.bytes 1 2), .u "page_length" (.bytes 2 4)] [] b = .ok ⟨Spec.peripheral b, Spec.vpdHeader b⟩ := by
  rw [fixedPage_eq L _ _ b (by simp [UField.ref, Ref.Ok]) (by simp) (by omega) (by simpa [fieldsEnd, UField.ref, Ref.stop] using h) (by simp [catsEnd])]
  simp only [List.map_cons, List.map_nil, UField.name, fieldVal, refNum, Nat.reduceSub, num_one, List.append_nil]
  rfl

theorem headerPageShort_eq (L : BufLib) (b : Bytes) (h : 4 ≤ b.length) :
    fixedPage L [.u "page_code" (.bytes 1 2), .u "page_length" (.bytes 3 4)] [] b = .ok ⟨Spec.peripheral b, Spec.vpdHeaderShort b⟩ := by
  rw [fixedPage_eq L _ _ b (by simp [UField.ref, Ref.Ok]) (by simp) (by omega) (by simpa [fieldsEnd, UField.ref, Ref.stop] using h) (by simp [catsEnd])]
  simp only [List.map_cons, List.map_nil, UField.name, fieldVal, refNum, Nat.reduceSub, num_one, List.append_nil]
  rfl

theorem vpdHeader_length (b : Bytes) : (4 + get (Spec.vpdHeader b) "page_length").toNat = 4 + Spec.num b 2 2 := by
  simp [get, Spec.vpdHeader, List.lookup]; omega

theorem vpdHeaderShort_length (b : Bytes) : (get (Spec.vpdHeaderShort b) "page_length").toNat = Spec.byteAt b 3 := by
  simp [get, Spec.vpdHeaderShort, List.lookup]

theorem vpdHeaderShort_length' (b : Bytes) : (4 + get (Spec.vpdHeaderShort b) "page_length").toNat = 4 + Spec.byteAt b 3 := by
  simp [get, Spec.vpdHeaderShort, List.lookup]; omega

theorem page_num (first : UInt8) (ds : List Bytes) (rest : Bytes) (hn : ds.flatten.length < 2 ^ 16) :
    Spec.num (Spec.deviceIdentification first ds ++ rest) 2 2 = ds.flatten.length := by
  have hb : Spec.num (([first, 0x83] ++ be 2 ds.flatten.length) ++ (ds.flatten ++ rest)) 2 2 = ds.flatten.length := by
    rw [List.append_assoc]
    exact (num_append_right [first, 0x83] _ 0 2).trans (num_be 2 _ _ hn)
  simpa [Spec.deviceIdentification] using hb

theorem slice_payload (h : Bytes) (d rest : Bytes) (hh : h.length = 4) : slice (h ++ d ++ rest) 4 (4 + d.length) = d := by
  rw [slice, List.take_append_of_le_length (by simp; omega), List.take_of_length_le (by simp; omega), ← hh, List.drop_left]

theorem page_designators (L : BufLib) (first : UInt8) (ds : List Bytes) (rest : Bytes) (hn : ds.flatten.length < 2 ^ 16) :
    deviceIdentification L (Spec.deviceIdentification first ds ++ rest) =
      (unpackAll (designator L) ds.flatten).map fun l =>
        (⟨Spec.peripheral [first], [("page_code", 0x83), ("page_length", (ds.flatten.length : Int))]⟩, l) := by
  unfold deviceIdentification
  rw [headerPage_eq L _ (by simp [Spec.deviceIdentification])]
  simp only [bind, Except.bind, vpdHeader_length, page_num first ds rest hn]
  have hs : slice (Spec.deviceIdentification first ds ++ rest) 4 (4 + ds.flatten.length) = ds.flatten :=
    slice_payload ([first, 0x83] ++ be 2 ds.flatten.length) ds.flatten rest (by simp)
  have hv : Spec.vpdHeader (Spec.deviceIdentification first ds ++ rest) = [("page_code", 0x83), ("page_length", (ds.flatten.length : Int))] := by
    unfold Spec.vpdHeader
    rw [page_num first ds rest hn]; rfl
  rw [hs, hv]
  cases unpackAll (designator L) ds.flatten <;> rfl

/-- Every list of designation descriptors in the standard's formats comes back complete, in order, with the standard's values, whatever
follows the page in the buffer. (NAA designators: if the library puts the first of several joined references in the least significant
bits; see C49.) -/
theorem C43_decodes (L : BufLib) (first : UInt8) (ds : List Bytes) (rest : Bytes) (hd : ∀ d ∈ ds, Spec.IsDesignator d ∧ Spec.TextOk d)
    (ho : L.lowFirst = true ∨ ∀ d ∈ ds, Spec.designatorType d ≠ 3) (hn : ds.flatten.length < 2 ^ 16) :
    deviceIdentification L (Spec.deviceIdentification first ds ++ rest) =
      .ok (⟨Spec.peripheral [first], [("page_code", 0x83), ("page_length", (ds.flatten.length : Int))]⟩,
        ds.map fun d => ⟨Spec.designatorClass d, Spec.designatorHeader d ++ Spec.designatorNumbers d, Spec.designatorData L.trim d⟩) := by
  rw [page_designators L first ds rest hn]
  have h := unpackAll_encode (designator L) (fun d : Bytes => d) (designatorObject L) ds
    (by intro d hm he; have := (hd d hm).1.1; simp [he] at this)
    (by
      intro d hm r
      exact designator_append L d r _ (designator_eq L d (hd d hm).1 (hd d hm).2 (ho.imp_right fun f => f d hm)))
  rw [List.flatMap_def, List.map_id'] at h
  rw [h]; rfl

/-- The vendor in a T10 vendor identification designator, for a device that fills it up with NULs or (as the standard says) with spaces. -/
theorem C43_vendor (L : BufLib) (d vendor : Bytes) (ht : Spec.designatorType d = 1) (hp : Spec.Padded vendor ((d.drop 4).take 8)) :
    Spec.designatorData L.trim d = [("t10_vendor_identification", vendor), ("vendor_specific_identifier", d.drop 12)] := by
  simp only [Spec.designatorData, ht, trim_padded L hp]

theorem unpackAll_error {α β : Type} (elem : Bytes → Py (α × Nat)) (enc : β → Bytes) (val : β → α) (xs : List β) (tail : Bytes) (e : PyErr)
    (hne : ∀ x ∈ xs, enc x ≠ []) (h : ∀ x ∈ xs, ∀ rest, elem (enc x ++ rest) = .ok (val x, (enc x).length)) (ht : tail ≠ [])
    (he : elem tail = .error e) : unpackAll elem (xs.flatMap enc ++ tail) = .error e := by
  induction xs with
  | nil => rw [List.flatMap_nil, List.nil_append, unpackAll, if_neg ht, he]
  | cons x xs ih =>
    have hx := hne x (by simp)
    have hne' : (x :: xs).flatMap enc ++ tail ≠ [] := by simp [ht]
    have hk : ¬ ((enc x).length = 0 ∨ enc x ++ (xs.flatMap enc ++ tail) = []) := by simp [hx]
    rw [unpackAll, if_neg hne', List.flatMap_cons, List.append_assoc, h x (by simp)]
    simp only [dif_neg hk, List.drop_left, ih (fun y hy => hne y (by simp [hy])) (fun y hy => h y (by simp [hy]))]

theorem lookup_four {β : Type} (n : Nat) (a b c d : β) (h2 : n ≠ 2) (h3 : n ≠ 3) (h5 : n ≠ 5) (h6 : n ≠ 6) :
    List.lookup (n : Int) [(0x02, a), (0x03, b), (0x05, c), (0x06, d)] = none := by
  have e2 : ((n : Int) == 2) = false := by simp; omega
  have e3 : ((n : Int) == 3) = false := by simp; omega
  have e5 : ((n : Int) == 5) = false := by simp; omega
  have e6 : ((n : Int) == 6) = false := by simp; omega
  simp [List.lookup, e2, e3, e5, e6]

theorem lookup_three {β : Type} (n : Nat) (a b c : β) (h2 : n ≠ 8) (h3 : n ≠ 12) (h5 : n ≠ 16) :
    List.lookup (n : Int) [(0x08, a), (0x0c, b), (0x10, c)] = none := by
  have e2 : ((n : Int) == 8) = false := by simp; omega
  have e3 : ((n : Int) == 12) = false := by simp; omega
  have e5 : ((n : Int) == 16) = false := by simp; omega
  simp [List.lookup, e2, e3, e5]

theorem designator_refuses (L : BufLib) (d : Bytes) (h : Spec.UnknownFormat d) : designator L d = .error .instruct := by
  unfold designator determineDesignator
  rcases h with ⟨ht, h4, h8, h12, h16⟩ | ⟨ht, h5, h2, h3, hn5, h6⟩
  · rw [designatorHeader_eq L.sg d h4]
    simp only [bind, Except.bind, header_type, header_length, ht, show singleType.lookup ((2 : Nat) : Int) = none from rfl, euiByLength,
      lookup_three _ eui64 eui64_12 eui64_16 h8 h12 h16]
    rfl
  · rw [designatorHeader_eq L.sg d (by omega)]
    simp only [bind, Except.bind, header_type, header_length, ht, show singleType.lookup ((3 : Nat) : Int) = none from rfl,
      naaHeader_eq L.sg d h5, naaHeader_naa, naaByType, lookup_four _ naaExtended naaLocal naaRegistered naaRegisteredExtended h2 h3 hn5 h6]
    rfl

/-- A descriptor of an unknown sub-format, at any place in the list, makes the whole page be refused: nothing is misread. -/
theorem C43_refuses (L : BufLib) (first : UInt8) (ds : List Bytes) (x : Bytes) (after : List Bytes) (rest : Bytes)
    (hd : ∀ d ∈ ds, Spec.IsDesignator d ∧ Spec.TextOk d) (ho : L.lowFirst = true ∨ ∀ d ∈ ds, Spec.designatorType d ≠ 3)
    (hx : Spec.UnknownFormat x) (hn : (ds ++ x :: after).flatten.length < 2 ^ 16) :
    deviceIdentification L (Spec.deviceIdentification first (ds ++ x :: after) ++ rest) = .error .instruct := by
  rw [page_designators L first _ rest hn]
  have hx4 : 4 ≤ x.length := by rcases hx with h | h <;> omega
  have hb : ∀ i, i < x.length → Spec.byteAt (x ++ after.flatten) i = Spec.byteAt x i := fun i hi => byteAt_append_left _ _ _ hi
  have hx' : Spec.UnknownFormat (x ++ after.flatten) := by
    unfold Spec.UnknownFormat Spec.designatorType Spec.naa Spec.bitsAt at hx ⊢
    rcases hx with ⟨h1, h2, h3⟩ | ⟨h1, h2, h3⟩
    · left
      rw [hb 1 (by omega), hb 3 (by omega)]
      exact ⟨h1, by simp; omega, h3⟩
    · right
      rw [hb 1 (by omega), hb 4 (by omega)]
      exact ⟨h1, by simp; omega, h3⟩
  have h := unpackAll_error (designator L) (fun d : Bytes => d) (designatorObject L) ds (x ++ after.flatten) .instruct
    (by intro d hm he; have := (hd d hm).1.1; simp [he] at this)
    (by
      intro d hm r
      exact designator_append L d r _ (designator_eq L d (hd d hm).1 (hd d hm).2 (ho.imp_right fun f => f d hm)))
    (by intro he; simp at he; rw [he.1] at hx4; simp at hx4) (designator_refuses L _ hx')
  rw [List.flatMap_def, List.map_id'] at h
  simp only [List.flatten_append, List.flatten_cons, h]; rfl

theorem scsiName_cut (L : BufLib) (n : UInt8) (c : Bytes) (h : c.length ≤ n.toNat) :
    designator L ([3, 8, 0, n] ++ c) =
      .ok (⟨"SCSINameDesignator", Spec.designatorHeader [3, 8, 0, n], [("scsi_name_string", c)]⟩, 4 + n.toNat) := by
  have hh : Spec.designatorHeader ([3, 8, 0, n] ++ c) = Spec.designatorHeader [3, 8, 0, n] := rfl
  have h4 : 4 ≤ ([3, 8, 0, n] ++ c).length := by simp
  unfold designator determineDesignator
  rw [designatorHeader_eq L.sg _ h4]
  simp only [bind, Except.bind, header_type]
  have ht : Spec.designatorType ([3, 8, 0, n] ++ c) = 8 := by
    simp [Spec.designatorType, Spec.bitsAt, Spec.byteAt]
  rw [ht, show singleType.lookup ((8 : Nat) : Int) = some scsiName from rfl]
  simp only [unpackDesignator, designatorHeader_eq L.sg _ h4, scsiName, bind, Except.bind, unpackFields, readCats, unpackData, DField.unpack,
    header_length, Int.toNat_natCast, Option.getD_none, fieldsEnd, catsEnd, dataEnd, List.append_nil, hh]
  rw [show Spec.byteAt [3, 8, 0, n] 3 = n.toNat from rfl]
  rw [show slice ([3, 8, 0, n] ++ c) 4 (4 + n.toNat) = c by
    rw [slice, List.take_of_length_le (by simp; omega)]; rfl]
  rw [show max 4 (max 0 (max 0 (max (4 + n.toNat) 0))) = 4 + n.toNat by omega]

/-- The command asks for 252 bytes. A longer page arrives cut, and a designator without numbers that is cut is returned as if it were
complete: a SCSI name of more than 244 characters loses its end. -/
theorem C43_cut_false (L : BufLib) (first : UInt8) (name : Bytes) (h : 244 < name.length) (hn : name.length < 256) :
    Spec.IsDesignator ([3, 8, 0, UInt8.ofNat name.length] ++ name) ∧
    ∃ p x, deviceIdentification L ((Spec.deviceIdentification first [[3, 8, 0, UInt8.ofNat name.length] ++ name]).take 252) = .ok (p, [x]) ∧
      x.cls = "SCSINameDesignator" ∧ x.data = [("scsi_name_string", name.take 244)] ∧ name.take 244 ≠ name := by
  have hm : (UInt8.ofNat name.length).toNat = name.length := by simp [UInt8.toNat_ofNat']; omega
  refine ⟨⟨by simp, ?_, ?_⟩, ?_⟩
  · rw [show Spec.byteAt ([3, 8, 0, UInt8.ofNat name.length] ++ name) 3 = (UInt8.ofNat name.length).toNat from rfl, hm]
    simp; omega
  · have ht : Spec.designatorType ([3, 8, 0, UInt8.ofNat name.length] ++ name) = 8 := by
      simp [Spec.designatorType, Spec.bitsAt, Spec.byteAt]
    unfold Spec.DesignatorSize
    rw [ht]; trivial
  · refine ⟨⟨Spec.peripheral [first], [("page_code", 0x83), ("page_length", ((4 + name.length : Nat) : Int))]⟩,
      ⟨"SCSINameDesignator", Spec.designatorHeader [3, 8, 0, UInt8.ofNat name.length], [("scsi_name_string", name.take 244)]⟩, ?_, rfl, rfl, ?_⟩
    · have hcut : (Spec.deviceIdentification first [[3, 8, 0, UInt8.ofNat name.length] ++ name]).take 252 =
          ([first, 0x83] ++ be 2 (4 + name.length)) ++ ([3, 8, 0, UInt8.ofNat name.length] ++ name.take 244) := by
        simp only [Spec.deviceIdentification, List.flatten_cons, List.flatten_nil, List.append_nil]
        rw [show ([3, 8, 0, UInt8.ofNat name.length] ++ name).length = 4 + name.length by simp; omega]
        rw [List.take_append, List.take_of_length_le (by simp), List.take_append, List.take_of_length_le (by simp)]
        simp
      rw [hcut]
      unfold deviceIdentification
      have hnum : Spec.num (([first, 0x83] ++ be 2 (4 + name.length)) ++ ([3, 8, 0, UInt8.ofNat name.length] ++ name.take 244)) 2 2 =
          4 + name.length := by
        rw [List.append_assoc]
        exact (num_append_right [first, 0x83] _ 0 2).trans (num_be 2 _ _ (by omega))
      rw [headerPage_eq L _ (by simp)]
      simp only [bind, Except.bind, vpdHeader_length, hnum]
      rw [show slice (([first, 0x83] ++ be 2 (4 + name.length)) ++ ([3, 8, 0, UInt8.ofNat name.length] ++ name.take 244)) 4 (4 + (4 + name.length)) =
        [3, 8, 0, UInt8.ofNat name.length] ++ name.take 244 by
          rw [slice, List.take_of_length_le (by simp; omega)]
          exact List.drop_left' (by simp)]
      rw [unpackAll, if_neg (by simp), scsiName_cut L _ _ (by simp [hm]; omega)]
      simp only
      rw [dif_neg (by simp), List.drop_eq_nil_of_le (by simp [hm]; omega), unpackAll, if_pos rfl]
      simp only [Spec.vpdHeader, hnum]
      rfl
    · intro h'
      have := congrArg List.length h'
      simp at this; omega

/-- The numbers of an NAA, port or group designator are taken at fixed places whatever the descriptor's own length: an NAA 6 descriptor
that says it has 8 bytes swallows the descriptor after it. -/
theorem C43_length_false (L : BufLib) :
    ∃ x y : Bytes, x.length = 4 + Spec.byteAt x 3 ∧ Spec.IsDesignator y ∧ Spec.TextOk y ∧
      ∃ p l, deviceIdentification L (Spec.deviceIdentification 0 [x, y]) = .ok (p, l) ∧ l.length = 1 := by
  refine ⟨[1, 3, 0, 8, 0x60, 1, 2, 3, 4, 5, 6, 7], [1, 0x14, 0, 4, 0, 0, 0, 1], by decide, by decide, by decide, ?_⟩
  have h : ∃ x, designator L [1, 3, 0, 8, 0x60, 1, 2, 3, 4, 5, 6, 7, 1, 0x14, 0, 4, 0, 0, 0, 1] = .ok (x, 20) := by
    rcases L with ⟨sg, lf, t, p⟩
    cases lf <;> exact ⟨_, rfl⟩
  obtain ⟨x, hx⟩ := h
  have := page_designators L 0 [[1, 3, 0, 8, 0x60, 1, 2, 3, 4, 5, 6, 7], [1, 0x14, 0, 4, 0, 0, 0, 1]] [] (by decide)
  rw [List.append_nil] at this
  refine ⟨⟨Spec.peripheral [0], [("page_code", 0x83), ("page_length", 20)]⟩, [x], this.trans ?_, rfl⟩
  simp only [List.flatten_cons, List.flatten_nil, List.cons_append, List.nil_append, List.append_nil]
  rw [unpackAll, if_neg (by simp), hx]
  simp [unpackAll, Except.map]

/-- A page with a SCSI name, a T10 vendor designator, an NAA 6 designator and a relative target port. -/
example : ∀ d ∈ [[3, 8, 0, 4, 0x69, 0x71, 0x6E, 0], [2, 1, 0, 9, 0x4E, 0x46, 0x49, 0x4E, 0x49, 0x44, 0x41, 0x54, 1],
      [1, 3, 0, 16, 0x67, 0x42, 0xB0, 0xF0, 0, 0, 0, 1, 0, 0, 0, 0, 0, 0, 0, 9], [1, 0x14, 0, 4, 0, 0, 0, 1], [1, 10, 0, 2, 0x41, 0x42]],
    Spec.IsDesignator d ∧ Spec.TextOk d := by decide

example : Spec.designatorNumbers [1, 3, 0, 16, 0x67, 0x42, 0xB0, 0xF0, 0, 0, 0, 1, 0, 0, 0, 0, 0, 0, 0, 9] =
    [("naa", 6), ("vendor_specific_identifier_extension", 9), ("ieee_company_id", 0x742B0F), ("vendor_specific_identifier", 1)] := by decide

/-- An EUI-64 designator of 10 bytes, an NAA designator with NAA 4. -/
example : Spec.UnknownFormat [1, 2, 0, 10] ∧ Spec.UnknownFormat [1, 3, 0, 8, 0x40, 0, 0, 0, 0, 0, 0, 0] := by decide

/-! ## C44 — the other VPD pages -/

/-- Supported VPD pages: the page codes listed. -/
theorem C44_supported (L : BufLib) (b : Bytes) (h : 4 ≤ b.length) (hl : 4 + Spec.byteAt b 3 ≤ b.length) :
    supportedPages L b = .ok (⟨Spec.peripheral b, Spec.vpdHeaderShort b⟩,
      (List.range (Spec.byteAt b 3)).map fun j => Spec.byteAt b (4 + j)) := by
  unfold supportedPages
  rw [headerPageShort_eq L b h]
  simp only [bind, Except.bind, vpdHeaderShort_length, unpackN_u8 (Spec.byteAt b 3) (b.drop 4) (by simp; omega)]
  congr 2
  apply List.ext_getElem
  · simp; omega
  · intro i h1 h2
    simp only [List.length_map, List.length_take, List.length_drop] at h1
    simp [Spec.byteAt, List.getElem?_eq_getElem (show 4 + i < b.length by omega)]

/-- A response that ends before the last page code it announces is refused. -/
theorem C44_supported_short (L : BufLib) (b : Bytes) (h : 4 ≤ b.length) (hl : b.length < 4 + Spec.byteAt b 3) :
    supportedPages L b = .error .truncated := by
  unfold supportedPages
  rw [headerPageShort_eq L b h]
  simp only [bind, Except.bind, vpdHeaderShort_length, unpackN_u8_short (Spec.byteAt b 3) (b.drop 4) (by simp; omega)]

/-- Unit serial number: the text without the padding at its end (`L.trim`). -/
theorem C44_serial (L : BufLib) (b : Bytes) (h : 4 ≤ b.length) (ha : Spec.Ascii ((b.drop 4).take (Spec.byteAt b 3))) :
    unitSerial L b = .ok (⟨Spec.peripheral b, Spec.vpdHeaderShort b⟩, L.trim ((b.drop 4).take (Spec.byteAt b 3))) := by
  unfold unitSerial
  rw [headerPageShort_eq L b h]
  rw [take_drop_eq_slice] at ha ⊢
  simp only [bind, Except.bind, vpdHeaderShort_length', textOf_default L _ ha]

/-- A device that fills its serial number up with NULs or with spaces: the caller gets the serial number; spaces in front are part of it. -/
theorem C44_serial_padded (L : BufLib) (b serial : Bytes) (h : 4 ≤ b.length) (ha : Spec.Ascii ((b.drop 4).take (Spec.byteAt b 3)))
    (hp : Spec.Padded serial ((b.drop 4).take (Spec.byteAt b 3))) :
    unitSerial L b = .ok (⟨Spec.peripheral b, Spec.vpdHeaderShort b⟩, serial) := by
  rw [C44_serial L b h ha, trim_padded L hp]

/-- Such a page. -/
example : Spec.Padded [0x20, 0x41, 0x42] [0x20, 0x41, 0x42, 0x20, 0x20] ∧ Spec.Padded [0x41] [0x41, 0, 0] :=
  ⟨⟨by simp, 2, .inr rfl⟩, by simp, 2, .inl rfl⟩

/-- Unknown pages: the bytes of the page. -/
theorem C44_unknown (L : BufLib) (b : Bytes) (h : 4 ≤ b.length) :
    unknownPage L b = .ok (⟨Spec.peripheral b, Spec.vpdHeader b⟩, ((b.drop 4).take (Spec.num b 2 2)).map UInt8.toNat) := by
  unfold unknownPage
  rw [headerPage_eq L b h]
  simp only [bind, Except.bind, vpdHeader_length, take_drop_eq_slice, unpackAll_u8]

/-- Block limits: every field but the alignment, whatever the library's order of joined references; and the alignment. -/
theorem C44_block_limits (L : BufLib) (b : Bytes) (h : 44 ≤ b.length) :
    ∃ a : Nat, blockLimits L b = .ok ⟨Spec.peripheral b, Spec.blockLimits b ++ [("unmap_granularity_alignment", (a : Int))]⟩ ∧
      (L.lowFirst = true → a = Spec.unmapGranularityAlignment b) := by
  refine ⟨joinParts L (alignmentRefs.map fun r => (refNum b r, r.width)), ?_, ?_⟩
  · unfold blockLimits
    rw [fixedPage_eq L _ _ b (by simp [blockLimitsFields, UField.ref, Ref.Ok]) (by simp [alignmentRefs, Ref.Ok]) (by omega)
      (by simp [blockLimitsFields, fieldsEnd, UField.ref, Ref.stop]; omega) (by simp [catsEnd, alignmentRefs, refsEnd, Ref.stop]; omega)]
    simp only [blockLimitsFields, List.map_cons, List.map_nil, UField.name, fieldVal, refNum, Nat.reduceSub, num_one]
    rfl
  · intro hL
    have := byteAt_lt b 32; have := byteAt_lt b 33; have := byteAt_lt b 34; have := byteAt_lt b 35
    simp only [alignmentRefs, Spec.unmapGranularityAlignment, Spec.num, joinParts, hL, if_true, List.map_cons, List.map_nil, refNum, Ref.width,
      joinLow, Spec.bitsAt, Nat.reduceSub, Nat.reduceMul, Nat.reducePow, Nat.reduceAdd, Nat.div_one, num_one]
    omega

theorem provisioning_page (L : BufLib) (b : Bytes) (h : b.length = 8) :
    fixedPage L provisioningFields [] b = .ok ⟨Spec.peripheral b, Spec.provisioning b⟩ := by
  rw [fixedPage_eq L _ _ b (by simp [provisioningFields, UField.ref, Ref.Ok]) (by simp) (by omega)
      (by simp [provisioningFields, fieldsEnd, UField.ref, Ref.stop]; omega) (by simp [catsEnd])]
  simp only [provisioningFields, List.map_cons, List.map_nil, UField.name, fieldVal, refNum, Nat.reduceSub, num_one]
  rfl

/-- Logical block provisioning without a designator. -/
theorem C44_provisioning (L : BufLib) (b : Bytes) (h : b.length = 8) :
    provisioning L b = .ok (⟨Spec.peripheral b, Spec.provisioning b⟩, none) := by
  unfold provisioning
  rw [provisioning_page L b h]
  simp only [bind, Except.bind]
  rw [if_neg (by omega)]

/-- Logical block provisioning with a PROVISIONING GROUP DESCRIPTOR. -/
theorem C44_provisioning_group (L : BufLib) (b d rest : Bytes) (h : b.length = 8) (hd : Spec.IsDesignator d) (ht : Spec.TextOk d)
    (ho : L.lowFirst = true ∨ Spec.designatorType d ≠ 3) :
    provisioning L (b ++ d ++ rest) = .ok (⟨Spec.peripheral b, Spec.provisioning b⟩,
      some ⟨Spec.designatorClass d, Spec.designatorHeader d ++ Spec.designatorNumbers d, Spec.designatorData L.trim d⟩) := by
  have h4 := hd.1
  unfold provisioning
  rw [List.append_assoc, fixedPage_append L _ _ b _ _ (provisioning_page L b h)]
  simp only [bind, Except.bind]
  rw [if_pos (by simp; omega), ← h, List.drop_left, designator_append L d rest _ (designator_eq L d hd ht ho)]
  rfl

/-- The vendor page C0h. -/
theorem C44_veritas (L : BufLib) (b : Bytes) (h : 6 ≤ b.length) : veritas L b = .ok ⟨Spec.peripheral b, Spec.veritas b⟩ := by
  unfold veritas
  rw [fixedPage_eq L _ _ b (by simp [veritasFields, UField.ref, Ref.Ok]) (by simp) (by omega)
      (by simp [veritasFields, fieldsEnd, UField.ref, Ref.stop]; omega) (by simp [catsEnd])]
  simp only [veritasFields, List.map_cons, List.map_nil, UField.name, fieldVal, refNum, Nat.reduceSub, num_one]
  rfl

/-- Responses that are too short are refused; they are never completed with invented values. -/
theorem C44_short (L : BufLib) (b : Bytes) :
    (b.length < 4 → supportedPages L b = .error .truncated ∧ unitSerial L b = .error .truncated ∧ unknownPage L b = .error .truncated ∧
      deviceIdentification L b = .error .truncated) ∧
    (b.length < 44 → blockLimits L b = .error .truncated) ∧ (b.length < 7 → provisioning L b = .error .truncated) ∧
    (b.length < 6 → veritas L b = .error .truncated) := by
  refine ⟨fun h => ⟨?_, ?_, ?_, ?_⟩, fun h => ?_, fun h => ?_, fun h => ?_⟩
  · unfold supportedPages
    rw [fixedPage_short L _ _ b (by simp [UField.ref, Ref.Ok]) (by simpa [fieldsEnd, UField.ref, Ref.stop] using h)]; rfl
  · unfold unitSerial
    rw [fixedPage_short L _ _ b (by simp [UField.ref, Ref.Ok]) (by simpa [fieldsEnd, UField.ref, Ref.stop] using h)]; rfl
  · unfold unknownPage
    rw [fixedPage_short L _ _ b (by simp [UField.ref, Ref.Ok]) (by simpa [fieldsEnd, UField.ref, Ref.stop] using h)]; rfl
  · unfold deviceIdentification
    rw [fixedPage_short L _ _ b (by simp [UField.ref, Ref.Ok]) (by simpa [fieldsEnd, UField.ref, Ref.stop] using h)]; rfl
  · unfold blockLimits
    rw [fixedPage_short L _ _ b (by simp [blockLimitsFields, UField.ref, Ref.Ok])
      (by simpa [blockLimitsFields, fieldsEnd, UField.ref, Ref.stop] using h)]
  · unfold provisioning
    rw [fixedPage_short L _ _ b (by simp [provisioningFields, UField.ref, Ref.Ok])
      (by simpa [provisioningFields, fieldsEnd, UField.ref, Ref.stop] using h)]; rfl
  · unfold veritas
    rw [fixedPage_short L _ _ b (by simp [veritasFields, UField.ref, Ref.Ok])
      (by simpa [veritasFields, fieldsEnd, UField.ref, Ref.stop] using h)]

/-- A unit serial number page that is packed and unpacked comes back, whatever follows it. -/
theorem C44_serial_roundtrip (L : BufLib) (Lb : Lib) (type qualifier pageCode : Int) (serial rest : Bytes) (ht : 0 ≤ type ∧ type < 32)
    (hq : 0 ≤ qualifier ∧ qualifier < 8) (hp : 0 ≤ pageCode ∧ pageCode < 256) (hs : serial.length < 256) (ha : Spec.Ascii serial)
    (hz : ∀ c, serial.getLast? = some c → 0x20 < c.toNat ∧ c.toNat < 0x7F) :
    ∃ out, packUnitSerial L Lb type qualifier pageCode serial = .ok out ∧ out.length = 4 + serial.length ∧
      unitSerial L (out ++ rest) = .ok (⟨[("type", type), ("qualifier", qualifier)],
        [("page_code", pageCode), ("page_length", (serial.length : Int))]⟩, serial) := by
  obtain ⟨h, hh, hl, hr⟩ := header_roundtrip Lb type qualifier pageCode serial.length 3 (by simp) ht hq hp (by simp; omega)
  refine ⟨h ++ serial, ?_, by simp [hl], ?_⟩
  · unfold packUnitSerial
    rw [hh]
    simp only [bind, Except.bind, packText, (isAscii_iff serial).2 ha, Nat.le_refl, and_self, if_true, Nat.sub_self, List.replicate_zero,
      List.append_nil]
    rw [← putBytes_end, hl]
  · unfold unitSerial
    rw [List.append_assoc, hr L]
    have hg : get [("page_code", pageCode), ("page_length", (serial.length : Int))] "page_length" = serial.length := by
      simp [get, List.lookup]
    simp only [bind, Except.bind, hg]
    rw [show ((4 : Int) + (serial.length : Int)).toNat = 4 + serial.length by omega, ← List.append_assoc, slice_payload h serial rest hl,
      textOf_default L _ ha]
    rw [trim_whole L hz]

theorem packBytes_eq (l : Bytes) : packBytes (l.map fun b => (b.toNat : Int)) = .ok l := by
  induction l with
  | nil => rfl
  | cons b bs ih =>
    have hb := b.toNat_lt
    simp only [List.map_cons, packBytes, ih]
    have : packUInt 1 (b.toNat : Int) = .ok [b] := by
      unfold packUInt
      rw [if_pos ⟨by omega, by simp; omega⟩]
      simp [be, byte]
    rw [this]; rfl

/-- A page without a class of its own that is packed and unpacked comes back. -/
theorem C44_unknown_roundtrip (L : BufLib) (Lb : Lib) (type qualifier pageCode : Int) (data rest : Bytes) (ht : 0 ≤ type ∧ type < 32)
    (hq : 0 ≤ qualifier ∧ qualifier < 8) (hp : 0 ≤ pageCode ∧ pageCode < 256) (hs : data.length < 2 ^ 16) :
    ∃ out, packUnknownPage Lb type qualifier pageCode (data.map fun b => (b.toNat : Int)) = .ok out ∧ out.length = 4 + data.length ∧
      unknownPage L (out ++ rest) = .ok (⟨[("type", type), ("qualifier", qualifier)],
        [("page_code", pageCode), ("page_length", (data.length : Int))]⟩, data.map UInt8.toNat) := by
  obtain ⟨h, hh, hl, hr⟩ := header_roundtrip Lb type qualifier pageCode data.length 2 (by simp) ht hq hp (by simp; omega)
  refine ⟨h ++ data, ?_, by simp [hl], ?_⟩
  · unfold packUnknownPage
    rw [List.length_map, hh, packBytes_eq]
    simp only [bind, Except.bind]
    rw [← putBytes_end, hl]
  · unfold unknownPage
    rw [List.append_assoc, hr L]
    have hg : get [("page_code", pageCode), ("page_length", (data.length : Int))] "page_length" = data.length := by
      simp [get, List.lookup]
    simp only [bind, Except.bind, hg]
    rw [show ((4 : Int) + (data.length : Int)).toNat = 4 + data.length by omega, ← List.append_assoc, slice_payload h data rest hl, unpackAll_u8]

/-- The hypotheses are met: the serial number of the library's own test. -/
example : Spec.Ascii [0x30, 0x31, 0x20, 0x41] ∧ ∀ c, ([0x30, 0x31, 0x20, 0x41] : Bytes).getLast? = some c → c ≠ 0 := by
  constructor
  · decide
  · intro c h; cases h; decide

end Verif.Parse
