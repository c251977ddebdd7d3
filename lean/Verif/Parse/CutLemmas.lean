import Verif.Props.Inquiry
import Verif.Props.Responses
/-! # Lemmas for responses that were cut at the allocation length -/
set_option linter.unusedSimpArgs false

namespace Verif.Parse
open Verif

/-! ## Lists -/

/-- A last element that claims at least what is left of the range ends the list. -/
theorem unpackAll_last {α β : Type} (elem : Bytes → Py (α × Nat)) (enc : β → Bytes) (val : β → α) (xs : List β) (tail : Bytes) (y : α) (k : Nat)
    (hne : ∀ x ∈ xs, enc x ≠ []) (h : ∀ x ∈ xs, ∀ rest, elem (enc x ++ rest) = .ok (val x, (enc x).length)) (ht : tail ≠ [])
    (hk : tail.length ≤ k) (he : elem tail = .ok (y, k)) : unpackAll elem (xs.flatMap enc ++ tail) = .ok (xs.map val ++ [y]) := by
  induction xs with
  | nil =>
    have h0 : tail.length ≠ 0 := fun h => ht (List.length_eq_zero_iff.1 h)
    rw [List.flatMap_nil, List.nil_append, unpackAll, if_neg ht, he]
    simp only
    rw [dif_neg (by simp [ht]; omega), List.drop_eq_nil_of_le hk, unpackAll, if_pos rfl]
    rfl
  | cons x xs ih =>
    have hx := hne x (by simp)
    have hne' : (x :: xs).flatMap enc ++ tail ≠ [] := by simp [ht]
    have hk' : ¬ ((enc x).length = 0 ∨ enc x ++ (xs.flatMap enc ++ tail) = []) := by simp [hx]
    rw [unpackAll, if_neg hne', List.flatMap_cons, List.append_assoc, h x (by simp)]
    simp only [dif_neg hk', List.drop_left, ih (fun y hy => hne y (by simp [hy])) (fun y hy => h y (by simp [hy]))]
    rfl

/-- The payload of a page that was cut. -/
theorem slice_cut (h p : Bytes) (a n : Nat) (ha : h.length = a) (hn : a ≤ n) : slice ((h ++ p).take n) a (a + p.length) = p.take (n - a) := by
  subst ha
  have : (h ++ p).take n = h ++ p.take (n - h.length) := by rw [List.take_append, List.take_of_length_le hn]
  rw [this, slice, List.take_of_length_le (by simp; omega), List.drop_left]

theorem take_flatten (before : List Bytes) (d : Bytes) (after : List Bytes) (m : Nat) (h : m ≤ d.length) :
    (before ++ d :: after).flatten.take (before.flatten.length + m) = before.flatten ++ d.take m := by
  rw [List.flatten_append, List.take_length_add_append, List.flatten_cons, List.take_append_of_le_length h]

theorem take_flatten_between (before after : List Bytes) : (before ++ after).flatten.take before.flatten.length = before.flatten := by
  rw [List.flatten_append, List.take_left' rfl]

theorem byteAt_take (b : Bytes) (n i : Nat) (h : i < n) : Spec.byteAt (b.take n) i = Spec.byteAt b i := by
  simp [Spec.byteAt, List.getD_eq_getElem?_getD, List.getElem?_take_of_lt h]

theorem num_take (b : Bytes) (n i k : Nat) (h : i + k ≤ n) : Spec.num (b.take n) i k = Spec.num b i k := by
  induction k with
  | zero => rfl
  | succ k ih => simp only [Spec.num, ih (by omega), byteAt_take b n (i + k) (by omega)]

theorem ascii_take (b : Bytes) (n : Nat) (h : Spec.Ascii b) : Spec.Ascii (b.take n) := fun c hc => h c (List.mem_of_mem_take hc)

/-! ## Target port groups -/

theorem targetPorts_short (sg : Bool) (n : Nat) (b : Bytes) (h : b.length < 4 * n) : unpackN (targetPort sg) n b = .error .truncated := by
  induction n generalizing b with
  | zero => omega
  | succ n ih =>
    by_cases hl : b.length < 4
    · have : targetPort sg b = .error .truncated := by
        unfold targetPort
        rw [unpackFields_truncated sg _ _ (by simp [targetPortFields, UField.ref, Ref.Ok])
          (by simpa [targetPortFields, fieldsEnd, UField.ref, Ref.stop] using hl)]
        rfl
      simp only [unpackN, this, bind, Except.bind]
    · simp only [unpackN, targetPort_eq sg b (by omega), bind, Except.bind, ih (b.drop 4) (by simp only [List.length_drop]; omega)]

/-- A group descriptor that was cut is refused. -/
theorem targetPortGroup_cut (sg : Bool) (d : Bytes) (m : Nat) (hd : Spec.IsTargetPortGroup d)
    (hsg : sg = true → Spec.byteAt d 5 < 128 ∧ Spec.byteAt d 7 < 128) (hm : m < d.length) : targetPortGroup sg (d.take m) = .error .truncated := by
  obtain ⟨hlen, h8⟩ := hd
  have hl : (d.take m).length = m := by simp; omega
  unfold targetPortGroup
  by_cases h : m < 8
  · rw [unpackFields_truncated sg _ _ (by simp [targetPortGroupFields, UField.ref, Ref.Ok])
      (by simp [targetPortGroupFields, fieldsEnd, UField.ref, Ref.stop]; omega)]
    rfl
  · rw [unpackFields_eq sg _ _ (by simp [targetPortGroupFields, UField.ref, Ref.Ok])
      (by simp [targetPortGroupFields, fieldsEnd, UField.ref, Ref.stop]; omega)]
    have h7 := fieldVal_byte sg (d.take m) "target_port_count" 7 (by intro h; rw [byteAt_take _ _ _ (by omega)]; exact (hsg h).2)
    have hc : (get (targetPortGroupFields.map fun f => (f.name, fieldVal sg (d.take m) f)) "target_port_count").toNat = Spec.byteAt d 7 := by
      have : get (targetPortGroupFields.map fun f => (f.name, fieldVal sg (d.take m) f)) "target_port_count" =
          fieldVal sg (d.take m) (.i "target_port_count" (.bytes 7 8)) := by
        simp [get, targetPortGroupFields, UField.name, List.lookup]
      rw [this, h7, byteAt_take _ _ _ (by omega), Int.toNat_natCast]
    simp only [bind, Except.bind, hc]
    rw [targetPorts_short sg _ _ (by simp only [List.length_drop]; omega)]

/-! ## Full status -/

/-- A full status descriptor that was cut in its TransportID is returned with what is left of it. -/
theorem fullStatus_cut (sg : Bool) (d : Bytes) (m : Nat) (hd : Spec.IsFullStatus d) (h : 25 ≤ m) (hm : m ≤ d.length) :
    fullStatus sg (d.take m) = .ok ({ attrs := Spec.fullStatus d, transport := { attrs := Spec.transportId (d.drop 24), specificData := (d.take m).drop 25 } },
      d.length) := by
  obtain ⟨hlen, h25⟩ := hd
  have hl : (d.take m).length = m := by simp; omega
  have hattrs : fullStatusFields.map (fun f => (f.name, fieldVal sg (d.take m) f)) = Spec.fullStatus d := by
    simp only [fullStatusFields, List.map_cons, List.map_nil, UField.name, fieldVal, refNum, Nat.reduceSub, Spec.bitsAt, byteAt_take d m 12 (by omega),
      byteAt_take d m 13 (by omega), num_take d m 0 8 (by omega), num_take d m 18 2 (by omega), num_take d m 20 4 (by omega)]
    rfl
  have hlen' : get (Spec.fullStatus d) "additional_length" = (Spec.num d 20 4 : Int) := by simp [get, Spec.fullStatus, List.lookup]
  have hsl : slice (d.take m) 24 (Spec.num d 20 4 + 24) = (d.take m).drop 24 := by
    unfold slice; rw [List.take_of_length_le (by omega)]
  unfold fullStatus
  rw [unpackFields_eq sg _ _ (by simp [fullStatusFields, UField.ref, Ref.Ok])
    (by simp [fullStatusFields, fieldsEnd, UField.ref, Ref.stop]; omega), hattrs]
  simp only [bind, Except.bind, hlen', Int.toNat_natCast, hsl]
  unfold transportId
  have hb : ∀ hi lo, Spec.bitsAt ((d.take m).drop 24) 0 hi lo = Spec.bitsAt (d.drop 24) 0 hi lo := by
    intro hi lo
    have : Spec.byteAt ((d.take m).drop 24) 0 = Spec.byteAt (d.drop 24) 0 := by
      simp [Spec.byteAt, List.getD_eq_getElem?_getD, List.getElem?_take_of_lt (show 24 < m by omega)]
    simp only [Spec.bitsAt, this]
  rw [unpackFields_eq sg _ _ (by simp [UField.ref, Ref.Ok]) (by simp [fieldsEnd, UField.ref, Ref.stop]; omega)]
  simp only [bind, Except.bind, List.drop_drop, List.map_cons, List.map_nil, UField.name, fieldVal, refNum, Nat.reduceSub, hb]
  rw [show Spec.num d 20 4 + 24 = d.length by omega]
  rfl

theorem fullStatus_refused (sg : Bool) (d : Bytes) (m : Nat) (hd : Spec.IsFullStatus d) (h : m < 25) : fullStatus sg (d.take m) = .error .truncated := by
  obtain ⟨hlen, h25⟩ := hd
  have hl : (d.take m).length = m := by simp; omega
  unfold fullStatus
  by_cases hm : m < 24
  · rw [unpackFields_truncated sg _ _ (by simp [fullStatusFields, UField.ref, Ref.Ok])
      (by simp [fullStatusFields, fieldsEnd, UField.ref, Ref.stop]; omega)]
    rfl
  · rw [unpackFields_eq sg _ _ (by simp [fullStatusFields, UField.ref, Ref.Ok])
      (by simp [fullStatusFields, fieldsEnd, UField.ref, Ref.stop]; omega)]
    simp only [bind, Except.bind]
    unfold transportId
    rw [unpackFields_truncated sg _ _ (by simp [UField.ref, Ref.Ok])]
    · rfl
    · have h0 : (d.take m).drop 24 = [] := List.drop_eq_nil_of_le (by omega)
      have h1 : ∀ k, slice (d.take m) 24 k = [] := by
        intro k
        unfold slice
        exact List.drop_eq_nil_of_le (by simp; omega)
      rw [h1]
      simp [fieldsEnd, UField.ref, Ref.stop]

/-! ## Designators -/

theorem readParts_truncated (rs : List Ref) (b : Bytes) (ho : ∀ r ∈ rs, Ref.Ok r) (h : b.length < refsEnd rs) : readParts rs b = .error .truncated := by
  induction rs with
  | nil => simp [refsEnd] at h
  | cons r rs ih =>
    simp only [refsEnd] at h
    by_cases hf : b.length < r.stop
    · simp only [readParts, read_short _ _ hf]; rfl
    · simp only [readParts, read_eq b r (ho r (by simp)) (by omega), ih (fun q hq => ho q (by simp [hq])) (by omega)]; rfl

theorem readCats_truncated (L : BufLib) (cs : List (String × List Ref)) (b : Bytes) (ho : ∀ c ∈ cs, ∀ r ∈ c.2, Ref.Ok r) (h : b.length < catsEnd cs) :
    readCats L cs b = .error .truncated := by
  induction cs with
  | nil => simp [catsEnd] at h
  | cons c cs ih =>
    obtain ⟨n, rs⟩ := c
    simp only [catsEnd] at h
    by_cases hf : b.length < refsEnd rs
    · simp only [readCats, readCat, readParts_truncated rs b (ho (n, rs) (by simp)) hf]; rfl
    · simp only [readCats, readCat, readParts_eq rs b (ho (n, rs) (by simp)) (by omega), ih (fun q hq => ho q (by simp [hq])) (by omega)]; rfl

theorem unpackDesignator_truncated (L : BufLib) (c : DesignatorClass) (b : Bytes) (hi : ∀ f ∈ c.ints, Ref.Ok f.ref) (hc : ∀ x ∈ c.cats, ∀ r ∈ x.2, Ref.Ok r)
    (h : b.length < fieldsEnd c.ints ∨ b.length < catsEnd c.cats) : unpackDesignator L c b = .error .truncated := by
  unfold unpackDesignator
  by_cases h4 : 4 ≤ b.length
  · rw [designatorHeader_eq L.sg b h4]
    by_cases h1 : b.length < fieldsEnd c.ints
    · rw [unpackFields_truncated L.sg _ _ hi h1]; rfl
    · rw [unpackFields_eq L.sg _ _ hi (by omega), readCats_truncated L _ _ hc (by omega)]; rfl
  · rw [unpackFields_truncated L.sg _ _ (by simp [designatorHeader, UField.ref, Ref.Ok])
      (by simp [designatorHeader, fieldsEnd, UField.ref, Ref.stop]; omega)]
    rfl

/-- The class is chosen by the first five bytes, for designators other than NAA by the first four. -/
theorem determine_cut (L : BufLib) (c rest : Bytes) (h : 4 ≤ c.length) (h5 : 5 ≤ c.length ∨ Spec.designatorType c ≠ 3) :
    determineDesignator L c = determineDesignator L (c ++ rest) := by
  have e1 := designatorHeader_eq L.sg c h
  have e2 := unpackFields_append L.sg designatorHeader c rest _ e1
  unfold determineDesignator
  rw [e1, e2]
  simp only [bind, Except.bind, header_type]
  by_cases h5' : 5 ≤ c.length
  · have e3 := naaHeader_eq L.sg c h5'
    have e4 := unpackFields_append L.sg _ c rest _ e3
    rw [e3, e4]
  · have : ¬ ((Spec.designatorType c : Nat) : Int) = 0x03 := by omega
    simp only [if_neg this]

theorem designatorType_take (d : Bytes) (m : Nat) (h : 2 ≤ m) : Spec.designatorType (d.take m) = Spec.designatorType d := by
  simp only [Spec.designatorType, Spec.bitsAt, byteAt_take d m 1 (by omega)]

/-- A descriptor with numbers that was cut anywhere is refused; one without numbers is, if its header was cut. -/
theorem designator_cut_refused (L : BufLib) (d : Bytes) (m : Nat) (hd : Spec.IsDesignator d) (hm : m < d.length)
    (h : m < 4 ∨ (2 ≤ Spec.designatorType d ∧ Spec.designatorType d ≤ 6)) : designator L (d.take m) = .error .truncated := by
  have hlen : (d.take m).length = m := by simp; omega
  by_cases h4 : m < 4
  · unfold designator determineDesignator
    rw [unpackFields_truncated L.sg _ _ (by simp [designatorHeader, UField.ref, Ref.Ok])
      (by simp [designatorHeader, fieldsEnd, UField.ref, Ref.stop]; omega)]
    rfl
  have ht : 2 ≤ Spec.designatorType d ∧ Spec.designatorType d ≤ 6 := by omega
  by_cases hn : m = 4 ∧ Spec.designatorType d = 3
  · unfold designator determineDesignator
    rw [designatorHeader_eq L.sg _ (by omega)]
    simp only [bind, Except.bind, header_type, designatorType_take d m (by omega), hn.2, show singleType.lookup ((3 : Nat) : Int) = none from rfl]
    rw [if_neg (by decide), if_pos (by decide)]
    rw [unpackFields_truncated L.sg _ _ (by simp [designatorHeader, naaField, UField.ref, Ref.Ok])
      (by simp [designatorHeader, naaField, fieldsEnd, UField.ref, Ref.stop]; omega)]
  have hdet : determineDesignator L (d.take m) = determineDesignator L d := by
    rw [determine_cut L (d.take m) (d.drop m) (by omega) (by rw [designatorType_take d m (by omega)]; omega), List.take_append_drop]
  unfold designator
  rw [hdet, determine_eq L d hd]
  obtain ⟨-, hl, hs⟩ := hd
  unfold Spec.DesignatorSize at hs
  simp only [bind, Except.bind]
  generalize hT : Spec.designatorType d = T at hs ht
  match T, ht with
  | 2, _ =>
    simp only at hs ⊢
    rcases hs with h | h | h
    · rw [if_pos h]
      exact unpackDesignator_truncated L _ _ (by simp [eui64, UField.ref, Ref.Ok]) (by simp [eui64]) (.inl (by simp [eui64, fieldsEnd, UField.ref, Ref.stop]; omega))
    · rw [if_neg (by omega), if_pos h]
      exact unpackDesignator_truncated L _ _ (by simp [eui64_12, UField.ref, Ref.Ok]) (by simp [eui64_12]) (.inl (by simp [eui64_12, fieldsEnd, UField.ref, Ref.stop]; omega))
    · rw [if_neg (by omega), if_neg (by omega)]
      exact unpackDesignator_truncated L _ _ (by simp [eui64_16, UField.ref, Ref.Ok]) (by simp [eui64_16]) (.inl (by simp [eui64_16, fieldsEnd, UField.ref, Ref.stop]; omega))
  | 3, _ =>
    simp only at hs ⊢
    rcases hs with ⟨h | h | h, h8⟩ | ⟨h, h8⟩
    · rw [if_pos h]
      exact unpackDesignator_truncated L _ _ (by simp [naaExtended, naaField, UField.ref, Ref.Ok]) (by simp [naaExtended, Ref.Ok])
        (.inl (by simp [naaExtended, naaField, fieldsEnd, UField.ref, Ref.stop]; omega))
    · rw [if_neg (by omega), if_pos h]
      exact unpackDesignator_truncated L _ _ (by simp [naaLocal, naaField, UField.ref, Ref.Ok]) (by simp [naaLocal, Ref.Ok])
        (.inr (by simp [naaLocal, catsEnd, refsEnd, Ref.stop]; omega))
    · rw [if_neg (by omega), if_neg (by omega), if_pos h]
      exact unpackDesignator_truncated L _ _ (by simp [naaRegistered, naaField, UField.ref, Ref.Ok]) (by simp [naaRegistered, registeredCats, Ref.Ok])
        (.inr (by simp [naaRegistered, registeredCats, catsEnd, refsEnd, Ref.stop]; omega))
    · rw [if_neg (by omega), if_neg (by omega), if_neg (by omega)]
      exact unpackDesignator_truncated L _ _ (by simp [naaRegisteredExtended, naaField, UField.ref, Ref.Ok]) (by simp [naaRegisteredExtended, registeredCats, Ref.Ok])
        (.inl (by simp [naaRegisteredExtended, naaField, fieldsEnd, UField.ref, Ref.stop]; omega))
  | 4, _ =>
    simp only at hs
    exact unpackDesignator_truncated L _ _ (by simp [relativePort, UField.ref, Ref.Ok]) (by simp [relativePort]) (.inl (by simp [relativePort, fieldsEnd, UField.ref, Ref.stop]; omega))
  | 5, _ =>
    simp only at hs
    exact unpackDesignator_truncated L _ _ (by simp [portGroup, UField.ref, Ref.Ok]) (by simp [portGroup]) (.inl (by simp [portGroup, fieldsEnd, UField.ref, Ref.stop]; omega))
  | 6, _ =>
    simp only at hs
    exact unpackDesignator_truncated L _ _ (by simp [unitGroup, UField.ref, Ref.Ok]) (by simp [unitGroup]) (.inl (by simp [unitGroup, fieldsEnd, UField.ref, Ref.stop]; omega))

/-- A descriptor without numbers that was cut after its header is returned with what is left of it. -/
theorem designator_cut (L : BufLib) (d : Bytes) (m : Nat) (hd : Spec.IsDesignator d) (hx : Spec.TextOk d) (h4 : 4 ≤ m) (hm : m < d.length)
    (h : ¬ (2 ≤ Spec.designatorType d ∧ Spec.designatorType d ≤ 6)) :
    ∃ k, m ≤ k ∧ designator L (d.take m) = .ok (⟨Spec.designatorClass d, Spec.designatorHeader d, Spec.designatorData L.trim (d.take m)⟩, k) := by
  have hlen : (d.take m).length = m := by simp; omega
  have htake := designatorType_take d m (by omega)
  have hdet : determineDesignator L (d.take m) = determineDesignator L d := by
    rw [determine_cut L (d.take m) (d.drop m) (by omega) (by rw [htake]; omega), List.take_append_drop]
  have hh : Spec.designatorHeader (d.take m) = Spec.designatorHeader d := by
    simp only [Spec.designatorHeader, Spec.bitsAt, Spec.bitAt, byteAt_take d m 0 (by omega), byteAt_take d m 1 (by omega), byteAt_take d m 2 (by omega),
      byteAt_take d m 3 (by omega)]
  have hstop : ∀ lo, slice (d.take m) lo (4 + Spec.byteAt d 3) = (d.take m).drop lo := by
    intro lo
    have := hd.2.1
    rw [slice, List.take_of_length_le (by omega)]
  have key : ∀ (n : String) (fs : List DField) (lo : Option String) (dat : List (String × Bytes)), unpackData L (4 + Spec.byteAt d 3) (d.take m) fs = .ok dat →
      unpackDesignator L { name := n, data := fs, lengthOf := lo } (d.take m) = .ok (⟨n, Spec.designatorHeader d, dat⟩, max 4 (dataEnd (4 + Spec.byteAt d 3) fs)) := by
    intro n fs lo dat hdat
    unfold unpackDesignator
    rw [designatorHeader_eq L.sg _ (by omega), hh]
    simp only [bind, Except.bind, unpackFields, readCats, header_length, Int.toNat_natCast, hdat, List.append_nil, fieldsEnd, catsEnd]
    congr 2
  unfold designator
  rw [hdet, determine_eq L d hd]
  obtain ⟨-, hl, hs⟩ := hd
  obtain ⟨hx1, hx9⟩ := hx
  have hlt := type_lt d
  unfold Spec.DesignatorSize at hs
  unfold Spec.designatorClass Spec.designatorData
  rw [htake]
  simp only [bind, Except.bind]
  have hres : 9 ≤ Spec.designatorType d → unpackData L (4 + Spec.byteAt d 3) (d.take m) [.text "desginator" 4 none] =
      .ok [("desginator", L.trim ((d.take m).drop 4))] := by
    intro h9
    have : Spec.Ascii ((d.take m).drop 4) := by rw [List.drop_take]; exact ascii_take _ _ (hx9 h9)
    simp only [unpackData, DField.unpack, Option.getD_none, hstop, textOf_default L _ this]
    rfl
  generalize hT : Spec.designatorType d = T at hs hlt hx1 hx9 h hres
  match T, hlt with
  | 0, _ => exact ⟨_, by simp [dataEnd]; omega, key _ _ _ _ (by simp only [unpackData, DField.unpack, Option.getD_none, hstop]; rfl)⟩
  | 1, _ =>
    have ha : Spec.Ascii (slice (d.take m) 4 12) := by
      have : slice (d.take m) 4 12 = ((d.drop 4).take 8).take (m - 4) := by
        rw [slice, List.take_take, List.drop_take, List.take_take]
        congr 1; omega
      rw [this]; exact ascii_take _ _ (hx1 rfl)
    refine ⟨_, ?_, key _ _ _ _ (by
      simp only [unpackData, DField.unpack, Option.getD_none, Option.getD_some, hstop, textOf_default L _ ha, take_drop_eq_slice]; rfl)⟩
    simp [dataEnd]; omega
  | 2, _ => omega
  | 3, _ => omega
  | 4, _ => omega
  | 5, _ => omega
  | 6, _ => omega
  | 7, _ => exact ⟨_, by simp [dataEnd]; omega, key _ _ _ _ (by simp only [unpackData, DField.unpack, Option.getD_none, hstop]; rfl)⟩
  | 8, _ => exact ⟨_, by simp [dataEnd]; omega, key _ _ _ _ (by simp only [unpackData, DField.unpack, Option.getD_none, hstop]; rfl)⟩
  | 9, _ => exact ⟨_, by simp [dataEnd]; omega, key _ _ _ _ (hres (by omega))⟩
  | 10, _ => exact ⟨_, by simp [dataEnd]; omega, key _ _ _ _ (hres (by omega))⟩
  | 11, _ => exact ⟨_, by simp [dataEnd]; omega, key _ _ _ _ (hres (by omega))⟩
  | 12, _ => exact ⟨_, by simp [dataEnd]; omega, key _ _ _ _ (hres (by omega))⟩
  | 13, _ => exact ⟨_, by simp [dataEnd]; omega, key _ _ _ _ (hres (by omega))⟩
  | 14, _ => exact ⟨_, by simp [dataEnd]; omega, key _ _ _ _ (hres (by omega))⟩
  | 15, _ => exact ⟨_, by simp [dataEnd]; omega, key _ _ _ _ (hres (by omega))⟩
  | n + 16, h => omega

/-! ## Whole responses -/

theorem deviceIdentification_cut (L : BufLib) (first : UInt8) (ds : List Bytes) (n : Nat) (hl : ds.flatten.length < 2 ^ 16) (hn : 4 ≤ n) :
    deviceIdentification L ((Spec.deviceIdentification first ds).take n) =
      (unpackAll (designator L) (ds.flatten.take (n - 4))).map fun l =>
        (⟨Spec.peripheral [first], [("page_code", 0x83), ("page_length", (ds.flatten.length : Int))]⟩, l) := by
  have hlen : (Spec.deviceIdentification first ds).length = 4 + ds.flatten.length := by simp [Spec.deviceIdentification]; omega
  have hnum : Spec.num ((Spec.deviceIdentification first ds).take n) 2 2 = ds.flatten.length := by
    rw [num_take _ _ _ _ (by omega)]
    have := page_num first ds [] hl
    rwa [List.append_nil] at this
  unfold deviceIdentification
  rw [headerPage_eq L _ (by rw [List.length_take]; omega)]
  simp only [bind, Except.bind, vpdHeader_length, hnum]
  have hs : slice ((Spec.deviceIdentification first ds).take n) 4 (4 + ds.flatten.length) = ds.flatten.take (n - 4) :=
    slice_cut ([first, 0x83] ++ be 2 ds.flatten.length) ds.flatten 4 n (by simp) hn
  have hv : Spec.vpdHeader ((Spec.deviceIdentification first ds).take n) = [("page_code", 0x83), ("page_length", (ds.flatten.length : Int))] := by
    unfold Spec.vpdHeader
    rw [hnum, byteAt_take _ _ _ (by omega)]; rfl
  have hp : Spec.peripheral ((Spec.deviceIdentification first ds).take n) = Spec.peripheral [first] := by
    simp only [Spec.peripheral, Spec.bitsAt, byteAt_take _ n 0 (by omega)]
    rfl
  rw [hs, hv, hp]
  cases unpackAll (designator L) (ds.flatten.take (n - 4)) <;> rfl

theorem rtpg_cut (sg : Bool) (groups : List Bytes) (n : Nat) (hl : groups.flatten.length < 2 ^ 31) (hn : 4 ≤ n) :
    rtpg sg 0 ((Spec.rtpgLengthOnly groups).take n) =
      (unpackAll (targetPortGroup sg) (groups.flatten.take (n - 4))).map fun l => { attrs := [("data_length", (groups.flatten.length : Int))], groups := l } := by
  have hlen : (Spec.rtpgLengthOnly groups).length = 4 + groups.flatten.length := by simp only [Spec.rtpgLengthOnly, List.length_append, be_length]
  have hnum : Spec.num ((Spec.rtpgLengthOnly groups).take n) 0 4 = groups.flatten.length := by
    rw [num_take _ _ _ _ (by omega), Spec.rtpgLengthOnly, num_be 4 _ _ (by simp only [Nat.reducePow] at hl ⊢; omega)]
  have hval := fieldVal_num sg ((Spec.rtpgLengthOnly groups).take n) "data_length" 0 4 (by decide)
    (by intro _; rw [hnum]; simp only [Nat.reducePow] at hl ⊢; omega)
  have hs : sliceFrom ((Spec.rtpgLengthOnly groups).take n) 4 (groups.flatten.length : Int) = groups.flatten.take (n - 4) := by
    unfold sliceFrom
    rw [show ((4 : Nat) + (groups.flatten.length : Int)).toNat = 4 + groups.flatten.length by omega]
    exact slice_cut (be 4 groups.flatten.length) groups.flatten 4 n (by simp) hn
  rw [rtpg, if_pos rfl]
  unfold rtpgLengthOnly
  rw [unpackFields_eq sg _ _ (by simp [UField.ref, Ref.Ok]) (by simp [fieldsEnd, UField.ref, Ref.stop]; rw [List.length_flatten] at hlen; omega)]
  simp only [bind, Except.bind, List.map_cons, List.map_nil, UField.name, Nat.reduceAdd] at hval ⊢
  rw [hval, hnum]
  simp only [get, List.lookup, beq_self_eq_true, Option.getD_some, hs]
  cases unpackAll (targetPortGroup sg) (groups.flatten.take (n - 4)) <;> rfl

theorem readFullStatus_cut (sg : Bool) (generation : Nat) (ds : List Bytes) (n : Nat) (hg : generation < 2 ^ 32) (hl : ds.flatten.length < 2 ^ 32)
    (h0 : 0 < ds.flatten.length) (hn : 8 ≤ n) :
    prin sg 3 ((Spec.readFullStatus generation ds).take n) =
      (unpackAll (fullStatus sg) (ds.flatten.take (n - 8))).map fun l =>
        .fullStatus { attrs := [("pr_generation", (generation : Int)), ("additional_length", (ds.flatten.length : Int))], descriptors := some l } := by
  have hlen : (Spec.readFullStatus generation ds).length = 8 + ds.flatten.length := by
    simp only [Spec.readFullStatus, List.length_append, be_length]
  have e1 : Spec.num (Spec.readFullStatus generation ds) 0 4 = generation := by
    rw [Spec.readFullStatus, List.append_assoc, num_be 4 _ _ (by omega)]
  have e2 : Spec.num (Spec.readFullStatus generation ds) 4 4 = ds.flatten.length := by
    have := num_append_right (be 4 generation) (be 4 ds.flatten.length ++ ds.flatten) 0 4
    rw [num_be 4 _ _ (by omega)] at this
    rw [Spec.readFullStatus, List.append_assoc]; simpa using this
  have hh : Spec.prHeader ((Spec.readFullStatus generation ds).take n) =
      [("pr_generation", (generation : Int)), ("additional_length", (ds.flatten.length : Int))] := by
    simp only [Spec.prHeader, num_take _ n 0 4 (by omega), num_take _ n 4 4 (by omega), e1, e2]
  have hs : sliceFrom ((Spec.readFullStatus generation ds).take n) 8 (ds.flatten.length : Int) = ds.flatten.take (n - 8) := by
    unfold sliceFrom
    rw [show ((8 : Nat) + (ds.flatten.length : Int)).toNat = 8 + ds.flatten.length by omega]
    exact slice_cut (be 4 generation ++ be 4 ds.flatten.length) ds.flatten 8 n (by simp) hn
  rw [prin, if_neg (by decide), if_neg (by decide), if_neg (by decide), if_pos rfl]
  unfold readFullStatus
  rw [prHeader_eq sg _ (by rw [List.length_take]; omega), hh]
  have hget : get [("pr_generation", (generation : Int)), ("additional_length", (ds.flatten.length : Int))] "additional_length" = (ds.flatten.length : Int) := rfl
  have hgt : (ds.flatten.length : Int) > 0 := by omega
  simp only [bind, Except.bind, hget, hs, if_pos hgt]
  cases unpackAll (fullStatus sg) (ds.flatten.take (n - 8)) <;> rfl

theorem receiveCopy_cut (sg : Bool) (b : Bytes) (n : Nat) (hb : b.length = 44 + Spec.byteAt b 43) (hn : 44 ≤ n) :
    receiveCopy sg (b.take n) = .ok { attrs := Spec.receiveCopy b, descriptors := ((b.take n).drop 44).map UInt8.toNat } := by
  have hl : 44 ≤ (b.take n).length := by rw [List.length_take]; omega
  have e : Spec.receiveCopy (b.take n) = Spec.receiveCopy b := by
    simp only [Spec.receiveCopy, Spec.bitAt, num_take b n 0 4 (by omega), num_take b n 8 2 (by omega), num_take b n 10 2 (by omega), num_take b n 12 4 (by omega),
      num_take b n 16 4 (by omega), num_take b n 20 4 (by omega), num_take b n 24 4 (by omega), num_take b n 28 4 (by omega), num_take b n 34 2 (by omega),
      byteAt_take b n 4 (by omega), byteAt_take b n 36 (by omega), byteAt_take b n 37 (by omega), byteAt_take b n 38 (by omega), byteAt_take b n 39 (by omega),
      byteAt_take b n 43 (by omega)]
  unfold receiveCopy
  rw [unpackFields_eq sg _ _ (by simp [receiveCopyFields, UField.ref, Ref.Ok])
    (by simpa [receiveCopyFields, fieldsEnd, UField.ref, Ref.stop] using hl)]
  have hm : receiveCopyFields.map (fun f => (f.name, fieldVal sg (b.take n) f)) = Spec.receiveCopy (b.take n) := by
    simp only [receiveCopyFields, List.map_cons, List.map_nil, UField.name, fieldVal, refNum, intValue, Nat.reduceSub, num_one]; rfl
  have hget : get (Spec.receiveCopy b) "implemented_descriptor_list_length" = (Spec.byteAt b 43 : Int) := by simp [get, Spec.receiveCopy, List.lookup]
  rw [hm, e]
  have hs : sliceFrom (b.take n) 44 (Spec.byteAt b 43 : Int) = (b.take n).drop 44 := by
    unfold sliceFrom
    rw [show ((44 : Nat) + (Spec.byteAt b 43 : Int)).toNat = 44 + Spec.byteAt b 43 by omega, slice, List.take_of_length_le (by rw [List.length_take]; omega)]
  simp only [bind, Except.bind, hget, hs, unpackAll_u8]

theorem receiveCopy_short (sg : Bool) (b : Bytes) (h : b.length < 44) : receiveCopy sg b = .error .truncated := by
  unfold receiveCopy
  rw [unpackFields_truncated sg _ _ (by simp [receiveCopyFields, UField.ref, Ref.Ok]) (by simpa [receiveCopyFields, fieldsEnd, UField.ref, Ref.stop] using h)]
  rfl

theorem rtpg_short (sg : Bool) (b : Bytes) (h : b.length < 4) : rtpg sg 0 b = .error .truncated := by
  rw [rtpg, if_pos rfl]
  unfold rtpgLengthOnly
  rw [unpackFields_truncated sg _ _ (by simp [UField.ref, Ref.Ok]) (by simpa [fieldsEnd, UField.ref, Ref.stop] using h)]
  rfl

/-- READ RESERVATION data by its length. -/
theorem readReservation_cut (sg : Bool) (b : Bytes) (n : Nat) (hb : b.length = 24) :
    (16 ≤ n → n < 20 → prin sg 1 (b.take n) = .ok (.reservation ((Spec.readReservation b).take 3))) ∧
    (n = 20 → prin sg 1 (b.take n) = .ok (.reservation ((Spec.readReservation b).take 4))) ∧
    (n = 21 → prin sg 1 (b.take n) = .error .truncated) ∧
    (22 ≤ n → n < 24 → prin sg 1 (b.take n) = .ok (.reservation ((Spec.readReservation b).take 7))) := by
  have hl : (b.take n).length = min n 24 := by rw [List.length_take, hb]
  have go : ∀ k : Nat, reservationOptional.filter (fun p => decide (p.1 ≤ (b.take n).length)) = reservationOptional.take k →
      fieldsEnd (prHeader ++ (reservationOptional.take k).map (·.2)) ≤ (b.take n).length →
      prin sg 1 (b.take n) = .ok (.reservation ((prHeader ++ (reservationOptional.take k).map (·.2)).map fun f => (f.name, fieldVal sg (b.take n) f))) := by
    intro k hf he
    rw [prin, if_neg (by decide), if_pos rfl]
    unfold readReservation
    rw [hf, unpackFields_eq sg _ _ ?_ he]
    · rfl
    · intro f hf
      have : f ∈ prHeader ++ reservationOptional.map (·.2) := by
        rw [List.mem_append] at hf ⊢
        exact hf.imp_right fun h => List.map_subset _ (List.take_subset _ _) h
      simp only [prHeader, reservationOptional, List.map_cons, List.map_nil, List.cons_append, List.nil_append, List.mem_cons, List.not_mem_nil, or_false] at this
      rcases this with rfl | rfl | rfl | rfl | rfl | rfl | rfl | rfl <;> simp [UField.ref, Ref.Ok]
  refine ⟨fun h1 h2 => ?_, fun h => ?_, fun h => ?_, fun h1 h2 => ?_⟩
  · have hf : reservationOptional.filter (fun p => decide (p.1 ≤ (b.take n).length)) = reservationOptional.take 1 := by
      rw [hl]; obtain rfl | rfl | rfl | rfl : n = 16 ∨ n = 17 ∨ n = 18 ∨ n = 19 := by omega
      all_goals rfl
    rw [go 1 hf (by rw [hl]; simp [prHeader, reservationOptional, fieldsEnd, UField.ref, Ref.stop]; omega)]
    simp only [prHeader, reservationOptional, List.map_cons, List.map_nil, List.take, List.cons_append, List.nil_append, UField.name, fieldVal, refNum, Nat.reduceSub,
      num_take b n 0 4 (by omega), num_take b n 4 4 (by omega), num_take b n 8 8 (by omega)]
    rfl
  · subst h
    rw [go 2 (by rw [hl]; rfl) (by rw [hl]; simp [prHeader, reservationOptional, fieldsEnd, UField.ref, Ref.stop])]
    simp only [prHeader, reservationOptional, List.map_cons, List.map_nil, List.take, List.cons_append, List.nil_append, UField.name, fieldVal, refNum, Nat.reduceSub,
      num_take b 20 0 4 (by omega), num_take b 20 4 4 (by omega), num_take b 20 8 8 (by omega), num_take b 20 16 4 (by omega)]
    rfl
  · subst h
    rw [prin, if_neg (by decide), if_pos rfl]
    unfold readReservation
    rw [show reservationOptional.filter (fun p => decide (p.1 ≤ (b.take 21).length)) = reservationOptional.take 5 by rw [hl]; rfl,
      unpackFields_truncated sg _ _ (by simp [prHeader, reservationOptional, UField.ref, Ref.Ok]) (by rw [hl]; decide)]
    rfl
  · have hf : reservationOptional.filter (fun p => decide (p.1 ≤ (b.take n).length)) = reservationOptional.take 5 := by
      rw [hl]; obtain rfl | rfl : n = 22 ∨ n = 23 := by omega
      all_goals rfl
    rw [go 5 hf (by rw [hl]; simp [prHeader, reservationOptional, fieldsEnd, UField.ref, Ref.stop]; omega)]
    simp only [prHeader, reservationOptional, List.map_cons, List.map_nil, List.take, List.cons_append, List.nil_append, UField.name, fieldVal, refNum, Nat.reduceSub,
      num_take b n 0 4 (by omega), num_take b n 4 4 (by omega), num_take b n 8 8 (by omega), num_take b n 16 4 (by omega), num_take b n 20 1 (by omega),
      Spec.bitsAt, byteAt_take b n 21 (by omega), num_one]
    rfl

end Verif.Parse
