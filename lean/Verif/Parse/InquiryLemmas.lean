import Verif.Parse.Lemmas
import Verif.Parse.Inquiry
import Verif.Spec.Inquiry
/-! # Lemmas for INQUIRY data -/
set_option linter.unusedSimpArgs false

namespace Verif.Parse
open Verif.Spec

/-! ## Text -/

theorem isAscii_iff (b : Bytes) : isAscii b = true ↔ Ascii b := by simp [isAscii, Ascii]

theorem dropTail_snoc (p : UInt8) (b : Bytes) (c : UInt8) : dropTail p (b ++ [c]) = if c = p then dropTail p b else b ++ [c] := by
  induction b with
  | nil => simp [dropTail]
  | cons x xs ih =>
    simp only [List.cons_append, dropTail, ih]
    by_cases h : c = p
    · simp [h]
    · simp only [if_neg h]
      cases xs <;> simp

theorem withoutTail_snoc (p : UInt8) (b : Bytes) (c : UInt8) : withoutTail p (b ++ [c]) = if c = p then withoutTail p b else b ++ [c] := by
  by_cases h : c = p <;> simp [withoutTail, h]

theorem dropTail_eq (p : UInt8) (b : Bytes) : dropTail p b = withoutTail p b := by
  suffices h : ∀ r : Bytes, dropTail p r.reverse = withoutTail p r.reverse by simpa using h b.reverse
  intro r
  induction r with
  | nil => rfl
  | cons c r ih => rw [List.reverse_cons, dropTail_snoc, withoutTail_snoc, ih]

theorem textOf_ascii (L : BufLib) (p : UInt8) (b : Bytes) (h : Ascii b) : textOf L (some p) b = .ok (withoutTail p b) := by
  rw [textOf, if_pos ((isAscii_iff b).2 h)]
  simp only [dropTail_eq]

theorem textOf_default (L : BufLib) (b : Bytes) (h : Ascii b) : textOf L none b = .ok (L.trim b) := by
  rw [textOf, if_pos ((isAscii_iff b).2 h)]

theorem trim_padded (L : BufLib) {t b : Bytes} (h : Padded t b) : L.trim b = t := by
  obtain ⟨h1, n, rfl | rfl⟩ := h
  · exact L.trim_padding t n 0 h1 (.inl rfl)
  · exact L.trim_padding t n 0x20 h1 (.inr rfl)

theorem trim_whole (L : BufLib) {t : Bytes} (h : ∀ c, t.getLast? = some c → 0x20 < c.toNat ∧ c.toNat < 0x7F) : L.trim t = t := by
  simpa using L.trim_padding t 0 0 h (.inl rfl)

theorem withoutTail_pad (p : UInt8) (t : Bytes) (n : Nat) (h : ∀ c, t.getLast? = some c → c ≠ p) :
    withoutTail p (t ++ List.replicate n p) = t := by
  induction n with
  | zero =>
    simp only [List.replicate_zero, List.append_nil]
    rcases List.eq_nil_or_concat t with rfl | ⟨t', c, rfl⟩
    · rfl
    · rw [List.concat_eq_append] at h ⊢
      rw [withoutTail_snoc, if_neg (h c (by simp))]
  | succ n ih => rw [List.replicate_succ', ← List.append_assoc, withoutTail_snoc, if_pos rfl, ih]

theorem Ascii.append {a b : Bytes} (ha : Ascii a) (hb : Ascii b) : Ascii (a ++ b) := by
  intro c hc
  rcases List.mem_append.1 hc with h | h
  · exact ha c h
  · exact hb c h

theorem ascii_replicate (n : Nat) (p : UInt8) (h : p.toNat < 128) : Ascii (List.replicate n p) := by
  intro c hc
  rw [List.eq_of_mem_replicate hc]; exact h

/-! ## Reading more than the data -/

theorem read_append (r : Ref) (d rest : Bytes) (v : Nat) (h : r.read d = .ok v) : r.read (d ++ rest) = .ok v := by
  cases r with
  | bytes lo hi =>
    simp only [Ref.read] at h ⊢
    split at h
    · simp at h
    · rename_i hl
      rw [if_neg (by simp only [List.length_append]; omega), ← h]
      simp [slice, List.take_append_of_le_length (Nat.le_of_not_lt hl)]
  | bits i lo hi =>
    simp only [Ref.read] at h ⊢
    split at h
    · simp at h
    · rename_i hl
      rw [if_neg (by simp only [List.length_append]; omega), ← h]
      simp [List.getElem?_append_left (show i < d.length by omega)]

theorem bind_ok {α β : Type} {x : Py α} {f : α → Py β} {y : β} (h : (x >>= f) = .ok y) : ∃ a, x = .ok a ∧ f a = .ok y := by
  cases x with
  | error e => simp [bind, Except.bind] at h
  | ok a => exact ⟨a, rfl, h⟩

theorem unpackFields_append (sg : Bool) (fs : List UField) (d rest : Bytes) (a : List (String × Int)) (h : unpackFields sg fs d = .ok a) :
    unpackFields sg fs (d ++ rest) = .ok a := by
  induction fs generalizing a with
  | nil => exact h
  | cons f fs ih =>
    simp only [unpackFields] at h ⊢
    obtain ⟨v, hv, h⟩ := bind_ok h
    obtain ⟨r, hr, h⟩ := bind_ok h
    have : f.value sg (d ++ rest) = .ok v := by
      cases f <;>
      · simp only [UField.value] at hv ⊢
        obtain ⟨w, hw, hv⟩ := bind_ok hv
        rw [read_append _ _ _ _ hw]; exact hv
    rw [this, ih r hr]; exact h

theorem readParts_append (rs : List Ref) (d rest : Bytes) (a : List (Nat × Nat)) (h : readParts rs d = .ok a) :
    readParts rs (d ++ rest) = .ok a := by
  induction rs generalizing a with
  | nil => exact h
  | cons r rs ih =>
    simp only [readParts] at h ⊢
    obtain ⟨v, hv, h⟩ := bind_ok h
    obtain ⟨w, hw, h⟩ := bind_ok h
    rw [read_append _ _ _ _ hv, ih w hw]; exact h

theorem readCats_append (L : BufLib) (cs : List (String × List Ref)) (d rest : Bytes) (a : List (String × Int)) (h : readCats L cs d = .ok a) :
    readCats L cs (d ++ rest) = .ok a := by
  induction cs generalizing a with
  | nil => exact h
  | cons c cs ih =>
    obtain ⟨n, rs⟩ := c
    simp only [readCats, readCat] at h ⊢
    obtain ⟨v, hv, h⟩ := bind_ok h
    obtain ⟨w, hw, h⟩ := bind_ok h
    obtain ⟨ps, hps, hv⟩ := bind_ok hv
    rw [readParts_append _ _ _ _ hps, ih w hw]
    cases hv; exact h

theorem slice_append_left (d rest : Bytes) (lo hi : Nat) (h : hi ≤ d.length) : slice (d ++ rest) lo hi = slice d lo hi := by
  simp [slice, List.take_append_of_le_length h]

theorem unpackData_append (L : BufLib) (stop : Nat) (d rest : Bytes) (fs : List DField) (h : dataEnd stop fs ≤ d.length) :
    unpackData L stop (d ++ rest) fs = unpackData L stop d fs := by
  induction fs with
  | nil => rfl
  | cons f fs ih =>
    cases f with
    | text n lo hi =>
      simp only [dataEnd] at h
      simp only [unpackData, DField.unpack, slice_append_left d rest lo (hi.getD stop) (by omega), ih (by omega)]
    | blob n lo hi =>
      simp only [dataEnd] at h
      simp only [unpackData, DField.unpack, slice_append_left d rest lo (hi.getD stop) (by omega), ih (by omega)]

theorem determine_append (L : BufLib) (d rest : Bytes) (c : DesignatorClass) (h : determineDesignator L d = .ok c) :
    determineDesignator L (d ++ rest) = .ok c := by
  unfold determineDesignator at h ⊢
  obtain ⟨hd, h1, h⟩ := bind_ok h
  rw [unpackFields_append _ _ _ _ _ h1]
  simp only [bind, Except.bind] at h ⊢
  cases h2 : singleType.lookup (get hd "designator_type") with
  | some c' => rw [h2] at h; exact h
  | none =>
    rw [h2] at h
    simp only at h ⊢
    by_cases ht : get hd "designator_type" = 0x02
    · simpa only [if_pos ht] using h
    · simp only [if_neg ht] at h ⊢
      by_cases ht3 : get hd "designator_type" = 0x03
      · simp only [if_pos ht3] at h ⊢
        cases h3 : unpackFields L.sg (designatorHeader ++ [naaField]) d with
        | error e => rw [h3] at h; simp at h
        | ok a => rw [h3] at h; rw [unpackFields_append _ _ _ _ _ h3]; exact h
      · simpa only [if_neg ht3] using h

/-- A designator that decodes on its own and uses all of its bytes decodes in the same way when more bytes follow. -/
theorem designator_append (L : BufLib) (d rest : Bytes) (x : Designator) (h : designator L d = .ok (x, d.length)) :
    designator L (d ++ rest) = .ok (x, d.length) := by
  unfold designator at h ⊢
  obtain ⟨c, hc, h⟩ := bind_ok h
  rw [determine_append L d rest c hc]
  simp only [bind, Except.bind]
  unfold unpackDesignator at h ⊢
  obtain ⟨a1, h1, h⟩ := bind_ok h
  obtain ⟨a2, h2, h⟩ := bind_ok h
  obtain ⟨a3, h3, h⟩ := bind_ok h
  obtain ⟨a4, h4, h⟩ := bind_ok h
  have hx := (Except.ok.inj h)
  have hsz := congrArg Prod.snd hx
  simp only at hsz
  rw [unpackFields_append _ _ _ _ _ h1, unpackFields_append _ _ _ _ _ h2, readCats_append _ _ _ _ _ h3]
  simp only [bind, Except.bind]
  rw [unpackData_append _ _ _ _ _ (by omega), h4]
  exact h

/-! ## Joined references -/

theorem readParts_eq (rs : List Ref) (b : Bytes) (ho : ∀ r ∈ rs, Ref.Ok r) (h : refsEnd rs ≤ b.length) :
    readParts rs b = .ok (rs.map fun r => (refNum b r, r.width)) := by
  induction rs with
  | nil => rfl
  | cons r rs ih =>
    simp only [refsEnd] at h
    simp only [readParts, read_eq b r (ho r (by simp)) (by omega), ih (fun q hq => ho q (by simp [hq])) (by omega)]
    rfl

theorem readCats_eq (L : BufLib) (cs : List (String × List Ref)) (b : Bytes) (ho : ∀ c ∈ cs, ∀ r ∈ c.2, Ref.Ok r) (h : catsEnd cs ≤ b.length) :
    readCats L cs b = .ok (cs.map fun c => (c.1, ((joinParts L (c.2.map fun r => (refNum b r, r.width)) : Nat) : Int))) := by
  induction cs with
  | nil => rfl
  | cons c cs ih =>
    obtain ⟨n, rs⟩ := c
    simp only [catsEnd] at h
    simp only [readCats, readCat, readParts_eq rs b (ho (n, rs) (by simp)) (by omega), ih (fun q hq => ho q (by simp [hq])) (by omega)]
    rfl

theorem catsEnd_nil : catsEnd [] = 0 := rfl

/-! ## Pages of fixed fields -/

theorem fixedPage_eq (L : BufLib) (fs : List UField) (cs : List (String × List Ref)) (b : Bytes) (ho : ∀ f ∈ fs, Ref.Ok f.ref)
    (hc : ∀ c ∈ cs, ∀ r ∈ c.2, Ref.Ok r) (h1 : 1 ≤ b.length) (h : fieldsEnd fs ≤ b.length) (hce : catsEnd cs ≤ b.length) :
    fixedPage L fs cs b = .ok ⟨Spec.peripheral b, (fs.map fun f => (f.name, fieldVal L.sg b f)) ++
      (cs.map fun c => (c.1, ((joinParts L (c.2.map fun r => (refNum b r, r.width)) : Nat) : Int)))⟩ := by
  unfold fixedPage
  rw [unpackFields_eq L.sg peripheralFields b (by simp [peripheralFields, UField.ref, Ref.Ok])
    (by simpa [peripheralFields, fieldsEnd, UField.ref, Ref.stop] using h1), unpackFields_eq L.sg fs b ho h, readCats_eq L cs b hc hce]
  rfl

theorem fixedPage_append (L : BufLib) (fs : List UField) (cs : List (String × List Ref)) (b rest : Bytes) (p : Page)
    (h : fixedPage L fs cs b = .ok p) : fixedPage L fs cs (b ++ rest) = .ok p := by
  unfold fixedPage at h ⊢
  obtain ⟨a1, h1, h⟩ := bind_ok h
  obtain ⟨a2, h2, h⟩ := bind_ok h
  obtain ⟨a3, h3, h⟩ := bind_ok h
  rw [unpackFields_append _ _ _ _ _ h1, unpackFields_append _ _ _ _ _ h2, readCats_append _ _ _ _ _ h3]
  exact h

theorem unpackN_u8_short (n : Nat) (b : Bytes) (h : b.length < n) : unpackN elemU8 n b = .error .truncated := by
  induction n generalizing b with
  | zero => simp at h
  | succ n ih =>
    cases b with
    | nil => rfl
    | cons x xs =>
      simp only [unpackN, elemU8, bind, Except.bind, List.drop_succ_cons, List.drop_zero, ih xs (by simpa using h)]

theorem read_short (r : Ref) (b : Bytes) (h : b.length < r.stop) : r.read b = .error .truncated := by
  cases r <;> simp only [Ref.stop] at h <;> simp only [Ref.read, if_pos h]

theorem unpackFields_truncated (sg : Bool) (fs : List UField) (b : Bytes) (ho : ∀ f ∈ fs, Ref.Ok f.ref) (h : b.length < fieldsEnd fs) :
    unpackFields sg fs b = .error .truncated := by
  induction fs with
  | nil => simp [fieldsEnd] at h
  | cons f fs ih =>
    simp only [fieldsEnd] at h
    by_cases hf : b.length < f.ref.stop
    · cases f <;> simp only [UField.ref] at hf <;> simp only [unpackFields, UField.value, read_short _ _ hf] <;> rfl
    · have hr := read_eq b f.ref (ho f (by simp)) (by omega)
      have ih' := ih (fun g hg => ho g (by simp [hg])) (by omega)
      cases f <;> simp only [UField.ref] at hr <;> simp only [unpackFields, UField.value, hr, ih'] <;> rfl

theorem fixedPage_short (L : BufLib) (fs : List UField) (cs : List (String × List Ref)) (b : Bytes) (ho : ∀ f ∈ fs, Ref.Ok f.ref)
    (h : b.length < fieldsEnd fs) : fixedPage L fs cs b = .error .truncated := by
  unfold fixedPage
  by_cases h1 : 1 ≤ b.length
  · rw [unpackFields_eq L.sg peripheralFields b (by simp [peripheralFields, UField.ref, Ref.Ok])
      (by simpa [peripheralFields, fieldsEnd, UField.ref, Ref.stop] using h1), unpackFields_truncated L.sg fs b ho h]
    rfl
  · rw [unpackFields_truncated L.sg peripheralFields b (by simp [peripheralFields, UField.ref, Ref.Ok])
      (by simp [peripheralFields, fieldsEnd, UField.ref, Ref.stop]; exact List.length_eq_zero_iff.1 (by omega))]
    rfl

end Verif.Parse
