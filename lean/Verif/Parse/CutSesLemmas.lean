import Verif.Props.Ses
import Verif.Parse.CutLemmas
/-!
# Lemmas about SES pages of which the last bytes are missing
-/
set_option linter.unusedSimpArgs false

namespace Verif.Parse.Ses

open Verif.Spec

theorem unpackEach_cut {α β γ : Type} (elem : α → Bytes → Py (β × Nat)) (key : γ → α) (enc : γ → Bytes) (val : γ → β) (xs : List γ) (x : γ) (tail : Bytes)
    (h : ∀ y ∈ xs, ∀ rest, elem (key y) (enc y ++ rest) = .ok (val y, (enc y).length)) :
    unpackEach elem ((xs ++ [x]).map key) (xs.flatMap enc ++ tail) =
      (elem (key x) tail).map fun p => (xs.map val ++ [p.1], (xs.flatMap enc).length + p.2) := by
  induction xs with
  | nil =>
    simp only [List.nil_append, List.map_cons, List.map_nil, unpackEach, List.flatMap_nil, List.length_nil, bind, Except.bind]
    cases elem (key x) tail with
    | error e => rfl
    | ok p => simp [Except.map]
  | cons y ys ih =>
    have := ih fun z hz => h z (List.mem_cons_of_mem _ hz)
    simp only [List.cons_append, List.map_cons, unpackEach, List.flatMap_cons, List.append_assoc, h y (List.mem_cons_self ..), bind, Except.bind, List.drop_left, this]
    cases elem (key x) tail with
    | error e => rfl
    | ok p => simp [Except.map]; omega

theorem unpackN_cut {β γ : Type} (elem : Bytes → Py (β × Nat)) (enc : γ → Bytes) (val : γ → β) (xs : List γ) (tail : Bytes)
    (h : ∀ y ∈ xs, ∀ rest, elem (enc y ++ rest) = .ok (val y, (enc y).length)) :
    unpackN elem (xs.length + 1) (xs.flatMap enc ++ tail) = (elem tail).map fun p => (xs.map val ++ [p.1], (xs.flatMap enc).length + p.2) := by
  induction xs with
  | nil =>
    simp only [List.length_nil, unpackN, List.flatMap_nil, List.nil_append, List.map_nil, bind, Except.bind]
    cases elem tail with
    | error e => rfl
    | ok p => simp [Except.map]
  | cons y ys ih =>
    have := ih fun z hz => h z (List.mem_cons_of_mem _ hz)
    rw [List.length_cons, unpackN]
    simp only [List.map_cons, List.flatMap_cons, List.append_assoc, h y (List.mem_cons_self ..), bind, Except.bind, List.drop_left, this]
    cases elem tail with
    | error e => rfl
    | ok p => simp [Except.map]; omega

/-! ## Configuration -/

/-- What arrives of texts when `n` bytes of them arrive. -/
def arrived : List Bytes → Nat → List Bytes
  | [], _ => []
  | t :: ts, n => t.take n :: arrived ts (n - t.length)

theorem texts_cut (L : BufLib) (ts : List Spec.Ses.ElementType) (n : Nat) (h : L.sg = true → ∀ t ∈ ts, t.text.length < 128) :
    ∃ k, unpackEach typeText (ts.map (Spec.Ses.typeNumbers L.sg)) ((ts.flatMap Spec.Ses.ElementType.text).take n) =
      .ok (arrived (ts.map Spec.Ses.ElementType.text) n, k) := by
  induction ts generalizing n with
  | nil => exact ⟨0, rfl⟩
  | cons t ts ih =>
    have hg : get (Spec.Ses.typeNumbers L.sg t) "type_descriptor_text_length" = (t.text.length : Int) := by
      simp [get, Spec.Ses.typeNumbers, List.lookup]
      exact asInt_small _ _ _ (fun hs => by have := h hs t (by simp); simpa using this)
    obtain ⟨k, hk⟩ := ih (n - t.text.length) fun hs x hx => h hs x (List.mem_cons_of_mem _ hx)
    refine ⟨t.text.length + k, ?_⟩
    have ht : typeText (Spec.Ses.typeNumbers L.sg t) (((t :: ts).flatMap Spec.Ses.ElementType.text).take n) = .ok (t.text.take n, t.text.length) := by
      unfold typeText
      simp only [hg]
      rw [if_neg (by omega), Int.toNat_natCast]
      congr 2
      simp only [slice, List.drop_zero, List.flatMap_cons]
      rw [List.take_take, List.take_append, List.take_eq_take_min (l := t.text) (i := n)]
      rw [show min t.text.length n - t.text.length = 0 by omega, List.take_zero, List.append_nil, Nat.min_comm]
    simp only [List.map_cons, unpackEach, ht, bind, Except.bind, arrived]
    rw [List.drop_take, List.flatMap_cons, List.drop_left, hk]

theorem headers_short (L : BufLib) (n : Nat) (b : Bytes) (h : b.length < 4 * n) : unpackN (typeHeader L) n b = .error .truncated := by
  induction n generalizing b with
  | zero => omega
  | succ n ih =>
    by_cases hl : b.length < 4
    · have : typeHeader L b = .error .truncated := by
        unfold typeHeader
        rw [unpackFields_truncated _ _ _ (by simp [typeHeaderFields, UField.ref, Ref.Ok]) (by simp [typeHeaderFields, fieldsEnd, UField.ref, Ref.stop]; omega)]
        rfl
      simp only [unpackN, this, bind, Except.bind]
    · have : ∃ a, typeHeader L b = .ok (a, 4) := by
        unfold typeHeader
        rw [unpackFields_eq _ _ _ (by simp [typeHeaderFields, UField.ref, Ref.Ok]) (by simp [typeHeaderFields, fieldsEnd, UField.ref, Ref.stop]; omega)]
        exact ⟨_, rfl⟩
      obtain ⟨a, ha⟩ := this
      simp only [unpackN, ha, bind, Except.bind]
      rw [ih (b.drop 4) (by rw [List.length_drop]; omega)]

/-- The configuration page is its header and what follows it. -/
theorem configuration_split (generation : Nat) (es : List Bytes) (ts : List Spec.Ses.ElementType) :
    Spec.Ses.configuration generation es ts = head8 1 (UInt8.ofNat (es.length - 1)) ((Spec.Ses.configuration generation es ts).length - 4) generation ++
      (es.flatten ++ (ts.flatMap Spec.Ses.ElementType.header ++ ts.flatMap Spec.Ses.ElementType.text)) := by
  have hlen : (Spec.Ses.configuration generation es ts).length - 4 = (be 4 generation ++ es.flatten ++ ts.flatMap Spec.Ses.ElementType.header ++
      ts.flatMap Spec.Ses.ElementType.text).length := by simp [Spec.Ses.configuration]
  rw [hlen]
  simp [Spec.Ses.configuration, head8, List.append_assoc]

theorem headers_length (ts : List Spec.Ses.ElementType) : (ts.flatMap Spec.Ses.ElementType.header).length = 4 * ts.length := by
  induction ts with
  | nil => rfl
  | cons t ts ih => simp only [List.flatMap_cons, List.length_append, ih, Spec.Ses.ElementType.header, List.length_cons, List.length_nil]; omega

theorem configuration_length (generation : Nat) (es : List Bytes) (ts : List Spec.Ses.ElementType) :
    (Spec.Ses.configuration generation es ts).length = 8 + es.flatten.length + 4 * ts.length + (ts.flatMap Spec.Ses.ElementType.text).length := by
  have := headers_length ts
  simp only [Spec.Ses.configuration, List.length_append, be_length, List.length_cons, List.length_nil]
  omega

/-- Whatever follows the header. -/
theorem configuration_body (L : BufLib) (generation : Nat) (es : List Bytes) (ts : List Spec.Ses.ElementType) (X : Bytes)
    (hc : Spec.Ses.IsConfiguration generation es ts) (hs : L.sg = true → Spec.Ses.Small es ts) :
    configuration L (head8 1 (UInt8.ofNat (es.length - 1)) ((Spec.Ses.configuration generation es ts).length - 4) generation ++ X) = (do
      let (es', n) ← unpackN (enclosureDescriptor L) es.length X
      let (hs', m) ← unpackN (typeHeader L) (sumOf "type_descriptor_headers_num" es').toNat (X.drop n)
      let (ts', _) ← unpackEach typeText hs' (X.drop (n + m))
      .ok { attrs := configurationAttrs L generation es ts, enclosures := es', headers := hs', texts := ts' }) := by
  have hpage := hc.page
  have hn : 0 < es.length := List.length_pos_iff.2 hc.nonempty
  have hcount := hc.count
  have h4 := configuration_length generation es ts
  generalize hL : (Spec.Ses.configuration generation es ts).length - 4 = len
  have hb1 : byteAt (head8 1 (UInt8.ofNat (es.length - 1)) len generation) 1 = es.length - 1 := by
    have : byteAt (head8 1 (UInt8.ofNat (es.length - 1)) len generation) 1 = (UInt8.ofNat (es.length - 1)).toNat := rfl
    rw [this]; simp [UInt8.toNat_ofNat']; omega
  have hf : unpackFields L.sg configurationFields (head8 1 (UInt8.ofNat (es.length - 1)) len generation) =
      .ok (configurationAttrs L generation es ts) := by
    rw [unpackFields_eq L.sg _ _ (by simp [configurationFields, UField.ref, Ref.Ok])
      (by simp [configurationFields, fieldsEnd, UField.ref, Ref.stop, head8_length])]
    simp only [configurationFields, List.map_cons, List.map_nil, UField.name, fieldVal, refNum, intValue_bytes, Nat.reduceSub, num_one, hb1,
      head8_len _ _ len generation (by omega), head8_gen _ _ len generation hc.generationFits]
    unfold configurationAttrs
    rw [hL]
    have : byteAt (head8 1 (UInt8.ofNat (es.length - 1)) len generation) 0 = 1 := rfl
    rw [this, asInt_small L.sg 1 1 (by simp)]
    rfl
  have hg : (get (configurationAttrs L generation es ts) "secondary_subenclosures_num" + 1).toNat = es.length := by
    have : get (configurationAttrs L generation es ts) "secondary_subenclosures_num" = ((es.length - 1 : Nat) : Int) := by
      simp [get, configurationAttrs, List.lookup]
      exact asInt_small _ _ _ (fun h => by have := (hs h).count; simp; omega)
    rw [this]; omega
  unfold configuration
  rw [unpackFields_append _ _ _ _ _ hf]
  simp only [bind, Except.bind, hg, Nat.add_assoc, ← List.drop_drop, List.drop_left' (head8_length _ _ _ _)]

theorem configuration_take (generation : Nat) (es : List Bytes) (ts : List Spec.Ses.ElementType) (n : Nat) (hn : 8 ≤ n) :
    (Spec.Ses.configuration generation es ts).take n = head8 1 (UInt8.ofNat (es.length - 1)) ((Spec.Ses.configuration generation es ts).length - 4) generation ++
      (es.flatten ++ (ts.flatMap Spec.Ses.ElementType.header ++ ts.flatMap Spec.Ses.ElementType.text)).take (n - 8) := by
  conv => lhs; rw [configuration_split]
  rw [List.take_append, head8_length, List.take_of_length_le (by rw [head8_length]; omega)]

/-- The enclosure descriptors have arrived. -/
theorem configuration_enclosures (L : BufLib) (generation : Nat) (es : List Bytes) (ts : List Spec.Ses.ElementType) (X : Bytes)
    (hc : Spec.Ses.IsConfiguration generation es ts) (hs : L.sg = true → Spec.Ses.Small es ts) :
    configuration L (head8 1 (UInt8.ofNat (es.length - 1)) ((Spec.Ses.configuration generation es ts).length - 4) generation ++ (es.flatten ++ X)) = (do
      let (hs', m) ← unpackN (typeHeader L) ts.length X
      let (ts', _) ← unpackEach typeText hs' (X.drop m)
      .ok { attrs := configurationAttrs L generation es ts, enclosures := es.map (enclosureOf L), headers := hs', texts := ts' }) := by
  have e1 := unpackN_encode_mem (enclosureDescriptor L) id (enclosureOf L) es (fun e he r => enclosure_eq L e r (hc.each e he)) X
  rw [List.flatMap_id] at e1
  rw [configuration_body L generation es ts _ hc hs, e1]
  simp only [bind, Except.bind, ← List.drop_drop, List.drop_left]
  rw [sumOf_eq L es (fun h => (hs h).each), hc.headers, Int.toNat_natCast]

/-- Cut in the texts. -/
theorem configuration_cut_texts (L : BufLib) (generation : Nat) (es : List Bytes) (ts : List Spec.Ses.ElementType) (n : Nat)
    (hc : Spec.Ses.IsConfiguration generation es ts) (hs : L.sg = true → Spec.Ses.Small es ts) (hn : 8 + es.flatten.length + 4 * ts.length ≤ n) :
    configuration L ((Spec.Ses.configuration generation es ts).take n) =
      .ok { attrs := configurationAttrs L generation es ts, enclosures := es.map (enclosureOf L), headers := ts.map (Spec.Ses.typeNumbers L.sg)
            texts := arrived (ts.map Spec.Ses.ElementType.text) (n - (8 + es.flatten.length + 4 * ts.length)) } := by
  have hh := headers_length ts
  rw [configuration_take _ _ _ _ (by omega), List.take_append, List.take_of_length_le (by omega), List.take_append, List.take_of_length_le (by omega),
    configuration_enclosures L generation es ts _ hc hs,
    unpackN_encode_mem (typeHeader L) Spec.Ses.ElementType.header (Spec.Ses.typeNumbers L.sg) ts (fun t ht r => typeHeader_eq L t r (hc.texts t ht))]
  simp only [bind, Except.bind, List.drop_left]
  obtain ⟨k, hk⟩ := texts_cut L ts (n - 8 - es.flatten.length - (ts.flatMap Spec.Ses.ElementType.header).length) fun h => (hs h).texts
  rw [hk]
  rw [show n - 8 - es.flatten.length - (ts.flatMap Spec.Ses.ElementType.header).length = n - (8 + es.flatten.length + 4 * ts.length) by omega]

/-- Cut in the type descriptor headers. -/
theorem configuration_cut_headers (L : BufLib) (generation : Nat) (es : List Bytes) (ts : List Spec.Ses.ElementType) (n : Nat)
    (hc : Spec.Ses.IsConfiguration generation es ts) (hs : L.sg = true → Spec.Ses.Small es ts) (h8 : 8 + es.flatten.length ≤ n)
    (hn : n < 8 + es.flatten.length + 4 * ts.length) : configuration L ((Spec.Ses.configuration generation es ts).take n) = .error .truncated := by
  rw [configuration_take _ _ _ _ (by omega), List.take_append, List.take_of_length_le (by omega), configuration_enclosures L generation es ts _ hc hs,
    headers_short L _ _ (by rw [List.length_take]; omega)]
  rfl

/-- An enclosure descriptor of which `m` bytes arrived. -/
def enclosureCut (L : BufLib) (e : Bytes) (m : Nat) : Enclosure :=
  { attrs := Spec.Ses.enclosureNumbers L.sg e, logicalId := (e.drop 4).take 8, vendor := L.trim ((e.drop 12).take 8), product := L.trim ((e.drop 20).take 16),
    revision := L.trim (((e.take m).drop 36).take 4), vendorSpecific := (e.take m).drop 40 }

theorem enclosure_cut (L : BufLib) (e : Bytes) (m : Nat) (he : Spec.Ses.IsEnclosure e) (hm : 36 ≤ m) (hle : m ≤ e.length) :
    enclosureDescriptor L (e.take m) = .ok (enclosureCut L e m, e.length) := by
  obtain ⟨h40, hlen, ha⟩ := he
  have hf : unpackFields L.sg enclosureFields (e.take m) = .ok (Spec.Ses.enclosureNumbers L.sg e) := by
    rw [unpackFields_eq L.sg _ _ (by simp [enclosureFields, UField.ref, Ref.Ok])
      (by simp [enclosureFields, fieldsEnd, UField.ref, Ref.stop, List.length_take]; omega)]
    simp (disch := omega) only [enclosureFields, List.map_cons, List.map_nil, UField.name, fieldVal, refNum, intValue_bytes, Nat.reduceSub, num_one, byteAt_take]
    have hb : ∀ hi lo, bitsAt (e.take m) 0 hi lo = bitsAt e 0 hi lo := by intro hi lo; unfold bitsAt; rw [byteAt_take _ _ _ (by omega)]
    rw [hb, hb]
    rfl
  have sl : ∀ i j, j ≤ m → slice (e.take m) i j = slice e i j := by
    intro i j hj; unfold slice; rw [List.take_take, Nat.min_eq_left hj]
  have ha' : Ascii (((e.take m).drop 36).take 4) := by
    intro c hc
    have := ascii_part e 12 28 36 4 ha (by omega) (by omega)
    apply this c
    rw [List.mem_iff_getElem?] at hc ⊢
    obtain ⟨k, hk⟩ := hc
    refine ⟨k, ?_⟩
    rw [List.getElem?_take] at hk ⊢
    split at hk
    · rename_i hlt
      rw [if_pos hlt, List.getElem?_drop]
      rw [List.getElem?_drop, List.getElem?_take] at hk
      split at hk
      · exact hk
      · simp at hk
    · simp at hk
  unfold enclosureDescriptor
  rw [hf]
  simp only [bind, Except.bind]
  rw [sl 12 20 (by omega), sl 20 36 (by omega), sl 4 12 (by omega), ← take_drop_slice e 12 8, ← take_drop_slice e 20 16, ← take_drop_slice (e.take m) 36 4,
    ← take_drop_slice e 4 8, textOf_default L _ (ascii_part e 12 28 12 8 ha (by omega) (by omega)),
    textOf_default L _ (ascii_part e 12 28 20 16 ha (by omega) (by omega)), textOf_default L _ ha']
  have hg : get (Spec.Ses.enclosureNumbers L.sg e) "enclosure_descriptor_length" = (byteAt e 3 : Int) := by
    simp [get, Spec.Ses.enclosureNumbers, List.lookup]
  have hs : (get (Spec.Ses.enclosureNumbers L.sg e) "enclosure_descriptor_length" + 4).toNat = e.length := by rw [hg]; omega
  simp only [hs, Nat.max_eq_right h40]
  unfold enclosureCut slice
  rw [List.take_of_length_le (l := e.take m) (by rw [List.length_take]; omega)]

/-- Cut in the last enclosure descriptor (there are no element types then). -/
theorem configuration_cut_enclosure (L : BufLib) (generation : Nat) (init : List Bytes) (e : Bytes) (n : Nat)
    (hc : Spec.Ses.IsConfiguration generation (init ++ [e]) []) (hs : L.sg = true → Spec.Ses.Small (init ++ [e]) [])
    (hn : 8 + init.flatten.length + 36 ≤ n) (hle : n ≤ 8 + init.flatten.length + e.length) :
    configuration L ((Spec.Ses.configuration generation (init ++ [e]) []).take n) =
      .ok { attrs := configurationAttrs L generation (init ++ [e]) []
            enclosures := init.map (enclosureOf L) ++ [enclosureCut L e (n - (8 + init.flatten.length))], headers := [], texts := [] } := by
  have hX : ((init ++ [e]).flatten ++ (([] : List Spec.Ses.ElementType).flatMap Spec.Ses.ElementType.header ++ ([] : List Spec.Ses.ElementType).flatMap Spec.Ses.ElementType.text)).take (n - 8)
      = init.flatMap id ++ e.take (n - (8 + init.flatten.length)) := by
    rw [List.flatMap_id]
    simp only [List.flatMap_nil, List.append_nil, List.flatten_append, List.flatten_cons, List.flatten_nil]
    rw [List.take_append, List.take_of_length_le (by omega), show n - 8 - init.flatten.length = n - (8 + init.flatten.length) by omega]
  rw [configuration_take _ _ _ _ (by omega), hX, configuration_body L generation (init ++ [e]) [] _ hc hs]
  have e1 := unpackN_cut (enclosureDescriptor L) id (enclosureOf L) init (e.take (n - (8 + init.flatten.length)))
    (fun e he r => enclosure_eq L e r (hc.each e (List.mem_append_left _ he)))
  rw [enclosure_cut L e _ (hc.each e (by simp)) (by omega) (by omega)] at e1
  rw [List.length_append, List.length_singleton, e1]
  simp only [Except.map, bind, Except.bind]
  have h0 : (sumOf "type_descriptor_headers_num" (init.map (enclosureOf L) ++ [enclosureCut L e (n - (8 + init.flatten.length))])).toNat = 0 := by
    have := sumOf_eq L (init ++ [e]) (fun h => (hs h).each)
    rw [hc.headers] at this
    have app : ∀ (xs : List Enclosure) (y y' : Enclosure), y.attrs = y'.attrs →
        sumOf "type_descriptor_headers_num" (xs ++ [y]) = sumOf "type_descriptor_headers_num" (xs ++ [y']) := by
      intro xs y y' h
      induction xs with
      | nil => simp [sumOf, h]
      | cons x xs ih => simp [sumOf, ih]
    have same : sumOf "type_descriptor_headers_num" (init.map (enclosureOf L) ++ [enclosureCut L e (n - (8 + init.flatten.length))]) =
        sumOf "type_descriptor_headers_num" ((init ++ [e]).map (enclosureOf L)) := by
      rw [List.map_append, List.map_cons, List.map_nil]
      exact app _ _ _ rfl
    rw [same, this]; rfl
  rw [h0]
  rfl

/-! ## The status page -/

/-- The types of which the library takes a number from the last byte of the element. -/
def UsesLast (code : Nat) : Prop := 1 ≤ code ∧ code ≤ 0x19 ∧ code ∉ [0x08, 0x0D, 0x0E, 0x18]

instance (code : Nat) : Decidable (UsesLast code) := by unfold UsesLast; infer_instance

/-- An element of which the last byte did not arrive. -/
def elementCut (L : BufLib) (code : Nat) (e : Bytes) : StatusElement :=
  ⟨Spec.Ses.className code, Spec.Ses.common e, Spec.Ses.info (reading L) code e, (Spec.Ses.general (reading L) code e).take 2⟩

theorem general_cut (L : BufLib) (n : Nat) (e : Bytes) (he : e.length = 4) (h : n = 0 ∨ 0x19 < n) :
    statusElement L generalStatus (e.take 3) = .ok (elementCut L n e, 4) := by
  obtain ⟨a, b, c, d, rfl⟩ := length_four e he
  unfold elementCut
  rw [className_other n h, info_other _ n _ h, Spec.Ses.general, if_neg (by omega)]
  rfl

theorem element_cut (L : BufLib) (n : Nat) (e : Bytes) (he : e.length = 4) (h : ¬ UsesLast n) :
    statusElement L (statusClass n) (e.take 3) = .ok (elementCut L n e, 4) := by
  by_cases h0 : n = 0 ∨ 0x19 < n
  · rw [statusClass_other n h0]; exact general_cut L n e he h0
  obtain ⟨a, b, c, d, rfl⟩ := length_four e he
  have : n = 8 ∨ n = 13 ∨ n = 14 ∨ n = 24 := by
    unfold UsesLast at h; simp at h; omega
  rcases this with h | h | h | h <;> subst h <;> rfl

instance (r : Ref) : Decidable (Ref.Ok r) := by cases r <;> (unfold Ref.Ok; infer_instance)

theorem element_short (L : BufLib) (n : Nat) (e : Bytes) (he : e.length = 4) (h : UsesLast n) :
    statusElement L (statusClass n) (e.take 3) = .error .truncated := by
  obtain ⟨a, b, c, d, rfl⟩ := length_four e he
  obtain ⟨h1, h2, h3⟩ := h
  have : n = 1 ∨ n = 2 ∨ n = 3 ∨ n = 4 ∨ n = 5 ∨ n = 6 ∨ n = 7 ∨ n = 9 ∨ n = 10 ∨ n = 11 ∨ n = 12 ∨ n = 15 ∨
    n = 16 ∨ n = 17 ∨ n = 18 ∨ n = 19 ∨ n = 20 ∨ n = 21 ∨ n = 22 ∨ n = 23 ∨ n = 25 := by simp at h3; omega
  have hb : unpackFields L.sg baseFields [a, b, c] = .ok (Spec.Ses.common [a, b, c, d]) := rfl
  have key : ∀ (name : String) (i : InfoClass), statusClass n = ⟨name, some i⟩ → (∀ f ∈ i.fields, Ref.Ok f.ref) → 2 < fieldsEnd i.fields →
      statusElement L (statusClass n) [a, b, c] = .error .truncated := by
    intro name i hs ho hf
    unfold statusElement
    rw [hb, hs]
    simp only [bind, Except.bind, statusInfo]
    rw [show slice [a, b, c] 1 4 = [b, c] from rfl, unpackFields_truncated L.sg _ [b, c] ho hf]
  clear h1 h2 h3
  show statusElement L (statusClass n) [a, b, c] = .error .truncated
  rcases this with h | h | h | h | h | h | h | h | h | h | h | h | h | h | h | h | h | h | h | h | h <;> subst h <;>
    exact key _ _ rfl (by decide) (by decide)

theorem flatMap_id' (l : List Bytes) : l.flatMap id = l.flatten := List.flatMap_id

/-- Cut in the last element of a type. -/
theorem statusDescriptor_cut (L : BufLib) (s : Spec.Ses.TypeStatus) (init : List Bytes) (e X : Bytes) (hs : s.Ok) (h : L.sg = true → s.type.possible.toNat < 128)
    (he : s.elements = init ++ [e]) :
    statusDescriptor L (Spec.Ses.typeNumbers L.sg s.type) (s.overall ++ (init.flatten ++ X)) =
      (statusElement L (statusClass s.type.code.toNat) X).map fun p =>
        (⟨elementObject L 0 s.overall, init.map (elementObject L s.type.code.toNat) ++ [p.1]⟩, 4 + (init.flatten.length + p.2)) := by
  obtain ⟨h4, h4', hn⟩ := hs
  have hcode : get (Spec.Ses.typeNumbers L.sg s.type) "element_type" = (s.type.code.toNat : Int) := by
    simp [get, Spec.Ses.typeNumbers, List.lookup]
  have h0 : slice (s.overall ++ (init.flatten ++ X)) 0 4 = s.overall := by
    unfold slice; rw [List.take_left' h4]; simp
  have hg := general_eq L 0 s.overall [] h4 (by simp)
  rw [List.append_nil] at hg
  unfold statusDescriptor
  rw [h0, hg]
  simp only [bind, Except.bind]
  have h4i : ∀ x ∈ init, x.length = 4 := fun x hx => h4' x (by rw [he]; exact List.mem_append_left _ hx)
  have := unpackN_cut (statusElement L (statusClass s.type.code.toNat)) id (elementObject L s.type.code.toNat) init X
    (fun x hm r => by rw [statusElement_eq L _ (id x) r (h4i x hm)]; simp only [id, h4i x hm])
  rw [flatMap_id'] at this
  rw [hcode, possible_eq L s.type h, ← hn, he, List.length_append, List.length_singleton, List.drop_left' h4, this]
  cases statusElement L (statusClass s.type.code.toNat) X <;> rfl

/-- Cut in the overall element of a type without elements. -/
theorem statusDescriptor_cut_overall (L : BufLib) (s : Spec.Ses.TypeStatus) (hs : s.Ok) (h : L.sg = true → s.type.possible.toNat < 128)
    (he : s.elements = []) :
    statusDescriptor L (Spec.Ses.typeNumbers L.sg s.type) (s.overall.take 3) = .ok (⟨elementCut L 0 s.overall, []⟩, 4) := by
  obtain ⟨h4, _, hn⟩ := hs
  have h0 : slice (s.overall.take 3) 0 4 = s.overall.take 3 := by
    unfold slice; rw [List.take_of_length_le (by rw [List.length_take]; omega)]; rfl
  unfold statusDescriptor
  rw [h0, general_cut L 0 s.overall h4 (by simp)]
  simp only [bind, Except.bind]
  rw [possible_eq L s.type h, ← hn, he]
  rfl

def statusPart (s : Spec.Ses.TypeStatus) : Bytes := s.overall ++ s.elements.flatten

def statusObject (L : BufLib) (s : Spec.Ses.TypeStatus) : StatusDescriptor :=
  ⟨elementObject L 0 s.overall, s.elements.map (elementObject L s.type.code.toNat)⟩

/-- The enclosure status page up to byte 7, and the parts of all but the last element type. -/
theorem status_cut (L : BufLib) (conf : Configuration) (flags : UInt8) (generation : Nat) (front : List Spec.Ses.TypeStatus) (s : Spec.Ses.TypeStatus) (n : Nat)
    (hconf : conf.headers = (front ++ [s]).map fun s => Spec.Ses.typeNumbers L.sg s.type) (hs : L.sg = true → ∀ s ∈ front, s.type.possible.toNat < 128)
    (hok : ∀ s ∈ front, s.Ok) (hg : generation < 2 ^ 32) (hp : (Spec.Ses.enclosureStatus flags generation (front ++ [s])).length < 4 + 2 ^ 16)
    (hn : 8 + (front.flatMap statusPart).length ≤ n) :
    enclosureStatus L conf ((Spec.Ses.enclosureStatus flags generation (front ++ [s])).take n) =
      (statusDescriptor L (Spec.Ses.typeNumbers L.sg s.type) ((statusPart s).take (n - (8 + (front.flatMap statusPart).length)))).map fun p =>
        ⟨statusAttrs L flags generation ((Spec.Ses.enclosureStatus flags generation (front ++ [s])).length - 4), front.map (statusObject L) ++ [p.1]⟩ := by
  have hlen : (Spec.Ses.enclosureStatus flags generation (front ++ [s])).length = 4 + (be 4 generation ++ (front ++ [s]).flatMap statusPart).length := by
    unfold Spec.Ses.enclosureStatus
    simp only [List.length_append, List.length_cons, List.length_nil, be_length]
    rfl
  have hsplit : Spec.Ses.enclosureStatus flags generation (front ++ [s]) =
      head8 2 flags (be 4 generation ++ (front ++ [s]).flatMap statusPart).length generation ++ (front ++ [s]).flatMap statusPart := by
    simp only [Spec.Ses.enclosureStatus, head8, List.append_assoc]
    rfl
  rw [hlen, Nat.add_sub_cancel_left]
  rw [hlen] at hp
  rw [hsplit]
  generalize (be 4 generation ++ (front ++ [s]).flatMap statusPart).length = len at hp
  have hf : unpackFields L.sg statusFields (head8 2 flags len generation) = .ok (statusAttrs L flags generation len) := by
    rw [unpackFields_eq L.sg _ _ (by simp [statusFields, UField.ref, Ref.Ok])
      (by simp [statusFields, fieldsEnd, UField.ref, Ref.stop, head8_length])]
    simp only [statusFields, List.map_cons, List.map_nil, UField.name, fieldVal, refNum, intValue_bytes, Nat.reduceSub, num_one,
      head8_len _ _ len generation (by omega), head8_gen _ _ len generation hg]
    have : byteAt (head8 2 flags len generation) 0 = 2 := rfl
    rw [this, asInt_small L.sg 1 2 (by simp)]
    rfl
  rw [List.take_append, head8_length, List.take_of_length_le (by rw [head8_length]; omega)]
  unfold enclosureStatus
  rw [unpackFields_append _ _ _ _ _ hf]
  simp only [bind, Except.bind]
  rw [List.drop_left' (head8_length _ _ _ _), hconf, List.flatMap_append, List.take_append, List.take_of_length_le (by omega)]
  have hone : [s].flatMap statusPart = statusPart s := by simp
  rw [hone, unpackEach_cut (statusDescriptor L) (fun s : Spec.Ses.TypeStatus => Spec.Ses.typeNumbers L.sg s.type) statusPart (statusObject L) front s _
    (fun s hm q => statusDescriptor_eq L s q (hok s hm) (fun h => hs h s hm)),
    show n - 8 - (front.flatMap statusPart).length = n - (8 + (front.flatMap statusPart).length) by omega]
  cases statusDescriptor L (Spec.Ses.typeNumbers L.sg s.type) ((statusPart s).take (n - (8 + (front.flatMap statusPart).length))) <;> rfl

theorem statusPart_length (s : Spec.Ses.TypeStatus) (h : s.Ok) : (statusPart s).length = 4 + 4 * s.elements.length := by
  obtain ⟨h4, he, _⟩ := h
  have : ∀ l : List Bytes, (∀ e ∈ l, e.length = 4) → l.flatten.length = 4 * l.length := by
    intro l hl
    induction l with
    | nil => rfl
    | cons x l ih =>
      have := ih fun e he => hl e (List.mem_cons_of_mem _ he)
      have := hl x (List.mem_cons_self ..)
      rw [List.flatten_cons, List.length_append, List.length_cons]; omega
  rw [statusPart, List.length_append, h4, this _ he]

theorem status_length (flags : UInt8) (generation : Nat) (ss : List Spec.Ses.TypeStatus) (hok : ∀ s ∈ ss, s.Ok) :
    (Spec.Ses.enclosureStatus flags generation ss).length = 8 + (ss.flatMap statusPart).length ∧ 4 ∣ (ss.flatMap statusPart).length := by
  constructor
  · unfold Spec.Ses.enclosureStatus
    simp only [List.length_append, List.length_cons, List.length_nil, be_length]
    rw [← Nat.add_assoc]
    rfl
  · induction ss with
    | nil => exact ⟨0, rfl⟩
    | cons s ss ih =>
      have h1 := ih fun x hx => hok x (List.mem_cons_of_mem _ hx)
      have h2 := statusPart_length s (hok s (List.mem_cons_self ..))
      rw [List.flatMap_cons, List.length_append]
      omega

/-! ## The element descriptor page -/

/-- Cut in the text of a descriptor, or before. -/
theorem descriptor_cut (L : BufLib) (t : Bytes) (m : Nat) (h : t.length < 2 ^ 16) (hs : L.sg = true → t.length < 2 ^ 15) (hm : 4 ≤ m) :
    descriptor L ((Spec.Ses.descriptor t).take m) = .ok (⟨t.length, t.take (m - 4)⟩, 4 + t.length) := by
  have hl : (Spec.Ses.descriptor t).length = t.length + 4 := by simp [Spec.Ses.descriptor]; omega
  have hf : unpackFields L.sg [.i "descriptor_length" (.bytes 2 4)] ((Spec.Ses.descriptor t).take m) = .ok [("descriptor_length", (t.length : Int))] := by
    rw [unpackFields_eq L.sg _ _ (by simp [UField.ref, Ref.Ok]) (by simp [fieldsEnd, UField.ref, Ref.stop, List.length_take]; omega)]
    simp only [List.map_cons, List.map_nil, UField.name, fieldVal, refNum, intValue_bytes, Nat.reduceSub]
    have := num_append_right [0, 0] (be 2 t.length ++ t) 0 2
    rw [num_be 2 _ _ (by simpa using h)] at this
    rw [num_take _ _ _ _ (by omega), show num (Spec.Ses.descriptor t) 2 2 = t.length by rw [Spec.Ses.descriptor, List.append_assoc]; exact this,
      asInt_small L.sg 2 _ (by simpa using hs)]
  unfold descriptor
  rw [hf]
  simp only [bind, Except.bind]
  have hg : get [("descriptor_length", (t.length : Int))] "descriptor_length" = (t.length : Int) := rfl
  have hst : ((t.length : Int) + 4).toNat = 4 + t.length := by omega
  rw [hg, hst, Nat.max_eq_right (by omega)]
  congr 3
  unfold slice
  rw [List.take_of_length_le (by rw [List.length_take]; omega)]
  have : Spec.Ses.descriptor t = ([0, 0] ++ be 2 t.length) ++ t := rfl
  rw [this, List.take_append, List.take_of_length_le (by simp; omega), List.drop_left' (by simp)]
  simp

theorem descriptor_short (L : BufLib) (t : Bytes) (m : Nat) (hm : m < 4) : descriptor L ((Spec.Ses.descriptor t).take m) = .error .truncated := by
  unfold descriptor
  rw [unpackFields_truncated L.sg _ _ (by simp [UField.ref, Ref.Ok]) (by simp [fieldsEnd, UField.ref, Ref.stop, List.length_take]; omega)]
  rfl

def textsPart (s : Spec.Ses.TypeTexts) : Bytes := Spec.Ses.descriptor s.overall ++ s.elements.flatMap Spec.Ses.descriptor

def textsObject (s : Spec.Ses.TypeTexts) : ElementDescriptor := ⟨⟨s.overall.length, s.overall⟩, s.elements.map fun t => ⟨t.length, t⟩⟩

/-- Cut in the last descriptor of a type. -/
theorem elementDescriptor_cut (L : BufLib) (s : Spec.Ses.TypeTexts) (init : List Bytes) (t X : Bytes) (hok : s.Ok) (h : L.sg = true → s.type.possible.toNat < 128)
    (hl : ∀ t ∈ s.overall :: s.elements, t.length < 2 ^ 16 ∧ (L.sg = true → t.length < 2 ^ 15)) (ht : s.elements = init ++ [t]) :
    elementDescriptor L (Spec.Ses.typeNumbers L.sg s.type) (Spec.Ses.descriptor s.overall ++ (init.flatMap Spec.Ses.descriptor ++ X)) =
      (descriptor L X).map fun p => (⟨⟨s.overall.length, s.overall⟩, init.map (fun t => ⟨t.length, t⟩) ++ [p.1]⟩,
        (Spec.Ses.descriptor s.overall).length + ((init.flatMap Spec.Ses.descriptor).length + p.2)) := by
  unfold elementDescriptor
  rw [descriptor_eq L s.overall _ (hl _ (by simp)).1 (hl _ (by simp)).2]
  simp only [bind, Except.bind, List.drop_left]
  have hi : ∀ x ∈ init, x ∈ s.overall :: s.elements := fun x hx => by simp [ht, hx]
  rw [possible_eq L s.type h, ← hok, ht, List.length_append, List.length_singleton,
    unpackN_cut (descriptor L) Spec.Ses.descriptor (fun t => ⟨t.length, t⟩) init X
    (fun x hx r => descriptor_eq L x r (hl x (hi x hx)).1 (hl x (hi x hx)).2)]
  cases descriptor L X <;> rfl

theorem elementDescriptor_cut_overall (L : BufLib) (s : Spec.Ses.TypeTexts) (X : Bytes) (hok : s.Ok) (h : L.sg = true → s.type.possible.toNat < 128)
    (ht : s.elements = []) :
    elementDescriptor L (Spec.Ses.typeNumbers L.sg s.type) X = (descriptor L X).map fun p => (⟨p.1, []⟩, p.2) := by
  unfold elementDescriptor
  simp only [bind, Except.bind]
  cases descriptor L X with
  | error e => rfl
  | ok p =>
    simp only [Except.map]
    rw [possible_eq L s.type h, ← hok, ht]
    rfl

/-- The element descriptor page up to byte 7, and the parts of all but the last element type. -/
theorem descriptors_cut (L : BufLib) (conf : Configuration) (generation : Nat) (front : List Spec.Ses.TypeTexts) (s : Spec.Ses.TypeTexts) (n : Nat)
    (hconf : conf.headers = (front ++ [s]).map fun s => Spec.Ses.typeNumbers L.sg s.type) (hs : L.sg = true → ∀ s ∈ front, s.type.possible.toNat < 128)
    (hok : ∀ s ∈ front, s.Ok) (hl : ∀ s ∈ front, ∀ t ∈ s.overall :: s.elements, t.length < 2 ^ 16 ∧ (L.sg = true → t.length < 2 ^ 15))
    (hg : generation < 2 ^ 32) (hp : (Spec.Ses.elementDescriptors generation (front ++ [s])).length < 4 + 2 ^ 16)
    (hn : 8 + (front.flatMap textsPart).length ≤ n) :
    elementDescriptors L conf ((Spec.Ses.elementDescriptors generation (front ++ [s])).take n) =
      (elementDescriptor L (Spec.Ses.typeNumbers L.sg s.type) ((textsPart s).take (n - (8 + (front.flatMap textsPart).length)))).map fun p =>
        ⟨[("page_code", 7), ("page_length", asInt L.sg 2 ((Spec.Ses.elementDescriptors generation (front ++ [s])).length - 4)),
            ("generation_code", asInt L.sg 4 generation)], front.map textsObject ++ [p.1]⟩ := by
  have hlen : (Spec.Ses.elementDescriptors generation (front ++ [s])).length = 4 + (be 4 generation ++ (front ++ [s]).flatMap textsPart).length := by
    unfold Spec.Ses.elementDescriptors
    simp only [List.length_append, List.length_cons, List.length_nil, be_length]
    rfl
  have hsplit : Spec.Ses.elementDescriptors generation (front ++ [s]) =
      head8 7 0 (be 4 generation ++ (front ++ [s]).flatMap textsPart).length generation ++ (front ++ [s]).flatMap textsPart := by
    simp only [Spec.Ses.elementDescriptors, head8, List.append_assoc]
    rfl
  rw [hlen, Nat.add_sub_cancel_left]
  rw [hlen] at hp
  rw [hsplit]
  generalize (be 4 generation ++ (front ++ [s]).flatMap textsPart).length = len at hp
  have hf : unpackFields L.sg [.i "page_code" (.bytes 0 1), .i "page_length" (.bytes 2 4), .i "generation_code" (.bytes 4 8)]
      (head8 7 0 len generation) = .ok [("page_code", 7), ("page_length", asInt L.sg 2 len), ("generation_code", asInt L.sg 4 generation)] := by
    rw [unpackFields_eq L.sg _ _ (by simp [UField.ref, Ref.Ok]) (by simp [fieldsEnd, UField.ref, Ref.stop, head8_length])]
    simp only [List.map_cons, List.map_nil, UField.name, fieldVal, refNum, intValue_bytes, Nat.reduceSub, num_one,
      head8_len _ _ len generation (by omega), head8_gen _ _ len generation hg]
    have : byteAt (head8 7 0 len generation) 0 = 7 := rfl
    rw [this, asInt_small L.sg 1 7 (by simp)]
    rfl
  rw [List.take_append, head8_length, List.take_of_length_le (by rw [head8_length]; omega)]
  unfold elementDescriptors
  rw [unpackFields_append _ _ _ _ _ hf]
  simp only [bind, Except.bind]
  rw [List.drop_left' (head8_length _ _ _ _), hconf, List.flatMap_append, List.take_append, List.take_of_length_le (by omega)]
  have hone : [s].flatMap textsPart = textsPart s := by simp
  rw [hone, unpackEach_cut (elementDescriptor L) (fun s : Spec.Ses.TypeTexts => Spec.Ses.typeNumbers L.sg s.type) textsPart textsObject front s _
    (fun s hm q => elementDescriptor_eq L s q (hok s hm) (fun h => hs h s hm) (hl s hm)),
    show n - 8 - (front.flatMap textsPart).length = n - (8 + (front.flatMap textsPart).length) by omega]
  cases elementDescriptor L (Spec.Ses.typeNumbers L.sg s.type) ((textsPart s).take (n - (8 + (front.flatMap textsPart).length))) <;> rfl

theorem descriptors_length (generation : Nat) (ss : List Spec.Ses.TypeTexts) :
    (Spec.Ses.elementDescriptors generation ss).length = 8 + (ss.flatMap textsPart).length := by
  unfold Spec.Ses.elementDescriptors
  simp only [List.length_append, List.length_cons, List.length_nil, be_length]
  rw [← Nat.add_assoc]
  rfl

end Verif.Parse.Ses
