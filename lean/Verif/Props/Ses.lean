import Verif.Parse.SesLemmas
/-!
# SES pages: property C46
-/

set_option linter.unusedSimpArgs false

namespace Verif.Parse.Ses

open Verif.Spec

theorem unpackEach_encode {α β γ : Type} (elem : α → Bytes → Py (β × Nat)) (key : γ → α) (enc : γ → Bytes) (val : γ → β) (xs : List γ)
    (h : ∀ x ∈ xs, ∀ rest, elem (key x) (enc x ++ rest) = .ok (val x, (enc x).length)) (rest : Bytes) :
    unpackEach elem (xs.map key) (xs.flatMap enc ++ rest) = .ok (xs.map val, (xs.flatMap enc).length) := by
  induction xs with
  | nil => rfl
  | cons x xs ih =>
    simp only [List.map_cons, unpackEach, List.flatMap_cons, List.append_assoc, h x (by simp), bind, Except.bind, List.drop_left,
      ih (fun y hy => h y (by simp [hy])), List.length_append]

theorem asInt_small (sg : Bool) (n v : Nat) (h : sg = true → v < 2 ^ (8 * n - 1)) : asInt sg n v = v := by
  unfold asInt signedOf
  cases sg with
  | false => rfl
  | true => simp [h rfl]

theorem intValue_bytes (sg : Bool) (lo hi v : Nat) : intValue sg (.bytes lo hi) v = asInt sg (hi - lo) v := by
  unfold intValue asInt signedOf toSigned
  rfl

/-! ## The configuration page -/

/-- The enclosure descriptor as the caller sees it. -/
def enclosureOf (L : BufLib) (e : Bytes) : Enclosure :=
  { attrs := Spec.Ses.enclosureNumbers L.sg e, logicalId := (e.drop 4).take 8, vendor := L.trim ((e.drop 12).take 8),
    product := L.trim ((e.drop 20).take 16), revision := L.trim ((e.drop 36).take 4), vendorSpecific := e.drop 40 }

theorem ascii_part (b : Bytes) (i n j k : Nat) (h : Ascii ((b.drop i).take n)) (hj : i ≤ j) (hk : j + k ≤ i + n) : Ascii ((b.drop j).take k) := by
  intro c hc
  apply h c
  rw [List.mem_iff_getElem?] at hc ⊢
  obtain ⟨m, hm⟩ := hc
  rw [List.getElem?_take] at hm
  split at hm
  · rename_i hlt
    refine ⟨j - i + m, ?_⟩
    rw [List.getElem?_take, if_pos (by omega), List.getElem?_drop, show i + (j - i + m) = j + m by omega]
    rw [List.getElem?_drop] at hm; exact hm
  · simp at hm

theorem enclosure_eq (L : BufLib) (e rest : Bytes) (he : Spec.Ses.IsEnclosure e) :
    enclosureDescriptor L (e ++ rest) = .ok (enclosureOf L e, e.length) := by
  obtain ⟨h40, hlen, ha⟩ := he
  have hf : unpackFields L.sg enclosureFields e = .ok (Spec.Ses.enclosureNumbers L.sg e) := by
    rw [unpackFields_eq L.sg _ _ (by simp [enclosureFields, UField.ref, Ref.Ok]) (by simp [enclosureFields, fieldsEnd, UField.ref, Ref.stop]; omega)]
    simp only [enclosureFields, List.map_cons, List.map_nil, UField.name, fieldVal, refNum, intValue_bytes, Nat.reduceSub, num_one]
    rfl
  unfold enclosureDescriptor
  rw [unpackFields_append _ _ _ _ _ hf]
  simp only [bind, Except.bind]
  rw [slice_append_left e rest 12 20 (by omega), slice_append_left e rest 20 36 (by omega), slice_append_left e rest 36 40 (by omega),
    slice_append_left e rest 4 12 (by omega), ← take_drop_slice e 12 8, ← take_drop_slice e 20 16, ← take_drop_slice e 36 4,
    ← take_drop_slice e 4 8, textOf_default L _ (ascii_part e 12 28 12 8 ha (by omega) (by omega)),
    textOf_default L _ (ascii_part e 12 28 20 16 ha (by omega) (by omega)), textOf_default L _ (ascii_part e 12 28 36 4 ha (by omega) (by omega))]
  have hg : get (Spec.Ses.enclosureNumbers L.sg e) "enclosure_descriptor_length" = (byteAt e 3 : Int) := by
    simp [get, Spec.Ses.enclosureNumbers, List.lookup]
  have hs : (get (Spec.Ses.enclosureNumbers L.sg e) "enclosure_descriptor_length" + 4).toNat = e.length := by rw [hg]; omega
  simp only [hs, slice_append_left e rest 40 e.length (Nat.le_refl _), Nat.max_eq_right h40]
  unfold enclosureOf slice
  rw [List.take_length]

theorem typeHeader_eq (L : BufLib) (t : Spec.Ses.ElementType) (rest : Bytes) (h : t.text.length < 256) :
    typeHeader L (t.header ++ rest) = .ok (Spec.Ses.typeNumbers L.sg t, t.header.length) := by
  have hf : unpackFields L.sg typeHeaderFields t.header = .ok (Spec.Ses.typeNumbers L.sg t) := by
    rw [unpackFields_eq L.sg _ _ (by simp [typeHeaderFields, UField.ref, Ref.Ok])
      (by simp [typeHeaderFields, fieldsEnd, UField.ref, Ref.stop, Spec.Ses.ElementType.header])]
    simp only [typeHeaderFields, List.map_cons, List.map_nil, UField.name, fieldVal, refNum, intValue_bytes, Nat.reduceSub, num_one]
    have : byteAt t.header 3 = t.text.length := by
      simp [byteAt, Spec.Ses.ElementType.header, UInt8.toNat_ofNat']; omega
    rw [this]; rfl
  unfold typeHeader
  rw [unpackFields_append _ _ _ _ _ hf]
  rfl

theorem typeText_eq (L : BufLib) (t : Spec.Ses.ElementType) (rest : Bytes) (h : L.sg = true → t.text.length < 128) :
    typeText (Spec.Ses.typeNumbers L.sg t) (t.text ++ rest) = .ok (t.text, t.text.length) := by
  have hg : get (Spec.Ses.typeNumbers L.sg t) "type_descriptor_text_length" = (t.text.length : Int) := by
    simp [get, Spec.Ses.typeNumbers, List.lookup]
    exact asInt_small _ _ _ (by simpa using h)
  unfold typeText
  simp only [hg]
  rw [if_neg (by omega)]
  simp [slice]

theorem sumOf_eq (L : BufLib) (es : List Bytes) (h : L.sg = true → ∀ e ∈ es, byteAt e 2 < 128) :
    sumOf "type_descriptor_headers_num" (es.map (enclosureOf L)) = Spec.Ses.headerCount es := by
  induction es with
  | nil => rfl
  | cons e es ih =>
    have hg : get (enclosureOf L e).attrs "type_descriptor_headers_num" = (byteAt e 2 : Int) := by
      simp [get, enclosureOf, Spec.Ses.enclosureNumbers, List.lookup]
      exact asInt_small _ _ _ (fun hs => by have := h hs e (by simp); simpa using this)
    simp only [List.map_cons, sumOf, hg, ih (fun hs x hx => h hs x (by simp [hx])), Spec.Ses.headerCount]
    omega

/-- The first eight bytes of the pages. -/
def head8 (a b : UInt8) (len gen : Nat) : Bytes := [a, b] ++ be 2 len ++ be 4 gen

theorem head8_length (a b : UInt8) (len gen : Nat) : (head8 a b len gen).length = 8 := by simp [head8]

theorem head8_len (a b : UInt8) (len gen : Nat) (h : len < 2 ^ 16) : num (head8 a b len gen) 2 2 = len := by
  have := num_append_right [a, b] (be 2 len ++ be 4 gen) 0 2
  rw [num_be 2 len _ (by simpa using h)] at this
  unfold head8; rw [List.append_assoc]; exact this

theorem head8_gen (a b : UInt8) (len gen : Nat) (h : gen < 2 ^ 32) : num (head8 a b len gen) 4 4 = gen := by
  have := num_append_right ([a, b] ++ be 2 len) (be 4 gen ++ []) 0 4
  rw [num_be 4 gen _ (by simpa using h)] at this
  unfold head8
  simpa using this

/-- The header of the configuration page. -/
def configurationAttrs (L : BufLib) (generation : Nat) (es : List Bytes) (ts : List Spec.Ses.ElementType) : List (String × Int) :=
  [("page_code", 1), ("secondary_subenclosures_num", asInt L.sg 1 (es.length - 1)),
   ("page_length", asInt L.sg 2 ((Spec.Ses.configuration generation es ts).length - 4)), ("generation_code", asInt L.sg 4 generation)]

/-- Configuration page: for every configuration, all enclosure descriptors, type headers and texts, in order, from their own bytes. -/
theorem C46_configuration (L : BufLib) (generation : Nat) (es : List Bytes) (ts : List Spec.Ses.ElementType) (rest : Bytes)
    (hc : Spec.Ses.IsConfiguration generation es ts) (hs : L.sg = true → Spec.Ses.Small es ts) :
    configuration L (Spec.Ses.configuration generation es ts ++ rest) =
      .ok { attrs := configurationAttrs L generation es ts
            enclosures := es.map fun e =>
              { attrs := Spec.Ses.enclosureNumbers L.sg e, logicalId := (e.drop 4).take 8, vendor := L.trim ((e.drop 12).take 8),
                product := L.trim ((e.drop 20).take 16), revision := L.trim ((e.drop 36).take 4), vendorSpecific := e.drop 40 }
            headers := ts.map (Spec.Ses.typeNumbers L.sg)
            texts := ts.map Spec.Ses.ElementType.text } := by
  have hlen : (Spec.Ses.configuration generation es ts).length = 4 + (be 4 generation ++ es.flatten ++ ts.flatMap Spec.Ses.ElementType.header ++
      ts.flatMap Spec.Ses.ElementType.text).length := by simp [Spec.Ses.configuration]; omega
  have hpage := hc.page
  have hn : 0 < es.length := List.length_pos_iff.2 hc.nonempty
  have hcount := hc.count
  rw [hlen] at hpage
  generalize hL : (be 4 generation ++ es.flatten ++ ts.flatMap Spec.Ses.ElementType.header ++
      ts.flatMap Spec.Ses.ElementType.text).length = len at hlen hpage
  have hsplit : Spec.Ses.configuration generation es ts ++ rest = head8 1 (UInt8.ofNat (es.length - 1)) len generation ++
      (es.flatMap id ++ (ts.flatMap Spec.Ses.ElementType.header ++ (ts.flatMap Spec.Ses.ElementType.text ++ rest))) := by
    rw [← hL]; simp [Spec.Ses.configuration, head8, List.append_assoc]
  have hb1 : byteAt (head8 1 (UInt8.ofNat (es.length - 1)) len generation) 1 = es.length - 1 := by
    have : byteAt (head8 1 (UInt8.ofNat (es.length - 1)) len generation) 1 = (UInt8.ofNat (es.length - 1)).toNat := rfl
    rw [this]; simp [UInt8.toNat_ofNat']; omega
  have hf : unpackFields L.sg configurationFields (head8 1 (UInt8.ofNat (es.length - 1)) len generation) =
      .ok (configurationAttrs L generation es ts) := by
    rw [unpackFields_eq L.sg _ _ (by simp [configurationFields, UField.ref, Ref.Ok])
      (by simp [configurationFields, fieldsEnd, UField.ref, Ref.stop, head8_length])]
    simp only [configurationFields, List.map_cons, List.map_nil, UField.name, fieldVal, refNum, intValue_bytes, Nat.reduceSub, num_one, hb1,
      head8_len _ _ len generation (by omega), head8_gen _ _ len generation hc.generationFits]
    unfold configurationAttrs
    rw [hlen, Nat.add_sub_cancel_left]
    have : byteAt (head8 1 (UInt8.ofNat (es.length - 1)) len generation) 0 = 1 := rfl
    rw [this, asInt_small L.sg 1 1 (by simp)]
    rfl
  have hg : (get (configurationAttrs L generation es ts) "secondary_subenclosures_num" + 1).toNat = es.length := by
    have : get (configurationAttrs L generation es ts) "secondary_subenclosures_num" = ((es.length - 1 : Nat) : Int) := by
      simp [get, configurationAttrs, List.lookup]
      exact asInt_small _ _ _ (fun h => by have := (hs h).count; simp; omega)
    rw [this]; omega
  rw [hsplit]
  unfold configuration
  rw [unpackFields_append _ _ _ _ _ hf]
  simp only [bind, Except.bind]
  rw [hg]
  have e1 := unpackN_encode_mem (enclosureDescriptor L) id (enclosureOf L) es (fun e he r => enclosure_eq L e r (hc.each e he))
    (ts.flatMap Spec.Ses.ElementType.header ++ (ts.flatMap Spec.Ses.ElementType.text ++ rest))
  have d1 : (head8 1 (UInt8.ofNat (es.length - 1)) len generation ++
      (es.flatMap id ++ (ts.flatMap Spec.Ses.ElementType.header ++ (ts.flatMap Spec.Ses.ElementType.text ++ rest)))).drop 8 =
      es.flatMap id ++ (ts.flatMap Spec.Ses.ElementType.header ++ (ts.flatMap Spec.Ses.ElementType.text ++ rest)) :=
    List.drop_left' (head8_length _ _ _ _)
  rw [d1, e1]
  simp only [← List.drop_drop, d1, List.drop_left]
  rw [sumOf_eq L es (fun h => (hs h).each), hc.headers, Int.toNat_natCast]
  rw [unpackN_encode_mem (typeHeader L) Spec.Ses.ElementType.header (Spec.Ses.typeNumbers L.sg) ts
    (fun t ht r => typeHeader_eq L t r (hc.texts t ht)) (ts.flatMap Spec.Ses.ElementType.text ++ rest)]
  simp only [List.drop_left]
  rw [unpackEach_encode typeText (Spec.Ses.typeNumbers L.sg) Spec.Ses.ElementType.text Spec.Ses.ElementType.text ts
    (fun t ht r => typeText_eq L t r (fun h => (hs h).texts t ht)) rest]
  rfl

/-- The names in the enclosure descriptors, for enclosures that fill them up with NULs or (as the standard says) with spaces. -/
theorem C46_names (L : BufLib) (generation : Nat) (es : List Bytes) (ts : List Spec.Ses.ElementType) (rest : Bytes)
    (hc : Spec.Ses.IsConfiguration generation es ts) (hs : L.sg = true → Spec.Ses.Small es ts) :
    ∃ x, configuration L (Spec.Ses.configuration generation es ts ++ rest) = .ok x ∧
      ∀ (i : Nat) (e vendor product revision : Bytes), es[i]? = some e → Spec.Padded vendor ((e.drop 12).take 8) → Spec.Padded product ((e.drop 20).take 16) →
        Spec.Padded revision ((e.drop 36).take 4) →
        ∃ y, x.enclosures[i]? = some y ∧ y.vendor = vendor ∧ y.product = product ∧ y.revision = revision := by
  refine ⟨_, C46_configuration L generation es ts rest hc hs, ?_⟩
  intro i e v p r hi hv hp hr
  simp only [List.getElem?_map, hi, Option.map_some]
  exact ⟨_, rfl, trim_padded L hv, trim_padded L hp, trim_padded L hr⟩

/-- A configuration with two enclosures and two element types, and small numbers. -/
def exampleEnclosure (n : UInt8) : Bytes := [0x11, 0, n, 37, 1, 2, 3, 4, 5, 6, 7, 8] ++ List.replicate 28 0x41 ++ [9]

def exampleTypes : List Spec.Ses.ElementType := [⟨0x17, 2, 0, [0x44, 0x69]⟩, ⟨0x0E, 1, 0, []⟩, ⟨0x03, 1, 1, [0x46]⟩]

theorem example_configuration : Spec.Ses.IsConfiguration 7 [exampleEnclosure 2, exampleEnclosure 1] exampleTypes ∧
    Spec.Ses.Small [exampleEnclosure 2, exampleEnclosure 1] exampleTypes :=
  ⟨⟨by decide, by decide, by decide, by decide, by decide, by decide, by decide⟩, ⟨by decide, by decide, by decide, by decide⟩⟩

/-! ## The enclosure status page -/

theorem possible_eq (L : BufLib) (t : Spec.Ses.ElementType) (h : L.sg = true → t.possible.toNat < 128) :
    (get (Spec.Ses.typeNumbers L.sg t) "possible_elements_num").toNat = t.possible.toNat := by
  have : get (Spec.Ses.typeNumbers L.sg t) "possible_elements_num" = (t.possible.toNat : Int) := by
    simp [get, Spec.Ses.typeNumbers, List.lookup]
    exact asInt_small _ _ _ (by simpa using h)
  rw [this, Int.toNat_natCast]

theorem statusDescriptor_eq (L : BufLib) (s : Spec.Ses.TypeStatus) (rest : Bytes) (hs : s.Ok) (h : L.sg = true → s.type.possible.toNat < 128) :
    statusDescriptor L (Spec.Ses.typeNumbers L.sg s.type) (s.overall ++ s.elements.flatten ++ rest) =
      .ok (⟨elementObject L 0 s.overall, s.elements.map (elementObject L s.type.code.toNat)⟩, (s.overall ++ s.elements.flatten).length) := by
  obtain ⟨h4, he, hn⟩ := hs
  have hcode : get (Spec.Ses.typeNumbers L.sg s.type) "element_type" = (s.type.code.toNat : Int) := by
    simp [get, Spec.Ses.typeNumbers, List.lookup]
  have h0 : slice (s.overall ++ s.elements.flatten ++ rest) 0 4 = s.overall := by
    unfold slice; rw [List.append_assoc, List.take_left' h4]; simp
  have hd : (s.overall ++ s.elements.flatten ++ rest).drop 4 = s.elements.flatMap id ++ rest := by
    rw [List.append_assoc, List.drop_left' h4]; simp
  have hg := general_eq L 0 s.overall [] h4 (by simp)
  rw [List.append_nil] at hg
  unfold statusDescriptor
  rw [h0, hg]
  simp only [bind, Except.bind]
  rw [hcode, possible_eq L s.type h, ← hn, hd]
  have := unpackN_encode_mem (statusElement L (statusClass s.type.code.toNat)) id (elementObject L s.type.code.toNat) s.elements
    (fun e hm r => by rw [statusElement_eq L _ (id e) r (he e hm)]; simp only [id, he e hm]) rest
  rw [this]
  simp [h4]

/-- The header of the enclosure status page. -/
def statusAttrs (L : BufLib) (flags : UInt8) (generation length : Nat) : List (String × Int) :=
  [("page_code", 2), ("unrecov", bitAt [flags] 0 0), ("crit", bitAt [flags] 0 1), ("non_crit", bitAt [flags] 0 2), ("info", bitAt [flags] 0 3),
   ("invop", bitAt [flags] 0 4), ("page_length", asInt L.sg 2 length), ("generation_code", asInt L.sg 4 generation)]

/-- Enclosure status page: for every configuration and every state of its elements, parsing both pages gives one entry per element type,
with one overall and exactly the possible number of individual elements, each decoded from its own four bytes. The fields are those of the
standard with the readings `r`: `C46_agrees` and `C46_requests_false` say where that differs from the standard's reading. -/
theorem C46_status (L : BufLib) (g : Nat) (es : List Bytes) (ss : List Spec.Ses.TypeStatus) (flags : UInt8) (generation : Nat) (rest rest' : Bytes)
    (hc : Spec.Ses.IsConfiguration g es (ss.map (·.type))) (hs : L.sg = true → Spec.Ses.Small es (ss.map (·.type))) (hok : ∀ s ∈ ss, s.Ok)
    (hg : generation < 2 ^ 32) (hp : (Spec.Ses.enclosureStatus flags generation ss).length < 4 + 2 ^ 16) :
    let r : Spec.Ses.Reading := { signed := L.sg, signedSensors := L.sg, fanSwapped := L.lowFirst, requests := 2 }
    let element (code : Nat) (e : Bytes) : StatusElement :=
      { cls := Spec.Ses.className code, attrs := Spec.Ses.common e, info := Spec.Ses.info r code e, general := Spec.Ses.general r code e }
    ∃ conf, configuration L (Spec.Ses.configuration g es (ss.map (·.type)) ++ rest) = .ok conf ∧
      enclosureStatus L conf (Spec.Ses.enclosureStatus flags generation ss ++ rest') =
        .ok { attrs := statusAttrs L flags generation ((Spec.Ses.enclosureStatus flags generation ss).length - 4)
              descriptors := ss.map fun s =>
                { overall := element 0 s.overall, individual := s.elements.map (element s.type.code.toNat) } } := by
  intro r element
  refine ⟨_, C46_configuration L g es _ rest hc hs, ?_⟩
  have hlen : (Spec.Ses.enclosureStatus flags generation ss).length =
      4 + (be 4 generation ++ ss.flatMap fun s => s.overall ++ s.elements.flatten).length := by
    simp [Spec.Ses.enclosureStatus]; omega
  rw [hlen] at hp ⊢
  generalize hL : (be 4 generation ++ ss.flatMap fun s => s.overall ++ s.elements.flatten).length = len at hlen hp ⊢
  have hsplit : Spec.Ses.enclosureStatus flags generation ss ++ rest' = head8 2 flags len generation ++
      (ss.flatMap (fun s => s.overall ++ s.elements.flatten) ++ rest') := by
    rw [← hL]; simp [Spec.Ses.enclosureStatus, head8, List.append_assoc]
  have hf : unpackFields L.sg statusFields (head8 2 flags len generation) = .ok (statusAttrs L flags generation len) := by
    rw [unpackFields_eq L.sg _ _ (by simp [statusFields, UField.ref, Ref.Ok])
      (by simp [statusFields, fieldsEnd, UField.ref, Ref.stop, head8_length])]
    simp only [statusFields, List.map_cons, List.map_nil, UField.name, fieldVal, refNum, intValue_bytes, Nat.reduceSub, num_one,
      head8_len _ _ len generation (by omega), head8_gen _ _ len generation hg]
    have : byteAt (head8 2 flags len generation) 0 = 2 := rfl
    rw [this, asInt_small L.sg 1 2 (by simp)]
    rfl
  rw [hsplit]
  unfold enclosureStatus
  rw [unpackFields_append _ _ _ _ _ hf]
  simp only [bind, Except.bind]
  rw [List.drop_left' (head8_length _ _ _ _), List.map_map]
  rw [unpackEach_encode (statusDescriptor L) (Spec.Ses.typeNumbers L.sg ∘ fun s : Spec.Ses.TypeStatus => s.type)
    (fun s => s.overall ++ s.elements.flatten) _ ss
    (fun s hm q => statusDescriptor_eq L s q (hok s hm) (fun h => (hs h).possible s.type (List.mem_map.2 ⟨s, hm, rfl⟩))) rest']
  rw [Nat.add_sub_cancel_left]
  rfl

/-- A status page for the configuration above. -/
def exampleStatus : List Spec.Ses.TypeStatus :=
  [⟨⟨0x17, 2, 0, [0x44, 0x69]⟩, [1, 0, 0, 0], [[1, 0x80, 0, 0], [5, 0, 0, 0]]⟩, ⟨⟨0x0E, 1, 0, []⟩, [1, 0, 0, 0], [[1, 0, 0, 1]]⟩,
   ⟨⟨0x03, 1, 1, [0x46]⟩, [1, 0, 0, 0], [[1, 1, 2, 7]]⟩]

example : exampleStatus.map (·.type) = exampleTypes ∧ (∀ s ∈ exampleStatus, s.Ok) ∧
    (Spec.Ses.enclosureStatus 4 7 exampleStatus).length < 4 + 2 ^ 16 := by
  refine ⟨rfl, ?_, by decide⟩
  intro s hs
  simp only [exampleStatus, List.mem_cons, List.not_mem_nil, or_false] at hs
  rcases hs with rfl | rfl | rfl <;> exact ⟨by decide, by decide, by decide⟩

/-- Where the readings agree with the standard: all types but 0Eh (enclosure), fan speeds if references are joined most significant part
first, and numbers that do not need the top bit of their byte whichever sign the library gives them. -/
theorem C46_agrees (r : Spec.Ses.Reading) (code : Nat) (e : Bytes) (hcode : code ≠ 0x0E) (hfan : code = 3 → r.fanSwapped = false)
    (hs : r.signed = true → byteAt e 1 < 128 ∧ byteAt e 2 < 128 ∧ byteAt e 3 < 128) (hv : r.signedSensors = false → byteAt e 2 < 128) :
    Spec.Ses.info r code e = Spec.Ses.info Spec.Ses.standard code e := by
  have h1 : ∀ i, i = 1 ∨ i = 2 ∨ i = 3 → asInt r.signed 1 (byteAt e i) = asInt false 1 (byteAt e i) := by
    intro i hi
    exact asInt_small r.signed 1 _ (fun h => by obtain ⟨a, b, c⟩ := hs h; rcases hi with rfl | rfl | rfl <;> simpa)
  have b2 : byteAt e 2 < 256 := byte_lt _
  have b3 : byteAt e 3 < 256 := byte_lt _
  have hn : num e 2 2 = 256 * byteAt e 2 + byteAt e 3 := by simp [num]
  have h2 : asInt r.signed 2 (num e 2 2) = asInt false 2 (num e 2 2) :=
    asInt_small r.signed 2 _ (fun h => by obtain ⟨a, b, c⟩ := hs h; simp; omega)
  have h3 : asInt r.signedSensors 2 (num e 2 2) = asInt true 2 (num e 2 2) := by
    cases hr : r.signedSensors with
    | true => rfl
    | false => exact (asInt_small true 2 _ (fun _ => by have := hv hr; simp; omega)).symm
  have h4 : code = 3 → Spec.Ses.fanSpeed r e = Spec.Ses.fanSpeed Spec.Ses.standard e := by
    intro h; unfold Spec.Ses.fanSpeed; rw [hfan h]; rfl
  unfold Spec.Ses.info
  split <;>
    first
    | rfl
    | exact absurd rfl hcode
    | rw [h1 _ (by simp)]; rfl
    | rw [h2]; rfl
    | rw [h3]; rfl
    | rw [h4 rfl]

/-- Enclosure elements: the indications and the time until the power cycle are right under every reading. -/
theorem C46_enclosure_agrees (r : Spec.Ses.Reading) (e : Bytes) :
    (Spec.Ses.info r 0x0E e).take 4 = (Spec.Ses.info Spec.Ses.standard 0x0E e).take 4 := rfl

/-- Not all: the requests of an enclosure element are read from byte 2 instead of byte 3. An enclosure whose WARNING REQUESTED bit is set is
reported without it. -/
theorem C46_requests_false (L : BufLib) :
    ∃ e : Bytes, e.length = 4 ∧ ∃ x, statusElement L (statusClass 0x0E) e = .ok (x, 4) ∧
      get (Spec.Ses.info Spec.Ses.standard 0x0E e) "warn_requested" = 1 ∧ get x.info "warn_requested" = 0 :=
  ⟨[1, 0, 0, 1], rfl, _, rfl, rfl, rfl⟩

/-- The library gives all whole-byte numbers the same sign; the standard does not. So, whatever the library's default is, there are elements
(not of type 0Eh or 03h) with a wrong number: a connector with physical link FFh, or a negative voltage. -/
theorem C46_sign_false (L : BufLib) :
    ∃ code e, code ≠ 0x0E ∧ code ≠ 3 ∧ e.length = 4 ∧ ∃ x, statusElement L (statusClass (code : Nat)) e = .ok (x, 4) ∧
      x.info ≠ Spec.Ses.info Spec.Ses.standard code e := by
  cases h : L.sg with
  | true =>
    refine ⟨0x19, [1, 0, 0xFF, 0], by decide, by decide, rfl, _, statusElement_eq L 0x19 [1, 0, 0xFF, 0] [] rfl, ?_⟩
    simp only [elementObject, reading, h]; cases L.lowFirst <;> decide
  | false =>
    refine ⟨0x12, [1, 0, 0xFF, 0xFF], by decide, by decide, rfl, _, statusElement_eq L 0x12 [1, 0, 0xFF, 0xFF] [] rfl, ?_⟩
    simp only [elementObject, reading, h]; cases L.lowFirst <;> decide

/-- If whole-byte numbers are signed, an element type with 128 elements comes back with none. -/
theorem C46_count_false (L : BufLib) (h : L.sg = true) :
    let t : Spec.Ses.ElementType := ⟨0x17, 128, 0, []⟩
    let s : Spec.Ses.TypeStatus := ⟨t, [1, 0, 0, 0], List.replicate 128 [1, 0, 0, 0]⟩
    Spec.Ses.IsConfiguration 0 [exampleEnclosure 1] [t] ∧ s.Ok ∧
    ∃ conf x, configuration L (Spec.Ses.configuration 0 [exampleEnclosure 1] [t]) = .ok conf ∧
      enclosureStatus L conf (Spec.Ses.enclosureStatus 0 0 [s]) = .ok x ∧ x.descriptors.map (·.individual) = [[]] := by
  refine ⟨⟨by decide, by decide, by decide, by decide, by decide, by decide, by decide⟩, ⟨by decide, by simp, by simp⟩, ?_⟩
  obtain ⟨sg, lf, tx, po, tr, tl, tp⟩ := L
  simp only at h
  subst h
  have hconf : ∃ a b c, configuration ⟨true, lf, tx, po, tr, tl, tp⟩ (Spec.Ses.configuration 0 [exampleEnclosure 1] [⟨0x17, 128, 0, []⟩]) =
      .ok ⟨a, b, [Spec.Ses.typeNumbers true ⟨0x17, 128, 0, []⟩], c⟩ := ⟨_, _, _, rfl⟩
  obtain ⟨c1, c2, c3, hconf⟩ := hconf
  suffices hx : ∃ x, enclosureStatus ⟨true, lf, tx, po, tr, tl, tp⟩ ⟨c1, c2, [Spec.Ses.typeNumbers true ⟨0x17, 128, 0, []⟩], c3⟩
      (Spec.Ses.enclosureStatus 0 0 [⟨⟨0x17, 128, 0, []⟩, [1, 0, 0, 0], List.replicate 128 [1, 0, 0, 0]⟩]) = .ok x ∧
      x.descriptors.map (·.individual) = [[]] by
    obtain ⟨x, h1, h2⟩ := hx
    exact ⟨_, x, hconf, h1, h2⟩
  generalize hpage : Spec.Ses.enclosureStatus 0 0 _ = page
  have hx : ∃ a b c d e f g h X, page = [a, b, c, d, e, f, g, h, 1, 0, 0, 0] ++ X := by
    rw [← hpage]
    exact ⟨_, _, _, _, _, _, _, _, _, rfl⟩
  obtain ⟨a, b, c, d, e, f, g, h, X, rfl⟩ := hx
  exact ⟨_, rfl, rfl⟩

/-! ## The element descriptor page -/

theorem descriptor_eq (L : BufLib) (t rest : Bytes) (h : t.length < 2 ^ 16) (hs : L.sg = true → t.length < 2 ^ 15) :
    descriptor L (Spec.Ses.descriptor t ++ rest) = .ok (⟨t.length, t⟩, (Spec.Ses.descriptor t).length) := by
  have hl : (Spec.Ses.descriptor t).length = t.length + 4 := by simp [Spec.Ses.descriptor]; omega
  have hf : unpackFields L.sg [.i "descriptor_length" (.bytes 2 4)] (Spec.Ses.descriptor t) = .ok [("descriptor_length", (t.length : Int))] := by
    rw [unpackFields_eq L.sg _ _ (by simp [UField.ref, Ref.Ok]) (by simp [fieldsEnd, UField.ref, Ref.stop]; omega)]
    simp only [List.map_cons, List.map_nil, UField.name, fieldVal, refNum, intValue_bytes, Nat.reduceSub]
    have := num_append_right [0, 0] (be 2 t.length ++ t) 0 2
    rw [num_be 2 _ _ (by simpa using h)] at this
    rw [show num (Spec.Ses.descriptor t) 2 2 = t.length by rw [Spec.Ses.descriptor, List.append_assoc]; exact this,
      asInt_small L.sg 2 _ (by simpa using hs)]
  unfold descriptor
  rw [unpackFields_append _ _ _ _ _ hf]
  simp only [bind, Except.bind]
  have hg : get [("descriptor_length", (t.length : Int))] "descriptor_length" = (t.length : Int) := rfl
  have hst : ((t.length : Int) + 4).toNat = (Spec.Ses.descriptor t).length := by rw [hl]; omega
  rw [hg, hst, Nat.max_eq_right (by omega), slice_append_left _ rest 4 _ (Nat.le_refl _)]
  congr 3
  unfold slice
  rw [List.take_length]
  simp [Spec.Ses.descriptor]

theorem elementDescriptor_eq (L : BufLib) (s : Spec.Ses.TypeTexts) (rest : Bytes) (hok : s.Ok) (h : L.sg = true → s.type.possible.toNat < 128)
    (hl : ∀ t ∈ s.overall :: s.elements, t.length < 2 ^ 16 ∧ (L.sg = true → t.length < 2 ^ 15)) :
    elementDescriptor L (Spec.Ses.typeNumbers L.sg s.type) (Spec.Ses.descriptor s.overall ++ s.elements.flatMap Spec.Ses.descriptor ++ rest) =
      .ok (⟨⟨s.overall.length, s.overall⟩, s.elements.map fun t => ⟨t.length, t⟩⟩,
        (Spec.Ses.descriptor s.overall ++ s.elements.flatMap Spec.Ses.descriptor).length) := by
  unfold elementDescriptor
  rw [List.append_assoc, descriptor_eq L s.overall _ (hl _ (by simp)).1 (hl _ (by simp)).2]
  simp only [bind, Except.bind, List.drop_left]
  rw [possible_eq L s.type h, ← hok, unpackN_encode_mem (descriptor L) Spec.Ses.descriptor (fun t => ⟨t.length, t⟩) s.elements
    (fun t ht r => descriptor_eq L t r (hl t (by simp [ht])).1 (hl t (by simp [ht])).2) rest]
  simp

/-- Element descriptor page: one entry per element type with one overall and exactly the possible number of individual descriptors. -/
theorem C46_descriptors (L : BufLib) (g : Nat) (es : List Bytes) (ss : List Spec.Ses.TypeTexts) (generation : Nat) (rest rest' : Bytes)
    (hc : Spec.Ses.IsConfiguration g es (ss.map (·.type))) (hs : L.sg = true → Spec.Ses.Small es (ss.map (·.type))) (hok : ∀ s ∈ ss, s.Ok)
    (hl : ∀ s ∈ ss, ∀ t ∈ s.overall :: s.elements, t.length < 2 ^ 16 ∧ (L.sg = true → t.length < 2 ^ 15))
    (hg : generation < 2 ^ 32) (hp : (Spec.Ses.elementDescriptors generation ss).length < 4 + 2 ^ 16) :
    ∃ conf, configuration L (Spec.Ses.configuration g es (ss.map (·.type)) ++ rest) = .ok conf ∧
      elementDescriptors L conf (Spec.Ses.elementDescriptors generation ss ++ rest') =
        .ok { attrs := [("page_code", 7), ("page_length", asInt L.sg 2 ((Spec.Ses.elementDescriptors generation ss).length - 4)),
                ("generation_code", asInt L.sg 4 generation)]
              descriptors := ss.map fun s =>
                { overall := ⟨s.overall.length, s.overall⟩, individual := s.elements.map fun t => ⟨t.length, t⟩ } } := by
  refine ⟨_, C46_configuration L g es _ rest hc hs, ?_⟩
  have hlen : (Spec.Ses.elementDescriptors generation ss).length =
      4 + (be 4 generation ++ ss.flatMap fun s => Spec.Ses.descriptor s.overall ++ s.elements.flatMap Spec.Ses.descriptor).length := by
    simp [Spec.Ses.elementDescriptors]; omega
  rw [hlen] at hp ⊢
  generalize hL : (be 4 generation ++ ss.flatMap fun s => Spec.Ses.descriptor s.overall ++ s.elements.flatMap Spec.Ses.descriptor).length = len
    at hlen hp ⊢
  have hsplit : Spec.Ses.elementDescriptors generation ss ++ rest' = head8 7 0 len generation ++
      (ss.flatMap (fun s => Spec.Ses.descriptor s.overall ++ s.elements.flatMap Spec.Ses.descriptor) ++ rest') := by
    rw [← hL]; simp [Spec.Ses.elementDescriptors, head8, List.append_assoc]
  have hf : unpackFields L.sg [.i "page_code" (.bytes 0 1), .i "page_length" (.bytes 2 4), .i "generation_code" (.bytes 4 8)]
      (head8 7 0 len generation) = .ok [("page_code", 7), ("page_length", asInt L.sg 2 len), ("generation_code", asInt L.sg 4 generation)] := by
    rw [unpackFields_eq L.sg _ _ (by simp [UField.ref, Ref.Ok]) (by simp [fieldsEnd, UField.ref, Ref.stop, head8_length])]
    simp only [List.map_cons, List.map_nil, UField.name, fieldVal, refNum, intValue_bytes, Nat.reduceSub, num_one,
      head8_len _ _ len generation (by omega), head8_gen _ _ len generation hg]
    have : byteAt (head8 7 0 len generation) 0 = 7 := rfl
    rw [this, asInt_small L.sg 1 7 (by simp)]
    rfl
  rw [hsplit]
  unfold elementDescriptors
  rw [unpackFields_append _ _ _ _ _ hf]
  simp only [bind, Except.bind]
  rw [List.drop_left' (head8_length _ _ _ _), List.map_map]
  rw [unpackEach_encode (elementDescriptor L) (Spec.Ses.typeNumbers L.sg ∘ fun s : Spec.Ses.TypeTexts => s.type)
    (fun s => Spec.Ses.descriptor s.overall ++ s.elements.flatMap Spec.Ses.descriptor) _ ss
    (fun s hm q => elementDescriptor_eq L s q (hok s hm) (fun h => (hs h).possible s.type (List.mem_map.2 ⟨s, hm, rfl⟩)) (hl s hm)) rest']
  rw [Nat.add_sub_cancel_left]

example : let s : Spec.Ses.TypeTexts := ⟨⟨0x17, 2, 0, [0x44, 0x69]⟩, [], [[0x31], [0x32]]⟩
    s.Ok ∧ (Spec.Ses.elementDescriptors 7 [s]).length < 4 + 2 ^ 16 := ⟨rfl, by decide⟩

/-! ## C58 — supported pages, vendor page 80h -/

/-- A response of exactly the announced length gives its bytes from byte 4 on, in order. -/
theorem C58_bytes_partial (L : BufLib) (b : Bytes) (h : 4 ≤ b.length) :
    bytesPage L b = .ok ([("page_code", asInt L.sg 1 (byteAt b 0)), ("page_length", asInt L.sg 2 (num b 2 2))], (b.drop 4).map UInt8.toNat) := by
  unfold bytesPage
  rw [unpackFields_eq L.sg _ _ (by simp [UField.ref, Ref.Ok]) (by simpa [fieldsEnd, UField.ref, Ref.stop] using h)]
  simp only [bind, Except.bind, unpackAll_u8, List.map_cons, List.map_nil, UField.name, fieldVal, refNum, intValue_bytes, Nat.reduceSub, num_one]

/-- PAGE LENGTH is ignored: what follows the page in the response is returned as further entries. -/
theorem C58_length_false (L : BufLib) :
    ∃ b : Bytes, 4 + num b 2 2 < b.length ∧ ∃ a l, bytesPage L b = .ok (a, l) ∧ l.length ≠ num b 2 2 := by
  refine ⟨[0, 0, 0, 1, 0, 0xAA], by decide, _, _, C58_bytes_partial L _ (by decide), by decide⟩

end Verif.Parse.Ses
