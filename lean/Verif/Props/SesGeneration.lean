import Verif.Props.Ses
/-!
# C88: a status page read with the configuration of another time

The enclosure status and element descriptor pages say nothing about element types; they are decoded with a configuration page that the caller read
before and passes as `conf_page` (enclosure_status.py:482-509, element_descriptor.py:24-45). A monitor reads the configuration once and the status again
and again. SES-3 gives each configuration a GENERATION CODE, which all three pages have; an enclosure changes it whenever the configuration changes.
-/
set_option linter.unusedSimpArgs false

namespace Verif.Parse.Ses

open Verif.Spec

/-- The number a caller finds in `generation_code`. -/
def generationOf (attrs : List (String × Int)) : Int := get attrs "generation_code"

/-- The elements of a page as the caller should get them: one entry per element type of the enclosure, each element from its own bytes and as an
element of its own type. -/
def rightStatus (L : BufLib) (ss : List Spec.Ses.TypeStatus) : List StatusDescriptor :=
  let r : Spec.Ses.Reading := { signed := L.sg, signedSensors := L.sg, fanSwapped := L.lowFirst, requests := 2 }
  let element (code : Nat) (e : Bytes) : StatusElement :=
    { cls := Spec.Ses.className code, attrs := Spec.Ses.common e, info := Spec.Ses.info r code e, general := Spec.Ses.general r code e }
  ss.map fun s => { overall := element 0 s.overall, individual := s.elements.map (element s.type.code.toNat) }

/-- As `rightStatus`, for the element descriptor page. -/
def rightTexts (ss : List Spec.Ses.TypeTexts) : List ElementDescriptor :=
  ss.map fun s => { overall := ⟨s.overall.length, s.overall⟩, individual := s.elements.map fun t => ⟨t.length, t⟩ }

/-- Numbers of four bytes are told apart whatever their sign. -/
theorem asInt4_inj (sg : Bool) {a b : Nat} (ha : a < 2 ^ 32) (hb : b < 2 ^ 32) (h : asInt sg 4 a = asInt sg 4 b) : a = b := by
  unfold asInt signedOf at h
  cases sg with
  | false => simp at h; omega
  | true => simp at h; split at h <;> split at h <;> omega

theorem statusHead (L : BufLib) (flags : UInt8) (generation len : Nat) (hg : generation < 2 ^ 32) (hp : len < 2 ^ 16) :
    unpackFields L.sg statusFields (head8 2 flags len generation) = .ok (statusAttrs L flags generation len) := by
  rw [unpackFields_eq L.sg _ _ (by simp [statusFields, UField.ref, Ref.Ok])
    (by simp [statusFields, fieldsEnd, UField.ref, Ref.stop, head8_length])]
  simp only [statusFields, List.map_cons, List.map_nil, UField.name, fieldVal, refNum, intValue_bytes, Nat.reduceSub, num_one,
    head8_len _ _ len generation hp, head8_gen _ _ len generation hg]
  have : byteAt (head8 2 flags len generation) 0 = 2 := rfl
  rw [this, asInt_small L.sg 1 2 (by simp)]
  rfl

theorem textsHead (L : BufLib) (generation len : Nat) (hg : generation < 2 ^ 32) (hp : len < 2 ^ 16) :
    unpackFields L.sg [.i "page_code" (.bytes 0 1), .i "page_length" (.bytes 2 4), .i "generation_code" (.bytes 4 8)] (head8 7 0 len generation) =
      .ok [("page_code", 7), ("page_length", asInt L.sg 2 len), ("generation_code", asInt L.sg 4 generation)] := by
  rw [unpackFields_eq L.sg _ _ (by simp [UField.ref, Ref.Ok]) (by simp [fieldsEnd, UField.ref, Ref.stop, head8_length])]
  simp only [List.map_cons, List.map_nil, UField.name, fieldVal, refNum, intValue_bytes, Nat.reduceSub, num_one,
    head8_len _ _ len generation hp, head8_gen _ _ len generation hg]
  have : byteAt (head8 7 0 len generation) 0 = 7 := rfl
  rw [this, asInt_small L.sg 1 7 (by simp)]
  rfl

/-- The bytes of a status page behind its header. -/
def statusBytes (ss : List Spec.Ses.TypeStatus) : Bytes := ss.flatMap fun s => s.overall ++ s.elements.flatten

theorem status_split (flags : UInt8) (generation : Nat) (ss : List Spec.Ses.TypeStatus) (rest : Bytes) :
    Spec.Ses.enclosureStatus flags generation ss ++ rest = head8 2 flags ((Spec.Ses.enclosureStatus flags generation ss).length - 4) generation ++ (statusBytes ss ++ rest) := by
  have : (Spec.Ses.enclosureStatus flags generation ss).length - 4 = (be 4 generation ++ statusBytes ss).length := by
    simp [Spec.Ses.enclosureStatus, statusBytes]
  rw [this]
  simp [Spec.Ses.enclosureStatus, head8, statusBytes, List.append_assoc]

theorem status_decode (L : BufLib) (conf : Configuration) (flags : UInt8) (generation : Nat) (ss : List Spec.Ses.TypeStatus) (rest : Bytes)
    (hg : generation < 2 ^ 32) (hp : (Spec.Ses.enclosureStatus flags generation ss).length < 4 + 2 ^ 16) :
    enclosureStatus L conf (Spec.Ses.enclosureStatus flags generation ss ++ rest) =
      (unpackEach (statusDescriptor L) conf.headers (statusBytes ss ++ rest)).map fun p =>
        ⟨statusAttrs L flags generation ((Spec.Ses.enclosureStatus flags generation ss).length - 4), p.1⟩ := by
  rw [status_split]
  unfold enclosureStatus
  rw [unpackFields_append _ _ _ _ _ (statusHead L flags generation _ hg (by omega))]
  simp only [bind, Except.bind]
  rw [List.drop_left' (head8_length _ _ _ _)]
  cases unpackEach (statusDescriptor L) conf.headers (statusBytes ss ++ rest) <;> rfl

/-- The generation code of a decoded page is the enclosure's, whatever configuration it was decoded with. -/
theorem generation_status {L : BufLib} {conf : Configuration} {flags : UInt8} {generation : Nat} {ss : List Spec.Ses.TypeStatus} {rest : Bytes} {x : EnclosureStatus}
    (hg : generation < 2 ^ 32) (hp : (Spec.Ses.enclosureStatus flags generation ss).length < 4 + 2 ^ 16)
    (h : enclosureStatus L conf (Spec.Ses.enclosureStatus flags generation ss ++ rest) = .ok x) :
    generationOf x.attrs = asInt L.sg 4 generation := by
  rw [status_decode L conf flags generation ss rest hg hp] at h
  cases hu : unpackEach (statusDescriptor L) conf.headers (statusBytes ss ++ rest) with
  | error e => rw [hu] at h; cases h
  | ok p =>
    rw [hu] at h
    simp only [Except.map, Except.ok.injEq] at h
    rw [← h]
    rfl

/-- The bytes of an element descriptor page behind its header. -/
def textBytes (ss : List Spec.Ses.TypeTexts) : Bytes := ss.flatMap fun s => Spec.Ses.descriptor s.overall ++ s.elements.flatMap Spec.Ses.descriptor

theorem texts_split (generation : Nat) (ss : List Spec.Ses.TypeTexts) (rest : Bytes) :
    Spec.Ses.elementDescriptors generation ss ++ rest = head8 7 0 ((Spec.Ses.elementDescriptors generation ss).length - 4) generation ++ (textBytes ss ++ rest) := by
  have : (Spec.Ses.elementDescriptors generation ss).length - 4 = (be 4 generation ++ textBytes ss).length := by
    simp [Spec.Ses.elementDescriptors, textBytes]
  rw [this]
  simp [Spec.Ses.elementDescriptors, head8, textBytes, List.append_assoc]

theorem texts_decode (L : BufLib) (conf : Configuration) (generation : Nat) (ss : List Spec.Ses.TypeTexts) (rest : Bytes)
    (hg : generation < 2 ^ 32) (hp : (Spec.Ses.elementDescriptors generation ss).length < 4 + 2 ^ 16) :
    elementDescriptors L conf (Spec.Ses.elementDescriptors generation ss ++ rest) =
      (unpackEach (elementDescriptor L) conf.headers (textBytes ss ++ rest)).map fun p =>
        ⟨[("page_code", 7), ("page_length", asInt L.sg 2 ((Spec.Ses.elementDescriptors generation ss).length - 4)), ("generation_code", asInt L.sg 4 generation)], p.1⟩ := by
  rw [texts_split]
  unfold elementDescriptors
  rw [unpackFields_append _ _ _ _ _ (textsHead L generation _ hg (by omega))]
  simp only [bind, Except.bind]
  rw [List.drop_left' (head8_length _ _ _ _)]
  cases unpackEach (elementDescriptor L) conf.headers (textBytes ss ++ rest) <;> rfl

theorem generation_texts {L : BufLib} {conf : Configuration} {generation : Nat} {ss : List Spec.Ses.TypeTexts} {rest : Bytes} {x : ElementDescriptors}
    (hg : generation < 2 ^ 32) (hp : (Spec.Ses.elementDescriptors generation ss).length < 4 + 2 ^ 16)
    (h : elementDescriptors L conf (Spec.Ses.elementDescriptors generation ss ++ rest) = .ok x) :
    generationOf x.attrs = asInt L.sg 4 generation := by
  rw [texts_decode L conf generation ss rest hg hp] at h
  cases hu : unpackEach (elementDescriptor L) conf.headers (textBytes ss ++ rest) with
  | error e => rw [hu] at h; cases h
  | ok p =>
    rw [hu] at h
    simp only [Except.map, Except.ok.injEq] at h
    rw [← h]
    rfl

/-- **C88** (partial: for callers who compare the generation codes themselves; the library does not, see `C88_false`). The configuration page of one time
(`g`, `es`, `ts`) and the status page of another (`generation`, `ss`), of an enclosure that changes its generation code when it changes its element types. If
the two decoded pages have the same `generation_code`, all elements are those of the enclosure, each of its own type. If the configuration has not
changed, decoding succeeds and the codes are the same. -/
theorem C88_partial (L : BufLib) (g : Nat) (es : List Bytes) (ts : List Spec.Ses.ElementType) (flags : UInt8) (generation : Nat) (ss : List Spec.Ses.TypeStatus)
    (rest rest' : Bytes) (hc : Spec.Ses.IsConfiguration g es ts) (hs : L.sg = true → Spec.Ses.Small es ts) (hok : ∀ s ∈ ss, s.Ok)
    (hg : generation < 2 ^ 32) (hp : (Spec.Ses.enclosureStatus flags generation ss).length < 4 + 2 ^ 16)
    (hses : g = generation → ts = ss.map (·.type)) :
    ∃ conf, configuration L (Spec.Ses.configuration g es ts ++ rest) = .ok conf ∧
      (∀ x, enclosureStatus L conf (Spec.Ses.enclosureStatus flags generation ss ++ rest') = .ok x →
        (generationOf x.attrs = generationOf conf.attrs ↔ g = generation) ∧
        (generationOf x.attrs = generationOf conf.attrs → x.descriptors = rightStatus L ss)) ∧
      (g = generation → ∃ x, enclosureStatus L conf (Spec.Ses.enclosureStatus flags generation ss ++ rest') = .ok x) := by
  have hcg := hc.generationFits
  by_cases hgg : g = generation
  · have ht := hses hgg
    subst ht
    obtain ⟨conf, h1, h2⟩ := C46_status L g es ss flags generation rest rest' hc hs hok hg hp
    refine ⟨conf, h1, ?_, fun _ => ⟨_, h2⟩⟩
    intro x hx
    have hgen := generation_status hg hp hx
    rw [h2] at hx
    have hcc : generationOf conf.attrs = asInt L.sg 4 g := by
      rw [C46_configuration L g es _ rest hc hs] at h1
      simp only [Except.ok.injEq] at h1
      rw [← h1]; rfl
    refine ⟨⟨fun _ => hgg, fun _ => by rw [hgen, hcc, hgg]⟩, fun _ => ?_⟩
    simp only [Except.ok.injEq] at hx
    rw [← hx]
    rfl
  · refine ⟨_, C46_configuration L g es ts rest hc hs, ?_, fun h => absurd h hgg⟩
    intro x hx
    have hgen := generation_status hg hp hx
    have hne : ¬ generationOf x.attrs = generationOf (configurationAttrs L g es ts) := by
      rw [hgen]
      intro h
      exact hgg (asInt4_inj L.sg hg hcg h).symm
    exact ⟨⟨fun h => absurd h hne, fun h => absurd h hgg⟩, fun h => absurd h hne⟩

/-- **C88 for the element descriptor page**, with the same limits. -/
theorem C88_descriptors_partial (L : BufLib) (g : Nat) (es : List Bytes) (ts : List Spec.Ses.ElementType) (generation : Nat) (ss : List Spec.Ses.TypeTexts)
    (rest rest' : Bytes) (hc : Spec.Ses.IsConfiguration g es ts) (hs : L.sg = true → Spec.Ses.Small es ts) (hok : ∀ s ∈ ss, s.Ok)
    (hl : ∀ s ∈ ss, ∀ t ∈ s.overall :: s.elements, t.length < 2 ^ 16 ∧ (L.sg = true → t.length < 2 ^ 15))
    (hg : generation < 2 ^ 32) (hp : (Spec.Ses.elementDescriptors generation ss).length < 4 + 2 ^ 16)
    (hses : g = generation → ts = ss.map (·.type)) :
    ∃ conf, configuration L (Spec.Ses.configuration g es ts ++ rest) = .ok conf ∧
      (∀ x, elementDescriptors L conf (Spec.Ses.elementDescriptors generation ss ++ rest') = .ok x →
        (generationOf x.attrs = generationOf conf.attrs ↔ g = generation) ∧
        (generationOf x.attrs = generationOf conf.attrs → x.descriptors = rightTexts ss)) ∧
      (g = generation → ∃ x, elementDescriptors L conf (Spec.Ses.elementDescriptors generation ss ++ rest') = .ok x) := by
  have hcg := hc.generationFits
  by_cases hgg : g = generation
  · have ht := hses hgg
    subst ht
    obtain ⟨conf, h1, h2⟩ := C46_descriptors L g es ss generation rest rest' hc hs hok hl hg hp
    refine ⟨conf, h1, ?_, fun _ => ⟨_, h2⟩⟩
    intro x hx
    have hgen := generation_texts hg hp hx
    rw [h2] at hx
    have hcc : generationOf conf.attrs = asInt L.sg 4 g := by
      rw [C46_configuration L g es _ rest hc hs] at h1
      simp only [Except.ok.injEq] at h1
      rw [← h1]; rfl
    refine ⟨⟨fun _ => hgg, fun _ => by rw [hgen, hcc, hgg]⟩, fun _ => ?_⟩
    simp only [Except.ok.injEq] at hx
    rw [← hx]
    rfl
  · refine ⟨_, C46_configuration L g es ts rest hc hs, ?_, fun h => absurd h hgg⟩
    intro x hx
    have hgen := generation_texts hg hp hx
    have hne : ¬ generationOf x.attrs = generationOf (configurationAttrs L g es ts) := by
      rw [hgen]
      intro h
      exact hgg (asInt4_inj L.sg hg hcg h).symm
    exact ⟨⟨fun h => absurd h hne, fun h => absurd h hgg⟩, fun h => absurd h hne⟩

/-! ## What goes wrong -/

/-- The bytes that the elements of a configuration take. -/
def need (ts : List Spec.Ses.ElementType) : Nat := (ts.map fun t => 4 + 4 * t.possible.toNat).sum

theorem chunks (n : Nat) : ∀ b : Bytes, 4 * n ≤ b.length → ∃ es : List Bytes, es.length = n ∧ (∀ e ∈ es, e.length = 4) ∧ es.flatten = b.take (4 * n) := by
  induction n with
  | zero => exact fun b _ => ⟨[], rfl, by simp, by simp⟩
  | succ n ih =>
    intro b hb
    obtain ⟨es, h1, h2, h3⟩ := ih (b.drop 4) (by simp; omega)
    refine ⟨b.take 4 :: es, by simp [h1], ?_, ?_⟩
    · intro e he
      rcases List.mem_cons.1 he with rfl | he
      · simp; omega
      · exact h2 e he
    · rw [List.flatten_cons, h3, show 4 * (n + 1) = 4 + 4 * n by omega, List.take_add]

/-- Bytes that suffice for the elements of a configuration can be taken for them. -/
theorem taken (ts : List Spec.Ses.ElementType) : ∀ b : Bytes, need ts ≤ b.length →
    ∃ ss : List Spec.Ses.TypeStatus, ss.map (·.type) = ts ∧ (∀ s ∈ ss, s.Ok) ∧ statusBytes ss = b.take (need ts) := by
  induction ts with
  | nil => exact fun b _ => ⟨[], rfl, by simp, by simp [statusBytes, need]⟩
  | cons t ts ih =>
    intro b hb
    have hn : need (t :: ts) = 4 + 4 * t.possible.toNat + need ts := by simp [need]
    rw [hn] at hb ⊢
    obtain ⟨es, h1, h2, h3⟩ := chunks t.possible.toNat (b.drop 4) (by simp; omega)
    obtain ⟨ss, g1, g2, g3⟩ := ih (b.drop (4 + 4 * t.possible.toNat)) (by simp; omega)
    refine ⟨⟨t, b.take 4, es⟩ :: ss, by simp [g1], ?_, ?_⟩
    · intro s hs
      rcases List.mem_cons.1 hs with rfl | hs
      · exact ⟨by simp; omega, h2, h1⟩
      · exact g2 s hs
    · show (b.take 4 ++ es.flatten) ++ statusBytes ss = _
      rw [h3, g3, List.take_add, List.take_add]

/-- **C88 is false**: no configuration is too old. Whatever the configuration was and whatever the enclosure has now, as long as it has not become
smaller (in bytes of its status page), the page is decoded without an exception, and the elements are shown as those of the old configuration: the bytes of
the new elements are dealt out to the old types in order. -/
theorem C88_stale (L : BufLib) (g : Nat) (es : List Bytes) (ts : List Spec.Ses.ElementType) (flags : UInt8) (generation : Nat) (ss : List Spec.Ses.TypeStatus)
    (rest rest' : Bytes) (hc : Spec.Ses.IsConfiguration g es ts) (hs : L.sg = true → Spec.Ses.Small es ts)
    (hg : generation < 2 ^ 32) (hp : (Spec.Ses.enclosureStatus flags generation ss).length < 4 + 2 ^ 16)
    (hneed : need ts ≤ (statusBytes ss).length) :
    ∃ conf x old, configuration L (Spec.Ses.configuration g es ts ++ rest) = .ok conf ∧
      enclosureStatus L conf (Spec.Ses.enclosureStatus flags generation ss ++ rest') = .ok x ∧
      old.map (·.type) = ts ∧ (∀ s ∈ old, s.Ok) ∧ statusBytes old = (statusBytes ss).take (need ts) ∧ x.descriptors = rightStatus L old := by
  obtain ⟨old, h1, h2, h3⟩ := taken ts (statusBytes ss) hneed
  refine ⟨_, ⟨statusAttrs L flags generation ((Spec.Ses.enclosureStatus flags generation ss).length - 4), rightStatus L old⟩, old,
    C46_configuration L g es ts rest hc hs, ?_, h1, h2, h3, rfl⟩
  rw [status_decode L _ flags generation ss rest' hg hp]
  have hb : statusBytes ss ++ rest' = statusBytes old ++ ((statusBytes ss).drop (need ts) ++ rest') := by
    rw [h3, ← List.append_assoc, List.take_append_drop]
  have hh : ts.map (Spec.Ses.typeNumbers L.sg) = old.map (Spec.Ses.typeNumbers L.sg ∘ fun s : Spec.Ses.TypeStatus => s.type) := by
    rw [← h1, List.map_map]
  rw [hb]
  simp only [hh]
  unfold statusBytes
  rw [unpackEach_encode (statusDescriptor L) (Spec.Ses.typeNumbers L.sg ∘ fun s : Spec.Ses.TypeStatus => s.type)
    (fun s => s.overall ++ s.elements.flatten) _ old
    (fun s hm q => statusDescriptor_eq L s q (h2 s hm) (fun h => (hs h).possible s.type (by rw [← h1]; exact List.mem_map.2 ⟨s, hm, rfl⟩)))]
  rfl

/-- **C88 is false**: an enclosure with a temperature sensor and then two fans, which got a second sensor since the configuration was read. The
page is decoded without an exception; the new sensor's element is shown as a fan's overall status, and the fans' as those of other fans. -/
theorem C88_false (L : BufLib) :
    let sensor (n : UInt8) : Spec.Ses.ElementType := ⟨0x04, n, 0, []⟩
    let fan : Spec.Ses.ElementType := ⟨0x03, 2, 0, []⟩
    let now : List Spec.Ses.TypeStatus := [⟨sensor 2, [1, 0, 0, 0], [[1, 0, 45, 0], [1, 0, 46, 0]]⟩, ⟨fan, [2, 0, 0, 0], [[1, 0, 0, 1], [2, 0, 0, 0x40]]⟩]
    Spec.Ses.IsConfiguration 1 [exampleEnclosure 2] [sensor 1, fan] ∧ (∀ s ∈ now, s.Ok) ∧
    ∃ conf x, configuration L (Spec.Ses.configuration 1 [exampleEnclosure 2] [sensor 1, fan]) = .ok conf ∧
      enclosureStatus L conf (Spec.Ses.enclosureStatus 0 2 now) = .ok x ∧
      x.descriptors.map (fun d => d.individual.map fun e => (e.cls, get e.attrs "element_status_code")) =
        [[("TempSensorStatusElement", 1)], [("CoolingStatusElement", 2), ("CoolingStatusElement", 1)]] ∧
      (rightStatus L now).map (fun d => d.individual.map fun e => (e.cls, get e.attrs "element_status_code")) =
        [[("TempSensorStatusElement", 1), ("TempSensorStatusElement", 1)], [("CoolingStatusElement", 1), ("CoolingStatusElement", 2)]] := by
  intro sensor fan now
  have hc : Spec.Ses.IsConfiguration 1 [exampleEnclosure 2] [sensor 1, fan] :=
    ⟨by decide, by decide, by decide, by decide, by decide, by decide, by decide⟩
  have hs : Spec.Ses.Small [exampleEnclosure 2] [sensor 1, fan] := ⟨by decide, by decide, by decide, by decide⟩
  refine ⟨hc, ?_, ?_⟩
  · intro s hm
    simp only [now, List.mem_cons, List.not_mem_nil, or_false] at hm
    rcases hm with rfl | rfl <;> exact ⟨by decide, by decide, by decide⟩
  · obtain ⟨conf, h1⟩ : ∃ conf, configuration L (Spec.Ses.configuration 1 [exampleEnclosure 2] [sensor 1, fan] ++ []) = .ok conf :=
      ⟨_, C46_configuration L 1 _ _ [] hc (fun _ => hs)⟩
    have h1' := h1
    rw [C46_configuration L 1 _ _ [] hc (fun _ => hs)] at h1'
    simp only [Except.ok.injEq] at h1'
    let old : List Spec.Ses.TypeStatus := [⟨sensor 1, [1, 0, 0, 0], [[1, 0, 45, 0]]⟩, ⟨fan, [1, 0, 46, 0], [[2, 0, 0, 0], [1, 0, 0, 1]]⟩]
    have hok : ∀ s ∈ old, s.Ok := by
      intro s hm
      simp only [old, List.mem_cons, List.not_mem_nil, or_false] at hm
      rcases hm with rfl | rfl <;> exact ⟨by decide, by decide, by decide⟩
    have hd := status_decode L conf 0 2 now [] (by decide) (by decide)
    have hb : statusBytes now ++ [] = old.flatMap (fun s => s.overall ++ s.elements.flatten) ++ [2, 0, 0, 0x40] := rfl
    have hh : conf.headers = old.map (Spec.Ses.typeNumbers L.sg ∘ fun s : Spec.Ses.TypeStatus => s.type) := by rw [← h1']; rfl
    rw [hb, hh, unpackEach_encode (statusDescriptor L) (Spec.Ses.typeNumbers L.sg ∘ fun s : Spec.Ses.TypeStatus => s.type)
      (fun s => s.overall ++ s.elements.flatten) _ old
      (fun s hm q => statusDescriptor_eq L s q (hok s hm) (fun _ => hs.possible s.type (by
        simp only [old, List.mem_cons, List.not_mem_nil, or_false] at hm
        rcases hm with rfl | rfl <;> simp [old])))] at hd
    rw [List.append_nil] at h1 hd
    exact ⟨conf, _, h1, hd, rfl, rfl⟩

/-- The hypotheses of `C88_partial` with an enclosure that has changed, and `need` of the old configuration. -/
example : Spec.Ses.IsConfiguration 7 [exampleEnclosure 2, exampleEnclosure 1] exampleTypes ∧ (∀ s ∈ exampleStatus.reverse, s.Ok) ∧
    ((7 : Nat) = 8 → exampleTypes = exampleStatus.reverse.map (·.type)) ∧ need exampleTypes ≤ (statusBytes exampleStatus.reverse).length := by
  refine ⟨example_configuration.1, ?_, by decide, by decide⟩
  intro s hs
  simp only [exampleStatus, List.reverse_cons, List.reverse_nil, List.nil_append, List.cons_append, List.mem_cons, List.not_mem_nil, or_false] at hs
  rcases hs with rfl | rfl | rfl <;> exact ⟨by decide, by decide, by decide⟩

end Verif.Parse.Ses
