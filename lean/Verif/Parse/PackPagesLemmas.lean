import Verif.Parse.PackPages
import Verif.Parse.PackLemmas
import Verif.Parse.DesignatorLemmas
import Verif.Spec.PackPages
/-! # Lemmas for packing designators and pages -/
set_option linter.unusedSimpArgs false

namespace Verif.Parse
open Verif

/-! ## Joined references -/

theorem joinHigh_eq (ps : List (Nat × Nat)) (acc : Nat) :
    joinHigh acc ps = acc * 2 ^ (ps.map Prod.snd).sum + joinLow ps.reverse := by
  have low : ∀ (qs : List (Nat × Nat)) (v w : Nat), joinLow (qs ++ [(v, w)]) = joinLow qs + 2 ^ (qs.map Prod.snd).sum * v := by
    intro qs v w
    induction qs with
    | nil => simp [joinLow]
    | cons q qs ih =>
      obtain ⟨a, b⟩ := q
      simp only [List.cons_append, joinLow, ih, List.map_cons, List.sum_cons, Nat.pow_add, Nat.mul_add, Nat.mul_assoc, Nat.add_assoc]
  induction ps generalizing acc with
  | nil => simp [joinHigh, joinLow]
  | cons p ps ih =>
    obtain ⟨v, w⟩ := p
    simp only [joinHigh, ih, List.reverse_cons, low, List.map_cons, List.sum_cons, List.map_reverse, List.sum_reverse, Nat.pow_add, Nat.add_mul,
      Nat.mul_assoc]
    rw [Nat.mul_comm v]
    omega

/-- What a part holds, and its width. -/
def partOf (f : String × Ref × Int) : Nat × Nat := (f.2.2.toNat, f.2.1.width)

theorem joinLow_split (rs : List Ref) (v : Nat) (h : v < 2 ^ refsWidth rs) : joinLow ((splitLow rs v).map partOf) = v := by
  induction rs generalizing v with
  | nil => simp only [refsWidth, Nat.pow_zero] at h; simp [splitLow, joinLow]; omega
  | cons r rs ih =>
    simp only [refsWidth, Nat.pow_add] at h
    simp only [splitLow, List.map_cons, partOf, joinLow, Int.toNat_natCast]
    rw [ih _ (Nat.div_lt_of_lt_mul h)]
    exact Nat.mod_add_div _ _

theorem refsWidth_append (a b : List Ref) : refsWidth (a ++ b) = refsWidth a + refsWidth b := by
  induction a with
  | nil => simp [refsWidth]
  | cons r rs ih => simp only [List.cons_append, refsWidth, ih]; omega

theorem refsWidth_reverse (rs : List Ref) : refsWidth rs.reverse = refsWidth rs := by
  induction rs with
  | nil => rfl
  | cons r rs ih => simp only [List.reverse_cons, refsWidth_append, ih, refsWidth]; omega

/-- Cutting a number into parts and joining them gives the number, whichever way the library does it. -/
theorem join_split (L : BufLib) (rs : List Ref) (v : Nat) (h : v < 2 ^ refsWidth rs) :
    joinParts L ((splitParts L rs v).map partOf) = v := by
  cases hL : L.lowFirst with
  | true => simp only [joinParts, splitParts, hL, if_true]; exact joinLow_split rs v h
  | false =>
    simp only [joinParts, splitParts, hL, Bool.false_eq_true, if_false, joinHigh_eq, Nat.zero_mul, Nat.zero_add]
    rw [← List.map_reverse, List.reverse_reverse]
    exact joinLow_split _ v (by rwa [refsWidth_reverse])

theorem splitLow_refs (rs : List Ref) (v : Nat) : (splitLow rs v).map (fun f => f.2.1) = rs := by
  induction rs generalizing v with
  | nil => rfl
  | cons r rs ih => simp [splitLow, ih]

theorem splitParts_refs (L : BufLib) (rs : List Ref) (v : Nat) : (splitParts L rs v).map (fun f => f.2.1) = rs := by
  unfold splitParts
  split
  · exact splitLow_refs rs v
  · rw [List.map_reverse, splitLow_refs, List.reverse_reverse]

theorem splitLow_fits (rs : List Ref) (v : Nat) : Fits (splitLow rs v) := by
  induction rs generalizing v with
  | nil => simp [Fits, splitLow]
  | cons r rs ih =>
    intro f hf
    simp only [splitLow, List.mem_cons] at hf
    rcases hf with rfl | hf
    · refine ⟨Int.natCast_nonneg _, ?_⟩
      show ((v % 2 ^ r.width : Nat) : Int) < 2 ^ r.width
      have := Nat.mod_lt v (Nat.two_pow_pos r.width)
      exact_mod_cast this
    · exact ih _ f hf

theorem splitParts_fits (L : BufLib) (rs : List Ref) (v : Nat) : Fits (splitParts L rs v) := by
  unfold splitParts
  split
  · exact splitLow_fits rs v
  · intro f hf
    exact splitLow_fits _ v f (List.mem_reverse.1 hf)

theorem readParts_reads (ps : List (String × Ref × Int)) (buf : Bytes) (h : ∀ f ∈ ps, f.2.1.read buf = .ok f.2.2.toNat) :
    readParts (ps.map fun f => f.2.1) buf = .ok (ps.map partOf) := by
  induction ps with
  | nil => rfl
  | cons f fs ih =>
    simp only [List.map_cons, readParts, h f (by simp), ih (fun g hg => h g (by simp [hg])), bind, Except.bind]
    rfl

/-! ## Objects whose attributes are given by functions -/

theorem lookup_map (num : String → Int) (l : List String) (n : String) (h : n ∈ l) : (l.map fun n => (n, num n)).lookup n = some (num n) := by
  induction l with
  | nil => cases h
  | cons a l ih =>
    by_cases ha : n = a
    · subst ha; simp [List.lookup]
    · have : (n == a) = false := by simpa using ha
      simp only [List.map_cons, List.lookup, this]
      exact ih ((List.mem_cons.1 h).resolve_left ha)

theorem fieldValues_eq (num : String → Int) (env : List (String × Int)) (fs : List UField) (h : ∀ f ∈ fs, env.lookup f.name = some (num f.name)) :
    fieldValues env fs = .ok (fs.map fun f => (f.name, f.ref, num f.name)) := by
  induction fs with
  | nil => rfl
  | cons f fs ih =>
    simp only [fieldValues, fieldOf, h f (by simp), ih (fun g hg => h g (by simp [hg])), bind, Except.bind, List.map_cons]

/-- The parts of all joined fields. -/
def catParts (L : BufLib) (num : String → Int) (cs : List (String × List Ref)) : List (String × Ref × Int) :=
  cs.flatMap fun c => splitParts L c.2 (num c.1).toNat

theorem catValues_eq (L : BufLib) (Lb : Lib) (num : String → Int) (env : List (String × Int)) (cs : List (String × List Ref))
    (h : ∀ c ∈ cs, env.lookup c.1 = some (num c.1) ∧ 0 ≤ num c.1 ∧ num c.1 < 2 ^ refsWidth c.2) :
    catValues L Lb env cs = .ok (catParts L num cs) := by
  induction cs with
  | nil => rfl
  | cons c cs ih =>
    obtain ⟨n, rs⟩ := c
    obtain ⟨h1, h2, h3⟩ := h (n, rs) (by simp)
    simp only at h1 h2 h3
    simp only [catValues, fieldOf, h1, Lb.enc_int h2 h3, ih (fun g hg => h g (by simp [hg])), bind, Except.bind, catParts, List.flatMap_cons]

theorem catParts_refs (L : BufLib) (num : String → Int) (cs : List (String × List Ref)) :
    (catParts L num cs).map (fun f => f.2.1) = cs.flatMap (·.2) := by
  induction cs with
  | nil => rfl
  | cons c cs ih =>
    simp only [catParts, List.flatMap_cons, List.map_append, splitParts_refs] at ih ⊢
    rw [ih]

theorem catParts_fits (L : BufLib) (num : String → Int) (cs : List (String × List Ref)) : Fits (catParts L num cs) := by
  intro f hf
  obtain ⟨c, _, hf⟩ := List.mem_flatMap.1 hf
  exact splitParts_fits L _ _ f hf

/-- Fields read as non-negative numbers. -/
def UField.isU : UField → Bool
  | .u _ _ => true
  | .i _ (.bits _ _ _) => true
  | .i _ (.bytes _ _) => false

theorem unpackFields_num (sg : Bool) (num : String → Int) (fs : List UField) (buf : Bytes) (hu : ∀ f ∈ fs, f.isU = true)
    (h : ∀ f ∈ fs, 0 ≤ num f.name ∧ f.ref.read buf = .ok (num f.name).toNat) :
    unpackFields sg fs buf = .ok (fs.map fun f => (f.name, num f.name)) := by
  induction fs with
  | nil => rfl
  | cons f fs ih =>
    obtain ⟨h0, h1⟩ := h f (by simp)
    have hf := hu f (by simp)
    cases f with
    | i n r =>
      cases r with
      | bytes lo hi => cases hf
      | bits i lo hi =>
        simp only [UField.ref, UField.name] at h0 h1
        simp only [unpackFields, UField.value, UField.name, h1, intValue, ih (fun g hg => hu g (by simp [hg])) (fun g hg => h g (by simp [hg])), bind,
          Except.bind, Int.toNat_of_nonneg h0, List.map_cons]
    | u n r =>
      simp only [UField.ref, UField.name] at h0 h1
      simp only [unpackFields, UField.value, UField.name, h1, ih (fun g hg => hu g (by simp [hg])) (fun g hg => h g (by simp [hg])), bind, Except.bind,
        Int.toNat_of_nonneg h0, List.map_cons]

theorem readCats_num (L : BufLib) (num : String → Int) (cs : List (String × List Ref)) (buf : Bytes)
    (hc : ∀ c ∈ cs, 0 ≤ num c.1 ∧ num c.1 < 2 ^ refsWidth c.2) (h : ∀ f ∈ catParts L num cs, f.2.1.read buf = .ok f.2.2.toNat) :
    readCats L cs buf = .ok (cs.map fun c => (c.1, num c.1)) := by
  induction cs with
  | nil => rfl
  | cons c cs ih =>
    obtain ⟨n, rs⟩ := c
    obtain ⟨h0, h1⟩ := hc (n, rs) (by simp)
    simp only at h0 h1
    simp only [catParts, List.flatMap_cons, List.mem_append] at h
    have hr := readParts_reads (splitParts L rs (num n).toNat) buf fun f hf => h f (.inl hf)
    rw [splitParts_refs] at hr
    have hlt : (num n).toNat < 2 ^ refsWidth rs := by
      have : ((num n).toNat : Int) < ((2 ^ refsWidth rs : Nat) : Int) := by rw [Int.toNat_of_nonneg h0, Int.natCast_pow]; exact h1
      exact Int.ofNat_lt.1 this
    simp only [readCats, readCat, hr, join_split L rs _ hlt, ih (fun g hg => hc g (by simp [hg])) (fun f hf => h f (.inr hf)), bind, Except.bind,
      Int.toNat_of_nonneg h0, List.map_cons]

/-- Integer and joined fields at disjoint places, packed and read back with more bytes following. -/
theorem packed_reads (L : BufLib) (Lb : Lib) (num : String → Int) (fs : List UField) (cs : List (String × List Ref))
    (hw : ∀ r ∈ fs.map UField.ref ++ cs.flatMap (·.2), r.WellFormed)
    (hd : (fs.map UField.ref ++ cs.flatMap (·.2)).Pairwise fun r s => stopBit r ≤ startBit s ∨ stopBit s ≤ startBit r)
    (hf : ∀ f ∈ fs, 0 ≤ num f.name ∧ num f.name < 2 ^ f.ref.width)
    (hc : ∀ c ∈ cs, 0 ≤ num c.1 ∧ num c.1 < 2 ^ refsWidth c.2) :
    ∃ out, packAt Lb ((fs.map fun f => (f.name, f.ref, num f.name)) ++ catParts L num cs) [] = .ok out ∧
      (∀ rest, (∀ f ∈ fs, f.ref.read (out ++ rest) = .ok (num f.name).toNat) ∧ readCats L cs (out ++ rest) = .ok (cs.map fun c => (c.1, num c.1))) ∧
      (∀ n, (∀ r ∈ fs.map UField.ref ++ cs.flatMap (·.2), r.stop ≤ n) → (∃ r ∈ fs.map UField.ref ++ cs.flatMap (·.2), r.stop = n) →
        out.length = n) := by
  have hrefs : ((fs.map fun f => (f.name, f.ref, num f.name)) ++ catParts L num cs).map (fun f => f.2.1) = fs.map UField.ref ++ cs.flatMap (·.2) := by
    rw [List.map_append, List.map_map, catParts_refs]
    rfl
  have hfit : Fits ((fs.map fun f => (f.name, f.ref, num f.name)) ++ catParts L num cs) := by
    intro f hm
    rcases List.mem_append.1 hm with hm | hm
    · obtain ⟨g, hg, rfl⟩ := List.mem_map.1 hm
      exact hf g hg
    · exact catParts_fits L num cs f hm
  obtain ⟨out, ho⟩ := packAt_ok Lb _ [] hfit
  have hw' : ∀ f ∈ (fs.map fun f => (f.name, f.ref, num f.name)) ++ catParts L num cs, f.2.1.WellFormed := by
    intro f hm
    apply hw
    rw [← hrefs]
    exact List.mem_map.2 ⟨f, hm, rfl⟩
  have hd' := pairwise_disjoint _ _ hrefs hw hd
  refine ⟨out, ho, fun rest => ?_, ?_⟩
  · have hr := (C48_buffer Lb _ out rest hw' hd' ho).1
    refine ⟨fun f hm => ?_, readCats_num L num cs _ hc fun f hm => ?_⟩
    · exact hr (f.name, f.ref, num f.name) (List.mem_append_left _ (List.mem_map.2 ⟨f, hm, rfl⟩)) (hf f hm).1 (hf f hm).2
    · exact hr f (List.mem_append_right _ hm) (catParts_fits L num cs f hm).1 (catParts_fits L num cs f hm).2
  · intro n h1 h2
    refine packed_length Lb _ out n hw' hd' ho ?_ ?_
    · intro f hm
      apply h1
      rw [← hrefs]
      exact List.mem_map.2 ⟨f, hm, rfl⟩
    · obtain ⟨r, hr, hn⟩ := h2
      rw [← hrefs] at hr
      obtain ⟨f, hm, rfl⟩ := List.mem_map.1 hr
      exact ⟨f, hm, hn⟩

/-! ## Which class is chosen -/

theorem header_get (num : String → Int) : get (designatorHeader.map fun f => (f.name, num f.name)) "designator_type" = num "designator_type" ∧
    get (designatorHeader.map fun f => (f.name, num f.name)) "designator_length" = num "designator_length" ∧
    get ((designatorHeader ++ [naaField]).map fun f => (f.name, num f.name)) "naa" = num "naa" := by
  refine ⟨?_, ?_, ?_⟩ <;> simp [get, designatorHeader, naaField, UField.name, List.lookup]

theorem header_isU : ∀ f ∈ designatorHeader ++ [naaField], f.isU = true := by decide

/-- The class found for a header that the standard gives to class `c`. -/
theorem determine_num (L : BufLib) (num : String → Int) (dat : String → Bytes) (c : DesignatorClass) (buf : Bytes) (hc : c ∈ allDesignators)
    (hs : Spec.describes c.name (num "designator_type") (num "designator_length") (num "naa") (blobLength dat c))
    (h : ∀ f ∈ designatorHeader ++ c.ints, 0 ≤ num f.name ∧ f.ref.read buf = .ok (num f.name).toNat) : determineDesignator L buf = .ok c := by
  obtain ⟨g1, g2, g3⟩ := header_get num
  have hh := unpackFields_num L.sg num designatorHeader buf (fun f hf => header_isU f (List.mem_append_left _ hf))
    (fun f hf => h f (List.mem_append_left _ hf))
  have hn : naaField ∈ c.ints → unpackFields L.sg (designatorHeader ++ [naaField]) buf =
      .ok ((designatorHeader ++ [naaField]).map fun f => (f.name, num f.name)) := fun hm =>
    unpackFields_num L.sg num _ buf header_isU fun f hf => by
      rcases List.mem_append.1 hf with hf | hf
      · exact h f (List.mem_append_left _ hf)
      · exact h f (List.mem_append_right _ (by rw [List.mem_singleton.1 hf]; exact hm))
  unfold determineDesignator
  simp only [allDesignators, List.mem_cons, List.not_mem_nil, or_false] at hc
  rcases hc with rfl | rfl | rfl | rfl | rfl | rfl | rfl | rfl | rfl | rfl | rfl | rfl | rfl | rfl | rfl
  · obtain ⟨ht, -⟩ := hs
    simp only [hh, bind, Except.bind, g1, g2, ht]
    rfl
  · exact hs.elim
  · obtain ⟨ht, hl⟩ := hs
    simp only [hh, bind, Except.bind, g1, g2, ht, hl]
    rfl
  · obtain ⟨ht, hl⟩ := hs
    simp only [hh, bind, Except.bind, g1, g2, ht, hl]
    rfl
  · obtain ⟨ht, hl⟩ := hs
    simp only [hh, bind, Except.bind, g1, g2, ht, hl]
    rfl
  · obtain ⟨ht, hl, hna⟩ := hs
    simp only [hh, hn (by simp [naaExtended]), bind, Except.bind, g1, g2, g3, ht, hl, hna]
    rfl
  · obtain ⟨ht, hl, hna⟩ := hs
    simp only [hh, hn (by simp [naaLocal]), bind, Except.bind, g1, g2, g3, ht, hl, hna]
    rfl
  · obtain ⟨ht, hl, hna⟩ := hs
    simp only [hh, hn (by simp [naaRegistered]), bind, Except.bind, g1, g2, g3, ht, hl, hna]
    rfl
  · obtain ⟨ht, hl, hna⟩ := hs
    simp only [hh, hn (by simp [naaRegisteredExtended]), bind, Except.bind, g1, g2, g3, ht, hl, hna]
    rfl
  · obtain ⟨ht, hl⟩ := hs
    simp only [hh, bind, Except.bind, g1, g2, ht, hl]
    rfl
  · obtain ⟨ht, hl⟩ := hs
    simp only [hh, bind, Except.bind, g1, g2, ht, hl]
    rfl
  · obtain ⟨ht, hl⟩ := hs
    simp only [hh, bind, Except.bind, g1, g2, ht, hl]
    rfl
  · obtain ⟨ht, hl⟩ := hs
    simp only [hh, bind, Except.bind, g1, g2, ht, hl]
    rfl
  · obtain ⟨ht, hl⟩ := hs
    simp only [hh, bind, Except.bind, g1, g2, ht, hl]
    rfl
  · exact hs.elim

end Verif.Parse
