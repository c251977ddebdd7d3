import Verif.Parse.PackPagesLemmas
/-!
# C76: designators and pages built with the library's classes read back as they were built
-/
set_option linter.unusedSimpArgs false

namespace Verif.Parse
open Verif

def DField.name : DField → String
  | .text n _ _ => n
  | .blob n _ _ => n

/-- The object of class `c` whose numbers are `num` and whose byte strings are `dat`. -/
def make (c : DesignatorClass) (num : String → Int) (dat : String → Bytes) : Designator :=
  { cls := c.name
    attrs := ((designatorHeader ++ c.ints).map fun f => (f.name, num f.name)) ++ c.cats.map fun x => (x.1, num x.1)
    data := c.data.map fun f => (f.name, dat f.name) }

/-- The attributes of `o` are those values; a length that the library computes need not be assigned. -/
structure Holds (c : DesignatorClass) (o : Designator) (num : String → Int) (dat : String → Bytes) : Prop where
  ints : ∀ f ∈ designatorHeader ++ c.ints, f.name ≠ "designator_length" → o.attrs.lookup f.name = some (num f.name)
  length : c.lengthOf = none → o.attrs.lookup "designator_length" = some (num "designator_length")
  cats : ∀ x ∈ c.cats, o.attrs.lookup x.1 = some (num x.1)
  data : ∀ f ∈ c.data, o.data.lookup f.name = some (dat f.name)

/-- Every number fits its field. -/
structure Fit (c : DesignatorClass) (num : String → Int) : Prop where
  ints : ∀ f ∈ designatorHeader ++ c.ints, 0 ≤ num f.name ∧ num f.name < 2 ^ f.ref.width
  cats : ∀ x ∈ c.cats, 0 ≤ num x.1 ∧ num x.1 < 2 ^ refsWidth x.2

/-! ## The classes -/

def placesOf (c : DesignatorClass) : List Ref := (designatorHeader ++ c.ints).map UField.ref ++ c.cats.flatMap (·.2)

def endOf (c : DesignatorClass) : Nat := max 4 (max (fieldsEnd c.ints) (catsEnd c.cats))

theorem classes_ok : ∀ c ∈ allDesignators, (∀ r ∈ placesOf c, r.WellFormed) ∧
    (placesOf c).Pairwise (fun r s => stopBit r ≤ startBit s ∨ stopBit s ≤ startBit r) ∧ (∀ f ∈ designatorHeader ++ c.ints, f.isU = true) ∧
    (∀ r ∈ placesOf c, r.stop ≤ endOf c) ∧ (∃ r ∈ placesOf c, r.stop = endOf c) ∧
    (∀ x ∈ c.cats, x.1 ≠ "designator_length") := by decide

/-- The byte string of a class that has one, which follows the four bytes of the header. -/
def blobOf (dat : String → Bytes) (c : DesignatorClass) : Bytes :=
  match c.data with
  | [.blob n _ _] => dat n
  | _ => []

theorem described_shape (num : String → Int) (dat : String → Bytes) (c : DesignatorClass) (hc : c ∈ allDesignators)
    (hs : Spec.describes c.name (num "designator_type") (num "designator_length") (num "naa") (blobLength dat c)) :
    num "designator_length" = ((endOf c - 4 + (blobOf dat c).length : Nat) : Int) ∧
    ((c.data = [] ∧ c.lengthOf = none) ∨ ∃ n, c.data = [.blob n 4 none] ∧ c.lengthOf = some n ∧ endOf c = 4) := by
  simp only [allDesignators, List.mem_cons, List.not_mem_nil, or_false] at hc
  rcases hc with rfl | rfl | rfl | rfl | rfl | rfl | rfl | rfl | rfl | rfl | rfl | rfl | rfl | rfl | rfl
  · exact ⟨by rw [hs.2]; simp [blobLength, blobOf, vendorSpecific, endOf, fieldsEnd, catsEnd], .inr ⟨_, rfl, rfl, rfl⟩⟩
  · exact hs.elim
  · exact ⟨hs.2, .inl ⟨rfl, rfl⟩⟩
  · exact ⟨hs.2, .inl ⟨rfl, rfl⟩⟩
  · exact ⟨hs.2, .inl ⟨rfl, rfl⟩⟩
  · exact ⟨hs.2.1, .inl ⟨rfl, rfl⟩⟩
  · exact ⟨hs.2.1, .inl ⟨rfl, rfl⟩⟩
  · exact ⟨hs.2.1, .inl ⟨rfl, rfl⟩⟩
  · exact ⟨hs.2.1, .inl ⟨rfl, rfl⟩⟩
  · exact ⟨hs.2, .inl ⟨rfl, rfl⟩⟩
  · exact ⟨hs.2, .inl ⟨rfl, rfl⟩⟩
  · exact ⟨hs.2, .inl ⟨rfl, rfl⟩⟩
  · refine ⟨?_, .inr ⟨_, rfl, rfl, rfl⟩⟩
    obtain ⟨-, h1, h2⟩ := hs
    rw [h1]
    simp only [blobLength, md5] at h2
    simp [blobOf, md5, endOf, fieldsEnd, catsEnd, h2]
  · exact ⟨by rw [hs.2]; simp [blobLength, blobOf, scsiName, endOf, fieldsEnd, catsEnd], .inr ⟨_, rfl, rfl, rfl⟩⟩
  · exact hs.elim

/-- What packing an object of a described class writes: numbers at their places, then the byte string. -/
theorem packDesignator_eq (L : BufLib) (Lb : Lib) (blob : Nat → Bytes → Py Bytes) (c : DesignatorClass) (o : Designator) (num : String → Int)
    (dat : String → Bytes) (hc : c ∈ allDesignators) (ho : Holds c o num dat) (hf : Fit c num)
    (hs : Spec.describes c.name (num "designator_type") (num "designator_length") (num "naa") (blobLength dat c)) :
    ∃ buf, packDesignator L Lb blob c o = .ok (buf ++ blobOf dat c) ∧ buf.length = endOf c ∧
      ∀ rest, (∀ f ∈ designatorHeader ++ c.ints, f.ref.read (buf ++ rest) = .ok (num f.name).toNat) ∧
        readCats L c.cats (buf ++ rest) = .ok (c.cats.map fun x => (x.1, num x.1)) := by
  obtain ⟨hw, hd, -, he1, he2, hcn⟩ := classes_ok c hc
  obtain ⟨hlen, hshape⟩ := described_shape num dat c hc hs
  have hlb : lengthBefore c o = .ok (num "designator_length") := by
    unfold lengthBefore
    rcases hshape with ⟨-, h⟩ | ⟨n, h1, h2, h3⟩
    · simp only [h, fieldOf, ho.length h]
    · have := ho.data (.blob n 4 none) (by simp [h1])
      simp only [DField.name] at this
      simp only [h2, this, hlen, h3, blobOf, h1]
      simp
  obtain ⟨buf, hb, hr, hl⟩ := packed_reads L Lb num (designatorHeader ++ c.ints) c.cats hw hd hf.ints hf.cats
  have hbl := hl _ he1 he2
  have hvals : ∀ n v, n ≠ "designator_length" → o.attrs.lookup n = some v →
      List.lookup n (("designator_length", num "designator_length") :: o.attrs) = some v := by
    intro n v hn h
    have : (n == "designator_length") = false := by simpa using hn
    simp only [List.lookup, this, h]
  have h1 : fieldValues (("designator_length", num "designator_length") :: o.attrs) (designatorHeader ++ c.ints) =
      .ok ((designatorHeader ++ c.ints).map fun f => (f.name, f.ref, num f.name)) := by
    apply fieldValues_eq
    intro f hm
    by_cases hn : f.name = "designator_length"
    · rw [hn]; simp [List.lookup]
    · exact hvals _ _ hn (ho.ints f hm hn)
  have h2 : catValues L Lb (("designator_length", num "designator_length") :: o.attrs) c.cats = .ok (catParts L num c.cats) := by
    apply catValues_eq
    intro x hx
    exact ⟨hvals _ _ (hcn x hx) (ho.cats x hx), hf.cats x hx⟩
  refine ⟨buf, ?_, hbl, hr⟩
  simp only [packDesignator, hlb, h1, h2, hb, bind, Except.bind]
  rcases hshape with ⟨h, -⟩ | ⟨n, h, h3, h4⟩
  · simp [h, packData, blobOf]
  · have hdat := ho.data (.blob n 4 none) (by simp [h])
    simp only [DField.name] at hdat
    have hbo : blobOf dat c = dat n := by simp [blobOf, h]
    rw [hbo, h4] at hlen
    have hst : 4 ≤ (4 + num "designator_length").toNat ∧ (dat n).length = (4 + num "designator_length").toNat - 4 := by rw [hlen]; omega
    rw [h4] at hbl
    simp only [h, packData, DField.pack, bytesOf, hdat, bind, Except.bind, Option.getD_none, packBlob, if_pos hst, hbo]
    rw [← hbl, putBytes_end]

/-- **C76** (designators). -/
theorem C76_designator (L : BufLib) (Lb : Lib) (blob : Nat → Bytes → Py Bytes) (c : DesignatorClass) (o : Designator) (num : String → Int)
    (dat : String → Bytes) (hc : c ∈ allDesignators) (ho : Holds c o num dat) (hf : Fit c num)
    (hs : Spec.describes c.name (num "designator_type") (num "designator_length") (num "naa") (blobLength dat c)) :
    ∃ out, packDesignator L Lb blob c o = .ok out ∧ out.length = 4 + (num "designator_length").toNat ∧
      ∀ rest, designator L (out ++ rest) = .ok (make c num dat, out.length) := by
  obtain ⟨buf, hp, hl, hr⟩ := packDesignator_eq L Lb blob c o num dat hc ho hf hs
  obtain ⟨hlen, hshape⟩ := described_shape num dat c hc hs
  have h4 : 4 ≤ endOf c := Nat.le_max_left _ _
  refine ⟨_, hp, ?_, fun rest => ?_⟩
  · rw [List.length_append, hl, hlen]; omega
  obtain ⟨-, -, hu, -⟩ := classes_ok c hc
  obtain ⟨hr1, hr2⟩ := hr (blobOf dat c ++ rest)
  rw [← List.append_assoc] at hr1 hr2
  have hread : ∀ f ∈ designatorHeader ++ c.ints, 0 ≤ num f.name ∧ f.ref.read (buf ++ blobOf dat c ++ rest) = .ok (num f.name).toNat :=
    fun f hm => ⟨(hf.ints f hm).1, hr1 f hm⟩
  unfold designator
  rw [determine_num L num dat c _ hc hs hread]
  have e1 := unpackFields_num L.sg num designatorHeader _ (fun f hm => hu f (List.mem_append_left _ hm)) (fun f hm => hread f (List.mem_append_left _ hm))
  have e2 := unpackFields_num L.sg num c.ints _ (fun f hm => hu f (List.mem_append_right _ hm)) (fun f hm => hread f (List.mem_append_right _ hm))
  have hstop : 4 + (num "designator_length").toNat = endOf c + (blobOf dat c).length := by rw [hlen]; omega
  simp only [bind, Except.bind, unpackDesignator, e1, e2, hr2, (header_get num).2.1, hstop, List.length_append, hl]
  rcases hshape with ⟨h, -⟩ | ⟨n, h, h3, h5⟩
  · simp only [h, unpackData, make, List.map_append, List.map_nil, dataEnd, blobOf, List.length_nil, Nat.add_zero, endOf, Nat.max_zero]
  · have hb4 : buf.length = 4 := by rw [hl, h5]
    have hbo : blobOf dat c = dat n := by simp [blobOf, h]
    have hsl : slice (buf ++ blobOf dat c ++ rest) 4 (4 + (dat n).length) = dat n := by
      rw [hbo]
      rw [List.append_assoc, ← hb4]
      simp [slice, List.take_append, List.drop_append]
    have hm : max 4 (max (fieldsEnd c.ints) (max (catsEnd c.cats) (4 + (dat n).length))) = 4 + (dat n).length := by
      have : max 4 (max (fieldsEnd c.ints) (catsEnd c.cats)) = 4 := h5
      omega
    simp only [h, h5, unpackData, DField.unpack, Option.getD_none, hbo, bind, Except.bind, make, List.map_append, List.map_cons, List.map_nil, DField.name,
      dataEnd, Nat.max_zero, hm]
    rw [hbo] at hsl
    rw [hsl]

/-- What packing writes is a complete designation descriptor of the standard, and the standard reads the values from it. -/
theorem C76_standard (L : BufLib) (Lb : Lib) (blob : Nat → Bytes → Py Bytes) (c : DesignatorClass) (o : Designator) (num : String → Int)
    (dat : String → Bytes) (hc : c ∈ allDesignators) (ho : Holds c o num dat) (hf : Fit c num)
    (hs : Spec.describes c.name (num "designator_type") (num "designator_length") (num "naa") (blobLength dat c)) :
    ∃ out, packDesignator L Lb blob c o = .ok out ∧ Spec.IsDesignator out ∧ Spec.designatorClass out = c.name ∧
      Spec.designatorHeader out = (designatorHeader.map fun f => (f.name, num f.name)) ∧
      (L.lowFirst = true ∨ num "designator_type" ≠ 3 →
        Spec.designatorNumbers out = (c.ints.map fun f => (f.name, num f.name)) ++ c.cats.map (fun x => (x.1, num x.1)) ∧
        Spec.designatorData L.trim out = c.data.map fun f => (f.name, dat f.name)) := by
  obtain ⟨out, hp, hlen, hread⟩ := C76_designator L Lb blob c o num dat hc ho hf hs
  obtain ⟨buf, hp', hbl, hr⟩ := packDesignator_eq L Lb blob c o num dat hc ho hf hs
  rw [hp, Except.ok.injEq] at hp'
  obtain ⟨-, -, hu, -⟩ := classes_ok c hc
  have hr1 := (hr (blobOf dat c)).1
  rw [← hp'] at hr1
  have h4 : 4 ≤ out.length := by omega
  have e1 := unpackFields_num L.sg num designatorHeader out (fun f hm => hu f (List.mem_append_left _ hm))
    (fun f hm => ⟨(hf.ints f (List.mem_append_left _ hm)).1, hr1 f (List.mem_append_left _ hm)⟩)
  rw [designatorHeader_eq L.sg out h4, Except.ok.injEq] at e1
  have ht : ((Spec.designatorType out : Nat) : Int) = num "designator_type" := by
    rw [← header_type, e1]; exact (header_get num).1
  have hl : ((Spec.byteAt out 3 : Nat) : Int) = num "designator_length" := by
    rw [← header_length, e1]; exact (header_get num).2.1
  have hn : naaField ∈ c.ints → ((Spec.naa out : Nat) : Int) = num "naa" := by
    intro hm
    have h5 : 5 ≤ out.length := by
      have h := hr1 naaField (List.mem_append_right _ hm)
      simp only [naaField, UField.ref, Ref.read] at h
      split at h
      · cases h
      · omega
    have e2 := unpackFields_num L.sg num (designatorHeader ++ [naaField]) out header_isU fun f hf' => by
      rcases List.mem_append.1 hf' with hf' | hf'
      · exact ⟨(hf.ints f (List.mem_append_left _ hf')).1, hr1 f (List.mem_append_left _ hf')⟩
      · rw [List.mem_singleton.1 hf']
        exact ⟨(hf.ints _ (List.mem_append_right _ hm)).1, hr1 _ (List.mem_append_right _ hm)⟩
    rw [naaHeader_eq L.sg out h5, Except.ok.injEq] at e2
    rw [← naaHeader_naa, e2]
    exact (header_get num).2.2
  have hfull : out.length = 4 + Spec.byteAt out 3 := by omega
  have hcls : Spec.DesignatorSize out ∧ Spec.designatorClass out = c.name ∧ (num "designator_type" < 9 ∧ num "designator_type" ≠ 1) := by
    unfold Spec.DesignatorSize Spec.designatorClass
    simp only [allDesignators, List.mem_cons, List.not_mem_nil, or_false] at hc
    rcases hc with rfl | rfl | rfl | rfl | rfl | rfl | rfl | rfl | rfl | rfl | rfl | rfl | rfl | rfl | rfl
    · have t : Spec.designatorType out = 0 := by have := hs.1; omega
      simp only [t]; exact ⟨trivial, rfl, by omega⟩
    · exact hs.elim
    · have t : Spec.designatorType out = 2 := by have := hs.1; omega
      have l : Spec.byteAt out 3 = 8 := by have := hs.2; omega
      simp only [t, l]; exact ⟨by simp, rfl, by omega⟩
    · have t : Spec.designatorType out = 2 := by have := hs.1; omega
      have l : Spec.byteAt out 3 = 12 := by have := hs.2; omega
      simp only [t, l]; exact ⟨by simp, rfl, by omega⟩
    · have t : Spec.designatorType out = 2 := by have := hs.1; omega
      have l : Spec.byteAt out 3 = 16 := by have := hs.2; omega
      simp only [t, l]; exact ⟨by simp, rfl, by omega⟩
    · have t : Spec.designatorType out = 3 := by have := hs.1; omega
      have l : Spec.byteAt out 3 = 8 := by have := hs.2.1; omega
      have a : Spec.naa out = 2 := by have := hs.2.2; have := hn (by simp [naaExtended]); omega
      simp only [t, l, a]; exact ⟨by simp, rfl, by omega⟩
    · have t : Spec.designatorType out = 3 := by have := hs.1; omega
      have l : Spec.byteAt out 3 = 8 := by have := hs.2.1; omega
      have a : Spec.naa out = 3 := by have := hs.2.2; have := hn (by simp [naaLocal]); omega
      simp only [t, l, a]; exact ⟨by simp, rfl, by omega⟩
    · have t : Spec.designatorType out = 3 := by have := hs.1; omega
      have l : Spec.byteAt out 3 = 8 := by have := hs.2.1; omega
      have a : Spec.naa out = 5 := by have := hs.2.2; have := hn (by simp [naaRegistered]); omega
      simp only [t, l, a]; exact ⟨by simp, rfl, by omega⟩
    · have t : Spec.designatorType out = 3 := by have := hs.1; omega
      have l : Spec.byteAt out 3 = 16 := by have := hs.2.1; omega
      have a : Spec.naa out = 6 := by have := hs.2.2; have := hn (by simp [naaRegisteredExtended]); omega
      simp only [t, l, a]; exact ⟨by simp, rfl, by omega⟩
    · have t : Spec.designatorType out = 4 := by have := hs.1; omega
      have l : Spec.byteAt out 3 = 4 := by have := hs.2; omega
      simp only [t, l]; exact ⟨trivial, rfl, by omega⟩
    · have t : Spec.designatorType out = 5 := by have := hs.1; omega
      have l : Spec.byteAt out 3 = 4 := by have := hs.2; omega
      simp only [t, l]; exact ⟨trivial, rfl, by omega⟩
    · have t : Spec.designatorType out = 6 := by have := hs.1; omega
      have l : Spec.byteAt out 3 = 4 := by have := hs.2; omega
      simp only [t, l]; exact ⟨trivial, rfl, by omega⟩
    · have t : Spec.designatorType out = 7 := by have := hs.1; omega
      have l : Spec.byteAt out 3 = 16 := by have := hs.2.1; omega
      simp only [t, l]; exact ⟨trivial, rfl, by omega⟩
    · have t : Spec.designatorType out = 8 := by have := hs.1; omega
      simp only [t]; exact ⟨trivial, rfl, by omega⟩
    · exact hs.elim
  obtain ⟨hsize, hname, htype⟩ := hcls
  refine ⟨out, hp, ⟨h4, hfull, hsize⟩, hname, e1, fun hL => ?_⟩
  have hL' : L.lowFirst = true ∨ Spec.designatorType out ≠ 3 := hL.imp id fun h => by omega
  have hd := designator_eq L out ⟨h4, hfull, hsize⟩ ⟨fun h => by omega, fun h => by omega⟩ hL'
  have hm := hread []
  rw [List.append_nil, hd, Except.ok.injEq, Prod.mk.injEq] at hm
  have ha := congrArg Designator.attrs hm.1
  simp only [designatorObject, make, e1, List.map_append, List.append_assoc] at ha
  exact ⟨List.append_cancel_left ha, congrArg Designator.data hm.1⟩

/-! ## The device identification page -/

/-- A class, the object to pack, and the values it holds. -/
structure Item where
  cls : DesignatorClass
  obj : Designator
  num : String → Int
  dat : String → Bytes

structure Item.Good (i : Item) : Prop where
  known : i.cls ∈ allDesignators
  holds : Holds i.cls i.obj i.num i.dat
  fit : Fit i.cls i.num
  described : Spec.describes i.cls.name (i.num "designator_type") (i.num "designator_length") (i.num "naa") (blobLength i.dat i.cls)

theorem packDesignators_eq (L : BufLib) (Lb : Lib) (blob : Nat → Bytes → Py Bytes) (is : List Item) (h : ∀ i ∈ is, i.Good) :
    ∃ bs, packDesignators L Lb blob (is.map fun i => (i.cls, i.obj)) = .ok bs ∧
      bs.length = (is.map fun i => 4 + (i.num "designator_length").toNat).sum ∧
      unpackAll (designator L) bs = .ok (is.map fun i => make i.cls i.num i.dat) := by
  have each : ∃ enc : Item → Bytes, ∀ i ∈ is, packDesignator L Lb blob i.cls i.obj = .ok (enc i) ∧
      (enc i).length = 4 + (i.num "designator_length").toNat ∧ ∀ rest, designator L (enc i ++ rest) = .ok (make i.cls i.num i.dat, (enc i).length) := by
    refine ⟨fun i => match packDesignator L Lb blob i.cls i.obj with | .ok b => b | .error _ => [], fun i hi => ?_⟩
    obtain ⟨out, h1, h2, h3⟩ := C76_designator L Lb blob i.cls i.obj i.num i.dat (h i hi).known (h i hi).holds (h i hi).fit (h i hi).described
    simp only [h1]
    exact ⟨trivial, h2, h3⟩
  obtain ⟨enc, he⟩ := each
  refine ⟨is.flatMap enc, ?_, ?_, ?_⟩
  · clear h
    induction is with
    | nil => rfl
    | cons i is ih =>
      simp only [List.map_cons, packDesignators, (he i (by simp)).1, ih (fun j hj => he j (by simp [hj])), bind, Except.bind, List.flatMap_cons]
  · clear h
    induction is with
    | nil => rfl
    | cons i is ih =>
      simp only [List.flatMap_cons, List.length_append, (he i (by simp)).2.1, ih (fun j hj => he j (by simp [hj])), List.map_cons, List.sum_cons]
  · refine unpackAll_encode (designator L) enc (fun i => make i.cls i.num i.dat) is (fun i hi => ?_) fun i hi => (he i hi).2.2
    intro hnil
    have := (he i hi).2.1
    rw [hnil] at this
    simp at this
    omega

/-- **C76** (device identification page). -/
theorem C76_page (L : BufLib) (Lb : Lib) (blob : Nat → Bytes → Py Bytes) (type qualifier pageCode : Int) (is : List Item) (rest : Bytes)
    (ht : 0 ≤ type ∧ type < 32) (hq : 0 ≤ qualifier ∧ qualifier < 8) (hp : 0 ≤ pageCode ∧ pageCode < 256) (hi : ∀ i ∈ is, i.Good)
    (hn : (is.map fun i => 4 + (i.num "designator_length").toNat).sum < 65536) :
    ∃ out, packDeviceIdentification L Lb blob type qualifier pageCode ((is.map fun i => 4 + (i.num "designator_length").toNat).sum : Nat)
        (is.map fun i => (i.cls, i.obj)) = .ok out ∧
      out.length = 4 + (is.map fun i => 4 + (i.num "designator_length").toNat).sum ∧
      deviceIdentification L (out ++ rest) = .ok
        (⟨[("type", type), ("qualifier", qualifier)],
          [("page_code", pageCode), ("page_length", ((is.map fun i => 4 + (i.num "designator_length").toNat).sum : Nat))]⟩,
         is.map fun i => make i.cls i.num i.dat) := by
  obtain ⟨bs, hb, hl, hu⟩ := packDesignators_eq L Lb blob is hi
  rw [← hl] at hn ⊢
  obtain ⟨h, hh, hhl, hr⟩ := header_roundtrip Lb type qualifier pageCode bs.length 2 (.inl rfl) ht hq hp ⟨by omega, by simp; omega⟩
  have hcond : 4 ≤ (4 + (bs.length : Int)).toNat ∧ bs.length = (4 + (bs.length : Int)).toNat - 4 := by omega
  refine ⟨h ++ bs, ?_, by simp [hhl], ?_⟩
  · simp only [packDeviceIdentification, hh, hb, bind, Except.bind, packBlob, if_pos hcond]
    rw [← hhl, putBytes_end]
  · simp only [deviceIdentification, List.append_assoc, hr L (bs ++ rest), bind, Except.bind]
    have hg : (4 + get [("page_code", pageCode), ("page_length", (bs.length : Int))] "page_length").toNat = h.length + bs.length := by
      simp [get, List.lookup, hhl]; omega
    have hsl : slice (h ++ (bs ++ rest)) 4 (h.length + bs.length) = bs := by
      rw [← hhl]
      simp [slice, List.take_append, List.drop_append]
    rw [hg, hsl, hu]

/-! ## Pages of fixed fields -/

/-- Names of attributes and their values: `vals` holds `num` for every field. -/
theorem packFixed_eq (L : BufLib) (Lb : Lib) (fs : List UField) (cats : List (String × List Ref)) (p : Page) (num : String → Int)
    (hw : ∀ r ∈ (peripheralFields ++ fs).map UField.ref ++ cats.flatMap (·.2), r.WellFormed)
    (hd : ((peripheralFields ++ fs).map UField.ref ++ cats.flatMap (·.2)).Pairwise fun r s => stopBit r ≤ startBit s ∨ stopBit s ≤ startBit r)
    (hu : ∀ f ∈ peripheralFields ++ fs, f.isU = true)
    (hp : ∀ f ∈ peripheralFields, p.peripheral.lookup f.name = some (num f.name)) (ha : ∀ f ∈ fs, p.attrs.lookup f.name = some (num f.name))
    (hx : ∀ x ∈ cats, p.attrs.lookup x.1 = some (num x.1))
    (hf : ∀ f ∈ peripheralFields ++ fs, 0 ≤ num f.name ∧ num f.name < 2 ^ f.ref.width)
    (hc : ∀ x ∈ cats, 0 ≤ num x.1 ∧ num x.1 < 2 ^ refsWidth x.2) :
    ∃ out, packFixed L Lb fs cats p = .ok out ∧
      (∀ rest, fixedPage L fs cats (out ++ rest) = .ok ⟨peripheralFields.map fun f => (f.name, num f.name),
        (fs.map fun f => (f.name, num f.name)) ++ cats.map fun x => (x.1, num x.1)⟩) ∧
      ∀ n, (∀ r ∈ (peripheralFields ++ fs).map UField.ref ++ cats.flatMap (·.2), r.stop ≤ n) →
        (∃ r ∈ (peripheralFields ++ fs).map UField.ref ++ cats.flatMap (·.2), r.stop = n) → out.length = n := by
  obtain ⟨out, ho, hr, hl⟩ := packed_reads L Lb num (peripheralFields ++ fs) cats hw hd hf hc
  refine ⟨out, ?_, fun rest => ?_, hl⟩
  · simp only [packFixed, fieldValues_eq num _ _ hp, fieldValues_eq num _ _ ha, catValues_eq L Lb num _ cats (fun x h => ⟨hx x h, hc x h⟩), bind,
      Except.bind]
    rw [← List.map_append]
    exact ho
  · obtain ⟨h1, h2⟩ := hr rest
    have e1 := unpackFields_num L.sg num peripheralFields (out ++ rest) (fun f hm => hu f (List.mem_append_left _ hm))
      (fun f hm => ⟨(hf f (List.mem_append_left _ hm)).1, h1 f (List.mem_append_left _ hm)⟩)
    have e2 := unpackFields_num L.sg num fs (out ++ rest) (fun f hm => hu f (List.mem_append_right _ hm))
      (fun f hm => ⟨(hf f (List.mem_append_right _ hm)).1, h1 f (List.mem_append_right _ hm)⟩)
    simp only [fixedPage, e1, e2, h2, bind, Except.bind]

/-- The attributes of a page are the numbers `num`, and they fit their fields. -/
structure PageHolds (fs : List UField) (cs : List (String × List Ref)) (p : Page) (num : String → Int) : Prop where
  peripheral : ∀ f ∈ peripheralFields, p.peripheral.lookup f.name = some (num f.name)
  ints : ∀ f ∈ fs, p.attrs.lookup f.name = some (num f.name)
  cats : ∀ x ∈ cs, p.attrs.lookup x.1 = some (num x.1)
  fit : ∀ f ∈ peripheralFields ++ fs, 0 ≤ num f.name ∧ num f.name < 2 ^ f.ref.width
  fitCats : ∀ x ∈ cs, 0 ≤ num x.1 ∧ num x.1 < 2 ^ refsWidth x.2

/-- The page whose attributes are the numbers `num`. -/
def makePage (fs : List UField) (cats : List (String × List Ref)) (num : String → Int) : Page :=
  { peripheral := [("type", num "type"), ("qualifier", num "qualifier")]
    attrs := (fs.map fun f => (f.name, num f.name)) ++ cats.map fun x => (x.1, num x.1) }

/-- **C76** (block limits page). -/
theorem C76_blockLimits (L : BufLib) (Lb : Lib) (p : Page) (num : String → Int)
    (h : PageHolds blockLimitsFields [("unmap_granularity_alignment", alignmentRefs)] p num) :
    ∃ out, packFixed L Lb blockLimitsFields [("unmap_granularity_alignment", alignmentRefs)] p = .ok out ∧ out.length = 44 ∧
      ∀ rest, blockLimits L (out ++ rest) = .ok (makePage blockLimitsFields [("unmap_granularity_alignment", alignmentRefs)] num) := by
  obtain ⟨out, ho, hr, hl⟩ := packFixed_eq L Lb blockLimitsFields [("unmap_granularity_alignment", alignmentRefs)] p num (by decide) (by decide) (by decide)
    h.peripheral h.ints h.cats h.fit h.fitCats
  exact ⟨out, ho, hl 44 (by decide) (by decide), hr⟩

/-- **C76** (the Veritas page). -/
theorem C76_veritas (L : BufLib) (Lb : Lib) (p : Page) (num : String → Int) (h : PageHolds veritasFields [] p num) :
    ∃ out, packFixed L Lb veritasFields [] p = .ok out ∧ out.length = 6 ∧
      ∀ rest, veritas L (out ++ rest) = .ok (makePage veritasFields [] num) := by
  obtain ⟨out, ho, hr, hl⟩ := packFixed_eq L Lb veritasFields [] p num (by decide) (by decide) (by decide) h.peripheral h.ints h.cats h.fit h.fitCats
  exact ⟨out, ho, hl 6 (by decide) (by decide), hr⟩

/-- **C76** (logical block provisioning page without a group descriptor). -/
theorem C76_provisioning (L : BufLib) (Lb : Lib) (p : Page) (num : String → Int) (h : PageHolds provisioningFields [] p num) :
    ∃ out, packFixed L Lb provisioningFields [] p = .ok out ∧ out.length = 7 ∧
      provisioning L out = .ok (makePage provisioningFields [] num, none) := by
  obtain ⟨out, ho, hr, hl⟩ := packFixed_eq L Lb provisioningFields [] p num (by decide) (by decide) (by decide) h.peripheral h.ints h.cats h.fit h.fitCats
  have hlen := hl 7 (by decide) (by decide)
  refine ⟨out, ho, hlen, ?_⟩
  have hr' := hr []
  rw [List.append_nil] at hr'
  have : ¬ out.length > 8 := by omega
  simp only [provisioning, hr', bind, Except.bind, if_neg this]
  rfl

/-! ## Classes that cannot be built -/

theorem putBytes_after (a x : Bytes) (lo : Nat) (b : Bytes) (h : a.length ≤ lo) : ∃ y, putBytes (a ++ x) lo b = a ++ y := by
  refine ⟨(x ++ zeros (lo - (a ++ x).length)).take (lo - a.length) ++ b ++ (a ++ (x ++ zeros (lo - (a ++ x).length))).drop (lo + b.length), ?_⟩
  simp only [putBytes, setRange, grow, List.append_assoc]
  rw [List.take_append, List.take_of_length_le h]
  simp only [List.append_assoc]

theorem determined (L : BufLib) (buf : Bytes) (c : DesignatorClass) (h : determineDesignator L buf = .ok c) : c ∈ allDesignators := by
  have look : ∀ (t : List (Int × DesignatorClass)) (k : Int) (c : DesignatorClass), t.lookup k = some c → (∀ x ∈ t, x.2 ∈ allDesignators) → c ∈ allDesignators := by
    intro t k c h ha
    induction t with
    | nil => cases h
    | cons x xs ih =>
      simp only [List.lookup] at h
      split at h
      · cases h; exact ha x (by simp)
      · exact ih h fun y hy => ha y (by simp [hy])
  unfold determineDesignator at h
  cases hh : unpackFields L.sg designatorHeader buf with
  | error e => simp only [hh, bind, Except.bind] at h; cases h
  | ok hd =>
    simp only [hh, bind, Except.bind] at h
    split at h
    · rename_i c' hc
      cases h
      exact look _ _ _ hc (by simp [singleType, allDesignators])
    · split at h
      · split at h
        · rename_i c' hc
          cases h
          exact look _ _ _ hc (by simp [euiByLength, allDesignators])
        · cases h
      · split at h
        · cases hn : unpackFields L.sg (designatorHeader ++ [naaField]) buf with
          | error e => simp only [hn] at h; cases h
          | ok nn =>
            simp only [hn] at h
            split at h
            · rename_i c' hc
              cases h
              exact look _ _ _ hc (by simp [naaByType, allDesignators])
            · cases h
        · split at h
          · cases h; simp [allDesignators]
          · cases h

/-- What an object decoded as a T10 vendor designator holds. -/
theorem t10_decoded (L : BufLib) (buf : Bytes) (d : Designator) (n : Nat) (h : designator L buf = .ok (d, n)) (hd : d.cls = "T10VendorIDDesignator") :
    4 ≤ buf.length ∧ d.data.lookup "vendor_specific_identifier" = some (slice buf 12 (4 + Spec.byteAt buf 3)) := by
  unfold designator at h
  cases hc : determineDesignator L buf with
  | error e => simp only [hc, bind, Except.bind] at h; cases h
  | ok c =>
    have hm := determined L buf c hc
    simp only [hc, bind, Except.bind, unpackDesignator] at h
    by_cases h4 : 4 ≤ buf.length
    · refine ⟨h4, ?_⟩
      rw [designatorHeader_eq L.sg buf h4] at h
      simp only [header_length, Int.toNat_natCast] at h
      cases hi : unpackFields L.sg c.ints buf with
      | error e => simp only [hi] at h; cases h
      | ok ints =>
        cases hx : readCats L c.cats buf with
        | error e => simp only [hi, hx] at h; cases h
        | ok cats =>
          simp only [hi, hx] at h
          cases hD : unpackData L (4 + Spec.byteAt buf 3) buf c.data with
          | error e => simp only [hD] at h; cases h
          | ok dat =>
            simp only [hD, Except.ok.injEq, Prod.mk.injEq] at h
            obtain ⟨rfl, -⟩ := h
            have ht : c = t10Vendor := by
              simp only at hd
              simp only [allDesignators, List.mem_cons, List.not_mem_nil, or_false] at hm
              rcases hm with rfl | rfl | rfl | rfl | rfl | rfl | rfl | rfl | rfl | rfl | rfl | rfl | rfl | rfl | rfl <;>
                first | rfl | exact absurd hd (by decide)
            subst ht
            simp only [t10Vendor, unpackData, DField.unpack, Option.getD_none, Option.getD_some, bind, Except.bind] at hD
            cases hT : textOf L none (slice buf 4 12) with
            | error e => simp only [hT] at hD; cases hD
            | ok t =>
              simp only [hT, Except.ok.injEq] at hD
              subst hD
              simp [List.lookup]
    · exfalso
      rw [unpackFields_truncated L.sg designatorHeader buf (by simp [designatorHeader, UField.ref, Ref.Ok])
        (by simp only [designatorHeader, fieldsEnd, UField.ref, Ref.stop]; omega)] at h
      cases h

theorem fieldValues_ok (env : List (String × Int)) (fs : List UField) (vs : List (String × Ref × Int)) (h : fieldValues env fs = .ok vs) :
    vs.map (fun f => f.2.1) = fs.map UField.ref ∧ ∀ f ∈ fs, ∃ v, env.lookup f.name = some v ∧ (f.name, f.ref, v) ∈ vs := by
  induction fs generalizing vs with
  | nil => simp only [fieldValues, Except.ok.injEq] at h; subst h; simp
  | cons f fs ih =>
    simp only [fieldValues, fieldOf, bind, Except.bind] at h
    cases hv : env.lookup f.name with
    | none => simp only [hv] at h; cases h
    | some v =>
      cases hr : fieldValues env fs with
      | error e => simp only [hv, hr] at h; cases h
      | ok ws =>
        simp only [hv, hr, Except.ok.injEq] at h
        subst h
        obtain ⟨h1, h2⟩ := ih ws hr
        refine ⟨by simp [h1], fun g hg => ?_⟩
        rcases List.mem_cons.1 hg with rfl | hg
        · exact ⟨v, hv, by simp⟩
        · obtain ⟨w, hw, hm⟩ := h2 g hg
          exact ⟨w, hw, by simp [hm]⟩

/-- The bytes of a packed T10 vendor designator start with a header whose length is that of the vendor specific identifier alone. -/
theorem t10_packed (L : BufLib) (Lb : Lib) (blob : Nat → Bytes → Py Bytes) (o : Designator) (id out : Bytes)
    (hid : o.data.lookup "vendor_specific_identifier" = some id) (h : packDesignator L Lb blob t10Vendor o = .ok out) :
    4 ≤ out.length ∧ (id.length < 256 → ∀ rest, Spec.byteAt (out ++ rest) 3 = id.length) := by
  have hlb : lengthBefore t10Vendor o = .ok (id.length : Int) := by simp [lengthBefore, t10Vendor, hid]
  simp only [packDesignator, hlb, bind, Except.bind] at h
  cases hv : fieldValues (("designator_length", (id.length : Int)) :: o.attrs) (designatorHeader ++ t10Vendor.ints) with
  | error e => simp only [hv] at h; cases h
  | ok vs =>
    simp only [hv, show t10Vendor.cats = [] from rfl, catValues, List.append_nil] at h
    cases hb : packAt Lb vs [] with
    | error e => simp only [hb] at h; cases h
    | ok buf =>
      simp only [hb] at h
      obtain ⟨hrefs, hmem⟩ := fieldValues_ok _ _ _ hv
      have hrefs' : vs.map (fun f => f.2.1) = designatorHeader.map UField.ref := hrefs
      have hw : ∀ f ∈ vs, f.2.1.WellFormed := by
        intro f hf
        have : f.2.1 ∈ designatorHeader.map UField.ref := by rw [← hrefs']; exact List.mem_map.2 ⟨f, hf, rfl⟩
        exact (by decide : ∀ r ∈ designatorHeader.map UField.ref, r.WellFormed) _ this
      have hd := pairwise_disjoint vs _ hrefs' (by decide) (by decide)
      have hl : buf.length = 4 := by
        refine packed_length Lb vs buf 4 hw hd hb ?_ ?_
        · intro f hf
          have : f.2.1 ∈ designatorHeader.map UField.ref := by rw [← hrefs']; exact List.mem_map.2 ⟨f, hf, rfl⟩
          exact (by decide : ∀ r ∈ designatorHeader.map UField.ref, r.stop ≤ 4) _ this
        · obtain ⟨v, -, hm⟩ := hmem (.u "designator_length" (.bytes 3 4)) (by simp [designatorHeader])
          exact ⟨_, hm, rfl⟩
      have hout : ∃ y, out = buf ++ y := by
        simp only [t10Vendor, packData, DField.pack, Option.getD_none, Option.getD_some, bind, Except.bind] at h
        cases h1 : bytesOf o "t10_vendor_identification" with
        | error e => simp only [h1] at h; cases h
        | ok t =>
          cases h2 : packText L 0 (12 - 4) t with
          | error e => simp only [h1, h2] at h; cases h
          | ok b =>
            cases h3 : bytesOf o "vendor_specific_identifier" with
            | error e => simp only [h1, h2, h3] at h; cases h
            | ok t' =>
              cases h4 : packBlob blob 12 (4 + (id.length : Int)).toNat t' with
              | error e => simp only [h1, h2, h3, h4] at h; cases h
              | ok b' =>
                simp only [h1, h2, h3, h4, Except.ok.injEq] at h
                obtain ⟨y, hy⟩ := putBytes_after buf [] 4 b (by omega)
                rw [List.append_nil] at hy
                obtain ⟨z, hz⟩ := putBytes_after buf y 12 b' (by omega)
                exact ⟨z, by rw [← h, hy, hz]⟩
      obtain ⟨y, rfl⟩ := hout
      refine ⟨by simp [hl], fun hlt rest => ?_⟩
      obtain ⟨v, hv', hm⟩ := hmem (.u "designator_length" (.bytes 3 4)) (by simp [designatorHeader])
      simp only [UField.name, List.lookup, beq_self_eq_true, Option.some.injEq] at hv'
      subst hv'
      have hr := (C48_buffer Lb vs buf (y ++ rest) hw hd hb).1 _ hm (Int.natCast_nonneg _) (by simp only [UField.ref, Ref.width]; simp; omega)
      rw [← List.append_assoc] at hr
      simp only [UField.ref] at hr
      rw [read_eq _ _ (by simp [Ref.Ok]) (by simp only [Ref.stop, List.length_append]; omega)] at hr
      simpa [refNum, num_one] using hr

/-- **C76** fails for T10 vendor designators: one built with a vendor specific identifier is never read back, whatever the library does with byte strings
that do not fit: the length written is that of the identifier, eight too small. -/
theorem C76_t10_false (L : BufLib) (Lb : Lib) (blob : Nat → Bytes → Py Bytes) (o d : Designator) (id out rest : Bytes) (n : Nat)
    (ho : o.cls = "T10VendorIDDesignator") (hid : o.data.lookup "vendor_specific_identifier" = some id) (hne : id ≠ [])
    (h : packDesignator L Lb blob t10Vendor o = .ok out) (hd : designator L (out ++ rest) = .ok (d, n)) : d ≠ o := by
  rintro rfl
  obtain ⟨h4, hb⟩ := t10_packed L Lb blob d id out hid h
  obtain ⟨-, hs⟩ := t10_decoded L _ d n hd ho
  rw [hid, Option.some.injEq] at hs
  have hl := congrArg List.length hs
  rw [slice_length] at hl
  have hpos : 0 < id.length := List.length_pos_iff.2 hne
  have hlt := byteAt_lt (out ++ rest) 3
  by_cases hid' : id.length < 256
  · rw [hb hid' rest] at hl
    omega
  · omega

/-- Such a designator is not a designation descriptor of the standard unless the identifier has at least eight bytes, and then its last eight bytes are
outside. -/
theorem C76_t10_length (L : BufLib) (Lb : Lib) (blob : Nat → Bytes → Py Bytes) (o : Designator) (id out : Bytes)
    (hid : o.data.lookup "vendor_specific_identifier" = some id) (hlt : id.length < 256) (h : packDesignator L Lb blob t10Vendor o = .ok out) :
    Spec.byteAt out 3 = id.length := by
  have := (t10_packed L Lb blob o id out hid h).2 hlt []
  rwa [List.append_nil] at this

/-- **C76** fails for reserved designators: the class looks for an attribute it does not declare. -/
theorem C76_reserved_false (L : BufLib) (Lb : Lib) (blob : Nat → Bytes → Py Bytes) (o : Designator) (ho : ∀ x ∈ o.data, x.1 = "desginator") :
    packDesignator L Lb blob reservedDesignator o = .error .attribute := by
  have : o.data.lookup "designator" = none := by
    cases hl : o.data.lookup "designator" with
    | none => rfl
    | some v =>
      exfalso
      have : ∀ l : List (String × Bytes), (∀ x ∈ l, x.1 = "desginator") → l.lookup "designator" = none := by
        intro l hl
        induction l with
        | nil => rfl
        | cons x xs ih =>
          obtain ⟨a, b⟩ := x
          have ha : a = "desginator" := hl (a, b) (by simp)
          subst ha
          simp only [List.lookup]
          exact ih fun y hy => hl y (by simp [hy])
      rw [this _ ho] at hl
      cases hl
  simp only [packDesignator, lengthBefore, reservedDesignator, this, bind, Except.bind]

/-! ## The hypotheses are met -/

/-- Attributes of an NAA designator (LUN name), a target port group, a SCSI name and a T10 vendor designator. -/
def numbers (l : List (String × Int)) (n : String) : Int := get l n

def lunName : List (String × Int) :=
  [("code_set", 1), ("protocol_identifier", 0), ("designator_type", 3), ("association", 0), ("piv", 0), ("reserved", 0), ("designator_length", 16), ("naa", 6),
   ("vendor_specific_identifier_extension", 0x000000000000053e), ("ieee_company_id", 0x742b0f), ("vendor_specific_identifier", 0x000000759)]

def scsiNameAttrs : List (String × Int) :=
  [("code_set", 3), ("protocol_identifier", 5), ("designator_type", 8), ("association", 1), ("piv", 1), ("reserved", 0)]

def lunItem : Item := ⟨naaRegisteredExtended, { cls := "", attrs := lunName, data := [] }, numbers lunName, fun _ => []⟩

def nameItem : Item :=
  ⟨scsiName, { cls := "", attrs := scsiNameAttrs, data := [("scsi_name_string", [0x69, 0x71, 0x6e, 0x2e])] },
   numbers (("designator_length", 4) :: scsiNameAttrs), fun _ => [0x69, 0x71, 0x6e, 0x2e]⟩

theorem lunItem_good : lunItem.Good where
  known := by simp [lunItem, allDesignators]
  holds := ⟨by decide, by decide, by decide, by decide⟩
  fit := ⟨by decide, by decide⟩
  described := ⟨by decide, by decide, by decide⟩

theorem nameItem_good : nameItem.Good where
  known := by simp [nameItem, allDesignators]
  holds := ⟨by decide, by decide, by decide, by decide⟩
  fit := ⟨by decide, by decide⟩
  described := ⟨by decide, by decide⟩

/-- A page with both, built and read back with either order of joined references. -/
example (L : BufLib) (Lb : Lib) (blob : Nat → Bytes → Py Bytes) (rest : Bytes) :
    ∃ out, packDeviceIdentification L Lb blob 0 0 0x83 28 [(lunItem.cls, lunItem.obj), (nameItem.cls, nameItem.obj)] = .ok out ∧ out.length = 32 ∧
      deviceIdentification L (out ++ rest) = .ok (⟨[("type", 0), ("qualifier", 0)], [("page_code", 0x83), ("page_length", 28)]⟩,
        [make naaRegisteredExtended lunItem.num lunItem.dat, make scsiName nameItem.num nameItem.dat]) :=
  C76_page L Lb blob 0 0 0x83 [lunItem, nameItem] rest (by decide) (by decide) (by decide)
    (by intro i hi; simp only [List.mem_cons, List.not_mem_nil, or_false] at hi; rcases hi with rfl | rfl; exact lunItem_good; exact nameItem_good)
    (by decide)

/-- Block limits of a disk that takes UNMAP. -/
def limits : List (String × Int) :=
  [("page_code", 0xb0), ("page_length", 0x3c), ("wsnz", 0), ("maximum_compare_and_write_length", 1), ("optimal_transfer_length_granularity", 128),
   ("maximum_transfer_length", 2048), ("optimal_transfer_length", 256), ("maximum_prefetch_xdread_xdwrite_transfer_length", 0),
   ("maximum_unmap_lba_count", 0xffffffff), ("maximum_unmap_block_descriptor_count", 1), ("optimal_unmap_granularity", 128), ("ugavalid", 1),
   ("unmap_granularity_alignment", 0x12345678), ("maximum_write_same_length", 0x100000000)]

example (L : BufLib) (Lb : Lib) :
    ∃ out, packFixed L Lb blockLimitsFields [("unmap_granularity_alignment", alignmentRefs)] ⟨[("type", 0), ("qualifier", 0)], limits⟩ = .ok out ∧
      out.length = 44 ∧ ∀ rest, blockLimits L (out ++ rest) =
        .ok (makePage blockLimitsFields [("unmap_granularity_alignment", alignmentRefs)] (numbers (("type", 0) :: ("qualifier", 0) :: limits))) :=
  C76_blockLimits L Lb ⟨[("type", 0), ("qualifier", 0)], limits⟩ (numbers (("type", 0) :: ("qualifier", 0) :: limits))
    ⟨by decide, by decide, by decide, by decide, by decide⟩

/-- Vendor "INFINIDAT" does not fit eight bytes; "NFINIDAT" does. With a library that stores byte strings that do not fit as far as they go, the object is
packed and decodes to another one. -/
def t10Example : Designator :=
  { cls := "T10VendorIDDesignator"
    attrs := [("code_set", 2), ("protocol_identifier", 0), ("designator_type", 1), ("association", 0), ("piv", 0), ("reserved", 0)]
    data := [("t10_vendor_identification", [0x4e, 0x46, 0x49, 0x4e, 0x49, 0x44, 0x41, 0x54]), ("vendor_specific_identifier", [1, 2, 3, 4, 5, 6, 7, 8, 9])] }

example (L : BufLib) : packDesignator L .strict (fun n b => .ok (b.take n)) t10Vendor t10Example =
    .ok [2, 1, 0, 9, 0x4e, 0x46, 0x49, 0x4e, 0x49, 0x44, 0x41, 0x54, 1] := by rfl

example (L : BufLib) : ∃ d, designator L [2, 1, 0, 9, 0x4e, 0x46, 0x49, 0x4e, 0x49, 0x44, 0x41, 0x54, 1] = .ok (d, 13) ∧
    d.data.lookup "vendor_specific_identifier" = some [1] := ⟨_, rfl, rfl⟩

example (L : BufLib) (Lb : Lib) (blob : Nat → Bytes → Py Bytes) :
    packDesignator L Lb blob reservedDesignator { cls := "Reserved_Designator", attrs := [("code_set", 1)], data := [("desginator", [0x61])] } =
      .error .attribute := C76_reserved_false L Lb blob _ (by decide)

end Verif.Parse
