import Verif.Parse.PackResponses
import Verif.Parse.PackPagesLemmas
import Verif.Parse.Lemmas
import Verif.Recorded
set_option linter.unusedSimpArgs false
/-!
# C114: responses built with the library's classes read back as they were built
-/

namespace Verif.Parse
open Verif

/-- A number that a field stores, whichever sign the library gives to fields declared without one. -/
def UField.Holds (f : UField) (v : Int) : Prop :=
  0 ≤ v ∧ match f with
    | .i _ (.bytes lo hi) => v < 2 ^ (8 * (hi - lo) - 1)
    | f => v < 2 ^ f.ref.width

/-- The same as a check. -/
def UField.holds (f : UField) (v : Int) : Bool :=
  decide (0 ≤ v) && match f with
    | .i _ (.bytes lo hi) => decide (v < 2 ^ (8 * (hi - lo) - 1))
    | f => decide (v < 2 ^ f.ref.width)

theorem holds_iff {f : UField} {v : Int} : f.holds v = true ↔ f.Holds v := by
  unfold UField.holds UField.Holds
  simp only [Bool.and_eq_true, decide_eq_true_eq]
  refine and_congr_right fun _ => ?_
  cases f with
  | u n r => simp
  | i n r => cases r <;> simp

/-- An object whose attributes are the numbers `num`, which fit their fields. -/
structure Holding (fs : List UField) (cats : List (String × List Ref)) (attrs : List (String × Int)) (num : String → Int) : Prop where
  ints : ∀ f ∈ fs, attrs.lookup f.name = some (num f.name)
  catInts : ∀ x ∈ cats, attrs.lookup x.1 = some (num x.1)
  fit : ∀ f ∈ fs, f.Holds (num f.name)
  fitCats : ∀ x ∈ cats, 0 ≤ num x.1 ∧ num x.1 < 2 ^ refsWidth x.2

/-- What such an object looks like after it was read. -/
def shown (fs : List UField) (num : String → Int) : List (String × Int) := fs.map fun f => (f.name, num f.name)

/-- No two fields share a bit, and each is well formed. -/
def Apart (fs : List UField) (cats : List (String × List Ref)) : Prop :=
  (∀ r ∈ fs.map UField.ref ++ cats.flatMap (·.2), r.WellFormed) ∧
  (fs.map UField.ref ++ cats.flatMap (·.2)).Pairwise fun r s => stopBit r ≤ startBit s ∨ stopBit s ≤ startBit r

instance (fs : List UField) (cats : List (String × List Ref)) : Decidable (Apart fs cats) := by unfold Apart; exact inferInstance

theorem holds_width {f : UField} {v : Int} (h : f.Holds v) : 0 ≤ v ∧ v < 2 ^ f.ref.width := by
  refine ⟨h.1, ?_⟩
  have h2 := h.2
  cases f with
  | u n r => exact h2
  | i n r =>
    cases r with
    | bits i lo hi => exact h2
    | bytes lo hi =>
      simp only at h2
      refine Int.lt_of_lt_of_le h2 ?_
      simp only [UField.ref, Ref.width]
      have : (2 : Nat) ^ (8 * (hi - lo) - 1) ≤ 2 ^ (8 * (hi - lo)) := Nat.pow_le_pow_right (by decide) (by omega)
      exact_mod_cast this

theorem unpackFields_holds (sg : Bool) (num : String → Int) (fs : List UField) (buf : Bytes) (hf : ∀ f ∈ fs, f.Holds (num f.name))
    (h : ∀ f ∈ fs, f.ref.read buf = .ok (num f.name).toNat) : unpackFields sg fs buf = .ok (shown fs num) := by
  induction fs with
  | nil => rfl
  | cons f fs ih =>
    have h1 := h f (by simp)
    have h0 := hf f (by simp)
    have hv : f.value sg buf = .ok (num f.name) := by
      cases f with
      | u n r =>
        simp only [UField.ref, UField.name] at h0 h1
        simp only [UField.value, UField.name, h1, bind, Except.bind, Int.toNat_of_nonneg h0.1]
      | i n r =>
        simp only [UField.ref, UField.name] at h0 h1
        simp only [UField.value, UField.name, h1, bind, Except.bind]
        cases r with
        | bits i lo hi => simp only [intValue, Int.toNat_of_nonneg h0.1]
        | bytes lo hi =>
          have h2 : (num n).toNat < 2 ^ (8 * (hi - lo) - 1) := by
            have h2 := h0.2
            simp only at h2
            have : ((num n).toNat : Int) < ((2 ^ (8 * (hi - lo) - 1) : Nat) : Int) := by rw [Int.toNat_of_nonneg h0.1, Int.natCast_pow]; exact h2
            exact Int.ofNat_lt.1 this
          simp only [intValue, toSigned, if_pos h2, Int.toNat_of_nonneg h0.1, ite_self]
    simp only [unpackFields, hv, bind, Except.bind, ih (fun g hg => hf g (by simp [hg])) (fun g hg => h g (by simp [hg])), shown, List.map_cons]

/-- Objects of integers. -/
theorem object_eq (L : BufLib) (Lb : Lib) {fs : List UField} {cats : List (String × List Ref)} {attrs : List (String × Int)} {num : String → Int}
    (ha : Apart fs cats) (h : Holding fs cats attrs num) : ∃ out, packObject L Lb fs cats attrs = .ok out ∧
      (∀ rest, unpackFields L.sg fs (out ++ rest) = .ok (shown fs num) ∧ readCats L cats (out ++ rest) = .ok (cats.map fun x => (x.1, num x.1))) ∧
      ∀ n, (∀ r ∈ fs.map UField.ref ++ cats.flatMap (·.2), r.stop ≤ n) → (∃ r ∈ fs.map UField.ref ++ cats.flatMap (·.2), r.stop = n) → out.length = n := by
  obtain ⟨out, ho, hr, hl⟩ := packed_reads L Lb num fs cats ha.1 ha.2 (fun f hf => holds_width (h.fit f hf)) h.fitCats
  refine ⟨out, ?_, fun rest => ⟨unpackFields_holds L.sg num fs _ h.fit (hr rest).1, (hr rest).2⟩, hl⟩
  simp only [packObject, fieldValues_eq num _ _ h.ints, catValues_eq L Lb num _ cats (fun x hx => ⟨h.catInts x hx, h.fitCats x hx⟩), bind, Except.bind]
  exact ho

theorem shown_lookup {f : UField} {fs : List UField} (num : String → Int) (h : f ∈ fs) : (shown fs num).lookup f.name = some (num f.name) := by
  induction fs with
  | nil => simp at h
  | cons g fs ih =>
    by_cases hg : f.name = g.name
    · simp [shown, List.lookup, hg]
    · rcases List.mem_cons.1 h with rfl | h
      · exact absurd rfl hg
      · simp only [shown, List.map_cons, List.lookup, beq_false_of_ne hg]
        exact ih h

/-! ## Status elements -/

/-- **C114** (status of enclosure elements): whatever an element of any type but that of the enclosure itself is made of, its bytes read back as that. Missing: elements for the
enclosure itself, for which it is false (`C114_enclosure_false`). -/
theorem C114_elements_partial (L : BufLib) (Lb : Lib) {type : Int} {c : Ses.StatusClass} {i : Ses.InfoClass} (hc : (type, c) ∈ Ses.elementTypes) (hi : c.info = some i)
    (hne : type ≠ 0x0E) {attrs : List (String × Int)} {num : String → Int} (h : Holding i.fields i.cats attrs num) :
    ∃ out, packObject L Lb i.fields i.cats attrs = .ok out ∧
      ∀ rest, Ses.statusInfo L c.info (out ++ rest) = .ok (shown i.fields num ++ i.cats.map fun x => (x.1, num x.1), []) := by
  have key : ∀ x ∈ Ses.elementTypes, x.1 ≠ 0x0E → ∀ i ∈ x.2.info.toList, Apart i.fields i.cats := by decide +kernel
  obtain ⟨out, ho, hr, -⟩ := object_eq L Lb (key _ hc hne i (by simp [hi])) h
  refine ⟨out, ho, fun rest => ?_⟩
  simp only [hi, Ses.statusInfo, (hr rest).1, (hr rest).2, bind, Except.bind]

example : (0x02, ⟨"PowerSupplyStatusElement", some Ses.powerSupplyElementInfo⟩) ∈ Ses.elementTypes ∧
    Holding Ses.powerSupplyElementInfo.fields Ses.powerSupplyElementInfo.cats (shown Ses.powerSupplyElementInfo.fields fun _ => 1) (fun _ => 1) :=
  ⟨by simp [Ses.elementTypes], fun f hf => shown_lookup _ hf, nofun, by
    have : ∀ f ∈ Ses.powerSupplyElementInfo.fields, f.holds 1 = true := by decide
    exact fun f hf => holds_iff.1 (this f hf), nofun⟩

/-- Not for the element of the enclosure itself, as two of its attributes have the same place: with a warning indicated but none requested, no bytes read back as
it, whatever the order the fields are packed in. -/
theorem C114_enclosure_false (L : BufLib) : ∃ num : String → Int, Holding Ses.enclosureElementInfo.fields Ses.enclosureElementInfo.cats
      (shown Ses.enclosureElementInfo.fields num) num ∧ num "warn_indication" = 1 ∧ num "warn_requested" = 0 ∧
    ∀ out, unpackFields L.sg Ses.enclosureElementInfo.fields out ≠ .ok (shown Ses.enclosureElementInfo.fields num) := by
  refine ⟨fun s => if s = "warn_indication" then 1 else 0, ⟨fun f hf => shown_lookup _ hf, nofun, fun f hf => ?_, nofun⟩, rfl, rfl, fun out h => ?_⟩
  · simp only [Ses.enclosureElementInfo, List.mem_cons, List.not_mem_nil, or_false] at hf
    rcases hf with rfl | rfl | rfl | rfl | rfl | rfl | rfl <;> exact ⟨by decide, by decide⟩
  · simp only [Ses.enclosureElementInfo, shown, List.map_cons, List.map_nil, UField.name, unpackFields, UField.value, bind, Except.bind] at h
    cases h0 : (Ref.bits 0 7 8).read out <;> simp only [h0, reduceCtorEq] at h
    cases h1 : (Ref.bits 1 0 1).read out <;> simp only [h1, reduceCtorEq] at h
    cases h2 : (Ref.bits 1 1 2).read out <;> simp only [h2, reduceCtorEq] at h
    cases h3 : (Ref.bits 1 2 8).read out <;> simp [h3, reduceCtorEq, intValue] at h
    omega

/-! ## PERSISTENT RESERVE IN -/

/-- **C114** (capabilities). -/
theorem C114_capabilities (L : BufLib) (Lb : Lib) {attrs : List (String × Int)} {num : String → Int} (h : Holding capabilitiesFields [] attrs num) :
    ∃ out, packObject L Lb capabilitiesFields [] attrs = .ok out ∧ out.length = 8 ∧
      ∀ rest, prin L.sg 2 (out ++ rest) = .ok (.capabilities (shown capabilitiesFields num)) := by
  obtain ⟨out, ho, hr, hl⟩ := object_eq L Lb (by decide) h
  refine ⟨out, ho, hl 8 (by decide) (by decide), fun rest => ?_⟩
  simp [prin, reportCapabilities, (hr rest).1, bind, Except.bind]

example : Holding capabilitiesFields [] (shown capabilitiesFields fun _ => 1) (fun _ => 1) :=
  ⟨fun _ hf => shown_lookup _ hf, nofun, by
    have : ∀ f ∈ capabilitiesFields, f.holds 1 = true := by decide
    exact fun f hf => holds_iff.1 (this f hf), nofun⟩

/-- The fields of `PersistentReserveInReadReservationResponse`. -/
def reservationFields : List UField := prHeader ++ reservationOptional.map (·.2)

/-- **C114** (the reservation). -/
theorem C114_reservation (L : BufLib) (Lb : Lib) {attrs : List (String × Int)} {num : String → Int} (h : Holding reservationFields [] attrs num) :
    ∃ out, packObject L Lb reservationFields [] attrs = .ok out ∧ out.length = 24 ∧
      ∀ rest, prin L.sg 1 (out ++ rest) = .ok (.reservation (shown reservationFields num)) := by
  obtain ⟨out, ho, hr, hl⟩ := object_eq L Lb (by decide) h
  have hlen := hl 24 (by decide) (by decide)
  refine ⟨out, ho, hlen, fun rest => ?_⟩
  have hfil : reservationOptional.filter (fun p => decide (p.1 ≤ (out ++ rest).length)) = reservationOptional := by
    refine List.filter_eq_self.mpr fun p hp => ?_
    have : ∀ p ∈ reservationOptional, p.1 ≤ 24 := by decide
    have := this p hp
    simp only [List.length_append, hlen, decide_eq_true_eq]
    omega
  have := (hr rest).1
  simp only [reservationFields] at this
  simp only [prin, readReservation, hfil, this, bind, Except.bind, reservationFields]
  rfl

theorem packInts_eq (Lb : Lib) (n : Nat) (vs : List Int) (h : ∀ v ∈ vs, 0 ≤ v ∧ v < 2 ^ (8 * n)) :
    packInts Lb n vs = .ok (vs.flatMap fun v => be n v.toNat) := by
  induction vs with
  | nil => rfl
  | cons v vs ih =>
    obtain ⟨h0, h1⟩ := h v (by simp)
    obtain ⟨m, rfl⟩ := Int.eq_ofNat_of_zero_le h0
    simp only [packInts, Lb.enc_ok (8 * n) m (by exact_mod_cast h1), bind, Except.bind, ih (fun w hw => h w (by simp [hw])), List.flatMap_cons, Int.toNat_natCast]

theorem ints_length (n : Nat) (vs : List Int) : (vs.flatMap fun v => be n v.toNat).length = n * vs.length := by
  induction vs with
  | nil => rfl
  | cons v vs ih => simp only [List.flatMap_cons, List.length_append, be_length, ih, List.length_cons, Nat.mul_succ]; omega

/-- Reading what was packed as integers. -/
theorem ints_read (n : Nat) (vs : List Int) (h : ∀ v ∈ vs, 0 ≤ v ∧ v < 2 ^ (8 * n)) (rest : Bytes) :
    unpackN (elemUInt n) vs.length ((vs.flatMap fun v => be n v.toNat) ++ rest) = .ok (vs.map Int.toNat, n * vs.length) := by
  rw [unpackN_encode_mem (elemUInt n) (fun v : Int => be n v.toNat) Int.toNat vs ?_ rest, ints_length]
  intro v hv rest
  obtain ⟨h0, h1⟩ := h v hv
  rw [elemUInt_append n _ rest (be_length ..), beNat_be_of_lt]
  rw [show (256 : Nat) = 2 ^ 8 by decide, ← Nat.pow_mul]
  have : (v.toNat : Int) < ((2 ^ (8 * n) : Nat) : Int) := by rw [Int.toNat_of_nonneg h0, Int.natCast_pow]; exact h1
  exact Int.ofNat_lt.1 this

theorem slice_mid (k : Nat) (a b c : Bytes) (h : a.length = k) : slice (a ++ (b ++ c)) k (k + b.length) = b ++ [] := by
  subst h
  simp [slice, List.take_append, List.drop_append]

/-- **C114** (the registered keys; `additional_length` is what the standard says: the number of bytes that follow). -/
theorem C114_keys (L : BufLib) (Lb : Lib) (blob : Nat → Bytes → Py Bytes) {attrs : List (String × Int)} {num : String → Int} (h : Holding prHeader [] attrs num)
    (keys : List Int) (hk : ∀ v ∈ keys, 0 ≤ v ∧ v < 2 ^ 64) (hn : num "additional_length" = 8 * keys.length) :
    ∃ out, packKeys L Lb blob attrs keys = .ok out ∧ out.length = 8 + 8 * keys.length ∧
      ∀ rest, prin L.sg 0 (out ++ rest) = .ok (.keys ⟨shown prHeader num, some (keys.map Int.toNat)⟩) := by
  obtain ⟨hd, ho, hr, hl⟩ := object_eq L Lb (by decide) h
  have hlen := hl 8 (by decide) (by decide)
  have hadd : attrs.lookup "additional_length" = some (num "additional_length") := h.ints (.u "additional_length" (.bytes 4 8)) (by simp [prHeader])
  have hil := ints_length 8 keys
  have hgo := ints_read 8 keys hk
  refine ⟨hd ++ keys.flatMap (fun v => be 8 v.toNat), ?_, by rw [List.length_append, hlen, hil], fun rest => ?_⟩
  · have hc : 8 ≤ (8 + num "additional_length").toNat ∧ (keys.flatMap fun v => be 8 v.toNat).length = (8 + num "additional_length").toNat - 8 := by
      rw [hil, hn]; omega
    simp only [packKeys, ho, fieldOf, hadd, packInts_eq Lb 8 keys hk, packBlob, if_pos hc, bind, Except.bind]
    rw [← hlen, putBytes_end]
  · rw [List.append_assoc]
    have h1 := (hr (keys.flatMap (fun v => be 8 v.toNat) ++ rest)).1
    have hg : get (shown prHeader num) "additional_length" = 8 * keys.length := by simp [shown, prHeader, get, UField.name, List.lookup, hn]
    have hlong : (hd ++ (keys.flatMap (fun v => be 8 v.toNat) ++ rest)).length ≥ (8 * (keys.length : Int)).toNat + 8 := by
      simp only [List.length_append, hlen, hil]; omega
    have hsl : slice (hd ++ (keys.flatMap (fun v => be 8 v.toNat) ++ rest)) 8 (8 + (8 * (keys.length : Int)).toNat) = keys.flatMap (fun v => be 8 v.toNat) ++ [] := by
      rw [show (8 * (keys.length : Int)).toNat = 8 * keys.length by omega, ← hil]
      exact slice_mid 8 hd _ rest hlen
    have hdiv : (8 * (keys.length : Int)).toNat / 8 = keys.length := by omega
    simp only [prin, readKeys, h1, bind, Except.bind, hg, if_pos hlong, hsl, hdiv, hgo []]
    rfl

/-! ## RECEIVE COPY OPERATING PARAMETERS -/

/-- **C114** (operating parameters of copies): the length of the list is computed. -/
theorem C114_copy (L : BufLib) (Lb : Lib) {attrs : List (String × Int)} {num : String → Int} (h : Holding receiveCopyFields.dropLast [] attrs num)
    (ds : List Int) (hd : ∀ v ∈ ds, 0 ≤ v ∧ v < 256) (hn : ds.length < 256) :
    ∃ out, packReceiveCopy L Lb attrs ds = .ok out ∧ out.length = 44 + ds.length ∧
      ∀ rest, receiveCopy L.sg (out ++ rest) =
        .ok ⟨shown receiveCopyFields.dropLast num ++ [("implemented_descriptor_list_length", (ds.length : Int))], ds.map Int.toNat⟩ := by
  let num' : String → Int := fun s => if s = "implemented_descriptor_list_length" then ds.length else num s
  have hns : ∀ f ∈ receiveCopyFields.dropLast, f.name ≠ "implemented_descriptor_list_length" := by decide
  have hsplit : receiveCopyFields = receiveCopyFields.dropLast ++ [.u "implemented_descriptor_list_length" (.bytes 43 44)] := rfl
  have hshow : shown receiveCopyFields num' = shown receiveCopyFields.dropLast num ++ [("implemented_descriptor_list_length", (ds.length : Int))] := by
    rw [hsplit, shown, List.map_append]
    congr 1
  have h' : Holding receiveCopyFields [] (("implemented_descriptor_list_length", (ds.length : Int)) :: attrs) num' := by
    refine ⟨fun f hf => ?_, nofun, fun f hf => ?_, nofun⟩ <;> rw [hsplit, List.mem_append] at hf
    · rcases hf with hf | hf
      · have := hns f hf
        simp only [List.lookup, beq_false_of_ne this, num', if_neg this, h.ints f hf]
      · simp only [List.mem_singleton] at hf
        subst hf
        simp [List.lookup, UField.name, num']
    · rcases hf with hf | hf
      · simp only [num', if_neg (hns f hf)]; exact h.fit f hf
      · simp only [List.mem_singleton] at hf
        subst hf
        refine ⟨by simp [UField.name, num'], ?_⟩
        simp only [UField.name, num', if_pos, UField.ref, Ref.width]
        omega
  obtain ⟨hd', ho, hr, hl⟩ := object_eq L Lb (by decide) h'
  have hlen := hl 44 (by decide) (by decide)
  have hil := ints_length 1 ds
  refine ⟨hd' ++ ds.flatMap (fun v => be 1 v.toNat), ?_, by rw [List.length_append, hlen, hil]; omega, fun rest => ?_⟩
  · simp only [packReceiveCopy, ho, packInts_eq Lb 1 ds hd, bind, Except.bind]
    rw [← hlen, putBytes_end]
  · rw [List.append_assoc]
    have h1 := (hr (ds.flatMap (fun v => be 1 v.toNat) ++ rest)).1
    have hg : get (shown receiveCopyFields num') "implemented_descriptor_list_length" = ds.length := by
      simp [shown, receiveCopyFields, get, UField.name, List.lookup, num']
    have hsl : sliceFrom (hd' ++ (ds.flatMap (fun v => be 1 v.toNat) ++ rest)) 44 (ds.length : Int) = ds.flatMap (fun v => be 1 v.toNat) := by
      rw [sliceFrom, show ((44 : Nat) + (ds.length : Int)).toNat = 44 + (ds.flatMap fun v => be 1 v.toNat).length by rw [hil]; omega,
        slice_mid 44 hd' _ rest hlen, List.append_nil]
    have hu : (ds.flatMap (fun v => be 1 v.toNat)).map UInt8.toNat = ds.map Int.toNat := by
      clear hr hl hlen hil h1 hsl h' hshow hg ho hn
      induction ds with
      | nil => rfl
      | cons v ds ih =>
        have := hd v (by simp)
        simp only [List.flatMap_cons, List.map_append, List.map_cons, ih (fun w hw => hd w (by simp [hw]))]
        simp [be]
        omega
    simp only [receiveCopy, h1, hg, hsl, unpackAll_u8, bind, Except.bind, hu]
    rw [hshow]

/-! ## REPORT TARGET PORT GROUPS -/

theorem shown_holding {fs : List UField} {num : String → Int} (h : ∀ f ∈ fs, f.Holds (num f.name)) : Holding fs [] (shown fs num) num :=
  ⟨fun _ hf => shown_lookup num hf, nofun, h, nofun⟩

/-- A group by the numbers in it and in its ports. -/
structure Group where
  num : String → Int
  ports : List (String → Int)

/-- As an object. -/
def Group.made (g : Group) : TargetPortGroup := ⟨shown targetPortGroupFields g.num, g.ports.map (shown targetPortFields)⟩

/-- The numbers fit and the count is that of the ports. -/
structure Group.Fine (g : Group) : Prop where
  fit : ∀ f ∈ targetPortGroupFields, f.Holds (g.num f.name)
  ports : ∀ p ∈ g.ports, ∀ f ∈ targetPortFields, f.Holds (p f.name)
  count : g.num "target_port_count" = g.ports.length

theorem ports_eq (L : BufLib) (Lb : Lib) (ps : List (String → Int)) (h : ∀ p ∈ ps, ∀ f ∈ targetPortFields, f.Holds (p f.name)) :
    ∃ out, packObjects L Lb targetPortFields (ps.map (shown targetPortFields)) = .ok out ∧ out.length = 4 * ps.length ∧
      ∀ rest, unpackN (targetPort L.sg) ps.length (out ++ rest) = .ok (ps.map (shown targetPortFields), 4 * ps.length) := by
  induction ps with
  | nil => exact ⟨[], rfl, rfl, fun _ => rfl⟩
  | cons p ps ih =>
    obtain ⟨o2, h2, l2, r2⟩ := ih fun q hq => h q (by simp [hq])
    obtain ⟨o1, h1, r1, l1⟩ := object_eq L Lb (by decide) (shown_holding (h p (by simp)))
    have l1 := l1 4 (by decide) (by decide)
    refine ⟨o1 ++ o2, ?_, by simp [l1, l2]; omega, fun rest => ?_⟩
    · simp only [List.map_cons, packObjects, h1, h2, bind, Except.bind]
    · have hd : (o1 ++ (o2 ++ rest)).drop 4 = o2 ++ rest := by rw [← l1, List.drop_left]
      simp only [List.append_assoc, List.length_cons, unpackN, targetPort, (r1 _).1, bind, Except.bind, hd, r2, List.map_cons]
      congr 2
      omega

theorem group_eq (L : BufLib) (Lb : Lib) (g : Group) (h : g.Fine) :
    ∃ out, packGroup L Lb g.made = .ok out ∧ out.length = 8 + 4 * g.ports.length ∧
      ∀ rest, targetPortGroup L.sg (out ++ rest) = .ok (g.made, out.length) := by
  obtain ⟨o2, h2, l2, r2⟩ := ports_eq L Lb g.ports h.ports
  obtain ⟨o1, h1, r1, l1⟩ := object_eq L Lb (by decide) (shown_holding h.fit)
  have l1 := l1 8 (by decide) (by decide)
  have hl : (o1 ++ o2).length = 8 + 4 * g.ports.length := by rw [List.length_append, l1, l2]
  refine ⟨o1 ++ o2, ?_, hl, fun rest => ?_⟩
  · simp only [packGroup, Group.made, h1, h2, bind, Except.bind]
    rw [← l1, putBytes_end]
  · have hd : (o1 ++ (o2 ++ rest)).drop 8 = o2 ++ rest := by rw [← l1, List.drop_left]
    have hc : (get (shown targetPortGroupFields g.num) "target_port_count").toNat = g.ports.length := by
      have := shown_lookup (f := .i "target_port_count" (.bytes 7 8)) g.num (fs := targetPortGroupFields) (by simp [targetPortGroupFields])
      simp only [UField.name] at this
      simp only [get, this, Option.getD_some, h.count, Int.toNat_natCast]
    rw [hl, List.append_assoc]
    simp only [targetPortGroup, (r1 _).1, bind, Except.bind, hc, hd, r2, Group.made]

/-- Bytes taken by the groups. -/
def groupsSize (gs : List Group) : Nat := (gs.map fun g => 8 + 4 * g.ports.length).sum

theorem unpackAll_cons {α : Type} (elem : Bytes → Py (α × Nat)) (b c : Bytes) (x : α) (xs : List α) (hb : 0 < b.length) (h : elem (b ++ c) = .ok (x, b.length))
    (hc : unpackAll elem c = .ok xs) : unpackAll elem (b ++ c) = .ok (x :: xs) := by
  have hne : b ++ c ≠ [] := by intro he; simp at he; simp [he.1] at hb
  rw [unpackAll, if_neg hne]
  simp only [h]
  rw [dif_neg (by simp only [not_or]; exact ⟨by omega, hne⟩), List.drop_left, hc]

theorem groups_eq (L : BufLib) (Lb : Lib) (gs : List Group) (h : ∀ g ∈ gs, g.Fine) :
    ∃ out, packGroups L Lb (gs.map Group.made) = .ok out ∧ out.length = groupsSize gs ∧ unpackAll (targetPortGroup L.sg) out = .ok (gs.map Group.made) := by
  induction gs with
  | nil => exact ⟨[], rfl, rfl, by simp [unpackAll]⟩
  | cons g gs ih =>
    obtain ⟨o2, h2, l2, r2⟩ := ih fun q hq => h q (by simp [hq])
    obtain ⟨o1, h1, l1, r1⟩ := group_eq L Lb g (h g (by simp))
    refine ⟨o1 ++ o2, ?_, by simp [l1, l2, groupsSize], unpackAll_cons _ o1 o2 _ _ (by omega) (r1 o2) r2⟩
    simp only [List.map_cons, packGroups, h1, h2, bind, Except.bind]

/-- **C114** (target port groups, the format without a header): `data_length` is what the standard says, the number of bytes that follow. -/
theorem C114_groups (L : BufLib) (Lb : Lib) (blob : Nat → Bytes → Py Bytes) (gs : List Group) (h : ∀ g ∈ gs, g.Fine) (hn : groupsSize gs < 2 ^ 31) :
    ∃ out, packRtpg L Lb blob false ⟨[("data_length", groupsSize gs)], gs.map Group.made⟩ = .ok out ∧ out.length = 4 + groupsSize gs ∧
      ∀ rest, rtpg L.sg 0 (out ++ rest) = .ok ⟨[("data_length", groupsSize gs)], gs.map Group.made⟩ := by
  obtain ⟨o2, h2, l2, r2⟩ := groups_eq L Lb gs h
  have hh : Holding [.i "data_length" (.bytes 0 4)] [] [("data_length", (groupsSize gs : Int))] (fun _ => (groupsSize gs : Int)) := by
    refine shown_holding (fs := [.i "data_length" (.bytes 0 4)]) (num := fun _ => (groupsSize gs : Int)) fun f hf => ?_
    simp only [List.mem_singleton] at hf
    subst hf
    exact ⟨by omega, by simp only [Nat.reduceMul, Nat.reduceSub]; omega⟩
  obtain ⟨o1, h1, r1, l1⟩ := object_eq L Lb (by decide) hh
  have l1 := l1 4 (by decide) (by decide)
  refine ⟨o1 ++ o2, ?_, by rw [List.length_append, l1, l2], fun rest => ?_⟩
  · have hc : 4 ≤ ((4 : Nat) + (groupsSize gs : Int)).toNat ∧ o2.length = ((4 : Nat) + (groupsSize gs : Int)).toNat - 4 := by rw [l2]; omega
    simp only [packRtpg, Bool.false_eq_true, if_false, h1, fieldOf, List.lookup, beq_self_eq_true, h2, packBlob, if_pos hc, bind, Except.bind]
    rw [← l1, putBytes_end]
  · have hsl : sliceFrom (o1 ++ (o2 ++ rest)) 4 (groupsSize gs : Int) = o2 := by
      rw [sliceFrom, show ((4 : Nat) + (groupsSize gs : Int)).toNat = 4 + o2.length by rw [l2]; omega, slice_mid 4 o1 _ rest l1, List.append_nil]
    have hg : get (shown [.i "data_length" (.bytes 0 4)] fun _ => (groupsSize gs : Int)) "data_length" = groupsSize gs := rfl
    rw [List.append_assoc, rtpg, if_pos rfl]
    simp only [rtpgLengthOnly, (r1 _).1, bind, Except.bind, hg, hsl, r2]
    rfl

/-- **C114** (target port groups, the format with a header). -/
theorem C114_groups_extended (L : BufLib) (Lb : Lib) (blob : Nat → Bytes → Py Bytes) (gs : List Group) (h : ∀ g ∈ gs, g.Fine) (hn : groupsSize gs < 2 ^ 31)
    (format : Int) (hf : 0 ≤ format ∧ format < 8) :
    ∃ out, packRtpg L Lb blob true ⟨[("data_length", groupsSize gs), ("format_type", format)], gs.map Group.made⟩ = .ok out ∧ out.length = 7 + groupsSize gs ∧
      ∀ rest, rtpg L.sg 1 (out ++ rest) = .ok ⟨[("data_length", groupsSize gs), ("format_type", format)], gs.map Group.made⟩ := by
  obtain ⟨o2, h2, l2, r2⟩ := groups_eq L Lb gs h
  let num : String → Int := fun s => if s = "data_length" then groupsSize gs else format
  have hh : Holding [.i "data_length" (.bytes 0 4), .i "format_type" (.bits 4 4 7)] [] [("data_length", (groupsSize gs : Int)), ("format_type", format)] num := by
    refine shown_holding (fs := [.i "data_length" (.bytes 0 4), .i "format_type" (.bits 4 4 7)]) (num := num) fun f hf' => ?_
    simp only [List.mem_cons, List.not_mem_nil, or_false] at hf'
    rcases hf' with rfl | rfl
    · exact ⟨by simp [UField.name, num], by simp only [Nat.reduceMul, Nat.reduceSub, UField.name, num, if_pos]; omega⟩
    · exact ⟨hf.1, hf.2⟩
  obtain ⟨o1, h1, r1, l1⟩ := object_eq L Lb (by decide) hh
  have l1 := l1 5 (by decide) (by decide)
  have hput : putBytes o1 7 o2 = (o1 ++ [0, 0]) ++ o2 := by
    have l7 : List.length (o1 ++ [0, 0]) = 7 := by simp [l1]
    rw [← putBytes_end (o1 ++ [0, 0]) o2, l7]
    simp [putBytes, grow, zeros, l1]
  have l3 : (o1 ++ [0, 0]).length = 7 := by simp [l1]
  refine ⟨(o1 ++ [0, 0]) ++ o2, ?_, by rw [List.length_append, l3, l2], fun rest => ?_⟩
  · have hc : 7 ≤ ((7 : Nat) + (groupsSize gs : Int)).toNat ∧ o2.length = ((7 : Nat) + (groupsSize gs : Int)).toNat - 7 := by rw [l2]; omega
    simp only [packRtpg, if_true, h1, fieldOf, List.lookup, beq_self_eq_true, h2, packBlob, if_pos hc, bind, Except.bind, hput]
  · have hsl : sliceFrom ((o1 ++ [0, 0]) ++ (o2 ++ rest)) 7 (groupsSize gs : Int) = o2 := by
      rw [sliceFrom, show ((7 : Nat) + (groupsSize gs : Int)).toNat = 7 + o2.length by rw [l2]; omega, slice_mid 7 _ _ rest l3, List.append_nil]
    have hg : get (shown [.i "data_length" (.bytes 0 4), .i "format_type" (.bits 4 4 7)] num) "data_length" = groupsSize gs := rfl
    have h1 := (r1 ([0, 0] ++ (o2 ++ rest))).1
    rw [← List.append_assoc] at h1
    rw [List.append_assoc, rtpg, if_neg (by decide), if_pos rfl]
    simp only [rtpgExtended, h1, bind, Except.bind, hg, hsl, r2]
    rfl

/-- A group of two ports. -/
def sampleGroup : Group := ⟨fun s => if s = "target_port_count" then 2 else 1, [fun _ => 1, fun _ => 2]⟩

theorem sample_fine : sampleGroup.Fine := by
  refine ⟨?_, ?_, rfl⟩
  · have : ∀ f ∈ targetPortGroupFields, f.holds (sampleGroup.num f.name) = true := by decide
    exact fun f hf => holds_iff.1 (this f hf)
  · have : ∀ f ∈ targetPortFields, f.holds 1 = true ∧ f.holds 2 = true := by decide
    intro p hp f hf
    simp only [sampleGroup, List.mem_cons, List.not_mem_nil, or_false] at hp
    rcases hp with rfl | rfl
    · exact holds_iff.1 (this f hf).1
    · exact holds_iff.1 (this f hf).2

example : (∀ g ∈ [sampleGroup], g.Fine) ∧ groupsSize [sampleGroup] < 2 ^ 31 :=
  ⟨fun g hg => List.mem_singleton.1 hg ▸ sample_fine, by decide⟩

example : Holding prHeader [] (shown prHeader fun s => if s = "additional_length" then 16 else 1) (fun s => if s = "additional_length" then 16 else 1) ∧
    (16 : Int) = 8 * [(5 : Int), 6].length :=
  ⟨shown_holding (by
    have : ∀ f ∈ prHeader, f.holds ((fun s => if s = "additional_length" then 16 else 1 : String → Int) f.name) = true := by decide
    exact fun f hf => holds_iff.1 (this f hf)), rfl⟩

example : Holding reservationFields [] (shown reservationFields fun _ => 1) (fun _ => 1) :=
  shown_holding (by
    have : ∀ f ∈ reservationFields, f.holds 1 = true := by decide
    exact fun f hf => holds_iff.1 (this f hf))

example : Holding receiveCopyFields.dropLast [] (shown receiveCopyFields.dropLast fun _ => 1) (fun _ => 1) :=
  shown_holding (by
    have : ∀ f ∈ receiveCopyFields.dropLast, f.holds 1 = true := by decide
    exact fun f hf => holds_iff.1 (this f hf))

end Verif.Parse
