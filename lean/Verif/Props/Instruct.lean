import Verif.InstructLemmas
import Verif.Cdb.Commands

/-!
# Theorems about declared structures: C48
-/

set_option linter.unusedSimpArgs false

namespace Verif

theorem unpack_cons (d : Decl) (r : List Decl) (bs tl : Bytes) (hl : bs.length = d.size) :
    unpack (d :: r) (bs ++ tl) = (do
      let vals ← (match d with
        | .uint name _ => .ok [(name, beNat bs)]
        | .bits l => .ok (unpackBits l (leNat bs))
        | .pad _ => .ok []
        | .const c => if bs = c then .ok [] else .error .instruct : Py (List (String × Nat)))
      let (vs, rest) ← unpack r tl
      .ok (vals ++ vs, rest)) := by
  rw [unpack, if_neg (by rw [List.length_append]; omega)]
  have h1 : (bs ++ tl).take d.size = bs := by rw [← hl]; simp
  have h2 : (bs ++ tl).drop d.size = tl := by rw [← hl]; simp
  rw [h1, h2]
  cases d <;> rfl

/-- **C48**, sequential structures.  For every declaration and every assignment of values that fit: unpacking what was
packed, whatever follows it, gives each named member the value it was given (or its default), in declaration order,
and consumes exactly the packed bytes. -/
theorem C48_struct (L : Lib) (env : Attrs) (decls : List Decl) (bs rest : Bytes)
    (hw : ∀ d ∈ decls, d.WellFormed) (h : pack L env decls = .ok bs)
    (hf : ∀ m ∈ decls.flatMap Decl.named, ∀ v, memberValue env m.1 m.2.2 = some v → 0 ≤ v ∧ v < 2 ^ m.2.1) :
    unpack decls (bs ++ rest) = .ok ((decls.flatMap Decl.named).map
      (fun m => (m.1, ((memberValue env m.1 m.2.2).getD 0).toNat)), rest) ∧ bs.length = structSize decls := by
  induction decls generalizing bs with
  | nil => cases h; exact ⟨rfl, rfl⟩
  | cons d r ih =>
    simp only [pack, bind_eq_ok] at h
    obtain ⟨a, ha, b, hb, e⟩ := h
    cases e
    have hr : ∀ m ∈ r.flatMap Decl.named, ∀ v, memberValue env m.1 m.2.2 = some v → 0 ≤ v ∧ v < 2 ^ m.2.1 :=
      fun m hm => hf m (by rw [List.flatMap_cons, List.mem_append]; exact .inr hm)
    have hd : ∀ m ∈ d.named, ∀ v, memberValue env m.1 m.2.2 = some v → 0 ≤ v ∧ v < 2 ^ m.2.1 :=
      fun m hm => hf m (by rw [List.flatMap_cons, List.mem_append]; exact .inl hm)
    obtain ⟨ih1, ih2⟩ := ih b (fun x hx => hw x (List.mem_cons_of_mem _ hx)) hb hr
    have hl := packDecl_length L env d a ha
    refine ⟨?_, by rw [List.length_append, hl, ih2]; rfl⟩
    rw [List.append_assoc, unpack_cons _ _ _ _ hl, ih1, List.flatMap_cons, List.map_append]
    cases d with
    | uint name n =>
      simp only [packDecl_uint, bind_eq_ok, packUInt_eq_ok] at ha
      obtain ⟨v, hv, ⟨h0, h1⟩, rfl⟩ := ha
      have hlt : v.toNat < 256 ^ n := (Int.toNat_lt h0).2 (by rw [Int.natCast_pow]; exact h1)
      simp [Decl.named, attr_memberValue.1 hv, beNat_be_of_lt hlt, -beNat_be]
    | bits l =>
      simp only [packDecl_bits, bind_eq_ok] at ha
      obtain ⟨x, hx, e⟩ := ha
      cases e
      have hw8 : bitsWidth l % 8 = 0 := hw (.bits l) (List.mem_cons_self ..)
      have hlt := packBits_lt L env l x hx
      rw [pow8 _ hw8] at hlt
      simp only [leNat_le _ _ hlt, unpackBits_packBits L env l x hx hd, ok_bind, Decl.named]
    | pad n => rfl
    | const c =>
      cases ha
      simp [Decl.named]

/-- A constant member that does not have its value is refused: data of another structure is not decoded. -/
theorem C48_const (pre : List Decl) (c : Bytes) (post : List Decl) (bs : Bytes) (hl : structSize pre + c.length ≤ bs.length)
    (hc : (bs.drop (structSize pre)).take c.length ≠ c) : ∃ e, unpack (pre ++ .const c :: post) bs = .error e := by
  induction pre generalizing bs with
  | nil =>
    refine ⟨.instruct, ?_⟩
    simp only [structSize, List.drop_zero] at hc hl
    have h1 : ¬ bs.length < (Decl.const c).size := by simp only [Decl.size]; omega
    have h2 : ¬ bs.take (Decl.const c).size = c := hc
    simp only [List.nil_append, unpack, if_neg h1, if_neg h2]; rfl
  | cons d r ih =>
    simp only [structSize] at hl hc
    obtain ⟨e, he⟩ := ih (bs.drop d.size) (by simp only [List.length_drop]; omega) (by rwa [List.drop_drop])
    have h1 : ¬ bs.length < d.size := by omega
    simp only [List.cons_append, unpack, if_neg h1, he]
    cases d with
    | uint name n => exact ⟨e, rfl⟩
    | bits l => exact ⟨e, rfl⟩
    | pad n => exact ⟨e, rfl⟩
    | const c' =>
      by_cases h' : List.take (Decl.const c').size bs = c'
      · exact ⟨e, by simp only [if_pos h']; rfl⟩
      · exact ⟨.instruct, by simp only [if_neg h']; rfl⟩

example : ∃ e, unpack [.uint "a" 1, .const [0x0A], .uint "b" 1] [7, 0x0B, 9] = .error e := ⟨_, rfl⟩

/-- **C48**, padding.  Reading the padding as if it were members without a name gives zeros. -/
theorem C48_padding (L : Lib) (env : Attrs) (decls : List Decl) (bs rest : Bytes)
    (hw : ∀ d ∈ decls, d.WellFormed) (h : pack L env decls = .ok bs)
    (hn : ∀ m ∈ decls.flatMap Decl.named, m.1 ≠ "") :
    ∃ vs, unpack (decls.map Decl.reveal) (bs ++ rest) = .ok (vs, rest) ∧ ∀ o ∈ vs, o.1 = "" → o.2 = 0 := by
  induction decls generalizing bs with
  | nil => cases h; exact ⟨[], rfl, by simp⟩
  | cons d r ih =>
    simp only [pack, bind_eq_ok] at h
    obtain ⟨a, ha, b, hb, e⟩ := h
    cases e
    have hr : ∀ m ∈ r.flatMap Decl.named, m.1 ≠ "" :=
      fun m hm => hn m (by rw [List.flatMap_cons, List.mem_append]; exact .inr hm)
    have hd : ∀ m ∈ d.named, m.1 ≠ "" :=
      fun m hm => hn m (by rw [List.flatMap_cons, List.mem_append]; exact .inl hm)
    obtain ⟨vs, ih1, ih2⟩ := ih b (fun x hx => hw x (List.mem_cons_of_mem _ hx)) hb hr
    have hl : a.length = d.reveal.size := (packDecl_length L env d a ha).trans (reveal_size d).symm
    rw [List.append_assoc, List.map_cons, unpack_cons _ _ _ _ hl, ih1]
    cases d with
    | uint name n =>
      refine ⟨_, rfl, ?_⟩
      intro o ho he
      rcases List.mem_append.1 ho with ho | ho
      · rw [List.mem_singleton] at ho
        subst ho
        exact absurd he (hd (name, 8 * n, none) (by simp [Decl.named]))
      · exact ih2 o ho he
    | bits l =>
      simp only [packDecl_bits, bind_eq_ok] at ha
      obtain ⟨x, hx, e⟩ := ha
      cases e
      have hw8 : bitsWidth l % 8 = 0 := hw (.bits l) (List.mem_cons_self ..)
      have hlt := packBits_lt L env l x hx
      rw [pow8 _ hw8] at hlt
      refine ⟨_, rfl, ?_⟩
      intro o ho he
      rcases List.mem_append.1 ho with ho | ho
      · simp only [leNat_le _ _ hlt] at ho
        exact unpackBits_reveal L env l x hx hd o ho he
      · exact ih2 o ho he
    | pad n =>
      cases ha
      refine ⟨_, rfl, ?_⟩
      intro o ho he
      rcases List.mem_append.1 ho with ho | ho
      · rw [List.mem_singleton] at ho
        subst ho
        have : ∀ n, beNat (zeros n) = 0 := by
          intro n
          induction n with
          | zero => rfl
          | succ n ih => simp [zeros_succ, beNat, ih]
        exact this n
      · exact ih2 o ho he
    | const c =>
      cases ha
      exact ⟨vs, by simp [Decl.reveal], ih2⟩

/-- The hypotheses are met by the declaration of READ(10), which has bit fields, padding and integers. -/
example : ∃ bs, pack .truncating [("logical_block_address", 0x01020304), ("transfer_length", 5)] Cdb.read10Fields = .ok bs ∧
    (∀ d ∈ Cdb.read10Fields, d.WellFormed) ∧ (∀ m ∈ Cdb.read10Fields.flatMap Decl.named, m.1 ≠ "") ∧
    (∀ m ∈ Cdb.read10Fields.flatMap Decl.named, ∀ v,
      memberValue [("logical_block_address", 0x01020304), ("transfer_length", 5)] m.1 m.2.2 = some v →
        0 ≤ v ∧ v < 2 ^ m.2.1) := by
  refine ⟨_, rfl, ?_, by decide, ?_⟩
  · simp [Cdb.read10Fields, Decl.WellFormed, Cdb.opcode, Cdb.control, bitsWidth, BitDecl.width, Cdb.groupNumber]
  · simp [Cdb.read10Fields, Cdb.opcode, Cdb.control, Decl.named, BitDecl.named, Cdb.groupNumber, memberValue, List.lookup]

/-! ## Positional structures -/

theorem packAt_length_le (L : Lib) (fs : List (String × Ref × Int)) (buf out : Bytes)
    (hw : ∀ f ∈ fs, f.2.1.WellFormed) (h : packAt L fs buf = .ok out) : buf.length ≤ out.length := by
  induction fs generalizing buf with
  | nil => cases h; exact Nat.le_refl _
  | cons f fs ih =>
    obtain ⟨name, r, v⟩ := f
    simp only [packAt, bind_eq_ok] at h
    obtain ⟨n, _, h⟩ := h
    have h1 := ih _ (fun x hx => hw x (List.mem_cons_of_mem _ hx)) h
    rw [write_length _ _ _ (hw _ (List.mem_cons_self ..))] at h1
    omega

theorem packAt_keeps (L : Lib) (fs : List (String × Ref × Int)) (buf out : Bytes) (s : Ref)
    (hw : ∀ f ∈ fs, f.2.1.WellFormed) (h : packAt L fs buf = .ok out) (hs : s.WellFormed)
    (hd : ∀ f ∈ fs, s.Disjoint f.2.1) (hlen : s.stop ≤ buf.length) : s.read out = s.read buf := by
  induction fs generalizing buf with
  | nil => cases h; rfl
  | cons f fs ih =>
    obtain ⟨name, r, v⟩ := f
    simp only [packAt, bind_eq_ok] at h
    obtain ⟨n, _, h⟩ := h
    have hr : r.WellFormed := hw (name, r, v) (List.mem_cons_self ..)
    rw [ih _ (fun x hx => hw x (List.mem_cons_of_mem _ hx)) h (fun x hx => hd x (List.mem_cons_of_mem _ hx))
      (by rw [write_length _ _ _ hr]; omega)]
    exact read_write_other _ _ _ _ hr hs (hd (name, r, v) (List.mem_cons_self ..)) hlen

/-- **C48**, positional structures.  If the places of the fields are pairwise disjoint, then every field whose value fits
is read back as the value it was given, in any order of declaration and even with more bytes appended, and the packed
size is the end of the last field. -/
theorem C48_buffer (L : Lib) (fs : List (String × Ref × Int)) (out rest : Bytes)
    (hw : ∀ f ∈ fs, f.2.1.WellFormed) (hd : fs.Pairwise fun f g => f.2.1.Disjoint g.2.1)
    (h : packAt L fs [] = .ok out) :
    (∀ f ∈ fs, 0 ≤ f.2.2 → f.2.2 < 2 ^ f.2.1.width → f.2.1.read (out ++ rest) = .ok f.2.2.toNat) ∧
    (∀ f ∈ fs, f.2.1.stop ≤ out.length) ∧ (fs ≠ [] → ∃ f ∈ fs, out.length = f.2.1.stop) := by
  have hext : ∀ (r : Ref) (a : Bytes), r.stop ≤ a.length → r.read (a ++ rest) = r.read a := by
    intro r a hl
    cases r with
    | bytes lo hi =>
      simp only [Ref.stop] at hl
      simp only [Ref.read, List.length_append]
      rw [if_neg (by omega), if_neg (by omega)]
      simp [slice, List.take_append_of_le_length hl]
    | bits i lo hi =>
      simp only [Ref.stop] at hl
      simp only [Ref.read, List.length_append]
      rw [if_neg (by omega), if_neg (by omega)]
      simp [List.getD_eq_getElem?_getD, List.getElem?_append_left (show i < a.length by omega)]
  have hsz : ∀ (fs : List (String × Ref × Int)) (buf out : Bytes), (∀ f ∈ fs, f.2.1.WellFormed) →
      packAt L fs buf = .ok out → (∀ f ∈ fs, f.2.1.stop ≤ out.length) ∧
        (out.length = buf.length ∨ ∃ f ∈ fs, out.length = f.2.1.stop) := by
    intro fs
    induction fs with
    | nil => intro buf out _ h; cases h; exact ⟨by simp, .inl rfl⟩
    | cons f fs ih =>
      intro buf out hw h
      obtain ⟨name, r, v⟩ := f
      simp only [packAt, bind_eq_ok] at h
      obtain ⟨n, _, h⟩ := h
      have hr : r.WellFormed := hw (name, r, v) (List.mem_cons_self ..)
      have hw' := fun x hx => hw x (List.mem_cons_of_mem _ hx)
      obtain ⟨h1, h2⟩ := ih _ _ hw' h
      have h3 := packAt_length_le L fs _ _ hw' h
      have h4 := write_length buf n r hr
      refine ⟨?_, ?_⟩
      · intro f hf
        rcases List.mem_cons.1 hf with rfl | hf
        · show r.stop ≤ out.length
          omega
        · exact h1 f hf
      · rcases h2 with h2 | ⟨f, hf, h2⟩
        · by_cases hb : r.stop ≤ buf.length
          · left; omega
          · exact .inr ⟨(name, r, v), List.mem_cons_self .., by show out.length = r.stop; omega⟩
        · exact .inr ⟨f, List.mem_cons_of_mem _ hf, h2⟩
  have hval : ∀ (fs : List (String × Ref × Int)) (buf out : Bytes), (∀ f ∈ fs, f.2.1.WellFormed) →
      (fs.Pairwise fun f g => f.2.1.Disjoint g.2.1) → packAt L fs buf = .ok out →
      ∀ f ∈ fs, 0 ≤ f.2.2 → f.2.2 < 2 ^ f.2.1.width → f.2.1.read out = .ok f.2.2.toNat := by
    intro fs
    induction fs with
    | nil => intro _ _ _ _ _ f hf; cases hf
    | cons g fs ih =>
      intro buf out hw hd h f hf h0 hlt
      obtain ⟨name, r, v⟩ := g
      simp only [packAt, bind_eq_ok] at h
      obtain ⟨n, hn, h⟩ := h
      have hr : r.WellFormed := hw (name, r, v) (List.mem_cons_self ..)
      have hw' := fun x hx => hw x (List.mem_cons_of_mem _ hx)
      rw [List.pairwise_cons] at hd
      rcases List.mem_cons.1 hf with rfl | hf
      · rw [packAt_keeps L fs _ _ r hw' h hr hd.1 (by rw [write_length _ _ _ hr]; omega)]
        have := L.enc_lt _ _ _ hn
        rw [L.enc_int h0 hlt] at hn
        cases hn
        exact read_write_self buf _ r hr this
      · exact ih _ _ hw' hd.2 h f hf h0 hlt
  obtain ⟨h1, h2⟩ := hsz fs [] out hw h
  refine ⟨?_, h1, ?_⟩
  · intro f hf h0 hlt
    rw [hext _ _ (h1 f hf)]
    exact hval fs [] out hw hd h f hf h0 hlt
  · intro hne
    rcases h2 with h2 | h2
    · obtain ⟨f, hf⟩ := List.exists_mem_of_ne_nil fs hne
      have := h1 f hf
      have hwf := hw f hf
      refine ⟨f, hf, ?_⟩
      simp only [List.length_nil] at h2
      omega
    · exact h2

/-- The hypotheses are met by the declaration of LOG SENSE. -/
example : ∃ out, packAt .truncating
      ([("opcode", Ref.bytes 0 1, 0x4D), ("page", .bits 2 0 6, 0x0D), ("sub", .bytes 3 4, 7), ("alloc", .bytes 7 9, 600)])
      [] = .ok out ∧ out = [0x4D, 0, 0x0D, 7, 0, 0, 0, 2, 0x58] ∧
    ([("opcode", Ref.bytes 0 1, 0x4D), ("page", .bits 2 0 6, 0x0D), ("sub", .bytes 3 4, 7), ("alloc", .bytes 7 9, 600)] :
      List (String × Ref × Int)).Pairwise (fun f g => f.2.1.Disjoint g.2.1) := by
  refine ⟨_, rfl, rfl, ?_⟩
  simp only [List.pairwise_cons, List.mem_cons, List.not_mem_nil, Ref.Disjoint, or_false, forall_eq_or_imp, forall_eq,
    Ref.Has]
  refine ⟨⟨?_, ?_, ?_⟩, ⟨?_, ?_⟩, ?_, ?_, ?_⟩ <;> first | (intro i b; omega) | simp

end Verif
