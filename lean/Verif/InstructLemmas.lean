import Verif.Spec.Instruct
import Verif.Cdb.Lemmas

/-!
# Lemmas about declared structures
-/

set_option linter.unusedSimpArgs false

namespace Verif

@[simp] theorem le_length (n v : Nat) : (le n v).length = n := by
  induction n generalizing v with
  | zero => rfl
  | succ n ih => simp [le, ih]

theorem leNat_le (n v : Nat) (h : v < 256 ^ n) : leNat (le n v) = v := by
  induction n generalizing v with
  | zero => simp [le, leNat] at *; omega
  | succ n ih =>
    have hv : v / 256 < 256 ^ n := by
      rw [Nat.pow_succ] at h
      exact Nat.div_lt_of_lt_mul (by omega)
    simp only [le, leNat, ih _ hv, byte_toNat, Nat.mod_mod]
    omega

theorem packBits_lt (L : Lib) (env : Attrs) (l : List BitDecl) (x : Nat) (h : packBits L env l = .ok x) :
    x < 2 ^ bitsWidth l := by
  induction l generalizing x with
  | nil => cases h; simp [bitsWidth]
  | cons d r ih =>
    cases d with
    | pad w =>
      simp only [packBits, bind_eq_ok] at h
      obtain ⟨y, hy, e⟩ := h
      cases e
      have := ih y hy
      simp only [bitsWidth, BitDecl.width, Nat.pow_add]
      rw [Nat.mul_comm]
      exact Nat.mul_lt_mul_of_pos_left this (Nat.pow_pos (by decide))
    | field name w d =>
      simp only [packBits, bind_eq_ok] at h
      obtain ⟨v, _, a, ha, y, hy, e⟩ := h
      cases e
      have h1 := ih y hy
      have h2 := L.enc_lt _ _ _ ha
      simp only [bitsWidth, BitDecl.width, Nat.pow_add]
      calc a + y * 2 ^ w < 2 ^ w + y * 2 ^ w := by omega
        _ = (y + 1) * 2 ^ w := by rw [Nat.add_mul, Nat.one_mul, Nat.add_comm]
        _ ≤ 2 ^ bitsWidth r * 2 ^ w := Nat.mul_le_mul_right _ h1
        _ = 2 ^ w * 2 ^ bitsWidth r := Nat.mul_comm ..

theorem packDecl_length (L : Lib) (env : Attrs) (d : Decl) (bs : Bytes) (h : packDecl L env d = .ok bs) :
    bs.length = d.size := by
  cases d with
  | uint name n =>
    simp only [packDecl_uint, bind_eq_ok, packUInt_eq_ok] at h
    obtain ⟨_, _, _, rfl⟩ := h
    simp [Decl.size]
  | bits l =>
    simp only [packDecl_bits, bind_eq_ok] at h
    obtain ⟨_, _, e⟩ := h
    cases e
    simp [Decl.size]
  | pad n => cases h; simp [Decl.size]
  | const c => cases h; rfl

theorem attr_memberValue {env : Attrs} {name : String} {d : Option Int} {v : Int} :
    attr env name d = .ok v ↔ memberValue env name d = some v := by
  unfold attr memberValue
  cases env.lookup name with
  | some x => simp
  | none => cases d <;> simp

theorem mul_div_pow (y w : Nat) : y * 2 ^ w / 2 ^ w = y := Nat.mul_div_cancel _ (Nat.pow_pos (by decide))

theorem add_mul_div_pow {a w : Nat} (y : Nat) (h : a < 2 ^ w) : (a + y * 2 ^ w) / 2 ^ w = y := by
  rw [Nat.add_mul_div_right _ _ (Nat.pow_pos (by decide)), Nat.div_eq_of_lt h, Nat.zero_add]

theorem add_mul_mod_pow {a w : Nat} (y : Nat) (h : a < 2 ^ w) : (a + y * 2 ^ w) % 2 ^ w = a := by
  rw [Nat.add_mul_mod_self_right, Nat.mod_eq_of_lt h]

/-- The number that stands for a member. -/
abbrev memberNat (env : Attrs) (m : String × Nat × Option Int) : String × Nat :=
  (m.1, ((memberValue env m.1 m.2.2).getD 0).toNat)

/-- What is read from a packed bit group: for each named member its value, if all values fit. -/
theorem unpackBits_packBits (L : Lib) (env : Attrs) (l : List BitDecl) (x : Nat) (h : packBits L env l = .ok x)
    (hf : ∀ m ∈ l.flatMap BitDecl.named, ∀ v, memberValue env m.1 m.2.2 = some v → 0 ≤ v ∧ v < 2 ^ m.2.1) :
    unpackBits l x = (l.flatMap BitDecl.named).map (memberNat env) := by
  induction l generalizing x with
  | nil => rfl
  | cons d r ih =>
    have hr : ∀ m ∈ r.flatMap BitDecl.named, ∀ v, memberValue env m.1 m.2.2 = some v → 0 ≤ v ∧ v < 2 ^ m.2.1 :=
      fun m hm => hf m (by rw [List.flatMap_cons, List.mem_append]; exact .inr hm)
    cases d with
    | pad w =>
      simp only [packBits, bind_eq_ok] at h
      obtain ⟨y, hy, e⟩ := h
      cases e
      simp only [unpackBits, mul_div_pow]
      exact ih y hy hr
    | field name w d =>
      simp only [packBits, bind_eq_ok] at h
      obtain ⟨v, hv, a, ha, y, hy, e⟩ := h
      cases e
      have h2 := L.enc_lt _ _ _ ha
      have hm := attr_memberValue.1 hv
      have hfit := hf (name, w, d) (by rw [List.flatMap_cons, List.mem_append]; exact .inl (List.mem_singleton.2 rfl)) v hm
      rw [L.enc_int hfit.1 hfit.2] at ha
      cases ha
      simp only [unpackBits, add_mul_div_pow y h2, add_mul_mod_pow y h2, List.flatMap_cons, List.map_append, BitDecl.named,
        List.map_cons, List.map_nil, List.singleton_append, ih y hy hr, memberNat, hm, Option.getD_some]

theorem reveal_width (l : List BitDecl) : bitsWidth (l.map BitDecl.reveal) = bitsWidth l := by
  induction l with
  | nil => rfl
  | cons d r ih => cases d <;> simp [bitsWidth, BitDecl.reveal, BitDecl.width, ih]

theorem reveal_size (d : Decl) : d.reveal.size = d.size := by
  cases d <;> simp [Decl.reveal, Decl.size, reveal_width]

/-- Padding bits read as members are zero. -/
theorem unpackBits_reveal (L : Lib) (env : Attrs) (l : List BitDecl) (x : Nat) (h : packBits L env l = .ok x)
    (hn : ∀ m ∈ l.flatMap BitDecl.named, m.1 ≠ "") :
    ∀ o ∈ unpackBits (l.map BitDecl.reveal) x, o.1 = "" → o.2 = 0 := by
  induction l generalizing x with
  | nil => simp [unpackBits]
  | cons d r ih =>
    have hr : ∀ m ∈ r.flatMap BitDecl.named, m.1 ≠ "" := fun m hm => hn m (by simp at hm ⊢; exact .inr hm)
    cases d with
    | pad w =>
      simp only [packBits, bind_eq_ok] at h
      obtain ⟨y, hy, e⟩ := h
      cases e
      intro o ho he
      simp only [List.map_cons, BitDecl.reveal, unpackBits, mul_div_pow, List.mem_cons] at ho
      rcases ho with rfl | ho
      · simp
      · exact ih y hy hr o ho he
    | field name w d =>
      simp only [packBits, bind_eq_ok] at h
      obtain ⟨v, hv, a, ha, y, hy, e⟩ := h
      cases e
      have h2 := L.enc_lt _ _ _ ha
      intro o ho he
      simp only [List.map_cons, BitDecl.reveal, unpackBits, add_mul_div_pow y h2, List.mem_cons] at ho
      rcases ho with rfl | ho
      · exact absurd he (hn (name, w, d) (by simp [BitDecl.named]))
      · exact ih y hy hr o ho he

theorem pow8 (w : Nat) (h : w % 8 = 0) : 2 ^ w = 256 ^ (w / 8) := by
  have : w = 8 * (w / 8) := by omega
  conv => lhs; rw [this, Nat.pow_mul]

/-! ## Positional structures -/

theorem grow_length (buf : Bytes) (n : Nat) : (grow buf n).length = max buf.length n := by
  simp [grow]; omega

theorem grow_getD (buf : Bytes) (n j : Nat) : (grow buf n).getD j 0 = buf.getD j 0 := by
  simp only [grow, List.getD_eq_getElem?_getD, List.getElem?_append]
  split
  · rfl
  · rename_i h
    rw [List.getElem?_eq_none (l := buf) (by omega)]
    simp only [zeros, List.getElem?_replicate]
    split <;> rfl

theorem write_length (buf : Bytes) (v : Nat) (r : Ref) (hr : r.WellFormed) :
    (r.write buf v).length = max buf.length r.stop := by
  cases r with
  | bytes lo hi =>
    have h : lo < hi := hr
    have hg := grow_length buf hi
    simp only [Ref.write, setRange, List.length_append, List.length_take, List.length_drop, be_length, hg, Ref.stop]
    omega
  | bits i lo hi => simp [Ref.write, Ref.stop, grow_length]

theorem write_bytes_getD (buf : Bytes) (v lo hi j : Nat) (h : lo < hi) :
    ((Ref.bytes lo hi).write buf v).getD j 0 =
      if lo ≤ j ∧ j < hi then (be (hi - lo) v).getD (j - lo) 0 else buf.getD j 0 := by
  have hg := grow_length buf hi
  have hd := grow_getD buf hi j
  have hl : lo ≤ (grow buf hi).length := by omega
  simp only [Ref.write, setRange, List.append_assoc]
  rw [List.getD_eq_getElem?_getD, List.getElem?_append]
  split
  · rename_i h1
    rw [List.length_take] at h1
    rw [if_neg (by omega), ← hd, List.getD_eq_getElem?_getD, List.getElem?_take_of_lt (by omega)]
  · rename_i h1
    rw [List.length_take, Nat.min_eq_left hl] at h1
    rw [List.length_take, Nat.min_eq_left hl, List.getElem?_append]
    split
    · rename_i h2
      rw [be_length] at h2
      rw [if_pos (by omega), List.getD_eq_getElem?_getD]
    · rename_i h2
      rw [be_length] at h2
      rw [if_neg (by omega), be_length, List.getElem?_drop, ← hd, List.getD_eq_getElem?_getD]
      congr 2
      omega

theorem write_bits_getD (buf : Bytes) (v i lo hi j : Nat) :
    ((Ref.bits i lo hi).write buf v).getD j 0 = if j = i then setBits (buf.getD i 0) lo hi v else buf.getD j 0 := by
  simp only [Ref.write, grow_getD, List.getD_eq_getElem?_getD, List.getElem?_set]
  have hg := grow_length buf (i + 1)
  have hd := grow_getD buf (i + 1) j
  rw [List.getD_eq_getElem?_getD, List.getD_eq_getElem?_getD] at hd
  by_cases h : j = i
  · subst h
    rw [if_pos rfl, if_pos (by omega), if_pos rfl, hd]
    rfl
  · rw [if_neg (Ne.symm h), if_neg h, hd]

theorem slice_eq_map (bs : Bytes) (lo hi : Nat) (h : hi ≤ bs.length) :
    slice bs lo hi = (List.range (hi - lo)).map fun k => bs.getD (lo + k) 0 := by
  apply List.ext_getElem?
  intro k
  simp only [slice, List.getElem?_drop, List.getElem?_take, List.getElem?_map]
  by_cases hk : lo + k < hi
  · rw [if_pos hk, List.getElem?_range (by omega), List.getElem?_eq_getElem (by omega)]
    simp [List.getD_eq_getElem?_getD, List.getElem?_eq_getElem (show lo + k < bs.length by omega)]
  · rw [if_neg hk, List.getElem?_eq_none (by simp; omega)]
    rfl

theorem setBits_self (b : UInt8) (lo hi v : Nat) (hlo : lo ≤ hi) (hhi : hi ≤ 8) :
    getBits (setBits b lo hi v) lo hi = v % 2 ^ (hi - lo) := by
  have hb := byte_lt b
  have e : 2 ^ hi = 2 ^ (hi - lo) * 2 ^ lo := by rw [← Nat.pow_add]; congr 1; omega
  have h8 : (256 : Nat) = 2 ^ (8 - hi) * 2 ^ hi := by rw [← Nat.pow_add, show 8 - hi + hi = 8 by omega]
  have hq : b.toNat / 2 ^ hi < 2 ^ (8 - hi) := Nat.div_lt_of_lt_mul (by rw [Nat.mul_comm, ← h8]; exact hb)
  have hr : b.toNat % 2 ^ lo < 2 ^ lo := Nat.mod_lt _ (Nat.pow_pos (by decide))
  have hm : v % 2 ^ (hi - lo) < 2 ^ (hi - lo) := Nat.mod_lt _ (Nat.pow_pos (by decide))
  have hin : v % 2 ^ (hi - lo) * 2 ^ lo + b.toNat % 2 ^ lo < 2 ^ hi := by
    rw [e]
    calc _ < v % 2 ^ (hi - lo) * 2 ^ lo + 2 ^ lo := by omega
      _ = (v % 2 ^ (hi - lo) + 1) * 2 ^ lo := by rw [Nat.add_mul, Nat.one_mul]
      _ ≤ _ := Nat.mul_le_mul_right _ hm
  have htot : b.toNat / 2 ^ hi * 2 ^ hi + v % 2 ^ (hi - lo) * 2 ^ lo + b.toNat % 2 ^ lo < 256 := by
    calc _ < b.toNat / 2 ^ hi * 2 ^ hi + 2 ^ hi := by omega
      _ = (b.toNat / 2 ^ hi + 1) * 2 ^ hi := by rw [Nat.add_mul, Nat.one_mul]
      _ ≤ 2 ^ (8 - hi) * 2 ^ hi := Nat.mul_le_mul_right _ hq
      _ = 256 := h8.symm
  unfold getBits setBits
  rw [byte_toNat, Nat.mod_eq_of_lt htot, e, ← Nat.mul_assoc, ← Nat.add_mul, Nat.add_comm,
    Nat.add_mul_div_right _ _ (Nat.pow_pos (by decide)), Nat.div_eq_of_lt hr, Nat.zero_add,
    Nat.mul_comm (b.toNat / _), Nat.mul_add_mod, Nat.mod_mod]

theorem setBits_other (b : UInt8) (lo hi v lo' hi' : Nat) (hlo : lo ≤ hi) (hhi : hi ≤ 8) (hlo' : lo' ≤ hi')
    (hd : hi ≤ lo' ∨ hi' ≤ lo) : getBits (setBits b lo hi v) lo' hi' = getBits b lo' hi' := by
  have hb := byte_lt b
  have e : 2 ^ hi = 2 ^ (hi - lo) * 2 ^ lo := by rw [← Nat.pow_add]; congr 1; omega
  have h8 : (256 : Nat) = 2 ^ (8 - hi) * 2 ^ hi := by rw [← Nat.pow_add, show 8 - hi + hi = 8 by omega]
  have hq : b.toNat / 2 ^ hi < 2 ^ (8 - hi) := Nat.div_lt_of_lt_mul (by rw [Nat.mul_comm, ← h8]; exact hb)
  have hr : b.toNat % 2 ^ lo < 2 ^ lo := Nat.mod_lt _ (Nat.pow_pos (by decide))
  have hm : v % 2 ^ (hi - lo) < 2 ^ (hi - lo) := Nat.mod_lt _ (Nat.pow_pos (by decide))
  have hin : v % 2 ^ (hi - lo) * 2 ^ lo + b.toNat % 2 ^ lo < 2 ^ hi := by
    rw [e]
    calc _ < v % 2 ^ (hi - lo) * 2 ^ lo + 2 ^ lo := by omega
      _ = (v % 2 ^ (hi - lo) + 1) * 2 ^ lo := by rw [Nat.add_mul, Nat.one_mul]
      _ ≤ _ := Nat.mul_le_mul_right _ hm
  have htot : b.toNat / 2 ^ hi * 2 ^ hi + v % 2 ^ (hi - lo) * 2 ^ lo + b.toNat % 2 ^ lo < 256 := by
    calc _ < b.toNat / 2 ^ hi * 2 ^ hi + 2 ^ hi := by omega
      _ = (b.toNat / 2 ^ hi + 1) * 2 ^ hi := by rw [Nat.add_mul, Nat.one_mul]
      _ ≤ 2 ^ (8 - hi) * 2 ^ hi := Nat.mul_le_mul_right _ hq
      _ = 256 := h8.symm
  unfold getBits setBits
  rw [byte_toNat, Nat.mod_eq_of_lt htot]
  rcases hd with hd | hd
  · -- above: divide by 2^hi first
    have e2 : 2 ^ lo' = 2 ^ hi * 2 ^ (lo' - hi) := by rw [← Nat.pow_add]; congr 1; omega
    rw [e2, ← Nat.div_div_eq_div_mul, ← Nat.div_div_eq_div_mul]
    congr 2
    rw [Nat.add_assoc, Nat.add_comm, Nat.add_mul_div_right _ _ (Nat.pow_pos (by decide)), Nat.div_eq_of_lt hin,
      Nat.zero_add]
  · -- below: only the remainder modulo 2^lo matters
    have key : ∀ x, x / 2 ^ lo' % 2 ^ (hi' - lo') = x % 2 ^ lo / 2 ^ lo' % 2 ^ (hi' - lo') := by
      intro x
      have e3 : 2 ^ lo = 2 ^ lo' * (2 ^ (hi' - lo') * 2 ^ (lo - hi')) := by
        rw [← Nat.pow_add, ← Nat.pow_add]; congr 1; omega
      rw [e3, Nat.mod_mul_right_div_self, Nat.mod_mul_right_mod]
    rw [key, key b.toNat]
    congr 2
    rw [e, ← Nat.mul_assoc, ← Nat.add_mul, Nat.add_comm, Nat.add_mul_mod_self_right, Nat.mod_mod]

/-- A value stored at a reference is read back. -/
theorem read_write_self (buf : Bytes) (v : Nat) (r : Ref) (hr : r.WellFormed) (hv : v < 2 ^ r.width) :
    r.read (r.write buf v) = .ok v := by
  have hl := write_length buf v r hr
  cases r with
  | bytes lo hi =>
    have h : lo < hi := hr
    simp only [Ref.stop] at hl
    simp only [Ref.read]
    rw [if_neg (by omega), slice_eq_map _ _ _ (by omega)]
    have e : (List.range (hi - lo)).map (fun k => ((Ref.bytes lo hi).write buf v).getD (lo + k) 0) = be (hi - lo) v := by
      apply List.ext_getElem
      · simp
      · intro k h1 h2
        rw [be_length] at h2
        rw [List.getElem_map, List.getElem_range, write_bytes_getD _ _ _ _ _ h, if_pos (by omega),
          show lo + k - lo = k by omega, List.getD_eq_getElem?_getD, List.getElem?_eq_getElem (by simp; omega)]
        rfl
    rw [e, beNat_be_of_lt]
    simp only [Ref.width] at hv
    rwa [Nat.pow_mul] at hv
  | bits i lo hi =>
    obtain ⟨h1, h2⟩ := hr
    simp only [Ref.stop] at hl
    simp only [Ref.read]
    rw [if_neg (by omega), write_bits_getD, if_pos rfl, setBits_self _ _ _ _ (by omega) h2]
    simp only [Ref.width] at hv
    rw [Nat.mod_eq_of_lt hv]

theorem disjoint_bytes_bytes {a b c d : Nat} (h1 : a < b) (h2 : c < d) (h : (Ref.bytes a b).Disjoint (.bytes c d)) :
    b ≤ c ∨ d ≤ a := by
  have h3 := h a 0
  have h4 := h c 0
  simp only [Ref.Has] at h3 h4
  omega

/-- A value stored elsewhere does not change what is read. -/
theorem read_write_other (buf : Bytes) (v : Nat) (r s : Ref) (hr : r.WellFormed) (hs : s.WellFormed)
    (h : s.Disjoint r) (hlen : s.stop ≤ buf.length) : s.read (r.write buf v) = s.read buf := by
  have hl := write_length buf v r hr
  cases s with
  | bytes lo hi =>
    have hlo : lo < hi := hs
    simp only [Ref.stop] at hlen
    simp only [Ref.read]
    rw [if_neg (by omega), if_neg (by omega), slice_eq_map _ _ _ (by omega), slice_eq_map _ _ _ hlen]
    congr 2
    apply List.map_congr_left
    intro k hk
    rw [List.mem_range] at hk
    cases r with
    | bytes a b =>
      have := disjoint_bytes_bytes hs hr h
      rw [write_bytes_getD _ _ _ _ _ hr, if_neg (by omega)]
    | bits j a b =>
      obtain ⟨h1, h2⟩ := hr
      rw [write_bits_getD, if_neg]
      intro e
      exact h (lo + k) a ⟨⟨by omega, by omega, by omega⟩, ⟨e, by omega, h1⟩⟩
  | bits i lo hi =>
    obtain ⟨hs1, hs2⟩ := hs
    simp only [Ref.stop] at hlen
    simp only [Ref.read]
    rw [if_neg (by omega), if_neg (by omega)]
    cases r with
    | bytes a b =>
      rw [write_bytes_getD _ _ _ _ _ hr, if_neg]
      intro e
      exact h i lo ⟨⟨rfl, by omega, hs1⟩, ⟨e.1, e.2, by omega⟩⟩
    | bits j a b =>
      obtain ⟨h1, h2⟩ := hr
      rw [write_bits_getD]
      split
      · rename_i e
        subst e
        rw [setBits_other _ _ _ _ _ _ (by omega) h2 (by omega)]
        have h3 := h i lo
        have h4 := h i a
        simp only [Ref.Has, true_and] at h3 h4
        omega
      · rfl

end Verif
