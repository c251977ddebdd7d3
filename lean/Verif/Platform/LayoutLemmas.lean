import Verif.Platform.Layout
/-! # Lemmas about raw blocks and memory -/

namespace Verif.Platform

@[simp] theorem native_length (a : Abi) (n v : Nat) : (native a n v).length = n := by
  unfold native; split <;> simp

theorem nativeNat_native {a : Abi} {n v : Nat} (h : v < 256 ^ n) : nativeNat a (native a n v) = v := by
  unfold nativeNat native
  split
  · rw [List.reverse_reverse, beNat_be_of_lt h]
  · exact beNat_be_of_lt h

theorem nativeNat_lt (a : Abi) (bs : Bytes) : nativeNat a bs < 256 ^ bs.length := by
  unfold nativeNat
  split
  · have := beNat_lt bs.reverse; rwa [List.length_reverse] at this
  · exact beNat_lt bs

@[simp] theorem splice_length (raw new : Bytes) (off : Nat) : (splice raw off new).length = raw.length := by
  simp [splice]

theorem getElem?_splice (raw new : Bytes) (off i : Nat) (h : off + new.length ≤ raw.length) :
    (splice raw off new)[i]? = if off ≤ i ∧ i < off + new.length then new[i - off]? else raw[i]? := by
  unfold splice
  rw [List.getElem?_mapIdx]
  split
  · rename_i hi
    rw [List.getElem?_eq_getElem (show i < raw.length by omega), List.getElem?_eq_getElem (show i - off < new.length by omega)]
    simp
  · rename_i hi
    cases raw[i]? <;> simp

theorem getElem?_splice_other (raw new : Bytes) (off i : Nat) (h : i < off ∨ off + new.length ≤ i) :
    (splice raw off new)[i]? = raw[i]? := by
  unfold splice
  rw [List.getElem?_mapIdx]
  cases raw[i]? with
  | none => rfl
  | some b => simp only [Option.map_some]; rw [if_neg (by omega)]

theorem getElem?_slice (raw : Bytes) (x y i : Nat) :
    (slice raw x y)[i]? = if x + i < y then raw[x + i]? else none := by
  unfold slice
  rw [List.getElem?_drop, List.getElem?_take]

theorem slice_splice_same {raw new : Bytes} {off : Nat} (h : off + new.length ≤ raw.length) :
    slice (splice raw off new) off (off + new.length) = new := by
  apply List.ext_getElem?
  intro i
  rw [getElem?_slice]
  split
  · rw [getElem?_splice _ _ _ _ h, if_pos (by omega), Nat.add_sub_cancel_left]
  · rw [List.getElem?_eq_none (by omega)]

theorem slice_splice_other {raw new : Bytes} {off x y : Nat}
    (hd : y ≤ off ∨ off + new.length ≤ x) : slice (splice raw off new) x y = slice raw x y := by
  apply List.ext_getElem?
  intro i
  rw [getElem?_slice, getElem?_slice]
  split
  · rw [getElem?_splice_other _ _ _ _ (by omega)]
  · rfl

/-- The slot lies inside a block of `n` bytes. -/
def Slot.Inside (s : Slot) (n : Nat) : Prop := s.off + s.size ≤ n

instance (s : Slot) (n : Nat) : Decidable (s.Inside n) := inferInstanceAs (Decidable (_ ≤ _))

/-- The slots do not overlap. -/
def Slot.Apart (s t : Slot) : Prop := s.off + s.size ≤ t.off ∨ t.off + t.size ≤ s.off

instance (s t : Slot) : Decidable (s.Apart t) := inferInstanceAs (Decidable (_ ∨ _))

@[simp] theorem store_length (a : Abi) (s : Slot) (v : Int) (raw : Bytes) : (store a s v raw).length = raw.length := by
  unfold store; exact splice_length ..

@[simp] theorem storeAt_length (s : Slot) (i : Nat) (b : UInt8) (raw : Bytes) :
    (storeAt s i b raw).length = raw.length := splice_length ..

theorem load_store_other {a : Abi} {s t : Slot} {v : Int} {raw : Bytes}
    (h : s.Apart t) : load a t (store a s v raw) = load a t raw := by
  unfold load store
  rw [slice_splice_other (by rw [native_length]; unfold Slot.Apart at h; omega)]

theorem load_storeAt_other {a : Abi} {s t : Slot} {i : Nat} {b : UInt8} {raw : Bytes}
    (hi : i < s.size) (h : s.Apart t) : load a t (storeAt s i b raw) = load a t raw := by
  unfold load storeAt
  rw [slice_splice_other (by simp only [List.length_singleton]; unfold Slot.Apart at h; omega)]

theorem slice_store_other {a : Abi} {s : Slot} {v : Int} {raw : Bytes} {x y : Nat}
    (h : s.off + s.size ≤ x ∨ y ≤ s.off) : slice (store a s v raw) x y = slice raw x y := by
  unfold store
  rw [slice_splice_other (by rw [native_length]; omega)]

/-- The value `v` fits the slot. -/
def Slot.Holds (s : Slot) (v : Int) : Prop :=
  if s.signed then -(2 ^ (8 * s.size - 1) : Int) ≤ v ∧ v < 2 ^ (8 * s.size - 1) else 0 ≤ v ∧ v < 256 ^ s.size

theorem load_store_same {a : Abi} {s : Slot} {v : Int} {raw : Bytes} (hs : s.Inside raw.length)
    (hv : s.Holds v) (hz : 0 < s.size) : load a s (store a s v raw) = v := by
  have hpow : (256 : Int) ^ s.size = 2 ^ (8 * s.size) := by
    rw [show (256 : Int) = 2 ^ 8 by rfl, ← Int.pow_mul]
  have hpos : (0 : Int) < 256 ^ s.size := Int.pow_pos (by decide)
  have hm0 : 0 ≤ v % 256 ^ s.size := Int.emod_nonneg _ (by omega)
  have hm1 : v % 256 ^ s.size < 256 ^ s.size := Int.emod_lt_of_pos _ hpos
  have hlt : (v % 256 ^ s.size).toNat < 256 ^ s.size := by
    rw [Int.toNat_lt hm0, Int.natCast_pow]; exact hm1
  unfold load store
  have h2 := slice_splice_same (raw := raw) (off := s.off) (new := native a s.size (v % 256 ^ s.size).toNat)
    (by rw [native_length]; exact hs)
  rw [native_length] at h2
  simp only [h2, nativeNat_native hlt]
  unfold Slot.Holds at hv
  split
  · rename_i hsig
    rw [if_pos hsig] at hv
    have hhalf : (2 : Int) ^ (8 * s.size) = 2 * 2 ^ (8 * s.size - 1) := by
      rw [← Int.pow_succ']; congr 1; omega
    unfold toSigned
    have hc : (((v % 256 ^ s.size).toNat : Nat) : Int) = v % 256 ^ s.size := Int.toNat_of_nonneg hm0
    have hcast : ((v % 256 ^ s.size).toNat < 2 ^ (8 * s.size - 1)) ↔ v % 256 ^ s.size < 2 ^ (8 * s.size - 1) := by
      rw [Int.toNat_lt hm0, Int.natCast_pow]; rfl
    by_cases h0 : 0 ≤ v
    · have : v % 256 ^ s.size = v := Int.emod_eq_of_lt h0 (by rw [hpow, hhalf]; omega)
      rw [if_pos (hcast.2 (by rw [this]; exact hv.2)), hc, this]
    · have : v % 256 ^ s.size = v + 256 ^ s.size := by
        rw [← Int.add_emod_right]
        exact Int.emod_eq_of_lt (by rw [hpow, hhalf]; omega) (by omega)
      rw [if_neg (fun hh => by have := hcast.1 hh; rw [‹v % 256 ^ s.size = _›, hpow, hhalf] at this; omega), hc, this, hpow]
      omega
  · rename_i hsig
    rw [if_neg hsig] at hv
    rw [Int.toNat_of_nonneg hm0, Int.emod_eq_of_lt hv.1 hv.2]

theorem slice_zeros (n x y : Nat) : slice (zeros n) x y = zeros (min y n - x) := by
  simp [slice, zeros]

theorem be_zero (n : Nat) : be n 0 = zeros n := by
  induction n with
  | zero => rfl
  | succ n ih => simp [be, ih, zeros_succ]

theorem beNat_zeros (n : Nat) : beNat (zeros n) = 0 := by
  rw [← be_zero, beNat_be]; simp

theorem load_zeros (a : Abi) (s : Slot) (n : Nat) : load a s (zeros n) = 0 := by
  unfold load
  rw [slice_zeros]
  have : nativeNat a (zeros (min (s.off + s.size) n - s.off)) = 0 := by
    unfold nativeNat
    split
    · rw [show (zeros (min (s.off + s.size) n - s.off)).reverse = zeros (min (s.off + s.size) n - s.off) by
        simp [zeros], beNat_zeros]
    · exact beNat_zeros _
  simp only [this]
  unfold toSigned
  have : (0 : Nat) < 2 ^ (8 * s.size - 1) := Nat.pow_pos (by decide)
  simp [this]

/-! ## Memory -/

@[simp] theorem readMem_length (m : Mem) (x n : Nat) : (readMem m x n).length = n := by simp [readMem]

theorem getElem?_readMem (m : Mem) (x n i : Nat) : (readMem m x n)[i]? = if i < n then some (m (x + i)) else none := by
  unfold readMem
  by_cases h : i < n
  · simp [h]
  · simp [h]

theorem readMem_congr {m m' : Mem} {x n : Nat} (h : ∀ y, x ≤ y → y < x + n → m y = m' y) :
    readMem m x n = readMem m' x n := by
  unfold readMem
  apply List.map_congr_left
  intro i hi
  rw [List.mem_range] at hi
  exact h _ (by omega) (by omega)

theorem readMem_writeMem_same (m : Mem) (x : Nat) (bs : Bytes) : readMem (writeMem m x bs) x bs.length = bs := by
  apply List.ext_getElem?
  intro i
  rw [getElem?_readMem]
  split
  · rename_i h
    simp only [writeMem]
    rw [if_pos (by omega), show x + i - x = i by omega, List.getElem?_eq_getElem h]; rfl
  · rw [List.getElem?_eq_none (by omega)]

theorem readMem_writeMem_other {m : Mem} {x y n : Nat} {bs : Bytes} (h : y + n ≤ x ∨ x + bs.length ≤ y) :
    readMem (writeMem m x bs) y n = readMem m y n := by
  apply readMem_congr
  intro z h1 h2
  simp only [writeMem]
  rw [if_neg (by omega)]

theorem readMem_zero (m : Mem) (x : Nat) : readMem m x 0 = [] := rfl

end Verif.Platform
