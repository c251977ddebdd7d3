import Verif.Parse.Core
import Verif.Spec.Data
import Verif.InstructLemmas
/-! # Unpacking and positions in the data -/
set_option linter.unusedSimpArgs false

namespace Verif.Parse
open Verif.Spec

theorem getD_eq (b : Bytes) (i : Nat) (h : i < b.length) : b.getD i 0 = b[i] := by
  simp [h]

theorem slice_succ (b : Bytes) (i n : Nat) (h : i + n + 1 ≤ b.length) :
    slice b i (i + (n + 1)) = slice b i (i + n) ++ [b.getD (i + n) 0] := by
  unfold slice
  rw [getD_eq b (i + n) (by omega)]
  rw [show i + (n + 1) = (i + n) + 1 by omega, ← List.take_append_getElem (by omega : i + n < b.length)]
  rw [List.drop_append_of_le_length (by simp; omega)]

theorem beNat_snoc (a : Bytes) (x : UInt8) : beNat (a ++ [x]) = 256 * beNat a + x.toNat := by
  rw [beNat_append]; simp [beNat, Nat.mul_comm]

theorem beNat_slice (b : Bytes) (i n : Nat) (h : i + n ≤ b.length) : beNat (slice b i (i + n)) = num b i n := by
  induction n with
  | zero => simp [slice, num, beNat]
  | succ n ih => rw [slice_succ b i n (by omega), beNat_snoc, ih (by omega)]; rfl

theorem beNat_slice' (b : Bytes) (i j : Nat) (hij : i ≤ j) (h : j ≤ b.length) : beNat (slice b i j) = num b i (j - i) := by
  have := beNat_slice b i (j - i) (by omega)
  rwa [show i + (j - i) = j by omega] at this

theorem slice_bytesAt (b : Bytes) (i n : Nat) (h : i + n + 1 ≤ b.length) : slice b i (i + n + 1) = bytesAt b i (i + n) := by
  unfold bytesAt
  rw [show i + n + 1 - i = n + 1 by omega]
  induction n with
  | zero => rw [show i + 0 + 1 = i + (0 + 1) by omega, slice_succ b i 0 (by omega)]; simp [slice]
  | succ n ih =>
    rw [show i + (n + 1) + 1 = i + (n + 1 + 1) by omega, slice_succ b i (n + 1) (by omega), show i + (n + 1) = i + n + 1 by omega,
      ih (by omega), List.range_succ (n := n + 1), List.map_append]
    rfl

theorem num_lt (b : Bytes) (i n : Nat) : num b i n < 256 ^ n := by
  induction n with
  | zero => simp [num]
  | succ n ih =>
    have : byteAt b (i + n) < 256 := byte_lt _
    simp only [num, Nat.pow_succ]; omega

theorem num_one (b : Bytes) (i : Nat) : num b i 1 = byteAt b i := by simp [num]

theorem bitsAt_eq (b : Bytes) (i lo hi : Nat) (h : lo < hi) : getBits (b.getD i 0) lo hi = bitsAt b i (hi - 1) lo := by
  unfold getBits bitsAt byteAt
  rw [show hi - 1 + 1 - lo = hi - lo by omega]

/-- What a reference stands for in the data. -/
def refNum (b : Bytes) : Ref → Nat
  | .bytes lo hi => num b lo (hi - lo)
  | .bits i lo hi => bitsAt b i (hi - 1) lo

def Ref.Ok : Ref → Prop
  | .bytes lo hi => lo ≤ hi
  | .bits _ lo hi => lo < hi

theorem read_eq (b : Bytes) (r : Ref) (ho : Ref.Ok r) (h : r.stop ≤ b.length) : r.read b = .ok (refNum b r) := by
  cases r with
  | bytes lo hi => simp only [Ref.stop] at h; simp only [Ref.read, if_neg (Nat.not_lt.2 h), refNum]; rw [beNat_slice' b lo hi ho h]
  | bits i lo hi =>
    simp only [Ref.stop] at h
    simp only [Ref.read, if_neg (Nat.not_lt.2 h), refNum]
    rw [bitsAt_eq b i lo hi ho]

/-- The value of a field in the data. -/
def fieldVal (sg : Bool) (b : Bytes) : UField → Int
  | .u _ r => (refNum b r : Int)
  | .i _ r => intValue sg r (refNum b r)

theorem value_eq (sg : Bool) (b : Bytes) (f : UField) (ho : Ref.Ok f.ref) (h : f.ref.stop ≤ b.length) :
    f.value sg b = .ok (fieldVal sg b f) := by
  cases f with
  | u n r => simp only [UField.ref] at h ho; simp only [UField.value, fieldVal, read_eq b r ho h]; rfl
  | i n r => simp only [UField.ref] at h ho; simp only [UField.value, fieldVal, read_eq b r ho h]; rfl

theorem unpackFields_eq (sg : Bool) (fs : List UField) (b : Bytes) (ho : ∀ f ∈ fs, Ref.Ok f.ref) (h : fieldsEnd fs ≤ b.length) :
    unpackFields sg fs b = .ok (fs.map fun f => (f.name, fieldVal sg b f)) := by
  induction fs with
  | nil => rfl
  | cons f fs ih =>
    simp only [fieldsEnd] at h
    simp only [unpackFields, value_eq sg b f (ho f (by simp)) (by omega), ih (fun g hg => ho g (by simp [hg])) (by omega)]
    rfl

/-- Too short an input is refused. -/
theorem unpackFields_short (sg : Bool) (fs : List UField) (b : Bytes) (ho : ∀ f ∈ fs, Ref.Ok f.ref) (h : b.length < fieldsEnd fs) :
    ∃ e, unpackFields sg fs b = .error e := by
  induction fs with
  | nil => simp [fieldsEnd] at h
  | cons f fs ih =>
    simp only [fieldsEnd] at h
    by_cases hf : f.ref.stop ≤ b.length
    · obtain ⟨e, he⟩ := ih (fun g hg => ho g (by simp [hg])) (by omega)
      exact ⟨e, by simp only [unpackFields, value_eq sg b f (ho f (by simp)) hf, he]; rfl⟩
    · refine ⟨.truncated, ?_⟩
      have : f.value sg b = .error .truncated := by
        cases f with
        | u n r => cases r <;> simp only [UField.ref, Ref.stop] at hf <;> simp [UField.value, Ref.read, show _ from Nat.lt_of_not_le hf] <;> rfl
        | i n r => cases r <;> simp only [UField.ref, Ref.stop] at hf <;> simp [UField.value, Ref.read, show _ from Nat.lt_of_not_le hf] <;> rfl
      simp only [unpackFields, this]; rfl

/-! ## Sequential structures -/

/-- Little-endian number (bit groups longer than a byte). -/
def numLE (b : Bytes) (first : Nat) : (n : Nat) → Nat
  | 0 => 0
  | n + 1 => byteAt b first + 256 * numLE b (first + 1) n

/-- The members of a sequential structure by position. -/
def fieldsAt (b : Bytes) : Nat → List Decl → List (String × Nat)
  | _, [] => []
  | o, .uint name n :: r => (name, num b o n) :: fieldsAt b (o + n) r
  | o, .bits l :: r => unpackBits l (numLE b o (bitsWidth l / 8)) ++ fieldsAt b (o + bitsWidth l / 8) r
  | o, .pad n :: r => fieldsAt b (o + n) r
  | o, .const c :: r => fieldsAt b (o + c.length) r

def NoConst : List Decl → Prop
  | [] => True
  | .const _ :: _ => False
  | _ :: r => NoConst r

theorem take_drop_slice (b : Bytes) (o n : Nat) : (b.drop o).take n = slice b o (o + n) := by
  unfold slice; rw [List.drop_take]; congr 1; omega

theorem leNat_take (b : Bytes) (o n : Nat) (h : o + n ≤ b.length) : leNat ((b.drop o).take n) = numLE b o n := by
  induction n generalizing o with
  | zero => simp [leNat, numLE]
  | succ n ih =>
    rw [List.drop_eq_getElem_cons (by omega : o < b.length), List.take_succ_cons, leNat, ih (o + 1) (by omega), numLE, byteAt,
      getD_eq b o (by omega)]

theorem unpack_at (d : List Decl) (b : Bytes) (o : Nat) (hc : NoConst d) (h : o + structSize d ≤ b.length) :
    unpack d (b.drop o) = .ok (fieldsAt b o d, b.drop (o + structSize d)) := by
  induction d generalizing o with
  | nil => simp [unpack, fieldsAt, structSize]
  | cons x r ih =>
    simp only [structSize] at h
    have hlen : ¬ (b.drop o).length < x.size := by simp only [List.length_drop]; omega
    cases x with
    | const c => exact absurd hc (by simp [NoConst])
    | uint name n =>
      simp only [Decl.size] at h hlen
      simp only [unpack, Decl.size, if_neg hlen, List.drop_drop, ih (o + n) hc (by omega), fieldsAt, structSize, take_drop_slice,
        beNat_slice b o n (by omega)]
      simp [Nat.add_assoc, bind, Except.bind]
    | bits l =>
      simp only [Decl.size] at h hlen
      simp only [unpack, Decl.size, if_neg hlen, List.drop_drop, ih (o + bitsWidth l / 8) hc (by omega), fieldsAt, structSize,
        leNat_take b o _ (by omega : o + bitsWidth l / 8 ≤ b.length)]
      simp [Nat.add_assoc, bind, Except.bind]
    | pad n =>
      simp only [Decl.size] at h hlen
      simp only [unpack, Decl.size, if_neg hlen, List.drop_drop, ih (o + n) hc (by omega), fieldsAt, structSize]
      simp [Nat.add_assoc, bind, Except.bind]

theorem unpack_eq (d : List Decl) (b : Bytes) (hc : NoConst d) (h : structSize d ≤ b.length) :
    unpack d b = .ok (fieldsAt b 0 d, b.drop (structSize d)) := by
  have := unpack_at d b 0 hc (by omega)
  simpa using this

theorem unpack_short (d : List Decl) (b : Bytes) (hc : NoConst d) (h : b.length < structSize d) : unpack d b = .error .truncated := by
  induction d generalizing b with
  | nil => simp [structSize] at h
  | cons x r ih =>
    simp only [structSize] at h
    by_cases hx : b.length < x.size
    · simp [unpack, hx]
    · have hr := ih (b.drop x.size) (by cases x <;> simp_all [NoConst]) (by simp only [List.length_drop]; omega)
      cases x with
      | const c => exact absurd hc (by simp [NoConst])
      | uint name n => simp only [unpack, if_neg hx, hr]; rfl
      | bits l => simp only [unpack, if_neg hx, hr]; rfl
      | pad n => simp only [unpack, if_neg hx, hr]; rfl

/-! ## Lists -/

variable {α : Type}

/-- `n` elements: if each of them decodes its own encoding whatever follows, the list decodes to the list encoded. -/
theorem unpackN_encode {β : Type} (elem : Bytes → Py (α × Nat)) (enc : β → Bytes) (val : β → α)
    (h : ∀ x rest, elem (enc x ++ rest) = .ok (val x, (enc x).length)) (xs : List β) (rest : Bytes) :
    unpackN elem xs.length (xs.flatMap enc ++ rest) = .ok (xs.map val, (xs.flatMap enc).length) := by
  induction xs with
  | nil => rfl
  | cons x xs ih =>
    simp only [List.length_cons, unpackN, List.flatMap_cons, List.append_assoc, h x, List.map_cons]
    simp only [bind, Except.bind, List.drop_left, ih, List.length_append]

theorem unpackN_encode_mem {β : Type} (elem : Bytes → Py (α × Nat)) (enc : β → Bytes) (val : β → α) (xs : List β)
    (h : ∀ x ∈ xs, ∀ rest, elem (enc x ++ rest) = .ok (val x, (enc x).length)) (rest : Bytes) :
    unpackN elem xs.length (xs.flatMap enc ++ rest) = .ok (xs.map val, (xs.flatMap enc).length) := by
  induction xs with
  | nil => rfl
  | cons x xs ih =>
    simp only [List.length_cons, unpackN, List.flatMap_cons, List.append_assoc, h x (by simp), List.map_cons]
    simp only [bind, Except.bind, List.drop_left, ih (fun y hy => h y (by simp [hy])), List.length_append]

theorem unpackAll_encode {β : Type} (elem : Bytes → Py (α × Nat)) (enc : β → Bytes) (val : β → α) (xs : List β)
    (hne : ∀ x ∈ xs, enc x ≠ []) (h : ∀ x ∈ xs, ∀ rest, elem (enc x ++ rest) = .ok (val x, (enc x).length)) :
    unpackAll elem (xs.flatMap enc) = .ok (xs.map val) := by
  induction xs with
  | nil => simp [unpackAll]
  | cons x xs ih =>
    have hx := hne x (by simp)
    have hne' : (x :: xs).flatMap enc ≠ [] := by simp [hx]
    have hk : ¬ ((enc x).length = 0 ∨ enc x ++ xs.flatMap enc = []) := by simp [hx]
    rw [unpackAll, if_neg hne', List.flatMap_cons, h x (by simp)]
    simp only [dif_neg hk, List.drop_left, ih (fun y hy => hne y (by simp [hy])) (fun y hy => h y (by simp [hy])), List.map_cons]

theorem unpackAll_u8 (b : Bytes) : unpackAll elemU8 b = .ok (b.map UInt8.toNat) := by
  have := unpackAll_encode elemU8 (fun x : UInt8 => [x]) UInt8.toNat b (by simp) (by intro x _ rest; rfl)
  simpa using this

theorem unpackN_u8 (n : Nat) (b : Bytes) (h : n ≤ b.length) : unpackN elemU8 n b = .ok ((b.take n).map UInt8.toNat, n) := by
  have := unpackN_encode elemU8 (fun x : UInt8 => [x]) UInt8.toNat (by intro x rest; rfl) (b.take n) (b.drop n)
  simp only [List.length_take, Nat.min_eq_left h] at this
  simpa [h] using this

theorem unpackN_uint (k n : Nat) (b : Bytes) (h : n * k ≤ b.length) :
    unpackN (elemUInt k) n b = .ok ((List.range n).map (fun j => num b (j * k) k), n * k) := by
  suffices hs : ∀ (n o : Nat), o + n * k ≤ b.length →
      unpackN (elemUInt k) n (b.drop o) = .ok ((List.range n).map (fun j => num b (o + j * k) k), n * k) by
    have := hs n 0 (by omega); simpa using this
  intro n
  induction n with
  | zero => intro o _; simp [unpackN]
  | succ n ih =>
    intro o ho
    rw [Nat.succ_mul] at ho
    have hl : ¬ (b.drop o).length < k := by simp only [List.length_drop]; omega
    simp only [unpackN, elemUInt, if_neg hl, bind, Except.bind, List.drop_drop, ih (o + k) (by omega), take_drop_slice,
      beNat_slice b o k (by omega), List.range_succ_eq_map, List.map_cons, List.map_map]
    congr 2
    · simp only [Nat.zero_mul, Nat.add_zero, List.cons.injEq, true_and]
      apply List.map_congr_left
      intro j _
      simp only [Function.comp_apply]
      congr 1
      rw [Nat.succ_mul]; omega
    · rw [Nat.succ_mul]; omega

/-- Too few bytes for `n` elements of `k` bytes each: refused. -/
theorem unpackN_uint_short (k n : Nat) (b : Bytes) (h : b.length < n * k) : unpackN (elemUInt k) n b = .error .truncated := by
  induction n generalizing b with
  | zero => simp at h
  | succ n ih =>
    rw [Nat.succ_mul] at h
    by_cases hl : b.length < k
    · simp [unpackN, elemUInt, hl, bind, Except.bind]
    · simp only [unpackN, elemUInt, if_neg hl, bind, Except.bind]
      rw [ih (b.drop k) (by simp only [List.length_drop]; omega)]

/-! ## Positions in concatenations -/

theorem byteAt_append_left (a b : Bytes) (i : Nat) (h : i < a.length) : byteAt (a ++ b) i = byteAt a i := by
  simp [byteAt, List.getElem?_append_left h]

theorem byteAt_append_right (a b : Bytes) (i : Nat) : byteAt (a ++ b) (a.length + i) = byteAt b i := by
  simp [byteAt, List.getElem?_append_right]

theorem num_append_left (a b : Bytes) (i n : Nat) (h : i + n ≤ a.length) : num (a ++ b) i n = num a i n := by
  induction n with
  | zero => rfl
  | succ n ih => simp only [num, ih (by omega), byteAt_append_left a b (i + n) (by omega)]

theorem num_append_right (a b : Bytes) (i n : Nat) : num (a ++ b) (a.length + i) n = num b i n := by
  induction n with
  | zero => rfl
  | succ n ih => simp only [num, ih, Nat.add_assoc, byteAt_append_right]

theorem num_eq_beNat (b : Bytes) : num b 0 b.length = beNat b := by
  have := beNat_slice b 0 b.length (by omega)
  rw [← this]; simp [slice]

theorem num_be (n v : Nat) (rest : Bytes) (h : v < 256 ^ n) : num (be n v ++ rest) 0 n = v := by
  have := num_eq_beNat (be n v)
  rw [be_length] at this
  rw [num_append_left _ _ _ _ (by simp), this, beNat_be_of_lt h]

theorem num_skip (a b : Bytes) (i n : Nat) (h : a.length ≤ i) : num (a ++ b) i n = num b (i - a.length) n := by
  have := num_append_right a b (i - a.length) n
  rwa [show a.length + (i - a.length) = i by omega] at this

end Verif.Parse
