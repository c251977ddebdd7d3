import Verif.Parse.Lemmas
import Verif.Parse.Simple
import Verif.Spec.Responses
/-! # Lemmas for the fixed-layout responses, REPORT LUNS, REPORT TARGET PORT GROUPS, PERSISTENT RESERVE IN -/
set_option linter.unusedSimpArgs false

namespace Verif.Parse
open Verif.Spec

variable {α : Type}

theorem sumSize_encode {β : Type} (elem : Bytes → Py (α × Nat)) (enc : β → Bytes) (val : β → α) (xs : List β) (rest : Bytes)
    (hne : ∀ x ∈ xs, enc x ≠ []) (h : ∀ x ∈ xs, ∀ rest, elem (enc x ++ rest) = .ok (val x, (enc x).length)) :
    sumSize elem (xs.flatMap enc).length (xs.flatMap enc ++ rest) = .ok (xs.map val) := by
  induction xs with
  | nil => simp [sumSize]
  | cons x xs ih =>
    have hx : (enc x).length ≠ 0 := by simp [hne x (by simp)]
    rw [List.flatMap_cons, List.length_append, sumSize, if_neg (by omega), List.append_assoc, h x (by simp)]
    simp only [if_neg hx, Nat.add_sub_cancel_left, List.drop_left, ih (fun y hy => hne y (by simp [hy])) (fun y hy => h y (by simp [hy])),
      List.map_cons]

/-- Fewer bytes than the size announced: refused. -/
theorem sumSize_short (k size : Nat) (hk : 0 < k) (b : Bytes) (h : b.length < size) :
    sumSize (elemUInt k) size b = .error .truncated := by
  induction size using Nat.strongRecOn generalizing b with
  | _ size ih =>
    rw [sumSize, if_neg (by omega)]
    by_cases hl : b.length < k
    · simp [elemUInt, hl]
    · simp only [elemUInt, if_neg hl, if_neg (by omega : ¬ k = 0)]
      rw [ih (size - k) (by omega) (b.drop k) (by simp only [List.length_drop]; omega)]

theorem elemUInt_append (k : Nat) (e rest : Bytes) (h : e.length = k) : elemUInt k (e ++ rest) = .ok (beNat e, e.length) := by
  subst h
  simp [elemUInt]

theorem header8 (x : Nat) (r rest : Bytes) (hr : r.length = 4) (hx : x < 256 ^ 4) :
    unpack [.uint "lun_list_length" 4, .pad 4] (be 4 x ++ r ++ rest) = .ok ([("lun_list_length", x)], rest) := by
  rw [unpack_eq _ _ (by simp [NoConst]) (by simp [structSize, Decl.size, hr]; omega)]
  congr 2
  · simp only [fieldsAt, List.append_assoc, num_be 4 x _ hx]
  · rw [List.append_assoc, ← List.append_assoc]
    exact List.drop_left' (by simp [structSize, Decl.size, hr])

theorem reportLunsData_eq (allow : Bool) (reserved : Bytes) (entries : List Bytes) (rest : Bytes) (hr : reserved.length = 4)
    (he : ∀ e ∈ entries, e.length = 8) (hn : 8 * entries.length < 2 ^ 32) :
    reportLunsData allow (Spec.reportLuns reserved entries ++ rest) =
      (normalizeLuns allow (entries.map beNat)).map (fun l => { lunListLength := 8 * entries.length, entries := entries.map beNat, lunList := l }) := by
  have hl : (entries.flatMap id).length = 8 * entries.length := by
    clear hn
    induction entries with
    | nil => rfl
    | cons e es ih => simp only [List.flatMap_cons, List.length_append, id, he e (by simp), ih (fun x hx => he x (by simp [hx])), List.length_cons]; omega
  have hs := sumSize_encode (elemUInt 8) id beNat entries rest (by intro e h1 h2; have := he e h1; simp_all)
    (by intro e h1 r; exact elemUInt_append 8 e r (he e h1))
  have hfl : entries.flatten = entries.flatMap id := by simp
  unfold reportLunsData Spec.reportLuns
  rw [hfl, List.append_assoc, header8 _ _ _ hr (by simpa using hn)]
  simp only [bind, Except.bind, List.lookup, BEq.rfl, Option.getD_some]
  rw [← hl, hs]
  generalize hN : normalizeLuns allow (entries.map beNat) = N
  simp only [hN]
  cases N <;> rfl

theorem and_low (x : Nat) : x &&& 0xFFFFFFFFFFFF = x % 2 ^ 48 := Nat.and_two_pow_sub_one_eq_mod x 48

theorem and_high (x : Nat) (h : x < 2 ^ 64) : x &&& 0xC000000000000000 = x / 2 ^ 62 * 2 ^ 62 := by
  have : x = x / 2 ^ 62 * 2 ^ 62 + x % 2 ^ 62 := by omega
  have hq : x / 2 ^ 62 < 4 := by omega
  apply Nat.eq_of_testBit_eq
  intro i
  rw [Nat.testBit_and, Nat.testBit_mul_two_pow, Nat.testBit_div_two_pow]
  rw [show (0xC000000000000000 : Nat) = 3 * 2 ^ 62 by decide, Nat.testBit_mul_two_pow]
  by_cases hi : 62 ≤ i
  · rw [show i - 62 + 62 = i by omega]
    simp only [hi, decide_true, Bool.true_and]
    by_cases h64 : i < 64
    · have : i = 62 ∨ i = 63 := by omega
      rcases this with rfl | rfl <;> simp
      all_goals (simp [Nat.testBit])
    · rw [Nat.testBit_lt_two_pow (Nat.lt_of_lt_of_le h (Nat.pow_le_pow_right (by omega) (by omega)))]; simp
  · simp [hi]

theorem checkLun_ok (x : Nat) (h : x < 2 ^ 64) : checkLun x = .ok () ↔ x % 2 ^ 48 = 0 ∧ x / 2 ^ 48 < 2 ^ 14 := by
  unfold checkLun
  rw [and_low, and_high x h]
  split
  · simp; omega
  · split
    · simp; omega
    · simp; omega

theorem checkLun_err (x : Nat) : checkLun x = .ok () ∨ checkLun x = .error .unsupportedLunAddressing ∨ checkLun x = .error .unsupportedAddressingMethod := by
  unfold checkLun; split
  · simp
  · split <;> simp

theorem checkLuns_ok (l : List Nat) : checkLuns l = .ok () ↔ ∀ x ∈ l, checkLun x = .ok () := by
  induction l with
  | nil => simp [checkLuns]
  | cons x xs ih =>
    simp only [checkLuns, bind, Except.bind, List.mem_cons, forall_eq_or_imp, ← ih]
    rcases checkLun_err x with h | h | h <;> simp [h]

theorem checkLuns_err (l : List Nat) : checkLuns l = .ok () ∨ checkLuns l = .error .unsupportedLunAddressing ∨ checkLuns l = .error .unsupportedAddressingMethod := by
  induction l with
  | nil => simp [checkLuns]
  | cons x xs ih =>
    simp only [checkLuns, bind, Except.bind]
    rcases checkLun_err x with h | h | h <;> simp [h, ih]

/-! ## Descriptors -/

theorem drop_num (b : Bytes) (o i n : Nat) : num (b.drop o) i n = num b (o + i) n := by
  induction n with
  | zero => rfl
  | succ n ih => simp [num, ih, byteAt, Nat.add_assoc]

theorem targetPort_eq (sg : Bool) (b : Bytes) (h : 4 ≤ b.length) :
    targetPort sg b = .ok ([("relative_target_port_identifier", (num b 2 2 : Int))], 4) := by
  unfold targetPort
  rw [unpackFields_eq _ _ _ (by simp [targetPortFields, UField.ref, Ref.Ok]) (by simpa [targetPortFields, fieldsEnd, UField.ref, Ref.stop] using h)]
  rfl

theorem targetPorts_eq (sg : Bool) (b : Bytes) (n o : Nat) (h : o + 4 * n ≤ b.length) :
    unpackN (targetPort sg) n (b.drop o) =
      .ok ((List.range n).map (fun j => [("relative_target_port_identifier", (num b (o + 4 * j + 2) 2 : Int))]), 4 * n) := by
  induction n generalizing o with
  | zero => rfl
  | succ n ih =>
    simp only [unpackN, targetPort_eq sg (b.drop o) (by simp only [List.length_drop]; omega), bind, Except.bind, List.drop_drop,
      ih (o + 4) (by omega), drop_num, List.range_succ_eq_map, List.map_cons, List.map_map]
    congr 2
    · simp only [Nat.mul_zero, Nat.add_zero, List.cons.injEq, true_and]
      apply List.map_congr_left
      intro j _
      simp only [Function.comp_apply]
      rw [show o + 4 + 4 * j + 2 = o + 4 * j.succ + 2 by omega]
    · omega

end Verif.Parse
