/-! # Bit tests as arithmetic -/
namespace Verif

theorem and_two_pow_ne_zero (n k : Nat) : n &&& 2 ^ k ≠ 0 ↔ n / 2 ^ k % 2 = 1 := by
  have ht : n.testBit k = decide (n / 2 ^ k % 2 = 1) := Nat.testBit_eq_decide_div_mod_eq
  constructor
  · intro h
    by_cases hb : n.testBit k = true
    · rw [ht] at hb; simpa using hb
    · exfalso; apply h
      apply Nat.eq_of_testBit_eq
      intro i
      rw [Nat.testBit_and, Nat.testBit_two_pow, Nat.zero_testBit]
      by_cases hi : k = i
      · subst hi; simp [hb]
      · simp [hi]
  · intro h h0
    have : (n &&& 2 ^ k).testBit k = true := by
      rw [Nat.testBit_and, Nat.testBit_two_pow, ht, h]; simp
    rw [h0, Nat.zero_testBit] at this
    cases this

theorem and_1 (n : Nat) : n &&& 1 ≠ 0 ↔ n % 2 = 1 := by
  have := and_two_pow_ne_zero n 0
  rwa [Nat.pow_zero, Nat.div_one] at this
theorem and_2 (n : Nat) : n &&& 2 ≠ 0 ↔ n / 2 % 2 = 1 := and_two_pow_ne_zero n 1
theorem and_8 (n : Nat) : n &&& 8 ≠ 0 ↔ n / 8 % 2 = 1 := and_two_pow_ne_zero n 3
theorem and_15 (n : Nat) : n &&& 15 = n % 16 := Nat.and_two_pow_sub_one_eq_mod n 4

end Verif
