import Verif.Lemmas.Hypot
/-!
# The scaling of `hypot`
-/
namespace Pok.Hypot
open Pok.Err Pok.Float Pok.Fpu Pok.Rel

theorem self_hi {a : Nat} : Libm.setHi a (a / 2 ^ 32) = a := by unfold Libm.setHi Libm.insert Libm.lo; omega

theorem set_down {a : Nat} (h : 0x25800000 ≤ a / 2 ^ 32) (l : a < 2 ^ 63) :
    (a / 2 ^ 32 + 2 ^ 32 - 0x25800000) % 2 ^ 32 = (a - 600 * 2 ^ 52) / 2 ^ 32 ∧ Libm.setHi a ((a - 600 * 2 ^ 52) / 2 ^ 32) = a - 600 * 2 ^ 52 := by
  unfold Libm.setHi Libm.insert Libm.lo; constructor <;> omega

theorem set_up {a : Nat} : a / 2 ^ 32 + 0x25800000 = (a + 600 * 2 ^ 52) / 2 ^ 32 ∧ Libm.setHi a ((a + 600 * 2 ^ 52) / 2 ^ 32) = a + 600 * 2 ^ 52 := by
  unfold Libm.setHi Libm.insert Libm.lo; constructor <;> omega

theorem case_far {a b : Nat} (h : ((a / 2 ^ 32 : Nat) : Int) - (b / 2 ^ 32 : Nat) > 0x3c00000) : ordered a b (a / 2 ^ 32) (b / 2 ^ 32) = add a b := by
  unfold ordered; simp only []; rw [self_hi, self_hi, if_pos h]

theorem down_big {a b : Nat} (h : ¬ ((a / 2 ^ 32 : Nat) : Int) - (b / 2 ^ 32 : Nat) > 0x3c00000) (h1 : 0x5f300000 < a / 2 ^ 32) :
    0x25800000 ≤ a / 2 ^ 32 ∧ 0x25800000 ≤ b / 2 ^ 32 ∧ ¬ (b - 600 * 2 ^ 52) / 2 ^ 32 < 0x20b00000 := by
  refine ⟨by omega, by omega, by omega⟩

theorem down_eq {a b ha hb x y a' b' : Nat} (h1 : (ha + 2 ^ 32 - 0x25800000) % 2 ^ 32 = x) (h2 : (hb + 2 ^ 32 - 0x25800000) % 2 ^ 32 = y)
    (h3 : Libm.setHi a x = a') (h4 : Libm.setHi b y = b') : down a b ha hb = ⟨a', b', x, y, 600⟩ := by subst h3 h4 h1 h2; rfl

theorem down_from {a b a' b' ha' hb' : Nat} (h : ¬ ((a / 2 ^ 32 : Nat) : Int) - (b / 2 ^ 32 : Nat) > 0x3c00000) (h1 : 0x5f300000 < a / 2 ^ 32)
    (e3 : ¬ (0x5f300000 < a / 2 ^ 32 ∧ 0x7ff00000 ≤ a / 2 ^ 32)) (d : down a b (a / 2 ^ 32) (b / 2 ^ 32) = ⟨a', b', ha', hb', 600⟩) (d3 : ¬ hb' < 0x20b00000) :
    ordered a b (a / 2 ^ 32) (b / 2 ^ 32) = rescale 600 (medium a' b' ha' hb') := by
  unfold ordered
  rw [self_hi, self_hi, if_neg h, if_neg e3, if_pos h1, d]
  have u : up ⟨a', b', ha', hb', 600⟩ = some ⟨a', b', ha', hb', 600⟩ := by unfold up; exact if_neg d3
  rw [u]

theorem case_down {a b : Nat} (la : a < 2 ^ 63) (lb : b < 2 ^ 63) (h : ¬ ((a / 2 ^ 32 : Nat) : Int) - (b / 2 ^ 32 : Nat) > 0x3c00000) (h1 : 0x5f300000 < a / 2 ^ 32) (h2 : a / 2 ^ 32 < 0x7ff00000) :
    ordered a b (a / 2 ^ 32) (b / 2 ^ 32) = rescale 600 (medium (a - 600 * 2 ^ 52) (b - 600 * 2 ^ 52) ((a - 600 * 2 ^ 52) / 2 ^ 32) ((b - 600 * 2 ^ 52) / 2 ^ 32)) := by
  obtain ⟨d1, d2, d3⟩ := down_big h h1
  have e1 := set_down d1 la
  have e2 := set_down d2 lb
  exact down_from h h1 (fun c => absurd h2 (Nat.not_lt.2 c.2)) (down_eq e1.1 e2.1 e1.2 e2.2) d3

theorem case_zero {a b : Nat} (h : ¬ ((a / 2 ^ 32 : Nat) : Int) - (b / 2 ^ 32 : Nat) > 0x3c00000) (h1 : b = 0) : ordered a b (a / 2 ^ 32) (b / 2 ^ 32) = a := by
  subst h1
  unfold ordered; simp only []
  rw [self_hi, self_hi, if_neg h, if_neg (by omega), if_neg (by omega)]
  unfold up; simp only []
  rw [if_pos (by omega), if_pos (by omega), if_pos (by decide)]

theorem case_small {a b : Nat} (h : ¬ ((a / 2 ^ 32 : Nat) : Int) - (b / 2 ^ 32 : Nat) > 0x3c00000) (h1 : b ≠ 0) (h2 : b / 2 ^ 32 ≤ 0xfffff) :
    ordered a b (a / 2 ^ 32) (b / 2 ^ 32) = rescale (-1022) (medium (mul a two1022) (mul b two1022) (a / 2 ^ 32) (b / 2 ^ 32)) := by
  unfold ordered; simp only []
  rw [self_hi, self_hi, if_neg h, if_neg (by omega), if_neg (by omega)]
  unfold up; simp only []
  rw [if_pos (by omega), if_pos h2, if_neg (by rw [Nat.or_eq_zero_iff]; unfold Libm.lo; omega)]
  simp only [Int.zero_sub]

theorem case_up {a b : Nat} (h : ¬ ((a / 2 ^ 32 : Nat) : Int) - (b / 2 ^ 32 : Nat) > 0x3c00000) (h1 : 0xfffff < b / 2 ^ 32) (h2 : b / 2 ^ 32 < 0x20b00000) :
    ordered a b (a / 2 ^ 32) (b / 2 ^ 32) = rescale (-600) (medium (a + 600 * 2 ^ 52) (b + 600 * 2 ^ 52) ((a + 600 * 2 ^ 52) / 2 ^ 32) ((b + 600 * 2 ^ 52) / 2 ^ 32)) := by
  have e1 := set_up (a := a)
  have e2 := set_up (a := b)
  unfold ordered; simp only []
  rw [self_hi, self_hi, if_neg h, if_neg (by omega), if_neg (by omega)]
  unfold up; simp only []
  rw [if_pos h2, if_neg (by omega), e1.1, e2.1, e1.2, e2.2]
  simp only [Int.zero_sub]

theorem case_medium {a b : Nat} (h : ¬ ((a / 2 ^ 32 : Nat) : Int) - (b / 2 ^ 32 : Nat) > 0x3c00000) (h1 : a / 2 ^ 32 ≤ 0x5f300000) (h2 : 0x20b00000 ≤ b / 2 ^ 32) :
    ordered a b (a / 2 ^ 32) (b / 2 ^ 32) = medium a b (a / 2 ^ 32) (b / 2 ^ 32) := by
  unfold ordered; simp only []
  rw [self_hi, self_hi, if_neg h, if_neg (by omega), if_neg (by omega)]
  unfold up; simp only []
  rw [if_neg (by omega)]
  simp only [rescale, ne_eq, not_true_eq_false, if_false]

/-! ## Powers of two -/

theorem pow_val {E : Nat} (h : 1 ≤ E) (l : E < 2047) : (value (E * 2 ^ 52) : ℝ) = 2 ^ (E + 51) / 2 ^ 1074 := by
  have := units_make h (f := 0) (by omega)
  rw [Nat.add_zero, Nat.add_zero, ← pow_add, show 52 + (E - 1) = E + 51 by omega] at this
  rw [val (by omega), this, Nat.cast_pow, Nat.cast_ofNat]

theorem p600 : (value (1623 * 2 ^ 52) : ℝ) = 2 ^ 600 := by
  rw [pow_val (by omega) (by omega), show 1623 + 51 = 600 + 1074 from rfl, pow_add, mul_div_cancel_right₀ _ (by positivity)]

theorem m600 : (value (423 * 2 ^ 52) : ℝ) = 1 / 2 ^ 600 := by
  rw [pow_val (by omega) (by omega), show (1074 : ℕ) = 474 + 600 from rfl, show 423 + 51 = 474 from rfl, pow_add, ← div_div, div_self (by positivity)]

theorem m1022 : (value (1 * 2 ^ 52) : ℝ) = 1 / 2 ^ 1022 := by
  rw [pow_val (by omega) (by omega), show (1074 : ℕ) = 52 + 1022 from rfl, show 1 + 51 = 52 from rfl, pow_add, ← div_div, div_self (by positivity)]

theorem p1022 : (value two1022 : ℝ) = 2 ^ 1022 := by
  rw [show two1022 = 2045 * 2 ^ 52 by decide, pow_val (by omega) (by omega), show 2045 + 51 = 1022 + 1074 from rfl, pow_add, mul_div_cancel_right₀ _ (by positivity)]

theorem re600 (w : Nat) : rescale 600 w = mul (1623 * 2 ^ 52) w := by
  unfold rescale; rw [if_pos (by decide)]; exact congrArg (mul · w) (by decide +kernel)

theorem rem600 (w : Nat) : rescale (-600) w = mul (423 * 2 ^ 52) w := by
  unfold rescale; rw [if_pos (by decide)]; exact congrArg (mul · w) (by decide +kernel)

theorem rem1022 (w : Nat) : rescale (-1022) w = mul (1 * 2 ^ 52) w := by
  unfold rescale; rw [if_pos (by decide)]; exact congrArg (mul · w) (by decide +kernel)

theorem root_scale {l A B : ℝ} (h : 0 ≤ l) : Real.sqrt ((l * A) ^ 2 + (l * B) ^ 2) = l * Real.sqrt (A ^ 2 + B ^ 2) := by
  rw [show (l * A) ^ 2 + (l * B) ^ 2 = l ^ 2 * (A ^ 2 + B ^ 2) by ring, Real.sqrt_mul (by positivity), Real.sqrt_sq h]

theorem pos_lt {w : Nat} (hw : w < 2 ^ 64) (p : 0 < (value w : ℝ)) : w < 2 ^ 63 := by
  by_contra c
  have s : sign w = 1 := by unfold sign; omega
  have p : 0 < value w := by exact_mod_cast p
  unfold value at p
  rw [s, pow_one, neg_one_mul, neg_pos] at p
  refine absurd p (not_lt.2 ?_)
  split
  · exact mul_nonneg (by positivity) (zpow_nonneg (by norm_num) _)
  · exact mul_nonneg (by positivity) (zpow_nonneg (by norm_num) _)

end Pok.Hypot
