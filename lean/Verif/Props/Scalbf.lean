import Verif.Model.Scalbf
import Verif.Props.SingleRint
import Verif.Props.SingleNextafter
import Mathlib.Algebra.Order.Field.Power
import Mathlib.Tactic.Positivity
/-!
# C147: scaling by a float, and the significand

The specification is the value and the rounding of floats of `Verif.Spec.Single`.
-/
namespace Pok.Libmf
open Pok.Single Pok.Fpu32

/-! ## Values and bits -/

theorem val_pos {m : Nat} (h : m < 2 ^ 31) : value m = (units m : ℚ) / 2 ^ 149 := by
  have := value_sm (s := 0) (by norm_num) h
  simpa using this

theorem val_neg {x : Nat} (h : 2 ^ 31 ≤ x) (hx : x < 2 ^ 32) : value x = -((units (mag x) : ℚ) / 2 ^ 149) := by
  have := value_sm (s := 1) (by norm_num) (mag_lt x)
  rw [show 1 * 2 ^ 31 + mag x = x by unfold mag; omega] at this
  rw [this]; ring

theorem value_negate {x : Nat} (hx : x < 2 ^ 32) : negate x < 2 ^ 32 ∧ mag (negate x) = mag x ∧ value (negate x) = - value x := by
  have n : neg x = decide (2 ^ 31 ≤ x) := by unfold neg; apply decide_eq_decide.2; omega
  by_cases c : 2 ^ 31 ≤ x
  · have e : negate x = x - 2 ^ 31 := by unfold negate; rw [n, if_pos (by simpa using c)]
    have m : x - 2 ^ 31 = mag x := by unfold mag; omega
    rw [e, val_neg c hx, val_pos (by omega), m]
    refine ⟨by have := mag_lt x; omega, by unfold mag; omega, by ring⟩
  · have e : negate x = x + 2 ^ 31 := by unfold negate; rw [n, if_neg (by simpa using c)]
    have m : mag (x + 2 ^ 31) = x := by unfold mag; omega
    rw [e, val_neg (by omega) (by omega), val_pos (by omega), m]
    exact ⟨by omega, by unfold mag; omega, rfl⟩

theorem units_of_abs {x y : Nat} (hx : x < 2 ^ 32) (hy : y < 2 ^ 32) (h : |value x| = |value y|) : mag x = mag y := by
  rw [abs_value' hx, abs_value' hy, div_left_inj' (by positivity)] at h
  exact units_strictMono.injective (by exact_mod_cast h)

theorem bits_eq {x y : Nat} (hx : x < 2 ^ 32) (hy : y < 2 ^ 32) (s : sign x = sign y) (v : value x = value y) : x = y := by
  rw [self_eq hx, self_eq hy, s, units_of_abs hx hy (by rw [v])]

theorem nearest_exact {x : ℚ} {r d : Nat} (h : Nearest x r) (hd : d < 2 ^ 32) (fd : IsFinite d) (e : value d = x) : value r = x := by
  have := h.2.1 d hd fd
  rw [e, sub_self, abs_zero] at this
  have := abs_eq_zero.1 (le_antisymm this (abs_nonneg _))
  linarith

/-! ## Very large and very small products -/

/-- A nonzero number is at least the least positive one. -/
theorem least {x : Nat} (hx : x < 2 ^ 32) (h : value x ≠ 0) : (2 : ℚ) ^ (-149 : ℤ) ≤ |value x| := by
  have e := value_units x
  have z : sunits x ≠ 0 := by intro c; rw [c] at e; simp at e; exact h e
  rw [e, abs_div, abs_of_pos (by positivity : (0 : ℚ) < 2 ^ 149), zpow_neg, ← one_div]
  rw [zpow_ofNat]
  refine div_le_div_of_nonneg_right ?_ (by positivity)
  have : 1 ≤ |sunits x| := Int.one_le_abs z
  exact_mod_cast this

theorem most {x : Nat} (hx : x < 2 ^ 32) (f : IsFinite x) : |value x| ≤ (2 : ℚ) ^ (128 : ℤ) := by
  have m := (finite_iff x).1 f
  have u : units (mag x) ≤ units 0x7f7fffff := units_le.2 (by unfold inf at m; omega)
  rw [abs_value' hx, div_le_iff₀ (by positivity), zpow_ofNat]
  refine le_trans (show (units (mag x) : ℚ) ≤ (units 0x7f7fffff : ℕ) by exact_mod_cast u) ?_
  rw [show units 0x7f7fffff = (2 ^ 24 - 1) * 2 ^ 253 by decide]
  norm_num

theorem far_up {x : Nat} (hx : x < 2 ^ 32) {m n : ℤ} (h0 : 300 ≤ m) (h1 : m ≤ n) {r : Nat} (h : Rounded (value x * (2 : ℚ) ^ m) (sign x) r) :
    Rounded (value x * (2 : ℚ) ^ n) (sign x) r := by
  by_cases z : value x = 0
  · rw [z, zero_mul] at h ⊢; exact h
  have big : ∀ k : ℤ, 300 ≤ k → ¬ |value x * (2 : ℚ) ^ k| < (2 ^ 25 - 1) * 2 ^ 103 := by
    intro k hk
    rw [not_lt, abs_mul, abs_of_pos (by positivity : (0 : ℚ) < 2 ^ k)]
    have a := mul_le_mul (least hx z) (zpow_le_zpow_right₀ (by norm_num : (1 : ℚ) ≤ 2) hk) (by positivity) (abs_nonneg _)
    refine le_trans ?_ a
    rw [← zpow_add₀ (by norm_num)]
    have b : (2 : ℚ) ^ (128 : ℤ) ≤ (2 : ℚ) ^ (-149 + 300 : ℤ) := zpow_le_zpow_right₀ (by norm_num) (by norm_num)
    refine le_trans ?_ b
    rw [show (2 : ℚ) ^ (128 : ℤ) = 2 ^ 25 * 2 ^ 103 by rw [zpow_ofNat, ← pow_add]]
    exact mul_le_mul_of_nonneg_right (by norm_num) (by positivity)
  obtain ⟨a, b, c⟩ := h
  rw [if_neg (big m h0)] at c
  refine ⟨a, b, ?_⟩
  rw [if_neg (big n (by omega))]
  exact c

theorem far_down {x : Nat} (hx : x < 2 ^ 32) (f : IsFinite x) {m n : ℤ} (h0 : m ≤ -400) (h1 : n ≤ m) {r : Nat} (h : Rounded (value x * (2 : ℚ) ^ m) (sign x) r) :
    Rounded (value x * (2 : ℚ) ^ n) (sign x) r := by
  have small : ∀ k : ℤ, k ≤ -400 → |value x * (2 : ℚ) ^ k| ≤ (2 : ℚ) ^ (-151 : ℤ) := by
    intro k hk
    rw [abs_mul, abs_of_pos (by positivity : (0 : ℚ) < 2 ^ k)]
    have a := mul_le_mul (most hx f) (zpow_le_zpow_right₀ (by norm_num : (1 : ℚ) ≤ 2) hk) (by positivity) (by positivity)
    refine le_trans a ?_
    rw [← zpow_add₀ (by norm_num)]
    exact zpow_le_zpow_right₀ (by norm_num) (by norm_num)
  have four : (2 : ℚ) ^ (-149 : ℤ) = 4 * (2 : ℚ) ^ (-151 : ℤ) := by
    rw [show (4 : ℚ) = (2 : ℚ) ^ (2 : ℤ) by norm_num, ← zpow_add₀ (by norm_num)]; norm_num
  have tp : (0 : ℚ) < (2 : ℚ) ^ (-151 : ℤ) := by positivity
  have lim : ∀ k : ℤ, k ≤ -400 → |value x * (2 : ℚ) ^ k| < (2 ^ 25 - 1) * 2 ^ 103 := by
    intro k hk
    refine lt_of_le_of_lt (small k hk) ?_
    have : (2 : ℚ) ^ (-151 : ℤ) ≤ 1 := zpow_le_one_of_nonpos₀ (by norm_num) (by norm_num)
    have : (1 : ℚ) ≤ 2 ^ 103 := one_le_pow₀ (by norm_num)
    generalize (2 : ℚ) ^ 103 = T at *
    nlinarith
  have far : ∀ k : ℤ, k ≤ -400 → ∀ d, d < 2 ^ 32 → value d ≠ 0 → 3 * (2 : ℚ) ^ (-151 : ℤ) ≤ |value d - value x * (2 : ℚ) ^ k| := by
    intro k hk d hd z
    have a := least hd z
    have b := small k hk
    have c := abs_sub_abs_le_abs_sub (value d) (value x * (2 : ℚ) ^ k)
    linarith
  obtain ⟨a, b, c⟩ := h
  rw [if_pos (lim m h0)] at c
  have v0 : value r = 0 := by
    by_contra z
    have l := far m h0 r a z
    have q := c.2.1 0 (by norm_num) (by decide)
    rw [show value 0 = 0 by unfold value sign expo frac; norm_num, zero_sub, abs_neg] at q
    have := small m h0
    linarith
  refine ⟨a, b, ?_⟩
  have hn : n ≤ -400 := by omega
  rw [if_pos (lim n hn)]
  have s := small n hn
  refine ⟨c.1, fun d hd fd => ?_, fun d hd fd e ne => ?_⟩
  · rw [v0, zero_sub, abs_neg]
    by_cases z : value d = 0
    · rw [z, zero_sub, abs_neg]
    · have := far n hn d hd z
      linarith
  · exfalso
    rw [v0] at e ne
    have := far n hn d hd ne
    rw [e, zero_sub, abs_neg] at this
    linarith

/-! ## The tests of the code -/

theorem key_mag (x : Nat) : mag x = (key x).natAbs := by unfold key; split <;> simp

theorem abs_of_mag {x y : Nat} (hx : x < 2 ^ 32) (hy : y < 2 ^ 32) (h : mag x = mag y) : |value x| = |value y| := by
  rw [abs_value' hx, abs_value' hy, h]

/-- An integer number is equal to its rounded one. -/
theorem rint_int {f : Nat} (hf : f < 2 ^ 32) (ff : IsFinite f) {n : ℤ} (hn : value f = n) : eq (rint f) f = true := by
  have e : rint f = f := by
    obtain ⟨a, b, c, m, d, g, -⟩ := C118_rint_partial hf ff (by
      rintro ⟨-, -, k, hk⟩
      rw [hn] at hk
      have : ((4 * |n| : ℤ) : ℚ) = ((8 * k + 3 : ℤ) : ℚ) := by push_cast; rw [hk]; ring
      have : 4 * |n| = 8 * (k : ℤ) + 3 := by exact_mod_cast this
      omega)
    rw [hn] at g
    have g' := abs_le.1 g
    have e1 : (n - m : ℤ) < 1 := by
      have : ((n - m : ℤ) : ℚ) < ((1 : ℤ) : ℚ) := by push_cast; linarith
      exact_mod_cast this
    have e2 : (-1 : ℤ) < n - m := by
      have : ((-1 : ℤ) : ℚ) < ((n - m : ℤ) : ℚ) := by push_cast; linarith
      exact_mod_cast this
    have : m = n := by omega
    exact bits_eq a hf c (by rw [d, hn, this])
  have n' := notNaN ((finite_iff f).1 ff)
  unfold eq
  rw [e, n']
  simp

/-- A number with a fraction is not. -/
theorem rint_frac {f : Nat} (hf : f < 2 ^ 32) (ff : IsFinite f) (hr : rint f < 2 ^ 32) (hn : ∀ n : ℤ, value f ≠ n) : eq (rint f) f = false := by
  rw [Bool.eq_false_iff]
  intro c
  unfold eq at c
  simp only [Bool.and_eq_true, decide_eq_true_eq] at c
  have m : |value (rint f)| = |value f| := abs_of_mag hr hf (by rw [key_mag, key_mag, c.2])
  have int : ∃ n : ℤ, |value f| = |(n : ℚ)| := by
    by_cases l : 2 ^ 21 ≤ |value f| ∧ |value f| < 2 ^ 22 ∧ ∃ k : ℕ, |value f| = 2 * k + 3 / 4
    · obtain ⟨l1, l2, k, l3⟩ := l
      have := C118_rint_violated hf l1 l2 l3
      rw [m, l3] at this
      exfalso; linarith
    · obtain ⟨-, -, -, n, d, -⟩ := C118_rint_partial hf ff l
      exact ⟨n, by rw [← m, d]⟩
  obtain ⟨n, e⟩ := int
  rcases abs_eq_abs.1 e with e | e
  · exact hn n e
  · exact hn (-n) (by push_cast; exact e)

theorem v_limit : value scaleLimit = 65000 := by unfold scaleLimit value sign expo frac; norm_num

theorem lt_limit {x : Nat} (hx : x < 2 ^ 32) (fx : IsFinite x) : lt scaleLimit x = decide (x < 2 ^ 31 ∧ scaleLimit < x) := by
  have n := notNaN ((finite_iff x).1 fx)
  have n' : isNaN scaleLimit = false := by decide
  have k : key scaleLimit = 0x477DE800 := by decide
  unfold lt
  rw [n, n', k]
  simp only [Bool.not_false, Bool.true_and]
  apply decide_eq_decide.2
  unfold key neg mag scaleLimit
  split <;> rename_i c <;> simp at c <;> omega

theorem above_limit {x : Nat} (hx : x < 2 ^ 32) (fx : IsFinite x) (h : lt scaleLimit x = true) : 65000 ≤ value x := by
  rw [lt_limit hx fx] at h
  have h := of_decide_eq_true h
  rw [← v_limit, val_pos h.1, val_pos (by decide)]
  exact div_le_div_of_nonneg_right (by exact_mod_cast units_le.2 h.2.le) (by positivity)

theorem below_limit {x : Nat} (hx : x < 2 ^ 32) (fx : IsFinite x) (h : lt scaleLimit x = false) : value x ≤ 65000 := by
  rw [lt_limit hx fx] at h
  have h := of_decide_eq_false h
  by_cases c : x < 2 ^ 31
  · rw [← v_limit, val_pos c, val_pos (by decide)]
    exact div_le_div_of_nonneg_right (by exact_mod_cast units_le.2 (by omega)) (by positivity)
  · rw [val_neg (by omega) hx]
    have : (0 : ℚ) ≤ (units (mag x) : ℚ) / 2 ^ 149 := by positivity
    linarith

theorem toInt_int {f : Nat} {n : ℤ} (hn : value f = n) : toInt f = n := by
  rw [value_units, div_eq_iff (by positivity)] at hn
  have : sunits f = n * 2 ^ 149 := by exact_mod_cast hn
  unfold toInt
  rw [this]
  exact Int.mul_tdiv_cancel _ (by positivity)

theorem finite_kinds {x : Nat} (hx : x < 2 ^ 32) (fx : IsFinite x) : ¬ isnan x ≠ 0 ∧ ¬ finite x = 0 := by
  obtain ⟨-, -, -, -, -, a, -, b⟩ := C115_kinds hx
  rw [a, b, if_pos fx, if_neg (fun c => fx c.1)]
  simp

theorem nan_iff {x : Nat} (hx : x < 2 ^ 32) : isnan x ≠ 0 ↔ IsNaN x := by
  rw [(C115_kinds hx).2.2.2.2.2.1]; split <;> simp_all

/-- Twice a number from 1/2 to 1 is a number. -/
theorem twice {f : Nat} (f1 : f < 2 ^ 32) (f4 : 1 / 2 ≤ |value f|) (f5 : |value f| < 1) : ∃ d, d < 2 ^ 32 ∧ IsFinite d ∧ value d = value f + value f := by
  have m31 := mag_lt f
  rw [abs_value' f1, le_div_iff₀ (by positivity)] at f4
  rw [abs_value' f1, div_lt_iff₀ (by positivity), one_mul] at f5
  have l1 : 2 ^ 23 ≤ mag f := by
    by_contra c
    have u : units (mag f) = mag f := units_small (by omega)
    rw [u] at f4
    have : (mag f : ℚ) < 2 ^ 23 := by exact_mod_cast (by omega : mag f < 2 ^ 23)
    norm_num at f4 this
    linarith
  have l2 : mag f < 0x3f800000 := by
    by_contra c
    have := units_le.2 (show 0x3f800000 ≤ mag f by omega)
    rw [show units 0x3f800000 = 2 ^ 149 by decide] at this
    have : (2 ^ 149 : ℚ) ≤ units (mag f) := by exact_mod_cast this
    linarith
  have u : units (mag f + 2 ^ 23) = 2 * units (mag f) := by
    unfold units
    rw [if_neg (by omega), if_neg (by omega), show (mag f + 2 ^ 23) / 2 ^ 23 - 1 = mag f / 2 ^ 23 - 1 + 1 by omega,
      show (mag f + 2 ^ 23) % 2 ^ 23 = mag f % 2 ^ 23 by omega, pow_succ]
    ring
  have s2 := sign_lt f
  have v := value_sm (s := sign f) (m := mag f + 2 ^ 23) s2 (by omega)
  have w := value_sm (s := sign f) (m := mag f) s2 m31
  rw [← self_eq f1] at w
  refine ⟨sign f * 2 ^ 31 + (mag f + 2 ^ 23), ?_, ?_, ?_⟩
  rotate_left 2
  · rw [w, show ∀ a : ℚ, (-1) ^ sign f * a + (-1) ^ sign f * a = (-1) ^ sign f * (2 * a) by intro a; ring,
      show 2 * ((units (mag f) : ℚ) / 2 ^ 149) = (units (mag f + 2 ^ 23) : ℚ) / 2 ^ 149 by rw [u]; push_cast; ring]
    exact v
  · omega
  · rw [finite_iff]; unfold mag at *; unfold inf; omega

theorem small_two {q : ℚ} (h : |q| ≤ 2) : |q| < (2 ^ 25 - 1) * 2 ^ 103 := by
  refine lt_of_le_of_lt h ?_
  have : (1 : ℚ) ≤ 2 ^ 103 := one_le_pow₀ (by norm_num)
  generalize (2 : ℚ) ^ 103 = T at *
  nlinarith

/-! ## The theorems -/

/-- **C147** **Scaling.** For every finite float and every float that is an integer `n`, of any magnitude, `scalb` returns the first multiplied by `2^n`, rounded
once, with its sign. -/
theorem C147_scalb {x f : Nat} (hx : x < 2 ^ 32) (hf : f < 2 ^ 32) (fx : IsFinite x) (ff : IsFinite f) {n : ℤ} (hn : value f = n) :
    Rounded (value x * (2 : ℚ) ^ n) (sign x) (scalb x f) := by
  unfold scalb
  rw [if_neg (not_or.2 ⟨(finite_kinds hx fx).1, (finite_kinds hf ff).1⟩), if_neg (finite_kinds hf ff).2, rint_int hf ff hn, if_neg (by simp)]
  by_cases c1 : lt scaleLimit f = true
  · rw [if_pos c1]
    have v := above_limit hf ff c1
    rw [hn] at v
    exact far_up hx (by norm_num) (by exact_mod_cast v) (C117_scalbn hx fx (n := 65000) (by norm_num) (by norm_num))
  rw [if_neg c1]
  have v1 := below_limit hf ff (Bool.eq_false_iff.2 c1)
  obtain ⟨ng1, ng2, vn⟩ := value_negate hf
  have ng2 : IsFinite (negate f) := by rw [finite_iff, ng2]; exact (finite_iff f).1 ff
  by_cases c2 : lt scaleLimit (negate f) = true
  · rw [if_pos c2]
    have v := above_limit ng1 ng2 c2
    rw [vn, hn] at v
    have v' : n ≤ -65000 := by
      have : (n : ℚ) ≤ ((-65000 : ℤ) : ℚ) := by push_cast; linarith
      exact_mod_cast this
    exact far_down hx fx (by norm_num) v' (C117_scalbn hx fx (n := -65000) (by norm_num) (by norm_num))
  rw [if_neg c2, toInt_int hn]
  have v2 := below_limit ng1 ng2 (Bool.eq_false_iff.2 c2)
  rw [vn, hn] at v2
  rw [hn] at v1
  have w1 : n ≤ 65000 := by exact_mod_cast v1
  have w2 : -65000 ≤ n := by
    have : ((-65000 : ℤ) : ℚ) ≤ n := by push_cast; linarith
    exact_mod_cast this
  exact C117_scalbn hx fx (by omega) (by omega)

/-- 3/2 and -100000: the product is below every float. -/
example : Rounded (3 / 2 * (2 : ℚ) ^ (-100000 : ℤ)) 0 (scalb 0x3fc00000 0xc7c35000) := by
  have := C147_scalb (x := 0x3fc00000) (f := 0xc7c35000) (n := -100000) (by norm_num) (by norm_num) (by decide) (by decide) (by
    unfold value sign expo frac; norm_num)
  rw [show value 0x3fc00000 = 3 / 2 by unfold value sign expo frac; norm_num] at this
  exact this

theorem div_nan {x y : Nat} (h : IsNaN x ∨ IsNaN y) : IsNaN (div x y) := by
  unfold div
  by_cases hx : IsNaN x
  · rw [if_pos ((isNaN_eq x).2 hx)]; exact quiet_nan hx
  · have hy := h.resolve_left hx
    rw [if_neg (fun hh => hx ((isNaN_eq x).1 hh)), if_pos ((isNaN_eq y).2 hy)]; exact quiet_nan hy

/-- **C147** **Fractions.** For every float that is not a `NaN` and every finite float that is not an integer, the result is a `NaN`. -/
theorem C147_fraction {x f : Nat} (hx : x < 2 ^ 32) (hf : f < 2 ^ 32) (nx : ¬ IsNaN x) (ff : IsFinite f) (hn : ∀ n : ℤ, value f ≠ n) : IsNaN (scalb x f) := by
  have a := nan_iff hx
  have hr : rint f < 2 ^ 32 := (rint_is hf ff).spec.1
  have z : sub f f = 0 := by
    have := sub_self_make (sign_lt f) ((finite_iff _).1 ff)
    rw [← self_eq hf] at this
    exact this
  unfold scalb
  rw [if_neg (not_or.2 ⟨fun c => nx (a.1 c), (finite_kinds hf ff).1⟩), if_neg (finite_kinds hf ff).2, rint_frac hf ff hr hn, if_pos (by simp), z]
  decide

/-- 1 and 1/2. -/
example : IsNaN (scalb 0x3f800000 0x3f000000) := by
  refine C147_fraction (by norm_num) (by norm_num) (by decide) (by decide) (fun n h => ?_)
  rw [show value 0x3f000000 = 1 / 2 by unfold value sign expo frac; norm_num] at h
  have : ((1 : ℤ) : ℚ) = ((2 * n : ℤ) : ℚ) := by push_cast; linarith
  have : (1 : ℤ) = 2 * n := by exact_mod_cast this
  omega

/-- **C147** **What is not a number, and infinites.** If either argument is a `NaN`, so is the result.  An infinite scaled by a finite integer is returned as it is.
Scaling by the positive infinite gives the infinite of the sign of the number, or a `NaN` for a zero; scaling by the negative one gives the zero of the sign of the
number, or a `NaN` for an infinite. -/
theorem C147_special {x f : Nat} (hx : x < 2 ^ 32) (hf : f < 2 ^ 32) :
    (IsNaN x ∨ IsNaN f → IsNaN (scalb x f)) ∧
    (IsInf x → IsFinite f → (∃ n : ℤ, value f = n) → scalb x f = x) ∧
    (¬ IsNaN x → (¬ IsZero x → scalb x inf = sign x * 2 ^ 31 + inf) ∧ (IsZero x → IsNaN (scalb x inf))) ∧
    (¬ IsNaN x → (¬ IsInf x → scalb x (2 ^ 31 + inf) = sign x * 2 ^ 31) ∧ (IsInf x → IsNaN (scalb x (2 ^ 31 + inf)))) := by
  have a := nan_iff hx
  have b := nan_iff hf
  have mz : mag x = 0 ↔ IsZero x := by have := mag_eq x; unfold IsZero; omega
  have ws : ∀ m, withSign (neg x) m = sign x * 2 ^ 31 + m := by
    intro m
    rw [show neg x = decide (sign x = 1) from rfl]
    have := sign_lt x
    unfold withSign
    by_cases c : sign x = 1
    · rw [c]; simp
    · rw [show sign x = 0 by omega]; simp
  refine ⟨fun h => ?_, fun ix ff ⟨n, hn⟩ => ?_, fun nx => ?_, fun nx => ?_⟩
  · unfold scalb
    rw [if_pos (by rw [a, b]; exact h)]
    exact mul_nan h
  · have nx : ¬ IsNaN x := fun c => c.2 ix.2
    have s := fun k => ((C117_scalbn_special (n := k) hx).1 ix).1
    unfold scalb
    rw [if_neg (not_or.2 ⟨fun c => nx (a.1 c), (finite_kinds hf ff).1⟩), if_neg (finite_kinds hf ff).2, rint_int hf ff hn, if_neg (by simp), s, s, s]
    split
    · rfl
    split <;> rfl
  · have e : scalb x inf = mul x inf := by
      unfold scalb
      rw [if_neg (not_or.2 ⟨fun c => nx (a.1 c), by decide⟩), if_pos (by decide), if_pos (by decide)]
    have n : isNaN x = false := by rw [Bool.eq_false_iff]; exact fun c => nx ((isNaN_eq x).1 c)
    have m : mul x inf = if mag x = 0 then nan else withSign (neg x) inf := by
      unfold mul
      rw [n, show isNaN inf = false by decide, show isInf inf = true by decide, show mag inf = inf by decide, show neg inf = false by decide]
      simp only [Bool.false_eq_true, if_false, Bool.or_true, if_true, show ¬ inf = 0 by decide, decide_false, Bool.or_false, decide_eq_true_eq]
      cases neg x <;> rfl
    rw [e, m]
    refine ⟨fun z => by rw [if_neg (fun c => z (mz.1 c)), ws], fun z => by rw [if_pos (mz.2 z)]; decide⟩
  · have e : scalb x (2 ^ 31 + inf) = div x inf := by
      unfold scalb
      rw [if_neg (not_or.2 ⟨fun c => nx (a.1 c), by decide⟩), if_pos (by decide), if_neg (by decide), show negate (2 ^ 31 + inf) = inf by decide]
    have n : isNaN x = false := by rw [Bool.eq_false_iff]; exact fun c => nx ((isNaN_eq x).1 c)
    have m : div x inf = if isInf x then nan else withSign (neg x) 0 := by
      unfold div
      rw [n, show isNaN inf = false by decide, show isInf inf = true by decide, show neg inf = false by decide]
      simp only [Bool.false_eq_true, if_false, if_true]
      cases neg x <;> rfl
    rw [e, m]
    refine ⟨fun z => by rw [if_neg (fun c => z ((isInf_eq x).1 c)), ws, add_zero], fun z => by rw [if_pos ((isInf_eq x).2 z)]; decide⟩

example : scalb 0xbf800000 inf = 2 ^ 31 + inf := by
  rw [((C147_special (x := 0xbf800000) (f := 0) (by norm_num) (by norm_num)).2.2.1 (by decide)).1 (by decide)]; decide

/-- **C147** **Significand.** For every finite nonzero float, `significand` returns the number of its sign from 1 to 2 in magnitude that gives it when it is multiplied
by two to the power of what `ilogb` returns, exactly. -/
theorem C147_significand {x : Nat} (hx : x < 2 ^ 32) (fx : IsFinite x) (h0 : ¬ IsZero x) :
    IsFinite (significand x) ∧ sign (significand x) = sign x ∧ 1 ≤ |value (significand x)| ∧ |value (significand x)| < 2 ∧
    value x = value (significand x) * (2 : ℚ) ^ ilogb x := by
  obtain ⟨i1, i2⟩ := C117_ilogb hx fx h0
  have z : value x ≠ 0 := by
    intro c; rw [c, abs_zero] at i1
    have : (0 : ℚ) < (2 : ℚ) ^ ilogb x := by positivity
    linarith
  have lo : -150 < ilogb x + 1 := by
    have := lt_of_le_of_lt (least hx z) i2
    have := (zpow_lt_zpow_iff_right₀ (by norm_num : (1 : ℚ) < 2)).1 this
    omega
  have up : ilogb x ≤ 128 := (zpow_le_zpow_iff_right₀ (by norm_num : (1 : ℚ) < 2)).1 (le_trans i1 (most hx fx))
  obtain ⟨o1, o2, o3⟩ := ofInt_value (i := -(ilogb x)) (by omega)
  have R := C147_scalb hx o1 fx o2 o3
  obtain ⟨f1, f2, f3, f4, f5, f6⟩ := C117_frexp hx fx h0
  have sg : scalb x (ofInt (-(ilogb x))) = significand x := rfl
  rw [sg] at R
  generalize significand x = r at *
  generalize ilogb x = k at *
  generalize (frexp x).1 = f at *
  generalize (frexp x).2 = e at *
  -- the exponents
  have P : (0 : ℚ) < (2 : ℚ) ^ k := by positivity
  have E : (0 : ℚ) < (2 : ℚ) ^ e := by positivity
  have ax : |value x| = |value f| * (2 : ℚ) ^ e := by rw [f6, abs_mul, abs_of_pos E]
  have ek : e = k + 1 := by
    rw [ax] at i1 i2
    have a : (2 : ℚ) ^ k < (2 : ℚ) ^ e := lt_of_le_of_lt i1 (by
      have := mul_lt_mul_of_pos_right f5 E; rwa [one_mul] at this)
    have a := (zpow_lt_zpow_iff_right₀ (by norm_num : (1 : ℚ) < 2)).1 a
    have b : (2 : ℚ) ^ (e - 1) < (2 : ℚ) ^ (k + 1) := by
      refine lt_of_le_of_lt ?_ i2
      rw [zpow_sub_one₀ (by norm_num)]
      have := mul_le_mul_of_nonneg_right f4 E.le
      linarith
    have b := (zpow_lt_zpow_iff_right₀ (by norm_num : (1 : ℚ) < 2)).1 b
    omega
  have q : value x * (2 : ℚ) ^ (-k) = value f + value f := by
    rw [f6, ek, zpow_add_one₀ (by norm_num), zpow_neg]; field_simp; ring
  -- the product is a float
  rw [q] at R
  have exact : value r = value f + value f := by
    obtain ⟨d, hd, fd, vd⟩ := twice f1 f4 f5
    have lim := small_two (q := value f + value f) (by have := abs_add_le (value f) (value f); linarith)
    have n := R.2.2
    rw [if_pos lim] at n
    exact nearest_exact n hd fd vd
  have lim := small_two (q := value f + value f) (by have := abs_add_le (value f) (value f); linarith)
  have n := R.2.2
  rw [if_pos lim] at n
  have dbl : |value f + value f| = 2 * |value f| := by rw [← two_mul, abs_mul, abs_of_pos (by norm_num : (0 : ℚ) < 2)]
  refine ⟨n.1, R.2.1, ?_, ?_, ?_⟩
  · rw [exact, dbl]; linarith
  · rw [exact, dbl]; linarith
  · rw [exact, f6, ek, zpow_add_one₀ (by norm_num)]; ring

/-- The least positive number. -/
example : 1 ≤ |value (significand 1)| ∧ |value (significand 1)| < 2 := by
  obtain ⟨-, -, a, b, -⟩ := C147_significand (x := 1) (by norm_num) (by decide) (by decide)
  exact ⟨a, b⟩

/-- **C147** **Significand of the rest.** A zero and an infinite are returned as they are, and a `NaN` gives a `NaN`. -/
theorem C147_significand_special {x : Nat} (hx : x < 2 ^ 32) :
    (IsZero x ∨ IsInf x → significand x = x) ∧ (IsNaN x → IsNaN (significand x)) := by
  have i : IsZero x ∨ ¬ IsFinite x → ofInt (-(ilogb x)) < 2 ^ 32 ∧ IsFinite (ofInt (-(ilogb x))) ∧ ∃ n : ℤ, value (ofInt (-(ilogb x))) = n := by
    rintro (z | c)
    · rw [(C117_ilogb_special hx).1 z, show ofInt (-(-(2 ^ 31 - 1))) = 0x4f000000 by decide]
      exact ⟨by norm_num, by decide, 2147483648, by unfold value sign expo frac; norm_num⟩
    · rw [(C117_ilogb_special hx).2 c, show ofInt (-(2 ^ 31 - 1)) = 0xcf000000 by decide]
      exact ⟨by norm_num, by decide, -2147483648, by unfold value sign expo frac; norm_num⟩
  refine ⟨fun h => ?_, fun h => ?_⟩
  · rcases h with h | h
    · obtain ⟨o1, o2, n, o3⟩ := i (Or.inl h)
      have fx : IsFinite x := by unfold IsFinite; have := h.1; omega
      have v : value x = 0 := by unfold value; rw [h.1, h.2]; simp
      obtain ⟨a, b, c⟩ := C147_scalb hx o1 fx o2 o3
      rw [v, zero_mul, if_pos (small_two (by norm_num))] at c
      exact bits_eq a hx b ((nearest_exact c hx fx v).trans v.symm)
    · obtain ⟨o1, o2, o3⟩ := i (Or.inr (fun c => c h.1))
      exact (C147_special hx o1).2.1 h o2 o3
  · obtain ⟨o1, -, -⟩ := i (Or.inr (fun c => c h.1))
    exact (C147_special hx o1).1 (Or.inl h)

example : significand (2 ^ 31) = 2 ^ 31 := (C147_significand_special (x := 2 ^ 31) (by norm_num)).1 (Or.inl (by decide))

end Pok.Libmf
