import Verif.Model.Scalb
import Verif.Props.Expm1
import Verif.Props.Rint
import Verif.Props.Nextafter
/-!
# C146: scaling by a double, and the significand

The specification is the value and the rounding of doubles of `Verif.Spec.Float`.
-/
namespace Pok.Libm
open Pok.Fpu Pok.Float

/-! ## Very large and very small products -/

/-- A nonzero number is at least the least positive one. -/
theorem least {x : Nat} (hx : x < 2 ^ 64) (h : value x ≠ 0) : (2 : ℚ) ^ (-1074 : ℤ) ≤ |value x| := by
  have e := value_units x
  have z : sunits x ≠ 0 := by intro c; rw [c] at e; simp at e; exact h e
  rw [e, abs_div, abs_of_pos (by positivity : (0 : ℚ) < 2 ^ 1074), zpow_neg, ← one_div]
  rw [zpow_ofNat]
  refine div_le_div_of_nonneg_right ?_ (by positivity)
  have : 1 ≤ |sunits x| := Int.one_le_abs z
  exact_mod_cast this

theorem most {x : Nat} (hx : x < 2 ^ 64) (f : IsFinite x) : |value x| ≤ (2 : ℚ) ^ (1024 : ℤ) := by
  have hinf : inf = 0x7ff00000 * 2 ^ 32 := rfl
  have m := (finite_iff x).1 f
  have := Err.value_mono hx (c := 0x7fefffffffffffff) (by norm_num) (by omega)
  refine le_trans this ?_
  rw [show (2 : ℚ) ^ (1024 : ℤ) = 2 * 2 ^ 1023 by rw [zpow_ofNat, ← pow_succ']]
  have : value 0x7fefffffffffffff = 9007199254740991 / 2 ^ 52 * 2 ^ 1023 := by unfold value sign expo frac; norm_num
  rw [this]
  exact mul_le_mul_of_nonneg_right (by norm_num) (by positivity)

theorem far_up {x : Nat} (hx : x < 2 ^ 64) {m n : ℤ} (h0 : 2100 ≤ m) (h1 : m ≤ n) {r : Nat} (h : Rounded (value x * (2 : ℚ) ^ m) (sign x) r) :
    Rounded (value x * (2 : ℚ) ^ n) (sign x) r := by
  by_cases z : value x = 0
  · rw [z, zero_mul] at h ⊢; exact h
  have big : ∀ k : ℤ, 2100 ≤ k → ¬ |value x * (2 : ℚ) ^ k| < (2 ^ 54 - 1) * 2 ^ 970 := by
    intro k hk
    rw [not_lt, abs_mul, abs_of_pos (by positivity : (0 : ℚ) < 2 ^ k)]
    have a := mul_le_mul (least hx z) (zpow_le_zpow_right₀ (by norm_num : (1 : ℚ) ≤ 2) hk) (by positivity) (abs_nonneg _)
    refine le_trans ?_ a
    rw [← zpow_add₀ (by norm_num)]
    have b : (2 : ℚ) ^ (1024 : ℤ) ≤ (2 : ℚ) ^ (-1074 + 2100 : ℤ) := zpow_le_zpow_right₀ (by norm_num) (by norm_num)
    refine le_trans ?_ b
    rw [show (2 : ℚ) ^ (1024 : ℤ) = 2 ^ 54 * 2 ^ 970 by rw [zpow_ofNat, ← pow_add]]
    exact mul_le_mul_of_nonneg_right (by norm_num) (by positivity)
  obtain ⟨a, b, c⟩ := h
  rw [if_neg (big m h0)] at c
  refine ⟨a, b, ?_⟩
  rw [if_neg (big n (by omega))]
  exact c

theorem far_down {x : Nat} (hx : x < 2 ^ 64) (f : IsFinite x) {m n : ℤ} (h0 : m ≤ -2200) (h1 : n ≤ m) {r : Nat} (h : Rounded (value x * (2 : ℚ) ^ m) (sign x) r) :
    Rounded (value x * (2 : ℚ) ^ n) (sign x) r := by
  have small : ∀ k : ℤ, k ≤ -2200 → |value x * (2 : ℚ) ^ k| ≤ (2 : ℚ) ^ (-1076 : ℤ) := by
    intro k hk
    rw [abs_mul, abs_of_pos (by positivity : (0 : ℚ) < 2 ^ k)]
    have a := mul_le_mul (most hx f) (zpow_le_zpow_right₀ (by norm_num : (1 : ℚ) ≤ 2) hk) (by positivity) (by positivity)
    refine le_trans a ?_
    rw [← zpow_add₀ (by norm_num)]
    exact zpow_le_zpow_right₀ (by norm_num) (by norm_num)
  have four : (2 : ℚ) ^ (-1074 : ℤ) = 4 * (2 : ℚ) ^ (-1076 : ℤ) := by
    rw [show (4 : ℚ) = (2 : ℚ) ^ (2 : ℤ) by norm_num, ← zpow_add₀ (by norm_num)]; norm_num
  have tp : (0 : ℚ) < (2 : ℚ) ^ (-1076 : ℤ) := by positivity
  have lim : ∀ k : ℤ, k ≤ -2200 → |value x * (2 : ℚ) ^ k| < (2 ^ 54 - 1) * 2 ^ 970 := by
    intro k hk
    refine lt_of_le_of_lt (small k hk) ?_
    have : (2 : ℚ) ^ (-1076 : ℤ) ≤ 1 := zpow_le_one_of_nonpos₀ (by norm_num) (by norm_num)
    have : (1 : ℚ) ≤ 2 ^ 970 := one_le_pow₀ (by norm_num)
    generalize (2 : ℚ) ^ 970 = T at *
    nlinarith
  have far : ∀ k : ℤ, k ≤ -2200 → ∀ d, d < 2 ^ 64 → value d ≠ 0 → 3 * (2 : ℚ) ^ (-1076 : ℤ) ≤ |value d - value x * (2 : ℚ) ^ k| := by
    intro k hk d hd z
    have a := least hd z
    have b := small k hk
    have c := abs_sub_abs_le_abs_sub (value d) (value x * (2 : ℚ) ^ k)
    linarith
  obtain ⟨a, b, c⟩ := h
  rw [if_pos (lim m h0)] at c
  have v0 : value r = 0 := by
    by_contra z
    have l := far m h0 r a z
    have q := c.2.1 0 (by norm_num) (by decide)
    rw [show value 0 = 0 by unfold value sign expo frac; norm_num, zero_sub, abs_neg] at q
    have := small m h0
    linarith
  refine ⟨a, b, ?_⟩
  have hn : n ≤ -2200 := by omega
  rw [if_pos (lim n hn)]
  have s := small n hn
  refine ⟨c.1, fun d hd fd => ?_, fun d hd fd e ne => ?_⟩
  · rw [v0, zero_sub, abs_neg]
    by_cases z : value d = 0
    · rw [z, zero_sub, abs_neg]
    · have := far n hn d hd z
      linarith
  · exfalso
    rw [v0] at e ne
    have := far n hn d hd ne
    rw [e, zero_sub, abs_neg] at this
    linarith

/-! ## The tests of the code -/

theorem key_mag (x : Nat) : mag x = (key x).natAbs := by unfold key; split <;> simp

theorem mag_val {x : Nat} (hx : x < 2 ^ 64) : (value (mag x) : ℝ) = |(value x : ℝ)| := by
  have m := mag_lt x
  have n := Hypot.val_nonneg m
  have e : mag (mag x) = mag x := by unfold mag at *; omega
  have a := abs_value' (d := mag x) (by omega)
  rw [e, ← abs_value' hx] at a
  rw [← abs_of_nonneg n]
  exact_mod_cast a

theorem abs_of_mag {x y : Nat} (hx : x < 2 ^ 64) (hy : y < 2 ^ 64) (h : mag x = mag y) : |value x| = |value y| := by
  have a := mag_val hx
  have b := mag_val hy
  rw [h, b] at a
  exact_mod_cast a.symm

/-- An integer number is equal to its rounded one. -/
theorem rint_int {f : Nat} (hf : f < 2 ^ 64) (ff : IsFinite f) {n : ℤ} (hn : value f = n) : eq (rint f) f = true := by
  have e : rint f = f := by
    obtain ⟨a, b, c, m, d, g, -⟩ := C89_rint_partial hf ff (by
      rintro ⟨-, -, k, hk⟩
      rw [hn] at hk
      have : ((4 * |n| : ℤ) : ℚ) = ((8 * k + 3 : ℤ) : ℚ) := by push_cast; rw [hk]; ring
      have : 4 * |n| = 8 * (k : ℤ) + 3 := by exact_mod_cast this
      omega)
    rw [hn] at g
    have g' := abs_le.1 g
    have e1 : (n - m : ℤ) < 1 := by
      have : ((n - m : ℤ) : ℚ) < ((1 : ℤ) : ℚ) := by push_cast; linarith
      exact_mod_cast this
    have e2 : (-1 : ℤ) < n - m := by
      have : ((-1 : ℤ) : ℚ) < ((n - m : ℤ) : ℚ) := by push_cast; linarith
      exact_mod_cast this
    have : m = n := by omega
    exact Cosh.bits_eq a hf c (by rw [d, hn, this])
  have n' := notNaN ((finite_iff f).1 ff)
  unfold eq
  rw [e, n']
  simp

/-- A number with a fraction is not. -/
theorem rint_frac {f : Nat} (hf : f < 2 ^ 64) (ff : IsFinite f) (hr : rint f < 2 ^ 64) (hn : ∀ n : ℤ, value f ≠ n) : eq (rint f) f = false := by
  rw [Bool.eq_false_iff]
  intro c
  unfold eq at c
  simp only [Bool.and_eq_true, decide_eq_true_eq] at c
  have m : |value (rint f)| = |value f| := abs_of_mag hr hf (by rw [key_mag, key_mag, c.2])
  have int : ∃ n : ℤ, |value f| = |(n : ℚ)| := by
    by_cases l : 2 ^ 18 ≤ |value f| ∧ |value f| < 2 ^ 19 ∧ ∃ k : ℕ, |value f| = 2 * k + 3 / 4
    · obtain ⟨l1, l2, k, l3⟩ := l
      have := C89_rint_violated hf l1 l2 l3
      rw [m, l3] at this
      exfalso; linarith
    · obtain ⟨-, -, -, n, d, -⟩ := C89_rint_partial hf ff l
      exact ⟨n, by rw [← m, d]⟩
  obtain ⟨n, e⟩ := int
  rcases abs_eq_abs.1 e with e | e
  · exact hn n e
  · exact hn (-n) (by push_cast; exact e)

theorem v_limit : value scaleLimit = 65000 := by unfold scaleLimit value sign expo frac; norm_num

theorem lt_limit {x : Nat} (hx : x < 2 ^ 64) (fx : IsFinite x) : lt scaleLimit x = decide (x < 2 ^ 63 ∧ scaleLimit < x) := by
  have n := notNaN ((finite_iff x).1 fx)
  have n' : isNaN scaleLimit = false := by decide
  have k : key scaleLimit = 0x40EFBD0000000000 := by decide
  unfold lt
  rw [n, n', k]
  simp only [Bool.not_false, Bool.true_and]
  apply decide_eq_decide.2
  unfold key neg mag scaleLimit
  split <;> rename_i c <;> simp at c <;> omega

theorem above_limit {x : Nat} (hx : x < 2 ^ 64) (fx : IsFinite x) (h : lt scaleLimit x = true) : 65000 ≤ value x := by
  rw [lt_limit hx fx] at h
  have h := of_decide_eq_true h
  have := Hypot.val_mono (m := scaleLimit) (n := x) h.2.le h.1
  rw [v_limit] at this
  exact_mod_cast this

theorem below_limit {x : Nat} (hx : x < 2 ^ 64) (fx : IsFinite x) (h : lt scaleLimit x = false) : value x ≤ 65000 := by
  rw [lt_limit hx fx] at h
  have h := of_decide_eq_false h
  by_cases c : x < 2 ^ 63
  · have := Hypot.val_mono (m := x) (n := scaleLimit) (by omega) (by decide)
    rw [v_limit] at this
    exact_mod_cast this
  · have := Exp.value_neg (x := x) (by omega) hx
    have n := abs_nonneg (value x)
    linarith

theorem toInt_int {f : Nat} {n : ℤ} (hn : value f = n) : Trig.toInt f = n := by
  rw [value_units, div_eq_iff (by positivity)] at hn
  have : sunits f = n * 2 ^ 1074 := by exact_mod_cast hn
  unfold Trig.toInt
  rw [this]
  exact Int.mul_tdiv_cancel _ (by positivity)

theorem finite_kinds {x : Nat} (hx : x < 2 ^ 64) (fx : IsFinite x) : ¬ isnan x ≠ 0 ∧ ¬ finite x = 0 := by
  obtain ⟨-, -, -, -, -, a, -, b⟩ := C86_kinds hx
  refine ⟨fun c => ?_, b.2 fx⟩
  have := a.1 c
  exact fx this.1

/-- Twice a number from 1/2 to 1 is a number. -/
theorem double {f : Nat} (f1 : f < 2 ^ 64) (f4 : 1 / 2 ≤ |value f|) (f5 : |value f| < 1) : ∃ d, d < 2 ^ 64 ∧ IsFinite d ∧ value d = value f + value f := by
  have m63 : mag f < 2 ^ 63 := mag_lt f
  have hinf : inf = 0x7ff00000 * 2 ^ 32 := rfl
  have f5r : (value (mag f) : ℝ) < 1 := by rw [mag_val f1]; exact_mod_cast f5
  have f4r : (1 / 2 : ℝ) ≤ (value (mag f) : ℝ) := by
    rw [mag_val f1]; have := (Rat.cast_le (K := ℝ)).2 f4; push_cast at this; exact this
  have l1 : 2 ^ 52 ≤ mag f := by
    by_contra c
    have := Cosh.bits_lt (y := mag f) (c := 0x3fd0000000000000) (by omega) (by norm_num) (b := 1 / 4) (by
      rw [show value 0x3fd0000000000000 = 1 / 4 by unfold value sign expo frac; norm_num]; norm_num)
    linarith
  have l2 : mag f < 0x3ff0000000000000 := by
    by_contra c
    have := Cosh.bits_ge (c := 0x3ff0000000000000) (y := mag f) (by omega) m63 (b := 1) (by
      rw [show value 0x3ff0000000000000 = 1 by unfold value sign expo frac; norm_num]; norm_num)
    linarith
  have va := Hypot.val_add (m := mag f) l1 (j := 1) (by omega)
  rw [one_mul, pow_one] at va
  have md : ∀ s, s < 2 → mag (s * 2 ^ 63 + (mag f + 2 ^ 52)) = mag f + 2 ^ 52 := by intro s hs; unfold mag at *; omega
  have s2 := sign_lt f
  have hd : sign f * 2 ^ 63 + (mag f + 2 ^ 52) < 2 ^ 64 := by omega
  have fd : IsFinite (sign f * 2 ^ 63 + (mag f + 2 ^ 52)) := by rw [finite_iff, md _ s2]; exact lt_of_lt_of_le (Nat.add_lt_add_right l2 _) (by decide)
  have ad : |value (sign f * 2 ^ 63 + (mag f + 2 ^ 52))| = 2 * |value f| := by
    have a := mag_val hd
    rw [md _ s2, va, mag_val f1] at a
    exact_mod_cast a.symm
  have bd : 0 * 2 ^ 63 + (mag f + 2 ^ 52) < 2 ^ 63 := by
    rw [Nat.zero_mul, Nat.zero_add]; exact lt_trans (Nat.add_lt_add_right l2 _) (by decide)
  have vd : value (sign f * 2 ^ 63 + (mag f + 2 ^ 52)) = value f + value f := by
    by_cases c : f < 2 ^ 63
    · have s0 : sign f = 0 := by unfold sign; omega
      rw [s0] at ad ⊢
      have p1 := Hypot.val_nonneg bd
      have p2 := Hypot.val_nonneg c
      rw [abs_of_nonneg (by exact_mod_cast p1), abs_of_nonneg (by exact_mod_cast p2)] at ad
      linarith
    · have s1 : sign f = 1 := by unfold sign; omega
      rw [s1] at ad hd ⊢
      rw [Exp.value_neg (by omega) hd, Exp.value_neg (by omega) f1] at ad
      linarith
  exact ⟨_, hd, fd, vd⟩

theorem small_two {q : ℚ} (h : |q| ≤ 2) : |q| < (2 ^ 54 - 1) * 2 ^ 970 := by
  refine lt_of_le_of_lt h ?_
  have : (1 : ℚ) ≤ 2 ^ 970 := one_le_pow₀ (by norm_num)
  generalize (2 : ℚ) ^ 970 = T at *
  nlinarith

/-! ## The theorems -/

/-- **C146** **Scaling.** For every finite double and every double that is an integer `n`, of any magnitude, `scalb` returns the first multiplied by `2^n`, rounded
once, with its sign. -/
theorem C146_scalb {x f : Nat} (hx : x < 2 ^ 64) (hf : f < 2 ^ 64) (fx : IsFinite x) (ff : IsFinite f) {n : ℤ} (hn : value f = n) :
    Rounded (value x * (2 : ℚ) ^ n) (sign x) (scalb x f) := by
  unfold scalb
  rw [if_neg (not_or.2 ⟨(finite_kinds hx fx).1, (finite_kinds hf ff).1⟩), if_neg (finite_kinds hf ff).2, rint_int hf ff hn, if_neg (by simp)]
  by_cases c1 : lt scaleLimit f = true
  · rw [if_pos c1]
    have v := above_limit hf ff c1
    rw [hn] at v
    exact far_up hx (by norm_num) (by exact_mod_cast v) (C88_scalbn hx fx (n := 65000) (by norm_num) (by norm_num))
  rw [if_neg c1]
  have v1 := below_limit hf ff (Bool.eq_false_iff.2 c1)
  have ng := (Err.Near.self hf ff).neg
  have vn : value (negate f) = - value f := by
    have := Err.value_negate hf ff
    exact_mod_cast this
  by_cases c2 : lt scaleLimit (negate f) = true
  · rw [if_pos c2]
    have v := above_limit ng.1 ng.2.1 c2
    rw [vn, hn] at v
    have v' : n ≤ -65000 := by
      have : (n : ℚ) ≤ ((-65000 : ℤ) : ℚ) := by push_cast; linarith
      exact_mod_cast this
    exact far_down hx fx (by norm_num) v' (C88_scalbn hx fx (n := -65000) (by norm_num) (by norm_num))
  rw [if_neg c2, toInt_int hn]
  have v2 := below_limit ng.1 ng.2.1 (Bool.eq_false_iff.2 c2)
  rw [vn, hn] at v2
  rw [hn] at v1
  have w1 : n ≤ 65000 := by exact_mod_cast v1
  have w2 : -65000 ≤ n := by
    have : ((-65000 : ℤ) : ℚ) ≤ n := by push_cast; linarith
    exact_mod_cast this
  exact C88_scalbn hx fx (by omega) (by omega)

/-- 3/2 and -100000: the product is below every double. -/
example : Rounded (3 / 2 * (2 : ℚ) ^ (-100000 : ℤ)) 0 (scalb 0x3ff8000000000000 0xc0f86a0000000000) := by
  have := C146_scalb (x := 0x3ff8000000000000) (f := 0xc0f86a0000000000) (n := -100000) (by norm_num) (by norm_num) (by decide) (by decide) (by
    unfold value sign expo frac; norm_num)
  rw [show value 0x3ff8000000000000 = 3 / 2 by unfold value sign expo frac; norm_num] at this
  exact this

theorem div_nan {x y : Nat} (h : IsNaN x ∨ IsNaN y) : IsNaN (div x y) := by
  unfold div
  by_cases hx : IsNaN x
  · rw [if_pos ((isNaN_eq x).2 hx)]; exact quiet_nan hx
  · have hy := h.resolve_left hx
    rw [if_neg (fun hh => hx ((isNaN_eq x).1 hh)), if_pos ((isNaN_eq y).2 hy)]; exact quiet_nan hy

/-- **C146** **Fractions.** For every double that is not a `NaN` and every finite double that is not an integer, the result is a `NaN`. -/
theorem C146_fraction {x f : Nat} (hx : x < 2 ^ 64) (hf : f < 2 ^ 64) (nx : ¬ IsNaN x) (ff : IsFinite f) (hn : ∀ n : ℤ, value f ≠ n) : IsNaN (scalb x f) := by
  have a := (C86_kinds hx).2.2.2.2.2.1
  have hr : rint f < 2 ^ 64 := (rint_is hf ff).spec.1
  have z : sub f f = 0 := by
    have := sub_self_make (sign_lt f) ((finite_iff _).1 ff)
    rw [← self_eq hf] at this
    exact this
  unfold scalb
  rw [if_neg (not_or.2 ⟨fun c => nx (a.1 c), (finite_kinds hf ff).1⟩), if_neg (finite_kinds hf ff).2, rint_frac hf ff hr hn, if_pos (by simp), z]
  decide

/-- 1 and 1/2. -/
example : IsNaN (scalb 0x3ff0000000000000 0x3fe0000000000000) := by
  refine C146_fraction (by norm_num) (by norm_num) (by decide) (by decide) (fun n h => ?_)
  rw [show value 0x3fe0000000000000 = 1 / 2 by unfold value sign expo frac; norm_num] at h
  have : ((1 : ℤ) : ℚ) = ((2 * n : ℤ) : ℚ) := by push_cast; linarith
  have : (1 : ℤ) = 2 * n := by exact_mod_cast this
  omega

/-- **C146** **What is not a number, and infinites.** If either argument is a `NaN`, so is the result.  An infinite scaled by a finite integer is returned as it is.
Scaling by the positive infinite gives the infinite of the sign of the number, or a `NaN` for a zero; scaling by the negative one gives the zero of the sign of the
number, or a `NaN` for an infinite. -/
theorem C146_special {x f : Nat} (hx : x < 2 ^ 64) (hf : f < 2 ^ 64) :
    (IsNaN x ∨ IsNaN f → IsNaN (scalb x f)) ∧
    (IsInf x → IsFinite f → (∃ n : ℤ, value f = n) → scalb x f = x) ∧
    (¬ IsNaN x → (¬ IsZero x → scalb x inf = sign x * 2 ^ 63 + inf) ∧ (IsZero x → IsNaN (scalb x inf))) ∧
    (¬ IsNaN x → (¬ IsInf x → scalb x (2 ^ 63 + inf) = sign x * 2 ^ 63) ∧ (IsInf x → IsNaN (scalb x (2 ^ 63 + inf)))) := by
  have a := (C86_kinds hx).2.2.2.2.2.1
  have b := (C86_kinds hf).2.2.2.2.2.1
  have mz : mag x = 0 ↔ IsZero x := by have := mag_eq x; unfold IsZero; omega
  have ws : ∀ m, withSign (neg x) m = sign x * 2 ^ 63 + m := by
    intro m
    rw [Sinh.neg_sign]
    have := sign_lt x
    unfold withSign
    by_cases c : sign x = 1
    · rw [c]; simp
    · rw [show sign x = 0 by omega]; simp
  refine ⟨fun h => ?_, fun ix ff ⟨n, hn⟩ => ?_, fun nx => ?_, fun nx => ?_⟩
  · unfold scalb
    rw [if_pos (by rw [a, b]; exact h)]
    exact mul_nan h
  · have nx : ¬ IsNaN x := fun c => c.2 ix.2
    have s := fun k => ((C88_scalbn_special (n := k) hx).1 ix).1
    unfold scalb
    rw [if_neg (not_or.2 ⟨fun c => nx (a.1 c), (finite_kinds hf ff).1⟩), if_neg (finite_kinds hf ff).2, rint_int hf ff hn, if_neg (by simp), s, s, s]
    split
    · rfl
    split <;> rfl
  · have e : scalb x inf = mul x inf := by
      unfold scalb
      rw [if_neg (not_or.2 ⟨fun c => nx (a.1 c), by decide⟩), if_pos (by decide), if_pos (by decide)]
    have n : isNaN x = false := by rw [Bool.eq_false_iff]; exact fun c => nx ((isNaN_eq x).1 c)
    have m : mul x inf = if mag x = 0 then nan else withSign (neg x) inf := by
      unfold mul
      rw [n, show isNaN inf = false by decide, show isInf inf = true by decide, show mag inf = inf by decide, show neg inf = false by decide]
      simp only [Bool.false_eq_true, if_false, Bool.or_true, if_true, show ¬ inf = 0 by decide, decide_false, Bool.or_false, decide_eq_true_eq]
      cases neg x <;> rfl
    rw [e, m]
    refine ⟨fun z => by rw [if_neg (fun c => z (mz.1 c)), ws], fun z => by rw [if_pos (mz.2 z)]; decide⟩
  · have e : scalb x (2 ^ 63 + inf) = div x inf := by
      unfold scalb
      rw [if_neg (not_or.2 ⟨fun c => nx (a.1 c), by decide⟩), if_pos (by decide), if_neg (by decide), show negate (2 ^ 63 + inf) = inf by decide]
    have n : isNaN x = false := by rw [Bool.eq_false_iff]; exact fun c => nx ((isNaN_eq x).1 c)
    have m : div x inf = if isInf x then nan else withSign (neg x) 0 := by
      unfold div
      rw [n, show isNaN inf = false by decide, show isInf inf = true by decide, show neg inf = false by decide]
      simp only [Bool.false_eq_true, if_false, if_true]
      cases neg x <;> rfl
    rw [e, m]
    refine ⟨fun z => by rw [if_neg (fun c => z ((isInf_eq x).1 c)), ws, add_zero], fun z => by rw [if_pos ((isInf_eq x).2 z)]; decide⟩

example : scalb 0xbff0000000000000 inf = 2 ^ 63 + inf := by
  rw [((C146_special (x := 0xbff0000000000000) (f := 0) (by norm_num) (by norm_num)).2.2.1 (by decide)).1 (by decide)]; decide

/-- **C146** **Significand.** For every finite nonzero double, `significand` returns the number of its sign from 1 to 2 in magnitude that gives it when it is multiplied
by two to the power of what `ilogb` returns, exactly. -/
theorem C146_significand {x : Nat} (hx : x < 2 ^ 64) (fx : IsFinite x) (h0 : ¬ IsZero x) :
    IsFinite (significand x) ∧ sign (significand x) = sign x ∧ 1 ≤ |value (significand x)| ∧ |value (significand x)| < 2 ∧
    value x = value (significand x) * (2 : ℚ) ^ ilogb x := by
  obtain ⟨i1, i2⟩ := C88_ilogb hx fx h0
  have z : value x ≠ 0 := by
    intro c; rw [c, abs_zero] at i1
    have : (0 : ℚ) < (2 : ℚ) ^ ilogb x := by positivity
    linarith
  have lo : -1075 < ilogb x + 1 := by
    have := lt_of_le_of_lt (least hx z) i2
    have := (zpow_lt_zpow_iff_right₀ (by norm_num : (1 : ℚ) < 2)).1 this
    omega
  have up : ilogb x ≤ 1024 := (zpow_le_zpow_iff_right₀ (by norm_num : (1 : ℚ) < 2)).1 (le_trans i1 (most hx fx))
  obtain ⟨o1, o2, o3⟩ := ofInt_value (i := -(ilogb x)) (by omega)
  have R := C146_scalb hx o1 fx o2 o3
  obtain ⟨f1, f2, f3, f4, f5, f6⟩ := C88_frexp hx fx h0
  have sg : scalb x (ofInt (-(ilogb x))) = significand x := rfl
  rw [sg] at R
  generalize significand x = r at *
  generalize ilogb x = k at *
  generalize (frexp x).1 = f at *
  generalize (frexp x).2 = e at *
  -- the exponents
  have P : (0 : ℚ) < (2 : ℚ) ^ k := by positivity
  have E : (0 : ℚ) < (2 : ℚ) ^ e := by positivity
  have ax : |value x| = |value f| * (2 : ℚ) ^ e := by rw [f6, abs_mul, abs_of_pos E]
  have ek : e = k + 1 := by
    rw [ax] at i1 i2
    have a : (2 : ℚ) ^ k < (2 : ℚ) ^ e := lt_of_le_of_lt i1 (by
      have := mul_lt_mul_of_pos_right f5 E; rwa [one_mul] at this)
    have a := (zpow_lt_zpow_iff_right₀ (by norm_num : (1 : ℚ) < 2)).1 a
    have b : (2 : ℚ) ^ (e - 1) < (2 : ℚ) ^ (k + 1) := by
      refine lt_of_le_of_lt ?_ i2
      rw [zpow_sub_one₀ (by norm_num)]
      have := mul_le_mul_of_nonneg_right f4 E.le
      linarith
    have b := (zpow_lt_zpow_iff_right₀ (by norm_num : (1 : ℚ) < 2)).1 b
    omega
  have q : value x * (2 : ℚ) ^ (-k) = value f + value f := by
    rw [f6, ek, zpow_add_one₀ (by norm_num), zpow_neg]; field_simp; ring
  -- the product is a double
  rw [q] at R
  have exact : value r = value f + value f := by
    obtain ⟨d, hd, fd, vd⟩ := double f1 f4 f5
    have lim := small_two (q := value f + value f) (by have := abs_add_le (value f) (value f); linarith)
    have n := R.2.2
    rw [if_pos lim] at n
    exact Err.nearest_exact n hd fd vd
  have lim := small_two (q := value f + value f) (by have := abs_add_le (value f) (value f); linarith)
  have n := R.2.2
  rw [if_pos lim] at n
  have dbl : |value f + value f| = 2 * |value f| := by rw [← two_mul, abs_mul, abs_of_pos (by norm_num : (0 : ℚ) < 2)]
  refine ⟨n.1, R.2.1, ?_, ?_, ?_⟩
  · rw [exact, dbl]; linarith
  · rw [exact, dbl]; linarith
  · rw [exact, f6, ek, zpow_add_one₀ (by norm_num)]; ring

/-- The least positive number. -/
example : 1 ≤ |value (significand 1)| ∧ |value (significand 1)| < 2 := by
  obtain ⟨-, -, a, b, -⟩ := C146_significand (x := 1) (by norm_num) (by decide) (by decide)
  exact ⟨a, b⟩

/-- **C146** **Significand of the rest.** A zero and an infinite are returned as they are, and a `NaN` gives a `NaN`. -/
theorem C146_significand_special {x : Nat} (hx : x < 2 ^ 64) :
    (IsZero x ∨ IsInf x → significand x = x) ∧ (IsNaN x → IsNaN (significand x)) := by
  have i : IsZero x ∨ ¬ IsFinite x → (-(ilogb x)).natAbs < 2 ^ 53 := by
    rintro (z | c)
    · rw [(C88_ilogb_special hx).1 z]; norm_num
    · rw [(C88_ilogb_special hx).2 c]; norm_num
  refine ⟨fun h => ?_, fun h => ?_⟩
  · rcases h with h | h
    · obtain ⟨o1, o2, o3⟩ := ofInt_value (i (Or.inl h))
      have fx : IsFinite x := by unfold IsFinite; have := h.1; omega
      have v : value x = 0 := by unfold value; rw [h.1, h.2]; simp
      obtain ⟨a, b, c⟩ := C146_scalb hx o1 fx o2 o3
      rw [v, zero_mul, if_pos (small_two (by norm_num))] at c
      exact Cosh.bits_eq a hx b (congrArg _ ((Err.nearest_exact c hx fx v).trans v.symm))
    · obtain ⟨o1, o2, o3⟩ := ofInt_value (i (Or.inr (fun c => c h.1)))
      exact (C146_special hx o1).2.1 h o2 ⟨_, o3⟩
  · obtain ⟨o1, -, -⟩ := ofInt_value (i (Or.inr (fun c => c h.1)))
    exact (C146_special hx o1).1 (Or.inl h)

example : significand (2 ^ 63) = 2 ^ 63 := (C146_significand_special (x := 2 ^ 63) (by norm_num)).1 (Or.inl (by decide))

end Pok.Libm
