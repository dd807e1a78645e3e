import Verif.Model.Sinh
import Verif.Props.Cosh
import Verif.Lemmas.Expm1Rel
import Verif.Props.Pow
/-!
# C142, C143: the hyperbolic sine and tangent

The specification is Mathlib's `Real.sinh` and `Real.tanh`, and `value`, `IsFinite`, `IsNaN`, `IsInf` and `sign` of `Verif.Spec.Float`; `2^1024` is where the
doubles end, and `2^-1075` is half of the least positive double.
-/
namespace Pok.Sinh
open Pok.Err Pok.Float Pok.Fpu Pok.Poly Pok.Hypot Pok.Cosh

/-! ## Signs -/

theorem neg_sign (x : Nat) : neg x = decide (sign x = 1) := rfl

theorem nan_of {x : Nat} (h : isNaN x = false) : ¬ inf < mag x := by unfold isNaN at h; simpa using h

theorem quiet_nan {x : Nat} (h : isNaN x = true) : isNaN (quiet x) = true := by
  unfold isNaN at *
  simp only [decide_eq_true_eq] at *
  have hinf : inf = 2047 * 2 ^ 52 := rfl
  unfold quiet
  split
  · exact h
  · unfold mag at *; omega

theorem neg_flip (a : Nat) : neg (negate a) = !neg a ∧ mag (negate a) = mag a := by
  unfold negate
  by_cases c : neg a = true
  · rw [if_pos c]
    unfold neg mag at *
    simp only [decide_eq_true_eq] at c
    refine ⟨?_, by omega⟩
    rw [decide_eq_true c]
    simp only [Bool.not_true, decide_eq_false_iff_not]; omega
  · rw [if_neg c]
    unfold neg mag at *
    simp only [decide_eq_true_eq] at c
    refine ⟨?_, by omega⟩
    rw [decide_eq_false c]
    simp only [Bool.not_false, decide_eq_true_eq]; omega

theorem withSign_flip {s : Bool} {m : Nat} (h : m ≤ 2047 * 2 ^ 52) : negate (withSign s m) = withSign (!s) m := by
  cases s <;> unfold negate withSign neg <;> simp only [Bool.not_true, Bool.not_false, if_true, Bool.false_eq_true, if_false]
  · rw [if_neg (by simp only [decide_eq_true_eq]; omega)]; omega
  · rw [if_pos (by simp only [decide_eq_true_eq]; omega)]; omega

/-- The product with the opposite of a number is the opposite of the product. -/
theorem mul_flip {a b : Nat} (n : isNaN (mul a b) = false) : mul (negate a) b = negate (mul a b) := by
  obtain ⟨f1, f2⟩ := neg_flip a
  have na : isNaN (negate a) = isNaN a := by unfold isNaN; rw [f2]
  have ia : isInf (negate a) = isInf a := by unfold isInf; rw [f2]
  have x : ((!neg a) != neg b) = !(neg a != neg b) := by cases neg a <;> cases neg b <;> rfl
  unfold mul at *
  rw [na, ia, f1, f2, x]
  split at n
  · next c => rw [quiet_nan c] at n; exact absurd n (by decide)
  next c1 =>
  rw [if_neg c1, if_neg c1]
  split at n
  · next c => rw [quiet_nan c] at n; exact absurd n (by decide)
  next c2 =>
  rw [if_neg c2, if_neg c2]
  split at n
  · next c =>
    rw [if_pos c, if_pos c]
    split at n
    · exact absurd n (by decide)
    · next d => rw [if_neg d, if_neg d, withSign_flip (by decide)]
  · next c =>
    rw [if_neg c, if_neg c]
    exact (withSign_flip (Nat.min_le_right _ _)).symm

theorem mhalf_eq : mhalf = negate half := by decide

theorem near_nan {r : Nat} {v e : ℝ} (h : Near r v e) : isNaN r = false := notNaN ((finite_iff r).1 h.2.1)

theorem near_neg {r : Nat} {v e : ℝ} (h : Near r v e) : Near (negate r) (-v) e := h.neg

/-- The test for tiny numbers. -/
theorem tiny_test {x : Nat} (hx : x < 2 ^ 64) (h : mag x / 2 ^ 32 < 0x3e300000) : lt Libm.one (add shuge x) = true := by
  have hinf : inf = 0x7ff00000 * 2 ^ 32 := rfl
  have fx : IsFinite x := by rw [finite_iff]; omega
  have m := value_mono (x := x) (c := 0x3e30000000000000) hx (by norm_num) (by omega)
  have v : value 0x3e30000000000000 = 1 / 2 ^ 28 := by unfold value sign expo frac; norm_num
  have b : |(value x : ℝ)| ≤ 1 / 2 ^ 28 := by
    have := (Rat.cast_le (K := ℝ)).2 (le_trans m v.le); push_cast at this ⊢; exact this
  have hs : shuge < 2 ^ 63 ∧ IsFinite shuge := by decide
  have lo : (2 : ℝ) ^ 10 ≤ value shuge := bits_ge (c := 0x4090000000000000) (by decide) hs.1 (by
    rw [show value 0x4090000000000000 = 2 ^ 10 by unfold value sign expo frac; norm_num]; norm_num)
  have hi : (value shuge : ℝ) ≤ 2 ^ 1019 * (19 / 10) := by
    have q : value shuge ≤ 2 ^ 1019 * (19 / 10) := by
      rw [show value shuge = 2 ^ 1019 * (0x1c7b1f3cac7433 / 2 ^ 52) by unfold shuge value sign expo frac; norm_num; ring]
      exact mul_le_mul_of_nonneg_left (by norm_num) (by positivity)
    have := (Rat.cast_le (K := ℝ)).2 q
    push_cast at this; exact this
  have b' := abs_le.1 b
  have s : |(value shuge : ℝ) + value x| ≤ 2 ^ 1020 := by
    have e : (2 : ℝ) ^ 1020 = 2 ^ 1019 * 2 := pow_succ _ _
    have : (1 : ℝ) ≤ 2 ^ 1000 := one_le_pow₀ (by norm_num)
    have : (2 : ℝ) ^ 10 ≤ 2 ^ 1019 := pow_le_pow_right₀ (by norm_num) (by norm_num)
    rw [e]
    generalize (2 : ℝ) ^ 1019 = P at *
    rw [abs_le]; constructor <;> linarith only [lo, hi, b'.1, b'.2, this]
  obtain ⟨r1, r2, r3⟩ := Rel.add_rel (by omega) hx hs.2 fx s
  have big : 2 ≤ (value (add shuge x) : ℝ) := by
    have p : 0 < (value shuge : ℝ) + value x := by linarith only [lo, b'.1]
    rw [abs_of_pos p] at r3
    have := (abs_le.1 r3).1
    linarith only [this, lo, b'.1]
  generalize add shuge x = y at *
  have n := notNaN ((finite_iff y).1 r2)
  have y63 : y < 2 ^ 63 := by
    by_contra c
    have := Exp.value_neg (x := y) (by omega) r1
    have n := abs_nonneg (value y)
    rw [this] at n
    have n' := (Rat.cast_le (K := ℝ)).2 n
    push_cast at n'
    linarith only [n', big]
  have gt : Libm.one < y := by
    by_contra c
    have := bits_lt (y := y) (c := Libm.one) (by omega) (by decide) (b := 1) (by
      rw [show value Libm.one = 1 by unfold Libm.one value sign expo frac; norm_num]; norm_num)
    linarith only [this, big]
  have k : key Libm.one = (Libm.one : Int) := by decide
  have n' : isNaN Libm.one = false := by decide
  unfold lt
  rw [n, n', k]
  simp only [Bool.not_false, Bool.true_and, decide_eq_true_eq]
  unfold key neg
  rw [if_neg (by simp only [decide_eq_true_eq]; omega), mag_s y63]
  exact_mod_cast gt

theorem hi_sign {x : Nat} (hx : x < 2 ^ 64) : 0x80000000 ≤ Libm.hi x ↔ 2 ^ 63 ≤ x := by unfold Libm.hi; omega

theorem sinh_eq {x : Nat} (hx : x < 2 ^ 64) (fx : IsFinite x) : sinh x =
    if mag x / 2 ^ 32 < 0x40360000 then
      if mag x / 2 ^ 32 < 0x3e300000 then x
      else if mag x / 2 ^ 32 < 0x3ff00000 then
        mul (if 2 ^ 63 ≤ x then mhalf else half) (sub (mul two (expm1 (mag x))) (div (mul (expm1 (mag x)) (expm1 (mag x))) (add (expm1 (mag x)) Libm.one)))
      else mul (if 2 ^ 63 ≤ x then mhalf else half) (add (expm1 (mag x)) (div (expm1 (mag x)) (add (expm1 (mag x)) Libm.one)))
    else if mag x / 2 ^ 32 < 0x40862E42 then mul (if 2 ^ 63 ≤ x then mhalf else half) (Exp.exp (mag x))
    else if mag x ≤ 0x408633ce8fb9f87d then mul (mul (if 2 ^ 63 ≤ x then mhalf else half) (Exp.exp (mul half (mag x)))) (Exp.exp (mul half (mag x)))
    else mul x shuge := by
  have hinf : inf = 0x7ff00000 * 2 ^ 32 := rfl
  have mi := (finite_iff x).1 fx
  have l : Libm.lo x = mag x % 2 ^ 32 := by unfold Libm.lo mag; omega
  have e : (mag x / 2 ^ 32 < 0x408633CE ∨ mag x / 2 ^ 32 = 0x408633ce ∧ mag x % 2 ^ 32 ≤ 0x8fb9f87d) ↔ mag x ≤ 0x408633ce8fb9f87d := by omega
  have t : (mag x / 2 ^ 32 < 0x3e300000 ∧ lt Libm.one (add shuge x) = true) ↔ mag x / 2 ^ 32 < 0x3e300000 := ⟨fun h => h.1, fun h => ⟨h, tiny_test hx h⟩⟩
  unfold sinh
  simp only [hi_sign hx]
  rw [hi31 hx, Libm.fabs_mag hx, l, if_neg (by omega)]
  simp only [e, t]

/-- The hyperbolic sine of a negative number. -/
theorem sinh_flip {x : Nat} (hx : x < 2 ^ 63) (fx : IsFinite x) (n : isNaN (sinh x) = false) : sinh (2 ^ 63 + x) = negate (sinh x) := by
  have m : mag (2 ^ 63 + x) = x := by unfold mag; omega
  have m' := mag_s hx
  have fx' : IsFinite (2 ^ 63 + x) := by rw [finite_iff] at *; rw [m]; rw [m'] at fx; exact fx
  have f : negate x = 2 ^ 63 + x := by unfold negate neg; rw [if_neg (by simp only [decide_eq_true_eq]; omega)]; omega
  rw [sinh_eq (by omega) fx, m', if_neg (show ¬ 2 ^ 63 ≤ x by omega)] at n
  rw [sinh_eq (by omega) fx', sinh_eq (by omega) fx, m, m', if_pos (show 2 ^ 63 ≤ 2 ^ 63 + x by omega), if_neg (show ¬ 2 ^ 63 ≤ x by omega), mhalf_eq]
  split
  · next c =>
    rw [if_pos c] at n
    split
    · exact f.symm
    next d =>
    rw [if_neg d] at n
    split
    · next e => rw [if_pos e] at n; exact mul_flip n
    · next e => rw [if_neg e] at n; exact mul_flip n
  next c =>
  rw [if_neg c] at n
  split
  · next d => rw [if_pos d] at n; exact mul_flip n
  next d =>
  rw [if_neg d] at n
  split
  · next e =>
    rw [if_pos e] at n
    have nn : isNaN (mul half (Exp.exp (mul half x))) = false := by
      by_contra q
      have q : isNaN (mul half (Exp.exp (mul half x))) = true := by simpa using q
      have : mul (mul half (Exp.exp (mul half x))) (Exp.exp (mul half x)) = quiet (mul half (Exp.exp (mul half x))) := by
        rw [mul, if_pos q]
      rw [this, quiet_nan q] at n
      exact absurd n (by decide)
    rw [mul_flip nn]
    exact mul_flip n
  · next e =>
    rw [if_neg e] at n
    rw [← f]
    exact mul_flip n

/-- Bounds for negative numbers from those for positive ones. -/
theorem both {x : Nat} (hx : x < 2 ^ 64) (fx : IsFinite x) {e : ℝ → ℝ} (h : Near (sinh (mag x)) (Real.sinh (value (mag x))) (e |Real.sinh (value x)|)) :
    Near (sinh x) (Real.sinh (value x)) (e |Real.sinh (value x)|) := by
  have m : mag x < 2 ^ 63 := mag_lt x
  by_cases c : x < 2 ^ 63
  · rw [mag_s c] at h; exact h
  · have fm : IsFinite (mag x) := by rw [finite_iff, mag_s m]; exact (finite_iff x).1 fx
    have e1 : x = 2 ^ 63 + mag x := by unfold mag; omega
    have f := sinh_flip m fm (near_nan h)
    rw [← e1] at f
    have v : (value x : ℝ) = - value (mag x) := by
      have a := Exp.value_neg (x := x) (by omega) hx
      have b := value_mag hx
      have a' := congrArg (fun q : ℚ => (q : ℝ)) a
      push_cast at a'
      rw [← b] at a'
      linarith
    rw [f]
    have := near_neg h
    rw [← Real.sinh_neg, ← v] at this
    exact this

theorem sinh_exp (X : ℝ) : Real.sinh X = (Real.exp X - (Real.exp X)⁻¹) / 2 := by rw [Real.sinh_eq, Real.exp_neg]

/-- Close to the cosine is close to the sine where the two agree. -/
theorem of_cosh {r : Nat} {X c : ℝ} (h0 : 22 ≤ X) (c0 : 0 ≤ c) (c1 : c ≤ 51 / 10 / 2 ^ 53) (h : Near r (Real.cosh X) (Real.cosh X * c)) :
    Near r (Real.sinh X) (Real.sinh X * (52 / 10 / 2 ^ 53)) := by
  have l2 := Exp.ln2_b
  have e2 : (2 : ℝ) ^ 31 ≤ Real.exp X := by
    have := Exp.exp_pow2 31
    rw [show ((2 : ℝ) ^ (31 : ℤ)) = 2 ^ 31 by norm_cast] at this
    rw [this]; apply Real.exp_le_exp.2; push_cast; linarith only [h0, l2.2]
  refine ⟨h.1, h.2.1, ?_⟩
  have t := h.2.2
  rw [cosh_exp] at t
  rw [sinh_exp]
  generalize Real.exp X = E at *
  have Ep : 0 < E := by linarith only [e2]
  have i0 : 0 ≤ E⁻¹ := by positivity
  have i1 : E⁻¹ ≤ E / 2 ^ 62 := by
    rw [inv_le_iff_one_le_mul₀ Ep]
    have := mul_le_mul e2 e2 (by norm_num) Ep.le
    linarith only [this]
  have t2 := le_trans t (mul_le_mul_of_nonneg_left c1 (by linarith only [Ep, i0] : 0 ≤ (E + E⁻¹) / 2))
  have t' := abs_le.1 t2
  generalize E⁻¹ = J at *
  rw [abs_le]; constructor <;> linarith only [t'.1, t'.2, i0, i1, Ep]

/-- Numbers from 22 to the threshold. -/
theorem large_near {y : Nat} (h : y ≤ 0x408633ce8fb9f87d) (h0 : 22 ≤ (value y : ℝ)) : Near (sinh y) (Real.sinh (value y)) (Real.sinh (value y) * (52 / 10 / 2 ^ 53)) := by
  have hy : y < 2 ^ 63 := by omega
  have hinf : inf = 0x7ff00000 * 2 ^ 32 := rfl
  have fy : IsFinite y := by rw [finite_iff, mag_s hy]; omega
  have lo : 0x4036000000000000 ≤ y := by
    by_contra c
    have := bits_lt (y := y) (c := 0x4035ffffffffffff) (by omega) (by norm_num) (b := 22 - 1 / 2 ^ 50) (by
      rw [show value 0x4035ffffffffffff = 22 - 1 / 2 ^ 48 by unfold value sign expo frac; norm_num]; norm_num)
    linarith only [this, h0]
  rw [sinh_eq (by omega) fy, mag_s hy, if_neg (show ¬ 2 ^ 63 ≤ y by omega), if_neg (by omega)]
  split
  · next c3 =>
    refine of_cosh h0 (by norm_num) (by norm_num) (high_near hy fy h0 (bits_lt (c := 0x40862E4200000000) (by omega) (by norm_num) ?_))
    rw [show value 0x40862E4200000000 = 7097822265625 / 10 ^ 10 by unfold value sign expo frac; norm_num]; norm_num
  · next c3 =>
    refine of_cosh h0 (by norm_num) le_rfl (top_near hy fy (bits_ge (c := 0x40862E4200000000) (by omega) hy ?_) (bits_lt (c := 0x408633ce8fb9f87d) (by omega) (by norm_num) ?_))
    · rw [show value 0x40862E4200000000 = 7097822265625 / 10 ^ 10 by unfold value sign expo frac; norm_num]; norm_num
    · rw [show value 0x408633ce8fb9f87d = 0x1633ce8fb9f87d / 2 ^ 43 by unfold value sign expo frac; norm_num]; norm_num

/-- Above the threshold the hyperbolic sine is at least `2^1024`. -/
theorem above_sinh {y : Nat} (h : 0x408633ce8fb9f87d < y) (hy : y < 2 ^ 63) : 2 ^ 1024 ≤ Real.sinh (value y) := by
  have l2 := Exp.ln2_b
  have b : 71047586007394397711 / 10 ^ 17 ≤ (value y : ℝ) := bits_ge (c := 0x408633ce8fb9f87e) (by omega) hy (by
    rw [show value 0x408633ce8fb9f87e = 0x1633ce8fb9f87e / 2 ^ 43 by unfold value sign expo frac; norm_num]; norm_num)
  have eP : (2 : ℝ) ^ 1024 * 2 = Real.exp (1025 * Real.log 2) := by
    rw [← pow_succ]
    have := Exp.exp_pow2 1025; push_cast at this; rw [← this]; rfl
  have a : 1 + 3 / 10 ^ 14 ≤ Real.exp (3 / 10 ^ 14) := by linarith only [Real.add_one_le_exp (3 / 10 ^ 14 : ℝ)]
  have : Real.exp (1025 * Real.log 2) * (1 + 3 / 10 ^ 14) ≤ Real.exp (value y) := by
    refine le_trans (mul_le_mul_of_nonneg_left a (Real.exp_pos _).le) ?_
    rw [← Real.exp_add]
    exact Real.exp_le_exp.2 (by linarith only [b, l2.2])
  rw [← eP] at this
  rw [sinh_exp]
  have big : (2 : ℝ) ^ 60 ≤ 2 ^ 1024 := pow_le_pow_right₀ (by norm_num) (by norm_num)
  have i : (Real.exp (value y : ℝ))⁻¹ ≤ 1 := inv_le_one_of_one_le₀ (Real.one_le_exp (val_nonneg hy))
  generalize (2 : ℝ) ^ 1024 = P at *
  linarith only [this, i, big]

theorem sinh_lt_cosh (X : ℝ) : Real.sinh X < Real.cosh X := by
  rw [sinh_exp, cosh_exp]
  have : 0 < (Real.exp X)⁻¹ := by positivity
  linarith

theorem abs_mag {x : Nat} (hx : x < 2 ^ 64) : |Real.sinh (value x)| = Real.sinh (value (mag x)) := by rw [value_mag hx, Real.abs_sinh]

/-- **C142** For every finite double of magnitude 22 or more whose hyperbolic sine is below `2^1024` in magnitude, `sinh` returns it with a relative
error of at most `5.2·2^-53`. -/
theorem C142_large {x : Nat} (hx : x < 2 ^ 64) (fx : IsFinite x) (h0 : 22 ≤ |(value x : ℝ)|) (h1 : |Real.sinh (value x)| < 2 ^ 1024) :
    IsFinite (sinh x) ∧ |(value (sinh x) : ℝ) - Real.sinh (value x)| ≤ |Real.sinh (value x)| * (52 / 10 / 2 ^ 53) := by
  have m : mag x < 2 ^ 63 := mag_lt x
  refine (both hx fx (e := fun s => s * (52 / 10 / 2 ^ 53)) ?_).2
  rw [abs_mag hx] at *
  refine large_near ?_ (by rw [value_mag hx]; exact h0)
  by_contra c
  exact absurd (above_sinh (by omega) m) (not_le.2 h1)

/-- **C142** **Overflow.** For every finite double whose hyperbolic sine is `2^1024` or more in magnitude, `sinh` returns the infinite of its sign. -/
theorem C142_overflow {x : Nat} (hx : x < 2 ^ 64) (fx : IsFinite x) (h : 2 ^ 1024 ≤ |Real.sinh (value x)|) :
    IsInf (sinh x) ∧ sign (sinh x) = sign x := by
  have m : mag x < 2 ^ 63 := mag_lt x
  rw [abs_mag hx] at h
  have a : 0x408633ce8fb9f87d < mag x := by
    by_contra c
    exact absurd (lt_trans (sinh_lt_cosh _) (below_limit (y := mag x) (by omega))) (not_lt.2 h)
  rw [sinh_eq hx fx, if_neg (by omega), if_neg (by omega), if_neg (by omega)]
  have hs : shuge < 2 ^ 63 ∧ IsFinite shuge := by decide
  obtain ⟨r1, r2, r3⟩ := Libm.fpu_mul hx (by omega : shuge < 2 ^ 64) fx hs.2
  have vs : 2 ^ 1019 ≤ value shuge := by
    rw [show value shuge = 2 ^ 1019 * (0x1c7b1f3cac7433 / 2 ^ 52) by unfold shuge value sign expo frac; norm_num; ring]
    exact le_mul_of_one_le_right (by positivity) (by norm_num)
  have vx : 64 ≤ |value x| := by
    have := value_mono' hx (c := 0x4050000000000000) (by norm_num) (by omega)
    rw [show value 0x4050000000000000 = 64 by unfold value sign expo frac; norm_num] at this
    exact this
  have big : (2 ^ 54 - 1) * 2 ^ 970 ≤ |value x * value shuge| := by
    rw [abs_mul, abs_of_nonneg (le_trans (by positivity) vs)]
    have a := mul_le_mul vx vs (by positivity) (abs_nonneg _)
    refine le_trans ?_ a
    rw [show (2 : ℚ) ^ 1019 = 2 ^ 49 * 2 ^ 970 from pow_add 2 49 970, ← mul_assoc]
    exact mul_le_mul_of_nonneg_right (by norm_num) (by positivity)
  rw [if_neg (not_lt.2 big)] at r3
  refine ⟨r3, ?_⟩
  rw [r2, show sign shuge = 0 by decide, add_zero]
  exact Nat.mod_eq_of_lt (sign_lt x)

/-- 710 and the first double that overflows, with a minus sign. -/
example : (IsFinite (sinh 0x4086300000000000) ∧ |(value (sinh 0x4086300000000000) : ℝ) - Real.sinh (value 0x4086300000000000)| ≤
    |Real.sinh (value 0x4086300000000000)| * (52 / 10 / 2 ^ 53)) ∧ IsInf (sinh 0xc08633ce8fb9f87e) ∧ sign (sinh 0xc08633ce8fb9f87e) = 1 := by
  constructor
  · refine C142_large (by norm_num) (by decide) ?_ ?_
    · rw [show value 0x4086300000000000 = 710 by unfold value sign expo frac; norm_num]; norm_num
    · rw [abs_mag (by norm_num)]
      exact lt_trans (sinh_lt_cosh _) (below_limit (by decide))
  · refine C142_overflow (by norm_num) (by decide) ?_
    rw [abs_mag (by norm_num)]
    exact above_sinh (by decide) (by decide)

/-! ## Small numbers -/

theorem sinh_cubic {X : ℝ} (h : |X| ≤ 1) : |Real.sinh X - X| ≤ |X| ^ 3 * (2 / 9) ∧ |Real.cosh X - 1| ≤ |X| ^ 2 := by
  have a := Real.exp_bound h (n := 3) (by norm_num)
  have b := Real.exp_bound (x := -X) (by rw [abs_neg]; exact h) (n := 3) (by norm_num)
  have c := Real.abs_exp_sub_one_sub_id_le h
  have d := Real.abs_exp_sub_one_sub_id_le (x := -X) (by rw [abs_neg]; exact h)
  simp only [Finset.sum_range_succ, Finset.sum_range_zero, Nat.factorial, abs_neg] at a b
  norm_num at a b
  rw [Real.sinh_eq, Real.cosh_eq]
  have a' := abs_le.1 a
  have b' := abs_le.1 b
  have c' := abs_le.1 c
  have d' := abs_le.1 d
  rw [neg_sq] at d'
  rw [sq_abs]
  constructor <;> rw [abs_le] <;> constructor <;> linarith only [a'.1, a'.2, b'.1, b'.2, c'.1, c'.2, d'.1, d'.2]

theorem abs_le_sinh (X : ℝ) : |X| ≤ |Real.sinh X| := by
  rw [Real.abs_sinh]; exact Real.self_le_sinh_iff.2 (abs_nonneg X)

/-- **C142** Every double below `2^-28` in magnitude is returned as it is, which is within `2^-58` of the hyperbolic sine, relative to it. -/
theorem C142_tiny {x : Nat} (hx : x < 2 ^ 64) (h : |(value x : ℝ)| < 1 / 2 ^ 28) (fx : IsFinite x) :
    sinh x = x ∧ |(value x : ℝ) - Real.sinh (value x)| ≤ |Real.sinh (value x)| / 2 ^ 58 := by
  have m : mag x < 2 ^ 63 := mag_lt x
  have l : mag x < 0x3e30000000000000 := by
    by_contra c
    have := bits_ge (c := 0x3e30000000000000) (y := mag x) (by omega) m (b := 1 / 2 ^ 28) (by
      rw [show value 0x3e30000000000000 = 1 / 2 ^ 28 by unfold value sign expo frac; norm_num]; norm_num)
    rw [value_mag hx] at this
    exact absurd h (not_lt.2 this)
  refine ⟨by rw [sinh_eq hx fx, if_pos (by omega), if_pos (by omega)], ?_⟩
  have q := (sinh_cubic (X := value x) (le_trans h.le (by norm_num))).1
  rw [abs_sub_comm]
  refine le_trans q ?_
  have s : |(value x : ℝ)| ^ 3 ≤ |(value x : ℝ)| * (1 / 2 ^ 56) := by
    have : |(value x : ℝ)| ^ 3 = |(value x : ℝ)| * (|(value x : ℝ)| ^ 2) := by ring
    rw [this]
    refine mul_le_mul_of_nonneg_left (le_trans (pow_le_pow_left₀ (abs_nonneg _) h.le 2) (by norm_num)) (abs_nonneg _)
  have t := abs_le_sinh (value x)
  have z := abs_nonneg (value x : ℝ)
  linarith only [s, t, z]

example : sinh 0xbe20000000000000 = 0xbe20000000000000 := (C142_tiny (by norm_num) (by
  rw [show value 0xbe20000000000000 = -(1 / 2 ^ 29) by unfold value sign expo frac; norm_num]; norm_num) (by decide)).1

/-- Numbers up to half of the logarithm of two. -/
theorem small_rel {y : Nat} (hy : y < 2 ^ 63) (h0 : 0x3e300000 ≤ y / 2 ^ 32) (h : y / 2 ^ 32 ≤ 0x3fd62e42) :
    Near (sinh y) (Real.sinh (value y)) (Real.sinh (value y) * (56 / 10 / 2 ^ 53)) := by
  have hinf : inf = 0x7ff00000 * 2 ^ 32 := rfl
  have fy : IsFinite y := by rw [finite_iff, mag_s hy]; omega
  have hb : (value y : ℝ) ≤ 34658 / 10 ^ 5 := bits_lt (c := 0x3fd62e4300000000) (by omega) (by norm_num) (by
    rw [show value 0x3fd62e4300000000 = 1453635 / 2 ^ 22 by unfold value sign expo frac; norm_num]; norm_num)
  have lb : 1 / 2 ^ 28 ≤ (value y : ℝ) := bits_ge (c := 0x3e30000000000000) (by omega) hy (by
    rw [show value 0x3e30000000000000 = 1 / 2 ^ 28 by unfold value sign expo frac; norm_num]; norm_num)
  have p0 := val_nonneg hy
  have t := expm1_rel (a := y) (by omega) (by rw [mag_s hy]; omega) (by rw [mag_s hy]; omega)
  have e1 : Real.exp (value y) ≤ 14143 / 10000 := le_trans (Real.exp_le_exp.2 (by norm_num at *; linarith)) Exp.exp_c
  have e2 := Real.add_one_le_exp (value y : ℝ)
  rw [sinh_eq (by omega) fy, mag_s hy, if_neg (show ¬ 2 ^ 63 ≤ y by omega), if_pos (by omega), if_neg (by omega), if_pos (by omega)]
  have id : 2 * (Real.exp (value y) - 1) - (Real.exp (value y) - 1) * (Real.exp (value y) - 1) / (Real.exp (value y) - 1 + 1) = 2 * Real.sinh (value y) := by
    have p : 0 < Real.exp (value y : ℝ) := Real.exp_pos _
    rw [sinh_exp, sub_add_cancel]; field_simp; ring
  generalize Real.sinh (value y : ℝ) = S at *
  obtain ⟨T, hT⟩ : ∃ T : ℝ, T = Real.exp (value y) - 1 := ⟨_, rfl⟩
  rw [← hT] at t id
  have T0 : 1 / 2 ^ 28 ≤ T := by rw [hT]; linarith only [e2, lb]
  have T1 : T ≤ 4143 / 10 ^ 4 := by rw [hT]; linarith only [e1]
  have Tp : 0 < T := by linarith only [T0]
  rw [abs_of_pos Tp] at t
  generalize expm1 y = r at *
  obtain ⟨P, hP⟩ : ∃ P, P = T * T := ⟨_, rfl⟩
  obtain ⟨Q, hQ⟩ : ∃ Q, Q = P / (T + 1) := ⟨_, rfl⟩
  have P0 : 1 / 2 ^ 56 ≤ P := by rw [hP]; have := mul_le_mul T0 T0 (by norm_num) Tp.le; linarith only [this]
  have P1 : P ≤ T * (4143 / 10 ^ 4) := by rw [hP]; exact mul_le_mul_of_nonneg_left T1 Tp.le
  have QP : Q * (T + 1) = P := by rw [hQ]; field_simp
  have Q0 : 0 ≤ Q := by rw [hQ]; exact div_nonneg (by linarith only [P0]) (by linarith only [Tp])
  have Q1 : Q ≤ P := by have := mul_nonneg Q0 Tp.le; linarith only [this, QP]
  have Q2 : P ≤ Q * (14143 / 10 ^ 4) := by rw [← QP]; exact mul_le_mul_of_nonneg_left (by linarith only [T1]) Q0
  have Q3 : Q ≤ T * (293 / 1000) := by
    rw [hQ, div_le_iff₀ (by linarith only [Tp]), hP, mul_assoc]
    exact mul_le_mul_of_nonneg_left (by linarith only [T1]) Tp.le
  have nw : Near (add r Libm.one) (T + 1) (2382 / 10 ^ 19) :=
    t.add Exp.near_one (m := 14143 / 10 ^ 4) (by rw [abs_of_pos (by linarith only [Tp])]; linarith only [T1]) (by linarith only [T1]) (by linarith only [T1])
  have tt : Near (mul r r) P (P * (5020 / 10 ^ 19)) := by
    rw [hP]
    refine t.mul t (m := T) (n := T) (abs_of_pos Tp).le (abs_of_pos Tp).le ?_ ?_
    · rw [← hP]
      have e : T * (176 / 100 / 2 ^ 53) * T = P * (176 / 100 / 2 ^ 53) := by rw [hP]; ring
      have e' : T * (176 / 100 / 2 ^ 53) * (T * (176 / 100 / 2 ^ 53)) = P * ((176 / 100 / 2 ^ 53) * (176 / 100 / 2 ^ 53)) := by rw [hP]; ring
      rw [e, e']
      linarith only [P0]
    · have e : T * (176 / 100 / 2 ^ 53) * T = P * (176 / 100 / 2 ^ 53) := by rw [hP]; ring
      have e' : T * (176 / 100 / 2 ^ 53) * (T * (176 / 100 / 2 ^ 53)) = P * ((176 / 100 / 2 ^ 53) * (176 / 100 / 2 ^ 53)) := by rw [hP]; ring
      rw [e, e', ← hP]
      linarith only [P0, P1, T1]
  have n2 : Near two 2 0 := by
    refine ⟨by decide, by decide, ?_⟩
    rw [show value two = 2 by unfold two value sign expo frac; norm_num]; norm_num
  have t2 : Near (mul two r) (2 * T) (T * (6130 / 10 ^ 19)) :=
    n2.mul t (m := 2) (n := T) (by norm_num) (abs_of_pos Tp).le (by linarith only [T0]) (by linarith only [T1])
  have q : Near (div (mul r r) (add r Libm.one)) Q (Q * (8514 / 10 ^ 19)) := by
    rw [hQ]
    refine tt.div nw (l := T + 1) (q := Q) (d := Q * (7403 / 10 ^ 19)) (le_abs_self _) (by linarith only [Tp]) ?_ ?_ ?_ ?_
    · rw [← hQ, abs_of_nonneg Q0]
    · have e : Q * (7403 / 10 ^ 19) * (T + 1 - 2382 / 10 ^ 19) = P * (7403 / 10 ^ 19) - Q * (7403 / 10 ^ 19 * (2382 / 10 ^ 19)) := by rw [← QP]; ring
      rw [e]
      linarith only [Q0, Q1]
    · rw [← hQ]; linarith only [Q2, P0]
    · linarith only [Q3, T1]
  rw [← hP, ← hQ] at id
  have d : Near (sub (mul two r) (div (mul r r) (add r Libm.one))) (2 * S) (S * (1243 / 10 ^ 18)) := by
    rw [← id]
    refine t2.sub q (m := 2 * T - Q) (abs_of_nonneg (by linarith only [Q3, Tp])).le ?_ ?_
    · linarith only [Q3, id, Tp]
    · linarith only [Q3, T1, Tp, Q0]
  have fin := Nb.half (m := 2) ⟨d, by rw [abs_le]; constructor <;> linarith only [id, Q3, T1, Tp, Q0]⟩ (by linarith only [id, Q3, T1, Tp, Q0])
  rw [show 1 / 2 * (2 * S) = S by ring] at fin
  refine fin.1.weaken ?_
  linarith only [id, Q3, T0]

/-- **C142** For every double from `2^-28` to half of the logarithm of two in magnitude, `sinh` returns its hyperbolic sine with a relative error
of at most `5.6·2^-53`.  (`C142_sinh` is for all finite numbers.) -/
theorem C142_small {x : Nat} (hx : x < 2 ^ 64) (fx : IsFinite x) (h0 : 1 / 2 ^ 28 ≤ |(value x : ℝ)|) (h1 : |(value x : ℝ)| ≤ Real.log 2 / 2) :
    IsFinite (sinh x) ∧ |(value (sinh x) : ℝ) - Real.sinh (value x)| ≤ |Real.sinh (value x)| * (56 / 10 / 2 ^ 53) := by
  have m : mag x < 2 ^ 63 := mag_lt x
  have l2 := Exp.ln2_b
  refine (both hx fx (e := fun s => s * (56 / 10 / 2 ^ 53)) ?_).2
  rw [abs_mag hx]
  rw [← value_mag hx] at h0 h1
  refine small_rel m ?_ ?_
  · by_contra c
    have := bits_lt (y := mag x) (c := 0x3e2fffffffffffff) (by omega) (by norm_num) (b := 1 / 2 ^ 28 - 1 / 2 ^ 90) (by
      rw [show value 0x3e2fffffffffffff = 1 / 2 ^ 28 - 1 / 2 ^ 81 by unfold value sign expo frac; norm_num]; norm_num)
    exact absurd (le_trans h0 this) (by norm_num)
  · by_contra c
    have := bits_ge (c := 0x3fd62e4300000000) (y := mag x) (by omega) m (b := 3465735911 / 10 ^ 10) (by
      rw [show value 0x3fd62e4300000000 = 1453635 / 2 ^ 22 by unfold value sign expo frac; norm_num]; norm_num)
    have t := le_trans this h1
    linarith only [t, l2.2]

example : IsFinite (sinh 0xbfd0000000000000) ∧ |(value (sinh 0xbfd0000000000000) : ℝ) - Real.sinh (value 0xbfd0000000000000)| ≤
    |Real.sinh (value 0xbfd0000000000000)| * (56 / 10 / 2 ^ 53) := by
  have l2 := Exp.ln2_b
  have v : value 0xbfd0000000000000 = -(1 / 4) := by unfold value sign expo frac; norm_num
  refine C142_small (by norm_num) (by decide) ?_ ?_
  · rw [v]; norm_num
  · rw [v, Rat.cast_neg, abs_neg, abs_of_pos (by norm_num)]; push_cast; linarith only [l2.1]

/-! ## Signs, zeros, infinites and what is not a number -/

/-- **C142** **Special values.** Either zero and either infinite is returned as it is. -/
theorem C142_special : sinh 0 = 0 ∧ sinh (2 ^ 63) = 2 ^ 63 ∧ sinh inf = inf ∧ sinh (2 ^ 63 + inf) = 2 ^ 63 + inf := by decide +kernel

/-- Whenever the result for a positive double is a number or infinite, the result for its opposite is the opposite, bit for bit. -/
theorem odd_of {x : Nat} (hx : x < 2 ^ 63) (n : ¬ IsNaN x) (h : ¬ IsNaN (sinh x)) :
    sinh (2 ^ 63 + x) % 2 ^ 63 = sinh x % 2 ^ 63 ∧ sign (sinh (2 ^ 63 + x)) + sign (sinh x) = 1 := by
  have h' : isNaN (sinh x) = false := by
    rw [Libm.nan_iff] at h
    unfold isNaN
    exact decide_eq_false h
  by_cases fx : IsFinite x
  · rw [sinh_flip hx fx h']
    obtain ⟨a, b⟩ := neg_flip (sinh x)
    refine ⟨b, ?_⟩
    rw [neg_sign, neg_sign] at a
    have s1 := sign_lt (sinh x)
    have s2 := sign_lt (negate (sinh x))
    by_cases c : sign (sinh x) = 1
    · rw [decide_eq_true c] at a
      simp only [Bool.not_true, decide_eq_false_iff_not] at a
      omega
    · rw [decide_eq_false c] at a
      simp only [Bool.not_false, decide_eq_true_eq] at a
      omega
  · have e : x = inf := by
      rw [finite_iff, mag_s hx] at fx
      rw [Libm.nan_iff, mag_s hx] at n
      omega
    rw [e, C142_special.2.2.1, C142_special.2.2.2]
    decide

example : sign (sinh (2 ^ 63 + 0x4045000000000000)) + sign (sinh 0x4045000000000000) = 1 := by decide +kernel

theorem add_nan {a b : Nat} (h : IsNaN a ∨ IsNaN b) : IsNaN (add a b) := by
  have t : ∀ {r : Nat}, isNaN r = true → IsNaN r := fun h => by
    rw [Libm.nan_iff]; unfold isNaN at h; simpa using h
  have u : ∀ {r : Nat}, IsNaN r → isNaN r = true := fun h => by
    rw [Libm.nan_iff] at h; unfold isNaN; simpa using h
  unfold add
  by_cases c : isNaN a = true
  · rw [if_pos c]; exact t (quiet_nan c)
  · rw [if_neg c]
    rcases h with h | h
    · exact absurd (u h) c
    · rw [if_pos (u h)]; exact t (quiet_nan (u h))

/-- **C142** **Not numbers.** The result for a `NaN` is a `NaN`. -/
theorem C142_nan {x : Nat} (hx : x < 2 ^ 64) (h : IsNaN x) : IsNaN (sinh x) := by
  have hn := h
  rw [Libm.nan_iff] at h
  have hinf : inf = 0x7ff00000 * 2 ^ 32 := rfl
  unfold sinh
  simp only []
  rw [hi31 hx, if_pos (by omega)]
  exact add_nan (Or.inl hn)

example : IsNaN (sinh 0xfff0000000000001) := C142_nan (by norm_num) (by decide)

end Pok.Sinh
