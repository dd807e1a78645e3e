import Verif.Props.Tanh
import Verif.Props.SinhMid
/-!
# C143: the hyperbolic tangent of every finite number

The specification is that of `Verif.Props.Tanh`.
-/
namespace Pok.Sinh
open Pok.Err Pok.Float Pok.Fpu Pok.Poly Pok.Hypot Pok.Cosh

/-- Twice a number is exact. -/
theorem doubled_up {y : Nat} (h0 : 2 ^ 52 ≤ y) (h1 : y < 0x4036000000000000) : mul two y < 2 ^ 64 ∧ IsFinite (mul two y) ∧ (value (mul two y) : ℝ) = 2 * value y ∧ mul two y = y + 2 ^ 52 := by
  have hinf : inf = 0x7ff00000 * 2 ^ 32 := rfl
  have hl := inf_lt
  have e := val_add (m := y) h0 (j := 1) (by omega)
  rw [one_mul, pow_one] at e
  have fy : IsFinite y := by rw [finite_iff, mag_s (by omega)]; omega
  have vm : value two = 2 := by unfold two value sign expo frac; norm_num
  have hv : (value y : ℝ) ≤ 22 := bits_lt (c := 0x4036000000000000) (by omega) (by norm_num) (by
    rw [show value 0x4036000000000000 = 22 by unfold value sign expo frac; norm_num]; norm_num)
  have v0 := val_nonneg (show y < 2 ^ 63 by omega)
  have r := Libm.fpu_mul (a := two) (b := y) (by decide) (by omega) (by decide) fy
  obtain ⟨a, b, c⟩ := exact_of (X := 2 * value y) r (by rw [vm]; push_cast; ring) (d := y + 2 ^ 52) (by omega) (by rw [finite_iff, mag_s (by omega)]; omega) e (below (by
    rw [abs_of_nonneg (by linarith)]
    have : (2 : ℝ) ^ 10 ≤ 2 ^ 1023 := pow_le_pow_right₀ (by norm_num) (by norm_num)
    refine le_trans ?_ this
    linarith only [hv]))
  refine ⟨a, b, c, ?_⟩
  have w := value_mag a
  rw [c, abs_of_nonneg (by linarith), ← e, val (mag_lt _), val (by omega)] at w
  have w' := (div_left_inj' (by positivity)).1 w
  have w'' : units (mag (mul two y)) = units (y + 2 ^ 52) := by exact_mod_cast w'
  have mm := units_strictMono.injective w''
  have s := r.2.1
  have sy : sign y = 0 := by unfold sign; omega
  rw [sy, show sign two = 0 by decide] at s
  have s : sign (mul two y) = 0 := s
  unfold mag at mm
  unfold sign at s
  omega

/-- Numbers from a quarter of the logarithm of two to 1. -/
theorem low_tanh {y : Nat} (hy : y < 2 ^ 63) (h0 : 0x3fc62e42 < y / 2 ^ 32) (h : y / 2 ^ 32 < 0x3ff00000) :
    Near (tanh y) (Real.tanh (value y)) (Real.tanh (value y) * (115 / 10 / 2 ^ 53)) := by
  obtain ⟨a1, a2, a3, a4⟩ := doubled (y := y) (by omega) (by omega)
  have ub : (value y : ℝ) ≤ 1 := bits_lt (c := 0x3ff0000000000000) (by omega) (by norm_num) (by
    rw [show value 0x3ff0000000000000 = 1 by unfold value sign expo frac; norm_num]; norm_num)
  have lb : 1732 / 10 ^ 4 ≤ (value y : ℝ) := bits_ge (c := 0x3fc62e4300000000) (by omega) hy (by
    rw [show value 0x3fc62e4300000000 = 1453635 / 2 ^ 23 by unfold value sign expo frac; norm_num]; norm_num)
  have t := expm1_red a1 (by rw [a4]; omega) (by rw [a4]; omega) (Or.inr (by rw [a4]; omega))
  rw [a3] at t
  have te : tanh y = div (negate (expm1 (mul mtwo y))) (add (expm1 (mul mtwo y)) two) := by
    unfold tanh
    simp only []
    rw [hi31 (by omega), mag_s hy, Libm.fabs_mag (by omega), mag_s hy, if_neg (by omega), if_neg (by omega), if_pos ((hi_pos (by omega)).2 hy), if_pos (by omega), if_neg (by omega)]
  rw [te]
  generalize expm1 (mul mtwo y) = r at *
  have e3 : Real.exp (2 * (value y : ℝ)) ≤ 73891 / 10 ^ 4 := by
    have a : Real.exp (2 * (value y : ℝ)) ≤ Real.exp 1 * Real.exp 1 := by rw [← Real.exp_add]; exact Real.exp_le_exp.2 (by linarith only [ub])
    have b := mul_le_mul Real.exp_one_lt_d9.le Real.exp_one_lt_d9.le (Real.exp_pos 1).le (by norm_num)
    exact le_trans (le_trans a b) (by norm_num)
  have e4 := Real.add_one_le_exp (2 * (value y : ℝ))
  have ep := Real.exp_pos (2 * (value y : ℝ))
  have e2 : 1353 / 10 ^ 4 ≤ Real.exp (-(2 * (value y : ℝ))) := by
    rw [Real.exp_neg, ← one_div, le_div_iff₀ ep]; linarith only [e3]
  have e1 : Real.exp (-(2 * (value y : ℝ))) ≤ 3 / 4 := by
    rw [Real.exp_neg, ← one_div, div_le_iff₀ ep]; linarith only [e4, lb]
  have id : Real.tanh (value y) = (1 - Real.exp (-(2 * (value y : ℝ)))) / (1 + Real.exp (-(2 * (value y : ℝ)))) := by
    rw [Real.tanh_eq]
    have : Real.exp (-(2 * (value y : ℝ))) = Real.exp (-(value y : ℝ)) * Real.exp (-(value y : ℝ)) := by rw [← Real.exp_add]; congr 1; ring
    rw [this, Real.exp_neg]
    have p := Real.exp_pos (value y : ℝ)
    generalize Real.exp (value y : ℝ) = E at *
    have i : 0 < E⁻¹ := by positivity
    have j : E * E⁻¹ = 1 := mul_inv_cancel₀ p.ne'
    have i2 : 0 < E⁻¹ * E⁻¹ := by positivity
    rw [div_eq_div_iff (by linarith only [p, i]) (by linarith only [i2])]
    linear_combination (2 * E⁻¹) * j
  rw [id]
  generalize Real.exp (-(2 * (value y : ℝ))) = E at *
  rw [abs_of_nonpos (by linarith only [e1])] at t
  have tr := t.2.2
  have st := Near.self t.1 t.2.1
  obtain ⟨F, hF⟩ : ∃ F : ℝ, F = value r + 1 := ⟨_, rfl⟩
  have hr : (value r : ℝ) = F - 1 := by rw [hF]; ring
  rw [hr] at tr st
  have tr' := abs_le.1 tr
  have F0 : 135 / 1000 ≤ F := by linarith only [tr'.1, e2, e1]
  have F1 : F ≤ 76 / 100 := by linarith only [tr'.2, e2, e1]
  have nw : Near (add r two) (1 + F) ((1 + F) / 2 ^ 53) := by
    have := st.add near_two (m := 1 + F) (g := (1 + F) / 2 ^ 53) (by rw [show F - 1 + 2 = 1 + F by ring, abs_of_pos (by linarith only [F0])]) (by linarith only) (by linarith only [F1])
    rw [show F - 1 + 2 = 1 + F by ring] at this
    exact this
  have nz := st.neg
  rw [show -(F - 1) = 1 - F by ring] at nz
  obtain ⟨q, hq⟩ : ∃ q, q = (1 - F) / (1 + F) := ⟨_, rfl⟩
  have qF : q * (1 + F) = 1 - F := by rw [hq]; field_simp
  have q0 : 1 / 10 ≤ q := by rw [hq, le_div_iff₀ (by linarith only [F0])]; linarith only [F1]
  have q1 : q ≤ 1 := by rw [hq, div_le_iff₀ (by linarith only [F0])]; linarith only [F0]
  have main : Near (div (negate r) (add r two)) q (q * (2004 / 1000 / 2 ^ 53)) := by
    rw [hq]
    refine nz.div nw (l := 1 + F) (q := q) (d := q * (1001 / 1000 / 2 ^ 53)) (le_abs_self _) (by linarith only [F0]) ?_ ?_ ?_ ?_
    · rw [← hq, abs_of_pos (by linarith only [q0])]
    · have e : q * (1001 / 1000 / 2 ^ 53) * (1 + F - (1 + F) / 2 ^ 53) = (1 - F) * (1001 / 1000 / 2 ^ 53 * (1 - 1 / 2 ^ 53)) := by rw [← qF]; ring
      have e' : q * ((1 + F) / 2 ^ 53) = (1 - F) / 2 ^ 53 := by rw [← qF]; ring
      rw [e, e']
      linarith only [F1]
    · rw [← hq]; linarith only [q0]
    · linarith only [q1]
  obtain ⟨H, hH⟩ : ∃ H, H = (1 - E) / (1 + E) := ⟨_, rfl⟩
  have HE : H * (1 + E) = 1 - E := by rw [hH]; field_simp
  have H0 : 0 < H := by rw [hH]; exact div_pos (by linarith only [e1]) (by linarith only [e2])
  rw [← hH]
  have cl : |q - H| ≤ H * (94 / 10 / 2 ^ 53) := by
    have e : q - H = (E - F) * 2 / (1 + E) / (1 + F) := by
      rw [hq, hH]; have : (1 + E) ≠ 0 := by linarith only [e2]
      have : (1 + F) ≠ 0 := by linarith only [F0]
      field_simp; ring
    have b : |(E - F) * 2 / (1 + E)| ≤ H * (106 / 10 / 2 ^ 53) := by
      rw [abs_div, abs_of_pos (by linarith only [e2] : 0 < 1 + E), div_le_iff₀ (by linarith only [e2]), abs_mul, abs_of_pos (by norm_num : (0 : ℝ) < 2)]
      have : H * (106 / 10 / 2 ^ 53) * (1 + E) = (1 - E) * (106 / 10 / 2 ^ 53) := by rw [← HE]; ring
      rw [this]
      have w : |E - F| = |F - 1 - (E - 1)| := by rw [abs_sub_comm]; congr 1; ring
      rw [w]
      linarith only [tr]
    rw [e, abs_div, abs_of_pos (by linarith only [F0] : 0 < 1 + F), div_le_iff₀ (by linarith only [F0])]
    refine le_trans b ?_
    have := mul_le_mul_of_nonneg_left (by linarith only [F0] : 1135 / 1000 ≤ 1 + F) (mul_pos H0 (by norm_num : (0 : ℝ) < 94 / 10 / 2 ^ 53)).le
    linarith only [this, H0]
  have cl' := abs_le.1 cl
  exact (main.move cl).weaken (by linarith only [cl'.2, H0])

/-- Numbers from 1 to 22. -/
theorem high_tanh {y : Nat} (hy : y < 2 ^ 63) (h0 : 0x3ff00000 ≤ y / 2 ^ 32) (h : y / 2 ^ 32 < 0x40360000) :
    Near (tanh y) (Real.tanh (value y)) (Real.tanh (value y) * (115 / 10 / 2 ^ 53)) := by
  obtain ⟨a1, a2, a3, a4⟩ := doubled_up (y := y) (by omega) (by omega)
  have lb : 1 ≤ (value y : ℝ) := bits_ge (c := 0x3ff0000000000000) (by omega) hy (by
    rw [show value 0x3ff0000000000000 = 1 by unfold value sign expo frac; norm_num]; norm_num)
  have ub : (value y : ℝ) ≤ 22 := bits_lt (c := 0x4036000000000000) (by omega) (by norm_num) (by
    rw [show value 0x4036000000000000 = 22 by unfold value sign expo frac; norm_num]; norm_num)
  have m4 : mag (mul two y) = y + 2 ^ 52 := by rw [a4]; exact mag_s (by omega)
  have t := expm1_red a1 (by rw [m4]; omega) (by rw [m4]; omega) (Or.inl (by rw [a4]; omega))
  rw [a3] at t
  have te : tanh y = sub Libm.one (div two (add (expm1 (mul two y)) two)) := by
    unfold tanh
    simp only []
    rw [hi31 (by omega), mag_s hy, Libm.fabs_mag (by omega), mag_s hy, if_neg (by omega), if_neg (by omega), if_pos ((hi_pos (by omega)).2 hy), if_pos (by omega), if_pos (by omega)]
  rw [te]
  generalize expm1 (mul two y) = r at *
  have e2 : 73 / 10 ≤ Real.exp (2 * (value y : ℝ)) := by
    have a : Real.exp 1 * Real.exp 1 ≤ Real.exp (2 * (value y : ℝ)) := by rw [← Real.exp_add]; exact Real.exp_le_exp.2 (by linarith only [lb])
    have b := mul_le_mul Real.exp_one_gt_d9.le Real.exp_one_gt_d9.le (by norm_num) (Real.exp_pos 1).le
    exact le_trans (by norm_num) (le_trans b a)
  have l2 := Exp.ln2_b
  have e1 : Real.exp (2 * (value y : ℝ)) ≤ 2 ^ 64 := by
    have := Exp.exp_pow2 64
    rw [show ((2 : ℝ) ^ (64 : ℤ)) = 2 ^ 64 by norm_cast] at this
    rw [this]; apply Real.exp_le_exp.2; push_cast; linarith only [ub, l2.1]
  have id : Real.tanh (value y) = (Real.exp (2 * (value y : ℝ)) - 1) / (Real.exp (2 * (value y : ℝ)) + 1) := by
    rw [Real.tanh_eq]
    have : Real.exp (2 * (value y : ℝ)) = Real.exp (value y : ℝ) * Real.exp (value y : ℝ) := by rw [← Real.exp_add]; congr 1; ring
    rw [this, Real.exp_neg]
    have p := Real.exp_pos (value y : ℝ)
    generalize Real.exp (value y : ℝ) = E at *
    have i : 0 < E⁻¹ := by positivity
    have j : E * E⁻¹ = 1 := mul_inv_cancel₀ p.ne'
    have i2 : 0 < E * E := by positivity
    rw [div_eq_div_iff (by linarith only [p, i]) (by linarith only [i2])]
    linear_combination (-2 * E) * j
  rw [id]
  generalize Real.exp (2 * (value y : ℝ)) = E at *
  rw [abs_of_nonneg (by linarith only [e2])] at t
  have tr := t.2.2
  have st := Near.self t.1 t.2.1
  obtain ⟨F, hF⟩ : ∃ F : ℝ, F = value r + 1 := ⟨_, rfl⟩
  have hr : (value r : ℝ) = F - 1 := by rw [hF]; ring
  rw [hr] at tr st
  have tr' := abs_le.1 tr
  have F0 : 72 / 10 ≤ F := by linarith only [tr'.1, e2, e1]
  have F1 : F ≤ 2 ^ 65 := by linarith only [tr'.2, e2, e1]
  have nw : Near (add r two) (F + 1) ((F + 1) / 2 ^ 53) := by
    have := st.add near_two (m := F + 1) (g := (F + 1) / 2 ^ 53) (by rw [show F - 1 + 2 = F + 1 by ring, abs_of_pos (by linarith only [F0])]) (by linarith only) (by linarith only [F1])
    rw [show F - 1 + 2 = F + 1 by ring] at this
    exact this
  obtain ⟨q, hq⟩ : ∃ q, q = 2 / (F + 1) := ⟨_, rfl⟩
  have qF : q * (F + 1) = 2 := by rw [hq]; field_simp
  have q0 : 1 / 2 ^ 66 ≤ q := by rw [hq, le_div_iff₀ (by linarith only [F0])]; linarith only [F1]
  have q1 : q ≤ 244 / 1000 := by rw [hq, div_le_iff₀ (by linarith only [F0])]; linarith only [F0]
  have nq : Near (div two (add r two)) q (q * (2004 / 1000 / 2 ^ 53)) := by
    rw [hq]
    refine near_two.div nw (l := F + 1) (q := q) (d := q * (1001 / 1000 / 2 ^ 53)) (le_abs_self _) (by linarith only [F0]) ?_ ?_ ?_ ?_
    · rw [← hq, abs_of_pos (by linarith only [q0])]
    · have e : q * (1001 / 1000 / 2 ^ 53) * (F + 1 - (F + 1) / 2 ^ 53) = 2 * (1001 / 1000 / 2 ^ 53 * (1 - 1 / 2 ^ 53)) := by rw [← qF]; ring
      have e' : q * ((F + 1) / 2 ^ 53) = 2 / 2 ^ 53 := by rw [← qF]; ring
      rw [e, e']
      norm_num
    · rw [← hq]; linarith only [q0]
    · linarith only [q1]
  have main := Exp.near_one.sub nq (m := 1 - q) (g := (1 - q) * (2 / 2 ^ 53)) (abs_of_pos (by linarith only [q1])).le (by linarith only [q1, q0]) (by linarith only [q1, q0])
  obtain ⟨H, hH⟩ : ∃ H, H = (E - 1) / (E + 1) := ⟨_, rfl⟩
  have HE : H * (E + 1) = E - 1 := by rw [hH]; field_simp
  have H0 : 0 < H := by rw [hH]; exact div_pos (by linarith only [e2]) (by linarith only [e2])
  rw [← hH]
  have cl : |1 - q - H| ≤ H * (94 / 10 / 2 ^ 53) := by
    have e : 1 - q - H = (F - 1 - (E - 1)) * 2 / (E + 1) / (F + 1) := by
      rw [hq, hH]; have : (E + 1) ≠ 0 := by linarith only [e2]
      have : (F + 1) ≠ 0 := by linarith only [F0]
      field_simp; ring
    have b : |(F - 1 - (E - 1)) * 2 / (E + 1)| ≤ H * (106 / 10 / 2 ^ 53) := by
      rw [abs_div, abs_of_pos (by linarith only [e2] : 0 < E + 1), div_le_iff₀ (by linarith only [e2]), abs_mul, abs_of_pos (by norm_num : (0 : ℝ) < 2)]
      have : H * (106 / 10 / 2 ^ 53) * (E + 1) = (E - 1) * (106 / 10 / 2 ^ 53) := by rw [← HE]; ring
      rw [this]
      linarith only [tr]
    rw [e, abs_div, abs_of_pos (by linarith only [F0] : 0 < F + 1), div_le_iff₀ (by linarith only [F0])]
    refine le_trans b ?_
    have := mul_le_mul_of_nonneg_left (by linarith only [F0] : 8 ≤ F + 1) (mul_pos H0 (by norm_num : (0 : ℝ) < 94 / 10 / 2 ^ 53)).le
    linarith only [this, H0]
  have cl' := abs_le.1 cl
  exact (main.move cl).weaken (by linarith only [cl'.2, H0])

/-- **C143.** For every finite double, `tanh` returns a finite number, with a relative error of at most `11.5·2^-53`. -/
theorem C143_tanh {x : Nat} (hx : x < 2 ^ 64) (fx : IsFinite x) :
    IsFinite (tanh x) ∧ |(value (tanh x) : ℝ) - Real.tanh (value x)| ≤ |Real.tanh (value x)| * (115 / 10 / 2 ^ 53) := by
  have m : mag x < 2 ^ 63 := mag_lt x
  have s0 := abs_nonneg (Real.tanh (value x))
  by_cases c0 : mag x / 2 ^ 32 < 0x3c800000
  · have b : |(value x : ℝ)| < 1 / 2 ^ 55 := by
      rw [← value_mag hx]
      have := bits_lt (y := mag x) (c := 0x3c7fffffffffffff) (by omega) (by norm_num) (b := 1 / 2 ^ 55 - 1 / 2 ^ 120) (by
        rw [show value 0x3c7fffffffffffff = 1 / 2 ^ 55 - 1 / 2 ^ 108 by unfold value sign expo frac; norm_num]; norm_num)
      linarith only [this]
    obtain ⟨a, e⟩ := C143_tiny hx fx b
    refine ⟨by rw [a]; exact fx, le_trans e (by linarith only [s0])⟩
  by_cases c3 : mag x / 2 ^ 32 < 0x40360000
  · rw [abs_tanh_mag hx] at *
    refine (both_tanh hx fx (by omega) ?_).2
    by_cases c1 : mag x / 2 ^ 32 ≤ 0x3fc62e42
    · exact (small_tanh m (by omega) c1).weaken (by linarith only [s0])
    by_cases c2 : mag x / 2 ^ 32 < 0x3ff00000
    · exact low_tanh m (by omega) c2
    · exact high_tanh m (by omega) c3
  · have v : 22 ≤ |(value x : ℝ)| := by
      rw [← value_mag hx]
      exact bits_ge (c := 0x4036000000000000) (by omega) m (by
        rw [show value 0x4036000000000000 = 22 by unfold value sign expo frac; norm_num]; norm_num)
    obtain ⟨a, e⟩ := C143_large hx fx v
    refine ⟨by rw [a]; split <;> decide, le_trans e ?_⟩
    have w : |(value (tanh x) : ℝ)| = 1 := by
      rw [a]
      split
      · rw [show value 0x3ff0000000000000 = 1 by unfold value sign expo frac; norm_num]; norm_num
      · rw [show value 0xbff0000000000000 = -1 by unfold value sign expo frac; norm_num]; norm_num
    have := abs_sub_abs_le_abs_sub (value (tanh x) : ℝ) (Real.tanh (value x))
    linarith only [this, e, w]

/-- -1/2 and 3. -/
example : |(value (tanh 0xbfe0000000000000) : ℝ) - Real.tanh (-(1 / 2))| ≤ |Real.tanh (-(1 / 2))| * (115 / 10 / 2 ^ 53) ∧
    |(value (tanh 0x4008000000000000) : ℝ) - Real.tanh 3| ≤ |Real.tanh 3| * (115 / 10 / 2 ^ 53) := by
  constructor
  · have := (C143_tanh (x := 0xbfe0000000000000) (by norm_num) (by decide)).2
    rw [show value 0xbfe0000000000000 = -(1 / 2) by unfold value sign expo frac; norm_num] at this
    push_cast at this; exact this
  · have := (C143_tanh (x := 0x4008000000000000) (by norm_num) (by decide)).2
    rw [show value 0x4008000000000000 = 3 by unfold value sign expo frac; norm_num] at this
    push_cast at this; exact this

/-- **C143** **Odd.** The result for the opposite of a number is the opposite, bit for bit. -/
theorem C143_odd {x : Nat} (hx : x < 2 ^ 63) (n : ¬ IsNaN x) :
    tanh (2 ^ 63 + x) % 2 ^ 63 = tanh x % 2 ^ 63 ∧ sign (tanh (2 ^ 63 + x)) + sign (tanh x) = 1 := by
  by_cases fx : IsFinite x
  · by_cases c : 1 / 2 ^ 55 ≤ (value x : ℝ)
    · exact odd_from hx fx c
    · have p := val_nonneg hx
      have mm : mag (2 ^ 63 + x) = x := by unfold mag; omega
      have f2 : IsFinite (2 ^ 63 + x) := by rw [finite_iff, mm]; rw [finite_iff, mag_s hx] at fx; exact fx
      have a := (C143_tiny (x := x) (by omega) fx (by rw [abs_of_nonneg p]; exact not_le.1 c)).1
      have b := (C143_tiny (x := 2 ^ 63 + x) (by omega) f2 (by rw [← value_mag (by omega), mm]; exact not_le.1 c)).1
      rw [a, b]
      unfold sign
      omega
  · have e : x = inf := by
      rw [finite_iff, mag_s hx] at fx
      rw [Libm.nan_iff, mag_s hx] at n
      omega
    rw [e, C143_special.2.2.1, C143_special.2.2.2]; decide

/-- The least positive number. -/
example : sign (tanh (2 ^ 63 + 1)) + sign (tanh 1) = 1 := (C143_odd (by norm_num) (by decide)).2

end Pok.Sinh
