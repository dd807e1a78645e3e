import Verif.Props.Atan
import Verif.Model.Atan2
import Mathlib.Analysis.SpecialFunctions.Complex.Arg
/-!
# The angle of a point
-/
namespace Pok.Atan2
open Pok.Err Pok.Float Pok.Fpu Pok.Trig

/-! The constants. -/
def piq : ℚ := 884279719003555 / 2 ^ 48
def pilq : ℚ := 4967757600021511 / 2 ^ 105
theorem v_pi : pi < 2 ^ 64 ∧ IsFinite pi ∧ value pi = piq := by
  refine ⟨by decide, by decide, ?_⟩
  unfold pi piq value sign expo frac; norm_num
theorem v_pi_lo : pi_lo < 2 ^ 64 ∧ IsFinite pi_lo ∧ value pi_lo = pilq := by
  refine ⟨by decide, by decide, ?_⟩
  unfold pi_lo pilq value sign expo frac; norm_num
theorem v_o2 : pi_o_2 < 2 ^ 64 ∧ IsFinite pi_o_2 ∧ value pi_o_2 = piq / 2 := by
  refine ⟨by decide, by decide, ?_⟩
  unfold pi_o_2 piq value sign expo frac; norm_num

theorem pi_sum : |(piq : ℝ) + pilq - Real.pi| ≤ 1 / 10 ^ 25 := by
  have h := abs_le.1 Atan.pi_q
  unfold piq pilq; push_cast
  rw [abs_le]; constructor <;> norm_num at * <;> linarith

theorem pi_hi : |(piq : ℝ) - Real.pi| ≤ 123 / 10 ^ 18 := by
  have h := abs_le.1 Atan.pi_q
  unfold piq; push_cast
  rw [abs_le]; constructor <;> norm_num at * <;> linarith

theorem pi_b : 314159 / 10 ^ 5 ≤ Real.pi ∧ Real.pi ≤ 31416 / 10 ^ 4 := by
  have h := abs_le.1 Atan.pi_q
  constructor <;> norm_num at * <;> linarith

/-! ## Quotients and exponents -/

theorem units_up (m : Nat) (j : Nat) : 2 ^ j * units m ≤ units (m + j * 2 ^ 52) := by
  rcases Nat.eq_zero_or_pos j with z | z
  · subst z; simp
  rcases Nat.lt_or_ge m (2 ^ 52) with c | c
  · rw [units_small c, Nat.add_comm, units_make z (by omega)]
    obtain ⟨i, rfl⟩ : ∃ i, j = i + 1 := ⟨j - 1, by omega⟩
    rw [Nat.add_sub_cancel, Nat.pow_succ, Nat.mul_assoc, Nat.mul_comm (2 ^ i)]
    exact Nat.mul_le_mul_right _ (by omega)
  · obtain ⟨e, f, h1, h2, rfl⟩ : ∃ e f, 1 ≤ e ∧ f < 2 ^ 52 ∧ m = e * 2 ^ 52 + f := ⟨m / 2 ^ 52, m % 2 ^ 52, by omega, by omega, by omega⟩
    rw [show e * 2 ^ 52 + f + j * 2 ^ 52 = (e + j) * 2 ^ 52 + f by omega, units_make h1 h2.le, units_make (by omega) h2.le, show e + j - 1 = j + (e - 1) by omega, Nat.pow_add]
    exact le_of_eq (by ring)

theorem units_down {m : Nat} (h : m ≠ 0) (j : Nat) : units (m + j * 2 ^ 52) ≤ 2 ^ (j + 53) * units m := by
  rcases Nat.eq_zero_or_pos j with z | z
  · subst z; rw [Nat.zero_mul, Nat.add_zero]; exact Nat.le_mul_of_pos_left _ (by positivity)
  rcases Nat.lt_or_ge m (2 ^ 52) with c | c
  · rw [units_small c, Nat.add_comm, units_make z (by omega)]
    calc (2 ^ 52 + m) * 2 ^ (j - 1) ≤ 2 ^ 53 * 2 ^ (j - 1) := Nat.mul_le_mul_right _ (by omega)
      _ = 2 ^ (53 + (j - 1)) := by rw [Nat.pow_add]
      _ ≤ 2 ^ (j + 53) := Nat.pow_le_pow_right (by omega) (by omega)
      _ ≤ 2 ^ (j + 53) * m := Nat.le_mul_of_pos_right _ (by omega)
  · obtain ⟨e, f, h1, h2, rfl⟩ : ∃ e f, 1 ≤ e ∧ f < 2 ^ 52 ∧ m = e * 2 ^ 52 + f := ⟨m / 2 ^ 52, m % 2 ^ 52, by omega, by omega, by omega⟩
    rw [show e * 2 ^ 52 + f + j * 2 ^ 52 = (e + j) * 2 ^ 52 + f by omega, units_make h1 h2.le, units_make (by omega) h2.le]
    rw [show 2 ^ (j + 53) * ((2 ^ 52 + f) * 2 ^ (e - 1)) = (2 ^ 52 + f) * (2 ^ (j + 53) * 2 ^ (e - 1)) by ring, ← Nat.pow_add]
    exact Nat.mul_le_mul_left _ (Nat.pow_le_pow_right (by omega) (by omega))

theorem abs_units {x : Nat} (hx : x < 2 ^ 64) : |(value x : ℝ)| = (units (mag x) : ℝ) / 2 ^ 1074 := by
  rw [← Rat.cast_abs, abs_value' hx]; push_cast; rfl

theorem ratio_ge {y x : Nat} (hy : y < 2 ^ 64) (hx : x < 2 ^ 64) (h0 : value x ≠ 0) {j : Nat} (h : mag x + j * 2 ^ 52 ≤ mag y) : (2 : ℝ) ^ j ≤ |(value y : ℝ) / value x| := by
  rw [abs_div, le_div_iff₀ (abs_pos.2 (by exact_mod_cast h0)), abs_units hy, abs_units hx, mul_div_assoc']
  refine div_le_div_of_nonneg_right ?_ (by positivity)
  have := le_trans (units_up (mag x) j) (units_le.2 h)
  exact_mod_cast this

theorem ratio_le {y x : Nat} (hy : y < 2 ^ 64) (hx : x < 2 ^ 64) (h0 : value x ≠ 0) {j : Nat} (h : mag y ≤ mag x + j * 2 ^ 52) : |(value y : ℝ) / value x| ≤ 2 ^ (j + 53) := by
  have hz : mag x ≠ 0 := by
    intro z
    have := abs_value' hx
    rw [z, show units 0 = 0 by decide, Nat.cast_zero, zero_div] at this
    exact h0 (abs_eq_zero.1 this)
  rw [abs_div, div_le_iff₀ (abs_pos.2 (by exact_mod_cast h0)), abs_units hy, abs_units hx, mul_div_assoc']
  refine div_le_div_of_nonneg_right ?_ (by positivity)
  have := le_trans (units_le.2 h) (units_down hz j)
  exact_mod_cast this

/-! ## The arc tangent of the rounded quotient -/

theorem arctan_lower {Q : ℝ} (h : 0 ≤ Q) : Q / (1 + Q ^ 2) ≤ Real.arctan Q := by
  have p : 0 < 1 + Q ^ 2 := by positivity
  have t0 : 0 ≤ Real.arctan Q := by rw [← Real.arctan_zero]; exact Real.arctan_mono h
  have s := Real.sin_le t0
  rw [Real.sin_arctan] at s
  refine le_trans ?_ s
  refine div_le_div_of_nonneg_left h (Real.sqrt_pos.2 p) ?_
  rw [Real.sqrt_le_left p.le]
  nlinarith [sq_nonneg Q]

theorem arctan_rel {Q R ε : ℝ} (hQ : 0 < Q) (h : |R - Q| ≤ ε * Q) (h1 : ε ≤ 1 / 2) : |Real.arctan R - Real.arctan Q| ≤ ε / (1 - ε) * Real.arctan Q := by
  have e0 : 0 ≤ ε := by
    by_contra c
    have := mul_neg_of_neg_of_pos (not_le.1 c) hQ
    linarith [abs_nonneg (R - Q)]
  have hR : (1 - ε) * Q ≤ R := by have := (abs_le.1 h).1; linarith
  have R0 : 0 < R := lt_of_lt_of_le (mul_pos (by linarith) hQ) hR
  have s := Atan.step hQ R0
  rw [← s, add_sub_cancel_left]
  refine le_trans (Atan.arctan_abs _) ?_
  have p : 0 < 1 + Q * R := by positivity
  rw [abs_div, abs_of_pos p, div_le_iff₀ p]
  have l := arctan_lower hQ.le
  have q : (1 - ε) * (1 + Q ^ 2) ≤ 1 + Q * R := by
    have := mul_le_mul_of_nonneg_left hR hQ.le
    nlinarith
  have d : 0 < 1 - ε := by linarith
  have p2 : 0 < 1 + Q ^ 2 := by positivity
  calc |R - Q| ≤ ε * Q := h
    _ = ε / (1 - ε) * (Q / (1 + Q ^ 2)) * ((1 - ε) * (1 + Q ^ 2)) := by field_simp
    _ ≤ ε / (1 - ε) * Real.arctan Q * (1 + Q * R) := by
      refine mul_le_mul (mul_le_mul_of_nonneg_left l (div_nonneg e0 d.le)) q (by positivity) ?_
      exact mul_nonneg (div_nonneg e0 d.le) (le_trans (by positivity) l)

/-- `z` when the quotient is computed. -/
theorem z_near {y x : Nat} (hy : y < 2 ^ 64) (hx : x < 2 ^ 64) (fy : IsFinite y) (fx : IsFinite x) (x0 : value x ≠ 0) (y0 : value y ≠ 0)
    (h : mag y ≤ mag x + 62 * 2 ^ 52) {Q : ℝ} (hQ : |(value y : ℝ) / value x| = Q) :
    Near (Atan.atan (Libm.fabs (div y x))) (Real.arctan Q) (401 / 100 * Real.arctan Q / 2 ^ 53 + (if Real.arctan Q < 1 / 2 ^ 1021 then 1 / 2 ^ 1075 else 0)) := by
  have big := ratio_le hy hx x0 h
  have qp : 0 < Q := by
    rw [← hQ]; exact abs_pos.2 (div_ne_zero (by exact_mod_cast y0) (by exact_mod_cast x0))
  have de := div_err hy hx fy fx x0 (le_trans big (by norm_num))
  rw [hQ] at de big
  obtain ⟨d1, d2, d3⟩ := de
  have ro := Libm.fpu_div hy hx fy fx (not_zero x0)
  have hq : |value y / value x| ≤ 2 ^ 1000 := by
    apply abs_cast (b := 2 ^ 115)
    · push_cast; rw [hQ]; exact le_trans big (by norm_num)
    · exact pow_le_pow_right₀ (by norm_num) (by norm_num)
  have ne := (rounded_near ro hq).2
  clear ro
  have er1 := (nearest_err ne hq).1
  have er2 := nearest_least ne
  have hQq : ((|value y / value x| : ℚ) : ℝ) = Q := by rw [← hQ]; push_cast; rfl
  generalize div y x = r at *
  rw [Libm.fabs_mag d1]
  have ml := mag_lt r
  have vm : (value (mag r) : ℝ) = |(value r : ℝ)| := by
    have a := abs_value' (d := mag r) (by omega)
    rw [value_pos ml, mag_self ml, ← abs_value' d1] at a
    rw [a, Rat.cast_abs]
  have fm : IsFinite (mag r) := by rw [finite_iff, mag_self ml]; exact (finite_iff r).1 d2
  obtain ⟨R, hR⟩ : ∃ R : ℝ, R = value (mag r) := ⟨_, rfl⟩
  have close : |R - Q| ≤ |(value r : ℝ) - value y / value x| := by
    rw [hR, vm, ← hQ]; exact abs_abs_sub_abs_le _ _
  have R0 : 0 ≤ R := by rw [hR, vm]; exact abs_nonneg _
  have t0 : 0 < Real.arctan Q := by rw [← Real.arctan_zero]; exact Real.arctan_strictMono qp
  have tail0 : (0 : ℝ) ≤ if Real.arctan Q < 1 / 2 ^ 1021 then 1 / 2 ^ 1075 else 0 := by split <;> positivity
  rcases le_or_gt (1 / 2 ^ 100) Q with c | c
  · -- the quotient has all its bits
    have c' : |R - Q| ≤ (1 / 2 ^ 53 + 1 / 2 ^ 100) * Q := by
      refine le_trans (le_trans close d3) ?_
      norm_num at *; linarith
    have rel := arctan_rel qp c' (by norm_num)
    have at' := Atan.C132_atan (x := mag r) (by omega) fm
    rw [← hR] at at'
    have tR : 0 ≤ Real.arctan R := by rw [← Real.arctan_zero]; exact Real.arctan_mono R0
    rw [abs_of_nonneg tR] at at'
    have rel' := abs_le.1 rel
    refine ⟨?_, at'.1, ?_⟩
    · exact Atan.atan_lt (by omega) fm
    have fin : |(value (Atan.atan (mag r)) : ℝ) - Real.arctan Q| ≤ 3 * Real.arctan R / 2 ^ 53 + (1 / 2 ^ 53 + 1 / 2 ^ 100) / (1 - (1 / 2 ^ 53 + 1 / 2 ^ 100)) * Real.arctan Q := by
      rw [show (value (Atan.atan (mag r)) : ℝ) - Real.arctan Q = ((value (Atan.atan (mag r)) : ℝ) - Real.arctan R) + (Real.arctan R - Real.arctan Q) by ring]
      exact le_trans (abs_add_le _ _) (add_le_add at'.2 rel)
    refine le_trans fin ?_
    have : 3 * Real.arctan R / 2 ^ 53 + (1 / 2 ^ 53 + 1 / 2 ^ 100) / (1 - (1 / 2 ^ 53 + 1 / 2 ^ 100)) * Real.arctan Q ≤ 401 / 100 * Real.arctan Q / 2 ^ 53 := by
      norm_num at *; linarith
    linarith
  · -- the arc tangent is the quotient
    have small : |R - Q| ≤ 1 / 2 ^ 100 := by
      refine le_trans (le_trans close d3) ?_
      norm_num at *; linarith
    have e : Atan.atan (mag r) = mag r := by
      refine (Atan.C132_special (x := mag r) (by omega)).1 fm ?_
      have : ((|value (mag r)| : ℚ) : ℝ) < ((1 / 2 ^ 29 : ℚ) : ℝ) := by
        rw [Rat.cast_abs, ← hR, abs_of_nonneg R0]; push_cast
        have := (abs_le.1 small).2
        norm_num at *; linarith
      exact (Rat.cast_lt (K := ℝ)).1 this
    rw [e]
    refine ⟨by omega, fm, ?_⟩
    rw [← hR]
    have se := Atan.arctan_series 1 (t := Q) (b := 1 / 2 ^ 100) (by rw [abs_of_pos qp]; exact c.le)
    simp only [Finset.sum_range_one, pow_zero, one_mul, mul_zero, zero_add, pow_one, Nat.cast_one, div_one, mul_one] at se
    rw [abs_of_pos qp] at se
    have se := abs_le.1 se
    have lt : Real.arctan Q ≤ Q := by have := Atan.arctan_abs Q; rw [abs_of_pos qp, abs_of_pos t0] at this; exact this
    have tri : |R - Real.arctan Q| ≤ |R - Q| + (Q - Real.arctan Q) := by
      rw [show R - Real.arctan Q = (R - Q) + (Q - Real.arctan Q) by ring]
      refine le_trans (abs_add_le _ _) (add_le_add le_rfl ?_)
      rw [abs_of_nonneg (by linarith)]
    rcases le_or_gt Q (1 / 2 ^ 1021) with c2 | c2
    · have er := er2 (by
        have : ((|value y / value x| : ℚ) : ℝ) ≤ ((1 / 2 ^ 1021 : ℚ) : ℝ) := by rw [hQq]; push_cast; exact c2
        exact (Rat.cast_le (K := ℝ)).1 this)
      have er := (Rat.cast_le (K := ℝ)).2 er
      have er := le_trans close (by push_cast at er; exact er)
      have lt' : Real.arctan Q < Q := by
        refine lt_of_le_of_ne lt fun z => ?_
        have := Real.tan_arctan Q
        have t := Real.lt_tan t0 (Real.arctan_lt_pi_div_two Q)
        rw [this] at t; linarith
      rw [if_pos (lt_of_lt_of_le lt' c2)]
      clear er1 er2 hq ne c2 tail0
      generalize (1 : ℝ) / 2 ^ 1075 = K at *
      norm_num at *; linarith
    · have er := (Rat.cast_le (K := ℝ)).2 er1
      have er := le_trans close (by push_cast at er; exact er)
      have hQ' : |(value y : ℝ) / value x| = Q := hQ
      rw [hQ'] at er
      have k : (1 : ℝ) / 2 ^ 1075 ≤ Q * (1 / 2 ^ 54) := by
        rw [show (1075 : ℕ) = 1021 + 54 by rfl, pow_add]
        generalize (2 : ℝ) ^ 1021 = K at *
        rw [← one_div_mul_one_div]
        exact mul_le_mul_of_nonneg_right c2.le (by positivity)
      clear er1 er2 hq ne c2
      generalize (if Real.arctan Q < 1 / 2 ^ 1021 then (1 : ℝ) / 2 ^ 1075 else 0) = T at *
      generalize (1 : ℝ) / 2 ^ 1075 = K at *
      norm_num at *; linarith

/-! ## Angles -/

theorem arg_right {X Y : ℝ} (h : 0 < X) : Complex.arg ⟨X, Y⟩ = Real.arctan (Y / X) := by
  have a := Complex.abs_arg_lt_pi_div_two_iff (z := ⟨X, Y⟩) |>.2 (Or.inl h)
  have a := abs_lt.1 a
  have t := Complex.tan_arg ⟨X, Y⟩
  rw [← Real.arctan_tan a.1 a.2, t]

theorem arg_left_up {X Y : ℝ} (h : X < 0) (hy : 0 < Y) : Complex.arg ⟨X, Y⟩ = Real.pi + Real.arctan (Y / X) := by
  have a := Complex.arg_neg_eq_arg_sub_pi_of_im_pos (x := ⟨X, Y⟩) hy
  have e : -(⟨X, Y⟩ : ℂ) = ⟨-X, -Y⟩ := rfl
  rw [e, arg_right (by linarith), neg_div_neg_eq] at a
  linarith

theorem arg_left_down {X Y : ℝ} (h : X < 0) (hy : Y < 0) : Complex.arg ⟨X, Y⟩ = -Real.pi + Real.arctan (Y / X) := by
  have a := Complex.arg_neg_eq_arg_add_pi_of_im_neg (x := ⟨X, Y⟩) hy
  have e : -(⟨X, Y⟩ : ℂ) = ⟨-X, -Y⟩ := rfl
  rw [e, arg_right (by linarith), neg_div_neg_eq] at a
  linarith

/-- The left half plane. -/
theorem left_near {z : Nat} {θ : ℝ} (t0 : 0 ≤ θ) (t1 : θ ≤ Real.pi / 2) (h : Near z θ (401 / 100 * θ / 2 ^ 53 + 1 / 10 ^ 18)) :
    Near (sub pi (sub z pi_lo)) (Real.pi - θ) (7 * (Real.pi - θ) / 2 ^ 53) ∧ Near (sub (sub z pi_lo) pi) (θ - Real.pi) (7 * (Real.pi - θ) / 2 ^ 53) := by
  have pb := pi_b
  have nl : Near pi_lo (pilq : ℝ) 0 := ⟨v_pi_lo.1, v_pi_lo.2.1, by rw [v_pi_lo.2.2]; simp⟩
  have np : Near pi (piq : ℝ) 0 := ⟨v_pi.1, v_pi.2.1, by rw [v_pi.2.2]; simp⟩
  have lb : |(pilq : ℝ)| ≤ 2 / 10 ^ 16 := by unfold pilq; push_cast; rw [abs_le]; constructor <;> norm_num
  have lb' := abs_le.1 lb
  have ps := abs_le.1 pi_sum
  have h1 := h.sub nl (m := θ + 2 / 10 ^ 16) (g := 502 / 100 * θ / 2 ^ 53 + 11 / 10 ^ 19) (by rw [abs_le]; constructor <;> norm_num at * <;> linarith)
    (by norm_num; linarith) (by norm_num at *; linarith)
  have h2 := np.sub h1 (m := Real.pi - θ + 1 / 10 ^ 25) (g := 502 / 100 * θ / 2 ^ 53 + (Real.pi - θ) / 2 ^ 53 + 13 / 10 ^ 19)
    (by rw [abs_le]; constructor <;> norm_num at * <;> linarith) (by norm_num at *; linarith) (by norm_num at *; linarith)
  have h3 := h1.sub np (m := Real.pi - θ + 1 / 10 ^ 25) (g := 502 / 100 * θ / 2 ^ 53 + (Real.pi - θ) / 2 ^ 53 + 13 / 10 ^ 19)
    (by rw [abs_le]; constructor <;> norm_num at * <;> linarith) (by norm_num at *; linarith) (by norm_num at *; linarith)
  refine ⟨(h2.move (w := Real.pi - θ) (f := 1 / 10 ^ 25) (by rw [abs_le]; constructor <;> linarith)).weaken ?_,
    (h3.move (w := θ - Real.pi) (f := 1 / 10 ^ 25) (by rw [abs_le]; constructor <;> linarith)).weaken ?_⟩ <;> norm_num at * <;> linarith

end Pok.Atan2
