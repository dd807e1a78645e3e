import Verif.Lemmas.Atan2
import Verif.Spec.Angle
import Verif.Props.Fmod
/-!
# C133: the angle of a point

The specification is Mathlib's `Complex.arg`, the angle between `-π` and `π` of the point with the coordinates `x` and `y`, `value`, `IsFinite`, `IsNaN` and
`IsInf` of `Verif.Spec.Float`, and `Closest` and `farAngle` of `Verif.Spec.Angle`.  `2^-1075` is half of the least positive double.
-/
namespace Pok.Atan2
open Pok.Err Pok.Float Pok.Fpu Pok.Trig

/-! ## The tests of the code -/

theorem m_eq {y x : Nat} : (Libm.hi y >>> 31 &&& 1 ||| Libm.hi x >>> 30 &&& 2) = sign y + 2 * sign x := by
  have hy : Libm.hi y >>> 31 = sign y := by rw [Nat.shiftRight_eq_div_pow]; unfold Libm.hi sign; omega
  have hx : ∃ b, b < 2 ∧ Libm.hi x >>> 30 = 2 * sign x + b := by
    refine ⟨Libm.hi x / 2 ^ 30 % 2, by omega, ?_⟩
    rw [Nat.shiftRight_eq_div_pow]; unfold Libm.hi sign; omega
  obtain ⟨b, hb, e⟩ := hx
  rw [hy, e]
  have := sign_lt x
  have := sign_lt y
  generalize sign x = s at *
  generalize sign y = t at *
  interval_cases s <;> interval_cases t <;> interval_cases b <;> rfl

theorem neg_eq (x : Nat) : Libm.neg32 (Libm.hi x) = decide (sign x = 1) := by
  unfold Libm.neg32 Libm.hi sign; apply decide_eq_decide.2; omega

theorem zero_eq {x : Nat} : ((mag x / 2 ^ 32 ||| Libm.lo x) = 0) ↔ mag x = 0 := by
  rw [Nat.or_eq_zero_iff]; unfold Libm.lo mag; omega

theorem one_eq {x : Nat} (hx : x < 2 ^ 64) : (((Libm.hi x + (2 ^ 32 - 0x3ff00000)) % 2 ^ 32 ||| Libm.lo x) = 0) ↔ x = Libm.one := by
  rw [Nat.or_eq_zero_iff]; unfold Libm.hi Libm.lo Libm.one; omega

theorem consts : add pi tiny = pi ∧ sub (negate pi) tiny = negate pi ∧ add pi_o_2 tiny = pi_o_2 ∧ sub (negate pi_o_2) tiny = negate pi_o_2 ∧
    add pi_o_4 tiny = pi_o_4 ∧ sub (negate pi_o_4) tiny = negate pi_o_4 ∧ add (mul three pi_o_4) tiny = 0x4002d97c7f3321d2 ∧
    sub (mul minus_three pi_o_4) tiny = negate 0x4002d97c7f3321d2 ∧ add pi_o_2 (mul half pi_lo) = pi_o_2 := by decide +kernel

theorem value_zero_iff {x : Nat} (hx : x < 2 ^ 64) : value x = 0 ↔ mag x = 0 := by
  rw [← abs_eq_zero, abs_value' hx, div_eq_zero_iff]
  constructor
  · intro h
    rcases h with h | h
    · have : units (mag x) = units 0 := by rw [show units 0 = 0 by decide]; exact_mod_cast h
      exact units_inj.1 this
    · exact absurd h (by positivity)
  · intro h; left; rw [h]; decide

theorem value_sign {x : Nat} (hx : x < 2 ^ 64) (h0 : value x ≠ 0) : (sign x = 0 → 0 < (value x : ℝ)) ∧ (sign x = 1 → (value x : ℝ) < 0) := by
  constructor
  · intro s
    have := value_pos (t := x) (by unfold sign at s; omega)
    have p := abs_pos.2 h0
    rw [this] at p; exact_mod_cast p
  · intro s
    have := Exp.value_neg (x := x) (by unfold sign at s; omega) hx
    have p := abs_pos.2 h0
    rw [this] at p
    have : value x < 0 := by linarith
    exact_mod_cast this

theorem not_nan {x : Nat} (fx : IsFinite x) : ¬ IsNaN x := fun h => fx h.1

theorem flip {z : Nat} (hz : z < 2 ^ 64) : Libm.setHi z (Libm.hi z ^^^ 0x80000000) = negate z := by
  have h : Libm.hi z < 2 ^ 32 := by unfold Libm.hi; omega
  have e : Libm.hi z ^^^ 0x80000000 = if Libm.hi z < 2 ^ 31 then Libm.hi z + 2 ^ 31 else Libm.hi z - 2 ^ 31 := by
    have d := Nat.xor_mod_two_pow (a := Libm.hi z) (b := 0x80000000) (n := 31)
    have q := Nat.xor_div_two_pow (a := Libm.hi z) (b := 0x80000000) (n := 31)
    rw [show 0x80000000 % 2 ^ 31 = 0 by rfl, Nat.xor_zero] at d
    rw [show 0x80000000 / 2 ^ 31 = 1 by rfl] at q
    have : Libm.hi z / 2 ^ 31 < 2 := by omega
    split
    · rw [show Libm.hi z / 2 ^ 31 = 0 by omega, show 0 ^^^ 1 = 1 by rfl] at q; omega
    · rw [show Libm.hi z / 2 ^ 31 = 1 by omega, show 1 ^^^ 1 = 0 by rfl] at q; omega
  rw [e]
  unfold Libm.setHi Libm.insert negate neg
  unfold Libm.hi Libm.lo
  split <;> split <;> simp_all <;> omega

/-! ## The accuracy -/

/-- The angle from `θ`, the arc tangent of the magnitude of the quotient. -/
theorem arg_of {X Y θ : ℝ} (hθ : Real.arctan |Y / X| = θ) (hX : X ≠ 0) (hY : Y ≠ 0) :
    Complex.arg ⟨X, Y⟩ = if 0 < X then (if 0 < Y then θ else -θ) else (if 0 < Y then Real.pi - θ else θ - Real.pi) := by
  rcases lt_or_gt_of_ne hX with x | x <;> rcases lt_or_gt_of_ne hY with y | y
  · rw [if_neg (by linarith), if_neg (by linarith), arg_left_down x y, ← hθ, abs_of_pos (div_pos_of_neg_of_neg y x)]; ring
  · rw [if_neg (by linarith), if_pos y, arg_left_up x y, ← hθ, abs_of_neg (div_neg_of_pos_of_neg y x), Real.arctan_neg]; ring
  · rw [if_pos x, if_neg (by linarith), arg_right x, ← hθ, abs_of_neg (div_neg_of_neg_of_pos y x), Real.arctan_neg]; ring
  · rw [if_pos x, if_pos y, arg_right x, ← hθ, abs_of_pos (div_pos y x)]

theorem near_const {d : Nat} {q : ℚ} {t e : ℝ} (h : d < 2 ^ 64 ∧ IsFinite d ∧ value d = q) (he : |(q : ℝ) - t| ≤ e) : Near d t e := ⟨h.1, h.2.1, by rw [h.2.2]; exact he⟩

/-- **C133**, part: the angle of every point that is not on the horizontal axis, from the subnormal to the largest coordinates: the relative error is at
most `7 × 2^-53`, and half of the least positive double more where the angle is subnormal.  Points on the axis and infinite coordinates are below; what the
property says of overflow is false, see `C133_overflow_violated`. -/
theorem C133_atan2_partial {y x : Nat} (hy : y < 2 ^ 64) (hx : x < 2 ^ 64) (fy : IsFinite y) (fx : IsFinite x) (y0 : value y ≠ 0) {α : ℝ}
    (hα : Complex.arg ⟨value x, value y⟩ = α) :
    IsFinite (atan2 y x) ∧ |(value (atan2 y x) : ℝ) - α| ≤ 7 * |α| / 2 ^ 53 + (if |α| < 1 / 2 ^ 1021 then 1 / 2 ^ 1075 else 0) := by
  suffices Near (atan2 y x) α (7 * |α| / 2 ^ 53 + (if |α| < 1 / 2 ^ 1021 then 1 / 2 ^ 1075 else 0)) from this.2
  have tail0 : (0 : ℝ) ≤ if |α| < 1 / 2 ^ 1021 then 1 / 2 ^ 1075 else 0 := by split <;> positivity
  have sx := sign_lt x
  have sy := sign_lt y
  have mx := (finite_iff x).1 fx
  have my := (finite_iff y).1 fy
  have hinf : inf = 0x7ff00000 * 2 ^ 32 := rfl
  have my0 : mag y ≠ 0 := fun h => y0 ((value_zero_iff hy).2 h)
  have Y0 : (value y : ℝ) ≠ 0 := by exact_mod_cast y0
  have vy := value_sign hy y0
  obtain ⟨k1, k2, k3, k4, k5, k6, k7, k8, k9⟩ := consts
  unfold atan2
  simp only []
  rw [hi31 hx, hi31 hy, m_eq, neg_eq, neg_eq, if_neg (by
    rintro (h | h)
    · exact not_nan fx ((Libm.nan_or x).1 h)
    · exact not_nan fy ((Libm.nan_or y).1 h))]
  by_cases c1 : x = Libm.one
  · -- the arc tangent
    rw [if_pos ((one_eq hx).2 c1)]
    have a := arg_right (X := 1) (Y := (value y : ℝ)) one_pos
    rw [c1, Atan.v_one.2.2] at hα
    push_cast at hα
    rw [hα, div_one] at a
    have n := Atan.atan_near hy fy
    rw [← a] at n
    refine n.weaken ?_
    have := abs_nonneg α
    generalize (if |α| < 1 / 2 ^ 1021 then (1 : ℝ) / 2 ^ 1075 else 0) = T at *
    norm_num; linarith
  rw [if_neg (fun h => c1 ((one_eq hx).1 h)), if_neg (fun h => my0 (zero_eq.1 h))]
  by_cases x0 : value x = 0
  · -- the vertical axis
    rw [if_pos (zero_eq.2 ((value_zero_iff hx).1 x0)), k3, k4]
    rw [x0] at hα
    push_cast at hα
    have pb := pi_b
    have ph := abs_le.1 pi_hi
    rcases (by omega : sign y = 0 ∨ sign y = 1) with s | s
    · rw [if_neg (by simp [s])]
      have e : Complex.arg ⟨0, (value y : ℝ)⟩ = Real.pi / 2 := Complex.arg_eq_pi_div_two_iff.2 ⟨rfl, vy.1 s⟩
      rw [e] at hα
      refine near_const v_o2 ?_
      rw [← hα] at tail0 ⊢
      generalize (if |Real.pi / 2| < 1 / 2 ^ 1021 then (1 : ℝ) / 2 ^ 1075 else 0) = T at *
      rw [abs_of_pos (show 0 < Real.pi / 2 by linarith [Real.pi_pos])]
      push_cast
      rw [abs_le]; constructor <;> norm_num at * <;> linarith
    · rw [if_pos (by simp [s])]
      have e : Complex.arg ⟨0, (value y : ℝ)⟩ = -(Real.pi / 2) := Complex.arg_eq_neg_pi_div_two_iff.2 ⟨rfl, vy.2 s⟩
      rw [e] at hα
      have n : Near pi_o_2 (Real.pi / 2) (7 * (Real.pi / 2) / 2 ^ 53) := near_const v_o2 (by
        push_cast; rw [abs_le]; constructor <;> norm_num at * <;> linarith)
      rw [← hα] at tail0 ⊢
      refine n.neg.weaken ?_
      rw [abs_neg, abs_of_pos (show 0 < Real.pi / 2 by linarith [Real.pi_pos])]
      rw [abs_neg] at tail0
      rw [abs_of_pos (show 0 < Real.pi / 2 by linarith [Real.pi_pos])] at tail0
      linarith
  have X0 : (value x : ℝ) ≠ 0 := by exact_mod_cast x0
  have vx := value_sign hx x0
  rw [if_neg (fun h => x0 ((value_zero_iff hx).2 (zero_eq.1 h))), if_neg (by omega), if_neg (by omega), k9]
  obtain ⟨Q, hQ⟩ : ∃ Q, |(value y : ℝ) / value x| = Q := ⟨_, rfl⟩
  obtain ⟨θ, hθ⟩ : ∃ θ, Real.arctan Q = θ := ⟨_, rfl⟩
  have Qp : 0 < Q := by rw [← hQ]; exact abs_pos.2 (div_ne_zero Y0 X0)
  have t0 : 0 < θ := by rw [← hθ, ← Real.arctan_zero]; exact Real.arctan_strictMono Qp
  have t1 : θ < Real.pi / 2 := by rw [← hθ]; exact Real.arctan_lt_pi_div_two Q
  have ar := arg_of (X := (value x : ℝ)) (Y := (value y : ℝ)) (θ := θ) (by rw [hQ, hθ]) X0 Y0
  rw [hα] at ar
  have pb := pi_b
  have ph := abs_le.1 pi_hi
  -- a large quotient
  have large : 60 < (((mag y / 2 ^ 32 : Nat) : Int) - (mag x / 2 ^ 32 : Nat)) / 2 ^ 20 → Near pi_o_2 θ (θ / 2 ^ 53) := by
    intro c
    have r := ratio_ge hy hx x0 (j := 60) (by omega)
    rw [hQ] at r
    have st := Real.arctan_inv_of_pos Qp
    have i1 : Q⁻¹ ≤ 1 / 2 ^ 60 := by rw [inv_eq_one_div]; exact one_div_le_one_div_of_le (by positivity) r
    have i0 : 0 < Q⁻¹ := inv_pos.2 Qp
    have i2 := abs_le.1 (Atan.arctan_abs Q⁻¹)
    rw [abs_of_pos i0, st, hθ] at i2
    refine near_const v_o2 ?_
    push_cast
    rw [abs_le]; constructor <;> norm_num at * <;> linarith
  have medium : ¬ 60 < (((mag y / 2 ^ 32 : Nat) : Int) - (mag x / 2 ^ 32 : Nat)) / 2 ^ 20 →
      Near (Atan.atan (Libm.fabs (div y x))) θ (401 / 100 * θ / 2 ^ 53 + (if θ < 1 / 2 ^ 1021 then 1 / 2 ^ 1075 else 0)) := by
    intro c
    rw [← hθ]
    exact z_near hy hx fy fx x0 y0 (by omega) hQ
  have small : (((mag y / 2 ^ 32 : Nat) : Int) - (mag x / 2 ^ 32 : Nat)) / 2 ^ 20 < -60 → θ ≤ 1 / 2 ^ 60 := by
    intro c
    have r := ratio_ge hx hy y0 (j := 60) (by omega)
    rw [abs_div] at r hQ
    have p : (0 : ℝ) < 2 ^ 60 := by positivity
    have : Q ≤ 1 / 2 ^ 60 := by
      rw [← hQ, div_le_iff₀ (abs_pos.2 X0)]
      rw [le_div_iff₀ (abs_pos.2 Y0)] at r
      generalize |(value x : ℝ)| = A at *
      generalize |(value y : ℝ)| = B at *
      rw [one_div, ← div_eq_inv_mul, le_div_iff₀ p]; linarith
    have l := Atan.arctan_abs Q
    rw [abs_of_pos Qp, hθ, abs_of_pos t0] at l
    linarith
  generalize (((mag y / 2 ^ 32 : Nat) : Int) - (mag x / 2 ^ 32 : Nat)) / 2 ^ 20 = k at *
  have T0 : (0 : ℝ) ≤ if θ < 1 / 2 ^ 1021 then 1 / 2 ^ 1075 else 0 := by split <;> positivity
  rcases (by omega : sign x = 0 ∨ sign x = 1) with s | s
  · -- the right half plane
    have z : Near (if 60 < k then pi_o_2 else if (decide (sign x = 1) = true) ∧ k < -60 then 0 else Atan.atan (Libm.fabs (div y x))) θ
        (7 * θ / 2 ^ 53 + (if θ < 1 / 2 ^ 1021 then 1 / 2 ^ 1075 else 0)) := by
      by_cases c : 60 < k
      · rw [if_pos c]
        refine (large c).weaken ?_
        generalize (if θ < 1 / 2 ^ 1021 then (1 : ℝ) / 2 ^ 1075 else 0) = T at *
        norm_num at *; linarith
      · rw [if_neg c, if_neg (by simp [s])]
        refine (medium c).weaken ?_
        generalize (if θ < 1 / 2 ^ 1021 then (1 : ℝ) / 2 ^ 1075 else 0) = T at *
        norm_num at *; linarith
    rw [if_pos (vx.1 s)] at ar
    have aa : |α| = θ := by
      rw [ar]; split
      · exact abs_of_pos t0
      · rw [abs_neg]; exact abs_of_pos t0
    rw [aa]
    rcases (by omega : sign y = 0 ∨ sign y = 1) with s' | s'
    · rw [if_pos (vy.1 s')] at ar
      rw [ar, s, s'] at *
      exact z
    · rw [if_neg (by have := vy.2 s'; linarith)] at ar
      rw [ar]
      have := z.neg
      rw [s] at z this ⊢
      rw [s']
      unfold place
      simp only [Nat.mul_zero, Nat.add_zero]
      rw [flip z.1]
      exact this
  · -- the left half plane
    have lz : Near (if 60 < k then pi_o_2 else if (decide (sign x = 1) = true) ∧ k < -60 then 0 else Atan.atan (Libm.fabs (div y x))) θ
        (401 / 100 * θ / 2 ^ 53 + 1 / 10 ^ 18) := by
      by_cases c : 60 < k
      · rw [if_pos c]
        exact (large c).weaken (by norm_num; linarith)
      · rw [if_neg c]
        by_cases c2 : k < -60
        · rw [if_pos ⟨by simp [s], c2⟩]
          refine ⟨by decide, by decide, ?_⟩
          rw [show value 0 = 0 by unfold value sign expo frac; norm_num]
          have := small c2
          push_cast
          rw [zero_sub, abs_neg, abs_of_pos t0]
          norm_num at *; linarith
        · rw [if_neg (fun h => c2 h.2)]
          refine (medium c).weaken ?_
          have : (if θ < 1 / 2 ^ 1021 then (1 : ℝ) / 2 ^ 1075 else 0) ≤ 1 / 2 ^ 200 := by
            split
            · exact tiny_le
            · positivity
          generalize (if θ < 1 / 2 ^ 1021 then (1 : ℝ) / 2 ^ 1075 else 0) = T at *
          norm_num at *; linarith
    have lf := left_near t0.le t1.le lz
    rw [if_neg (by have := vx.2 s; linarith)] at ar
    rcases (by omega : sign y = 0 ∨ sign y = 1) with s' | s'
    · rw [if_pos (vy.1 s')] at ar
      have aa : |α| = Real.pi - θ := by rw [ar]; exact abs_of_pos (by linarith)
      rw [aa] at tail0 ⊢
      rw [ar]
      rw [s] at lf ⊢
      rw [s']
      exact lf.1.weaken (by linarith)
    · rw [if_neg (by have := vy.2 s'; linarith)] at ar
      have aa : |α| = Real.pi - θ := by rw [ar, abs_of_neg (by linarith)]; ring
      rw [aa] at tail0 ⊢
      rw [ar]
      rw [s] at lf ⊢
      rw [s']
      exact lf.2.weaken (by linarith)

/-! ## The nearest doubles -/

theorem closest {d : Nat} (h0 : 0 < d) (hd : d + 1 < 2 ^ 63) (f : IsFinite d) {a b c : ℚ} (ha : value (d - 1) = a) (hb : value d = b) (hc : value (d + 1) = c) {t : ℝ}
    (l : (a : ℝ) + b ≤ 2 * t) (u : 2 * t ≤ b + c) (p : 0 ≤ a) : Closest t d := by
  refine ⟨f, fun e he fe => ?_⟩
  have ab : a ≤ b := by
    have := value_mono (x := d - 1) (c := d) (by omega) (by omega) (by rw [mag_self (by omega)]; omega)
    rw [ha, hb] at this; exact le_trans (le_abs_self _) this
  have bc : b ≤ c := by
    have := value_mono (x := d) (c := d + 1) (by omega) (by omega) (by rw [mag_self (by omega)]; omega)
    rw [hc, hb] at this; exact le_trans (le_abs_self _) this
  have ab := (Rat.cast_le (K := ℝ)).2 ab
  have bc := (Rat.cast_le (K := ℝ)).2 bc
  have p := (Rat.cast_le (K := ℝ)).2 p
  push_cast at p
  have key : (value e : ℝ) ≤ a ∨ value e = b ∨ (c : ℝ) ≤ value e := by
    rcases Nat.lt_or_ge e (2 ^ 63) with h | h
    · rcases Nat.lt_trichotomy e d with k | k | k
      · left
        have := value_mono (x := e) (c := d - 1) he (by omega) (by rw [mag_self h]; omega)
        rw [ha] at this
        exact (Rat.cast_le (K := ℝ)).2 (le_trans (le_abs_self _) this)
      · right; left; rw [k, hb]
      · right; right
        have := value_mono' (x := e) (c := d + 1) he (by omega) (by rw [mag_self h]; omega)
        rw [hc, value_pos h] at this
        exact (Rat.cast_le (K := ℝ)).2 this
    · left
      have := Exp.value_neg h he
      have := abs_nonneg (value e)
      have m : value e ≤ 0 := by linarith
      have m := (Rat.cast_le (K := ℝ)).2 m
      push_cast at m
      linarith
  rw [hb]
  rcases key with k | k | k
  · have := neg_abs_le ((value e : ℝ) - t)
    rw [abs_le]; constructor <;> linarith
  · rw [k]
  · have := le_abs_self ((value e : ℝ) - t)
    rw [abs_le]; constructor <;> linarith

theorem closest_neg {d : Nat} (hd : d < 2 ^ 64) {t : ℝ} (h : Closest t d) : Closest (-t) (negate d) := by
  refine ⟨(Near.self hd h.1).neg.2.1, fun e he fe => ?_⟩
  have n := (Near.self he fe).neg
  have := h.2 (negate e) n.1 n.2.1
  rw [value_negate he fe] at this
  rw [value_negate hd h.1]
  rw [show -(value d : ℝ) - -t = -((value d : ℝ) - t) by ring, abs_neg]
  rw [show -(value e : ℝ) - t = -((value e : ℝ) - -t) by ring, abs_neg] at this
  exact this

theorem closest_pi : Closest Real.pi pi := by
  have h := abs_le.1 Atan.pi_q
  refine closest (a := piq - 1 / 2 ^ 51) (b := piq) (c := piq + 1 / 2 ^ 51) (by decide) (by decide) (by decide) ?_ v_pi.2.2 ?_ ?_ ?_ ?_
  · unfold pi piq value sign expo frac; norm_num
  · unfold pi piq value sign expo frac; norm_num
  · unfold piq; push_cast; norm_num at *; linarith
  · unfold piq; push_cast; norm_num at *; linarith
  · unfold piq; norm_num

theorem closest_o2 : Closest (Real.pi / 2) pi_o_2 := by
  have h := abs_le.1 Atan.pi_q
  refine closest (a := piq / 2 - 1 / 2 ^ 52) (b := piq / 2) (c := piq / 2 + 1 / 2 ^ 52) (by decide) (by decide) (by decide) ?_ v_o2.2.2 ?_ ?_ ?_ ?_
  · unfold pi_o_2 piq value sign expo frac; norm_num
  · unfold pi_o_2 piq value sign expo frac; norm_num
  · unfold piq; push_cast; norm_num at *; linarith
  · unfold piq; push_cast; norm_num at *; linarith
  · unfold piq; norm_num

theorem closest_o4 : Closest (Real.pi / 4) pi_o_4 := by
  have h := abs_le.1 Atan.pi_q
  refine closest (a := piq / 4 - 1 / 2 ^ 53) (b := piq / 4) (c := piq / 4 + 1 / 2 ^ 53) (by decide) (by decide) (by decide) ?_ ?_ ?_ ?_ ?_ ?_
  · unfold pi_o_4 piq value sign expo frac; norm_num
  · unfold pi_o_4 piq value sign expo frac; norm_num
  · unfold pi_o_4 piq value sign expo frac; norm_num
  · unfold piq; push_cast; norm_num at *; linarith
  · unfold piq; push_cast; norm_num at *; linarith
  · unfold piq; norm_num

theorem closest_3o4 : Closest (3 * Real.pi / 4) 0x4002d97c7f3321d2 := by
  have h := abs_le.1 Atan.pi_q
  refine closest (a := 0x4b65f1fccc8749 / 2 ^ 53 - 1 / 2 ^ 51 - 1 / 2 ^ 53) (b := 0x4b65f1fccc8749 / 2 ^ 53 - 1 / 2 ^ 53)
    (c := 0x4b65f1fccc8749 / 2 ^ 53 + 1 / 2 ^ 51 - 1 / 2 ^ 53) (by decide) (by decide) (by decide) ?_ ?_ ?_ ?_ ?_ ?_
  · unfold value sign expo frac; norm_num
  · unfold value sign expo frac; norm_num
  · unfold value sign expo frac; norm_num
  · push_cast; norm_num at *; linarith
  · push_cast; norm_num at *; linarith
  · norm_num

theorem closest_zero : Closest 0 0 := by
  refine ⟨by decide, fun e _ _ => ?_⟩
  rw [show value 0 = 0 by unfold value sign expo frac; norm_num]
  push_cast; rw [sub_zero, abs_zero]; exact abs_nonneg _

/-- **C133**, part: on the horizontal axis the angle is the zero given to the right of the origin (and of the origin, if its `x` has no sign), with its sign,
and the double nearest to `π`, with the sign of the zero, to the left. -/
theorem C133_zero_partial {y x : Nat} (hy : y < 2 ^ 64) (hx : x < 2 ^ 64) (fx : ¬ IsNaN x) (fy : IsFinite y) (y0 : value y = 0) :
    (sign x = 0 → atan2 y x = y) ∧
    (sign x = 1 → sign (atan2 y x) = sign y ∧ Closest ((-1) ^ sign y * Real.pi) (atan2 y x)) := by
  have sx := sign_lt x
  have sy := sign_lt y
  have my := (value_zero_iff hy).1 y0
  obtain ⟨k1, k2, k3, k4, k5, k6, k7, k8, k9⟩ := consts
  unfold atan2
  simp only []
  rw [hi31 hx, hi31 hy, m_eq, neg_eq, neg_eq, if_neg (by
    rintro (h | h)
    · exact fx ((Libm.nan_or x).1 h)
    · exact not_nan fy ((Libm.nan_or y).1 h)), k1, k2]
  refine ⟨fun s => ?_, fun s => ?_⟩
  · by_cases c1 : x = Libm.one
    · rw [if_pos ((one_eq hx).2 c1)]
      exact (Atan.C132_special hy).1 fy (by rw [y0]; norm_num)
    · rw [if_neg (fun h => c1 ((one_eq hx).1 h)), if_pos (zero_eq.2 my), s]
      rcases (by omega : sign y = 0 ∨ sign y = 1) with t | t <;> rw [t] <;> rfl
  · have c1 : x ≠ Libm.one := by intro h; rw [h] at s; exact absurd s (by decide)
    rw [if_neg (fun h => c1 ((one_eq hx).1 h)), if_pos (zero_eq.2 my), s]
    rcases (by omega : sign y = 0 ∨ sign y = 1) with t | t <;> rw [t]
    · refine ⟨(by decide : sign pi = 0), ?_⟩
      rw [pow_zero, one_mul]; exact closest_pi
    · refine ⟨(by decide : sign (negate pi) = 1), ?_⟩
      rw [pow_one, neg_one_mul]; exact closest_neg v_pi.1 closest_pi

theorem inf_mag {x : Nat} (h : IsInf x) : mag x = inf := by rw [mag_eq, h.1, h.2]; rfl

/-- **C133**, part: with an infinite coordinate the result is the double nearest to the angle of the direction, with the sign of `y`. -/
theorem C133_far_partial {y x : Nat} (hy : y < 2 ^ 64) (hx : x < 2 ^ 64) (nx : ¬ IsNaN x) (ny : ¬ IsNaN y) (h : IsInf x ∨ IsInf y) :
    sign (atan2 y x) = sign y ∧ Closest ((-1) ^ sign y * farAngle y x) (atan2 y x) := by
  have sx := sign_lt x
  have sy := sign_lt y
  have hinf : inf = 0x7ff00000 * 2 ^ 32 := rfl
  have fin : ∀ {z : Nat}, ¬ IsNaN z → ¬ IsInf z → mag z < inf := fun {z} n i => (finite_iff z).1 (fun e => by
    by_cases f : frac z = 0
    · exact i ⟨e, f⟩
    · exact n ⟨e, f⟩)
  obtain ⟨k1, k2, k3, k4, k5, k6, k7, k8, k9⟩ := consts
  have pos : ∀ {d : Nat} {t : ℝ}, sign d = 0 → Closest t d → sign y = 0 → sign d = sign y ∧ Closest ((-1) ^ sign y * t) d := by
    intro d t a b c; rw [c]; exact ⟨a, by rw [pow_zero, one_mul]; exact b⟩
  have neg : ∀ {d : Nat} {t : ℝ}, d < 2 ^ 64 → sign (negate d) = 1 → Closest t d → sign y = 1 → sign (negate d) = sign y ∧ Closest ((-1) ^ sign y * t) (negate d) := by
    intro d t l a b c; rw [c]; exact ⟨a, by rw [pow_one, neg_one_mul]; exact closest_neg l b⟩
  unfold atan2
  simp only []
  rw [hi31 hx, hi31 hy, m_eq, neg_eq, neg_eq, if_neg (by
    rintro (h | h)
    · exact nx ((Libm.nan_or x).1 h)
    · exact ny ((Libm.nan_or y).1 h)), k1, k2, k3, k4, k5, k6, k7, k8]
  unfold farAngle
  by_cases ix : IsInf x
  · have mx := inf_mag ix
    have c1 : x ≠ Libm.one := by intro h; rw [h] at ix; exact absurd ix (by decide)
    rw [if_neg (fun h => c1 ((one_eq hx).1 h))]
    by_cases iy : IsInf y
    · have my := inf_mag iy
      rw [if_neg (fun h => by have := zero_eq.1 h; omega), if_neg (fun h => by have := zero_eq.1 h; omega), if_pos (by omega), if_pos (by omega), if_pos ⟨ix, iy⟩]
      rcases (by omega : sign x = 0 ∨ sign x = 1) with s | s <;> rcases (by omega : sign y = 0 ∨ sign y = 1) with t | t
      · rw [if_pos s, s]; have := pos (by decide) closest_o4 t; rw [t] at this ⊢; exact this
      · rw [if_pos s, s]; have := neg (by decide) (by decide) closest_o4 t; rw [t] at this ⊢; exact this
      · rw [if_neg (by omega), s]; have := pos (by decide) closest_3o4 t; rw [t] at this ⊢; exact this
      · rw [if_neg (by omega), s]; have := neg (by decide) (by decide) closest_3o4 t; rw [t] at this ⊢; exact this
    · have my := fin ny iy
      rw [if_neg (fun h : IsInf x ∧ IsInf y => iy h.2), if_neg iy]
      by_cases y0 : mag y = 0
      · rw [if_pos (zero_eq.2 y0)]
        rcases (by omega : sign x = 0 ∨ sign x = 1) with s | s <;> rcases (by omega : sign y = 0 ∨ sign y = 1) with t | t
        · have e : y = 0 := by unfold mag at y0; unfold sign at t; omega
          rw [if_pos s, s]; have := pos (by decide) closest_zero t; rw [t] at this ⊢; rw [e]; exact this
        · have e : y = negate 0 := by unfold mag at y0; unfold sign at t; have : negate 0 = 2 ^ 63 := by decide
                                      omega
          rw [if_pos s, s]; have := neg (by decide) (by decide) closest_zero t; rw [t] at this ⊢; rw [e]; exact this
        · rw [if_neg (by omega), s]; have := pos (by decide) closest_pi t; rw [t] at this ⊢; exact this
        · rw [if_neg (by omega), s]; have := neg (by decide) (by decide) closest_pi t; rw [t] at this ⊢; exact this
      · rw [if_neg (fun h => y0 (zero_eq.1 h)), if_neg (fun h => by have := zero_eq.1 h; omega), if_pos (by omega), if_neg (by omega)]
        rcases (by omega : sign x = 0 ∨ sign x = 1) with s | s <;> rcases (by omega : sign y = 0 ∨ sign y = 1) with t | t
        · rw [if_pos s, s]; have := pos (by decide) closest_zero t; rw [t] at this ⊢; exact this
        · rw [if_pos s, s]; have := neg (by decide) (by decide) closest_zero t; rw [t] at this ⊢; exact this
        · rw [if_neg (by omega), s]; have := pos (by decide) closest_pi t; rw [t] at this ⊢; exact this
        · rw [if_neg (by omega), s]; have := neg (by decide) (by decide) closest_pi t; rw [t] at this ⊢; exact this
  · have iy := h.resolve_left ix
    have my := inf_mag iy
    have mx := fin nx ix
    rw [if_neg (fun h : IsInf x ∧ IsInf y => ix h.1), if_pos iy]
    by_cases c1 : x = Libm.one
    · rw [if_pos ((one_eq hx).2 c1)]
      obtain ⟨f, sg, b⟩ := (Atan.C132_special hy).2.1 iy
      have c : sign y = 0 ∨ sign y = 1 := by omega
      refine ⟨sg, ?_⟩
      have al : Atan.atan y < 2 ^ 64 ∧ (sign y = 0 → Atan.atan y = pi_o_2) ∧ (sign y = 1 → Atan.atan y = negate pi_o_2) := by
        rcases c with s | s
        · have : y = inf := by unfold mag at my; unfold sign at s; omega
          rw [this]; decide +kernel
        · have : y = inf + 2 ^ 63 := by unfold mag at my; unfold sign at s; omega
          rw [this]; decide +kernel
      rcases c with s | s
      · rw [al.2.1 s]; exact (pos (by decide) closest_o2 s).2
      · rw [al.2.2 s]; exact (neg (by decide) (by decide) closest_o2 s).2
    · rw [if_neg (fun h => c1 ((one_eq hx).1 h)), if_neg (fun h => by have := zero_eq.1 h; omega)]
      rcases (by omega : sign y = 0 ∨ sign y = 1) with t | t
      · have := pos (by decide) closest_o2 t
        by_cases z : (mag x / 2 ^ 32 ||| Libm.lo x) = 0
        · rw [if_pos z, if_neg (by simp [t])]; exact this
        · rw [if_neg z, if_neg (by omega), if_pos (by omega), if_neg (by simp [t])]; exact this
      · have := neg (by decide) (by decide) closest_o2 t
        by_cases z : (mag x / 2 ^ 32 ||| Libm.lo x) = 0
        · rw [if_pos z, if_pos (by simp [t])]; exact this
        · rw [if_neg z, if_neg (by omega), if_pos (by omega), if_pos (by simp [t])]; exact this

/-- **C133**, part: what is not a number gives what is not a number. -/
theorem C133_nan_partial {y x : Nat} (hy : y < 2 ^ 64) (hx : x < 2 ^ 64) (h : IsNaN x ∨ IsNaN y) : IsNaN (atan2 y x) := by
  unfold atan2
  simp only []
  rw [hi31 hx, hi31 hy, if_pos (h.imp (Libm.nan_or x).2 (Libm.nan_or y).2)]
  · unfold add
    by_cases n : isNaN x = true
    · rw [if_pos n]; exact Libm.quiet_nan ((Libm.isNaN_eq x).1 n)
    · rw [if_neg n]
      have ny := h.resolve_left (fun k => n ((Libm.isNaN_eq x).2 k))
      rw [if_pos ((Libm.isNaN_eq y).2 ny)]; exact Libm.quiet_nan ny

/-- **C133**, false: that no integer operation overflows.  The test for `x = 1` takes the difference of two signed words, `hx - 0x3ff00000`, before it has
looked at the sign: for every negative `x` of a magnitude below one, minus zero among them, it is below the least signed word, which is undefined. -/
theorem C133_overflow_violated {x : Nat} (hx : x < 2 ^ 64) (s : sign x = 1) (h : |value x| < 1) : difference x < -(2 : Int) ^ 31 := by
  have m : mag x < 0x3ff00000 * 2 ^ 32 := by
    by_contra c
    have := value_mono' (x := x) (c := 0x3ff00000 * 2 ^ 32) hx (by decide) (by omega)
    rw [show value (0x3ff00000 * 2 ^ 32) = 1 by unfold value sign expo frac; norm_num] at this
    linarith
  unfold difference
  rw [if_pos (by rw [neg_eq]; simp [s])]
  unfold sign at s; unfold mag at m; unfold Libm.hi
  omega

/-- For all other arguments the difference is a signed word. -/
theorem C133_no_overflow_partial {x : Nat} (hx : x < 2 ^ 64) (h : sign x = 0 ∨ 1 ≤ |value x| ∨ ¬ IsFinite x) : -(2 : Int) ^ 31 ≤ difference x ∧ difference x < 2 ^ 31 := by
  have m : sign x = 0 ∨ 0x3ff00000 * 2 ^ 32 ≤ mag x := by
    rcases h with h | h | h
    · exact Or.inl h
    · right
      by_contra c
      have := value_mono (x := x) (c := 0x3ff00000 * 2 ^ 32 - 1) hx (by decide) (by omega)
      rw [show value (0x3ff00000 * 2 ^ 32 - 1) = 1 - 1 / 2 ^ 53 by unfold value sign expo frac; norm_num] at this
      norm_num at *; linarith
    · right
      have := mt (finite_iff x).2 h
      have hinf : inf = 0x7ff00000 * 2 ^ 32 := rfl
      omega
  unfold difference
  have sx := sign_lt x
  rw [neg_eq]
  rcases (by omega : sign x = 0 ∨ sign x = 1) with s | s
  · rw [if_neg (by simp [s])]
    unfold sign at s; unfold Libm.hi; omega
  · rw [if_pos (by simp [s])]
    unfold sign at s m; unfold mag at m; unfold Libm.hi; omega

/-! ## The hypotheses are met -/

/-- The angles of (1, 1), (-1, 1), (-1, -1), (2, -1), of `(2^-500, 2^500)`, of `(-2^500, 2^-500)`, of points on the axes and of infinitely distant ones. -/
example : atan2 0x3ff0000000000000 0x3ff0000000000000 = 0x3fe921fb54442d18 ∧ atan2 0x3ff0000000000000 0xbff0000000000000 = 0x4002d97c7f3321d2 ∧
    atan2 0xbff0000000000000 0xbff0000000000000 = 0xc002d97c7f3321d2 ∧ atan2 0xbff0000000000000 0x4000000000000000 = 0xbfddac670561bb4f ∧
    atan2 0x5f30000000000000 0x20b0000000000000 = 0x3ff921fb54442d18 ∧ atan2 0x20b0000000000000 0xdf30000000000000 = 0x400921fb54442d18 ∧
    atan2 0 0xbff0000000000000 = 0x400921fb54442d18 ∧ atan2 0x8000000000000000 0 = 0x8000000000000000 ∧ atan2 0x3ff0000000000000 0 = 0x3ff921fb54442d18 ∧
    atan2 0xfff0000000000000 0xfff0000000000000 = 0xc002d97c7f3321d2 ∧ atan2 0x3ff0000000000000 0x7ff0000000000000 = 0 := by
  decide +kernel

/-- Minus one half is an argument of the overflow. -/
example : sign 0xbfe0000000000000 = 1 ∧ |value 0xbfe0000000000000| < 1 ∧ difference 0xbfe0000000000000 = -2148532224 := by
  refine ⟨by decide, ?_, by decide⟩; unfold value sign expo frac; norm_num

/-- The points (-1, 2) and (-1, -0), and one with an infinite coordinate, are arguments of the theorems above. -/
example : IsFinite 0x4000000000000000 ∧ value 0x4000000000000000 ≠ 0 ∧ IsFinite 0x8000000000000000 ∧ value 0x8000000000000000 = 0 ∧ ¬ IsNaN 0xbff0000000000000 ∧
    IsInf 0x7ff0000000000000 := by
  refine ⟨by decide, ?_, by decide, ?_, by decide, by decide⟩ <;> unfold value sign expo frac <;> norm_num

end Pok.Atan2
