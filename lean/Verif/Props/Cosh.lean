import Verif.Lemmas.Cosh
import Verif.Props.Hypot
import Verif.Lemmas.PowCases
/-!
# C141: the hyperbolic cosine

The specification is Mathlib's `Real.cosh`, and `value`, `IsFinite`, `IsNaN`, `IsInf` and `sign` of `Verif.Spec.Float`; `2^1024` is where the doubles end.
-/
namespace Pok.Cosh
open Pok.Err Pok.Float Pok.Fpu Pok.Poly Pok.Hypot

theorem mid_real {E v b s : ℝ} (e0 : 1 ≤ E) (hv : |v - E| ≤ E / 2 ^ 52) (hb : |b - (1 / 2) / v| ≤ |(1 / 2) / v| / 2 ^ 53 + 1 / 2 ^ 200)
    (hs : |s - (v / 2 + b)| ≤ |v / 2 + b| / 2 ^ 53) : |s - (E + E⁻¹) / 2| ≤ (E + E⁻¹) / 2 * (36 / 10 / 2 ^ 53) := by
  have v' := abs_le.1 hv
  have vl : E * (1 - 1 / 2 ^ 52) ≤ v := by linarith only [v'.1]
  have vp : 1 / 2 ≤ v := by linarith only [v'.1, e0]
  have Ep : 0 < E := by linarith only [e0]
  have v0 : 0 < v := by linarith only [vp]
  have i0 : 0 < E⁻¹ := by positivity
  have ip : 0 < (1 / 2) / v := by positivity
  have i1 : (1 / 2) / v ≤ E⁻¹ * (51 / 100) := by
    rw [div_le_iff₀ v0]
    have := mul_le_mul_of_nonneg_left vl i0.le
    have e : E⁻¹ * (E * (1 - 1 / 2 ^ 52)) = 1 - 1 / 2 ^ 52 := by rw [← mul_assoc, inv_mul_cancel₀ Ep.ne', one_mul]
    rw [e] at this
    linarith only [this]
  have i2 : E⁻¹ ≤ E := le_trans (inv_le_one_of_one_le₀ e0) e0
  have K : |v / 2 + (1 / 2) / v - (E + E⁻¹) / 2| ≤ E / 2 ^ 53 := by
    have e : v / 2 + (1 / 2) / v - (E + E⁻¹) / 2 = (v - E) * ((1 - (v * E)⁻¹) / 2) := by field_simp; ring
    have p : 1 / 2 ≤ v * E := by
      have := mul_le_mul vp e0 (by norm_num) v0.le
      linarith only [this]
    have q : (v * E)⁻¹ ≤ 2 := by
      rw [show (2 : ℝ) = (1 / 2)⁻¹ by norm_num]
      exact inv_anti₀ (by norm_num) p
    have q0 : 0 < (v * E)⁻¹ := by positivity
    rw [e, abs_mul]
    have r : |(1 - (v * E)⁻¹) / 2| ≤ 1 / 2 := by rw [abs_le]; constructor <;> linarith only [q, q0]
    have := mul_le_mul hv r (abs_nonneg _) (by positivity)
    linarith only [this]
  rw [abs_of_pos ip] at hb
  have hb' := abs_le.1 hb
  have K' := abs_le.1 K
  generalize (1 / 2) / v = I at *
  generalize E⁻¹ = J at *
  have T : |v / 2 + b - (E + J) / 2| ≤ (E + J) / 2 * (253 / 100 / 2 ^ 53) := by
    rw [abs_le]; constructor <;> linarith only [hb'.1, hb'.2, K'.1, K'.2, i0, i1, i2, e0]
  have T' := abs_le.1 T
  have ta : |v / 2 + b| ≤ (E + J) / 2 * (1 + 253 / 100 / 2 ^ 53) := by
    rw [abs_le]; constructor <;> linarith only [T'.1, T'.2, i0, e0]
  have hs' := abs_le.1 hs
  rw [abs_le]; constructor <;> linarith only [hs'.1, hs'.2, T'.1, T'.2, ta, i0, e0]

theorem top_real {E W w Q r : ℝ} (hW : W * W = E) (W0 : 0 < W) (hw : |w - W| ≤ W / 2 ^ 52) (hr : |r - w * w / 2| ≤ Q) (hQ : 9990 / 10000 * 2 ^ 54 * Q ≤ E) (E0 : 2 ^ 40 ≤ E) :
    |r - (E + E⁻¹) / 2| ≤ (E + E⁻¹) / 2 * (51 / 10 / 2 ^ 53) := by
  have Ep : 0 < E := by linarith only [E0]
  have i0 : 0 ≤ E⁻¹ := by positivity
  have i1 : E⁻¹ ≤ E / 2 ^ 80 := by
    rw [inv_le_iff_one_le_mul₀ Ep]
    have := mul_le_mul E0 E0 (by norm_num) Ep.le
    linarith only [this]
  have sq' : |w * w - E| ≤ E * (2001 / 1000 / 2 ^ 52) := by
    have a : |w + W| ≤ W * (2001 / 1000) := by
      have := abs_le.1 hw
      rw [abs_le]; constructor <;> linarith only [this.1, this.2, W0]
    have b : w * w - E = (w - W) * (w + W) := by rw [← hW]; ring
    rw [b, abs_mul]
    refine le_trans (mul_le_mul hw a (abs_nonneg _) (by positivity)) (le_of_eq ?_)
    rw [← hW]; ring
  have h1 := abs_le.1 hr
  have h2 := abs_le.1 sq'
  generalize E⁻¹ = J at *
  rw [abs_le]; constructor <;> linarith only [h1.1, h1.2, h2.1, h2.2, hQ, i0, i1, Ep]

/-- From half of the logarithm of two to 22. -/
theorem mid_near {y : Nat} (hy : y < 2 ^ 63) (fy : IsFinite y) (h : (value y : ℝ) ≤ 22) :
    Near (add (mul half (Exp.exp y)) (div half (Exp.exp y))) (Real.cosh (value y)) (Real.cosh (value y) * (36 / 10 / 2 ^ 53)) := by
  have h0 := val_nonneg hy
  have l2 := Exp.ln2_b
  have e2 : 1 ≤ Real.exp (value y : ℝ) := Real.one_le_exp h0
  have e3 : Real.exp (value y) ≤ 2 ^ 32 := by
    have := Exp.exp_pow2 32
    rw [show ((2 : ℝ) ^ (32 : ℤ)) = 2 ^ 32 by norm_cast] at this
    rw [this]; apply Real.exp_le_exp.2; push_cast; linarith only [h, l2.1]
  obtain ⟨t1, t2, t3⟩ := exp_pos_near hy fy (lt_of_le_of_lt e3 (pow_lt_pow_right₀ (by norm_num) (by norm_num)))
  rw [cosh_exp]
  generalize Real.exp (value y : ℝ) = E at *
  generalize Exp.exp y = t at *
  have t3' := abs_le.1 t3
  have p1 : 1 / 2 ≤ (value t : ℝ) := by linarith only [t3'.1, e2]
  have p2 : (value t : ℝ) ≤ 2 ^ 33 := by linarith only [t3'.2, e2, e3]
  have tpos : 0 < (value t : ℝ) := by linarith only [p1]
  obtain ⟨f1, f2, f3⟩ := v_half
  have hv : ((value half : ℚ) : ℝ) = 1 / 2 := by rw [f3]; norm_num
  obtain ⟨a1, a2, a3⟩ := halved t1 t2 (by linarith only [t3'.1, e2]) (le_trans p2 (pow_le_pow_right₀ (by norm_num) (by norm_num)))
  have q0 : 0 < (1 / 2) / (value t : ℝ) := by positivity
  have q1 : (1 / 2) / (value t : ℝ) ≤ 1 := by rw [div_le_one tpos]; exact p1
  have d := div_err f1 t1 f2 t2 (fun c => by rw [c] at tpos; simp at tpos) (by
    rw [hv, abs_of_pos q0]; exact le_trans q1 (one_le_pow₀ (by norm_num)))
  rw [hv] at d
  have db := abs_le.1 d.2.2
  rw [abs_of_pos q0] at db
  have ad := add_err a1 d.1 a2 d.2.1 (by
    rw [a3]
    have : (2 : ℝ) ^ 40 ≤ 2 ^ 200 := pow_le_pow_right₀ (by norm_num) (by norm_num)
    refine le_trans ?_ this
    rw [abs_le]; constructor <;> linarith only [db.1, db.2, q0, q1, p1, p2])
  rw [a3] at ad
  exact ⟨ad.1, ad.2.1, mid_real e2 t3 d.2.2 ad.2.2⟩

/-- From 22 to where the exponential overflows. -/
theorem high_near {y : Nat} (hy : y < 2 ^ 63) (fy : IsFinite y) (h0 : 22 ≤ (value y : ℝ)) (h1 : (value y : ℝ) ≤ 7097823 / 10 ^ 4 - 1 / 10 ^ 5) :
    Near (mul half (Exp.exp y)) (Real.cosh (value y)) (Real.cosh (value y) * (21 / 10 / 2 ^ 53)) := by
  have l2 := Exp.ln2_b
  have e2 : (2 : ℝ) ^ 31 ≤ Real.exp (value y) := by
    have := Exp.exp_pow2 31
    rw [show ((2 : ℝ) ^ (31 : ℤ)) = 2 ^ 31 by norm_cast] at this
    rw [this]; apply Real.exp_le_exp.2; push_cast; linarith only [h0, l2.2]
  obtain ⟨P, hP⟩ : ∃ P : ℝ, P = 2 ^ 1024 := ⟨_, rfl⟩
  have e3 : Real.exp (value y) * (1 + 1 / 10 ^ 4) ≤ P := by
    have a : 1 + 1 / 10 ^ 4 ≤ Real.exp (1 / 10 ^ 4) := by linarith only [Real.add_one_le_exp (1 / 10 ^ 4 : ℝ)]
    refine le_trans (mul_le_mul_of_nonneg_left a (Real.exp_pos _).le) ?_
    rw [← Real.exp_add, hP, Exp.exp_1024]; apply Real.exp_le_exp.2; linarith only [h1, l2.1]
  obtain ⟨t1, t2, t3⟩ := exp_pos_near hy fy (by rw [← hP]; linarith only [e2, e3])
  rw [cosh_exp]
  generalize Real.exp (value y : ℝ) = E at *
  generalize Exp.exp y = t at *
  have t3' := abs_le.1 t3
  obtain ⟨a1, a2, a3⟩ := halved t1 t2 (by linarith only [t3'.1, e2]) (by rw [← hP]; linarith only [t3'.2, e2, e3])
  refine ⟨a1, a2, ?_⟩
  rw [a3]
  have Ep : 0 < E := by linarith only [e2]
  have i0 : 0 ≤ E⁻¹ := by positivity
  have i1 : E⁻¹ ≤ E / 2 ^ 62 := by
    rw [inv_le_iff_one_le_mul₀ Ep]
    have := mul_le_mul e2 e2 (by norm_num) Ep.le
    linarith only [this]
  rw [abs_le]; constructor <;> linarith only [t3'.1, t3'.2, i0, i1, Ep]

/-- The last numbers before overflow. -/
theorem top_near {y : Nat} (hy : y < 2 ^ 63) (fy : IsFinite y) (h0 : 7097822 / 10 ^ 4 ≤ (value y : ℝ)) (h1 : (value y : ℝ) ≤ 7104758600739438635 / 10 ^ 16) :
    Near (mul (mul half (Exp.exp (mul half y))) (Exp.exp (mul half y))) (Real.cosh (value y)) (Real.cosh (value y) * (51 / 10 / 2 ^ 53)) := by
  have l2 := Exp.ln2_b
  obtain ⟨P, hP⟩ : ∃ P : ℝ, P = 2 ^ 1024 := ⟨_, rfl⟩
  obtain ⟨z1, z2, z3⟩ := halved (by omega : y < 2 ^ 64) fy (by linarith only [h0]) (by
    have : (2 : ℝ) ^ 10 ≤ 2 ^ 1024 := pow_le_pow_right₀ (by norm_num) (by norm_num)
    refine le_trans ?_ this
    linarith only [h1])
  have zp : mul half y < 2 ^ 63 := by
    by_contra c
    have := Exp.value_neg (x := mul half y) (by omega) z1
    have n := abs_nonneg (value (mul half y))
    rw [this] at n
    have n' := (Rat.cast_le (K := ℝ)).2 n
    rw [Rat.cast_neg, Rat.cast_zero, z3] at n'
    linarith only [n', h0]
  have small : Real.exp (value (mul half y)) ≤ 2 ^ 513 := by
    have := Exp.exp_pow2 513
    rw [show ((2 : ℝ) ^ (513 : ℤ)) = 2 ^ 513 from zpow_natCast 2 513] at this
    rw [this, z3]; apply Real.exp_le_exp.2; push_cast; linarith only [h1, l2.1]
  obtain ⟨w1, w2, w3⟩ := exp_pos_near zp z2 (lt_of_le_of_lt small (pow_lt_pow_right₀ (by norm_num) (by norm_num)))
  have big : (2 : ℝ) ^ 40 ≤ Real.exp (value (mul half y)) := by
    have := Exp.exp_pow2 40
    rw [show ((2 : ℝ) ^ (40 : ℤ)) = 2 ^ 40 by norm_cast] at this
    rw [this, z3]; apply Real.exp_le_exp.2; push_cast; linarith only [h0, l2.2]
  have hW : Real.exp (value (mul half y)) * Real.exp (value (mul half y)) = Real.exp (value y) := by
    rw [← Real.exp_add, z3]; congr 1; ring
  -- the bounds of the exponential
  have eP : P * 2 = Real.exp (1025 * Real.log 2) := by
    rw [hP, ← pow_succ]
    have := Exp.exp_pow2 1025; push_cast at this; rw [← this]; rfl
  have eP' : P = Real.exp (1024 * Real.log 2) := by rw [hP, Exp.exp_1024]
  have up : Real.exp (value y) * (1 + 7 / 10 ^ 14) ≤ P * 2 := by
    have a : 1 + 7 / 10 ^ 14 ≤ Real.exp (7 / 10 ^ 14) := by linarith only [Real.add_one_le_exp (7 / 10 ^ 14 : ℝ)]
    refine le_trans (mul_le_mul_of_nonneg_left a (Real.exp_pos _).le) ?_
    rw [← Real.exp_add, eP]; apply Real.exp_le_exp.2; linarith only [h1, l2.1]
  have dn : P * (9993 / 10000) ≤ Real.exp (value y) := by
    have a : 1 - 7 / 10 ^ 4 ≤ Real.exp (-(7 / 10 ^ 4)) := by linarith only [Real.add_one_le_exp (-(7 / 10 ^ 4) : ℝ)]
    have : P * (1 - 7 / 10 ^ 4) ≤ Real.exp (value y) := by
      refine le_trans (mul_le_mul_of_nonneg_left a (by rw [hP]; positivity)) ?_
      rw [eP', ← Real.exp_add]; apply Real.exp_le_exp.2; linarith only [h0, l2.2]
    linarith only [this]
  obtain ⟨Q, hQ⟩ : ∃ Q : ℝ, Q = 2 ^ 970 := ⟨_, rfl⟩
  have PQ : P = 2 ^ 54 * Q := by rw [hP, hQ, ← pow_add]
  have Q0 : 0 < Q := by rw [hQ]; positivity
  rw [cosh_exp]
  generalize Real.exp (value (mul half y)) = W at *
  generalize Real.exp (value y) = E at *
  generalize Exp.exp (mul half y) = w at *
  have w3' := abs_le.1 w3
  have W0 : 0 < W := by linarith only [big]
  obtain ⟨t1, t2, t3⟩ := halved w1 w2 (by linarith only [w3'.1, big]) (by
    have : (2 : ℝ) ^ 514 ≤ 2 ^ 1024 := pow_le_pow_right₀ (by norm_num) (by norm_num)
    refine le_trans ?_ this
    have e : (2 : ℝ) ^ 514 = 2 ^ 513 * 2 := pow_succ _ _
    rw [e]
    generalize (2 : ℝ) ^ 513 = R at *
    linarith only [w3'.2, small, W0])
  have wlo : 0 < (value w : ℝ) := by linarith only [w3'.1, big]
  have whi : (value w : ℝ) * value w ≤ E * (1 + 1 / 10 ^ 15) := by
    have a : (value w : ℝ) ≤ W * (1 + 1 / 2 ^ 52) := by linarith only [w3'.2]
    have b := mul_le_mul a a wlo.le (by positivity)
    have c : W * (1 + 1 / 2 ^ 52) * (W * (1 + 1 / 2 ^ 52)) = E * ((1 + 1 / 2 ^ 52) * (1 + 1 / 2 ^ 52)) := by rw [← hW]; ring
    rw [c] at b
    refine le_trans b (mul_le_mul_of_nonneg_left (by norm_num) ?_)
    rw [← hW]; positivity
  have Ep : 0 < E := by rw [← hW]; positivity
  have n := near_top (Libm.fpu_mul t1 w1 t2 w2) (by
    push_cast; rw [t3]; positivity) (by
    push_cast; rw [t3]
    have e : (2 : ℝ) ^ 971 = Q * 2 := by rw [hQ]; exact pow_succ _ _
    rw [e]
    have : (value w : ℝ) / 2 * value w = (value w : ℝ) * value w / 2 := by ring
    rw [this]
    linarith only [whi, up, PQ, Q0, Ep])
  push_cast at n
  rw [t3, ← hQ, show (value w : ℝ) / 2 * value w = (value w : ℝ) * value w / 2 by ring] at n
  refine ⟨n.1, n.2.1, top_real hW W0 w3 n.2.2 ?_ ?_⟩
  · rw [PQ] at dn; linarith only [dn, Q0]
  · rw [← hW]
    have := mul_le_mul big big (by norm_num) W0.le
    linarith only [this]

/-! ## The theorems -/

theorem bits_ge {y c : Nat} (h : c ≤ y) (hy : y < 2 ^ 63) {b : ℝ} (v : b ≤ (value c : ℝ)) : b ≤ (value y : ℝ) := le_trans v (val_mono h hy)

theorem cosh_mag {x : Nat} (hx : x < 2 ^ 64) (fx : IsFinite x) : cosh x = cosh (mag x) := by
  have m : mag x < 2 ^ 63 := mag_lt x
  have mi := (finite_iff x).1 fx
  have hinf : inf = 0x7ff00000 * 2 ^ 32 := rfl
  have l : Libm.lo (mag x) = Libm.lo x := by unfold Libm.lo mag; omega
  unfold cosh
  simp only []
  rw [hi31 hx, hi31 (by omega : mag x < 2 ^ 64), mag_s m, Libm.fabs_mag hx, Libm.fabs_mag (by omega : mag x < 2 ^ 64), mag_s m, l, if_neg (show ¬ 0x7ff00000 ≤ mag x / 2 ^ 32 by omega),
    if_neg (show ¬ 0x7ff00000 ≤ mag x / 2 ^ 32 by omega)]

theorem real_mag {x : Nat} (hx : x < 2 ^ 64) : Real.cosh (value (mag x)) = Real.cosh (value x) := by rw [value_mag hx, Real.cosh_abs]

/-- Up to the threshold. -/
theorem below_threshold {y : Nat} (h : y ≤ 0x408633ce8fb9f87d) : Near (cosh y) (Real.cosh (value y)) (Real.cosh (value y) * (51 / 10 / 2 ^ 53)) := by
  have hy : y < 2 ^ 63 := by omega
  have c0 : 0 ≤ Real.cosh (value y : ℝ) := (Real.cosh_pos _).le
  have hinf : inf = 0x7ff00000 * 2 ^ 32 := rfl
  have fy : IsFinite y := by rw [finite_iff, mag_s hy]; omega
  have wk : ∀ {n : Nat} {e : ℝ}, e ≤ 51 / 10 / 2 ^ 53 → Near n (Real.cosh (value y)) (Real.cosh (value y) * e) →
      Near n (Real.cosh (value y)) (Real.cosh (value y) * (51 / 10 / 2 ^ 53)) := fun he hn => hn.weaken (mul_le_mul_of_nonneg_left he c0)
  have l : Libm.lo y = y % 2 ^ 32 := rfl
  unfold cosh
  simp only []
  rw [hi31 (by omega), mag_s hy, Libm.fabs_mag (by omega), mag_s hy, l, if_neg (by omega)]
  by_cases c1 : y / 2 ^ 32 < 0x3fd62e43
  · rw [if_pos c1]
    exact wk (by norm_num) (small_near hy (by omega))
  rw [if_neg c1]
  by_cases c2 : y / 2 ^ 32 < 0x40360000
  · rw [if_pos c2]
    refine wk (by norm_num) (mid_near hy fy (bits_lt (c := 0x4036000000000000) (by omega) (by norm_num) ?_))
    rw [show value 0x4036000000000000 = 22 by unfold value sign expo frac; norm_num]; norm_num
  rw [if_neg c2]
  by_cases c3 : y / 2 ^ 32 < 0x40862E42
  · rw [if_pos c3]
    refine wk (by norm_num) (high_near hy fy (bits_ge (c := 0x4036000000000000) (by omega) hy ?_) (bits_lt (c := 0x40862E4200000000) (by omega) (by norm_num) ?_))
    · rw [show value 0x4036000000000000 = 22 by unfold value sign expo frac; norm_num]; norm_num
    · rw [show value 0x40862E4200000000 = 7097822265625 / 10 ^ 10 by unfold value sign expo frac; norm_num]; norm_num
  rw [if_neg c3, if_pos (by omega)]
  refine top_near hy fy (bits_ge (c := 0x40862E4200000000) (by omega) hy ?_) (bits_lt (c := 0x408633ce8fb9f87d) (by omega) (by norm_num) ?_)
  · rw [show value 0x40862E4200000000 = 7097822265625 / 10 ^ 10 by unfold value sign expo frac; norm_num]; norm_num
  · rw [show value 0x408633ce8fb9f87d = 0x1633ce8fb9f87d / 2 ^ 43 by unfold value sign expo frac; norm_num]; norm_num

/-- Above the threshold the hyperbolic cosine is at least `2^1024`. -/
theorem above_threshold {y : Nat} (h : 0x408633ce8fb9f87d < y) (hy : y < 2 ^ 63) : 2 ^ 1024 ≤ Real.cosh (value y) := by
  have l2 := Exp.ln2_b
  have b : 71047586007394397711 / 10 ^ 17 ≤ (value y : ℝ) := bits_ge (c := 0x408633ce8fb9f87e) (by omega) hy (by
    rw [show value 0x408633ce8fb9f87e = 0x1633ce8fb9f87e / 2 ^ 43 by unfold value sign expo frac; norm_num]; norm_num)
  have eP : (2 : ℝ) ^ 1024 * 2 = Real.exp (1025 * Real.log 2) := by
    rw [← pow_succ]
    have := Exp.exp_pow2 1025; push_cast at this; rw [← this]; rfl
  have : Real.exp (1025 * Real.log 2) ≤ Real.exp (value y) := Real.exp_le_exp.2 (by linarith only [b, l2.2])
  rw [← eP] at this
  rw [cosh_exp]
  have i : 0 < (Real.exp (value y : ℝ))⁻¹ := by positivity
  generalize (2 : ℝ) ^ 1024 = P at *
  linarith only [this, i]

/-- Up to the threshold it is less. -/
theorem below_limit {y : Nat} (h : y ≤ 0x408633ce8fb9f87d) : Real.cosh (value y) < 2 ^ 1024 := by
  have l2 := Exp.ln2_b
  have h0 := val_nonneg (show y < 2 ^ 63 by omega)
  have b : (value y : ℝ) ≤ 7104758600739438635 / 10 ^ 16 := bits_lt (c := 0x408633ce8fb9f87d) h (by norm_num) (by
    rw [show value 0x408633ce8fb9f87d = 0x1633ce8fb9f87d / 2 ^ 43 by unfold value sign expo frac; norm_num]; norm_num)
  have eP : (2 : ℝ) ^ 1024 * 2 = Real.exp (1025 * Real.log 2) := by
    rw [← pow_succ]
    have := Exp.exp_pow2 1025; push_cast at this; rw [← this]; rfl
  have up : Real.exp (value y) * (1 + 7 / 10 ^ 14) ≤ 2 ^ 1024 * 2 := by
    have a : 1 + 7 / 10 ^ 14 ≤ Real.exp (7 / 10 ^ 14) := by linarith only [Real.add_one_le_exp (7 / 10 ^ 14 : ℝ)]
    refine le_trans (mul_le_mul_of_nonneg_left a (Real.exp_pos _).le) ?_
    rw [← Real.exp_add, eP]; apply Real.exp_le_exp.2; linarith only [b, l2.1]
  have e1 : 1 ≤ Real.exp (value y : ℝ) := Real.one_le_exp h0
  have i : (Real.exp (value y : ℝ))⁻¹ ≤ 1 := inv_le_one_of_one_le₀ e1
  have big : (2 : ℝ) ^ 60 ≤ 2 ^ 1024 := pow_le_pow_right₀ (by norm_num) (by norm_num)
  rw [cosh_exp]
  generalize (2 : ℝ) ^ 1024 = P at *
  linarith only [up, i, big, e1]

/-- **C141.** For every finite double whose hyperbolic cosine is below `2^1024`, `cosh` returns it with a relative error of at most `5.1·2^-53`. -/
theorem C141_cosh {x : Nat} (hx : x < 2 ^ 64) (fx : IsFinite x) (h : Real.cosh (value x) < 2 ^ 1024) :
    IsFinite (cosh x) ∧ |(value (cosh x) : ℝ) - Real.cosh (value x)| ≤ Real.cosh (value x) * (51 / 10 / 2 ^ 53) := by
  have m : mag x < 2 ^ 63 := mag_lt x
  rw [cosh_mag hx fx, ← real_mag hx]
  rw [← real_mag hx] at h
  refine (below_threshold ?_).2
  by_contra c
  exact absurd (above_threshold (by omega) m) (not_le.2 h)

/-- The cosine of 1. -/
example : IsFinite (cosh 0x3ff0000000000000) ∧ |(value (cosh 0x3ff0000000000000) : ℝ) - Real.cosh (value 0x3ff0000000000000)| ≤
    Real.cosh (value 0x3ff0000000000000) * (51 / 10 / 2 ^ 53) := C141_cosh (by norm_num) (by decide) (below_limit (by norm_num))

/-- **Overflow.** For every finite double whose hyperbolic cosine is `2^1024` or more, `cosh` returns the positive infinite. -/
theorem C141_overflow {x : Nat} (hx : x < 2 ^ 64) (fx : IsFinite x) (h : 2 ^ 1024 ≤ Real.cosh (value x)) : IsInf (cosh x) ∧ sign (cosh x) = 0 := by
  have m : mag x < 2 ^ 63 := mag_lt x
  have mi := (finite_iff x).1 fx
  have hinf : inf = 0x7ff00000 * 2 ^ 32 := rfl
  rw [← real_mag hx] at h
  have a : 0x408633ce8fb9f87d < mag x := by
    by_contra c
    exact absurd (below_limit (by omega)) (not_lt.2 h)
  rw [cosh_mag hx fx]
  have l : Libm.lo (mag x) = mag x % 2 ^ 32 := rfl
  unfold cosh
  simp only []
  rw [hi31 (by omega), mag_s m, l, if_neg (by omega), if_neg (by omega), if_neg (by omega), if_neg (by omega), if_neg (by omega)]
  have e : mul huge huge = inf := by decide +kernel
  rw [e]
  decide

/-- The first double that overflows. -/
example : IsInf (cosh 0x408633ce8fb9f87e) ∧ sign (cosh 0x408633ce8fb9f87e) = 0 := C141_overflow (by norm_num) (by decide) (above_threshold (by norm_num) (by norm_num))

/-- **Special values.** The cosine of either zero is 1, that of either infinite the positive infinite. -/
theorem C141_special : cosh 0 = 0x3ff0000000000000 ∧ cosh (2 ^ 63) = 0x3ff0000000000000 ∧ cosh inf = inf ∧ cosh (2 ^ 63 + inf) = inf := by decide +kernel

/-- **Even.** Numbers that differ in the sign only, the two infinites among them, have the same result bit for bit. -/
theorem C141_even {x y : Nat} (hx : x < 2 ^ 64) (hy : y < 2 ^ 64) (nx : ¬ IsNaN x) (h : x % 2 ^ 63 = y % 2 ^ 63) : cosh x = cosh y := by
  have e : mag x = mag y := h
  by_cases fx : IsFinite x
  · have fy : IsFinite y := by rw [finite_iff, ← e, ← finite_iff]; exact fx
    rw [cosh_mag hx fx, cosh_mag hy fy, e]
  · rw [finite_iff] at fx
    rw [Libm.nan_iff] at nx
    have hinf : inf = 0x7ff00000 * 2 ^ 32 := rfl
    have two : ∀ {z : Nat}, z < 2 ^ 64 → mag z = mag x → z = inf ∨ z = 2 ^ 63 + inf := by
      intro z hz e
      unfold mag at *; omega
    rcases two hx rfl with a | a <;> rcases two hy e.symm with b | b <;> rw [a, b]
    · rw [C141_special.2.2.1, C141_special.2.2.2]
    · rw [C141_special.2.2.1, C141_special.2.2.2]

example : cosh 0x3ff8000000000000 = cosh 0xbff8000000000000 := C141_even (by norm_num) (by norm_num) (by decide) (by norm_num)

/-- **Not numbers.** The result for a `NaN` is a `NaN`. -/
theorem C141_nan {x : Nat} (hx : x < 2 ^ 64) (h : IsNaN x) : IsNaN (cosh x) := by
  rw [Libm.nan_iff] at h
  have m : mag x < 2 ^ 63 := mag_lt x
  have hinf : inf = 0x7ff00000 * 2 ^ 32 := rfl
  have n : isNaN x = true := by unfold isNaN; exact decide_eq_true h
  unfold cosh
  simp only []
  rw [hi31 hx, if_pos (by omega)]
  unfold mul
  rw [if_pos n, Libm.nan_iff]
  unfold quiet
  split
  · exact h
  · unfold mag at *; omega

example : IsNaN (cosh 0x7ff0000000000001) := C141_nan (by norm_num) (by decide)

end Pok.Cosh
