import Verif.Lemmas.Rel
import Verif.Model.Hypot
/-!
# The sum of squares

The errors of the two formulas of `hypot`: all terms are positive, so that the relative errors do not grow.
-/
namespace Pok.Hypot
open Pok.Err Pok.Float Pok.Fpu Pok.Rel

/-- A double within a relative and an absolute error. -/
def Rl (a : Nat) (X c t : ℝ) : Prop := Near a X (c * |X| + t)

theorem Rl.self {a : Nat} (h : a < 2 ^ 64) (f : IsFinite a) : Rl a (value a) 0 0 := by
  unfold Rl; rw [zero_mul, add_zero]; exact Near.self h f

theorem Rl.weaken {a : Nat} {X c t c' t' : ℝ} (h : Rl a X c t) (hc : c ≤ c') (ht : t ≤ t') : Rl a X c' t' :=
  Near.weaken h (add_le_add (mul_le_mul_of_nonneg_right hc (abs_nonneg _)) ht)

theorem Rl.neg {a : Nat} {X c t : ℝ} (h : Rl a X c t) : Rl (negate a) (-X) c t := by
  unfold Rl; rw [abs_neg]; exact Near.neg h

/-- The sum of two numbers of the same sign. -/
theorem Rl.add {a b : Nat} {X Y c t s : ℝ} (c' t' : ℝ) (ha : Rl a X c t) (hb : Rl b Y c s) (hs : 0 ≤ X * Y) (hc : c + (1 + c) / 2 ^ 53 ≤ c')
    (ht : (t + s) * (1 + 1 / 2 ^ 53) ≤ t') (c0 : 0 ≤ c) (c1 : c ≤ 1) (big : |X + Y| ≤ 2 ^ 1015) (small : t + s ≤ 1) : Rl (Fpu.add a b) (X + Y) c' t' := by
  have e : |X + Y| = |X| + |Y| := abs_add_eq_add_abs_iff X Y |>.2 (by
    rcases mul_nonneg_iff.1 hs with h | h
    · exact Or.inl h
    · exact Or.inr h)
  have d : |(value a : ℝ) + value b - (X + Y)| ≤ c * |X + Y| + (t + s) := by
    have := abs_add_le ((value a : ℝ) - X) ((value b : ℝ) - Y)
    rw [show (value a : ℝ) - X + ((value b : ℝ) - Y) = (value a : ℝ) + value b - (X + Y) by ring] at this
    have h1 := ha.2.2
    have h2 := hb.2.2
    rw [e]; linarith
  have m : |(value a : ℝ) + value b| ≤ (1 + c) * |X + Y| + (t + s) := by
    have := abs_add_le ((value a : ℝ) + value b - (X + Y)) (X + Y)
    rw [sub_add_cancel] at this; linarith
  have p := abs_nonneg (X + Y)
  have lim : (1 + c) * |X + Y| + (t + s) ≤ 2 ^ 1020 := by
    have : (2 : ℝ) ^ 1020 = 2 ^ 1015 * 32 := by rw [show 1020 = 1015 + 5 from rfl, pow_add]; norm_num
    have one : (1 : ℝ) ≤ 2 ^ 1015 := one_le_pow₀ (by norm_num)
    rw [this]
    generalize (2 : ℝ) ^ 1015 = P at *
    have := mul_le_mul (show 1 + c ≤ 2 by linarith) big p (by norm_num)
    linarith only [this, small, one]
  have n := add_rel ha.1 hb.1 ha.2.1 hb.2.1 (le_trans m lim)
  refine ⟨n.1, n.2.1, ?_⟩
  have := abs_add_le ((value (Fpu.add a b) : ℝ) - ((value a : ℝ) + value b)) ((value a : ℝ) + value b - (X + Y))
  rw [sub_add_sub_cancel] at this
  have h3 := n.2.2
  have h4 : |(value a : ℝ) + value b| / 2 ^ 53 ≤ ((1 + c) * |X + Y| + (t + s)) / 2 ^ 53 := div_le_div_of_nonneg_right m (by positivity)
  refine le_trans this (le_trans (add_le_add h3 d) (le_trans (add_le_add h4 le_rfl) ?_))
  have k := mul_le_mul_of_nonneg_right hc p
  generalize |X + Y| = V at *
  have : ((1 + c) * V + (t + s)) / 2 ^ 53 + (c * V + (t + s)) = (c + (1 + c) / 2 ^ 53) * V + (t + s) * (1 + 1 / 2 ^ 53) := by ring
  rw [this]; linarith

theorem Rl.sub {a b : Nat} {X Y c t s : ℝ} (c' t' : ℝ) (ha : Rl a X c t) (hb : Rl b Y c s) (hs : X * Y ≤ 0) (hc : c + (1 + c) / 2 ^ 53 ≤ c')
    (ht : (t + s) * (1 + 1 / 2 ^ 53) ≤ t') (c0 : 0 ≤ c) (c1 : c ≤ 1) (big : |X - Y| ≤ 2 ^ 1015) (small : t + s ≤ 1) : Rl (Fpu.sub a b) (X - Y) c' t' := by
  rw [sub_eq hb.2.1, sub_eq_add_neg]
  exact ha.add c' t' hb.neg (by rw [mul_neg]; linarith) hc ht c0 c1 (by rwa [← sub_eq_add_neg]) small

/-- The difference of two doubles. -/
theorem Rl.diff {a b : Nat} (ha : a < 2 ^ 64) (hb : b < 2 ^ 64) (fa : IsFinite a) (fb : IsFinite b) (h : |(value a : ℝ) - value b| ≤ 2 ^ 1015) :
    Rl (Fpu.sub a b) ((value a : ℝ) - value b) (1 / 2 ^ 53) 0 := by
  have nb := (Near.self hb fb).neg
  have e := value_negate hb fb
  have n := add_rel ha nb.1 fa nb.2.1 (by
    rw [e, ← sub_eq_add_neg]; exact le_trans h (pow_le_pow_right₀ (by norm_num) (by norm_num)))
  rw [e, ← sub_eq_add_neg, ← sub_eq fb] at n
  unfold Rl
  refine n.weaken (le_of_eq ?_)
  ring

theorem Rl.mul {a b : Nat} {X Y c d : ℝ} (c' : ℝ) (ha : Rl a X c 0) (hb : Rl b Y d 0) (hc : (1 + c) * (1 + d) * (1 + 1 / 2 ^ 53) - 1 ≤ c')
    (c0 : 0 ≤ c) (c1 : c ≤ 1) (d0 : 0 ≤ d) (d1 : d ≤ 1) (big : |X * Y| ≤ 2 ^ 1015) : Rl (Fpu.mul a b) (X * Y) c' (1 / 2 ^ 1075) := by
  have h1 := ha.2.2
  have h2 := hb.2.2
  rw [add_zero] at h1 h2
  have ma : |(value a : ℝ)| ≤ (1 + c) * |X| := by
    have := abs_add_le ((value a : ℝ) - X) X
    rw [sub_add_cancel] at this; linarith
  have p1 := abs_nonneg X
  have p2 := abs_nonneg Y
  have dd : |(value a : ℝ) * value b - X * Y| ≤ ((1 + c) * (1 + d) - 1) * |X * Y| := by
    rw [show (value a : ℝ) * value b - X * Y = (value a : ℝ) * ((value b : ℝ) - Y) + ((value a : ℝ) - X) * Y by ring]
    refine le_trans (abs_add_le _ _) ?_
    rw [abs_mul, abs_mul, abs_mul]
    have a1 := mul_le_mul ma h2 (abs_nonneg _) (mul_nonneg (by linarith) p1)
    have a2 := mul_le_mul_of_nonneg_right h1 p2
    refine le_trans (add_le_add a1 a2) (le_of_eq ?_)
    ring
  have m : |(value a : ℝ) * value b| ≤ (1 + c) * (1 + d) * |X * Y| := by
    have := abs_add_le ((value a : ℝ) * value b - X * Y) (X * Y)
    rw [sub_add_cancel] at this; linarith
  have p := abs_nonneg (X * Y)
  have lim : (1 + c) * (1 + d) * |X * Y| ≤ 2 ^ 1020 := by
    have : (2 : ℝ) ^ 1020 = 32 * 2 ^ 1015 := by rw [show (32 : ℝ) = 2 ^ 5 by norm_num, ← pow_add]
    rw [this]
    exact mul_le_mul (by nlinarith) big p (by norm_num)
  have n := mul_rel ha.1 hb.1 ha.2.1 hb.2.1 (le_trans m lim)
  refine ⟨n.1, n.2.1, ?_⟩
  have := abs_add_le ((value (Fpu.mul a b) : ℝ) - ((value a : ℝ) * value b)) ((value a : ℝ) * value b - X * Y)
  rw [sub_add_sub_cancel] at this
  have h3 := n.2.2
  have h4 : |(value a : ℝ) * value b| / 2 ^ 53 ≤ (1 + c) * (1 + d) * |X * Y| / 2 ^ 53 := div_le_div_of_nonneg_right m (by positivity)
  refine le_trans this (le_trans (add_le_add h3 dd) ?_)
  have k := mul_le_mul_of_nonneg_right hc p
  generalize (1 : ℝ) / 2 ^ 1075 = η at *
  generalize |X * Y| = V at *
  linarith

/-! ## The square root -/

theorem root {p : Nat} {S : ℝ} (h : Rl p S (503 / 100 / 2 ^ 53) (6 / 2 ^ 1075)) (lo : 1 / 2 ^ 1000 ≤ S) :
    Near (Libm.sqrt p) (Real.sqrt S) (353 / 100 * Real.sqrt S / 2 ^ 53) := by
  have S0 : 0 < S := lt_of_lt_of_le (by positivity) lo
  obtain ⟨h1, h2, h3⟩ := h
  have tl : (6 : ℝ) / 2 ^ 1075 ≤ S / 2 ^ 70 := by
    have : (6 : ℝ) / 2 ^ 1075 ≤ 1 / 2 ^ 1000 / 2 ^ 70 := by
      rw [div_div, ← pow_add, div_le_div_iff₀ (by positivity) (by positivity), one_mul, show (2 : ℝ) ^ 1075 = 2 ^ 5 * 2 ^ (1000 + 70) by rw [← pow_add]]
      exact mul_le_mul_of_nonneg_right (by norm_num) (by positivity)
    exact le_trans this (div_le_div_of_nonneg_right lo (by positivity))
  rw [abs_of_pos S0] at h3
  generalize (6 : ℝ) / 2 ^ 1075 = τ at *
  have h4 := abs_le.1 h3
  have F0 : 0 < (value p : ℝ) := by
    have h5 := h4.1
    norm_num at h5 tl
    linarith
  have n := sqrt_rel h1 h2 F0
  have R0 := Real.sqrt_nonneg S
  have RR := Real.mul_self_sqrt S0.le
  have eta : (1 : ℝ) / 2 ^ 1075 ≤ Real.sqrt S / 2 ^ 70 := by
    have a : 1 / 2 ^ 500 ≤ Real.sqrt S := by
      apply Real.le_sqrt_of_sq_le
      rw [div_pow, one_pow, ← pow_mul]; exact lo
    refine le_trans ?_ (div_le_div_of_nonneg_right a (by positivity))
    rw [div_div, ← pow_add]
    exact one_div_le_one_div_of_le (by positivity) (pow_le_pow_right₀ (by norm_num) (by norm_num))
  generalize (1 : ℝ) / 2 ^ 1075 = η at *
  generalize hR : Real.sqrt S = R at *
  have up : Real.sqrt (value p : ℝ) ≤ (1 + 252 / 100 / 2 ^ 53) * R := by
    rw [Real.sqrt_le_left (by positivity), mul_pow, pow_two R, RR]
    have : ((1 : ℝ) + 252 / 100 / 2 ^ 53) ^ 2 ≥ 1 + 504 / 100 / 2 ^ 53 := by norm_num
    have := mul_le_mul_of_nonneg_right this S0.le
    generalize ((1 : ℝ) + 252 / 100 / 2 ^ 53) ^ 2 = K at *
    norm_num at *; linarith
  have dn : (1 - 252 / 100 / 2 ^ 53) * R ≤ Real.sqrt (value p : ℝ) := by
    apply Real.le_sqrt_of_sq_le
    rw [mul_pow, pow_two R, RR]
    have : ((1 : ℝ) - 252 / 100 / 2 ^ 53) ^ 2 ≤ 1 - 5035 / 1000 / 2 ^ 53 := by norm_num
    have := mul_le_mul_of_nonneg_right this S0.le
    generalize ((1 : ℝ) - 252 / 100 / 2 ^ 53) ^ 2 = K at *
    norm_num at *; linarith
  have m := n.move (w := R) (f := 252 / 100 / 2 ^ 53 * R) (by rw [abs_le]; constructor <;> linarith)
  refine m.weaken ?_
  generalize Real.sqrt (value p : ℝ) = Q at *
  norm_num at *; linarith

/-! ## The two formulas -/

theorem sq_bound {A B : ℝ} (a0 : 0 ≤ A) (b0 : 0 ≤ B) (a : A ≤ 2 ^ 501) (b : B ≤ 2 ^ 502) : A ^ 2 + B ^ 2 ≤ 2 ^ 1005 := by
  have : (2 : ℝ) ^ 1005 = 8 * (2 ^ 501) ^ 2 := by rw [← pow_mul, show (8 : ℝ) = 2 ^ 3 by norm_num, ← pow_add]
  have e : (2 : ℝ) ^ 502 = 2 * 2 ^ 501 := by rw [show (502 : ℕ) = 501 + 1 from rfl, pow_succ, mul_comm]
  rw [this]
  rw [e] at b
  generalize (2 : ℝ) ^ 501 = P at *
  have h1 := pow_le_pow_left₀ a0 a 2
  have h2 := pow_le_pow_left₀ b0 b 2
  rw [mul_pow] at h2
  have := sq_nonneg P
  linarith only [this, h1, h2]

theorem lim {x : ℝ} (h : |x| ≤ 2 ^ 1005 * 8) : |x| ≤ 2 ^ 1015 := le_trans h (by
  rw [show (2 : ℝ) ^ 1015 = 2 ^ 1005 * 2 ^ 10 by rw [← pow_add]]
  exact mul_le_mul_of_nonneg_left (by norm_num) (by positivity))

theorem eta_small : 6 / 2 ^ 1075 ≤ (1 : ℝ) := by
  rw [div_le_one (by positivity), show (2 : ℝ) ^ 1075 = 2 ^ 3 * 2 ^ 1072 by rw [← pow_add]]
  have : (1 : ℝ) ≤ 2 ^ 1072 := one_le_pow₀ (by norm_num)
  generalize (2 : ℝ) ^ 1072 = P at *
  linarith

theorem one_le : (1 : ℝ) ≤ 2 ^ 1005 := one_le_pow₀ (by norm_num)

theorem first {a b t : Nat} (ha : a < 2 ^ 64) (hb : b < 2 ^ 64) (ht : t < 2 ^ 64) (fa : IsFinite a) (fb : IsFinite b) (ft : IsFinite t)
    {A B T : ℝ} (vA : (value a : ℝ) = A) (vB : (value b : ℝ) = B) (vT : (value t : ℝ) = T) (T0 : 0 ≤ T) (TA : T ≤ A) (B0 : 0 ≤ B) (BA : B ≤ 2 ^ 502) (A1 : A ≤ 2 ^ 501) :
    Rl (sub (mul t t) (sub (mul b (negate b)) (mul (sub a t) (add a t)))) (A ^ 2 + B ^ 2) (503 / 100 / 2 ^ 53) (6 / 2 ^ 1075) := by
  have A0 : 0 ≤ A := le_trans T0 TA
  have bd := sq_bound A0 B0 A1 BA
  have e1 := one_le
  have es := eta_small
  clear A1 BA
  rw [show (6 : ℝ) / 2 ^ 1075 = 6 * (1 / 2 ^ 1075) by rw [mul_one_div]] at es ⊢
  have ep : (0 : ℝ) ≤ 1 / 2 ^ 1075 := by positivity
  have l := @lim
  have rm := @Rl.mul
  generalize (1 : ℝ) / 2 ^ 1075 = η at *
  generalize (2 : ℝ) ^ 1005 = P at *
  have AA : A ≤ P * 8 := by
    have := sq_nonneg (A - 1)
    have := sq_nonneg B
    nlinarith
  have ra := Rl.self ha fa
  have rb := Rl.self hb fb
  have rt := Rl.self ht ft
  rw [vA] at ra; rw [vB] at rb; rw [vT] at rt
  have rn := rb.neg
  have d := Rl.diff ha ht fa ft (by
    rw [vA, vT]; apply l; rw [abs_of_nonneg (by linarith)]; linarith)
  rw [vA, vT] at d
  have s := ra.add (1 / 2 ^ 53) 0 rt (mul_nonneg A0 T0) (by norm_num) (by norm_num) le_rfl (by norm_num) (by
    apply l; rw [abs_of_nonneg (by linarith)]; nlinarith) (by norm_num)
  have p1 := rm (1 / 2 ^ 53) rt rt (by norm_num) le_rfl (by norm_num) le_rfl (by norm_num) (by
    apply l; rw [abs_of_nonneg (by positivity)]; nlinarith)
  have p2 := rm (1 / 2 ^ 53) rb rn (by norm_num) le_rfl (by norm_num) le_rfl (by norm_num) (by
    apply l; rw [mul_neg, abs_neg, abs_of_nonneg (by positivity)]; nlinarith)
  have p3 := rm (3001 / 1000 / 2 ^ 53) d s (by norm_num) (by norm_num) (by norm_num) (by norm_num) (by norm_num) (by
    apply l; rw [abs_of_nonneg (mul_nonneg (by linarith) (by linarith))]; nlinarith)
  have q := (p2.weaken (c' := 3001 / 1000 / 2 ^ 53) (by norm_num) le_rfl).sub (401 / 100 / 2 ^ 53) (3 * η) p3 (by
    rw [mul_neg, neg_mul, neg_nonpos]; exact mul_nonneg (mul_nonneg B0 B0) (mul_nonneg (by linarith) (by linarith))) (by norm_num) (by norm_num; linarith) (by norm_num) (by norm_num) (by
    apply l; rw [show B * -B - (A - T) * (A + T) = -(A ^ 2 + B ^ 2 - T * T) by ring, abs_neg, abs_of_nonneg (by nlinarith)]; nlinarith) (by linarith)
  have f := (p1.weaken (c' := 401 / 100 / 2 ^ 53) (by norm_num) le_rfl).sub (502 / 100 / 2 ^ 53) (6 * η) q (by
    have := mul_nonneg (mul_nonneg T0 T0) (add_nonneg (mul_nonneg B0 B0) (mul_nonneg (show 0 ≤ A - T by linarith) (show 0 ≤ A + T by linarith)))
    linarith) (by norm_num) (by norm_num; linarith) (by norm_num) (by norm_num) (by
    apply l; rw [show T * T - (B * -B - (A - T) * (A + T)) = A ^ 2 + B ^ 2 by ring, abs_of_nonneg (by positivity)]; linarith) (by linarith)
  rw [show T * T - (B * -B - (A - T) * (A + T)) = A ^ 2 + B ^ 2 by ring] at f
  exact f.weaken (by norm_num) le_rfl

theorem second {a b t y a2 : Nat} (ha : a < 2 ^ 64) (hb : b < 2 ^ 64) (ht : t < 2 ^ 64) (hy : y < 2 ^ 64) (h2 : a2 < 2 ^ 64) (fa : IsFinite a) (fb : IsFinite b) (ft : IsFinite t) (fy : IsFinite y) (f2 : IsFinite a2)
    {A B T Y : ℝ} (vA : (value a : ℝ) = A) (vB : (value b : ℝ) = B) (vT : (value t : ℝ) = T) (vY : (value y : ℝ) = Y) (v2 : (value a2 : ℝ) = 2 * A)
    (T0 : 0 ≤ T) (TA : T ≤ 2 * A) (Y0 : 0 ≤ Y) (YB : Y ≤ B) (BA : B ≤ 2 ^ 502) (A1 : A ≤ 2 ^ 501) :
    Rl (sub (mul t y) (sub (mul (sub a b) (negate (sub a b))) (add (mul t (sub b y)) (mul (sub a2 t) b)))) (A ^ 2 + B ^ 2) (503 / 100 / 2 ^ 53) (6 / 2 ^ 1075) := by
  have A0 : 0 ≤ A := by linarith
  have B0 : 0 ≤ B := le_trans Y0 YB
  have bd := sq_bound A0 B0 A1 BA
  have e1 := one_le
  have es := eta_small
  clear A1 BA
  rw [show (6 : ℝ) / 2 ^ 1075 = 6 * (1 / 2 ^ 1075) by rw [mul_one_div]] at es ⊢
  have ep : (0 : ℝ) ≤ 1 / 2 ^ 1075 := by positivity
  have l := @lim
  have rm := @Rl.mul
  generalize (1 : ℝ) / 2 ^ 1075 = η at *
  generalize (2 : ℝ) ^ 1005 = P at *
  have sB := sq_nonneg B
  have sA := sq_nonneg A
  have sAB := sq_nonneg (A - B)
  have AA : A ≤ P * 2 := by
    have := sq_nonneg (A - 1)
    nlinarith
  have BB : B ≤ P * 2 := by
    have := sq_nonneg (B - 1)
    nlinarith
  have rb := Rl.self hb fb
  have rt := Rl.self ht ft
  have ry := Rl.self hy fy
  rw [vB] at rb; rw [vT] at rt; rw [vY] at ry
  have w := Rl.diff ha hb fa fb (by rw [vA, vB]; apply l; rw [abs_le]; constructor <;> linarith)
  rw [vA, vB] at w
  have y2 := Rl.diff hb hy fb fy (by rw [vY, vB]; apply l; rw [abs_le]; constructor <;> linarith)
  rw [vY, vB] at y2
  have t2 := Rl.diff h2 ht f2 ft (by rw [v2, vT]; apply l; rw [abs_le]; constructor <;> linarith)
  rw [v2, vT] at t2
  have TB : T * B ≤ 2 * P := by
    have := mul_le_mul_of_nonneg_right TA B0
    have := sq_nonneg (A - B)
    linarith
  have TB0 := mul_nonneg T0 B0
  have TY0 := mul_nonneg T0 Y0
  have TD0 := mul_nonneg T0 (show 0 ≤ B - Y by linarith)
  have DB0 := mul_nonneg (show 0 ≤ 2 * A - T by linarith) B0
  have m1 := rm (1 / 2 ^ 53) rt ry (by norm_num) le_rfl (by norm_num) le_rfl (by norm_num) (by
    apply l; rw [abs_of_nonneg TY0]; linarith)
  have m2 := rm (3001 / 1000 / 2 ^ 53) w w.neg (by norm_num) (by norm_num) (by norm_num) (by norm_num) (by norm_num) (by
    apply l; rw [show (A - B) * -(A - B) = -(A - B) ^ 2 by ring, abs_neg, abs_of_nonneg sAB]; linarith [mul_nonneg A0 B0])
  have m3 := rm (2001 / 1000 / 2 ^ 53) rt y2 (by norm_num) (by norm_num) (by norm_num) (by norm_num) (by norm_num) (by
    apply l; rw [abs_of_nonneg TD0]; linarith)
  have m4 := rm (2001 / 1000 / 2 ^ 53) t2 rb (by norm_num) (by norm_num) (by norm_num) (by norm_num) (by norm_num) (by
    apply l; rw [abs_of_nonneg DB0]; linarith)
  have s := m3.add (3002 / 1000 / 2 ^ 53) (2001 / 1000 * η) m4 (mul_nonneg TD0 DB0) (by norm_num) (by norm_num; linarith) (by norm_num) (by norm_num) (by
    apply l; rw [abs_of_nonneg (add_nonneg TD0 DB0)]; linarith) (by linarith)
  have q := (m2.weaken (c' := 3002 / 1000 / 2 ^ 53) (by norm_num) le_rfl).sub (401 / 100 / 2 ^ 53) (4 * η) s (by
    have := mul_nonneg sAB (add_nonneg TD0 DB0); linarith) (by norm_num) (by norm_num; linarith) (by norm_num) (by norm_num) (by
    apply l; rw [show (A - B) * -(A - B) - (T * (B - Y) + (2 * A - T) * B) = -((A - B) ^ 2 + (T * (B - Y) + (2 * A - T) * B)) by ring, abs_neg,
      abs_of_nonneg (add_nonneg sAB (add_nonneg TD0 DB0))]; linarith) (by linarith)
  have f := (m1.weaken (c' := 401 / 100 / 2 ^ 53) (by norm_num) le_rfl).sub (502 / 100 / 2 ^ 53) (6 * η) q (by
    have := mul_nonneg TY0 (add_nonneg sAB (add_nonneg TD0 DB0)); linarith) (by norm_num) (by norm_num; linarith) (by norm_num) (by norm_num) (by
    apply l; rw [show T * Y - ((A - B) * -(A - B) - (T * (B - Y) + (2 * A - T) * B)) = A ^ 2 + B ^ 2 by ring, abs_of_nonneg (by positivity)]; linarith) (by linarith)
  rw [show T * Y - ((A - B) * -(A - B) - (T * (B - Y) + (2 * A - T) * B)) = A ^ 2 + B ^ 2 by ring] at f
  exact f.weaken (by norm_num) le_rfl

/-! ## Exact operations -/

theorem val {m : Nat} (h : m < 2 ^ 63) : (value m : ℝ) = (units m : ℝ) / 2 ^ 1074 := by
  have := value_sm (s := 0) (by omega) h
  rw [Nat.zero_mul, Nat.zero_add, pow_zero, one_mul] at this
  rw [this]; push_cast; rfl

theorem units_form (m : Nat) : ∃ k e, k < 2 ^ 53 ∧ units m = k * 2 ^ e := by
  obtain ⟨E, F, hF, rfl⟩ : ∃ E F, F < 2 ^ 52 ∧ m = E * 2 ^ 52 + F := ⟨m / 2 ^ 52, m % 2 ^ 52, by omega, by omega⟩
  rcases Nat.eq_zero_or_pos E with h | h
  · subst h
    exact ⟨F, 0, by omega, by rw [Nat.zero_mul, Nat.zero_add, units_small hF]; omega⟩
  · exact ⟨2 ^ 52 + F, E - 1, by omega, units_make h hF.le⟩

theorem units_add {m : Nat} (h : 2 ^ 52 ≤ m) (j : Nat) : units (m + j * 2 ^ 52) = 2 ^ j * units m := by
  obtain ⟨E, F, hF, rfl⟩ : ∃ E F, F < 2 ^ 52 ∧ m = E * 2 ^ 52 + F := ⟨m / 2 ^ 52, m % 2 ^ 52, by omega, by omega⟩
  have hE : 1 ≤ E := by by_contra c; have : E = 0 := by omega
                        subst this; omega
  rw [show E * 2 ^ 52 + F + j * 2 ^ 52 = (E + j) * 2 ^ 52 + F by ring, units_make (by omega) hF.le, units_make hE hF.le,
    show E + j - 1 = j + (E - 1) by omega, Nat.pow_add]
  ring

theorem val_add {m : Nat} (h : 2 ^ 52 ≤ m) {j : Nat} (l : m + j * 2 ^ 52 < 2 ^ 63) : (value (m + j * 2 ^ 52) : ℝ) = 2 ^ j * value m := by
  rw [val l, val (by omega), units_add h]; push_cast; rw [mul_div_assoc]

/-- A double multiplied by a power of two is a double, if it is not too large. -/
theorem scale_up {a : Nat} (ha : a < 2 ^ 63) (j : Nat) (h : (value a : ℝ) * 2 ^ j < 2 ^ 1024) : ∃ d, d < 2 ^ 64 ∧ IsFinite d ∧ (value d : ℝ) = value a * 2 ^ j := by
  obtain ⟨k, e, hk, hu⟩ := units_form a
  obtain ⟨m, hm⟩ := exists_units (a := k) (b := e + j) hk
  rw [val ha, hu] at h ⊢
  have hl := inf_lt
  have hi : m < inf := by
    rw [← units_lt, units_inf, hm]
    push_cast at h
    rw [div_mul_eq_mul_div, div_lt_iff₀ (by positivity), ← pow_add] at h
    have : k * 2 ^ e * 2 ^ j < 2 ^ (1024 + 1074) := by exact_mod_cast h
    rw [Nat.pow_add 2 e j, ← Nat.mul_assoc, ← Nat.pow_add]; exact this
  refine ⟨m, by omega, by rw [finite_iff, show mag m = m by unfold mag; omega]; exact hi, ?_⟩
  rw [val (by omega), hm]; push_cast; rw [pow_add]; ring

theorem exact_of {X : ℝ} {q : ℚ} {s r d : Nat} (h : Rounded q s r) (hq : (q : ℝ) = X) (hd : d < 2 ^ 64) (fd : IsFinite d) (e : (value d : ℝ) = X) (lim : |X| < (2 ^ 54 - 1) * 2 ^ 970) :
    r < 2 ^ 64 ∧ IsFinite r ∧ (value r : ℝ) = X := by
  obtain ⟨h1, _, h3⟩ := h
  rw [if_pos (by
    rw [← hq] at lim
    have : ((|q| : ℚ) : ℝ) < (((2 ^ 54 - 1) * 2 ^ 970 : ℚ) : ℝ) := by push_cast; exact lim
    exact Rat.cast_lt.1 this)] at h3
  have : value d = q := by rw [← hq] at e; exact_mod_cast e
  exact ⟨h1, h3.1, by rw [nearest_exact h3 hd fd this, hq]⟩

theorem below {X : ℝ} (h : |X| ≤ 2 ^ 1023) : |X| < (2 ^ 54 - 1) * 2 ^ 970 := by
  refine lt_of_le_of_lt h ?_
  rw [show (2 : ℝ) ^ 1023 = 2 ^ 53 * 2 ^ 970 by rw [← pow_add]]
  exact mul_lt_mul_of_pos_right (by norm_num) (by positivity)

theorem add_self {a : Nat} (ha : a < 2 ^ 63) (fa : IsFinite a) (A0 : 0 < (value a : ℝ)) (A1 : (value a : ℝ) ≤ 2 ^ 501) :
    add a a < 2 ^ 64 ∧ IsFinite (add a a) ∧ (value (add a a) : ℝ) = 2 * value a := by
  have b : (value a : ℝ) * 2 ^ 1 ≤ 2 ^ 1023 := by
    rw [pow_one, show (2 : ℝ) ^ 1023 = 2 ^ 1022 * 2 by rw [← pow_succ]]
    exact mul_le_mul_of_nonneg_right (le_trans A1 (pow_le_pow_right₀ (by norm_num) (by norm_num))) (by norm_num)
  obtain ⟨d, hd, fd, vd⟩ := scale_up ha 1 (lt_of_le_of_lt b (pow_lt_pow_right₀ (by norm_num) (by norm_num)))
  have r := Libm.fpu_add (a := a) (b := a) (by omega) (by omega) fa fa (by
    intro h
    have : ((value a + value a : ℚ) : ℝ) = 0 := by rw [h]; simp
    push_cast at this; linarith)
  refine exact_of r (by push_cast; ring) hd fd (by rw [vd, pow_one, mul_comm]) (below ?_)
  rw [pow_one] at b
  rw [abs_of_pos (by linarith), mul_comm]; exact b

theorem finite_of {m : Nat} (h : m < inf) : m < 2 ^ 63 ∧ IsFinite m := by
  have := inf_lt
  exact ⟨by omega, by rw [finite_iff, show mag m = m by unfold mag; omega]; exact h⟩

theorem val_mono {m n : Nat} (h : m ≤ n) (l : n < 2 ^ 63) : (value m : ℝ) ≤ value n := by
  rw [val (by omega), val l]
  exact div_le_div_of_nonneg_right (by exact_mod_cast units_le.2 h) (by positivity)

theorem val_nonneg {m : Nat} (l : m < 2 ^ 63) : 0 ≤ (value m : ℝ) := by rw [val l]; positivity

/-- The words of the parts may be any that are not too large. -/
theorem medium_near {a b ha hb : Nat} (la : a < 2 ^ 63) (lb : b < 2 ^ 63) (fa : IsFinite a) (fb : IsFinite b) {A B : ℝ} (vA : (value a : ℝ) = A) (vB : (value b : ℝ) = B)
    (h1 : ha < 0x7fd00000) (h2 : hb < 0x7fd00000) (T : (value (Libm.setHi 0 ha) : ℝ) ≤ A) (T' : (value (Libm.setHi 0 (ha + 0x00100000)) : ℝ) ≤ 2 * A) (Y : (value (Libm.setHi 0 hb) : ℝ) ≤ B)
    (A0 : 1 / 2 ^ 500 ≤ A) (A1 : A ≤ 2 ^ 501) (B1 : B ≤ 2 ^ 502) : Near (medium a b ha hb) (Real.sqrt (A ^ 2 + B ^ 2)) (353 / 100 * Real.sqrt (A ^ 2 + B ^ 2) / 2 ^ 53) := by
  have Ap : 0 < A := lt_of_lt_of_le (by positivity) A0
  have fw : ∀ {h}, h < 0x7ff00000 → Libm.setHi 0 h < 2 ^ 63 ∧ IsFinite (Libm.setHi 0 h) := by
    intro h c; apply finite_of; unfold Libm.setHi Libm.insert Libm.lo inf; omega
  have lo : 1 / 2 ^ 1000 ≤ A ^ 2 + B ^ 2 := by
    have : (1 / 2 ^ 500) ^ 2 ≤ A ^ 2 := pow_le_pow_left₀ (by positivity) A0 2
    rw [div_pow, one_pow, ← pow_mul] at this
    exact le_trans this (by have := sq_nonneg B; linarith only [this])
  obtain ⟨w1, w2⟩ := fw (h := ha) (by omega)
  obtain ⟨w3, w4⟩ := fw (h := ha + 0x00100000) (by omega)
  obtain ⟨w5, w6⟩ := fw (h := hb) (by omega)
  have B0 : 0 ≤ B := by rw [← vB]; exact val_nonneg lb
  unfold medium
  simp only []
  split
  · exact root (first (by omega) (by omega) (by omega) fa fb w2 vA vB rfl (val_nonneg w1) T B0 B1 A1) lo
  · obtain ⟨d1, d2, d3⟩ := add_self la fa (by rw [vA]; exact Ap) (by rw [vA]; exact A1)
    exact root (second (by omega) (by omega) (by omega) (by omega) d1 fa fb w4 w6 d2 vA vB rfl rfl (by rw [d3, vA]) (val_nonneg w3) T' (val_nonneg w5) Y B1 A1) lo

/-- The words of the numbers themselves. -/
theorem medium_self {a b : Nat} (na : 2 ^ 52 ≤ a) (la : a < 0x7fd00000 * 2 ^ 32) (lb : b < 0x7fd00000 * 2 ^ 32) {A B : ℝ} (vA : (value a : ℝ) = A) (vB : (value b : ℝ) = B)
    (A0 : 1 / 2 ^ 500 ≤ A) (A1 : A ≤ 2 ^ 501) (B1 : B ≤ 2 ^ 502) :
    Near (medium a b (a / 2 ^ 32) (b / 2 ^ 32)) (Real.sqrt (A ^ 2 + B ^ 2)) (353 / 100 * Real.sqrt (A ^ 2 + B ^ 2) / 2 ^ 53) := by
  have e : ∀ h, Libm.setHi 0 h = h * 2 ^ 32 := fun h => by unfold Libm.setHi Libm.insert Libm.lo; omega
  obtain ⟨a1, a2⟩ := finite_of (m := a) (by unfold inf; omega)
  obtain ⟨b1, b2⟩ := finite_of (m := b) (by unfold inf; omega)
  refine medium_near a1 b1 a2 b2 vA vB (by omega) (by omega) ?_ ?_ ?_ A0 A1 B1
  · rw [← vA, e]; exact val_mono (by omega) a1
  · have := val_add na (j := 1) (by omega)
    rw [pow_one, vA] at this
    rw [← this, e]
    refine val_mono ?_ (Nat.lt_of_lt_of_le (Nat.add_lt_add_right la _) (by norm_num))
    rw [Nat.add_mul]
    exact Nat.add_le_add (Nat.div_mul_le_self a (2 ^ 32)) (by norm_num)
  · rw [← vB, e]; exact val_mono (by omega) b1

end Pok.Hypot
