import Verif.Lemmas.Expm1Red
import Verif.Props.Tanh
/-!
# C145: the exponential minus one

The specification is Mathlib's `Real.exp`, and the value of a double of `Verif.Spec.Float`.
-/
namespace Pok.Cosh
open Pok.Err Pok.Float Pok.Fpu Pok.Poly Pok.Hypot

/-- Numbers of the same sign and value are the same. -/
theorem bits_eq {r x : Nat} (hr : r < 2 ^ 64) (hx : x < 2 ^ 64) (s : sign r = sign x) (v : (value r : ℝ) = value x) : r = x := by
  have a := value_mag hr
  have b := value_mag hx
  rw [v, ← b, val (mag_lt _), val (mag_lt _)] at a
  have w' := (div_left_inj' (by positivity)).1 a
  have w'' : units (mag r) = units (mag x) := by exact_mod_cast w'
  have mm := units_strictMono.injective w''
  rw [self_eq hr, self_eq hx, s, mm]

/-- The rounded sum is finite below the limit. -/
theorem finite_of {q : ℚ} {s r : Nat} (h : Rounded q s r) (lim : |(q : ℝ)| < (2 ^ 54 - 1) * 2 ^ 970) : Nearest q r := by
  have h3 := h.2.2
  rw [if_pos (by
    have : ((|q| : ℚ) : ℝ) < (((2 ^ 54 - 1) * 2 ^ 970 : ℚ) : ℝ) := by push_cast; exact lim
    exact Rat.cast_lt.1 this)] at h3
  exact h3

theorem sub_zero_eq {x : Nat} (hx : x < 2 ^ 64) (fx : IsFinite x) (b : |(value x : ℝ)| ≤ 1) : sub x 0 = x := by
  rw [sub_eq (by decide), show negate 0 = 2 ^ 63 by decide]
  have v0 : value (2 ^ 63) = 0 := by unfold value sign expo frac; norm_num
  by_cases z : value x = 0
  · have m : mag x = 0 := by
      have a := value_mag hx
      rw [z, Rat.cast_zero, abs_zero, val (mag_lt _)] at a
      have a' := (div_eq_zero_iff.1 a).resolve_right (by positivity)
      have : units (mag x) = 0 := by exact_mod_cast a'
      by_contra c
      have := units_strictMono (show 0 < mag x by omega)
      omega
    have : x = 0 ∨ x = 2 ^ 63 := by unfold mag at m; omega
    rcases this with rfl | rfl <;> decide
  · have r := Libm.fpu_add (a := x) (b := 2 ^ 63) hx (by decide) fx (by decide) (by rw [v0, add_zero]; exact z)
    have big : (2 : ℝ) ^ 10 ≤ 2 ^ 1023 := pow_le_pow_right₀ (by norm_num) (by norm_num)
    obtain ⟨a, -, c⟩ := exact_of (X := value x) r (by rw [v0, add_zero]) hx fx rfl (below (le_trans b (le_trans (by norm_num) big)))
    refine bits_eq a hx ?_ c
    rw [r.2.1, v0, add_zero]
    by_cases s : x < 2 ^ 63
    · have := val_nonneg s
      have : 0 ≤ value x := by exact_mod_cast this
      rw [if_neg (not_lt.2 this)]; unfold sign; omega
    · have := Exp.value_neg (x := x) (by omega) hx
      have n := abs_nonneg (value x)
      have : value x < 0 := lt_of_le_of_ne (by linarith) z
      rw [if_pos this]; unfold sign; omega

/-- A number below `2^-54` is returned as it is. -/
theorem expm1_tiny {x : Nat} (hx : x < 2 ^ 64) (h : mag x / 2 ^ 32 < 0x3c900000) : expm1 x = x := by
  have hinf : inf = 0x7ff00000 * 2 ^ 32 := rfl
  have fx : IsFinite x := by rw [finite_iff]; omega
  have b : |(value x : ℝ)| ≤ 1 := by
    have := value_mono hx (c := 0x3c90000000000000) (by norm_num) (by omega)
    rw [show value 0x3c90000000000000 = 1 / 2 ^ 54 by unfold value sign expo frac; norm_num] at this
    have := (Rat.cast_le (K := ℝ)).2 this
    push_cast at this; exact le_trans this (by norm_num)
  have b' := abs_le.1 b
  have hv0 : 10 ≤ (value huge : ℝ) := bits_ge (c := 0x4024000000000000) (by decide) (by decide) (by
    rw [show value 0x4024000000000000 = 10 by unfold value sign expo frac; norm_num]; norm_num)
  have hv1 : (value huge : ℝ) ≤ 2 ^ 1000 := bits_lt (c := 0x7e70000000000000) (by decide) (by norm_num) (by
    rw [show value 0x7e70000000000000 = 2 ^ 1000 by unfold value sign expo frac; norm_num]; rw [Rat.cast_pow, Rat.cast_ofNat])
  have pos : (0 : ℝ) < ((value huge + value x : ℚ) : ℝ) := by push_cast; linarith only [hv0, b'.1]
  have r := Libm.fpu_add (a := huge) (b := x) (by decide) hx (by decide) fx (by
    intro c; rw [c] at pos; simp at pos)
  have big : (2 : ℝ) ^ 1000 * 2 ≤ 2 ^ 1023 := by
    rw [← pow_succ]; exact pow_le_pow_right₀ (by norm_num) (by norm_num)
  have one_le : (1 : ℝ) ≤ 2 ^ 1000 := one_le_pow₀ (by norm_num)
  have n := finite_of r (below (by rw [abs_of_pos pos]; push_cast; generalize (2 : ℝ) ^ 1023 = T at *; generalize (2 : ℝ) ^ 1000 = U at *; linarith only [hv1, b'.2, big, one_le]))
  have z : sub (add huge x) (add huge x) = 0 := by
    have := sub_self_make (sign_lt (add huge x)) ((finite_iff _).1 n.1)
    rw [← self_eq r.1] at this
    exact this
  unfold expm1
  simp only []
  rw [hi31 hx, if_neg (by omega), if_neg (by omega), if_neg (by omega), if_neg (by omega), if_pos h, z]
  exact sub_zero_eq hx fx b

/-- Large negative numbers give -1. -/
theorem expm1_minus {x : Nat} (h0 : 2 ^ 63 ≤ x) (hx : x < 2 ^ 64) (fx : IsFinite x) (h : 0x4043687A ≤ mag x / 2 ^ 32) : expm1 x = 0xBFF0000000000000 := by
  have hinf : inf = 0x7ff00000 * 2 ^ 32 := rfl
  have mi := (finite_iff x).1 fx
  have vx : value x ≤ -38 := by
    have v := Exp.value_neg h0 hx
    have := value_mono' hx (c := 0x4043687A00000000) (by norm_num) (by omega)
    have w : 38 ≤ value 0x4043687A00000000 := by unfold value sign expo frac; norm_num
    linarith
  have vt : value tiny ≤ 1 := by
    have : (value tiny : ℝ) ≤ 1 := bits_lt (c := 0x3ff0000000000000) (by decide) (by norm_num) (by
      rw [show value 0x3ff0000000000000 = 1 by unfold value sign expo frac; norm_num]; norm_num)
    exact_mod_cast this
  have vt0 : 0 ≤ value tiny := by
    have := val_nonneg (show tiny < 2 ^ 63 by decide)
    exact_mod_cast this
  have q : value x + value tiny < 0 := by linarith
  obtain ⟨r1, r2, r3⟩ := Libm.fpu_add (a := x) (b := tiny) hx (by decide) fx (by decide) q.ne
  rw [if_pos q] at r2
  have key0 : 0 < mag (add x tiny) ∧ mag (add x tiny) ≤ inf := by
    split at r3
    · refine ⟨?_, ((finite_iff _).1 r3.1).le⟩
      by_contra c
      have m0 : mag (add x tiny) = 0 := by omega
      have z : add x tiny = 2 ^ 63 := by rw [self_eq r1, r2, m0]; norm_num
      have n := r3.2.1 x hx fx
      rw [z, show value (2 ^ 63) = 0 by unfold value sign expo frac; norm_num, zero_sub, abs_neg, abs_of_neg q, sub_add_cancel_left, abs_neg, abs_of_nonneg vt0] at n
      linarith
    · rw [Libm.inf_iff] at r3
      rw [r3]; exact ⟨by decide, le_rfl⟩
  have l : lt (add x tiny) 0 = true := by
    have n1 : isNaN (add x tiny) = false := by unfold isNaN; exact decide_eq_false (by omega)
    have ng : neg (add x tiny) = true := by rw [Sinh.neg_sign]; exact decide_eq_true r2
    unfold lt key
    rw [n1, ng, show isNaN 0 = false by decide, show neg 0 = false by decide, show mag 0 = 0 by decide]
    simp only [Bool.not_false, Bool.true_and, if_true, decide_eq_true_eq, Bool.false_eq_true, if_false, Nat.cast_zero]
    omega
  have o : lt o_threshold x = false := by
    have := Exp.lt_o hx fx
    rw [decide_eq_false (by omega)] at this
    exact this
  have xs : Libm.hi x &&& 0x80000000 ≠ 0 := by
    rw [Float.and_sign (by unfold Libm.hi; omega)]; unfold Libm.hi; omega
  unfold expm1
  simp only []
  rw [hi31 hx, if_neg (by omega), if_neg (by rw [o]; simp), if_pos ⟨h, xs, l⟩]
  decide +kernel

/-- A large number minus 1. -/
theorem sub_one {s : Nat} (hs : s < 2 ^ 64) (fs : IsFinite s) (v : 2 ≤ (value s : ℝ)) :
    sub s Libm.one < 2 ^ 64 ∧ IsFinite (sub s Libm.one) ∧ |(value (sub s Libm.one) : ℝ) - (value s - 1)| ≤ 1 := by
  have hinf : inf = 0x7ff00000 * 2 ^ 32 := rfl
  rw [sub_eq (by decide)]
  have vm : value (negate Libm.one) = -1 := by
    rw [show negate Libm.one = 0xBFF0000000000000 by decide]; unfold value sign expo frac; norm_num
  have p : 0 < value s + value (negate Libm.one) := by
    have : (0 : ℝ) < ((value s + value (negate Libm.one) : ℚ) : ℝ) := by rw [vm]; push_cast; linarith only [v]
    exact_mod_cast this
  have r := Libm.fpu_add (a := s) (b := negate Libm.one) hs (by decide) fs (by decide) p.ne'
  have up : (value s : ℝ) ≤ (2 ^ 54 - 2) * 2 ^ 970 := by
    have := value_mono hs (c := 0x7fefffffffffffff) (by norm_num) (by have := (finite_iff s).1 fs; omega)
    rw [show value 0x7fefffffffffffff = (2 ^ 54 - 2) * 2 ^ 970 by
      rw [show (2 ^ 54 - 2 : ℚ) * 2 ^ 970 = (2 ^ 54 - 2) / 2 ^ 53 * 2 ^ 1023 by rw [show (2 : ℚ) ^ 1023 = 2 ^ 53 * 2 ^ 970 by rw [← pow_add]]; ring]
      unfold value sign expo frac; norm_num] at this
    have := (Rat.cast_le (K := ℝ)).2 (le_trans (le_abs_self _) this)
    simp only [Rat.cast_mul, Rat.cast_sub, Rat.cast_pow, Rat.cast_ofNat] at this
    exact this
  have n := finite_of r (by
    have : (0 : ℝ) < ((value s + value (negate Libm.one) : ℚ) : ℝ) := by exact_mod_cast p
    rw [abs_of_pos this, vm]
    push_cast
    have t : (0 : ℝ) < 2 ^ 970 := by positivity
    generalize (2 : ℝ) ^ 970 = T at *
    linarith only [up, t])
  refine ⟨r.1, n.1, ?_⟩
  have d := n.2.1 s hs fs
  rw [vm, show value s - (value s + -1) = 1 by ring, abs_one] at d
  have d' := (Rat.cast_le (K := ℝ)).2 d
  push_cast at d'
  rw [← sub_eq_add_neg] at d'
  exact d'

/-- The last steps for a large positive number. -/
theorem finish_large {Y : ℝ} {k : Int} {hi lo : Nat} (h : Exp.Red Y k hi lo) (k1 : 57 ≤ k) (k2 : k ≤ 1024) (k3 : k = 1024 → Y - 1024 * Real.log 2 ≤ -(1 / 10 ^ 14)) :
    Near (finish (sub hi lo) (sub (sub hi (sub hi lo)) lo) k) (Real.exp Y - 1) (|Real.exp Y - 1| * (53 / 10 / 2 ^ 53)) := by
  have W3 : k = 1024 → Real.exp (Y - k * Real.log 2) ≤ 1 - 9 / 10 ^ 15 := by
    intro c
    have a := k3 c
    rw [c]
    push_cast
    have b : Real.exp (Y - 1024 * Real.log 2) ≤ Real.exp (-(1 / 10 ^ 14)) := Real.exp_le_exp.2 a
    have e := (abs_le.1 (Real.abs_exp_sub_one_sub_id_le (x := -(1 / 10 ^ 14)) (by norm_num))).2
    generalize Real.exp (Y - 1024 * Real.log 2) = V at *
    generalize Real.exp (-(1 / 10 ^ 14)) = V' at *
    linarith only [b, e]
  obtain ⟨X, G, xN, eN, d, W0, W1⟩ := rest_near h
  rw [Exp.exp_split Y k]
  have fe : ∀ x c, finish x c k = sub (scaled (sub Libm.one (sub (rest x c) x)) k) Libm.one := by
    intro x c
    unfold finish
    simp only []
    rw [if_neg (by omega), if_neg (by omega), if_pos (by omega)]
    rfl
  rw [fe]
  generalize rest (sub hi lo) (sub (sub hi (sub hi lo)) lo) = e at *
  generalize sub hi lo = x at *
  generalize Real.exp (Y - k * Real.log 2) = W at *
  have d' := abs_le.1 d
  have G' := abs_le.1 eN.2
  obtain ⟨A, hA⟩ : ∃ A, A = |W - 1| := ⟨_, rfl⟩
  have A1 : A ≤ 4143 / 10 ^ 4 := by rw [hA, abs_le]; constructor <;> linarith only [W0, W1]
  have AW : (W ≤ 1 ∧ A = 1 - W) ∨ (1 ≤ W ∧ A = W - 1) := by
    rcases le_total W 1 with c | c
    · left; exact ⟨c, by rw [hA, abs_of_nonpos (by linarith only [c])]; ring⟩
    · right; exact ⟨c, by rw [hA, abs_of_nonneg (by linarith only [c])]⟩
  have m1 : |X - G| ≤ A + 5 / 10 ^ 18 := by
    have := abs_add_le (X - G - (W - 1)) (W - 1)
    rw [sub_add_cancel, ← hA] at this
    linarith only [this, d]
  have d2 : Near (sub e x) (1 - W) (3088 / 10 ^ 20 + A / 2 ^ 53) := by
    refine ((eN.1.sub xN.1 (m := A + 5 / 10 ^ 18) (g := 2588 / 10 ^ 20 + A / 2 ^ 53) (by rw [abs_sub_comm]; exact m1) (by linarith only) (by linarith only [A1])).move
      (w := 1 - W) (f := 5 / 10 ^ 18) ?_).weaken (by linarith only)
    rw [abs_le]; constructor <;> linarith only [d'.1, d'.2]
  have s1 := Exp.near_one.sub d2 (m := W) (g := W * (19 / 10 / 2 ^ 53)) (by rw [sub_sub_cancel, abs_of_pos (by linarith only [W0])]) (by
    rcases AW with ⟨w, a⟩ | ⟨w, a⟩ <;> linarith only [w, a, W0, W1]) (by linarith only [A1, W1])
  rw [sub_sub_cancel] at s1
  generalize sub Libm.one (sub e x) = y at *
  obtain ⟨y1, y2, y3⟩ := s1
  have y3' := abs_le.1 y3
  have vy0 : 1 / 2 ≤ value y := by
    have : ((1 / 2 : ℚ) : ℝ) ≤ (value y : ℝ) := by push_cast; linarith only [y3'.1, W0, W1]
    exact_mod_cast this
  have vy1 : value y < 2 := by
    have : (value y : ℝ) < ((2 : ℚ) : ℝ) := by push_cast; linarith only [y3'.2, W0, W1]
    exact_mod_cast this
  obtain ⟨e0, e1, e2, e3⟩ := Exp.expo_around y1 vy0 vy1
  have ek : (expo y : Int) + k ≤ 2046 := by
    by_cases c : k = 1024
    · have w := W3 c
      have : value y < 1 := by
        have : (value y : ℝ) < ((1 : ℚ) : ℝ) := by push_cast; linarith only [y3'.2, w, W0]
        exact_mod_cast this
      have := e3 this
      omega
    · omega
  obtain ⟨s1, s2, s3⟩ := Exp.scale_spec (k := k) e0 (by omega) (by omega) ek
  have sv : (value (scaled y k) : ℝ) = value y * (2 : ℝ) ^ k := by
    unfold scaled; rw [s3]; push_cast; rfl
  have sl : scaled y k < 2 ^ 64 := s1
  have sf : IsFinite (scaled y k) := s2
  obtain ⟨P, hP⟩ : ∃ P : ℝ, P = (2 : ℝ) ^ k := ⟨_, rfl⟩
  rw [← hP] at sv ⊢
  have P1 : 2 ^ 57 ≤ P := by
    rw [hP]; have : (2 : ℝ) ^ (57 : ℤ) ≤ (2 : ℝ) ^ k := zpow_le_zpow_right₀ (by norm_num) (by omega)
    exact le_trans (by norm_num) this
  have P0 : 0 < P := by linarith only [P1]
  generalize scaled y k = s at *
  have sz : |(value s : ℝ) - W * P| ≤ W * P * (19 / 10 / 2 ^ 53) := by
    rw [sv, ← sub_mul, abs_mul, abs_of_pos P0]
    have := mul_le_mul_of_nonneg_right y3 P0.le
    linarith only [this]
  obtain ⟨Z, hZ⟩ : ∃ Z, Z = W * P := ⟨_, rfl⟩
  rw [← hZ] at sz ⊢
  have z : 2 ^ 56 ≤ Z := by
    rw [hZ]; have := mul_le_mul W0 P1 (by norm_num) (by linarith only [W0]); linarith only [this]
  have sz' := abs_le.1 sz
  obtain ⟨t1, t2, t3⟩ := sub_one sl sf (by linarith only [sz'.1, z])
  refine ⟨t1, t2, ?_⟩
  rw [abs_of_nonneg (by linarith only [z] : 0 ≤ Z - 1)]
  have t3' := abs_le.1 t3
  rw [abs_le]
  constructor <;> linarith only [t3'.1, t3'.2, sz'.1, sz'.2, z]

/-- `expm1` of a large positive number. -/
theorem expm1_large {a : Nat} (ha : a < 2 ^ 63) (h0 : 0x40460000 ≤ a / 2 ^ 32) (ho : a ≤ o_threshold) :
    Near (expm1 a) (Real.exp (value a) - 1) (|Real.exp (value a) - 1| * (53 / 10 / 2 ^ 53)) := by
  have hinf : inf = 0x7ff00000 * 2 ^ 32 := rfl
  have hth : o_threshold = 0x40862E42FEFA39EF := rfl
  have m := mag_s ha
  have fa : IsFinite a := by rw [finite_iff]; omega
  have l2 := Exp.ln2_b
  have lb : 44 ≤ (value a : ℝ) := bits_ge (c := 0x4046000000000000) (by omega) ha (by
    rw [show value 0x4046000000000000 = 44 by unfold value sign expo frac; norm_num]; norm_num)
  have ub := Exp.below_o (x := a) (by omega) (fun c => absurd c.2 (not_lt.2 ho))
  have o : lt o_threshold a = false := by
    have := Exp.lt_o (x := a) (by omega) fa
    rw [decide_eq_false (fun c => absurd c.2 (not_lt.2 ho))] at this
    exact this
  have xs : Libm.hi a &&& 0x80000000 = 0 := by
    rw [Float.and_sign (by unfold Libm.hi; omega)]; unfold Libm.hi; omega
  have s0 : sign a = 0 := by unfold sign; omega
  unfold expm1
  simp only []
  rw [hi31 (by omega), m, if_neg (by omega), if_neg (by rw [o]; simp), if_neg (by rw [xs]; simp), if_pos (by omega)]
  simp only [if_neg (show ¬ a / 2 ^ 32 < 0x3FF0A2B2 by omega), if_pos xs]
  have h1 : |(value a : ℝ)| ≤ 746 := by rw [abs_le]; constructor <;> norm_num at * <;> linarith
  have h2 : 10397 / 10 ^ 4 ≤ |(value a : ℝ)| := le_trans (by norm_num at *; linarith) (le_abs_self _)
  obtain ⟨k, hk, k0, ks⟩ := Exp.multiple2 (by omega) fa h2 h1 rfl
  rw [s0] at hk
  have hk' : Trig.toInt (add (mul invln2 a) half) = k := hk
  rw [hk']
  have R := Exp.red_many (by omega) fa h2 h1 ks
  have sm := abs_le.1 R.small
  refine finish_large R ?_ ?_ ?_
  · by_contra c
    have : (k : ℝ) ≤ 56 := by exact_mod_cast (by omega : k ≤ 56)
    have := mul_le_mul_of_nonneg_right this (show 0 ≤ Real.log 2 by linarith only [l2.1])
    linarith only [this, sm.1, sm.2, lb, l2.1, l2.2]
  · by_contra c
    have : (1025 : ℝ) ≤ k := by exact_mod_cast (by omega : 1025 ≤ k)
    have := mul_le_mul_of_nonneg_right this (show 0 ≤ Real.log 2 by linarith only [l2.1])
    linarith only [this, sm.1, sm.2, ub, l2.1, l2.2]
  · intro _
    norm_num at *; linarith

/-! ## The theorems -/

/-- **C145** **Accuracy.** For every finite double whose exponential is below `2^1024`, `expm1` returns a finite number that differs from the exponential minus 1 by
at most `5.3·2^-53`, relative to the exponential minus 1. -/
theorem C145_expm1 {x : Nat} (hx : x < 2 ^ 64) (fx : IsFinite x) (h : Real.exp (value x) < 2 ^ 1024) :
    IsFinite (expm1 x) ∧ |(value (expm1 x) : ℝ) - (Real.exp (value x) - 1)| ≤ |Real.exp (value x) - 1| * (53 / 10 / 2 ^ 53) := by
  have hinf : inf = 0x7ff00000 * 2 ^ 32 := rfl
  have m : mag x < 2 ^ 63 := mag_lt x
  have s0 := abs_nonneg (Real.exp (value x) - 1)
  by_cases c0 : mag x / 2 ^ 32 < 0x3c900000
  · rw [expm1_tiny hx c0]
    refine ⟨fx, ?_⟩
    have b : |(value x : ℝ)| ≤ 1 / 2 ^ 54 := by
      have := value_mono hx (c := 0x3c90000000000000) (by norm_num) (by omega)
      rw [show value 0x3c90000000000000 = 1 / 2 ^ 54 by unfold value sign expo frac; norm_num] at this
      have := (Rat.cast_le (K := ℝ)).2 this
      push_cast at this; exact this
    have q := Real.abs_exp_sub_one_sub_id_le (x := (value x : ℝ)) (le_trans b (by norm_num))
    have q2 : (value x : ℝ) ^ 2 ≤ |(value x : ℝ)| * (1 / 2 ^ 54) := by
      rw [← sq_abs, sq]; exact mul_le_mul_of_nonneg_left b (abs_nonneg _)
    have a := arg_le (X := (value x : ℝ)) (le_trans b (by norm_num))
    rw [abs_sub_comm]
    linarith only [q, q2, a, s0, abs_nonneg (value x : ℝ)]
  by_cases c1 : mag x / 2 ^ 32 ≤ 0x3fd62e42
  · exact ((expm1_rel hx (by omega) c1).weaken (by linarith only [s0])).2
  by_cases c2 : mag x / 2 ^ 32 < 0x40460000 ∧ (x < 2 ^ 63 ∨ mag x / 2 ^ 32 < 0x4043687A)
  · exact (expm1_red hx (by omega) c2.1 c2.2).2
  by_cases c3 : x < 2 ^ 63
  · rw [mag_s c3] at c2
    refine (expm1_large c3 (by omega) ?_).2
    by_contra c
    rw [Exp.exp_1024] at h
    have := Real.exp_lt_exp.1 h
    exact absurd (Exp.above_o (not_le.1 c) c3) (not_le.2 this)
  · rw [expm1_minus (by omega) hx fx (by omega)]
    refine ⟨by decide, ?_⟩
    have v : (value x : ℝ) ≤ -(55 * Real.log 2) := by
      have v := Exp.value_neg (x := x) (by omega) hx
      have := value_mono' hx (c := 0x4043687A00000000) (by norm_num) (by omega)
      have w : 388162 / 10 ^ 4 ≤ value 0x4043687A00000000 := by unfold value sign expo frac; norm_num
      have u : ((388162 / 10 ^ 4 : ℚ) : ℝ) ≤ ((-value x : ℚ) : ℝ) := Rat.cast_le.2 (by linarith)
      push_cast at u
      linarith only [u, Exp.ln2_b.2]
    have e : Real.exp (value x) ≤ 1 / 2 ^ 55 := by
      rw [Exp.exp_small]; exact Real.exp_le_exp.2 (by push_cast; exact v)
    have p := Real.exp_pos (value x : ℝ)
    rw [show value 0xBFF0000000000000 = -1 by unfold value sign expo frac; norm_num, abs_of_nonpos (by linarith only [e] : Real.exp (value x) - 1 ≤ 0)]
    push_cast
    rw [abs_le]; constructor <;> linarith only [e, p]

/-- -40, where the result is -1, and 100. -/
example : |(value (expm1 0xc044000000000000) : ℝ) - (Real.exp (-40) - 1)| ≤ |Real.exp (-40) - 1| * (53 / 10 / 2 ^ 53) ∧
    |(value (expm1 0x4059000000000000) : ℝ) - (Real.exp 100 - 1)| ≤ |Real.exp 100 - 1| * (53 / 10 / 2 ^ 53) := by
  have l2 := Exp.ln2_b
  have v1 : value 0xc044000000000000 = -40 := by unfold value sign expo frac; norm_num
  have v2 : value 0x4059000000000000 = 100 := by unfold value sign expo frac; norm_num
  constructor
  · have := (C145_expm1 (x := 0xc044000000000000) (by norm_num) (by decide) (by
      rw [v1, Exp.exp_1024]; apply Real.exp_lt_exp.2; push_cast; linarith only [l2.1])).2
    rw [v1] at this
    push_cast at this; exact this
  · have := (C145_expm1 (x := 0x4059000000000000) (by norm_num) (by decide) (by
      rw [v2, Exp.exp_1024]; apply Real.exp_lt_exp.2; push_cast; linarith only [l2.1])).2
    rw [v2] at this
    push_cast at this; exact this

/-- **C145** **Overflow.** For every finite double whose exponential is `2^1024` or more, the result is the positive infinite. -/
theorem C145_overflow {x : Nat} (hx : x < 2 ^ 64) (fx : IsFinite x) (h : 2 ^ 1024 ≤ Real.exp (value x)) : expm1 x = inf := by
  have hinf : inf = 0x7ff00000 * 2 ^ 32 := rfl
  have mi := (finite_iff x).1 fx
  have c : x < 2 ^ 63 ∧ Exp.o_threshold < x := by
    by_contra c
    have b := Exp.below_o hx c
    rw [Exp.exp_1024] at h
    have := Real.exp_le_exp.1 h
    have l2 := Exp.ln2_b
    norm_num at *; linarith
  have hth : Exp.o_threshold = 0x40862E42FEFA39EF := rfl
  have o : lt o_threshold x = true := by
    have := Exp.lt_o hx fx
    rw [decide_eq_true c] at this
    exact this
  have m := mag_s c.1
  unfold expm1
  simp only []
  rw [hi31 hx, if_neg (by omega), if_pos ⟨by omega, by omega, o⟩]
  decide +kernel

example : expm1 0x408f400000000000 = inf := by
  refine C145_overflow (by norm_num) (by decide) ?_
  rw [show value 0x408f400000000000 = 1000 by unfold value sign expo frac; norm_num, Exp.exp_1024]
  apply Real.exp_le_exp.2; push_cast; linarith only [Exp.ln2_b.2]

/-- **C145** **Small numbers.** Every double below `2^-54` in magnitude, and either zero, is returned as it is. -/
theorem C145_tiny {x : Nat} (hx : x < 2 ^ 64) (_ : IsFinite x) (h : |(value x : ℝ)| < 1 / 2 ^ 54) : expm1 x = x := by
  refine expm1_tiny hx ?_
  by_contra c
  have := bits_ge (c := 0x3c90000000000000) (y := mag x) (by omega) (mag_lt x) (b := 1 / 2 ^ 54) (by
    rw [show value 0x3c90000000000000 = 1 / 2 ^ 54 by unfold value sign expo frac; norm_num]; norm_num)
  rw [value_mag hx] at this
  exact absurd h (not_lt.2 this)

example : expm1 (2 ^ 63) = 2 ^ 63 := C145_tiny (by norm_num) (by decide) (by
  rw [show value (2 ^ 63) = 0 by unfold value sign expo frac; norm_num]; norm_num)

/-- **C145** **Bounded below.** For every finite double of -39 or less, the result is exactly -1. -/
theorem C145_minus {x : Nat} (hx : x < 2 ^ 64) (fx : IsFinite x) (h : (value x : ℝ) ≤ -39) : expm1 x = 0xBFF0000000000000 := by
  have n : 2 ^ 63 ≤ x := by
    by_contra c
    have := val_nonneg (not_le.1 c)
    linarith only [this, h]
  refine expm1_minus n hx fx ?_
  by_contra c
  have := bits_lt (y := mag x) (c := 0x4043687A00000000) (by have := mag_lt x; omega) (by norm_num) (b := 3882 / 100) (by
    rw [show value 0x4043687A00000000 = 1271930 / 2 ^ 15 by unfold value sign expo frac; norm_num]; norm_num)
  rw [value_mag hx, abs_of_nonpos (by linarith only [h])] at this
  linarith only [this, h]

example : expm1 0xc044000000000000 = 0xBFF0000000000000 := C145_minus (by norm_num) (by decide) (by
  rw [show value 0xc044000000000000 = -40 by unfold value sign expo frac; norm_num]; norm_num)

/-- **C145** **Special values.** The positive infinite is returned as it is, the negative one gives -1, and a `NaN` gives a `NaN`. -/
theorem C145_special : expm1 inf = inf ∧ expm1 (2 ^ 63 + inf) = 0xBFF0000000000000 ∧ ∀ x, x < 2 ^ 64 → IsNaN x → IsNaN (expm1 x) := by
  refine ⟨by decide +kernel, by decide +kernel, fun x hx h => ?_⟩
  have hn := h
  rw [Libm.nan_iff] at h
  have hinf : inf = 0x7ff00000 * 2 ^ 32 := rfl
  have fr : (mag x / 2 ^ 32 &&& 0xfffff ||| Libm.lo x) = 0 ↔ frac x = 0 := by
    rw [show (0xfffff : ℕ) = 2 ^ 20 - 1 by rfl, Nat.and_two_pow_sub_one_eq_mod, Nat.or_eq_zero_iff]
    unfold Libm.lo frac mag; omega
  unfold expm1
  simp only []
  rw [hi31 hx, if_pos (by omega), if_pos (by rw [ne_eq, fr]; exact hn.2)]
  exact Sinh.add_nan (Or.inl hn)

example : IsNaN (expm1 0x7ff0000000000001) := C145_special.2.2 _ (by norm_num) (by decide)

end Pok.Cosh
