import Verif.Lemmas.SinKernel
/-!
# Error of the cosine between -pi/4 and pi/4
-/
namespace Pok.Trig
open Pok.Err Pok.Float Pok.Fpu Pok.Poly

/-! The constants. -/
def oneq : ℚ := 1
theorem v_one : Libm.one < 2 ^ 64 ∧ IsFinite Libm.one ∧ value Libm.one = oneq := by
  refine ⟨by decide, by decide, ?_⟩
  unfold Libm.one oneq value sign expo frac; norm_num
theorem n_one : Nb Libm.one (oneq : ℝ) 0 1 := Nb.const v_one (by unfold oneq; rw [abs_le]; constructor <;> norm_num)
def C1q : ℚ := 1501199875790163 / 2 ^ 55
theorem v_C1 : C1 < 2 ^ 64 ∧ IsFinite C1 ∧ value C1 = C1q := by
  refine ⟨by decide, by decide, ?_⟩
  unfold C1 C1q value sign expo frac; norm_num
theorem n_C1 : Nb C1 (C1q : ℝ) 0 (416666666667 / 10 ^ 13) := Nb.const v_C1 (by unfold C1q; rw [abs_le]; constructor <;> norm_num)
def C2q : ℚ := -6405119470031223 / 2 ^ 62
theorem v_C2 : C2 < 2 ^ 64 ∧ IsFinite C2 ∧ value C2 = C2q := by
  refine ⟨by decide, by decide, ?_⟩
  unfold C2 C2q value sign expo frac; norm_num
theorem n_C2 : Nb C2 (C2q : ℝ) 0 (138888888889 / 10 ^ 14) := Nb.const v_C2 (by unfold C2q; rw [abs_le]; constructor <;> norm_num)
def C3q : ℚ := 457508533350745 / 2 ^ 64
theorem v_C3 : C3 < 2 ^ 64 ∧ IsFinite C3 ∧ value C3 = C3q := by
  refine ⟨by decide, by decide, ?_⟩
  unfold C3 C3q value sign expo frac; norm_num
theorem n_C3 : Nb C3 (C3q : ℝ) 0 (248015872895 / 10 ^ 16) := Nb.const v_C3 (by unfold C3q; rw [abs_le]; constructor <;> norm_num)
def C4q : ℚ := -5205429506036397 / 2 ^ 74
theorem v_C4 : C4 < 2 ^ 64 ∧ IsFinite C4 ∧ value C4 = C4q := by
  refine ⟨by decide, by decide, ?_⟩
  unfold C4 C4q value sign expo frac; norm_num
theorem n_C4 : Nb C4 (C4q : ℝ) 0 (275573143514 / 10 ^ 18) := Nb.const v_C4 (by unfold C4q; rw [abs_le]; constructor <;> norm_num)
def C5q : ℚ := 1261860039765105 / 2 ^ 79
theorem v_C5 : C5 < 2 ^ 64 ∧ IsFinite C5 ∧ value C5 = C5q := by
  refine ⟨by decide, by decide, ?_⟩
  unfold C5 C5q value sign expo frac; norm_num
theorem n_C5 : Nb C5 (C5q : ℝ) 0 (208757232130 / 10 ^ 20) := Nb.const v_C5 (by unfold C5q; rw [abs_le]; constructor <;> norm_num)
def C6q : ℚ := -1757820317994549 / 2 ^ 87
theorem v_C6 : C6 < 2 ^ 64 ∧ IsFinite C6 ∧ value C6 = C6q := by
  refine ⟨by decide, by decide, ?_⟩
  unfold C6 C6q value sign expo frac; norm_num
theorem n_C6 : Nb C6 (C6q : ℝ) 0 (113596475578 / 10 ^ 22) := Nb.const v_C6 (by unfold C6q; rw [abs_le]; constructor <;> norm_num)
def qx0q : ℚ := 9 / 2 ^ 5
theorem v_qx0 : qx0 < 2 ^ 64 ∧ IsFinite qx0 ∧ value qx0 = qx0q := by
  refine ⟨by decide, by decide, ?_⟩
  unfold qx0 qx0q value sign expo frac; norm_num
theorem n_qx0 : Nb qx0 (qx0q : ℝ) 0 (281250000000 / 10 ^ 12) := Nb.const v_qx0 (by unfold qx0q; rw [abs_le]; constructor <;> norm_num)

/-- Error of the polynomial. -/
theorem cos_r {z : Nat} {Z : ℝ} (hz : Nb z Z (6852 / 10 ^ 20) (6171 / 10000)) :
    Nb (mul z (add C1 (mul z (add C2 (mul z (add C3 (mul z (add C4 (mul z (add C5 (mul z C6)))))))))))
      (Z * ((C1q : ℝ) + (Z * ((C2q : ℝ) + (Z * ((C3q : ℝ) + (Z * ((C4q : ℝ) + (Z * ((C5q : ℝ) + (Z * (C6q : ℝ)))))))))))) (8925 / 10 ^ 21) (2626 / 10 ^ 5) := by
  have h1 := Nb.mul (1557 / 10 ^ 30) (7011 / 10 ^ 15) hz n_C6 (by norm_num) (by norm_num) (by norm_num)
  have h2 := Nb.add (2342 / 10 ^ 28) (2095 / 10 ^ 12) n_C5 h1 (by norm_num) (by norm_num) (by norm_num)
  have h3 := Nb.mul (4317 / 10 ^ 28) (1293 / 10 ^ 12) hz h2 (by norm_num) (by norm_num) (by norm_num)
  have h4 := Nb.add (3118 / 10 ^ 26) (2769 / 10 ^ 10) n_C4 h3 (by norm_num) (by norm_num) (by norm_num)
  have h5 := Nb.mul (5719 / 10 ^ 26) (1709 / 10 ^ 10) hz h4 (by norm_num) (by norm_num) (by norm_num)
  have h6 := Nb.add (2830 / 10 ^ 24) (2498 / 10 ^ 8) n_C3 h5 (by norm_num) (by norm_num) (by norm_num)
  have h7 := Nb.mul (5170 / 10 ^ 24) (1542 / 10 ^ 8) hz h6 (by norm_num) (by norm_num) (by norm_num)
  have h8 := Nb.add (1611 / 10 ^ 22) (1405 / 10 ^ 6) n_C2 h7 (by norm_num) (by norm_num) (by norm_num)
  have h9 := Nb.mul (2920 / 10 ^ 22) (8671 / 10 ^ 7) hz h8 (by norm_num) (by norm_num) (by norm_num)
  have h10 := Nb.add (5015 / 10 ^ 21) (4254 / 10 ^ 5) n_C1 h9 (by norm_num) (by norm_num) (by norm_num)
  have h11 := Nb.mul (8925 / 10 ^ 21) (2626 / 10 ^ 5) hz h10 (by norm_num) (by norm_num) (by norm_num)
  exact h11

/-- Error of the correction. -/
theorem cos_t {x y z r : Nat} {X Y Z R : ℝ} (hx : Nb x X 0 (7855 / 10000)) (hy : Nb y Y 0 (12 / 10 ^ 17))
    (hz : Nb z Z (6852 / 10 ^ 20) (6171 / 10000)) (hr : Nb r R (8925 / 10 ^ 21) (2626 / 10 ^ 5)) :
    Nb (sub (mul z r) (mul x y)) ((Z * R) - (X * Y)) (1091 / 10 ^ 20) (1622 / 10 ^ 5) := by
  have h12 := Nb.mul (9107 / 10 ^ 21) (1621 / 10 ^ 5) hz hr (by norm_num) (by norm_num) (by norm_num)
  have h13 := Nb.mul (1047 / 10 ^ 35) (9426 / 10 ^ 20) hx hy (by norm_num) (by norm_num) (by norm_num)
  have h14 := Nb.sub (1091 / 10 ^ 20) (1622 / 10 ^ 5) h12 h13 (by norm_num) (by norm_num) (by norm_num)
  exact h14

/-- The coefficients of the cosine. -/
def cK : List ℚ := [1, -1/2, C1q, C2q, C3q, C4q, C5q, C6q]

theorem cK_ok : ok (plus cK (cosT.map ((-1) * ·))) 0 (6171 / 160000) (15 / 10 ^ 19) 8 = true := by decide +kernel

/-- The polynomial against the cosine. -/
theorem cos_core {x : ℝ} (hx : |x| ≤ 7855 / 10000) : |ev cK (x ^ 2) - Real.cos x| ≤ 16 / 10 ^ 19 := by
  have z0 : 0 ≤ x ^ 2 := sq_nonneg x
  have z1 : x ^ 2 ≤ 61701025 / 10 ^ 8 := by
    rw [← sq_abs]
    have := mul_le_mul hx hx (abs_nonneg x) (by norm_num)
    nlinarith
  have h1 := cos_poly (x := x) (by linarith)
  have h2 := ev_ok (by norm_num) cK_ok (t := x ^ 2) (by push_cast; exact z0) (by push_cast; linarith)
  simp only [ev_plus, ev_scale] at h2
  push_cast at h2
  have p20 : |x| ^ 20 / 2 ^ 60 ≤ 1 / 10 ^ 19 := by
    have : |x| ^ 20 ≤ (7855 / 10000) ^ 20 := pow_le_pow_left₀ (abs_nonneg x) hx 20
    rw [div_le_iff₀ (by positivity)]
    refine le_trans this (by norm_num)
  rw [show ev cK (x ^ 2) - Real.cos x = (ev cK (x ^ 2) + -1 * ev cosT (x ^ 2)) - (Real.cos x - ev cosT (x ^ 2)) by ring]
  refine le_trans (abs_sub _ _) ?_
  norm_num at *
  linarith

/-- The cosine of a sum with a tiny second part. -/
theorem cos_shift {x y : ℝ} (hx : |x| ≤ 7855 / 10000) (hy : |y| ≤ 12 / 10 ^ 17) :
    |Real.cos x - x * y - Real.cos (x + y)| ≤ 12 / 10 ^ 18 := by
  have g := Real.sin_bound (x := x) (by linarith)
  have y1 : |y| ≤ 1 := by linarith [show (12 : ℝ) / 10 ^ 17 ≤ 1 by norm_num]
  have sh := sin_shift (x := 0) (y := y) (by norm_num) hy
  have cy := Real.cos_bound (x := y) y1
  have cy' := Real.cos_le_one y
  have p3 : |x| ^ 3 ≤ (7855 / 10000) ^ 3 := pow_le_pow_left₀ (abs_nonneg x) hx 3
  have p5 : |x| ^ 5 ≤ (7855 / 10000) ^ 5 := pow_le_pow_left₀ (abs_nonneg x) hx 5
  have y2 : |y| ^ 2 ≤ (12 / 10 ^ 17) ^ 2 := pow_le_pow_left₀ (abs_nonneg y) hy 2
  have y3 : |y| ^ 3 ≤ (12 / 10 ^ 17) ^ 3 := pow_le_pow_left₀ (abs_nonneg y) hy 3
  have y4 : |y| ^ 4 ≤ (12 / 10 ^ 17) ^ 4 := pow_le_pow_left₀ (abs_nonneg y) hy 4
  have y5 : |y| ^ 5 ≤ (12 / 10 ^ 17) ^ 5 := pow_le_pow_left₀ (abs_nonneg y) hy 5
  have gy := Real.sin_bound (x := y) y1
  have s1 := Real.abs_sin_le_one x
  have c1 := Real.abs_cos_le_one x
  have e1 : |Real.sin y - y| ≤ 1 / 10 ^ 30 := by
    have := abs_add_le (Real.sin y - (y - y ^ 3 / 6)) (-(y ^ 3 / 6))
    rw [show Real.sin y - (y - y ^ 3 / 6) + -(y ^ 3 / 6) = Real.sin y - y by ring, abs_neg, abs_div, abs_of_pos (show (0 : ℝ) < 6 by norm_num), abs_pow] at this
    norm_num at *
    linarith
  have e2 : |1 - Real.cos y| ≤ 1 / 10 ^ 30 := by
    rw [abs_of_nonneg (by linarith)]
    rw [sq_abs] at y2
    have := (abs_le.1 cy).1
    norm_num at *
    linarith
  have e3 : |Real.sin x - x| ≤ 85 / 10 ^ 3 := by
    have := abs_add_le (Real.sin x - (x - x ^ 3 / 6)) (-(x ^ 3 / 6))
    rw [show Real.sin x - (x - x ^ 3 / 6) + -(x ^ 3 / 6) = Real.sin x - x by ring, abs_neg, abs_div, abs_of_pos (show (0 : ℝ) < 6 by norm_num), abs_pow] at this
    norm_num at *
    linarith
  have a1 : |Real.cos x * (1 - Real.cos y)| ≤ 1 * (1 / 10 ^ 30) := by
    rw [abs_mul]; exact mul_le_mul c1 e2 (abs_nonneg _) (by norm_num)
  have a2 : |Real.sin x * (Real.sin y - y)| ≤ 1 * (1 / 10 ^ 30) := by
    rw [abs_mul]; exact mul_le_mul s1 e1 (abs_nonneg _) (by norm_num)
  have a3 : |(Real.sin x - x) * y| ≤ 85 / 10 ^ 3 * (12 / 10 ^ 17) := by
    rw [abs_mul]; exact mul_le_mul e3 hy (abs_nonneg _) (by norm_num)
  rw [Real.cos_add, show Real.cos x - x * y - (Real.cos x * Real.cos y - Real.sin x * Real.sin y)
    = Real.cos x * (1 - Real.cos y) + Real.sin x * (Real.sin y - y) + (Real.sin x - x) * y by ring]
  have t1 := abs_add_le (Real.cos x * (1 - Real.cos y) + Real.sin x * (Real.sin y - y)) ((Real.sin x - x) * y)
  have t2 := abs_add_le (Real.cos x * (1 - Real.cos y)) (Real.sin x * (Real.sin y - y))
  norm_num at *
  linarith

/-- A double of 21 digits with an exponent of -4 or -3, and its distance from 1. -/
theorem qx_exact {m : Nat} (h1 : 0x3FB00000 ≤ m) (h2 : m < 0x3FD00000) :
    Libm.insert m 0 < 2 ^ 64 ∧ IsFinite (Libm.insert m 0) ∧ ∃ d, d < 2 ^ 64 ∧ IsFinite d ∧ value d = 1 - value (Libm.insert m 0) := by
  have e : expo (Libm.insert m 0) = m / 2 ^ 20 := by unfold Libm.insert expo; omega
  have f : frac (Libm.insert m 0) = m % 2 ^ 20 * 2 ^ 32 := by unfold Libm.insert frac; omega
  have s : sign (Libm.insert m 0) = 0 := by unfold Libm.insert sign; omega
  refine ⟨by unfold Libm.insert; omega, by unfold IsFinite; omega, ?_⟩
  obtain ⟨n, hn⟩ : ∃ n, n = m % 2 ^ 20 := ⟨_, rfl⟩
  have hn' : n < 2 ^ 20 := by omega
  have cast : ∀ k : Nat, ∃ K : ℚ, K = k := fun k => ⟨_, rfl⟩
  rcases (by omega : m / 2 ^ 20 = 1019 ∨ m / 2 ^ 20 = 1020) with c | c
  · obtain ⟨d, hd, fd, vd⟩ := double_of (a := 2 ^ 24 - 2 ^ 20 - n) (b := 1050) (s := 0) (by omega) (by omega) (by
      have : ((2 ^ 24 - 2 ^ 20 - n : ℕ) : ℚ) ≤ 2 ^ 24 := by exact_mod_cast (by omega : 2 ^ 24 - 2 ^ 20 - n ≤ 2 ^ 24)
      refine le_trans (mul_le_mul_of_nonneg_right this (by positivity)) ?_
      rw [← pow_add]
      exact (fun n m (h : n ≤ m) => pow_le_pow_right₀ (by norm_num) h : ∀ n m : ℕ, n ≤ m → (2 : ℚ) ^ n ≤ 2 ^ m) _ _ (by omega))
    refine ⟨d, hd, fd, ?_⟩
    rw [vd]
    unfold value
    rw [e, f, s, c, ← hn, show (1074 : ℕ) = 24 + 1050 by rfl, pow_add, mul_div_mul_right _ _ (by positivity)]
    rw [Nat.cast_sub (by omega), Nat.cast_sub (by omega)]
    norm_num
    ring
  · obtain ⟨d, hd, fd, vd⟩ := double_of (a := 2 ^ 23 - 2 ^ 20 - n) (b := 1051) (s := 0) (by omega) (by omega) (by
      have : ((2 ^ 23 - 2 ^ 20 - n : ℕ) : ℚ) ≤ 2 ^ 24 := by exact_mod_cast (by omega : 2 ^ 23 - 2 ^ 20 - n ≤ 2 ^ 24)
      refine le_trans (mul_le_mul_of_nonneg_right this (by positivity)) ?_
      rw [← pow_add]
      exact (fun n m (h : n ≤ m) => pow_le_pow_right₀ (by norm_num) h : ∀ n m : ℕ, n ≤ m → (2 : ℚ) ^ n ≤ 2 ^ m) _ _ (by omega))
    refine ⟨d, hd, fd, ?_⟩
    rw [vd]
    unfold value
    rw [e, f, s, c, ← hn, show (1074 : ℕ) = 23 + 1051 by rfl, pow_add, mul_div_mul_right _ _ (by positivity)]
    rw [Nat.cast_sub (by omega), Nat.cast_sub (by omega)]
    norm_num
    ring

/-- Bounds of a double from bounds of its high word. -/
theorem hi_range {x a b : Nat} {p q : ℚ} (hx : x < 2 ^ 64) (h1 : a * 2 ^ 32 ≤ mag x) (h2 : mag x ≤ b * 2 ^ 32) (ha : a < 2 ^ 31) (hb : b < 2 ^ 31)
    (hp : p ≤ value (a * 2 ^ 32)) (hq : value (b * 2 ^ 32) ≤ q) : (p : ℝ) ≤ |(value x : ℝ)| ∧ |(value x : ℝ)| ≤ q := by
  have l := le_trans hp (value_mono' hx (by omega) h1)
  have r := le_trans (value_mono hx (by omega) h2) hq
  have l' := (Rat.cast_le (K := ℝ)).2 l
  have r' := (Rat.cast_le (K := ℝ)).2 r
  rw [Rat.cast_abs] at l' r'
  exact ⟨l', r'⟩

/-- What is taken from 1 and from half of the square. -/
theorem qx_spec {x : Nat} (hx : x < 2 ^ 64) (b : |(value x : ℝ)| ≤ 7855 / 10000) (h : ¬ Libm.hi x &&& 0x7fffffff < 0x3FD33333) :
    ∃ q : Nat, (if Libm.hi x &&& 0x7fffffff > 0x3fe90000 then qx0 else Libm.insert ((Libm.hi x &&& 0x7fffffff) - 0x00200000) 0) = q ∧
      Nb q (value q : ℝ) 0 (282 / 1000) ∧ (∃ d, d < 2 ^ 64 ∧ IsFinite d ∧ value d = 1 - value q) ∧
      |1 / 2 * ((value x : ℝ) * value x) - value q| ≤ 156 / 1000 := by
  refine ⟨_, rfl, ?_⟩
  rw [hi31 hx] at h ⊢
  have sq : ∀ {p q : ℝ}, 0 ≤ p → p ≤ |(value x : ℝ)| → |(value x : ℝ)| ≤ q → p * p ≤ (value x : ℝ) * value x ∧ (value x : ℝ) * value x ≤ q * q := by
    intro p q p0 h1 h2
    have a0 := abs_nonneg (value x : ℝ)
    rw [← abs_mul_abs_self (value x : ℝ)]
    exact ⟨mul_le_mul h1 h1 p0 a0, mul_le_mul h2 h2 a0 (le_trans a0 h2)⟩
  by_cases c : mag x / 2 ^ 32 > 0x3fe90000
  · rw [if_pos c]
    have e : value qx0 = 9 / 32 := by rw [v_qx0.2.2]; unfold qx0q; norm_num
    obtain ⟨q1, q2, q3⟩ := qx_exact (m := 0x3FD20000 - 0x100000) (by omega) (by omega)
    have l := value_mono' hx (c := 0x3fe9000000000000) (by norm_num) (by omega)
    have l' : (25 : ℝ) / 32 ≤ |(value x : ℝ)| := by
      have v : value 0x3fe9000000000000 = 25 / 32 := by unfold value sign expo frac; norm_num
      rw [v] at l
      have := (Rat.cast_le (K := ℝ)).2 l
      push_cast at this ⊢; exact this
    obtain ⟨s1, s2⟩ := sq (by norm_num) l' b
    refine ⟨⟨⟨v_qx0.1, v_qx0.2.1, by simp⟩, ?_⟩, ⟨0x3FE7000000000000, by norm_num, by decide, ?_⟩, ?_⟩
    · rw [e]; norm_num
    · rw [e]; unfold value sign expo frac; norm_num
    · rw [e]; push_cast; rw [abs_le]; constructor <;> norm_num at * <;> linarith
  · rw [if_neg c]
    obtain ⟨m, hm⟩ : ∃ m, m = mag x / 2 ^ 32 := ⟨_, rfl⟩
    rw [← hm] at h c ⊢
    obtain ⟨q1, q2, q3⟩ := qx_exact (m := m - 0x200000) (by omega) (by omega)
    have nn : 0 ≤ value (Libm.insert (m - 0x200000) 0) := by
      unfold value
      rw [show sign (Libm.insert (m - 0x200000) 0) = 0 by unfold Libm.insert sign; omega]
      have z : ∀ n : ℤ, (0 : ℚ) ≤ (2 : ℚ) ^ n := fun n => zpow_nonneg (by norm_num) n
      rw [pow_zero, one_mul]
      split
      · exact mul_nonneg (div_nonneg (Nat.cast_nonneg _) (by norm_num)) (z _)
      · exact mul_nonneg (add_nonneg (by norm_num) (div_nonneg (Nat.cast_nonneg _) (by norm_num))) (z _)
    have nn' : (0 : ℝ) ≤ (value (Libm.insert (m - 0x200000) 0) : ℝ) := by exact_mod_cast nn
    have mg : mag (Libm.insert (m - 0x200000) 0) = (m - 0x200000) * 2 ^ 32 := by unfold mag Libm.insert; omega
    by_cases k : m < 0x3FE33333
    · obtain ⟨b1, b2⟩ := hi_range (p := 2999 / 10000) (q := 6001 / 10000) hx (a := 0x3FD33333) (b := 0x3FE33334) (by omega) (by omega) (by omega) (by omega)
        (by unfold value sign expo frac; norm_num) (by unfold value sign expo frac; norm_num)
      obtain ⟨d1, d2⟩ := hi_range (p := 749 / 10000) (q := 1501 / 10000) q1 (a := 0x3FB33333) (b := 0x3FC33333) (by omega) (by omega) (by omega) (by omega)
        (by unfold value sign expo frac; norm_num) (by unfold value sign expo frac; norm_num)
      push_cast at b1 b2 d1 d2
      obtain ⟨s1, s2⟩ := sq (by norm_num) b1 b2
      rw [abs_of_nonneg nn'] at d1 d2
      refine ⟨⟨⟨q1, q2, by simp⟩, ?_⟩, q3, ?_⟩
      · rw [abs_of_nonneg nn']; linarith
      · rw [abs_le]; constructor <;> norm_num at * <;> linarith
    · obtain ⟨b1, b2⟩ := hi_range (p := 5999 / 10000) (q := 7813 / 10000) hx (a := 0x3FE33333) (b := 0x3FE90001) (by omega) (by omega) (by omega) (by omega)
        (by unfold value sign expo frac; norm_num) (by unfold value sign expo frac; norm_num)
      obtain ⟨d1, d2⟩ := hi_range (p := 1499 / 10000) (q := 1954 / 10000) q1 (a := 0x3FC33333) (b := 0x3FC90000) (by omega) (by omega) (by omega) (by omega)
        (by unfold value sign expo frac; norm_num) (by unfold value sign expo frac; norm_num)
      push_cast at b1 b2 d1 d2
      obtain ⟨s1, s2⟩ := sq (by norm_num) b1 b2
      rw [abs_of_nonneg nn'] at d1 d2
      refine ⟨⟨⟨q1, q2, by simp⟩, ?_⟩, q3, ?_⟩
      · rw [abs_of_nonneg nn']; linarith
      · rw [abs_le]; constructor <;> norm_num at * <;> linarith

theorem half_eq : half = halfBits := rfl

/-- `__kernel_cos`: absolute error. -/
theorem kernelCos_near {x y : Nat} (hx : x < 2 ^ 64) (fx : IsFinite x) (b : |(value x : ℝ)| ≤ 7855 / 10000)
    (hy : y < 2 ^ 64) (fy : IsFinite y) (b' : |(value y : ℝ)| ≤ 12 / 10 ^ 17) :
    Near (kernelCos x y) (Real.cos ((value x : ℝ) + value y)) (2120 / 10 ^ 19) := by
  have bq : |value x| < 1 := by
    have : ((|value x| : ℚ) : ℝ) < ((1 : ℚ) : ℝ) := by push_cast; linarith
    exact_mod_cast this
  have sh := cos_shift b b'
  unfold kernelCos
  rw [toInt_small hx bq]
  by_cases h : Libm.hi x &&& 0x7fffffff < 0x3e400000
  · simp only [h, and_self, if_true]
    have s := small_hi hx h
    have s' : |(value x : ℝ)| ≤ 1 / 2 ^ 27 := by
      have := (Rat.cast_le (K := ℝ)).2 s; push_cast at this ⊢; exact this
    refine ⟨v_one.1, v_one.2.1, ?_⟩
    rw [v_one.2.2]
    obtain ⟨w, hw⟩ : ∃ w, w = (value x : ℝ) + value y := ⟨_, rfl⟩
    rw [← hw]
    have w1 : |w| ≤ 1 / 2 ^ 26 := by
      rw [hw]; refine le_trans (abs_add_le _ _) ?_
      norm_num at *; linarith
    have cb := Real.cos_bound (x := w) (le_trans w1 (by norm_num))
    have w2 : |w| ^ 2 ≤ (1 / 2 ^ 26) ^ 2 := pow_le_pow_left₀ (abs_nonneg w) w1 2
    have w4 : |w| ^ 4 ≤ (1 / 2 ^ 26) ^ 4 := pow_le_pow_left₀ (abs_nonneg w) w1 4
    rw [sq_abs] at w2
    have := (abs_le.1 cb).1
    have := Real.cos_le_one w
    rw [show ((oneq : ℚ) : ℝ) = 1 by unfold oneq; norm_num, abs_of_nonneg (by linarith)]
    norm_num at *
    linarith
  · simp only [h, false_and, if_false]
    obtain ⟨hz, -⟩ := sin_start hx fx b
    have hr := cos_r hz
    have ht := cos_t ⟨Near.self hx fx, b⟩ ⟨Near.self hy fy, b'⟩ hz hr
    have hh := hz.half (by norm_num)
    have co := cos_core b
    rw [← half_eq] at hh
    obtain ⟨X, hX⟩ : ∃ X : ℝ, X = (value x : ℝ) := ⟨_, rfl⟩
    obtain ⟨Y, hY⟩ : ∃ Y : ℝ, Y = (value y : ℝ) := ⟨_, rfl⟩
    rw [← hX] at hr ht hh co sh b ⊢
    rw [← hY] at ht sh ⊢
    generalize hR : X * X * ((C1q : ℝ) + (X * X * ((C2q : ℝ) + (X * X * ((C3q : ℝ) + (X * X * ((C4q : ℝ) + (X * X * ((C5q : ℝ) + (X * X * (C6q : ℝ))))))))))) = R at *
    have e : ev cK (X ^ 2) = 1 - 1 / 2 * (X * X) + X * X * R := by
      rw [← hR]; simp only [cK, ev]; push_cast; ring
    rw [e] at co
    have mid : |1 - 1 / 2 * (X * X) + (X * X * R - X * Y) - Real.cos (X + Y)| ≤ 12 / 10 ^ 18 + 16 / 10 ^ 19 := by
      have := abs_add_le (1 - 1 / 2 * (X * X) + X * X * R - Real.cos X) (Real.cos X - X * Y - Real.cos (X + Y))
      rw [show 1 - 1 / 2 * (X * X) + X * X * R - Real.cos X + (Real.cos X - X * Y - Real.cos (X + Y))
        = 1 - 1 / 2 * (X * X) + (X * X * R - X * Y) - Real.cos (X + Y) by ring] at this
      linarith
    generalize X * X * R - X * Y = T at *
    have big : |1 - 1 / 2 * (X * X) + T| ≤ 1 + 1 / 10 ^ 16 := by
      have := abs_sub_abs_le_abs_sub (1 - 1 / 2 * (X * X) + T) (Real.cos (X + Y))
      have := Real.abs_cos_le_one (X + Y)
      norm_num at *
      linarith
    have o : ((oneq : ℚ) : ℝ) = 1 := by unfold oneq; norm_num
    by_cases k : Libm.hi x &&& 0x7fffffff < 0x3FD33333
    · rw [if_pos k]
      have h1 := Nb.sub (8600 / 10 ^ 20) (326 / 1000) hh ht (by norm_num) (by norm_num) (by norm_num)
      have h2 := Nb.sub' (1980 / 10 ^ 19) (1 + 1 / 10 ^ 16) n_one h1 (by rw [o, show 1 - (1 / 2 * (X * X) - T) = 1 - 1 / 2 * (X * X) + T by ring]; exact big)
        (by norm_num) (by norm_num)
      refine (h2.1.move (f := 12 / 10 ^ 18 + 16 / 10 ^ 19) ?_).weaken (by norm_num)
      rw [o, show 1 - (1 / 2 * (X * X) - T) = 1 - 1 / 2 * (X * X) + T by ring]
      exact mid
    · rw [if_neg k]
      obtain ⟨q, hq, nq, ⟨d, hd, fd, vd⟩, bd⟩ := qx_spec hx (by rw [← hX]; exact b) k
      rw [hq]
      rw [← hX] at bd
      have a : Near (Fpu.sub Libm.one q) (1 - (value q : ℝ)) 0 := by
        rw [sub_eq nq.1.2.1]
        have n3 : value (negate q) = - value q := by exact_mod_cast value_negate nq.1.1 nq.1.2.1
        obtain ⟨n1, n2, -⟩ := (Near.self nq.1.1 nq.1.2.1).neg
        obtain ⟨r1, r2, r3⟩ := add_exact v_one.1 n1 v_one.2.1 n2 (by
          rw [n3, v_one.2.2]; push_cast; rw [o]
          have := abs_sub (1 : ℝ) (value q)
          have m := nq.2
          rw [abs_one] at this
          rw [← sub_eq_add_neg]
          refine le_trans this (le_trans (add_le_add le_rfl m) (by norm_num))) hd fd (by rw [n3, v_one.2.2, vd]; unfold oneq; ring)
        refine ⟨r1, r2, ?_⟩
        rw [r3, n3, v_one.2.2]; push_cast; rw [o, ← sub_eq_add_neg, sub_self, abs_zero]
      have h0 := Nb.sub' (5175 / 10 ^ 20) (156 / 1000) hh nq bd (by norm_num) (by norm_num)
      have h1 := Nb.sub (8180 / 10 ^ 20) (173 / 1000) h0 ht (by norm_num) (by norm_num) (by norm_num)
      have a' : Nb (Fpu.sub Libm.one q) (1 - (value q : ℝ)) 0 2 := ⟨a, by
        have := abs_sub (1 : ℝ) (value q)
        have m := nq.2
        rw [abs_one] at this; linarith⟩
      have h2 := Nb.sub' (1935 / 10 ^ 19) (1 + 1 / 10 ^ 16) a' h1 (by
          rw [show 1 - (value q : ℝ) - (1 / 2 * (X * X) - value q - T) = 1 - 1 / 2 * (X * X) + T by ring]; exact big)
        (by norm_num) (by norm_num)
      refine (h2.1.move (f := 12 / 10 ^ 18 + 16 / 10 ^ 19) ?_).weaken (by norm_num)
      rw [show 1 - (value q : ℝ) - (1 / 2 * (X * X) - value q - T) = 1 - 1 / 2 * (X * X) + T by ring]
      exact mid

end Pok.Trig
