import Verif.Lemmas.Err
/-!
# Rounding errors of quotients, and of the smallest doubles
-/
namespace Pok.Err
open Pok.Float Pok.Fpu

theorem not_zero {b : Nat} (h : value b ≠ 0) : ¬ IsZero b := by
  rintro ⟨z1, z2⟩
  apply h
  unfold value; rw [z1, z2]; simp

/-- The quotient of two doubles. -/
theorem div_err {a b : Nat} (ha : a < 2 ^ 64) (hb : b < 2 ^ 64) (fa : IsFinite a) (fb : IsFinite b) (h0 : value b ≠ 0) (h : |(value a : ℝ) / value b| ≤ 2 ^ 200) :
    Near (div a b) ((value a : ℝ) / value b) (|(value a : ℝ) / value b| / 2 ^ 53 + 1 / 2 ^ 200) := by
  have r := Libm.fpu_div ha hb fa fb (not_zero h0)
  have hq : |value a / value b| ≤ 2 ^ 1000 := by
    apply abs_cast (b := 2 ^ 200)
    · push_cast; exact h
    · exact pow_le_pow_right₀ (by norm_num) (by norm_num)
  obtain ⟨r1, r2⟩ := rounded_near r hq
  have := (nearest_err r2 hq).1
  refine ⟨r1, r2.1, ?_⟩
  have := (Rat.cast_le (K := ℝ)).2 this
  rw [Rat.cast_add, Rat.cast_div, Rat.cast_div, Rat.cast_one, Rat.cast_pow, Rat.cast_pow, Rat.cast_ofNat, Rat.cast_abs, Rat.cast_abs, Rat.cast_sub,
    Rat.cast_div] at this
  exact le_trans this (add_le_add le_rfl tiny_le)

theorem Near.div {a b : Nat} {v w e f l q d g : ℝ} (ha : Near a v e) (hb : Near b w f) (hl : l ≤ |w|) (hf : f < l) (hq : |v / w| ≤ q)
    (hd : e + q * f ≤ d * (l - f)) (hg : d + (q + d) / 2 ^ 53 + 1 / 2 ^ 200 ≤ g) (hh : q + d ≤ 2 ^ 200) : Near (Fpu.div a b) (v / w) g := by
  have f0 : 0 ≤ f := le_trans (abs_nonneg _) hb.2.2
  have l0 : 0 < l := lt_of_le_of_lt f0 hf
  have w0 : w ≠ 0 := abs_pos.1 (lt_of_lt_of_le l0 hl)
  have bl : l - f ≤ |(value b : ℝ)| := by
    have := abs_sub_abs_le_abs_sub w (value b : ℝ)
    rw [abs_sub_comm w (value b : ℝ)] at this
    have := hb.2.2
    linarith
  have lf : 0 < l - f := by linarith
  have b0 : (value b : ℝ) ≠ 0 := abs_pos.1 (lt_of_lt_of_le lf bl)
  have dd : |(value a : ℝ) / value b - v / w| ≤ d := by
    rw [show (value a : ℝ) / value b - v / w = ((value a - v) - v / w * (value b - w)) / value b by field_simp; ring, abs_div,
      div_le_iff₀ (abs_pos.2 b0)]
    have d0 : 0 ≤ d := by
      have : 0 ≤ d * (l - f) := le_trans (add_nonneg (le_trans (abs_nonneg _) ha.2.2) (mul_nonneg (le_trans (abs_nonneg _) hq) f0)) hd
      exact nonneg_of_mul_nonneg_left this lf
    refine le_trans (abs_sub _ _) ?_
    rw [abs_mul]
    have p := mul_le_mul hq hb.2.2 (abs_nonneg _) (le_trans (abs_nonneg _) hq)
    have p2 := mul_le_mul_of_nonneg_left bl d0
    have := ha.2.2
    linarith
  have s : |(value a : ℝ) / value b| ≤ q + d := by
    have := abs_add_le ((value a : ℝ) / value b - v / w) (v / w)
    rw [sub_add_cancel] at this
    linarith
  have := (div_err ha.1 hb.1 ha.2.1 hb.2.1 (by exact_mod_cast b0) (le_trans s hh)).move dd
  refine this.weaken (le_trans ?_ hg)
  have := div_le_div_of_nonneg_right s (c := (2 : ℝ) ^ 53) (by positivity)
  linarith

/-- Below twice the least normal double, the doubles are the multiples of the least double. -/
theorem nearest_least {x : ℚ} {r : Nat} (h : Nearest x r) (hx : |x| ≤ 1 / 2 ^ 1021) : |value r - x| ≤ 1 / 2 ^ 1075 := by
  obtain ⟨D, hD⟩ : ∃ D : ℚ, D = 2 ^ 1074 := ⟨_, rfl⟩
  have d0 : 0 < D := by rw [hD]; positivity
  have hD' : (2 : ℚ) ^ 1075 = 2 * D := by rw [hD, pow_succ]; ring
  have hD2 : D = 2 ^ 53 * 2 ^ 1021 := by rw [hD, ← pow_add]
  obtain ⟨s, hs, hsx⟩ : ∃ s : Nat, s < 2 ∧ x = (-1) ^ s * |x| := by
    rcases le_total 0 x with c | c
    · exact ⟨0, by omega, by rw [abs_of_nonneg c]; simp⟩
    · exact ⟨1, by omega, by rw [abs_of_nonpos c]; simp⟩
  have hU0 : 0 ≤ |x| * D := mul_nonneg (abs_nonneg _) d0.le
  have hU1 : |x| * D ≤ 2 ^ 53 := by
    rw [hD2, ← mul_assoc, mul_comm |x|, mul_assoc]
    rw [le_div_iff₀ (by positivity)] at hx
    exact mul_le_of_le_one_right (by positivity) hx
  have hN := Nat.floor_le hU0
  have hN' := Nat.lt_floor_add_one (|x| * D)
  generalize ⌊|x| * D⌋₊ = N at hN hN'
  have hk : N ≤ 2 ^ 53 := by exact_mod_cast le_trans hN hU1
  have big : ∀ k : ℕ, k ≤ 2 ^ 53 → (k * 2 ^ 0 : ℚ) ≤ 2 ^ 2076 := by
    intro k hk
    have h1 : (k : ℚ) ≤ 2 ^ 53 := by exact_mod_cast hk
    rw [pow_zero, mul_one]
    exact le_trans h1 ((fun n m (h : n ≤ m) => pow_le_pow_right₀ (by norm_num) h : ∀ n m : ℕ, n ≤ m → (2 : ℚ) ^ n ≤ 2 ^ m) _ _ (by omega))
  obtain ⟨a, ha, fa, va⟩ := double_of (a := N) (b := 0) (s := s) hk hs (big N hk)
  have na := h.2.1 a ha fa
  rw [← hD, pow_zero, mul_one] at va
  have ga : |value a - x| = |x| - N / D := by
    rw [va]; conv_lhs => rw [hsx]
    rw [← mul_sub, abs_mul, abs_pow, abs_neg, abs_one, one_pow, one_mul, abs_of_nonpos]
    · ring
    · rw [sub_nonpos, div_le_iff₀ d0]; exact hN
  rw [ga] at na
  have ex : |x| = |x| * D / D := by field_simp
  rw [hD']
  rcases Nat.lt_or_eq_of_le hk with c | c
  · obtain ⟨b, hb, fb, vb⟩ := double_of (a := N + 1) (b := 0) (s := s) c hs (big (N + 1) c)
    have nb := h.2.1 b hb fb
    rw [← hD, pow_zero, mul_one] at vb
    push_cast at vb
    have gb : |value b - x| = (N + 1) / D - |x| := by
      rw [vb]; conv_lhs => rw [hsx]
      rw [← mul_sub, abs_mul, abs_pow, abs_neg, abs_one, one_pow, one_mul, abs_of_nonneg]
      rw [sub_nonneg, le_div_iff₀ d0]; exact hN'.le
    rw [gb, add_div] at nb
    rw [show (1 : ℚ) / (2 * D) = 1 / D / 2 by field_simp]
    linarith
  · have : |x| * D = N := by
      apply le_antisymm _ hN
      rw [c]; push_cast; exact hU1
    rw [ex, this, sub_self] at na
    exact le_trans na (by positivity)

end Pok.Err
