import Verif.Lemmas.ErrDiv
import Verif.Lemmas.Reduce
/-!
# Rounding to a known grid

Up to `2^53` steps of `2^-n`, all multiples of the step are doubles, so the error is at most half a step.
-/
namespace Pok.Err
open Pok.Float Pok.Fpu

theorem nearest_grid {x : ℚ} {r : Nat} (n : Nat) (hn : n ≤ 1074) (h : Nearest x r) (hx : |x| * 2 ^ n ≤ 2 ^ 53) : |value r - x| ≤ 1 / 2 ^ (n + 1) := by
  obtain ⟨D, hD⟩ : ∃ D : ℚ, D = 2 ^ n := ⟨_, rfl⟩
  have d0 : 0 < D := by rw [hD]; positivity
  have hD' : (2 : ℚ) ^ (n + 1) = 2 * D := by rw [hD, pow_succ]; ring
  obtain ⟨s, hs, hsx⟩ : ∃ s : Nat, s < 2 ∧ x = (-1) ^ s * |x| := by
    rcases le_total 0 x with c | c
    · exact ⟨0, by omega, by rw [abs_of_nonneg c]; simp⟩
    · exact ⟨1, by omega, by rw [abs_of_nonpos c]; simp⟩
  have hU0 : 0 ≤ |x| * D := mul_nonneg (abs_nonneg _) d0.le
  rw [← hD] at hx
  have hU1 : |x| * D ≤ 2 ^ 53 := hx
  have hN := Nat.floor_le hU0
  have hN' := Nat.lt_floor_add_one (|x| * D)
  generalize ⌊|x| * D⌋₊ = N at hN hN'
  have hk : N ≤ 2 ^ 53 := by exact_mod_cast le_trans hN hU1
  have big : ∀ k : ℕ, k ≤ 2 ^ 53 → (k * 2 ^ (1074 - n) : ℚ) ≤ 2 ^ 2076 := by
    intro k hk
    have h1 : (k : ℚ) ≤ 2 ^ 53 := by exact_mod_cast hk
    refine le_trans (mul_le_mul_of_nonneg_right h1 (by positivity)) ?_
    rw [← pow_add]
    exact (fun n m (h : n ≤ m) => pow_le_pow_right₀ (by norm_num) h : ∀ n m : ℕ, n ≤ m → (2 : ℚ) ^ n ≤ 2 ^ m) _ _ (by omega)
  have sc : ∀ k : ℚ, k * 2 ^ (1074 - n) / 2 ^ 1074 = k / D := by
    intro k
    rw [hD, show (1074 : ℕ) = n + (1074 - n) by omega, pow_add, show n + (1074 - n) - n = 1074 - n by omega, mul_div_mul_right _ _ (by positivity)]
  obtain ⟨a, ha, fa, va⟩ := double_of (a := N) (b := 1074 - n) (s := s) hk hs (big N hk)
  have na := h.2.1 a ha fa
  rw [sc] at va
  have ga : |value a - x| = |x| - N / D := by
    rw [va]; conv_lhs => rw [hsx]
    rw [← mul_sub, abs_mul, abs_pow, abs_neg, abs_one, one_pow, one_mul, abs_of_nonpos]
    · ring
    · rw [sub_nonpos, div_le_iff₀ d0]; exact hN
  rw [ga] at na
  have ex : |x| = |x| * D / D := by field_simp
  rw [hD']
  rcases Nat.lt_or_eq_of_le hk with c | c
  · obtain ⟨b, hb, fb, vb⟩ := double_of (a := N + 1) (b := 1074 - n) (s := s) c hs (big (N + 1) c)
    have nb := h.2.1 b hb fb
    rw [sc] at vb
    push_cast at vb
    have gb : |value b - x| = (N + 1) / D - |x| := by
      rw [vb]; conv_lhs => rw [hsx]
      rw [← mul_sub, abs_mul, abs_pow, abs_neg, abs_one, one_pow, one_mul, abs_of_nonneg]
      rw [sub_nonneg, le_div_iff₀ d0]; exact hN'.le
    rw [gb, add_div] at nb
    rw [show (1 : ℚ) / (2 * D) = 1 / D / 2 by field_simp]
    linarith
  · have : |x| * D = N := by
      apply le_antisymm _ hN
      rw [c]; push_cast; exact hU1
    rw [ex, this, sub_self] at na
    exact le_trans na (by positivity)

/-- A double nearest to a number of at least 1/4 is at least 1/4. -/
theorem nearest_quarter {x : ℚ} {r : Nat} (h : Nearest x r) (hx : 1 / 4 ≤ |x|) : 1 / 4 ≤ |value r| := by
  have v1 : value 0x3fd0000000000000 = 1 / 4 := by unfold value sign expo frac; norm_num
  have v2 : value 0xbfd0000000000000 = -(1 / 4) := by unfold value sign expo frac; norm_num
  rcases le_total 0 x with c | c
  · have n := h.2.1 0x3fd0000000000000 (by norm_num) (by decide)
    rw [abs_of_nonneg c] at hx
    rw [v1, abs_of_nonpos (show (1 / 4 : ℚ) - x ≤ 0 by linarith)] at n
    have := (abs_le.1 n).1
    exact le_trans (by linarith) (le_abs_self _)
  · have n := h.2.1 0xbfd0000000000000 (by norm_num) (by decide)
    rw [abs_of_nonpos c] at hx
    rw [v2, abs_of_nonneg (show (0 : ℚ) ≤ -(1 / 4) - x by linarith)] at n
    have := (abs_le.1 n).2
    exact le_trans (by linarith) (neg_le_abs _)

/-- A difference, with the error of the grid its magnitude is on. -/
theorem sub_grid {a b : Nat} (ha : a < 2 ^ 64) (hb : b < 2 ^ 64) (fa : IsFinite a) (fb : IsFinite b) (h : |(value a : ℝ) - value b| ≤ 1) :
    sub a b < 2 ^ 64 ∧ IsFinite (sub a b) ∧ (|(value a : ℝ) - value b| ≤ 1 / 4 → |(value (sub a b) : ℝ) - (value a - value b)| ≤ 1 / 2 ^ 56) ∧
    (|(value a : ℝ) - value b| ≤ 1 / 2 → |(value (sub a b) : ℝ) - (value a - value b)| ≤ 1 / 2 ^ 55) ∧
    (1 / 4 ≤ |(value a : ℝ) - value b| → 1 / 4 ≤ |value (sub a b)|) := by
  have nv : value (negate b) = - value b := by
    have := value_negate hb fb
    exact_mod_cast this
  have h' : |value a - value b| ≤ 1 := by
    have : ((|value a - value b| : ℚ) : ℝ) ≤ ((1 : ℚ) : ℝ) := by push_cast; exact h
    exact_mod_cast this
  have nb := (Near.self hb fb).neg
  by_cases h0 : value a - value b = 0
  · have h0' : (value a : ℝ) - value b = 0 := by exact_mod_cast congrArg (fun q : ℚ => (q : ℝ)) h0
    have n := add_err ha nb.1 fa nb.2.1 (by rw [nv]; push_cast; rw [← sub_eq_add_neg, h0']; norm_num)
    rw [nv, ← sub_eq fb] at n
    push_cast at n
    rw [← sub_eq_add_neg, h0', abs_zero, zero_div] at n
    refine ⟨n.1, n.2.1, fun _ => ?_, fun _ => ?_, fun c => ?_⟩
    · rw [h0']; exact le_trans n.2.2 (by positivity)
    · rw [h0']; exact le_trans n.2.2 (by positivity)
    · rw [h0'] at c; norm_num at c
  · have r := Libm.fpu_add ha nb.1 fa nb.2.1 (by rw [nv, ← sub_eq_add_neg]; exact h0)
    rw [nv, ← sub_eq_add_neg, ← sub_eq fb] at r
    obtain ⟨r1, r2⟩ := rounded_near r (by exact le_trans h' (one_le_pow₀ (by norm_num)))
    refine ⟨r1, r2.1, fun c => ?_, fun c => ?_, fun c => ?_⟩
    · have c' : |value a - value b| ≤ 1 / 4 := by
        have : ((|value a - value b| : ℚ) : ℝ) ≤ ((1 / 4 : ℚ) : ℝ) := by push_cast; exact c
        exact_mod_cast this
      have := nearest_grid 55 (by norm_num) r2 (by norm_num at *; linarith)
      have := (Rat.cast_le (K := ℝ)).2 this; push_cast at this ⊢; exact this
    · have c' : |value a - value b| ≤ 1 / 2 := by
        have : ((|value a - value b| : ℚ) : ℝ) ≤ ((1 / 2 : ℚ) : ℝ) := by push_cast; exact c
        exact_mod_cast this
      have := nearest_grid 54 (by norm_num) r2 (by norm_num at *; linarith)
      have := (Rat.cast_le (K := ℝ)).2 this; push_cast at this ⊢; exact this
    · have c' : 1 / 4 ≤ |value a - value b| := by
        have : ((1 / 4 : ℚ) : ℝ) ≤ ((|value a - value b| : ℚ) : ℝ) := by push_cast; exact c
        exact_mod_cast this
      exact nearest_quarter r2 c'

end Pok.Err
