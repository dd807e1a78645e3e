import Verif.Lemmas.Err
import Verif.Props.Sqrt
/-!
# Relative errors over the whole range of the doubles

Sums, products and square roots up to `2^1020`, with the error of a result that is subnormal.
-/
namespace Pok.Rel
open Pok.Float Pok.Fpu Pok.Err

theorem aroundR (U : ℝ) (h0 : 0 ≤ U) : ∃ k e : Nat, k < 2 ^ 53 ∧ (k * 2 ^ e : ℝ) ≤ U ∧ U < (k + 1) * 2 ^ e ∧ (e = 0 ∨ (2 ^ 52 * 2 ^ e : ℝ) ≤ U) := by
  have hN := Nat.floor_le h0
  have hN' := Nat.lt_floor_add_one U
  generalize ⌊U⌋₊ = N at hN hN'
  have hp := Nat.two_pow_pos (Nat.log2 N - 52)
  refine ⟨N / 2 ^ (Nat.log2 N - 52), Nat.log2 N - 52, ?_, ?_, ?_, ?_⟩
  · rw [Nat.div_lt_iff_lt_mul hp]
    rcases Nat.eq_zero_or_pos N with z | z
    · subst z; positivity
    · have := (Nat.log2_lt z.ne' (k := Nat.log2 N + 1)).1 (by omega)
      rw [← Nat.pow_add]
      exact Nat.lt_of_lt_of_le this (Nat.pow_le_pow_right (by omega) (by omega))
  · refine le_trans ?_ hN
    exact_mod_cast Nat.div_mul_le_self N _
  · refine lt_of_lt_of_le hN' ?_
    have : N + 1 ≤ (N / 2 ^ (Nat.log2 N - 52) + 1) * 2 ^ (Nat.log2 N - 52) := Nat.lt_mul_of_div_lt (Nat.lt_succ_self _) hp |> fun h => h
    exact_mod_cast this
  · rcases Nat.lt_or_ge 52 (Nat.log2 N) with g | g
    · right
      refine le_trans ?_ hN
      have n0 : N ≠ 0 := by rintro rfl; simp at g
      have := Nat.log2_self_le n0
      rw [show Nat.log2 N = 52 + (Nat.log2 N - 52) by omega, Nat.pow_add] at this
      exact_mod_cast this
    · left; omega

/-- A number with at most 53 bits, of either sign, below `2^1023` is a double. -/
theorem double_up {a b s : Nat} (ha : a ≤ 2 ^ 53) (hs : s < 2) (hb : a * 2 ^ b ≤ 2 ^ 2097) :
    ∃ d, d < 2 ^ 64 ∧ IsFinite d ∧ (value d : ℝ) = (-1) ^ s * ((a * 2 ^ b : ℝ) / 2 ^ 1074) := by
  obtain ⟨m, hm⟩ : ∃ m, units m = a * 2 ^ b := by
    rcases Nat.lt_or_eq_of_le ha with h | h
    · exact exists_units h
    · obtain ⟨m, hm⟩ := exists_units (a := 2 ^ 52) (b := b + 1) (by omega)
      exact ⟨m, by rw [hm, h, Nat.pow_succ]; ring⟩
  have hi : m < inf := by
    rw [← units_lt, units_inf, hm]
    refine Nat.lt_of_le_of_lt hb ?_
    rw [← Nat.pow_add]
    exact Nat.pow_lt_pow_right (by omega) (by omega)
  have hl := inf_lt
  refine ⟨s * 2 ^ 63 + m, by omega, ?_, ?_⟩
  · rw [finite_iff, mag_make (by omega)]; exact hi
  · rw [value_sm hs (by omega), hm]; push_cast; rfl

/-- A nearest double of a real number is at most half a step away. -/
theorem close {X : ℝ} {r : Nat} (h : ∀ d, d < 2 ^ 64 → IsFinite d → |(value r : ℝ) - X| ≤ |(value d : ℝ) - X|) (hX : |X| ≤ 2 ^ 1020) :
    |(value r : ℝ) - X| ≤ |X| / 2 ^ 53 + 1 / 2 ^ 1075 ∧ ((∃ z : ℤ, X * 2 ^ 1074 = z) → |(value r : ℝ) - X| ≤ |X| / 2 ^ 53) := by
  obtain ⟨D, hD⟩ : ∃ D : ℝ, D = 2 ^ 1074 := ⟨_, rfl⟩
  have d0 : 0 < D := by rw [hD]; positivity
  have hD' : (2 : ℝ) ^ 1075 = 2 * D := by rw [hD, pow_succ]; ring
  obtain ⟨s, hs, hsx⟩ : ∃ s : Nat, s < 2 ∧ X = (-1) ^ s * |X| := by
    rcases le_total 0 X with c | c
    · exact ⟨0, by omega, by rw [abs_of_nonneg c]; simp⟩
    · exact ⟨1, by omega, by rw [abs_of_nonpos c]; simp⟩
  have hU0 : 0 ≤ |X| * D := mul_nonneg (abs_nonneg _) d0.le
  obtain ⟨k, e, hk, h1, h2, h3⟩ := aroundR (|X| * D) hU0
  obtain ⟨P, hP⟩ : ∃ P : ℕ, P = 2 ^ 2094 := ⟨_, rfl⟩
  have P1 : 1 ≤ P := by rw [hP]; exact Nat.one_le_two_pow
  have s2 : (2 : ℕ) ^ 2097 = 8 * P := by rw [hP, show 2097 = 2094 + 3 from rfl, pow_add]; ring
  have big : |X| * D ≤ P := by
    rw [hD, hP]; push_cast; rw [show (2 : ℝ) ^ 2094 = 2 ^ 1020 * 2 ^ 1074 by rw [← pow_add]]
    exact mul_le_mul_of_nonneg_right hX (by positivity)
  clear hP
  have pe : (0 : ℝ) < 2 ^ e := by positivity
  have P1' : (1 : ℝ) ≤ P := by exact_mod_cast P1
  have small : (2 : ℝ) ^ e ≤ P := by
    rcases h3 with z | z
    · rw [z, pow_zero]; exact P1'
    · generalize |X| * D = V at *
      generalize (2 : ℝ) ^ e = W at *
      linarith only [z, big, pe]
  have k1 : k * 2 ^ e ≤ P := by
    have := le_trans h1 big; exact_mod_cast this
  have k2 : 2 ^ e ≤ P := by exact_mod_cast small
  obtain ⟨a, ha, fa, va⟩ := double_up (a := k) (b := e) (s := s) (by omega) hs (by rw [s2]; omega)
  obtain ⟨b, hb, fb, vb⟩ := double_up (a := k + 1) (b := e) (s := s) (by omega) hs (by rw [s2, Nat.add_mul]; omega)
  rw [← hD] at va vb ⊢
  push_cast at vb
  have na := h a ha fa
  have nb := h b hb fb
  have ga : |(value a : ℝ) - X| = |X| - k * 2 ^ e / D := by
    rw [va]; conv_lhs => rw [hsx]
    rw [← mul_sub, abs_mul, abs_pow, abs_neg, abs_one, one_pow, one_mul, abs_of_nonpos]
    · ring
    · rw [sub_nonpos, div_le_iff₀ d0]; exact h1
  have gb : |(value b : ℝ) - X| = (k + 1) * 2 ^ e / D - |X| := by
    rw [vb]; conv_lhs => rw [hsx]
    rw [← mul_sub, abs_mul, abs_pow, abs_neg, abs_one, one_pow, one_mul, abs_of_nonneg]
    rw [sub_nonneg, le_div_iff₀ d0]; exact h2.le
  rw [ga] at na; rw [gb] at nb
  have sum : |(value r : ℝ) - X| * 2 ≤ 2 ^ e / D := by
    have : ((k : ℝ) + 1) * 2 ^ e / D = k * 2 ^ e / D + 2 ^ e / D := by rw [add_mul, one_mul, add_div]
    rw [this] at nb
    linarith
  have px : (0 : ℝ) ≤ |X| / 2 ^ 53 := by positivity
  rcases h3 with z | z
  · subst z
    constructor
    · rw [hD', show (1 : ℝ) / (2 * D) = 1 / D / 2 by field_simp]
      rw [pow_zero] at sum; linarith
    · rintro ⟨w, hw⟩
      have hw' : ((w.natAbs : ℕ) : ℝ) = |X| * D := by
        have : |(w : ℝ)| = |X| * D := by rw [← hw, abs_mul, abs_of_pos d0]
        rw [← this, Nat.cast_natAbs, Int.cast_abs]
      rw [pow_zero, mul_one, ← hw'] at h1 h2
      have : w.natAbs = k := by
        have a1 : k ≤ w.natAbs := by exact_mod_cast h1
        have a2 : w.natAbs < k + 1 := by exact_mod_cast h2
        omega
      rw [this] at hw'
      have : |X| - k * 2 ^ 0 / D = 0 := by rw [pow_zero, mul_one, hw', mul_div_cancel_right₀ _ d0.ne', sub_self]
      rw [this] at na
      linarith
  · have q : (2 : ℝ) ^ e / D ≤ |X| / 2 ^ 52 := by
      rw [div_le_iff₀ d0, div_mul_eq_mul_div, le_div_iff₀ (by positivity), mul_comm]; exact z
    have q2 : |X| / 2 ^ 52 = |X| / 2 ^ 53 * 2 := by ring
    constructor
    · rw [hD'] at *; have : (0 : ℝ) ≤ 1 / (2 * D) := by positivity
      linarith
    · intro _; linarith

theorem rounded_close {x : ℚ} {s r : Nat} (h : Rounded x s r) (hx : |(x : ℝ)| ≤ 2 ^ 1020) : r < 2 ^ 64 ∧ Nearest x r ∧
    ∀ d, d < 2 ^ 64 → IsFinite d → |(value r : ℝ) - x| ≤ |(value d : ℝ) - x| := by
  obtain ⟨h1, _, h3⟩ := h
  have hq : |x| ≤ 2 ^ 1020 := abs_cast x 1020 hx le_rfl
  rw [if_pos] at h3
  · refine ⟨h1, h3, fun d hd fd => ?_⟩
    have := (Rat.cast_le (K := ℝ)).2 (h3.2.1 d hd fd)
    push_cast at this; exact this
  · refine lt_of_le_of_lt hq ?_
    have : (2 : ℚ) ^ 1020 = 2 ^ 50 * 2 ^ 970 := by rw [← pow_add]
    rw [this]
    exact mul_lt_mul_of_pos_right (by norm_num) (by positivity)

theorem add_rel {a b : Nat} (ha : a < 2 ^ 64) (hb : b < 2 ^ 64) (fa : IsFinite a) (fb : IsFinite b) (h : |(value a : ℝ) + value b| ≤ 2 ^ 1020) :
    Near (add a b) ((value a : ℝ) + value b) (|(value a : ℝ) + value b| / 2 ^ 53) := by
  by_cases h0 : value a + value b = 0
  · have h0' : (value a : ℝ) + value b = 0 := by exact_mod_cast congrArg (fun q : ℚ => (q : ℝ)) h0
    exact add_err ha hb fa fb (by rw [h0', abs_zero]; positivity)
  · have r := Libm.fpu_add ha hb fa fb h0
    obtain ⟨r1, r2, r3⟩ := rounded_close r (by push_cast; exact h)
    push_cast at r3
    refine ⟨r1, r2.1, (close r3 h).2 ⟨sunits a + sunits b, ?_⟩⟩
    rw [value_units, value_units]; push_cast; rw [← add_div, div_mul_cancel₀ _ (by positivity)]

theorem mul_rel {a b : Nat} (ha : a < 2 ^ 64) (hb : b < 2 ^ 64) (fa : IsFinite a) (fb : IsFinite b) (h : |(value a : ℝ) * value b| ≤ 2 ^ 1020) :
    Near (mul a b) ((value a : ℝ) * value b) (|(value a : ℝ) * value b| / 2 ^ 53 + 1 / 2 ^ 1075) := by
  have r := Libm.fpu_mul ha hb fa fb
  obtain ⟨r1, r2, r3⟩ := rounded_close r (by push_cast; exact h)
  push_cast at r3
  exact ⟨r1, r2.1, (close r3 h).1⟩

theorem sqrt_rel {x : Nat} (hx : x < 2 ^ 64) (fx : IsFinite x) (p : 0 < (value x : ℝ)) :
    Near (Libm.sqrt x) (Real.sqrt (value x)) (Real.sqrt (value x) / 2 ^ 53 + 1 / 2 ^ 1075) := by
  have s : sign x = 0 := by
    by_contra c
    have c : sign x = 1 := by have := sign_lt x; omega
    have p : 0 < value x := by exact_mod_cast p
    unfold value at p
    rw [c, pow_one, neg_one_mul, neg_pos] at p
    refine absurd p (not_lt.2 ?_)
    split
    · exact mul_nonneg (by positivity) (zpow_nonneg (by norm_num) _)
    · exact mul_nonneg (by positivity) (zpow_nonneg (by norm_num) _)
  have z : ¬ IsZero x := by
    intro z
    have : value x = 0 := by unfold value; rw [if_pos z.1, z.2]; simp
    rw [this] at p; simp at p
  obtain ⟨n1, n2, n3, n4⟩ := Libm.C91_sqrt hx fx s z
  have h : ∀ d, d < 2 ^ 64 → IsFinite d → |(value (Libm.sqrt x) : ℝ) - Real.sqrt (value x)| ≤ |(value d : ℝ) - Real.sqrt (value x)| := by
    intro d hd fd
    by_cases e : value d = value (Libm.sqrt x)
    · rw [e]
    · exact (n4 d hd fd e).le
  have b : |Real.sqrt (value x : ℝ)| ≤ 2 ^ 1020 := by
    rw [abs_of_nonneg (Real.sqrt_nonneg _), Real.sqrt_le_left (by positivity)]
    have := value_mono (x := x) (c := inf - 1) hx (by decide) (by have := (finite_iff x).1 fx; omega)
    have : value x ≤ 2 ^ 1024 := by
      refine le_trans (le_abs_self _) (le_trans this ?_)
      unfold inf value sign expo frac; norm_num
      rw [show (2 : ℚ) ^ 1024 = 2 * 2 ^ 1023 by rw [show 1024 = 1023 + 1 from rfl, pow_succ, mul_comm]]
      exact mul_le_mul_of_nonneg_right (by norm_num) (by positivity)
    have := (Rat.cast_le (K := ℝ)).2 this
    push_cast at this
    refine le_trans this ?_
    rw [← pow_mul]; exact pow_le_pow_right₀ (by norm_num) (by norm_num)
  have := (close h b).1
  rw [abs_of_nonneg (Real.sqrt_nonneg (value x : ℝ))] at this
  exact ⟨n1, n2, this⟩

end Pok.Rel
