import Verif.Lemmas.Pow
import Verif.Props.Scale
import Mathlib.Data.Real.Basic
/-!
# Rounding errors

How far the result of an operation of the unit can be from the exact one, and a small calculus to follow errors through straight-line code.
-/
namespace Pok.Err
open Pok.Float Pok.Fpu

/-- Two neighbouring doubles around a number: `k * 2^e` and `(k + 1) * 2^e` multiples of the least double. -/
theorem around (U : ℚ) (h0 : 0 ≤ U) : ∃ k e : Nat, k < 2 ^ 53 ∧ (k * 2 ^ e : ℚ) ≤ U ∧ U < (k + 1) * 2 ^ e ∧ (e = 0 ∨ (2 ^ 52 * 2 ^ e : ℚ) ≤ U) := by
  have hN := Nat.floor_le h0
  have hN' := Nat.lt_floor_add_one U
  generalize ⌊U⌋₊ = N at hN hN'
  have hp := Nat.two_pow_pos (Nat.log2 N - 52)
  refine ⟨N / 2 ^ (Nat.log2 N - 52), Nat.log2 N - 52, ?_, ?_, ?_, ?_⟩
  · rw [Nat.div_lt_iff_lt_mul hp]
    rcases Nat.eq_zero_or_pos N with z | z
    · subst z; positivity
    · have := (Nat.log2_lt z.ne' (k := Nat.log2 N + 1)).1 (by omega)
      rw [← Nat.pow_add]
      exact Nat.lt_of_lt_of_le this (Nat.pow_le_pow_right (by omega) (by omega))
  · refine le_trans ?_ hN
    exact_mod_cast Nat.div_mul_le_self N _
  · refine lt_of_lt_of_le hN' ?_
    have : N + 1 ≤ (N / 2 ^ (Nat.log2 N - 52) + 1) * 2 ^ (Nat.log2 N - 52) := Nat.lt_mul_of_div_lt (Nat.lt_succ_self _) hp |> fun h => h
    exact_mod_cast this
  · rcases Nat.lt_or_ge 52 (Nat.log2 N) with g | g
    · right
      refine le_trans ?_ hN
      have n0 : N ≠ 0 := by rintro rfl; simp at g
      have := Nat.log2_self_le n0
      rw [show Nat.log2 N = 52 + (Nat.log2 N - 52) by omega, Nat.pow_add] at this
      exact_mod_cast this
    · left; omega

/-- A number with at most 53 bits, of either sign, that is not too large is a double. -/
theorem double_of {a b s : Nat} (ha : a ≤ 2 ^ 53) (hs : s < 2) (hb : (a * 2 ^ b : ℚ) ≤ 2 ^ 2076) :
    ∃ d, d < 2 ^ 64 ∧ IsFinite d ∧ value d = (-1) ^ s * ((a * 2 ^ b : ℚ) / 2 ^ 1074) := by
  obtain ⟨m, hm⟩ : ∃ m, units m = a * 2 ^ b := by
    rcases Nat.lt_or_eq_of_le ha with h | h
    · exact exists_units h
    · obtain ⟨m, hm⟩ := exists_units (a := 2 ^ 52) (b := b + 1) (by omega)
      exact ⟨m, by rw [hm, h, Nat.pow_succ]; ring⟩
  have hi : m < inf := by
    rw [← units_lt, units_inf, hm]
    have h1 : a * 2 ^ b ≤ 2 ^ 2076 := by exact_mod_cast hb
    refine Nat.lt_of_le_of_lt h1 ?_
    rw [← Nat.pow_add]
    exact Nat.pow_lt_pow_right (by omega) (by omega)
  have hl := inf_lt
  refine ⟨s * 2 ^ 63 + m, by omega, ?_, ?_⟩
  · rw [finite_iff, mag_make (by omega)]; exact hi
  · rw [value_sm hs (by omega), hm]; push_cast; rfl

/-- A nearest double is at most half a step away. -/
theorem nearest_err {x : ℚ} {r : Nat} (h : Nearest x r) (hx : |x| ≤ 2 ^ 1000) :
    |value r - x| ≤ |x| / 2 ^ 53 + 1 / 2 ^ 1075 ∧ ((∃ z : ℤ, x * 2 ^ 1074 = z) → |value r - x| ≤ |x| / 2 ^ 53) := by
  obtain ⟨D, hD⟩ : ∃ D : ℚ, D = 2 ^ 1074 := ⟨_, rfl⟩
  have d0 : 0 < D := by rw [hD]; positivity
  have hD' : (2 : ℚ) ^ 1075 = 2 * D := by rw [hD, pow_succ]; ring
  obtain ⟨s, hs, hsx⟩ : ∃ s : Nat, s < 2 ∧ x = (-1) ^ s * |x| := by
    rcases le_total 0 x with c | c
    · exact ⟨0, by omega, by rw [abs_of_nonneg c]; simp⟩
    · exact ⟨1, by omega, by rw [abs_of_nonpos c]; simp⟩
  have hU0 : 0 ≤ |x| * D := mul_nonneg (abs_nonneg _) d0.le
  obtain ⟨k, e, hk, h1, h2, h3⟩ := around (|x| * D) hU0
  obtain ⟨P, hP⟩ : ∃ P : ℚ, P = 2 ^ 2074 := ⟨_, rfl⟩
  have P1 : 1 ≤ P := by rw [hP]; exact one_le_pow₀ (by norm_num)
  have s2 : (2 : ℚ) ^ 2076 = 4 * P := by rw [hP, show 2076 = 2074 + 2 from rfl, pow_add]; ring
  have big : |x| * D ≤ P := by
    rw [hD, hP, show (2 : ℚ) ^ 2074 = 2 ^ 1000 * 2 ^ 1074 by rw [← pow_add]]
    exact mul_le_mul_of_nonneg_right hx (by positivity)
  clear hP
  have pe : (0 : ℚ) < 2 ^ e := by positivity
  have small : (2 : ℚ) ^ e ≤ P := by
    rcases h3 with z | z
    · rw [z, pow_zero]; exact P1
    · generalize |x| * D = V at *
      generalize (2 : ℚ) ^ e = W at *
      linarith only [z, big, pe]
  obtain ⟨a, ha, fa, va⟩ := double_of (a := k) (b := e) (s := s) (by omega) hs (by
    rw [s2]; generalize |x| * D = V at *; exact le_trans h1 (by linarith only [big, P1]))
  obtain ⟨b, hb, fb, vb⟩ := double_of (a := k + 1) (b := e) (s := s) (by omega) hs (by
    rw [s2]; push_cast; rw [add_mul]
    generalize |x| * D = V at *
    generalize (2 : ℚ) ^ e = W at *
    generalize (k : ℚ) * W = Y at *
    linarith only [h1, big, small, P1])
  rw [← hD] at va vb ⊢
  push_cast at vb
  have na := h.2.1 a ha fa
  have nb := h.2.1 b hb fb
  have ga : |value a - x| = |x| - k * 2 ^ e / D := by
    rw [va]; conv_lhs => rw [hsx]
    rw [← mul_sub, abs_mul, abs_pow, abs_neg, abs_one, one_pow, one_mul, abs_of_nonpos]
    · ring
    · rw [sub_nonpos, div_le_iff₀ d0]; exact h1
  have gb : |value b - x| = (k + 1) * 2 ^ e / D - |x| := by
    rw [vb]; conv_lhs => rw [hsx]
    rw [← mul_sub, abs_mul, abs_pow, abs_neg, abs_one, one_pow, one_mul, abs_of_nonneg]
    rw [sub_nonneg, le_div_iff₀ d0]; exact h2.le
  rw [ga] at na; rw [gb] at nb
  have sum : |value r - x| * 2 ≤ 2 ^ e / D := by
    have : (k + 1) * 2 ^ e / D = k * 2 ^ e / D + 2 ^ e / D := by rw [add_mul, one_mul, add_div]
    rw [this] at nb
    linarith
  have px : (0 : ℚ) ≤ |x| / 2 ^ 53 := by positivity
  rcases h3 with z | z
  · subst z
    constructor
    · rw [hD', show (1 : ℚ) / (2 * D) = 1 / D / 2 by field_simp]
      rw [pow_zero] at sum; linarith
    · rintro ⟨w, hw⟩
      -- the number is itself a double
      have hw' : ((w.natAbs : ℕ) : ℚ) = |x| * D := by
        have : |(w : ℚ)| = |x| * D := by rw [← hw, abs_mul, abs_of_pos d0]
        rw [← this, Nat.cast_natAbs, Int.cast_abs]
      rw [pow_zero, mul_one, ← hw'] at h1 h2
      have : w.natAbs = k := by
        have a1 : k ≤ w.natAbs := by exact_mod_cast h1
        have a2 : w.natAbs < k + 1 := by exact_mod_cast h2
        omega
      rw [this] at hw'
      have : |x| - k * 2 ^ 0 / D = 0 := by rw [pow_zero, mul_one, hw', mul_div_cancel_right₀ _ d0.ne', sub_self]
      rw [this] at na
      linarith
  · have q : (2 : ℚ) ^ e / D ≤ |x| / 2 ^ 52 := by
      rw [div_le_iff₀ d0, div_mul_eq_mul_div, le_div_iff₀ (by positivity), mul_comm]; exact z
    have q2 : |x| / 2 ^ 52 = |x| / 2 ^ 53 * 2 := by ring
    have p5 : (0 : ℚ) ≤ 1 / 2 ^ 1075 := by positivity
    constructor
    · rw [hD'] at *; have : (0 : ℚ) ≤ 1 / (2 * D) := by positivity
      linarith
    · intro _; linarith

/-- A number that is a double is not changed by rounding. -/
theorem nearest_exact {x : ℚ} {r d : Nat} (h : Nearest x r) (hd : d < 2 ^ 64) (fd : IsFinite d) (e : value d = x) : value r = x := by
  have := h.2.1 d hd fd
  rw [e, sub_self, abs_zero] at this
  have := abs_nonpos_iff.1 this
  linarith

/-! ## Numbers and the doubles near them -/

/-- The double `a` is finite and at most `e` away from `v`. -/
def Near (a : Nat) (v e : ℝ) : Prop := a < 2 ^ 64 ∧ IsFinite a ∧ |(value a : ℝ) - v| ≤ e

theorem Near.weaken {a : Nat} {v e f : ℝ} (h : Near a v e) (hf : e ≤ f) : Near a v f := ⟨h.1, h.2.1, le_trans h.2.2 hf⟩

theorem Near.self {a : Nat} (h : a < 2 ^ 64) (f : IsFinite a) : Near a (value a) 0 := ⟨h, f, by simp⟩

theorem Near.move {a : Nat} {v w e f : ℝ} (h : Near a v e) (hw : |v - w| ≤ f) : Near a w (e + f) := by
  refine ⟨h.1, h.2.1, ?_⟩
  have := abs_add_le ((value a : ℝ) - v) (v - w)
  rw [sub_add_sub_cancel] at this
  have := h.2.2
  linarith

theorem Near.abs_le {a : Nat} {v e m : ℝ} (h : Near a v e) (hm : |v| ≤ m) : |(value a : ℝ)| ≤ m + e := by
  have := abs_add_le ((value a : ℝ) - v) v
  rw [sub_add_cancel] at this
  have := h.2.2
  linarith

theorem tiny_le : (1 : ℝ) / 2 ^ 1075 ≤ 1 / 2 ^ 200 :=
  one_div_le_one_div_of_le (by positivity) (pow_le_pow_right₀ (by norm_num) (by norm_num))

/-- What `Rounded` says of a number that is not too large. -/
theorem rounded_near {x : ℚ} {s r : Nat} (h : Rounded x s r) (hx : |x| ≤ 2 ^ 1000) : r < 2 ^ 64 ∧ Nearest x r := by
  obtain ⟨h1, _, h3⟩ := h
  refine ⟨h1, ?_⟩
  rw [if_pos] at h3
  · exact h3
  · refine lt_of_le_of_lt hx ?_
    have : (2 : ℚ) ^ 1000 = 2 ^ 30 * 2 ^ 970 := by rw [← pow_add]
    rw [this]
    exact mul_lt_mul_of_pos_right (by norm_num) (by positivity)

theorem abs_cast (q : ℚ) {b : ℝ} (n : Nat) (h : |(q : ℝ)| ≤ b) (hb : b ≤ 2 ^ n) : |q| ≤ 2 ^ n := by
  have : (((|q| : ℚ)) : ℝ) ≤ ((2 ^ n : ℚ) : ℝ) := by push_cast; exact le_trans h hb
  exact_mod_cast this

/-- The sum of two doubles: exact up to a relative error of `2^-53`. -/
theorem add_err {a b : Nat} (ha : a < 2 ^ 64) (hb : b < 2 ^ 64) (fa : IsFinite a) (fb : IsFinite b) (h : |(value a : ℝ) + value b| ≤ 2 ^ 200) :
    Near (add a b) ((value a : ℝ) + value b) (|(value a : ℝ) + value b| / 2 ^ 53) := by
  by_cases h0 : value a + value b = 0
  · have e : add a b = if neg a && neg b then 2 ^ 63 else 0 := by
      rw [add_finite ((finite_iff a).1 fa) ((finite_iff b).1 fb), if_pos]
      rw [value_units, value_units, ← add_div, ← Int.cast_add] at h0
      rcases div_eq_zero_iff.1 h0 with z | z
      · exact_mod_cast z
      · exact absurd z (by positivity)
    have h0' : (value a : ℝ) + value b = 0 := by exact_mod_cast congrArg (fun q : ℚ => (q : ℝ)) h0
    rw [h0', e]
    split
    · refine ⟨by norm_num, by decide, ?_⟩
      have : value (2 ^ 63) = 0 := by unfold value sign expo frac; norm_num
      rw [this]; simp
    · refine ⟨by norm_num, by decide, ?_⟩
      have : value 0 = 0 := by unfold value sign expo frac; norm_num
      rw [this]; simp
  · have r := Libm.fpu_add ha hb fa fb h0
    have hq : |value a + value b| ≤ 2 ^ 1000 := by
      apply abs_cast (b := 2 ^ 200)
      · push_cast; exact h
      · exact pow_le_pow_right₀ (by norm_num) (by norm_num)
    obtain ⟨r1, r2⟩ := rounded_near r hq
    have := (nearest_err r2 hq).2 ⟨sunits a + sunits b, by
      rw [value_units, value_units, ← add_div, div_mul_cancel₀ _ (by positivity)]; push_cast; rfl⟩
    refine ⟨r1, r2.1, ?_⟩
    have := (Rat.cast_le (K := ℝ)).2 this
    push_cast at this ⊢
    exact this

theorem add_exact {a b d : Nat} (ha : a < 2 ^ 64) (hb : b < 2 ^ 64) (fa : IsFinite a) (fb : IsFinite b) (h : |(value a : ℝ) + value b| ≤ 2 ^ 200)
    (hd : d < 2 ^ 64) (fd : IsFinite d) (e : value d = value a + value b) :
    add a b < 2 ^ 64 ∧ IsFinite (add a b) ∧ value (add a b) = value a + value b := by
  obtain ⟨n1, n2, n3⟩ := add_err ha hb fa fb h
  refine ⟨n1, n2, ?_⟩
  by_cases h0 : value a + value b = 0
  · have h0' : (value a : ℝ) + value b = 0 := by exact_mod_cast congrArg (fun q : ℚ => (q : ℝ)) h0
    rw [h0', abs_zero, zero_div, sub_zero] at n3
    have := abs_nonpos_iff.1 n3
    rw [h0]; exact_mod_cast this
  · have r := Libm.fpu_add ha hb fa fb h0
    have hq : |value a + value b| ≤ 2 ^ 1000 := by
      apply abs_cast (b := 2 ^ 200)
      · push_cast; exact h
      · exact pow_le_pow_right₀ (by norm_num) (by norm_num)
    exact nearest_exact (rounded_near r hq).2 hd fd e

/-- The product of two doubles. -/
theorem mul_err {a b : Nat} (ha : a < 2 ^ 64) (hb : b < 2 ^ 64) (fa : IsFinite a) (fb : IsFinite b) (h : |(value a : ℝ) * value b| ≤ 2 ^ 200) :
    Near (mul a b) ((value a : ℝ) * value b) (|(value a : ℝ) * value b| / 2 ^ 53 + 1 / 2 ^ 200) := by
  have r := Libm.fpu_mul ha hb fa fb
  have hq : |value a * value b| ≤ 2 ^ 1000 := by
    apply abs_cast (b := 2 ^ 200)
    · push_cast; exact h
    · exact pow_le_pow_right₀ (by norm_num) (by norm_num)
  obtain ⟨r1, r2⟩ := rounded_near r hq
  have := (nearest_err r2 hq).1
  refine ⟨r1, r2.1, ?_⟩
  have := (Rat.cast_le (K := ℝ)).2 this
  rw [Rat.cast_add, Rat.cast_div, Rat.cast_div, Rat.cast_one, Rat.cast_pow, Rat.cast_pow, Rat.cast_ofNat, Rat.cast_abs, Rat.cast_abs, Rat.cast_sub,
    Rat.cast_mul] at this
  exact le_trans this (add_le_add le_rfl tiny_le)

theorem mul_exact {a b d : Nat} (ha : a < 2 ^ 64) (hb : b < 2 ^ 64) (fa : IsFinite a) (fb : IsFinite b) (h : |(value a : ℝ) * value b| ≤ 2 ^ 200)
    (hd : d < 2 ^ 64) (fd : IsFinite d) (e : value d = value a * value b) :
    mul a b < 2 ^ 64 ∧ IsFinite (mul a b) ∧ value (mul a b) = value a * value b := by
  obtain ⟨n1, n2, n3⟩ := mul_err ha hb fa fb h
  have r := Libm.fpu_mul ha hb fa fb
  have hq : |value a * value b| ≤ 2 ^ 1000 := by
    apply abs_cast (b := 2 ^ 200)
    · push_cast; exact h
    · exact pow_le_pow_right₀ (by norm_num) (by norm_num)
  exact ⟨n1, n2, nearest_exact (rounded_near r hq).2 hd fd e⟩

theorem Near.neg {a : Nat} {v e : ℝ} (h : Near a v e) : Near (negate a) (-v) e := by
  obtain ⟨h1, h2, h3⟩ := h
  have e1 : negate a = (1 - sign a) * 2 ^ 63 + mag a := by
    conv_lhs => rw [self_eq h1]
    exact negate_make (sign_lt a) (mag_lt a)
  have s := sign_lt a
  have m := mag_lt a
  refine ⟨by rw [e1]; omega, ?_, ?_⟩
  · rw [finite_iff, e1, mag_make m]; exact (finite_iff a).1 h2
  · have : value (negate a) = - value a := by
      rw [e1, value_sm (by omega) m, value_self h1]
      rcases Nat.lt_or_ge (sign a) 1 with c | c
      · rw [show sign a = 0 by omega]; ring
      · rw [show sign a = 1 by omega]; ring
    rw [this, Rat.cast_neg, ← abs_neg]
    rw [show -(-(value a : ℝ) - -v) = (value a : ℝ) - v by ring]
    exact h3

theorem value_negate {a : Nat} (h : a < 2 ^ 64) (f : IsFinite a) : (value (negate a) : ℝ) = - value a := by
  have := ((Near.self h f).neg).2.2
  have := abs_nonpos_iff.1 this
  linarith

theorem Near.add {a b : Nat} {v w e f m g : ℝ} (ha : Near a v e) (hb : Near b w f) (hm : |v + w| ≤ m) (hg : e + f + (m + e + f) / 2 ^ 53 ≤ g)
    (hh : m + e + f ≤ 2 ^ 200) : Near (Fpu.add a b) (v + w) g := by
  have d : |(value a : ℝ) + value b - (v + w)| ≤ e + f := by
    rw [show (value a : ℝ) + value b - (v + w) = ((value a : ℝ) - v) + ((value b : ℝ) - w) by ring]
    exact le_trans (abs_add_le _ _) (add_le_add ha.2.2 hb.2.2)
  have s : |(value a : ℝ) + value b| ≤ m + e + f := by
    have := abs_add_le ((value a : ℝ) + value b - (v + w)) (v + w)
    rw [sub_add_cancel] at this
    linarith
  have := (add_err ha.1 hb.1 ha.2.1 hb.2.1 (le_trans s hh)).move d
  refine this.weaken (le_trans ?_ hg)
  have := div_le_div_of_nonneg_right s (c := (2 : ℝ) ^ 53) (by positivity)
  linarith

theorem sub_eq {a b : Nat} (hb : IsFinite b) : sub a b = Fpu.add a (negate b) := by
  unfold sub
  rw [notNaN ((finite_iff b).1 hb)]
  simp only [Bool.false_eq_true, if_false]

theorem Near.sub {a b : Nat} {v w e f m g : ℝ} (ha : Near a v e) (hb : Near b w f) (hm : |v - w| ≤ m) (hg : e + f + (m + e + f) / 2 ^ 53 ≤ g)
    (hh : m + e + f ≤ 2 ^ 200) : Near (Fpu.sub a b) (v - w) g := by
  rw [sub_eq hb.2.1, sub_eq_add_neg]
  exact ha.add hb.neg (by rwa [← sub_eq_add_neg]) hg hh

theorem Near.mul {a b : Nat} {v w e f m n g : ℝ} (ha : Near a v e) (hb : Near b w f) (hm : |v| ≤ m) (hn : |w| ≤ n)
    (hg : e * n + f * m + e * f + (m * n + (e * n + f * m + e * f)) / 2 ^ 53 + 1 / 2 ^ 200 ≤ g)
    (hh : m * n + (e * n + f * m + e * f) ≤ 2 ^ 200) : Near (Fpu.mul a b) (v * w) g := by
  have e0 : 0 ≤ e := le_trans (abs_nonneg _) ha.2.2
  have f0 : 0 ≤ f := le_trans (abs_nonneg _) hb.2.2
  have m0 : 0 ≤ m := le_trans (abs_nonneg _) hm
  have n0 : 0 ≤ n := le_trans (abs_nonneg _) hn
  have d : |(value a : ℝ) * value b - v * w| ≤ e * n + f * m + e * f := by
    rw [show (value a : ℝ) * value b - v * w = ((value a : ℝ) - v) * w + ((value b : ℝ) - w) * v + ((value a : ℝ) - v) * ((value b : ℝ) - w) by ring]
    refine le_trans (abs_add_le _ _) (add_le_add (le_trans (abs_add_le _ _) (add_le_add ?_ ?_)) ?_)
    · rw [abs_mul]; exact mul_le_mul ha.2.2 hn (abs_nonneg _) e0
    · rw [abs_mul]; exact mul_le_mul hb.2.2 hm (abs_nonneg _) f0
    · rw [abs_mul]; exact mul_le_mul ha.2.2 hb.2.2 (abs_nonneg _) e0
  have s : |(value a : ℝ) * value b| ≤ m * n + (e * n + f * m + e * f) := by
    have := abs_add_le ((value a : ℝ) * value b - v * w) (v * w)
    rw [sub_add_cancel] at this
    have := mul_le_mul hm hn (abs_nonneg _) m0
    rw [← abs_mul] at this
    linarith
  have := (mul_err ha.1 hb.1 ha.2.1 hb.2.1 (le_trans s hh)).move d
  refine this.weaken (le_trans ?_ hg)
  have := div_le_div_of_nonneg_right s (c := (2 : ℝ) ^ 53) (by positivity)
  linarith

/-! The same with a bound of the number itself. -/

/-- `a` is at most `e` away from `v`, and `v` is at most `m`. -/
def Nb (a : Nat) (v e m : ℝ) : Prop := Near a v e ∧ |v| ≤ m

theorem Nb.add {a b : Nat} {v w e f m n : ℝ} (g k : ℝ) (ha : Nb a v e m) (hb : Nb b w f n) (hg : e + f + (m + n + e + f) / 2 ^ 53 ≤ g) (hk : m + n ≤ k)
    (hh : m + n + e + f ≤ 2 ^ 200) : Nb (Fpu.add a b) (v + w) g k := by
  have : |v + w| ≤ m + n := le_trans (abs_add_le _ _) (add_le_add ha.2 hb.2)
  exact ⟨ha.1.add hb.1 this hg hh, le_trans this hk⟩

theorem Nb.sub {a b : Nat} {v w e f m n : ℝ} (g k : ℝ) (ha : Nb a v e m) (hb : Nb b w f n) (hg : e + f + (m + n + e + f) / 2 ^ 53 ≤ g) (hk : m + n ≤ k)
    (hh : m + n + e + f ≤ 2 ^ 200) : Nb (Fpu.sub a b) (v - w) g k := by
  have : |v - w| ≤ m + n := le_trans (abs_sub _ _) (add_le_add ha.2 hb.2)
  exact ⟨ha.1.sub hb.1 this hg hh, le_trans this hk⟩

theorem Nb.mul {a b : Nat} {v w e f m n : ℝ} (g k : ℝ) (ha : Nb a v e m) (hb : Nb b w f n)
    (hg : e * n + f * m + e * f + (m * n + (e * n + f * m + e * f)) / 2 ^ 53 + 1 / 2 ^ 200 ≤ g) (hk : m * n ≤ k)
    (hh : m * n + (e * n + f * m + e * f) ≤ 2 ^ 200) : Nb (Fpu.mul a b) (v * w) g k := by
  refine ⟨ha.1.mul hb.1 ha.2 hb.2 hg hh, ?_⟩
  rw [abs_mul]
  exact le_trans (mul_le_mul ha.2 hb.2 (abs_nonneg _) (le_trans (abs_nonneg _) ha.2)) hk

theorem Nb.const {a : Nat} {q : ℚ} {m : ℝ} (h : a < 2 ^ 64 ∧ IsFinite a ∧ value a = q) (hm : |(q : ℝ)| ≤ m) : Nb a (q : ℝ) 0 m :=
  ⟨⟨h.1, h.2.1, by rw [h.2.2]; simp⟩, hm⟩

/-- The same with a bound of the difference. -/
theorem Nb.sub' {a b : Nat} {v w e f m n : ℝ} (g k : ℝ) (ha : Nb a v e m) (hb : Nb b w f n) (hk : |v - w| ≤ k) (hg : e + f + (k + e + f) / 2 ^ 53 ≤ g)
    (hh : k + e + f ≤ 2 ^ 200) : Nb (Fpu.sub a b) (v - w) g k := ⟨ha.1.sub hb.1 hk hg hh, hk⟩

theorem Nb.add' {a b : Nat} {v w e f m n : ℝ} (g k : ℝ) (ha : Nb a v e m) (hb : Nb b w f n) (hk : |v + w| ≤ k) (hg : e + f + (k + e + f) / 2 ^ 53 ≤ g)
    (hh : k + e + f ≤ 2 ^ 200) : Nb (Fpu.add a b) (v + w) g k := ⟨ha.1.add hb.1 hk hg hh, hk⟩

theorem Nb.weaken {a : Nat} {v e m f n : ℝ} (h : Nb a v e m) (hf : e ≤ f) (hn : m ≤ n) : Nb a v f n := ⟨h.1.weaken hf, le_trans h.2 hn⟩

/-! ## Words and magnitudes -/

theorem hi31 {x : Nat} (hx : x < 2 ^ 64) : Libm.hi x &&& 0x7fffffff = mag x / 2 ^ 32 := by
  rw [and_31, hi_eq hx]; unfold mag; omega

theorem value_mono {x c : Nat} (hx : x < 2 ^ 64) (hc : c < 2 ^ 63) (h : mag x ≤ c) : |value x| ≤ value c := by
  have e : value c = (units c : ℚ) / 2 ^ 1074 := by
    have := value_sm (s := 0) (by omega) hc
    rwa [Nat.zero_mul, Nat.zero_add, pow_zero, one_mul] at this
  rw [abs_value' hx, e]
  refine div_le_div_of_nonneg_right ?_ (by positivity)
  exact_mod_cast units_le.2 h

theorem value_mono' {x c : Nat} (hx : x < 2 ^ 64) (hc : c < 2 ^ 63) (h : c ≤ mag x) : value c ≤ |value x| := by
  have e : value c = (units c : ℚ) / 2 ^ 1074 := by
    have := value_sm (s := 0) (by omega) hc
    rwa [Nat.zero_mul, Nat.zero_add, pow_zero, one_mul] at this
  rw [abs_value' hx, e]
  refine div_le_div_of_nonneg_right ?_ (by positivity)
  exact_mod_cast units_le.2 h

/-- Half of a double that is not tiny is a double. -/
theorem half_exact {z : Nat} (hz : z < 2 ^ 64) (fz : IsFinite z) (h : 1 / 2 ^ 300 ≤ |value z|) (h' : |value z| ≤ 2 ^ 1000) :
    ∃ d, d < 2 ^ 64 ∧ IsFinite d ∧ value d = value z / 2 := by
  have hu : (2 : ℕ) ^ 774 ≤ units (mag z) := by
    rw [abs_value' hz, div_le_div_iff₀ (by positivity) (by positivity), one_mul, show (2 : ℚ) ^ 1074 = 2 ^ 774 * 2 ^ 300 by rw [← pow_add]] at h
    have := le_of_mul_le_mul_right h (by positivity)
    exact_mod_cast this
  have he : 2 ≤ expo z := by
    by_contra c
    have : mag z ≤ 2 * 2 ^ 52 + 0 := by rw [mag_eq]; have := frac_lt z; omega
    have := units_le.2 this
    rw [units_make (by omega) (by omega)] at this
    have l : (2 : ℕ) ^ 60 ≤ 2 ^ 774 := Nat.pow_le_pow_right (by omega) (by omega)
    generalize (2 : ℕ) ^ 774 = W at *
    omega
  have e := units_expo z
  rw [if_neg (by omega)] at e
  have hf := frac_lt z
  have hE := expo_lt z
  obtain ⟨d, hd, fd, vd⟩ := double_of (a := 2 ^ 52 + frac z) (b := expo z - 2) (s := sign z) (by omega) (sign_lt z) (by
    rw [abs_value' hz, e, div_le_iff₀ (by positivity), ← pow_add] at h'
    have big : (2 : ℚ) ^ (1000 + 1074) ≤ 2 ^ 2076 := (fun n m (h : n ≤ m) => pow_le_pow_right₀ (by norm_num) h : ∀ n m : ℕ, n ≤ m → (2 : ℚ) ^ n ≤ 2 ^ m) _ _ (by omega)
    refine le_trans ?_ big
    refine le_trans ?_ h'
    have l : (2 : ℚ) ^ (expo z - 2) ≤ 2 ^ (expo z - 1) := pow_le_pow_right₀ (by norm_num) (by omega)
    have n0 : (0 : ℚ) ≤ ((2 ^ 52 + frac z : ℕ) : ℚ) := Nat.cast_nonneg _
    clear h' big
    rw [Nat.cast_mul, Nat.cast_pow, Nat.cast_ofNat]
    exact mul_le_mul_of_nonneg_left l n0)
  refine ⟨d, hd, fd, ?_⟩
  rw [vd, value_self hz, e, show expo z - 1 = (expo z - 2) + 1 by omega, pow_succ]
  push_cast
  generalize (2 : ℚ) ^ 1074 = K
  ring

/-- The double 0.5. -/
def halfBits : Nat := 0x3FE0000000000000

theorem v_halfBits : halfBits < 2 ^ 64 ∧ IsFinite halfBits ∧ value halfBits = 1 / 2 := by
  refine ⟨by decide, by decide, ?_⟩
  unfold halfBits value sign expo frac; norm_num

/-- A product with one half is not rounded. -/
theorem Nb.half {z : Nat} {Z e m : ℝ} (h : Nb z Z e m) (hm : m + e ≤ 2 ^ 100) : Nb (Fpu.mul halfBits z) (1 / 2 * Z) (e / 2 + 1 / 2 ^ 199) (m / 2) := by
  obtain ⟨h1, h2, h3⟩ := v_halfBits
  have hb := h.1.abs_le h.2
  have hc : |(value halfBits : ℝ) * value z| ≤ 2 ^ 200 := by
    rw [h3, abs_mul]; push_cast
    rw [show |(1 / 2 : ℝ)| = 1 / 2 by norm_num]
    have : (2 : ℝ) ^ 100 ≤ 2 ^ 200 := pow_le_pow_right₀ (by norm_num) (by norm_num)
    have : (0 : ℝ) < 2 ^ 100 := by positivity
    linarith
  have key : Near (Fpu.mul halfBits z) (1 / 2 * (value z : ℝ)) (1 / 2 ^ 199) := by
    by_cases c : 1 / 2 ^ 300 ≤ |value z|
    · obtain ⟨d, hd, fd, vd⟩ := half_exact h.1.1 h.1.2.1 c (by
        have q : ((|value z| : ℚ) : ℝ) ≤ ((2 ^ 1000 : ℚ) : ℝ) := by
          push_cast
          exact le_trans hb (le_trans hm (pow_le_pow_right₀ (by norm_num) (by norm_num)))
        exact_mod_cast q)
      obtain ⟨r1, r2, r3⟩ := mul_exact h1 h.1.1 h2 h.1.2.1 hc hd fd (by rw [vd, h3]; ring)
      refine ⟨r1, r2, ?_⟩
      rw [r3, h3]; push_cast
      rw [sub_self, abs_zero]; positivity
    · have := mul_err h1 h.1.1 h2 h.1.2.1 hc
      rw [h3] at this
      push_cast at this
      refine this.weaken ?_
      have c' : |(value z : ℝ)| ≤ 1 / 2 ^ 300 := by
        have := (Rat.cast_le (K := ℝ)).2 (not_le.1 c).le; push_cast at this ⊢; exact this
      have l : (1 : ℝ) / 2 ^ 300 ≤ 1 / 2 ^ 200 := one_div_le_one_div_of_le (by positivity) (pow_le_pow_right₀ (by norm_num) (by norm_num))
      rw [abs_mul, show |(1 / 2 : ℝ)| = 1 / 2 by norm_num]
      have : (1 : ℝ) / 2 ^ 199 = 2 * (1 / 2 ^ 200) := by norm_num
      rw [this]
      have p : (0 : ℝ) < 1 / 2 ^ 200 := by positivity
      have q : 1 / 2 * |(value z : ℝ)| / 2 ^ 53 ≤ 1 / 2 * |(value z : ℝ)| := by
        apply div_le_self (by positivity); norm_num
      linarith
  constructor
  · have m1 := key.move (w := 1 / 2 * Z) (f := e / 2) (by
      rw [← mul_sub, abs_mul, show |(1 / 2 : ℝ)| = 1 / 2 by norm_num]
      have := h.1.2.2; linarith)
    exact m1.weaken (by linarith)
  · rw [abs_mul, show |(1 / 2 : ℝ)| = 1 / 2 by norm_num]
    have := h.2; linarith

end Pok.Err
