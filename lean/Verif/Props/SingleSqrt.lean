import Verif.Props.SingleSqrtLoop
import Verif.Props.SingleNextafter
import Mathlib.Analysis.Real.Sqrt
import Mathlib.Tactic.Linarith
/-!
# The square root of floats is correctly rounded

Property C120.  libpok/libm/e_sqrtf.c, sqrtf.c.
-/
namespace Pok.Libmf
open Pok.Single Pok.Fpu32
open Pok.Float (and_mask and_not and_31 and_sign)
open Pok.Libm (int32)

/-- Among the numbers that are integers from `2^23` on, one that is less than a half away from `w` is nearest. -/
theorem nearest_int {w y : ℝ} {G : ℕ} (hw : (2 : ℝ) ^ 23 ≤ w) (hG : 2 ^ 23 ≤ G) (h1 : (G : ℝ) - 1 / 2 < w) (h2 : w < (G : ℝ) + 1 / 2)
    (hy : y < 2 ^ 23 ∨ ∃ j : ℤ, y = j) (hne : y ≠ G) : |(G : ℝ) - w| < |y - w| := by
  have hG' : (2 : ℝ) ^ 23 ≤ G := by exact_mod_cast hG
  have hab : |(G : ℝ) - w| < 1 / 2 := by rw [abs_lt]; constructor <;> linarith
  rcases hy with hy | ⟨j, hj⟩
  · by_cases hGw : (G : ℝ) ≤ w
    · rw [abs_of_nonpos (by linarith), abs_of_nonpos (by linarith)]
      linarith
    · have hlt : (2 : ℝ) ^ 23 < G := by linarith
      have hge : 2 ^ 23 + 1 ≤ G := by
        have : 2 ^ 23 < G := by exact_mod_cast hlt
        exact this
      have hge' : (2 : ℝ) ^ 23 + 1 ≤ G := by exact_mod_cast hge
      rw [abs_of_nonneg (by linarith), abs_of_nonpos (by linarith)]
      linarith
  · subst hj
    have hj1 : j + 1 ≤ (G : ℤ) ∨ (G : ℤ) + 1 ≤ j := by
      rcases lt_trichotomy j (G : ℤ) with hh | hh | hh
      · left; exact hh
      · exact absurd (by exact_mod_cast hh) hne
      · right; exact hh
    refine lt_of_lt_of_le hab ?_
    rcases hj1 with hh | hh
    · have : (j : ℝ) + 1 ≤ G := by exact_mod_cast hh
      rw [abs_of_nonpos (by linarith)]; linarith
    · have : (G : ℝ) + 1 ≤ j := by exact_mod_cast hh
      rw [abs_of_nonneg (by linarith)]; linarith

/-- `sqrtf` of a positive float is the float nearest to the square root: no other float is as near. -/
theorem C120_sqrt {x : Nat} (h : x < 2 ^ 32) (hf : IsFinite x) (hs : sign x = 0) (h0 : ¬ IsZero x) :
    sqrt x < 2 ^ 32 ∧ IsFinite (sqrt x) ∧ sign (sqrt x) = 0
    ∧ ∀ d, d < 2 ^ 32 → IsFinite d → value d ≠ value (sqrt x) →
      |((value (sqrt x) : ℚ) : ℝ) - Real.sqrt ((value x : ℚ) : ℝ)| < |((value d : ℚ) : ℝ) - Real.sqrt ((value x : ℚ) : ℝ)| := by
  have hx0 : mag x ≠ 0 := by have := mag_eq x; unfold IsZero at h0; omega
  obtain ⟨G, T, e, hr, hu, hG, hT, hT1, hlo, hhi⟩ := sqrt_nat h hf hs hx0
  have hi := inf_lt
  have hmag : mag (sqrt x) = sqrt x := by unfold mag; exact Nat.mod_eq_of_lt (by omega)
  have hsg : sign (sqrt x) = 0 := by unfold sign; rw [Nat.div_eq_of_lt (by omega)]
  have hr64 : sqrt x < 2 ^ 32 := by omega
  refine ⟨hr64, (finite_iff _).2 (by rw [hmag]; exact hr), hsg, ?_⟩
  intro d hd hfd hne
  have hvx := value_self h
  have hvr := value_self hr64
  have hvd := value_self hd
  rw [hs, pow_zero, _root_.one_mul] at hvx
  rw [hsg, pow_zero, _root_.one_mul, hmag, hu] at hvr
  have hD : (0 : ℝ) < 2 ^ 149 := pow_pos (by norm_num) _
  have hK : (0 : ℝ) < 2 ^ e := pow_pos (by norm_num) _
  have hTR : 4 * ((units (mag x) : ℝ) * 2 ^ 149) = (T : ℝ) * (2 ^ e * 2 ^ e) := by exact_mod_cast congrArg (Nat.cast : ℕ → ℝ) hT
  have hspace : units (mag d) < 2 ^ 23 * 2 ^ e ∨ ∃ j, units (mag d) = j * 2 ^ e := by
    rcases units_mul (mag d) e with hh | hh
    · left; rw [← Nat.pow_add]; exact hh
    · right; exact hh
  -- as multiples of the spacing of the result
  obtain ⟨y, hy, hvy⟩ : ∃ y : ℝ, (y < 2 ^ 23 ∨ ∃ j : ℤ, y = j) ∧ ((value d : ℚ) : ℝ) = y * (2 ^ e / 2 ^ 149) := by
    rcases Nat.lt_or_ge (sign d) 1 with h1 | h1
    · have hz : sign d = 0 := by omega
      rw [hz, pow_zero, _root_.one_mul] at hvd
      refine ⟨(units (mag d) : ℝ) / 2 ^ e, ?_, ?_⟩
      · rcases hspace with hh | ⟨j, hh⟩
        · left
          rw [div_lt_iff₀ hK]
          exact_mod_cast hh
        · right
          refine ⟨j, ?_⟩
          rw [hh]; push_cast
          rw [mul_div_assoc, div_self hK.ne', _root_.mul_one]
      · rw [hvd]; push_cast
        generalize (2 : ℝ) ^ 149 = D at *
        field_simp
    · have hz : sign d = 1 := by have := sign_lt d; omega
      rw [hz, pow_one] at hvd
      refine ⟨-((units (mag d) : ℝ) / 2 ^ e), Or.inl ?_, ?_⟩
      · have : (0 : ℝ) ≤ (units (mag d) : ℝ) / 2 ^ e := div_nonneg (Nat.cast_nonneg _) hK.le
        have h2 : (0 : ℝ) < 2 ^ 23 := by norm_num
        linarith
      · rw [hvd]; push_cast
        generalize (2 : ℝ) ^ 149 = D at *
        field_simp
  have hvr' : ((value (sqrt x) : ℚ) : ℝ) = (G : ℝ) * (2 ^ e / 2 ^ 149) := by
    rw [hvr]; push_cast
    generalize (2 : ℝ) ^ 149 = D at *
    ring
  have hT0 : (0 : ℝ) ≤ (T : ℝ) := Nat.cast_nonneg _
  have hsq : Real.sqrt ((value x : ℚ) : ℝ) = Real.sqrt T / 2 * (2 ^ e / 2 ^ 149) := by
    have e1 : ((value x : ℚ) : ℝ) = (Real.sqrt T / 2 * (2 ^ e / 2 ^ 149)) ^ 2 := by
      rw [hvx]; push_cast
      have hs2 := Real.mul_self_sqrt hT0
      generalize (2 : ℝ) ^ 149 = D at *
      generalize (2 : ℝ) ^ e = K at *
      have e2 : (Real.sqrt T / 2 * (K / D)) ^ 2 = (Real.sqrt T * Real.sqrt T) * (K * K) / (4 * (D * D)) := by field_simp; norm_num
      rw [e2, hs2, ← hTR]
      field_simp
    rw [e1, Real.sqrt_sq]
    exact mul_nonneg (div_nonneg (Real.sqrt_nonneg _) (by norm_num)) (div_nonneg hK.le hD.le)
  have hc : (0 : ℝ) < 2 ^ e / 2 ^ 149 := div_pos hK hD
  have hny : y ≠ G := by
    intro hyG
    apply hne
    have : ((value d : ℚ) : ℝ) = ((value (sqrt x) : ℚ) : ℝ) := by rw [hvy, hvr', hyG]
    exact_mod_cast this
  have hw52 : (2 : ℝ) ^ 23 ≤ Real.sqrt T / 2 := by
    have : (2 : ℝ) ^ 24 ≤ Real.sqrt T := by
      apply Real.le_sqrt_of_sq_le
      have : (2 : ℝ) ^ 48 ≤ T := by exact_mod_cast hT1
      have e48 : ((2 : ℝ) ^ 24) ^ 2 = 2 ^ 48 := by rw [← pow_mul]
      rw [e48]; exact this
    have e24 : (2 : ℝ) ^ 24 = 2 * 2 ^ 23 := by norm_num
    rw [e24] at this
    linarith
  have hG1 : (1 : ℝ) ≤ 2 * G := by
    have : 1 ≤ 2 * G := by omega
    exact_mod_cast this
  have hw1 : (G : ℝ) - 1 / 2 < Real.sqrt T / 2 := by
    have : (2 * (G : ℝ) - 1) < Real.sqrt T := by
      apply Real.lt_sqrt_of_sq_lt
      have hcast : ((2 * G - 1 : ℕ) : ℝ) = 2 * (G : ℝ) - 1 := by rw [Nat.cast_sub (by omega)]; push_cast; ring
      rw [← hcast, pow_two]
      exact_mod_cast hlo
    linarith
  have hw2 : Real.sqrt T / 2 < (G : ℝ) + 1 / 2 := by
    have : Real.sqrt T < 2 * (G : ℝ) + 1 := by
      rw [Real.sqrt_lt' (by linarith), pow_two]
      exact_mod_cast hhi
    linarith
  have key := nearest_int hw52 hG hw1 hw2 hy hny
  rw [hvr', hvy, hsq, ← sub_mul, ← sub_mul, abs_mul, abs_mul]
  exact mul_lt_mul_of_pos_right key (abs_pos.2 hc.ne')

/-- `sqrtf` of the zeros and of the positive infinite is its argument; of negative numbers and of what is not a number it is not a number. -/
theorem C120_sqrt_special {x : Nat} (h : x < 2 ^ 32) :
    (IsZero x → sqrt x = x) ∧ (IsInf x → sign x = 0 → sqrt x = x) ∧ (IsNaN x ∨ (sign x = 1 ∧ ¬ IsZero x) → IsNaN (sqrt x)) := by
  have hmx := mag_eq x
  have := frac_lt x
  have := expo_lt x
  have hsx := sign_lt x
  have hnan : IsNaN nan := by decide
  have hexp : x &&& 0x7f800000 = 0x7f800000 ↔ expo x = 255 := by
    rw [and_expo _ h]; omega
  have hz : x &&& 0x7fffffff = 0 ↔ mag x = 0 := by rw [and_mag]
  have hsgn : int32 x < 0 ↔ sign x = 1 := by
    unfold int32 sign; split <;> omega
  have hle0 : mag x = 0 → int32 x ≤ 0 := by
    intro hm; unfold int32; unfold mag at hm; split <;> omega
  refine ⟨?_, ?_, ?_⟩
  · intro hh
    have hm : mag x = 0 := by rw [hmx, hh.1, hh.2]; rfl
    unfold sqrt
    simp only
    rw [if_neg (by rw [hexp, hh.1]; decide), if_pos ⟨hle0 hm, hz.2 hm⟩]
  · intro hh h1
    have hm : mag x = inf := (isInf_mag x).1 hh
    have hx := self_eq h
    rw [h1, Nat.zero_mul, Nat.zero_add, hm] at hx
    rw [hx]
    decide +kernel
  · intro hh
    unfold sqrt
    simp only
    by_cases hE : expo x = 255
    · rw [if_pos (hexp.2 hE)]
      by_cases hn : IsNaN x
      · exact add_nan (Or.inl (mul_nan (Or.inl hn)))
      · have hi0 : IsInf x := ⟨hE, by unfold IsNaN at hn; tauto⟩
        have hs1 : sign x = 1 := by tauto
        have hx := self_eq h
        rw [hs1, (isInf_mag x).1 hi0] at hx
        rw [hx]
        decide +kernel
    · rw [if_neg (fun hh => hE (hexp.1 hh))]
      have h1 : sign x = 1 ∧ ¬ IsZero x := by
        rcases hh with hh | hh
        · exact absurd hh.1 hE
        · exact hh
      have hm0 : mag x ≠ 0 := by
        have := h1.2; unfold IsZero at this; omega
      rw [if_neg (fun hh => hm0 (hz.1 hh.2)), if_pos (hsgn.2 h1.1)]
      exact hnan

/-- `sqrtf(2.0)` is 1.41421354; `sqrtf` of the float 2^-148 is 2^-74, that of the least positive float, 2^-149, is nearly 2^-74.5: these meet
the hypotheses. -/
example : sqrt 0x40000000 = 0x3fb504f3 ∧ sqrt 2 = 0x1a800000 ∧ sqrt 1 = 0x1a3504f3 ∧ IsFinite 1 ∧ sign 1 = 0 ∧ ¬ IsZero 1 := by decide +kernel

end Pok.Libmf
