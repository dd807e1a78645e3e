import Verif.Props.SingleFloor
import Verif.Props.FloatBits
/-!
# Kinds of floats, sign, exponent, places

Properties C115 and C117.  libpok/libm/isnanf.c, isinff.c, finitef.c, fpclassify.c, fabsf.c, copysignf.c, ilogbf.c.
-/
namespace Pok.Libmf
open Pok.Single Pok.Fpu32
open Pok.Float (and_mask and_not and_31 and_sign)
open Pok.Libm (not32 neg32 minus32 int32 wrap32 normLoop FP_NAN FP_INFINITE FP_NORMAL FP_SUBNORMAL FP_ZERO normLoop_eq log2_shift)

theorem and_mag (x : Nat) : x &&& 0x7fffffff = mag x := by rw [and_31]; rfl

theorem isNaN_mag (x : Nat) : IsNaN x ↔ inf < mag x := by
  have h := mag_eq x; have := frac_lt x; have := expo_lt x
  unfold IsNaN; rw [h]; unfold inf; omega

theorem isInf_mag (x : Nat) : IsInf x ↔ mag x = inf := by
  have h := mag_eq x; have := frac_lt x; have := expo_lt x
  unfold IsInf; rw [h]; unfold inf; omega

/-- Each float is of exactly one of five kinds, and `fpclassify` returns its number; `isnanf`, `isinff` and `finitef` return 1 exactly for the
floats that are not a number, infinite, and finite, and 0 for the others. -/
theorem C115_kinds {x : Nat} (h : x < 2 ^ 32) :
    (fpclassify x = FP_NAN ↔ IsNaN x) ∧ (fpclassify x = FP_INFINITE ↔ IsInf x) ∧ (fpclassify x = FP_NORMAL ↔ Normal x)
    ∧ (fpclassify x = FP_SUBNORMAL ↔ Subnormal x) ∧ (fpclassify x = FP_ZERO ↔ IsZero x)
    ∧ isnan x = (if IsNaN x then 1 else 0) ∧ isinf x = (if IsInf x then 1 else 0) ∧ finite x = (if IsFinite x then 1 else 0) := by
  have hp := parts h
  have hF := frac_lt x
  have hE := expo_lt x
  have hs := sign_lt x
  have hcl : fpclassify x = if expo x = 255 then (if frac x = 0 then FP_INFINITE else FP_NAN)
      else if expo x = 0 then (if frac x = 0 then FP_ZERO else FP_SUBNORMAL) else FP_NORMAL := by
    unfold fpclassify
    generalize expo x = E at *
    generalize frac x = f at *
    generalize sign x = s at *
    by_cases c1 : E = 255
    · subst c1
      rw [if_pos rfl]
      by_cases c2 : f = 0
      · rw [if_pos c2, if_neg (by omega), if_neg (by omega), if_neg (by omega), if_pos (by omega)]
      · rw [if_neg c2, if_neg (by omega), if_neg (by omega), if_neg (by omega), if_neg (by omega)]
    · rw [if_neg c1]
      by_cases c3 : E = 0
      · subst c3
        rw [if_pos rfl]
        by_cases c2 : f = 0
        · rw [if_pos c2, if_pos (by omega)]
        · rw [if_neg c2, if_neg (by omega), if_neg (by omega), if_pos (by omega)]
      · rw [if_neg c3, if_neg (by omega), if_pos (by omega)]
  have hml := mag_lt x
  have k1 : isnan x = (if IsNaN x then 1 else 0) := by
    unfold isnan
    rw [and_mag, if_congr (isNaN_mag x) rfl rfl, Nat.shiftRight_eq_div_pow]
    unfold inf
    split <;> omega
  have k2 : isinf x = (if IsInf x then 1 else 0) := by
    unfold isinf
    have hx : mag x ^^^ 0x7f800000 = 0 ↔ mag x = inf := by
      constructor
      · intro h0
        have := congrArg (· ^^^ 0x7f800000) h0
        have : mag x = 0x7f800000 := by simpa [Nat.xor_assoc] using this
        rw [this]; rfl
      · intro h0; rw [h0]; rfl
    rw [and_mag, if_congr (isInf_mag x) rfl rfl, if_congr hx rfl rfl]
  have k3 : finite x = (if IsFinite x then 1 else 0) := by
    unfold finite
    rw [and_mag, if_congr (finite_iff x) rfl rfl, Nat.shiftRight_eq_div_pow]
    unfold inf
    split <;> omega
  refine ⟨?_, ?_, ?_, ?_, ?_, k1, k2, k3⟩ <;>
  · rw [hcl]
    simp only [IsNaN, IsInf, Normal, Subnormal, IsZero, FP_NAN, FP_INFINITE, FP_NORMAL, FP_SUBNORMAL, FP_ZERO]
    by_cases c1 : expo x = 255
    · by_cases c2 : frac x = 0 <;> simp [c1, c2]
    · by_cases c3 : expo x = 0
      · by_cases c2 : frac x = 0 <;> simp [c3, c2]
      · simp [c1, c3]

theorem or_sign {s m : Nat} (hm : m < 2 ^ 31) : m ||| s * 2 ^ 31 = s * 2 ^ 31 + m := by
  have := Nat.two_pow_add_eq_or_of_lt (i := 31) (b := m) hm s
  rw [Nat.or_comm, Nat.mul_comm, ← this]

theorem sign_div {x : Nat} (h : x < 2 ^ 32) : x / 2 ^ 31 = sign x := by unfold sign; omega

theorem copysign_make {x y : Nat} (hy : y < 2 ^ 32) : copysign x y = sign y * 2 ^ 31 + mag x := by
  unfold copysign
  rw [and_mag, and_sign hy, sign_div hy, or_sign (mag_lt x)]

/-- `fabsf` clears the sign and nothing else; `copysignf` gives the first argument the sign of the second. -/
theorem C115_sign {x y : Nat} (hx : x < 2 ^ 32) (hy : y < 2 ^ 32) :
    (sign (fabs x) = 0 ∧ expo (fabs x) = expo x ∧ frac (fabs x) = frac x)
    ∧ (sign (copysign x y) = sign y ∧ expo (copysign x y) = expo x ∧ frac (copysign x y) = frac x) := by
  have e1 : fabs x = mag x := and_mag x
  have hm := mag_lt x
  have hs := sign_lt y
  rw [e1, copysign_make hy]
  unfold sign expo frac mag at *
  omega

/-- The least positive float is subnormal, the one with all bits set is not a number, `copysignf(1.5, -0.0)` is -1.5. -/
example : fpclassify 1 = FP_SUBNORMAL ∧ fpclassify (2 ^ 32 - 1) = FP_NAN ∧ isnan (2 ^ 32 - 1) = 1
    ∧ copysign 0x3fc00000 0x80000000 = 0xbfc00000 := by decide +kernel

/-! ## Exponent -/

/-- The binary logarithm that `ilogbf` and `fmodf` compute. -/
theorem exp_eq {m : Nat} (hh : m < inf) (h0 : m ≠ 0) : fmodExp m = (Nat.log2 (units m) : Int) - 149 := by
  unfold inf at hh
  unfold fmodExp
  split
  · rename_i h23
    rw [units_small (by omega)]
    have := (Nat.log2_lt (k := 23) h0).2 (by omega)
    have e : (m <<< 8) % 2 ^ 32 = m * 2 ^ 8 + 0 := by rw [Nat.shiftLeft_eq]; omega
    rw [e, normLoop_eq (j := 23 - Nat.log2 m) _ (by omega) (by omega)
      (by have := log2_shift (k := 8) (l := 0) h0 (by omega); omega)]
    omega
  · obtain ⟨E, f, hf, rfl⟩ : ∃ E f, f < 2 ^ 23 ∧ m = E * 2 ^ 23 + f := ⟨m / 2 ^ 23, m % 2 ^ 23, by omega, by omega⟩
    have hlog := log2_units (E := E) (F := f) (by omega) hf
    have hu := units_make (a := E) (f := f) (by omega) hf.le
    have hs := Nat.shiftRight_eq_div_pow (E * 2 ^ 23 + f) 23
    rw [← hu] at hlog
    generalize Nat.log2 (units _) = L at *
    generalize (E * 2 ^ 23 + f) >>> 23 = Z at *
    clear hu
    omega

theorem ilogb_eq {x : Nat} (hf : IsFinite x) (h0 : mag x ≠ 0) : ilogb x = (Nat.log2 (units (mag x)) : Int) - 149 := by
  have hfin := (finite_iff x).1 hf
  unfold ilogb
  simp only
  rw [and_mag, if_neg h0, if_pos (by unfold inf at hfin; omega), exp_eq hfin h0]

theorem abs_units {x : Nat} (h : x < 2 ^ 32) : |value x| = (units (mag x) : ℚ) / 2 ^ 149 := by
  rw [abs_value h, D_cast, Int.cast_natCast]

/-- `ilogbf` returns the exponent of the number: the power of two just below its magnitude, for every finite float but zero. -/
theorem C117_ilogb {x : Nat} (h : x < 2 ^ 32) (hf : IsFinite x) (h0 : ¬ IsZero x) :
    (2 : ℚ) ^ ilogb x ≤ |value x| ∧ |value x| < (2 : ℚ) ^ (ilogb x + 1) := by
  have hm0 : mag x ≠ 0 := by
    have := mag_eq x; unfold IsZero at h0; omega
  have hu0 : units (mag x) ≠ 0 := fun hh => hm0 (units_eq_zero.1 hh)
  have ⟨a, b⟩ := (Nat.log2_eq_iff hu0).1 rfl
  rw [ilogb_eq hf hm0, abs_units h]
  have hD0 : (0 : ℚ) < 2 ^ 149 := pow_pos (by norm_num) _
  generalize Nat.log2 (units (mag x)) = L at *
  generalize units (mag x) = U at *
  have e1 : (2 : ℚ) ^ ((L : ℤ) - 149) = 2 ^ L / 2 ^ 149 := by
    rw [show ((L : ℤ) - 149) = (L : ℤ) - (149 : ℕ) from rfl, zpow_sub₀ (by norm_num), zpow_natCast, zpow_natCast]
  have e2 : (2 : ℚ) ^ ((L : ℤ) - 149 + 1) = 2 ^ (L + 1) / 2 ^ 149 := by
    rw [show ((L : ℤ) - 149 + 1) = ((L + 1 : ℕ) : ℤ) - (149 : ℕ) from by push_cast; ring, zpow_sub₀ (by norm_num), zpow_natCast, zpow_natCast]
  rw [e1, e2]
  constructor
  · exact div_le_div_of_nonneg_right (by exact_mod_cast a) hD0.le
  · exact div_lt_div_of_pos_right (by exact_mod_cast b) hD0

/-! ## Neighbours -/

theorem rank_key {x : Nat} : rank x = key x := by
  unfold rank key mag
  by_cases h : sign x = 1
  · rw [if_pos h, (neg_iff x).2 h, if_pos rfl]
  · rw [if_neg h, if_neg (fun hh => h ((neg_iff x).1 hh))]

/-- Places tell finite floats apart as their values do. -/
theorem C117_rank {a b : Nat} (ha : a < 2 ^ 32) (hb : b < 2 ^ 32) (_fa : IsFinite a) (_fb : IsFinite b) : value a < value b ↔ rank a < rank b := by
  have hD0 : (0 : ℚ) < 2 ^ 149 := pow_pos (by norm_num) _
  rw [value_units, value_units, div_lt_div_iff_of_pos_right hD0, Int.cast_lt, sunits_eq ha, sunits_eq hb]
  unfold rank
  rw [show a % 2 ^ 31 = mag a from rfl, show b % 2 ^ 31 = mag b from rfl]
  have l1 := @units_lt (mag a) (mag b)
  have l2 := @units_lt (mag b) (mag a)
  have z1 := @units_eq_zero (mag a)
  have z2 := @units_eq_zero (mag b)
  generalize units (mag a) = ua at *
  generalize units (mag b) = ub at *
  split <;> split <;> omega

end Pok.Libmf
