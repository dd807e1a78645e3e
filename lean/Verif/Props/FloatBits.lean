import Verif.Props.Floor
/-!
# Kinds of doubles, sign, exponent, neighbours

Properties C86 and C88.  libpok/libm/isnan.c, isinf.c, finite.c, fpclassify.c, fabs.c, copysign.c, ilogb.c, logb.c, frexp.c, nextafter.c.
-/
namespace Pok.Libm
open Pok.Float Pok.Fpu

theorem sticky {l : Nat} (hl : l < 2 ^ 32) : (l ||| minus32 l) >>> 31 = if l = 0 then 0 else 1 := by
  rw [Nat.shiftRight_eq_div_pow]
  split
  · rename_i h; rw [h]; rfl
  · rename_i h
    have e : minus32 l = 2 ^ 32 - l := by unfold minus32; omega
    have h1 : l ≤ l ||| minus32 l := Nat.left_le_or
    have h2 : minus32 l ≤ l ||| minus32 l := Nat.right_le_or
    have h3 : l ||| minus32 l < 2 ^ 32 := Nat.or_lt_two_pow hl (by omega)
    omega

theorem or_one (h : Nat) : h ||| 1 = h / 2 * 2 + 1 := by
  have := Nat.two_pow_add_eq_or_of_lt (i := 1) (b := 1) (by decide) (h / 2)
  rcases Nat.mod_two_eq_zero_or_one h with h0 | h0
  · have e : 2 ^ 1 * (h / 2) = h := by omega
    rw [e] at this; rw [← this]; omega
  · have e : 2 ^ 1 * (h / 2) + 1 = h := by omega
    rw [e] at this
    have : h ||| 1 = h := by
      conv_lhs => rw [this, Nat.or_assoc, Nat.or_self, ← this]
    rw [this]; omega

theorem hi_mag {x : Nat} (h : x < 2 ^ 64) : hi x &&& 0x7fffffff = mag x / 2 ^ 32 := by
  rw [and_31]; unfold hi mag; omega

theorem lo_mag (x : Nat) : lo x = mag x % 2 ^ 32 := by unfold lo mag; omega

theorem isNaN_mag (x : Nat) : IsNaN x ↔ inf < mag x := by
  have h := mag_eq x; have := frac_lt x; have := expo_lt x
  unfold IsNaN; rw [h]; unfold inf; omega

theorem isInf_mag (x : Nat) : IsInf x ↔ mag x = inf := by
  have h := mag_eq x; have := frac_lt x; have := expo_lt x
  unfold IsInf; rw [h]; unfold inf; omega

/-- Each double is of exactly one of five kinds, and `fpclassify` returns its number; `isnan`, `isinf` and `finite` return a number that is not
zero exactly for the doubles that are not a number, infinite, and finite. -/
theorem C86_kinds {x : Nat} (h : x < 2 ^ 64) :
    (fpclassify x = FP_NAN ↔ IsNaN x) ∧ (fpclassify x = FP_INFINITE ↔ IsInf x) ∧ (fpclassify x = FP_NORMAL ↔ Normal x)
    ∧ (fpclassify x = FP_SUBNORMAL ↔ Subnormal x) ∧ (fpclassify x = FP_ZERO ↔ IsZero x)
    ∧ (isnan x ≠ 0 ↔ IsNaN x) ∧ (isinf x ≠ 0 ↔ IsInf x) ∧ (finite x ≠ 0 ↔ IsFinite x) := by
  have hm := mag_eq x
  have hF := frac_lt x
  have hE := expo_lt x
  have hs := sign_lt x
  have hh := hi_parts h
  have hl : lo x = frac x % 2 ^ 32 := by unfold lo frac; omega
  have hll := lo_lt x
  have hmag := hi_mag h
  have hcl : fpclassify x = if expo x = 2047 then (if frac x = 0 then FP_INFINITE else FP_NAN)
      else if expo x = 0 then (if frac x = 0 then FP_ZERO else FP_SUBNORMAL) else FP_NORMAL := by
    unfold fpclassify
    simp only [hh, hl]
    by_cases c1 : expo x = 2047
    · rw [if_pos c1, c1]
      by_cases c2 : frac x = 0
      · rw [if_pos c2, c2, if_neg (by omega), if_neg (by omega), if_neg (by omega), if_pos (by omega)]
      · rw [if_neg c2, if_neg (by omega), if_neg (by omega), if_neg (by omega), if_neg (by omega)]
    · rw [if_neg c1]
      by_cases c3 : expo x = 0
      · rw [if_pos c3, c3]
        by_cases c2 : frac x = 0
        · rw [if_pos c2, c2, if_pos (by omega)]
        · rw [if_neg c2, if_neg (by omega), if_neg (by omega), if_pos (by omega)]
      · rw [if_neg c3, if_neg (by omega), if_pos (by omega)]
  have k1 : isnan x ≠ 0 ↔ IsNaN x := by
    unfold isnan
    simp only
    rw [sticky hll, hmag, isNaN_mag]
    unfold inf
    have hlm := lo_mag x
    split
    · rename_i h0
      rw [Nat.or_zero]
      split <;> omega
    · rename_i h0
      rw [or_one]
      split <;> omega
  have k2 : isinf x ≠ 0 ↔ IsInf x := by
    unfold isinf
    simp only
    rw [hmag, isInf_mag]
    have hlm := lo_mag x
    have hx : mag x / 2 ^ 32 ^^^ 0x7ff00000 = 0 ↔ mag x / 2 ^ 32 = 0x7ff00000 := by
      constructor
      · intro h0
        have := congrArg (· ^^^ 0x7ff00000) h0
        simpa [Nat.xor_assoc] using this
      · intro h0; rw [h0]; rfl
    have : (mag x / 2 ^ 32 ^^^ 0x7ff00000) ||| lo x = 0 ↔ mag x = inf := by
      rw [Nat.or_eq_zero_iff, hx, hlm]; unfold inf; omega
    split
    · rename_i h0; simp [this.1 h0]
    · rename_i h0; simp only [ne_eq, not_true_eq_false, false_iff]; exact fun hh => h0 (this.2 hh)
  have k3 : finite x ≠ 0 ↔ IsFinite x := by
    unfold finite
    rw [hmag, finite_iff, Nat.shiftRight_eq_div_pow]
    have := mag_lt x
    unfold inf; omega
  refine ⟨?_, ?_, ?_, ?_, ?_, k1, k2, k3⟩ <;>
  · rw [hcl]
    simp only [IsNaN, IsInf, Normal, Subnormal, IsZero, FP_NAN, FP_INFINITE, FP_NORMAL, FP_SUBNORMAL, FP_ZERO]
    by_cases c1 : expo x = 2047
    · by_cases c2 : frac x = 0 <;> simp [c1, c2]
    · by_cases c3 : expo x = 0
      · by_cases c2 : frac x = 0 <;> simp [c3, c2]
      · simp [c1, c3]

/-- `fabs` clears the sign and nothing else; `copysign` gives the first argument the sign of the second. -/
theorem C86_sign {x y : Nat} (hx : x < 2 ^ 64) (hy : y < 2 ^ 64) :
    (sign (fabs x) = 0 ∧ expo (fabs x) = expo x ∧ frac (fabs x) = frac x)
    ∧ (sign (copysign x y) = sign y ∧ expo (copysign x y) = expo x ∧ frac (copysign x y) = frac x) := by
  have e1 : fabs x = mag x := by
    unfold fabs setHi insert; rw [hi_mag hx, lo_mag]; omega
  have e2 : copysign x y = sign y * 2 ^ 63 + mag x := by
    unfold copysign setHi
    rw [hi_mag hx, and_sign (hi_lt y), Nat.or_comm]
    have := Nat.two_pow_add_eq_or_of_lt (i := 31) (b := mag x / 2 ^ 32) (by have := mag_lt x; omega) (hi y / 2 ^ 31)
    rw [Nat.mul_comm] at this
    rw [← this, lo_mag]
    have h3 : hi y / 2 ^ 31 = sign y := by unfold hi sign; omega
    unfold insert
    clear this e1
    generalize hi y / 2 ^ 31 = a at *
    generalize mag x = m at *
    generalize sign y = s at *
    subst h3
    clear hx hy
    omega
  have hm := mag_lt x
  have hs := sign_lt y
  rw [e1, e2]
  unfold sign expo frac mag at *
  omega

/-- On a machine that stores the more significant word first the two words of a double are exchanged: the definition of
`ieee_double_shape_type` for such machines is inside a comment, libpok/libm/math_private.h 66-78, and the other one is used for all. -/
def swapWords (x : Nat) : Nat := insert (lo x) (hi x)

/-- On big-endian machines (the PowerPC and SPARC ports) the library takes the low half of a double for the high one: `fabs(-1.0)` is -1.0, and
the positive infinite is not infinite for `isinf`. -/
theorem C86_big_endian_violated : swapWords (fabs (swapWords 0xbff0000000000000)) = 0xbff0000000000000 ∧ IsInf inf
    ∧ isinf (swapWords inf) = 0 := by decide +kernel

/-- The least positive double is subnormal, the one with all bits set is not a number, `copysign(1.5, -0.0)` is -1.5. -/
example : fpclassify 1 = FP_SUBNORMAL ∧ fpclassify (2 ^ 64 - 1) = FP_NAN ∧ isnan (2 ^ 64 - 1) = -1
    ∧ copysign 0x3ff8000000000000 0x8000000000000000 = 0xbff8000000000000 := by decide +kernel

/-! ## Exponent -/

theorem normLoop_eq {j : Nat} : ∀ {fuel w : Nat} (ix : Int), j ≤ fuel → w ≠ 0 → Nat.log2 w + j = 31 → normLoop fuel w ix = ix - j := by
  induction j with
  | zero =>
    intro fuel w ix _ hw h
    have h31 := (Nat.log2_eq_iff hw).1 h
    have : ¬ 0 < int32 w := by unfold int32; rw [if_neg (by omega)]; omega
    cases fuel with
    | zero => simp [normLoop]
    | succ f => simp [normLoop, this]
  | succ j ih =>
    intro fuel w ix hf hw h
    obtain ⟨f, rfl⟩ : ∃ f, fuel = f + 1 := ⟨fuel - 1, by omega⟩
    have hlog : Nat.log2 w < 31 := by omega
    have hlt := (Nat.log2_lt hw).1 hlog
    have hp : 0 < int32 w := by unfold int32; rw [if_pos hlt]; omega
    have e : (w <<< 1) % 2 ^ 32 = 2 * w := by rw [Nat.shiftLeft_eq]; omega
    rw [normLoop, if_pos hp, e, ih (ix - 1) (by omega) (by omega) (by rw [Nat.log2_two_mul hw]; omega)]
    push_cast; ring

theorem log2_shift {h l k : Nat} (h0 : h ≠ 0) (hl : l < 2 ^ k) : Nat.log2 (h * 2 ^ k + l) = Nat.log2 h + k := by
  have ⟨a, b⟩ := (Nat.log2_eq_iff h0).1 rfl
  have hp := Nat.two_pow_pos k
  rw [Nat.log2_eq_iff (by have := Nat.mul_pos (Nat.pos_of_ne_zero h0) hp; omega)]
  constructor
  · rw [Nat.pow_add]; exact Nat.le_trans (Nat.mul_le_mul_right _ a) (Nat.le_add_right _ _)
  · rw [show Nat.log2 h + k + 1 = (Nat.log2 h + 1) + k from by omega, Nat.pow_add]
    calc h * 2 ^ k + l < h * 2 ^ k + 2 ^ k := by omega
      _ = (h + 1) * 2 ^ k := by ring
      _ ≤ _ := Nat.mul_le_mul_right _ b

theorem join_lt {f l : Nat} (hf : f < 2 ^ 20) (hl : l < 2 ^ 32) : f * 2 ^ 32 + l < 2 ^ 52 := by omega

/-- The binary logarithm that `ilogb` and `fmod` compute. -/
theorem exp_eq {hx lx : Nat} (hl : lx < 2 ^ 32) (hh : hx < 0x7ff00000) (h0 : hx * 2 ^ 32 + lx ≠ 0) :
    fmodExp hx lx = (Nat.log2 (units (hx * 2 ^ 32 + lx)) : Int) - 1074 := by
  unfold fmodExp
  split
  · rename_i h20
    rw [units_small (by omega)]
    split
    · rename_i hz
      subst hz
      rw [Nat.zero_mul, Nat.zero_add] at *
      have := (Nat.log2_lt h0).2 hl
      rw [normLoop_eq (j := 31 - Nat.log2 lx) _ (by omega) h0 (by omega)]; omega
    · rename_i hz
      rw [log2_shift hz hl]
      have := (Nat.log2_lt (k := 20) hz).2 (by omega)
      have e : (hx <<< 11) % 2 ^ 32 = hx * 2 ^ 11 + 0 := by
        have := Nat.shiftLeft_eq hx 11
        generalize hx <<< 11 = w at *
        omega
      have hz1 : hx * 2 ^ 11 + 0 ≠ 0 := by
        clear h0 e
        have := Nat.pos_of_ne_zero hz
        omega
      clear h0
      rw [e, normLoop_eq (j := 20 - Nat.log2 hx) _ (by omega) hz1
        (by have := log2_shift (k := 11) (l := 0) hz (by omega); omega)]
      omega
  · rename_i h20
    obtain ⟨E, f, hf, rfl⟩ : ∃ E f, f < 2 ^ 20 ∧ hx = E * 2 ^ 20 + f := ⟨hx / 2 ^ 20, hx % 2 ^ 20, by omega, by omega⟩
    rw [show (E * 2 ^ 20 + f) * 2 ^ 32 + lx = E * 2 ^ 52 + (f * 2 ^ 32 + lx) from by omega]
    clear h0
    have hlog := log2_units (E := E) (F := f * 2 ^ 32 + lx) (by omega) (join_lt hf hl)
    have hu := units_make (a := E) (f := f * 2 ^ 32 + lx) (by omega) (join_lt hf hl).le
    have hs := Nat.shiftRight_eq_div_pow (E * 2 ^ 20 + f) 20
    rw [← hu] at hlog
    generalize Nat.log2 (units _) = L at *
    generalize (E * 2 ^ 20 + f) >>> 20 = Z at *
    clear hu
    omega

theorem ilogb_eq {x : Nat} (h : x < 2 ^ 64) (hf : IsFinite x) (h0 : mag x ≠ 0) :
    ilogb x = (Nat.log2 (units (mag x)) : Int) - 1074 := by
  have hlm := lo_mag x
  have hfin := (finite_iff x).1 hf
  have hw : mag x / 2 ^ 32 * 2 ^ 32 + lo x = mag x := by omega
  have hor : mag x / 2 ^ 32 ||| lo x ≠ 0 := by rw [Ne, Nat.or_eq_zero_iff]; omega
  have hlt : mag x / 2 ^ 32 < 0x7ff00000 := by unfold inf at hfin; omega
  have := exp_eq (lo_lt x) hlt (by rw [hw]; exact h0)
  rw [hw] at this
  rw [← this]
  unfold ilogb fmodExp
  simp only
  rw [hi_mag h, if_neg hor, if_pos hlt]

theorem abs_units {x : Nat} (h : x < 2 ^ 64) : |value x| = (units (mag x) : ℚ) / 2 ^ 1074 := by
  rw [abs_value h, D_cast, Int.cast_natCast]

/-- `ilogb` returns the exponent of the number: the power of two just below its magnitude, for every finite double but zero. -/
theorem C88_ilogb {x : Nat} (h : x < 2 ^ 64) (hf : IsFinite x) (h0 : ¬ IsZero x) :
    (2 : ℚ) ^ ilogb x ≤ |value x| ∧ |value x| < (2 : ℚ) ^ (ilogb x + 1) := by
  have hm0 : mag x ≠ 0 := by
    have := mag_eq x; unfold IsZero at h0; omega
  have hu0 : units (mag x) ≠ 0 := fun hh => hm0 (units_eq_zero.1 hh)
  have ⟨a, b⟩ := (Nat.log2_eq_iff hu0).1 rfl
  rw [ilogb_eq h hf hm0, abs_units h]
  have hD0 : (0 : ℚ) < 2 ^ 1074 := pow_pos (by norm_num) _
  generalize Nat.log2 (units (mag x)) = L at *
  generalize units (mag x) = U at *
  have e1 : (2 : ℚ) ^ ((L : ℤ) - 1074) = 2 ^ L / 2 ^ 1074 := by
    rw [show ((L : ℤ) - 1074) = (L : ℤ) - (1074 : ℕ) from rfl, zpow_sub₀ (by norm_num), zpow_natCast, zpow_natCast]
  have e2 : (2 : ℚ) ^ ((L : ℤ) - 1074 + 1) = 2 ^ (L + 1) / 2 ^ 1074 := by
    rw [show ((L : ℤ) - 1074 + 1) = ((L + 1 : ℕ) : ℤ) - (1074 : ℕ) from by push_cast; ring, zpow_sub₀ (by norm_num), zpow_natCast, zpow_natCast]
  rw [e1, e2]
  constructor
  · exact div_le_div_of_nonneg_right (by exact_mod_cast a) hD0.le
  · exact div_lt_div_of_pos_right (by exact_mod_cast b) hD0

/-! ## Neighbours -/

theorem rank_key {x : Nat} : rank x = key x := by
  unfold rank key mag
  by_cases h : sign x = 1
  · rw [if_pos h, (neg_iff x).2 h, if_pos rfl]
  · rw [if_neg h, if_neg (fun hh => h ((neg_iff x).1 hh))]

/-- Places tell finite doubles apart as their values do. -/
theorem C88_rank {a b : Nat} (ha : a < 2 ^ 64) (hb : b < 2 ^ 64) (_fa : IsFinite a) (_fb : IsFinite b) : value a < value b ↔ rank a < rank b := by
  have hD0 : (0 : ℚ) < 2 ^ 1074 := pow_pos (by norm_num) _
  rw [value_units, value_units, div_lt_div_iff_of_pos_right hD0, Int.cast_lt, sunits_eq ha, sunits_eq hb]
  unfold rank
  rw [show a % 2 ^ 63 = mag a from rfl, show b % 2 ^ 63 = mag b from rfl]
  have l1 := @units_lt (mag a) (mag b)
  have l2 := @units_lt (mag b) (mag a)
  have z1 := @units_eq_zero (mag a)
  have z2 := @units_eq_zero (mag b)
  generalize units (mag a) = ua at *
  generalize units (mag b) = ub at *
  split <;> split <;> omega

end Pok.Libm
