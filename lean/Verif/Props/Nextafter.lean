import Verif.Props.Scale
/-!
# Neighbours, exponents as doubles, and what is not a number

Property C88.  libpok/libm/nextafter.c, logb.c, scalbn.c.
-/
namespace Pok.Libm
open Pok.Float Pok.Fpu

theorem isNaN_eq (x : Nat) : isNaN x = true ↔ IsNaN x := by
  rw [isNaN_mag]; unfold isNaN; simp

theorem isInf_eq (x : Nat) : isInf x = true ↔ IsInf x := by
  rw [isInf_mag]; unfold isInf; simp

theorem quiet_nan {x : Nat} (h : IsNaN x) : IsNaN (quiet x) := by
  obtain ⟨hE, hF⟩ := h
  unfold quiet
  split
  · exact ⟨hE, hF⟩
  · unfold IsNaN expo frac at *
    omega

theorem add_nan {x y : Nat} (h : IsNaN x ∨ IsNaN y) : IsNaN (add x y) := by
  unfold add
  by_cases hx : IsNaN x
  · rw [if_pos ((isNaN_eq x).2 hx)]; exact quiet_nan hx
  · have hy := h.resolve_left hx
    rw [if_neg (fun hh => hx ((isNaN_eq x).1 hh)), if_pos ((isNaN_eq y).2 hy)]; exact quiet_nan hy

theorem mul_nan {x y : Nat} (h : IsNaN x ∨ IsNaN y) : IsNaN (mul x y) := by
  unfold mul
  by_cases hx : IsNaN x
  · rw [if_pos ((isNaN_eq x).2 hx)]; exact quiet_nan hx
  · have hy := h.resolve_left hx
    rw [if_neg (fun hh => hx ((isNaN_eq x).1 hh)), if_pos ((isNaN_eq y).2 hy)]; exact quiet_nan hy

theorem inf_not_nan {x : Nat} (h : IsInf x) : isNaN x = false := by
  have := (isInf_mag x).1 h
  unfold isNaN; rw [this]; simp

theorem add_inf {x : Nat} (h : IsInf x) : add x x = x := by
  unfold add; rw [inf_not_nan h, (isInf_eq x).2 h]; simp

/-- Infinite arguments come back as they are; what is not a number stays so. -/
theorem C88_scalbn_special {x : Nat} {n : Int} (h : x < 2 ^ 64) :
    (IsInf x → scalbn x n = x ∧ ldexp x n = x) ∧ (IsNaN x → IsNaN (scalbn x n) ∧ IsNaN (ldexp x n)) := by
  have hfin := (C86_kinds h).2.2.2.2.2.2.2
  have hsc : expo x = 2047 → scalbn x n = add x x := by
    intro hE
    unfold scalbn
    simp only [expo_mask h, hE]
    rw [if_neg (by omega)]
    simp
  have hl : expo x = 2047 → ldexp x n = x := by
    intro hE
    unfold ldexp
    rw [if_pos (Or.inl (by by_contra hc; exact (hfin.1 hc) hE))]
  constructor
  · intro hi
    exact ⟨(hsc hi.1).trans (add_inf hi), hl hi.1⟩
  · intro hi
    exact ⟨(hsc hi.1) ▸ add_nan (Or.inl hi), (hl hi.1).symm ▸ hi⟩

/-! ## `logb` -/

theorem ofInt_value {i : Int} (hi : i.natAbs < 2 ^ 53) : ofInt i < 2 ^ 64 ∧ IsFinite (ofInt i) ∧ value (ofInt i) = i := by
  by_cases h0 : i = 0
  · subst h0
    have e : ofInt 0 = 0 := by unfold ofInt; rw [if_pos rfl]
    rw [e]
    refine ⟨by omega, by decide, ?_⟩
    rw [value_self (by omega), show mag 0 = 0 from rfl, units_zero]; simp
  · have hp : (0 : ℚ) < 2 ^ 1074 := pow_pos (by norm_num) _
    obtain ⟨m, hm⟩ := exists_units (a := i.natAbs) (b := 1074) hi
    have hinf : m < inf := by
      have h1 : i.natAbs * 2 ^ 1074 < 2 ^ 53 * 2 ^ 1074 := Nat.mul_lt_mul_of_pos_right hi (Nat.two_pow_pos _)
      have h2 : 2 ^ 53 * 2 ^ 1074 ≤ 2 ^ 54 * 2 ^ 2044 := Nat.mul_le_mul (by omega) (Nat.pow_le_pow_right (by omega) (by omega))
      have h3 : units m < units inf := by rw [hm]; exact (Nat.lt_of_lt_of_le h1 h2).trans_eq units_inf.symm
      exact units_lt.1 h3
    have hl := inf_lt
    obtain ⟨s, hs, hse, hsi⟩ : ∃ s, s < 2 ∧ decide (i < 0) = decide (s = 1) ∧ (i : ℚ) = (-1) ^ s * (i.natAbs : ℚ) := by
      by_cases hn : i < 0
      · refine ⟨1, by omega, by simp [hn], ?_⟩
        have : (i : ℤ) = -(i.natAbs : ℤ) := by omega
        rw [pow_one, neg_one_mul, ← Int.cast_natCast, ← Int.cast_neg, ← this]
      · refine ⟨0, by omega, by simp [hn], ?_⟩
        have : (i : ℤ) = (i.natAbs : ℤ) := by omega
        rw [pow_zero, one_mul, ← Int.cast_natCast, ← this]
    have e : ofInt i = s * 2 ^ 63 + m := by
      unfold ofInt
      rw [if_neg h0, ← hm, roundMag_exact0 hinf.le, withSign_make hs _ hse]
    have hm63 : m < 2 ^ 63 := by omega
    rw [e]
    refine ⟨lt64 hs hm63, (finite_iff _).2 (by rw [mag_make hm63]; exact hinf), ?_⟩
    rw [value_sm hs hm63, hm, hsi, Nat.cast_mul, Nat.cast_pow, Nat.cast_ofNat, mul_div_assoc, div_self hp.ne', _root_.mul_one]

theorem log2_normal {x : Nat} (h : x < 2 ^ 64) (hn : Normal x) : ilogb x = (expo x : Int) - 1023 := by
  have hF := frac_lt x
  have h0 : mag x ≠ 0 := by have := mag_eq x; have := hn.1; omega
  have := log2_units (E := expo x) (F := frac x) (by have := hn.1; omega) hF
  rw [ilogb_eq h hn.2 h0, units_expo, if_neg hn.1, this]
  have := hn.1; omega

/-- `logb` returns the exponent of the number as a double; it is infinite for zero and for infinite arguments. -/
theorem C88_logb {x : Nat} (h : x < 2 ^ 64) :
    (Normal x → IsFinite (logb x) ∧ value (logb x) = ilogb x) ∧ (IsZero x → logb x = 2 ^ 63 + inf)
    ∧ (IsInf x → logb x = inf) ∧ (IsNaN x → IsNaN (logb x)) := by
  have hE := expo_lt x
  have hF := frac_lt x
  have hm := mag_eq x
  have hsh : (mag x / 2 ^ 32) >>> 20 = expo x := by rw [Nat.shiftRight_eq_div_pow]; omega
  refine ⟨fun hn => ?_, fun hz => ?_, fun hi => ?_, fun hn => ?_⟩
  · have e : logb x = ofInt ((expo x : Int) - 1023) := by
      unfold logb
      simp only
      rw [hi_mag h, if_neg (by rw [ilog_zero]; have := hn.1; omega), if_neg (by have := hn.2; omega), hsh, if_neg hn.1]
    have := ofInt_value (i := (expo x : Int) - 1023) (by omega)
    rw [e, log2_normal h hn]
    exact ⟨this.2.1, this.2.2⟩
  · unfold logb
    simp only
    rw [hi_mag h, if_pos (by rw [ilog_zero, hm, hz.1, hz.2]; rfl)]
  · have e : logb x = mul x x := by
      unfold logb
      simp only
      rw [hi_mag h, if_neg (by rw [ilog_zero]; have := hi.1; omega), if_pos (by have := hi.1; omega)]
    have hmi := (isInf_mag x).1 hi
    rw [e]
    unfold mul
    rw [inf_not_nan hi, (isInf_eq x).2 hi]
    simp only [Bool.false_eq_true, if_false, Bool.true_or, if_true]
    rw [if_neg (by simp only [hmi, Bool.or_self, decide_eq_true_eq]; unfold inf; omega)]
    simp [withSign]
  · have e : logb x = mul x x := by
      unfold logb
      simp only
      rw [hi_mag h, if_neg (by rw [ilog_zero]; have := hn.1; omega), if_pos (by have := hn.1; omega)]
    rw [e]; exact mul_nan (Or.inl hn)

/-- Subnormal numbers are all below `2^-1022`, but `logb` returns -1022 for them: `scalbn(x, -logb(x))` is not between one and two. -/
theorem C88_logb_violated {x : Nat} (h : x < 2 ^ 64) (hs : Subnormal x) : value (logb x) = -1022 ∧ |value x| < (2 : ℚ) ^ (-1022 : ℤ) := by
  have hF := frac_lt x
  have hm := mag_eq x
  have h0 := hs.1
  have hsh : (mag x / 2 ^ 32) >>> 20 = 0 := by rw [Nat.shiftRight_eq_div_pow]; omega
  have e : logb x = ofInt (-1022) := by
    unfold logb
    simp only
    rw [hi_mag h, if_neg (by rw [ilog_zero]; have := hs.2; omega), if_neg (by omega), hsh, if_pos rfl]
  constructor
  · rw [e, (ofInt_value (i := -1022) (by decide)).2.2]; norm_num
  · have := (C88_ilogb h (by unfold IsFinite; omega) (by unfold IsZero; have := hs.2; omega)).2
    refine lt_of_lt_of_le this (zpow_le_zpow_right₀ (by norm_num) ?_)
    have h00 : mag x ≠ 0 := by have := hs.2; omega
    have hu0 : units (mag x) ≠ 0 := fun hh => h00 (units_eq_zero.1 hh)
    have hfin : IsFinite x := by unfold IsFinite; omega
    rw [ilogb_eq h hfin h00]
    have : Nat.log2 (units (mag x)) < 52 := (Nat.log2_lt hu0).2 (by rw [units_expo, if_pos h0]; exact hF)
    omega

/-- Zero has the least number but one as its exponent, infinite arguments and arguments that are not numbers have the greatest. -/
theorem C88_ilogb_special {x : Nat} (h : x < 2 ^ 64) : (IsZero x → ilogb x = -(2 ^ 31 - 1)) ∧ (¬ IsFinite x → ilogb x = 2 ^ 31 - 1) := by
  have hE := expo_lt x
  have hF := frac_lt x
  have hm := mag_eq x
  constructor
  · intro hz
    have h0 : mag x = 0 := by rw [hm, hz.1, hz.2]; rfl
    unfold ilogb
    simp only
    rw [hi_mag h, if_pos (by omega), if_pos (ilog_zero.2 h0)]; decide
  · intro hz
    have : expo x = 2047 := by unfold IsFinite at hz; omega
    unfold ilogb
    simp only
    rw [hi_mag h, if_neg (by omega), if_neg (by omega)]; decide

/-! ## `nextafter` -/

theorem nan_test {x : Nat} (h : x < 2 ^ 64) :
    ((hi x &&& 0x7fffffff) ≥ 0x7ff00000 ∧ ((hi x &&& 0x7fffffff) - 0x7ff00000) ||| lo x ≠ 0) ↔ IsNaN x := by
  rw [hi_mag h, isNaN_mag, Ne, Nat.or_eq_zero_iff, lo_mag]
  unfold inf; omega

theorem eq_rank {x y : Nat} (nx : ¬ IsNaN x) (ny : ¬ IsNaN y) : eq x y = true ↔ rank x = rank y := by
  have h1 : isNaN x = false := by by_contra hc; exact nx ((isNaN_eq x).1 (by simpa using hc))
  have h2 : isNaN y = false := by by_contra hc; exact ny ((isNaN_eq y).1 (by simpa using hc))
  unfold eq; rw [h1, h2, rank_key, rank_key]; simp

theorem rank_make {s m : Nat} (hs : s < 2) (hm : m < 2 ^ 63) : rank (s * 2 ^ 63 + m) = if s = 1 then -(m : ℤ) else m := by
  have := mag_make (s := s) hm
  unfold mag at this
  unfold rank; rw [sign_make hs hm, this]

theorem rank_self (x : Nat) : rank x = if sign x = 1 then -(mag x : ℤ) else mag x := rfl

/-- Which way the bits move: the magnitude falls if the other number is on the side of zero. -/
theorem down_iff {x y : Nat} (hx : x < 2 ^ 64) (hy : y < 2 ^ 64) (hne : rank x ≠ rank y) :
    (if !neg32 (hi x) then (int32 (hi x) > int32 (hi y) ∨ (hi x = hi y ∧ lo x > lo y))
      else (!neg32 (hi y) ∨ int32 (hi x) > int32 (hi y) ∨ (hi x = hi y ∧ lo x > lo y)))
    ↔ (if sign x = 0 then rank y < rank x else rank x < rank y) := by
  have hsx := sign_lt x
  have hsy := sign_lt y
  have n1 := neg32_hi hx
  have n2 := neg32_hi hy
  have hhx : hi x = sign x * 2 ^ 31 + mag x / 2 ^ 32 := by unfold hi sign mag; omega
  have hhy : hi y = sign y * 2 ^ 31 + mag y / 2 ^ 32 := by unfold hi sign mag; omega
  have hlx := lo_mag x
  have hly := lo_mag y
  have hmx := mag_lt x
  have hmy := mag_lt y
  rw [rank_self, rank_self] at *
  generalize mag x = a at *
  generalize mag y = b at *
  generalize lo x = lx at *
  generalize lo y = ly at *
  generalize hi x = p at *
  generalize hi y = q at *
  generalize sign x = s at *
  generalize sign y = t at *
  clear hx hy
  have hs : s = 0 ∨ s = 1 := by omega
  have ht : t = 0 ∨ t = 1 := by omega
  unfold int32
  rcases hs with rfl | rfl <;> rcases ht with rfl | rfl
  · have : neg32 p = false := by by_contra hc; simp at hc; have := n1.1 hc; omega
    rw [this]
    simp only [Bool.not_false, if_true]
    rw [if_pos (by omega), if_pos (by omega)]
    simp only [Nat.zero_ne_one, if_false] at *
    omega
  · have : neg32 p = false := by by_contra hc; simp at hc; have := n1.1 hc; omega
    rw [this]
    simp only [Bool.not_false, if_true]
    rw [if_pos (by omega), if_neg (by omega)]
    simp only [Nat.zero_ne_one, if_false, if_true] at *
    omega
  · have h1 : neg32 p = true := n1.2 rfl
    have h2 : neg32 q = false := by by_contra hc; simp at hc; have := n2.1 hc; omega
    rw [h1, h2]
    simp only [Bool.not_true, Bool.not_false, Bool.false_eq_true, if_false, if_true, true_or, true_iff]
    simp only [Nat.one_ne_zero, Nat.zero_ne_one, if_false, if_true] at *
    omega
  · have h1 : neg32 p = true := n1.2 rfl
    have h2 : neg32 q = true := n2.2 rfl
    rw [h1, h2]
    simp only [Bool.not_true, Bool.false_eq_true, if_false, false_or]
    rw [if_neg (by omega), if_neg (by omega)]
    simp only [Nat.one_ne_zero, if_false, if_true] at *
    omega

/-- One step of the bits. -/
theorem step_bits {x : Nat} (h : x < 2 ^ 64) (h0 : mag x ≠ 0) (hm : mag x ≤ inf) (d : Prop) [Decidable d] :
    insert (if d then (if lo x = 0 then (hi x + 2 ^ 32 - 1) % 2 ^ 32 else hi x) else (if (lo x + 1) % 2 ^ 32 = 0 then (hi x + 1) % 2 ^ 32 else hi x))
      (if d then (lo x + 2 ^ 32 - 1) % 2 ^ 32 else (lo x + 1) % 2 ^ 32)
    = sign x * 2 ^ 63 + (if d then mag x - 1 else mag x + 1) := by
  have hhx : hi x = sign x * 2 ^ 31 + mag x / 2 ^ 32 := by unfold hi sign mag; omega
  have hlx := lo_mag x
  have hs := sign_lt x
  rw [hhx, hlx]
  unfold insert
  unfold inf at hm
  have hs2 : sign x = 0 ∨ sign x = 1 := by omega
  clear hhx hlx hs h
  generalize mag x = m at *
  have hpos := Nat.pos_of_ne_zero h0
  clear h0
  generalize sign x = s at *
  by_cases hd : d
  · simp only [if_pos hd]
    by_cases hl : m % 2 ^ 32 = 0
    · rw [if_pos hl]; rcases hs2 with rfl | rfl <;> omega
    · rw [if_neg hl]; rcases hs2 with rfl | rfl <;> omega
  · simp only [if_neg hd]
    by_cases hl : (m % 2 ^ 32 + 1) % 2 ^ 32 = 0
    · rw [if_pos hl]; rcases hs2 with rfl | rfl <;> omega
    · rw [if_neg hl]; rcases hs2 with rfl | rfl <;> omega

theorem add_max {s : Nat} (hs : s < 2) : add (s * 2 ^ 63 + (inf - 1)) (s * 2 ^ 63 + (inf - 1)) = s * 2 ^ 63 + inf := by
  rcases Nat.lt_or_ge s 1 with h | h
  · rw [show s = 0 from by omega]; decide +kernel
  · rw [show s = 1 from by omega]; decide +kernel

theorem step_end {x : Nat} (h : x < 2 ^ 64) (h0 : mag x ≠ 0) (hm : mag x ≤ inf) (d : Prop) [Decidable d] (hup : ¬ d → mag x < inf) :
    (if (if d then (if lo x = 0 then (hi x + 2 ^ 32 - 1) % 2 ^ 32 else hi x) else (if (lo x + 1) % 2 ^ 32 = 0 then (hi x + 1) % 2 ^ 32 else hi x))
        &&& 0x7ff00000 ≥ 0x7ff00000 then add x x
      else insert (if d then (if lo x = 0 then (hi x + 2 ^ 32 - 1) % 2 ^ 32 else hi x) else (if (lo x + 1) % 2 ^ 32 = 0 then (hi x + 1) % 2 ^ 32 else hi x))
      (if d then (lo x + 2 ^ 32 - 1) % 2 ^ 32 else (lo x + 1) % 2 ^ 32))
    = sign x * 2 ^ 63 + (if d then mag x - 1 else mag x + 1) := by
  have hb := step_bits h h0 hm d
  have hp : (if d then (if lo x = 0 then (hi x + 2 ^ 32 - 1) % 2 ^ 32 else hi x) else (if (lo x + 1) % 2 ^ 32 = 0 then (hi x + 1) % 2 ^ 32 else hi x))
      < 2 ^ 32 := by
    have := hi_lt x
    split <;> split <;> omega
  have hq : (if d then (lo x + 2 ^ 32 - 1) % 2 ^ 32 else (lo x + 1) % 2 ^ 32) < 2 ^ 32 := by split <;> omega
  generalize (if d then (if lo x = 0 then (hi x + 2 ^ 32 - 1) % 2 ^ 32 else hi x) else (if (lo x + 1) % 2 ^ 32 = 0 then (hi x + 1) % 2 ^ 32 else hi x))
    = p at *
  generalize (if d then (lo x + 2 ^ 32 - 1) % 2 ^ 32 else (lo x + 1) % 2 ^ 32) = q at *
  have hmb : (if d then mag x - 1 else mag x + 1) ≤ inf := by
    split
    · omega
    · rename_i hd; have := hup hd; omega
  have hsx := sign_lt x
  have hx := self_eq h
  have hpd : (p &&& 0x7ff00000 ≥ 0x7ff00000) ↔ (if d then mag x - 1 else mag x + 1) = inf := by
    rw [and_expo p hp]
    unfold insert at hb
    unfold inf at *
    generalize (if d then mag x - 1 else mag x + 1) = M at *
    generalize sign x = s at *
    clear hx h hm h0 hup
    omega
  by_cases hc : p &&& 0x7ff00000 ≥ 0x7ff00000
  · rw [if_pos hc]
    have hM := hpd.1 hc
    rw [hM]
    have hmax : mag x = inf - 1 := by
      split at hM
      · unfold inf at *; omega
      · omega
    rw [hmax] at hx
    rw [hx, sign_make hsx (by have := inf_lt; omega)]
    exact add_max hsx
  · rw [if_neg hc]; exact hb

/-- What `nextafter` returns for numbers that differ. -/
theorem nextafter_eq {x y : Nat} (hx : x < 2 ^ 64) (hy : y < 2 ^ 64) (nx : ¬ IsNaN x) (ny : ¬ IsNaN y) (hne : rank x ≠ rank y) :
    nextafter x y = if mag x = 0 then sign y * 2 ^ 63 + 1
      else sign x * 2 ^ 63 + (if (if sign x = 0 then rank y < rank x else rank x < rank y) then mag x - 1 else mag x + 1) := by
  have hmx : mag x ≤ inf := by rw [isNaN_mag] at nx; omega
  have hinf := inf_lt
  unfold nextafter
  simp only
  rw [if_neg (by rw [nan_test hx, nan_test hy]; rintro (hh | hh); exacts [nx hh, ny hh]), if_neg (fun hh => hne ((eq_rank nx ny).1 hh)), hi_mag hx]
  simp only [ilog_zero]
  by_cases h0 : mag x = 0
  · rw [if_pos h0, if_pos h0]
    have e : insert (hi y &&& 0x80000000) 1 = sign y * 2 ^ 63 + 1 := by
      rw [and_sign (hi_lt y)]
      have : hi y / 2 ^ 31 = sign y := by unfold hi sign; omega
      rw [this]
      unfold insert
      generalize sign y = s
      omega
    rw [e, mul_make (sign_lt y) (sign_lt y) (by decide) (by decide), roundMag_zero (by decide +kernel)]
    have hz : (sign y + sign y) % 2 = 0 := by omega
    rw [hz]
    have hk : ¬ eq (0 * 2 ^ 63 + 0) (sign y * 2 ^ 63 + 1) = true := by
      have hs := sign_lt y
      rcases Nat.lt_or_ge (sign y) 1 with h | h
      · rw [show sign y = 0 from by omega]; decide +kernel
      · rw [show sign y = 1 from by omega]; decide +kernel
    rw [if_neg hk]
  · rw [if_neg h0, if_neg h0]
    have hd := down_iff hx hy hne
    have hup : ¬ (if !neg32 (hi x) then (int32 (hi x) > int32 (hi y) ∨ (hi x = hi y ∧ lo x > lo y))
      else (!neg32 (hi y) ∨ int32 (hi x) > int32 (hi y) ∨ (hi x = hi y ∧ lo x > lo y))) → mag x < inf := by
      intro hh
      rw [hd] at hh
      have hmy : mag y ≤ inf := by rw [isNaN_mag] at ny; omega
      rw [rank_self, rank_self] at *
      have h1 := sign_lt x
      have h2 := sign_lt y
      by_contra hc
      generalize mag x = a at *
      generalize mag y = b at *
      generalize sign x = s at *
      generalize sign y = t at *
      clear hd hx hy nx ny hinf
      generalize inf = I at *
      have hs : s = 0 ∨ s = 1 := by omega
      rcases hs with rfl | rfl
      · simp only [Nat.zero_ne_one, if_false, if_true] at *
        split at hne <;> simp_all <;> omega
      · simp only [Nat.one_ne_zero, if_false, if_true] at *
        split at hne <;> simp_all <;> omega
    refine (step_end hx h0 hmx _ hup).trans ?_
    congr 1
    exact if_congr hd rfl rfl

/-- `nextafter(x, y)` is the double next to `x` in the direction of `y`, `x` itself if they are equal, and not a number if one of them is not.
Places among the doubles are those of `C88_rank`. -/
theorem C88_nextafter {x y : Nat} (hx : x < 2 ^ 64) (hy : y < 2 ^ 64) :
    (IsNaN x ∨ IsNaN y → IsNaN (nextafter x y))
    ∧ (¬ IsNaN x → ¬ IsNaN y → nextafter x y < 2 ^ 64 ∧ ¬ IsNaN (nextafter x y)
        ∧ (rank x = rank y → nextafter x y = x)
        ∧ (rank x < rank y → rank (nextafter x y) = rank x + 1) ∧ (rank y < rank x → rank (nextafter x y) = rank x - 1)) := by
  constructor
  · intro hn
    unfold nextafter
    simp only
    rw [if_pos (by rw [nan_test hx, nan_test hy]; exact hn)]
    exact add_nan hn
  · intro nx ny
    have hinf := inf_lt
    by_cases hr : rank x = rank y
    · have e : nextafter x y = x := by
        unfold nextafter
        simp only
        rw [if_neg (by rw [nan_test hx, nan_test hy]; rintro (hh | hh); exacts [nx hh, ny hh]), if_pos ((eq_rank nx ny).2 hr)]
      rw [e]
      exact ⟨hx, nx, fun _ => rfl, fun hh => by omega, fun hh => by omega⟩
    · rw [nextafter_eq hx hy nx ny hr]
      have hmx : mag x ≤ inf := by rw [isNaN_mag] at nx; omega
      have hmy : mag y ≤ inf := by rw [isNaN_mag] at ny; omega
      have hsx := sign_lt x
      have hsy := sign_lt y
      have h1inf : 1 < inf := by unfold inf; omega
      by_cases h0 : mag x = 0
      · rw [if_pos h0]
        have hnn : ¬ IsNaN (sign y * 2 ^ 63 + 1) := by rw [isNaN_mag, mag_make (by omega)]; omega
        refine ⟨lt64 hsy (by omega), hnn, fun hh => absurd hh hr, fun hh => ?_, fun hh => ?_⟩
        · rw [rank_make hsy (by omega)]
          rw [rank_self, rank_self, h0] at *
          split <;> rename_i h1
          · rw [if_pos h1] at hh; split at hh <;> omega
          · split <;> omega
        · rw [rank_make hsy (by omega)]
          rw [rank_self, rank_self, h0] at *
          split <;> rename_i h1
          · split <;> omega
          · rw [if_neg h1] at hh; split at hh <;> omega
      · rw [if_neg h0]
        have hM : (if (if sign x = 0 then rank y < rank x else rank x < rank y) then mag x - 1 else mag x + 1) ≤ inf := by
          have e1 := rank_self x
          have e2 : rank y ≤ inf ∧ -(inf : ℤ) ≤ rank y := by rw [rank_self]; split <;> omega
          by_cases hs : sign x = 0
          · rw [if_neg (by omega)] at e1
            simp only [if_pos hs]
            split <;> omega
          · rw [if_pos (by omega)] at e1
            simp only [if_neg hs]
            split <;> omega
        have hnn : ¬ IsNaN (sign x * 2 ^ 63 + (if (if sign x = 0 then rank y < rank x else rank x < rank y) then mag x - 1 else mag x + 1)) := by
          rw [isNaN_mag, mag_make (by omega)]; omega
        refine ⟨lt64 hsx (by omega), hnn, fun hh => absurd hh hr, fun hh => ?_, fun hh => ?_⟩
        · rw [rank_make hsx (by omega)]
          have e := rank_self x
          by_cases hs : sign x = 0
          · simp only [if_pos hs, if_neg (show ¬ sign x = 1 from by omega)] at *
            rw [if_neg (by omega)]; omega
          · have hs1 : sign x = 1 := by omega
            simp only [if_neg hs, if_pos hs1] at *
            rw [if_pos hh]; omega
        · rw [rank_make hsx (by omega)]
          have e := rank_self x
          by_cases hs : sign x = 0
          · simp only [if_pos hs, if_neg (show ¬ sign x = 1 from by omega)] at *
            rw [if_pos hh]; omega
          · have hs1 : sign x = 1 := by omega
            simp only [if_neg hs, if_pos hs1] at *
            rw [if_neg (by omega)]; omega

/-- `nextafter(1.0, 2.0)` is one step above 1; `ilogb(0.75)` is -1; `frexp(-6.0)` is -0.75 and 3; `scalbn(1.5, -1074)` is rounded to the even
`2 * 2^-1074`; `logb(2^-1074)` is -1022 though the exponent is -1074. -/
example : nextafter 0x3ff0000000000000 0x4000000000000000 = 0x3ff0000000000001 ∧ rank 0x3ff0000000000000 < rank 0x4000000000000000
    ∧ ilogb 0x3fe8000000000000 = -1 ∧ frexp 0xc018000000000000 = (0xbfe8000000000000, 3) ∧ scalbn 0x3ff8000000000000 (-1074) = 2
    ∧ scalbn 0x3ff0000000000000 1024 = inf ∧ logb 1 = ofInt (-1022) ∧ ilogb 1 = -1074 := by
  refine ⟨by decide +kernel, by decide +kernel, by decide +kernel, by decide +kernel, by decide +kernel, by decide +kernel, by decide +kernel,
    by decide +kernel⟩

end Pok.Libm
