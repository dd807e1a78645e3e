import Verif.Lemmas.LogSplit
import Verif.Props.Exp
/-!
# C126: the natural logarithm

`log` of libpok, in the build with `_IEEE_LIBM`, against Mathlib's `Real.log`.  Doubles and their values as in `Verif.Spec.Float`.
-/
namespace Pok.Log
open Pok.Err Pok.Float Pok.Fpu Pok.Exp

/-! ## Positive numbers -/

theorem log_scaled (j : Int) {F : ℝ} (h : 0 < 1 + F) : Real.log ((2 : ℝ) ^ j * (1 + F)) = j * Real.log 2 + Real.log (1 + F) := by
  rw [Real.log_mul (zpow_ne_zero _ (by norm_num)) h.ne', Real.log_zpow]

/-- A subnormal number times `2^54`. -/
theorem scaled {x : Nat} (hx : x < 2 ^ 63) (h0 : expo x = 0) (h1 : frac x ≠ 0) :
    mul x two54 < 2 ^ 63 ∧ 1 ≤ expo (mul x two54) ∧ expo (mul x two54) < 107 ∧ value (mul x two54) = value x * 2 ^ 54 := by
  obtain ⟨E, F, a, b, c, d, e⟩ := Libm.mul_two54 (x := x) (by omega) h0 h1
  have s0 : sign x = 0 := by unfold sign; omega
  rw [s0] at d
  have t : Libm.two54 = two54 := rfl
  rw [t] at d
  generalize mul x two54 = y at *
  have e1 : expo y = E := by unfold expo; omega
  have f1 : frac y = F := by unfold frac; omega
  have s1 : sign y = 0 := by unfold sign; omega
  refine ⟨by omega, by omega, by omega, ?_⟩
  have e' : (frac x : ℚ) * 2 ^ 54 = (2 ^ 52 + F) * 2 ^ (E - 1) := by exact_mod_cast e
  unfold value
  rw [s0, s1, e1, f1, h0, if_neg (by omega), if_pos rfl]
  have z : (2 : ℚ) ^ ((E : ℤ) - 1023) = 2 ^ (E - 1) * (2 : ℚ) ^ (-1022 : ℤ) := by
    rw [← zpow_natCast, ← zpow_add₀ (by norm_num)]
    congr 1
    omega
  rw [z]
  generalize (2 : ℚ) ^ (-1022 : ℤ) = w at *
  calc (-1 : ℚ) ^ 0 * ((1 + F / 2 ^ 52) * (2 ^ (E - 1) * w)) = ((2 ^ 52 + F) * 2 ^ (E - 1)) * w / 2 ^ 52 := by field_simp
    _ = _ := by rw [← e']; ring

theorem log_near {x : Nat} (hx : x < 2 ^ 64) (fx : IsFinite x) (h : 0 < value x) :
    log x < 2 ^ 64 ∧ IsFinite (log x) ∧ |(value (log x) : ℝ) - Real.log (value x)| ≤ |Real.log (value x)| / 2 ^ 52 := by
  have s0 : x < 2 ^ 63 := by
    by_contra c
    have : sign x = 1 := by unfold sign; omega
    have v := value_self hx
    rw [this] at v
    have : (0 : ℚ) ≤ (units (mag x) : ℚ) / 2 ^ 1074 := by positivity
    rw [pow_one] at v
    linarith only [v, this, h]
  have E := expo_lt x
  have fE : expo x ≠ 2047 := fx
  have n0 : ¬ (Libm.neg32 (Libm.hi x) = true) := by unfold Libm.neg32 Libm.hi; simp; omega
  by_cases c : expo x = 0
  · have f0 : frac x ≠ 0 := by
      intro f
      unfold value at h
      rw [if_pos c, f] at h
      norm_num at h
    obtain ⟨a1, a2, a3, a4⟩ := scaled s0 c f0
    obtain ⟨f, g, F, j, e1, s, e3, j1, j2⟩ := split_spec a1 a2 (by omega) (-54)
    have m := main_near s (k := -54 + j) (by omega)
    have p : 0 < 1 + F := by have := s.lo; norm_num at *; linarith
    have L : Real.log (value x) = ((-54 + j : ℤ) : ℝ) * Real.log 2 + Real.log (1 + F) := by
      rw [← log_scaled _ p, zpow_add₀ (by norm_num), mul_assoc, ← e3, a4]
      congr 1
      push_cast
      rw [show ((2 : ℝ) ^ (-54 : ℤ)) = 1 / 2 ^ 54 by norm_num]
      field_simp
    have e : log x = main f g (-54 + j) := by
      unfold log
      rw [if_pos (Or.inr (by unfold Libm.hi; unfold expo at c; omega)), if_neg, if_neg n0, e1]
      rw [hi31 hx, Nat.or_eq_zero_iff]
      unfold Libm.lo mag
      unfold frac at f0
      omega
    rw [L, e]
    exact m
  · obtain ⟨f, g, F, j, e1, s, e3, j1, j2⟩ := split_spec s0 (by omega) (by omega) 0
    rw [zero_add] at e1
    have m := main_near s (k := j) (by omega)
    have p : 0 < 1 + F := by have := s.lo; norm_num at *; linarith
    have e : log x = main f g j := by
      unfold log
      rw [if_neg, e1]
      rintro (q | q)
      · exact n0 q
      · unfold Libm.hi at q; unfold expo at c; omega
    rw [e3, log_scaled _ p, e]
    exact m

/-- **Relative error.**  For every finite double above zero, normal or not, the result is a number within `2^-52` of the natural logarithm, relative to
the logarithm.  So the logarithm of one is exactly zero, and close to one, where the logarithm is close to zero, all digits are right but the last. -/
theorem C126_log {x : Nat} (hx : x < 2 ^ 64) (fx : IsFinite x) (h : 0 < value x) :
    IsFinite (log x) ∧ |(value (log x) : ℝ) - Real.log (value x)| ≤ |Real.log (value x)| / 2 ^ 52 :=
  (log_near hx fx h).2

/-- **One.**  The logarithm of one is plus zero, and of nothing else it is zero. -/
theorem C126_one {x : Nat} (hx : x < 2 ^ 64) (fx : IsFinite x) (h : 0 < value x) : value (log x) = 0 ↔ value x = 1 := by
  obtain ⟨_, b⟩ := C126_log hx fx h
  have hr : (0 : ℝ) < value x := by exact_mod_cast h
  constructor
  · intro z
    rw [z] at b
    simp only [Rat.cast_zero, zero_sub, abs_neg] at b
    have l : |Real.log (value x)| = 0 := by
      have := abs_nonneg (Real.log (value x))
      generalize |Real.log (value x)| = q at *
      norm_num at b; linarith
    rcases Real.log_eq_zero.1 (abs_eq_zero.1 l) with q | q | q
    · exact absurd q hr.ne'
    · exact_mod_cast q
    · linarith
  · intro o
    rw [o] at b
    simp only [Rat.cast_one, Real.log_one, abs_zero, zero_div, sub_zero] at b
    exact_mod_cast abs_nonpos_iff.1 b

/-! ## The other arguments -/

theorem neg_special {x : Nat} (hx : x < 2 ^ 64) (s1 : sign x = 1) (z : mag x ≠ 0) : log x = div (sub x x) Log.zero := by
  have n1 : Libm.neg32 (Libm.hi x) = true := by unfold sign at s1; unfold Libm.neg32 Libm.hi; simp; omega
  unfold log
  rw [if_pos (Or.inl n1), if_neg, if_pos n1]
  rw [hi31 hx, Nat.or_eq_zero_iff]
  unfold Libm.lo
  unfold mag at *
  omega

theorem nan_div {a b : Nat} (h : IsNaN a) : IsNaN (div a b) := by
  unfold div; rw [if_pos ((Libm.isNaN_eq a).2 h)]; exact Libm.quiet_nan h

/-- **Special arguments.**  The logarithm of zero, of either sign, is minus infinity; that of every number below zero and of minus infinity is not a
number; that of plus infinity is plus infinity; that of what is not a number is not a number. -/
theorem C126_special {x : Nat} (hx : x < 2 ^ 64) :
    (IsZero x → log x = 0xfff0000000000000) ∧ (IsFinite x → value x < 0 → IsNaN (log x)) ∧ (IsInf x → sign x = 1 → IsNaN (log x)) ∧
    (IsInf x → sign x = 0 → log x = x) ∧ (IsNaN x → IsNaN (log x)) := by
  have sx := sign_lt x
  have big : 0x7ff00000 ≤ mag x / 2 ^ 32 → sign x = 0 → log x = add x x := by
    intro m s
    have : x < 2 ^ 63 := by unfold sign at s; omega
    have mx : mag x = x := Trig.mag_self this
    unfold log
    rw [if_neg]
    · unfold split
      rw [if_pos (by unfold Libm.hi; omega)]
    · unfold Libm.neg32 Libm.hi
      simp; omega
  refine ⟨?_, ?_, ?_, ?_, ?_⟩
  · rintro ⟨a, b⟩
    have m : mag x = 0 := by rw [mag_eq, a, b]; rfl
    have : x = 0 ∨ x = 2 ^ 63 := by unfold mag at m; omega
    rcases this with rfl | rfl <;> decide +kernel
  · intro f v
    have v' := value_self hx
    have s1 : sign x = 1 := by
      by_contra c
      have s : sign x = 0 := by omega
      rw [s, pow_zero, one_mul] at v'
      have : (0 : ℚ) ≤ (units (mag x) : ℚ) / 2 ^ 1074 := by positivity
      linarith only [v', v, this]
    have z : mag x ≠ 0 := by
      intro z
      rw [z, show units 0 = 0 by decide, Nat.cast_zero, zero_div, mul_zero] at v'
      linarith only [v, v']
    rw [neg_special hx s1 z]
    have e := (finite_iff x).1 f
    have sub0 : sub x x = 0 := by
      have en := notNaN e
      unfold sub
      rw [if_neg (by simp [en])]
      have fn := (finite_iff (negate x)).1 ((Near.self hx f).neg).2.1
      rw [add_finite e fn]
      have : sunits x + sunits (negate x) = 0 := by
        unfold sunits negate
        have ng : neg x = true := (neg_iff x).2 s1
        have n2 : neg (x - 2 ^ 63) = false := by
          unfold sign at s1; unfold neg; simp; omega
        have mm : mag (x - 2 ^ 63) = mag x := by unfold sign at s1; unfold mag; omega
        rw [if_pos ng, if_pos ng, if_neg (by rw [n2]; decide), mm]
        omega
      rw [if_pos this]
      have n1 : neg x = true := (neg_iff x).2 s1
      have n2 : neg (negate x) = false := by
        unfold negate; rw [n1]; unfold sign at s1; unfold neg; simp; omega
      simp [n1, n2]
    rw [sub0]
    decide +kernel
  · intro i s
    rw [neg_special hx s (by rw [mag_eq, i.1]; omega)]
    exact nan_div (Trig.sub_self_nan hx (Or.inl i))
  · intro i s
    rw [big (by rw [mag_eq, i.1]; omega) s]
    exact Libm.add_inf i
  · intro n
    rcases (by omega : sign x = 0 ∨ sign x = 1) with s | s
    · rw [big (by rw [mag_eq, n.1]; omega) s]
      unfold add; rw [if_pos ((Libm.isNaN_eq x).2 n)]; exact Libm.quiet_nan n
    · rw [neg_special hx s (by rw [mag_eq, n.1]; omega)]
      exact nan_div (Trig.sub_self_nan hx (Or.inr n))

/-! ## The hypotheses are met -/

/-- The logarithms of 1, 2, 10, of the double next to one, of the least positive double and of the largest. -/
example : log 0x3ff0000000000000 = 0 ∧ log 0x4000000000000000 = 0x3fe62e42fefa39ef ∧ log 0x4024000000000000 = 0x40026bb1bbb55516 ∧
    log 0x3ff0000000000001 = 0x3cafffffffffffff ∧ log 1 = 0xc0874385446d71c3 ∧ log 0x7fefffffffffffff = 0x40862e42fefa39ef ∧
    log 0xbff0000000000000 = 0xfff8000000000000 ∧ log 0 = 0xfff0000000000000 := by decide +kernel

/-- Three, and the least positive double, are arguments of the first theorem; minus one is one of the last. -/
example : IsFinite 0x4008000000000000 ∧ value 0x4008000000000000 = 3 ∧ IsFinite 1 ∧ 0 < value 1 ∧ IsFinite 0xbff0000000000000 ∧ value 0xbff0000000000000 < 0 := by
  refine ⟨by decide, ?_, by decide, ?_, by decide, ?_⟩ <;> unfold value sign expo frac <;> norm_num

end Pok.Log
