import Verif.Lemmas.HypotNear
import Verif.Props.Fmod
/-!
# C134: the distance of a point from the origin

The specification is Mathlib's square root of `x² + y²`, and `value`, `IsFinite`, `IsNaN` and `IsInf` of `Verif.Spec.Float`.  `2^-1075` is half of the least
positive double; `(2^50 - 1) * 2^974` is `2^1024` less a part in `2^50`, and `2^1024` is where the doubles end.
-/
namespace Pok.Hypot
open Pok.Err Pok.Float Pok.Fpu Pok.Rel

theorem ordered_near {a b : Nat} (la : a < inf) (lb : b < inf) (h0 : b / 2 ^ 32 ≤ a / 2 ^ 32) {A B : ℝ} (vA : (value a : ℝ) = A) (vB : (value b : ℝ) = B)
    (le : Real.sqrt (A ^ 2 + B ^ 2) ≤ (2 ^ 50 - 1) * 2 ^ 974) :
    Near (ordered a b (a / 2 ^ 32) (b / 2 ^ 32)) (Real.sqrt (A ^ 2 + B ^ 2)) (5 * Real.sqrt (A ^ 2 + B ^ 2) / 2 ^ 53 + 1 / 2 ^ 1075) := by
  have hi := inf_lt
  have r0 := Real.sqrt_nonneg (A ^ 2 + B ^ 2)
  have t0 : (0 : ℝ) ≤ 1 / 2 ^ 1075 := by positivity
  have a0 : 0 ≤ A := by rw [← vA]; exact val_nonneg (by omega)
  have b0 : 0 ≤ B := by rw [← vB]; exact val_nonneg (by omega)
  have wk : ∀ {n : Nat}, Near n (Real.sqrt (A ^ 2 + B ^ 2)) (353 / 100 * Real.sqrt (A ^ 2 + B ^ 2) / 2 ^ 53) →
      Near n (Real.sqrt (A ^ 2 + B ^ 2)) (5 * Real.sqrt (A ^ 2 + B ^ 2) / 2 ^ 53 + 1 / 2 ^ 1075) := by
    intro n h
    refine h.weaken (le_trans (b := 5 * Real.sqrt (A ^ 2 + B ^ 2) / 2 ^ 53) ?_ (le_add_of_nonneg_right t0))
    exact div_le_div_of_nonneg_right (mul_le_mul_of_nonneg_right (by norm_num) r0) (by positivity)
  by_cases far : ((a / 2 ^ 32 : Nat) : Int) - (b / 2 ^ 32 : Nat) > 0x3c00000
  · refine (near_far la lb far vA vB (le_trans (root_le a0 b0).2.1 le)).weaken (le_trans (b := 5 * Real.sqrt (A ^ 2 + B ^ 2) / 2 ^ 53) ?_ (le_add_of_nonneg_right t0))
    rw [div_le_div_iff₀ (by norm_num) (by norm_num)]
    generalize Real.sqrt (A ^ 2 + B ^ 2) = R at *
    linarith only [r0]
  rcases Nat.lt_or_ge 0x5f300000 (a / 2 ^ 32) with big | big
  · exact wk (near_down la lb far big vA vB le)
  by_cases z : b = 0
  · rw [case_zero far z]
    have : B = 0 := by rw [← vB, z, val (by omega), show units 0 = 0 by decide]; simp
    rw [this, zero_pow (by norm_num), add_zero, Real.sqrt_sq a0, ← vA]
    have f := finite_of la
    refine (Near.self (by omega) f.2).weaken ?_
    have := val_nonneg f.1
    positivity
  rcases Nat.lt_or_ge 0xfffff (b / 2 ^ 32) with s | s
  · rcases Nat.lt_or_ge (b / 2 ^ 32) 0x20b00000 with m | m
    · exact near_up far h0 s m vA vB
    · exact wk (near_medium far h0 big m vA vB)
  · by_cases y : a = 0
    · have hb : b / 2 ^ 32 = 0 := by rw [y] at h0; omega
      have : A = 0 := by rw [← vA, y, val (by omega), show units 0 = 0 by decide]; simp
      rw [this, zero_pow (by norm_num), zero_add, Real.sqrt_sq b0, y, Nat.zero_div]
      exact near_origin z hb vB
    · exact near_small far y z s vA vB

/-- The sign of the arguments does not matter. -/
theorem ordered_mag (x y ha hb : Nat) : ordered x y ha hb = ordered (mag x) (mag y) ha hb := by
  have e : ∀ z h, Libm.setHi z h = Libm.setHi (mag z) h := fun z h => by unfold Libm.setHi Libm.insert Libm.lo mag; omega
  unfold ordered; rw [e x, e y]

theorem shifted_mag (x y ha hb : Nat) : shifted x y ha hb = shifted (mag x) (mag y) ha hb := by
  have e : ∀ z h, Libm.setHi z h = Libm.setHi (mag z) h := fun z h => by unfold Libm.setHi Libm.insert Libm.lo mag; omega
  unfold shifted; rw [e x, e y]

theorem hypot_eq {x y : Nat} (hx : x < 2 ^ 64) (hy : y < 2 ^ 64) : hypot x y =
    if mag x / 2 ^ 32 < mag y / 2 ^ 32 then ordered (mag y) (mag x) (mag y / 2 ^ 32) (mag x / 2 ^ 32) else ordered (mag x) (mag y) (mag x / 2 ^ 32) (mag y / 2 ^ 32) := by
  unfold hypot; simp only []; rw [hi31 hx, hi31 hy, ordered_mag x, ordered_mag y]

theorem value_mag {x : Nat} (hx : x < 2 ^ 64) : (value (mag x) : ℝ) = |(value x : ℝ)| := by
  rw [Atan2.abs_units hx, val (mag_lt x)]

/-- **C134.** For finite numbers whose distance from the origin is below `2^1024` by a part in `2^50`, `hypot` returns it with a relative error of at most `5·2^-53`
and half of the least positive double; in particular there is no overflow or underflow of the squares. -/
theorem C134_hypot_partial {x y : Nat} (hx : x < 2 ^ 64) (hy : y < 2 ^ 64) (fx : IsFinite x) (fy : IsFinite y)
    (h : Real.sqrt ((value x : ℝ) ^ 2 + (value y : ℝ) ^ 2) ≤ (2 ^ 50 - 1) * 2 ^ 974) :
    hypot x y < 2 ^ 64 ∧ IsFinite (hypot x y) ∧
      |(value (hypot x y) : ℝ) - Real.sqrt ((value x : ℝ) ^ 2 + (value y : ℝ) ^ 2)| ≤ 5 * Real.sqrt ((value x : ℝ) ^ 2 + (value y : ℝ) ^ 2) / 2 ^ 53 + 1 / 2 ^ 1075 := by
  have mx := (finite_iff x).1 fx
  have my := (finite_iff y).1 fy
  rw [hypot_eq hx hy]
  rw [← sq_abs (value x : ℝ), ← sq_abs (value y : ℝ)] at h ⊢
  split
  · next c =>
    rw [add_comm (_ ^ 2)] at h ⊢
    exact ordered_near my mx (by omega) (value_mag hy) (value_mag hx) h
  · next c => exact ordered_near mx my (by omega) (value_mag hx) (value_mag hy) h

/-- 3 and 4. -/
example : Near (hypot 0x4008000000000000 0x4010000000000000) (Real.sqrt ((value 0x4008000000000000 : ℝ) ^ 2 + (value 0x4010000000000000 : ℝ) ^ 2))
    (5 * Real.sqrt ((value 0x4008000000000000 : ℝ) ^ 2 + (value 0x4010000000000000 : ℝ) ^ 2) / 2 ^ 53 + 1 / 2 ^ 1075) := by
  have a : value 0x4008000000000000 = 3 := by unfold value expo frac sign; norm_num
  have b : value 0x4010000000000000 = 4 := by unfold value expo frac sign; norm_num
  refine C134_hypot_partial (by omega) (by omega) (by decide) (by decide) ?_
  rw [a, b]
  push_cast
  rw [show (3 : ℝ) ^ 2 + 4 ^ 2 = 5 ^ 2 by norm_num, Real.sqrt_sq (by norm_num)]
  have : (1 : ℝ) ≤ 2 ^ 974 := one_le_pow₀ (by norm_num)
  generalize (2 : ℝ) ^ 974 = P at *
  linarith
example : hypot 0x4008000000000000 0x4010000000000000 = 0x4014000000000000 := by decide +kernel

/-- **C134.** Beyond `2^1024` by a part in `2^50` the result is `+∞`. -/
theorem C134_overflow_partial {x y : Nat} (hx : x < 2 ^ 64) (hy : y < 2 ^ 64) (fx : IsFinite x) (fy : IsFinite y)
    (h : (2 ^ 50 + 1) * 2 ^ 974 ≤ Real.sqrt ((value x : ℝ) ^ 2 + (value y : ℝ) ^ 2)) : IsInf (hypot x y) ∧ hypot x y < 2 ^ 63 := by
  have mx := (finite_iff x).1 fx
  have my := (finite_iff y).1 fy
  rw [hypot_eq hx hy]
  rw [← sq_abs (value x : ℝ), ← sq_abs (value y : ℝ)] at h
  have key : ∀ {a b : Nat}, a < inf → b < inf → b / 2 ^ 32 ≤ a / 2 ^ 32 → ∀ {A B : ℝ}, (value a : ℝ) = A → (value b : ℝ) = B → (2 ^ 50 + 1) * 2 ^ 974 ≤ Real.sqrt (A ^ 2 + B ^ 2) →
      IsInf (ordered a b (a / 2 ^ 32) (b / 2 ^ 32)) ∧ ordered a b (a / 2 ^ 32) (b / 2 ^ 32) < 2 ^ 63 := by
    intro a b la lb h0 A B vA vB le
    have hi := inf_lt
    have a0 : 0 ≤ A := by rw [← vA]; exact val_nonneg (by omega)
    have b0 : 0 ≤ B := by rw [← vB]; exact val_nonneg (by omega)
    have lim := le_trans le (root_le a0 b0).1
    have A1 : A ≤ 2 ^ 50 * 2 ^ 974 := by
      have := val_le_pow (E := 2046) (by omega) (show a - 2 ^ 52 ≤ 2046 * 2 ^ 52 by unfold inf at la; omega) (by omega)
      by_cases c : 2 ^ 53 ≤ a
      · have e := val_add (m := a - 2 ^ 52) (j := 1) (by omega) (by omega)
        rw [show a - 2 ^ 52 + 1 * 2 ^ 52 = a by omega, vA, pow_one] at e
        have k := val_le_pow (E := 2046) (by omega) (show a - 2 ^ 52 ≤ 2046 * 2 ^ 52 by unfold inf at la; omega) (by omega)
        rw [div_pows (k := 1023) rfl, show (2 : ℝ) ^ 1023 = 2 ^ 49 * 2 ^ 974 by rw [← pow_add]] at k
        generalize (2 : ℝ) ^ 974 = P at *
        linarith only [e, k]
      · have k := val_le_pow (E := 2) (by omega) (show a ≤ 2 * 2 ^ 52 by omega) (by omega)
        rw [div_pows' (k := 1021) rfl, vA] at k
        refine le_trans k (le_trans (ipw (m := 0) (by omega)) ?_)
        rw [← pow_add]; norm_num
        exact one_le_pow₀ (by norm_num)
    have far : ¬ ((a / 2 ^ 32 : Nat) : Int) - (b / 2 ^ 32 : Nat) > 0x3c00000 := by
      intro c
      have k : b + 59 * 2 ^ 52 ≤ a := by omega
      have r : 2 ^ 59 * B ≤ A := by
        rw [← vA, ← vB, val (by omega), val (by omega), mul_div_assoc']
        refine div_le_div_of_nonneg_right ?_ (by positivity)
        have := le_trans (Atan2.units_up b 59) (units_le.2 k)
        exact_mod_cast this
      have p : (0 : ℝ) < 2 ^ 974 := by positivity
      clear le
      generalize (2 : ℝ) ^ 974 = P at *
      linarith only [r, A1, lim, p]
    have big : 0x5f300000 < a / 2 ^ 32 := by
      by_contra c
      have u := val_le_pow (E := 1524) (by omega) (show a ≤ 1524 * 2 ^ 52 by omega) (by omega)
      have v := val_le_pow (E := 1524) (by omega) (show b ≤ 1524 * 2 ^ 52 by omega) (by omega)
      rw [div_pows (k := 501) rfl] at u v
      rw [vA] at u
      rw [vB] at v
      have p : (2 : ℝ) ^ 501 ≤ 2 ^ 974 := pw (by omega)
      have q : (0 : ℝ) < 2 ^ 974 := by positivity
      clear le A1
      generalize (2 : ℝ) ^ 974 = P at *
      generalize (2 : ℝ) ^ 501 = Q at *
      linarith only [u, v, p, q, lim]
    exact over_down la lb far big vA vB le
  split
  · next c =>
    rw [add_comm (_ ^ 2)] at h
    exact key my mx (by omega) (value_mag hy) (value_mag hx) h
  · next c => exact key mx my (by omega) (value_mag hx) (value_mag hy) h

/-- The largest double twice. -/
example : IsInf (hypot 0x7fefffffffffffff 0x7fefffffffffffff) ∧ hypot 0x7fefffffffffffff 0x7fefffffffffffff < 2 ^ 63 := by
  refine C134_overflow_partial (by omega) (by omega) (by decide) (by decide) ?_
  have e : (value (2046 * 2 ^ 52 + (2 ^ 52 - 1)) : ℝ) = ((2 ^ 52 + (2 ^ 52 - 1) : ℕ) : ℝ) * 2 ^ 971 := by
    rw [val (by omega), units_make (by omega) (by omega), Nat.cast_mul, Nat.cast_pow, Nat.cast_ofNat, mul_div_assoc, show 2046 - 1 = 971 + 1074 from rfl, pow_add,
      mul_div_assoc, div_self (by positivity), mul_one]
  rw [show 0x7fefffffffffffff = 2046 * 2 ^ 52 + (2 ^ 52 - 1) by rfl, e, show (2 : ℝ) ^ 974 = 8 * 2 ^ 971 by rw [show (8 : ℝ) = 2 ^ 3 by norm_num, ← pow_add]]
  have p : (0 : ℝ) < 2 ^ 971 := by positivity
  generalize (2 : ℝ) ^ 971 = P at *
  apply Real.le_sqrt_of_sq_le
  norm_num
  nlinarith [mul_pos p p]
example : hypot 0x7fefffffffffffff 0x7fefffffffffffff = 0x7ff0000000000000 ∧ IsInf (hypot 0x7fefffffffffffff 0x7fefffffffffffff) := by decide +kernel

theorem val_lt_top {a : Nat} (la : a < inf) : (value a : ℝ) < (2 ^ 54 - 1) * 2 ^ 970 := by
  have e := val_mono (m := a) (n := 2046 * 2 ^ 52 + (2 ^ 52 - 1)) (by unfold inf at la; omega) (by omega)
  refine lt_of_le_of_lt e ?_
  rw [val (by omega), units_make (by omega) (by omega), Nat.cast_mul, Nat.cast_pow, Nat.cast_ofNat, mul_div_assoc, show 2046 - 1 = 971 + 1074 from rfl, pow_add,
    mul_div_assoc, div_self (by positivity), mul_one, show (2 : ℝ) ^ 971 = 2 * 2 ^ 970 by rw [← pow_succ'], ← mul_assoc]
  exact mul_lt_mul_of_pos_right (by norm_num) (by positivity)

theorem plus_zero {a : Nat} (la : a < inf) (n : a ≠ 0) : add a 0 = a := by
  have hi := inf_lt
  have f := finite_of la
  have z := finite_of (m := 0) (by unfold inf; omega)
  have v0 : value 0 = 0 := by decide +kernel
  have p : 0 < (value a : ℝ) := lt_of_lt_of_le (by positivity) (least f.1 n)
  have p' : 0 < value a := by exact_mod_cast p
  have r := Libm.fpu_add (a := a) (b := 0) (by omega) (by omega) f.2 z.2 (by rw [v0, add_zero]; exact p'.ne')
  rw [v0, add_zero, if_neg (not_lt.2 p'.le)] at r
  obtain ⟨r1, r2, r3⟩ := r
  have lt : |value a| < (2 ^ 54 - 1) * 2 ^ 970 := by
    have k := val_lt_top la
    have : ((|value a| : ℚ) : ℝ) < (((2 ^ 54 - 1) * 2 ^ 970 : ℚ) : ℝ) := by
      push_cast; rw [abs_of_pos p]; exact k
    exact Rat.cast_lt.1 this
  rw [if_pos lt] at r3
  have c := r3.2.1 a (by omega) f.2
  rw [sub_self, abs_zero] at c
  have e : value (add a 0) = value a := sub_eq_zero.1 (abs_eq_zero.1 (le_antisymm c (abs_nonneg _)))
  have l : add a 0 < 2 ^ 63 := by unfold sign at r2; omega
  have e : (value (add a 0) : ℝ) = value a := by rw [e]
  rw [val l, val f.1, div_left_inj' (by positivity)] at e
  exact units_inj.1 (by exact_mod_cast e)

/-- **C134.** On the axes the result is exactly the magnitude of the other number: for every finite first number if the second is zero, and for every finite
second number of at least `2^-1042` if the first is zero. -/
theorem C134_axis_partial {x y : Nat} (hx : x < 2 ^ 64) (hy : y < 2 ^ 64) (fx : IsFinite x) (fy : IsFinite y) :
    (value y = 0 → hypot x y = mag x) ∧ (value x = 0 → 1 / 2 ^ 1042 ≤ |(value y : ℝ)| → hypot x y = mag y) := by
  have mx := (finite_iff x).1 fx
  have my := (finite_iff y).1 fy
  have hi := inf_lt
  have zero : ∀ {z : Nat}, z < 2 ^ 64 → value z = 0 → mag z = 0 := by
    intro z hz e
    have := value_mag hz
    rw [e, Rat.cast_zero, abs_zero] at this
    by_contra c
    exact absurd this (lt_of_lt_of_le (by positivity) (least (mag_lt z) c)).ne'
  have axis : ∀ {a : Nat}, a < inf → ordered a 0 (a / 2 ^ 32) (0 / 2 ^ 32) = a := by
    intro a la
    by_cases far : ((a / 2 ^ 32 : Nat) : Int) - (0 / 2 ^ 32 : Nat) > 0x3c00000
    · rw [case_far far]; exact plus_zero la (by omega)
    · exact case_zero far rfl
  rw [hypot_eq hx hy]
  constructor
  · intro e
    rw [zero hy e, if_neg (by omega)]; exact axis mx
  · intro e l
    rw [zero hx e, if_pos, axis my]
    by_contra c
    have k : mag y ≤ 2 ^ 32 - 1 := by omega
    rw [← value_mag hy, val (mag_lt y), units_small (by omega), div_le_div_iff₀ (by positivity) (by positivity), one_mul,
      show (2 : ℝ) ^ 1074 = 2 ^ 32 * 2 ^ 1042 by rw [← pow_add]] at l
    have p : (0 : ℝ) < 2 ^ 1042 := by positivity
    have l := le_of_mul_le_mul_right l p
    have : (2 : ℕ) ^ 32 ≤ mag y := by exact_mod_cast l
    omega

example : hypot 0xc008000000000000 0x8000000000000000 = 0x4008000000000000 ∧ hypot 0 0xc008000000000000 = 0x4008000000000000 := by decide +kernel

theorem mant {a : Nat} : ((a / 2 ^ 32 &&& 0xfffff) ||| Libm.lo a) = 0 ↔ a % 2 ^ 52 = 0 := by
  rw [Nat.or_eq_zero_iff, show (0xfffff : Nat) = 2 ^ 20 - 1 by rfl, Nat.and_two_pow_sub_one_eq_mod]; unfold Libm.lo; omega

theorem infi {b : Nat} : ((b / 2 ^ 32 ^^^ 0x7ff00000) ||| Libm.lo b) = 0 ↔ b = inf := by
  have e : (b / 2 ^ 32 ^^^ 0x7ff00000) = 0 ↔ b / 2 ^ 32 = 0x7ff00000 := by
    constructor
    · intro h
      have := congrArg (· ^^^ 0x7ff00000) h
      simpa only [Nat.xor_assoc, Nat.xor_self, Nat.xor_zero, Nat.zero_xor] using this
    · intro h; rw [h, Nat.xor_self]
  rw [Nat.or_eq_zero_iff, e]; unfold Libm.lo inf; omega

theorem ordered_top {a b : Nat} (ha : inf ≤ a) (la : a < 2 ^ 63) (lb : b < 2 ^ 63) (h0 : b / 2 ^ 32 ≤ a / 2 ^ 32) :
    ordered a b (a / 2 ^ 32) (b / 2 ^ 32) = if b = inf then inf else if a = inf then inf else add a b := by
  have h2 : 0x7ff00000 ≤ a / 2 ^ 32 := by unfold inf at ha; omega
  unfold ordered
  rw [self_hi, self_hi]
  split
  · next c =>
    have nb : b < inf := by unfold inf; omega
    rw [if_neg (by omega)]
    split
    · next e =>
      rw [e]; unfold add
      rw [if_neg (by decide), if_neg (by rw [notNaN (by unfold mag; omega)]; decide), if_pos (by decide), if_neg (by rw [notInf (by unfold mag; omega), Bool.false_and]; decide)]
    · rfl
  · rw [if_pos ⟨by omega, h2⟩]
    unfold special
    simp only [mant, infi]
    split
    · next e => exact e
    · have : a % 2 ^ 52 = 0 ↔ a = inf := by unfold inf at ha ⊢; omega
      simp only [this]
      split
      · next e => exact e
      · rfl

theorem mag_inf {x : Nat} : IsInf x ↔ mag x = inf := by unfold IsInf expo frac mag inf; omega
theorem mag_nan {x : Nat} : IsNaN x ↔ inf < mag x := by unfold IsNaN expo frac mag inf; omega

/-- **C134.** If one of the numbers is infinite then the result is `+∞`, even if the other is not a number. -/
theorem C134_infinite_partial {x y : Nat} (hx : x < 2 ^ 64) (hy : y < 2 ^ 64) (h : IsInf x ∨ IsInf y) : hypot x y = inf := by
  have lx := mag_lt x
  have ly := mag_lt y
  rw [mag_inf, mag_inf] at h
  rw [hypot_eq hx hy]
  split
  · next c =>
    have k : inf ≤ mag y := by unfold inf at h ⊢; omega
    rw [ordered_top k ly lx (by omega)]
    rcases h with h | h
    · rw [if_pos h]
    · split
      · rfl
      · rfl
  · next c =>
    have k : inf ≤ mag x := by unfold inf at h ⊢; omega
    rw [ordered_top k lx ly (by omega)]
    rcases h with h | h
    · split
      · rfl
      · rfl
    · rw [if_pos h]

example : hypot 0xfff0000000000000 0x7ff8000000000000 = 0x7ff0000000000000 ∧ hypot 0x7ff0000000000001 0x7ff0000000000000 = 0x7ff0000000000000 := by decide +kernel

/-- **C134.** If one of the numbers is not a number and none is infinite then the result is not a number. -/
theorem C134_nan_partial {x y : Nat} (hx : x < 2 ^ 64) (hy : y < 2 ^ 64) (h : IsNaN x ∨ IsNaN y) (nx : ¬ IsInf x) (ny : ¬ IsInf y) : IsNaN (hypot x y) := by
  have lx := mag_lt x
  have ly := mag_lt y
  rw [mag_nan, mag_nan] at h
  rw [mag_inf] at nx ny
  rw [hypot_eq hx hy]
  have plus : ∀ {a b : Nat}, inf < a → a < 2 ^ 63 → IsNaN (add a b) := by
    intro a b ha la
    have n : IsNaN a := mag_nan.2 (by rwa [show mag a = a by unfold mag; omega])
    unfold add
    rw [if_pos ((Libm.isNaN_eq a).2 n)]
    exact Libm.quiet_nan n
  split
  · next c =>
    have k : inf ≤ mag y := by unfold inf at h ⊢; omega
    rw [ordered_top k ly lx (by omega), if_neg nx, if_neg ny]
    exact plus (by omega) ly
  · next c =>
    have k : inf ≤ mag x := by unfold inf at h ⊢; omega
    rw [ordered_top k lx ly (by omega), if_neg ny, if_neg nx]
    exact plus (by omega) lx

example : IsNaN (hypot 0x3ff0000000000000 0x7ff8000000000000) ∧ IsNaN (hypot 0xfff8000000000000 0) := by decide +kernel

theorem shifted_small {a b : Nat} (h : ¬ ((a / 2 ^ 32 : Nat) : Int) - (b / 2 ^ 32 : Nat) > 0x3c00000) (h1 : b ≠ 0) (h2 : b / 2 ^ 32 < 0x20b00000) :
    ∃ k, shifted a b (a / 2 ^ 32) (b / 2 ^ 32) = some k ∧ k < 0 := by
  unfold shifted; simp only []
  rw [self_hi, self_hi, if_neg h, if_neg (by omega), if_neg (by omega)]
  unfold up; simp only []
  rw [if_pos h2]
  by_cases c : b / 2 ^ 32 ≤ 0xfffff
  · rw [if_pos c, if_neg (by rw [Nat.or_eq_zero_iff]; unfold Libm.lo; omega)]
    exact ⟨-1022, rfl, by decide⟩
  · rw [if_neg c]
    exact ⟨-600, rfl, by decide⟩

/-- **C134, violated.** The computation shifts a negative number to the left, which C does not define, whenever the smaller number is not zero, is below `2^-500` and is
not smaller than the larger one by a factor of more than `2^59`. -/
theorem C134_shift_violated {x y : Nat} (hx : x < 2 ^ 64) (hy : y < 2 ^ 64) (p : 0 < |(value y : ℝ)|) (o : |(value y : ℝ)| ≤ |(value x : ℝ)|)
    (f : |(value x : ℝ)| ≤ 2 ^ 59 * |(value y : ℝ)|) (s : |(value y : ℝ)| < 1 / 2 ^ 500) : ∃ k, shiftedIn x y = some k ∧ k < 0 := by
  have lx := mag_lt x
  have ly := mag_lt y
  rw [← value_mag hy] at p o f s
  rw [← value_mag hx] at o f
  have n : mag y ≠ 0 := by
    intro c
    rw [c, val (by omega), show units 0 = 0 by decide] at p
    simp at p
  have s' : mag y < 523 * 2 ^ 52 := by
    by_contra c
    have := pow_le_val (E := 523) (by omega) ly (by omega) (by omega)
    rw [div_pows' (k := 500) rfl] at this
    exact absurd s (not_lt.2 this)
  have le : mag y ≤ mag x := by
    rw [val ly, val lx, div_le_div_iff_of_pos_right (by positivity)] at o
    exact units_le.1 (by exact_mod_cast o)
  have d : mag x ≤ mag y + 60 * 2 ^ 52 := by
    by_contra c
    have u := le_trans (Atan2.units_up (mag y) 60) (units_le.2 (by omega : mag y + 60 * 2 ^ 52 ≤ mag x))
    rw [val ly, val lx, mul_div_assoc', div_le_div_iff_of_pos_right (by positivity)] at f
    have f : units (mag x) ≤ 2 ^ 59 * units (mag y) := by exact_mod_cast f
    have : units 0 < units (mag y) := units_lt.2 (by omega)
    omega
  unfold shiftedIn
  simp only []
  rw [hi31 hx, hi31 hy, if_neg (by omega), shifted_mag]
  exact shifted_small (by omega) n (by omega)

/-- The least normal double twice. -/
example : shiftedIn 0x0010000000000000 0x0010000000000000 = some (-600) ∧ shiftedIn 1 1 = some (-1022) := by decide +kernel

end Pok.Hypot
