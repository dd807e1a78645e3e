import Verif.Lemmas.ExpTail
import Verif.Lemmas.RemPio2
/-!
# The exponential function: reduction of the argument and scaling
-/
namespace Pok.Exp
open Pok.Err Pok.Float Pok.Fpu Pok.Poly Pok.Trig

/-! The constants. -/
def ln2hq : ℚ := 2977044471 / 2 ^ 32
def ln2lq : ℚ := 3691024475790907 / 2 ^ 84
def invln2q : ℚ := 3248660424278399 / 2 ^ 51
theorem v_ln2HI : ln2HI 0 < 2 ^ 64 ∧ IsFinite (ln2HI 0) ∧ value (ln2HI 0) = ln2hq := by
  refine ⟨by decide, by decide, ?_⟩
  unfold ln2HI ln2hq value sign expo frac; norm_num
theorem v_ln2HI1 : ln2HI 1 < 2 ^ 64 ∧ IsFinite (ln2HI 1) ∧ value (ln2HI 1) = -ln2hq := by
  refine ⟨by decide, by decide, ?_⟩
  unfold ln2HI ln2hq value sign expo frac; norm_num
theorem v_ln2LO : ln2LO 0 < 2 ^ 64 ∧ IsFinite (ln2LO 0) ∧ value (ln2LO 0) = ln2lq := by
  refine ⟨by decide, by decide, ?_⟩
  unfold ln2LO ln2lq value sign expo frac; norm_num
theorem v_ln2LO1 : ln2LO 1 < 2 ^ 64 ∧ IsFinite (ln2LO 1) ∧ value (ln2LO 1) = -ln2lq := by
  refine ⟨by decide, by decide, ?_⟩
  unfold ln2LO ln2lq value sign expo frac; norm_num
theorem v_invln2 : invln2 < 2 ^ 64 ∧ IsFinite invln2 ∧ value invln2 = invln2q := by
  refine ⟨by decide, by decide, ?_⟩
  unfold invln2 invln2q value sign expo frac; norm_num
theorem v_halF : halF 0 < 2 ^ 64 ∧ IsFinite (halF 0) ∧ value (halF 0) = 1 / 2 := by
  refine ⟨by decide, by decide, ?_⟩
  unfold halF value sign expo frac; norm_num
theorem v_halF1 : halF 1 < 2 ^ 64 ∧ IsFinite (halF 1) ∧ value (halF 1) = -(1 / 2) := by
  refine ⟨by decide, by decide, ?_⟩
  unfold halF value sign expo frac; norm_num

theorem ln2_b : 693147180559945309417 / 10 ^ 21 ≤ Real.log 2 ∧ Real.log 2 ≤ 693147180559945309418 / 10 ^ 21 := by
  have h := abs_le.1 ln2_near
  have e : (ln2 : ℝ) = 6931471805599453094172321214581766 / 10 ^ 34 := by unfold ln2; norm_num
  rw [e] at h
  constructor <;> norm_num at * <;> linarith

theorem ln2_split : |((ln2hq : ℝ) + ln2lq) - Real.log 2| ≤ 1 / 10 ^ 25 := by
  have h := abs_le.1 ln2_near
  have e : (ln2 : ℝ) = 6931471805599453094172321214581766 / 10 ^ 34 := by unfold ln2; norm_num
  rw [e] at h
  unfold ln2hq ln2lq
  rw [abs_le]; constructor <;> norm_num at * <;> linarith

/-! ## Integers and a finer grid -/

theorem toInt_ceil {q : Nat} (hq : q < 2 ^ 64) (h : value q ≤ 0) : (value q : ℝ) ≤ (toInt q : Int) ∧ ((toInt q : Int) : ℝ) - 1 < value q ∧ toInt q ≤ 0 := by
  obtain ⟨D, hD⟩ : ∃ D : Int, D = 2 ^ 1074 := ⟨_, rfl⟩
  have D0 : 0 < D := by rw [hD]; positivity
  have v : value q * (D : ℚ) = (sunits q : ℚ) := by
    rw [hD, value_units]; push_cast
    exact div_mul_cancel₀ _ (by positivity)
  have D0' : (0 : ℚ) < D := by exact_mod_cast D0
  have s0 : sunits q ≤ 0 := by
    have : (sunits q : ℚ) ≤ 0 := by rw [← v]; exact mul_nonpos_of_nonpos_of_nonneg h D0'.le
    exact_mod_cast this
  have e : toInt q = -((-sunits q) / D) := by
    unfold toInt
    rw [← hD, ← Int.tdiv_eq_ediv_of_nonneg (by omega), Int.neg_tdiv, neg_neg]
  rw [e]
  generalize hS : -sunits q = S at *
  have vS : (sunits q : ℚ) = -(S : ℚ) := by rw [← hS]; push_cast; ring
  rw [vS] at v
  have m := Int.emod_add_mul_ediv S D
  have m0 := Int.emod_nonneg S (by omega : D ≠ 0)
  have m1 := Int.emod_lt_of_pos S D0
  have l : value q ≤ -((S / D : Int) : ℚ) := by
    have : D * (S / D) ≤ S := by omega
    have c : (D : ℚ) * ((S / D : Int) : ℚ) ≤ (S : ℚ) := by exact_mod_cast this
    have c : value q * D ≤ -((S / D : Int) : ℚ) * D := by linarith only [c, v]
    exact le_of_mul_le_mul_right c D0'
  have r : -((S / D : Int) : ℚ) - 1 < value q := by
    have : S < D * (S / D) + D := by omega
    have c : (S : ℚ) < (D : ℚ) * ((S / D : Int) : ℚ) + D := by exact_mod_cast this
    have c : (-((S / D : Int) : ℚ) - 1) * D < value q * D := by linarith only [c, v]
    exact lt_of_mul_lt_mul_right c D0'.le
  refine ⟨?_, ?_, ?_⟩
  · have := (Rat.cast_le (K := ℝ)).2 l; push_cast at this ⊢; exact this
  · have := (Rat.cast_lt (K := ℝ)).2 r; push_cast at this ⊢; exact this
  · have := Int.ediv_nonneg (a := S) (b := D) (by omega) D0.le; omega

/-- A double of at least 1/4 is a multiple of `2^-54`. -/
theorem grid54 {t : Nat} (ht : t < 2 ^ 64) (h : 1 / 4 ≤ |value t|) : ∃ A : ℤ, value t = A / 2 ^ 54 := by
  have he : 1021 ≤ expo t := by
    by_contra c
    have m : mag t ≤ 0x3fd0000000000000 - 1 := by rw [mag_eq]; have := frac_lt t; omega
    have := value_mono ht (by norm_num) m
    have v : value (0x3fd0000000000000 - 1) < 1 / 4 := by unfold value sign expo frac; norm_num
    linarith
  have e := units_expo t
  rw [if_neg (by omega), show expo t - 1 = (expo t - 1021) + 1020 by omega, pow_add] at e
  refine ⟨(-1) ^ sign t * ((2 ^ 52 + frac t : ℕ) * 2 ^ (expo t - 1021)), ?_⟩
  rw [value_self ht, e, show (1074 : ℕ) = 54 + 1020 by rfl, pow_add]
  push_cast
  rw [← mul_assoc, mul_div_mul_right _ _ (by positivity)]
  ring

/-- Multiples of `2^-54` up to 1/2 are doubles. -/
theorem grid54_exact {D : ℤ} (h : |D| ≤ 2 ^ 53) : ∃ d, d < 2 ^ 64 ∧ IsFinite d ∧ value d = D / 2 ^ 54 := by
  have hn : D.natAbs ≤ 2 ^ 53 := by rw [Int.abs_eq_natAbs] at h; exact_mod_cast h
  obtain ⟨d, hd, fd, vd⟩ := double_of (a := D.natAbs) (b := 1020) (s := if D < 0 then 1 else 0) hn (by split <;> omega) (by
    have : ((D.natAbs : ℕ) : ℚ) ≤ 2 ^ 53 := by exact_mod_cast hn
    refine le_trans (mul_le_mul_of_nonneg_right this (by positivity)) ?_
    rw [← pow_add]
    exact (fun n m (h : n ≤ m) => pow_le_pow_right₀ (by norm_num) h : ∀ n m : ℕ, n ≤ m → (2 : ℚ) ^ n ≤ 2 ^ m) _ _ (by omega))
  refine ⟨d, hd, fd, ?_⟩
  rw [vd, show (1074 : ℕ) = 54 + 1020 by rfl, pow_add, mul_div_mul_right _ _ (by positivity)]
  have a : ((D.natAbs : ℕ) : ℚ) = |(D : ℚ)| := by rw [← Int.cast_abs, Int.abs_eq_natAbs]; rfl
  rw [a]
  split
  · rename_i c
    rw [abs_of_neg (by exact_mod_cast c)]; ring
  · rename_i c
    rw [abs_of_nonneg (by exact_mod_cast not_lt.1 c)]; ring

/-- A double less a multiple of the first part of the logarithm of 2. -/
theorem take_away {x m : Nat} {k : Int} (hx : x < 2 ^ 64) (fx : IsFinite x) (x0 : 1 / 4 ≤ |value x|) (hm : m < 2 ^ 64) (fm : IsFinite m)
    (vm : value m = k * ln2hq) (hs : |(value x : ℝ) - k * ln2hq| ≤ 1 / 2) :
    sub x m < 2 ^ 64 ∧ IsFinite (sub x m) ∧ (value (sub x m) : ℝ) = value x - k * ln2hq := by
  obtain ⟨A, hA⟩ := grid54 hx x0
  have pq : ln2hq = 2977044471 / 2 ^ 32 := rfl
  have hs' : |value x - k * ln2hq| ≤ 1 / 2 := by
    have : ((|value x - k * ln2hq| : ℚ) : ℝ) ≤ ((1 / 2 : ℚ) : ℝ) := by push_cast; exact hs
    exact_mod_cast this
  obtain ⟨e, he, fe, ve⟩ := grid54_exact (D := A - k * 2977044471 * 2 ^ 22) (by
    rw [hA, pq] at hs'
    have : |((A - k * 2977044471 * 2 ^ 22 : ℤ) : ℚ)| ≤ 2 ^ 53 := by
      rw [show (A : ℚ) / 2 ^ 54 - k * (2977044471 / 2 ^ 32) = ((A - k * 2977044471 * 2 ^ 22 : ℤ) : ℚ) / 2 ^ 54 by push_cast; ring, abs_div,
        div_le_iff₀ (by positivity)] at hs'
      rw [abs_of_pos (show (0 : ℚ) < 2 ^ 54 by positivity)] at hs'
      refine le_trans hs' (by norm_num)
    exact_mod_cast this)
  obtain ⟨r1, r2, r3⟩ := sub_exact hx hm fx fm (by
    rw [vm]; push_cast; refine le_trans hs (by norm_num)) he fe (by rw [ve, vm, hA, pq]; push_cast; ring)
  refine ⟨r1, r2, ?_⟩
  rw [r3, vm]; push_cast; rfl

/-- A reduced argument: `x` less `k` times the logarithm of 2 is `hi - lo`, nearly. -/
structure Red (x : ℝ) (k : Int) (hi lo : Nat) : Prop where
  hh : hi < 2 ^ 64 ∧ IsFinite hi
  hl : lo < 2 ^ 64 ∧ IsFinite lo
  bl : |(value lo : ℝ)| ≤ 3 / 10 ^ 7
  near : |(value hi : ℝ) - value lo - (x - k * Real.log 2)| ≤ 2 / 10 ^ 22
  small : |x - k * Real.log 2| ≤ 346578 / 1000000

/-- One logarithm of 2 is taken away. -/
theorem red_one {x : Nat} (hx : x < 2 ^ 64) (h1 : 0x3fd62e42 < mag x / 2 ^ 32) (h2 : mag x / 2 ^ 32 < 0x3FF0A2B2) {s : Nat} (hs : s = sign x) :
    Red (value x) (1 - s - s) (sub x (ln2HI s)) (ln2LO s) := by
  have fx : IsFinite x := by rw [finite_iff]; have : inf = 0x7ff0000000000000 := rfl; omega
  have B0 := value_mono' hx (c := 0x3fd62e4300000000) (by norm_num) (by omega)
  have B1 := value_mono hx (c := 0x3ff0a2b200000000) (by norm_num) (by omega)
  have v0 : 3465735 / 10 ^ 7 ≤ value 0x3fd62e4300000000 := by unfold value sign expo frac; norm_num
  have v1 : value 0x3ff0a2b200000000 ≤ 10397212 / 10 ^ 7 := by unfold value sign expo frac; norm_num
  have B0' : 3465735 / 10 ^ 7 ≤ |(value x : ℝ)| := by
    have := (Rat.cast_le (K := ℝ)).2 (le_trans v0 B0); push_cast at this ⊢; exact this
  have B1' : |(value x : ℝ)| ≤ 10397212 / 10 ^ 7 := by
    have := (Rat.cast_le (K := ℝ)).2 (le_trans B1 v1); push_cast at this ⊢; exact this
  have x0 : 1 / 4 ≤ |value x| := le_trans (by norm_num) (le_trans v0 B0)
  have sg := value_self hx
  have l2 := ln2_b
  have sp := abs_le.1 ln2_split
  have hq : (ln2hq : ℝ) = 2977044471 / 2 ^ 32 := by unfold ln2hq; norm_num
  have lq : (ln2lq : ℝ) = 3691024475790907 / 2 ^ 84 := by unfold ln2lq; norm_num
  have un : (0 : ℚ) ≤ (units (mag x) : ℚ) / 2 ^ 1074 := div_nonneg (Nat.cast_nonneg _) (pow_nonneg (by norm_num) _)
  generalize (units (mag x) : ℚ) / 2 ^ 1074 = W at *
  rcases (by have := sign_lt x; omega : s = 0 ∨ s = 1) with c | c
  · rw [← hs, c, pow_zero, one_mul] at sg
    subst c
    have pos : (0 : ℝ) ≤ value x := by rw [sg]; exact_mod_cast un
    rw [abs_of_nonneg pos] at B0' B1'
    have t := take_away (k := 1) hx fx x0 v_ln2HI.1 v_ln2HI.2.1 (by rw [v_ln2HI.2.2]; push_cast; ring) (by
      rw [hq, abs_le]; constructor <;> norm_num at * <;> linarith)
    refine ⟨⟨t.1, t.2.1⟩, ⟨v_ln2LO.1, v_ln2LO.2.1⟩, ?_, ?_, ?_⟩
    · rw [v_ln2LO.2.2, lq]; norm_num [abs_le]
    · rw [t.2.2, v_ln2LO.2.2]; push_cast
      rw [abs_le]; constructor <;> norm_num at * <;> linarith
    · push_cast; rw [abs_le]; constructor <;> norm_num at * <;> linarith
  · rw [← hs, c] at sg
    subst c
    have pos : (value x : ℝ) ≤ 0 := by
      rw [sg]; have : (0 : ℝ) ≤ (W : ℝ) := by exact_mod_cast un
      push_cast; linarith
    rw [abs_of_nonpos pos] at B0' B1'
    have t := take_away (k := -1) hx fx x0 v_ln2HI1.1 v_ln2HI1.2.1 (by rw [v_ln2HI1.2.2]; push_cast; ring) (by
      rw [hq, abs_le]; constructor <;> norm_num at * <;> linarith)
    refine ⟨⟨t.1, t.2.1⟩, ⟨v_ln2LO1.1, v_ln2LO1.2.1⟩, ?_, ?_, ?_⟩
    · rw [v_ln2LO1.2.2]; push_cast; rw [lq]; norm_num [abs_le]
    · rw [t.2.2, v_ln2LO1.2.2]; push_cast
      rw [abs_le]; constructor <;> norm_num at * <;> linarith
    · push_cast; rw [abs_le]; constructor <;> norm_num at * <;> linarith

/-- The multiple of the logarithm of 2. -/
theorem multiple2 {x : Nat} (hx : x < 2 ^ 64) (fx : IsFinite x) (h0 : 10397 / 10 ^ 4 ≤ |(value x : ℝ)|) (h1 : |(value x : ℝ)| ≤ 746) {s : Nat} (hs : s = sign x) :
    ∃ k : Int, toInt (add (mul invln2 x) (halF s)) = k ∧ k ≠ 0 ∧ |(value x : ℝ) - k * Real.log 2| ≤ 346574 / 1000000 := by
  refine ⟨_, rfl, ?_⟩
  have l2 := ln2_b
  have iq : (invln2q : ℝ) = 3248660424278399 / 2 ^ 51 := by unfold invln2q; norm_num
  have sg := value_self hx
  have un : (0 : ℚ) ≤ (units (mag x) : ℚ) / 2 ^ 1074 := div_nonneg (Nat.cast_nonneg _) (pow_nonneg (by norm_num) _)
  generalize (units (mag x) : ℚ) / 2 ^ 1074 = W at *
  have hxv : |(invln2q : ℝ) * value x| ≤ 1077 := by
    rw [abs_mul]
    refine le_trans (mul_le_mul (b := 144270 / 10 ^ 5) (by rw [iq]; norm_num [abs_le]) h1 (abs_nonneg _) (by norm_num)) (by norm_num)
  have m1 := mul_err v_invln2.1 hx v_invln2.2.1 fx (by rw [v_invln2.2.2]; refine le_trans hxv (by norm_num))
  rw [v_invln2.2.2] at m1
  have m1 := m1.weaken (f := 2 / 10 ^ 13) (by norm_num at *; linarith)
  have hxv' := abs_le.1 hxv
  have d2 : |(invln2q : ℝ) * Real.log 2 - 1| ≤ 1 / 10 ^ 15 := by
    rw [iq, abs_le]; constructor <;> norm_num at * <;> linarith
  have d3 : |(value x : ℝ) * (invln2q * Real.log 2 - 1)| ≤ 746 * (1 / 10 ^ 15) := by
    rw [abs_mul]; exact mul_le_mul h1 d2 (abs_nonneg _) (by norm_num)
  have fin : ∀ k : Int, |(invln2q : ℝ) * value x - k| ≤ 1 / 2 + 5 / 10 ^ 13 → |(value x : ℝ) - k * Real.log 2| ≤ 346574 / 1000000 := by
    intro k d1
    have d4 : |((invln2q : ℝ) * value x - k) * Real.log 2| ≤ (1 / 2 + 5 / 10 ^ 13) * (693147180559945309418 / 10 ^ 21) := by
      rw [abs_mul]; exact mul_le_mul d1 (by rw [abs_of_nonneg (by norm_num at *; linarith)]; exact l2.2) (abs_nonneg _) (by norm_num)
    rw [show (value x : ℝ) - k * Real.log 2 = ((invln2q : ℝ) * value x - k) * Real.log 2 - value x * (invln2q * Real.log 2 - 1) by ring]
    refine le_trans (abs_sub _ _) ?_
    refine le_trans (add_le_add d4 d3) (by norm_num)
  rcases (by have := sign_lt x; omega : s = 0 ∨ s = 1) with c | c
  · rw [← hs, c, pow_zero, one_mul] at sg
    subst c
    have pos : (0 : ℝ) ≤ value x := by rw [sg]; exact_mod_cast un
    rw [abs_of_nonneg pos] at h0 h1
    have m2 := m1.add (Near.self v_halF.1 v_halF.2.1) (m := 1078) (g := 4 / 10 ^ 13) (by
      rw [v_halF.2.2, abs_le]; push_cast; constructor <;> norm_num at * <;> linarith) (by norm_num) (by norm_num)
    rw [v_halF.2.2] at m2
    push_cast at m2
    have e2 := abs_le.1 m2.2.2
    have hv : (1499 / 1000 : ℝ) ≤ invln2q * value x := by rw [iq]; norm_num at *; linarith only [h0]
    have p : 0 ≤ value (add (mul invln2 x) (halF 0)) := by
      have : (0 : ℝ) ≤ (value (add (mul invln2 x) (halF 0)) : ℝ) := by norm_num at e2 hv; linarith only [e2.1, hv]
      exact_mod_cast this
    obtain ⟨f1, f2, f3⟩ := toInt_floor m2.1 p
    generalize toInt (add (mul invln2 x) (halF 0)) = k at *
    generalize (value (add (mul invln2 x) (halF 0)) : ℝ) = q at *
    refine ⟨?_, fin k ?_⟩
    · rintro rfl
      push_cast at f2
      norm_num at *; linarith only [e2.1, hv, f2]
    · rw [abs_le]; constructor <;> norm_num at * <;> linarith only [e2.1, e2.2, f1, f2]
  · rw [← hs, c] at sg
    subst c
    have pos : (value x : ℝ) ≤ 0 := by
      rw [sg]; have : (0 : ℝ) ≤ (W : ℝ) := by exact_mod_cast un
      push_cast; linarith
    rw [abs_of_nonpos pos] at h0 h1
    have m2 := m1.add (Near.self v_halF1.1 v_halF1.2.1) (m := 1078) (g := 4 / 10 ^ 13) (by
      rw [v_halF1.2.2, abs_le]; push_cast; constructor <;> norm_num at * <;> linarith) (by norm_num) (by norm_num)
    rw [v_halF1.2.2] at m2
    push_cast at m2
    have e2 := abs_le.1 m2.2.2
    have hv : (invln2q : ℝ) * value x ≤ -(1499 / 1000) := by rw [iq]; norm_num at *; linarith only [h0]
    have p : value (add (mul invln2 x) (halF 1)) ≤ 0 := by
      have : (value (add (mul invln2 x) (halF 1)) : ℝ) ≤ 0 := by norm_num at e2 hv; linarith only [e2.2, hv]
      exact_mod_cast this
    obtain ⟨f1, f2, f3⟩ := toInt_ceil m2.1 p
    generalize toInt (add (mul invln2 x) (halF 1)) = k at *
    generalize (value (add (mul invln2 x) (halF 1)) : ℝ) = q at *
    refine ⟨?_, fin k ?_⟩
    · rintro rfl
      push_cast at f2
      norm_num at *; linarith only [e2.2, hv, f2]
    · rw [abs_le]; constructor <;> norm_num at * <;> linarith only [e2.1, e2.2, f1, f2]

/-- A multiple of the logarithm of 2 is taken away. -/
theorem red_many {x : Nat} (hx : x < 2 ^ 64) (fx : IsFinite x) (h0 : 10397 / 10 ^ 4 ≤ |(value x : ℝ)|) (h1 : |(value x : ℝ)| ≤ 746) {k : Int}
    (hk : |(value x : ℝ) - k * Real.log 2| ≤ 346574 / 1000000) :
    Red (value x) k (sub x (mul (Libm.ofInt k) (ln2HI 0))) (mul (Libm.ofInt k) (ln2LO 0)) := by
  have l2 := ln2_b
  have x0 : 1 / 4 ≤ |value x| := by
    have : ((1 / 4 : ℚ) : ℝ) ≤ ((|value x| : ℚ) : ℝ) := by push_cast; norm_num at *; linarith
    exact_mod_cast this
  have h1' := abs_le.1 h1
  have hk' := abs_le.1 hk
  have kb : |(k : ℝ)| ≤ 1080 := by
    by_contra c
    push_neg at c
    have := mul_lt_mul'' c (show (6931 / 10000 : ℝ) < Real.log 2 by norm_num at *; linarith) (by norm_num) (by norm_num)
    rw [← abs_of_pos (show 0 < Real.log 2 by norm_num at *; linarith), ← abs_mul] at this
    have g : |(k : ℝ) * Real.log 2| ≤ 747 := by rw [abs_le]; constructor <;> norm_num at * <;> linarith
    norm_num at *; linarith
  have kn : k.natAbs ≤ 1080 := by
    have : |k| ≤ 1080 := by exact_mod_cast kb
    rw [Int.abs_eq_natAbs] at this; exact_mod_cast this
  obtain ⟨o1, o2, o3⟩ := Libm.ofInt_value (i := k) (by omega)
  have o3' : (value (Libm.ofInt k) : ℝ) = k := by rw [o3]; norm_num
  have hq : (ln2hq : ℝ) = 2977044471 / 2 ^ 32 := by unfold ln2hq; norm_num
  have lq : (ln2lq : ℝ) = 3691024475790907 / 2 ^ 84 := by unfold ln2lq; norm_num
  have pq : ln2hq = 2977044471 / 2 ^ 32 := rfl
  obtain ⟨d, hd, fd, vd⟩ : ∃ d, d < 2 ^ 64 ∧ IsFinite d ∧ value d = value (Libm.ofInt k) * value (ln2HI 0) := by
    obtain ⟨d, hd, fd, vd⟩ := double_of (a := k.natAbs * 2977044471) (b := 1042) (s := if k < 0 then 1 else 0) (by omega) (by split <;> omega) (by
      have : ((k.natAbs * 2977044471 : ℕ) : ℚ) ≤ 2 ^ 53 := by exact_mod_cast (by omega : k.natAbs * 2977044471 ≤ 2 ^ 53)
      refine le_trans (mul_le_mul_of_nonneg_right this (by positivity)) ?_
      rw [← pow_add]
      exact (fun n m (h : n ≤ m) => pow_le_pow_right₀ (by norm_num) h : ∀ n m : ℕ, n ≤ m → (2 : ℚ) ^ n ≤ 2 ^ m) _ _ (by omega))
    refine ⟨d, hd, fd, ?_⟩
    rw [vd, o3, v_ln2HI.2.2, pq, show (1074 : ℕ) = 32 + 1042 by rfl, pow_add, mul_div_mul_right _ _ (by positivity)]
    have a : ((k.natAbs : ℕ) : ℚ) = |(k : ℚ)| := by rw [← Int.cast_abs, Int.abs_eq_natAbs]; rfl
    rw [Nat.cast_mul, a]
    split
    · rename_i c
      rw [abs_of_neg (by exact_mod_cast c)]; push_cast; ring
    · rename_i c
      rw [abs_of_nonneg (by exact_mod_cast not_lt.1 c)]; push_cast; ring
  obtain ⟨m1, m2, m3⟩ := mul_exact o1 v_ln2HI.1 o2 v_ln2HI.2.1 (by
    rw [o3', v_ln2HI.2.2, abs_mul]
    refine le_trans (mul_le_mul kb (d := 1) (by rw [hq]; norm_num [abs_le]) (abs_nonneg _) (by positivity)) (by norm_num)) hd fd vd
  rw [o3, v_ln2HI.2.2] at m3
  have sp := ln2_split
  have kl : |(k : ℝ) * ln2lq| ≤ 25 / 10 ^ 8 := by
    rw [abs_mul]; refine le_trans (mul_le_mul kb (d := 2 / 10 ^ 10) (by rw [lq]; norm_num [abs_le]) (abs_nonneg _) (by positivity)) (by norm_num)
  have ks : |(k : ℝ) * (((ln2hq : ℝ) + ln2lq) - Real.log 2)| ≤ 11 / 10 ^ 23 := by
    rw [abs_mul]; refine le_trans (mul_le_mul kb sp (abs_nonneg _) (by positivity)) (by norm_num)
  have kl' := abs_le.1 kl
  have ks' := abs_le.1 ks
  have t := take_away hx fx x0 m1 m2 m3 (by
    rw [mul_sub, mul_add] at ks'
    rw [abs_le]; constructor <;> norm_num at * <;> linarith)
  have p := mul_err o1 v_ln2LO.1 o2 v_ln2LO.2.1 (by rw [o3', v_ln2LO.2.2]; refine le_trans kl (by norm_num))
  rw [o3', v_ln2LO.2.2] at p
  have p := p.weaken (f := 3 / 10 ^ 23) (by norm_num at *; linarith)
  have p' := abs_le.1 p.2.2
  refine ⟨⟨t.1, t.2.1⟩, ⟨p.1, p.2.1⟩, ?_, ?_, le_trans hk (by norm_num)⟩
  · rw [abs_le]; constructor <;> norm_num at * <;> linarith
  · rw [t.2.2]
    rw [mul_sub, mul_add] at ks'
    rw [abs_le]; constructor <;> norm_num at * <;> linarith

end Pok.Exp
