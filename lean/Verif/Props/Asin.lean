import Verif.Model.Asin
import Verif.Props.Atan
import Verif.Props.Sinh
import Verif.Props.Nextafter
import Verif.Lemmas.ErrDiv
import Verif.Lemmas.Pi
/-!
# C148: domain, symmetry and ends of the arc sine and the arc cosine

The specification is the value of doubles of `Verif.Spec.Float` and Mathlib's `Real.pi`.
-/
namespace Pok.Asin
open Pok.Err Pok.Float Pok.Fpu Pok.Libm

/-! ## Bounds -/

/-- A finite number of at most a magnitude. -/
def Below (a : Nat) (m : ℝ) : Prop := a < 2 ^ 64 ∧ IsFinite a ∧ |(value a : ℝ)| ≤ m

theorem Below.mul {a b : Nat} {m n : ℝ} (k : ℝ) (ha : Below a m) (hb : Below b n) (hm : m ≤ 2 ^ 10) (hn : n ≤ 2 ^ 10) (hk : m * n + m * n / 2 ^ 53 + 1 / 2 ^ 200 ≤ k) : Below (Fpu.mul a b) k := by
  have m0 := le_trans (abs_nonneg _) ha.2.2
  have n0 := le_trans (abs_nonneg _) hb.2.2
  have p : |(value a : ℝ) * value b| ≤ m * n := by rw [abs_mul]; exact mul_le_mul ha.2.2 hb.2.2 (abs_nonneg _) m0
  have q : m * n ≤ 2 ^ 10 * 2 ^ 10 := mul_le_mul hm hn n0 (by norm_num)
  have r := mul_err ha.1 hb.1 ha.2.1 hb.2.1 (le_trans p (le_trans q (by norm_num)))
  refine ⟨r.1, r.2.1, le_trans (r.abs_le p) ?_⟩
  have : |(value a : ℝ) * value b| / 2 ^ 53 ≤ m * n / 2 ^ 53 := div_le_div_of_nonneg_right p (by norm_num)
  linarith

theorem Below.add {a b : Nat} {m n : ℝ} (k : ℝ) (ha : Below a m) (hb : Below b n) (hm : m ≤ 2 ^ 10) (hn : n ≤ 2 ^ 10) (hk : m + n + (m + n) / 2 ^ 53 ≤ k) : Below (Fpu.add a b) k := by
  have p : |(value a : ℝ) + value b| ≤ m + n := le_trans (abs_add_le _ _) (add_le_add ha.2.2 hb.2.2)
  have r := add_err ha.1 hb.1 ha.2.1 hb.2.1 (le_trans p (le_trans (add_le_add hm hn) (by norm_num)))
  refine ⟨r.1, r.2.1, le_trans (r.abs_le p) ?_⟩
  have : |(value a : ℝ) + value b| / 2 ^ 53 ≤ (m + n) / 2 ^ 53 := div_le_div_of_nonneg_right p (by norm_num)
  linarith

theorem Below.const {a : Nat} (c : Nat) {m : ℚ} (h : a < 2 ^ 64) (f : IsFinite a) (hc : c < 2 ^ 63) (l : mag a ≤ c) (v : value c = m) {n : ℝ} (e : (m : ℝ) = n) : Below a n := by
  refine ⟨h, f, ?_⟩
  have := value_mono h hc l
  rw [v] at this
  rw [← e]
  exact_mod_cast this

theorem v_quarter : value 0x3fd0000000000000 = 1 / 4 := by unfold value sign expo frac; norm_num
theorem v_half : value 0x3fe0000000000000 = 1 / 2 := by unfold value sign expo frac; norm_num
theorem v_one : value 0x3ff0000000000000 = 1 := by unfold value sign expo frac; norm_num

theorem num_below {t : Nat} (h : Below t (13 / 50)) : Below (num t) (11 / 100) := by
  have c5 : Below pS5 (1 / 4) := .const _ (by decide) (by decide) (by decide) (by decide) v_quarter (by norm_num)
  have c4 : Below pS4 (1 / 4) := .const _ (by decide) (by decide) (by decide) (by decide) v_quarter (by norm_num)
  have c3 : Below pS3 (1 / 4) := .const _ (by decide) (by decide) (by decide) (by decide) v_quarter (by norm_num)
  have c2 : Below pS2 (1 / 4) := .const _ (by decide) (by decide) (by decide) (by decide) v_quarter (by norm_num)
  have c1 : Below pS1 (1 / 2) := .const _ (by decide) (by decide) (by decide) (by decide) v_half (by norm_num)
  have c0 : Below pS0 (1 / 4) := .const _ (by decide) (by decide) (by decide) (by decide) v_quarter (by norm_num)
  have d5 := h.mul (7 / 100) c5 (by norm_num) (by norm_num) (by norm_num)
  have d4 := h.mul (9 / 100) (c4.add (33 / 100) d5 (by norm_num) (by norm_num) (by norm_num)) (by norm_num) (by norm_num) (by norm_num)
  have d3 := h.mul (9 / 100) (c3.add (345 / 1000) d4 (by norm_num) (by norm_num) (by norm_num)) (by norm_num) (by norm_num) (by norm_num)
  have d2 := h.mul (9 / 100) (c2.add (345 / 1000) d3 (by norm_num) (by norm_num) (by norm_num)) (by norm_num) (by norm_num) (by norm_num)
  have d1 := h.mul (155 / 1000) (c1.add (595 / 1000) d2 (by norm_num) (by norm_num) (by norm_num)) (by norm_num) (by norm_num) (by norm_num)
  exact h.mul _ (c0.add (41 / 100) d1 (by norm_num) (by norm_num) (by norm_num)) (by norm_num) (by norm_num) (by norm_num)

theorem den_above {t : Nat} (h : Below t (13 / 50)) : den t < 2 ^ 64 ∧ IsFinite (den t) ∧ (15 / 100 : ℝ) ≤ value (den t) := by
  have c4 : Below qS4 (1 / 4) := .const _ (by decide) (by decide) (by decide) (by decide) v_quarter (by norm_num)
  have c3 : Below qS3 (3 / 4) := .const 0x3fe8000000000000 (m := 3 / 4) (by decide) (by decide) (by decide) (by decide) (by unfold value sign expo frac; norm_num) (by norm_num)
  have c2 : Below qS2 (9 / 4) := .const 0x4002000000000000 (m := 9 / 4) (by decide) (by decide) (by decide) (by decide) (by unfold value sign expo frac; norm_num) (by norm_num)
  have c1 : Below qS1 (5 / 2) := .const 0x4004000000000000 (m := 5 / 2) (by decide) (by decide) (by decide) (by decide) (by unfold value sign expo frac; norm_num) (by norm_num)
  have d4 := h.mul (7 / 100) c4 (by norm_num) (by norm_num) (by norm_num)
  have d3 := h.mul (22 / 100) (c3.add (83 / 100) d4 (by norm_num) (by norm_num) (by norm_num)) (by norm_num) (by norm_num) (by norm_num)
  have d2 := h.mul (65 / 100) (c2.add (248 / 100) d3 (by norm_num) (by norm_num) (by norm_num)) (by norm_num) (by norm_num) (by norm_num)
  have d1 := h.mul (83 / 100) (c1.add (316 / 100) d2 (by norm_num) (by norm_num) (by norm_num)) (by norm_num) (by norm_num) (by norm_num)
  have o : value Libm.one = 1 := by rw [show Libm.one = 0x3ff0000000000000 from rfl]; exact v_one
  have p : |(value Libm.one : ℝ) + value (Fpu.mul t (Fpu.add qS1 (Fpu.mul t (Fpu.add qS2 (Fpu.mul t (Fpu.add qS3 (Fpu.mul t qS4)))))))| ≤ 2 := by
    rw [o]
    have := abs_le.1 d1.2.2
    rw [abs_le]
    push_cast
    constructor <;> linarith
  have r := add_err (a := Libm.one) (by decide) d1.1 (by decide) d1.2.1 (le_trans p (by norm_num))
  refine ⟨r.1, r.2.1, ?_⟩
  have e := abs_le.1 r.2.2
  have q : |(value Libm.one : ℝ) + value (Fpu.mul t (Fpu.add qS1 (Fpu.mul t (Fpu.add qS2 (Fpu.mul t (Fpu.add qS3 (Fpu.mul t qS4)))))))| / 2 ^ 53 ≤ 2 / 2 ^ 53 := div_le_div_of_nonneg_right p (by norm_num)
  have := abs_le.1 d1.2.2
  rw [show den t = Fpu.add Libm.one (Fpu.mul t (Fpu.add qS1 (Fpu.mul t (Fpu.add qS2 (Fpu.mul t (Fpu.add qS3 (Fpu.mul t qS4))))))) from rfl]
  rw [o] at e q
  push_cast at e q
  norm_num at e q ⊢
  linarith [e.1]

theorem quot_below {t : Nat} (h : Below t (13 / 50)) : Below (div (num t) (den t)) (4 / 5) := by
  have a := num_below h
  obtain ⟨b1, b2, b3⟩ := den_above h
  have z : value (den t) ≠ 0 := by
    intro c; rw [c] at b3; norm_num at b3
  have p : |(value (num t) : ℝ) / value (den t)| ≤ 11 / 15 := by
    rw [abs_div, abs_of_pos (by linarith : (0 : ℝ) < value (den t)), div_le_iff₀ (by linarith)]
    have := a.2.2
    linarith
  have r := div_err a.1 b1 a.2.1 b2 z (le_trans p (by norm_num))
  refine ⟨r.1, r.2.1, le_trans (r.abs_le p) ?_⟩
  have : |(value (num t) : ℝ) / value (den t)| / 2 ^ 53 ≤ 11 / 15 / 2 ^ 53 := div_le_div_of_nonneg_right p (by norm_num)
  norm_num at this ⊢
  linarith

/-! ## Signs -/

theorem mul_both (a : Nat) : mul (negate a) (negate a) = mul a a ∨ isNaN a = true := by
  by_cases n : isNaN a = true
  · exact Or.inr n
  obtain ⟨f1, f2⟩ := Sinh.neg_flip a
  have na : isNaN (negate a) = isNaN a := by unfold isNaN; rw [f2]
  have ia : isInf (negate a) = isInf a := by unfold isInf; rw [f2]
  left
  unfold mul
  rw [na, ia, f1, f2, if_neg n, if_neg n, if_neg n, if_neg n]
  cases neg a <;> rfl

theorem sunits_flip (a : Nat) : sunits (negate a) = - sunits a := by
  obtain ⟨f1, f2⟩ := Sinh.neg_flip a
  unfold sunits
  rw [f1, f2]
  cases neg a <;> simp

theorem add_both {a b : Nat} (fa : IsFinite a) (fb : IsFinite b) (h : value a + value b ≠ 0) : add (negate a) (negate b) = negate (add a b) := by
  have s : sunits a + sunits b ≠ 0 := by
    intro c
    apply h
    rw [value_units, value_units, ← add_div, ← Int.cast_add, c]; simp
  have na := notNaN ((finite_iff a).1 fa)
  have nb := notNaN ((finite_iff b).1 fb)
  have ia : isInf a = false := by have := (finite_iff a).1 fa; unfold isInf; simp; omega
  have ib : isInf b = false := by have := (finite_iff b).1 fb; unfold isInf; simp; omega
  have flip : ∀ c, isNaN (negate c) = isNaN c ∧ isInf (negate c) = isInf c := by
    intro c; obtain ⟨-, f2⟩ := Sinh.neg_flip c; unfold isNaN isInf; rw [f2]; exact ⟨rfl, rfl⟩
  unfold add
  rw [(flip a).1, (flip b).1, (flip a).2, (flip b).2, na, nb, ia, ib, sunits_flip, sunits_flip, if_neg (by simp), if_neg (by simp), if_neg (by simp), if_neg (by simp),
    if_neg (by omega), if_neg (by simp), if_neg (by simp), if_neg (by simp), if_neg (by simp), if_neg s]
  rw [Sinh.withSign_flip (by exact Nat.min_le_right _ _), show (-sunits a + -sunits b).natAbs = (sunits a + sunits b).natAbs by omega]
  congr 1
  by_cases c : sunits a + sunits b < 0
  · rw [decide_eq_true c, decide_eq_false (by omega)]; rfl
  · rw [decide_eq_false c, decide_eq_true (by omega)]; rfl

/-! ## The theorems -/

theorem lo_mag (x : Nat) : lo x = mag x % 2 ^ 32 := by unfold lo mag; omega

/-- **C148** **Small numbers.** The arc sine of every finite double below `2^-27` in magnitude is returned as the double itself. -/
theorem C148_tiny {x : Nat} (hx : x < 2 ^ 64) (fx : IsFinite x) (h : |value x| < 1 / 2 ^ 27) : asin x = x := by
  have m : mag x < 0x3e40000000000000 := by
    by_contra c
    have := value_mono' hx (c := 0x3e40000000000000) (by norm_num) (by omega)
    rw [show value 0x3e40000000000000 = 1 / 2 ^ 27 by unfold value sign expo frac; norm_num] at this
    linarith
  have t := Atan.huge_test hx fx (by refine h.le.trans (by norm_num))
  unfold asin
  simp only [hi31 hx]
  rw [if_neg (by omega), if_pos (by omega), if_pos ⟨by omega, t⟩]

/-- `-2^-30`. -/
example : asin 0xbe10000000000000 = 0xbe10000000000000 := by
  refine C148_tiny (by norm_num) (by decide) ?_
  rw [show value 0xbe10000000000000 = -(1 / 2 ^ 30) by unfold value sign expo frac; norm_num]; norm_num

theorem sub_self_nan {x : Nat} (hx : x < 2 ^ 64) : IsNaN (div (sub x x) (sub x x)) := by
  by_cases fx : IsFinite x
  · have z : sub x x = 0 := by
      have := sub_self_make (sign_lt x) ((finite_iff _).1 fx)
      rw [← self_eq hx] at this
      exact this
    rw [z]; decide
  · have n : IsNaN (sub x x) := by
      by_cases nx : isNaN x = true
      · unfold sub
        rw [if_pos nx, if_pos nx]
        exact quiet_nan ((isNaN_eq x).1 nx)
      · have ix : isInf x = true := by
          rw [finite_iff] at fx
          unfold isNaN at nx
          unfold isInf
          simp at *
          omega
        obtain ⟨f1, f2⟩ := Sinh.neg_flip x
        have na : isNaN (negate x) = isNaN x := by unfold isNaN; rw [f2]
        have ia : isInf (negate x) = isInf x := by unfold isInf; rw [f2]
        unfold sub add
        rw [if_neg nx, if_neg nx, na, if_neg nx, ia, if_pos ix, ix, f1, if_pos (by cases neg x <;> rfl)]
        decide
    unfold div
    rw [if_pos ((isNaN_eq _).2 n)]
    exact quiet_nan n

/-- **C148** **Outside of the domain.** For every double that is a `NaN`, infinite or above 1 in magnitude, `asin` and `acos` return a `NaN`. -/
theorem C148_domain {x : Nat} (hx : x < 2 ^ 64) (h : ¬ IsFinite x ∨ 1 < |value x|) : IsNaN (asin x) ∧ IsNaN (acos x) := by
  have m : 0x3ff0000000000000 < mag x := by
    rcases h with h | h
    · rw [finite_iff] at h
      have hinf : inf = 0x7ff00000 * 2 ^ 32 := rfl
      omega
    · by_contra c
      have := value_mono hx (c := 0x3ff0000000000000) (by norm_num) (by omega)
      rw [v_one] at this
      linarith
  have z : ¬ (mag x / 2 ^ 32 - 0x3ff00000) ||| lo x = 0 := by
    rw [Nat.or_eq_zero_iff, lo_mag]
    omega
  unfold asin acos
  simp only [hi31 hx]
  rw [if_pos (by omega), if_neg z, if_pos (by omega), if_neg z]
  exact ⟨sub_self_nan hx, sub_self_nan hx⟩

/-- Minus two. -/
example : IsNaN (asin 0xc000000000000000) := (C148_domain (by norm_num) (Or.inr (by
  rw [show value 0xc000000000000000 = -2 by unfold value sign expo frac; norm_num]; norm_num))).1

theorem flip_pos {x : Nat} (hx : x < 2 ^ 63) : negate x = 2 ^ 63 + x := by
  unfold negate neg
  rw [if_neg (by simp; omega)]; omega

theorem fabs_flip {x : Nat} (hx : x < 2 ^ 63) : fabs (2 ^ 63 + x) = fabs x := by
  have e : mag (2 ^ 63 + x) = mag x := by unfold mag; omega
  unfold fabs setHi
  rw [hi31 (by omega), hi31 (by omega), e, lo_mag, lo_mag, e]

/-- **C148** **Symmetry.** For every double from 0 to 1, the arc sine of its opposite is the opposite of its arc sine, bit by bit. -/
theorem C148_odd {x : Nat} (hx : x < 2 ^ 63) (fx : IsFinite x) (h : value x ≤ 1) : asin (2 ^ 63 + x) = negate (asin x) := by
  have hx' : x < 2 ^ 64 := by omega
  have e : mag (2 ^ 63 + x) = x := by unfold mag; omega
  have e' : mag x = x := by unfold mag; omega
  have fl := flip_pos hx
  have ng := (Near.self hx' fx).neg
  have le : x ≤ 0x3ff0000000000000 := by
    by_contra c
    have f' := (finite_iff x).1 fx
    have u := units_le (a := x) (b := 0x3ff0000000000000)
    have a : value 0x3ff0000000000000 < value x := by
      have v1 := Hypot.val (m := x) hx
      have v2 := Hypot.val (m := 0x3ff0000000000000) (by norm_num)
      have : (value 0x3ff0000000000000 : ℝ) < value x := by
        rw [v1, v2]
        exact div_lt_div_of_pos_right (by exact_mod_cast (not_le.1 (fun w => c (u.1 w)))) (by positivity)
      exact_mod_cast this
    rw [v_one] at a
    linarith
  by_cases c1 : x = 0x3ff0000000000000
  · rw [c1]; decide +kernel
  by_cases c2 : x < 0x3fe0000000000000
  · by_cases c3 : x < 0x3e40000000000000
    · have b : |value x| < 1 / 2 ^ 27 := by
        have := value_mono hx' (c := 0x3e3fffffffffffff) (by norm_num) (by omega)
        refine lt_of_le_of_lt this ?_
        unfold value sign expo frac; norm_num
      rw [C148_tiny hx' fx b, ← fl, C148_tiny ng.1 ng.2.1]
      have := value_negate hx' fx
      have : value (negate x) = - value x := by exact_mod_cast this
      rw [this, abs_neg]; exact b
    · have b : Below x (1 / 2) := .const 0x3fe0000000000000 hx' fx (by decide) (by omega) v_half (by norm_num)
      have t := b.mul (13 / 50) b (by norm_num) (by norm_num) (by norm_num)
      have w := quot_below t
      have mb := (mul_both x).resolve_right (by rw [notNaN ((finite_iff x).1 fx)]; decide)
      have a1 : asin x = add x (mul x (div (num (mul x x)) (den (mul x x)))) := by
        unfold asin
        simp only [hi31 hx', e']
        rw [if_neg (by omega), if_pos (by omega), if_neg (by omega), if_neg (by omega)]
      have a2 : asin (2 ^ 63 + x) = add (negate x) (mul (negate x) (div (num (mul x x)) (den (mul x x)))) := by
        unfold asin
        rw [fl] at mb
        simp only [hi31 (show 2 ^ 63 + x < 2 ^ 64 by omega), e]
        rw [if_neg (by omega), if_pos (by omega), if_neg (by omega), if_neg (by omega), mb, fl]
      have lo : (1 / 2 ^ 27 : ℝ) ≤ |(value x : ℝ)| := by
        have := value_mono' hx' (c := 0x3e40000000000000) (by norm_num) (by omega)
        rw [show value 0x3e40000000000000 = 1 / 2 ^ 27 by unfold value sign expo frac; norm_num] at this
        have := (Rat.cast_le (K := ℝ)).2 this
        push_cast at this
        exact this
      have p : |(value x : ℝ) * value (div (num (mul x x)) (den (mul x x)))| ≤ 4 / 5 * |(value x : ℝ)| := by
        rw [abs_mul, mul_comm]; exact mul_le_mul_of_nonneg_right w.2.2 (abs_nonneg _)
      have r := mul_err hx' w.1 fx w.2.1 (le_trans p (by have := b.2.2; norm_num at this ⊢; linarith))
      have q := r.abs_le p
      have small : |(value (mul x (div (num (mul x x)) (den (mul x x)))) : ℝ)| < |(value x : ℝ)| := by
        have l0 : 0 ≤ |(value x : ℝ)| := abs_nonneg _
        have k : (1 : ℝ) / 2 ^ 200 ≤ 1 / 2 ^ 27 / 100 := by norm_num
        have l : (1 : ℝ) / 2 ^ 27 > 0 := by norm_num
        have u : |(value x : ℝ) * value (div (num (mul x x)) (den (mul x x)))| / 2 ^ 53 ≤ |(value x : ℝ)| / 100 := by
          rw [div_le_iff₀ (by norm_num)]
          refine le_trans p ?_
          norm_num
          linarith
        clear r
        generalize (1 : ℝ) / 2 ^ 200 = K at *
        generalize (1 : ℝ) / 2 ^ 27 = L at *
        generalize |(value x : ℝ) * value (div (num (mul x x)) (den (mul x x)))| / 2 ^ 53 = A at *
        linarith
      rw [a1, a2, Sinh.mul_flip (notNaN ((finite_iff _).1 r.2.1)), add_both fx r.2.1]
      intro z
      have z' : (value x : ℝ) = - value (mul x (div (num (mul x x)) (den (mul x x)))) := by
        have : (value x : ℝ) + value (mul x (div (num (mul x x)) (den (mul x x)))) = 0 := by exact_mod_cast z
        linarith
      rw [z', abs_neg] at small
      exact lt_irrefl _ small
  · have up : upper (2 ^ 63 + x) = upper x := by
      unfold upper
      rw [fabs_flip hx, hi31 (by omega), hi31 hx', e, e']
    have h1 : hi x = x / 2 ^ 32 := by unfold hi; omega
    have h2 : hi (2 ^ 63 + x) = 2 ^ 31 + x / 2 ^ 32 := by unfold hi; omega
    unfold asin
    simp only [hi31 hx', hi31 (show 2 ^ 63 + x < 2 ^ 64 by omega), e, e']
    rw [if_neg (by omega), if_neg (by omega), if_neg (by omega), if_neg (by omega), if_neg (by omega), if_pos (by omega), up]

/-- 1/4 and 3/4. -/
example : asin 0xbfd0000000000000 = negate (asin 0x3fd0000000000000) ∧ asin 0xbfe8000000000000 = negate (asin 0x3fe8000000000000) := by
  refine ⟨C148_odd (x := 0x3fd0000000000000) (by norm_num) (by decide) ?_, C148_odd (x := 0x3fe8000000000000) (by norm_num) (by decide) ?_⟩
  · rw [v_quarter]; norm_num
  · unfold value sign expo frac; norm_num

/-- **C148** **Ends.** The arc sine of 1 and the arc cosine of every double below `2^-57` in magnitude are a double within `2^-53` of half of `π`; that of -1 is
its opposite; the arc cosine of 1 is zero, and that of -1 a double within `2^-52` of `π`. -/
theorem C148_ends :
    |(value (asin 0x3ff0000000000000) : ℝ) - Real.pi / 2| ≤ 1 / 2 ^ 53 ∧
    asin 0xbff0000000000000 = 2 ^ 63 + asin 0x3ff0000000000000 ∧
    (∀ x, x < 2 ^ 64 → |value x| < 1 / 2 ^ 57 → IsFinite x → |(value (acos x) : ℝ) - Real.pi / 2| ≤ 1 / 2 ^ 53) ∧
    acos 0x3ff0000000000000 = 0 ∧
    |(value (acos 0xbff0000000000000) : ℝ) - Real.pi| ≤ 1 / 2 ^ 52 := by
  have p1 := Real.pi_gt_d20
  have p2 := Real.pi_lt_d20
  have e1 : asin 0x3ff0000000000000 = pio2_hi := by decide +kernel
  have v1 : |(value pio2_hi : ℝ) - Real.pi / 2| ≤ 1 / 2 ^ 53 := by
    rw [show value pio2_hi = 884279719003555 / 2 ^ 49 by unfold pio2_hi value sign expo frac; norm_num, abs_le]
    push_cast
    norm_num at p1 p2 ⊢
    constructor <;> linarith
  refine ⟨by rw [e1]; exact v1, by decide +kernel, fun x hx h fx => ?_, by decide +kernel, ?_⟩
  · have m : mag x < 0x3c60000000000000 := by
      by_contra c
      have := value_mono' hx (c := 0x3c60000000000000) (by norm_num) (by omega)
      rw [show value 0x3c60000000000000 = 1 / 2 ^ 57 by unfold value sign expo frac; norm_num] at this
      linarith
    have e : acos x = pio2_hi := by
      unfold acos
      simp only [hi31 hx]
      rw [if_neg (by omega), if_pos (by omega), if_pos (by omega)]
      decide +kernel
    rw [e]; exact v1
  · rw [show acos 0xbff0000000000000 = pi by decide +kernel, show value pi = 884279719003555 / 2 ^ 48 by unfold pi value sign expo frac; norm_num, abs_le]
    push_cast
    norm_num at p1 p2 ⊢
    constructor <;> linarith

/-- Zero is below `2^-57`. -/
example : |(value (acos 0) : ℝ) - Real.pi / 2| ≤ 1 / 2 ^ 53 :=
  C148_ends.2.2.1 0 (by norm_num) (by rw [show value 0 = 0 by unfold value sign expo frac; norm_num]; norm_num) (by decide)

end Pok.Asin
