import Verif.Model.Asinh
import Verif.Props.Asin
import Verif.Props.Scalb
import Verif.Props.Log
import Verif.Lemmas.ExpReduce
import Mathlib.Analysis.SpecialFunctions.Arsinh
/-!
# C149: the inverses of the hyperbolic sine and cosine

The specification is the value of doubles of `Verif.Spec.Float`, Mathlib's `Real.arsinh`, and `Real.log` and `Real.sqrt` for the inverse of the hyperbolic cosine.
-/
namespace Pok.Asinh
open Pok.Err Pok.Float Pok.Fpu Pok.Libm Pok.Log

/-! ## Large numbers -/

theorem root_near {S v : ℝ} (hS : 0 ≤ S) (hv : 0 < v) (h : |S ^ 2 - v ^ 2| ≤ 1) : |S - v| ≤ 1 / v := by
  rw [le_div_iff₀ hv]
  have e : |S - v| * (S + v) = |S ^ 2 - v ^ 2| := by
    rw [show S ^ 2 - v ^ 2 = (S - v) * (S + v) by ring, abs_mul, abs_of_nonneg (by linarith : 0 ≤ S + v)]
  have := mul_nonneg (abs_nonneg (S - v)) hS
  nlinarith

theorem log_near_two {S v : ℝ} (hv : 2 ^ 28 ≤ v) (h : |S - v| ≤ 1 / v) : |Real.log (v + S) - Real.log (2 * v)| ≤ 1 / 2 ^ 56 := by
  have v0 : (0 : ℝ) < v := lt_of_lt_of_le (by norm_num) hv
  have k : |(S - v) / (2 * v)| ≤ 1 / 2 ^ 57 := by
    rw [abs_div, abs_of_pos (by linarith : 0 < 2 * v), div_le_iff₀ (by linarith)]
    refine le_trans h ?_
    rw [div_le_iff₀ v0]
    nlinarith
  have e : v + S = 2 * v * (1 + (S - v) / (2 * v)) := by field_simp; ring
  generalize (S - v) / (2 * v) = d at *
  have k' := abs_le.1 k
  have p : (0 : ℝ) < 1 + d := by norm_num at k'; linarith
  rw [e, Real.log_mul (by positivity) p.ne', add_sub_cancel_left, abs_le]
  constructor
  · have a := Real.one_sub_inv_le_log_of_pos p
    have b : -(1 / 2 ^ 56) ≤ 1 - (1 + d)⁻¹ := by
      have : (1 + d)⁻¹ ≤ 1 + 1 / 2 ^ 56 := by
        rw [inv_le_iff_one_le_mul₀ p]
        norm_num at k' ⊢
        nlinarith
      linarith
    linarith
  · have := Real.log_le_sub_one_of_pos p
    norm_num at k' ⊢
    linarith

theorem large {x : Nat} (hx : x < 2 ^ 63) (fx : IsFinite x) (h : (2 : ℝ) ^ 28 ≤ value x) {w : ℝ} (hw : |w - Real.log (2 * value x)| ≤ 1 / 2 ^ 56) :
    IsFinite (add (log x) ln2) ∧ |(value (add (log x) ln2) : ℝ) - w| ≤ 4 * |w| / 2 ^ 53 := by
  have hx' : x < 2 ^ 64 := by omega
  have v0 : (0 : ℝ) < value x := lt_of_lt_of_le (by norm_num) h
  have N : Near (log x) (Real.log (value x)) (|Real.log (value x)| / 2 ^ 52) := log_near hx' fx (by exact_mod_cast v0)
  obtain ⟨b1, b2⟩ := Exp.ln2_b
  have C : Near ln2 (Real.log 2) (1 / 2 ^ 54) := by
    refine ⟨by decide, by decide, ?_⟩
    rw [show value ln2 = 6243314768165359 / 2 ^ 53 by unfold ln2 value sign expo frac; norm_num, abs_le]
    push_cast
    norm_num at b1 b2 ⊢
    constructor <;> linarith
  have lo : (19 : ℝ) ≤ Real.log (value x) := by
    have := Real.log_le_log (by positivity) h
    rw [Real.log_pow] at this
    push_cast at this
    norm_num at b1
    linarith
  have up : Real.log (value x) ≤ 1024 := by
    have m := most hx' fx
    rw [zpow_ofNat] at m
    have m' : (value x : ℝ) ≤ 2 ^ 1024 := by
      have := le_trans (le_abs_self _) m
      have := (Rat.cast_le (K := ℝ)).2 this
      rw [Rat.cast_pow] at this
      exact_mod_cast this
    have := Real.log_le_log v0 m'
    rw [Real.log_pow, Nat.cast_ofNat] at this
    norm_num at b2
    linarith
  rw [Real.log_mul (by norm_num) v0.ne'] at hw
  rw [abs_of_nonneg (by linarith)] at N
  generalize Real.log (value x) = l at *
  generalize Real.log 2 = L at *
  have S := Near.add (m := l + 7 / 10) (g := l / 2 ^ 52 + 1 / 2 ^ 54 + (l + 7 / 10 + l / 2 ^ 52 + 1 / 2 ^ 54) / 2 ^ 53) N C (by
    rw [abs_of_nonneg (by norm_num at b1; linarith)]; norm_num at b2; linarith) (le_refl _) (by norm_num; linarith)
  refine ⟨S.2.1, ?_⟩
  have a := abs_le.1 S.2.2
  have b := abs_le.1 hw
  have w0 : 0 ≤ w := by norm_num at b b1; linarith
  rw [abs_of_nonneg w0, abs_le]
  generalize (value (add (log x) ln2) : ℝ) = r at *
  norm_num at a b b1 b2 ⊢
  constructor <;> linarith

/-! ## The theorems -/

/-- **C149** **Symmetry.** For every double that is not a `NaN`, `asinh` of its opposite is the opposite of `asinh` of it, bit by bit. -/
theorem C149_odd {x : Nat} (hx : x < 2 ^ 63) (nx : ¬ IsNaN x) : asinh (2 ^ 63 + x) = negate (asinh x) := by
  have hx' : x < 2 ^ 64 := by omega
  have hy : 2 ^ 63 + x < 2 ^ 64 := by omega
  have e : mag (2 ^ 63 + x) = x := by unfold mag; omega
  have e' : mag x = x := by unfold mag; omega
  have fl := Asin.flip_pos hx
  by_cases fx : IsFinite x
  · have m := (finite_iff x).1 fx
    have hinf : inf = 0x7ff00000 * 2 ^ 32 := rfl
    have ng := (Near.self hx' fx).neg
    have mb := (Asin.mul_both x).resolve_right (by rw [notNaN m]; decide)
    rw [fl] at mb ng
    have up : logOf (2 ^ 63 + x) = logOf x := by
      unfold logOf
      rw [Asin.fabs_flip hx, hi31 hy, hi31 hx', e, e', mb]
    have h1 : hi x = x / 2 ^ 32 := by unfold hi; omega
    have h2 : hi (2 ^ 63 + x) = 2 ^ 31 + x / 2 ^ 32 := by unfold hi; omega
    rw [e'] at m
    unfold asinh
    simp only [hi31 hx', hi31 hy, e, e']
    have z : ¬ 0x7ff00000 ≤ x / 2 ^ 32 := by omega
    rw [if_neg z, if_neg z]
    by_cases c : x / 2 ^ 32 < 0x3e300000
    · have b : ∀ y, y < 2 ^ 64 → mag y = x → IsFinite y → lt one (add Exp.huge y) = true := by
        intro y h0 h1 h2
        refine Atan.huge_test h0 h2 ?_
        have := value_mono h0 (c := 0x3ff0000000000000) (by norm_num) (by omega)
        rwa [Asin.v_one] at this
      rw [if_pos ⟨c, b _ hy e ng.2.1⟩, if_pos ⟨c, b _ hx' e' fx⟩, fl]
    · have n : ∀ y, ¬ (x / 2 ^ 32 < 0x3e300000 ∧ lt one (add Exp.huge y) = true) := fun y h => c h.1
      rw [if_neg (n _), if_neg (n _), if_neg (by omega), if_pos (by omega), up]
  · have i : x = inf := by
      rw [finite_iff, e'] at fx
      rw [Libm.nan_iff, e'] at nx
      omega
    rw [i]; decide +kernel

/-- Three. -/
example : asinh 0xc008000000000000 = negate (asinh 0x4008000000000000) := C149_odd (x := 0x4008000000000000) (by norm_num) (by decide)

/-- **C149** **Small numbers and what is not finite.** `asinh` returns every double below `2^-28` in magnitude, and the infinites, as they are; a `NaN` gives a `NaN`. -/
theorem C149_asinh_special {x : Nat} (hx : x < 2 ^ 64) :
    (IsFinite x → |value x| < 1 / 2 ^ 28 → asinh x = x) ∧ (IsInf x → asinh x = x) ∧ (IsNaN x → IsNaN (asinh x)) := by
  have inf' : ¬ IsFinite x → asinh x = add x x := by
    intro h
    rw [finite_iff] at h
    have hinf : inf = 0x7ff00000 * 2 ^ 32 := rfl
    unfold asinh
    simp only [hi31 hx]
    rw [if_pos (by omega)]
  refine ⟨fun fx h => ?_, fun h => ?_, fun h => ?_⟩
  · have m : mag x < 0x3e30000000000000 := by
      by_contra c
      have := value_mono' hx (c := 0x3e30000000000000) (by norm_num) (by omega)
      rw [show value 0x3e30000000000000 = 1 / 2 ^ 28 by unfold value sign expo frac; norm_num] at this
      linarith
    have t := Atan.huge_test hx fx (by refine h.le.trans (by norm_num))
    unfold asinh
    simp only [hi31 hx]
    rw [if_neg (by omega), if_pos ⟨by omega, t⟩]
  · rw [inf' (fun c => c h.1)]
    have n : isNaN x = false := by rw [Bool.eq_false_iff]; intro c; exact ((isNaN_eq x).1 c).2 h.2
    unfold add
    rw [n, (isInf_eq x).2 h]
    simp
  · rw [inf' (fun c => c h.1)]
    exact add_nan (Or.inl h)

example : asinh 1 = 1 := (C149_asinh_special (x := 1) (by norm_num)).1 (by decide) (by
  have := value_mono (x := 1) (c := 0x3e20000000000000) (by norm_num) (by norm_num) (by decide)
  refine lt_of_le_of_lt this ?_
  unfold value sign expo frac; norm_num)

/-- **C149** **Large numbers.** For every finite double from `2^29` on, `asinh` returns a finite number within `2^-51`, relative, of its inverse hyperbolic sine. -/
theorem C149_asinh_large {x : Nat} (hx : x < 2 ^ 63) (fx : IsFinite x) (h : 2 ^ 29 ≤ value x) :
    IsFinite (asinh x) ∧ |(value (asinh x) : ℝ) - Real.arsinh (value x)| ≤ |Real.arsinh (value x)| / 2 ^ 51 := by
  have hx' : x < 2 ^ 64 := by omega
  have e' : mag x = x := by unfold mag; omega
  have m := (finite_iff x).1 fx
  have hinf : inf = 0x7ff00000 * 2 ^ 32 := rfl
  have big : 0x41c0000000000000 ≤ x := by
    by_contra c
    have := value_mono hx' (c := 0x41bfffffffffffff) (by norm_num) (by omega)
    have v : value 0x41bfffffffffffff < 2 ^ 29 := by unfold value sign expo frac; norm_num
    have := le_abs_self (value x)
    linarith
  have h1 : hi x = x / 2 ^ 32 := by unfold hi; omega
  have fab : fabs x = x := by
    unfold fabs setHi Libm.insert
    rw [hi31 hx', e']; unfold lo; omega
  have E : asinh x = add (log x) ln2 := by
    unfold asinh logOf
    simp only [hi31 hx', e', fab]
    rw [if_neg (by omega), if_neg (by omega), if_pos (by omega), if_pos (by omega)]
  have hr : (2 : ℝ) ^ 29 ≤ value x := by exact_mod_cast h
  have v0 : (0 : ℝ) < value x := lt_of_lt_of_le (by norm_num) hr
  have lw := log_near_two (S := √(1 + (value x : ℝ) ^ 2)) (v := value x) (by norm_num at hr ⊢; linarith) (root_near (Real.sqrt_nonneg _) v0 (by
    rw [Real.sq_sqrt (by positivity)]; simp))
  obtain ⟨a, b⟩ := large hx fx (by norm_num at hr ⊢; linarith) lw
  rw [E]
  refine ⟨a, ?_⟩
  unfold Real.arsinh
  refine le_trans b (le_of_eq ?_)
  ring

/-- `2^500`. -/
example : IsFinite (asinh 0x5f30000000000000) := (C149_asinh_large (by norm_num) (by decide) (by
  have := value_mono' (x := 0x5f30000000000000) (c := 0x41c0000000000000) (by norm_num) (by norm_num) (by decide)
  rw [Trig.value_pos (by norm_num)] at this
  refine le_trans ?_ this
  unfold value sign expo frac; norm_num)).1

/-- **C149** **Inverse hyperbolic cosine.** `acosh` returns a `NaN` for every number below 1, for the negative infinite and for a `NaN`, zero for 1, the positive infinite
for itself, and for every finite double from `2^28` on a finite number within `2^-51`, relative, of `log (x + √(x² - 1))`. -/
theorem C149_acosh {x : Nat} (hx : x < 2 ^ 64) :
    (IsFinite x → value x < 1 → IsNaN (acosh x)) ∧ (IsNaN x → IsNaN (acosh x)) ∧ IsNaN (acosh (2 ^ 63 + inf)) ∧ acosh 0x3ff0000000000000 = 0 ∧ acosh inf = inf ∧
    (IsFinite x → 2 ^ 28 ≤ value x → IsFinite (acosh x) ∧
      |(value (acosh x) : ℝ) - Real.log (value x + √((value x : ℝ) ^ 2 - 1))| ≤ |Real.log (value x + √((value x : ℝ) ^ 2 - 1))| / 2 ^ 51) := by
  have hinf : inf = 0x7ff00000 * 2 ^ 32 := rfl
  refine ⟨fun fx h => ?_, fun h => ?_, by decide +kernel, by decide +kernel, by decide +kernel, fun fx h => ?_⟩
  · unfold acosh
    simp only []
    rw [if_pos]
    · exact Asin.sub_self_nan hx
    · by_contra c
      have h1 : hi x = x / 2 ^ 32 := by unfold hi; omega
      have := value_mono' hx (c := 0x3ff0000000000000) (by norm_num) (by unfold mag; omega)
      rw [Asin.v_one, Trig.value_pos (by omega)] at this
      linarith
  · by_cases c : hi x < 0x3ff00000 ∨ 2 ^ 31 ≤ hi x
    · unfold acosh
      simp only []
      rw [if_pos c]
      exact Asin.sub_self_nan hx
    · have h1 : hi x = x / 2 ^ 32 := by unfold hi; omega
      have m := (Libm.nan_iff x).1 h
      have : 0x7ff00000 ≤ hi x := by unfold mag at m; omega
      unfold acosh
      simp only []
      rw [if_neg c, if_pos (by omega), if_pos this]
      exact add_nan (Or.inl h)
  · have hr : (2 : ℝ) ^ 28 ≤ value x := by exact_mod_cast h
    have v0 : (0 : ℝ) < value x := lt_of_lt_of_le (by norm_num) hr
    have pos : x < 2 ^ 63 := by
      by_contra c
      have := Exp.value_neg (x := x) (by omega) hx
      have n := abs_nonneg (value x)
      norm_num at h
      linarith
    have e' : mag x = x := by unfold mag; omega
    have m := (finite_iff x).1 fx
    have big : 0x41b0000000000000 ≤ x := by
      by_contra c
      have := value_mono hx (c := 0x41afffffffffffff) (by norm_num) (by omega)
      have v : value 0x41afffffffffffff < 2 ^ 28 := by unfold value sign expo frac; norm_num
      have := le_abs_self (value x)
      linarith
    have h1 : hi x = x / 2 ^ 32 := by unfold hi; omega
    have E : acosh x = add (log x) ln2 := by
      unfold acosh
      simp only []
      rw [if_neg (by omega), if_pos (by omega), if_neg (by omega)]
    have q : (1 : ℝ) ≤ (value x : ℝ) ^ 2 := by nlinarith
    have lw := log_near_two (S := √((value x : ℝ) ^ 2 - 1)) (v := value x) hr (root_near (Real.sqrt_nonneg _) v0 (by
      rw [Real.sq_sqrt (by linarith)]; simp))
    obtain ⟨a, b⟩ := large pos fx hr lw
    rw [E]
    refine ⟨a, le_trans b (le_of_eq (by ring))⟩

/-- 1/2 and `2^500`. -/
example : IsNaN (acosh 0x3fe0000000000000) ∧ IsFinite (acosh 0x5f30000000000000) := by
  refine ⟨(C149_acosh (by norm_num)).1 (by decide) (by rw [Asin.v_half]; norm_num), ((C149_acosh (by norm_num)).2.2.2.2.2 (by decide) ?_).1⟩
  have := value_mono' (x := 0x5f30000000000000) (c := 0x41b0000000000000) (by norm_num) (by norm_num) (by decide)
  rw [Trig.value_pos (by norm_num)] at this
  refine le_trans ?_ this
  unfold value sign expo frac; norm_num

end Pok.Asinh
