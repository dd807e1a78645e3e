import Verif.Lemmas.ExpFinish
import Verif.Props.Trig
/-!
# C125: the exponential function

The specification is Mathlib's `Real.exp`, and `value`, `IsFinite`, `IsNaN` and `IsInf` of `Verif.Spec.Float`.  `2^1024` is the first power of two
that is no double, and `2^-1075` half of the least positive double.
-/
namespace Pok.Exp
open Pok.Err Pok.Float Pok.Fpu Pok.Poly Pok.Trig

/-! ## The thresholds -/

theorem xsb_eq {x : Nat} (hx : x < 2 ^ 64) : (Libm.hi x >>> 31 &&& 1) = sign x := by
  rw [show (1 : ℕ) = 2 ^ 1 - 1 by rfl, Nat.and_two_pow_sub_one_eq_mod, Nat.shiftRight_eq_div_pow]
  unfold Libm.hi sign; omega

theorem lt_o {x : Nat} (hx : x < 2 ^ 64) (fx : IsFinite x) : lt o_threshold x = decide (x < 2 ^ 63 ∧ o_threshold < x) := by
  have n := notNaN ((finite_iff x).1 fx)
  have n' : isNaN o_threshold = false := by decide
  have k : key o_threshold = 0x40862E42FEFA39EF := by decide
  unfold lt
  rw [n, n', k]
  simp only [Bool.not_false, Bool.true_and]
  apply decide_eq_decide.2
  unfold key neg mag o_threshold
  split <;> rename_i c <;> simp at c <;> omega

theorem lt_u {x : Nat} (hx : x < 2 ^ 64) (fx : IsFinite x) : lt x u_threshold = decide (u_threshold < x) := by
  have n := notNaN ((finite_iff x).1 fx)
  have n' : isNaN u_threshold = false := by decide
  have k : key u_threshold = -0x40874910D52D3051 := by decide
  unfold lt
  rw [n, n', k]
  simp only [Bool.not_false, Bool.true_and]
  apply decide_eq_decide.2
  unfold key neg mag u_threshold
  split <;> rename_i c <;> simp at c <;> omega

theorem value_neg {x : Nat} (h0 : 2 ^ 63 ≤ x) (hx : x < 2 ^ 64) : |value x| = - value x := by
  have := value_self hx
  rw [show sign x = 1 by unfold sign; omega, pow_one] at this
  have un : (0 : ℚ) ≤ (units (mag x) : ℚ) / 2 ^ 1074 := div_nonneg (Nat.cast_nonneg _) (pow_nonneg (by norm_num) _)
  exact abs_of_nonpos (by linarith)

theorem above_o {x : Nat} (h0 : o_threshold < x) (hx : x < 2 ^ 63) : (1024 * Real.log 2 : ℝ) ≤ value x := by
  have m := value_mono' (x := x) (c := o_threshold + 1) (by omega) (by decide) (by rw [mag_self hx]; omega)
  rw [value_pos hx] at m
  have v : 7097827128933840 / 10 ^ 13 ≤ value (o_threshold + 1) := by unfold o_threshold value sign expo frac; norm_num
  have r := (Rat.cast_le (K := ℝ)).2 (le_trans v m)
  push_cast at r
  have l := ln2_b.2
  norm_num at *; linarith

theorem below_o {x : Nat} (hx : x < 2 ^ 64) (h0 : ¬ (x < 2 ^ 63 ∧ o_threshold < x)) : (value x : ℝ) ≤ 70978271289338397311 / 10 ^ 17 := by
  have q : value x ≤ 70978271289338397311 / 10 ^ 17 := by
    by_cases c : x < 2 ^ 63
    · have m := value_mono (x := x) (c := o_threshold) hx (by decide) (by rw [mag_self c]; omega)
      rw [value_pos c] at m
      have v : value o_threshold ≤ 70978271289338397311 / 10 ^ 17 := by unfold o_threshold value sign expo frac; norm_num
      linarith
    · have := value_neg (by omega) hx
      have := abs_nonneg (value x)
      linarith
  have := (Rat.cast_le (K := ℝ)).2 q; push_cast at this ⊢; exact this

theorem below_u {x : Nat} (h0 : u_threshold < x) (hx : x < 2 ^ 64) : (value x : ℝ) ≤ -(1075 * Real.log 2) := by
  have hs : 2 ^ 63 ≤ x := le_trans (by decide) h0.le
  have m := value_mono' (x := x) (c := u_threshold + 1 - 2 ^ 63) hx (by decide) (by unfold mag u_threshold at *; omega)
  rw [value_neg hs hx] at m
  have v : 74513321910194122 / 10 ^ 14 ≤ value (u_threshold + 1 - 2 ^ 63) := by unfold u_threshold value sign expo frac; norm_num
  have r := (Rat.cast_le (K := ℝ)).2 (le_trans v m)
  push_cast at r
  have l := ln2_b.2
  norm_num at *; linarith

theorem above_u {x : Nat} (hx : x < 2 ^ 64) (h0 : ¬ u_threshold < x) : -(7451333 / 10 ^ 4) ≤ (value x : ℝ) := by
  have q : -(7451333 / 10 ^ 4) ≤ value x := by
    by_cases c : x < 2 ^ 63
    · have := value_pos c
      have := abs_nonneg (value x)
      linarith
    · have m := value_mono (x := x) (c := u_threshold - 2 ^ 63) hx (by decide) (by unfold mag u_threshold at *; omega)
      rw [value_neg (by omega) hx] at m
      have v : value (u_threshold - 2 ^ 63) ≤ 7451333 / 10 ^ 4 := by unfold u_threshold value sign expo frac; norm_num
      exact neg_le.1 (le_trans m v)
  have := (Rat.cast_le (K := ℝ)).2 q; push_cast at this ⊢; exact this

theorem exp_pow2 (k : Int) : (2 : ℝ) ^ k = Real.exp (k * Real.log 2) := by
  have := exp_split (k * Real.log 2) k
  rw [sub_self, Real.exp_zero, one_mul] at this
  exact this.symm

theorem exp_1024 : (2 : ℝ) ^ 1024 = Real.exp (1024 * Real.log 2) := by
  have := exp_pow2 1024; push_cast at this; rw [← this]; rfl

theorem exp_small (n : Nat) : (1 : ℝ) / 2 ^ n = Real.exp (-(n * Real.log 2)) := by
  have := exp_pow2 (-(n : Int)); push_cast at this
  rw [neg_mul] at this
  rw [← this, zpow_neg, zpow_natCast, one_div]

/-! ## All finite arguments -/

/-- Arguments that do not overflow. -/
theorem exp_near {x : Nat} (hx : x < 2 ^ 64) (fx : IsFinite x) (ho : ¬ (x < 2 ^ 63 ∧ o_threshold < x)) :
    IsFinite (exp x) ∧ |(value (exp x) : ℝ) - Real.exp (value x)| ≤
      Real.exp (value x) / 2 ^ 52 + (if Real.exp (value x) < 1 / 2 ^ 1021 then 1 / 2 ^ 1075 else 0) := by
  have mi := (finite_iff x).1 fx
  have hinf : inf = 0x7ff00000 * 2 ^ 32 := rfl
  have Ep := Real.exp_pos (value x : ℝ)
  have t0 : (0 : ℝ) ≤ if Real.exp (value x) < 1 / 2 ^ 1021 then 1 / 2 ^ 1075 else 0 := by split <;> positivity
  unfold exp
  simp only []
  rw [hi31 hx, xsb_eq hx, if_neg (by omega), if_neg (by rw [lt_o hx fx]; simp only [decide_eq_true_eq]; tauto), lt_u hx fx]
  by_cases cu : 0x40862E42 ≤ mag x / 2 ^ 32 ∧ u_threshold < x
  · -- nothing is left
    rw [if_pos (by simpa using cu)]
    have z : mul twom1000 twom1000 = 0 := by decide +kernel
    rw [z]
    refine ⟨by decide, ?_⟩
    have b := below_u cu.2 hx
    have e : Real.exp (value x) ≤ 1 / 2 ^ 1075 := by
      rw [exp_small]; exact Real.exp_le_exp.2 (by push_cast; exact b)
    have e2 : Real.exp (value x) < 1 / 2 ^ 1021 := by
      refine lt_of_le_of_lt e ?_
      rw [exp_small, exp_small]; apply Real.exp_lt_exp.2
      have := ln2_b.1
      push_cast; norm_num at *; linarith
    rw [if_pos e2, zero_near.2.2, Rat.cast_zero, zero_sub, abs_neg, abs_of_pos Ep]
    have : 0 ≤ Real.exp (value x) / 2 ^ 52 := by positivity
    linarith
  rw [if_neg (by simpa using cu)]
  have ub : -(7451333 / 10 ^ 4) ≤ (value x : ℝ) := by
    by_cases c : 0x40862E42 ≤ mag x / 2 ^ 32
    · exact above_u hx (fun h => cu ⟨c, h⟩)
    · have m := value_mono (x := x) (c := 0x40862E4200000000) hx (by norm_num) (by omega)
      have v : value 0x40862E4200000000 ≤ 710 := by unfold value sign expo frac; norm_num
      have := (abs_le.1 (le_trans m v)).1
      have := (Rat.cast_le (K := ℝ)).2 this
      push_cast at this; linarith
  have lb := below_o hx ho
  have l2 := ln2_b
  -- what is needed of a reduced argument
  have done : ∀ k : Int, ∀ hi lo : Nat, Red (value x) k hi lo → k ≠ 0 → IsFinite (finish (sub hi lo) hi lo k) ∧
      |(value (finish (sub hi lo) hi lo k) : ℝ) - Real.exp (value x)| ≤
        Real.exp (value x) / 2 ^ 52 + (if Real.exp (value x) < 1 / 2 ^ 1021 then 1 / 2 ^ 1075 else 0) := by
    intro k hi lo R k0
    have sm := abs_le.1 R.small
    have k1 : -1075 ≤ k := by
      by_contra c
      have : (k : ℝ) ≤ -1076 := by exact_mod_cast (by omega : k ≤ -1076)
      have := mul_le_mul_of_nonneg_right this (show 0 ≤ Real.log 2 by norm_num at *; linarith)
      norm_num at *; linarith
    have k2 : k ≤ 1024 := by
      by_contra c
      have : (1025 : ℝ) ≤ k := by exact_mod_cast (by omega : 1025 ≤ k)
      have := mul_le_mul_of_nonneg_right this (show 0 ≤ Real.log 2 by norm_num at *; linarith)
      norm_num at *; linarith
    obtain ⟨f1, f2⟩ := finish_near R k0 k1 k2 (fun _ => by norm_num at *; linarith)
    refine ⟨f1, le_trans f2 (add_le_add le_rfl ?_)⟩
    by_cases c : k < -1021
    · rw [if_pos c, if_pos]
      rw [exp_small]
      apply Real.exp_lt_exp.2
      have : (k : ℝ) ≤ -1022 := by exact_mod_cast (by omega : k ≤ -1022)
      have := mul_le_mul_of_nonneg_right this (show 0 ≤ Real.log 2 by norm_num at *; linarith)
      push_cast; norm_num at *; linarith
    · rw [if_neg c]; exact t0
  have sx := sign_lt x
  by_cases c1 : 0x3fd62e42 < mag x / 2 ^ 32
  · rw [if_pos c1]
    by_cases c2 : mag x / 2 ^ 32 < 0x3FF0A2B2
    · rw [if_pos c2]
      have R := red_one hx c1 c2 rfl
      exact done _ _ _ R (by omega)
    · rw [if_neg c2]
      have v : 10397 / 10 ^ 4 ≤ value 0x3ff0a2b200000000 := by unfold value sign expo frac; norm_num
      have m := value_mono' hx (c := 0x3ff0a2b200000000) (by norm_num) (by omega)
      have h0 : 10397 / 10 ^ 4 ≤ |(value x : ℝ)| := by
        have := (Rat.cast_le (K := ℝ)).2 (le_trans v m); push_cast at this ⊢; exact this
      have h1 : |(value x : ℝ)| ≤ 746 := by rw [abs_le]; constructor <;> norm_num at * <;> linarith
      obtain ⟨k, hk, k0, ks⟩ := multiple2 hx fx h0 h1 rfl
      rw [hk]
      exact done _ _ _ (red_many hx fx h0 h1 ks) k0
  · rw [if_neg c1]
    have m := value_mono (x := x) (c := 0x3fd62e4300000000) hx (by norm_num) (by omega)
    have v : value 0x3fd62e4300000000 ≤ 34658 / 100000 := by unfold value sign expo frac; norm_num
    have b : |(value x : ℝ)| ≤ 34658 / 100000 := by
      have := (Rat.cast_le (K := ℝ)).2 (le_trans m v); push_cast at this ⊢; exact this
    split
    · -- very small
      rename_i c
      have m := value_mono (x := x) (c := 0x3e30000000000000) hx (by norm_num) (by omega)
      have v : value 0x3e30000000000000 = 1 / 2 ^ 28 := by unfold value sign expo frac; norm_num
      have b : |(value x : ℝ)| ≤ 1 / 2 ^ 28 := by
        have := (Rat.cast_le (K := ℝ)).2 (le_trans m v.le); push_cast at this ⊢; exact this
      have b' := abs_le.1 b
      have q := Real.abs_exp_sub_one_sub_id_le (x := (value x : ℝ)) (le_trans b (by norm_num))
      have q2 : (value x : ℝ) ^ 2 ≤ 1 / 2 ^ 56 := by
        rw [← sq_abs]
        exact le_trans (pow_le_pow_left₀ (abs_nonneg _) b 2) (by norm_num)
      have q' := abs_le.1 (le_trans q q2)
      have s := near_one.add (Near.self hx fx) (m := 1 + 1 / 2 ^ 28) (g := 1 / 2 ^ 53 + 1 / 2 ^ 80) (by
        rw [abs_le]; constructor <;> norm_num at * <;> linarith) (by norm_num) (by norm_num)
      refine ⟨s.2.1, ?_⟩
      have e := abs_le.1 s.2.2
      have lE : 1 - 1 / 2 ^ 27 ≤ Real.exp (value x) := by norm_num at *; linarith
      refine le_trans ?_ (le_add_of_nonneg_right t0)
      generalize Real.exp (value x : ℝ) = E at *
      generalize (value (add Libm.one x) : ℝ) = Y at *
      generalize (value x : ℝ) = X at *
      clear done t0
      rw [abs_le]; constructor <;> norm_num at * <;> linarith
    · have k := kernel0 hx fx b
      have fe : finish x 0 0 0 = sub Libm.one (sub (div (mul x (primary x)) (sub (primary x) two)) x) := by
        unfold finish; rw [if_pos rfl]
      rw [fe]
      refine ⟨k.2.1, le_trans k.2.2 ?_⟩
      refine le_trans ?_ (le_add_of_nonneg_right t0)
      norm_num; linarith

/-! ## The theorems -/

/-- **Relative error.**  For every finite double whose exponential lies from `2^-1021` to below `2^1024`, the result is a number within `2^-52` of the
exponential, relative to it. -/
theorem C125_exp {x : Nat} (hx : x < 2 ^ 64) (fx : IsFinite x) (h0 : 1 / 2 ^ 1021 ≤ Real.exp (value x)) (h1 : Real.exp (value x) < 2 ^ 1024) :
    IsFinite (exp x) ∧ |(value (exp x) : ℝ) - Real.exp (value x)| ≤ Real.exp (value x) / 2 ^ 52 := by
  have h := exp_near hx fx (fun c => by
    rw [exp_1024] at h1
    have := Real.exp_lt_exp.1 h1
    have := above_o c.2 c.1
    linarith)
  rw [if_neg (not_lt.2 h0), add_zero] at h
  exact h

/-- **Exponentials near nothing.**  For every finite double whose exponential is below `2^-1021`, the error is at most half of the least positive
double more. -/
theorem C125_exp_tiny {x : Nat} (hx : x < 2 ^ 64) (fx : IsFinite x) (h0 : Real.exp (value x) < 1 / 2 ^ 1021) :
    IsFinite (exp x) ∧ |(value (exp x) : ℝ) - Real.exp (value x)| ≤ Real.exp (value x) / 2 ^ 52 + 1 / 2 ^ 1075 := by
  have h := exp_near hx fx (fun c => by
    have a := above_o c.2 c.1
    rw [exp_small] at h0
    have := Real.exp_lt_exp.1 h0
    have l := ln2_b.1
    push_cast at this
    norm_num at *; linarith)
  rw [if_pos h0] at h
  exact h

/-- **Overflow.**  The result is infinite, and positive, for every finite double whose exponential is `2^1024` or more. -/
theorem C125_overflow {x : Nat} (hx : x < 2 ^ 64) (fx : IsFinite x) (h : 2 ^ 1024 ≤ Real.exp (value x)) : IsInf (exp x) ∧ sign (exp x) = 0 := by
  have mi := (finite_iff x).1 fx
  have hinf : inf = 0x7ff00000 * 2 ^ 32 := rfl
  have c : x < 2 ^ 63 ∧ o_threshold < x := by
    by_contra c
    have b := below_o hx c
    rw [exp_1024] at h
    have := Real.exp_le_exp.1 h
    have l := ln2_b.1
    norm_num at *; linarith
  have hm : 0x40862E42 ≤ mag x / 2 ^ 32 := by rw [mag_self c.1]; have := c.2; unfold o_threshold at this; omega
  unfold exp
  simp only []
  rw [hi31 hx, if_neg (by omega), if_pos ⟨hm, by rw [lt_o hx fx]; simpa using c⟩]
  decide +kernel

/-- **Special arguments.**  The exponential of what is not a number is not a number, that of plus infinity is plus infinity, that of minus infinity
is zero. -/
theorem C125_special {x : Nat} (hx : x < 2 ^ 64) : (IsNaN x → IsNaN (exp x)) ∧ (IsInf x → exp x = if sign x = 0 then x else 0) := by
  have fr : (mag x / 2 ^ 32 &&& 0xfffff ||| Libm.lo x) = 0 ↔ frac x = 0 := by
    rw [show (0xfffff : ℕ) = 2 ^ 20 - 1 by rfl, Nat.and_two_pow_sub_one_eq_mod, Nat.or_eq_zero_iff]
    unfold Libm.lo frac mag; omega
  constructor
  · intro h
    have m : 0x7ff00000 ≤ mag x / 2 ^ 32 := by rw [mag_eq, h.1]; omega
    unfold exp
    simp only []
    rw [hi31 hx, if_pos (by omega), if_pos (fun z => h.2 (fr.1 z))]
    unfold add
    rw [if_pos ((Libm.isNaN_eq x).2 h)]
    exact Libm.quiet_nan h
  · intro h
    have m : 0x7ff00000 ≤ mag x / 2 ^ 32 := by rw [mag_eq, h.1]; omega
    unfold exp
    simp only []
    rw [hi31 hx, if_pos (by omega), if_neg (fun z => z (fr.2 h.2)), xsb_eq hx]

/-! ## The hypotheses are met -/

/-- The number e, one of the largest results, a result that is no normal double, and an overflow. -/
example : exp 0x3ff0000000000000 = 0x4005bf0a8b14576a ∧ exp 0x40862e42fefa39ef = 0x7fefffffffffff2a ∧ exp 0xc087200000000000 = 0x55
    ∧ exp 0x40862e42fefa39f0 = 0x7ff0000000000000 ∧ exp 0xc0874910d52d3052 = 0 ∧ exp 0xfff0000000000000 = 0 := by decide +kernel

/-- 1.0 is an argument of the first theorem, -1000 of the second and 1000 of the third. -/
example : 1 / 2 ^ 1021 ≤ Real.exp (value 0x3ff0000000000000) ∧ Real.exp (value 0x3ff0000000000000) < 2 ^ 1024 ∧
    Real.exp (value 0xc08f400000000000) < 1 / 2 ^ 1021 ∧ 2 ^ 1024 ≤ Real.exp (value 0x408f400000000000) := by
  have l := ln2_b
  have v1 : value 0x3ff0000000000000 = 1 := by unfold value sign expo frac; norm_num
  have v2 : value 0xc08f400000000000 = -1000 := by unfold value sign expo frac; norm_num
  have v3 : value 0x408f400000000000 = 1000 := by unfold value sign expo frac; norm_num
  rw [v1, v2, v3, exp_1024, exp_small]
  refine ⟨Real.exp_le_exp.2 ?_, Real.exp_lt_exp.2 ?_, Real.exp_lt_exp.2 ?_, Real.exp_le_exp.2 ?_⟩ <;> push_cast <;> norm_num at * <;> linarith

end Pok.Exp
