import Verif.Lemmas.AtanBranch
import Verif.Props.Exp
/-!
# C132: the arc tangent

The specification is Mathlib's `Real.arctan`, and `value`, `IsFinite`, `IsNaN` and `IsInf` of `Verif.Spec.Float`.
-/
namespace Pok.Atan
open Pok.Err Pok.Float Pok.Fpu Pok.Poly Pok.Trig

/-- `huge + x > one`. -/
theorem huge_test {x : Nat} (hx : x < 2 ^ 64) (fx : IsFinite x) (h : |value x| ≤ 1) : lt Libm.one (add Exp.huge x) = true := by
  have hh : Exp.huge < 2 ^ 64 := by decide
  have fh : IsFinite Exp.huge := by decide
  have v0 : 4 ≤ value Exp.huge := by
    have := value_mono' (x := Exp.huge) (c := 0x4010000000000000) hh (by decide) (by decide)
    rw [value_pos (by decide)] at this
    refine le_trans ?_ this
    unfold value sign expo frac; norm_num
  have v1 : value Exp.huge ≤ 2 ^ 999 := by
    have := value_mono (x := Exp.huge) (c := 0x7e60000000000000) hh (by decide) (by decide)
    rw [value_pos (by decide)] at this
    refine le_trans this ?_
    unfold value sign expo frac; norm_num
  have x' := abs_le.1 h
  have r := Libm.fpu_add hh hx fh fx (by intro z; linarith)
  have big : |value Exp.huge + value x| ≤ 2 ^ 1000 := by
    rw [abs_of_nonneg (by linarith), pow_succ]
    have : (1 : ℚ) ≤ 2 ^ 999 := one_le_pow₀ (by norm_num)
    generalize (2 : ℚ) ^ 999 = K at *
    linarith
  obtain ⟨r1, r2⟩ := rounded_near r big
  have n := r2.2.1 Exp.huge hh fh
  rw [show value Exp.huge - (value Exp.huge + value x) = - value x by ring, abs_neg] at n
  have n := abs_le.1 (le_trans n h)
  have w : 2 ≤ value (add Exp.huge x) := by linarith
  have fr := r2.1
  clear r2 r big n v1 v0
  generalize add Exp.huge x = d at *
  have s0 : d < 2 ^ 63 := by
    by_contra c
    have a := value_self r1
    rw [show sign d = 1 by unfold sign; omega, pow_one] at a
    have : (0 : ℚ) ≤ (units (mag d) : ℚ) / 2 ^ 1074 := div_nonneg (Nat.cast_nonneg _) (pow_nonneg (by norm_num) _)
    generalize (units (mag d) : ℚ) / 2 ^ 1074 = K at *
    linarith only [a, this, w]
  have m : Libm.one < mag d := by
    by_contra c
    have := value_mono r1 (by decide) (Nat.le_of_not_lt c)
    rw [value_pos s0, v_one.2.2] at this
    linarith only [this, w]
  unfold lt
  rw [notNaN ((finite_iff d).1 fr), show isNaN Libm.one = false by decide, show key Libm.one = 0x3ff0000000000000 by decide]
  simp only [Bool.not_false, Bool.true_and, decide_eq_true_eq]
  unfold key neg
  rw [if_neg (by simp; omega)]
  unfold Libm.one at m
  exact_mod_cast m

theorem atan_odd (X : ℝ) {r : Nat} {e : ℝ} (h : Near r (Real.arctan X) e) : Near (negate r) (Real.arctan (-X)) e := by
  rw [Real.arctan_neg]; exact h.neg

theorem atan_near {x : Nat} (hx : x < 2 ^ 64) (fx : IsFinite x) : Near (atan x) (Real.arctan (value x)) (3 * |Real.arctan (value x)| / 2 ^ 53) := by
  have mi := (finite_iff x).1 fx
  have hinf : inf = 0x7ff00000 * 2 ^ 32 := rfl
  have sx := sign_lt x
  have ml := mag_lt x
  have vm : (value (mag x) : ℝ) = |(value x : ℝ)| := by
    have a := abs_value' (d := mag x) (by omega)
    rw [value_pos ml, mag_self ml, ← abs_value' hx] at a
    rw [a, Rat.cast_abs]
  have hn : Libm.neg32 (Libm.hi x) = decide (sign x = 1) := by
    unfold Libm.neg32 Libm.hi sign; apply decide_eq_decide.2; omega
  have below : ∀ c : Nat, c < 2 ^ 31 → mag x / 2 ^ 32 < c → ∀ q : ℚ, value (c * 2 ^ 32) = q → |(value x : ℝ)| ≤ q := by
    intro c hc h q hq
    have := value_mono (x := x) (c := c * 2 ^ 32) hx (by omega) (by omega)
    rw [hq] at this
    have := (Rat.cast_le (K := ℝ)).2 this; rwa [Rat.cast_abs] at this
  have above : ∀ c : Nat, c < 2 ^ 31 → c ≤ mag x / 2 ^ 32 → ∀ q : ℚ, value (c * 2 ^ 32) = q → (q : ℝ) ≤ |(value x : ℝ)| := by
    intro c hc h q hq
    have := value_mono' (x := x) (c := c * 2 ^ 32) hx (by omega) (by omega)
    rw [hq] at this
    have := (Rat.cast_le (K := ℝ)).2 this; rwa [Rat.cast_abs] at this
  -- the sign
  have signed : ∀ r : Nat, (0 < |(value x : ℝ)| → Near r (Real.arctan |(value x : ℝ)|) (3 * Real.arctan |(value x : ℝ)| / 2 ^ 53)) → 0 < |(value x : ℝ)| →
      Near (if Libm.neg32 (Libm.hi x) then negate r else r) (Real.arctan (value x)) (3 * |Real.arctan (value x)| / 2 ^ 53) := by
    intro r h h0
    have h := h h0
    have ap : |Real.arctan (value x)| = Real.arctan |(value x : ℝ)| := by
      have pos : 0 ≤ Real.arctan |(value x : ℝ)| := by rw [← Real.arctan_zero]; exact Real.arctan_mono h0.le
      rcases abs_cases (value x : ℝ) with ⟨e, _⟩ | ⟨e, _⟩
      · rw [e] at pos ⊢; exact abs_of_nonneg pos
      · rw [e, Real.arctan_neg] at pos ⊢; exact abs_of_nonpos (by linarith)
    rw [ap, hn]
    rcases (by omega : sign x = 0 ∨ sign x = 1) with s | s
    · rw [if_neg (by rw [s]; simp)]
      have vx : |(value x : ℝ)| = value x := by rw [← Rat.cast_abs, value_pos (by unfold sign at s; omega)]
      rw [vx] at h ⊢; exact h
    · rw [if_pos (by rw [s]; rfl)]
      have vx : (value x : ℝ) = - |(value x : ℝ)| := by
        have a := Exp.value_neg (x := x) (by unfold sign at s; omega) hx
        rw [← Rat.cast_abs, a]; push_cast; ring
      have := atan_odd _ h
      rw [← vx] at this; exact this
  have fin : ∀ t h l : Nat, finish (Libm.hi x) t h l = if Libm.neg32 (Libm.hi x) then negate (core t h l) else core t h l := fun _ _ _ => rfl
  unfold atan
  simp only []
  rw [hi31 hx, Libm.fabs_mag hx]
  by_cases c1 : 0x44100000 ≤ mag x / 2 ^ 32
  · -- beyond `2^66`
    rw [if_pos c1, if_neg (by omega)]
    have X := above _ (by decide) c1 (2 ^ 66) (by unfold value sign expo frac; norm_num)
    push_cast at X
    have e1 : (if (!Libm.neg32 (Libm.hi x) && decide (Libm.hi x ≠ 0)) = true then add hi3 lo3 else sub (negate hi3) lo3) =
        if Libm.neg32 (Libm.hi x) then negate hi3 else hi3 := by
      rw [show add hi3 lo3 = hi3 by decide +kernel, show sub (negate hi3) lo3 = negate hi3 by decide +kernel, hn]
      rcases (by omega : sign x = 0 ∨ sign x = 1) with s | s
      · have : Libm.hi x ≠ 0 := by unfold sign mag at *; unfold Libm.hi; omega
        simp [s, this]
      · simp [s]
    rw [e1]
    refine signed _ (fun X0 => ⟨by decide, by decide, ?_⟩) (lt_of_lt_of_le (by norm_num) X)
    have st := Real.arctan_inv_of_pos X0
    have i1 : (|(value x : ℝ)|)⁻¹ ≤ 1 / 2 ^ 66 := by rw [inv_eq_one_div]; exact one_div_le_one_div_of_le (by positivity) X
    have i0 : 0 < (|(value x : ℝ)|)⁻¹ := inv_pos.2 X0
    have i2 := abs_le.1 (arctan_abs (|(value x : ℝ)|)⁻¹)
    rw [abs_of_pos i0, st] at i2
    have c := abs_le.1 c3
    have up := Real.arctan_lt_pi_div_two |(value x : ℝ)|
    rw [v_hi3.2.2, abs_le]
    unfold hi3q lo3q at *; push_cast at c ⊢
    constructor <;> norm_num at * <;> linarith
  rw [if_neg c1]
  by_cases c2 : mag x / 2 ^ 32 < 0x3fdc0000
  · rw [if_pos c2]
    have X1 := below _ (by decide) c2 (7 / 16) (by unfold value sign expo frac; norm_num)
    push_cast at X1
    by_cases c3 : mag x / 2 ^ 32 < 0x3e200000
    · -- the argument itself
      have X := below _ (by decide) c3 (1 / 2 ^ 29) (by unfold value sign expo frac; norm_num)
      push_cast at X
      rw [if_pos ⟨c3, huge_test hx fx (by
        have : ((|value x| : ℚ) : ℝ) ≤ ((1 : ℚ) : ℝ) := by rw [Rat.cast_abs]; push_cast; linarith
        exact (Rat.cast_le (K := ℝ)).1 this)⟩]
      refine ⟨hx, fx, ?_⟩
      have se := arctan_series 1 X
      simp only [Finset.sum_range_one, pow_zero, one_mul, mul_zero, zero_add, pow_one, Nat.cast_one, div_one, mul_one] at se
      have lo := abs_sub_abs_le_abs_sub (value x : ℝ) (Real.arctan (value x))
      rw [abs_sub_comm (value x : ℝ)] at lo ⊢
      have n0 := abs_nonneg (value x : ℝ)
      generalize |(value x : ℝ)| = W at *
      generalize |Real.arctan (value x) - value x| = V at *
      norm_num at *; linarith
    · rw [if_neg (by tauto)]
      have X := above _ (by decide) (Nat.le_of_not_lt c3) (1 / 2 ^ 29) (by unfold value sign expo frac; norm_num)
      push_cast at X
      refine (near0 hx fx (le_trans (by norm_num) X) X1).weaken ?_
      have := abs_nonneg (Real.arctan (value x))
      norm_num; linarith
  rw [if_neg c2]
  have X0 := above _ (by decide) (Nat.le_of_not_lt c2) (7 / 16) (by unfold value sign expo frac; norm_num)
  push_cast at X0
  have X0' : 0 < |(value x : ℝ)| := lt_of_lt_of_le (by norm_num) X0
  have fm : IsFinite (mag x) := by rw [finite_iff, mag_self ml]; exact mi
  have ee : expo (mag x) = mag x / 2 ^ 52 := by unfold expo; omega
  by_cases c3 : mag x / 2 ^ 32 < 0x3ff30000
  · rw [if_pos c3]
    by_cases c4 : mag x / 2 ^ 32 < 0x3fe60000
    · rw [if_pos c4, fin]
      have X1 := below _ (by decide) c4 (11 / 16) (by unfold value sign expo frac; norm_num)
      push_cast at X1
      exact signed _ (fun _ => br0 ml (by omega) (by omega) vm X0 X1) X0'
    · rw [if_neg c4, fin]
      have X0 := above _ (by decide) (Nat.le_of_not_lt c4) (11 / 16) (by unfold value sign expo frac; norm_num)
      have X1 := below _ (by decide) c3 (19 / 16) (by unfold value sign expo frac; norm_num)
      push_cast at X0 X1
      exact signed _ (fun _ => br1 ml fm vm X0 X1) X0'
  · rw [if_neg c3]
    by_cases c4 : mag x / 2 ^ 32 < 0x40038000
    · rw [if_pos c4, fin]
      have X0 := above _ (by decide) (Nat.le_of_not_lt c3) (19 / 16) (by unfold value sign expo frac; norm_num)
      have X1 := below _ (by decide) c4 (39 / 16) (by unfold value sign expo frac; norm_num)
      push_cast at X0 X1
      exact signed _ (fun _ => br2 ml fm vm X0 X1) X0'
    · rw [if_neg c4, fin]
      have X0 := above _ (by decide) (Nat.le_of_not_lt c4) (39 / 16) (by unfold value sign expo frac; norm_num)
      push_cast at X0
      exact signed _ (fun _ => br3 ml fm vm X0) X0'

theorem atan_lt {x : Nat} (hx : x < 2 ^ 64) (fx : IsFinite x) : atan x < 2 ^ 64 := (atan_near hx fx).1

/-- **C132**: the arc tangent of every double is within three halves of the last bit: the relative error is at most `3 × 2^-53`. -/
theorem C132_atan {x : Nat} (hx : x < 2 ^ 64) (fx : IsFinite x) :
    IsFinite (atan x) ∧ |(value (atan x) : ℝ) - Real.arctan (value x)| ≤ 3 * |Real.arctan (value x)| / 2 ^ 53 := (atan_near hx fx).2

/-- **C132**: the arc tangent of a zero, and of any argument below `2^-29` in magnitude, is the argument itself; that of an infinite argument is the double
nearest to `π / 2` with the sign of the argument; that of what is not a number is not a number. -/
theorem C132_special {x : Nat} (hx : x < 2 ^ 64) :
    (IsFinite x → |value x| < 1 / 2 ^ 29 → atan x = x) ∧
    (IsInf x → IsFinite (atan x) ∧ sign (atan x) = sign x ∧ ∀ d, d < 2 ^ 64 → IsFinite d →
      |(|(value (atan x) : ℝ)|) - Real.pi / 2| ≤ |(value d : ℝ) - Real.pi / 2|) ∧
    (IsNaN x → IsNaN (atan x)) := by
  have sx := sign_lt x
  have ml := mag_lt x
  refine ⟨?_, ?_, ?_⟩
  · intro f v
    have c : mag x / 2 ^ 32 < 0x3e200000 := by
      by_contra c
      have := value_mono' (x := x) (c := 0x3e200000 * 2 ^ 32) hx (by decide) (by omega)
      rw [show value (0x3e200000 * 2 ^ 32) = 1 / 2 ^ 29 by unfold value sign expo frac; norm_num] at this
      linarith
    unfold atan
    simp only []
    rw [hi31 hx, if_neg (by omega), if_pos (by omega), if_pos ⟨c, huge_test hx f (le_trans v.le (by norm_num))⟩]
  · intro i
    have m : mag x = 0x7ff0000000000000 := by rw [mag_eq, i.1, i.2]; rfl
    have hn : Libm.neg32 (Libm.hi x) = decide (sign x = 1) := by
      unfold Libm.neg32 Libm.hi sign; apply decide_eq_decide.2; omega
    have lz : Libm.lo x = 0 := by unfold Libm.lo; unfold mag at m; omega
    have e : atan x = if sign x = 1 then negate hi3 else hi3 := by
      unfold atan
      simp only []
      rw [hi31 hx, m, if_pos (by decide), if_neg (by rw [lz]; decide)]
      rw [show add hi3 lo3 = hi3 by decide +kernel, show sub (negate hi3) lo3 = negate hi3 by decide +kernel, hn]
      rcases (by omega : sign x = 0 ∨ sign x = 1) with s | s
      · have : Libm.hi x ≠ 0 := by unfold sign mag at *; unfold Libm.hi; omega
        simp [s, this]
      · simp [s]
    have av : IsFinite (atan x) ∧ sign (atan x) = sign x ∧ |(value (atan x) : ℝ)| = hi3q := by
      rw [e]
      have h3 : |(hi3q : ℝ)| = hi3q := abs_of_pos (by unfold hi3q; norm_num)
      rcases (by omega : sign x = 0 ∨ sign x = 1) with s | s
      · rw [if_neg (by omega), s]
        exact ⟨by decide, by decide, by rw [v_hi3.2.2]; exact h3⟩
      · rw [if_pos s, s]
        exact ⟨by decide, by decide, by rw [value_negate v_hi3.1 v_hi3.2.1, abs_neg, v_hi3.2.2]; exact h3⟩
    refine ⟨av.1, av.2.1, ?_⟩
    intro d hd fd
    rw [av.2.2]
    have c := abs_le.1 pi_q
    have near : |(hi3q : ℝ) - Real.pi / 2| ≤ 7 / 10 ^ 17 := by
      unfold hi3q; push_cast; rw [abs_le]; constructor <;> norm_num at * <;> linarith
    rcases Nat.lt_trichotomy d hi3 with l | l | l
    · have m := value_mono (x := d) (c := hi3 - 1) hd (by decide) (by unfold mag; have : hi3 < 2 ^ 63 := by decide
                                                                      omega)
      rw [show value (hi3 - 1) = hi3q - 1 / 2 ^ 52 by unfold hi3 hi3q value sign expo frac; norm_num] at m
      have m := (Rat.cast_le (K := ℝ)).2 (le_trans (le_abs_self _) m)
      push_cast at m
      have := neg_abs_le ((value d : ℝ) - Real.pi / 2)
      have n := abs_le.1 near
      refine le_trans near ?_
      norm_num at *; linarith
    · rw [l, v_hi3.2.2]
    · rcases Nat.lt_or_ge d (2 ^ 63) with c' | c'
      · have m := value_mono' (x := d) (c := hi3 + 1) hd (by decide) (by rw [mag_self c']; omega)
        rw [value_pos c', show value (hi3 + 1) = hi3q + 1 / 2 ^ 52 by unfold hi3 hi3q value sign expo frac; norm_num] at m
        have m := (Rat.cast_le (K := ℝ)).2 m
        push_cast at m
        have := le_abs_self ((value d : ℝ) - Real.pi / 2)
        have n := abs_le.1 near
        refine le_trans near ?_
        norm_num at *; linarith
      · have m : value d ≤ 0 := by
          have := Exp.value_neg c' hd
          have := abs_nonneg (value d)
          linarith
        have m := (Rat.cast_le (K := ℝ)).2 m
        push_cast at m
        have := neg_abs_le ((value d : ℝ) - Real.pi / 2)
        refine le_trans near ?_
        generalize (value d : ℝ) = W at *
        norm_num at *; linarith
  · intro n
    have c : 0x7ff00000 < mag x / 2 ^ 32 ∨ (mag x / 2 ^ 32 = 0x7ff00000 ∧ Libm.lo x ≠ 0) := by
      have m := mag_eq x
      obtain ⟨a, b⟩ := n
      rw [a] at m
      have : Libm.lo x = mag x % 2 ^ 32 := by unfold Libm.lo mag; omega
      omega
    unfold atan
    simp only []
    rw [hi31 hx, if_pos (by omega), if_pos c]
    unfold add; rw [if_pos ((Libm.isNaN_eq x).2 n)]; exact Libm.quiet_nan n

/-! ## The hypotheses are met -/

/-- The arc tangents of 1, 1/2, 1/4, 0.6, 2, 100, of minus two, of the least positive double, of infinity and of what is not a number: one for each case. -/
example : atan 0x3ff0000000000000 = 0x3fe921fb54442d18 ∧ atan 0x3fe0000000000000 = 0x3fddac670561bb4f ∧ atan 0x3fd0000000000000 = 0x3fcf5b75f92c80dd ∧
    atan 0x3fe3333333333333 = 0x3fe14b1dd5f90ce1 ∧ atan 0x4000000000000000 = 0x3ff1b6e192ebbe44 ∧ atan 0x4059000000000000 = 0x3ff8f905eb2def22 ∧
    atan 0xc000000000000000 = 0xbff1b6e192ebbe44 ∧ atan 1 = 1 ∧ atan 0x7ff0000000000000 = 0x3ff921fb54442d18 ∧ atan 0x7ff8000000000000 = 0x7ff8000000000000 := by
  decide +kernel

/-- Minus two is an argument of the first theorem; `2^-30`, minus infinity and what is not a number are arguments of the second. -/
example : IsFinite 0xc000000000000000 ∧ value 0xc000000000000000 = -2 ∧ IsFinite 0x3e10000000000000 ∧ |value 0x3e10000000000000| < 1 / 2 ^ 29 ∧ IsInf 0xfff0000000000000 ∧ IsNaN 0x7ff8000000000000 := by
  refine ⟨by decide, ?_, by decide, ?_, by decide, by decide⟩ <;> unfold value sign expo frac <;> norm_num

end Pok.Atan
