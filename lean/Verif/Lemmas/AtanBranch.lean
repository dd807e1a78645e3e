import Verif.Lemmas.AtanFinish
/-!
# The arc tangent: the intervals
-/
namespace Pok.Atan
open Pok.Err Pok.Float Pok.Fpu Pok.Poly Pok.Trig

theorem v_one : Libm.one < 2 ^ 64 ∧ IsFinite Libm.one ∧ value Libm.one = (1 : ℚ) := by
  refine ⟨by decide, by decide, ?_⟩
  unfold Libm.one value sign expo frac; norm_num
theorem v_two : Exp.two < 2 ^ 64 ∧ IsFinite Exp.two ∧ value Exp.two = (2 : ℚ) := by
  refine ⟨by decide, by decide, ?_⟩
  unfold Exp.two value sign expo frac; norm_num
theorem e_one : Near Libm.one 1 0 := ⟨v_one.1, v_one.2.1, by rw [v_one.2.2]; simp⟩
theorem e_two : Near Exp.two 2 0 := ⟨v_two.1, v_two.2.1, by rw [v_two.2.2]; simp⟩
theorem e_3h : Near three_halves (3 / 2) 0 := ⟨v_three_halves.1, v_three_halves.2.1, by rw [v_three_halves.2.2]; unfold three_halvesq; norm_num⟩
theorem e_m1 : Near minus_one (-1) 0 := ⟨v_minus_one.1, v_minus_one.2.1, by rw [v_minus_one.2.2]; unfold minus_oneq; norm_num⟩

/-- Twice a double. -/
theorem twice {y : Nat} (hy : y < 2 ^ 63) (h1 : 1 ≤ expo y) (h2 : expo y ≤ 1100) (hX : |(value y : ℝ)| ≤ 2 ^ 100) :
    Near (mul Exp.two y) (2 * value y) 0 := by
  have fy : IsFinite y := by unfold IsFinite; omega
  have s0 : sign y = 0 := by unfold sign; omega
  have e' : expo (y + 2 ^ 52) = expo y + 1 := by unfold expo at *; omega
  have f' : frac (y + 2 ^ 52) = frac y := by unfold frac at *; omega
  have s' : sign (y + 2 ^ 52) = 0 := by unfold sign expo at *; omega
  have v' : value (y + 2 ^ 52) = value Exp.two * value y := by
    rw [v_two.2.2]
    unfold value
    rw [s', s0, e', f', if_neg (by omega), if_neg (by omega)]
    push_cast
    rw [show (expo y : ℤ) + 1 - 1023 = ((expo y : ℤ) - 1023) + 1 by ring, zpow_add_one₀ (by norm_num)]
    ring
  obtain ⟨a, b, c⟩ := mul_exact v_two.1 (show y < 2 ^ 64 by omega) v_two.2.1 fy (by
    rw [v_two.2.2, abs_mul]; push_cast
    rw [abs_two]
    have : (2 : ℝ) * 2 ^ 100 ≤ 2 ^ 200 := by norm_num
    linarith) (show y + 2 ^ 52 < 2 ^ 64 by omega) (by unfold IsFinite; rw [e']; omega) v'
  refine ⟨a, b, ?_⟩
  rw [c, v_two.2.2]; push_cast; simp

theorem atan_le (x : ℝ) : Real.arctan x ≤ 2 := by
  have := Real.arctan_lt_pi_div_two x
  have := (abs_le.1 pi_q).1
  norm_num at this; linarith

/-- Without the sign. -/
def core (t h l : Nat) : Nat := sub h (sub (sub (mul t (tail t)) l) t)

theorem br0 {y : Nat} (hy : y < 2 ^ 63) (h1 : 1 ≤ expo y) (h2 : expo y ≤ 1100) {X : ℝ} (hX : (value y : ℝ) = X) (x0 : 7 / 16 ≤ X) (x1 : X ≤ 11 / 16) :
    Near (core (div (sub (mul Exp.two y) Libm.one) (add Exp.two y)) hi0 lo0) (Real.arctan X) (3 * Real.arctan X / 2 ^ 53) := by
  have fy : IsFinite y := by unfold IsFinite; omega
  have ny : Near y X 0 := by rw [← hX]; exact Near.self (by omega) fy
  have tw := twice hy h1 h2 (by rw [hX, abs_le]; constructor <;> norm_num <;> linarith)
  rw [hX] at tw
  have num := tw.sub e_one (m := 3 / 8) (g := 41634 / 10 ^ 21) (by rw [abs_le]; constructor <;> linarith) (by norm_num) (by norm_num)
  have den := e_two.add ny (m := 43 / 16) (g := 29838 / 10 ^ 20) (by rw [abs_le]; constructor <;> linarith) (by norm_num) (by norm_num)
  have p : 0 < 2 + X := by linarith
  have T1 : (2 * X - 1) / (2 + X) ≤ 1396 / 10 ^ 4 := by rw [div_le_iff₀ p]; linarith
  have T0 : -(513 / 10 ^ 4) ≤ (2 * X - 1) / (2 + X) := by rw [le_div_iff₀ p]; linarith
  have q := num.div den (l := 39 / 16) (q := 1396 / 10 ^ 4) (d := 342 / 10 ^ 19) (g := 498 / 10 ^ 19) (by rw [abs_of_pos p]; linarith) (by norm_num)
    (by rw [abs_le]; constructor <;> linarith) (by norm_num) (by norm_num) (by norm_num)
  have st := step (c := 1 / 2) (x := X) (by norm_num) (by linarith)
  rw [show (X - 1 / 2) / (1 + 1 / 2 * X) = (2 * X - 1) / (2 + X) by rw [div_eq_div_iff (by linarith) (by linarith)]; ring] at st
  have A0 : 4123 / 10 ^ 4 ≤ Real.arctan X := by
    have g := arctan_ge (by norm_num) T0
    have c := (abs_le.1 c0).2
    rw [← st]
    unfold hi0q lo0q at c; push_cast at c
    norm_num at *; linarith
  have := finish_near (C := Real.arctan (1 / 2)) (A := Real.arctan X) (M := 1397 / 10 ^ 4) (h := hi0) (l := lo0) q.1 q.2.1 (le_trans (q.abs_le (m := 1396 / 10 ^ 4) (by rw [abs_le]; constructor <;> linarith)) (by norm_num)) (by norm_num) q.2.2 (by norm_num)
    (n_hi0.weaken le_rfl (by norm_num)) (n_lo0.weaken le_rfl (by norm_num)) c0 st (by linarith) (atan_le X)
  exact this.weaken (by norm_num at *; linarith)

theorem br1 {y : Nat} (hy : y < 2 ^ 63) (fy : IsFinite y) {X : ℝ} (hX : (value y : ℝ) = X) (x0 : 11 / 16 ≤ X) (x1 : X ≤ 19 / 16) :
    Near (core (div (sub y Libm.one) (add y Libm.one)) hi1 lo1) (Real.arctan X) (3 * Real.arctan X / 2 ^ 53) := by
  have ny : Near y X 0 := by rw [← hX]; exact Near.self (by omega) fy
  have num := ny.sub e_one (m := 5 / 16) (g := 34695 / 10 ^ 21) (by rw [abs_le]; constructor <;> linarith) (by norm_num) (by norm_num)
  have den := ny.add e_one (m := 35 / 16) (g := 24288 / 10 ^ 20) (by rw [abs_le]; constructor <;> linarith) (by norm_num) (by norm_num)
  have p : 0 < X + 1 := by linarith
  have T1 : (X - 1) / (X + 1) ≤ 1852 / 10 ^ 4 := by rw [div_le_iff₀ p]; linarith
  have T0 : -(1852 / 10 ^ 4) ≤ (X - 1) / (X + 1) := by rw [le_div_iff₀ p]; linarith
  have q := num.div den (l := 27 / 16) (q := 1852 / 10 ^ 4) (d := 473 / 10 ^ 19) (g := 680 / 10 ^ 19) (by rw [abs_of_pos p]; linarith) (by norm_num)
    (by rw [abs_le]; constructor <;> linarith) (by norm_num) (by norm_num) (by norm_num)
  have st := step (c := 1) (x := X) (by norm_num) (by linarith)
  rw [show (X - 1) / (1 + 1 * X) = (X - 1) / (X + 1) by rw [one_mul, add_comm]] at st
  have A0 : 6 / 10 ≤ Real.arctan X := by
    have g := arctan_ge (by norm_num) T0
    have c := (abs_le.1 c1).2
    rw [← st]
    unfold hi1q lo1q at c; push_cast at c
    generalize Real.arctan 1 = W at *
    norm_num at c g ⊢; linarith
  have := finish_near (C := Real.arctan 1) (A := Real.arctan X) (M := 1853 / 10 ^ 4) (h := hi1) (l := lo1) q.1 q.2.1 (le_trans (q.abs_le (m := 1852 / 10 ^ 4) (by rw [abs_le]; constructor <;> linarith)) (by norm_num)) (by norm_num) q.2.2 (by norm_num)
    (n_hi1.weaken le_rfl (by norm_num)) (n_lo1.weaken le_rfl (by norm_num)) c1 st (by linarith) (atan_le X)
  exact this.weaken (by norm_num at *; linarith)

theorem br2 {y : Nat} (hy : y < 2 ^ 63) (fy : IsFinite y) {X : ℝ} (hX : (value y : ℝ) = X) (x0 : 19 / 16 ≤ X) (x1 : X ≤ 39 / 16) :
    Near (core (div (sub y three_halves) (add Libm.one (mul three_halves y))) hi2 lo2) (Real.arctan X) (3 * Real.arctan X / 2 ^ 53) := by
  have ny : Near y X 0 := by rw [← hX]; exact Near.self (by omega) fy
  have num := ny.sub e_3h (m := 15 / 16) (g := 10409 / 10 ^ 20) (by rw [abs_le]; constructor <;> linarith) (by norm_num) (by norm_num)
  have prd := e_3h.mul ny (m := 3 / 2) (n := 39 / 16) (g := 40594 / 10 ^ 20) (by rw [abs_of_pos (by norm_num)]) (by rw [abs_le]; constructor <;> linarith) (by norm_num) (by norm_num)
  have den := e_one.add prd (m := 149 / 32) (g := 92289 / 10 ^ 20) (by rw [abs_le]; constructor <;> linarith) (by norm_num) (by norm_num)
  have p : 0 < 1 + 3 / 2 * X := by linarith
  have T1 : (X - 3 / 2) / (1 + 3 / 2 * X) ≤ 2014 / 10 ^ 4 := by rw [div_le_iff₀ p]; linarith
  have T0 : -(1124 / 10 ^ 4) ≤ (X - 3 / 2) / (1 + 3 / 2 * X) := by rw [le_div_iff₀ p]; linarith
  have q := num.div den (l := 89 / 32) (q := 2014 / 10 ^ 4) (d := 1043 / 10 ^ 19) (g := 1268 / 10 ^ 19) (by rw [abs_of_pos p]; linarith) (by norm_num)
    (by rw [abs_le]; constructor <;> linarith) (by norm_num) (by norm_num) (by norm_num)
  have st := step (c := 3 / 2) (x := X) (by norm_num) (by linarith)
  have A0 : 87 / 100 ≤ Real.arctan X := by
    have g := arctan_ge (by norm_num) T0
    have c := (abs_le.1 c2).2
    rw [← st]
    unfold hi2q lo2q at c; push_cast at c
    norm_num at *; linarith
  have := finish_near (C := Real.arctan (3 / 2)) (A := Real.arctan X) (M := 2015 / 10 ^ 4) (h := hi2) (l := lo2) q.1 q.2.1 (le_trans (q.abs_le (m := 2014 / 10 ^ 4) (by rw [abs_le]; constructor <;> linarith)) (by norm_num)) (by norm_num) q.2.2 (by norm_num)
    (n_hi2.weaken le_rfl (by norm_num)) (n_lo2.weaken le_rfl (by norm_num)) c2 st (by linarith) (atan_le X)
  exact this.weaken (by norm_num at *; linarith)

theorem br3 {y : Nat} (hy : y < 2 ^ 63) (fy : IsFinite y) {X : ℝ} (hX : (value y : ℝ) = X) (x0 : 39 / 16 ≤ X) :
    Near (core (div minus_one y) hi3 lo3) (Real.arctan X) (3 * Real.arctan X / 2 ^ 53) := by
  have ny : Near y X 0 := by rw [← hX]; exact Near.self (by omega) fy
  have p : 0 < X := by linarith
  have T1 : -1 / X ≤ 0 := by rw [neg_div]; have := div_pos one_pos p; linarith
  have T0 : -(4103 / 10 ^ 4) ≤ -1 / X := by rw [le_div_iff₀ p]; linarith
  have q := e_m1.div ny (l := 39 / 16) (q := 4103 / 10 ^ 4) (d := 0) (g := 456 / 10 ^ 19) (by rw [abs_of_pos p]; linarith) (by norm_num)
    (by rw [abs_le]; constructor <;> linarith) (by norm_num) (by norm_num) (by norm_num)
  have st : Real.pi / 2 + Real.arctan (-1 / X) = Real.arctan X := by
    have := Real.arctan_inv_of_pos p
    rw [neg_div, Real.arctan_neg, one_div, this]; ring
  have A0 : 116 / 100 ≤ Real.arctan X := by
    have g := arctan_ge (by norm_num) T0
    have c := (abs_le.1 c3).2
    rw [← st]
    unfold hi3q lo3q at c; push_cast at c
    norm_num at *; linarith
  have := finish_near (C := Real.pi / 2) (A := Real.arctan X) (M := 4104 / 10 ^ 4) (h := hi3) (l := lo3) q.1 q.2.1 (le_trans (q.abs_le (m := 4103 / 10 ^ 4) (by rw [abs_le]; constructor <;> linarith)) (by norm_num)) (by norm_num) q.2.2 (by norm_num)
    (n_hi3.weaken le_rfl (by norm_num)) (n_lo3.weaken le_rfl (by norm_num)) c3 st (by linarith) (atan_le X)
  exact this.weaken (by norm_num at *; linarith)

/-- No breakpoint. -/
theorem near0 {x : Nat} (hx : x < 2 ^ 64) (fx : IsFinite x) (x0 : 1 / 2 ^ 30 ≤ |(value x : ℝ)|) (x1 : |(value x : ℝ)| ≤ 7 / 16) :
    Near (sub x (mul x (tail x))) (Real.arctan (value x)) (2 * |Real.arctan (value x)| / 2 ^ 53) := by
  have pr := prod_near (M := |(value x : ℝ)|) hx fx le_rfl (by linarith)
  have pn := pol_near (show |(value x : ℝ)| ≤ 4376 / 10000 by linarith)
  have se := series (show |(value x : ℝ)| ≤ 4376 / 10000 by linarith)
  obtain ⟨A, hA⟩ : ∃ A, A = |(value x : ℝ)| := ⟨_, rfl⟩
  rw [← hA] at pr pn x0 x1
  obtain ⟨P, hP⟩ : ∃ P, P = (value x : ℝ) * pol ((value x : ℝ) * value x) := ⟨_, rfl⟩
  rw [← hP] at pr pn
  have low : A * (927 / 1000) ≤ |Real.arctan (value x)| := by
    have := abs_sub_abs_le_abs_sub (value x : ℝ) (Real.arctan (value x))
    have b : |(value x : ℝ) - Real.arctan (value x)| ≤ A * (725 / 10 ^ 4) := by
      have a := abs_le.1 pn
      have c := abs_le.1 pr.2
      rw [abs_le]; constructor <;> norm_num at * <;> linarith
    rw [← hA] at this
    linarith
  have d := abs_sub_comm (Real.arctan (value x)) ((value x : ℝ) - P) ▸ pn
  have h := (Near.self hx fx).sub pr.1 (m := |Real.arctan (value x)| + A * (13 / 10 ^ 18)) (g := |Real.arctan (value x)| / 2 ^ 53 + A * (4254 / 10 ^ 20) + 1 / 10 ^ 49) (by
    have := abs_add_le ((value x : ℝ) - P - Real.arctan (value x)) (Real.arctan (value x))
    rw [sub_add_cancel] at this
    linarith) (by norm_num at *; linarith) (by
      have := arctan_abs (value x : ℝ)
      rw [← hA] at this
      norm_num at *; linarith)
  refine (h.move d).weaken ?_
  norm_num at *; linarith

end Pok.Atan
