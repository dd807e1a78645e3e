import Verif.Lemmas.ExpTail
import Verif.Model.Cosh
/-!
# The exponential minus one on the primary range
-/
namespace Pok.Cosh
open Pok.Err Pok.Float Pok.Fpu Pok.Poly

/-! The constants. -/
def Q1q : ℚ := -1200959900632125 / 2 ^ 55
theorem v_Q1 : Q1 < 2 ^ 64 ∧ IsFinite Q1 ∧ value Q1 = Q1q := by
  refine ⟨by decide, by decide, ?_⟩
  unfold Q1 Q1q value sign expo frac; norm_num
theorem n_Q1 : Nb Q1 (Q1q : ℝ) 0 (333333333334 / 10 ^ 13) := Nb.const v_Q1 (by unfold Q1q; rw [abs_le]; constructor <;> norm_num)
def Q2q : ℚ := 7320136536970629 / 2 ^ 62
theorem v_Q2 : Q2 < 2 ^ 64 ∧ IsFinite Q2 ∧ value Q2 = Q2q := by
  refine ⟨by decide, by decide, ?_⟩
  unfold Q2 Q2q value sign expo frac; norm_num
theorem n_Q2 : Nb Q2 (Q2q : ℝ) 0 (158730158726 / 10 ^ 14) := Nb.const v_Q2 (by unfold Q2q; rw [abs_le]; constructor <;> norm_num)
def Q3q : ℚ := -5856108965714871 / 2 ^ 66
theorem v_Q3 : Q3 < 2 ^ 64 ∧ IsFinite Q3 ∧ value Q3 = Q3q := by
  refine ⟨by decide, by decide, ?_⟩
  unfold Q3 Q3q value sign expo frac; norm_num
theorem n_Q3 : Nb Q3 (Q3q : ℝ) 0 (793650757868 / 10 ^ 16) := Nb.const v_Q3 (by unfold Q3q; rw [abs_le]; constructor <;> norm_num)
def Q4q : ℚ := 4732068380955193 / 2 ^ 70
theorem v_Q4 : Q4 < 2 ^ 64 ∧ IsFinite Q4 ∧ value Q4 = Q4q := by
  refine ⟨by decide, by decide, ?_⟩
  unfold Q4 Q4q value sign expo frac; norm_num
theorem n_Q4 : Nb Q4 (Q4q : ℝ) 0 (400821782733 / 10 ^ 17) := Nb.const v_Q4 (by unfold Q4q; rw [abs_le]; constructor <;> norm_num)
def Q5q : ℚ := -7597313661453101 / 2 ^ 75
theorem v_Q5 : Q5 < 2 ^ 64 ∧ IsFinite Q5 ∧ value Q5 = Q5q := by
  refine ⟨by decide, by decide, ?_⟩
  unfold Q5 Q5q value sign expo frac; norm_num
theorem n_Q5 : Nb Q5 (Q5q : ℝ) 0 (201099218184 / 10 ^ 18) := Nb.const v_Q5 (by unfold Q5q; rw [abs_le]; constructor <;> norm_num)
theorem n_one : Nb Libm.one 1 0 1 := ⟨Exp.near_one, by norm_num⟩
theorem n_three : Nb three 3 0 3 := ⟨⟨by decide, by decide, by
  rw [show value three = 3 by unfold three value sign expo frac; norm_num]; norm_num⟩, by norm_num⟩
theorem n_six : Nb six 6 0 6 := ⟨⟨by decide, by decide, by
  rw [show value six = 6 by unfold six value sign expo frac; norm_num]; norm_num⟩, by norm_num⟩

/-! What the variables of the code stand for. -/
noncomputable def Hx (X : ℝ) : ℝ := X * (1 / 2 * X)
noncomputable def Sx (X : ℝ) : ℝ := Hx X * (Q1q + Hx X * (Q2q + Hx X * (Q3q + Hx X * (Q4q + Hx X * Q5q))))
noncomputable def Rx (X : ℝ) : ℝ := 1 + Sx X
noncomputable def Tx (X : ℝ) : ℝ := 3 - Rx X * (1 / 2 * X)
noncomputable def Dx (X : ℝ) : ℝ := 6 - X * Tx X
noncomputable def Ex (X : ℝ) : ℝ := Hx X * ((Rx X - Tx X) / Dx X)

/-- The same as polynomials. -/
def rP : List ℚ := [1, 0, Q1q / 2, 0, Q2q / 4, 0, Q3q / 8, 0, Q4q / 16, 0, Q5q / 32]
def tP : List ℚ := plus [3] (times [0, -1 / 2] rP)
def dP : List ℚ := plus [6] (times [0, -1] tP)
/-- What remains of the equation of the rational function. -/
def errP : List ℚ :=
  plus (times [0, 1, 1 / 2] dP) (plus (times [0, 0, 0, -1 / 2] (plus rP (times [-1] tP))) (times [-1] (times dP (plus expT [-1]))))

theorem rP_eq (X : ℝ) : ev rP X = Rx X := by
  simp only [rP, ev, Rx, Sx, Hx]; push_cast; ring
theorem tP_eq (X : ℝ) : ev tP X = Tx X := by
  unfold tP; rw [ev_plus, ev_times, rP_eq]; simp only [ev, Tx]; push_cast; ring
theorem dP_eq (X : ℝ) : ev dP X = Dx X := by
  unfold dP; rw [ev_plus, ev_times, tP_eq]; simp only [ev, Dx]; push_cast; ring

theorem errP_ok : ok errP (-34659 / 100000) (34659 / 6400000) (1 / 10 ^ 18) 64 = true := by decide +kernel

/-- The rational function against the exponential function. -/
theorem rat_expm1 {X : ℝ} (hX : |X| ≤ 34658 / 100000) (h1 : 489 / 100 ≤ Dx X) (h3 : Dx X ≤ 72 / 10) :
    |X - (X * Ex X - Hx X) - (Real.exp X - 1)| ≤ 1 / (4 * 10 ^ 18) := by
  have hX' := abs_le.1 hX
  have b := ev_ok (t := X) (by norm_num) errP_ok (by push_cast; linarith) (by push_cast; linarith)
  have p := exp_poly (x := X) (by linarith)
  have e0 : |X| ^ 18 / 2 ^ 52 ≤ 2 / 10 ^ 24 := by
    have := pow_le_pow_left₀ (abs_nonneg _) hX 18
    rw [div_le_iff₀ (by positivity)]
    refine le_trans this ?_
    norm_num
  have p := le_trans p e0
  have e : ev errP X = (X + X * X / 2) * Dx X - X * X * X / 2 * (Rx X - Tx X) - Dx X * (ev expT X - 1) := by
    unfold errP
    rw [ev_plus, ev_plus, ev_times, ev_times, ev_times, ev_times, ev_plus, ev_times, ev_plus, rP_eq, tP_eq, dP_eq]
    simp only [ev]; push_cast; ring
  rw [e] at b
  unfold Ex Hx
  generalize Dx X = D at *
  generalize Rx X = R at *
  generalize Tx X = T at *
  have w0 : 0 < D := by linarith
  have key : X - (X * (X * (1 / 2 * X) * ((R - T) / D)) - X * (1 / 2 * X)) - (Real.exp X - 1) =
      (((X + X * X / 2) * D - X * X * X / 2 * (R - T) - D * (ev expT X - 1)) - D * (Real.exp X - ev expT X)) / D := by
    field_simp; ring
  rw [key, abs_div, abs_of_pos w0, div_le_iff₀ w0]
  refine le_trans (abs_sub _ _) ?_
  rw [abs_mul, abs_of_pos w0]
  have m := mul_le_mul h3 p (abs_nonneg _) (by norm_num)
  push_cast at b
  norm_num at *
  linarith

/-- The steps of the code up to the quotient. -/
theorem steps {x : Nat} {X : ℝ} (hx : Nb x X 0 (34658 / 10 ^ 5)) :
    Nb (square x) (Hx X) (6668 / 10 ^ 21) (6006 / 10 ^ 5) ∧ 489 / 100 ≤ Dx X ∧ Dx X ≤ 72 / 10 ∧
    ∃ q, quotient x = mul (square x) q ∧ Nb q ((Rx X - Tx X) / Dx X) (3004 / 10 ^ 19) (45 / 100) := by
  have hf : Nb (mul half x) (1 / 2 * X) (1 / 2 ^ 199) (34658 / 10 ^ 5 / 2) := (Nb.half hx (by norm_num)).weaken (by norm_num) le_rfl
  have hs := Nb.mul (6668 / 10 ^ 21) (6006 / 10 ^ 5) hx hf (by norm_num) (by norm_num) (by norm_num)
  have h2 := Nb.mul (2682 / 10 ^ 27) (1208 / 10 ^ 11) hs n_Q5 (by norm_num) (by norm_num) (by norm_num)
  have h3 := Nb.add (4491 / 10 ^ 25) (4021 / 10 ^ 9) n_Q4 h2 (by norm_num) (by norm_num) (by norm_num)
  have h4 := Nb.mul (8060 / 10 ^ 26) (2416 / 10 ^ 10) hs h3 (by norm_num) (by norm_num) (by norm_num)
  have h5 := Nb.add (8919 / 10 ^ 24) (7961 / 10 ^ 8) n_Q3 h4 (by norm_num) (by norm_num) (by norm_num)
  have h6 := Nb.mul (1598 / 10 ^ 24) (4782 / 10 ^ 9) hs h5 (by norm_num) (by norm_num) (by norm_num)
  have h7 := Nb.add (1784 / 10 ^ 22) (1593 / 10 ^ 6) n_Q2 h6 (by norm_num) (by norm_num) (by norm_num)
  have h8 := Nb.mul (3196 / 10 ^ 23) (9568 / 10 ^ 8) hs h7 (by norm_num) (by norm_num) (by norm_num)
  have h9 := Nb.add (3744 / 10 ^ 21) (3343 / 10 ^ 5) n_Q1 h8 (by norm_num) (by norm_num) (by norm_num)
  have h10 := Nb.mul (6707 / 10 ^ 22) (2008 / 10 ^ 6) hs h9 (by norm_num) (by norm_num) (by norm_num)
  have hr := Nb.add (1120 / 10 ^ 19) (1003 / 10 ^ 3) n_one h10 (by norm_num) (by norm_num) (by norm_num)
  have hm := Nb.mul (3871 / 10 ^ 20) (1739 / 10 ^ 4) hr hf (by norm_num) (by norm_num) (by norm_num)
  have rx : 1 + X * (1 / 2 * X) * ((Q1q : ℝ) + X * (1 / 2 * X) * (Q2q + X * (1 / 2 * X) * (Q3q + X * (1 / 2 * X) * (Q4q + X * (1 / 2 * X) * Q5q)))) = Rx X := rfl
  have s := abs_le.1 h10.2
  have f := abs_le.1 hf.2
  have m := abs_le.1 hm.2
  rw [rx] at hr hm m
  have r0 : Rx X = 1 + X * (1 / 2 * X) * ((Q1q : ℝ) + X * (1 / 2 * X) * (Q2q + X * (1 / 2 * X) * (Q3q + X * (1 / 2 * X) * (Q4q + X * (1 / 2 * X) * Q5q)))) := rfl
  generalize X * (1 / 2 * X) * ((Q1q : ℝ) + X * (1 / 2 * X) * (Q2q + X * (1 / 2 * X) * (Q3q + X * (1 / 2 * X) * (Q4q + X * (1 / 2 * X) * Q5q)))) = S at s r0
  have bt : |3 - Rx X * (1 / 2 * X)| ≤ (3180 / 10 ^ 3) := by rw [abs_le]; constructor <;> norm_num at * <;> linarith
  have ht := Nb.sub' (3918 / 10 ^ 19) (3180 / 10 ^ 3) n_three hm bt (by norm_num) (by norm_num)
  rw [show 3 - Rx X * (1 / 2 * X) = Tx X from rfl] at ht
  have bn : |Rx X - Tx X| ≤ (2200 / 10 ^ 3) := by
    rw [abs_le]; unfold Tx; constructor <;> norm_num at * <;> linarith
  have hn := Nb.sub' (7481 / 10 ^ 19) (2200 / 10 ^ 3) hr ht bn (by norm_num) (by norm_num)
  have hmt := Nb.mul (2582 / 10 ^ 19) (1103 / 10 ^ 3) hx ht (by norm_num) (by norm_num) (by norm_num)
  have mt := abs_le.1 hmt.2
  have bd : |6 - X * Tx X| ≤ (7200 / 10 ^ 3) := by rw [abs_le]; constructor <;> norm_num at * <;> linarith
  have hd := Nb.sub' (1058 / 10 ^ 18) (7200 / 10 ^ 3) n_six hmt bd (by norm_num) (by norm_num)
  rw [show 6 - X * Tx X = Dx X from rfl] at hd
  have d0 : 489 / 100 ≤ Dx X := by unfold Dx; norm_num at *; linarith
  have d1 : Dx X ≤ 72 / 10 := by have := (abs_le.1 hd.2).2; norm_num at *; linarith
  have dp : 0 < Dx X := by linarith
  have qb : |(Rx X - Tx X) / Dx X| ≤ 45 / 100 := by
    rw [abs_div, abs_of_pos dp, div_le_iff₀ dp]
    have := hn.2
    norm_num at *; linarith
  refine ⟨hs, d0, d1, _, rfl, ⟨?_, qb⟩⟩
  exact hn.1.div hd.1 (l := 489 / 100) (q := 45 / 100) (d := (2504 / 10 ^ 19)) (by rw [abs_of_pos dp]; exact d0) (by norm_num) qb (by norm_num) (by norm_num) (by norm_num)

/-- `expm1` on the primary range, with an absolute error. -/
theorem primary_near {x : Nat} (hx : x < 2 ^ 64) (fx : IsFinite x) (b : |(value x : ℝ)| ≤ 34658 / 10 ^ 5) :
    Near (sub x (sub (mul x (quotient x)) (square x))) (Real.exp (value x) - 1) (71 / 10 ^ 18) := by
  obtain ⟨X, hX⟩ : ∃ X : ℝ, X = value x := ⟨_, rfl⟩
  have hx : Nb x X 0 (34658 / 10 ^ 5) := ⟨by rw [hX]; exact Near.self hx fx, by rw [hX]; exact b⟩
  obtain ⟨hs, d0, d1, q, eq, hq⟩ := steps hx
  have rat := rat_expm1 (by have := hx.2; norm_num at *; exact this) d0 d1
  rw [eq]
  have he := Nb.mul (2405 / 10 ^ 20) (2703 / 10 ^ 5) hs hq (by norm_num) (by norm_num) (by norm_num)
  have hxe := Nb.mul (9376 / 10 ^ 21) (9369 / 10 ^ 6) hx he (by norm_num) (by norm_num) (by norm_num)
  have hdd := Nb.sub (2376 / 10 ^ 20) (6943 / 10 ^ 5) hxe hs (by norm_num) (by norm_num) (by norm_num)
  rw [show Hx X * ((Rx X - Tx X) / Dx X) = Ex X from rfl] at hdd
  have ex := Exp.exp_c
  have X1 := abs_le.1 hx.2
  have e1 : Real.exp X ≤ 14143 / 10000 := le_trans (Real.exp_le_exp.2 (by norm_num at *; linarith)) ex
  have e2 := Real.add_one_le_exp X
  have r2 := abs_le.1 rat
  have bres : |X - (X * Ex X - Hx X)| ≤ (4144 / 10 ^ 4) := by rw [abs_le]; constructor <;> norm_num at * <;> linarith
  have hres := Nb.sub' (6990 / 10 ^ 20) (4144 / 10 ^ 4) hx hdd bres (by norm_num) (by norm_num)
  rw [← hX]
  exact (hres.1.move rat).weaken (by norm_num)

end Pok.Cosh
