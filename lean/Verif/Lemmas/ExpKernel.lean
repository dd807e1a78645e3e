import Verif.Lemmas.ErrDiv
import Verif.Lemmas.Ln2
import Verif.Lemmas.CosKernel
import Verif.Model.Exp
/-!
# The exponential function on the primary range
-/
namespace Pok.Poly

/-- Product of polynomials. -/
def times : List ℚ → List ℚ → List ℚ
  | [], _ => []
  | a :: l, m => plus (m.map (a * ·)) (0 :: times l m)

theorem ev_times (l m : List ℚ) (t : ℝ) : ev (times l m) t = ev l t * ev m t := by
  induction l with
  | nil => simp [times, ev]
  | cons a l ih => simp only [times, ev_plus, ev_scale, ev, ih]; push_cast; ring

end Pok.Poly

namespace Pok.Exp
open Pok.Err Pok.Float Pok.Fpu Pok.Poly

/-! The constants. -/
def P1q : ℚ := 3002399751580319 / 2 ^ 54
theorem v_P1 : P1 < 2 ^ 64 ∧ IsFinite P1 ∧ value P1 = P1q := by
  refine ⟨by decide, by decide, ?_⟩
  unfold P1 P1q value sign expo frac; norm_num
theorem n_P1 : Nb P1 (P1q : ℝ) 0 (166666666667 / 10 ^ 12) := Nb.const v_P1 (by unfold P1q; rw [abs_le]; constructor <;> norm_num)
def P2q : ℚ := -6405119469862291 / 2 ^ 61
theorem v_P2 : P2 < 2 ^ 64 ∧ IsFinite P2 ∧ value P2 = P2q := by
  refine ⟨by decide, by decide, ?_⟩
  unfold P2 P2q value sign expo frac; norm_num
theorem n_P2 : Nb P2 (P2q : ℝ) 0 (277777777771 / 10 ^ 14) := Nb.const v_P2 (by unfold P2q; rw [abs_le]; constructor <;> norm_num)
def P3q : ℚ := 1220022702274443 / 2 ^ 64
theorem v_P3 : P3 < 2 ^ 64 ∧ IsFinite P3 ∧ value P3 = P3q := by
  refine ⟨by decide, by decide, ?_⟩
  unfold P3 P3q value sign expo frac; norm_num
theorem n_P3 : Nb P3 (P3q : ℝ) 0 (661375632144 / 10 ^ 16) := Nb.const v_P3 (by unfold P3q; rw [abs_le]; constructor <;> norm_num)
def P4q : ℚ := -7807914560613361 / 2 ^ 72
theorem v_P4 : P4 < 2 ^ 64 ∧ IsFinite P4 ∧ value P4 = P4q := by
  refine ⟨by decide, by decide, ?_⟩
  unfold P4 P4q value sign expo frac; norm_num
theorem n_P4 : Nb P4 (P4q : ℝ) 0 (165339022055 / 10 ^ 17) := Nb.const v_P4 (by unfold P4q; rw [abs_le]; constructor <;> norm_num)
def P5q : ℚ := 390835970239053 / 2 ^ 73
theorem v_P5 : P5 < 2 ^ 64 ∧ IsFinite P5 ∧ value P5 = P5q := by
  refine ⟨by decide, by decide, ?_⟩
  unfold P5 P5q value sign expo frac; norm_num
theorem n_P5 : Nb P5 (P5q : ℝ) 0 (413813679706 / 10 ^ 19) := Nb.const v_P5 (by unfold P5q; rw [abs_le]; constructor <;> norm_num)
def twoq : ℚ := 2 / 2 ^ 0
theorem v_two : two < 2 ^ 64 ∧ IsFinite two ∧ value two = twoq := by
  refine ⟨by decide, by decide, ?_⟩
  unfold two twoq value sign expo frac; norm_num
theorem n_two : Nb two (twoq : ℝ) 0 (200000000000 / 10 ^ 11) := Nb.const v_two (by unfold twoq; rw [abs_le]; constructor <;> norm_num)

/-! ## The rational function against the exponential function -/

/-- The polynomial of the code. -/
noncomputable def pol (T : ℝ) : ℝ := P1q + T * (P2q + T * (P3q + T * (P4q + T * P5q)))

/-- What `c` stands for. -/
noncomputable def Cx (X : ℝ) : ℝ := X - X * X * pol (X * X)

theorem pol_range {T : ℝ} (h0 : 0 ≤ T) (h1 : T ≤ 1202 / 10000) : 0 ≤ pol T ∧ pol T ≤ 16667 / 100000 := by
  have s4 : -(2 / 10 ^ 6) ≤ (P4q : ℝ) + T * P5q ∧ (P4q : ℝ) + T * P5q ≤ 0 := by
    unfold P4q P5q; constructor <;> norm_num <;> linarith
  have s3 : 0 ≤ (P3q : ℝ) + T * (P4q + T * P5q) ∧ (P3q : ℝ) + T * (P4q + T * P5q) ≤ 7 / 10 ^ 5 := by
    have a := mul_nonneg h0 (neg_nonneg.2 s4.2)
    have b := mul_le_mul h1 (neg_le.1 s4.1) (neg_nonneg.2 s4.2) (by norm_num)
    generalize (P4q : ℝ) + T * P5q = S at *
    unfold P3q; constructor <;> norm_num at * <;> linarith
  have s2 : -(3 / 10 ^ 3) ≤ (P2q : ℝ) + T * (P3q + T * (P4q + T * P5q)) ∧ (P2q : ℝ) + T * (P3q + T * (P4q + T * P5q)) ≤ 0 := by
    have a := mul_nonneg h0 s3.1
    have b := mul_le_mul h1 s3.2 s3.1 (by norm_num)
    generalize (P3q : ℝ) + T * (P4q + T * P5q) = S at *
    unfold P2q; constructor <;> norm_num at * <;> linarith
  unfold pol
  have a := mul_nonneg h0 (neg_nonneg.2 s2.2)
  have b := mul_le_mul h1 (neg_le.1 s2.1) (neg_nonneg.2 s2.2) (by norm_num)
  generalize (P2q : ℝ) + T * (P3q + T * (P4q + T * P5q)) = S at *
  unfold P1q; constructor <;> norm_num at * <;> linarith

/-- `2 - Cx X` as a polynomial. -/
def den : List ℚ := [2, -1, P1q, 0, P2q, 0, P3q, 0, P4q, 0, P5q]
/-- What remains of the equation of the rational function. -/
def expD : List ℚ := plus (times den (plus expT [-1])) [0, -2]

theorem den_eq (X : ℝ) : ev den X = 2 - Cx X := by
  simp only [den, ev, Cx, pol]; push_cast; ring

theorem expD_ok : ok expD (-34659 / 100000) (34659 / 6400000) (16 / 10 ^ 19) 64 = true := by decide +kernel

theorem rat_exp {X l : ℝ} (hX : |X| ≤ 34658 / 100000) (hl : l ≤ 2 - Cx X) (h1 : 165 / 100 ≤ l) (h3 : 2 - Cx X ≤ 3) :
    |1 + X + X * Cx X / (2 - Cx X) - Real.exp X| ≤ 1 / 10 ^ 18 := by
  have hX' := abs_le.1 hX
  have b := ev_ok (t := X) (by norm_num) expD_ok (by push_cast; linarith) (by push_cast; linarith)
  have p := exp_poly (x := X) (by linarith)
  have e0 : |X| ^ 18 / 2 ^ 52 ≤ 2 / 10 ^ 24 := by
    have := pow_le_pow_left₀ (abs_nonneg _) hX 18
    rw [div_le_iff₀ (by positivity)]
    refine le_trans this ?_
    norm_num
  have p := le_trans p e0
  have e : ev expD X = (2 - Cx X) * (ev expT X - 1) - 2 * X := by
    unfold expD
    rw [ev_plus, ev_times, ev_plus, den_eq]
    simp only [ev]; push_cast; ring
  rw [e] at b
  generalize Cx X = C at *
  have w0 : 0 < 2 - C := by linarith
  have key : 1 + X + X * C / (2 - C) - Real.exp X = -(((2 - C) * (ev expT X - 1) - 2 * X) + (2 - C) * (Real.exp X - ev expT X)) / (2 - C) := by
    field_simp; ring
  rw [key, abs_div, abs_neg, abs_of_pos w0, div_le_iff₀ w0]
  refine le_trans (abs_add_le _ _) ?_
  rw [abs_mul, abs_of_pos w0]
  have m := mul_le_mul h3 p (abs_nonneg _) (by norm_num)
  push_cast at b
  norm_num at *
  linarith


/-- Positive numbers. -/
theorem range_pos {x : Nat} {X : ℝ} (hx : Nb x X 0 (34658 / 10 ^ 5)) (ha : 0 ≤ X) (hb : X ≤ 34658 / 100000) :
    Near (div (mul x (primary x)) (sub two (primary x))) (X * Cx X / (2 - Cx X)) (3747 / 10 ^ 20) ∧
    Near (div (mul x (primary x)) (sub (primary x) two)) (X * Cx X / (Cx X - 2)) (3747 / 10 ^ 20) ∧
    |X * Cx X / (2 - Cx X)| ≤ (7270 / 10 ^ 5) ∧ (165342 / 10 ^ 5) ≤ 2 - Cx X ∧ 2 - Cx X ≤ 3 := by
  have T0 : 0 ≤ X * X := mul_self_nonneg X
  have hX := abs_le.1 hx.2
  have T1 : X * X ≤ (120118 / 10 ^ 6) := by
    rw [← abs_mul_abs_self X]
    exact le_trans (mul_le_mul hx.2 hx.2 (abs_nonneg _) (by norm_num)) (by norm_num)
  have hp := pol_range T0 (by linarith)
  have q0 : 0 ≤ X * X * pol (X * X) := mul_nonneg T0 hp.1
  have q1 : X * X * pol (X * X) ≤ (200213 / 10 ^ 7) := le_trans (mul_le_mul T1 hp.2 hp.1 (by norm_num)) (by norm_num)
  have cx : X - X * X * ((P1q : ℝ) + X * X * (P2q + X * X * (P3q + X * X * (P4q + X * X * P5q)))) = Cx X := rfl
  have tw : (twoq : ℝ) = 2 := by unfold twoq; norm_num
  have cb : |Cx X| ≤ (346580 / 10 ^ 6) := by unfold Cx; rw [abs_le]; constructor <;> norm_num at * <;> linarith
  have cl : (165342 / 10 ^ 5) ≤ 2 - Cx X := by unfold Cx; norm_num at *; linarith
  have cw : 2 - Cx X ≤ (202010 / 10 ^ 5) := by unfold Cx; norm_num at *; linarith
  have h1 := Nb.mul (1334 / 10 ^ 20) (1202 / 10 ^ 4) hx hx (by norm_num) (by norm_num) (by norm_num)
  have h2 := Nb.mul (1105 / 10 ^ 27) (4975 / 10 ^ 12) h1 n_P5 (by norm_num) (by norm_num) (by norm_num)
  have h3 := Nb.add (1853 / 10 ^ 25) (1659 / 10 ^ 9) n_P4 h2 (by norm_num) (by norm_num) (by norm_num)
  have h4 := Nb.mul (6655 / 10 ^ 26) (1995 / 10 ^ 10) h1 h3 (by norm_num) (by norm_num) (by norm_num)
  have h5 := Nb.add (7432 / 10 ^ 24) (6634 / 10 ^ 8) n_P3 h4 (by norm_num) (by norm_num) (by norm_num)
  have h6 := Nb.mul (2664 / 10 ^ 24) (7975 / 10 ^ 9) h1 h5 (by norm_num) (by norm_num) (by norm_num)
  have h7 := Nb.add (3120 / 10 ^ 22) (2786 / 10 ^ 6) n_P2 h6 (by norm_num) (by norm_num) (by norm_num)
  have h8 := Nb.mul (1119 / 10 ^ 22) (3349 / 10 ^ 7) h1 h7 (by norm_num) (by norm_num) (by norm_num)
  have h9 := Nb.add (1866 / 10 ^ 20) (1671 / 10 ^ 4) n_P1 h8 (by norm_num) (by norm_num) (by norm_num)
  have h10 := Nb.mul (6702 / 10 ^ 21) (2009 / 10 ^ 5) h1 h9 (by norm_num) (by norm_num) (by norm_num)
  have hc := Nb.sub' (4519 / 10 ^ 20) (346580 / 10 ^ 6) hx h10 (by rw [cx]; exact cb) (by norm_num) (by norm_num)
  have h11 := Nb.mul (2900 / 10 ^ 20) (1202 / 10 ^ 4) hx hc (by norm_num) (by norm_num) (by norm_num)
  have hw := Nb.sub' (2695 / 10 ^ 19) (202010 / 10 ^ 5) n_two hc (by rw [tw, cx]; rw [abs_le]; constructor <;> linarith) (by norm_num) (by norm_num)
  have hv := Nb.sub' (2695 / 10 ^ 19) (202010 / 10 ^ 5) hc n_two (by rw [tw, cx]; rw [abs_le]; constructor <;> linarith) (by norm_num) (by norm_num)
  rw [cx] at h11 hw hv
  rw [tw] at hw hv
  have w0 : 0 < 2 - Cx X := by linarith
  have lb : (165342 / 10 ^ 5) ≤ |2 - Cx X| := by rw [abs_of_pos w0]; exact cl
  have qb : |X * Cx X / (2 - Cx X)| ≤ (7270 / 10 ^ 5) := by
    rw [abs_div, div_le_iff₀ (lt_of_lt_of_le (by norm_num) lb)]
    have m1 := h11.2
    have m2 := mul_le_mul_of_nonneg_left lb (by norm_num : (0 : ℝ) ≤ (7270 / 10 ^ 5))
    refine le_trans m1 (le_trans ?_ m2)
    norm_num
  refine ⟨?_, ?_, qb, cl, by linarith⟩
  · exact h11.1.div hw.1 (l := (165342 / 10 ^ 5)) (q := (7270 / 10 ^ 5)) (d := (2939 / 10 ^ 20)) lb (by norm_num) qb (by norm_num) (by norm_num) (by norm_num)
  · refine h11.1.div hv.1 (l := (165342 / 10 ^ 5)) (q := (7270 / 10 ^ 5)) (d := (2939 / 10 ^ 20)) ?_ (by norm_num) ?_ (by norm_num) (by norm_num) (by norm_num)
    · rw [abs_sub_comm]; exact lb
    · rw [show X * Cx X / (Cx X - 2) = -(X * Cx X / (2 - Cx X)) by rw [← neg_sub 2 (Cx X), div_neg], abs_neg]; exact qb

/-- Negative numbers of more than 0.3. -/
theorem range_low {x : Nat} {X : ℝ} (hx : Nb x X 0 (34658 / 10 ^ 5)) (ha : -(34658 / 100000) ≤ X) (hb : X ≤ -(3 / 10)) :
    Near (div (mul x (primary x)) (sub two (primary x))) (X * Cx X / (2 - Cx X)) (2688 / 10 ^ 20) ∧
    Near (div (mul x (primary x)) (sub (primary x) two)) (X * Cx X / (Cx X - 2)) (2688 / 10 ^ 20) ∧
    |X * Cx X / (2 - Cx X)| ≤ (5527 / 10 ^ 5) ∧ (230000 / 10 ^ 5) ≤ 2 - Cx X ∧ 2 - Cx X ≤ 3 := by
  have T0 : 0 ≤ X * X := mul_self_nonneg X
  have hX := abs_le.1 hx.2
  have T1 : X * X ≤ (120118 / 10 ^ 6) := by
    rw [← abs_mul_abs_self X]
    exact le_trans (mul_le_mul hx.2 hx.2 (abs_nonneg _) (by norm_num)) (by norm_num)
  have hp := pol_range T0 (by linarith)
  have q0 : 0 ≤ X * X * pol (X * X) := mul_nonneg T0 hp.1
  have q1 : X * X * pol (X * X) ≤ (200213 / 10 ^ 7) := le_trans (mul_le_mul T1 hp.2 hp.1 (by norm_num)) (by norm_num)
  have cx : X - X * X * ((P1q : ℝ) + X * X * (P2q + X * X * (P3q + X * X * (P4q + X * X * P5q)))) = Cx X := rfl
  have tw : (twoq : ℝ) = 2 := by unfold twoq; norm_num
  have cb : |Cx X| ≤ (366620 / 10 ^ 6) := by unfold Cx; rw [abs_le]; constructor <;> norm_num at * <;> linarith
  have cl : (230000 / 10 ^ 5) ≤ 2 - Cx X := by unfold Cx; norm_num at *; linarith
  have cw : 2 - Cx X ≤ (236680 / 10 ^ 5) := by unfold Cx; norm_num at *; linarith
  have h1 := Nb.mul (1334 / 10 ^ 20) (1202 / 10 ^ 4) hx hx (by norm_num) (by norm_num) (by norm_num)
  have h2 := Nb.mul (1105 / 10 ^ 27) (4975 / 10 ^ 12) h1 n_P5 (by norm_num) (by norm_num) (by norm_num)
  have h3 := Nb.add (1853 / 10 ^ 25) (1659 / 10 ^ 9) n_P4 h2 (by norm_num) (by norm_num) (by norm_num)
  have h4 := Nb.mul (6655 / 10 ^ 26) (1995 / 10 ^ 10) h1 h3 (by norm_num) (by norm_num) (by norm_num)
  have h5 := Nb.add (7432 / 10 ^ 24) (6634 / 10 ^ 8) n_P3 h4 (by norm_num) (by norm_num) (by norm_num)
  have h6 := Nb.mul (2664 / 10 ^ 24) (7975 / 10 ^ 9) h1 h5 (by norm_num) (by norm_num) (by norm_num)
  have h7 := Nb.add (3120 / 10 ^ 22) (2786 / 10 ^ 6) n_P2 h6 (by norm_num) (by norm_num) (by norm_num)
  have h8 := Nb.mul (1119 / 10 ^ 22) (3349 / 10 ^ 7) h1 h7 (by norm_num) (by norm_num) (by norm_num)
  have h9 := Nb.add (1866 / 10 ^ 20) (1671 / 10 ^ 4) n_P1 h8 (by norm_num) (by norm_num) (by norm_num)
  have h10 := Nb.mul (6702 / 10 ^ 21) (2009 / 10 ^ 5) h1 h9 (by norm_num) (by norm_num) (by norm_num)
  have hc := Nb.sub' (4741 / 10 ^ 20) (366620 / 10 ^ 6) hx h10 (by rw [cx]; exact cb) (by norm_num) (by norm_num)
  have h11 := Nb.mul (3054 / 10 ^ 20) (1271 / 10 ^ 4) hx hc (by norm_num) (by norm_num) (by norm_num)
  have hw := Nb.sub' (3102 / 10 ^ 19) (236680 / 10 ^ 5) n_two hc (by rw [tw, cx]; rw [abs_le]; constructor <;> linarith) (by norm_num) (by norm_num)
  have hv := Nb.sub' (3102 / 10 ^ 19) (236680 / 10 ^ 5) hc n_two (by rw [tw, cx]; rw [abs_le]; constructor <;> linarith) (by norm_num) (by norm_num)
  rw [cx] at h11 hw hv
  rw [tw] at hw hv
  have w0 : 0 < 2 - Cx X := by linarith
  have lb : (230000 / 10 ^ 5) ≤ |2 - Cx X| := by rw [abs_of_pos w0]; exact cl
  have qb : |X * Cx X / (2 - Cx X)| ≤ (5527 / 10 ^ 5) := by
    rw [abs_div, div_le_iff₀ (lt_of_lt_of_le (by norm_num) lb)]
    have m1 := h11.2
    have m2 := mul_le_mul_of_nonneg_left lb (by norm_num : (0 : ℝ) ≤ (5527 / 10 ^ 5))
    refine le_trans m1 (le_trans ?_ m2)
    norm_num
  refine ⟨?_, ?_, qb, cl, by linarith⟩
  · exact h11.1.div hw.1 (l := (230000 / 10 ^ 5)) (q := (5527 / 10 ^ 5)) (d := (2074 / 10 ^ 20)) lb (by norm_num) qb (by norm_num) (by norm_num) (by norm_num)
  · refine h11.1.div hv.1 (l := (230000 / 10 ^ 5)) (q := (5527 / 10 ^ 5)) (d := (2074 / 10 ^ 20)) ?_ (by norm_num) ?_ (by norm_num) (by norm_num) (by norm_num)
    · rw [abs_sub_comm]; exact lb
    · rw [show X * Cx X / (Cx X - 2) = -(X * Cx X / (2 - Cx X)) by rw [← neg_sub 2 (Cx X), div_neg], abs_neg]; exact qb

/-- Small negative numbers. -/
theorem range_mid {x : Nat} {X : ℝ} (hx : Nb x X 0 (30000 / 10 ^ 5)) (ha : -(3 / 10) ≤ X) (hb : X ≤ 0) :
    Near (div (mul x (primary x)) (sub two (primary x))) (X * Cx X / (2 - Cx X)) (2353 / 10 ^ 20) ∧
    Near (div (mul x (primary x)) (sub (primary x) two)) (X * Cx X / (Cx X - 2)) (2353 / 10 ^ 20) ∧
    |X * Cx X / (2 - Cx X)| ≤ (4728 / 10 ^ 5) ∧ (200000 / 10 ^ 5) ≤ 2 - Cx X ∧ 2 - Cx X ≤ 3 := by
  have T0 : 0 ≤ X * X := mul_self_nonneg X
  have hX := abs_le.1 hx.2
  have T1 : X * X ≤ (900000 / 10 ^ 7) := by
    rw [← abs_mul_abs_self X]
    exact le_trans (mul_le_mul hx.2 hx.2 (abs_nonneg _) (by norm_num)) (by norm_num)
  have hp := pol_range T0 (by linarith)
  have q0 : 0 ≤ X * X * pol (X * X) := mul_nonneg T0 hp.1
  have q1 : X * X * pol (X * X) ≤ (150012 / 10 ^ 7) := le_trans (mul_le_mul T1 hp.2 hp.1 (by norm_num)) (by norm_num)
  have cx : X - X * X * ((P1q : ℝ) + X * X * (P2q + X * X * (P3q + X * X * (P4q + X * X * P5q)))) = Cx X := rfl
  have tw : (twoq : ℝ) = 2 := by unfold twoq; norm_num
  have cb : |Cx X| ≤ (315200 / 10 ^ 6) := by unfold Cx; rw [abs_le]; constructor <;> norm_num at * <;> linarith
  have cl : (200000 / 10 ^ 5) ≤ 2 - Cx X := by unfold Cx; norm_num at *; linarith
  have cw : 2 - Cx X ≤ (231520 / 10 ^ 5) := by unfold Cx; norm_num at *; linarith
  have h1 := Nb.mul (9993 / 10 ^ 21) (9000 / 10 ^ 5) hx hx (by norm_num) (by norm_num) (by norm_num)
  have h2 := Nb.mul (8271 / 10 ^ 28) (3725 / 10 ^ 12) h1 n_P5 (by norm_num) (by norm_num) (by norm_num)
  have h3 := Nb.add (1849 / 10 ^ 25) (1658 / 10 ^ 9) n_P4 h2 (by norm_num) (by norm_num) (by norm_num)
  have h4 := Nb.mul (4978 / 10 ^ 26) (1493 / 10 ^ 10) h1 h3 (by norm_num) (by norm_num) (by norm_num)
  have h5 := Nb.add (7410 / 10 ^ 24) (6629 / 10 ^ 8) n_P3 h4 (by norm_num) (by norm_num) (by norm_num)
  have h6 := Nb.mul (1992 / 10 ^ 24) (5967 / 10 ^ 9) h1 h5 (by norm_num) (by norm_num) (by norm_num)
  have h7 := Nb.add (3111 / 10 ^ 22) (2784 / 10 ^ 6) n_P2 h6 (by norm_num) (by norm_num) (by norm_num)
  have h8 := Nb.mul (8364 / 10 ^ 23) (2506 / 10 ^ 7) h1 h7 (by norm_num) (by norm_num) (by norm_num)
  have h9 := Nb.add (1862 / 10 ^ 20) (1670 / 10 ^ 4) n_P1 h8 (by norm_num) (by norm_num) (by norm_num)
  have h10 := Nb.mul (5014 / 10 ^ 21) (1503 / 10 ^ 5) h1 h9 (by norm_num) (by norm_num) (by norm_num)
  have hc := Nb.sub' (4001 / 10 ^ 20) (315200 / 10 ^ 6) hx h10 (by rw [cx]; exact cb) (by norm_num) (by norm_num)
  have h11 := Nb.mul (2251 / 10 ^ 20) (9456 / 10 ^ 5) hx hc (by norm_num) (by norm_num) (by norm_num)
  have hw := Nb.sub' (2971 / 10 ^ 19) (231520 / 10 ^ 5) n_two hc (by rw [tw, cx]; rw [abs_le]; constructor <;> linarith) (by norm_num) (by norm_num)
  have hv := Nb.sub' (2971 / 10 ^ 19) (231520 / 10 ^ 5) hc n_two (by rw [tw, cx]; rw [abs_le]; constructor <;> linarith) (by norm_num) (by norm_num)
  rw [cx] at h11 hw hv
  rw [tw] at hw hv
  have w0 : 0 < 2 - Cx X := by linarith
  have lb : (200000 / 10 ^ 5) ≤ |2 - Cx X| := by rw [abs_of_pos w0]; exact cl
  have qb : |X * Cx X / (2 - Cx X)| ≤ (4728 / 10 ^ 5) := by
    rw [abs_div, div_le_iff₀ (lt_of_lt_of_le (by norm_num) lb)]
    have m1 := h11.2
    have m2 := mul_le_mul_of_nonneg_left lb (by norm_num : (0 : ℝ) ≤ (4728 / 10 ^ 5))
    refine le_trans m1 (le_trans ?_ m2)
    norm_num
  refine ⟨?_, ?_, qb, cl, by linarith⟩
  · exact h11.1.div hw.1 (l := (200000 / 10 ^ 5)) (q := (4728 / 10 ^ 5)) (d := (1828 / 10 ^ 20)) lb (by norm_num) qb (by norm_num) (by norm_num) (by norm_num)
  · refine h11.1.div hv.1 (l := (200000 / 10 ^ 5)) (q := (4728 / 10 ^ 5)) (d := (1828 / 10 ^ 20)) ?_ (by norm_num) ?_ (by norm_num) (by norm_num) (by norm_num)
    · rw [abs_sub_comm]; exact lb
    · rw [show X * Cx X / (Cx X - 2) = -(X * Cx X / (2 - Cx X)) by rw [← neg_sub 2 (Cx X), div_neg], abs_neg]; exact qb

end Pok.Exp
