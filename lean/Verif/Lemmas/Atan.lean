import Verif.Lemmas.ExpReduce
import Verif.Lemmas.Pi
import Verif.Model.Atan
import Mathlib.Analysis.SpecialFunctions.Trigonometric.ArctanDeriv
import Mathlib.Analysis.Calculus.MeanValue
import Mathlib.Analysis.Calculus.Deriv.Pow
import Mathlib.Analysis.Calculus.Deriv.Add
/-!
# The arc tangent: the polynomial
-/
namespace Pok.Poly

/-- Whether the polynomial is at most `e` on intervals of the radii `hs` next to each other from `a` on. -/
def okl (l : List ℚ) (e : ℚ) : ℚ → List ℚ → Bool
  | _, [] => true
  | a, h :: hs => decide (size h (shift (a + h) l) ≤ e) && okl l e (a + 2 * h) hs

theorem ev_okl {l : List ℚ} {e : ℚ} {a : ℚ} {hs : List ℚ} (hok : okl l e a hs = true) {t : ℝ} (hp : ∀ h ∈ hs, 0 ≤ h) (t0 : (a : ℝ) ≤ t)
    (t1 : t < a + 2 * ((hs.sum : ℚ) : ℝ)) : |ev l t| ≤ e := by
  induction hs generalizing a with
  | nil => simp at t1; exact absurd t1 (not_lt.2 t0)
  | cons h hs ih =>
    simp only [okl, Bool.and_eq_true, decide_eq_true_eq] at hok
    rcases le_or_gt t (a + 2 * h) with c | c
    · have b := ev_le (hp h (by simp)) (shift (a + h) l) (t := t - (a + h)) (by rw [abs_le]; constructor <;> linarith)
      rw [ev_shift] at b
      push_cast at b
      rw [show (a : ℝ) + h + (t - (a + h)) = t by ring] at b
      exact le_trans b (by exact_mod_cast hok.1)
    · refine ih hok.2 (fun h' m => hp h' (by simp [m])) (by push_cast; exact c.le) ?_
      rw [List.sum_cons] at t1; push_cast at t1 ⊢; linarith

end Pok.Poly

namespace Pok.Atan
open Pok.Err Pok.Float Pok.Fpu Pok.Poly

/-! The constants. -/
def a0q : ℚ := 6004799503160589 / 2 ^ 54
theorem v_a0 : a0 < 2 ^ 64 ∧ IsFinite a0 ∧ value a0 = a0q := by
  refine ⟨by decide, by decide, ?_⟩
  unfold a0 a0q value sign expo frac; norm_num
theorem n_a0 : Nb a0 (a0q : ℝ) 0 (333333333334 / 10 ^ 12) := Nb.const v_a0 (by unfold a0q; rw [abs_le]; constructor <;> norm_num)
def a1q : ℚ := -1801439850937073 / 2 ^ 53
theorem v_a1 : a1 < 2 ^ 64 ∧ IsFinite a1 ∧ value a1 = a1q := by
  refine ⟨by decide, by decide, ?_⟩
  unfold a1 a1q value sign expo frac; norm_num
theorem n_a1 : Nb a1 (a1q : ℝ) 0 (199999999999 / 10 ^ 12) := Nb.const v_a1 (by unfold a1q; rw [abs_le]; constructor <;> norm_num)
def a2q : ℚ := 5146970997949439 / 2 ^ 55
theorem v_a2 : a2 < 2 ^ 64 ∧ IsFinite a2 ∧ value a2 = a2q := by
  refine ⟨by decide, by decide, ?_⟩
  unfold a2 a2q value sign expo frac; norm_num
theorem n_a2 : Nb a2 (a2q : ℝ) 0 (142857142726 / 10 ^ 12) := Nb.const v_a2 (by unfold a2q; rw [abs_le]; constructor <;> norm_num)
def a3q : ℚ := -8006398829074033 / 2 ^ 56
theorem v_a3 : a3 < 2 ^ 64 ∧ IsFinite a3 ∧ value a3 = a3q := by
  refine ⟨by decide, by decide, ?_⟩
  unfold a3 a3q value sign expo frac; norm_num
theorem n_a3 : Nb a3 (a3q : ℝ) 0 (111111104055 / 10 ^ 12) := Nb.const v_a3 (by unfold a3q; rw [abs_le]; constructor <;> norm_num)
def a4q : ℚ := 3275337272528951 / 2 ^ 55
theorem v_a4 : a4 < 2 ^ 64 ∧ IsFinite a4 ∧ value a4 = a4q := by
  refine ⟨by decide, by decide, ?_⟩
  unfold a4 a4q value sign expo frac; norm_num
theorem n_a4 : Nb a4 (a4q : ℝ) 0 (90908871335 / 10 ^ 12) := Nb.const v_a4 (by unfold a4q; rw [abs_le]; constructor <;> norm_num)
def a5q : ℚ := -5542580929731181 / 2 ^ 56
theorem v_a5 : a5 < 2 ^ 64 ∧ IsFinite a5 ∧ value a5 = a5q := by
  refine ⟨by decide, by decide, ?_⟩
  unfold a5 a5q value sign expo frac; norm_num
theorem n_a5 : Nb a5 (a5q : ℝ) 0 (76918762051 / 10 ^ 12) := Nb.const v_a5 (by unfold a5q; rw [abs_le]; constructor <;> norm_num)
def a6q : ℚ := 4799809039908177 / 2 ^ 56
theorem v_a6 : a6 < 2 ^ 64 ∧ IsFinite a6 ∧ value a6 = a6q := by
  refine ⟨by decide, by decide, ?_⟩
  unfold a6 a6q value sign expo frac; norm_num
theorem n_a6 : Nb a6 (a6q : ℝ) 0 (66610731374 / 10 ^ 12) := Nb.const v_a6 (by unfold a6q; rw [abs_le]; constructor <;> norm_num)
def a7q : ℚ := -4203530284924621 / 2 ^ 56
theorem v_a7 : a7 < 2 ^ 64 ∧ IsFinite a7 ∧ value a7 = a7q := by
  refine ⟨by decide, by decide, ?_⟩
  unfold a7 a7q value sign expo frac; norm_num
theorem n_a7 : Nb a7 (a7q : ℝ) 0 (58335701338 / 10 ^ 12) := Nb.const v_a7 (by unfold a7q; rw [abs_le]; constructor <;> norm_num)
def a8q : ℚ := 7172437082246635 / 2 ^ 57
theorem v_a8 : a8 < 2 ^ 64 ∧ IsFinite a8 ∧ value a8 = a8q := by
  refine ⟨by decide, by decide, ?_⟩
  unfold a8 a8q value sign expo frac; norm_num
theorem n_a8 : Nb a8 (a8q : ℝ) 0 (49768779947 / 10 ^ 12) := Nb.const v_a8 (by unfold a8q; rw [abs_le]; constructor <;> norm_num)
def a9q : ℚ := -5264754476739631 / 2 ^ 57
theorem v_a9 : a9 < 2 ^ 64 ∧ IsFinite a9 ∧ value a9 = a9q := by
  refine ⟨by decide, by decide, ?_⟩
  unfold a9 a9q value sign expo frac; norm_num
theorem n_a9 : Nb a9 (a9q : ℝ) 0 (36531572745 / 10 ^ 12) := Nb.const v_a9 (by unfold a9q; rw [abs_le]; constructor <;> norm_num)
def a10q : ℚ := 4694068057790993 / 2 ^ 58
theorem v_a10 : a10 < 2 ^ 64 ∧ IsFinite a10 ∧ value a10 = a10q := by
  refine ⟨by decide, by decide, ?_⟩
  unfold a10 a10q value sign expo frac; norm_num
theorem n_a10 : Nb a10 (a10q : ℝ) 0 (16285820116 / 10 ^ 12) := Nb.const v_a10 (by unfold a10q; rw [abs_le]; constructor <;> norm_num)
def hi0q : ℚ := 8352332796509007 / 2 ^ 54
theorem v_hi0 : hi0 < 2 ^ 64 ∧ IsFinite hi0 ∧ value hi0 = hi0q := by
  refine ⟨by decide, by decide, ?_⟩
  unfold hi0 hi0q value sign expo frac; norm_num
theorem n_hi0 : Nb hi0 (hi0q : ℝ) 0 (463647609001 / 10 ^ 12) := Nb.const v_hi0 (by unfold hi0q; rw [abs_le]; constructor <;> norm_num)
def hi1q : ℚ := 884279719003555 / 2 ^ 50
theorem v_hi1 : hi1 < 2 ^ 64 ∧ IsFinite hi1 ∧ value hi1 = hi1q := by
  refine ⟨by decide, by decide, ?_⟩
  unfold hi1 hi1q value sign expo frac; norm_num
theorem n_hi1 : Nb hi1 (hi1q : ℝ) 0 (785398163398 / 10 ^ 12) := Nb.const v_hi1 (by unfold hi1q; rw [abs_le]; constructor <;> norm_num)
def hi2q : ℚ := 8852218891597467 / 2 ^ 53
theorem v_hi2 : hi2 < 2 ^ 64 ∧ IsFinite hi2 ∧ value hi2 = hi2q := by
  refine ⟨by decide, by decide, ?_⟩
  unfold hi2 hi2q value sign expo frac; norm_num
theorem n_hi2 : Nb hi2 (hi2q : ℝ) 0 (982793723248 / 10 ^ 12) := Nb.const v_hi2 (by unfold hi2q; rw [abs_le]; constructor <;> norm_num)
def hi3q : ℚ := 884279719003555 / 2 ^ 49
theorem v_hi3 : hi3 < 2 ^ 64 ∧ IsFinite hi3 ∧ value hi3 = hi3q := by
  refine ⟨by decide, by decide, ?_⟩
  unfold hi3 hi3q value sign expo frac; norm_num
theorem n_hi3 : Nb hi3 (hi3q : ℝ) 0 (1570796326795 / 10 ^ 12) := Nb.const v_hi3 (by unfold hi3q; rw [abs_le]; constructor <;> norm_num)
def lo0q : ℚ := 3683087214424817 / 2 ^ 107
theorem v_lo0 : lo0 < 2 ^ 64 ∧ IsFinite lo0 ∧ value lo0 = lo0q := by
  refine ⟨by decide, by decide, ?_⟩
  unfold lo0 lo0q value sign expo frac; norm_num
theorem n_lo0 : Nb lo0 (lo0q : ℝ) 0 (22698778 / 10 ^ 24) := Nb.const v_lo0 (by unfold lo0q; rw [abs_le]; constructor <;> norm_num)
def lo1q : ℚ := 4967757600021511 / 2 ^ 107
theorem v_lo1 : lo1 < 2 ^ 64 ∧ IsFinite lo1 ∧ value lo1 = lo1q := by
  refine ⟨by decide, by decide, ?_⟩
  unfold lo1 lo1q value sign expo frac; norm_num
theorem n_lo1 : Nb lo1 (lo1q : ℝ) 0 (30616170 / 10 ^ 24) := Nb.const v_lo1 (by unfold lo1q; rw [abs_le]; constructor <;> norm_num)
def lo2q : ℚ := 4511882386918333 / 2 ^ 108
theorem v_lo2 : lo2 < 2 ^ 64 ∧ IsFinite lo2 ∧ value lo2 = lo2q := by
  refine ⟨by decide, by decide, ?_⟩
  unfold lo2 lo2q value sign expo frac; norm_num
theorem n_lo2 : Nb lo2 (lo2q : ℝ) 0 (13903312 / 10 ^ 24) := Nb.const v_lo2 (by unfold lo2q; rw [abs_le]; constructor <;> norm_num)
def lo3q : ℚ := 4967757600021511 / 2 ^ 106
theorem v_lo3 : lo3 < 2 ^ 64 ∧ IsFinite lo3 ∧ value lo3 = lo3q := by
  refine ⟨by decide, by decide, ?_⟩
  unfold lo3 lo3q value sign expo frac; norm_num
theorem n_lo3 : Nb lo3 (lo3q : ℝ) 0 (61232340 / 10 ^ 24) := Nb.const v_lo3 (by unfold lo3q; rw [abs_le]; constructor <;> norm_num)
def three_halvesq : ℚ := 3 / 2 ^ 1
theorem v_three_halves : three_halves < 2 ^ 64 ∧ IsFinite three_halves ∧ value three_halves = three_halvesq := by
  refine ⟨by decide, by decide, ?_⟩
  unfold three_halves three_halvesq value sign expo frac; norm_num
theorem n_three_halves : Nb three_halves (three_halvesq : ℝ) 0 (1500000000000 / 10 ^ 12) := Nb.const v_three_halves (by unfold three_halvesq; rw [abs_le]; constructor <;> norm_num)
def minus_oneq : ℚ := -1 / 2 ^ 0
theorem v_minus_one : minus_one < 2 ^ 64 ∧ IsFinite minus_one ∧ value minus_one = minus_oneq := by
  refine ⟨by decide, by decide, ?_⟩
  unfold minus_one minus_oneq value sign expo frac; norm_num
theorem n_minus_one : Nb minus_one (minus_oneq : ℝ) 0 (1000000000000 / 10 ^ 12) := Nb.const v_minus_one (by unfold minus_oneq; rw [abs_le]; constructor <;> norm_num)

/-! ## The series -/

theorem arctan_series (N : Nat) {t b : ℝ} (h : |t| ≤ b) :
    |Real.arctan t - ∑ k ∈ Finset.range N, (-1) ^ k * t ^ (2 * k + 1) / ((2 * k + 1 : ℕ) : ℝ)| ≤ b ^ (2 * N) * |t| := by
  have b0 : 0 ≤ b := le_trans (abs_nonneg _) h
  have key := Convex.norm_image_sub_le_of_norm_hasDerivWithin_le (𝕜 := ℝ) (s := Set.Icc (-b) b)
    (f := fun y => Real.arctan y - ∑ k ∈ Finset.range N, (-1) ^ k * y ^ (2 * k + 1) / ((2 * k + 1 : ℕ) : ℝ))
    (f' := fun y => 1 / (1 + y ^ 2) - ∑ k ∈ Finset.range N, (-1) ^ k * (((2 * k + 1 : ℕ) : ℝ) * y ^ (2 * k)) / ((2 * k + 1 : ℕ) : ℝ)) (C := b ^ (2 * N)) (x := 0) (y := t)
    (fun y _ => by
      refine ((Real.hasDerivAt_arctan y).sub (HasDerivAt.fun_sum fun k _ => ?_)).hasDerivWithinAt
      exact (((hasDerivAt_pow (2 * k + 1) y)).const_mul _).div_const _)
    (fun y hy => by
      have e : ∑ k ∈ Finset.range N, (-1 : ℝ) ^ k * (((2 * k + 1 : ℕ) : ℝ) * y ^ (2 * k)) / ((2 * k + 1 : ℕ) : ℝ) = ∑ k ∈ Finset.range N, (-(y ^ 2)) ^ k := by
        refine Finset.sum_congr rfl fun k _ => ?_
        have : ((2 * k + 1 : ℕ) : ℝ) ≠ 0 := by positivity
        rw [show (-1 : ℝ) ^ k * (((2 * k + 1 : ℕ) : ℝ) * y ^ (2 * k)) = ((-1) ^ k * y ^ (2 * k)) * ((2 * k + 1 : ℕ) : ℝ) by ring, mul_div_cancel_right₀ _ this, pow_mul, ← mul_pow]
        congr 1; ring
      have p : (0 : ℝ) < 1 + y ^ 2 := by positivity
      have g := geom_sum_eq (x := -(y ^ 2)) (by have := sq_nonneg y; linarith) N
      show ‖1 / (1 + y ^ 2) - _‖ ≤ _
      rw [e, g, show 1 / (1 + y ^ 2) - ((-(y ^ 2)) ^ N - 1) / (-(y ^ 2) - 1) = (-(y ^ 2)) ^ N / (1 + y ^ 2) by
        rw [show -(y ^ 2) - 1 = -(1 + y ^ 2) by ring, div_neg]; field_simp; ring]
      rw [Real.norm_eq_abs, abs_div, abs_of_pos p, abs_pow, abs_neg, abs_pow, ← pow_mul]
      have q : |y| ^ (2 * N) ≤ b ^ (2 * N) := pow_le_pow_left₀ (abs_nonneg _) (abs_le.2 hy) _
      exact le_trans (div_le_self (by positivity) (by have := sq_nonneg y; linarith)) q)
    (convex_Icc _ _) ⟨by linarith, b0⟩ (abs_le.1 h)
  simp only [Real.norm_eq_abs, sub_zero, Real.arctan_zero] at key
  rw [Finset.sum_eq_zero (fun k _ => by rw [zero_pow (by omega), mul_zero, zero_div] : ∀ k ∈ Finset.range N, (-1) ^ k * (0 : ℝ) ^ (2 * k + 1) / ((2 * k + 1 : ℕ) : ℝ) = 0), sub_zero, sub_zero] at key
  exact key

theorem arctan_lip (a b : ℝ) : |Real.arctan a - Real.arctan b| ≤ |a - b| := by
  have key := Convex.norm_image_sub_le_of_norm_hasDerivWithin_le (𝕜 := ℝ) (s := Set.univ) (f := Real.arctan) (f' := fun y => 1 / (1 + y ^ 2)) (C := 1) (x := b) (y := a)
    (fun y _ => (Real.hasDerivAt_arctan y).hasDerivWithinAt)
    (fun y _ => by
      have p : (0 : ℝ) < 1 + y ^ 2 := by positivity
      rw [Real.norm_eq_abs, abs_of_pos (by positivity), div_le_one p]
      have := sq_nonneg y; linarith) convex_univ trivial trivial
  simpa using key

/-- `(t - arctan t) / t` as a polynomial of the square of `t`. -/
def atT : List ℚ := [0, 1/3, -1/5, 1/7, -1/9, 1/11, -1/13, 1/15, -1/17, 1/19, -1/21, 1/23, -1/25, 1/27, -1/29, 1/31, -1/33, 1/35, -1/37, 1/39, -1/41, 1/43, -1/45, 1/47,
  -1/49, 1/51]

theorem series {s : ℝ} (h : |s| ≤ 4376 / 10000) : |Real.arctan s - (s - s * ev atT (s * s))| ≤ |s| * (1 / 10 ^ 18) := by
  have a := arctan_series 26 h
  have e : s - s * ev atT (s * s) = ∑ k ∈ Finset.range 26, (-1) ^ k * s ^ (2 * k + 1) / ((2 * k + 1 : ℕ) : ℝ) := by
    simp only [Finset.sum_range_succ, Finset.sum_range_zero, atT, ev]
    push_cast
    ring
  rw [e]
  refine le_trans a ?_
  rw [mul_comm]
  exact mul_le_mul_of_nonneg_left (by norm_num) (abs_nonneg _)

/-- The polynomial of the code. -/
noncomputable def pol (Z : ℝ) : ℝ :=
  Z * (a0q + Z * Z * (a2q + Z * Z * (a4q + Z * Z * (a6q + Z * Z * (a8q + Z * Z * a10q))))) +
    Z * Z * (a1q + Z * Z * (a3q + Z * Z * (a5q + Z * Z * (a7q + Z * Z * a9q))))

/-- Its difference from the series. -/
def atD : List ℚ := plus [0, a0q, a1q, a2q, a3q, a4q, a5q, a6q, a7q, a8q, a9q, a10q] (atT.map (-1 * ·))

theorem atD_eq (Z : ℝ) : ev atD Z = pol Z - ev atT Z := by
  unfold atD
  rw [ev_plus, ev_scale]
  simp only [ev, pol]
  push_cast; ring

/-- The radii of the intervals. -/
def atH : List ℚ := [13/4096, 25/4096, 36/4096, 45/4096, 51/4096, 52/4096, 50/4096, 45/4096, 36/4096, 25/4096, 13/4096, 3/4096]

theorem atD_ok : okl atD (12 / 10 ^ 18) 0 atH = true := by decide +kernel

theorem pol_near {s : ℝ} (h : |s| ≤ 4376 / 10000) : |Real.arctan s - (s - s * pol (s * s))| ≤ |s| * (13 / 10 ^ 18) := by
  have z0 := mul_self_nonneg s
  have z1 : s * s ≤ 1915 / 10000 := by
    rw [← abs_mul_abs_self s]
    exact le_trans (mul_le_mul h h (abs_nonneg _) (by norm_num)) (by norm_num)
  have b := ev_okl atD_ok (t := s * s) (by simp [atH]; norm_num) (by push_cast; exact z0) (by simp only [atH, List.sum_cons, List.sum_nil]; push_cast; norm_num at *; linarith)
  rw [atD_eq] at b
  have a := series h
  rw [show Real.arctan s - (s - s * pol (s * s)) = (Real.arctan s - (s - s * ev atT (s * s))) + s * (pol (s * s) - ev atT (s * s)) by ring]
  refine le_trans (abs_add_le _ _) ?_
  rw [abs_mul]
  have m := mul_le_mul_of_nonneg_left b (abs_nonneg s)
  have n0 := abs_nonneg s
  push_cast at m
  generalize |s| = t at *
  norm_num at m a ⊢; linarith

/-! ## Rounding -/

theorem tail_near {s : Nat} (h1 : s < 2 ^ 64) (h2 : IsFinite s) (h : |(value s : ℝ)| ≤ 4376 / 10000) :
    Nb (tail s) (pol ((value s : ℝ) * value s)) (3448 / 10 ^ 20) (723461 / 10 ^ 7) := by
  have hs : Nb s (value s : ℝ) 0 (4376 / 10000) := ⟨Near.self h1 h2, h⟩
  have h1 := Nb.mul (2127 / 10 ^ 20) (191494 / 10 ^ 6) hs hs (by norm_num) (by norm_num) (by norm_num)
  have h2 := Nb.mul (1222 / 10 ^ 20) (366700 / 10 ^ 7) h1 h1 (by norm_num) (by norm_num) (by norm_num)
  have h3 := Nb.mul (2654 / 10 ^ 22) (597202 / 10 ^ 9) h2 n_a10 (by norm_num) (by norm_num) (by norm_num)
  have h4 := Nb.add (5858 / 10 ^ 21) (503660 / 10 ^ 7) n_a8 h3 (by norm_num) (by norm_num) (by norm_num)
  have h5 := Nb.mul (1036 / 10 ^ 21) (184693 / 10 ^ 8) h2 h4 (by norm_num) (by norm_num) (by norm_num)
  have h6 := Nb.add (8637 / 10 ^ 21) (684577 / 10 ^ 7) n_a6 h5 (by norm_num) (by norm_num) (by norm_num)
  have h7 := Nb.mul (1432 / 10 ^ 21) (251035 / 10 ^ 8) h2 h6 (by norm_num) (by norm_num) (by norm_num)
  have h8 := Nb.add (1181 / 10 ^ 20) (934193 / 10 ^ 7) n_a4 h7 (by norm_num) (by norm_num) (by norm_num)
  have h9 := Nb.mul (1955 / 10 ^ 21) (342569 / 10 ^ 8) h2 h8 (by norm_num) (by norm_num) (by norm_num)
  have h10 := Nb.add (1820 / 10 ^ 20) (146283 / 10 ^ 6) n_a2 h9 (by norm_num) (by norm_num) (by norm_num)
  have h11 := Nb.mul (3051 / 10 ^ 21) (536420 / 10 ^ 8) h2 h10 (by norm_num) (by norm_num) (by norm_num)
  have h12 := Nb.add (4066 / 10 ^ 20) (338698 / 10 ^ 6) n_a0 h11 (by norm_num) (by norm_num) (by norm_num)
  have h13 := Nb.mul (2220 / 10 ^ 20) (648587 / 10 ^ 7) h1 h12 (by norm_num) (by norm_num) (by norm_num)
  have h14 := Nb.mul (5952 / 10 ^ 22) (133962 / 10 ^ 8) h2 n_a9 (by norm_num) (by norm_num) (by norm_num)
  have h15 := Nb.add (7221 / 10 ^ 21) (596754 / 10 ^ 7) n_a7 h14 (by norm_num) (by norm_num) (by norm_num)
  have h16 := Nb.mul (1237 / 10 ^ 21) (218830 / 10 ^ 8) h2 h15 (by norm_num) (by norm_num) (by norm_num)
  have h17 := Nb.add (1002 / 10 ^ 20) (791071 / 10 ^ 7) n_a5 h16 (by norm_num) (by norm_num) (by norm_num)
  have h18 := Nb.mul (1657 / 10 ^ 21) (290086 / 10 ^ 8) h2 h17 (by norm_num) (by norm_num) (by norm_num)
  have h19 := Nb.add (1432 / 10 ^ 20) (114012 / 10 ^ 6) n_a3 h18 (by norm_num) (by norm_num) (by norm_num)
  have h20 := Nb.mul (2383 / 10 ^ 21) (418083 / 10 ^ 8) h2 h19 (by norm_num) (by norm_num) (by norm_num)
  have h21 := Nb.add (2506 / 10 ^ 20) (204181 / 10 ^ 6) n_a1 h20 (by norm_num) (by norm_num) (by norm_num)
  have h22 := Nb.mul (4246 / 10 ^ 21) (748732 / 10 ^ 8) h2 h21 (by norm_num) (by norm_num) (by norm_num)
  have h23 := Nb.add (3448 / 10 ^ 20) (723461 / 10 ^ 7) h13 h22 (by norm_num) (by norm_num) (by norm_num)
  exact h23

end Pok.Atan
