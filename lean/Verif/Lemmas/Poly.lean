import Mathlib.Algebra.Order.Floor.Semiring
import Mathlib.Data.Real.Archimedean
import Mathlib.Data.Rat.Cast.Order
import Mathlib.Data.Real.Basic
import Mathlib.Tactic.Linarith
import Mathlib.Tactic.Positivity
import Mathlib.Tactic.Ring
/-!
# Bounds of polynomials on intervals

A polynomial with rational coefficients, expanded around the middle of each of a number of small intervals, is bounded there by the sum of the
magnitudes of its terms.
-/
namespace Pok.Poly

/-- The polynomial with the coefficients `l`, lowest degree first, at `t`. -/
noncomputable def ev : List ℚ → ℝ → ℝ
  | [], _ => 0
  | a :: l, t => a + t * ev l t

/-- Sum of polynomials. -/
def plus : List ℚ → List ℚ → List ℚ
  | [], l => l
  | l, [] => l
  | a :: l, b :: m => (a + b) :: plus l m

/-- The coefficients around `c`. -/
def shift (c : ℚ) : List ℚ → List ℚ
  | [] => []
  | a :: l => plus (a :: shift c l) ((shift c l).map (c * ·))

/-- Sum of the magnitudes of the terms at `h`. -/
def size (h : ℚ) : List ℚ → ℚ
  | [] => 0
  | a :: l => |a| + h * size h l

/-- Whether the polynomial is at most `e` on `n` intervals of radius `h` next to each other from `a` on. -/
def ok (l : List ℚ) (a h e : ℚ) (n : Nat) : Bool := (List.range n).all fun i => size h (shift (a + (2 * i + 1) * h) l) ≤ e

theorem ev_plus (l m : List ℚ) (t : ℝ) : ev (plus l m) t = ev l t + ev m t := by
  induction l generalizing m with
  | nil => simp [plus, ev]
  | cons a l ih =>
    cases m with
    | nil => simp [plus, ev]
    | cons b m => simp only [plus, ev, ih]; push_cast; ring

theorem ev_scale (c : ℚ) (l : List ℚ) (t : ℝ) : ev (l.map (c * ·)) t = c * ev l t := by
  induction l with
  | nil => simp [ev]
  | cons a l ih => simp only [List.map_cons, ev, ih]; push_cast; ring

theorem ev_shift (c : ℚ) (l : List ℚ) (t : ℝ) : ev (shift c l) t = ev l (c + t) := by
  induction l with
  | nil => rfl
  | cons a l ih => simp only [shift, ev_plus, ev_scale, ev, ih]; ring

theorem size_nonneg {h : ℚ} (h0 : 0 ≤ h) (l : List ℚ) : 0 ≤ size h l := by
  induction l with
  | nil => exact le_rfl
  | cons a l ih => exact add_nonneg (abs_nonneg _) (mul_nonneg h0 ih)

theorem ev_le {h : ℚ} (h0 : 0 ≤ h) (l : List ℚ) {t : ℝ} (ht : |t| ≤ h) : |ev l t| ≤ size h l := by
  induction l with
  | nil => simp [ev, size]
  | cons a l ih =>
    simp only [ev, size]
    push_cast
    refine le_trans (abs_add_le _ _) (add_le_add le_rfl ?_)
    rw [abs_mul]
    exact mul_le_mul ht ih (abs_nonneg _) (by exact_mod_cast h0)

theorem ev_ok {l : List ℚ} {a h e : ℚ} {n : Nat} (h0 : 0 < h) (hok : ok l a h e n = true) {t : ℝ} (t0 : (a : ℝ) ≤ t) (t1 : t < a + 2 * n * h) :
    |ev l t| ≤ e := by
  have hr : (0 : ℝ) < h := by exact_mod_cast h0
  obtain ⟨i, hi, hi1, hi2⟩ : ∃ i : Nat, i < n ∧ (2 * i * h : ℝ) ≤ t - a ∧ t - a ≤ 2 * (i + 1) * h := by
    have p : (0 : ℝ) ≤ (t - a) / (2 * h) := div_nonneg (by linarith) (by linarith)
    refine ⟨⌊(t - a) / (2 * h)⌋₊, ?_, ?_, ?_⟩
    · rw [Nat.floor_lt p, div_lt_iff₀ (by linarith)]; linarith
    · have := Nat.floor_le p
      rw [le_div_iff₀ (by linarith)] at this; linarith
    · have := (Nat.lt_floor_add_one ((t - a) / (2 * h))).le
      rw [div_le_iff₀ (by linarith)] at this; linarith
  have s := (List.all_eq_true.1 hok) i (List.mem_range.2 hi)
  have s := of_decide_eq_true s
  have b := ev_le h0.le (shift (a + (2 * i + 1) * h) l) (t := t - (a + (2 * i + 1) * h)) (by rw [abs_le]; constructor <;> linarith)
  rw [ev_shift] at b
  push_cast at b
  rw [show (a : ℝ) + (2 * i + 1) * h + (t - (a + (2 * i + 1) * h)) = t by ring] at b
  refine le_trans b ?_
  exact_mod_cast s

end Pok.Poly
