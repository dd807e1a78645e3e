import Verif.Spec.Float
import Mathlib.Analysis.SpecialFunctions.Trigonometric.Basic
/-!
# Doubles nearest to real numbers, and the angles of infinitely distant points
-/
namespace Pok.Float

/-- No double is nearer to the real number `t` than the double `d`. -/
def Closest (t : ℝ) (d : Nat) : Prop := IsFinite d ∧ ∀ e, e < 2 ^ 64 → IsFinite e → |(value d : ℝ) - t| ≤ |(value e : ℝ) - t|

/-- The angle, apart from its sign, of a point with an infinite coordinate: a diagonal if both are infinite, otherwise the axis of the infinite one. -/
noncomputable def farAngle (y x : Nat) : ℝ :=
  if IsInf x ∧ IsInf y then (if sign x = 0 then Real.pi / 4 else 3 * Real.pi / 4)
  else if IsInf y then Real.pi / 2
  else if sign x = 0 then 0 else Real.pi

end Pok.Float
