import Verif.Spec.Float
/-!
# Whole numbers among the doubles, and doubles above and below one
-/
namespace Pok.Float

/-- A finite double that is a whole number. -/
def IsWhole (y : Nat) : Prop := IsFinite y ∧ ∃ k : ℤ, value y = k

/-- A finite double that is an odd whole number. -/
def IsOdd (y : Nat) : Prop := IsFinite y ∧ ∃ k : ℤ, value y = 2 * k + 1

/-- Of magnitude greater than one. -/
def AboveOne (x : Nat) : Prop := IsInf x ∨ (IsFinite x ∧ 1 < |value x|)

/-- Of magnitude less than one. -/
def BelowOne (x : Nat) : Prop := IsFinite x ∧ |value x| < 1

/-- The number one. -/
def unit : Nat := 1023 * 2 ^ 52

end Pok.Float
