import Mathlib.Data.Rat.Floor
import Mathlib.Algebra.Order.Ring.Abs
import Mathlib.Algebra.Order.Field.Rat
/-!
# What a float is

IEEE 754 binary32: 1 sign bit, 8 exponent bits, 23 fraction bits.  A float is given by the number its 32 bits form.
-/
namespace Pok.Single

/-- The sign bit. -/
def sign (d : Nat) : Nat := d / 2 ^ 31 % 2

/-- The eight exponent bits. -/
def expo (d : Nat) : Nat := d / 2 ^ 23 % 2 ^ 8

/-- The 23 bits of the fraction. -/
def frac (d : Nat) : Nat := d % 2 ^ 23

def IsNaN (d : Nat) : Prop := expo d = 255 ∧ frac d ≠ 0
def IsInf (d : Nat) : Prop := expo d = 255 ∧ frac d = 0
def IsFinite (d : Nat) : Prop := expo d ≠ 255
def IsZero (d : Nat) : Prop := expo d = 0 ∧ frac d = 0
def Subnormal (d : Nat) : Prop := expo d = 0 ∧ frac d ≠ 0
def Normal (d : Nat) : Prop := expo d ≠ 0 ∧ expo d ≠ 255

instance (d : Nat) : Decidable (IsNaN d) := inferInstanceAs (Decidable (_ ∧ _))
instance (d : Nat) : Decidable (IsInf d) := inferInstanceAs (Decidable (_ ∧ _))
instance (d : Nat) : Decidable (IsFinite d) := inferInstanceAs (Decidable (_ ≠ _))
instance (d : Nat) : Decidable (IsZero d) := inferInstanceAs (Decidable (_ ∧ _))
instance (d : Nat) : Decidable (Subnormal d) := inferInstanceAs (Decidable (_ ∧ _))
instance (d : Nat) : Decidable (Normal d) := inferInstanceAs (Decidable (_ ∧ _))

/-- The number that a finite float stands for: `± 1.f × 2^(e - 127)`, or `± 0.f × 2^(-126)` when the exponent bits are zero. -/
def value (d : Nat) : ℚ :=
  (-1) ^ sign d *
    (if expo d = 0 then ((frac d : ℚ) / 2 ^ 23) * (2 : ℚ) ^ (-126 : ℤ) else (1 + (frac d : ℚ) / 2 ^ 23) * (2 : ℚ) ^ ((expo d : ℤ) - 127))

/-- The place of a float among the floats: how many steps it is above zero. -/
def rank (d : Nat) : ℤ := if sign d = 1 then -((d % 2 ^ 31 : Nat) : ℤ) else ((d % 2 ^ 31 : Nat) : ℤ)

/-- `r` is a float nearest to the number `x`, with the even fraction if there are two. -/
def Nearest (x : ℚ) (r : Nat) : Prop :=
  IsFinite r ∧ (∀ d, d < 2 ^ 32 → IsFinite d → |value r - x| ≤ |value d - x|)
    ∧ (∀ d, d < 2 ^ 32 → IsFinite d → |value d - x| = |value r - x| → value d ≠ value r → frac r % 2 = 0)

/-- `r` is the number `x`, of sign `s`, rounded to a float: the nearest float, or the infinite for numbers from the middle between the greatest
float and the next power of two on.  The sign is given apart for numbers that are rounded to zero. -/
def Rounded (x : ℚ) (s : Nat) (r : Nat) : Prop :=
  r < 2 ^ 32 ∧ sign r = s ∧ (if |x| < (2 ^ 25 - 1) * 2 ^ 103 then Nearest x r else IsInf r)

end Pok.Single
