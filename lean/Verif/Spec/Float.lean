import Mathlib.Data.Rat.Floor
import Mathlib.Algebra.Order.Ring.Abs
import Mathlib.Algebra.Order.Field.Rat
/-!
# What a double is

IEEE 754 binary64: 1 sign bit, 11 exponent bits, 52 fraction bits.  A double is given by the number its 64 bits form.
-/
namespace Pok.Float

/-- The sign bit. -/
def sign (d : Nat) : Nat := d / 2 ^ 63 % 2

/-- The eleven exponent bits. -/
def expo (d : Nat) : Nat := d / 2 ^ 52 % 2 ^ 11

/-- The 52 bits of the fraction. -/
def frac (d : Nat) : Nat := d % 2 ^ 52

def IsNaN (d : Nat) : Prop := expo d = 2047 ∧ frac d ≠ 0
def IsInf (d : Nat) : Prop := expo d = 2047 ∧ frac d = 0
def IsFinite (d : Nat) : Prop := expo d ≠ 2047
def IsZero (d : Nat) : Prop := expo d = 0 ∧ frac d = 0
def Subnormal (d : Nat) : Prop := expo d = 0 ∧ frac d ≠ 0
def Normal (d : Nat) : Prop := expo d ≠ 0 ∧ expo d ≠ 2047

instance (d : Nat) : Decidable (IsNaN d) := inferInstanceAs (Decidable (_ ∧ _))
instance (d : Nat) : Decidable (IsInf d) := inferInstanceAs (Decidable (_ ∧ _))
instance (d : Nat) : Decidable (IsFinite d) := inferInstanceAs (Decidable (_ ≠ _))
instance (d : Nat) : Decidable (IsZero d) := inferInstanceAs (Decidable (_ ∧ _))
instance (d : Nat) : Decidable (Subnormal d) := inferInstanceAs (Decidable (_ ∧ _))
instance (d : Nat) : Decidable (Normal d) := inferInstanceAs (Decidable (_ ∧ _))

/-- The number that a finite double stands for: `± 1.f × 2^(e - 1023)`, or `± 0.f × 2^(-1022)` when the exponent bits are zero. -/
def value (d : Nat) : ℚ :=
  (-1) ^ sign d *
    (if expo d = 0 then ((frac d : ℚ) / 2 ^ 52) * (2 : ℚ) ^ (-1022 : ℤ) else (1 + (frac d : ℚ) / 2 ^ 52) * (2 : ℚ) ^ ((expo d : ℤ) - 1023))

/-- The place of a double among the doubles: how many steps it is above zero. -/
def rank (d : Nat) : ℤ := if sign d = 1 then -((d % 2 ^ 63 : Nat) : ℤ) else ((d % 2 ^ 63 : Nat) : ℤ)

/-- `r` is a double nearest to the number `x`, with the even fraction if there are two. -/
def Nearest (x : ℚ) (r : Nat) : Prop :=
  IsFinite r ∧ (∀ d, d < 2 ^ 64 → IsFinite d → |value r - x| ≤ |value d - x|)
    ∧ (∀ d, d < 2 ^ 64 → IsFinite d → |value d - x| = |value r - x| → value d ≠ value r → frac r % 2 = 0)

/-- `r` is the number `x`, of sign `s`, rounded to a double: the nearest double, or the infinite for numbers from the middle between the greatest
double and the next power of two on.  The sign is given apart for numbers that are rounded to zero. -/
def Rounded (x : ℚ) (s : Nat) (r : Nat) : Prop :=
  r < 2 ^ 64 ∧ sign r = s ∧ (if |x| < (2 ^ 54 - 1) * 2 ^ 970 then Nearest x r else IsInf r)

end Pok.Float
