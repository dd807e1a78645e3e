/-!
# The floating-point unit

What the machine does for `+`, `-`, `*` and the comparisons of doubles in libpok/libm: IEEE 754 binary64, rounding to nearest, ties to even.
This is not code of the repository: it is what the code relies on.  Simplifications: every operation is rounded to a double (on x86 the code
can be compiled to x87 instructions, which keep 64 bits of precision in registers), status flags are left out, and of two `NaN` operands the
first is returned.  A double is the number that its 64 bits form.
-/
namespace Pok.Fpu

/-- The bits without the sign. -/
def mag (d : Nat) : Nat := d % 2 ^ 63

/-- Whether the sign bit is set. -/
def neg (d : Nat) : Bool := d / 2 ^ 63 % 2 = 1

/-- The magnitude of a finite double, as a multiple of the least positive double, `2^-1074`. -/
def units (m : Nat) : Nat := if m / 2 ^ 52 = 0 then m else (2 ^ 52 + m % 2 ^ 52) * 2 ^ (m / 2 ^ 52 - 1)

/-- The signed multiple of `2^-1074`. -/
def sunits (d : Nat) : Int := if neg d then - (units (mag d) : Int) else units (mag d)

/-- `n / 2^s` rounded to the nearest integer, ties to even. -/
def rne (n s : Nat) : Nat :=
  if 2 * (n % 2 ^ s) < 2 ^ s ∨ (2 * (n % 2 ^ s) = 2 ^ s ∧ n / 2 ^ s % 2 = 0) then n / 2 ^ s else n / 2 ^ s + 1

/-- `n / 2^s` multiples of `2^-1074` rounded to a double, without sign; the infinite when it is too large. -/
def roundMag (n s : Nat) : Nat :=
  min ((Nat.log2 (n / 2 ^ s) - 52) * 2 ^ 52 + rne n (s + (Nat.log2 (n / 2 ^ s) - 52))) (2047 * 2 ^ 52)

/-- Sign bit. -/
def withSign (s : Bool) (m : Nat) : Nat := if s then 2 ^ 63 + m else m

/-- The positive infinite. -/
def inf : Nat := 2047 * 2 ^ 52

/-- The `NaN` made by an invalid operation. -/
def nan : Nat := 2 ^ 63 + inf + 2 ^ 51

def isNaN (d : Nat) : Bool := inf < mag d
def isInf (d : Nat) : Bool := mag d = inf

/-- A `NaN` operand comes out quiet. -/
def quiet (d : Nat) : Nat := if d / 2 ^ 51 % 2 = 1 then d else d + 2 ^ 51

/-- `-a`. -/
def negate (a : Nat) : Nat := if neg a then a - 2 ^ 63 else a + 2 ^ 63

/-- `a + b`. -/
def add (a b : Nat) : Nat :=
  if isNaN a then quiet a
  else if isNaN b then quiet b
  else if isInf a then (if isInf b && neg a != neg b then nan else a)
  else if isInf b then b
  else if sunits a + sunits b = 0 then (if neg a && neg b then 2 ^ 63 else 0)
  else withSign (sunits a + sunits b < 0) (roundMag (sunits a + sunits b).natAbs 0)

/-- `a - b`. -/
def sub (a b : Nat) : Nat := if isNaN b then (if isNaN a then quiet a else quiet b) else add a (negate b)

/-- `a * b`. -/
def mul (a b : Nat) : Nat :=
  if isNaN a then quiet a
  else if isNaN b then quiet b
  else if isInf a || isInf b then (if mag a = 0 || mag b = 0 then nan else withSign (neg a != neg b) inf)
  else withSign (neg a != neg b) (roundMag (units (mag a) * units (mag b)) 1074)

/-- Order key of a double that is not a `NaN`. -/
def key (d : Nat) : Int := if neg d then - (mag d : Int) else mag d

/-- `a < b`. -/
def lt (a b : Nat) : Bool := !isNaN a && !isNaN b && key a < key b

/-- `a <= b`. -/
def le (a b : Nat) : Bool := !isNaN a && !isNaN b && key a ≤ key b

/-- `a == b`. -/
def eq (a b : Nat) : Bool := !isNaN a && !isNaN b && key a = key b

end Pok.Fpu
