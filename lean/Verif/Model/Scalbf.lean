import Verif.Model.Libmf
/-!
# Scaling by a float, and the significand

libpok/libm/e_scalbf.c, libpok/libm/scalbf.c and libpok/libm/significandf.c, without `_SCALB_INT` and with `_IEEE_LIBM`.  Floats are given by their bits.
-/
namespace Pok.Fpu32

/-- `a / b`, as the unit computes it (not code of the repository).  Twice the quotient is cut to an integer and a last bit says whether something
was cut off: that is enough to round it. -/
def div (a b : Nat) : Nat :=
  if isNaN a then quiet a
  else if isNaN b then quiet b
  else if isInf a then (if isInf b then nan else withSign (neg a != neg b) inf)
  else if isInf b then withSign (neg a != neg b) 0
  else if mag b = 0 then (if mag a = 0 then nan else withSign (neg a != neg b) inf)
  else
    withSign (neg a != neg b)
      (roundMag (2 * (units (mag a) * 2 ^ 150 / units (mag b)) + (if units (mag a) * 2 ^ 150 % units (mag b) = 0 then 0 else 1)) 2)

end Pok.Fpu32

namespace Pok.Libmf
open Pok.Fpu32

/-- 65000.0, libpok/libm/e_scalbf.c 54 and 56. -/
def scaleLimit : Nat := 0x477DE800

/-- A conversion to `int` of a float in its range: the fraction is dropped. -/
def toInt (x : Nat) : Int := Int.tdiv (sunits x) (2 ^ 149)

/-- `__ieee754_scalbf`, libpok/libm/e_scalbf.c 35-60, which `scalbf` of libpok/libm/scalbf.c 44-70 returns. -/
def scalb (x fn : Nat) : Nat :=
  if isnan x ≠ 0 ∨ isnan fn ≠ 0 then mul x fn
  else if finite fn = 0 then (if lt 0 fn then mul x fn else div x (negate fn))
  else if !eq (rint fn) fn then div (sub fn fn) (sub fn fn)
  else if lt scaleLimit fn then scalbn x 65000
  else if lt scaleLimit (negate fn) then scalbn x (-65000)
  else scalbn x (toInt fn)

/-- `significandf`, libpok/libm/significandf.c 35. -/
def significand (x : Nat) : Nat := scalb x (ofInt (-(ilogb x)))

end Pok.Libmf
