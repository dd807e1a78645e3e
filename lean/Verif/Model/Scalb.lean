import Verif.Model.Exp
/-!
# Scaling by a double, and the significand

libpok/libm/e_scalb.c, libpok/libm/scalb.c and libpok/libm/significand.c, without `_SCALB_INT` and with `_IEEE_LIBM`.  Doubles are given by their bits.
-/
namespace Pok.Libm
open Pok.Fpu

/-- 65000.0, libpok/libm/e_scalb.c 57 and 59. -/
def scaleLimit : Nat := 0x40EFBD0000000000

/-- `__ieee754_scalb`, libpok/libm/e_scalb.c 41-63, which `scalb` of libpok/libm/scalb.c 43-65 returns. -/
def scalb (x fn : Nat) : Nat :=
  if isnan x ≠ 0 ∨ isnan fn ≠ 0 then mul x fn
  else if finite fn = 0 then (if lt 0 fn then mul x fn else div x (negate fn))
  else if !eq (rint fn) fn then div (sub fn fn) (sub fn fn)
  else if lt scaleLimit fn then scalbn x 65000
  else if lt scaleLimit (negate fn) then scalbn x (-65000)
  else scalbn x (Trig.toInt fn)

/-- `significand`, libpok/libm/significand.c 38. -/
def significand (x : Nat) : Nat := scalb x (ofInt (-(ilogb x)))

end Pok.Libm
