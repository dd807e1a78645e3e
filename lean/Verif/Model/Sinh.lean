import Verif.Model.Cosh
/-!
# The hyperbolic sine and tangent (libpok/libm/e_sinh.c, libpok/libm/sinh.c, libpok/libm/tanh.c)

Doubles are bit patterns, the operations those of `Verif.Model.Fpu`, rounded to nearest.
-/
namespace Pok.Sinh
open Pok.Libm Pok.Fpu Pok.Cosh

/-- `shuge`, libpok/libm/e_sinh.c 50: 1.0e307. -/
def shuge : Nat := 0x7fac7b1f3cac7433

/-- `__ieee754_sinh`, libpok/libm/e_sinh.c 52-93, which `sinh` of libpok/libm/sinh.c 41-55 returns (the build with `_IEEE_LIBM`). -/
def sinh (x : Nat) : Nat :=
  let jx := hi x
  let ix := jx &&& 0x7fffffff
  if 0x7ff00000 ≤ ix then add x x
  else
    let h := if 0x80000000 ≤ jx then mhalf else half
    if ix < 0x40360000 then
      if ix < 0x3e300000 ∧ lt one (add shuge x) then x
      else
        let t := expm1 (fabs x)
        if ix < 0x3ff00000 then mul h (sub (mul two t) (div (mul t t) (add t one)))
        else mul h (add t (div t (add t one)))
    else if ix < 0x40862E42 then mul h (Exp.exp (fabs x))
    else if ix < 0x408633CE ∨ ix = 0x408633ce ∧ lo x ≤ 0x8fb9f87d then
      let w := Exp.exp (mul half (fabs x))
      mul (mul h w) w
    else mul x shuge

/-- `tiny`, libpok/libm/tanh.c 56: 1.0e-300. -/
def tiny : Nat := 0x01a56e1fc2f8f359

/-- `tanh`, libpok/libm/tanh.c 58-90. -/
def tanh (x : Nat) : Nat :=
  let jx := hi x
  let ix := jx &&& 0x7fffffff
  if 0x7ff00000 ≤ ix then
    if jx < 0x80000000 then add (div one x) one else sub (div one x) one
  else if ix < 0x3c800000 then mul x (add one x)
  else
    let z :=
      if ix < 0x40360000 then
        if 0x3ff00000 ≤ ix then
          let t := expm1 (mul two (fabs x))
          sub one (div two (add t two))
        else
          let t := expm1 (mul mtwo (fabs x))
          div (negate t) (add t two)
      else sub one tiny
    if jx < 0x80000000 then z else negate z

end Pok.Sinh
