import Verif.Model.Libm
/-!
# The power function

libpok/libm/e_pow.c: everything but the approximation of `|x|^y` itself (lines 228-350), which is a parameter.  Words, signs and the unit as in
`Verif.Model.Libm`.
-/
namespace Pok.Fpu

/-- `a / b`, as the unit computes it (not code of the repository).  Twice the quotient is cut to an integer and a last bit says whether something
was cut off: that is enough to round it. -/
def div (a b : Nat) : Nat :=
  if isNaN a then quiet a
  else if isNaN b then quiet b
  else if isInf a then (if isInf b then nan else withSign (neg a != neg b) inf)
  else if isInf b then withSign (neg a != neg b) 0
  else if mag b = 0 then (if mag a = 0 then nan else withSign (neg a != neg b) inf)
  else
    withSign (neg a != neg b)
      (roundMag (2 * (units (mag a) * 2 ^ 1075 / units (mag b)) + (if units (mag a) * 2 ^ 1075 % units (mag b) = 0 then 0 else 1)) 2)

end Pok.Fpu

namespace Pok.Libm
open Pok.Fpu

/-- `yisint`, libpok/libm/e_pow.c 146-161, for a negative `x`: 0 when `y` is not an integer, 1 when it is odd, 2 when it is even.  `j` is an `int`; the
shift `j << (52 - k)` may leave its range, and is taken modulo `2^32` as the compiler does. -/
def powInt (iy ly : Nat) : Nat :=
  if iy ≥ 0x43400000 then 2
  else if iy ≥ 0x3ff00000 then
    let k := iy >>> 20 - 0x3ff
    if k > 20 then
      let j := ly >>> (52 - k)
      if (j <<< (52 - k)) % 2 ^ 32 = ly then 2 - (j &&& 1) else 0
    else if ly = 0 then
      let j := iy >>> (20 - k)
      if j <<< (20 - k) = iy then 2 - (j &&& 1) else 0
    else 0
  else 0

/-- What the approximation of `|x|^y`, libpok/libm/e_pow.c 228-350, comes to: too large (line 306 or 309), too small (line 313 or 316), or the `z` of
line 351. -/
inductive PowCore where
  | over
  | under
  | val (z : Nat)

/-- The end: `return s * huge * huge`, `return s * tiny * tiny`, `return s * z`, libpok/libm/e_pow.c 306-351. -/
def powEnd (s : Nat) : PowCore → Nat
  | .over => mul (mul s huge) huge
  | .under => mul (mul s tiny) tiny
  | .val z => mul s z

/-- `__ieee754_pow`, libpok/libm/e_pow.c 120-352, and `pow`, libpok/libm/pow.c 36-40.  `core` is the approximation, lines 228-350, which reads only
`ax`, its high word, and `y`. -/
def pow (core : Nat → Nat → PowCore) (x y : Nat) : Nat :=
  let hx := hi x
  let lx := lo x
  let hy := hi y
  let ly := lo y
  let ix := hx &&& 0x7fffffff
  let iy := hy &&& 0x7fffffff
  if iy ||| ly = 0 then one
  else if ix > 0x7ff00000 ∨ (ix = 0x7ff00000 ∧ lx ≠ 0) ∨ iy > 0x7ff00000 ∨ (iy = 0x7ff00000 ∧ ly ≠ 0) then add x y
  else
    let yisint := if neg32 hx then powInt iy ly else 0
    if ly = 0 ∧ iy = 0x7ff00000 then
      if ((ix + 2 ^ 32 - 0x3ff00000) % 2 ^ 32) ||| lx = 0 then sub y y
      else if ix ≥ 0x3ff00000 then (if neg32 hy then 0 else y)
      else if neg32 hy then negate y else 0
    else if ly = 0 ∧ iy = 0x3ff00000 then (if neg32 hy then div one x else x)
    else if ly = 0 ∧ hy = 0x40000000 then mul x x
    else if ly = 0 ∧ hy = 0x3fe00000 ∧ neg32 hx = false then sqrt x
    else
      let ax := fabs x
      if lx = 0 ∧ (ix = 0x7ff00000 ∨ ix = 0 ∨ ix = 0x3ff00000) then
        let z := if neg32 hy then div one ax else ax
        if neg32 hx then
          if ((ix + 2 ^ 32 - 0x3ff00000) % 2 ^ 32) ||| yisint = 0 then div (sub z z) (sub z z)
          else if yisint = 1 then negate z else z
        else z
      else
        let n := if neg32 hx then 0 else 1
        if n ||| yisint = 0 then div (sub x x) (sub x x)
        else
          let s := if n = 0 ∧ yisint = 1 then negate one else one
          if iy > 0x41e00000 then
            if iy > 0x43f00000 ∧ ix ≤ 0x3fefffff then (if neg32 hy then mul huge huge else mul tiny tiny)
            else if iy > 0x43f00000 ∧ ix ≥ 0x3ff00000 then (if int32 hy > 0 then mul huge huge else mul tiny tiny)
            else if ix < 0x3fefffff then powEnd s (if neg32 hy then .over else .under)
            else if ix > 0x3ff00000 then powEnd s (if int32 hy > 0 then .over else .under)
            else powEnd s (core ax y)
          else powEnd s (core ax y)

end Pok.Libm
