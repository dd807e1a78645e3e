import Verif.Model.Libm
import Verif.Model.Pow
/-!
# The cube root

libpok/libm/cbrt.c.  Words and the unit as in `Verif.Model.Libm`; doubles are given by their bits.
-/
namespace Pok.Cbrt
open Pok.Fpu
open Pok.Libm (hi lo setHi insert)

/-- libpok/libm/cbrt.c 36-37. -/
def B1 : Nat := 715094163
def B2 : Nat := 696219795

/-- The constants, libpok/libm/cbrt.c 39-44; the bits are those of the comments there. -/
def C : Nat := 0x3FE15F15F15F15F1
def D : Nat := 0xBFE691DE2532C834
def E : Nat := 0x3FF6A0EA0EA0EA0F
def F : Nat := 0x3FF9B6DB6DB6DB6E
def G : Nat := 0x3FD6DB6DB6DB6DB7

/-- The rough cube root, libpok/libm/cbrt.c 62-70: a third of the exponent and of the mantissa at once.  `x` is positive and `hx` its upper word.  The sums do not exceed
32 bits, as `hx` has 31 bits.  In the first case the lower word of the product stays. -/
def rough (x hx : Nat) : Nat :=
  if hx < 0x00100000 then
    let t := mul (setHi 0 0x43500000) x
    setHi t (hi t / 3 + B2)
  else setHi 0 (hx / 3 + B1)

/-- Better by a rational function, libpok/libm/cbrt.c 72-75. -/
def better (x t : Nat) : Nat :=
  let r := div (mul t t) x
  let s := add C (mul r t)
  mul t (add G (div F (add (add s E) (div D s))))

/-- Cut to 20 bits and rounded up, libpok/libm/cbrt.c 77-79. -/
def cut (t : Nat) : Nat := insert ((hi t + 1) % 2 ^ 32) 0

/-- The last step, libpok/libm/cbrt.c 81-86. -/
def last (x t : Nat) : Nat :=
  let s := mul t t
  let r := div x s
  let w := add t t
  let r := div (sub r t) (add w r)
  add t (mul t r)

/-- libpok/libm/cbrt.c 46-92. -/
def cbrt (x : Nat) : Nat :=
  let hx := hi x
  let sign := hx &&& 0x80000000
  let hx := hx ^^^ sign
  if 0x7ff00000 ≤ hx then add x x
  else if (hx ||| lo x) = 0 then x
  else
    let x := setHi x hx
    let t := last x (cut (better x (rough x hx)))
    setHi t (hi t ||| sign)

end Pok.Cbrt
