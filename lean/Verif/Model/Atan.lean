import Verif.Model.Exp
/-!
# The arc tangent

libpok/libm/atan.c.  Words and the unit as in `Verif.Model.Libm`; doubles are given by their bits.
-/
namespace Pok.Atan
open Pok.Fpu Pok.Libm Pok.Trig

/-! Constants of libpok/libm/atan.c 53-81, 1.5 and -1.0. -/
def hi0 : Nat := 0x3FDDAC670561BB4F
def hi1 : Nat := 0x3FE921FB54442D18
def hi2 : Nat := 0x3FEF730BD281F69B
def hi3 : Nat := 0x3FF921FB54442D18
def lo0 : Nat := 0x3C7A2B7F222F65E2
def lo1 : Nat := 0x3C81A62633145C07
def lo2 : Nat := 0x3C7007887AF0CBBD
def lo3 : Nat := 0x3C91A62633145C07
def a0 : Nat := 0x3FD555555555550D
def a1 : Nat := 0xBFC999999998EBC4
def a2 : Nat := 0x3FC24924920083FF
def a3 : Nat := 0xBFBC71C6FE231671
def a4 : Nat := 0x3FB745CDC54C206E
def a5 : Nat := 0xBFB3B0F2AF749A6D
def a6 : Nat := 0x3FB10D66A0D03D51
def a7 : Nat := 0xBFADDE2D52DEFD9A
def a8 : Nat := 0x3FA97B4B24760DEB
def a9 : Nat := 0xBFA2B4442C6A6C2F
def a10 : Nat := 0x3F90AD3AE322DA11
def three_halves : Nat := 0x3ff8000000000000
def minus_one : Nat := 0xbff0000000000000

/-- `s1 + s2` for the reduced argument, libpok/libm/atan.c 126-131. -/
def tail (x : Nat) : Nat :=
  let z := mul x x
  let w := mul z z
  let s1 := mul z (add a0 (mul w (add a2 (mul w (add a4 (mul w (add a6 (mul w (add a8 (mul w a10))))))))))
  let s2 := mul w (add a1 (mul w (add a3 (mul w (add a5 (mul w (add a7 (mul w a9))))))))
  add s1 s2

/-- The end with one of the four breakpoints, libpok/libm/atan.c 134-136: `h` and `l` are the entries of `atanhi` and `atanlo`. -/
def finish (hx x h l : Nat) : Nat :=
  let z := sub h (sub (sub (mul x (tail x)) l) x)
  if neg32 hx then negate z else z

/-- `atan`, libpok/libm/atan.c 83-138. -/
def atan (x : Nat) : Nat :=
  let hx := hi x
  let ix := hx &&& 0x7fffffff
  if 0x44100000 ≤ ix then
    if 0x7ff00000 < ix ∨ (ix = 0x7ff00000 ∧ lo x ≠ 0) then add x x
    else if !neg32 hx && hx ≠ 0 then add hi3 lo3 else sub (negate hi3) lo3
  else if ix < 0x3fdc0000 then
    if ix < 0x3e200000 ∧ lt one (add Exp.huge x) then x
    else sub x (mul x (tail x))
  else
    let x := fabs x
    if ix < 0x3ff30000 then
      if ix < 0x3fe60000 then finish hx (div (sub (mul Exp.two x) one) (add Exp.two x)) hi0 lo0
      else finish hx (div (sub x one) (add x one)) hi1 lo1
    else if ix < 0x40038000 then finish hx (div (sub x three_halves) (add one (mul three_halves x))) hi2 lo2
    else finish hx (div minus_one x) hi3 lo3

end Pok.Atan
