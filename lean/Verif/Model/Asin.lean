import Verif.Model.Exp
/-!
# The arc sine and the arc cosine

libpok/libm/e_asin.c and libpok/libm/e_acos.c.  `asin` and `acos`, libpok/libm/asin.c 41-54 and libpok/libm/acos.c 36-49, return what these do.  Words and the unit
as in `Verif.Model.Libm`; doubles are given by their bits.
-/
namespace Pok.Asin
open Pok.Fpu Pok.Libm

/-! Constants of libpok/libm/e_asin.c 62-79 and libpok/libm/e_acos.c 55-69. -/
def pi : Nat := 0x400921FB54442D18
def pio2_hi : Nat := 0x3FF921FB54442D18
def pio2_lo : Nat := 0x3C91A62633145C07
def pio4_hi : Nat := 0x3FE921FB54442D18
def pS0 : Nat := 0x3FC5555555555555
def pS1 : Nat := 0xBFD4D61203EB6F7D
def pS2 : Nat := 0x3FC9C1550E884455
def pS3 : Nat := 0xBFA48228B5688F3B
def pS4 : Nat := 0x3F49EFE07501B288
def pS5 : Nat := 0x3F023DE10DFDF709
def qS1 : Nat := 0xC0033A271C8A2D4B
def qS2 : Nat := 0x40002AE59C598AC8
def qS3 : Nat := 0xBFE6066C1B8D0159
def qS4 : Nat := 0x3FB3B8C5B12E9282
def two : Nat := 0x4000000000000000
def half : Nat := 0x3FE0000000000000

/-- `p`, libpok/libm/e_asin.c 101. -/
def num (t : Nat) : Nat := mul t (add pS0 (mul t (add pS1 (mul t (add pS2 (mul t (add pS3 (mul t (add pS4 (mul t pS5))))))))))

/-- `q`, libpok/libm/e_asin.c 102. -/
def den (t : Nat) : Nat := add one (mul t (add qS1 (mul t (add qS2 (mul t (add qS3 (mul t qS4)))))))

/-- `__ieee754_asin` for magnitudes from 1/2 to 1, before the sign, libpok/libm/e_asin.c 107-123. -/
def upper (x : Nat) : Nat :=
  let t := mul (sub one (fabs x)) half
  let s := sqrt t
  if 0x3FEF3333 ≤ hi x &&& 0x7fffffff then
    sub pio2_hi (sub (mul two (add s (mul s (div (num t) (den t))))) pio2_lo)
  else
    let w := insert (hi s) 0
    let c := div (sub t (mul w w)) (add s w)
    let p := sub (mul (mul two s) (div (num t) (den t))) (sub pio2_lo (mul two c))
    sub pio4_hi (sub p (sub pio4_hi (mul two w)))

/-- `__ieee754_asin`, libpok/libm/e_asin.c 81-128. -/
def asin (x : Nat) : Nat :=
  let ix := hi x &&& 0x7fffffff
  if 0x3ff00000 ≤ ix then
    if (ix - 0x3ff00000) ||| lo x = 0 then add (mul x pio2_hi) (mul x pio2_lo) else div (sub x x) (sub x x)
  else if ix < 0x3fe00000 then
    if ix < 0x3e400000 ∧ lt one (add Exp.huge x) then x
    else
      let t := if ix < 0x3e400000 then 0 else mul x x
      add x (mul x (div (num t) (den t)))
  else if 0 < hi x ∧ hi x < 2 ^ 31 then upper x else negate (upper x)

/-- `__ieee754_acos`, libpok/libm/e_acos.c 71-115. -/
def acos (x : Nat) : Nat :=
  let ix := hi x &&& 0x7fffffff
  if 0x3ff00000 ≤ ix then
    if (ix - 0x3ff00000) ||| lo x = 0 then (if 0 < hi x ∧ hi x < 2 ^ 31 then 0 else add pi (mul two pio2_lo)) else div (sub x x) (sub x x)
  else if ix < 0x3fe00000 then
    if ix ≤ 0x3c600000 then add pio2_hi pio2_lo
    else
      let z := mul x x
      sub pio2_hi (sub x (sub pio2_lo (mul x (div (num z) (den z)))))
  else if 2 ^ 31 ≤ hi x then
    let z := mul (add one x) half
    let s := sqrt z
    let w := sub (mul (div (num z) (den z)) s) pio2_lo
    sub pi (mul two (add s w))
  else
    let z := mul (sub one x) half
    let s := sqrt z
    let df := insert (hi s) 0
    let c := div (sub z (mul df df)) (add s df)
    let w := add (mul (div (num z) (den z)) s) c
    mul two (add df w)

end Pok.Asin
