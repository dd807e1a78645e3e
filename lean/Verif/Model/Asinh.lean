import Verif.Model.Log
import Verif.Model.Exp
/-!
# The inverses of the hyperbolic sine and cosine

libpok/libm/asinh.c, libpok/libm/e_acosh.c and libpok/libm/log1p.c.  Words and the unit as in `Verif.Model.Libm`; doubles are given by their bits.
-/
namespace Pok.Asinh
open Pok.Fpu Pok.Libm Pok.Log

/-! Constants of libpok/libm/log1p.c 97-108, libpok/libm/asinh.c 44-47 and libpok/libm/e_acosh.c 46-48. -/
def ln2_hi : Nat := 0x3fe62e42fee00000
def ln2_lo : Nat := 0x3dea39ef35793c76
def two54 : Nat := 0x4350000000000000
def Lp1 : Nat := 0x3FE5555555555593
def Lp2 : Nat := 0x3FD999999997FA04
def Lp3 : Nat := 0x3FD2492494229359
def Lp4 : Nat := 0x3FCC71C51D8E78AF
def Lp5 : Nat := 0x3FC7466496CB03DE
def Lp6 : Nat := 0x3FC39A09D078C69F
def Lp7 : Nat := 0x3FC2F112DF3E5244
def ln2 : Nat := 0x3FE62E42FEFA39EF
def two : Nat := 0x4000000000000000
def half : Nat := 0x3FE0000000000000
def two_thirds : Nat := 0x3FE5555555555555
def minus_one : Nat := 0xBFF0000000000000

/-- The last steps of `log1p`, libpok/libm/log1p.c 165-188. -/
def finish (f c : Nat) (k : Int) (hu : Nat) : Nat :=
  let hfsq := mul (mul half f) f
  let K := ofInt k
  if hu = 0 then
    if eq f 0 then
      if k = 0 then 0 else add (mul K ln2_hi) (add c (mul K ln2_lo))
    else
      let R := mul hfsq (sub one (mul two_thirds f))
      if k = 0 then sub f R else sub (mul K ln2_hi) (sub (sub R (add (mul K ln2_lo) c)) f)
  else
    let s := div f (add two f)
    let z := mul s s
    let R := mul z (add Lp1 (mul z (add Lp2 (mul z (add Lp3 (mul z (add Lp4 (mul z (add Lp5 (mul z (add Lp6 (mul z Lp7))))))))))))
    if k = 0 then sub f (sub hfsq (mul s (add hfsq R)))
    else sub (mul K ln2_hi) (sub (sub hfsq (add (mul s (add hfsq R)) (add (mul K ln2_lo) c))) f)

/-- `log1p` for an argument that is reduced, libpok/libm/log1p.c 142-164. -/
def reduced (x : Nat) : Nat :=
  let u := if hi x < 0x43400000 ∨ 2 ^ 31 ≤ hi x then add one x else x
  let k : Int := (hi u >>> 20 : Nat) - (1023 : Int)
  let c := if hi x < 0x43400000 ∨ 2 ^ 31 ≤ hi x then div (if 0 < k then sub one (sub u x) else sub x (sub u one)) u else 0
  let hu := hi u &&& 0x000fffff
  if hu < 0x6a09e then finish (sub (setHi u (hu ||| 0x3ff00000)) one) c k hu
  else finish (sub (setHi u (hu ||| 0x3fe00000)) one) c (k + 1) ((0x00100000 - hu) >>> 2)

/-- `log1p`, libpok/libm/log1p.c 110-189.  Negative high words are those from 2^31 on. -/
def log1p (x : Nat) : Nat :=
  let hx := hi x
  let ax := hx &&& 0x7fffffff
  if hx < 0x3FDA827A ∨ 2 ^ 31 ≤ hx then
    if 0x3ff00000 ≤ ax then (if eq x minus_one then div (negate two54) 0 else div (sub x x) (sub x x))
    else if ax < 0x3e200000 then (if lt 0 (add two54 x) ∧ ax < 0x3c900000 then x else sub x (mul (mul x x) half))
    else if (0 < hx ∧ hx < 2 ^ 31) ∨ (2 ^ 31 ≤ hx ∧ hx ≤ 0xbfd2bec3) then finish x 0 0 1
    else reduced x
  else if 0x7ff00000 ≤ hx then add x x
  else reduced x

/-- `w` of `asinh`, libpok/libm/asinh.c 60-68. -/
def logOf (x : Nat) : Nat :=
  let ix := hi x &&& 0x7fffffff
  if 0x41b00000 < ix then add (log (fabs x)) ln2
  else if 0x40000000 < ix then
    log (add (mul two (fabs x)) (div one (add (sqrt (add (mul x x) one)) (fabs x))))
  else log1p (add (fabs x) (div (mul x x) (add one (sqrt (add one (mul x x))))))

/-- `asinh`, libpok/libm/asinh.c 49-73. -/
def asinh (x : Nat) : Nat :=
  let ix := hi x &&& 0x7fffffff
  if 0x7ff00000 ≤ ix then add x x
  else if ix < 0x3e300000 ∧ lt one (add Exp.huge x) then x
  else if 0 < hi x ∧ hi x < 2 ^ 31 then logOf x else negate (logOf x)

/-- `__ieee754_acosh`, libpok/libm/e_acosh.c 50-71. -/
def acosh (x : Nat) : Nat :=
  let hx := hi x
  if hx < 0x3ff00000 ∨ 2 ^ 31 ≤ hx then div (sub x x) (sub x x)
  else if 0x41b00000 ≤ hx then (if 0x7ff00000 ≤ hx then add x x else add (log x) ln2)
  else if (hx - 0x3ff00000) ||| lo x = 0 then 0
  else if 0x40000000 < hx then log (sub (mul two x) (div one (add x (sqrt (sub (mul x x) one)))))
  else
    let t := sub x one
    log1p (add t (sqrt (add (mul two t) (mul t t))))

end Pok.Asinh
