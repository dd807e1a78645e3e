import Verif.Model.Exp
/-!
# The natural logarithm

libpok/libm/e_log.c and libpok/libm/log.c.  Words and the unit as in `Verif.Model.Libm`; doubles are given by their bits.
-/
namespace Pok.Log
open Pok.Fpu Pok.Libm Pok.Exp

/-! Constants of libpok/libm/e_log.c 82-93, and those written out in its body. -/
def ln2_hi : Nat := 0x3fe62e42fee00000
def ln2_lo : Nat := 0x3dea39ef35793c76
def two54 : Nat := 0x4350000000000000
def Lg1 : Nat := 0x3FE5555555555593
def Lg2 : Nat := 0x3FD999999997FA04
def Lg3 : Nat := 0x3FD2492494229359
def Lg4 : Nat := 0x3FCC71C51D8E78AF
def Lg5 : Nat := 0x3FC7466496CB03DE
def Lg6 : Nat := 0x3FC39A09D078C69F
def Lg7 : Nat := 0x3FC2F112DF3E5244
def zero : Nat := 0
/-- 0.5. -/
def half : Nat := 0x3FE0000000000000
/-- 0.33333333333333333. -/
def third : Nat := 0x3FD5555555555555

/-- `R` from `s`, libpok/libm/e_log.c 139-146. -/
def tail (s : Nat) : Nat :=
  let z := mul s s
  let w := mul z z
  let t1 := mul w (add Lg2 (mul w (add Lg4 (mul w Lg6))))
  let t2 := mul z (add Lg1 (mul w (add Lg3 (mul w (add Lg5 (mul w Lg7))))))
  add t2 t1

/-- Whether `i > 0` holds in the end, libpok/libm/e_log.c 140, 142, 145, 147: words of 32 bits in two's complement. -/
def middle (hx : Nat) : Bool :=
  let i := (hx + 2 ^ 32 - 0x6147a) % 2 ^ 32
  let j := (0x6b851 + 2 ^ 32 - hx) % 2 ^ 32
  0 < (i ||| j) ∧ (i ||| j) < 2 ^ 31

/-- The logarithm of `2^k (1 + f)`, libpok/libm/e_log.c 120-158; `hx` holds the upper bits of the fraction. -/
def main (f hx : Nat) (k : Int) : Nat :=
  let dk := ofInt k
  if (0x000fffff &&& (2 + hx)) < 3 then
    if eq f zero then (if k = 0 then zero else add (mul dk ln2_hi) (mul dk ln2_lo))
    else
      let R := mul (mul f f) (sub half (mul third f))
      if k = 0 then sub f R else sub (mul dk ln2_hi) (sub (sub R (mul dk ln2_lo)) f)
  else
    let s := div f (add two f)
    let R := tail s
    if middle hx then
      let hfsq := mul (mul half f) f
      if k = 0 then sub f (sub hfsq (mul s (add hfsq R)))
      else sub (mul dk ln2_hi) (sub (sub hfsq (add (mul s (add hfsq R)) (mul dk ln2_lo))) f)
    else if k = 0 then sub f (mul s (sub f R))
    else sub (mul dk ln2_hi) (sub (sub (mul s (sub f R)) (mul dk ln2_lo)) f)

/-- Exponent and fraction, libpok/libm/e_log.c 112-119. -/
def split (x : Nat) (k : Int) : Nat :=
  if 0x7ff00000 ≤ hi x then add x x
  else
    let hx := hi x &&& 0x000fffff
    let i := (hx + 0x95f64) &&& 0x100000
    let y := setHi x (hx ||| (i ^^^ 0x3ff00000))
    main (sub y one) hx (k + ((hi x >>> 20 : Nat) : Int) - 1023 + ((i >>> 20 : Nat) : Int))

/-- `__ieee754_log`, libpok/libm/e_log.c 95-159, which `log` of libpok/libm/log.c 41-55 returns (the build with `_IEEE_LIBM`). -/
def log (x : Nat) : Nat :=
  if neg32 (hi x) ∨ hi x < 0x00100000 then
    if (hi x &&& 0x7fffffff ||| lo x) = 0 then div (negate two54) zero
    else if neg32 (hi x) then div (sub x x) zero
    else split (mul x two54) (-54)
  else split x 0

end Pok.Log
