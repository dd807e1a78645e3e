import Verif.Model.Exp
/-!
# The exponential minus one and the hyperbolic cosine

libpok/libm/expm1.c, libpok/libm/e_cosh.c and libpok/libm/cosh.c.  Words and the unit as in `Verif.Model.Libm`; doubles are given by their bits.
-/
namespace Pok.Cosh
open Pok.Fpu Pok.Libm Pok.Trig

/-! Constants of libpok/libm/expm1.c 127-138, and 0.5, -0.5, 3.0, 6.0, -2.0, -0.25 and -1.0. -/
def huge : Nat := 0x7e37e43c8800759c
def tiny : Nat := 0x01a56e1fc2f8f359
def o_threshold : Nat := 0x40862E42FEFA39EF
def ln2_hi : Nat := 0x3fe62e42fee00000
def ln2_lo : Nat := 0x3dea39ef35793c76
def invln2 : Nat := 0x3ff71547652b82fe
def Q1 : Nat := 0xBFA11111111110F4
def Q2 : Nat := 0x3F5A01A019FE5585
def Q3 : Nat := 0xBF14CE199EAADBB7
def Q4 : Nat := 0x3ED0CFCA86E65239
def Q5 : Nat := 0xBE8AFDB76E09C32D
def half : Nat := 0x3FE0000000000000
def mhalf : Nat := 0xBFE0000000000000
def two : Nat := 0x4000000000000000
def mtwo : Nat := 0xC000000000000000
def three : Nat := 0x4008000000000000
def six : Nat := 0x4018000000000000
def mquarter : Nat := 0xBFD0000000000000
def mone : Nat := 0xBFF0000000000000

/-- `hxs`, libpok/libm/expm1.c 201-202. -/
def square (x : Nat) : Nat := mul x (mul half x)

/-- `e` of the primary range, libpok/libm/expm1.c 201-205. -/
def quotient (x : Nat) : Nat :=
  let hfx := mul half x
  let hxs := square x
  let r1 := add one (mul hxs (add Q1 (mul hxs (add Q2 (mul hxs (add Q3 (mul hxs (add Q4 (mul hxs Q5)))))))))
  let t := sub three (mul r1 hfx)
  mul hxs (div (sub r1 t) (sub six (mul x t)))

/-- A number with `k` added to its exponent, `SET_HIGH_WORD(y, high + (k << 20))`, libpok/libm/expm1.c 223, 232 and 239.  The sum is taken modulo `2^32`. -/
def scaled (y : Nat) (k : Int) : Nat := setHi y ((((hi y : Nat) : Int) + k * 2 ^ 20) % 2 ^ 32).toNat

/-- The rest with a reduced argument `x`, its correction `c` and `k ≠ 0`, libpok/libm/expm1.c 208-242. -/
def finish (x c : Nat) (k : Int) : Nat :=
  let e := sub (sub (mul x (sub (quotient x) c)) c) (square x)
  if k = -1 then sub (mul half (sub x e)) half
  else if k = 1 then
    if lt x mquarter then mul mtwo (sub e (add x half)) else add one (mul two (sub x e))
  else if k ≤ -2 ∨ 56 < k then sub (scaled (sub one (sub e x)) k) one
  else if k < 20 then scaled (sub (setHi one (0x3ff00000 - 0x200000 >>> k.toNat)) (sub e x)) k
  else scaled (add (sub x (add e (setHi one ((0x3ff - k.toNat) <<< 20)))) one) k

/-- `expm1`, libpok/libm/expm1.c 140-243. -/
def expm1 (x : Nat) : Nat :=
  let xsb := hi x &&& 0x80000000
  let hx := hi x &&& 0x7fffffff
  if 0x4043687A ≤ hx ∧ 0x40862E42 ≤ hx ∧ 0x7ff00000 ≤ hx then
    if (hx &&& 0xfffff ||| lo x) ≠ 0 then add x x else if xsb = 0 then x else mone
  else if 0x4043687A ≤ hx ∧ 0x40862E42 ≤ hx ∧ lt o_threshold x then mul huge huge
  else if 0x4043687A ≤ hx ∧ xsb ≠ 0 ∧ lt (add x tiny) 0 then sub tiny one
  else if 0x3fd62e42 < hx then
    let k : Int := if hx < 0x3FF0A2B2 then (if xsb = 0 then 1 else -1) else toInt (add (mul invln2 x) (if xsb = 0 then half else mhalf))
    let hi' := if hx < 0x3FF0A2B2 then (if xsb = 0 then sub x ln2_hi else add x ln2_hi) else sub x (mul (ofInt k) ln2_hi)
    let lo' := if hx < 0x3FF0A2B2 then (if xsb = 0 then ln2_lo else negate ln2_lo) else mul (ofInt k) ln2_lo
    let x' := sub hi' lo'
    finish x' (sub (sub hi' x') lo') k
  else if hx < 0x3c900000 then sub x (sub (add huge x) (add huge x))
  else sub x (sub (mul x (quotient x)) (square x))

/-- `__ieee754_cosh`, libpok/libm/e_cosh.c 54-96, which `cosh` of libpok/libm/cosh.c 41-55 returns (the build with `_IEEE_LIBM`). -/
def cosh (x : Nat) : Nat :=
  let ix := hi x &&& 0x7fffffff
  if 0x7ff00000 ≤ ix then mul x x
  else if ix < 0x3fd62e43 then
    let t := expm1 (fabs x)
    let w := add one t
    if ix < 0x3c800000 then w else add one (div (mul t t) (add w w))
  else if ix < 0x40360000 then
    let t := Exp.exp (fabs x)
    add (mul half t) (div half t)
  else if ix < 0x40862E42 then mul half (Exp.exp (fabs x))
  else if ix < 0x408633CE ∨ ix = 0x408633ce ∧ lo x ≤ 0x8fb9f87d then
    let w := Exp.exp (mul half (fabs x))
    mul (mul half w) w
  else mul huge huge

end Pok.Cosh
