import Verif.Model.Trig
import Verif.Model.Pow
/-!
# The exponential function

libpok/libm/e_exp.c and libpok/libm/exp.c.  Words and the unit as in `Verif.Model.Libm`; doubles are given by their bits.
-/
namespace Pok.Exp
open Pok.Fpu Pok.Libm Pok.Trig

/-! Constants of libpok/libm/e_exp.c 94-121, and 2.0. -/
def halF (xsb : Nat) : Nat := if xsb = 0 then 0x3FE0000000000000 else 0xBFE0000000000000
def huge : Nat := 0x7e37e43c8800759c
def twom1000 : Nat := 0x0170000000000000
def o_threshold : Nat := 0x40862E42FEFA39EF
def u_threshold : Nat := 0xc0874910D52D3051
def ln2HI (xsb : Nat) : Nat := if xsb = 0 then 0x3fe62e42fee00000 else 0xbfe62e42fee00000
def ln2LO (xsb : Nat) : Nat := if xsb = 0 then 0x3dea39ef35793c76 else 0xbdea39ef35793c76
def invln2 : Nat := 0x3ff71547652b82fe
def P1 : Nat := 0x3FC555555555553E
def P2 : Nat := 0xBF66C16C16BEBD93
def P3 : Nat := 0x3F11566AAF25DE2C
def P4 : Nat := 0xBEBBBD41C5D26BF1
def P5 : Nat := 0x3E66376972BEA4D0
def two : Nat := 0x4000000000000000

/-- `x` in the primary range: `c`, libpok/libm/e_exp.c 169-170. -/
def primary (x : Nat) : Nat :=
  let t := mul x x
  sub x (mul t (add P1 (mul t (add P2 (mul t (add P3 (mul t (add P4 (mul t P5)))))))))

/-- The rest with a reduced argument, libpok/libm/e_exp.c 168-186.  The sum of the high word and a shifted `k` is taken modulo `2^32`. -/
def finish (x hi' lo' : Nat) (k : Int) : Nat :=
  let c := primary x
  if k = 0 then sub one (sub (div (mul x c) (sub c two)) x)
  else
    let y := sub one (sub (sub lo' (div (mul x c) (sub two c))) hi')
    if k ≥ -1021 then setHi y ((((hi y : Nat) : Int) + k * 2 ^ 20) % 2 ^ 32).toNat
    else mul (setHi y ((((hi y : Nat) : Int) + (k + 1000) * 2 ^ 20) % 2 ^ 32).toNat) twom1000

/-- `__ieee754_exp`, libpok/libm/e_exp.c 123-187, which `exp` of libpok/libm/exp.c 36-53 returns (the build with `_IEEE_LIBM`). -/
def exp (x : Nat) : Nat :=
  let xsb := hi x >>> 31 &&& 1
  let hx := hi x &&& 0x7fffffff
  if 0x40862E42 ≤ hx ∧ 0x7ff00000 ≤ hx then
    if (hx &&& 0xfffff ||| lo x) ≠ 0 then add x x else if xsb = 0 then x else 0
  else if 0x40862E42 ≤ hx ∧ lt o_threshold x then mul huge huge
  else if 0x40862E42 ≤ hx ∧ lt x u_threshold then mul twom1000 twom1000
  else if 0x3fd62e42 < hx then
    if hx < 0x3FF0A2B2 then
      let hi' := sub x (ln2HI xsb)
      let lo' := ln2LO xsb
      finish (sub hi' lo') hi' lo' (1 - xsb - xsb)
    else
      let k := toInt (add (mul invln2 x) (halF xsb))
      let t := ofInt k
      let hi' := sub x (mul t (ln2HI 0))
      let lo' := mul t (ln2LO 0)
      finish (sub hi' lo') hi' lo' k
  else if hx < 0x3e300000 ∧ lt one (add huge x) then add one x
  else finish x 0 0 0

end Pok.Exp
