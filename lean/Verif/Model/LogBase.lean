import Verif.Model.Log
/-!
# Logarithms to the bases 10 and 2

libpok/libm/e_log10.c and libpok/libm/log10.c, libpok/libm/e_log2.c and libpok/libm/log2.c.
-/
namespace Pok.Log
open Pok.Fpu Pok.Libm Pok.Exp

/-! Constants of libpok/libm/e_log10.c 64-68 and libpok/libm/e_log2.c 31 (the other constants of the latter, 32-39, are those of `Verif.Model.Log`). -/
def ivln10 : Nat := 0x3FDBCB7B1526E50E
def log10_2hi : Nat := 0x3FD34413509F6000
def log10_2lo : Nat := 0x3D59FEF311F12B36
/-- The double closest to 0.6931471805599452862268. -/
def ln2 : Nat := 0x3FE62E42FEFA39EF

/-- The end of `__ieee754_log10` from the test of infinity on, libpok/libm/e_log10.c 89-97; `k0` is 0, or -54 for a number scaled up. -/
def ends10 (x : Nat) (k0 : Int) : Nat :=
  if 0x7ff00000 ≤ hi x then add x x
  else
    let k : Int := k0 + ((hi x >>> 20 : Nat) : Int) - 1023
    let i : Nat := if k < 0 then 1 else 0
    let y := ofInt (k + i)
    let x' := setHi x ((hi x &&& 0x000fffff) ||| ((0x3ff - i) <<< 20))
    add (add (mul y log10_2lo) (mul ivln10 (log x'))) (mul y log10_2hi)

/-- `__ieee754_log10`, libpok/libm/e_log10.c 72-98, which `log10` of libpok/libm/log10.c 36-52 returns (the build with `_IEEE_LIBM`). -/
def log10 (x : Nat) : Nat :=
  if neg32 (hi x) ∨ hi x < 0x00100000 then
    if (hi x &&& 0x7fffffff ||| lo x) = 0 then div (negate two54) zero
    else if neg32 (hi x) then div (sub x x) zero
    else ends10 (mul x two54) (-54)
  else ends10 x 0

/-- The dividend of the end of `__ieee754_log2`, libpok/libm/e_log2.c 69-88: what is divided by `ln2`.  `tail` and `middle` are the same lines as in
libpok/libm/e_log.c. -/
def inner2 (f hx : Nat) : Nat :=
  if (0x000fffff &&& (2 + hx)) < 3 then
    let R := mul (mul f f) (sub half (mul third f))
    sub R f
  else
    let s := div f (add two f)
    let R := tail s
    if middle hx then
      let hfsq := mul (mul half f) f
      sub (sub hfsq (mul s (add hfsq R))) f
    else sub (mul s (sub f R)) f

/-- The logarithm of `2^k (1 + f)` to the base 2, libpok/libm/e_log2.c 68-88. -/
def main2 (f hx : Nat) (k : Int) : Nat :=
  if (0x000fffff &&& (2 + hx)) < 3 ∧ eq f zero then ofInt k
  else sub (ofInt k) (div (inner2 f hx) ln2)

/-- Exponent and fraction, libpok/libm/e_log2.c 60-67. -/
def split2 (x : Nat) (k : Int) : Nat :=
  if 0x7ff00000 ≤ hi x then add x x
  else
    let hx := hi x &&& 0x000fffff
    let i := (hx + 0x95f64) &&& 0x100000
    let y := setHi x (hx ||| (i ^^^ 0x3ff00000))
    main2 (sub y one) hx (k + ((hi x >>> 20 : Nat) : Int) - 1023 + ((i >>> 20 : Nat) : Int))

/-- `__ieee754_log2`, libpok/libm/e_log2.c 43-89, which `log2` of libpok/libm/log2.c 36-52 returns (the build with `_IEEE_LIBM`). -/
def log2 (x : Nat) : Nat :=
  if neg32 (hi x) ∨ hi x < 0x00100000 then
    if (hi x &&& 0x7fffffff ||| lo x) = 0 then div (negate two54) zero
    else if neg32 (hi x) then div (sub x x) zero
    else split2 (mul x two54) (-54)
  else split2 x 0

end Pok.Log
