import Verif.Model.Fpu32
import Verif.Model.Libm
/-!
# The mathematical library, functions that work on the bits of a float

libpok/libm.  A float is the number that its 32 bits form: `GET_FLOAT_WORD` and `SET_FLOAT_WORD`, libpok/libm/math_private.h 158-174, are the
identity.  `int32_t` variables are kept as words, and negative means that bit 31 is set.  The tests `huge + x > 0.0`, there to raise the
inexact flag, hold wherever the code reaches them and are left out.  Operations on floats are those of `Pok.Fpu32`.
-/
namespace Pok.Libmf
open Pok.Fpu32
open Pok.Libm (not32 neg32 minus32 int32 wrap32 normLoop FP_NAN FP_INFINITE FP_NORMAL FP_SUBNORMAL FP_ZERO)

/-- `((i0 >> 23) & 0xff) - 0x7f`. -/
def exponent (i0 : Nat) : Int := ((i0 >>> 23 &&& 0xff : Nat) : Int) - 0x7f

/-- `isnanf`, libpok/libm/isnanf.c 39-45. -/
def isnan (x : Nat) : Int := (((0x7f800000 + 2 ^ 32 - (x &&& 0x7fffffff)) % 2 ^ 32) >>> 31 : Nat)

/-- `isinff`, libpok/libm/isinff.c 30-36. -/
def isinf (x : Nat) : Int := if (x &&& 0x7fffffff) ^^^ 0x7f800000 = 0 then 1 else 0

/-- `finitef`, libpok/libm/finitef.c 40-44. -/
def finite (x : Nat) : Int := ((((x &&& 0x7fffffff) + 2 ^ 32 - 0x7f800000) % 2 ^ 32) >>> 31 : Nat)

/-- `__fpclassifyf`, libpok/libm/fpclassify.c 21-38. -/
def fpclassify (w : Nat) : Nat :=
  if w = 0 ∨ w = 0x80000000 then FP_ZERO
  else if (w ≥ 0x00800000 ∧ w ≤ 0x7f7fffff) ∨ (w ≥ 0x80800000 ∧ w ≤ 0xff7fffff) then FP_NORMAL
  else if (w ≥ 0x00000001 ∧ w ≤ 0x007fffff) ∨ (w ≥ 0x80000001 ∧ w ≤ 0x807fffff) then FP_SUBNORMAL
  else if w = 0x7f800000 ∨ w = 0xff800000 then FP_INFINITE
  else FP_NAN

/-- `fabsf`, libpok/libm/fabsf.c 40-45. -/
def fabs (x : Nat) : Nat := x &&& 0x7fffffff

/-- `copysignf`, libpok/libm/copysignf.c 39-45. -/
def copysign (x y : Nat) : Nat := x &&& 0x7fffffff ||| y &&& 0x80000000

/-- `floorf`, libpok/libm/floorf.c 46-78. -/
def floor (x : Nat) : Nat :=
  let j0 := exponent x
  if j0 < 23 then
    if j0 < 0 then
      if !neg32 x then 0
      else if x &&& 0x7fffffff ≠ 0 then 0xbf800000
      else x
    else
      let i := 0x007fffff >>> j0.toNat
      if x &&& i = 0 then x
      else
        let i0 := if neg32 x then (x + 0x00800000 >>> j0.toNat) % 2 ^ 32 else x
        i0 &&& not32 i
  else if j0 = 0x80 then add x x else x

/-- `ceilf`, libpok/libm/ceilf.c 35-68. -/
def ceil (x : Nat) : Nat :=
  let j0 := exponent x
  if j0 < 23 then
    if j0 < 0 then
      if neg32 x then 0x80000000
      else if x ≠ 0 then 0x3f800000
      else x
    else
      let i := 0x007fffff >>> j0.toNat
      if x &&& i = 0 then x
      else
        let i0 := if !neg32 x && x ≠ 0 then (x + 0x00800000 >>> j0.toNat) % 2 ^ 32 else x
        i0 &&& not32 i
  else if j0 = 0x80 then add x x else x

/-- `truncf`, libpok/libm/truncf.c 43-67. -/
def trunc (x : Nat) : Nat :=
  let j0 := exponent x
  if j0 < 23 then
    if j0 < 0 then x &&& 0x80000000
    else
      let i := 0x007fffff >>> j0.toNat
      if x &&& i = 0 then x else x &&& not32 i
  else if j0 = 0x80 then add x x else x

/-- `1.0`. -/
def one : Nat := 0x3f800000

/-- `modff`, libpok/libm/modff.c 37-66: the fraction returned and the integer stored. -/
def modf (x : Nat) : Nat × Nat :=
  let j0 := exponent x
  if j0 < 23 then
    if j0 < 0 then (x, x &&& 0x80000000)
    else
      let i := 0x007fffff >>> j0.toNat
      if x &&& i = 0 then (x &&& 0x80000000, x)
      else (sub x (x &&& not32 i), x &&& not32 i)
  else (x &&& 0x80000000, mul x one)

/-- `roundf`, libpok/libm/roundf.c 45-65.  `t += 1.0` adds two doubles and rounds the sum to a float; the sum is a float wherever the code
reaches it, so an addition of floats is modelled. -/
def round (x : Nat) : Nat :=
  let i := fpclassify x
  if i = FP_INFINITE ∨ i = FP_NAN then x
  else if le 0 x then
    let t := floor x
    if le 0x3f000000 (sub x t) then add t one else t
  else
    let x := negate x
    let t := floor x
    negate (if le 0x3f000000 (sub x t) then add t one else t)

/-- `ix = ilogb(x)` for a positive number, libpok/libm/ilogbf.c 40-48, e_fmodf.c 64-68 and 71-75.  The loop on line 72 of e_fmodf.c goes on
while `i >= 0`, the others while `i > 0`: `i` is never zero. -/
def fmodExp (hx : Nat) : Int :=
  if hx < 0x00800000 then normLoop 32 ((hx <<< 8) % 2 ^ 32) (-126)
  else ((hx >>> 23 : Nat) : Int) - 127

/-- `ilogbf`, libpok/libm/ilogbf.c 35-51. -/
def ilogb (x : Nat) : Int :=
  let hx := x &&& 0x7fffffff
  if hx = 0 then int32 0x80000001
  else if hx < 0x7f800000 then fmodExp hx
  else 0x7fffffff

/-- The float of an integer of at most 24 bits: a conversion of the floating-point unit, exact. -/
def ofInt (i : Int) : Nat := if i = 0 then 0 else withSign (i < 0) (roundMag (i.natAbs * 2 ^ 149) 0)

/-- `logbf`, libpok/libm/logbf.c 35-47; the division `-1.0 / fabsf(0.0)` gives the negative infinite. -/
def logb (x : Nat) : Nat :=
  let ix := x &&& 0x7fffffff
  if ix = 0 then 2 ^ 31 + inf
  else if ix ≥ 0x7f800000 then mul x x
  else
    let ix := ix >>> 23
    if ix = 0 then ofInt (-126) else ofInt ((ix : Int) - 127)

/-- `two25` and `twom25`, libpok/libm/scalbnf.c 35-36, frexpf.c 35. -/
def two25 : Nat := 0x4c000000
def twom25 : Nat := 0x33000000

/-- `huge` and `tiny`, libpok/libm/scalbnf.c 37: the floats nearest to `1e30` and `1e-30`. -/
def huge : Nat := 0x7149f2ca
def tiny : Nat := 0x0da24260

/-- `frexpf`, libpok/libm/frexpf.c 37-54: the fraction and the exponent stored. -/
def frexp (x : Nat) : Nat × Int :=
  let ix := 0x7fffffff &&& x
  if ix ≥ 0x7f800000 ∨ ix = 0 then (x, 0)
  else
    let sub := ix < 0x00800000
    let hx := if sub then mul x two25 else x
    let ix := if sub then hx &&& 0x7fffffff else ix
    let e : Int := if sub then -25 else 0
    let e := e + (((ix >>> 23 : Nat) : Int) - 126)
    (hx &&& 0x807fffff ||| 0x3f000000, e)

/-- `scalbnf`, libpok/libm/scalbnf.c 39-71.  The sum on line 54 is an `int`: it is taken to wrap, as line 63 expects. -/
def scalbn (x : Nat) (n : Int) : Nat :=
  let k : Int := ((x &&& 0x7f800000) >>> 23 : Nat)
  if k = 0 ∧ x &&& 0x7fffffff = 0 then x
  else
    let sub := k = 0
    let x := if sub then mul x two25 else x
    let k : Int := if sub then (((x &&& 0x7f800000) >>> 23 : Nat) : Int) - 25 else k
    if sub ∧ n < -50000 then mul tiny x
    else if k = 0xff then add x x
    else
      let k := wrap32 (k + n)
      if k > 0xfe then mul huge (copysign huge x)
      else if k > 0 then x &&& 0x807fffff ||| k.toNat <<< 23
      else if k ≤ -25 then
        if n > 50000 then mul huge (copysign huge x) else mul tiny (copysign tiny x)
      else
        let k := k + 25
        mul (x &&& 0x807fffff ||| k.toNat <<< 23) twom25

/-- `ldexpf`, libpok/libm/ldexpf.c 36-43. -/
def ldexp (x : Nat) (n : Int) : Nat := if finite x = 0 ∨ eq x 0 then x else scalbn x n

/-- `nextafterf`, libpok/libm/nextafterf.c 35-81. -/
def nextafter (x y : Nat) : Nat :=
  let ix := x &&& 0x7fffffff
  let iy := y &&& 0x7fffffff
  if ix > 0x7f800000 ∨ iy > 0x7f800000 then add x y
  else if eq x y then x
  else if ix = 0 then
    let x := y &&& 0x80000000 ||| 1
    let y := mul x x
    if eq y x then y else x
  else
    let down := if !neg32 x then int32 x > int32 y else !neg32 y ∨ int32 x > int32 y
    let hx := if down then (x + 2 ^ 32 - 1) % 2 ^ 32 else (x + 1) % 2 ^ 32
    let hy := hx &&& 0x7f800000
    if hy ≥ 0x7f800000 then add x x
    else hx

/-- `__ieee754_fmodf`, libpok/libm/e_fmodf.c 94-101: one step of the loop; `none` in the result: the code returns zero. -/
def fmodStep (hx hy : Nat) : Option Nat :=
  let hz : Int := (hx : Int) - hy
  if hz < 0 then some (hx + hx)
  else if hz = 0 then none
  else some (hz.toNat + hz.toNat)

/-- The loop, `n` times, libpok/libm/e_fmodf.c 92-102. -/
def fmodLoop : Nat → Nat → Nat → Option Nat
  | 0, hx, _ => some hx
  | n + 1, hx, hy => (fmodStep hx hy).bind fun h => fmodLoop n h hy

/-- The significand with its leading bit at bit 23, libpok/libm/e_fmodf.c 78-83 and 84-89. -/
def fmodSig (hx : Nat) (ix : Int) : Nat :=
  if ix ≥ -126 then 0x00800000 ||| (0x007fffff &&& hx)
  else (hx <<< (-126 - ix).toNat) % 2 ^ 32

/-- The loop that brings the leading bit back to bit 23, libpok/libm/e_fmodf.c 111-114; `fuel` is at least the number of steps (24). -/
def fmodNorm : Nat → Nat → Int → Nat × Int
  | 0, hx, iy => (hx, iy)
  | fuel + 1, hx, iy => if hx < 0x00800000 then fmodNorm fuel (hx + hx) (iy - 1) else (hx, iy)

/-- The end of `__ieee754_fmodf`, libpok/libm/e_fmodf.c 109-124: the float made of a remainder; `x *= one` on line 122 changes nothing. -/
def fmodPack (sx hx : Nat) (iy : Int) : Nat :=
  if hx = 0 then sx
  else
    let p := fmodNorm 24 hx iy
    let hx := p.1
    let iy := p.2
    if iy ≥ -126 then (hx - 0x00800000 ||| (iy + 127).toNat <<< 23) ||| sx
    else hx >>> (-126 - iy).toNat ||| sx

/-- `__ieee754_fmodf`, libpok/libm/e_fmodf.c 45-125, and `fmodf`, libpok/libm/fmodf.c 39-54.  `(x * y) / (x * y)` is a `NaN` in all the cases
where the code reaches it; `Zero[sx >> 31]` has the bits `sx`. -/
def fmod (x y : Nat) : Nat :=
  let sx := x &&& 0x80000000
  let hx := x ^^^ sx
  let hy := y &&& 0x7fffffff
  if hy = 0 ∨ hx ≥ 0x7f800000 ∨ hy > 0x7f800000 then nan
  else if hx < hy then x
  else if hx = hy then sx
  else
    let ix := fmodExp hx
    let iy := fmodExp hy
    let py := fmodSig hy iy
    match fmodLoop (ix - iy).toNat (fmodSig hx ix) py with
    | none => sx
    | some hx =>
      let hz : Int := (hx : Int) - py
      if hz ≥ 0 then fmodPack sx hz.toNat iy else fmodPack sx hx iy

/-- `TWO23`, libpok/libm/rintf.c 35-38. -/
def two23 (sx : Nat) : Nat := if sx = 0 then 0x4b000000 else 0xcb000000

/-- `rintf`, libpok/libm/rintf.c 40-81. -/
def rint (x : Nat) : Nat :=
  let sx := x >>> 31 &&& 1
  let j0 := exponent x
  if j0 < 23 then
    if j0 < 0 then
      if x &&& 0x7fffffff = 0 then x
      else
        let i1 := x &&& 0x07fffff
        let i0 := x &&& 0xfff00000
        let x := i0 ||| ((i1 ||| minus32 i1) >>> 9 &&& 0x400000)
        let w := add (two23 sx) x
        let t := sub w (two23 sx)
        t &&& 0x7fffffff ||| sx <<< 31
    else
      let i := 0x007fffff >>> j0.toNat
      if x &&& i = 0 then x
      else
        let i := i >>> 1
        let i0 := if x &&& i ≠ 0 then x &&& not32 i ||| 0x100000 >>> j0.toNat else x
        sub (add (two23 sx) i0) (two23 sx)
  else if j0 = 0x80 then add x x else x

/-- The variables of the loop of `__ieee754_sqrtf`, libpok/libm/e_sqrtf.c 39. -/
structure Sq where
  ix : Nat
  s : Nat
  q : Nat

/-- One step of the loop, libpok/libm/e_sqrtf.c 75-81; the comparison is of `int32_t`. -/
def sqrtStep (r : Nat) (v : Sq) : Sq :=
  let t := (v.s + r) % 2 ^ 32
  let v := if int32 t ≤ int32 v.ix then { s := (t + r) % 2 ^ 32, ix := (v.ix + 2 ^ 32 - t) % 2 ^ 32, q := (v.q + r) % 2 ^ 32 } else v
  { v with ix := (v.ix + v.ix) % 2 ^ 32 }

/-- `while (r != 0) { ...; r >>= 1; }` with `r = 2^k` at first, libpok/libm/e_sqrtf.c 74-83. -/
def sqrtLoop : Nat → Sq → Sq
  | 0, v => sqrtStep 1 v
  | k + 1, v => sqrtLoop k (sqrtStep (2 ^ (k + 1)) v)

/-- The loop `for (i = 0; (ix & 0x00800000) == 0; i++) ix <<= 1;` for a subnormal number, libpok/libm/e_sqrtf.c 59-60; `fuel` is at least the
number of steps (23). -/
def sqrtSub : Nat → Nat → Nat → Nat × Nat
  | 0, ix, i => (ix, i)
  | fuel + 1, ix, i => if ix &&& 0x00800000 = 0 then sqrtSub fuel ((ix <<< 1) % 2 ^ 32) (i + 1) else (ix, i)

/-- Normalisation, libpok/libm/e_sqrtf.c 57-62: `ix` and `m`. -/
def sqrtNorm (ix : Nat) : Nat × Int :=
  let m : Int := (ix >>> 23 : Nat)
  if m = 0 then
    let b := sqrtSub 23 ix 0
    (b.1, m - ((b.2 : Int) - 1))
  else (ix, m)

/-- The rounding, libpok/libm/e_sqrtf.c 86-95: `q`. -/
def sqrtRound (v : Sq) : Nat :=
  if v.ix ≠ 0 then
    if le one (sub one tiny) then
      if lt one (add one tiny) then (v.q + 2) % 2 ^ 32
      else (v.q + (v.q &&& 1)) % 2 ^ 32
    else v.q
  else v.q

/-- `__ieee754_sqrtf`, libpok/libm/e_sqrtf.c 36-100, and `sqrtf`, libpok/libm/sqrtf.c 39-54.  `(x - x) / (x - x)` is a `NaN`. -/
def sqrt (x : Nat) : Nat :=
  if x &&& 0x7f800000 = 0x7f800000 then add (mul x x) x
  else if int32 x ≤ 0 ∧ x &&& 0x7fffffff = 0 then x
  else if int32 x < 0 then nan
  else
    let n := sqrtNorm x
    let m := n.2 - 127
    let ix := n.1 &&& 0x007fffff ||| 0x00800000
    let ix := if m % 2 = 1 then (ix + ix) % 2 ^ 32 else ix
    let m := m / 2
    let v := sqrtLoop 24 ⟨(ix + ix) % 2 ^ 32, 0, 0⟩
    let q := sqrtRound v
    ((((q >>> 1 + 0x3f000000 : Nat) : Int) + m * 2 ^ 23).toNat) % 2 ^ 32

/-- `__ieee754_remainderf`, libpok/libm/e_remainderf.c 37-78, and `remainderf`, libpok/libm/remainderf.c 39-54. -/
def remainder (x p : Nat) : Nat :=
  let sx := x &&& 0x80000000
  let hp := p &&& 0x7fffffff
  let hx := x &&& 0x7fffffff
  if hp = 0 then nan
  else if hx ≥ 0x7f800000 ∨ hp > 0x7f800000 then nan
  else
    let x := if hp ≤ 0x7effffff then fmod x (add p p) else x
    if hx = hp then mul 0 x
    else
      let x := fabs x
      let p := fabs p
      let x :=
        if hp < 0x01000000 then
          if lt p (add x x) then
            let x := sub x p
            if le p (add x x) then sub x p else x
          else x
        else
          let half := mul 0x3f000000 p
          if lt half x then
            let x := sub x p
            if le half x then sub x p else x
          else x
      x ^^^ sx

end Pok.Libmf
