import Verif.Model.Fpu
/-!
# The mathematical library, functions that work on the bits of a double

libpok/libm.  A double is the number that its 64 bits form, a 32-bit word a number below `2^32`; `int32_t` variables are kept as words, and
negative means that bit 31 is set.  The tests `huge + x > 0.0`, there to raise the inexact flag, hold wherever the code reaches them and are
left out.  Operations on doubles are those of `Pok.Fpu`.
-/
namespace Pok.Libm
open Pok.Fpu

/-- `EXTRACT_WORDS`, `GET_HIGH_WORD`, libpok/libm/math_private.h 94-110: the word at the higher address. -/
def hi (x : Nat) : Nat := x / 2 ^ 32 % 2 ^ 32

/-- `EXTRACT_WORDS`, `GET_LOW_WORD`, libpok/libm/math_private.h 94-119. -/
def lo (x : Nat) : Nat := x % 2 ^ 32

/-- `INSERT_WORDS`, libpok/libm/math_private.h 122-129. -/
def insert (h l : Nat) : Nat := h * 2 ^ 32 + l

/-- `SET_HIGH_WORD`, libpok/libm/math_private.h 132-139. -/
def setHi (x h : Nat) : Nat := insert h (lo x)

/-- `~w` on 32 bits. -/
def not32 (w : Nat) : Nat := 2 ^ 32 - 1 - w

/-- `w < 0` for an `int32_t`. -/
def neg32 (w : Nat) : Bool := 2 ^ 31 ≤ w

/-- `-w` on 32 bits. -/
def minus32 (w : Nat) : Nat := (2 ^ 32 - w) % 2 ^ 32

/-- `((i0 >> 20) & 0x7ff) - 0x3ff`. -/
def exponent (i0 : Nat) : Int := ((i0 >>> 20 &&& 0x7ff : Nat) : Int) - 0x3ff

/-- `isnan`, libpok/libm/isnan.c 36-43.  The number returned is -1 for a `NaN`: the shift is of an `int`. -/
def isnan (x : Nat) : Int :=
  let hx := hi x &&& 0x7fffffff
  let hx := hx ||| (lo x ||| minus32 (lo x)) >>> 31
  if (0x7ff00000 : Int) - hx < 0 then -1 else 0

/-- `isinf`, libpok/libm/isinf.c 30-37. -/
def isinf (x : Nat) : Int :=
  let hx := hi x &&& 0x7fffffff
  let hx := hx ^^^ 0x7ff00000
  let hx := hx ||| lo x
  if hx = 0 then 1 else 0

/-- `finite`, libpok/libm/finite.c 37-41. -/
def finite (x : Nat) : Int := ((((hi x &&& 0x7fffffff) + 2 ^ 32 - 0x7ff00000) % 2 ^ 32) >>> 31 : Nat)

/-- `FP_NAN`, `FP_INFINITE`, `FP_NORMAL`, `FP_SUBNORMAL`, `FP_ZERO`, libpok/include/libm.h 30-34. -/
def FP_NAN : Nat := 1
def FP_INFINITE : Nat := 2
def FP_NORMAL : Nat := 3
def FP_SUBNORMAL : Nat := 4
def FP_ZERO : Nat := 5

/-- `__fpclassifyd`, libpok/libm/fpclassify.c 40-63. -/
def fpclassify (x : Nat) : Nat :=
  let msw := hi x
  let lsw := lo x
  if (msw = 0 ∧ lsw = 0) ∨ (msw = 0x80000000 ∧ lsw = 0) then FP_ZERO
  else if (msw ≥ 0x00100000 ∧ msw ≤ 0x7fefffff) ∨ (msw ≥ 0x80100000 ∧ msw ≤ 0xffefffff) then FP_NORMAL
  else if msw ≤ 0x000fffff ∨ (msw ≥ 0x80000000 ∧ msw ≤ 0x800fffff) then FP_SUBNORMAL
  else if (msw = 0x7ff00000 ∧ lsw = 0) ∨ (msw = 0xfff00000 ∧ lsw = 0) then FP_INFINITE
  else FP_NAN

/-- `fabs`, libpok/libm/fabs.c 35-40. -/
def fabs (x : Nat) : Nat := setHi x (hi x &&& 0x7fffffff)

/-- `copysign`, libpok/libm/copysign.c 38-44. -/
def copysign (x y : Nat) : Nat := setHi x (hi x &&& 0x7fffffff ||| hi y &&& 0x80000000)

/-- `floor`, libpok/libm/floor.c 42-93. -/
def floor (x : Nat) : Nat :=
  let i0 := hi x
  let i1 := lo x
  let j0 := exponent i0
  if j0 < 20 then
    if j0 < 0 then
      if !neg32 i0 then insert 0 0
      else if (i0 &&& 0x7fffffff) ||| i1 ≠ 0 then insert 0xbff00000 0
      else insert i0 i1
    else
      let i := 0x000fffff >>> j0.toNat
      if (i0 &&& i) ||| i1 = 0 then x
      else
        let i0 := if neg32 i0 then (i0 + 0x00100000 >>> j0.toNat) % 2 ^ 32 else i0
        insert (i0 &&& not32 i) 0
  else if j0 > 51 then
    if j0 = 0x400 then add x x else x
  else
    let i := 0xffffffff >>> (j0 - 20).toNat
    if i1 &&& i = 0 then x
    else if neg32 i0 then
      if j0 = 20 then insert ((i0 + 1) % 2 ^ 32) (i1 &&& not32 i)
      else
        let j := (i1 + 1 <<< (52 - j0).toNat) % 2 ^ 32
        insert (if j < i1 then (i0 + 1) % 2 ^ 32 else i0) (j &&& not32 i)
    else insert i0 (i1 &&& not32 i)

/-- `ceil`, libpok/libm/ceil.c 43-95. -/
def ceil (x : Nat) : Nat :=
  let i0 := hi x
  let i1 := lo x
  let j0 := exponent i0
  if j0 < 20 then
    if j0 < 0 then
      if neg32 i0 then insert 0x80000000 0
      else if i0 ||| i1 ≠ 0 then insert 0x3ff00000 0
      else insert i0 i1
    else
      let i := 0x000fffff >>> j0.toNat
      if (i0 &&& i) ||| i1 = 0 then x
      else
        let i0 := if !neg32 i0 && i0 ≠ 0 then (i0 + 0x00100000 >>> j0.toNat) % 2 ^ 32 else i0
        insert (i0 &&& not32 i) 0
  else if j0 > 51 then
    if j0 = 0x400 then add x x else x
  else
    let i := 0xffffffff >>> (j0 - 20).toNat
    if i1 &&& i = 0 then x
    else if !neg32 i0 && i0 ≠ 0 then
      if j0 = 20 then insert ((i0 + 1) % 2 ^ 32) (i1 &&& not32 i)
      else
        let j := (i1 + 1 <<< (52 - j0).toNat) % 2 ^ 32
        insert (if j < i1 then (i0 + 1) % 2 ^ 32 else i0) (j &&& not32 i)
    else insert i0 (i1 &&& not32 i)

/-- `trunc`, libpok/libm/trunc.c 43-77. -/
def trunc (x : Nat) : Nat :=
  let i0 := hi x
  let i1 := lo x
  let j0 := exponent i0
  if j0 < 20 then
    if j0 < 0 then insert (i0 &&& 0x80000000) 0
    else
      let i := 0x000fffff >>> j0.toNat
      if (i0 &&& i) ||| i1 = 0 then x else insert (i0 &&& not32 i) 0
  else if j0 > 51 then
    if j0 = 0x400 then add x x else x
  else
    let i := 0xffffffff >>> (j0 - 20).toNat
    if i1 &&& i = 0 then x else insert i0 (i1 &&& not32 i)

/-- `1.0`. -/
def one : Nat := 0x3ff0000000000000

/-- `modf`, libpok/libm/modf.c 44-85: the fraction returned and the integer stored. -/
def modf (x : Nat) : Nat × Nat :=
  let i0 := hi x
  let i1 := lo x
  let j0 := exponent i0
  if j0 < 20 then
    if j0 < 0 then (x, insert (i0 &&& 0x80000000) 0)
    else
      let i := 0x000fffff >>> j0.toNat
      if (i0 &&& i) ||| i1 = 0 then (insert (hi x &&& 0x80000000) 0, x)
      else (sub x (insert (i0 &&& not32 i) 0), insert (i0 &&& not32 i) 0)
  else if j0 > 51 then (insert (hi x &&& 0x80000000) 0, mul x one)
  else
    let i := 0xffffffff >>> (j0 - 20).toNat
    if i1 &&& i = 0 then (insert (hi x &&& 0x80000000) 0, x)
    else (sub x (insert i0 (i1 &&& not32 i)), insert i0 (i1 &&& not32 i))

/-- `round`, libpok/libm/round.c 45-65. -/
def round (x : Nat) : Nat :=
  let i := fpclassify x
  if i = FP_INFINITE ∨ i = FP_NAN then x
  else if le 0 x then
    let t := floor x
    if le 0x3fe0000000000000 (sub x t) then add t one else t
  else
    let x := negate x
    let t := floor x
    negate (if le 0x3fe0000000000000 (sub x t) then add t one else t)

/-- `x` as a signed 32-bit number. -/
def int32 (w : Nat) : Int := if w < 2 ^ 31 then w else (w : Int) - 2 ^ 32

/-- A result of 32-bit signed arithmetic: overflow wraps round. -/
def wrap32 (i : Int) : Int := (i + 2 ^ 31) % 2 ^ 32 - 2 ^ 31

/-- The loops `for (ix = ...; i > 0; i <<= 1) ix -= 1;` of libpok/libm/ilogb.c 49-50, 52-53 and e_fmod.c 66-70, 78-82; `fuel` is at least the
number of steps (32). -/
def normLoop : Nat → Nat → Int → Int
  | 0, _, ix => ix
  | fuel + 1, i, ix => if 0 < int32 i then normLoop fuel ((i <<< 1) % 2 ^ 32) (ix - 1) else ix

/-- `ilogb`, libpok/libm/ilogb.c 38-60. -/
def ilogb (x : Nat) : Int :=
  let hx := hi x &&& 0x7fffffff
  if hx < 0x00100000 then
    let lx := lo x
    if hx ||| lx = 0 then int32 0x80000001
    else if hx = 0 then normLoop 32 lx (-1043)
    else normLoop 32 ((hx <<< 11) % 2 ^ 32) (-1022)
  else if hx < 0x7ff00000 then ((hx >>> 20 : Nat) : Int) - 1023
  else 0x7fffffff

/-- The double of an integer of at most 31 bits: a conversion of the floating-point unit, exact. -/
def ofInt (i : Int) : Nat := if i = 0 then 0 else withSign (i < 0) (roundMag (i.natAbs * 2 ^ 1074) 0)

/-- `logb`, libpok/libm/logb.c 38-50; the division `-1.0 / fabs(0.0)` gives the negative infinite. -/
def logb (x : Nat) : Nat :=
  let ix := hi x &&& 0x7fffffff
  if ix ||| lo x = 0 then 2 ^ 63 + inf
  else if ix ≥ 0x7ff00000 then mul x x
  else
    let ix := ix >>> 20
    if ix = 0 then ofInt (-1022) else ofInt ((ix : Int) - 1023)

/-- `two54` and `twom54`, libpok/libm/scalbn.c 39-41, frexp.c 42-43. -/
def two54 : Nat := 0x4350000000000000
def twom54 : Nat := 0x3C90000000000000

/-- `huge` and `tiny`, libpok/libm/scalbn.c 42: the doubles nearest to `1e300` and `1e-300`. -/
def huge : Nat := 0x7e37e43c8800759c
def tiny : Nat := 0x01a56e1fc2f8f359

/-- `frexp`, libpok/libm/frexp.c 45-62: the fraction and the exponent stored. -/
def frexp (x : Nat) : Nat × Int :=
  let hx := hi x
  let lx := lo x
  let ix := 0x7fffffff &&& hx
  if ix ≥ 0x7ff00000 ∨ ix ||| lx = 0 then (x, 0)
  else
    let sub := ix < 0x00100000
    let x := if sub then mul x two54 else x
    let hx := if sub then hi x else hx
    let ix := if sub then hx &&& 0x7fffffff else ix
    let e : Int := if sub then -54 else 0
    let e := e + (((ix >>> 20 : Nat) : Int) - 1022)
    (setHi x (hx &&& 0x800fffff ||| 0x3fe00000), e)

/-- `scalbn`, libpok/libm/scalbn.c 44-76.  The sum on line 59 is an `int`: it is taken to wrap, as line 68 expects. -/
def scalbn (x : Nat) (n : Int) : Nat :=
  let k : Int := ((hi x &&& 0x7ff00000) >>> 20 : Nat)
  if k = 0 ∧ lo x ||| (hi x &&& 0x7fffffff) = 0 then x
  else
    let sub := k = 0
    let x := if sub then mul x two54 else x
    let hx := hi x
    let k : Int := if sub then (((hx &&& 0x7ff00000) >>> 20 : Nat) : Int) - 54 else k
    if sub ∧ n < -50000 then mul tiny x
    else if k = 0x7ff then add x x
    else
      let k := wrap32 (k + n)
      if k > 0x7fe then mul huge (copysign huge x)
      else if k > 0 then setHi x (hx &&& 0x800fffff ||| k.toNat <<< 20)
      else if k ≤ -54 then
        if n > 50000 then mul huge (copysign huge x) else mul tiny (copysign tiny x)
      else
        let k := k + 54
        mul (setHi x (hx &&& 0x800fffff ||| k.toNat <<< 20)) twom54

/-- `ldexp`, libpok/libm/ldexp.c 33-39. -/
def ldexp (x : Nat) (n : Int) : Nat := if finite x = 0 ∨ eq x 0 then x else scalbn x n

/-- `nextafter`, libpok/libm/nextafter.c 39-94. -/
def nextafter (x y : Nat) : Nat :=
  let hx := hi x
  let lx := lo x
  let hy := hi y
  let ly := lo y
  let ix := hx &&& 0x7fffffff
  let iy := hy &&& 0x7fffffff
  if (ix ≥ 0x7ff00000 ∧ (ix - 0x7ff00000) ||| lx ≠ 0) ∨ (iy ≥ 0x7ff00000 ∧ (iy - 0x7ff00000) ||| ly ≠ 0) then add x y
  else if eq x y then x
  else if ix ||| lx = 0 then
    let x := insert (hy &&& 0x80000000) 1
    let y := mul x x
    if eq y x then y else x
  else
    let down := if !neg32 hx then int32 hx > int32 hy ∨ (hx = hy ∧ lx > ly) else !neg32 hy ∨ int32 hx > int32 hy ∨ (hx = hy ∧ lx > ly)
    let hx' := if down then (if lx = 0 then (hx + 2 ^ 32 - 1) % 2 ^ 32 else hx)
      else (if (lx + 1) % 2 ^ 32 = 0 then (hx + 1) % 2 ^ 32 else hx)
    let lx' := if down then (lx + 2 ^ 32 - 1) % 2 ^ 32 else (lx + 1) % 2 ^ 32
    let hy := hx' &&& 0x7ff00000
    if hy ≥ 0x7ff00000 then add x x
    else insert hx' lx'

/-- `__ieee754_fmod`, libpok/libm/e_fmod.c 113-129: one step of the loop.  The remainder so far is `(hx, lx)`; `none` in the result: the code
returns zero. -/
def fmodStep (hx lx hy ly : Nat) : Option (Nat × Nat) :=
  let hz : Int := (hx : Int) - hy - (if lx < ly then 1 else 0)
  let lz := (lx + 2 ^ 32 - ly) % 2 ^ 32
  if hz < 0 then some (hx + hx + lx >>> 31, (lx + lx) % 2 ^ 32)
  else if hz.toNat ||| lz = 0 then none
  else some (hz.toNat + hz.toNat + lz >>> 31, (lz + lz) % 2 ^ 32)

/-- The loop, `n` times. -/
def fmodLoop : Nat → Nat → Nat → Nat → Nat → Option (Nat × Nat)
  | 0, hx, lx, _, _ => some (hx, lx)
  | n + 1, hx, lx, hy, ly => (fmodStep hx lx hy ly).bind fun p => fmodLoop n p.1 p.2 hy ly

/-- `ix = ilogb(x)` for a positive number, libpok/libm/e_fmod.c 63-73 and 75-85. -/
def fmodExp (hx lx : Nat) : Int :=
  if hx < 0x00100000 then
    if hx = 0 then normLoop 32 lx (-1043) else normLoop 32 ((hx <<< 11) % 2 ^ 32) (-1022)
  else ((hx >>> 20 : Nat) : Int) - 1023

/-- The significand with its leading bit at bit 20 of the high word, libpok/libm/e_fmod.c 88-99 and 100-111. -/
def fmodSig (hx lx : Nat) (ix : Int) : Nat × Nat :=
  if ix ≥ -1022 then (0x00100000 ||| (0x000fffff &&& hx), lx)
  else
    let n := (-1022 - ix).toNat
    if n ≤ 31 then ((hx <<< n) % 2 ^ 32 ||| lx >>> (32 - n), (lx <<< n) % 2 ^ 32)
    else ((lx <<< (n - 32)) % 2 ^ 32, 0)

/-- The loop that brings the leading bit back to bit 20, libpok/libm/e_fmod.c 142-146; `fuel` is at least the number of steps (53). -/
def fmodNorm : Nat → Nat → Nat → Int → Nat × Nat × Int
  | 0, hx, lx, iy => (hx, lx, iy)
  | fuel + 1, hx, lx, iy => if hx < 0x00100000 then fmodNorm fuel (hx + hx + lx >>> 31) ((lx + lx) % 2 ^ 32) (iy - 1) else (hx, lx, iy)

/-- The end of `__ieee754_fmod`, libpok/libm/e_fmod.c 139-165: the double made of a remainder. -/
def fmodPack (sx hx lx : Nat) (iy : Int) : Nat :=
  if hx ||| lx = 0 then insert sx 0
  else
    let p := fmodNorm 53 hx lx iy
    let hx := p.1
    let lx := p.2.1
    let iy := p.2.2
    if iy ≥ -1022 then insert ((hx - 0x00100000 ||| (iy + 1023).toNat <<< 20) ||| sx) lx
    else
      let n := (-1022 - iy).toNat
      if n ≤ 20 then insert (hx >>> n ||| sx) (lx >>> n ||| (hx <<< (32 - n)) % 2 ^ 32)
      else if n ≤ 31 then insert (sx ||| sx) ((hx <<< (32 - n)) % 2 ^ 32 ||| lx >>> n)
      else insert (sx ||| sx) (hx >>> (n - 32))

/-- `__ieee754_fmod`, libpok/libm/e_fmod.c 42-166, and `fmod`, libpok/libm/fmod.c 36-50.  `(x * y) / (x * y)` is a `NaN` in all the cases
where the code reaches it; `x *= one` on line 163 changes nothing. -/
def fmod (x y : Nat) : Nat :=
  let lx := lo x
  let ly := lo y
  let sx := hi x &&& 0x80000000
  let hx := hi x ^^^ sx
  let hy := hi y &&& 0x7fffffff
  if hy ||| ly = 0 ∨ hx ≥ 0x7ff00000 ∨ (hy ||| (ly ||| minus32 ly) >>> 31) > 0x7ff00000 then nan
  else if hx ≤ hy ∧ (hx < hy ∨ lx < ly) then x
  else if hx ≤ hy ∧ lx = ly then insert sx 0
  else
    let ix := fmodExp hx lx
    let iy := fmodExp hy ly
    let px := fmodSig hx lx ix
    let py := fmodSig hy ly iy
    match fmodLoop (ix - iy).toNat px.1 px.2 py.1 py.2 with
    | none => insert sx 0
    | some (hx, lx) =>
      let hz : Int := (hx : Int) - py.1 - (if lx < py.2 then 1 else 0)
      let lz := (lx + 2 ^ 32 - py.2) % 2 ^ 32
      if hz ≥ 0 then fmodPack sx hz.toNat lz iy else fmodPack sx hx lx iy

/-- `TWO52`, libpok/libm/rint.c 42-45. -/
def two52 (sx : Nat) : Nat := if sx = 0 then 0x4330000000000000 else 0xC330000000000000

/-- `rint`, libpok/libm/rint.c 47-95. -/
def rint (x : Nat) : Nat :=
  let i0 := hi x
  let i1 := lo x
  let sx := i0 >>> 31 &&& 1
  let j0 := exponent i0
  if j0 < 20 then
    if j0 < 0 then
      if (i0 &&& 0x7fffffff) ||| i1 = 0 then x
      else
        let i1 := i1 ||| i0 &&& 0x0fffff
        let i0 := i0 &&& 0xfffe0000
        let i0 := i0 ||| ((i1 ||| minus32 i1) >>> 12 &&& 0x80000)
        let x := setHi x i0
        let w := add (two52 sx) x
        let t := sub w (two52 sx)
        setHi t (hi t &&& 0x7fffffff ||| sx <<< 31)
    else
      let i := 0x000fffff >>> j0.toNat
      if (i0 &&& i) ||| i1 = 0 then x
      else
        let i := i >>> 1
        let c := (i0 &&& i) ||| i1 ≠ 0
        let i1' := if c ∧ j0 = 19 then 0x40000000 else i1
        let i0' := if c ∧ j0 ≠ 19 then i0 &&& not32 i ||| 0x20000 >>> j0.toNat else i0
        sub (add (two52 sx) (insert i0' i1')) (two52 sx)
  else if j0 > 51 then
    if j0 = 0x400 then add x x else x
  else
    let i := 0xffffffff >>> (j0 - 20).toNat
    if i1 &&& i = 0 then x
    else
      let i := i >>> 1
      let i1' := if i1 &&& i ≠ 0 then i1 &&& not32 i ||| 0x40000000 >>> (j0 - 20).toNat else i1
      sub (add (two52 sx) (insert i0 i1')) (two52 sx)

/-- The variables of the loops of `__ieee754_sqrt`, libpok/libm/e_sqrt.c 107-108. -/
structure Sq where
  ix0 : Nat
  ix1 : Nat
  s0 : Nat
  s1 : Nat
  q : Nat
  q1 : Nat

/-- `ix0 += ix0 + ((ix1 & sign) >> 31); ix1 += ix1;` -/
def Sq.dbl (v : Sq) : Sq := { v with ix0 := (v.ix0 + (v.ix0 + (v.ix1 &&& 0x80000000) >>> 31)) % 2 ^ 32, ix1 := (v.ix1 + v.ix1) % 2 ^ 32 }

/-- One step of the first loop, libpok/libm/e_sqrt.c 153-160; the comparison is of `int32_t`. -/
def sqrtStep1 (r : Nat) (v : Sq) : Sq :=
  let t := (v.s0 + r) % 2 ^ 32
  (if int32 t ≤ int32 v.ix0 then { v with s0 := (t + r) % 2 ^ 32, ix0 := (v.ix0 + 2 ^ 32 - t) % 2 ^ 32, q := (v.q + r) % 2 ^ 32 } else v).dbl

/-- One step of the second loop, libpok/libm/e_sqrt.c 166-179. -/
def sqrtStep2 (r : Nat) (v : Sq) : Sq :=
  let t1 := (v.s1 + r) % 2 ^ 32
  let t := v.s0
  (if int32 t < int32 v.ix0 ∨ (t = v.ix0 ∧ t1 ≤ v.ix1) then
    let s1 := (t1 + r) % 2 ^ 32
    let s0 := if t1 &&& 0x80000000 = 0x80000000 ∧ s1 &&& 0x80000000 = 0 then (v.s0 + 1) % 2 ^ 32 else v.s0
    let ix0 := (v.ix0 + 2 ^ 32 - t) % 2 ^ 32
    let ix0 := if v.ix1 < t1 then (ix0 + 2 ^ 32 - 1) % 2 ^ 32 else ix0
    { v with s1 := s1, s0 := s0, ix0 := ix0, ix1 := (v.ix1 + 2 ^ 32 - t1) % 2 ^ 32, q1 := (v.q1 + r) % 2 ^ 32 }
  else v).dbl

/-- `while (r != 0) { ...; r >>= 1; }` with `r = 2^k` at first: libpok/libm/e_sqrt.c 152-162, 165-181. -/
def sqrtLoop (step : Nat → Sq → Sq) : Nat → Sq → Sq
  | 0, v => step 1 v
  | k + 1, v => sqrtLoop step k (step (2 ^ (k + 1)) v)

/-- The loop `while (ix0 == 0)` for a subnormal number, libpok/libm/e_sqrt.c 127-131; `fuel` is at least the number of steps (3). -/
def sqrtSub1 : Nat → Nat → Nat → Int → Nat × Nat × Int
  | 0, ix0, ix1, m => (ix0, ix1, m)
  | fuel + 1, ix0, ix1, m => if ix0 = 0 then sqrtSub1 fuel (ix0 ||| ix1 >>> 11) ((ix1 <<< 21) % 2 ^ 32) (m - 21) else (ix0, ix1, m)

/-- The loop `for (i = 0; (ix0 & 0x00100000) == 0; i++) ix0 <<= 1;`, libpok/libm/e_sqrt.c 132-133; `fuel` is at least the number of steps
(20). -/
def sqrtSub2 : Nat → Nat → Nat → Nat × Nat
  | 0, ix0, i => (ix0, i)
  | fuel + 1, ix0, i => if ix0 &&& 0x00100000 = 0 then sqrtSub2 fuel ((ix0 <<< 1) % 2 ^ 32) (i + 1) else (ix0, i)

/-- Normalisation of a subnormal number, libpok/libm/e_sqrt.c 126-137.  When `i` is 0 line 135 shifts a 32-bit word by 32 places, which C
leaves undefined; the shift of the x86 (no shift) is modelled. -/
def sqrtNorm (ix0 ix1 : Nat) : Nat × Nat × Int :=
  let m : Int := (ix0 >>> 20 : Nat)
  if m = 0 then
    let a := sqrtSub1 3 ix0 ix1 m
    let b := sqrtSub2 21 a.1 0
    (b.1 ||| a.2.1 >>> ((32 - b.2) % 32), (a.2.1 <<< b.2) % 2 ^ 32, a.2.2 - ((b.2 : Int) - 1))
  else (ix0, ix1, m)

/-- The rounding, libpok/libm/e_sqrt.c 184-198: `q`, `q1`. -/
def sqrtRound (v : Sq) : Nat × Nat :=
  if v.ix0 ||| v.ix1 ≠ 0 then
    if le one (sub one tiny) then
      if v.q1 = 0xffffffff then ((v.q + 1) % 2 ^ 32, 0)
      else if lt one (add one tiny) then (if v.q1 = 0xfffffffe then (v.q + 1) % 2 ^ 32 else v.q, (v.q1 + 2) % 2 ^ 32)
      else (v.q, (v.q1 + (v.q1 &&& 1)) % 2 ^ 32)
    else (v.q, v.q1)
  else (v.q, v.q1)

/-- `__ieee754_sqrt`, libpok/libm/e_sqrt.c 104-206, and `sqrt`, libpok/libm/sqrt.c 35-49.  `(x - x) / (x - x)` is a `NaN`. -/
def sqrt (x : Nat) : Nat :=
  let ix0 := hi x
  let ix1 := lo x
  if ix0 &&& 0x7ff00000 = 0x7ff00000 then add (mul x x) x
  else if int32 ix0 ≤ 0 ∧ (ix0 &&& 0x7fffffff) ||| ix1 = 0 then x
  else if int32 ix0 < 0 then nan
  else
    let n := sqrtNorm ix0 ix1
    let m := n.2.2 - 1023
    let v : Sq := ⟨n.1 &&& 0x000fffff ||| 0x00100000, n.2.1, 0, 0, 0, 0⟩
    let v := if m % 2 = 1 then v.dbl else v
    let m := m / 2
    let v := v.dbl
    let v := sqrtLoop sqrtStep1 21 v
    let v := sqrtLoop sqrtStep2 31 v
    let q := sqrtRound v
    let ix0 := q.1 >>> 1 + 0x3fe00000
    let ix1 := q.2 >>> 1
    let ix1 := if q.1 &&& 1 = 1 then ix1 ||| 0x80000000 else ix1
    insert (((ix0 : Int) + m * 2 ^ 20).toNat % 2 ^ 32) ix1

/-- `__ieee754_remainder`, libpok/libm/e_remainder.c 42-84, and `remainder`, libpok/libm/remainder.c 36-50. -/
def remainder (x p : Nat) : Nat :=
  let hx := hi x
  let lx := lo x
  let lp := lo p
  let sx := hx &&& 0x80000000
  let hp := hi p &&& 0x7fffffff
  let hx := hx &&& 0x7fffffff
  if hp ||| lp = 0 then nan
  else if hx ≥ 0x7ff00000 ∨ (hp ≥ 0x7ff00000 ∧ (hp - 0x7ff00000) ||| lp ≠ 0) then nan
  else
    let x := if hp ≤ 0x7fdfffff then fmod x (add p p) else x
    if hx = hp ∧ lx = lp then mul 0 x
    else
      let x := fabs x
      let p := fabs p
      let x :=
        if hp < 0x00200000 then
          if lt p (add x x) then
            let x := sub x p
            if le p (add x x) then sub x p else x
          else x
        else
          let half := mul 0x3fe0000000000000 p
          if lt half x then
            let x := sub x p
            if le half x then sub x p else x
          else x
      setHi x (hi x ^^^ sx)

end Pok.Libm
