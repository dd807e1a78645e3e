import Verif.Model.Libm
/-!
# The distance of a point from the origin

libpok/libm/e_hypot.c and libpok/libm/hypot.c.  Words and the unit as in `Verif.Model.Libm`; doubles are given by their bits.
-/
namespace Pok.Hypot
open Pok.Fpu Pok.Libm

/-- `2^1022`, libpok/libm/e_hypot.c 112-113. -/
def two1022 : Nat := setHi 0 0x7fd00000

/-- The square root of the sum of squares for numbers of medium size, libpok/libm/e_hypot.c 126-141. -/
def medium (a b ha hb : Nat) : Nat :=
  let w := sub a b
  if lt b w then
    let t1 := setHi 0 ha
    let t2 := sub a t1
    sqrt (sub (mul t1 t1) (sub (mul b (negate b)) (mul t2 (add a t1))))
  else
    let a := add a a
    let yy1 := setHi 0 hb
    let y2 := sub b yy1
    let t1 := setHi 0 (ha + 0x00100000)
    let t2 := sub a t1
    sqrt (sub (mul t1 yy1) (sub (mul w (negate w)) (add (mul t1 y2) (mul t2 b))))

/-- The end, libpok/libm/e_hypot.c 142-149.  The product `k << 20` is taken as it is on the processors at hand when `k` is negative. -/
def rescale (k : Int) (w : Nat) : Nat :=
  if k ≠ 0 then mul (setHi one ((0x3ff00000 + k * 2 ^ 20) % 2 ^ 32).toNat) w else w

/-- The scaled numbers, their upper words and the binary logarithm of the factor: what the variables `a`, `b`, `ha`, `hb` and `k` hold at line 125. -/
structure Scaled where
  a : Nat
  b : Nat
  ha : Nat
  hb : Nat
  k : Int

/-- `2^-600`, libpok/libm/e_hypot.c 99-105: for numbers above `2^500`. -/
def down (a b ha hb : Nat) : Scaled :=
  let ha := (ha + 2 ^ 32 - 0x25800000) % 2 ^ 32
  let hb := (hb + 2 ^ 32 - 0x25800000) % 2 ^ 32
  ⟨setHi a ha, setHi b hb, ha, hb, 600⟩

/-- libpok/libm/e_hypot.c 107-124: for a smaller number below `2^-500`; the words `ha` and `hb` are not adapted to the scaled numbers if it is subnormal.  `none`: the
function returns `a` (line 111). -/
def up (s : Scaled) : Option Scaled :=
  if s.hb < 0x20b00000 then
    if s.hb ≤ 0x000fffff then
      if (s.hb ||| lo s.b) = 0 then none
      else some ⟨mul s.a two1022, mul s.b two1022, s.ha, s.hb, s.k - 1022⟩
    else some ⟨setHi s.a (s.ha + 0x25800000), setHi s.b (s.hb + 0x25800000), s.ha + 0x25800000, s.hb + 0x25800000, s.k - 600⟩
  else some s

/-- The infinite and what is not a number, libpok/libm/e_hypot.c 88-98. -/
def special (a b ha hb : Nat) : Nat :=
  let w := add a b
  let w := if ((ha &&& 0xfffff) ||| lo a) = 0 then a else w
  if ((hb ^^^ 0x7ff00000) ||| lo b) = 0 then b else w

/-- `__ieee754_hypot` from line 81 on, libpok/libm/e_hypot.c 81-149. -/
def ordered (a b ha hb : Nat) : Nat :=
  let a := setHi a ha
  let b := setHi b hb
  if (ha : Int) - hb > 0x3c00000 then add a b
  else if 0x5f300000 < ha ∧ 0x7ff00000 ≤ ha then special a b ha hb
  else
    match up (if 0x5f300000 < ha then down a b ha hb else ⟨a, b, ha, hb, 0⟩) with
    | none => a
    | some s => rescale s.k (medium s.a s.b s.ha s.hb)

/-- `hypot`, libpok/libm/hypot.c 41-56, which returns `__ieee754_hypot` of libpok/libm/e_hypot.c 63-150 (the build with `_IEEE_LIBM`). -/
def hypot (x y : Nat) : Nat :=
  let ha := hi x &&& 0x7fffffff
  let hb := hi y &&& 0x7fffffff
  if ha < hb then ordered y x hb ha else ordered x y ha hb

/-- The number `k` that is shifted to the left at libpok/libm/e_hypot.c 146, for two numbers ordered by their upper words; `none` if the line is not reached. -/
def shifted (a b ha hb : Nat) : Option Int :=
  let a := setHi a ha
  let b := setHi b hb
  if (ha : Int) - hb > 0x3c00000 then none
  else if 0x5f300000 < ha ∧ 0x7ff00000 ≤ ha then none
  else
    match up (if 0x5f300000 < ha then down a b ha hb else ⟨a, b, ha, hb, 0⟩) with
    | none => none
    | some s => if s.k ≠ 0 then some s.k else none

/-- The same for the arguments of `hypot`, libpok/libm/e_hypot.c 63-146. -/
def shiftedIn (x y : Nat) : Option Int :=
  let ha := hi x &&& 0x7fffffff
  let hb := hi y &&& 0x7fffffff
  if ha < hb then shifted y x hb ha else shifted x y ha hb

end Pok.Hypot
