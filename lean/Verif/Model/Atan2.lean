import Verif.Model.Atan
/-!
# The angle of a point

libpok/libm/e_atan2.c and libpok/libm/atan2.c.  Words and the unit as in `Verif.Model.Libm`; doubles are given by their bits.
-/
namespace Pok.Atan2
open Pok.Fpu Pok.Libm Pok.Trig

/-! Constants of libpok/libm/e_atan2.c 58-63, and 0.5, 3.0 and -3.0. -/
def tiny : Nat := 0x01a56e1fc2f8f359
def pi_o_4 : Nat := 0x3FE921FB54442D18
def pi_o_2 : Nat := 0x3FF921FB54442D18
def pi : Nat := 0x400921FB54442D18
def pi_lo : Nat := 0x3CA1A62633145C07
def three : Nat := 0x4008000000000000
def minus_three : Nat := 0xc008000000000000

/-- The four cases at the end, libpok/libm/e_atan2.c 135-148. -/
def place (m z : Nat) : Nat :=
  match m with
  | 0 => z
  | 1 => setHi z (hi z ^^^ 0x80000000)
  | 2 => sub pi (sub z pi_lo)
  | _ => sub (sub z pi_lo) pi

/-- `atan2`, libpok/libm/atan2.c 41-54, which returns `__ieee754_atan2` of libpok/libm/e_atan2.c 65-149 in both builds.  The difference
`hx - 0x3ff00000` is taken modulo `2^32`: see `Pok.Atan2.difference`. -/
def atan2 (y x : Nat) : Nat :=
  let hx := hi x
  let lx := lo x
  let ix := hx &&& 0x7fffffff
  let hy := hi y
  let ly := lo y
  let iy := hy &&& 0x7fffffff
  if 0x7ff00000 < (ix ||| (lx ||| minus32 lx) >>> 31) ∨ 0x7ff00000 < (iy ||| (ly ||| minus32 ly) >>> 31) then add x y
  else if ((hx + (2 ^ 32 - 0x3ff00000)) % 2 ^ 32 ||| lx) = 0 then Atan.atan y
  else
    let m := hy >>> 31 &&& 1 ||| hx >>> 30 &&& 2
    if (iy ||| ly) = 0 then
      match m with
      | 0 => y
      | 1 => y
      | 2 => add pi tiny
      | _ => sub (negate pi) tiny
    else if (ix ||| lx) = 0 then
      if neg32 hy then sub (negate pi_o_2) tiny else add pi_o_2 tiny
    else if ix = 0x7ff00000 then
      if iy = 0x7ff00000 then
        match m with
        | 0 => add pi_o_4 tiny
        | 1 => sub (negate pi_o_4) tiny
        | 2 => add (mul three pi_o_4) tiny
        | _ => sub (mul minus_three pi_o_4) tiny
      else
        match m with
        | 0 => 0
        | 1 => negate 0
        | 2 => add pi tiny
        | _ => sub (negate pi) tiny
    else if iy = 0x7ff00000 then
      if neg32 hy then sub (negate pi_o_2) tiny else add pi_o_2 tiny
    else
      let k := ((iy : Int) - ix) / 2 ^ 20
      let z :=
        if 60 < k then add pi_o_2 (mul half pi_lo)
        else if neg32 hx ∧ k < -60 then 0
        else Atan.atan (fabs (div y x))
      place m z

/-- The difference `hx - 0x3ff00000` of two `int32_t`, libpok/libm/e_atan2.c 77, before it is reduced to 32 bits. -/
def difference (x : Nat) : Int := (hi x : Int) - (if neg32 (hi x) then 2 ^ 32 else 0) - 0x3ff00000

end Pok.Atan2
