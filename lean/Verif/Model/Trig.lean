import Verif.Model.Libm
/-!
# Sine and cosine

libpok/libm/k_sin.c, libpok/libm/k_cos.c, libpok/libm/e_rem_pio2.c, libpok/libm/sin.c, libpok/libm/cos.c.  Words and the unit as in
`Verif.Model.Libm`; doubles are given by their bits.
-/
namespace Pok.Trig
open Pok.Fpu Pok.Libm

/-- A conversion to `int` of a double in its range: the fraction is dropped. -/
def toInt (x : Nat) : Int := Int.tdiv (sunits x) (2 ^ 1074)

/-! Constants of libpok/libm/k_sin.c 60-67. -/
def half : Nat := 0x3FE0000000000000
def S1 : Nat := 0xBFC5555555555549
def S2 : Nat := 0x3F8111111110F8A6
def S3 : Nat := 0xBF2A01A019C161D5
def S4 : Nat := 0x3EC71DE357B1FE7D
def S5 : Nat := 0xBE5AE5E68A2B9CEB
def S6 : Nat := 0x3DE5D93A5ACFD57C

/-- `__kernel_sin`, libpok/libm/k_sin.c 69-86. -/
def kernelSin (x y : Nat) (iy : Int) : Nat :=
  let ix := hi x &&& 0x7fffffff
  if ix < 0x3e400000 ∧ toInt x = 0 then x
  else
    let z := mul x x
    let v := mul z x
    let r := add S2 (mul z (add S3 (mul z (add S4 (mul z (add S5 (mul z S6)))))))
    if iy = 0 then add x (mul v (add S1 (mul z r)))
    else sub x (sub (sub (mul z (sub (mul half y) (mul v r))) y) (mul v S1))

/-! Constants of libpok/libm/k_cos.c 67-74, and 0.28125. -/
def C1 : Nat := 0x3FA555555555554C
def C2 : Nat := 0xBF56C16C16C15177
def C3 : Nat := 0x3EFA01A019CB1590
def C4 : Nat := 0xBE927E4F809C52AD
def C5 : Nat := 0x3E21EE9EBDB4B1C4
def C6 : Nat := 0xBDA8FAE9BE8838D4
def qx0 : Nat := 0x3FD2000000000000

/-- `__kernel_cos`, libpok/libm/k_cos.c 76-99. -/
def kernelCos (x y : Nat) : Nat :=
  let ix := hi x &&& 0x7fffffff
  if ix < 0x3e400000 ∧ toInt x = 0 then one
  else
    let z := mul x x
    let r := mul z (add C1 (mul z (add C2 (mul z (add C3 (mul z (add C4 (mul z (add C5 (mul z C6))))))))))
    if ix < 0x3FD33333 then sub one (sub (mul half z) (sub (mul z r) (mul x y)))
    else
      let qx := if ix > 0x3fe90000 then qx0 else insert (ix - 0x00200000) 0
      let hz := sub (mul half z) qx
      let a := sub one qx
      sub a (sub hz (sub (mul z r) (mul x y)))

/-- `npio2_hw`, libpok/libm/e_rem_pio2.c 54-61. -/
def npio2 : List Nat :=
  [0x3FF921FB, 0x400921FB, 0x4012D97C, 0x401921FB, 0x401F6A7A, 0x4022D97C, 0x4025FDBB, 0x402921FB, 0x402C463A, 0x402F6A7A, 0x4031475C, 0x4032D97C,
   0x40346B9C, 0x4035FDBB, 0x40378FDB, 0x403921FB, 0x403AB41B, 0x403C463A, 0x403DD85A, 0x403F6A7A, 0x40407E4C, 0x4041475C, 0x4042106C, 0x4042D97C,
   0x4043A28C, 0x40446B9C, 0x404534AC, 0x4045FDBB, 0x4046C6CB, 0x40478FDB, 0x404858EB, 0x404921FB]

/-! Constants of libpok/libm/e_rem_pio2.c 73-83. -/
def invpio2 : Nat := 0x3FE45F306DC9C883
def pio2_1 : Nat := 0x3FF921FB54400000
def pio2_1t : Nat := 0x3DD0B4611A626331
def pio2_2 : Nat := 0x3DD0B4611A600000
def pio2_2t : Nat := 0x3BA3198A2E037073
def pio2_3 : Nat := 0x3BA3198A2E000000
def pio2_3t : Nat := 0x397B839A252049C1

/-- The medium case, libpok/libm/e_rem_pio2.c 125-162, of `t = |x|` with the high word `ix`: `n`, `y[0]` and `y[1]` before the sign is put back.
`npio2_hw[n - 1]` is read only for `n` from 1 to 31. -/
def remMedium (t ix : Nat) : Int × Nat × Nat :=
  let n := toInt (add (mul t invpio2) half)
  let fn := ofInt n
  let r := sub t (mul fn pio2_1)
  let w := mul fn pio2_1t
  let fin (r w : Nat) : Int × Nat × Nat := (n, sub r w, sub (sub r (sub r w)) w)
  if n < 32 ∧ (ix : Int) ≠ (npio2.getD (n - 1).toNat 0 : Nat) then fin r w
  else
    let j : Int := (ix >>> 20 : Nat)
    let e (y : Nat) : Int := j - (hi y >>> 20 &&& 0x7ff : Nat)
    if e (sub r w) > 16 then
      let t := r
      let w := mul fn pio2_2
      let r := sub t w
      let w := sub (mul fn pio2_2t) (sub (sub t r) w)
      if e (sub r w) > 49 then
        let t := r
        let w := mul fn pio2_3
        let r := sub t w
        let w := sub (mul fn pio2_3t) (sub (sub t r) w)
        fin r w
      else fin r w
    else fin r w

/-- `__ieee754_rem_pio2`, libpok/libm/e_rem_pio2.c 85-191: `n`, `y[0]`, `y[1]`.  `big` is the reduction of large arguments (lines 171-184 and
libpok/libm/k_rem_pio2.c), which reads only the bits of `|x|`. -/
def remPio2 (big : Nat → Int × Nat × Nat) (x : Nat) : Int × Nat × Nat :=
  let hx := hi x
  let ix := hx &&& 0x7fffffff
  if ix ≤ 0x3fe921fb then (0, x, 0)
  else if ix < 0x4002d97c then
    if neg32 hx = false ∧ hx ≠ 0 then
      let z := sub x pio2_1
      if ix ≠ 0x3ff921fb then (1, sub z pio2_1t, sub (sub z (sub z pio2_1t)) pio2_1t)
      else
        let z := sub z pio2_2
        (1, sub z pio2_2t, sub (sub z (sub z pio2_2t)) pio2_2t)
    else
      let z := add x pio2_1
      if ix ≠ 0x3ff921fb then (-1, add z pio2_1t, add (sub z (add z pio2_1t)) pio2_1t)
      else
        let z := add z pio2_2
        (-1, add z pio2_2t, add (sub z (add z pio2_2t)) pio2_2t)
  else if ix ≤ 0x413921fb then
    let r := remMedium (fabs x) ix
    if neg32 hx then (-r.1, negate r.2.1, negate r.2.2) else r
  else if ix ≥ 0x7ff00000 then (0, sub x x, sub x x)
  else
    let r := big (fabs x)
    if neg32 hx then (-r.1, negate r.2.1, negate r.2.2) else r

/-- `sin`, libpok/libm/sin.c 70-100. -/
def sin (big : Nat → Int × Nat × Nat) (x : Nat) : Nat :=
  let ix := hi x &&& 0x7fffffff
  if ix ≤ 0x3fe921fb then kernelSin x 0 0
  else if ix ≥ 0x7ff00000 then sub x x
  else
    let r := remPio2 big x
    if r.1 % 4 = 0 then kernelSin r.2.1 r.2.2 1
    else if r.1 % 4 = 1 then kernelCos r.2.1 r.2.2
    else if r.1 % 4 = 2 then negate (kernelSin r.2.1 r.2.2 1)
    else negate (kernelCos r.2.1 r.2.2)

/-- `cos`, libpok/libm/cos.c 68-98. -/
def cos (big : Nat → Int × Nat × Nat) (x : Nat) : Nat :=
  let ix := hi x &&& 0x7fffffff
  if ix ≤ 0x3fe921fb then kernelCos x 0
  else if ix ≥ 0x7ff00000 then sub x x
  else
    let r := remPio2 big x
    if r.1 % 4 = 0 then kernelCos r.2.1 r.2.2
    else if r.1 % 4 = 1 then negate (kernelSin r.2.1 r.2.2 1)
    else if r.1 % 4 = 2 then negate (kernelCos r.2.1 r.2.2)
    else kernelSin r.2.1 r.2.2 1

end Pok.Trig
