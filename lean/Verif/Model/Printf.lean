import Verif.Model.ThreadMgmt
import Verif.Model.Fpu

/-!
# Formatted output

Model of `printf`: kernel/libc/printf.c and libpok/libc/stdio/printf.c, on x86 (`int`, `long` and pointers have 32 bits, `long long` 64,
`char` is signed).  Only the library's version has `%f`; the parameter `flt` tells with how many bits it computes (`none`: the kernel's version).
Characters and argument words are numbers.
-/

namespace Pok.Printf

/-- `struct s_file`, kernel/libc/printf.c 41-44: the pending characters, and the blocks written so far with `pok_cons_write` (in the library:
the system call CONSWRITE). -/
structure File where
  buf : List Nat
  blocks : List (List Nat)
deriving DecidableEq, Repr

/-- `my_fflush`, kernel/libc/printf.c 63-66. -/
def File.flush (f : File) : File := ⟨[], f.blocks ++ [f.buf]⟩

/-- `my_putc`, kernel/libc/printf.c 68-74; `MY_BUF_SIZE` is 128. -/
def File.putc (f : File) (c : Nat) : File :=
  let f := { f with buf := f.buf ++ [c] }
  if f.buf.length = 128 then f.flush else f

/-- Several `my_putc`. -/
def File.puts (f : File) (cs : List Nat) : File := cs.foldl File.putc f

/-- `digits`, kernel/libc/printf.c 26. -/
def digit (d : Nat) : Nat := if d < 10 then 48 + d else 97 + (d - 10)

/-- `conv`, kernel/libc/printf.c 82-93: the digits stored, least significant first, in the room left of the array.  `none`: past its end. -/
def conv (base : Nat) : Nat → Nat → Option (List Nat)
  | 0, n => if n = 0 then some [] else none
  | room + 1, n => if n = 0 then some [] else (conv base room (n / base)).map (n % base :: ·)

/-- `my_printnbr_base`, kernel/libc/printf.c 95-113: the file and the number returned. -/
def printnbr (n base : Nat) (f : File) : Option (File × Nat) :=
  if n = 0 then some (f.putc 48, 1)
  else (conv base 96 n).map fun ds => (f.puts (ds.reverse.map digit), ds.length - 1)

/-- `print_int`, kernel/libc/printf.c 115-136, for a 64-bit argument.  `none`: the negation on line 128 overflows. -/
def printInt (signed : Bool) (v : Nat) (f : File) : Option (File × Nat) :=
  if v = 0 then some (f.putc 48, 1)
  else if signed && decide (toI64 v < 0) then
    if v = 2 ^ 63 then none
    else (printnbr (- toI64 v).toNat 10 (f.putc 45)).map fun r => (r.1, r.2 + 1)
  else printnbr v 10 f

/-- A multiple of `2^-1074` rounded to `p` significant bits, to nearest, ties to even: what stays of the result of an operation.  `p` is 53 where
every operation gives a double, and 64 on an x87, which keeps intermediate results in its registers.  This is the processor, not code. -/
def keep (p n : Nat) : Nat := Fpu.rne n (Nat.log2 n + 1 - p) * 2 ^ (Nat.log2 n + 1 - p)

/-- The same with a sign. -/
def keepI (p : Nat) (z : Int) : Int := if z < 0 then - (keep p z.natAbs : Int) else keep p z.natAbs

/-- The loop of `print_float`, libpok/libc/stdio/printf.c 135-141: `d` is `value->vdouble - floor`, a multiple of `2^-1074`; with the number of
iterations left and `decimal`.  `none`: the product does not fit in an `unsigned long` (32 bits), or is negative. -/
def floatLoop (p : Nat) (d : Int) : Nat → Nat → File → Nat → Option (File × Nat)
  | 0, _, f, n => some (f, n)
  | k + 1, dec, f, n =>
    let q := Int.tdiv (keepI p (d * dec)) (2 ^ 1074)
    if q < 0 ∨ 2 ^ 32 ≤ q then none
    else (printnbr (q.toNat % 10) 10 f).bind fun r => floatLoop p d k (dec * 10) r.1 (n + r.2)

/-- `print_float`, libpok/libc/stdio/printf.c 124-144, of the double with the bits `x`.  `none`: the double does not fit in an `int` (line 125), or
as in `floatLoop`.  The negative `int` passed for an `unsigned long long` (line 131) is its remainder modulo `2^64`. -/
def printFloat (p x : Nat) (f : File) : Option (File × Nat) :=
  if Fpu.isNaN x || Fpu.isInf x then none
  else
    let floor := Int.tdiv (Fpu.sunits x) (2 ^ 1074)
    if floor < -2 ^ 31 ∨ 2 ^ 31 ≤ floor then none
    else
      (printnbr (floor % 2 ^ 64).toNat 10 f).bind fun r =>
        floatLoop p (keepI p (Fpu.sunits x - floor * 2 ^ 1074)) 6 10 (r.1.putc 46) r.2

/-- `integer_size_t`, kernel/libc/printf.c 202-208. -/
inductive Size
  | int | long | longLong | short | char
deriving DecidableEq, Repr

/-- `check_size_modifier`, kernel/libc/printf.c 210-229: the size and the rest of the format. -/
def sizeModifier : List Nat → Size × List Nat
  | 104 :: 104 :: r => (.char, r)
  | 104 :: r => (.short, r)
  | 108 :: 108 :: r => (.longLong, r)
  | 108 :: r => (.long, r)
  | r => (.int, r)

/-- Sign extension of the low `b` bits of `w` to 64 bits (conversion of a signed integer to `long long`). -/
def signExtend (b w : Nat) : Nat :=
  let w := w % 2 ^ b
  if w < 2 ^ (b - 1) then w else w + (2 ^ 64 - 2 ^ b)

/-- The argument taken for `d` and `i`, kernel/libc/printf.c 245-264: its 64 bits and the words left. -/
def signedArg : Size → List Nat → Option (Nat × List Nat)
  | .longLong, lo :: hi :: r => some (lo % 2 ^ 32 + 2 ^ 32 * (hi % 2 ^ 32), r)
  | .long, w :: r => some (signExtend 32 w, r)
  | .int, w :: r => some (signExtend 32 w, r)
  | .short, w :: r => some (signExtend 16 w, r)
  | .char, w :: r => some (signExtend 8 w, r)
  | _, _ => none

/-- The argument taken for `o`, `u` and `x`, kernel/libc/printf.c 265-285. -/
def unsignedArg : Size → List Nat → Option (Nat × List Nat)
  | .longLong, lo :: hi :: r => some (lo % 2 ^ 32 + 2 ^ 32 * (hi % 2 ^ 32), r)
  | .long, w :: r => some (w % 2 ^ 32, r)
  | .int, w :: r => some (w % 2 ^ 32, r)
  | .short, w :: r => some (w % 2 ^ 16, r)
  | .char, w :: r => some (w % 2 ^ 8, r)
  | _, _ => none

/-- One conversion: the argument is taken and `special_char` (kernel/libc/printf.c 176-195) calls the function of the specifier.  `f` exists in libpok/libc/stdio/printf.c only (lines 248-250).  The first
`none` of the result: undefined behaviour; the second: unknown specifier.  `str` gives the characters of the string at an address. -/
def convert (flt : Option Nat) (str : Nat → Option (List Nat)) (size : Size) (spec : Nat) (args : List Nat) (f : File) : Option (Option (File × Nat × List Nat)) :=
  if spec = 100 ∨ spec = 105 then
    (signedArg size args).bind fun a => (printInt true a.1 f).map fun r => some (r.1, r.2, a.2)
  else if spec = 117 then
    (unsignedArg size args).bind fun a => (printInt false a.1 f).map fun r => some (r.1, r.2, a.2)
  else if spec = 111 then
    (unsignedArg size args).bind fun a => (printnbr a.1 8 f).map fun r => some (r.1, r.2, a.2)
  else if spec = 120 then
    (unsignedArg size args).bind fun a => (printnbr a.1 16 f).map fun r => some (r.1, r.2, a.2)
  else if spec = 99 then
    match args with
    | [] => none
    | w :: r => some (some (f.putc (w % 256), 1, r))
  else if spec = 115 then
    match args with
    | [] => none
    | w :: r => (str (w % 2 ^ 32)).map fun s => some (f.puts s, s.length, r)
  else if spec = 102 then
    match flt with
    | none => some none
    | some p =>
      match args with
      | lo :: hi :: r => (printFloat p (lo % 2 ^ 32 + 2 ^ 32 * (hi % 2 ^ 32)) f).map fun a => some (a.1, a.2, r)
      | _ => none
  else some none

/-- The loop of `vprintf`, kernel/libc/printf.c 236-312, with at most `fuel` iterations (the length of the format is enough).  `none`:
undefined behaviour (an argument that was not given, a size modifier at the end of the format, after which the loop runs past the terminator)
or a failed assertion (unknown specifier, with assertions). -/
def loop (flt : Option Nat) (asserts : Bool) (str : Nat → Option (List Nat)) : Nat → List Nat → List Nat → File → Nat → Option (File × Nat)
  | _, [], _, f, n => some (f, n)
  | 0, _ :: _, _, _, _ => none
  | fuel + 1, c :: fmt, args, f, n =>
    if c ≠ 37 then loop flt asserts str fuel fmt args (f.putc c) (n + 1)
    else
      match fmt with
      | [] => some (f, n)
      | c1 :: fmt1 =>
        if c1 = 37 then loop flt asserts str fuel fmt1 args (f.putc 37) (n + 1)
        else
          match sizeModifier (c1 :: fmt1) with
          | (_, []) => none
          | (size, spec :: rest) =>
            match convert flt str size spec args f with
            | none => none
            | some none => if asserts then none else loop flt asserts str fuel rest args (f.putc spec) (n + 1)
            | some (some (f, k, args)) => loop flt asserts str fuel rest args f (n + k)

/-- `printf`, kernel/libc/printf.c 231-327: the blocks written to the console and the number returned. -/
def printf (flt : Option Nat) (asserts : Bool) (str : Nat → Option (List Nat)) (fmt args : List Nat) : Option (List (List Nat) × Nat) :=
  (loop flt asserts str fmt.length fmt args ⟨[], []⟩ 0).map fun r => (r.1.flush.blocks, r.2)

end Pok.Printf
