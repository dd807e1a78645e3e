import Verif.Model.Basic

/-!
# C library routines

Model of kernel/libc and libpok/libc.  Strings in memory: a memory gives the byte at each accessible address, `none`
where the program may not access; `none` as a result is an access outside, an overflow of signed arithmetic, or a
loop that does not end.  Pointers are not reduced modulo the size of the address space.
-/

namespace Pok.Libc

/-! ## Division -/

/-- First loop of `__udivdi3`, kernel/libc/__udivdi3.c 27-30: shift until the divisor, read as a signed number, is
negative.  With a null divisor it is not reached. -/
def normalise (den qbit : Nat) : Option (Nat × Nat) :=
  if h : den = 0 then none
  else if den < 2 ^ 63 then normalise (den * 2 % 2 ^ 64) (qbit * 2 % 2 ^ 64)
  else some (den, qbit)
termination_by 2 ^ 64 - den
decreasing_by omega

/-- Second loop of `__udivdi3`, kernel/libc/__udivdi3.c 32-39. -/
def divLoop (num den quot qbit : Nat) : Nat :=
  if qbit = 0 then quot
  else if den ≤ num then divLoop (num - den) (den / 2) ((quot + qbit) % 2 ^ 64) (qbit / 2)
  else divLoop num (den / 2) quot (qbit / 2)
termination_by qbit
decreasing_by all_goals omega

/-- `__udivdi3`, kernel/libc/__udivdi3.c 17-42 (and libpok/libc/misc/__udivdi3.c).  A null divisor calls
`pok_division_by_zero_error`, which raises a division fault and does not return
(kernel/arch/x86/divisionbyzeroerror.c 17-20): `none`. -/
def udivdi3 (num den : Nat) : Option Nat :=
  (normalise den 1).map fun p => divLoop num p.1 0 p.2

/-- `__umoddi3`, kernel/libc/__umoddi3.c 17-20 (and libpok/libc/misc/__umoddi3.c). -/
def umoddi3 (num den : Nat) : Option Nat :=
  (udivdi3 num den).map fun q => (num + 2 ^ 64 - q * den % 2 ^ 64) % 2 ^ 64

/-! ## Numbers and text -/

/-- The digit characters produced by `itoa`, libpok/libc/string/itoa.c 36-39. -/
def digitChar (d : Nat) : Nat := if d < 10 then 48 + d else 97 + (d - 10)

/-- Conversion loop of `itoa`, libpok/libc/string/itoa.c 33-40: `temp` has 16 bytes (the digits, last first). -/
def itoaLoop (radix : Nat) (u : Nat) (temp : List Nat) : Option (List Nat) :=
  if temp.length ≥ 16 then none
  else if radix < 2 then none
  else
    let digit := u % radix
    let u' := (u - digit) / radix
    let temp := digitChar digit :: temp
    if h : u' = 0 then some temp else itoaLoop radix u' temp
termination_by 16 - temp.length
decreasing_by simp_wf; omega

/-- `itoa`, libpok/libc/string/itoa.c 20-47, for a radix of at least two: the text written (without the final null
byte).  `-value` overflows for the least integer. -/
def itoa (value : Int) (radix : Nat) : Option (List Nat) :=
  if radix = 10 ∧ value < 0 then
    if value = -2 ^ 31 then none
    else (itoaLoop radix (-value).toNat []).map (45 :: ·)
  else itoaLoop radix (value % 2 ^ 32).toNat []

/-- Loop of `atoi`, libpok/libc/string/atoi.c 23-29; the text is given without its final null byte.  `10 * res + c`
is computed before 48 is taken away. -/
def atoiLoop : List Nat → Nat → Option Nat
  | [], res => some res
  | c :: cs, res =>
    if c < 48 ∨ c > 57 then some 0
    else if 10 * res + c ≥ 2 ^ 31 then none
    else atoiLoop cs (10 * res + c - 48)

/-- `atoi`, libpok/libc/string/atoi.c 20-31. -/
def atoi (s : List Nat) : Option Nat := atoiLoop s 0

/-! ## Memory and strings -/

/-- What is in the accessible memory. -/
abbrev Mem := Nat → Option Nat

/-- Store of one byte. -/
def store (m : Mem) (a v : Nat) : Option Mem :=
  match m a with
  | none => none
  | some _ => some (upd m a (some v))

/-- `memcpy`, libpok/libc/string/memcpy.c 27-34 and the portable branch of kernel/libc/memcpy.c 35-40. -/
def memcpy (m : Mem) (dest src : Nat) : Nat → Option Mem
  | 0 => some m
  | count + 1 =>
    match m src with
    | none => none
    | some v =>
      match store m dest v with
      | none => none
      | some m => memcpy m (dest + 1) (src + 1) count

/-- One `movs` of `n` bytes (n = 1, 2, 4): all the bytes are read, then all are written. -/
def movs (m : Mem) (dest src : Nat) (n : Nat) : Option Mem :=
  if (∀ k < n, (m (src + k)).isSome = true) ∧ (∀ k < n, (m (dest + k)).isSome = true) then
    some fun a => if dest ≤ a ∧ a < dest + n then m (src + (a - dest)) else m a
  else none

/-- `rep movsl`. -/
def repMovsl (m : Mem) (dest src : Nat) : Nat → Option Mem
  | 0 => some m
  | c + 1 =>
    match movs m dest src 4 with
    | none => none
    | some m => repMovsl m (dest + 4) (src + 4) c

/-- `memcpy` for x86, kernel/libc/memcpy.c 19-33 and libpok/libc/string/x86/memcpy.c 17-34: `n / 4` double words, then
a word if bit 1 of `n` is set, then a byte if bit 0 is set. -/
def memcpyX86 (m : Mem) (dest src n : Nat) : Option Mem :=
  match repMovsl m dest src (n / 4) with
  | none => none
  | some m =>
    let dest := dest + n / 4 * 4
    let src := src + n / 4 * 4
    match (if n / 2 % 2 = 1 then movs m dest src 2 else some m) with
    | none => none
    | some m =>
      let k := if n / 2 % 2 = 1 then 2 else 0
      if n % 2 = 1 then movs m (dest + k) (src + k) 1 else some m

/-- `memset`, libpok/libc/string/memset.c 20-28 and kernel/libc/memset.c 17-26. -/
def memset (m : Mem) (dest val : Nat) : Nat → Option Mem
  | 0 => some m
  | count + 1 =>
    match store m dest val with
    | none => none
    | some m => memset m (dest + 1) val count

/-- A little-endian 32-bit load. -/
def load32 (m : Mem) (a : Nat) : Option Nat :=
  match m a, m (a + 1), m (a + 2), m (a + 3) with
  | some b0, some b1, some b2, some b3 => some (b0 + 256 * b1 + 65536 * b2 + 16777216 * b3)
  | _, _, _, _ => none

/-- `memcmp`, libpok/libc/string/memcmp.c 19-36: the pointers are pointers to 32-bit words, the count counts
words. -/
def memcmp (m : Mem) (s1 s2 : Nat) : Nat → Option Int
  | 0 => some 0
  | n + 1 =>
    match load32 m s1, load32 m s2 with
    | some a, some b => if a ≠ b then some (if a > b then 1 else -1) else memcmp m (s1 + 4) (s2 + 4) n
    | _, _ => none

/-- Number of addresses; a loop over a string that runs longer has left the string. -/
def FUEL : Nat := 2 ^ 32

/-- `strlen`, libpok/libc/string/strlen.c 19-25 and kernel/libc/strlen.c 17-28. -/
def strlenLoop (m : Mem) (s len : Nat) : Nat → Option Nat
  | 0 => none
  | fuel + 1 =>
    match m s with
    | none => none
    | some c => if c ≠ 0 then strlenLoop m (s + 1) (len + 1) fuel else some len

/-- `strlen`. -/
def strlen (m : Mem) (s : Nat) : Option Nat := strlenLoop m s 0 FUEL

/-- `strlen` for x86, libpok/libc/string/x86/strlen.c 17-28: `repne scasb` counts `ecx` down from 0xffffffff, once for
each byte read, and stops after a null byte or when `ecx` is null; then `ecx` is complemented and decremented. -/
def scasb (m : Mem) (edi : Nat) : Nat → Option Nat
  | 0 => some 0
  | ecx + 1 =>
    match m edi with
    | none => none
    | some c => if c = 0 then some ecx else scasb m (edi + 1) ecx

/-- `strlen` for x86. -/
def strlenX86 (m : Mem) (s : Nat) : Option Nat :=
  (scasb m s (2 ^ 32 - 1)).map fun ecx => (2 ^ 32 - 1 - ecx + 2 ^ 32 - 1) % 2 ^ 32

/-- A `char` as a number: signed (x86, SPARC) or not (PowerPC). -/
def charVal (signed : Bool) (c : Nat) : Int := if signed ∧ c ≥ 128 then (c : Int) - 256 else c

/-- Body shared by `strcmp` and `strncmp`: libpok/libc/string/strcmp.c 22-29 and kernel/libc/strcmp.c 23-33. -/
def strcmpLoop (signed : Bool) (m : Mem) (s1 s2 : Nat) : Nat → Option Int
  | 0 => none
  | fuel + 1 =>
    match m s1, m s2 with
    | some a, some b =>
      if a = 0 ∧ b = 0 then some 0
      else if charVal signed a < charVal signed b then some (-1)
      else if charVal signed a > charVal signed b then some 1
      else strcmpLoop signed m (s1 + 1) (s2 + 1) fuel
    | _, _ => none

/-- `strcmp`, libpok/libc/string/strcmp.c 19-30 and kernel/libc/strcmp.c 20-34. -/
def strcmp (signed : Bool) (m : Mem) (s1 s2 : Nat) : Option Int := strcmpLoop signed m s1 s2 FUEL

/-- `strncmp`, libpok/libc/string/strcmp.c 36-47 and kernel/libc/strcmp.c 36-51. -/
def strncmp (signed : Bool) (m : Mem) (s1 s2 : Nat) : Nat → Option Int
  | 0 => some 0
  | size + 1 =>
    match m s1, m s2 with
    | some a, some b =>
      if a = 0 ∧ b = 0 then some 0
      else if charVal signed a < charVal signed b then some (-1)
      else if charVal signed a > charVal signed b then some 1
      else strncmp signed m (s1 + 1) (s2 + 1) size
    | _, _ => none

/-- Loop of `strcpy`, libpok/libc/string/strcpy.c 20-24. -/
def strcpyLoop (m : Mem) (dest str : Nat) : Nat → Option Mem
  | 0 => none
  | fuel + 1 =>
    match m str with
    | none => none
    | some c =>
      if c ≠ 0 then
        match store m dest c with
        | none => none
        | some m => strcpyLoop m (dest + 1) (str + 1) fuel
      else store m dest 0

/-- `strcpy`, libpok/libc/string/strcpy.c 19-25. -/
def strcpy (m : Mem) (dest str : Nat) : Option Mem := strcpyLoop m dest str FUEL

/-- `strncpy`, libpok/libc/string/strcpy.c 31-39. -/
def strncpy (m : Mem) (dest str : Nat) : Nat → Option Mem
  | 0 => some m
  | size + 1 =>
    match m str with
    | none => none
    | some c =>
      match store m dest c with
      | none => none
      | some m => if c = 0 then some m else strncpy m (dest + 1) (str + 1) size

/-! ## Pseudo-random numbers -/

/-- `rand`, libpok/libc/stdlib/rand.c 24-27, `RAND_MAX` = 256 (libpok/include/libc/stdlib.h 20): the new state and the
result. -/
def rand (next : Nat) : Nat × Nat :=
  let n := (next * 1103515245 + 12345) % 2 ^ 32
  (n, n % 257)

/-! ## Lookup of names -/

/-- `streq`, libpok/libc/string/streq.c 26-41: the strings are compared up to the length of the shorter one, which
is kept in a `uint8_t`. -/
def streq (a b : List Nat) : Bool :=
  let n := min a.length b.length % 256
  a.take n == b.take n

/-- `strncmp(a, b, n) == 0` on strings without null bytes (`strncmp` above is proved to compute this). -/
def eqUpTo (a b : List Nat) (n : Nat) : Bool := (a ++ [0]).take n == (b ++ [0]).take n

/-- The names for which `GET_EVENT_ID` (libpok/arinc653/event.c 158-175) and `GET_SEMAPHORE_ID`
(libpok/arinc653/semaphore.c 145-166) find an object: a comparison up to the length of the requested name, which is
kept in a `uint16_t`. -/
def idMatches (requested configured : List Nat) : Bool := eqUpTo requested configured (requested.length % 65536)

/-- The loops of the lookups by name: the first object that matches. -/
def findName (names : List (List Nat)) (matches_ : List Nat → Bool) : Option Nat := names.findIdx? matches_

end Pok.Libc
