import Mathlib.Data.Nat.Digits.Defs
import Verif.Model.Libc

/-!
# What ISO C says about the library routines
-/

namespace Pok.LibcSpec
open Libc (Mem)

/-- The text of a natural number in a radix: its digits, most significant first, without leading zeros. -/
def natText (radix n : Nat) : List Nat :=
  if n = 0 then [48] else (Nat.digits radix n).reverse.map fun d => if d < 10 then 48 + d else 87 + d

/-- The decimal text of an integer. -/
def intText (v : Int) : List Nat := if v < 0 then 45 :: natText 10 (-v).toNat else natText 10 v.toNat

/-- The bytes `u` are in memory at address `a`. -/
def Has (m : Mem) (a : Nat) (u : List Nat) : Prop := ∀ i (h : i < u.length), m (a + i) = some u[i]

/-- The string `s` is in memory at address `a`, with its final null byte. -/
def IsStr (m : Mem) (a : Nat) (s : List Nat) : Prop := Has m a (s ++ [0]) ∧ 0 ∉ s

/-- The program may write the `n` bytes at address `a`. -/
def Writable (m : Mem) (a n : Nat) : Prop := ∀ i < n, (m (a + i)).isSome = true

/-- Objects of `n` and `k` bytes that do not overlap. -/
def Apart (a n b k : Nat) : Prop := a + n ≤ b ∨ b + k ≤ a

/-- Memory `m'` is `m` with the bytes `u` at address `a`. -/
def Wrote (m m' : Mem) (a : Nat) (u : List Nat) : Prop :=
  Has m' a u ∧ ∀ x, x < a ∨ a + u.length ≤ x → m' x = m x

/-- Comparison of strings, byte by byte as unsigned numbers, a shorter string before a longer one it begins. -/
def cmpStr : List Nat → List Nat → Int
  | [], [] => 0
  | [], _ :: _ => -1
  | _ :: _, [] => 1
  | a :: s, b :: t => if a < b then -1 else if b < a then 1 else cmpStr s t

/-- The part of an array of bytes `strncmp` looks at: at most `n` bytes, up to a null byte. -/
def cut (u : List Nat) (n : Nat) : List Nat := (u.take n).takeWhile (· ≠ 0)

/-- An array of bytes that may be given to `strncmp`: it has `n` bytes or a null byte. -/
def Covers (u : List Nat) (n : Nat) : Prop := n ≤ u.length ∨ 0 ∈ u

end Pok.LibcSpec
