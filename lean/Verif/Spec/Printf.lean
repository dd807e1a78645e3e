import Verif.Model.Printf
import Verif.Spec.Float

/-!
# What formatted output should print

A format is a list of items, each with the argument that it prints.
-/

namespace Pok.PrintfSpec
open Pok.Printf (Size)

/-- A part of a call of `printf`. -/
inductive Item
  | text (c : Nat)                                   -- an ordinary character
  | percent                                          -- "%%"
  | signed (size : Size) (letter : Bool) (v : Int)   -- "%d" (or "%i") with a size modifier
  | unsigned (size : Size) (base : Nat) (v : Nat)    -- "%o", "%u" or "%x" with a size modifier
  | char (v : Nat)                                   -- "%c"
  | string (p : Nat) (s : List Nat)                  -- "%s": address and characters
  | float (x : Nat)                                  -- "%f": the bits of a double

/-- Characters of a piece of text. -/
def chars (s : String) : List Nat := s.toList.map Char.toNat

/-- Size modifiers. -/
def modifier : Size → List Nat
  | .int => [] | .long => chars "l" | .longLong => chars "ll" | .short => chars "h" | .char => chars "hh"

/-- What the programmer writes in the format. -/
def Item.source : Item → List Nat
  | .text c => [c]
  | .percent => chars "%%"
  | .signed s l _ => chars "%" ++ modifier s ++ chars (if l then "d" else "i")
  | .unsigned s b _ => chars "%" ++ modifier s ++ chars (if b = 8 then "o" else if b = 10 then "u" else "x")
  | .char _ => chars "%c"
  | .string _ _ => chars "%s"
  | .float _ => chars "%f"

/-- Number of bits of the argument as passed, and as converted. -/
def passed : Size → Nat
  | .longLong => 64 | _ => 32
def width : Size → Nat
  | .longLong => 64 | .short => 16 | .char => 8 | _ => 32

/-- The 32-bit words of an argument of `b` bits whose value is `v`. -/
def words (b v : Nat) : List Nat := if b = 64 then [v % 2 ^ 32, v / 2 ^ 32 % 2 ^ 32] else [v % 2 ^ 32]

/-- What the programmer passes. -/
def Item.args : Item → List Nat
  | .text _ | .percent => []
  | .signed s _ v => words (passed s) (v % (2 ^ passed s : Nat) : Int).toNat
  | .unsigned s _ v => words (passed s) v
  | .char v => [v]
  | .string p _ => [p]
  | .float x => words 64 x

/-- A number in base `b`. -/
def inBase (b n : Nat) : List Nat := (Nat.toDigits b n).map Char.toNat

/-- An integer in decimal. -/
def decimal (v : Int) : List Nat := if v < 0 then 45 :: inBase 10 v.natAbs else inBase 10 v.natAbs

/-- The `i`-th digit after the decimal point of a number that is not negative, counted from 1. -/
def place (q : ℚ) (i : Nat) : Nat := ⌊q * 10 ^ i⌋₊ % 10

/-- A number that is not negative in decimal, cut off after six places. -/
def fixed (q : ℚ) : List Nat := inBase 10 ⌊q⌋₊ ++ chars "." ++ (List.range 6).map fun i => 48 + place q (i + 1)

/-- What must be printed: integers are converted to the size announced (to the nearest integer congruent modulo a power of two). -/
def Item.shown : Item → List Nat
  | .text c => [c]
  | .percent => [37]
  | .signed s _ v => decimal (Int.bmod v (2 ^ width s))
  | .unsigned s b v => inBase b (v % 2 ^ width s)
  | .char v => [v % 256]
  | .string _ s => s
  | .float x => fixed (Float.value x)

/-- Arguments of the types announced; `str` gives the strings in memory.  Doubles: those between 0 and `2^31` with few enough binary places that
a million times their fraction fits in the `p` bits with which the processor computes. -/
def Item.Ok (flt : Option Nat) (str : Nat → Option (List Nat)) : Item → Prop
  | .text c => c ≠ 37
  | .percent => True
  | .signed s _ v => -(2 ^ (passed s - 1) : Int) ≤ v ∧ v < 2 ^ (passed s - 1)
  | .unsigned s b v => v < 2 ^ passed s ∧ (b = 8 ∨ b = 10 ∨ b = 16)
  | .char v => v < 2 ^ 32
  | .string p s => p < 2 ^ 32 ∧ str p = some s
  | .float x => x < 2 ^ 64 ∧ Float.IsFinite x ∧ 0 ≤ Float.value x ∧ Float.value x < 2 ^ 31 ∧
      ∃ p, flt = some p ∧ 53 ≤ p ∧ ∃ k : ℤ, Float.value x * 2 ^ (p - 20) = k

/-- How many of the characters printed are not counted: one for every integer that is not zero; for a double, one for an integer part that is
not zero, one for the point and one for every digit after it that is not zero. -/
def Item.lost : Item → Nat
  | .signed s _ v => if Int.bmod v (2 ^ width s) = 0 then 0 else 1
  | .unsigned s _ v => if v % 2 ^ width s = 0 then 0 else 1
  | .float x => (if ⌊Float.value x⌋₊ = 0 then 0 else 1) + 1 + (List.range 6).countP fun i => place (Float.value x) (i + 1) ≠ 0
  | _ => 0

end Pok.PrintfSpec
