import Verif.Model.Arinc

/-!
# What the ARINC 653 services promise
-/

namespace Pok.ArincSpec
open Arinc (Code Out)

/-- The number is a return code of the standard. -/
def Standard (n : Nat) : Prop := ∃ c : Code, c.num = n

/-- Success is reported exactly when the kernel was asked and agreed. -/
def Truthful (o : Out) (reply : Errno) : Prop := o.code = some Code.noError.num ↔ o.calls ≠ [] ∧ reply = .ok

/-- How long a caller that has to wait may wait: not at all, until a date, or for ever. -/
inductive Wait
  | none
  | until_ (date : Nat)
  | forever
deriving DecidableEq, Repr

/-- What a timeout given in nanoseconds means at date `now`: `-1` is for ever. -/
def wanted (timeOut : Int) (now : Nat) : Wait :=
  if timeOut = -1 then .forever else if timeOut ≤ 0 then .none else .until_ (now + timeOut.toNat)

/-- How long the kernel lets the caller wait, for the date that it computes: zero is for ever. -/
def granted (date : Nat) : Wait := if date = 0 then .forever else .until_ date

/-- A request to create a process, with the kernel's answers. -/
structure Request where
  name : List Nat
  priority : Int
  created : Errno × Nat
  suspended : Errno

/-- The identifier that a list of answered requests gave to a name: the first one that succeeded. -/
def known (name : List Nat) : List (List Nat × Option Nat) → Option Nat
  | [] => none
  | (n, some i) :: l => if n = name then some i else known name l
  | (_, none) :: l => known name l

/-- `SOURCE` (0) or `DESTINATION` (1). -/
def Direction (d : Int) : Prop := d = 0 ∨ d = 1

/-- `FIFO` (0) or `PRIORITY` (1). -/
def Discipline (d : Int) : Prop := d = 0 ∨ d = 1

/-- A nonnegative 32-bit message size or length. -/
def Size (n : Int) : Prop := 0 ≤ n ∧ n < 2 ^ 31

/-- The service answers with a return code of the standard other than `NO_ERROR`, and asks the kernel for nothing. -/
def Refused (o : Out) : Prop := o.calls = [] ∧ ∃ c : Code, c ≠ .noError ∧ o.code = some c.num

/-- The operating modes of the standard. -/
def operatingMode : Nat → Option Mode
  | 0 => some .idle
  | 1 => some .initCold
  | 2 => some .initWarm
  | 3 => some .normal
  | _ => none

end Pok.ArincSpec
