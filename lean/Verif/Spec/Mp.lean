import Verif.Model.Basic

/-! Specification: multiprocessor tables and messages between processors, as the MultiProcessor Specification and the
manual of the interrupt controller define them. -/

namespace Pok
namespace Spec

/-- An entry of the configuration table: type 0 (processor, 20 bytes) to 4 (8 bytes each); `body` are the bytes after
the type. -/
structure MpEntry where
  kind : Nat
  body : List Nat
  ok : kind < 5 ∧ body.length = if kind = 0 then 19 else 7

/-- The bytes of an entry. -/
def MpEntry.bytes (e : MpEntry) : List Nat := e.kind :: e.body

/-- The entry describes a processor. -/
def MpEntry.isProc (e : MpEntry) : Bool := e.kind == 0

/-- The entry describes a processor that can be used: bit 0 of its flags, its fourth byte. -/
def MpEntry.usable (e : MpEntry) : Bool := e.kind == 0 && e.bytes.getD 3 0 % 2 == 1

/-- The entry describes an I/O interrupt controller in use: its fourth byte is not 0. -/
def MpEntry.ioapic (e : MpEntry) : Bool := e.kind == 2 && e.bytes.getD 3 0 != 0

/-- The bytes of a table. -/
def mpBytes (es : List MpEntry) : List Nat := es.flatMap MpEntry.bytes

/-- Memory holds these bytes from address `a`. -/
def HoldsBytes (m : Nat → Nat) (a : Nat) (l : List Nat) : Prop := ∀ i (h : i < l.length), m (a + i) = l[i]

/-- The interrupt controllers, among `all`, that receive the message written by the one with number `self` as the two
command words, and the vector: bits 18 and 19 of the low word say whether the destination is the number in the top byte
of the high word, the sender, everyone, or everyone else. -/
def ipiTargets (all : List Nat) (self : Nat) (w : Nat × Nat) : List Nat × Nat :=
  (match w.2 / 2 ^ 18 % 4 with
    | 0 => all.filter (· = w.1 / 2 ^ 24)
    | 1 => [self]
    | 2 => all
    | _ => all.filter (· ≠ self), w.2 % 256)

end Spec
end Pok
