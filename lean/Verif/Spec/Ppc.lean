import Verif.Model.Ppc

/-!
# Address translation by a 32-bit PowerPC processor

From the architecture: the page of an effective address is looked up in the group chosen by the hash of the segment identifier and of the
page index, among the entries with H = 0, then in the group of the complemented hash among those with H = 1.
-/

namespace Pok.PpcSpec
open Ppc (Table Pte)

/-- Fields of an entry. -/
def v (e : Pte) : Nat := e.vsidApi / 2147483648 % 2
def vsid (e : Pte) : Nat := e.vsidApi / 128 % 16777216
def h (e : Pte) : Nat := e.vsidApi / 64 % 2
def api (e : Pte) : Nat := e.vsidApi % 64
def rpn (e : Pte) : Nat := e.rpnFlags / 4096

/-- Page index of an effective address, inside its segment. -/
def page (ea : Nat) : Nat := ea / 4096 % 65536

/-- The hash of a segment identifier and a page index. -/
def hashOf (sid n : Nat) : Nat := sid % 524288 ^^^ n

/-- Entry `e` translates page `n` of segment `sid`, found with hash function number `k`. -/
def Matches (e : Pte) (sid n k : Nat) : Prop := v e = 1 ∧ vsid e = sid ∧ h e = k ∧ api e = n / 1024

instance (e : Pte) (sid n k : Nat) : Decidable (Matches e sid n k) := by unfold Matches; infer_instance

/-- The first matching entry of a group. -/
def lookup (t : Table) (g sid n k : Nat) : Option Pte := ((List.range 8).map (t g)).find? fun e => decide (Matches e sid n k)

/-- The physical address of an effective address, with 1024 groups. -/
def translate (t : Table) (sid ea : Nat) : Option Nat :=
  ((lookup t (hashOf sid (page ea) % 1024) sid (page ea) 0).or
    (lookup t (1023 - hashOf sid (page ea) % 1024) sid (page ea) 1)).map fun e => rpn e * 4096 + ea % 4096

end Pok.PpcSpec
