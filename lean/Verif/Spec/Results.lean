import Verif.Model.Results
import Verif.Spec.Stubs

/-!
# Specification of the results of library calls

For each answer of the kernel, the variable that the library's headers declare for it (libpok/include, i386): its size, and its fields as
(offset, size, value).
-/

namespace Pok.ResultSpec
open Pok.Results Pok.StubSpec

/-- The fields of the library's variable, with the values that they must have. -/
def fields : Answer → List (Nat × Nat × Nat)
  | .lockId i => [(0, 1, i)]
  | .portId i => [(0, 1, i)]
  | .threadId i => [(0, 4, i)]
  | .tick t => [(0, 8, t)]
  | .partitionId i => [(0, 1, i)]
  | .period t => [(0, 8, t)]
  | .duration t => [(0, 8, t)]
  | .lockLevel n => [(0, 4, n)]
  | .mode n => [(0, 4, n)]
  | .startCondition n => [(0, 4, n)]
  | .length n => [(0, 4, n)]
  | .valid b => [(0, 4, b)]
  | .thread v => [(0, 1, v.priority), (1, 1, v.affinity), (4, 4, v.entry), (8, 8, v.period), (16, 8, v.deadline), (24, 8, v.capacity),
      (32, 4, v.stackSize), (36, 4, v.state)]
  | .sampling v => [(0, 4, v.size), (4, 1, v.direction), (8, 8, v.refresh), (16, 4, v.validity)]
  | .queueing v => [(0, 4, v.size), (4, 1, v.direction), (6, 1, v.waiting)]
  | .error st => [(0, 1, st.kind), (4, 4, st.failedThread), (8, 4, st.failedAddr), (16, 4, st.msgSize)]

/-- The size of the library's variable. -/
def size : Answer → Nat
  | .lockId _ => 1 | .portId _ => 1 | .threadId _ => 4 | .tick _ => 8 | .partitionId _ => 1 | .period _ => 8 | .duration _ => 8
  | .lockLevel _ => 4 | .mode _ => 4 | .startCondition _ => 4 | .length _ => 4 | .valid _ => 4 | .thread _ => 40 | .sampling _ => 20
  | .queueing _ => 8 | .error _ => 20

/-- Every value fits in its field. -/
def Fits (a : Answer) : Prop := ∀ f ∈ fields a, f.2.2 < 256 ^ f.2.1

/-- The variable at address `p` holds the answer. -/
def Shown (m : Nat → Nat) (p : Nat) (a : Answer) : Prop := ∀ f ∈ fields a, HoldsInt m (p + f.1) f.2.1 f.2.2

/-- Nothing but the `n` bytes at `p` changed. -/
def OnlyIn (m m' : Nat → Nat) (p n : Nat) : Prop := ∀ x, (x < p ∨ p + n ≤ x) → m' x = m x

/-- The message of an error status is where the library looks for it: at the address that the field `msg` (offset 12) of the variable
holds. -/
def MessageShown (m : Nat → Nat) (p : Nat) (msg : List Nat) : Prop := ∃ a, HoldsInt m (p + 12) 4 a ∧ message m a msg.length = msg

end Pok.ResultSpec
