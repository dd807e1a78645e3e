import Verif.Model.Kernel
import Verif.Spec.Stubs
import Verif.Spec.Arinc

/-!
# Specification of the status of a partition (ARINC 653 GET_PARTITION_STATUS)

Independent of how the kernel obtains the values.
-/

namespace Pok.InfoSpec
open Pok.StubSpec

/-- The processor time that a partition gets in each major frame: the sum of the slots given to it. -/
def allotted (c : SlotTable) (p : Nat) : Nat := ((List.range c.nbSlots).filter fun i => c.alloc i == p).map c.slots |>.sum

/-- The fields of the status variable that the ARINC header declares (i386): period, duration, identifier, lock level, operating mode, start
condition. -/
structure Status where
  period : Nat
  duration : Nat
  identifier : Nat
  lockLevel : Nat
  mode : Nat
  start : Nat

/-- The status variable at address `a` holds the values `s`. -/
def HoldsStatus (m : Nat → Nat) (a : Nat) (s : Status) : Prop :=
  HoldsInt m a 8 s.period ∧ HoldsInt m (a + 8) 8 s.duration ∧ HoldsInt m (a + 16) 4 s.identifier ∧ HoldsInt m (a + 20) 4 s.lockLevel ∧
    HoldsInt m (a + 24) 4 s.mode ∧ HoldsInt m (a + 28) 4 s.start

end Pok.InfoSpec
