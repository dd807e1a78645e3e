import Verif.Model.Thread

/-!
# Processor affinity

Model of kernel/core/multiprocessing.c 19-45.  A mask is the 64-bit `partition_processor_affinity[pid]`.
-/

namespace Pok

/-- `(tmp >> i) & 1`. -/
def affBit (mask i : Nat) : Nat := (mask >>> i) % 2

/-- The loop of `get_proc_real_id`, kernel/core/multiprocessing.c 26-35: `k` is `proc`, `cnt` is
`counter`.  A shift by 64 or more is undefined, and the assertion of line 32 fails after it: `none`. -/
def procRealLoop (mask want : Nat) : Nat → Nat → Nat → Option Nat
  | 0, _, _ => none
  | fuel + 1, k, cnt =>
    let cnt := cnt + affBit mask k
    if cnt ≤ want then procRealLoop mask want fuel (k + 1) cnt else some k

/-- `get_proc_real_id`, kernel/core/multiprocessing.c 26-35. -/
def procRealId (mask partitionProc : Nat) : Option Nat := procRealLoop mask partitionProc 64 0 0

/-- The loop of `get_proc_partition_id`, kernel/core/multiprocessing.c 41-43: bits below `n`. -/
def countBits (mask : Nat) : Nat → Nat
  | 0 => 0
  | n + 1 => countBits mask n + affBit mask n

/-- `get_proc_partition_id`, kernel/core/multiprocessing.c 37-45 (`none`: failed assertion or shift by
64 or more). -/
def procPartitionId (mask real : Nat) : Option Nat :=
  if real < 64 ∧ affBit mask real = 1 then some (countBits mask real) else none

end Pok
