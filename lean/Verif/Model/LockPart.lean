import Verif.Model.LockObj

/-!
# Lock objects of partitions

Model of kernel/core/lockobj.c 44-67, 111-155 and 380-427: the table `pok_partitions_lockobjs`, its
creation call and the dispatcher of operations.  `lo`, `hi` are the bounds `lockobj_index_low`,
`lockobj_index_high` of the calling partition (kernel/include/core/partition.h 97-100).
-/

namespace Pok

/-- `pok_partitions_lockobjs[POK_CONFIG_NB_LOCKOBJECTS]`, kernel/core/lockobj.c 31. -/
abbrev LockTable := Nat → LockObj

/-- An entry of the table at boot: zero-initialised memory, then `pok_lockobj_init`
(kernel/core/lockobj.c 60-64: `current_value = 1`, `initialized = FALSE`). -/
def LockObj.boot : LockObj :=
  { fifo := ⟨0, 0, false, fun _ => 0⟩, eventFifo := ⟨0, 0, false, fun _ => 0⟩, policy := .standard,
    queueing := .fifo, kind := .other 0, initialized := false, current := 1, max := 0 }

/-- The search for a free object, kernel/core/lockobj.c 133-140; the second argument is the number of
objects left to look at. -/
def findFreeLock (O : LockTable) (mid : Nat) : Nat → Option Nat
  | 0 => none
  | n + 1 => if (O mid).initialized = false then some mid else findFreeLock O (mid + 1) n

/-- `pok_lockobj_partition_create`, kernel/core/lockobj.c 111-155: new table, return code, and the value
stored through `id` (if any: it is stored before the creation can fail). -/
def lockPartitionCreate (lo hi : Nat) (mode : Mode) (O : LockTable) (a : LockAttr) :
    LockTable × Errno × Option Nat :=
  if mode ≠ .initCold ∧ mode ≠ .initWarm then (O, .mode, none)
  else
    match findFreeLock O lo (hi - lo) with
    | none => (O, .lockobjUnavailable, none)
    | some mid =>
      let (o, e) := (O mid).create a
      (upd O mid o, e, some mid)

/-- `pok_lockobj_operation_t`, kernel/include/core/lockobj.h 108-114; `other` is any other integer. -/
inductive LockOp
  | lock | unlock | wait | signal | broadcast | other
  deriving DecidableEq, Repr

/-- `pok_lockobj_partition_wrapper`, kernel/core/lockobj.c 380-427, up to the scheduling point of a
blocking operation.  `cur` is the calling thread, `kind`/`op`/`timeout` are read from the attribute
(a NULL attribute, which the code dereferences, is not covered). -/
def lockPartitionWrapper (N lo hi : Nat) (T : Threads) (now : Nat) (O : LockTable) (cur id : Nat)
    (kind : LockKind) (op : LockOp) (timeout : Nat) :
    Option (Threads × LockTable × LockObj.CallResult) :=
  if id < lo then some (T, O, .done .einval)
  else if id ≥ hi then some (T, O, .done .einval)
  else if (O id).kind ≠ kind then some (T, O, .done .einval)
  else
    match op with
    | .lock =>
      match (O id).lockBegin N T now cur timeout with
      | none => none
      | some (T', o, r) => some (T', upd O id o, r)
    | .unlock =>
      match (O id).unlock N T with
      | none => none
      | some (T', o, e, _) => some (T', upd O id o, .done e)
    | .wait =>
      match (O id).waitBegin N T now cur timeout with
      | none => none
      | some (T', o, r) => some (T', upd O id o, r)
    | .signal =>
      match (O id).signal N T with
      | none => none
      | some (T', o, e, _) => some (T', upd O id o, .done e)
    | .broadcast =>
      match (O id).broadcast N T with
      | none => none
      | some (T', o, e) => some (T', upd O id o, .done e)
    | .other => some (T, O, .done .einval)

end Pok
