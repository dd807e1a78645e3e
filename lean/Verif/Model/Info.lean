import Verif.Model.Results

/-!
# What a partition and its threads can learn about themselves

The getters of `kernel/core/partition.c`, `pok_thread_id` and the ARINC services built on them.
-/

namespace Pok.Info
open Pok.Results Pok.Stub

/-- `pok_current_partition_get_{id,period,duration,operating_mode,lock_level,start_condition}`, kernel/core/partition.c 395-425: the values
stored.  The fields `period` (set at line 195), `lock_level` (237) and `start_condition` (238, `NORMAL_START`) of `pok_partition_t` are set once
by `pok_partition_init` and assigned nowhere else in the kernel, so they are the constants 0.  `none`: read outside `pok_sched_slots`. -/
def getId (k : Kernel) : Answer := .partitionId k.curPart
/-- kernel/core/partition.c 400-403. -/
def getPeriod : Answer := .period 0
/-- kernel/core/partition.c 405-408: the table of slots is indexed by the partition. -/
def getDuration (c : Config) (k : Kernel) : Option Answer :=
  if k.curPart < c.nbSlots then some (.duration (c.slots k.curPart)) else none
/-- kernel/core/partition.c 410-414. -/
def getMode (k : Kernel) : Answer := .mode (modeNum (k.P k.curPart).mode)
/-- kernel/core/partition.c 416-419. -/
def getLockLevel : Answer := .lockLevel 0
/-- kernel/core/partition.c 421-425. -/
def getStartCondition : Answer := .startCondition 0

/-- `GET_PARTITION_STATUS`, libpok/arinc653/partition.c 24-33: memory after the call with the status variable at `p` (offsets of
`PARTITION_STATUS_TYPE`, libpok/include/arinc653/partition.h 38-45, on i386), and the return code.  The memory checks of the system calls, which
succeed for a variable of the partition, are left out. -/
def partitionStatus (c : Config) (k : Kernel) (m : Nat → Nat) (p : Nat) : Option ((Nat → Nat) × Arinc.Code) :=
  (getDuration c k).map fun d =>
    let m := store m (p + 16) (getId k)
    let m := store m p getPeriod
    let m := store m (p + 8) d
    let m := store m (p + 20) getLockLevel
    let m := store m (p + 24) (getMode k)
    let m := store m (p + 28) getStartCondition
    (m, .noError)

/-- `pok_thread_id` (libpok/core/threadid.c 22-24, system call 58, kernel/core/syscall.c 172-175, `pok_sched_get_current`): memory after the call with
the variable at `p`, and the result. -/
def threadId (c : Config) (proc : Nat) (k : Kernel) (m : Nat → Nat) (p : Nat) : (Nat → Nat) × Errno :=
  match Kernel.getCurrent c proc k with
  | (e, none) => (m, e)
  | (e, some t) => (store m p (.threadId t), e)

/-- `GET_MY_ID`, libpok/arinc653/process.c 42-51: the value stored in `process_id` and the code.  `junk` is what the local variable `thread_id`
holds before it is written. -/
def myId (c : Config) (proc : Nat) (k : Kernel) (junk : Nat) : Nat × Arinc.Code :=
  match Kernel.getCurrent c proc k with
  | (_, none) => (junk, .noError)
  | (_, some t) => (t, .noError)

end Pok.Info
