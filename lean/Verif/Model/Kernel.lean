import Verif.Model.PartSched
import Verif.Model.ThreadSched
import Verif.Model.Affinity

/-!
# The kernel state: threads, partitions, processors; thread election

Model of kernel/core/sched.c 188-435 and 677-739.
-/

namespace Pok

/-- Configuration of a system (macros of the generated `deployment.h`).  `wakes` says that lock objects
or ports are compiled in (the condition around kernel/core/sched.c 205-211); `multi` is
`multiprocessing_system`; `policy` is the result of `pok_partition_setup_scheduler`. -/
structure Config extends SlotTable where
  nbThreads : Nat
  nbProcs : Nat
  nthreads : Nat → Nat
  nlocks : Nat → Nat
  policy : Nat → Policy
  affinity : Nat → Nat        -- partition_processor_affinity
  psize : Nat → Nat
  entry : Nat → Nat           -- entry point found by the loader
  stackAddr : Nat → Nat → Nat -- pok_thread_stack_addr (partition, index)
  multi : Nat
  wakes : Bool

/-- `pok_error_status_t`, kernel/include/core/error.h. -/
structure ErrorStatus where
  kind : Nat := 9            -- POK_ERROR_KIND_INVALID
  failedThread : Nat := 0
  failedAddr : Nat := 0
  msg : List Nat := []       -- the first `msg_size` bytes of `msg`
  msgSize : Nat := 0
  deriving DecidableEq, Repr, Inhabited

/-- `pok_partition_t`, kernel/include/core/partition.h 62-123 (memory and name fields that the modelled
functions do not use are left out). -/
structure Part where
  size : Nat := 0
  nthreads : Nat := 0
  sched : Policy := .rr
  activation : Nat := 0
  prev : Nat → Nat := fun _ => 0
  cur : Nat → Nat := fun _ => 0
  low : Nat := 0
  high : Nat := 0
  index : Nat := 0
  lockLow : Nat := 0
  lockHigh : Nat := 0
  threadError : Nat := 0
  error : ErrorStatus := {}
  threadMain : Nat := 0
  mainEntry : Nat := 0
  mainProc : Nat := 0
  mode : Mode := .initWarm

instance : Inhabited Part := ⟨{}⟩

/-- The kernel's global state: `pok_threads`, `pok_partitions`, `current_threads`, the variables of the
partition scheduler; `flushes` records the calls made to the port layer. -/
structure Kernel where
  T : Threads
  P : Nat → Part
  curThread : Nat → Nat      -- current_threads[proc]
  ps : PSched
  flushes : List FlushEv := []

namespace Kernel

/-- `IDLE_THREAD` on processor `proc`, kernel/include/core/thread.h 30. -/
def idle (c : Config) (proc : Nat) : Nat := c.nbThreads - 2 - proc

/-- `KERNEL_THREAD`, kernel/include/core/thread.h 29. -/
def kernelThread (c : Config) : Nat := c.nbThreads - 1

/-- `POK_SCHED_CURRENT_PARTITION`. -/
def curPart (k : Kernel) : Nat := k.ps.part

/-- Store in the thread table. -/
def setT (k : Kernel) (i : Nat) (t : Thread) : Kernel := { k with T := upd k.T i t }
/-- Store in the partition table. -/
def setP (k : Kernel) (p : Nat) (v : Part) : Kernel := { k with P := upd k.P p v }

/-- Wake-up and release of one thread, kernel/core/sched.c 201-220; `none` is the failed assertion of
line 215. -/
def wakeOne (c : Config) (proc now : Nat) (t : Thread) : Option Thread :=
  if t.affinity ≠ proc then some t
  else
    let t := if c.wakes = true ∧ t.state = .waiting ∧ t.wakeup ≤ now then { t with state := .runnable } else t
    if t.state = .waitNextActivation ∧ t.nextActivation ≤ now then
      if t.timeCapacity = 0 then none
      else some { t with state := .runnable, remaining := t.timeCapacity,
                         nextActivation := addU64 t.nextActivation t.period }
    else some t

/-- The wake-up loop over the threads of a partition, kernel/core/sched.c 200-221: threads `i`, `i+1`, …
(the last argument is the number left). -/
def wakeLoop (c : Config) (proc now : Nat) (T : Threads) (i : Nat) : Nat → Option Threads
  | 0 => some T
  | n + 1 =>
    match wakeOne c proc now (T i) with
    | none => none
    | some t => wakeLoop c proc now (upd T i t) (i + 1) n

/-- The budget accounting of the thread that is running, kernel/core/sched.c 251-264. -/
def account (c : Config) (proc : Nat) (k : Kernel) (T : Threads) : Threads :=
  let cur := k.curThread proc
  let P := k.P k.curPart
  if cur ≠ idle c proc ∧ cur ≠ P.threadMain ∧ cur ≠ P.threadError then
    if (T cur).remaining > 0 then upd T cur { T cur with remaining := (T cur).remaining - 1 }
    else if (T cur).timeCapacity > 0 then upd T cur { T cur with state := .waitNextActivation }
    else T
  else T

/-- The choice made by `pok_elect_thread`, kernel/core/sched.c 226-279: new thread table and elected
thread. -/
def choose (c : Config) (proc : Nat) (k : Kernel) (T : Threads) (pid : Nat) : Option (Threads × Nat) :=
  let P := k.P pid
  match P.mode with
  | .initCold | .initWarm =>
    if proc = P.mainProc then some (T, P.threadMain) else some (T, idle c proc)
  | .normal =>
    if P.cur proc = P.threadError ∧ (T (P.cur proc)).state = .runnable then some (T, P.threadError)
    else
      let T := account c proc k T
      match schedFunc P.sched T proc (idle c proc) P.low P.high (P.prev proc) (P.cur proc) with
      | none => none
      | some e => some (T, e)
  | _ => some (T, idle c proc)

/-- `pok_elect_thread`, kernel/core/sched.c 188-287, on processor `proc` at clock `now`.  The loop index
is 8 bits wide: with more than 255 threads the loop does not end. -/
def electThread (c : Config) (proc now : Nat) (k : Kernel) (pid : Nat) : Option (Kernel × Nat) :=
  if (k.P pid).nthreads > 255 then none
  else
    match wakeLoop c proc now k.T (k.P pid).low (k.P pid).nthreads with
    | none => none
    | some T =>
      match choose c proc k T pid with
      | none => none
      | some (T, e) =>
        let T := if (T (k.curThread proc)).timeCapacity > 0 then
            upd T e { T e with endTime := addU64 now (T e).remaining } else T
        some ({ k with T := T }, e)

/-- The update of `CURRENT_THREAD`/`PREV_THREAD`, kernel/core/sched.c 296-305 and 410-419. -/
def record (c : Config) (proc : Nat) (k : Kernel) (e : Nat) : Kernel :=
  let p := k.curPart
  let P := k.P p
  if P.cur proc ≠ e then
    let P := if P.cur proc ≠ idle c proc then { P with prev := upd P.prev proc (P.cur proc) } else P
    k.setP p { P with cur := upd P.cur proc e }
  else k

/-- `pok_sched_thread`, kernel/core/sched.c 407-421, and `pok_global_sched_thread`, 293-307; they differ
only in processor synchronisation.  The elected identifier is truncated to 8 bits.  The context
switch (347-405) is the store in `current_threads[proc]`. -/
def schedThread (c : Config) (proc now : Nat) (k : Kernel) : Option Kernel :=
  match electThread c proc now k k.curPart with
  | none => none
  | some (k, e) =>
    let e := e % 256
    let k := record c proc k e
    some { k with curThread := upd k.curThread proc e }

/-- The partition part of `pok_global_sched`, kernel/core/sched.c 309-312. -/
def switchPartition (c : Config) (now : Nat) (k : Kernel) : Kernel :=
  { k with ps := (electPartition c.toSlotTable k.ps now).1
           flushes := (electPartition c.toSlotTable k.ps now).2 ++ k.flushes }

/-- `pok_global_sched`, kernel/core/sched.c 308-319, on the calling processor.  On a multiprocessor the
other processors then execute `pok_global_sched_thread`, i.e. `schedThread` for them, on their own
(`pok_send_global_schedule_thread`). -/
def globalSched (c : Config) (proc now : Nat) (k : Kernel) : Option Kernel :=
  schedThread c proc now (switchPartition c now k)

/-- `pok_sched_stop_self`, kernel/core/sched.c 695-698. -/
def stopSelf (c : Config) (proc now : Nat) (k : Kernel) : Option Kernel :=
  schedThread c proc now
    (k.setT (k.curThread proc) { k.T (k.curThread proc) with state := .stopped })

/-- `pok_sched_end_period`, kernel/core/sched.c 710-715. -/
def endPeriod (c : Config) (proc now : Nat) (k : Kernel) : Option Kernel :=
  schedThread c proc now
    (k.setT (k.curThread proc) { k.T (k.curThread proc) with state := .waitNextActivation, remaining := 0 })

/-- `pok_sched_activate_error_thread`, kernel/core/sched.c 717-728: the error thread is given the
processor directly, without an election and without updating `CURRENT_THREAD`. -/
def activateError (proc : Nat) (k : Kernel) : Kernel :=
  let e := (k.P k.curPart).threadError
  if e ≠ 0 then
    let k := k.setT e { k.T e with priority := 255, remaining := 1000, period := 100,
                                   nextActivation := 0, state := .runnable }
    { k with curThread := upd k.curThread proc e }
  else k

/-- `pok_sched_get_current`, kernel/core/sched.c 730-739: return code and value stored. -/
def getCurrent (c : Config) (proc : Nat) (k : Kernel) : Errno × Option Nat :=
  if (k.P k.curPart).threadError = 0 then (.thread, none)
  else if k.curThread proc = kernelThread c ∨ k.curThread proc = idle c proc then (.thread, none)
  else (.ok, some (k.curThread proc))

end Kernel
end Pok
