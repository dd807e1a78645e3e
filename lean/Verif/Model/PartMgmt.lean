import Verif.Model.ThreadMgmt

/-!
# Partition management

Model of kernel/core/partition.c and of the error thread creation in kernel/core/error.c.
-/

namespace Pok.Kernel

/-- `pok_partition_setup_main_thread`, kernel/core/partition.c 116-129.  If the creation fails the local
`main_thread` is uninitialised: `none`. -/
def setupMainThread (c : Config) (k : Kernel) (pid : Nat) : Option Kernel :=
  match threadCreate c k { entry := (k.P pid).mainEntry, priority := 1, deadline := 0,
                           period := U64 - 1, timeCapacity := U64 - 1, affinity := 0 } pid with
  | some (k, .ok, some id) => some (k.setP pid { k.P pid with threadMain := id })
  | _ => none

/-- The partition record after kernel/core/partition.c 90-108 (called on processor `proc`).  The loader's
effect on memory is modelled elsewhere; here it only gives the entry point. -/
def resetPart (c : Config) (proc pid : Nat) (P : Part) : Part :=
  { P with sched := c.policy pid, index := 0, cur := upd P.cur proc P.low,
           prev := upd P.prev proc (idle c proc), threadError := 0,
           error := { P.error with failedThread := 0, failedAddr := 0, kind := 9, msgSize := 0, msg := [] },
           mainEntry := c.entry pid }

/-- `pok_partition_reinit`, kernel/core/partition.c 85-111. -/
def reinit (c : Config) (proc : Nat) (k : Kernel) (pid : Nat) : Option Kernel :=
  setupMainThread c (k.setP pid (resetPart c proc pid (k.P pid))) pid

/-- What `pok_partition_set_mode` does to one thread when entering NORMAL mode, kernel/core/partition.c
278-309. -/
def release (c : Config) (now activation : Nat) (t : Thread) : Thread :=
  if t.state ≠ .delayedStart then t
  else if t.period = -1 then
    let t1 := { t with state := if t.wakeup = 0 then .runnable else .waiting, wakeup := (t.wakeup + now) % U64 }
    if t1.timeCapacity > 0 then { t1 with endTime := addU64 t1.wakeup t1.timeCapacity } else t1
  else if t.wakeup = 0 then
    let t1 := { t with state := .runnable, wakeup := (t.wakeup + now) % U64 }
    if t1.timeCapacity > 0 then { t1 with endTime := addU64 t1.wakeup t1.timeCapacity } else t1
  else
    let next := (t.wakeup + c.majorFrame + activation) % U64
    { t with nextActivation := next, endTime := addU64 next t.timeCapacity, state := .waitNextActivation }

/-- The loop of kernel/core/partition.c 277-310 over threads `i`, `i+1`, … (`n` left). -/
def releaseLoop (c : Config) (now activation : Nat) (T : Threads) (i : Nat) : Nat → Threads
  | 0 => T
  | n + 1 => releaseLoop c now activation (upd T i (release c now activation (T i))) (i + 1) n

/-- `pok_partition_set_mode`, kernel/core/partition.c 256-372. -/
def setMode (c : Config) (proc now : Nat) (k : Kernel) (pid : Nat) (mode : Mode) : Option (Kernel × Errno) :=
  let C := k.P k.curPart
  match mode with
  | .normal =>
    if (k.P pid).mode = .idle then some (k, .partitionMode)
    else if k.curThread proc ≠ C.threadMain then some (k, .partitionMode)
    else
      let k1 := k.setP pid { k.P pid with mode := mode }
      let T := releaseLoop c now (k1.P k1.curPart).activation k1.T (k1.P k1.curPart).low (k1.P pid).nthreads
      let m := (k1.P pid).threadMain
      let T := T.setState m .stopped
      match globalSched c proc now { k1 with T := T } with
      | none => none
      | some k => some (k, .ok)
  | .stopped =>
    if C.threadError = 0 ∨ k.curThread proc ≠ C.threadError then some (k, .partitionMode)
    else
      match globalSched c proc now (k.setP pid { k.P pid with mode := mode }) with
      | none => none
      | some k => some (k, .ok)
  | .initWarm | .initCold =>
    if (k.P pid).mode = .initCold ∧ mode = .initWarm then some (k, .partitionMode)
    else if C.threadError = 0 ∨ k.curThread proc ≠ C.threadError then some (k, .partitionMode)
    else
      match reinit c proc (k.setP pid { k.P pid with mode := mode }) pid with
      | none => none
      | some k =>
        match globalSched c proc now k with
        | none => none
        | some k => some (k, .ok)
  | _ => some (k, .partitionMode)

/-- `pok_partition_set_mode_current`, kernel/core/partition.c 377-390. -/
def setModeCurrent (c : Config) (proc now : Nat) (k : Kernel) (mode : Mode) : Option (Kernel × Errno) :=
  let C := k.P k.curPart
  if k.curThread proc ≠ C.threadMain ∧ k.curThread proc ≠ C.threadError then some (k, .thread)
  else setMode c proc now k k.curPart mode

/-- `pok_partition_stop_thread`, kernel/core/partition.c 433-453 (32-bit sum). -/
def stopThread (c : Config) (proc now : Nat) (k : Kernel) (tid : Nat) : Option (Kernel × Errno) :=
  let C := k.P k.curPart
  if k.curThread proc ≠ C.threadError then some (k, .thread)
  else
    let id := (tid + C.low) % U32
    if C.low > id ∨ C.high < id then some (k, .threadattr)
    else
      match globalSched c proc now (k.setT id { k.T id with state := .stopped }) with
      | none => none
      | some k => some (k, .ok)

/-- `pok_partition_restart_thread`, kernel/core/partition.c 458-478. -/
def restartThread (c : Config) (proc now : Nat) (k : Kernel) (tid : Nat) : Option (Kernel × Errno) :=
  let C := k.P k.curPart
  if k.curThread proc ≠ C.threadError then some (k, .thread)
  else
    let id := (tid + C.low) % U32
    if C.low > id ∨ C.high < id then some (k, .threadattr)
    else
      match globalSched c proc now (threadRestart k id) with
      | none => none
      | some k => some (k, .ok)

/-- `pok_current_partition_get_duration`, kernel/core/partition.c 405-408: indexes the slot table with the
partition number. -/
def getDuration (c : Config) (k : Kernel) : Nat := c.slots k.curPart

/-- `pok_error_thread_create`, kernel/core/error.c 23-41.  The attributes `period`, `deadline` and
`processor_affinity` of the local `attr` are not set by the code: `junk` gives them.  If the creation
fails the uninitialised `tid` is stored: `none`. -/
def errorThreadCreate (c : Config) (proc : Nat) (k : Kernel) (entry : Nat) (junk : ThreadAttr) :
    Option (Kernel × Errno) :=
  match threadCreate c k { junk with priority := 200, entry := entry, timeCapacity := 10000 } k.curPart with
  | some (k, .ok, some id) =>
    let k := k.setP k.curPart { k.P k.curPart with threadError := id }
    some (activateError proc k, .ok)
  | _ => none

/-! ### Boot -/

/-- A zero-initialised thread control block. -/
def zeroThread : Thread :=
  { priority := 0, basePriority := 0, period := 0, deadline := 0, timeCapacity := 0, remaining := 0,
    nextActivation := 0, state := .stopped, endTime := 0, wakeup := 0, entry := 0, partition := 0, sp := 0,
    initStackAddr := 0, affinity := 0 }

/-- Sum of the first `n` values: `threads_index` (and `lockobj_index`) in kernel/core/partition.c 139, 148,
206, 221. -/
def prefixSum (f : Nat → Nat) : Nat → Nat
  | 0 => 0
  | n + 1 => prefixSum f n + f n

/-- The partition record set up by iteration `i` of `pok_partition_init`, kernel/core/partition.c 151-238
(lock object bounds are `uint8_t`).  `none`: no processor is allowed to the partition. -/
def initPart (c : Config) (i : Nat) : Option Part :=
  match procRealId (c.affinity i) 0 with
  | none => none
  | some mp =>
    some { size := c.psize i, nthreads := c.nthreads i, sched := c.policy i, activation := 0
           low := prefixSum c.nthreads i, high := prefixSum c.nthreads i + c.nthreads i, index := 0
           threadMain := 0, mainProc := mp
           cur := fun j => c.nbThreads - 2 - j, prev := fun j => c.nbThreads - 2 - j
           mode := .initWarm
           lockLow := prefixSum c.nlocks i % 256
           lockHigh := (prefixSum c.nlocks i % 256 + c.nlocks i) % 256
           threadError := 0, error := {}, mainEntry := c.entry i }

/-- `pok_partition_init`, kernel/core/partition.c 137-248: the first `n` partitions. -/
def partitionInit (c : Config) (k : Kernel) : Nat → Option Kernel
  | 0 => some k
  | n + 1 =>
    match partitionInit c k n with
    | none => none
    | some k =>
      match initPart c n with
      | none => none
      | some P => setupMainThread c { (k.setP n P) with curThread := fun _ => kernelThread c } n

/-- `pok_thread_init` and `pok_idle_thread_init`, kernel/core/thread.c 68-121: every thread is reset, the
idle threads are set up. -/
def threadInit (c : Config) (k : Kernel) : Kernel :=
  let reset (t : Thread) : Thread :=
    { t with period := -1, deadline := 0, timeCapacity := -1, remaining := -1, nextActivation := 0,
             wakeup := 0, state := .stopped, affinity := 0 }
  { k with T := fun i =>
      if i < c.nbThreads then
        if c.nbThreads - 1 - c.nbProcs ≤ i ∧ i ≤ c.nbThreads - 2 then
          { reset (k.T i) with affinity := c.nbThreads - 2 - i, basePriority := 0, state := .runnable }
        else reset (k.T i)
      else k.T i }

/-- The kernel state at the end of boot, kernel/core/boot.c: `pok_partition_init`, `pok_thread_init`,
`pok_sched_init` from zero-initialised memory. -/
def boot (c : Config) : Option Kernel :=
  let k0 : Kernel := { T := fun _ => zeroThread, P := fun _ => {}, curThread := fun _ => 0,
                       ps := ⟨0, 0, 0, 0, 0⟩ }
  match partitionInit c k0 c.nbParts with
  | none => none
  | some k => some { threadInit c k with ps := schedInit c.toSlotTable }

end Pok.Kernel
