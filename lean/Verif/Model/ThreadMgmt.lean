import Verif.Model.Kernel

/-!
# Thread management calls

Model of kernel/core/thread.c.
-/

namespace Pok

/-- Conversion of a `uint64_t` to `int64_t`. -/
def toI64 (n : Nat) : Int := if n % U64 < 9223372036854775808 then ((n % U64 : Nat) : Int) else ((n % U64 : Nat) : Int) - (U64 : Int)

/-- `pok_thread_attr_t`, kernel/include/core/thread.h 68-77 (the fields read by the kernel). -/
structure ThreadAttr where
  priority : Nat := 0        -- uint8_t
  affinity : Nat := 0        -- uint8_t
  entry : Nat := 0
  period : Nat := 0          -- uint64_t
  deadline : Nat := 0        -- uint64_t
  timeCapacity : Nat := 0    -- uint64_t
  deriving DecidableEq, Repr, Inhabited

/-- The shifting loop of `pok_thread_insert_sort`, kernel/core/thread.c 59-63: entries `lo … j-1` are
still to be looked at.  Returns the table and the final `j + 1`. -/
def insertShift (T : Threads) (period : Int) (lo : Nat) : Nat → Threads × Nat
  | 0 => (T, 0)
  | j + 1 =>
    if j ≥ lo ∧ (T j).period > period then insertShift (upd T (j + 1) (T j)) period lo j else (T, j + 1)

/-- `pok_thread_insert_sort`, kernel/core/thread.c 54-65 (`lo ≥ 1`). -/
def insertSort (T : Threads) (lo hi : Nat) : Threads :=
  let v := T hi
  let (T, j) := insertShift T v.period lo hi
  upd T j v

namespace Kernel

/-- The new contents of the created thread, kernel/core/thread.c 154-208, for affinity `aff` and stack
`stack`.  Priorities are 8 bits wide, so the test of lines 154-157 always holds.  `sp = 0` stands for a
fresh context starting at `entry` (`pok_space_context_create`). -/
def newThread (t : Thread) (a : ThreadAttr) (pid aff stack : Nat) : Thread :=
  let t := { t with priority := a.priority % 256, basePriority := a.priority % 256 }
  let t := if a.period % U64 > 0 then { t with period := toI64 a.period, nextActivation := a.period % U64 } else t
  let t := if a.deadline % U64 > 0 then { t with deadline := a.deadline % U64 } else t
  let t := if a.timeCapacity % U64 > 0 then
      { t with timeCapacity := toI64 a.timeCapacity, remaining := toI64 a.timeCapacity }
    else { t with timeCapacity := -1, remaining := -1 }
  { t with affinity := aff, state := .runnable, wakeup := 0, sp := 0, partition := pid,
           entry := a.entry, initStackAddr := stack }

/-- `pok_partition_thread_create`, kernel/core/thread.c 129-224: new state, return code, identifier
stored through `thread_id`.  `none`: a failed assertion of lines 182-191 or no such processor.  (The
call of `pok_partition_error` on line 145 reports the error; by default it returns or stops.) -/
def threadCreate (c : Config) (k : Kernel) (a : ThreadAttr) (pid : Nat) :
    Option (Kernel × Errno × Option Nat) :=
  let P := k.P pid
  if P.mode ≠ .initCold ∧ P.mode ≠ .initWarm then some (k, .mode, none)
  else
    let id := P.low + P.index
    if id ≥ P.high then some (k, .toomany, none)
    else
      match procRealId (c.affinity pid) a.affinity with
      | none => none
      | some aff =>
        if ¬ (if c.multi ≠ 0 then aff < c.multi else aff = 0) then none
        else if P.mainEntry = a.entry ∧ aff ≠ P.mainProc then none
        else
          let T := upd k.T id (newThread (k.T id) a pid aff (c.stackAddr pid (P.index + 1)))
          let T := if P.sched = .rms ∧ id > P.low then insertSort T (P.low + 1) id else T
          some ({ k with T := T, P := upd k.P pid { P with index := P.index + 1 } }, .ok, some id)

/-- `pok_thread_sleep`, kernel/core/thread.c 236-242. -/
def sleep (c : Config) (proc now : Nat) (k : Kernel) (us : Nat) : Option Kernel :=
  schedThread c proc now
    { k with T := lockCurrentTimed k.T (k.curThread proc) ((us * 1000 + now) % U64) }

/-- `pok_thread_sleep_until`, kernel/core/thread.c 246-250. -/
def sleepUntil (c : Config) (proc now : Nat) (k : Kernel) (us : Nat) : Option Kernel :=
  schedThread c proc now
    { k with T := lockCurrentTimed k.T (k.curThread proc) ((us * 1000) % U64) }

/-- `pok_thread_restart`, kernel/core/thread.c 258-285.  `sp = 0` stands for a fresh context starting at `entry`, as in
`newThread`. -/
def threadRestart (k : Kernel) (tid : Nat) : Kernel :=
  k.setT tid { k.T tid with remaining := (k.T tid).timeCapacity, state := .waitNextActivation,
                            wakeup := 0, sp := 0 }

/-- The bounds check of the thread calls, kernel/core/thread.c 289-290 and the like. -/
def outOfRange (k : Kernel) (id : Nat) : Bool :=
  (k.P k.curPart).low > id || (k.P k.curPart).high < id

/-- `pok_thread_delayed_start`, kernel/core/thread.c 287-327.  The stack reset of line 294 writes to
memory that is not modelled. -/
def delayedStart (c : Config) (proc now : Nat) (k : Kernel) (id us : Nat) : Option (Kernel × Errno) :=
  let ns := 1000 * us
  if outOfRange k id then some (k, .threadattr)
  else
    let t := { k.T id with priority := (k.T id).basePriority }
    if t.period = -1 then
      if (k.P t.partition).mode = .normal then
        let t := if ns = 0 then
            let t := { t with state := .runnable }
            if t.timeCapacity > 0 then { t with endTime := addU64 now t.timeCapacity } else t
          else { t with state := .waiting, wakeup := (now + ns) % U64 }
        match globalSched c proc now (k.setT id t) with
        | none => none
        | some k => some (k, .ok)
      else some (k.setT id { t with state := .delayedStart, wakeup := ns }, .ok)
    else if (k.P t.partition).mode = .normal then
      let next := (ns + now) % U64
      some (k.setT id { t with nextActivation := next, endTime := (t.deadline + next) % U64 }, .ok)
    else some (k.setT id { t with state := .delayedStart, wakeup := ns }, .ok)

/-- `pok_thread_get_status`, kernel/core/thread.c 329-343: the values stored (deadline, state, priority,
entry, period, time capacity, processor). -/
def getStatus (c : Config) (k : Kernel) (id : Nat) :
    Option (Errno × Option (Nat × TState × Nat × Nat × Int × Int × Nat)) :=
  if outOfRange k id then some (.param, none)
  else
    let t := k.T id
    match procPartitionId (c.affinity k.curPart) t.affinity with
    | none => none
    | some pr => some (.ok, some (t.endTime, t.state, t.priority, t.entry, t.period, t.timeCapacity, pr))

/-- `pok_thread_set_priority`, kernel/core/thread.c 345-353 (the `uint32_t` priority is stored in 8
bits). -/
def setPriority (c : Config) (proc now : Nat) (k : Kernel) (id prio : Nat) : Option (Kernel × Errno) :=
  if outOfRange k id then some (k, .param)
  else
    match globalSched c proc now (k.setT id { k.T id with priority := prio % 256 }) with
    | none => none
    | some k => some (k, .ok)

/-- `pok_thread_resume`, kernel/core/thread.c 355-364. -/
def resume (c : Config) (proc now : Nat) (k : Kernel) (id : Nat) : Option (Kernel × Errno) :=
  if outOfRange k id then some (k, .threadattr)
  else
    match globalSched c proc now (k.setT id { k.T id with wakeup := now, state := .runnable }) with
    | none => none
    | some k => some (k, .ok)

/-- `pok_thread_suspend_target`, kernel/core/thread.c 366-373. -/
def suspendTarget (proc : Nat) (k : Kernel) (id : Nat) : Kernel × Errno :=
  if outOfRange k id ∨ id = k.curThread proc then (k, .threadattr)
  else (k.setT id { k.T id with state := .stopped }, .ok)

end Kernel
end Pok
