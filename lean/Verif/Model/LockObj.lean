import Verif.Model.LockFifo
import Verif.Model.Thread

/-!
# Lock objects: mutexes, semaphores, events

Model of kernel/core/lockobj.c 69-427.  `N` is `POK_CONFIG_NB_THREADS`.
Each function is a function of the thread table, the clock value and the lock object; `none` is
undefined behaviour (bad array index) or a failed `assert`.
The spin locks `spin`/`eventspin` are not data here: on one processor they are free at every kernel
entry and the code between two scheduling points is atomic (their own algorithm is modelled in
`Verif.Model.Spinlock`).
A call that blocks is split at `pok_sched_thread(TRUE)`: the result `blocked d` says that the caller
is suspended with local variable `deadline = d`.
-/

namespace Pok

/-- `pok_lockobj_kind_t`, kernel/include/core/lockobj.h 34-38; `other n` is the integer `n`, not 1, 2, 3
(0 is what the zero-initialised table contains before creation). -/
inductive LockKind
  | mutex | semaphore | event | other (n : Nat)
  deriving DecidableEq, Repr, Inhabited

/-- `pok_locking_policy_t`, kernel/include/core/lockobj.h 47-51; `other` is any other integer. -/
inductive LockPolicy
  | standard | pip | pcp | other
  deriving DecidableEq, Repr, Inhabited

/-- `pok_lockobj_attr_t`, kernel/include/core/lockobj.h 66-72 (`uint16_t` values). -/
structure LockAttr where
  kind : LockKind
  policy : LockPolicy := .standard
  queueing : Discipline := .fifo
  initial : Nat := 0
  max : Nat := 0
  deriving DecidableEq, Repr

/-- `pok_lockobj_t`, kernel/include/core/lockobj.h 74-101 (without the spin locks). -/
structure LockObj where
  fifo : Fifo
  eventFifo : Fifo
  policy : LockPolicy
  queueing : Discipline
  kind : LockKind
  initialized : Bool
  current : Nat
  max : Nat

namespace LockObj

/-- `pok_lockobj_create`, kernel/core/lockobj.c 69-108. -/
def create (o : LockObj) (a : LockAttr) : LockObj × Errno :=
  if a.policy ≠ .standard ∧ a.policy ≠ .pip ∧ a.policy ≠ .pcp then (o, .lockobjPolicy)
  else if a.kind ≠ .mutex ∧ a.kind ≠ .semaphore ∧ a.kind ≠ .event then (o, .lockobjKind)
  else
    let o1 := { o with
      fifo := o.fifo.init
      eventFifo := o.eventFifo.init
      queueing := if a.kind = LockKind.event then Discipline.priority else a.queueing
      policy := a.policy
      kind := a.kind
      initialized := true }
    if a.kind = .semaphore then ({ o1 with current := a.initial, max := a.max }, .ok)
    else ({ o1 with current := 1 }, .ok)

/-- Result of a call that may suspend its caller. -/
inductive CallResult
  | done (e : Errno)
  | blocked (deadline : Nat)
  deriving DecidableEq, Repr

/-- `attr != NULL && attr->timeout > 0 ? attr->timeout + POK_GETTICK() : 0` in `uint64_t`,
kernel/core/lockobj.c 266-267, and line 184 (`timeout ? timeout + POK_GETTICK() : 0`).
`timeout = 0` also stands for a NULL attribute. -/
def mkDeadline (timeout now : Nat) : Nat := if timeout = 0 then 0 else (timeout + now) % U64

/-- Suspend the calling thread: kernel/core/lockobj.c 270-273 and 186-190. -/
def suspendCaller (T : Threads) (cur d : Nat) : Threads :=
  if d > 0 then lockCurrentTimed T cur d else lockCurrent T cur

/-- `pok_lockobj_lock` up to the scheduling point, kernel/core/lockobj.c 251-275.
The result of `pok_lockobj_enqueue` is ignored, as in the code. -/
def lockBegin (N : Nat) (T : Threads) (now : Nat) (o : LockObj) (cur timeout : Nat) :
    Option (Threads × LockObj × CallResult) :=
  if ¬ o.initialized then some (T, o, .done .lockobjNotready)
  else if o.current > 0 then
    if o.fifo.empty then some (T, { o with current := o.current - 1 }, .done .ok)
    else none
  else
    let d := mkDeadline timeout now
    match o.fifo.enqueue N (fun i => (T i).priority) cur o.queueing with
    | none => none
    | some (f, _) => some (suspendCaller T cur d, { o with fifo := f }, .blocked d)

/-- `pok_lockobj_lock` after the scheduling point, kernel/core/lockobj.c 276-286. -/
def lockResume (N : Nat) (now : Nat) (o : LockObj) (cur d : Nat) : Option (LockObj × Errno) :=
  if d ≠ 0 ∧ now ≥ d then
    match o.fifo.removeThread N cur with
    | none => none
    | some (f, _) => some ({ o with fifo := f }, .timeout)
  else some (o, .ok)

/-- `pok_lockobj_unlock`, kernel/core/lockobj.c 289-377.  The last component is the thread whose
processor is rescheduled (line 372; skipped when called from `eventwait`, which holds `eventspin`:
the caller of this function decides). -/
def unlock (N : Nat) (T : Threads) (o : LockObj) :
    Option (Threads × LockObj × Errno × Option Nat) :=
  if ¬ o.initialized then some (T, o, .lockobjNotready, none)
  else if o.current ≠ 0 then
    -- scenario 1
    if o.fifo.empty then
      if o.kind = .semaphore then
        if o.current < o.max then some (T, { o with current := o.current + 1 }, .ok, none)
        else some (T, o, .ok, none)
      else some (T, { o with current := 1 }, .ok, none)
    else none
  else if o.fifo.empty then
    -- scenario 2
    some (T, { o with current := 1 }, .ok, none)
  else
    -- scenario 3
    match o.fifo.getHead N with
    | none => none
    | some t => some (unlockThread T t, { o with fifo := (o.fifo.dequeue N).1 }, .ok, some t)

/-- `pok_lockobj_eventwait` up to the scheduling point, kernel/core/lockobj.c 158-193. -/
def waitBegin (N : Nat) (T : Threads) (now : Nat) (o : LockObj) (cur timeout : Nat) :
    Option (Threads × LockObj × CallResult) :=
  if ¬ o.initialized then some (T, o, .done .lockobjNotready)
  else if o.kind ≠ .event then some (T, o, .done .einval)
  else
    match o.unlock N T with
    | none => none
    | some (T1, o1, e, _) =>
      if e ≠ .ok then some (T1, o1, .done .unavailable)
      else
        match o1.eventFifo.enqueue N (fun i => (T1 i).priority) cur .priority with
        | none => none
        | some (f, e2) =>
          if e2 ≠ .ok then none   -- assert(!ret), line 178
          else
            let d := mkDeadline timeout now
            some (suspendCaller T1 cur d, { o1 with eventFifo := f }, .blocked d)

/-- `pok_lockobj_eventwait` between its first scheduling point and the call of `pok_lockobj_lock`,
kernel/core/lockobj.c 195-204: the value of `ret_wait`. -/
def waitResume (N : Nat) (now : Nat) (o : LockObj) (cur d : Nat) : Option (LockObj × Errno) :=
  if d ≠ 0 ∧ now ≥ d then
    match o.eventFifo.removeThread N cur with
    | none => none
    | some (f, _) => some ({ o with eventFifo := f }, .timeout)
  else some (o, .ok)

/-- The final return value of `pok_lockobj_eventwait`, kernel/core/lockobj.c 206-211. -/
def waitFinal (retLock retWait : Errno) : Errno := if retLock ≠ .ok then retLock else retWait

/-- `pok_lockobj_eventsignal`, kernel/core/lockobj.c 214-229. -/
def signal (N : Nat) (T : Threads) (o : LockObj) :
    Option (Threads × LockObj × Errno × Option Nat) :=
  if o.eventFifo.empty then some (T, o, .notfound, none)
  else
    match o.eventFifo.getHead N with
    | none => none
    | some t => some (unlockThread T t, { o with eventFifo := (o.eventFifo.dequeue N).1 }, .ok, some t)

/-- The loop of `pok_lockobj_eventbroadcast`, kernel/core/lockobj.c 236-241; the first argument
bounds the iterations (running out of it is the endless loop). -/
def broadcastLoop (N : Nat) : Nat → Threads → Fifo → Option (Threads × Fifo)
  | 0, _, _ => none
  | fuel + 1, T, f =>
    if f.empty then some (T, f)
    else
      match f.getHead N with
      | none => none
      | some t => broadcastLoop N fuel (unlockThread T t) (f.dequeue N).1

/-- `pok_lockobj_eventbroadcast`, kernel/core/lockobj.c 231-249. -/
def broadcast (N : Nat) (T : Threads) (o : LockObj) : Option (Threads × LockObj × Errno) :=
  match broadcastLoop N (N + 1) T o.eventFifo with
  | none => none
  | some (T', f) => some (T', { o with eventFifo := f }, .ok)

end LockObj
end Pok
