import Verif.Model.PartMgmt

/-!
# The kernel as a transition system

A step of the system is one kernel entry on one processor at one clock reading: the timer interrupt, an
inter-processor rescheduling request, or a system call of the thread that runs on the processor.
-/

namespace Pok

/-- Kernel entries. -/
inductive KCall
  | tick                                   -- timer interrupt: pok_global_sched
  | resched                                -- pok_sched_thread on this processor
  | create (a : ThreadAttr)
  | sleep (us : Nat)
  | sleepUntil (us : Nat)
  | endPeriod
  | stopSelf
  | delayedStart (id us : Nat)
  | setPriority (id prio : Nat)
  | resume (id : Nat)
  | suspendTarget (id : Nat)
  | restartThread (tid : Nat)
  | stopThread (tid : Nat)
  | setMode (m : Mode)
  | errorCreate (entry : Nat) (junk : ThreadAttr)
  | raiseError                             -- a fault or a raised error: pok_sched_activate_error_thread
  | block                                  -- a lock object or port call blocks the caller
  | blockTimed (time : Nat)                -- the same with a deadline
  | unblock (id : Nat)                     -- a lock object or port call wakes a waiting thread
  deriving DecidableEq, Repr

namespace Kernel

/-- Effect of a kernel entry.  `create` is the dispatch of kernel/core/syscall.c 145-153,
`errorCreate` of 242-243, and so on; `block`, `blockTimed`, `unblock` are the elementary effects of lock
object calls on threads (kernel/core/lockobj.c 99-115, 205-228: `pok_sched_lock_current_thread` or
`pok_sched_lock_current_thread_timed` then `pok_sched_thread`; `pok_sched_unlock_thread`). -/
def exec (c : Config) (proc now : Nat) (k : Kernel) : KCall → Option Kernel
  | .tick => globalSched c proc now k
  | .resched => schedThread c proc now k
  | .create a => (threadCreate c k a k.curPart).map (·.1)
  | .sleep us => sleep c proc now k us
  | .sleepUntil us => sleepUntil c proc now k us
  | .endPeriod => endPeriod c proc now k
  | .stopSelf => stopSelf c proc now k
  | .delayedStart id us => (delayedStart c proc now k id us).map (·.1)
  | .setPriority id p => (setPriority c proc now k id p).map (·.1)
  | .resume id => (resume c proc now k id).map (·.1)
  | .suspendTarget id => some (suspendTarget proc k id).1
  | .restartThread tid => (restartThread c proc now k tid).map (·.1)
  | .stopThread tid => (stopThread c proc now k tid).map (·.1)
  | .setMode m => (setModeCurrent c proc now k m).map (·.1)
  | .errorCreate entry junk => (errorThreadCreate c proc k entry junk).map (·.1)
  | .raiseError => some (activateError proc k)
  | .block => schedThread c proc now { k with T := lockCurrent k.T (k.curThread proc) }
  | .blockTimed time => schedThread c proc now { k with T := lockCurrentTimed k.T (k.curThread proc) (time % U64) }
  | .unblock id => some { k with T := unlockThread k.T id }

/-- A kernel entry with the processor and clock at which it happens. -/
structure KEv where
  proc : Nat
  now : Nat
  call : KCall
  deriving DecidableEq, Repr

/-- Execution of a history of kernel entries. -/
def execAll (c : Config) : Kernel → List KEv → Option Kernel
  | k, [] => some k
  | k, e :: es =>
    match exec c e.proc e.now k e.call with
    | none => none
    | some k => execAll c k es

theorem execAll_append (c : Config) (k : Kernel) (a b : List KEv) :
    execAll c k (a ++ b) = (execAll c k a).bind (fun k => execAll c k b) := by
  induction a generalizing k with
  | nil => rfl
  | cons e es ih =>
    simp only [List.cons_append, execAll]
    cases exec c e.proc e.now k e.call with
    | none => rfl
    | some k' => exact ih k'

end Kernel
end Pok
