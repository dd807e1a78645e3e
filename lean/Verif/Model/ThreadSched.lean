import Verif.Model.Thread

/-!
# The thread schedulers of a partition

Model of kernel/core/sched.c 444-673 (the debug output is left out).  `low`, `high` are the bounds of
the partition in the thread table, `proc` the processor (`pok_get_proc_id()`), `idle` its idle thread
(`IDLE_THREAD`, kernel/include/core/thread.h 30).  The loops take a number of iterations; running out
of it means that the C loop does not terminate (`none`).
-/

namespace Pok

/-- The test of kernel/core/sched.c 464-465, 523-524, 615-616: runnable and bound to this processor. -/
def ready (T : Threads) (proc i : Nat) : Bool := (T i).state = .runnable && (T i).affinity = proc

/-- `res++; if (res >= index_high) res = index_low;` kernel/core/sched.c 459-462, 529-532, 610-613. -/
def nextIdx (low high i : Nat) : Nat := if i + 1 ≥ high then low else i + 1

/-- The do-while loop shared by RMS (kernel/core/sched.c 458-465, `from = index_low`) and round robin
(609-616): advance until back at `from` or at a ready thread. -/
def scanReady (T : Threads) (proc low high from_ : Nat) : Nat → Nat → Option Nat
  | 0, _ => none
  | fuel + 1, i =>
    let r := nextIdx low high i
    if r ≠ from_ ∧ ready T proc r = false then scanReady T proc low high from_ fuel r else some r

/-- `pok_sched_part_rms`, kernel/core/sched.c 445-505. -/
def schedRms (T : Threads) (proc idle low high _prev _cur : Nat) : Option Nat :=
  match scanReady T proc low high low (high - low + 1) low with
  | none => none
  | some res => if res = low ∧ ready T proc res = false then some idle else some res

/-- The do-while loop of `pok_sched_part_static`, kernel/core/sched.c 521-533. -/
def staticLoop (T : Threads) (proc low high from_ : Nat) : Nat → Nat → Int → Nat → Option (Int × Nat)
  | 0, _, _, _ => none
  | fuel + 1, i, maxPrio, maxThread =>
    let better := ready T proc i && decide (((T i).priority : Int) > maxPrio)
    let maxPrio := if better then ((T i).priority : Int) else maxPrio
    let maxThread := if better then i else maxThread
    let i := nextIdx low high i
    if i ≠ from_ then staticLoop T proc low high from_ fuel i maxPrio maxThread
    else some (maxPrio, maxThread)

/-- `from` of `pok_sched_part_static`, kernel/core/sched.c 513, 518-519. -/
def staticFrom (idle low prev cur : Nat) : Nat :=
  if prev = idle then low else if cur ≠ idle then cur else prev

/-- `pok_sched_part_static`, kernel/core/sched.c 509-583. -/
def schedStatic (T : Threads) (proc idle low high prev cur : Nat) : Option Nat :=
  let from_ := staticFrom idle low prev cur
  match staticLoop T proc low high from_ (high - low + 1) from_ (-1) cur with
  | none => none
  | some (maxPrio, maxThread) => if maxPrio ≥ 0 then some maxThread else some idle

/-- The condition under which round robin keeps the current thread, kernel/core/sched.c 601-605. -/
def rrKeeps (T : Threads) (proc idle cur : Nat) : Bool :=
  ((T cur).remaining > 0 || (T cur).timeCapacity = -1) && ready T proc cur && cur ≠ idle

/-- `from` of `pok_sched_part_rr`, kernel/core/sched.c 593-599. -/
def rrFrom (idle low prev cur : Nat) : Nat :=
  if cur = idle then (if prev ≠ idle then prev else low) else cur

/-- `pok_sched_part_rr`, kernel/core/sched.c 586-673. -/
def schedRr (T : Threads) (proc idle low high prev cur : Nat) : Option Nat :=
  let from_ := rrFrom idle low prev cur
  if rrKeeps T proc idle cur then some cur
  else
    match scanReady T proc low high from_ (high - low + 1) from_ with
    | none => none
    | some e => if e = from_ ∧ ready T proc e = false then some idle else some e

/-- The value of `sched_func`, kernel/core/partition.c 51-76. -/
inductive Policy
  | rr | rms | static
  deriving DecidableEq, Repr, Inhabited

/-- Call through `sched_func`, kernel/core/sched.c 265-267. -/
def schedFunc : Policy → Threads → Nat → Nat → Nat → Nat → Nat → Nat → Option Nat
  | .rr => schedRr
  | .rms => schedRms
  | .static => schedStatic

end Pok
