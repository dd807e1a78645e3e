import Verif.Model.KernelSys

/-!
# Vocabulary for timing properties

* `Untouched t`: a kernel entry that is not an operation on thread `t` (it is not called by `t`, does not
  name `t`, and is not a creation, error or mode change of the partition `t` belongs to).
* `Quiet t`: a history of such entries.
* `NotDue`: at clock `now`, nothing the thread waits for has happened: it is blocked without timeout,
  stopped, or its wake-up or activation time lies ahead.
-/

namespace Pok.Spec
open Pok Kernel

/-- The kernel entry is not an operation on thread `t`. -/
def Untouched (t proc : Nat) (k : Kernel) (call : KCall) : Prop :=
  match call with
  | .tick | .resched => True
  | .create _ | .errorCreate _ _ | .setMode _ => ¬ ((k.P k.curPart).low ≤ t ∧ t < (k.P k.curPart).high)
  | .raiseError => (k.P k.curPart).threadError ≠ t
  | .sleep _ | .sleepUntil _ | .endPeriod | .stopSelf | .block | .blockTimed _ => k.curThread proc ≠ t
  | .delayedStart id _ | .setPriority id _ | .resume id | .suspendTarget id | .unblock id => id ≠ t
  | .restartThread tid | .stopThread tid => (tid + (k.P k.curPart).low) % U32 ≠ t

/-- A history without operations on thread `t`. -/
def Quiet (c : Config) (t : Nat) : Kernel → List KEv → Prop
  | _, [] => True
  | k, e :: es => Untouched t e.proc k e.call ∧ ∀ k', exec c e.proc e.now k e.call = some k' → Quiet c t k' es

/-- Nothing the thread waits for has happened at clock `now`. -/
def NotDue (c : Config) (now : Nat) (t : Thread) : Prop :=
  match t.state with
  | .runnable => False
  | .waiting => c.wakes = true → now < t.wakeup
  | .waitNextActivation => now < t.nextActivation
  | .lock | .stopped | .delayedStart => True

end Pok.Spec
