import Verif.Model.Kernel

/-!
# Partition modes and thread releases (specification)
-/

namespace Pok.Spec
open Pok

/-- Which mode requests are allowed: `mode` is the partition's mode, `isMain` / `isHandler` say whether the
caller is the main thread or the registered error handler of the partition. -/
def AllowedMode (mode req : Mode) (isMain isHandler : Prop) : Prop :=
  match req with
  | .normal => isMain ∧ mode ≠ .idle
  | .stopped => isHandler
  | .initCold => isHandler
  | .initWarm => isHandler ∧ mode ≠ .initCold
  | _ => False

/-- What entering NORMAL mode at clock `now` does to one thread that is not the main thread. -/
structure Released (now : Nat) (nextFrame : Nat) (t t' : Thread) : Prop where
  /-- threads that do not wait for a delayed start are left alone -/
  others : t.state ≠ .delayedStart → t' = t
  /-- no delay: runnable at once -/
  zero : t.state = .delayedStart → t.wakeup = 0 → t'.state = .runnable
  /-- aperiodic: sleeps until `delay` after now -/
  aperiodic : t.state = .delayedStart → t.wakeup ≠ 0 → t.period = -1 →
    t'.state = .waiting ∧ t'.wakeup = now + t.wakeup
  /-- periodic: released `delay` after the start of the next major frame -/
  periodic : t.state = .delayedStart → t.wakeup ≠ 0 → t.period ≠ -1 →
    t'.state = .waitNextActivation ∧ t'.nextActivation = nextFrame + t.wakeup

/-- The start of the major frame after clock `now`, for frames of length `frame` counted from boot. -/
def nextFrameStart (frame now : Nat) : Nat := (now / frame + 1) * frame

end Pok.Spec
