import Verif.Model.KernelSys

/-!
# Specification: what a partition sees

A system with one processor.  The clock advances at timer interrupts only (kernel/arch/x86/x86-qemu/pit.c), so a history
is a list of rounds: a timer interrupt at a clock reading, then the calls made until the next one.
-/

namespace Pok
namespace Spec
open Pok.Kernel

/-- What a call returns: a return code and an identifier, where there are any. -/
abbrev Reply := Option Errno × Option Nat

/-- The kernel entry together with what it returns to the caller. -/
def execR (c : Config) (now : Nat) (k : Kernel) : KCall → Option (Kernel × Reply)
  | .create a => (threadCreate c k a k.curPart).map fun r => (r.1, some r.2.1, r.2.2)
  | .delayedStart id us => (delayedStart c 0 now k id us).map fun r => (r.1, some r.2, none)
  | .setPriority id p => (setPriority c 0 now k id p).map fun r => (r.1, some r.2, none)
  | .resume id => (resume c 0 now k id).map fun r => (r.1, some r.2, none)
  | .suspendTarget id => some ((suspendTarget 0 k id).1, some (suspendTarget 0 k id).2, none)
  | .restartThread tid => (restartThread c 0 now k tid).map fun r => (r.1, some r.2, none)
  | .stopThread tid => (stopThread c 0 now k tid).map fun r => (r.1, some r.2, none)
  | .setMode m => (setModeCurrent c 0 now k m).map fun r => (r.1, some r.2, none)
  | .errorCreate e j => (errorThreadCreate c 0 k e j).map fun r => (r.1, some r.2, none)
  | call => (exec c 0 now k call).map fun k => (k, none, none)

/-- A timer interrupt and the calls after it. -/
structure Round where
  now : Nat
  calls : List KCall

/-- The calls that the theorems admit, in state `k`: they name no thread one past the partition (C16), they wake only
threads of the partition (C31), and they start only threads that were created by the partition. -/
def Admitted (k : Kernel) : KCall → Prop
  | .setPriority id _ | .resume id | .suspendTarget id => id ≠ (k.P k.curPart).high
  | .restartThread tid | .stopThread tid => (tid + (k.P k.curPart).low) % U32 ≠ (k.P k.curPart).high
  | .delayedStart id _ => id ≠ (k.P k.curPart).high ∧
      (outOfRange k id = false → (k.T id).partition = k.curPart)
  | .unblock id => (k.P k.curPart).low ≤ id ∧ id < (k.P k.curPart).high
  | _ => True

/-- No thread of partition `b` has a budget. -/
def NoBudget (b : Nat) (k : Kernel) : Prop :=
  ∀ i, (k.P b).low ≤ i → i < (k.P b).high → (k.T i).remaining ≤ 0 ∧ (k.T i).timeCapacity ≤ 0

/-- All other partitions are in NORMAL mode, in none of them the error handler ran last, and none takes the running
thread for its handler (a partition without a handler has identifier 0 in its place). -/
def Settled (c : Config) (b : Nat) (k : Kernel) : Prop :=
  ∀ a < c.nbParts, a ≠ b → (k.P a).mode = .normal ∧ (k.P a).cur 0 ≠ (k.P a).threadError ∧
    k.curThread 0 ≠ (k.P a).threadError

/-- What a partition sees: which thread runs after the timer interrupt, then, for every call, what it returned and
which thread runs after it. -/
structure Obs where
  first : Nat
  calls : List (Reply × Nat)
  deriving DecidableEq

/-- Execution of calls at clock `now`, with what is seen; every call satisfies `A`. -/
inductive Calls (c : Config) (A : Kernel → KCall → Prop) (now : Nat) :
    Kernel → List KCall → Kernel → List (Reply × Nat) → Prop
  | nil (k) : Calls c A now k [] k []
  | cons {k call k1 r calls k2 os} (ha : A k call) (he : execR c now k call = some (k1, r))
      (hs : Calls c A now k1 calls k2 os) : Calls c A now k (call :: calls) k2 ((r, k1.curThread 0) :: os)

/-- Execution of a history, with what partition `b` sees in its own windows.  The kernel does not stop, every call
satisfies `A`, and whenever a window of `b` ends, the state satisfies `Q`. -/
inductive Runs (c : Config) (b : Nat) (A : Kernel → KCall → Prop) (Q : Kernel → Prop) :
    Kernel → List Round → Kernel → List Obs → Prop
  | nil (k) : Runs c b A Q k [] k []
  | own {k r rs k1 k2 k3 os obs} (ht : exec c 0 r.now k .tick = some k1) (hp : k1.curPart = b)
      (hc : Calls c A r.now k1 r.calls k2 os) (hr : Runs c b A Q k2 rs k3 obs) :
      Runs c b A Q k (r :: rs) k3 (⟨k1.curThread 0, os⟩ :: obs)
  | other {k r rs k1 k2 k3 os obs} (hb : k.curPart = b → Q k)
      (ht : exec c 0 r.now k .tick = some k1) (hp : k1.curPart ≠ b)
      (hc : Calls c A r.now k1 r.calls k2 os) (hr : Runs c b A Q k2 rs k3 obs) :
      Runs c b A Q k (r :: rs) k3 obs

/-- All other partitions are settled, or the threads of `b` have no budgets. -/
def OthersSettled (c : Config) (b : Nat) (k : Kernel) : Prop := Settled c b k ∨ NoBudget b k

/-- Two histories with the same timer interrupts and the same calls in the windows of partition `b`; slots are not
shorter than the time between two interrupts. -/
def SameFor (c : Config) (b : Nat) : PSched → List Round → List Round → Prop
  | _, [], [] => True
  | s, r :: rs, r' :: rs' =>
    r.now = r'.now ∧ r.now < (electPartition c.toSlotTable s r.now).1.nextDeadline ∧
    ((electPartition c.toSlotTable s r.now).1.part = b → r.calls = r'.calls) ∧
    SameFor c b (electPartition c.toSlotTable s r.now).1 rs rs'
  | _, _, _ => False

end Spec
end Pok
