/-!
# Specification of wait queues: plain lists

A wait queue is a list of thread identifiers, first to be served first.  This file does not mention
the model.
-/

namespace Pok.Spec

/-- Arrival under the FIFO discipline: at the end. -/
def arriveFifo (q : List Nat) (t : Nat) : List Nat := q ++ [t]

/-- Arrival under the PRIORITY discipline: just before the first thread of strictly lower priority. -/
def arrivePrio (prio : Nat → Nat) : List Nat → Nat → List Nat
  | [], t => [t]
  | x :: q, t => if prio t ≤ prio x then x :: arrivePrio prio q t else t :: x :: q

/-- A list is served in order of decreasing priority. -/
def Sorted (prio : Nat → Nat) (q : List Nat) : Prop :=
  q.Pairwise (fun a b => prio b ≤ prio a)

end Pok.Spec

namespace Pok.Spec

/-- What can happen to a wait queue: a thread arrives, the first thread is served, a thread gives up. -/
inductive QEvent
  | arrive (t : Nat) | serve | leave (t : Nat)
  deriving DecidableEq, Repr

/-- What is observed. -/
inductive QReply
  | accepted | rejectedFull | served (t : Nat) | nobody | left | notQueued
  deriving DecidableEq, Repr

/-- A FIFO queue with room for `N` threads. -/
def fifoStep (N : Nat) (q : List Nat) : QEvent → List Nat × QReply
  | .arrive t => if q.length = N then (q, .rejectedFull) else (arriveFifo q t, .accepted)
  | .serve => match q with | [] => ([], .nobody) | x :: q => (q, .served x)
  | .leave t => if t ∈ q then (q.erase t, .left) else (q, .notQueued)

/-- A priority queue. -/
def prioStep (prio : Nat → Nat) (q : List Nat) : QEvent → List Nat × QReply
  | .arrive t => (arrivePrio prio q t, .accepted)
  | .serve => match q with | [] => ([], .nobody) | x :: q => (q, .served x)
  | .leave t => if t ∈ q then (q.erase t, .left) else (q, .notQueued)

/-- Replies along a history, and the final queue. -/
def runQ (step : List Nat → QEvent → List Nat × QReply) :
    List Nat → List QEvent → List Nat × List QReply
  | q, [] => (q, [])
  | q, e :: es =>
    let (q1, r) := step q e
    let (q2, rs) := runQ step q1 es
    (q2, r :: rs)

/-- Histories in which a thread arrives only when it is not already waiting, and only threads other
than the kernel's own thread number `N - 1` arrive. -/
def SaneHistory (N : Nat) (step : List Nat → QEvent → List Nat × QReply) :
    List Nat → List QEvent → Prop
  | _, [] => True
  | q, e :: es =>
    (match e with | .arrive t => t ∉ q ∧ t < N - 1 | _ => True) ∧ SaneHistory N step (step q e).1 es

end Pok.Spec
