import Verif.Spec.Queue

/-!
# Specification vocabulary for lock objects

Waiting threads are a list in order of arrival.  This file does not mention the model.
-/

namespace Pok.Spec

/-- The first thread, in order of arrival, among those of highest priority. -/
def firstHighest (prio : Nat → Nat) (w : List Nat) : Option Nat :=
  w.find? (fun t => w.all (fun u => decide (prio u ≤ prio t)))

/-- The thread to serve next: longest waiting, or longest waiting among those of highest priority. -/
def nextToServe (byPriority : Bool) (prio : Nat → Nat) (w : List Nat) : Option Nat :=
  if byPriority then firstHighest prio w else w.head?

/-- Remove an optional thread. -/
def without (w : List Nat) : Option Nat → List Nat
  | none => w
  | some x => w.erase x

end Pok.Spec
