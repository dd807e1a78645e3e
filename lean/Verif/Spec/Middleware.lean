import Verif.Model.Middleware

/-!
# Specification of buffers and blackboards

A buffer is a bounded queue of messages of one size; a blackboard shows the last message.
-/

namespace Pok.MwSpec
open Mw

/-- A buffer: how many messages it holds at most, their size, the messages (oldest first). -/
structure Queue where
  cap : Nat
  msg : Nat
  q : List (List Nat)

/-- The buffers of a partition, by number. -/
abbrev Queues := Nat → Option Queue

/-- What each call does to the queues and what it answers.  `pick` is the number of the buffer with a name. -/
def qStep (nb : Nat) (pick : List Nat → Option Nat) (s : Queues) : BufOp → Queues × BufOut
  | .create name size msg evt =>
    match pick name with
    | none => (s, { res := .done .einval })
    | some n =>
      match s n with
      | some _ => (s, { res := .done .ready })
      | none =>
        if evt ≠ .ok then (s, { res := .done evt })
        else (upd s n (some ⟨size / msg, msg, []⟩), { res := .done .ok, id := some n })
  | .send id bs timeout =>
    if id ≥ nb then (s, { res := .done .einval })
    else
      match s id with
      | none => (s, { res := .done .einval })
      | some b =>
        if b.q.length = b.cap then
          if timeout = 0 then (s, { res := .done .full }) else (s, { res := .waits })
        else (upd s id (some { b with q := b.q ++ [bs] }), { res := .done .ok })
  | .receive id timeout =>
    if id ≥ nb then (s, { res := .done .einval })
    else
      match s id with
      | none => (s, { res := .done .einval })
      | some b =>
        match b.q with
        | [] => if timeout = 0 then (s, { res := .spins }) else (s, { res := .waits })
        | m :: q => (upd s id (some { b with q := q }), { res := .done .ok, bytes := m })

/-- A history. -/
def qRun (nb : Nat) (pick : List Nat → Option Nat) : Queues → List BufOp → List BufOut
  | _, [] => []
  | s, op :: ops => (qStep nb pick s op).2 :: qRun nb pick (qStep nb pick s op).1 ops

/-- The calls for which the code works: a creation has room for a whole number of messages in the bytes that are
left (`left`), a message has exactly the size of the messages of its buffer, and the number just behind the last
buffer is not used. -/
def Sane (nb left : Nat) (s : Queues) : BufOp → Prop
  | .create _ size msg _ => 0 < msg ∧ (∃ k, 0 < k ∧ size = k * msg) ∧ size ≤ left
  | .send id bs _ => id ≠ nb ∧ ∀ b, s id = some b → bs.length = b.msg
  | .receive id _ => id ≠ nb

/-- Bytes taken by a call (creations take their size). -/
def cost : BufOp → Nat
  | .create _ size _ _ => size
  | _ => 0

/-- All calls of a history are `Sane`; the sizes of all creations count, also of those refused. -/
def AllSane (nb : Nat) (pick : List Nat → Option Nat) : Nat → Queues → List BufOp → Prop
  | _, _, [] => True
  | left, s, op :: ops => Sane nb left s op ∧ AllSane nb pick (left - cost op) (qStep nb pick s op).1 ops

/-! ## Blackboards -/

/-- A blackboard: the bytes it shows. -/
abbrev Panels := Nat → Option (List Nat)

/-- What each call does and answers: a display writes the first bytes, a read gives all of them.  (The code keeps
nothing else: whether something was ever displayed, and how long it was, is not known to a reader.) -/
def pStep (nb : Nat) (pick : List Nat → Option Nat) (s : Panels) : BoardOp → Panels × BoardOut
  | .create name size evt =>
    match pick name with
    | none => (s, { res := .einval })
    | some n =>
      match s n with
      | some _ => (s, { res := .ready })
      | none =>
        if evt ≠ .ok then (s, { res := evt })
        else (upd s n (some (List.replicate size 0)), { res := .ok, id := some n })
  | .display id bs =>
    if id ≥ nb then (s, { res := .einval })
    else
      match s id with
      | none => (s, { res := if bs = [] then .einval else .size })
      | some b =>
        if bs.length > b.length then (s, { res := .size })
        else (upd s id (some (bs ++ b.drop bs.length)), { res := .ok })
  | .read id =>
    if id ≥ nb then (s, { res := .einval })
    else
      match s id with
      | none => (s, { res := .einval })
      | some b => (s, { res := .ok, bytes := b })
  | .clear id => (s, { res := if id ≥ nb then .einval else .ok })

/-- A history. -/
def pRun (nb : Nat) (pick : List Nat → Option Nat) : Panels → List BoardOp → List BoardOut
  | _, [] => []
  | s, op :: ops => (pStep nb pick s op).2 :: pRun nb pick (pStep nb pick s op).1 ops

/-- The calls for which the code works: creations fit in the storage that is left, and the number just behind the
last blackboard is not used. -/
def PSane (nb left : Nat) : BoardOp → Prop
  | .create _ size _ => size ≤ left
  | .display id _ => id ≠ nb
  | .read id => id ≠ nb
  | .clear id => id ≠ nb

/-- Bytes asked for. -/
def pCost : BoardOp → Nat
  | .create _ size _ => size
  | _ => 0

/-- All calls of a history are `PSane`. -/
def AllPSane (nb : Nat) : Nat → List BoardOp → Prop
  | _, [] => True
  | left, op :: ops => PSane nb left op ∧ AllPSane nb (left - pCost op) ops

end Pok.MwSpec
