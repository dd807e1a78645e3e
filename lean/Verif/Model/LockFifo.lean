import Verif.Model.Basic

/-!
# The wait queue of a lock object

Model of `pok_lockobj_fifo_t` (kernel/include/core/lockobj.h 53-58) and of the functions in
kernel/core/lockobj.c 430-503.  `N` is `POK_CONFIG_NB_THREADS`, the length of `buffer`.
An array access outside `buffer` or a loop that does not end is the result `none`.
Simplification: indices are unbounded naturals; the C type is `uint32_t`, and all of them stay
below `N`, so no wrap-around is possible.
-/

namespace Pok

/-- `pok_lockobj_fifo_t`, kernel/include/core/lockobj.h 53-58. -/
structure Fifo where
  head : Nat
  last : Nat
  isEmpty : Bool
  buf : Nat → Nat

/-- `pok_queueing_discipline_t`, kernel/include/core/lockobj.h 42-45; `other` is any other value
of the enumeration's integer type. -/
inductive Discipline
  | fifo | priority | other
  deriving DecidableEq, Repr, Inhabited

namespace Fifo

/-- `pok_lockobj_fifo_init`, kernel/core/lockobj.c 430-433 (the buffer is left as it was). -/
def init (f : Fifo) : Fifo := { f with head := 0, last := 0, isEmpty := true }

/-- `pok_lockobj_get_head`, kernel/core/lockobj.c 434-436. -/
def getHead (N : Nat) (f : Fifo) : Option Nat :=
  if f.head < N then some (f.buf f.head) else none

/-- `pok_lockobj_fifo_is_empty`, kernel/core/lockobj.c 477-479. -/
def empty (f : Fifo) : Bool := f.isEmpty

/-- `j ? (j - 1) : (POK_CONFIG_NB_THREADS - 1)`, kernel/core/lockobj.c 453, 454, 495. -/
def pred (N j : Nat) : Nat := if j = 0 then N - 1 else j - 1

/-- The search loop of the PRIORITY discipline, kernel/core/lockobj.c 447-451.
The first argument bounds the number of iterations; running out of it is the endless loop. -/
def findPos (N : Nat) (prio : Nat → Nat) (t : Nat) (f : Fifo) : Nat → Nat → Option Nat
  | 0, _ => none
  | fuel + 1, i =>
    if i ≠ f.last then
      if i < N then
        if prio t ≤ prio (f.buf i) then findPos N prio t f fuel ((i + 1) % N) else some i
      else none
    else some i

/-- The loop shifting the tail one place to the right, kernel/core/lockobj.c 452-455. -/
def shiftRight (N i : Nat) : Nat → Nat → (Nat → Nat) → Option (Nat → Nat)
  | 0, _, _ => none
  | fuel + 1, j, b =>
    if j ≠ i then
      if j < N ∧ pred N j < N then shiftRight N i fuel (pred N j) (upd b j (b (pred N j))) else none
    else some b

/-- `pok_lockobj_enqueue`, kernel/core/lockobj.c 437-467.  `prio` is `pok_threads[·].priority`. -/
def enqueue (N : Nat) (prio : Nat → Nat) (f : Fifo) (t : Nat) (d : Discipline) :
    Option (Fifo × Errno) :=
  match d with
  | .fifo =>
    if ¬ f.isEmpty ∧ f.last = f.head then some (f, .full)
    else if f.last < N then
      some ({ f with buf := upd f.buf f.last t, last := (f.last + 1) % N, isEmpty := false }, .ok)
    else none
  | .priority =>
    match findPos N prio t f (N + 1) f.head with
    | none => none
    | some i =>
      match shiftRight N i (N + 1) f.last f.buf with
      | none => none
      | some b =>
        if i < N then
          some ({ f with buf := upd b i t, isEmpty := false, last := (f.last + 1) % N }, .ok)
        else none
  | .other => some (f, .param)

/-- `pok_lockobj_dequeue`, kernel/core/lockobj.c 468-475. -/
def dequeue (N : Nat) (f : Fifo) : Fifo × Errno :=
  if f.isEmpty then (f, .empty)
  else
    let h := (f.head + 1) % N
    ({ f with head := h, isEmpty := if f.last = h then true else f.isEmpty }, .ok)

/-- The do-while search of `pok_lockobj_remove_thread`, kernel/core/lockobj.c 484-492: the result is
`some N` when the loop ends without a hit (`tmp` keeps its initial value). -/
def findThread (N t : Nat) (f : Fifo) : Nat → Nat → Option Nat
  | 0, _ => none
  | fuel + 1, i =>
    if i < N then
      if f.buf i = t then some i
      else
        let i' := (i + 1) % N
        if i' ≠ f.last then findThread N t f fuel i' else some N
    else none

/-- The loop closing the gap, kernel/core/lockobj.c 496-499. -/
def shiftLeft (N last : Nat) : Nat → Nat → (Nat → Nat) → Option (Nat → Nat)
  | 0, _, _ => none
  | fuel + 1, tmp, b =>
    if tmp ≠ last then
      if tmp < N ∧ (tmp + 1) % N < N then
        shiftLeft N last fuel ((tmp + 1) % N) (upd b tmp (b ((tmp + 1) % N)))
      else none
    else some b

/-- `pok_lockobj_remove_thread`, kernel/core/lockobj.c 481-503. -/
def removeThread (N : Nat) (f : Fifo) (t : Nat) : Option (Fifo × Errno) :=
  if f.isEmpty then some (f, .notfound)
  else
    match findThread N t f (N + 1) f.head with
    | none => none
    | some tmp =>
      if tmp = N then some (f, .notfound)
      else
        let l := pred N f.last
        match shiftLeft N l (N + 1) tmp f.buf with
        | none => none
        | some b =>
          some ({ f with buf := b, last := l, isEmpty := if l = f.head then true else f.isEmpty },
                .ok)

end Fifo
end Pok

/-! ### Histories of queue operations -/

namespace Pok.Fifo

/-- Serving the head: the code always reads the head (`pok_lockobj_get_head`) and then dequeues,
kernel/core/lockobj.c 219-227, 237-246, 341-352. -/
def serve (N : Nat) (f : Fifo) : Option (Fifo × Errno × Option Nat) :=
  if f.empty then some (f, .notfound, none)
  else match f.getHead N with
    | none => none
    | some t => let (f', e) := f.dequeue N; some (f', e, some t)

end Pok.Fifo
