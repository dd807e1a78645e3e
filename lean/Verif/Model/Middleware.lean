import Verif.Model.Thread
import Verif.Model.Libc

/-!
# Buffers and blackboards of a partition

Model of libpok/middleware/buffer*.c and blackboard*.c.

Simplifications: the null-pointer tests on `data` are left out (the buffers are byte lists here); fewer than 256
buffers and blackboards are configured (otherwise the loops on a `uint8_t` never end); `pok_event_create` is an
input, `evt`, because it is a system call that may be refused; the lock taken around each copy is not
represented, each call being one step up to the point where it waits.
-/

namespace Pok

namespace Mw

/-- Size of `pok_buffers_data` and `pok_blackboards_data`, libpok/middleware/ressources.c 21, 26. -/
def DATA : Nat := 1024

/-- `memcpy` into one of the data arrays; `none` out of bounds. -/
def put (d : Nat → Nat) (i : Nat) (bs : List Nat) : Option (Nat → Nat) :=
  if i + bs.length ≤ DATA then
    some fun j => if i ≤ j ∧ j < i + bs.length then bs.getD (j - i) 0 else d j
  else none

/-- `memcpy` out of one of the data arrays. -/
def get (d : Nat → Nat) (i n : Nat) : Option (List Nat) :=
  if i + n ≤ DATA then some ((List.range n).map fun k => d (i + k)) else none

/-- The entry whose configured name matches, in the loops of `pok_buffer_create` (libpok/middleware/buffercreate.c
38-39), `pok_buffer_id` (bufferid.c 29-30) and of the blackboards (blackboardcreate.c 35-36, blackboardid.c
29-30). -/
def lookup (names : List (List Nat)) (name : List Nat) : Option Nat := names.findIdx? (Libc.streq name ·)

/-- `pok_buffer_t`, libpok/include/middleware/buffer.h 31-43 (without the lock, the discipline and the number of
waiting processes, which nothing uses). -/
structure Buf where
  ready : Bool := false
  empty : Bool := true
  full : Bool := false
  size : Nat := 0
  index : Nat := 0
  offB : Nat := 0
  offE : Nat := 0
  msgsize : Nat := 0
  deriving DecidableEq, Repr

/-- `pok_buffers`, `pok_buffers_data`, `pok_buffers_data_index`; after `pok_buffer_init`
(libpok/middleware/bufferinit.c 24-34) they are `{}`. -/
structure Bufs where
  B : Nat → Buf := fun _ => {}
  data : Nat → Nat := fun _ => 0
  next : Nat := 0

/-- Result of a call: a code, a wait on the event of the buffer, or a loop that does not end. -/
inductive Res
  | done (e : Errno)
  | waits
  | spins
  deriving DecidableEq, Repr

/-- `pok_buffer_create`, libpok/middleware/buffercreate.c 31-69. -/
def bufCreate (names : List (List Nat)) (s : Bufs) (name : List Nat) (size msg : Nat) (evt : Errno) :
    Bufs × Res × Option Nat :=
  match lookup names name with
  | none => (s, .done .einval, none)
  | some n =>
    if (s.B n).ready then (s, .done .ready, none)
    else if evt ≠ .ok then (s, .done evt, none)
    else
      ({ s with B := upd s.B n { s.B n with index := s.next, ready := true, empty := true, size := size, msgsize := msg, offE := 0, offB := 0 }
                next := (s.next + size) % U32 }, .done .ok, some n)

/-- `pok_buffer_receive`, libpok/middleware/bufferreceive.c 30-77.  With a null timeout the loop of lines 48-51
releases the lock and goes on for ever. -/
def bufReceive (nb : Nat) (s : Bufs) (id timeout : Nat) : Option (Bufs × Res × List Nat) :=
  if id > nb then some (s, .done .einval, [])
  else if id = nb then none
  else if (s.B id).ready = false then some (s, .done .einval, [])
  else if (s.B id).empty then
    if timeout = 0 then some (s, .spins, []) else some (s, .waits, [])
  else if (s.B id).size = 0 then none
  else
    match get s.data ((s.B id).index + (s.B id).offB) (s.B id).msgsize with
    | none => none
    | some bs =>
      let b := ((s.B id).offB + (s.B id).msgsize) % U32 % (s.B id).size
      some ({ s with B := upd s.B id { s.B id with offB := b, full := false, empty := if b = (s.B id).offE then true else (s.B id).empty } },
        .done .ok, bs)

/-- `pok_buffer_send`, libpok/middleware/buffersend.c 30-84: the message is copied without regard to the end of the
storage of the buffer. -/
def bufSend (nb : Nat) (s : Bufs) (id : Nat) (bs : List Nat) (timeout : Nat) : Option (Bufs × Res) :=
  if id > nb then some (s, .done .einval)
  else if id = nb then none
  else if (s.B id).ready = false then some (s, .done .einval)
  else if bs.length = 0 then some (s, .done .einval)
  else if bs.length > (s.B id).size * (s.B id).msgsize % U32 then some (s, .done .einval)
  else if (s.B id).full then
    if timeout = 0 then some (s, .done .full) else some (s, .waits)
  else if (s.B id).size = 0 then none
  else
    match put s.data ((s.B id).index + (s.B id).offE) bs with
    | none => none
    | some d =>
      let e := ((s.B id).offE + bs.length) % U32 % (s.B id).size
      some ({ s with B := upd s.B id { s.B id with offE := e, empty := false, full := if e = (s.B id).offB then true else (s.B id).full }
                     data := d }, .done .ok)

/-- Calls on buffers. -/
inductive BufOp
  | create (name : List Nat) (size msg : Nat) (evt : Errno)
  | send (id : Nat) (bs : List Nat) (timeout : Nat)
  | receive (id timeout : Nat)
  deriving DecidableEq, Repr

/-- What the caller sees: the result, the number given by a creation, the message. -/
structure BufOut where
  res : Res
  id : Option Nat := none
  bytes : List Nat := []
  deriving DecidableEq, Repr

/-- One call. -/
def bufStep (names : List (List Nat)) (s : Bufs) : BufOp → Option (Bufs × BufOut)
  | .create name size msg evt =>
    let r := bufCreate names s name size msg evt
    some (r.1, { res := r.2.1, id := r.2.2 })
  | .send id bs timeout => (bufSend names.length s id bs timeout).map fun r => (r.1, { res := r.2 })
  | .receive id timeout => (bufReceive names.length s id timeout).map fun r => (r.1, { res := r.2.1, bytes := r.2.2 })

/-- A history of calls, of all the threads of the partition. -/
def bufRun (names : List (List Nat)) : Bufs → List BufOp → Option (Bufs × List BufOut)
  | s, [] => some (s, [])
  | s, op :: ops =>
    match bufStep names s op with
    | none => none
    | some (s, o) =>
      match bufRun names s ops with
      | none => none
      | some (s, os) => some (s, o :: os)

/-! ## Blackboards -/

/-- `pok_blackboard_t`, libpok/include/middleware/blackboard.h 25-32. -/
structure Board where
  ready : Bool := false
  empty : Bool := false
  size : Nat := 0
  index : Nat := 0
  deriving DecidableEq, Repr

/-- `pok_blackboards`, `pok_blackboards_data`, `pok_blackboards_data_index`; `{}` after `pok_blackboard_init`
(libpok/middleware/blackboardinit.c 24-31). -/
structure Boards where
  B : Nat → Board := fun _ => {}
  data : Nat → Nat := fun _ => 0
  next : Nat := 0

/-- `pok_blackboard_create`, libpok/middleware/blackboardcreate.c 30-59. -/
def boardCreate (names : List (List Nat)) (s : Boards) (name : List Nat) (size : Nat) (evt : Errno) :
    Boards × Errno × Option Nat :=
  match lookup names name with
  | none => (s, .einval, none)
  | some n =>
    if (s.B n).ready then (s, .ready, none)
    else if evt ≠ .ok then (s, evt, none)
    else
      ({ s with B := upd s.B n ⟨true, true, size, s.next⟩, next := (s.next + size) % U32 }, .ok, some n)

/-- `pok_blackboard_display`, libpok/middleware/blackboarddisplay.c 28-55. -/
def boardDisplay (nb : Nat) (s : Boards) (id : Nat) (bs : List Nat) : Option (Boards × Errno) :=
  if id > nb then some (s, .einval)
  else if id = nb then none
  else if bs.length > (s.B id).size then some (s, .size)
  else if (s.B id).ready = false then some (s, .einval)
  else
    match put s.data (s.B id).index bs with
    | none => none
    | some d => some ({ s with data := d }, .ok)

/-- `pok_blackboard_read`, libpok/middleware/blackboardread.c 28-58: the flag `empty` and the timeout are not
looked at; the length returned is always the size of the blackboard. -/
def boardRead (nb : Nat) (s : Boards) (id : Nat) : Option (Errno × List Nat) :=
  if id > nb then some (.einval, [])
  else if id = nb then none
  else if (s.B id).ready = false then some (.einval, [])
  else (get s.data (s.B id).index (s.B id).size).map fun bs => (.ok, bs)

/-- `pok_blackboard_clear`, libpok/middleware/blackboardclear.c 25-32. -/
def boardClear (nb : Nat) (s : Boards) (id : Nat) : Option (Boards × Errno) :=
  if id > nb then some (s, .einval)
  else if id = nb then none
  else some ({ s with B := upd s.B id { s.B id with empty := true } }, .ok)

/-- Calls on blackboards. -/
inductive BoardOp
  | create (name : List Nat) (size : Nat) (evt : Errno)
  | display (id : Nat) (bs : List Nat)
  | read (id : Nat)
  | clear (id : Nat)
  deriving DecidableEq, Repr

/-- What the caller sees. -/
structure BoardOut where
  res : Errno
  id : Option Nat := none
  bytes : List Nat := []
  deriving DecidableEq, Repr

/-- One call. -/
def boardStep (names : List (List Nat)) (s : Boards) : BoardOp → Option (Boards × BoardOut)
  | .create name size evt =>
    let r := boardCreate names s name size evt
    some (r.1, { res := r.2.1, id := r.2.2 })
  | .display id bs => (boardDisplay names.length s id bs).map fun r => (r.1, { res := r.2 })
  | .read id => (boardRead names.length s id).map fun r => (s, { res := r.1, bytes := r.2 })
  | .clear id => (boardClear names.length s id).map fun r => (r.1, { res := r.2 })

/-- A history of calls. -/
def boardRun (names : List (List Nat)) : Boards → List BoardOp → Option (Boards × List BoardOut)
  | s, [] => some (s, [])
  | s, op :: ops =>
    match boardStep names s op with
    | none => none
    | some (s, o) =>
      match boardRun names s ops with
      | none => none
      | some (s, os) => some (s, o :: os)

end Mw
end Pok
