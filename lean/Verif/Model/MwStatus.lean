import Verif.Model.Middleware

/-!
# Status and identification of buffers and blackboards

Model of libpok/middleware/bufferstatus.c, blackboardstatus.c, bufferid.c and blackboardid.c.
-/

namespace Pok
namespace Mw

/-- `pok_buffer_status_t`, libpok/include/middleware/buffer.h 43-48. -/
structure BufStatus where
  messages : Nat
  capacity : Nat
  msgsize : Nat
  waiting : Nat
  deriving DecidableEq, Repr

/-- `pok_buffer_status`, libpok/middleware/bufferstatus.c 24-38.  `none`: a read past the table (line 26 lets the number
of buffers pass) or a division by zero (line 33, a buffer that was not created). -/
def bufStatus (nb : Nat) (s : Bufs) (id : Nat) : Option (Errno × Option BufStatus) :=
  if id > nb then some (.einval, none)
  else if id = nb then none
  else if (s.B id).msgsize = 0 then none
  else some (.ok, some ⟨0, (s.B id).size / (s.B id).msgsize, (s.B id).msgsize, 0⟩)

/-- `pok_blackboard_status_t`, libpok/include/middleware/blackboard.h 33-37. -/
structure BoardStatus where
  msgsize : Nat
  empty : Bool
  waiting : Nat
  deriving DecidableEq, Repr

/-- `pok_blackboard_status`, libpok/middleware/blackboardstatus.c 24-36.  The field `waiting_processes` is written only
by the creation, with 0 (blackboardcreate.c 50). -/
def boardStatus (nb : Nat) (s : Boards) (id : Nat) : Option (Errno × Option BoardStatus) :=
  if id > nb then some (.einval, none)
  else if id = nb then none
  else some (.ok, some ⟨(s.B id).size, (s.B id).empty, 0⟩)

/-- `pok_buffer_id` and `pok_blackboard_id`, libpok/middleware/bufferid.c 25-38, blackboardid.c 25-37. -/
def objectId (names : List (List Nat)) (name : List Nat) : Errno × Option Nat :=
  match lookup names name with
  | some n => (.ok, some n)
  | none => (.einval, none)

end Mw
end Pok
