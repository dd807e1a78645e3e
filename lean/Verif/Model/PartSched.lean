import Verif.Model.Thread

/-!
# The partition scheduler

Model of kernel/core/sched.c 73-123 and 137-186.
-/

namespace Pok

/-- Which of the three flush variants of kernel/core/sched.c 144-164 is compiled in; `none` when there
are no ports. -/
inductive FlushPolicy
  | none
  | period (p : Nat)      -- POK_FLUSH_PERIOD
  | windows               -- POK_NEEDS_FLUSH_ON_WINDOWS
  | majorFrame            -- default
  deriving DecidableEq, Repr

/-- The configured cyclic schedule: kernel/core/sched.c 73-76 and the macros
`POK_CONFIG_SCHEDULING_NBSLOTS`, `POK_CONFIG_SCHEDULING_MAJOR_FRAME`, `POK_CONFIG_NB_PARTITIONS`. -/
structure SlotTable where
  nbParts : Nat
  nbSlots : Nat
  slots : Nat → Nat      -- durations, uint64_t
  alloc : Nat → Nat      -- partition of each slot, uint8_t
  majorFrame : Nat
  flush : FlushPolicy

/-- The variables `pok_sched_current_slot`, `pok_sched_next_deadline`, `pok_sched_next_major_frame`,
`pok_sched_next_flush`, `pok_current_partition`; kernel/core/sched.c 63, 78-86. -/
structure PSched where
  slot : Nat
  nextDeadline : Nat
  nextMajor : Nat
  nextFlush : Nat
  part : Nat
  deriving DecidableEq, Repr

/-- Calls of the port layer made by an election: `pok_port_flushall()` or
`pok_port_flush_partition(p)`. -/
inductive FlushEv
  | all
  | partition (p : Nat)
  deriving DecidableEq, Repr

/-- `pok_sched_init`, kernel/core/sched.c 96-123.  A wrong major frame only raises a kernel error, which
by default returns (kernel/core/error.c `pok_kernel_error`). -/
def schedInit (c : SlotTable) : PSched :=
  { slot := 0, nextDeadline := c.slots 0, nextMajor := c.majorFrame, nextFlush := 0, part := c.alloc 0 }

/-- The flush part of `pok_elect_partition`, kernel/core/sched.c 144-164. -/
def electFlush (c : SlotTable) (s : PSched) (now : Nat) : PSched × List FlushEv :=
  match c.flush with
  | .none => (s, [])
  | .period p =>
    if s.nextFlush ≤ now then ({ s with nextFlush := (s.nextFlush + p) % U64 }, [.all]) else (s, [])
  | .windows => (s, [.partition s.part])
  | .majorFrame =>
    if s.nextMajor ≤ now then ({ s with nextMajor := (s.nextMajor + c.majorFrame) % U64 }, [.all])
    else (s, [])

/-- `pok_elect_partition` followed by the store of the result in `POK_SCHED_CURRENT_PARTITION`
(kernel/core/sched.c 137-186 and 309-312).  `POK_CONFIG_SCHEDULING_NBSLOTS` is at least 1. -/
def electPartition (c : SlotTable) (s : PSched) (now : Nat) : PSched × List FlushEv :=
  if c.nbParts ≤ 1 then (s, [])
  else if s.nextDeadline ≤ now then
    let (s, fl) := electFlush c s now
    let slot := (s.slot + 1) % c.nbSlots
    ({ s with slot := slot
              nextDeadline := (s.nextDeadline + c.slots slot) % U64
              part := c.alloc slot }, fl)
  else (s, [])

/-- What an observer sees of one scheduling point. -/
structure PObs where
  now : Nat
  switched : Bool
  part : Nat            -- partition selected
  flushes : List FlushEv

/-- The observation of the scheduling point at clock `now` in state `s`. -/
def obsAt (c : SlotTable) (s : PSched) (now : Nat) : PObs :=
  { now := now, switched := decide (c.nbParts > 1 ∧ s.nextDeadline ≤ now),
    part := (electPartition c s now).1.part, flushes := (electPartition c s now).2 }

/-- The scheduling points of a history: one election per clock reading (kernel/core/sched.c 308-312 is
called from the timer interrupt and from system calls). -/
def schedPoints (c : SlotTable) : PSched → List Nat → PSched × List PObs
  | s, [] => (s, [])
  | s, now :: rest =>
    let (s2, os) := schedPoints c (electPartition c s now).1 rest
    (s2, obsAt c s now :: os)

end Pok
