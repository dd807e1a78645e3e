import Verif.Model.Results

/-!
# Identifiers and status of ports and objects by the services of ARINC 653

The services of libpok/arinc653 that look up a port by its name or show the status of an object, on the memory of the partition (addresses
relative to the partition, i386).  `loc` is the address of the local variable that the service passes to the kernel, `rc` the address of the
caller's return code.  Each service is modelled from its call to its return; no other thread of the partition writes to these variables
meanwhile.
-/

namespace Pok.ApexStatus
open Pok.Results Pok.Stub Pok.Sys

/-- `pok_port_sampling_id` and `pok_port_queueing_id` of the library (libpok/include/middleware/port.h 92-93 and 118-119) with the checks of the
kernel, kernel/core/syscall.c 290-297 and 340-347; `maxName` is `pok_ports_names_max_len`. -/
def portIdCall (c : PortCfg) (maxName part kind : Nat) (m : Nat → Nat) (name id : Nat) : Errno × (Nat → Nat) :=
  if Ports.checkPtr c part name (maxName + 1) && Ports.checkPtr c part id 1 then
    match Ports.portId c part kind (cString m name (maxName + 1)) with
    | (e, some i) => (e, store m id (.portId i))
    | (e, none) => (e, m)
  else (.einval, m)

/-- `pok_port_sampling_status` of the library (libpok/include/middleware/port.h 125-127) with the check of the kernel, kernel/core/syscall.c
300-305; `none`: read past the end of a table. -/
def samplingStatusCall (c : PortCfg) (s : Ports) (now part : Nat) (m : Nat → Nat) (id st : Nat) : Option (Errno × (Nat → Nat)) :=
  if Ports.checkPtr c part st 20 then
    (samplingStatus c s now part (id % 256)).map fun r => match r.2 with
      | some v => (r.1, store m st (.sampling v))
      | none => (r.1, m)
  else some (.einval, m)

/-- `GET_SAMPLING_PORT_ID`, libpok/arinc653/sampling.c 98-108. -/
def getSamplingPortId (c : PortCfg) (maxName part : Nat) (m : Nat → Nat) (name out rc loc : Nat) : Nat → Nat :=
  let r := portIdCall c maxName part KIND_SAMPLING m name loc
  let m := put r.2 out (le 4 (word r.2 loc 1))
  put m rc (le 4 r.1.code)

/-- `GET_SAMPLING_PORT_STATUS`, libpok/arinc653/sampling.c 110-123; the fields of `SAMPLING_PORT_STATUS_TYPE` are at 0, 8, 12 and 16
(libpok/include/arinc653/sampling.h 36-41). -/
def getSamplingPortStatus (c : PortCfg) (s : Ports) (now part : Nat) (m : Nat → Nat) (id out rc loc : Nat) : Option (Nat → Nat) :=
  (samplingStatusCall c s now part m id loc).map fun r =>
    let m := put r.2 out (le 8 (word r.2 (loc + 8) 8))
    let m := put m (out + 8) (le 4 (word m loc 4))
    let m := put m (out + 12) (le 4 (word m (loc + 4) 1))
    let m := put m (out + 16) (le 4 (word m (loc + 16) 4))
    put m rc (le 4 r.1.code)

/-- `GET_QUEUING_PORT_ID`, libpok/arinc653/queueing.c 107-115: line 113 passes the value of the caller's variable as the address for the
identifier. -/
def getQueuingPortId (c : PortCfg) (maxName part : Nat) (m : Nat → Nat) (name out rc : Nat) : Nat → Nat :=
  let r := portIdCall c maxName part KIND_QUEUEING m name (word m out 4)
  put r.2 rc (le 4 r.1.code)

/-- `GET_QUEUING_PORT_STATUS`, libpok/arinc653/queueing.c 117-132: line 124 asks for an identifier, with the number of the port as the address of
the name and the status as the variable for the identifier.  The library's `pok_port_queueing_status_t` has its fields at 0, 4, 5 and 6
(libpok/include/middleware/port.h 61-66), `QUEUING_PORT_STATUS_TYPE` at 0, 4 (not written), 8, 12 and 16
(libpok/include/arinc653/queueing.h 30-36). -/
def getQueuingPortStatus (c : PortCfg) (maxName part : Nat) (m : Nat → Nat) (id out rc loc : Nat) : Nat → Nat :=
  let r := portIdCall c maxName part KIND_QUEUEING m id loc
  let m := put r.2 out (le 4 (word r.2 (loc + 5) 1))
  let m := put m (out + 8) (le 4 (word m loc 4))
  let m := put m (out + 12) (le 4 (word m (loc + 4) 1))
  let m := put m (out + 16) (le 4 (word m (loc + 6) 1))
  put m rc (le 4 r.1.code)

/-- `GET_EVENT_STATUS`, libpok/arinc653/event.c 177-182: nothing is stored. -/
def getEventStatus (m : Nat → Nat) (_id _out _rc : Nat) : Nat → Nat := m

/-- `GET_SEMAPHORE_STATUS`, libpok/arinc653/semaphore.c 167-176 and 28-35: the `ready` marks of the library's table, whether it is initialised,
and the memory. -/
def getSemaphoreStatus (nb : Nat) (ready : Nat → Nat) (init : Bool) (m : Nat → Nat) (_id _out rc : Nat) : (Nat → Nat) × Bool × (Nat → Nat) :=
  (if init then ready else fun i => if i < nb then 0 else ready i, true, put m rc (le 4 0))

/-- The services that are not provided. -/
inductive Missing
  | clearBlackboard | blackboardId | blackboardStatus | bufferId | bufferStatus | clearQueuingPort | suspendSelf | lockPreemption
  | unlockPreemption | replenish
  deriving DecidableEq, Repr

/-- `NOT_AVAILABLE`, libpok/include/arinc653/types.h 47. -/
def NOT_AVAILABLE : Nat := 2

/-- What they store. -/
def missing (m : Nat → Nat) (rc : Nat) : Missing → Nat → Nat
  | .clearBlackboard => put m rc (le 4 NOT_AVAILABLE)   -- `CLEAR_BLACKBOARD`, libpok/arinc653/blackboard.c 54-59
  | .blackboardId => put m rc (le 4 NOT_AVAILABLE)      -- `GET_BLACKBOARD_ID`, libpok/arinc653/blackboard.c 61-68
  | .blackboardStatus => put m rc (le 4 NOT_AVAILABLE)  -- `GET_BLACKBOARD_STATUS`, libpok/arinc653/blackboard.c 70-77
  | .bufferId => put m rc (le 4 NOT_AVAILABLE)          -- `GET_BUFFER_ID`, libpok/arinc653/buffer.c 79-86
  | .bufferStatus => put m rc (le 4 NOT_AVAILABLE)      -- `GET_BUFFER_STATUS`, libpok/arinc653/buffer.c 88-95
  | .clearQueuingPort => put m rc (le 4 NOT_AVAILABLE)  -- `CLEAR_QUEUING_PORT`, libpok/arinc653/queueing.c 134-139
  | .suspendSelf => put m rc (le 4 NOT_AVAILABLE)       -- `SUSPEND_SELF`, libpok/arinc653/process.c 150-153
  | .lockPreemption => put m rc (le 4 NOT_AVAILABLE)    -- `LOCK_PREEMPTION`, libpok/arinc653/process.c 250-254
  | .unlockPreemption => put m rc (le 4 NOT_AVAILABLE)  -- `UNLOCK_PREEMPTION`, libpok/arinc653/process.c 256-262
  | .replenish => put m rc (le 4 NOT_AVAILABLE)         -- `REPLENISH`, libpok/arinc653/time.c 41-44

end Pok.ApexStatus
