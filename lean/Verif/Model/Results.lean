import Verif.Model.Stubs
import Verif.Model.Port
import Verif.Model.ErrorMgmt
import Verif.Model.Arinc

/-!
# Results that the kernel stores for a partition

The values that system calls store through the pointers given by the library, byte by byte, with the layout of the kernel's structures on
i386 (4-byte alignment at most; `int` and enumerations have 4 bytes; little endian).  Addresses are relative to the partition.
-/

namespace Pok.Results
open Pok.Stub (put le)
open Pok.Sys (word bytes)

/-- `pok_thread_attr_t` as stored by `pok_thread_get_status`, kernel/include/core/thread.h 68-77. -/
structure ThreadInfo where
  priority : Nat
  affinity : Nat
  entry : Nat
  period : Nat
  deadline : Nat
  capacity : Nat
  stackSize : Nat
  state : Nat
deriving DecidableEq, Repr

/-- `pok_port_sampling_status_t`, kernel/include/middleware/port.h 96-101. -/
structure SamplingInfo where
  size : Nat
  direction : Nat
  refresh : Nat
  validity : Nat
deriving DecidableEq, Repr

/-- `pok_port_queueing_status_t`, kernel/include/middleware/port.h 68-72. -/
structure QueueingInfo where
  size : Nat
  direction : Nat
  waiting : Nat
deriving DecidableEq, Repr

/-- `pok_port_sampling_status`, kernel/middleware/portsamplingstatus.c 26-64; `none`: read past the end of a table (`pok_own_port`). -/
def samplingStatus (c : PortCfg) (s : Ports) (now part id : Nat) : Option (Errno × Option SamplingInfo) :=
  if id > c.nbPorts then some (.einval, none)
  else
    match Ports.ownPort c part id with
    | none => none
    | some false => some (.port, none)
    | some true =>
      let p := s.P id
      if p.ready = false then some (.einval, none)
      else if p.kind ≠ KIND_SAMPLING then some (.einval, none)
      else if p.partition ≠ part then some (.einval, none)
      else some (.ok, some ⟨p.size, p.direction, p.refresh, if (p.lastReceive + p.refresh) % U64 < now then 0 else 1⟩)

/-- `pok_port_queueing_status`, kernel/middleware/portqueueingstatus.c 24-51. -/
def queueingStatus (c : PortCfg) (s : Ports) (part id : Nat) : Option (Errno × Option QueueingInfo) :=
  if id > c.nbPorts then some (.einval, none)
  else
    match Ports.ownPort c part id with
    | none => none
    | some false => some (.port, none)
    | some true =>
      let p := s.P id
      if p.ready = false then some (.einval, none)
      else if p.kind ≠ KIND_QUEUEING then some (.einval, none)
      else if p.partition ≠ part then some (.einval, none)
      else some (.ok, some ⟨p.size, p.direction, 0⟩)

/-- `pok_thread_get_status`, kernel/core/thread.c 329-343, as numbers: period and capacity are stored in unsigned fields, the stack size is
the constant `POK_USER_STACK_SIZE`. -/
def threadInfo (c : Config) (k : Kernel) (id : Nat) : Option (Errno × Option ThreadInfo) :=
  (k.getStatus c id).map fun r => (r.1, r.2.map fun v =>
    ⟨v.2.2.1, v.2.2.2.2.2.2, v.2.2.2.1, (v.2.2.2.2.1 % (U64 : Int)).toNat, v.1, (v.2.2.2.2.2.1 % (U64 : Int)).toNat, 8192,
      Arinc.stateNum v.2.1⟩)

/-- A value that the kernel stores for the partition, with the type that the kernel gives it. -/
inductive Answer
  | lockId (i : Nat)            -- pok_lockobj_id_t: identifier of a semaphore, mutex or event
  | portId (i : Nat)            -- pok_port_id_t
  | threadId (i : Nat)          -- uint32_t
  | tick (t : Nat)              -- uint64_t
  | partitionId (i : Nat)       -- uint8_t
  | period (t : Nat)            -- uint64_t
  | duration (t : Nat)          -- uint64_t
  | lockLevel (n : Nat)         -- uint32_t
  | mode (n : Nat)              -- enumeration
  | startCondition (n : Nat)    -- enumeration
  | length (n : Nat)            -- pok_port_size_t
  | valid (b : Nat)             -- bool_t
  | thread (v : ThreadInfo)
  | sampling (v : SamplingInfo)
  | queueing (v : QueueingInfo)
  | error (st : ErrorStatus)

/-- The stores, kernel/core/syscall.c 69-440 and the functions called there; the order of the fields is that of the structures. -/
def store (m : Nat → Nat) (p : Nat) : Answer → Nat → Nat
  | .lockId i => put m p (le 1 i)                   -- lockobj.c 146
  | .portId i => put m p (le 1 i)                   -- portcreate.c 89 and 105, portsamplingid.c 34
  | .threadId i => put m p (le 4 i)                 -- sched.c 737, thread.c 209
  | .tick t => put m p (le 8 t)                     -- syscall.c 150
  | .partitionId i => put m p (le 1 i)              -- partition.c 396
  | .period t => put m p (le 8 t)                   -- partition.c 401
  | .duration t => put m p (le 8 t)                 -- partition.c 406
  | .lockLevel n => put m p (le 4 n)                -- partition.c 417
  | .mode n => put m p (le 4 n)                     -- partition.c 412
  | .startCondition n => put m p (le 4 n)           -- partition.c 423
  | .length n => put m p (le 4 n)                   -- portsamplingread.c 83, portqueueingreceive.c 113
  | .valid b => put m p (le 4 b)                    -- portsamplingread.c 76-80
  | .thread v =>                                    -- thread.c 333-341
    put (put (put (put (put (put (put (put m (p + 16) (le 8 v.deadline)) (p + 36) (le 4 v.state)) p (le 1 v.priority)) (p + 4) (le 4 v.entry))
      (p + 8) (le 8 v.period)) (p + 24) (le 8 v.capacity)) (p + 32) (le 4 v.stackSize)) (p + 1) (le 1 v.affinity)
  | .sampling v =>                                  -- portsamplingstatus.c 53-61
    put (put (put (put m p (le 4 v.size)) (p + 4) (le 1 v.direction)) (p + 8) (le 8 v.refresh)) (p + 16) (le 4 v.validity)
  | .queueing v =>                                  -- portqueueingstatus.c 46-48
    put (put (put m p (le 4 v.size)) (p + 4) (le 1 v.direction)) (p + 5) (le 1 v.waiting)
  | .error st =>                                    -- error.c 149-154
    put (put (put (put (put m p (le 1 st.kind)) (p + 4) (le 4 st.failedThread)) (p + 8) (le 4 st.failedAddr)) (p + 264) (le 4 st.msgSize))
      (p + 12) (st.msg.take st.msgSize)

/-- `pok_error_status_t` as the library reads it, libpok/include/core/error.h 22-28: the message is a pointer. -/
structure LibError where
  kind : Nat
  thread : Nat
  addr : Nat
  msg : Nat
  msgSize : Nat
deriving DecidableEq, Repr

/-- Reading of a `pok_error_status_t` by library code. -/
def libError (m : Nat → Nat) (p : Nat) : LibError :=
  ⟨word m p 1, word m (p + 4) 4, word m (p + 8) 4, word m (p + 12) 4, word m (p + 16) 4⟩

/-- `MAX_ERROR_MESSAGE_SIZE`, libpok/include/arinc653/error.h 27. -/
def maxErrorMessage : Nat := 64

/-- The end of `GET_ERROR_STATUS`, libpok/arinc653/error.c 132-139, after a successful `pok_error_get` in the structure at `p`: length,
process, address, and the message, copied from where the `msg` field points to. -/
def apexError (m : Nat → Nat) (p : Nat) : Nat × Nat × Nat × List Nat :=
  let e := libError m p
  (e.msgSize, e.thread, e.addr, bytes m e.msg maxErrorMessage)

/-! ## The library's log of errors -/

/-- `pok_error_report_t`, libpok/include/core/error.h 30-34. -/
structure Report where
  thread : Nat
  error : Nat
  time : Nat
deriving DecidableEq, Repr

/-- `pok_error_reported` and `pok_error_nb_reported`, libpok/core/errorlog.c 26-27. -/
structure Log where
  entry : Nat → Report
  nb : Nat := 0

/-- `POK_ERROR_MAX_LOGGED`, libpok/include/core/error.h 20. -/
def MAX_LOGGED : Nat := 100

/-- `pok_error_log`, libpok/core/errorlog.c 29-43; `none`: a store past the end of the table. -/
def Log.add (l : Log) (now error thread : Nat) : Option Log :=
  if l.nb < MAX_LOGGED then some ⟨upd l.entry l.nb ⟨thread, error, now⟩, (l.nb + 1) % 65536⟩ else none

/-- `pok_error_confirm` and `pok_error_ignore`, libpok/core/errorconfirm.c 24-27 and errorignore.c 24-27. -/
def Log.confirm (l : Log) (now error thread : Nat) : Option Log := l.add now error thread
def Log.ignore (l : Log) (now error thread : Nat) : Option Log := l.add now error thread

/-! ## Thread attributes -/

/-- `pok_thread_attr_init`, libpok/core/threadattrinit.c 20-32, on the attributes that memory happens to hold: the processor is left as it
is. -/
def attrInit (x : ThreadAttr) : ThreadAttr := { x with priority := 42, entry := 0, period := 0, deadline := 0, timeCapacity := 0 }

/-- `pok_time_compute_deadline`, libpok/core/timecomputedeadline.c 22-29, the clock being `now`. -/
def computeDeadline (now relative : Nat) : Nat := (now + relative) % U64

end Pok.Results
