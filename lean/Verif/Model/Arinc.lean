import Verif.Model.ThreadMgmt
import Verif.Model.PartMgmt
import Verif.Model.LockObj
import Verif.Model.Libc

/-!
# The ARINC 653 layer of the partition library

`libpok/arinc653`.  A service is a function of its parameters, of the layer's own tables and of what the kernel answers; the calls it makes are
part of the result, with the return code when one is stored (`none`: the variable given by the caller is left as it was).  `none` as a whole is
an access outside a table.
-/

namespace Pok.Arinc

/-- `RETURN_CODE_TYPE`, libpok/include/arinc653/types.h 44-52. -/
inductive Code
  | noError | noAction | notAvailable | invalidParam | invalidConfig | invalidMode | timedOut
deriving DecidableEq, Repr

/-- The values of the enumeration. -/
def Code.num : Code → Nat
  | .noError => 0 | .noAction => 1 | .notAvailable => 2 | .invalidParam => 3 | .invalidConfig => 4 | .invalidMode => 5 | .timedOut => 6

/-- The library and kernel calls that the services make. -/
inductive Call
  | semCreate (current max discipline : Int)
  | semWait (id us : Nat)
  | semSignal (id : Nat)
  | eventCreate
  | eventWait (id us : Nat)
  | eventSignal (id : Nat)
  | bufferCreate (size msg : Nat) (fifo : Bool)
  | bufferSend (id len timeout : Nat)
  | bufferReceive (id timeout : Nat)
  | boardCreate (size : Nat)
  | boardDisplay (id len : Nat)
  | boardRead (id timeout : Nat)
  | queueCreate (size : Nat) (out fifo : Bool)
  | queueSend (id len timeout : Nat)
  | queueReceive (id timeout len : Nat)
  | sampleCreate (size : Nat) (out : Bool) (refresh : Nat)
  | sampleWrite (id len : Nat)
  | sampleRead (id : Nat)
  | sleep (us : Nat)
  | period
  | timeGet
  | setMode (mode : Mode)
deriving DecidableEq, Repr

/-- What a service did. -/
structure Out where
  calls : List Call := []
  code : Option Nat := none
deriving DecidableEq, Repr

/-- Nothing called, this code. -/
def Out.just (c : Code) : Out := { code := some c.num }

/-- One call, and this code. -/
def Out.after (k : Call) (c : Code) : Out := { calls := [k], code := some c.num }

/-- One call, whose result is stored as it is. -/
def Out.raw (k : Call) (e : Errno) : Out := { calls := [k], code := some e.code }

/-- A 64-bit signed value passed as `uint64_t`. -/
def u64 (t : Int) : Nat := (t % 18446744073709551616).toNat

/-- A 32-bit signed value passed as unsigned. -/
def u32 (t : Int) : Nat := (t % 4294967296).toNat

/-! ## Semaphores and events -/

/-- `pok_arinc653_semaphores_layers` (libpok/arinc653/semaphore.c 38-46) and `pok_arinc653_events_layers` (event.c 35-41). -/
structure Layers where
  ready : Nat → Bool := fun _ => false
  core : Nat → Nat := fun _ => 0

/-- `CREATE_SEMAPHORE`, libpok/arinc653/semaphore.c 48-91; `created` is what the kernel answers: a code and an identifier.  The result gives
also the identifier stored in `SEMAPHORE_ID`. -/
def createSemaphore (names : List (List Nat)) (l : Layers) (name : List Nat) (current max discipline : Int) (created : Errno × Nat) :
    Option (Layers × Option Nat × Out) :=
  match Libc.findName names (Libc.idMatches name) with
  | none => some (l, none, .just .invalidConfig)
  | some i =>
    if i > names.length then some (l, some i, .just .invalidConfig)
    else if i = names.length then none
    else if l.ready i then some (l, some i, .just .noAction)
    else if created.1 ≠ .ok then some (l, some i, .after (.semCreate current max discipline) .invalidParam)
    else some ({ ready := upd l.ready i true, core := upd l.core i created.2 }, some i, .after (.semCreate current max discipline) .noError)

/-- `WAIT_SEMAPHORE`, libpok/arinc653/semaphore.c 93-123, with a table of `nb` semaphores; `reply` is the result of `pok_sem_wait`. -/
def waitSemaphore (nb : Nat) (l : Layers) (id timeOut : Int) (reply : Errno) : Option Out :=
  if id > nb then some (.just .invalidParam)
  else if id < 0 ∨ id = nb then none
  else
    let us := if timeOut = -1 then 0 else u64 timeOut / 1000
    some (.after (.semWait (l.core id.toNat) us) (if reply = .timeout then .timedOut else if reply = .ok then .noError else .invalidParam))

/-- `SIGNAL_SEMAPHORE`, libpok/arinc653/semaphore.c 125-143. -/
def signalSemaphore (nb : Nat) (l : Layers) (id : Int) (reply : Errno) : Option Out :=
  if id > nb then some (.just .invalidParam)
  else if id < 0 ∨ id = nb then none
  else some (.after (.semSignal (l.core id.toNat)) (if reply = .ok then .noError else .invalidParam))

/-- `CREATE_EVENT`, libpok/arinc653/event.c 43-84. -/
def createEvent (names : List (List Nat)) (l : Layers) (name : List Nat) (created : Errno × Nat) : Option (Layers × Option Nat × Out) :=
  match Libc.findName names (Libc.idMatches name) with
  | none => some (l, none, .just .invalidConfig)
  | some i =>
    if i ≥ names.length then some (l, some i, .just .invalidConfig)
    else if l.ready i then some (l, some i, .just .noAction)
    else if created.1 ≠ .ok then some (l, some i, .after .eventCreate .invalidParam)
    else some ({ ready := upd l.ready i true, core := upd l.core i created.2 }, some i, .after .eventCreate .noError)

/-- `SET_EVENT`, libpok/arinc653/event.c 86-110. -/
def setEvent (nb : Nat) (l : Layers) (id : Int) (reply : Errno) : Option Out :=
  if id ≥ nb then some (.just .invalidConfig)
  else if id < 0 then none
  else if !l.ready id.toNat then some (.just .notAvailable)
  else some (.after (.eventSignal (l.core id.toNat)) (if reply = .ok then .noError else .invalidParam))

/-- `RESET_EVENT`, libpok/arinc653/event.c 112-117. -/
def resetEvent : Out := {}

/-- `WAIT_EVENT`, libpok/arinc653/event.c 119-156. -/
def waitEvent (nb : Nat) (l : Layers) (id timeOut : Int) (reply : Errno) : Option Out :=
  if id ≥ nb then some (.just .invalidConfig)
  else if id < 0 then none
  else if !l.ready id.toNat then some (.just .notAvailable)
  else some (.after (.eventWait (l.core id.toNat) (u64 timeOut)) (match reply with | .ok => .noError | .timeout => .timedOut | _ => .invalidParam))

/-! ## Buffers, blackboards, ports -/

/-- `CREATE_BUFFER`, libpok/arinc653/buffer.c 22-53 (`size * nb` on 32 bits). -/
def createBuffer (msg nb discipline : Int) (reply : Errno) : Out :=
  if discipline = 1 then .raw (.bufferCreate (u32 (msg * nb)) (u32 msg) false) reply
  else if discipline = 0 then .raw (.bufferCreate (u32 (msg * nb)) (u32 msg) true) reply
  else .just .invalidParam

/-- `SEND_BUFFER`, libpok/arinc653/buffer.c 55-64. -/
def sendBuffer (id len timeOut : Int) (reply : Errno) : Out := .raw (.bufferSend (u32 id) (u32 len) (u64 timeOut)) reply

/-- `RECEIVE_BUFFER`, libpok/arinc653/buffer.c 66-77. -/
def receiveBuffer (id timeOut : Int) (reply : Errno) : Out := .raw (.bufferReceive (u32 id) (u64 timeOut)) reply

/-- `CREATE_BLACKBOARD`, libpok/arinc653/blackboard.c 22-32: `BLACKBOARD_ID` is not stored. -/
def createBlackboard (size : Int) (reply : Errno × Nat) : Out × Option Nat := (.raw (.boardCreate (u32 size)) reply.1, none)

/-- `DISPLAY_BLACKBOARD`, libpok/arinc653/blackboard.c 34-42. -/
def displayBlackboard (id len : Int) (reply : Errno) : Out := .raw (.boardDisplay (u32 id) (u32 len)) reply

/-- `READ_BLACKBOARD`, libpok/arinc653/blackboard.c 44-53. -/
def readBlackboard (id timeOut : Int) (reply : Errno) : Out := .raw (.boardRead (u32 id) (u64 timeOut)) reply

/-- `CREATE_QUEUING_PORT`, libpok/arinc653/queueing.c 24-71. -/
def createQueuingPort (msg nb direction discipline : Int) (reply : Errno) : Out :=
  if discipline ≠ 0 ∧ discipline ≠ 1 then .just .invalidParam
  else if direction ≠ 0 ∧ direction ≠ 1 then .just .invalidParam
  else .raw (.queueCreate (u32 (msg * nb)) (direction = 0) (discipline = 0)) reply

/-- `SEND_QUEUING_MESSAGE`, libpok/arinc653/queueing.c 73-86, and `pok_port_queueing_send`, libpok/middleware/portqueueingsend.c 22-27, which
passes 32 bits of the timeout. -/
def sendQueuing (id len timeOut : Int) (reply : Errno) : Out := .raw (.queueSend (u32 id) (u32 len) (u32 timeOut)) reply

/-- `RECEIVE_QUEUING_MESSAGE`, libpok/arinc653/queueing.c 88-108, and libpok/middleware/portqueueingreceive.c 23-30. -/
def receiveQueuing (id timeOut len : Int) (reply : Errno) : Out :=
  let t := if timeOut = -1 then 0 else timeOut
  if reply = .empty then { calls := [.queueReceive (u32 id) (u32 t) (u32 len)], code := some Code.notAvailable.num }
  else .raw (.queueReceive (u32 id) (u32 t) (u32 len)) reply

/-- `CREATE_SAMPLING_PORT`, libpok/arinc653/sampling.c 24-65; `state` is the state of the calling thread, compared with `NORMAL` (3). -/
def createSamplingPort (size direction refresh : Int) (state : Nat) (reply : Errno) : Out :=
  if state = 3 then .just .invalidMode
  else if size ≤ 0 ∨ refresh < 0 then .just .invalidConfig
  else if direction ≠ 0 ∧ direction ≠ 1 then .just .invalidParam
  else .raw (.sampleCreate (u32 size) (direction = 0) (u64 refresh)) reply

/-- `WRITE_SAMPLING_MESSAGE`, libpok/arinc653/sampling.c 67-80. -/
def writeSampling (id len : Int) (reply : Errno) : Out :=
  if len ≤ 0 then .just .invalidParam else .raw (.sampleWrite (u32 id) (u32 len)) reply

/-- `READ_SAMPLING_MESSAGE`, libpok/arinc653/sampling.c 82-93. -/
def readSampling (id : Int) (reply : Errno) : Out := .raw (.sampleRead (u32 id)) reply

/-! ## Time, partition, errors -/

/-- `TIMED_WAIT`, libpok/arinc653/time.c 26-28, and `pok_thread_sleep`, libpok/core/threadsleep.c 18-20, which passes 32 bits. -/
def timedWait (delay : Int) (reply : Errno) : Out := .raw (.sleep (u64 delay / 1000 % 4294967296)) reply

/-- `PERIODIC_WAIT`, libpok/arinc653/time.c 30-34. -/
def periodicWait (reply : Errno) : Out := .raw .period reply

/-- `GET_TIME`, libpok/arinc653/time.c 36-38. -/
def getTime (reply : Errno) : Out := .raw .timeGet reply

/-- `SET_PARTITION_MODE`, libpok/arinc653/partition.c 35-76; the operating mode is `IDLE` 0, `COLD_START` 1, `WARM_START` 2, `NORMAL` 3. -/
def setPartitionMode (operating : Nat) (current : Mode) (reply : Errno) : Out :=
  match operating with
  | 0 => go .idle
  | 3 => go .normal
  | 1 => .just .notAvailable
  | 2 => go .initWarm
  | _ => .just .invalidParam
where
  /-- Lines 64-75. -/
  go (m : Mode) : Out :=
    if current = m then .just .noAction
    else if current = .initCold ∧ m = .initWarm then .just .invalidMode
    else .raw (.setMode m) reply

/-- `GET_ERROR_STATUS`, libpok/arinc653/error.c 117-139: on success no return code is stored. -/
def getErrorStatus (reply : Errno) : Option Code := if reply ≠ .ok then some .noAction else none

/-- `RAISE_APPLICATION_ERROR`, libpok/arinc653/error.c 141-158: is the error raised, and the code (`APPLICATION_ERROR` is 1). -/
def raiseApplicationError (code length : Int) : Bool × Code :=
  if length > 64 then (false, .invalidParam) else if code ≠ 1 then (false, .invalidParam) else (true, .noError)

/-! ## Processes -/

/-- `pok_arinc653_processes` (libpok/arinc653/process.c 25-26) and `arinc_process_attribute` (libpok/include/arinc653/arincutils.h 30), both
of `nb` entries; all zero at first. -/
structure Procs where
  count : Nat := 0
  core : Nat → Nat := fun _ => 0
  name : Nat → List Nat := fun _ => []
  base : Nat → Int := fun _ => 0

/-- `process_name_exist`, libpok/arinc653/arincutils.c 24-31, on names given as strings without null byte. -/
def nameExist (nb : Nat) (p : Procs) (name : List Nat) : Nat := ((List.range nb).find? fun i => decide (name = p.name i)).getD 0

/-- `GET_PROCESS_ID`, libpok/arinc653/process.c 28-40. -/
def getProcessId (nb : Nat) (p : Procs) (name : List Nat) : Nat × Code :=
  if nameExist nb p name = 0 then (0, .invalidConfig) else (nameExist nb p name, .noError)

/-- `CREATE_PROCESS`, libpok/arinc653/process.c 81-121; `created` and `suspended` are what the kernel answers.  The result is the new tables,
the identifier stored, and the number stored as return code.  `none`: a name too long for its array, or the tables are full. -/
def createProcess (nb : Nat) (p : Procs) (name : List Nat) (priority : Int) (created : Errno × Nat) (suspended : Errno) :
    Option (Procs × Option Nat × Nat) :=
  if name.length ≥ 30 then none
  else if nameExist nb p name ≠ 0 then some (p, none, Code.noAction.num)
  else if priority > 63 ∨ priority < 1 then some (p, none, Code.invalidParam.num)
  else if created.1 = .ok then
    let n := p.count + 1
    if n ≥ nb then none
    else some ({ count := n, core := upd p.core n created.2, name := upd p.name n name, base := upd p.base n priority }, some n, suspended.code)
  else some (p, none, created.1.code)

/-- `GET_MY_ID`, libpok/arinc653/process.c 42-51: the identifier stored is that of the thread. -/
def getMyId (thread : Nat) : Nat × Code := (thread, .noError)

/-- The name stored by `GET_PROCESS_STATUS`, libpok/arinc653/process.c 53-79 (lines 68-69), when the call succeeds; `none` outside the
tables. -/
def statusName (nb : Nat) (p : Procs) (id : Int) : Option (List Nat) :=
  if id < 0 ∨ id ≥ nb then none
  else
    let core := p.core id.toNat
    if core ≥ nb then none else some (p.name core)

/-- `pok_arinc653_processes[process_id]`: the table is indexed without check. -/
def coreOf (nb : Nat) (p : Procs) (id : Int) : Option Nat := if id < 0 ∨ id ≥ nb then none else some (p.core id.toNat)

/-- The numeric value of a thread state, kernel/include/core/sched.h 29-36. -/
def stateNum : TState → Nat
  | .stopped => 0 | .runnable => 1 | .waiting => 2 | .lock => 3 | .waitNextActivation => 4 | .delayedStart => 5

/-- `DORMANT` and `WAITING`, libpok/include/arinc653/process.h 39-44. -/
def dormant : Nat := 0
def waiting : Nat := 3

/-- State and period as `pok_thread_status` gives them, with its result. -/
def threadStatus (c : Config) (k : Kernel) (id : Nat) : Option (Errno × Option (Nat × Int)) :=
  (k.getStatus c id).map fun r => (r.1, r.2.map fun v => (stateNum v.2.1, v.2.2.2.2.1))

/-- `SET_PRIORITY`, libpok/arinc653/process.c 125-147. -/
def setPriority (c : Config) (proc now nb : Nat) (p : Procs) (k : Kernel) (id prio : Int) : Option (Kernel × Nat) :=
  (coreOf nb p id).bind fun t => (threadStatus c k t).bind fun r =>
    match r with
    | (.ok, some (st, _)) =>
      if prio > 63 ∨ prio < 1 then some (k, Code.invalidParam.num)
      else if st = dormant then some (k, Code.invalidMode.num)
      else (k.setPriority c proc now t prio.toNat).map fun r => (r.1, r.2.code)
    | _ => some (k, Code.invalidParam.num)

/-- `SUSPEND`, libpok/arinc653/process.c 157-178; `none` also when the status is used although the call failed. -/
def suspend (c : Config) (proc nb : Nat) (p : Procs) (k : Kernel) (id : Int) : Option (Kernel × Nat) :=
  (coreOf nb p id).bind fun t => (threadStatus c k t).bind fun r =>
    match r with
    | (_, some (st, period)) =>
      if st = dormant then some (k, Code.invalidMode.num)
      else if period = -1 then some (k, Code.invalidMode.num)
      else if st = waiting then some (k, Code.noAction.num)
      else some ((k.suspendTarget proc t).1, (k.suspendTarget proc t).2.code)
    | (_, none) => none

/-- `RESUME`, libpok/arinc653/process.c 180-205. -/
def resume (c : Config) (proc now nb : Nat) (p : Procs) (k : Kernel) (id : Int) : Option (Kernel × Nat) :=
  (coreOf nb p id).bind fun t => (threadStatus c k t).bind fun r =>
    match r with
    | (.ok, some (st, period)) =>
      if st = dormant then some (k, Code.invalidMode.num)
      else if period = -1 then some (k, Code.invalidMode.num)
      else if st ≠ waiting then some (k, Code.invalidMode.num)
      else (k.resume c proc now t).map fun r => (r.1, r.2.code)
    | _ => some (k, Code.invalidParam.num)

/-- `STOP`, libpok/arinc653/process.c 211-214. -/
def stop (c : Config) (proc now nb : Nat) (p : Procs) (k : Kernel) (id : Int) : Option (Kernel × Nat) :=
  (coreOf nb p id).bind fun t => (k.stopThread c proc now t).map fun r => (r.1, r.2.code)

/-- `DELAYED_START`, libpok/arinc653/process.c 216-247, and `pok_thread_delayed_start`, libpok/core/threaddelayedstart.c 18-22, which passes 32
bits of the delay. -/
def delayedStart (c : Config) (proc now nb : Nat) (p : Procs) (k : Kernel) (id delay : Int) : Option (Kernel × Code) :=
  (coreOf nb p id).bind fun t => (threadStatus c k t).bind fun r =>
    match r with
    | (.ok, some (st, _)) =>
      if st ≠ dormant then some (k, .noAction)
      else if delay = -1 then some (k, .invalidParam)
      else (k.delayedStart c proc now t (u32 delay)).map fun r => (r.1, if r.2 = .ok then .noError else .invalidParam)
    | _ => some (k, .invalidParam)

/-- `START`, libpok/arinc653/process.c 207-209. -/
def start (c : Config) (proc now nb : Nat) (p : Procs) (k : Kernel) (id : Int) : Option (Kernel × Code) := delayedStart c proc now nb p k id 0

end Pok.Arinc
