import Verif.Model.Stubs
import Verif.Spec.Syscall

/-!
# Specification of the library calls

What a partition means by a call of the library: which kernel service is asked for, with which arguments.  Nothing here
mentions numbers of system calls, argument blocks or structures that the library builds.
-/

namespace Pok.StubSpec
open Pok.Stub Pok.SysSpec

/-- The `n` bytes at address `a` hold the unsigned integer `v`, least significant byte first. -/
def HoldsInt (m : Nat → Nat) (a n v : Nat) : Prop := v < 256 ^ n ∧ ∀ i, i < n → m (a + i) = v / 256 ^ i % 256

/-- The attributes `x` of a thread are in memory at address `a`: a `pok_thread_attr_t` of i386. -/
def HoldsAttr (m : Nat → Nat) (a : Nat) (x : ThreadAttr) : Prop :=
  HoldsInt m a 1 x.priority ∧ HoldsInt m (a + 1) 1 x.affinity ∧ HoldsInt m (a + 4) 4 x.entry ∧ HoldsInt m (a + 8) 8 x.period ∧
    HoldsInt m (a + 16) 8 x.deadline ∧ HoldsInt m (a + 24) 8 x.timeCapacity

/-- The null-terminated string `str` is in memory at address `a`. -/
def HoldsString (m : Nat → Nat) (a : Nat) (str : List Nat) : Prop :=
  (∀ i (h : i < str.length), m (a + i) = str[i] ∧ str[i] ≠ 0) ∧ m (a + str.length) = 0

/-- The `n` bytes at address `a`. -/
def message (m : Nat → Nat) (a n : Nat) : List Nat := (List.range n).map fun i => m (a + i)

/-- The service `sv` is what the call asks for, in partition `part`, with memory `m` (partition-relative addresses) before the
call.  Times given in microseconds to a lock object are nanoseconds for the kernel. -/
def Asked (c : SysCfg) (m : Nat → Nat) (part : Nat) : LibCall → Service → Prop
  | .semCreate _ cur max d, sv => sv = .lockCreate { kind := .semaphore, policy := .standard, queueing := d, initial := cur, max := max }
  | .semWait id us, sv => sv = .lockOp id .semaphore .lock (us * 1000)
  | .semSignal id, sv => ∃ t, sv = .lockOp id .semaphore .unlock t
  | .eventCreate _, sv => ∃ a : LockAttr, sv = .lockCreate a ∧ a.kind = .event ∧ a.policy = .standard
  | .eventLock id, sv => sv = .lockOp id .event .lock 0
  | .eventUnlock id, sv => ∃ t, sv = .lockOp id .event .unlock t
  | .eventWait id us, sv => sv = .lockOp id .event .wait (us * 1000)
  | .eventSignal id, sv => ∃ t, sv = .lockOp id .event .signal t
  | .eventBroadcast id, sv => ∃ t, sv = .lockOp id .event .broadcast t
  | .mutexCreate _ d p, sv => ∃ a : LockAttr, sv = .lockCreate a ∧ a.kind = .mutex ∧ a.policy = p ∧ a.queueing = d
  | .mutexLock id, sv => sv = .lockOp id .mutex .lock 0
  | .mutexTrylock id us, sv => sv = .lockOp id .mutex .lock (us * 1000)
  | .mutexUnlock id, sv => ∃ t, sv = .lockOp id .mutex .unlock t
  | .threadCreate _ attr, sv => ∀ x, HoldsAttr m attr x → sv = .kcall (.create x)
  | .threadSleep us, sv => sv = .kcall (.sleep us)
  | .threadSleepUntil us, sv => sv = .kcall (.sleepUntil us)
  | .threadSuspend, sv => sv = .kcall .stopSelf
  | .threadSuspendTarget id, sv => sv = .kcall (.suspendTarget id)
  | .threadRestart id, sv => sv = .kcall (.restartThread id)
  | .threadStopSelf, sv => sv = .kcall .stopSelf
  | .threadStop id, sv => sv = .kcall (.stopThread id)
  | .threadPeriod, sv => sv = .kcall .endPeriod
  | .threadResume id, sv => sv = .kcall (.resume id)
  | .threadSetPriority id prio, sv => sv = .kcall (.setPriority id prio)
  | .threadDelayedStart id us, sv => sv = .kcall (.delayedStart id us)
  | .threadId _, sv => sv = .threadId
  | .threadStatus id _, sv => sv = .threadStatus id
  | .timeGet _, sv => sv = .getTick
  | .setMode md, sv => sv = .kcall (.setMode md)
  | .partitionId _, sv => sv = .partitionGet 405
  | .partitionPeriod _, sv => sv = .partitionGet 406
  | .partitionDuration _, sv => sv = .partitionGet 407
  | .partitionLockLevel _, sv => sv = .partitionGet 408
  | .partitionMode _, sv => sv = .partitionGet 409
  | .partitionStart _, sv => sv = .partitionGet 410
  | .errorHandlerCreate worker, sv => sv = .kcall (.errorCreate worker {})
  | .errorRaise msg size, sv => sv = .raise (message m msg size) size
  | .errorGet _, sv => sv = .errorGet
  | .queueingCreate name size dir d _, sv =>
    ∀ str, HoldsString m name str → str.length ≤ c.maxName → sv = .port (.queueingCreate part str size dir (decide (d = .fifo)))
  | .queueingSend id data len timeout, sv => sv = .port (.send part id (message m data len) timeout)
  | .queueingReceive id timeout maxlen _ _, sv => sv = .port (.receive part id maxlen timeout)
  | .samplingCreate name size dir refresh _, sv =>
    ∀ str, HoldsString m name str → str.length ≤ c.maxName → sv = .port (.samplingCreate part str size dir refresh)
  | .samplingWrite id data len, sv => sv = .port (.samplingWrite part id (message m data len))
  | .samplingRead id data _ _, sv => sv = .port (.samplingRead part id data)
  | .virtualCreate name _, sv => ∀ str, HoldsString m name str → str.length ≤ c.maxName → sv = .portId Sys.KIND_VIRTUAL str
  | .consWrite a len, sv => ∃ addr, sv = .consWrite addr len ∧ (0 < len → addr = c.base part + a)
  | .shutdown, sv => sv = .shutdown

/-- The arguments have the types of the prototypes of libpok/include (`pok_sem_id_t`, `pok_mutex_id_t`, `pok_port_id_t`,
`pok_port_direction_t` are `uint8_t`; `pok_event_id_t`, `pok_sem_value_t` are `uint16_t`; times are `uint64_t`; the rest is
`uint32_t`). -/
def Typed : LibCall → Prop
  | .semCreate idp cur max d => idp < U32 ∧ cur < 65536 ∧ max < 65536 ∧ d ≠ .other
  | .semWait id us => id < 256 ∧ us < U64
  | .semSignal id => id < 256
  | .eventCreate idp => idp < U32
  | .eventLock id => id < 65536
  | .eventUnlock id => id < 65536
  | .eventWait id us => id < 65536 ∧ us < U64
  | .eventSignal id => id < 65536
  | .eventBroadcast id => id < 65536
  | .mutexCreate idp d p => idp < U32 ∧ d ≠ .other ∧ p ≠ .other
  | .mutexLock id => id < 256
  | .mutexTrylock id us => id < 256 ∧ us < U64
  | .mutexUnlock id => id < 256
  | .threadCreate idp attr => idp < U32 ∧ attr < U32
  | .threadSleep us => us < U64
  | .threadSleepUntil us => us < U64
  | .threadSuspend => True
  | .threadSuspendTarget id => id < U32
  | .threadRestart id => id < U32
  | .threadStopSelf => True
  | .threadStop id => id < U32
  | .threadPeriod => True
  | .threadResume id => id < U32
  | .threadSetPriority id prio => id < U32 ∧ prio < U32
  | .threadDelayedStart id us => id < U32 ∧ us < U64
  | .threadId p => p < U32
  | .threadStatus id p => id < U32 ∧ p < U32
  | .timeGet p => p < U32
  | .setMode md => ∀ n, md = .other n → 6 < n ∧ n < U32
  | .partitionId p => p < U32
  | .partitionPeriod p => p < U32
  | .partitionDuration p => p < U32
  | .partitionLockLevel p => p < U32
  | .partitionMode p => p < U32
  | .partitionStart p => p < U32
  | .errorHandlerCreate worker => worker < U32
  | .errorRaise msg size => msg < U32 ∧ size < U32
  | .errorGet p => p < U32
  | .queueingCreate name size dir d idp => name < U32 ∧ size < U32 ∧ dir < 256 ∧ d ≠ .other ∧ idp < U32
  | .queueingSend id data len timeout => id < 256 ∧ data < U32 ∧ len < U32 ∧ timeout < U64
  | .queueingReceive id timeout maxlen data lenp => id < 256 ∧ timeout < U64 ∧ maxlen < U32 ∧ data < U32 ∧ lenp < U32
  | .samplingCreate name size dir refresh idp => name < U32 ∧ size < U32 ∧ dir < 256 ∧ refresh < U64 ∧ idp < U32
  | .samplingWrite id data len => id < 256 ∧ data < U32 ∧ len < U32
  | .samplingRead id data lenp validp => id < 256 ∧ data < U32 ∧ lenp < U32 ∧ validp < U32
  | .virtualCreate name idp => name < U32 ∧ idp < U32
  | .consWrite a len => a < U32 ∧ len < U32
  | .shutdown => True

/-- The areas of the caller's memory that a call hands over: address and number of bytes. -/
def areas (c : SysCfg) : LibCall → List (Nat × Nat)
  | .semCreate idp _ _ _ => [(idp, 1)]
  | .eventCreate idp => [(idp, 1)]
  | .mutexCreate idp _ _ => [(idp, 1)]
  | .threadCreate idp attr => [(idp, 4), (attr, 40)]
  | .threadId p => [(p, 4)]
  | .threadStatus _ p => [(p, 40)]
  | .timeGet p => [(p, 8)]
  | .partitionId p => [(p, 1)]
  | .partitionPeriod p => [(p, 8)]
  | .partitionDuration p => [(p, 8)]
  | .partitionLockLevel p => [(p, 4)]
  | .partitionMode p => [(p, 4)]
  | .partitionStart p => [(p, 4)]
  | .errorRaise msg size => [(msg, size)]
  | .errorGet p => [(p, 268)]
  | .queueingCreate name _ _ _ idp => [(name, c.maxName + 1), (idp, 1)]
  | .queueingSend _ data len _ => [(data, len)]
  | .queueingReceive _ _ maxlen data lenp => [(data, maxlen), (lenp, 4)]
  | .samplingCreate name _ _ _ idp => [(name, c.maxName + 1), (idp, 1)]
  | .samplingWrite _ data len => [(data, len)]
  | .samplingRead _ _ lenp validp => [(lenp, 4), (validp, 4)]
  | .virtualCreate name idp => [(name, c.maxName + 1), (idp, 1)]
  | .consWrite a len => [(a, len)]
  | _ => []

/-- Two areas have no byte in common. -/
def Apart (a n b k : Nat) : Prop := a + n ≤ b ∨ b + k ≤ a

/-- The local variables of a library function: the argument block (24 bytes at `blk`) and the structure for lock objects (20
bytes at `l`, not at address zero) are in the memory of the partition, and the areas that the caller hands over are there too,
elsewhere. -/
structure Frame (c : SysCfg) (part blk l : Nat) (call : LibCall) : Prop where
  exist : part < c.p.nbParts
  inBlk : blk + 24 ≤ c.p.psize part
  inLoc : l + 20 ≤ c.p.psize part
  pos : 0 < l
  apart : Apart blk 24 l 20
  inAreas : ∀ x ∈ areas c call, x.1 + x.2 ≤ c.p.psize part ∧ Apart x.1 x.2 blk 24 ∧ Apart x.1 x.2 l 20

/-- The arguments that the interface keeps: times given to threads and ports fit in 32 bits, times given to lock objects fit in
64 bits as nanoseconds, messages are shorter than 256 bytes, event identifiers are below 256. -/
def Fits : LibCall → Prop
  | .semWait _ us => us * 1000 < U64
  | .eventLock id => id < 256
  | .eventUnlock id => id < 256
  | .eventWait id us => id < 256 ∧ us * 1000 < U64
  | .eventSignal id => id < 256
  | .eventBroadcast id => id < 256
  | .mutexTrylock _ us => us * 1000 < U64
  | .threadSleep us => us < U32
  | .threadSleepUntil us => us < U32
  | .threadDelayedStart _ us => us < U32
  | .queueingSend _ _ len timeout => len < 256 ∧ timeout < U32
  | .queueingReceive _ timeout _ _ _ => timeout < U32
  | .samplingCreate _ _ _ refresh _ => refresh < U32
  | .samplingWrite _ _ len => len < 256
  | _ => True

/-- The ports, the memory and the I/O intervals are as before. -/
structure SameRest (s s' : Sys) : Prop where
  mem : s'.mem = s.mem
  ioMin : s'.ioMin = s.ioMin
  ioMax : s'.ioMax = s.ioMax
  rtlLen : s'.rtlLen = s.rtlLen

/-- What a service does to the system: it acts on the part of the kernel that it names, and on nothing else. -/
def Effect (c : SysCfg) (s : Sys) (proc now part : Nat) (s' : Sys) : Service → Prop
  | .kcall call => Kernel.exec c.k proc now s.k call = some s'.k ∧ s'.ports = s.ports ∧ s'.locks = s.locks ∧ SameRest s s'
  | .raise msg size => s'.k = Kernel.raiseApplication proc s.k msg size ∧ s'.ports = s.ports ∧ s'.locks = s.locks ∧ SameRest s s'
  | .port op => (∃ r, s.ports.step c.p now op = some (s'.ports, r)) ∧ s'.k = s.k ∧ s'.locks = s.locks ∧ SameRest s s'
  | .lockCreate a => (∃ r, lockPartitionCreate (s.k.P part).lockLow (s.k.P part).lockHigh (s.k.P part).mode s.locks a = (s'.locks, r)) ∧ s'.k = s.k ∧
      s'.ports = s.ports ∧ SameRest s s'
  | .lockOp id kind op timeout =>
      (∃ r, lockPartitionWrapper c.k.nbThreads (s.k.P part).lockLow (s.k.P part).lockHigh s.k.T now s.locks (s.k.curThread proc) id kind op timeout =
        some (s'.k.T, s'.locks, r)) ∧ s'.k = { s.k with T := s'.k.T } ∧ s'.ports = s.ports ∧ SameRest s s'
  | .pciRegister v d r => s'.k = s.k ∧ s'.ports = s.ports ∧ s'.locks = s.locks ∧ s'.mem = s.mem ∧ s'.rtlLen = s.rtlLen ∧
      (∀ q, q ≠ part → s'.ioMin q = s.ioMin q ∧ s'.ioMax q = s.ioMax q) ∧
      match c.pciBar v d with
      | none => s'.ioMin part = s.ioMin part ∧ s'.ioMax part = s.ioMax part
      | some bar => s'.ioMin part = bar / 32 * 32 % 65536 ∧ s'.ioMax part = (bar / 32 * 32 + r) % 65536
  | .shutdown => False
  | _ => s' = s

end Pok.StubSpec
