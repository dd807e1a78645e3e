import Verif.Model.Syscall

/-!
# The library calls of a partition

Model of the functions of libpok that a partition calls to reach the kernel: libpok/core/*.c, libpok/middleware/port*.c
and the macros of libpok/include/core/{syscall,thread,partition}.h, down to the instruction `int $42` of
libpok/arch/x86/syscall.c 18-35.  For the i386 layout of structures (an `enum` and a pointer are four bytes, a `uint64_t`
is aligned on four bytes).

A call is described by what the kernel finds at the instruction: register `eax` (the number of the service), register
`ebx` (the address of the argument block) and the memory of the partition.

Simplifications: the addresses that the compiler gives to the argument block (a compound literal) and to the structure
`lockattr` (a local variable) are parameters; what is left of the stack frame is not modelled, and the fields that the
code does not write keep what memory contained.  Services whose library function is only a debugging aid are left out.
-/

namespace Pok
namespace Stub

/-- An unsigned integer as `n` bytes of memory, least significant first: how a `uint8_t`, `uint16_t`, `uint32_t`,
`uint64_t` (`n` = 1, 2, 4, 8) is stored, after the conversion of C to that type. -/
def le : Nat → Nat → List Nat
  | 0, _ => []
  | n + 1, v => v % 256 :: le n (v / 256)

/-- Bytes are stored at an address. -/
def put (m : Nat → Nat) (a : Nat) : List Nat → Nat → Nat
  | [] => m
  | b :: bs => put (upd m a b) (a + 1) bs

/-- What the kernel finds when the instruction `int $42` is executed, libpok/arch/x86/syscall.c 27-33. -/
structure Trap where
  eax : Nat
  ebx : Nat
  mem : Nat → Nat

/-- `pok_do_syscall (sid, &((pok_syscall_args_t){nargs, arg1, …, arg5}))`, libpok/arch/x86/syscall.c 18-35, for a block
(libpok/include/core/syscall.h 103-110) at address `blk`. -/
def doSyscall (m : Nat → Nat) (blk sid nargs a1 a2 a3 a4 a5 : Nat) : Trap :=
  { eax := sid % U32, ebx := blk % U32, mem := put m blk (le 4 nargs ++ le 4 a1 ++ le 4 a2 ++ le 4 a3 ++ le 4 a4 ++ le 4 a5) }

/-- `pok_syscall0`, libpok/include/core/syscall.h 123-124. -/
def syscall0 (m : Nat → Nat) (blk sid : Nat) : Trap := doSyscall m blk sid 0 0 0 0 0 0

/-- `pok_syscall2`, libpok/include/core/syscall.h 129-130. -/
def syscall2 (m : Nat → Nat) (blk sid a1 a2 : Nat) : Trap := doSyscall m blk sid 2 a1 a2 0 0 0

/-- `pok_syscall3`, libpok/include/core/syscall.h 132-133. -/
def syscall3 (m : Nat → Nat) (blk sid a1 a2 a3 : Nat) : Trap := doSyscall m blk sid 3 a1 a2 a3 0 0

/-- `pok_syscall4`, libpok/include/core/syscall.h 135-136. -/
def syscall4 (m : Nat → Nat) (blk sid a1 a2 a3 a4 : Nat) : Trap := doSyscall m blk sid 4 a1 a2 a3 a4 0

/-- `pok_syscall5`, libpok/include/core/syscall.h 138-139. -/
def syscall5 (m : Nat → Nat) (blk sid a1 a2 a3 a4 a5 : Nat) : Trap := doSyscall m blk sid 5 a1 a2 a3 a4 a5

/-- `pok_queueing_discipline_t` as an integer, libpok/include/core/lockobj.h 26-29. -/
def discNum : Discipline → Nat
  | .fifo => 0
  | .priority => 1
  | .other => 2

/-- `pok_locking_policy_t` as an integer, libpok/include/core/lockobj.h 31-35. -/
def policyNum : LockPolicy → Nat
  | .standard => 0
  | .pip => 1
  | .pcp => 2
  | .other => 3

/-- `pok_partition_mode_t` as an integer, libpok/include/core/partition.h 21-28. -/
def modeNum : Mode → Nat
  | .initCold => 1
  | .initWarm => 2
  | .normal => 3
  | .idle => 4
  | .restart => 5
  | .stopped => 6
  | .other n => n

/-- Assignment to the field `operation` of a `pok_lockobj_lockattr_t`, libpok/include/core/lockobj.h 58-63. -/
def setOp (m : Nat → Nat) (l v : Nat) : Nat → Nat := put m l (le 4 v)
/-- Assignment to the field `obj_kind`. -/
def setObjKind (m : Nat → Nat) (l v : Nat) : Nat → Nat := put m (l + 4) (le 4 v)
/-- Assignment to the field `timeout` (`uint64_t`). -/
def setTimeout (m : Nat → Nat) (l v : Nat) : Nat → Nat := put m (l + 12) (le 8 v)

/-- Assignment to the field `kind` of a `pok_lockobj_attr_t`, libpok/include/core/lockobj.h 37-43. -/
def setKind (m : Nat → Nat) (l v : Nat) : Nat → Nat := put m l (le 4 v)
/-- Assignment to the field `locking_policy`. -/
def setPolicy (m : Nat → Nat) (l v : Nat) : Nat → Nat := put m (l + 4) (le 4 v)
/-- Assignment to the field `queueing_policy`. -/
def setQueueing (m : Nat → Nat) (l v : Nat) : Nat → Nat := put m (l + 8) (le 4 v)
/-- Assignment to the field `initial_value` (`uint16_t`). -/
def setInitial (m : Nat → Nat) (l v : Nat) : Nat → Nat := put m (l + 12) (le 2 v)
/-- Assignment to the field `max_value` (`uint16_t`). -/
def setMax (m : Nat → Nat) (l v : Nat) : Nat → Nat := put m (l + 14) (le 2 v)

/-- `pok_sem_create`, libpok/core/semcreate.c 24-36. -/
def semCreate (m : Nat → Nat) (blk l idp cur max : Nat) (d : Discipline) : Trap :=
  let m := setInitial m l cur
  let m := setMax m l max
  let m := setQueueing m l (discNum d)
  let m := setPolicy m l (policyNum .standard)
  let m := setKind m l 2
  syscall2 m blk 201 idp l

/-- `pok_sem_wait`, libpok/core/semwait.c 29-36. -/
def semWait (m : Nat → Nat) (blk l id us : Nat) : Trap :=
  let m := setOp m l 1
  let m := setObjKind m l 2
  let m := setTimeout m l (us * 1000)
  syscall2 m blk 202 id l

/-- `pok_sem_signal`, libpok/core/semsignal.c 24-30. -/
def semSignal (m : Nat → Nat) (blk l id : Nat) : Trap :=
  let m := setOp m l 2
  let m := setObjKind m l 2
  syscall2 m blk 202 id l

/-- `pok_event_create`, libpok/core/eventcreate.c 24-33. -/
def eventCreate (m : Nat → Nat) (blk l idp : Nat) : Trap :=
  let m := setKind m l 3
  let m := setPolicy m l (policyNum .standard)
  syscall2 m blk 201 idp l

/-- `pok_event_lock`, libpok/core/eventlock.c 24-31. -/
def eventLock (m : Nat → Nat) (blk l id : Nat) : Trap :=
  let m := setOp m l 1
  let m := setTimeout m l 0
  let m := setObjKind m l 3
  syscall2 m blk 202 id l

/-- `pok_event_unlock`, libpok/core/eventunlock.c 24-30. -/
def eventUnlock (m : Nat → Nat) (blk l id : Nat) : Trap :=
  let m := setOp m l 2
  let m := setObjKind m l 3
  syscall2 m blk 202 id l

/-- `pok_event_wait`, libpok/core/eventwait.c 30-37. -/
def eventWait (m : Nat → Nat) (blk l id us : Nat) : Trap :=
  let m := setOp m l 3
  let m := setTimeout m l (us * 1000)
  let m := setObjKind m l 3
  syscall2 m blk 202 id l

/-- `pok_event_signal`, libpok/core/eventsignal.c 24-30. -/
def eventSignal (m : Nat → Nat) (blk l id : Nat) : Trap :=
  let m := setOp m l 4
  let m := setObjKind m l 3
  syscall2 m blk 202 id l

/-- `pok_event_broadcast`, libpok/core/eventbroadcast.c 24-30. -/
def eventBroadcast (m : Nat → Nat) (blk l id : Nat) : Trap :=
  let m := setOp m l 5
  let m := setObjKind m l 3
  syscall2 m blk 202 id l

/-- `pok_mutex_create`, libpok/core/mutexcreate.c 22-33. -/
def mutexCreate (m : Nat → Nat) (blk l idp : Nat) (d : Discipline) (p : LockPolicy) : Trap :=
  let m := setKind m l 1
  let m := setQueueing m l (discNum d)
  let m := setPolicy m l (policyNum p)
  syscall2 m blk 201 idp l

/-- `pok_mutex_lock`, libpok/core/mutexlock.c 22-29. -/
def mutexLock (m : Nat → Nat) (blk l id : Nat) : Trap :=
  let m := setOp m l 1
  let m := setTimeout m l 0
  let m := setObjKind m l 1
  syscall2 m blk 202 id l

/-- `pok_mutex_trylock`, libpok/core/mutextrylock.c 28-35. -/
def mutexTrylock (m : Nat → Nat) (blk l id us : Nat) : Trap :=
  let m := setOp m l 1
  let m := setTimeout m l (us * 1000)
  let m := setObjKind m l 1
  syscall2 m blk 202 id l

/-- `pok_mutex_unlock`, libpok/core/mutexunlock.c 22-28. -/
def mutexUnlock (m : Nat → Nat) (blk l id : Nat) : Trap :=
  let m := setOp m l 2
  let m := setObjKind m l 1
  syscall2 m blk 202 id l

/-- The calls of the library: what a partition's code writes.  Pointers are partition-relative addresses. -/
inductive LibCall
  | semCreate (idp cur max : Nat) (d : Discipline)
  | semWait (id us : Nat)
  | semSignal (id : Nat)
  | eventCreate (idp : Nat)
  | eventLock (id : Nat)
  | eventUnlock (id : Nat)
  | eventWait (id us : Nat)
  | eventSignal (id : Nat)
  | eventBroadcast (id : Nat)
  | mutexCreate (idp : Nat) (d : Discipline) (p : LockPolicy)
  | mutexLock (id : Nat)
  | mutexTrylock (id us : Nat)
  | mutexUnlock (id : Nat)
  | threadCreate (idp attr : Nat)
  | threadSleep (us : Nat)
  | threadSleepUntil (us : Nat)
  | threadSuspend
  | threadSuspendTarget (id : Nat)
  | threadRestart (id : Nat)
  | threadStopSelf
  | threadStop (id : Nat)
  | threadPeriod
  | threadResume (id : Nat)
  | threadSetPriority (id prio : Nat)
  | threadDelayedStart (id us : Nat)
  | threadId (p : Nat)
  | threadStatus (id p : Nat)
  | timeGet (p : Nat)
  | setMode (m : Mode)
  | partitionId (p : Nat)
  | partitionPeriod (p : Nat)
  | partitionDuration (p : Nat)
  | partitionLockLevel (p : Nat)
  | partitionMode (p : Nat)
  | partitionStart (p : Nat)
  | errorHandlerCreate (worker : Nat)
  | errorRaise (msg size : Nat)
  | errorGet (p : Nat)
  | queueingCreate (name size dir : Nat) (d : Discipline) (idp : Nat)
  | queueingSend (id data len timeout : Nat)
  | queueingReceive (id timeout maxlen data lenp : Nat)
  | samplingCreate (name size dir refresh idp : Nat)
  | samplingWrite (id data len : Nat)
  | samplingRead (id data lenp validp : Nat)
  | virtualCreate (name idp : Nat)
  | consWrite (s len : Nat)
  | shutdown
  deriving Repr

/-- The library function of each call: libpok/core/threadcreate.c 22-26, libpok/core/threadsleep.c 18-20,
libpok/core/threadperiod.c 20-23, libpok/core/threadresume.c 22-24, libpok/core/threadpriority.c 22-25,
libpok/core/threaddelayedstart.c 22-26, libpok/core/threadid.c 22-24, libpok/core/threadstatus.c 22-25, the macros of
libpok/include/core/thread.h 63-95 and libpok/include/core/partition.h 30-50, libpok/core/timeget.c 24-28,
libpok/core/errorhandlercreate.c 22-27 (`POK_DEFAULT_STACK_SIZE` is 2048), libpok/core/errorraise.c 19-22,
libpok/core/errorget.c 21-23, libpok/middleware/portqueueingcreate.c 23-31, libpok/middleware/portqueueingsend.c 22-27,
libpok/middleware/portqueueingreceive.c 23-30, libpok/middleware/portsamplingcreate.c 24-30,
libpok/middleware/portsamplingwrite.c 24-28, libpok/middleware/portsamplingread.c 24-28,
libpok/middleware/portvirtualcreate.c 25-28, the call of libpok/libc/stdio/printf.c 61 that writes on the console,
libpok/core/shutdown.c 32-33. -/
def stub (m : Nat → Nat) (blk l : Nat) : LibCall → Trap
  | .semCreate idp cur max d => semCreate m blk l idp cur max d
  | .semWait id us => semWait m blk l id us
  | .semSignal id => semSignal m blk l id
  | .eventCreate idp => eventCreate m blk l idp
  | .eventLock id => eventLock m blk l id
  | .eventUnlock id => eventUnlock m blk l id
  | .eventWait id us => eventWait m blk l id us
  | .eventSignal id => eventSignal m blk l id
  | .eventBroadcast id => eventBroadcast m blk l id
  | .mutexCreate idp d p => mutexCreate m blk l idp d p
  | .mutexLock id => mutexLock m blk l id
  | .mutexTrylock id us => mutexTrylock m blk l id us
  | .mutexUnlock id => mutexUnlock m blk l id
  | .threadCreate idp attr => syscall2 m blk 50 idp attr
  | .threadSleep us => syscall2 m blk 52 us 0
  | .threadSleepUntil us => syscall2 m blk 51 us 0
  | .threadSuspend => syscall2 m blk 53 0 0
  | .threadSuspendTarget id => syscall2 m blk 62 id 0
  | .threadRestart id => syscall2 m blk 54 id 0
  | .threadStopSelf => syscall2 m blk 57 0 0
  | .threadStop id => syscall2 m blk 55 id 0
  | .threadPeriod => syscall2 m blk 56 0 0
  | .threadResume id => syscall2 m blk 61 id 0
  | .threadSetPriority id prio => syscall2 m blk 60 id prio
  | .threadDelayedStart id us => syscall2 m blk 65 id us
  | .threadId p => syscall2 m blk 58 p 0
  | .threadStatus id p => syscall2 m blk 59 id p
  | .timeGet p => syscall2 m blk 20 p 0
  | .setMode md => syscall2 m blk 404 (modeNum md) 0
  | .partitionId p => syscall2 m blk 405 p 0
  | .partitionPeriod p => syscall2 m blk 406 p 0
  | .partitionDuration p => syscall2 m blk 407 p 0
  | .partitionLockLevel p => syscall2 m blk 408 p 0
  | .partitionMode p => syscall2 m blk 409 p 0
  | .partitionStart p => syscall2 m blk 410 p 0
  | .errorHandlerCreate worker => syscall2 m blk 301 2048 worker
  | .errorRaise msg size => syscall2 m blk 303 msg size
  | .errorGet p => syscall2 m blk 304 p 0
  | .queueingCreate name size dir d idp => syscall5 m blk 110 name size dir (discNum d) idp
  | .queueingSend id data len timeout => syscall4 m blk 111 id data len timeout
  | .queueingReceive id timeout maxlen data lenp => syscall5 m blk 112 id timeout maxlen data lenp
  | .samplingCreate name size dir refresh idp => syscall5 m blk 105 name size dir refresh idp
  | .samplingWrite id data len => syscall3 m blk 104 id data len
  | .samplingRead id data lenp validp => syscall4 m blk 102 id data lenp validp
  | .virtualCreate name idp => syscall2 m blk 150 name idp
  | .consWrite s len => syscall2 m blk 10 s len
  | .shutdown => syscall0 m blk 707

end Stub
end Pok
