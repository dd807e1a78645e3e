import Verif.Model.KernelSys

/-!
# Errors and faults

Model of kernel/core/error.c and kernel/arch/x86/exceptions.c.  Debug output is not modelled.
-/

namespace Pok

/-- `POK_ERROR_MAX_MSG_SIZE`, kernel/include/core/error.h. -/
def MAX_MSG : Nat := 250

/-- Error kinds, kernel/include/core/error.h 20-45. -/
def KIND_NONE : Nat := 9
def KIND_DEADLINE : Nat := 10
def KIND_APPLICATION : Nat := 11
def KIND_NUMERIC : Nat := 12
def KIND_ILLEGAL : Nat := 13
def KIND_STACK : Nat := 14
def KIND_MEMORY : Nat := 15
def KIND_HARDWARE : Nat := 16
def KIND_PARTITION_HANDLER : Nat := 33

/-- What the deployment's `pok_partition_error` does for an error of a partition.  Without a generated handler,
kernel/core/error.c 86-101, every error is ignored, or stops the system if debugging is compiled in; a generated
handler changes the mode of the partition. -/
inductive PartAction
  | ignore
  | fatal
  | setMode (m : Mode)
  deriving DecidableEq, Repr

/-- The configured reaction for a partition and an error kind. -/
abbrev Actions := Nat → Nat → PartAction

/-- The exceptions of the processor, kernel/arch/x86/exceptions.c 48-72. -/
inductive Exc
  | divide | debug | nmi | breakpoint | overflow | boundRange | invalidOpcode | noMath | doubleFault
  | copSeg | invalidTss | segNotPresent | stackSeg | generalProtection | pageFault | fpu | alignment
  | machineCheck | simd
  deriving DecidableEq, Repr

/-- The kind that the handler of an exception declares, kernel/arch/x86/exceptions.c 84-295; the double fault
goes to the partition level at once. -/
def Exc.kind : Exc → Nat
  | .divide => KIND_NUMERIC
  | .debug | .nmi | .breakpoint | .invalidOpcode | .noMath | .generalProtection => KIND_ILLEGAL
  | .overflow | .boundRange => KIND_STACK
  | .doubleFault => KIND_PARTITION_HANDLER
  | .copSeg | .invalidTss | .segNotPresent | .stackSeg | .pageFault => KIND_MEMORY
  | .fpu | .alignment | .machineCheck | .simd => KIND_HARDWARE

namespace Kernel

/-- `pok_partition_error` of the deployment; `none`: the system is stopped (`pok_fatal`). -/
def partitionError (c : Config) (act : Actions) (proc now : Nat) (k : Kernel) (pid kind : Nat) :
    Option Kernel :=
  match act pid kind with
  | .ignore => some k
  | .fatal => none
  | .setMode m => (setMode c proc now k pid m).map (·.1)

/-- `POK_SCHED_CURRENT_THREAD - POK_CURRENT_PARTITION.thread_index_low` in `uint32_t`,
kernel/core/error.c 57-58 and 138-139. -/
def relThread (proc : Nat) (k : Kernel) : Nat :=
  (k.curThread proc % U32 + U32 - (k.P k.curPart).low % U32) % U32

/-- The status written by `pok_error_declare`, kernel/core/error.c 56-59. -/
def declaredStatus (proc : Nat) (k : Kernel) (kind : Nat) : ErrorStatus :=
  { (k.P k.curPart).error with kind := kind % 256, failedThread := relThread proc k, msg := [], msgSize := 0 }

/-- Store in the error status of the running partition. -/
def setError (k : Kernel) (st : ErrorStatus) : Kernel :=
  k.setP k.curPart { k.P k.curPart with error := st }

/-- `pok_error_declare`, kernel/core/error.c 48-69. -/
def errorDeclare (c : Config) (act : Actions) (proc now : Nat) (k : Kernel) (kind : Nat) : Option Kernel :=
  if (k.P k.curPart).threadError ≠ 0 then
    some (k.setError (declaredStatus proc k kind))
  else partitionError c act proc now k k.curPart kind

/-- `pok_error_declare`, then `pok_sched_activate_error_thread`: the common part of the exception handlers and of
the default system call.  Without a handler the second call does nothing: either the state is as before, or the
action put the partition in NORMAL mode, which stops the faulty (main) thread for good before it can return from
`pok_error_declare`. -/
def raiseKind (c : Config) (act : Actions) (proc now : Nat) (k : Kernel) (kind : Nat) : Option Kernel :=
  if (k.P k.curPart).threadError = 0 then errorDeclare c act proc now k kind
  else (errorDeclare c act proc now k kind).map (activateError proc)

/-- A processor exception of the running thread, kernel/arch/x86/exceptions.c 84-295. -/
def fault (c : Config) (act : Actions) (proc now : Nat) (k : Kernel) (x : Exc) : Option Kernel :=
  if x = .doubleFault then partitionError c act proc now k k.curPart KIND_PARTITION_HANDLER
  else raiseKind c act proc now k x.kind

/-- The status written by `pok_error_raise_application_error`, kernel/core/error.c 130-141: `msg` is what the
caller's buffer holds from the given address on, `size` the given length. -/
def raisedStatus (proc : Nat) (k : Kernel) (msg : List Nat) (size : Nat) : ErrorStatus :=
  let n := if size > MAX_MSG then MAX_MSG else size
  { (k.P k.curPart).error with kind := KIND_APPLICATION, failedThread := relThread proc k,
                               msg := msg.take n, msgSize := n }

/-- `pok_error_raise_application_error`, kernel/core/error.c 129-144. -/
def raiseApplication (proc : Nat) (k : Kernel) (msg : List Nat) (size : Nat) : Kernel :=
  activateError proc (k.setError (raisedStatus proc k msg size))

/-- `pok_error_get`, kernel/core/error.c 146-160: new state, return code and what is stored in the caller's
structure.  The status of the partition is left as it is. -/
def errorGet (k : Kernel) : Kernel × Errno × Option ErrorStatus :=
  if (k.P k.curPart).error.kind ≠ KIND_NONE then (k, .ok, some (k.P k.curPart).error)
  else (k, .unavailable, none)

end Kernel
end Pok
