import Verif.Model.Basic
import Verif.Model.PpcCpu
/-!
# Trap vectors, event handlers, stacks and interrupt masks of the SPARC and PowerPC kernels

Model of the trap table of kernel/arch/sparc/entry.S, of kernel/arch/sparc/traps.c, kernel/arch/sparc/arch.c, kernel/arch/sparc/psr.h, of the vectors of
kernel/arch/ppc/entry.S and of kernel/arch/ppc/arch.c.  What the entry code does with registers is in `Verif.Model.SparcTrap` and `Verif.Model.PpcCpu`; here
it matters where a trap leads.
-/
namespace Pok.Vectors

/-- The number of values of `uint32_t`. -/
abbrev U32 : Nat := 4294967296

/-- The functions registered as handlers: `pok_arch_sc_int` (kernel/arch/sparc/syscalls.c 37-72), `timer_isr` (kernel/arch/sparc/leon3/timer.c 37-43), any other. -/
inductive Handler
  | syscall
  | timer
  | other (n : Nat)
  deriving DecidableEq, Repr

/-! ## SPARC -/

/-- Where an entry of the trap table leads: the macros of kernel/arch/sparc/entry.S 9-21. -/
inductive Entry
  /-- `trap_reset`: `reset_prehandler`, which sets the processor up and calls `pok_boot` (entry.S 148-173). -/
  | reset
  /-- `trap_handle (n)`: `trap_prehandler`, which calls `trap_handler` with the number n. -/
  | handle (n : Nat)
  /-- The handlers of the register windows, kernel/arch/sparc/regwin.S. -/
  | window
  deriving DecidableEq, Repr

/-- `trapvector`, kernel/arch/sparc/entry.S 28-145, for the trap type `n` below 256. -/
def vector (n : Nat) : Entry :=
  if n = 0 then .reset
  else if n = 0x05 ∨ n = 0x06 then .window
  else if n ≤ 0x0B then .handle n
  else if n ≤ 0x10 then .reset
  else if n ≤ 0x1E then .handle n
  else if n ≤ 0x1F then .reset
  else if n ≤ 0x2C then .handle n
  else if n = 0x3C then .handle n
  else if n = 0x82 then .handle n
  else .reset

/-- `pok_sparc_isr` after `traps_init`, kernel/arch/sparc/traps.c 32-40. -/
def noHandlers : Nat → Option Handler := fun _ => none

/-- `pok_arch_event_register`, kernel/arch/sparc/arch.c 68-75 (a vector has eight bits). -/
def register (isr : Nat → Option Handler) (v : Nat) (h : Handler) : (Nat → Option Handler) × Errno :=
  if isr (v % 256) = none then (upd isr (v % 256) (some h), .ok) else (isr, .unavailable)

/-- A sequence of registrations: the table and the answers. -/
def registers (isr : Nat → Option Handler) : List (Nat × Handler) → (Nat → Option Handler) × List Errno
  | [] => (isr, [])
  | (v, h) :: l => ((registers (register isr v h).1 l).1, (register isr v h).2 :: (registers (register isr v h).1 l).2)

/-- `SPARC_TRAP_SYSCALL_BASE + 0x2` and `SPARC_TRAP_IRQ_BASE + TIMER_IRQ`: kernel/arch/sparc/traps.h 26-27, kernel/arch/sparc/leon3/timer.h 38. -/
def SYSCALL : Nat := 0x80 + 0x2
def TIMER : Nat := 0x10 + 0x8

/-- The registrations of start-up: `pok_arch_init`, kernel/arch/sparc/arch.c 32-41, with `pok_syscalls_init`, kernel/arch/sparc/syscalls.c 79-81; later
`pok_bsp_time_init`, kernel/arch/sparc/leon3/timer.c 49-61. -/
def startUp : List (Nat × Handler) := [(SYSCALL, .syscall), (TIMER, .timer)]

/-- What becomes of a trap. -/
inductive Outcome
  /-- a registered handler runs -/
  | runs (h : Handler)
  /-- the registers of the windows are stored or loaded -/
  | window
  /-- the kernel starts anew, for all partitions -/
  | restart
  /-- the processor idles for ever: `pok_fatal`, kernel/core/debug.c 77-83, `pok_arch_idle` -/
  | halt
  /-- nothing is done: the program goes on at the instruction that trapped -/
  | again
  deriving DecidableEq, Repr

/-- `trap_handler`, kernel/arch/sparc/traps.c 46-78; `debug` is `POK_NEEDS_DEBUG`, without which `POK_FATAL` is empty (kernel/include/core/debug.h 28, 35). -/
def trapHandler (debug : Bool) (isr : Nat → Option Handler) (n : Nat) : Outcome :=
  match isr n with
  | some h => .runs h
  | none => if debug then .halt else .again

/-- A trap of type `n`. -/
def trap (debug : Bool) (isr : Nat → Option Handler) (n : Nat) : Outcome :=
  match vector n with
  | .reset => .restart
  | .window => .window
  | .handle n => trapHandler debug isr n

/-- `pok_thread_stack_addr`, kernel/arch/sparc/arch.c 80-84: 32-bit arithmetic. -/
def sparcStack (size stack i : Nat) : Nat := (size + U32 - i * stack % U32) % U32

/-- `psr_disable_interupt` and `psr_enable_interupt`, kernel/arch/sparc/psr.h 63-75, which `pok_arch_preempt_disable` and `pok_arch_preempt_enable`
(kernel/arch/sparc/arch.c 43-53) call: the interrupt level is bits 8 to 11. -/
def disablePsr (psr : BitVec 32) : BitVec 32 := psr &&& ~~~0xF00#32 ||| 0xF00#32
def enablePsr (psr : BitVec 32) : BitVec 32 := psr &&& ~~~0xF00#32 ||| 0#32

/-! ## PowerPC -/

/-- Where an exception leads. -/
inductive PpcEntry
  | reset | dsi | isi | decr | sc
  /-- `b reserved_2F00`, an endless loop -/
  | stop
  deriving DecidableEq, Repr

/-- The vectors of kernel/arch/ppc/entry.S 80-299 by their offset (`dsi`, `isi`, `decr`, `sc` are the programs of `Verif.Model.PpcCpu`). -/
def ppcVector (off : Nat) : PpcEntry :=
  if off = 0x100 then .reset
  else if off = 0x300 then .dsi
  else if off = 0x400 then .isi
  else if off = 0x900 then .decr
  else if off = 0xc00 then .sc
  else .stop

/-- `pok_arch_event_register`, kernel/arch/ppc/arch.c 72-77. -/
def ppcRegister (isr : Nat → Option Handler) (_v : Nat) (_h : Handler) : (Nat → Option Handler) × Errno := (isr, .ok)

/-- A sequence of registrations. -/
def ppcRegisters (isr : Nat → Option Handler) : List (Nat × Handler) → (Nat → Option Handler) × List Errno
  | [] => (isr, [])
  | (v, h) :: l => ((ppcRegisters (ppcRegister isr v h).1 l).1, (ppcRegister isr v h).2 :: (ppcRegisters (ppcRegister isr v h).1 l).2)

/-- `pok_thread_stack_addr`, kernel/arch/ppc/arch.c 79-83. -/
def ppcStack (size stack i : Nat) : Nat := (size + 2 * U32 - 16 - i * stack % U32) % U32

/-- `pok_arch_preempt_disable` and `pok_arch_preempt_enable`, kernel/arch/ppc/arch.c 46-63. -/
def disableMsr (msr : BitVec 32) : BitVec 32 := msr &&& ~~~PpcCpu.MSR_EE
def enableMsr (msr : BitVec 32) : BitVec 32 := msr ||| PpcCpu.MSR_EE

end Pok.Vectors
