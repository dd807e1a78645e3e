import Verif.Model.Basic

/-!
# x86: interrupts and context switches

A small machine, with which the assembly code of the x86 port is written instruction by instruction: kernel/include/arch/x86/interrupt.h
(entry and exit of interrupt handlers), kernel/arch/x86/thread.c (context switch) and kernel/arch/x86/space.c (first entry in a partition);
and the interrupt descriptor table, kernel/arch/x86/event.c, and the interrupt controller, kernel/arch/x86/x86-qemu/pic.c.

Memory is a function from the address of an aligned 32-bit word to the word.  The stack pointer does not wrap around.
-/

namespace Pok.Machine

/-- Registers and memory. -/
structure Cpu where
  eax : Nat
  ecx : Nat
  edx : Nat
  ebx : Nat
  esp : Nat
  ebp : Nat
  esi : Nat
  edi : Nat
  eip : Nat
  cs : Nat
  eflags : Nat
  ds : Nat
  es : Nat
  ss : Nat
  mem : Nat → Nat

/-- `push`. -/
def Cpu.push (s : Cpu) (v : Nat) : Cpu := { s with esp := s.esp - 4, mem := upd s.mem (s.esp - 4) v }

/-- The word on top of the stack. -/
def Cpu.top (s : Cpu) : Nat := s.mem s.esp

/-- `addl $n, %esp`. -/
def Cpu.drop (s : Cpu) (n : Nat) : Cpu := { s with esp := s.esp + n }

/-- `pusha`: the stack pointer saved is the one before. -/
def Cpu.pusha (s : Cpu) : Cpu := ((((((((s.push s.eax).push s.ecx).push s.edx).push s.ebx).push s.esp).push s.ebp).push s.esi).push s.edi)

/-- `popa`: the saved stack pointer is skipped. -/
def Cpu.popa (s : Cpu) : Cpu :=
  { s with edi := s.mem s.esp, esi := s.mem (s.esp + 4), ebp := s.mem (s.esp + 8), ebx := s.mem (s.esp + 16), edx := s.mem (s.esp + 20),
           ecx := s.mem (s.esp + 24), eax := s.mem (s.esp + 28), esp := s.esp + 32 }

/-- `iret`: instruction pointer, code segment, flags; when the code segment is of a less privileged level, also stack pointer and stack
segment.  The checks the processor makes on the selectors are left out. -/
def Cpu.iret (s : Cpu) : Cpu :=
  let s' := { s with eip := s.mem s.esp, cs := s.mem (s.esp + 4), eflags := s.mem (s.esp + 8), esp := s.esp + 12 }
  if s'.cs % 4 > s.cs % 4 then { s' with esp := s.mem (s.esp + 12), ss := s.mem (s.esp + 16) } else s'

/-- `ret`. -/
def Cpu.ret (s : Cpu) : Cpu := { s with eip := s.mem s.esp, esp := s.esp + 4 }

/-- The flags with interrupts disabled (bit 9). -/
def cli (flags : Nat) : Nat := flags - flags / 512 % 2 * 512

/-- The selector of the kernel's code segment, `GDT_CORE_CODE_SEGMENT << 3`, kernel/arch/x86/gdt.h 50. -/
def kernelCs : Nat := 8

/-- The selector of the kernel's data segment, kernel/arch/x86/gdt.h 51. -/
def kernelDs : Nat := 16

/-- What the processor does for an interrupt through an interrupt gate: from a partition (privilege 3) the stack is the kernel stack of the
task state segment; stack segment and pointer are saved on it; then flags, code segment, instruction pointer and, for some exceptions, an
error code. -/
def Cpu.interrupt (s : Cpu) (handler esp0 : Nat) (error : Option Nat) : Cpu :=
  let s1 := if s.cs % 4 = 3 then (({ s with esp := esp0, ss := kernelDs }).push s.ss).push s.esp else s
  let s2 := ((s1.push s.eflags).push s.cs).push s.eip
  let s3 := match error with
    | some e => s2.push e
    | none => s2
  { s3 with cs := kernelCs, eip := handler, eflags := cli s.eflags }

/-- Entry of `INTERRUPT_HANDLER` and `INTERRUPT_HANDLER_syscall`, kernel/include/arch/x86/interrupt.h 48-56 and 100-108: `cli`, room for an
error code, registers, `ds`, `es`, the address of the frame, kernel data segments. -/
def Cpu.enter (s : Cpu) : Cpu :=
  let s := { s with eflags := cli s.eflags, esp := s.esp - 4 }
  let s := s.pusha
  let s := (s.push s.ds).push s.es
  let s := s.push s.esp
  { s with ds := kernelDs, es := kernelDs, eax := s.eax / 65536 * 65536 + 16 }

/-- Entry of `INTERRUPT_HANDLER_errorcode`, 74-81: the same without the room, the processor having pushed an error code. -/
def Cpu.enterErr (s : Cpu) : Cpu :=
  let s := { s with eflags := cli s.eflags }
  let s := s.pusha
  let s := (s.push s.ds).push s.es
  let s := s.push s.esp
  { s with ds := kernelDs, es := kernelDs, eax := s.eax / 65536 * 65536 + 16 }

/-- Exit, 59-65 and 83-90: drop the argument, `es`, `ds`, registers, drop the error code, `iret` (`sti` just before has no effect, `iret` loads
the flags). -/
def Cpu.leave (s : Cpu) : Cpu :=
  let s := s.drop 4
  let s := { s with es := s.top, esp := s.esp + 4 }
  let s := { s with ds := s.top, esp := s.esp + 4 }
  let s := s.popa
  let s := s.drop 4
  s.iret

/-- `movl %eax, 40(%esp)`, 110: the result of a system call goes in the saved `eax`. -/
def Cpu.result (s : Cpu) : Cpu := { s with mem := upd s.mem (s.esp + 40) s.eax }

/-- Exit of `INTERRUPT_HANDLER_IPI`, kernel/include/arch/x86/ipi.h 49-57: the same, with a call of the C function `pok_end_ipi` just before
`iret`, given as what it does to the machine. -/
def Cpu.leaveIpi (s : Cpu) (endIpi : Cpu → Cpu) : Cpu :=
  let s := s.drop 4
  let s := { s with es := s.top, esp := s.esp + 4 }
  let s := { s with ds := s.top, esp := s.esp + 4 }
  let s := s.popa
  let s := s.drop 4
  let s := endIpi s
  s.iret

/-- `pok_end_ipi`, kernel/arch/x86/ipi.c 31, compiled in the plain way: the address goes in `eax`. -/
def endIpi (lapic : Nat) (s : Cpu) : Cpu := { s with eax := lapic, mem := upd s.mem (lapic + 0xB0) 1 }

/-- `update_tss`, kernel/arch/x86/interrupt.c 20-26: the kernel stack pointer kept in the task state segment, for the frame at `frame` (16
words). -/
def updateTss (s : Cpu) (frame esp0 : Nat) : Nat := if s.mem (frame + 48) % 65536 ≠ kernelCs then frame + 64 else esp0

/-! ## Context switch -/

/-- Second part of `pok_context_switch`, kernel/arch/x86/thread.c 60-67: the stack pointer is saved where the first argument says and the
context at the new stack pointer restored; `label` is the address of the label 1, where there is a `ret`.  The result is the state after the
`iret`, and after that `ret` when the new context was itself suspended here. -/
def Cpu.switchTo (s : Cpu) (label : Nat) : Cpu :=
  let s := { s with ebx := s.mem (s.esp + 48) }
  let s := { s with mem := upd s.mem s.ebx s.esp }
  let s := { s with esp := s.mem (s.esp + 52) }
  let s := s.popa
  let s := s.iret
  if s.eip = label then s.ret else s

/-- `pok_context_switch`, kernel/arch/x86/thread.c 53-68, called at privilege 0 (return address on top of the stack, then the address where
to save the stack pointer, then the new stack pointer): flags, code segment, the label and the registers are pushed. -/
def Cpu.contextSwitch (s : Cpu) (label : Nat) : Cpu := (((s.push s.eflags).push s.cs).push label).pusha.switchTo label

/-- Words written at consecutive addresses. -/
def writeWords (m : Nat → Nat) (a : Nat) : List Nat → Nat → Nat
  | [] => m
  | w :: ws => writeWords (upd m a w) (a + 4) ws

/-- `pok_context_create`, kernel/arch/x86/thread.c 30-51, in a stack of `size` bytes at `stack`; `start` is the address of
`pok_thread_start`.  The context has 14 words: `context_t` (thread.h 20-34), `fake_ret`, `entry`, `id`. -/
def contextCreate (m : Nat → Nat) (stack size start id entry : Nat) : Nat × (Nat → Nat) :=
  let sp := stack + size - 4 - 56
  (sp, writeWords m sp [0, 0, 0, sp + 32, 0, 0, 0, 0, start, kernelCs, 512, 0, entry, id])

/-- `pok_context_reset`, kernel/arch/x86/thread.c 70-86: the same, at `stackAddr + size`, keeping entry point and identifier. -/
def contextReset (m : Nat → Nat) (size stackAddr start : Nat) : Nat → Nat :=
  let sp := stackAddr + size - 4 - 56
  writeWords m sp [0, 0, 0, sp + 32, 0, 0, 0, 0, start, kernelCs, 512, 0, m (sp + 48), m (sp + 52)]

/-- `pok_space_context_create`, kernel/arch/x86/space.c 75-103: 19 words, `context_t` then the arguments of `pok_dispatch_space` (space.h
27-37), in a stack of `KERNEL_STACK_SIZE` (8192) bytes at `stack`. -/
def spaceContextCreate (m : Nat → Nat) (stack dispatch pid entry aff userSp arg1 arg2 : Nat) : Nat × (Nat → Nat) :=
  let sp := stack + 8192 - 4 - 76
  (sp, writeWords m sp [0, 0, 0, sp + 32, 0, 0, 0, 0, dispatch, kernelCs, 512, 0, pid, entry, userSp, aff, sp, arg1, arg2])

/-- `GDT_BUILD_SELECTOR(GDT_PARTITION_CODE_SEGMENT(pid), 0, 3)`, kernel/arch/x86/gdt.h 53-60. -/
def partCs (nproc pid : Nat) : Nat := (3 + nproc + 2 * pid) * 8 + 3

/-- The same for the data segment. -/
def partDs (nproc pid : Nat) : Nat := (3 + nproc + 2 * pid + 1) * 8 + 3

/-- `pok_dispatch_space`, kernel/arch/x86/space.c 116-153, entered with its arguments on the stack above a return address; the frame `ctx` is
built at `frame`, in its own part of the stack.  The result gives also the task state segment's kernel stack pointer and the processor whose
segment it is. -/
def Cpu.dispatchSpace (s : Cpu) (nproc frame : Nat) : Cpu × Nat × Nat :=
  let arg := fun k => s.mem (s.esp + 4 + 4 * k)
  let pid := arg 0 % 256
  let m := writeWords s.mem frame
    [partDs nproc pid, partDs nproc pid, 0, 0, 0, frame + 40, arg 6, 0, 0, arg 5, 0, arg 1, partCs nproc pid, 512, arg 2, partDs nproc pid]
  let t := { s with mem := m, esp := frame, eflags := cli s.eflags }
  let t := { t with es := t.top, esp := t.esp + 4 }
  let t := { t with ds := t.top, esp := t.esp + 4 }
  let t := (t.popa.drop 4).iret
  (t, arg 4, arg 3 % 256)

/-- `PARTITION_ID(cs)`, kernel/arch/x86/syscalls.c 31 (unsigned arithmetic). -/
def partitionId (nproc cs : Nat) : Nat := (cs / 8 + 4294967296 - 3 - nproc) % 4294967296 / 2

/-! ## Interrupt descriptor table -/

/-- `idt_entry_t`, kernel/arch/x86/event.h 30-40 (constant fields left out). -/
structure Gate where
  offsetLow : Nat := 0
  offsetHigh : Nat := 0
  segsel : Nat := 0
  type : Nat := 0
  dpl : Nat := 0
  present : Bool := false
deriving DecidableEq, Repr

/-- `pok_idt`: 256 entries. -/
abbrev Idt := Nat → Gate

/-- After `pok_idt_init`, kernel/arch/x86/event.c 38-55. -/
def Idt.init : Idt := fun _ => {}

/-- `pok_idt_set_gate`, kernel/arch/x86/event.c 57-69; `none` past the end of the table. -/
def Idt.setGate (t : Idt) (index segsel offset type dpl : Nat) : Option Idt :=
  if index < 256 then some (upd t index ⟨offset % 65536, offset / 65536 % 65536, segsel % 65536, type % 8, dpl % 4, true⟩) else none

/-- `IDTE_INTERRUPT` and `IDTE_TRAP`, kernel/arch/x86/event.h 25-27. -/
def idteInterrupt : Nat := 6
def idteTrap : Nat := 7

/-- `exception_list`, kernel/arch/x86/exceptions.c 51-71: the vectors. -/
def exceptionVectors : List Nat := [0, 1, 2, 3, 4, 5, 6, 7, 8, 9, 10, 11, 12, 13, 14, 16, 17, 18, 19]

/-- The vectors whose handler is declared with `INTERRUPT_HANDLER_errorcode`, kernel/arch/x86/exceptions.c 174-264. -/
def errorCodeVectors : List Nat := [8, 10, 11, 12, 13, 14, 17]

/-- Entry of the handler of exception `v`, kernel/arch/x86/exceptions.c 84-296: by one or the other of the two macros. -/
def Cpu.enterException (s : Cpu) (v : Nat) : Cpu := if v ∈ errorCodeVectors then s.enterErr else s.enter

/-- `pok_exception_init`, kernel/arch/x86/exceptions.c 73-82; `handler v` is the address of the handler of vector `v`. -/
def Idt.exceptionInit (t : Idt) (handler : Nat → Nat) : Option Idt :=
  exceptionVectors.foldlM (fun t v => t.setGate v kernelCs (handler v) idteInterrupt 3) t

/-- `POK_SYSCALL_INT_NUMBER`, kernel/include/core/syscall.h 25. -/
def syscallVector : Nat := 42

/-- `pok_syscall_init`, kernel/arch/x86/syscalls.c 76-81. -/
def Idt.syscallInit (t : Idt) (handler : Nat) : Option Idt := t.setGate syscallVector kernelCs handler idteInterrupt 3

/-- `pok_arch_event_register`, kernel/arch/x86/arch.c 52-57; the vector is a byte. -/
def Idt.eventRegister (t : Idt) (vector handler : Nat) : Option Idt := t.setGate (vector % 256) kernelCs handler idteTrap 3

/-- The gate set by `pci_register`, kernel/arch/x86/pci.c 94-95: the segment is not shifted. -/
def Idt.pciGate (t : Idt) (irqLine handler : Nat) : Option Idt := t.setGate (32 + irqLine) 1 handler idteInterrupt 0

/-- `pok_event_init`, kernel/arch/x86/event.c 26-34. -/
def Idt.eventInit (handler : Nat → Nat) : Option Idt := (Idt.init.exceptionInit handler).bind fun t => t.syscallInit (handler syscallVector)

/-! ## Interrupt controller -/

/-- The interrupt masks of the two controllers. -/
structure Pic where
  master : Nat
  slave : Nat
deriving DecidableEq, Repr

/-- `pok_pic_init`, kernel/arch/x86/x86-qemu/pic.c 35-37. -/
def Pic.init : Pic := ⟨0xfb, 0xff⟩

/-- `pok_pic_mask`, kernel/arch/x86/x86-qemu/pic.c 42-58: the result says whether the line exists. -/
def Pic.mask (s : Pic) (irq : Nat) : Bool × Pic :=
  if irq > 15 then (false, s)
  else if irq < 8 then (true, { s with master := (s.master ||| 1 <<< irq) % 256 })
  else (true, { s with slave := (s.slave ||| 1 <<< (irq - 8)) % 256 })

/-- `pok_pic_unmask`, kernel/arch/x86/x86-qemu/pic.c 60-75 (`& ~x` on bytes). -/
def Pic.unmask (s : Pic) (irq : Nat) : Bool × Pic :=
  if irq > 15 then (false, s)
  else if irq < 8 then (true, { s with master := s.master &&& (255 ^^^ 1 <<< irq) })
  else (true, { s with slave := s.slave &&& (255 ^^^ 1 <<< (irq - 8)) })

/-- `pok_bsp_irq_register`, kernel/arch/x86/x86-qemu/bsp.c 37-43: the result of `pok_pic_unmask` is ignored. -/
def irqRegister (s : Pic) (t : Idt) (irq handler : Nat) : Option (Pic × Idt) :=
  (t.eventRegister (32 + irq) handler).map fun t => ((s.unmask irq).2, t)

end Pok.Machine
