import Verif.Model.X86
import Verif.Model.Stubs

/-!
# x86: task state segments

The descriptor table and the task state segments as the kernel sets them up for each processor, and the processor's check of an instruction
that accesses an I/O port.
-/

namespace Pok.Tss
open Pok.X86
open Pok.Stub (le)
open Pok.Sys (word)

/-- `sizeof(tss_t)`, kernel/arch/x86/tss.h 20-48: 25 words and two half words. -/
def tssSize : Nat := 104

/-- `GDTE_TSS`, kernel/arch/x86/gdt.h 23. -/
def typeTss : Nat := 0x9

/-- `GDT_TSS_SEGMENT`, kernel/arch/x86/gdt.h 53. -/
def tssSeg (proc : Nat) : Nat := 3 + proc

/-- The descriptor table, and the memory of the kernel as far as `pok_tss` is concerned. -/
structure Mach where
  gdt : Gdt
  mem : Nat → Nat

/-- `gdt_set_system`, kernel/arch/x86/gdt.c 108-122: the granularity is left as it was. -/
def setSystem (g : Gdt) (i base limit type dpl : Nat) : Option Gdt :=
  X86.put g i { g i with
    limitLow := limit % 65536, limitHigh := limit / 65536 % 256 % 16, baseLow := base % 16777216, baseHigh := base / 16777216 % 256,
    type := type % 16, dpl := dpl % 4, s := false, present := true }

/-- `pok_tss_init`, kernel/arch/x86/gdt.c 66-78, `tss` being the address of `pok_tss`: the segment is cleared, the kernel's data selector
stored as `ss0` (offset 8), the descriptor set.  `none`: outside the descriptor table. -/
def tssInit (tss : Nat) (s : Mach) (proc : Nat) : Option Mach :=
  let a := tss + tssSize * proc
  let m := Stub.put s.mem a (List.replicate tssSize 0)
  let m := Stub.put m (a + 8) (le 4 (2 * 8))
  (setSystem s.gdt (tssSeg proc) a tssSize typeTss 0).map fun g => ⟨g, m⟩

/-- `pok_gdt_init`, kernel/arch/x86/gdt.c 30-64, without the loading of the registers. -/
def gdtInit (tss : Nat) (s : Mach) (proc : Nat) : Option Mach :=
  (if proc = 0 then
    (setSegment (fun i => if i < gdtSize then {} else s.gdt i) 1 0 (U32 - 1) typeCode 0).bind fun g => setSegment g 2 0 (U32 - 1) typeData 0
  else some s.gdt).bind fun g => tssInit tss { s with gdt := g } proc

/-- `tss_set_esp0`, kernel/arch/x86/gdt.c 80: `esp0` is at offset 4. -/
def setEsp0 (tss : Nat) (s : Mach) (proc v : Nat) : Mach := { s with mem := Stub.put s.mem (tss + tssSize * proc + 4) (le 4 v) }

/-- What happens to the table and the segments after the start of the first processor. -/
inductive Op
  /-- another processor starts, kernel/arch/x86/ap.c 40 -/
  | start (proc : Nat)
  /-- return to a partition, kernel/arch/x86/space.c 143 and interrupt.c 24 -/
  | esp0 (proc v : Nat)
  | space (pid addr size : Nat)
  | switch (old new : Nat)

/-- One of them, on a machine with `nproc` processors. -/
def Mach.op (tss nproc : Nat) (s : Mach) : Op → Option Mach
  | .start p => gdtInit tss s p
  | .esp0 p v => some (setEsp0 tss s p v)
  | .space pid addr size => (createSpace nproc s.gdt pid addr size).map fun g => { s with gdt := g }
  | .switch old new => (spaceSwitch nproc s.gdt old new).map fun g => { s with gdt := g }

def Mach.ops (tss nproc : Nat) (s : Mach) : List Op → Option Mach
  | [] => some s
  | o :: os => (s.op tss nproc o).bind fun s => s.ops tss nproc os

/-- The start of the first processor (kernel/arch/x86/arch.c 29) and what follows. -/
def run (tss nproc : Nat) (s : Mach) (os : List Op) : Option Mach := (gdtInit tss s 0).bind fun s => s.ops tss nproc os

end Pok.Tss
