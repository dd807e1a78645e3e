import Verif.Model.Machine

/-!
# What interrupted and suspended programs may expect
-/

namespace Pok.MachineSpec
open Machine (Cpu)

/-- All the registers are the same. -/
structure SameRegs (r s : Cpu) : Prop where
  eax : r.eax = s.eax
  ecx : r.ecx = s.ecx
  edx : r.edx = s.edx
  ebx : r.ebx = s.ebx
  esp : r.esp = s.esp
  ebp : r.ebp = s.ebp
  esi : r.esi = s.esi
  edi : r.edi = s.edi
  eip : r.eip = s.eip
  cs : r.cs = s.cs
  eflags : r.eflags = s.eflags
  ds : r.ds = s.ds
  es : r.es = s.es
  ss : r.ss = s.ss

/-- What is required of the code a handler calls: it returns with the stack where it was, in the same code and stack segments, and leaves
alone the frame above its argument (16 words).  It may change every other register and all other memory. -/
structure Called (s s' : Cpu) : Prop where
  esp : s'.esp = s.esp
  cs : s'.cs = s.cs
  ss : s'.ss = s.ss
  frame : ∀ a, s.esp + 4 ≤ a → a < s.esp + 68 → s'.mem a = s.mem a

/-- The selector that names an entry of the descriptor table at privilege 3. -/
def userSelector (entry : Nat) : Nat := 8 * entry + 3

/-- Are interrupts masked?  Bit 9 of the flags. -/
def Masked (s : Cpu) : Prop := s.eflags.testBit 9 = false

/-- How the processor delivers an interrupt through a gate: the address at which it goes on, when it does; an interrupt raised by an
instruction of a program at privilege `cpl` is refused unless the gate's privilege level allows it, and the gate must name the kernel's code
segment, which is the second entry of the descriptor table. -/
def deliver (present : Bool) (dpl segsel handler : Nat) (software : Option Nat) : Option Nat :=
  if !present then none
  else if (match software with | some cpl => decide (dpl < cpl) | none => false) then none
  else if segsel / 8 = 1 then some handler else none

/-- The exceptions of the processor: interrupts 0 to 19, but 15, which is reserved. -/
def IsException (v : Nat) : Prop := v < 20 ∧ v ≠ 15

/-- The exceptions for which the processor pushes an error code: double fault, the faults on segments and stack, general protection, page
fault, alignment check. -/
def HasErrorCode (v : Nat) : Prop := v = 8 ∨ (10 ≤ v ∧ v ≤ 14) ∨ v = 17

instance (v : Nat) : Decidable (IsException v) := by unfold IsException; infer_instance
instance (v : Nat) : Decidable (HasErrorCode v) := by unfold HasErrorCode; infer_instance

/-- A request to the interrupt controller. -/
inductive IrqOp
  | mask (irq : Nat)
  | unmask (irq : Nat)
deriving DecidableEq, Repr

/-- Is the line open after these requests?  The last one about it decides; at first only the line that links the two controllers is. -/
def openAfter (line : Nat) : List IrqOp → Bool
  | [] => line == 2
  | .mask i :: ops => if i = line then false else openAfter line ops
  | .unmask i :: ops => if i = line then true else openAfter line ops

end Pok.MachineSpec
