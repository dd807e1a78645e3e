import Verif.Model.Tss

/-!
# Specification: what the processor makes of a task state segment

From the architecture's manual: the base and the limit of a descriptor; the check of an I/O instruction of a program that is less
privileged than the I/O privilege level of its flags.
-/

namespace Pok.TssSpec
open Pok.X86 Pok.Tss Pok.Sys

/-- Base address of a descriptor. -/
def base (d : Desc) : Nat := d.baseLow + d.baseHigh * 2 ^ 24

/-- Last offset inside the segment. -/
def limit (d : Desc) : Nat :=
  let l := d.limitLow + d.limitHigh * 2 ^ 16
  if d.granularity then l * 4096 + 4095 else l

/-- An access of `width` ports from `port` on (1, 2 or 4) is permitted: the two bytes of the permission map at `port / 8` are within the segment and the
bits of all the ports are clear.  The half word at offset 102 is the offset of the map. -/
def IoPermitted (mem : Nat → Nat) (d : Desc) (port width : Nat) : Prop :=
  word mem (base d + 102) 2 + port / 8 + 1 ≤ limit d ∧
    ∀ k, k < width → word mem (base d + word mem (base d + 102) 2 + port / 8) 2 / 2 ^ (port % 8 + k) % 2 = 0

/-- A program with these flags and this privilege level may access the ports: the level is within the one of the flags (bits 12 and 13), or
the map permits it. -/
def MayAccess (mem : Nat → Nat) (d : Desc) (cpl eflags port width : Nat) : Prop := cpl ≤ eflags / 2 ^ 12 % 4 ∨ IoPermitted mem d port width

/-- The privilege level of programs of partitions (the selectors of kernel/arch/x86/space.c 125-126) and their flags (line 140); they cannot
change the I/O privilege level. -/
def userLevel : Nat := 3
def userFlags : Nat := 1 <<< 9

end Pok.TssSpec
