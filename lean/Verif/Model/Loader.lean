import Verif.Model.Libc

/-!
# The partition loader

Model of kernel/core/loader.c on x86: the archive of ELF files and the partitions are in one memory (`Libc.Mem`); `none` is an access to
memory that is not there.  Fields are read when the code reads them, so a segment written over the headers changes what is loaded next.
-/

namespace Pok.Loader
open Libc

/-- `uint32_t` arithmetic. -/
abbrev U32 : Nat := 4294967296

/-- A little-endian 16-bit load. -/
def load16 (m : Mem) (a : Nat) : Option Nat :=
  match m a, m (a + 1) with
  | some b0, some b1 => some (b0 + 256 * b1)
  | _, _ => none

/-- Body of the loop of `pok_loader_elf_load`, kernel/core/loader.c 61-67, for the program header at address `h` (`Elf32_Phdr`,
kernel/include/elf.h 44-53: `p_offset` at 4, `p_vaddr` at 8, `p_filesz` at 16, `p_memsz` at 20). -/
def loadSeg (m : Mem) (file offset h : Nat) : Option Mem := do
  let vaddr ← load32 m (h + 8)
  let dest := (vaddr + offset) % U32
  let off ← load32 m (h + 4)
  let filesz ← load32 m (h + 16)
  let m ← memcpyX86 m dest (off + file) filesz
  let filesz ← load32 m (h + 16)
  let memsz ← load32 m (h + 20)
  memset m (dest + filesz) 0 ((memsz + U32 - filesz) % U32)

/-- The loop, kernel/core/loader.c 61-67: `left` headers remain (`e_phnum` is read again at each turn in the code; a segment written
over the header of the file is not modelled for this field). -/
def loadSegs (m : Mem) (file offset table i : Nat) : Nat → Option Mem
  | 0 => some m
  | left + 1 => (loadSeg m file offset (table + 32 * i)).bind fun m => loadSegs m file offset table (i + 1) left

/-- `pok_loader_elf_load`, kernel/core/loader.c 42-69: the entry point, `none` when the file is refused (`POK_ERRNO_NOTFOUND`), and
memory.  `Elf32_Ehdr`, kernel/include/elf.h 25-40: `e_entry` at 24, `e_phoff` at 28, `e_phnum` at 44. -/
def elfLoad (m : Mem) (file offset : Nat) : Option (Option Nat × Mem) := do
  let i0 ← m file
  let i1 ← m (file + 1)
  let i2 ← m (file + 2)
  let i3 ← m (file + 3)
  if i0 ≠ 0x7f ∨ i1 ≠ 69 ∨ i2 ≠ 76 ∨ i3 ≠ 70 then return (none, m)
  let entry ← load32 m (file + 24)
  let phoff ← load32 m (file + 28)
  let phnum ← load16 m (file + 44)
  let m' ← loadSegs m file offset (file + phoff) 0 phnum
  return (some entry, m')

/-- Loop of `pok_loader_load_partition`, kernel/core/loader.c 80-83. -/
def archiveOffset (sizes : Nat → Nat) : Nat → Nat
  | 0 => 0
  | t + 1 => (archiveOffset sizes t + sizes t) % U32

/-- `pok_loader_load_partition`, kernel/core/loader.c 71-94: whether a configuration error is raised, the entry point given to the caller
(0 when the file is refused), and memory.  What `pok_partition_error` does is in the model of error management; when it returns the load
goes on. -/
def loadPartition (m : Mem) (archive : Nat) (sizes partSize : Nat → Nat) (pid offset : Nat) : Option (Bool × Nat × Mem) :=
  (elfLoad m (archive + archiveOffset sizes pid) offset).map fun r => (decide (partSize pid < sizes pid), r.1.getD 0, r.2)

end Pok.Loader
