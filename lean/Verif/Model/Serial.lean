import Verif.Model.X86
/-!
# Serial lines, console calls and I/O ports as a program sees them

Model of kernel/arch/ppc/prep/cons.c, kernel/arch/sparc/leon3/cons.c, the serial part of kernel/arch/x86/x86-qemu/cons.c, kernel/core/cons.c, the console calls of
kernel/core/syscall.c, libpok/libc/stdio/getchar.c and libpok/arch/x86/ioports.c.  The device is a sequence of answers of its status register, `true` when it can take
a byte; a sequence that ends stands for a device that is still busy.
-/
namespace Pok.Serial

/-- The waiting loop of `write_serial`: kernel/arch/ppc/prep/cons.c 30-37, kernel/arch/sparc/leon3/cons.c 33-37, kernel/arch/x86/x86-qemu/cons.c 41-48.  What is left
of the answers when a byte can be written; `none` if the loop still waits. -/
def waitReady : List Bool → Option (List Bool)
  | [] => none
  | true :: l => some l
  | false :: l => waitReady l

/-- The loop of `pok_cons_write`, kernel/arch/ppc/prep/cons.c 39-44 and kernel/arch/sparc/leon3/cons.c 39-44, and of `pok_write`, kernel/core/cons.c 37-45, with
`write_serial` as the function that prints a character: the bytes that reached the line, and the answers left when it returned. -/
def write : List Bool → List Nat → List Nat × Option (List Bool)
  | polls, [] => ([], some polls)
  | polls, c :: cs =>
    match waitReady polls with
    | none => ([], none)
    | some l => (c :: (write l cs).1, (write l cs).2)

/-- The three machines. -/
inductive Board
  | x86 | ppc | sparc
  deriving DecidableEq, Repr

/-- The value that `pok_cons_write` returns: kernel/arch/ppc/prep/cons.c 43, kernel/arch/sparc/leon3/cons.c 43, kernel/arch/x86/x86-qemu/cons.c 190 (there the number
of characters printed, `X86.consWrite`); `none` as there. -/
def returned (b : Board) (s : X86.Cons) (text : List Nat) : Option Nat :=
  match b with
  | .ppc => some 0
  | .sparc => some 0
  | .x86 => (X86.consWrite s 0 text).map (·.1)

/-- The answer to `POK_SYSCALL_CONSWRITE`, kernel/core/syscall.c 70-78, once the pointer has been accepted. -/
def answer (b : Board) (s : X86.Cons) (text : List Nat) : Option Errno :=
  (returned b s text).map fun r => if r ≠ 0 then .ok else .einval

/-- `read_serial`, kernel/arch/x86/x86-qemu/cons.c 53-57, called by `pok_cons_get_char`, 119: the byte of the caller after the call, when the status register says
whether a byte has arrived. -/
def readSerial (arrived : Option Nat) (a : Nat) : Nat :=
  match arrived with
  | some b => b % 256
  | none => a

/-- `char` as a signed number, as the compiler for x86 has it. -/
def charInt (c : Nat) : Int := if c % 256 < 128 then (c % 256 : Nat) else (c % 256 : Nat) - 256

/-- `getChar`, libpok/libc/stdio/getchar.c 20-24; `accepted` is whether the kernel accepts the pointer (kernel/core/syscall.c 81-85). -/
def getChar (accepted : Bool) (arrived : Option Nat) : Int :=
  charInt (if accepted then readSerial arrived 255 else 255)

/-- The answer to `POK_SYSCALL_INB`, kernel/core/syscall.c 382-388, as a 32-bit register: `-POK_ERRNO_EPERM`, or the byte read. -/
def inbAnswer (allowed : Bool) (byte : Nat) : Nat := if allowed then byte % 256 else 2 ^ 32 - 6

/-- `pok_inb`, libpok/arch/x86/ioports.c 20-26. -/
def inb (allowed : Bool) (byte : Nat) : Int :=
  let r := inbAnswer allowed byte
  if r < 2 ^ 31 then r else (r : Int) - 2 ^ 32

end Pok.Serial
