import Verif.Model.Syscall
import Verif.Model.PpcCpu
import Verif.Model.SparcTrap
/-!
# System calls on PowerPC and SPARC (kernel/arch/ppc/syscalls.c, kernel/arch/sparc/syscalls.c)

How the handlers in C build the arguments of `pok_core_syscall`, and how the library leaves them (libpok/arch/ppc/syscall.S, libpok/arch/sparc/syscall.S).
-/
namespace Pok.BoardCall

/-- `pok_arch_sc_int`, kernel/arch/ppc/syscalls.c 23-52: the number of the service and the arguments that `pok_core_syscall` gets, for a call with the registers
of `e` (the first six words of a call are in `%r3` to `%r8`).  The partition and the thread are those of the scheduler. -/
def ppcScInt (e : PpcCpu.Cpu) : Nat × SysArgs :=
  ((e.gpr 3).toNat, { nargs := 5, a1 := (e.gpr 4).toNat, a2 := (e.gpr 5).toNat, a3 := (e.gpr 6).toNat, a4 := (e.gpr 7).toNat, a5 := (e.gpr 8).toNat })

/-- `pok_arch_sc_int`, kernel/arch/sparc/syscalls.c 37-68: the number of the service and the arguments, from the context at `sp`. -/
def sparcScInt (mem : Nat → Nat) (sp : Nat) : Nat × SysArgs :=
  let w := Sparc.scArgs mem sp
  (w.getD 0 0, { nargs := 5, a1 := w.getD 1 0, a2 := w.getD 2 0, a3 := w.getD 3 0, a4 := w.getD 4 0, a5 := w.getD 5 0 })

/-- How many arguments the library passes with each service: the digit of `pok_syscall0` to `pok_syscall5` in libpok/core, libpok/middleware,
libpok/include/core/thread.h 61-89, libpok/include/core/partition.h 30-50, libpok/include/middleware/port.h 83-129, libpok/drivers/rtl8029.c 28-48,
libpok/libc/stdio/printf.c 61, libpok/libc/stdio/getchar.c 22, libpok/core/shutdown.c 33, libpok/arch/x86/ioports.c 21-31 and libpok/arch/x86/pci.c 20.  The
functions of libpok/arch/ppc/syscall.S 1-12 and libpok/arch/sparc/syscall.S 1-14 set no register: those of the arguments that are not passed hold what was left there. -/
def passed : Nat → Nat
  | 707 => 0
  | 11 => 1
  | 104 => 3
  | 152 => 3
  | 701 => 3
  | 702 => 3
  | 703 => 3
  | 102 => 4
  | 111 => 4
  | 105 => 5
  | 110 => 5
  | 112 => 5
  | _ => 2

end Pok.BoardCall
