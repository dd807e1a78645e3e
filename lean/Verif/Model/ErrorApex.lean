import Verif.Model.ErrorMgmt
import Verif.Model.PartMgmt
import Verif.Model.Arinc
import Verif.Model.Port
import Verif.Model.Syscall

/-!
# The registration of an error handler and the report of a message

`CREATE_ERROR_HANDLER` and `REPORT_APPLICATION_MESSAGE` of libpok/arinc653/error.c with the kernel's part.
-/

namespace Pok.ErrorApex
open Pok.Kernel

/-- `pok_error_thread_create`, kernel/core/error.c 23-41, with `tid` what the local variable of this name holds before the call of line 34, which
stores a number there only if it succeeds.  `none`: failed assertion, or access behind the table of threads. -/
def errorThreadCreateFrom (c : Config) (proc : Nat) (k : Kernel) (entry : Nat) (junk : ThreadAttr) (tid : Nat) : Option (Kernel × Errno) :=
  match threadCreate c k { junk with priority := 200, entry := entry, timeCapacity := 10000 } k.curPart with
  | none => none
  | some (k, e, o) =>
    let id := o.getD tid
    if id < c.nbThreads then
      let k := k.setP k.curPart { k.P k.curPart with threadError := id }
      some (activateError proc k, e)
    else none

/-- `CREATE_ERROR_HANDLER`, libpok/arinc653/error.c 103-115, with kernel/core/syscall.c 242-243; the stack size has no effect. -/
def createErrorHandler (c : Config) (proc : Nat) (k : Kernel) (entry : Nat) (junk : ThreadAttr) (tid : Nat) : Option (Kernel × Arinc.Code) :=
  (errorThreadCreateFrom c proc k entry junk tid).map fun r => (r.1, if r.2 = .ok then .noError else .invalidConfig)

/-- The system call `POK_SYSCALL_ERROR_RAISE_APPLICATION_ERROR`, kernel/core/syscall.c 245-250, of a partition with the memory `m`. -/
def raiseCall (c : PortCfg) (proc : Nat) (k : Kernel) (m : Nat → Nat) (addr size : Nat) : Kernel × Errno :=
  if Ports.checkPtr c k.curPart addr size then (raiseApplication proc k (Sys.bytes m addr size) size, .ok) else (k, .einval)

/-- `REPORT_APPLICATION_MESSAGE`, libpok/arinc653/error.c 90-101, with libpok/core/errorraise.c 19-22; the length is signed
(libpok/include/arinc653/types.h 38, 57). -/
def reportMessage (c : PortCfg) (proc : Nat) (k : Kernel) (m : Nat → Nat) (addr : Nat) (length : Int) : Kernel × Arinc.Code :=
  if length > 64 then (k, .invalidParam)
  else ((raiseCall c proc k m addr (length % 2 ^ 32).toNat).1, .noError)

end Pok.ErrorApex
