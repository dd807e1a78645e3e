import Verif.Model.Results

/-!
# The default error handler of a partition

Model of libpok/core/errorhandlerworker.c, over the kernel's `pok_error_get` and `pok_partition_set_mode` and the bytes that the kernel stores in
the variable `status` on the handler's stack.
-/

namespace Pok.DefaultHandler
open Pok.Results (store libError)
open Pok.Sys (bytes)
open Kernel

/-- How a run of the handler ends: with a memory violation at an address outside the partition, or with the call that stops the partition, after
the message on the console (`none`: nothing is printed). -/
inductive End where
  | fault (addr : Nat)
  | ended (shown : Option (List Nat)) (r : Option (Kernel × Errno))

/-- What `printf ("%s")` shows of the bytes that follow an address, up to the null byte. -/
def text (bs : List Nat) : List Nat := bs.takeWhile (· ≠ 0)

/-- The variable `status` at address `p` of the partition's memory after `pok_error_get (&status)`, libpok/core/errorhandlerworker.c 31-32; the
stores are those of kernel/core/error.c 146-160.  If no error is pending the variable keeps what the stack held. -/
def afterGet (k : Kernel) (m : Nat → Nat) (p : Nat) : Nat → Nat :=
  match (errorGet k).2.2 with
  | some st => store m p (.error st)
  | none => m

/-- `pok_error_handler_worker`, libpok/core/errorhandlerworker.c 30-58, in a partition of `size` bytes; `debug` is `POK_NEEDS_DEBUG`.  The return code
of `pok_error_get` is not looked at.  Simplified: the copy of the message on the stack (`alloca`) is taken to succeed whenever its source
lies in the partition. -/
def worker (debug : Bool) (c : Config) (proc now : Nat) (k : Kernel) (m : Nat → Nat) (size p : Nat) : End :=
  let m1 := afterGet k m p
  if debug = false then .ended none (setModeCurrent c proc now k .stopped)
  else
    let e := libError m1 p
    let a := (e.msg + e.msgSize) % 2 ^ 32
    if size ≤ a then .fault a
    else if size ≤ e.msg then .fault e.msg
    else
      let shown := if m1 a = 0 then text (bytes m1 e.msg (size - e.msg)) else text (bytes m1 e.msg e.msgSize)
      .ended (some shown) (setModeCurrent c proc now k .stopped)

end Pok.DefaultHandler
