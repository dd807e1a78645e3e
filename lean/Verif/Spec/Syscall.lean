import Verif.Model.Syscall

/-!
# Specification of the system call interface

Nothing here mentions how the dispatcher works: only the memory of a partition, the numbers documented for the
system calls, and the number of arguments each takes.
-/

namespace Pok.SysSpec

/-- Every byte of the range `[ptr, ptr + size)` of partition-relative addresses belongs to partition `p`: the
partition exists and the byte lies below the size of its memory.  The addresses are mathematical integers, so a
range that would wrap around is not inside. -/
def Inside (c : SysCfg) (p ptr size : Nat) : Prop :=
  p < c.p.nbParts ∧ ∀ i, i < size → ptr + i < c.p.psize p

/-- Every byte of an access is one of the physical bytes of the memory of partition `p`. -/
def Own (c : SysCfg) (p : Nat) (x : Access) : Prop :=
  ∀ i, i < x.len → c.base p ≤ x.addr + i ∧ x.addr + i < c.base p + c.p.psize p

/-- What a call does to memory through the pointers of the caller stays in the memory of the caller. -/
def Contained (c : SysCfg) (p : Nat) : SysOut → Prop
  | .call _ acc => ∀ x ∈ acc, Own c p x
  | .nullDeref => False
  | _ => True

/-- The configurations: the memory of a partition does not go beyond 4 GB, and `maxName` bounds the port names. -/
structure CfgOk (c : SysCfg) : Prop where
  room : ∀ p, p < c.p.nbParts → c.base p + c.p.psize p ≤ U32
  names : ∀ i, i < c.p.nbPorts → (c.p.name i).length ≤ c.maxName

/-- The system calls of kernel/include/core/syscall.h 21-101 that a kernel with features `f` offers. -/
def offered (f : Features) (n : Nat) : Bool :=
  -- threads, errors, partitions
  [50, 53, 54, 55, 56, 57, 59, 60, 61, 62, 65, 301, 303, 304, 404, 405, 406, 407, 408, 409, 410].contains n
    || ((f.console || f.debug) && n == 10) || (f.console && n == 11)
    || (f.gettick && n == 20) || (f.sleepUntil && n == 51) || (f.sleep && n == 52) || (f.threadId && n == 58)
    || (f.sampling && [101, 102, 104, 105].contains n) || (f.sampling && !f.generated && n == 103)
    || (f.queueing && [110, 111, 112, 113].contains n) || (f.queueing && !f.generated && n == 114)
    || (f.mac && n == 120) || (f.virt && [150, 151, 152, 153, 154].contains n)
    || (f.lockobj && [201, 202].contains n) || (f.io && [501, 502].contains n)
    || (f.pci && n == 601) || ((f.rtl || f.pci) && [701, 702, 703, 704, 705, 706].contains n)
    || (f.shutdown && n == 707)

end Pok.SysSpec
