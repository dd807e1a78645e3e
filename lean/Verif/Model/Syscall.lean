import Verif.Model.ErrorMgmt
import Verif.Model.LockPart
import Verif.Model.Port

/-!
# System calls

Model of kernel/core/syscall.c and of the gate kernel/arch/x86/syscalls.c, for the i386 layout of structures.

`coreSyscall` is the dispatcher: it says whether the call is refused, which kernel service is called with which
decoded arguments, and which bytes of memory the dispatcher and the service touch through the pointers of the
caller.  `perform` is the effect of the service on the kernel.

Simplifications:
* a service that takes a fixed-size structure is taken to touch all of it, whether it succeeds or not;
* `pok_cons_write` and `strcmp` are followed byte by byte through memory, because what they read depends on it;
* bytes stored for the caller (results) are not written into the modelled memory;
* the arguments are fetched once (the code reads them through `args` when needed; no other thread runs in
  between on one processor).
-/

namespace Pok

/-- `pok_syscall_args_t`, kernel/include/core/syscall.h. -/
structure SysArgs where
  nargs : Nat := 0
  a1 : Nat := 0
  a2 : Nat := 0
  a3 : Nat := 0
  a4 : Nat := 0
  a5 : Nat := 0
  deriving DecidableEq, Repr

/-- The arguments are 32 bits wide. -/
def SysArgs.Ok (a : SysArgs) : Prop :=
  a.nargs < U32 ∧ a.a1 < U32 ∧ a.a2 < U32 ∧ a.a3 < U32 ∧ a.a4 < U32 ∧ a.a5 < U32

/-- Services compiled in: the `POK_NEEDS_*` macros that guard the cases of kernel/core/syscall.c. -/
structure Features where
  console : Bool := true
  debug : Bool := true
  virt : Bool := true
  mac : Bool := true
  gettick : Bool := true
  sleep : Bool := true
  sleepUntil : Bool := true
  threadId : Bool := true
  sampling : Bool := true
  queueing : Bool := true
  generated : Bool := false
  lockobj : Bool := true
  io : Bool := true
  pci : Bool := true
  rtl : Bool := true
  shutdown : Bool := true

/-- Configuration seen by the system calls.  `base` is `pok_partitions[].base_addr`; `maxName` is
`pok_ports_names_max_len`; `pciBar` is the first base register of the device with a vendor and device number, if
there is one on the bus. -/
structure SysCfg where
  k : Config
  p : PortCfg
  base : Nat → Nat
  maxName : Nat
  feat : Features
  act : Actions
  pciBar : Nat → Nat → Option Nat

/-- The state behind the system calls.  `mem` is physical memory; `rtlLen` is `dev.recv_buf[].len` of
kernel/drivers/rtl8029.c; `ioMin`, `ioMax` are fields of `pok_partitions[]`. -/
structure Sys where
  k : Kernel
  ports : Ports
  locks : LockTable
  mem : Nat → Nat
  ioMin : Nat → Nat
  ioMax : Nat → Nat
  rtlLen : Nat → Nat

/-- A range of memory touched by the kernel through a pointer of the caller. -/
structure Access where
  write : Bool
  addr : Nat
  len : Nat
  deriving DecidableEq, Repr

/-- Kernel services, with decoded arguments. -/
inductive Service
  | consWrite (addr len : Nat)
  | getChar (addr : Nat)
  | getTick
  | kcall (call : KCall)
  | threadId
  | threadStatus (id : Nat)
  | partitionGet (what : Nat)
  | raise (msg : List Nat) (size : Nat)
  | errorGet
  | port (op : PortOp)
  | portId (kind : Nat) (name : List Nat)
  | portStatus (id : Nat)
  | virtualInfo (id : Nat)
  | macAddr
  | lockCreate (a : LockAttr)
  | lockOp (id : Nat) (kind : LockKind) (op : LockOp) (timeout : Nat)
  | pciRegister (vendor device range : Nat)
  | rtl (what : Nat)
  | shutdown
  deriving Repr

/-- What the dispatcher does with a call. -/
inductive SysOut
  /-- refused: nothing is called -/
  | reject (e : Errno)
  /-- the `default` case -/
  | unknown
  /-- the instruction `inb` on an I/O port -/
  | inb (port : Nat)
  /-- the instruction `outb` on an I/O port -/
  | outb (port value : Nat)
  /-- a service is called; `acc` lists the caller's memory that it touches -/
  | call (s : Service) (acc : List Access)
  /-- the kernel dereferences the null pointer -/
  | nullDeref
  deriving Repr

namespace Sys

/-- `n` bytes of memory. -/
def bytes (mem : Nat → Nat) (a n : Nat) : List Nat := (List.range n).map fun i => mem (a + i)

/-- A little-endian integer of `n` bytes. -/
def word (mem : Nat → Nat) (a : Nat) : Nat → Nat
  | 0 => 0
  | n + 1 => mem a % 256 + 256 * word mem (a + 1) n

/-- The string at an address, up to its null byte, at most `n` characters. -/
def cString (mem : Nat → Nat) (a : Nat) : Nat → List Nat
  | 0 => []
  | n + 1 => if mem a = 0 then [] else mem a :: cString mem (a + 1) n

/-- Number of bytes of the first string that `strcmp` reads when the second is `s`,
kernel/libc/strcmp.c 21-35: up to the first difference or the common end. -/
def strcmpReads (mem : Nat → Nat) (a : Nat) : List Nat → Nat
  | [] => 1
  | x :: xs => if mem a = x then 1 + strcmpReads mem (a + 1) xs else 1

/-- `CONS_ESCAPE`, kernel/arch/x86/x86-qemu/cons.h 26. -/
def ESC : Nat := 255

/-- Number of bytes that `pok_cons_write` reads, kernel/arch/x86/x86-qemu/cons.c 157-190: `n` bytes are left
to write.  An escape character makes the loop look at the next byte, and at one more for a colour or a
position, without a test of the length. -/
def consReads (mem : Nat → Nat) (a : Nat) : Nat → Nat
  | 0 => 0
  | 1 =>
    if mem a = ESC then
      if mem (a + 1) = 2 ∨ mem (a + 1) = 3 ∨ mem (a + 1) = 4 then 3 else 2
    else 1
  | 2 =>
    if mem a = ESC then
      if mem (a + 1) = 2 ∨ mem (a + 1) = 3 ∨ mem (a + 1) = 4 then 3 else 2
    else 1 + consReads mem (a + 1) 1
  | n + 3 =>
    if mem a = ESC then
      if mem (a + 1) = 2 ∨ mem (a + 1) = 3 ∨ mem (a + 1) = 4 then 3 + consReads mem (a + 3) n
      else 2 + consReads mem (a + 2) (n + 1)
    else 1 + consReads mem (a + 1) (n + 2)

/-- `infos->base_addr + arg` in `uint32_t`. -/
def phys (c : SysCfg) (part a : Nat) : Nat := (a + c.base part) % U32

/-- The pointer check, kernel/core/syscall.c 52-57. -/
def chk (c : SysCfg) (part ptr size : Nat) : Bool := Ports.checkPtr c.p part ptr size

/-- `CHECK_PTR (…); …`. -/
def guard (b : Bool) (o : SysOut) : SysOut := if b then o else .reject .einval

/-- A case that is compiled in only with a feature; otherwise its number falls to the `default` case. -/
def feature (b : Bool) (o : SysOut) : SysOut := if b then o else .unknown

/-- The reads of a port name: it is compared with the names in the table (`pok_port_virtual_id`,
`pok_port_sampling_id`, `pok_port_queueing_id`: kernel/middleware/portvirtualid.c 29-46,
portsamplingid.c 24-40, portqueueingid.c 24-41; all of the table is taken to be compared). -/
def nameAcc (c : SysCfg) (s : Sys) (a : Nat) : List Access :=
  (List.range c.p.nbPorts).map fun i => ⟨false, a, strcmpReads s.mem a (c.p.name i)⟩

/-- The attributes of a thread, kernel/include/core/thread.h 68-77, offsets 0, 1, 4, 8, 16, 24. -/
def threadAttr (mem : Nat → Nat) (a : Nat) : ThreadAttr :=
  { priority := mem a % 256, affinity := mem (a + 1) % 256, entry := word mem (a + 4) 4,
    period := word mem (a + 8) 8, deadline := word mem (a + 16) 8, timeCapacity := word mem (a + 24) 8 }

/-- `pok_lockobj_kind_t` from its integer. -/
def lockKind (n : Nat) : LockKind :=
  if n = 1 then .mutex else if n = 2 then .semaphore else if n = 3 then .event else .other n

/-- The attributes of a lock object, kernel/include/core/lockobj.h 66-72, offsets 0, 4, 8, 12, 14. -/
def lockAttr (mem : Nat → Nat) (a : Nat) : LockAttr :=
  { kind := lockKind (word mem a 4)
    policy := match word mem (a + 4) 4 with | 0 => .standard | 1 => .pip | 2 => .pcp | _ => .other
    queueing := match word mem (a + 8) 4 with | 0 => .fifo | 1 => .priority | _ => .other
    initial := word mem (a + 12) 2
    max := word mem (a + 14) 2 }

/-- `pok_lockobj_operation_t` from its integer, kernel/include/core/lockobj.h 108-114. -/
def lockOpOf (n : Nat) : LockOp :=
  match n with | 1 => .lock | 2 => .unlock | 3 => .wait | 4 => .signal | 5 => .broadcast | _ => .other

/-- `pok_partition_mode_t` from its integer, kernel/include/core/partition.h 35-48. -/
def modeOf (n : Nat) : Mode :=
  match n with
  | 1 => .initCold | 2 => .initWarm | 3 => .normal | 4 => .idle | 5 => .restart | 6 => .stopped | n => .other n

/-- The bytes that a receiver's buffer gets: the buffer is cleared up to the size of the port, then the message
is copied; kernel/middleware/portqueueingreceive.c 36-40, 70-76, 103-118.  `out` is the result of the call. -/
def recvAcc (c : SysCfg) (s : Sys) (part now : Nat) (a : SysArgs) : List Access :=
  let id := a.a1 % 256
  ⟨true, phys c part a.a5, 4⟩ ::
    (if id < c.p.nbPorts then [⟨true, phys c part a.a4, min a.a3 (s.ports.P id).size⟩] else []) ++
    match Ports.queueingReceive c.p s.ports now part id a.a3 a.a2 with
    | some (_, _, bs) => [⟨true, phys c part a.a4, bs.length⟩]
    | none => []

/-- The bytes written by `pok_port_sampling_read`, kernel/middleware/portsamplingread.c 28-88. -/
def readAcc (c : SysCfg) (s : Sys) (part now : Nat) (a : SysArgs) : List Access :=
  ⟨true, phys c part a.a3, 4⟩ :: ⟨true, phys c part a.a4, 4⟩ ::
    match Ports.samplingRead c.p s.ports now part (a.a1 % 256) a.a2 with
    | some (_, _, out) => [⟨true, phys c part a.a2, out.bytes.length⟩]
    | none => []

/-- The reads of `pok_lockobj_partition_wrapper`, kernel/core/lockobj.c 380-427: the kind and the operation, and
for a lock or wait operation the lock kind and the timeout (offsets 0, 4, 8, 12 of `pok_lockobj_lockattr_t`,
kernel/include/core/lockobj.h 116-121; 20 bytes in all). -/
def lockOpAcc (s : Sys) (part id a : Nat) : List Access :=
  if id < (s.k.P part).lockLow ∨ id ≥ (s.k.P part).lockHigh then []
  else if (s.locks id).kind ≠ lockKind (word s.mem (a + 4) 4) then [⟨false, a + 4, 4⟩]
  else
    match lockOpOf (word s.mem a 4) with
    | .lock => [⟨false, a + 4, 4⟩, ⟨false, a, 4⟩, ⟨false, a + 8, 4⟩, ⟨false, a + 12, 8⟩]
    | .wait => [⟨false, a + 4, 4⟩, ⟨false, a, 4⟩, ⟨false, a + 12, 8⟩]
    | _ => [⟨false, a + 4, 4⟩, ⟨false, a, 4⟩]

/-- `POK_PORT_KIND_VIRTUAL`, kernel/include/middleware/port.h 42: the same value as for sampling ports. -/
def KIND_VIRTUAL : Nat := 2

/-- `RECV_BUF_SZ`, kernel/include/drivers/rtl8029.h 29-31. -/
def RECV_BUF_SZ : Nat := 20

/-- The bytes written by `rtl8029_read`, kernel/drivers/rtl8029.c 260-288. -/
def rtlReadLen (s : Sys) (port len : Nat) : Nat :=
  min (if len < s.rtlLen port then len else s.rtlLen port) RECV_BUF_SZ

/-- The number of bytes read by `rtl8029_write`, kernel/drivers/rtl8029.c 306-390, for a port of the caller
with at least one destination; otherwise nothing is read. -/
def rtlWriteLen (c : SysCfg) (part port len : Nat) : Nat :=
  if port < c.p.nbPorts ∧ c.p.owner port = part ∧ (c.p.dests port) ≠ [] then len else 0

/-- `pok_core_syscall`, kernel/core/syscall.c 65-476, for the call number `num` of partition `part`. -/
def coreSyscall (c : SysCfg) (s : Sys) (part now num : Nat) (a : SysArgs) : SysOut :=
  let f := c.feat
  let u := phys c part
  match num with
  -- 70-78 CONSWRITE
  | 10 => feature (f.console || f.debug) <| guard (chk c part a.a1 a.a2) <|
      .call (.consWrite (u a.a1) a.a2) [⟨false, u a.a1, consReads s.mem (u a.a1) a.a2⟩]
  -- 81-85 GETCHAR: the size checked is NULL
  | 11 => feature f.console <| guard (chk c part a.a1 0) <|
      .call (.getChar (u a.a1)) [⟨true, u a.a1, 1⟩]
  -- 137-142 GETTICK
  | 20 => feature f.gettick <| guard (chk c part a.a1 8) <| .call .getTick [⟨true, u a.a1, 8⟩]
  -- 145-153 THREAD_CREATE
  | 50 => guard (chk c part a.a1 4) <| guard (chk c part a.a2 40) <|
      .call (.kcall (.create (threadAttr s.mem (u a.a2)))) [⟨true, u a.a1, 4⟩, ⟨false, u a.a2, 40⟩]
  -- 156-166
  | 51 => feature f.sleepUntil <| .call (.kcall (.sleepUntil a.a1)) []
  | 52 => feature f.sleep <| .call (.kcall (.sleep a.a1)) []
  -- 168-169 SUSPEND: pok_thread_suspend is pok_sched_stop_self (kernel/core/thread.c 253-256)
  | 53 => .call (.kcall .stopSelf) []
  | 54 => .call (.kcall (.restartThread a.a1)) []
  | 55 => .call (.kcall (.stopThread a.a1)) []
  | 56 => .call (.kcall .endPeriod) []
  | 57 => .call (.kcall .stopSelf) []
  -- 172-175 THREAD_ID
  | 58 => feature f.threadId <| guard (chk c part a.a1 4) <| .call .threadId [⟨true, u a.a1, 4⟩]
  -- 177-181 THREAD_STATUS
  | 59 => guard (chk c part a.a2 40) <| .call (.threadStatus a.a1) [⟨true, u a.a2, 40⟩]
  | 60 => .call (.kcall (.setPriority a.a1 a.a2)) []
  | 61 => .call (.kcall (.resume a.a1)) []
  | 62 => .call (.kcall (.suspendTarget a.a1)) []
  | 65 => .call (.kcall (.delayedStart a.a1 a.a2)) []
  -- 259-306 sampling ports
  | 101 => feature f.sampling <| guard (chk c part a.a1 (c.maxName + 1)) <| guard (chk c part a.a2 1) <|
      .call (.portId KIND_SAMPLING (cString s.mem (u a.a1) (c.maxName + 1)))
        (⟨true, u a.a2, 1⟩ :: nameAcc c s (u a.a1))
  | 102 => feature f.sampling <| guard (chk c part a.a3 4) <| guard (chk c part a.a4 4) <|
      .call (.port (.samplingRead part (a.a1 % 256) a.a2)) (readAcc c s part now a)
  | 103 => feature (f.sampling && !f.generated) <| guard (chk c part a.a2 20) <|
      .call (.portStatus (a.a1 % 256)) [⟨true, u a.a2, 20⟩]
  | 104 => feature f.sampling <| guard (chk c part a.a2 a.a3) <|
      .call (.port (.samplingWrite part (a.a1 % 256) (bytes s.mem (u a.a2) (a.a3 % 256))))
        [⟨false, u a.a2, a.a3 % 256⟩]
  | 105 => feature f.sampling <| guard (chk c part a.a1 (c.maxName + 1)) <| guard (chk c part a.a5 1) <|
      .call (.port (.samplingCreate part (cString s.mem (u a.a1) (c.maxName + 1)) a.a2 (a.a3 % 256) a.a4))
        (⟨true, u a.a5, 1⟩ :: nameAcc c s (u a.a1))
  -- 310-356 queueing ports
  | 110 => feature f.queueing <| guard (chk c part a.a1 (c.maxName + 1)) <| guard (chk c part a.a5 1) <|
      .call (.port (.queueingCreate part (cString s.mem (u a.a1) (c.maxName + 1)) a.a2 (a.a3 % 256)
          (decide (a.a4 = 0))))
        (⟨true, u a.a5, 1⟩ :: nameAcc c s (u a.a1))
  | 111 => feature f.queueing <| guard (chk c part a.a2 a.a3) <|
      .call (.port (.send part (a.a1 % 256) (bytes s.mem (u a.a2) (a.a3 % 256)) a.a4))
        [⟨false, u a.a2, a.a3 % 256⟩]
  | 112 => feature f.queueing <| guard (chk c part a.a4 a.a3) <| guard (chk c part a.a5 4) <|
      .call (.port (.receive part (a.a1 % 256) a.a3 a.a2)) (recvAcc c s part now a)
  | 113 => feature f.queueing <| guard (chk c part a.a1 (c.maxName + 1)) <| guard (chk c part a.a2 1) <|
      .call (.portId KIND_QUEUEING (cString s.mem (u a.a1) (c.maxName + 1)))
        (⟨true, u a.a2, 1⟩ :: nameAcc c s (u a.a1))
  | 114 => feature (f.queueing && !f.generated) <| guard (chk c part a.a2 8) <|
      .call (.portStatus (a.a1 % 256)) [⟨true, u a.a2, 8⟩]
  -- 127-133 NODE_MAC_ADDR: the two sizes are swapped (six bytes are written to the second pointer)
  | 120 => feature f.mac <| guard (chk c part a.a1 6) <| guard (chk c part a.a2 4) <|
      .call .macAddr [⟨false, u a.a1, 1⟩, ⟨true, u a.a2, 6⟩]
  -- 89-123 virtual ports
  | 150 => feature f.virt <| guard (chk c part a.a1 (c.maxName + 1)) <| guard (chk c part a.a2 1) <|
      .call (.portId KIND_VIRTUAL (cString s.mem (u a.a1) (c.maxName + 1))) (⟨true, u a.a2, 1⟩ :: nameAcc c s (u a.a1))
  | 151 => feature f.virt <| guard (chk c part a.a2 4) <| .call (.virtualInfo (a.a1 % 256)) [⟨true, u a.a2, 4⟩]
  | 152 => feature f.virt <| guard (chk c part a.a3 4) <| .call (.virtualInfo (a.a1 % 256)) [⟨true, u a.a3, 4⟩]
  | 153 => feature f.virt <| guard (chk c part a.a2 1) <| .call (.virtualInfo (a.a1 % 256)) [⟨true, u a.a2, 1⟩]
  | 154 => feature f.virt <| guard (chk c part a.a2 4) <| .call (.virtualInfo a.a1) [⟨true, u a.a2, 1⟩]
  -- 360-378 lock objects
  | 201 => feature f.lockobj <| guard (chk c part a.a1 1) <| guard (chk c part a.a2 16) <|
      .call (.lockCreate (lockAttr s.mem (u a.a2))) [⟨true, u a.a1, 1⟩, ⟨false, u a.a2, 16⟩]
  | 202 => feature f.lockobj <|
      if a.a2 = 0 then
        -- the null pointer is passed on; it is dereferenced unless the identifier is out of range
        if a.a1 % 256 < (s.k.P part).lockLow ∨ a.a1 % 256 ≥ (s.k.P part).lockHigh then .reject .einval
        else .nullDeref
      else guard (chk c part a.a2 16) <|
        .call (.lockOp (a.a1 % 256) (lockKind (word s.mem (u a.a2 + 4) 4)) (lockOpOf (word s.mem (u a.a2) 4))
          (word s.mem (u a.a2 + 12) 8)) (lockOpAcc s part (a.a1 % 256) (u a.a2))
  -- 242-255 errors
  | 301 => .call (.kcall (.errorCreate a.a2 {})) []
  | 303 => guard (chk c part a.a1 a.a2) <|
      .call (.raise (bytes s.mem (u a.a1) a.a2) a.a2) [⟨false, u a.a1, min a.a2 MAX_MSG⟩]
  | 304 => guard (chk c part a.a1 268) <| .call .errorGet [⟨true, u a.a1, 268⟩]
  -- 203-240 partitions
  | 404 => .call (.kcall (.setMode (modeOf a.a1))) []
  | 405 => guard (chk c part a.a1 1) <| .call (.partitionGet 405) [⟨true, u a.a1, 1⟩]
  | 406 => guard (chk c part a.a1 8) <| .call (.partitionGet 406) [⟨true, u a.a1, 8⟩]
  | 407 => guard (chk c part a.a1 8) <| .call (.partitionGet 407) [⟨true, u a.a1, 8⟩]
  | 408 => guard (chk c part a.a1 4) <| .call (.partitionGet 408) [⟨true, u a.a1, 4⟩]
  | 409 => guard (chk c part a.a1 4) <| .call (.partitionGet 409) [⟨true, u a.a1, 4⟩]
  | 410 => guard (chk c part a.a1 4) <| .call (.partitionGet 410) [⟨true, u a.a1, 4⟩]
  -- 382-397 I/O ports
  | 501 => feature f.io <|
      if a.a1 < s.ioMin part ∨ a.a1 > s.ioMax part then .reject .eperm else .inb (a.a1 % 65536)
  | 502 => feature f.io <|
      if a.a1 < s.ioMin part ∨ a.a1 > s.ioMax part then .reject .eperm
      else .outb (a.a1 % 65536) (a.a2 % 256)
  -- 401-405 PCI_REGISTER
  | 601 => feature f.pci <| guard (chk c part a.a1 48) <|
      .call (.pciRegister (word s.mem (u a.a1 + 6) 2) (word s.mem (u a.a1 + 8) 2) (word s.mem (u a.a1 + 12) 2))
        [⟨true, u a.a1, 48⟩]
  -- 410-446 network card
  | 701 => feature (f.rtl || f.pci) <| guard (chk c part a.a2 4) <|
      .call (.rtl 701) [⟨true, u a.a2, rtlReadLen s (a.a1 % 256) a.a3⟩]
  | 702 => feature (f.rtl || f.pci) <| guard (chk c part a.a2 4) <|
      .call (.rtl 702) [⟨true, u a.a2, rtlReadLen s (a.a1 % 256) a.a3⟩]
  | 703 => feature (f.rtl || f.pci) <| guard (chk c part a.a2 4) <|
      .call (.rtl 703) [⟨false, u a.a2, rtlWriteLen c part (a.a1 % 256) a.a3⟩]
  | 704 => feature (f.rtl || f.pci) <| .call (.rtl 704) []
  | 705 => feature (f.rtl || f.pci) <| .call (.rtl 705) []
  | 706 => feature (f.rtl || f.pci) <| .call (.rtl 706) []
  -- 451-459 SHUTDOWN
  | 707 => feature f.shutdown <| if a.nargs ≠ 0 then .reject .einval else .call .shutdown []
  -- 469-472
  | _ => .unknown

/-- The block of arguments at a physical address, kernel/include/core/syscall.h 103-110. -/
def argsAt (mem : Nat → Nat) (b : Nat) : SysArgs :=
  { nargs := word mem b 4, a1 := word mem (b + 4) 4, a2 := word mem (b + 8) 4,
    a3 := word mem (b + 12) 4, a4 := word mem (b + 16) 4, a5 := word mem (b + 20) 4 }

/-- The system call gate, kernel/arch/x86/syscalls.c 32-66: the block of arguments (24 bytes at the address
`ebx`) is checked, then read.  The partition number comes from the code segment of the caller. -/
def gate (c : SysCfg) (s : Sys) (part now num ebx : Nat) : SysOut :=
  if Ports.checkPtr c.p part ebx 24 then
    coreSyscall c s part now num (argsAt s.mem (phys c part ebx))
  else .reject .einval

/-- `pci_register`, kernel/arch/x86/pci.c 87-101: the interval of the partition is set from the base register of
the device and from the range that the caller gives; the fields are `uint16_t`. -/
def pciRegister (c : SysCfg) (s : Sys) (part vendor device range : Nat) : Sys :=
  match c.pciBar vendor device with
  | none => s
  | some bar =>
    { s with ioMin := upd s.ioMin part ((bar - bar % 32) % 65536)
             ioMax := upd s.ioMax part ((bar - bar % 32 + range) % 65536) }

/-- The effect of what the dispatcher decided on the kernel, on processor `proc` at clock `now`; `none`: undefined
behaviour, or the system is stopped.  Blocking lock and port operations run up to their scheduling point. -/
def perform (c : SysCfg) (s : Sys) (proc now part : Nat) : SysOut → Option Sys
  | .reject _ => some s
  | .unknown =>
    (Kernel.raiseKind c.k c.act proc now s.k KIND_ILLEGAL).map fun k => { s with k := k }
  | .inb _ => some s
  | .outb _ _ => some s
  | .nullDeref => none
  | .call (.kcall call) _ => (Kernel.exec c.k proc now s.k call).map fun k => { s with k := k }
  | .call (.raise msg size) _ => some { s with k := Kernel.raiseApplication proc s.k msg size }
  | .call (.port op) _ => (s.ports.step c.p now op).map fun r => { s with ports := r.1 }
  | .call (.lockCreate a) _ =>
    some { s with locks := (lockPartitionCreate (s.k.P part).lockLow (s.k.P part).lockHigh (s.k.P part).mode
                              s.locks a).1 }
  | .call (.lockOp id kind op timeout) _ =>
    (lockPartitionWrapper c.k.nbThreads (s.k.P part).lockLow (s.k.P part).lockHigh s.k.T now s.locks
        (s.k.curThread proc) id kind op timeout).map fun r =>
      { s with k := { s.k with T := r.1 }, locks := r.2.1 }
  | .call (.pciRegister v d r) _ => some (pciRegister c s part v d r)
  | .call .shutdown _ => none
  | .call _ _ => some s

/-- The value returned to the caller when it is decided by the dispatcher itself (kernel/core/syscall.c 46-57,
385, 475); the services return their own codes. -/
def retCode : SysOut → Option Errno
  | .reject e => some e
  | .unknown => some .einval
  | _ => none

/-- A history of system calls: each entry gives the processor, the clock, the calling partition, the call number and
the address of the argument block; between two calls the partitions change memory (`mem`) as they like.  The
result is the final state and what each call did. -/
structure SysEv where
  proc : Nat
  now : Nat
  part : Nat
  num : Nat
  ebx : Nat
  mem : Nat → Nat

/-- Execution of a history of system calls. -/
def runCalls (c : SysCfg) : Sys → List SysEv → Option (Sys × List SysOut)
  | s, [] => some (s, [])
  | s, e :: es =>
    let s := { s with mem := e.mem }
    let o := gate c s e.part e.now e.num e.ebx
    match perform c s e.proc e.now e.part o with
    | none => none
    | some s =>
      match runCalls c s es with
      | none => none
      | some (s, os) => some (s, o :: os)

end Sys
end Pok
