import Verif.Model.LockObj

/-!
# Inter-partition ports

Model of kernel/middleware/port*.c and queueinit.c.  The configuration `PortCfg` stands for the tables that the
code generator writes in deployment.c (`pok_ports_names`, `pok_ports_kind`, `POK_CONFIG_PARTITIONS_PORTS`,
`pok_ports_by_partition`, `pok_ports_destinations`, `pok_global_ports_to_local_ports`) and for the sizes of the
partitions.

Simplifications:
* the lock object of a port is reduced to one bit: held or not.  Every call runs to its end or to its
  scheduling point without interleaving with another call (one processor; system calls are not preempted);
* a call that has to wait for its lock returns `blocked`, one that waits for the event of the port returns
  `waiting d` with the deadline given to the lock object;
* caller memory is not part of the state: bytes read are returned, bytes written are an argument;
* names are compared by equality (`strcmp` itself is modelled in `Verif.Model.Libc`);
* errors declared to the partition (`POK_ERROR_CURRENT_PARTITION`) are not part of the state of the ports.

`none` is undefined behaviour: an access outside the table of ports or outside `pok_queue_data`.
-/

namespace Pok

/-- Size of `pok_queue_data`, kernel/middleware/queueinit.c 20-24. -/
def QUEUE_SIZE : Nat := 1024
/-- `POK_PORT_MAX_SIZE`, kernel/include/middleware/port.h 29. -/
def PORT_MAX_SIZE : Nat := 512
/-- `POK_PORT_DIRECTION_IN`, kernel/include/middleware/port.h 32. -/
def DIR_IN : Nat := 1
/-- `POK_PORT_DIRECTION_OUT`, kernel/include/middleware/port.h 33. -/
def DIR_OUT : Nat := 2
/-- `POK_PORT_KIND_QUEUEING`, kernel/include/middleware/port.h 39. -/
def KIND_QUEUEING : Nat := 1
/-- `POK_PORT_KIND_SAMPLING`, kernel/include/middleware/port.h 40. -/
def KIND_SAMPLING : Nat := 2
/-- `POK_PORT_KIND_INVALID`, kernel/include/middleware/port.h 44. -/
def KIND_INVALID : Nat := 10
/-- `pok_port_t`, kernel/include/middleware/port.h 47-64 (without identifier and discipline, which nothing
reads; `locked` stands for the lock object). -/
structure Port where
  partition : Nat := 0
  index : Nat := 0
  full : Bool := false
  size : Nat := 0
  offB : Nat := 0
  offE : Nat := 0
  direction : Nat := 0
  ready : Bool := false
  empty : Bool := true
  kind : Nat := 10
  refresh : Nat := 0
  lastReceive : Nat := 0
  locked : Bool := false
  mustFlush : Bool := false
  deriving DecidableEq, Repr, Inhabited

/-- The generated tables (deployment.c; declared in kernel/middleware/portflushall.c 34-54 and
portsamplingid.c 21-22) and the partition sizes. -/
structure PortCfg where
  nbParts : Nat
  nbPorts : Nat
  /-- `POK_CONFIG_PARTITIONS_PORTS` -/
  owner : Nat → Nat
  /-- `pok_ports_kind` -/
  kindOf : Nat → Nat
  /-- `pok_ports_names` -/
  name : Nat → List Nat
  /-- `pok_ports_by_partition`, `pok_ports_nb_ports_by_partition` -/
  portsOf : Nat → List Nat
  /-- `pok_ports_destinations`, `pok_ports_nb_destinations` (global port numbers) -/
  dests : Nat → List Nat
  /-- `pok_global_ports_to_local_ports` -/
  toLocal : Nat → Nat
  /-- `pok_partitions[].size` -/
  psize : Nat → Nat

/-- `pok_ports`, `pok_queue.available_size`, `pok_queue_data`. -/
structure Ports where
  P : Nat → Port
  avail : Nat
  data : Nat → Nat

/-- State after `pok_port_init` and `pok_queue_init`, kernel/middleware/portinit.c 37-48, queueinit.c 22-26
(fields that are not set there are zero: static storage). -/
def Ports.init : Ports := { P := fun _ => {}, avail := QUEUE_SIZE, data := fun _ => 0 }

/-- Result of a port call. -/
inductive PRes
  | done (e : Errno)
  | blocked
  | waiting (deadline : Nat)
  deriving DecidableEq, Repr

namespace Ports

/-- Update of one port. -/
def setPort (s : Ports) (i : Nat) (p : Port) : Ports := { s with P := upd s.P i p }

/-- `memcpy` out of `pok_queue_data`: `n` bytes from offset `i`. -/
def readBytes (d : Nat → Nat) (i n : Nat) : Option (List Nat) :=
  if i + n ≤ QUEUE_SIZE then some ((List.range n).map fun k => d (i + k)) else none

/-- `memcpy` into `pok_queue_data` at offset `i`. -/
def writeBytes (d : Nat → Nat) (i : Nat) (bs : List Nat) : Option (Nat → Nat) :=
  if i + bs.length ≤ QUEUE_SIZE then
    some (fun j => if i ≤ j ∧ j < i + bs.length then bs.getD (j - i) 0 else d j)
  else none

/-- `pok_port_available_size`, kernel/middleware/portutils.c 34-44, in `uint32_t`. -/
def availableSize (p : Port) : Nat :=
  if p.full then 0
  else if p.offB < p.offE then (U32 + p.offB - p.offE) % U32
  else (p.size + p.offB - p.offE) % U32

/-- `pok_port_consumed_size`, kernel/middleware/portutils.c 46-56, in `uint32_t`. -/
def consumedSize (p : Port) : Nat :=
  if p.empty then 0
  else if p.offB < p.offE then p.offE - p.offB
  else (p.size + p.offE - p.offB) % U32

/-- The copy out of a queueing port, kernel/middleware/portutils.c 77-86. -/
def ringRead (d : Nat → Nat) (p : Port) (size : Nat) : Option (List Nat) :=
  if p.offB + size > p.size then
    match readBytes d (p.index + p.offB) (p.size - p.offB),
      readBytes d p.index (size - (p.size - p.offB)) with
    | some a, some b => some (a ++ b)
    | _, _ => none
  else readBytes d (p.index + p.offB) size

/-- Bookkeeping after reading `size` bytes, kernel/middleware/portutils.c 89-94. -/
def afterGet (p : Port) (size : Nat) : Port :=
  if (p.offB + size) % p.size = p.offE then
    { p with offB := (p.offB + size) % p.size, empty := true, full := false }
  else { p with offB := (p.offB + size) % p.size }

/-- Bookkeeping after writing `size` bytes, kernel/middleware/portutils.c 150-156. -/
def afterPut (p : Port) (size : Nat) : Port :=
  if (p.offE + size) % p.size = p.offB then
    { p with offE := (p.offE + size) % p.size, full := true, empty := false }
  else { p with offE := (p.offE + size) % p.size, empty := false }

/-- Bookkeeping after writing a sampling port, kernel/middleware/portutils.c 171-172. -/
def afterSample (p : Port) (now : Nat) : Port := { p with empty := false, lastReceive := now }

/-- The copy into a queueing port, kernel/middleware/portutils.c 138-148. -/
def ringWrite (d : Nat → Nat) (p : Port) (bs : List Nat) : Option (Nat → Nat) :=
  if p.offE + bs.length > p.size then
    match writeBytes d (p.index + p.offE) (bs.take (p.size - p.offE)) with
    | none => none
    | some d1 => writeBytes d1 p.index (bs.drop (p.size - p.offE))
  else writeBytes d (p.index + p.offE) bs

/-- `pok_port_get`, kernel/middleware/portutils.c 58-118.  The bytes copied to the caller are the last
component.  A queueing port of size 0 would divide by zero: `none`. -/
def portGet (s : Ports) (pid size : Nat) : Option (Ports × Errno × List Nat) :=
  let p := s.P pid
  if p.kind = KIND_QUEUEING then
    if p.empty then some (s, .einval, [])
    else if p.size < size then some (s, .size, [])
    else if p.size = 0 then none
    else
      match ringRead s.data p size with
      | none => none
      | some bs =>
        some (s.setPort pid (afterGet p size), .ok, bs)
  else if p.kind = KIND_SAMPLING then
    if p.empty then some (s, .empty, [])
    else if size > p.size then some (s, .size, [])
    else
      match readBytes s.data (p.index + p.offB) size with
      | none => none
      | some bs => some (s, .ok, bs)
  else some (s, .einval, [])

/-- `pok_port_write`, kernel/middleware/portutils.c 120-180; `bs` are the `size` bytes at `data`. -/
def portWrite (s : Ports) (now pid : Nat) (bs : List Nat) : Option (Ports × Errno) :=
  let p := s.P pid
  if p.kind = KIND_QUEUEING then
    if p.full then some (s, .size)
    else if bs.length > p.size then some (s, .size)
    else if p.size = 0 then none
    else
      match ringWrite s.data p bs with
      | none => none
      | some d =>
        some ({ s.setPort pid (afterPut p bs.length) with data := d }, .ok)
  else if p.kind = KIND_SAMPLING then
    if bs.length > p.size then some (s, .size)
    else
      match writeBytes s.data (p.index + p.offE) bs with
      | none => none
      | some d => some ({ s.setPort pid (afterSample p now) with data := d }, .ok)
  else some (s, .einval)

/-- `pok_own_port`, kernel/middleware/portutils.c 258-270.  Port number `nbPorts` passes the test of line 259
and reads one past the end of the table. -/
def ownPort (c : PortCfg) (part port : Nat) : Option Bool :=
  if port > c.nbPorts then some false
  else if port = c.nbPorts then none
  else some (decide (c.owner port = part))

/-- First port with a name and a kind: the loops of `pok_port_sampling_id`, `pok_port_queueing_id`,
kernel/middleware/portsamplingid.c 24-40, portqueueingid.c 24-41 (the loop index is a `uint8_t`: at most 255
ports, see `PortCfg.Ok`). -/
def findPort (c : PortCfg) (kind : Nat) (name : List Nat) : Option Nat :=
  (List.range c.nbPorts).find? fun i => decide (c.name i = name) && decide (c.kindOf i = kind)

/-- `pok_port_sampling_id` / `pok_port_queueing_id`: the return code and the value stored at `*id`. -/
def portId (c : PortCfg) (part kind : Nat) (name : List Nat) : Errno × Option Nat :=
  match findPort c kind name with
  | none => (.notfound, none)
  | some i => if c.owner i = part then (.ok, some i) else (.port, none)

/-- `pok_port_create`, kernel/middleware/portcreate.c 31-108, for the two kinds its callers pass. -/
def create (c : PortCfg) (s : Ports) (part kind : Nat) (name : List Nat) (size dir : Nat) :
    Option (Ports × Errno × Option Nat) :=
  if size > PORT_MAX_SIZE then some (s, .port, none)
  else if size > s.avail then some (s, .port, none)
  else if dir ≠ DIR_IN ∧ dir ≠ DIR_OUT then some (s, .port, none)
  else
    match portId c part kind name with
    | (.ok, some gid) =>
      match ownPort c part gid with
      | none => none
      | some false => some (s, .port, none)
      | some true =>
        if (s.P gid).ready then some (s, .exists_, some gid)
        else
          some ({ s.setPort gid { s.P gid with
              index := QUEUE_SIZE - s.avail, offB := 0, offE := 0, size := size, full := false,
              partition := part, direction := dir, ready := true, kind := kind } with
              avail := s.avail - size }, .ok, some gid)
    | (e, _) => some (s, e, none)

/-- `pok_port_queueing_create`, kernel/middleware/portqueueingcreate.c 25-64.  `fifo` says that the requested
discipline is FIFO.  Creating the lock object cannot fail (its kind and policy are constants). -/
def queueingCreate (c : PortCfg) (s : Ports) (part : Nat) (name : List Nat) (size dir : Nat) (fifo : Bool) :
    Option (Ports × Errno × Option Nat) :=
  if !fifo then some (s, .discipline, none)
  else
    match create c s part KIND_QUEUEING name size dir with
    | none => none
    | some (s1, .exists_, r) => some (s1, .ok, r)
    | some (s1, .ok, some g) => some (s1.setPort g { s1.P g with locked := false }, .ok, some g)
    | some (s1, e, r) => some (s1, e, r)

/-- `pok_port_sampling_create`, kernel/middleware/portsamplingcreate.c 25-45. -/
def samplingCreate (c : PortCfg) (s : Ports) (part : Nat) (name : List Nat) (size dir refresh : Nat) :
    Option (Ports × Errno × Option Nat) :=
  match create c s part KIND_SAMPLING name size dir with
  | none => none
  | some (s1, .ok, some g) =>
    some (s1.setPort g { s1.P g with refresh := refresh, lastReceive := 0, locked := false }, .ok, some g)
  | some (s1, e, r) => some (s1, e, r)

/-- `pok_port_sampling_write`, kernel/middleware/portsamplingwrite.c 39-76 (`data == NULL` cannot happen for a
pointer that passed the check of the system call). -/
def samplingWrite (c : PortCfg) (s : Ports) (now part id : Nat) (bs : List Nat) : Option (Ports × PRes) :=
  if id > c.nbPorts then some (s, .done .einval)
  else
    match ownPort c part id with
    | none => none
    | some false => some (s, .done .port)
    | some true =>
      if (s.P id).ready = false then some (s, .done .einval)
      else if bs.length > (s.P id).size then some (s, .done .einval)
      else if (s.P id).direction ≠ DIR_OUT then some (s, .done .direction)
      else if (s.P id).locked then some (s, .blocked)
      else
        match portWrite s now id bs with
        | none => none
        | some (s1, _) => some (s1.setPort id { s1.P id with mustFlush := true }, .done .ok)

/-- What a sampling read hands to the caller. -/
structure ReadOut where
  bytes : List Nat := []
  valid : Bool := false
  deriving DecidableEq, Repr

/-- `pok_check_ptr_in_partition`, kernel/include/core/partition.h 142-156. -/
def checkPtr (c : PortCfg) (pid ptr size : Nat) : Bool :=
  if pid ≥ c.nbParts then false
  else if size > c.psize pid then false
  else decide (ptr ≤ c.psize pid - size)

/-- `pok_port_sampling_read`, kernel/middleware/portsamplingread.c 28-88; `uptr` is the address of the data
buffer relative to the partition.  Line 61 takes the size of port number `part` instead of `id`; line 64
returns without releasing the lock. -/
def samplingRead (c : PortCfg) (s : Ports) (now part id uptr : Nat) : Option (Ports × PRes × ReadOut) :=
  if id > c.nbPorts then some (s, .done .einval, {})
  else
    match ownPort c part id with
    | none => none
    | some false => some (s, .done .port, {})
    | some true =>
      if (s.P id).ready = false then some (s, .done .port, {})
      else if (s.P id).kind ≠ KIND_SAMPLING then some (s, .done .einval, {})
      else if (s.P id).direction ≠ DIR_IN then some (s, .done .mode, {})
      else if (s.P id).locked then some (s, .blocked, {})
      else if part ≥ c.nbPorts then none
      else if checkPtr c part uptr (s.P part).size = false then
        some (s.setPort id { s.P id with locked := true }, .done .einval, {})
      else
        match portGet s id (s.P id).size with
        | none => none
        | some (s1, e, bs) =>
          if e = .empty then some (s1, .done .empty, {})
          else
            some (s1, .done .ok,
              { bytes := bs
                valid := decide (¬ ((s.P id).lastReceive + (s.P id).refresh) % U64 < now) })

/-- The loop and the rest of `pok_port_queueing_send`, kernel/middleware/portqueueingsend.c 83-104: the lock is
held on entry, `abs` is the deadline computed at line 80.  `waiting d` releases the lock (line 88). -/
def sendLoop (s : Ports) (now id : Nat) (bs : List Nat) (abs : Nat) : Option (Ports × PRes) :=
  if bs.length > availableSize (s.P id) then
    if abs = 0 then some (s, .done .full)
    else some (s, .waiting (LockObj.mkDeadline abs now))
  else
    match portWrite s now id bs with
    | none => none
    | some (s1, _) => some (s1.setPort id { s1.P id with mustFlush := true }, .done .ok)

/-- `pok_port_queueing_send`, kernel/middleware/portqueueingsend.c 30-106, with the deadline `abs` of line 80.
The same function stands for a caller that comes back from `pok_lockobj_eventwait` with success and goes on
with the loop: what it tested before the loop cannot have changed, so testing it again has no effect. -/
def sendAt (c : PortCfg) (s : Ports) (now part id : Nat) (bs : List Nat) (abs : Nat) :
    Option (Ports × PRes) :=
  if id > c.nbPorts then some (s, .done .einval)
  else if bs.length = 0 then some (s, .done .size)
  else
    match ownPort c part id with
    | none => none
    | some false => some (s, .done .port)
    | some true =>
      if (s.P id).ready = false then some (s, .done .port)
      else if bs.length > (s.P id).size then some (s, .done .size)
      else if (s.P id).direction ≠ DIR_OUT then some (s, .done .direction)
      else if (s.P id).partition ≠ part then some (s, .done .eperm)
      else if (s.P id).kind ≠ KIND_QUEUEING then some (s, .done .kind)
      else if (s.P id).locked then some (s, .blocked)
      else sendLoop s now id bs abs

/-- `pok_port_queueing_send` from its start. -/
def queueingSend (c : PortCfg) (s : Ports) (now part id : Nat) (bs : List Nat) (timeout : Nat) :
    Option (Ports × PRes) :=
  sendAt c s now part id bs (LockObj.mkDeadline timeout now)

/-- The loop and the rest of `pok_port_queueing_receive`, kernel/middleware/portqueueingreceive.c 91-120. -/
def recvLoop (s : Ports) (now id maxlen abs : Nat) : Option (Ports × PRes × List Nat) :=
  if (s.P id).empty then
    if abs = 0 then some (s, .done .empty, [])
    else some (s, .waiting (LockObj.mkDeadline abs now), [])
  else
    let clen := consumedSize (s.P id)
    let rlen := if maxlen > clen then clen else maxlen
    match portGet s id rlen with
    | none => none
    | some (s1, e, bs) => if e = .ok then some (s1, .done .ok, bs) else some (s1, .done .ok, [])

/-- `pok_port_queueing_receive`, kernel/middleware/portqueueingreceive.c 31-121, with the deadline `abs` of line
83; also a caller that comes back from `pok_lockobj_eventwait` (see `sendAt`).  The last component is the
message (`*len` is its length); zeroing of the caller's buffer is not modelled. -/
def receiveAt (c : PortCfg) (s : Ports) (now part id maxlen abs : Nat) :
    Option (Ports × PRes × List Nat) :=
  if maxlen = 0 then some (s, .done .einval, [])
  else if id > c.nbPorts then some (s, .done .einval, [])
  else
    match ownPort c part id with
    | none => none
    | some false => some (s, .done .port, [])
    | some true =>
      if (s.P id).ready = false then some (s, .done .port, [])
      else if (s.P id).kind ≠ KIND_QUEUEING then some (s, .done .kind, [])
      else if (s.P id).direction ≠ DIR_IN then some (s, .done .direction, [])
      else if (s.P id).locked then some (s, .blocked, [])
      else recvLoop s now id maxlen abs

/-- `pok_port_queueing_receive` from its start. -/
def queueingReceive (c : PortCfg) (s : Ports) (now part id maxlen timeout : Nat) :
    Option (Ports × PRes × List Nat) :=
  receiveAt c s now part id maxlen (LockObj.mkDeadline timeout now)

/-- Inner loop of `pok_port_flush_partition`, kernel/middleware/portflushall.c 94-113. -/
def flushDests (c : PortCfg) (now : Nat) (bs : List Nat) : List Nat → Ports → Option Ports
  | [], s => some s
  | g :: gs, s =>
    let d := c.toLocal g
    if d ≥ c.nbPorts then none
    else if (s.P d).ready = false then flushDests c now bs gs s
    else if (s.P d).direction ≠ DIR_IN then flushDests c now bs gs s
    else
      match portWrite s now d bs with
      | none => none
      | some (s1, _) => flushDests c now bs gs s1

/-- One turn of the outer loop, kernel/middleware/portflushall.c 71-121. -/
def flushPort (c : PortCfg) (now : Nat) (s : Ports) (l : Nat) : Option Ports :=
  if l ≥ c.nbPorts then none
  else if (s.P l).direction ≠ DIR_OUT then some s
  else if (s.P l).empty then some s
  else if (s.P l).mustFlush = false then some s
  else
    match portGet s l (consumedSize (s.P l)) with
    | none => none
    | some (s1, e, bs) =>
      if e ≠ .ok then some s1
      else
        match flushDests c now bs (c.dests l) s1 with
        | none => none
        | some s2 => some (s2.setPort l { s2.P l with mustFlush := false })

/-- Outer loop over a list of ports, kernel/middleware/portflushall.c 71. -/
def flushList (c : PortCfg) (now : Nat) : List Nat → Ports → Option Ports
  | [], s => some s
  | l :: ls, s =>
    match flushPort c now s l with
    | none => none
    | some s1 => flushList c now ls s1

/-- `pok_port_flush_partition`, kernel/middleware/portflushall.c 59-122. -/
def flushPartition (c : PortCfg) (now pid : Nat) (s : Ports) : Option Ports :=
  flushList c now (c.portsOf pid) s

/-- `pok_port_flushall`, kernel/middleware/portflushall.c 128-136, over the partitions `ps` that are in mode
NORMAL or IDLE. -/
def flushAll (c : PortCfg) (now : Nat) : List Nat → Ports → Option Ports
  | [], s => some s
  | p :: ps, s =>
    match flushPartition c now p s with
    | none => none
    | some s1 => flushAll c now ps s1

/-- `pok_port_transfer`, kernel/middleware/portutils.c 187-252 (no caller in this commit). -/
def transfer (s : Ports) (dst src : Nat) : Option (Ports × Errno) :=
  let d := s.P dst
  let r := s.P src
  if r.empty then some (s, .empty)
  else if r.kind ≠ KIND_QUEUEING ∧ r.size ≠ d.size then some (s, .size)
  else if r.kind = KIND_QUEUEING ∧ consumedSize r = 0 then some (s, .size)
  else
    let len :=
      if r.kind = KIND_QUEUEING then
        (if availableSize d > consumedSize r then consumedSize r else availableSize d)
      else r.size
    if len = 0 then some (s, .size)
    else
      match readBytes s.data (r.index + r.offB) len with
      | none => none
      | some bs =>
        match writeBytes s.data (d.index + d.offE) bs with
        | none => none
        | some m =>
          let s1 : Ports := { s with data := m }
          let s2 := if r.kind = KIND_QUEUEING then
              let s3 := s1.setPort dst { d with offE := (d.offE + len) % d.size }
              let r1 : Port := { s3.P src with offB := ((s3.P src).offB + len) % (s3.P src).size }
              s3.setPort src (if r1.offB = r1.offE then { r1 with empty := true, full := false } else r1)
            else s1.setPort src { s1.P src with empty := true }
          let s4 := s2.setPort src { s2.P src with full := false }
          some (s4.setPort dst { s4.P dst with empty := false }, .ok)

end Ports

/-! ## Histories -/

/-- Calls to the port service, with the calling partition where there is one. -/
inductive PortOp
  | queueingCreate (part : Nat) (name : List Nat) (size dir : Nat) (fifo : Bool)
  | samplingCreate (part : Nat) (name : List Nat) (size dir refresh : Nat)
  | samplingWrite (part id : Nat) (bs : List Nat)
  | samplingRead (part id uptr : Nat)
  | send (part id : Nat) (bs : List Nat) (timeout : Nat)
  | receive (part id maxlen timeout : Nat)
  /-- a sender that waited with deadline `abs` goes on -/
  | sendResume (part id : Nat) (bs : List Nat) (abs : Nat)
  /-- a receiver that waited with deadline `abs` goes on -/
  | receiveResume (part id maxlen abs : Nat)
  | flushPartition (pid : Nat)
  | flushAll (running : List Nat)
  deriving Repr

/-- What the caller sees: result, message, validity, identifier. -/
structure PortOut where
  res : PRes := .done .ok
  bytes : List Nat := []
  valid : Bool := false
  id : Option Nat := none
  deriving DecidableEq, Repr

/-- One call at clock value `now`.  Lengths pass through the system call, kernel/core/syscall.c 269-274 and
323-329, which casts them to `uint8_t`: the bytes beyond `length % 256` are not passed on. -/
def Ports.step (c : PortCfg) (s : Ports) (now : Nat) : PortOp → Option (Ports × PortOut)
  | .queueingCreate part name size dir fifo =>
    (Ports.queueingCreate c s part name size dir fifo).map fun r => (r.1, { res := .done r.2.1, id := r.2.2 })
  | .samplingCreate part name size dir refresh =>
    (Ports.samplingCreate c s part name size dir refresh).map fun r => (r.1, { res := .done r.2.1, id := r.2.2 })
  | .samplingWrite part id bs =>
    (Ports.samplingWrite c s now part id (bs.take (bs.length % 256))).map fun r => (r.1, { res := r.2 })
  | .samplingRead part id uptr =>
    (Ports.samplingRead c s now part id uptr).map fun r =>
      (r.1, { res := r.2.1, bytes := r.2.2.bytes, valid := r.2.2.valid })
  | .send part id bs timeout =>
    (Ports.queueingSend c s now part id (bs.take (bs.length % 256)) timeout).map fun r => (r.1, { res := r.2 })
  | .receive part id maxlen timeout =>
    (Ports.queueingReceive c s now part id maxlen timeout).map fun r => (r.1, { res := r.2.1, bytes := r.2.2 })
  | .sendResume part id bs abs =>
    (Ports.sendAt c s now part id (bs.take (bs.length % 256)) abs).map fun r => (r.1, { res := r.2 })
  | .receiveResume part id maxlen abs =>
    (Ports.receiveAt c s now part id maxlen abs).map fun r => (r.1, { res := r.2.1, bytes := r.2.2 })
  | .flushPartition pid => (Ports.flushPartition c now pid s).map fun r => (r, {})
  | .flushAll running => (Ports.flushAll c now running s).map fun r => (r, {})

/-- A history: calls with their clock values; the result is the final state and what each caller saw. -/
def Ports.run (c : PortCfg) : List (Nat × PortOp) → Ports → Option (Ports × List PortOut)
  | [], s => some (s, [])
  | (now, op) :: rest, s =>
    match s.step c now op with
    | none => none
    | some (s1, o) =>
      match Ports.run c rest s1 with
      | none => none
      | some (s2, os) => some (s2, o :: os)

end Pok
