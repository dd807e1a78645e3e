import Verif.Model.Basic

/-!
Model of the start of the processors of an x86 machine: kernel/arch/x86/multiprocessing.c, ap.c, start_ap.S and the
sending half of ipi.c.

Simplifications: addresses do not wrap at 4 GB; the delays, the start-up messages themselves, the copy of the real mode
code and the enabling of the interrupt controller are left out; the debug output is left out.
-/

namespace Pok
namespace Mp

/-- Memory, by bytes. -/
abbrev Mem := Nat → Nat

/-- A 16-bit word in memory, lowest byte first. -/
def u16 (m : Mem) (a : Nat) : Nat := m a + 256 * m (a + 1)

/-- A 32-bit word in memory, lowest byte first. -/
def u32 (m : Mem) (a : Nat) : Nat := m a + 256 * m (a + 1) + 65536 * m (a + 2) + 16777216 * m (a + 3)

/-- Store of a 32-bit word. -/
def st32 (m : Mem) (a v : Nat) : Mem := fun x =>
  if x = a then v % 256 else if x = a + 1 then v / 256 % 256 else if x = a + 2 then v / 65536 % 256
  else if x = a + 3 then v / 16777216 % 256 else m x

/-- The test for `_MP_`, kernel/arch/x86/multiprocessing.c 118-119, 132-133. -/
def sigAt (m : Mem) (a : Nat) : Bool := m a == 95 && m (a + 1) == 77 && m (a + 2) == 80 && m (a + 3) == 95

/-- The address of the EBDA, multiprocessing.c 109-111; `BDA` is 0x400, kernel/include/arch/x86/multiprocessing.h 27. -/
def ebda (m : Mem) : Nat :=
  let a := 256 * m 0x40F + m 0x40E
  if a < 0x80000 then a * 16 else a

/-- `search_mp_ebda`, multiprocessing.c 106-123: it returns the offset in the EBDA, 0 if nothing is found. -/
def searchEbda (m : Mem) : Nat :=
  if ebda m = 0 then 0 else ((List.range 1021).find? fun i => sigAt m (ebda m + i)).getD 0

/-- `search_mp_bios`, multiprocessing.c 130-137; `BIOS` is 0xF0000, multiprocessing.h 28. -/
def searchBios (m : Mem) : Nat :=
  (((List.range (0xFFFF - 3)).find? fun i => sigAt m (0xF0000 + i)).map (0xF0000 + ·)).getD 0

/-- The loop over the entries of the table, multiprocessing.c 241-280: `n` entries left, the next one at `a`, `en`
processors enabled and `pn` processors found so far.  An enabled I/O APIC entry is itself overwritten,
`io_apic_entry_handler`, multiprocessing.c 156-172: lines 163 and 167 store 0x14 at the address of the entry (the
increment of line 165 is debug code).  `none` is the assertion of line 277.  Simplified: the number of entries is read
once, at the start; the code reads it in every round. -/
def walk (m : Mem) (a en pn : Nat) : Nat → Option (Mem × Nat × Nat)
  | 0 => some (m, en, pn)
  | n + 1 =>
    if m a = 0 then walk m (a + 20) (en + m (a + 3) % 2) (pn + 1) n
    else if m a = 1 then walk m (a + 8) en pn n
    else if m a = 2 then
      if m (a + 3) ≠ 0 then walk (st32 (st32 m a 0x14) a 0x14) (a + 8) en pn n else walk m (a + 8) en pn n
    else if m a = 3 then walk m (a + 8) en pn n
    else if m a = 4 then walk m (a + 8) en pn n
    else none

/-- What `pok_multiprocessing_init` leaves. -/
structure Result where
  mem : Mem
  /-- `multiprocessing_system` -/
  multi : Nat
  /-- `lapic_address` -/
  lapic : Nat

/-- `pok_multiprocessing_init`, multiprocessing.c 235-286, with the floating structure taken to be at `mp` and `nb` the
number of configured processors.  The table is at the address in the second word of the structure, its entries after
its header of 44 bytes, their number in bytes 34 and 35, the address of the interrupt controller in bytes 36 to 39
(multiprocessing.h 32-58).  `none` is a failed assertion, lines 277, 282 and 286. -/
def fromStruct (nb : Nat) (m : Mem) (mp : Nat) : Option Result :=
  (walk m (u32 m (mp + 4) + 44) 0 0 (u16 m (u32 m (mp + 4) + 34))).bind fun r =>
    if r.2.2 ≤ nb then
      if r.2.1 % 256 = nb then some ⟨r.1, r.2.1 % 256, u32 r.1 (u32 r.1 (mp + 4) + 36)⟩ else none
    else none

/-- `pok_multiprocessing_init`, multiprocessing.c 226-286.  Line 40: `multiprocessing_system` is 0 at first. -/
def init (nb : Nat) (m : Mem) : Option Result :=
  let mp := if searchEbda m = 0 then searchBios m else searchEbda m
  if mp = 0 then some ⟨m, 0, 0⟩ else fromStruct nb m mp

/-! ### The other processors -/

/-- The variables of kernel/arch/x86/multiprocessing.c 36-38: `proc_index` by number of the interrupt controller,
`incr_var`, the counters `spinlocks`. -/
structure Cores where
  idx : Nat → Nat
  incr : Nat
  locks : Nat → Int

/-- What the first processor, whose interrupt controller has number `bsp`, does before it starts the others,
multiprocessing.c 295-299 and `setup_test`, 98; `none` is a store outside `proc_index`. -/
def first (nb bsp : Nat) (s : Cores) : Option Cores :=
  if bsp < nb then some { idx := upd s.idx bsp 0, incr := 1, locks := fun i => if i < nb then 0 else s.locks i } else none

/-- `SPIN_LOCK` and `SPIN_UNLOCK` count on the current processor, kernel/include/arch/x86/spinlock.h 24-43. -/
def Cores.count (s : Cores) (i : Nat) (d : Int) : Cores := { s with locks := upd s.locks i (s.locks i + d) }

/-- `main_ap` of the processor with interrupt controller `l`, kernel/arch/x86/ap.c 33-38, from the moment it gets the
lock until it returns it.  The processors get the lock one after the other (C52 for the lock itself).  `none` is an
access outside `proc_index` or `spinlocks`, or the assertion of spinlock.h 27. -/
def arrive (nb : Nat) (s : Cores) (l : Nat) : Option Cores :=
  if l < nb ∧ s.idx l < nb then
    let s := s.count (s.idx l) 1
    let s := { s with idx := upd s.idx l s.incr, incr := (s.incr + 1) % 256 }
    let s := s.count 0 (-1)
    if s.idx l < nb then
      let s := s.count (s.idx l) 1
      if s.locks (s.idx l) = 0 then none else some (s.count (s.idx l) (-1))
    else none
  else none

/-- All the others arrive, in this order. -/
def arriveAll (nb : Nat) (s : Cores) : List Nat → Option Cores
  | [] => some s
  | l :: ls => (arrive nb s l).bind fun s => arriveAll nb s ls

/-- The whole start, multiprocessing.c 292-307, with `enabled` processors in the table: the assertion of line 307 at
the end.  Before it, the variables are zero (they are not initialised explicitly). -/
def startAll (nb enabled bsp : Nat) (aps : List Nat) : Option Cores :=
  (first nb bsp { idx := fun _ => 0, incr := 0, locks := fun _ => 0 }).bind fun s =>
    (arriveAll nb s aps).bind fun s => if s.incr = enabled then some s else none

/-- `STACK_SIZE`, kernel/arch/x86/start_ap.S 1. -/
def STACK_SIZE : Nat := 0x4000

/-- The initial stack pointer of the processor with interrupt controller `l`, start_ap.S 39-47 and 56; `base` is the
address of `pok_stack`. -/
def apStack (base l : Nat) : Nat := l * STACK_SIZE + (base + STACK_SIZE)

/-- The initial stack pointer of the first processor, kernel/arch/x86/x86-qemu/entry.S 16-17. -/
def bspStack (base : Nat) : Nat := base + STACK_SIZE

/-! ### Requests to other processors -/

/-- `pok_send_ipi`, kernel/arch/x86/ipi.c 53-59: the two words stored in the interrupt controller at 0x310 and 0x300. -/
def sendIpi (group dest int : Nat) : Nat × Nat := (dest * 2 ^ 24, 0x4000 + int + group * 2 ^ 18)

/-- `IPI_NOGROUP` and `IPI_ALL_WITHOUT_SELF`, kernel/include/arch/x86/ipi.h 21, 24. -/
def IPI_NOGROUP : Nat := 0
@[inherit_doc IPI_NOGROUP] def IPI_ALL_WITHOUT_SELF : Nat := 3
/-- `POK_IPI_GLOBAL_SCHED_INT_NUMBER` and `POK_IPI_SCHED_THREAD_INT_NUMBER`, ipi.h 18-19. -/
def IPI_GLOBAL_SCHED : Nat := 34
@[inherit_doc IPI_GLOBAL_SCHED] def IPI_SCHED_THREAD : Nat := 35

/-- `pok_send_schedule_thread`, multiprocessing.c 56-58. -/
def sendScheduleThread (dest : Nat) : Nat × Nat := sendIpi IPI_NOGROUP dest IPI_SCHED_THREAD
/-- `pok_send_schedule_thread_other_processors`, multiprocessing.c 60-62. -/
def sendScheduleOthers : Nat × Nat := sendIpi IPI_ALL_WITHOUT_SELF 0 IPI_SCHED_THREAD
/-- `pok_send_global_schedule_thread`, multiprocessing.c 52-54. -/
def sendGlobalSchedule : Nat × Nat := sendIpi IPI_ALL_WITHOUT_SELF 0 IPI_GLOBAL_SCHED

/-- `pok_get_proc_id` on a multiprocessor, multiprocessing.c 48-50. -/
def procId (s : Cores) (l : Nat) : Nat := s.idx l

/-- `pok_threads_schedule_one_proc` on a multiprocessor, kernel/core/sched.c 425-430, called on the processor with
interrupt controller `self`: `none` if it elects itself, otherwise the message it sends. -/
def scheduleOne (s : Cores) (self dest : Nat) : Option (Nat × Nat) :=
  if dest = procId s self then none else some (sendScheduleThread dest)

end Mp
end Pok
