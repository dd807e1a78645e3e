import Verif.Model.Basic

/-!
# x86: segments, address spaces, boot memory, user stacks, console, timer

Model of kernel/arch/x86/gdt.c, kernel/arch/x86/space.c, kernel/arch/x86/arch.c and, in kernel/arch/x86/x86-qemu, pm.c,
cons.c and pit.c.  Machine words are natural numbers; the reductions modulo 2^32 are written where the code can reach
them.
-/

namespace Pok.X86

/-- `uint32_t` arithmetic. -/
abbrev U32 : Nat := 4294967296

/-! ## Segments -/

/-- `gdt_entry_t`, kernel/arch/x86/gdt.h 27-39 (a bit field is written modulo its width; `available` and `op_size` are left
out). -/
structure Desc where
  limitLow : Nat := 0
  limitHigh : Nat := 0
  granularity : Bool := false
  baseLow : Nat := 0
  baseHigh : Nat := 0
  type : Nat := 0
  dpl : Nat := 0
  s : Bool := false
  present : Bool := false
deriving DecidableEq, Repr

/-- `pok_gdt`, kernel/arch/x86/gdt.c 24-26. -/
abbrev Gdt := Nat → Desc

/-- `GDT_SIZE`, kernel/arch/x86/gdt.c 24. -/
def gdtSize : Nat := 256

/-- `GDTE_CODE`, kernel/arch/x86/gdt.h 21. -/
def typeCode : Nat := 0xB
/-- `GDTE_DATA`, kernel/arch/x86/gdt.h 22. -/
def typeData : Nat := 0x3

/-- A store in the table; `none` out of its bounds. -/
def put (g : Gdt) (i : Nat) (d : Desc) : Option Gdt := if i < gdtSize then some (upd g i d) else none

/-- `gdt_set_segment`, kernel/arch/x86/gdt.c 82-106. -/
def setSegment (g : Gdt) (i base limit type dpl : Nat) : Option Gdt :=
  let d := g i
  let d := if limit > 1048576
    then { d with limitLow := limit / 4096 % 65536, limitHigh := limit / 268435456 % 16, granularity := true }
    else { d with limitLow := limit % 65536, limitHigh := limit / 65536 % 256 % 16, granularity := false }
  put g i { d with baseLow := base % 16777216, baseHigh := base / 16777216 % 256, type := type % 16, dpl := dpl % 4, s := true, present := true }

/-- `gdt_enable` and `gdt_disable`, kernel/arch/x86/gdt.c 124-126. -/
def setPresent (g : Gdt) (i : Nat) (b : Bool) : Option Gdt := put g i { g i with present := b }

/-- `GDT_PARTITION_CODE_SEGMENT`, kernel/arch/x86/gdt.h 54-55; `nproc` is `POK_CONFIG_NB_PROCESSORS`. -/
def codeSeg (nproc pid : Nat) : Nat := 3 + nproc + 2 * pid
/-- `GDT_PARTITION_DATA_SEGMENT`, kernel/arch/x86/gdt.h 56-57. -/
def dataSeg (nproc pid : Nat) : Nat := 3 + nproc + 2 * pid + 1

/-- `pok_create_space`, kernel/arch/x86/space.c 37-45. -/
def createSpace (nproc : Nat) (g : Gdt) (pid addr size : Nat) : Option Gdt :=
  (setSegment g (codeSeg nproc pid) addr size typeCode 3).bind fun g => setSegment g (dataSeg nproc pid) addr size typeData 3

/-- `pok_space_switch`, kernel/arch/x86/space.c 47-54. -/
def spaceSwitch (nproc : Nat) (g : Gdt) (old new : Nat) : Option Gdt :=
  (setPresent g (codeSeg nproc old) false).bind fun g => (setPresent g (dataSeg nproc old) false).bind fun g =>
    (setPresent g (codeSeg nproc new) true).bind fun g => setPresent g (dataSeg nproc new) true

/-! ## Switching address spaces while scheduling -/

/-- What the scheduler knows: the table, `POK_SCHED_CURRENT_PARTITION` and the partition field of the current thread of the
processor that runs the timer. -/
structure Run where
  gdt : Gdt
  cur : Nat
  thr : Nat

/-- One scheduling decision.  `round p t`: a timer quantum elects partition `p` and a thread whose partition field is `t`;
`local t`: a thread switch inside the window, to a thread whose partition field is `t`. -/
inductive Elect where
  | round (p t : Nat)
  | within (t : Nat)

/-- The effect on address spaces of `pok_global_sched` (kernel/core/sched.c 308-345, 349-378) and of
`pok_sched_context_switch` (kernel/core/sched.c 382-410): the switch is made when the partition changes, between the
partition fields of the current and the elected thread.  The idle threads' partition field is never written
(kernel/core/thread.c 68-87), it is 0. -/
def Run.step (nproc : Nat) (r : Run) : Elect → Option Run
  | .round p t =>
    if p ≠ r.cur then (spaceSwitch nproc r.gdt r.thr t).map fun g => ⟨g, p, t⟩
    else some ⟨r.gdt, p, t⟩
  | .within t => some { r with thr := t }

/-- A sequence of decisions. -/
def Run.steps (nproc : Nat) (r : Run) : List Elect → Option Run
  | [] => some r
  | e :: es => (r.step nproc e).bind fun r => Run.steps nproc r es

/-- The spaces made by `pok_partition_init`, kernel/core/partition.c 150-173: partition `i` of size `size i` is placed after the
ones before it. -/
def createAll (nproc : Nat) (addr size : Nat → Nat) : Nat → Gdt → Option Gdt
  | 0, g => some g
  | n + 1, g => (createAll nproc addr size n g).bind fun g => createSpace nproc g n (addr n) (size n)

/-! ## Boot memory and stacks -/

/-- The break, kernel/arch/x86/x86-qemu/pm.c 34-36. -/
structure Pm where
  start : Nat
  brk : Nat
  stop : Nat
deriving DecidableEq, Repr

/-- `pok_pm_init`, kernel/arch/x86/x86-qemu/pm.c 38-57 (without `POK_NEEDS_DMA`); `endAddr` is the address of `__pok_end`,
`memUpper` the kilobytes of memory reported by the boot loader. -/
def pmInit (endAddr memUpper : Nat) : Pm :=
  let free := (endAddr + 4095) % U32 / 4096 * 4096
  ⟨free, free, memUpper * 1024 % U32⟩

/-- `pok_pm_sbrk`, kernel/arch/x86/x86-qemu/pm.c 62-70: the address returned and the new state. -/
def sbrk (p : Pm) (n : Nat) : Nat × Pm := (p.brk, { p with brk := (p.brk + n) % U32 })

/-- A sequence of requests: the regions handed out, and the final state. -/
def sbrks (p : Pm) : List Nat → List (Nat × Nat) × Pm
  | [] => ([], p)
  | n :: ns =>
    let (a, p) := sbrk p n
    let (rs, p) := sbrks p ns
    ((a, n) :: rs, p)

/-- `pok_thread_stack_addr`, kernel/arch/x86/arch.c 59-63: `size` is the size of the partition, `stack` is
`POK_USER_STACK_SIZE`. -/
def stackAddr (size stack i : Nat) : Nat := (size + 2 * U32 - 4 - i * stack % U32) % U32

/-! ## Console -/

/-- `struct s_cons` (kernel/arch/x86/x86-qemu/cons.h) and the video memory.  The cursor fields are `char`s; they are natural
numbers here, their values are never negative. -/
structure Cons where
  vga : Nat → Nat
  row : Nat
  col : Nat
  attr : Nat

/-- `screen_w`, `screen_h`, kernel/arch/x86/x86-qemu/cons.c 31-32. -/
def screenW : Nat := 80
def screenH : Nat := 25

/-- A store in the video memory of the screen (80 × 25 cells of two bytes); `none` outside. -/
def vput (v : Nat → Nat) (i b : Nat) : Option (Nat → Nat) := if i < 4000 then some (upd v i b) else none

/-- The forward copy of `memcpy` (kernel/libc/memcpy.c 17-34; `rep movs` copies forward), by bytes, from `src` to `dst` inside
the video memory, `n` bytes starting at the `i`-th. -/
def vcopy (dst src : Nat) : Nat → Nat → (Nat → Nat) → Option (Nat → Nat)
  | 0, _, v => some v
  | n + 1, i, v => if src + i < 4000 then (vput v (dst + i) (v (src + i))).bind (vcopy dst src n (i + 1)) else none

/-- The loop that blanks the last row, kernel/arch/x86/x86-qemu/cons.c 105-109. -/
def vblank (attr : Nat) : Nat → Nat → (Nat → Nat) → Option (Nat → Nat)
  | 0, _, v => some v
  | n + 1, i, v =>
    (vput v (2 * screenW * (screenH - 1) + 2 * i) 0).bind fun v =>
      (vput v (2 * screenW * (screenH - 1) + 2 * i + 1) attr).bind (vblank attr n (i + 1))

/-- `pok_cons_print_char`, kernel/arch/x86/x86-qemu/cons.c 61-116 (the serial line left out). -/
def printChar (s : Cons) (c : Nat) : Option Cons :=
  let s := if c = 13 then { s with col := 0 } else s
  let s := if c = 10 then { s with col := 0, row := s.row + 1 } else s
  let s := if c = 9 then { s with col := s.col + (8 - s.col % 8) } else s
  let s' := if c ≠ 13 ∧ c ≠ 10 ∧ c ≠ 9
    then (vput s.vga (2 * screenW * s.row + 2 * s.col) c).bind fun v =>
      (vput v (2 * screenW * s.row + 2 * s.col + 1) s.attr).map fun v => { s with vga := v, col := s.col + 1 }
    else some s
  s'.bind fun s =>
    let s := if s.col ≥ screenW then { s with col := 0, row := s.row + 1 } else s
    if s.row ≥ screenH then
      (vcopy 0 (2 * screenW) ((screenH - 1) * screenW * 2) 0 s.vga).bind fun v =>
        (vblank s.attr screenW 0 v).map fun v => { s with vga := v, row := screenH - 1 }
    else some s

/-- The loops of `pok_cons_clear`, kernel/arch/x86/x86-qemu/cons.c 134-141: `n` cells from the `i`-th. -/
def vclear (attr : Nat) : Nat → Nat → (Nat → Nat) → Option (Nat → Nat)
  | 0, _, v => some v
  | n + 1, i, v => (vput v (2 * i) 0).bind fun v => (vput v (2 * i + 1) attr).bind (vclear attr n (i + 1))

/-- `pok_cons_clear`, kernel/arch/x86/x86-qemu/cons.c 124-147. -/
def consClear (s : Cons) : Option Cons :=
  (vclear s.attr (screenH * screenW) 0 s.vga).map fun v => { s with vga := v, row := 0, col := 0 }

/-- `pok_cons_write`, kernel/arch/x86/x86-qemu/cons.c 151-191: the number of characters printed and the new state.  `none`
when an escape sequence is cut by the end of the buffer (the code then reads after it). -/
def consWrite (s : Cons) (res : Nat) : List Nat → Option (Nat × Cons)
  | [] => some (res, s)
  | 255 :: 1 :: rest => (consClear s).bind fun s => consWrite s res rest
  | 255 :: 2 :: a :: rest => consWrite { s with attr := a } res rest
  | 255 :: 4 :: y :: rest => consWrite { s with row := y % screenH } res rest
  | 255 :: 3 :: x :: rest => consWrite { s with col := x % screenW } res rest
  | [255] => none
  | [255, 2] => none
  | [255, 4] => none
  | [255, 3] => none
  | 255 :: c :: rest => (printChar s c).bind fun s => consWrite s (res + 1) rest
  | c :: rest => (printChar s c).bind fun s => consWrite s (res + 1) rest

/-! ## Timer -/

/-- The constants of kernel/arch/x86/x86-qemu/pit.c 26-38. -/
def oscillator : Nat := 1193182
def nsSecond : Nat := 1000000000

structure Pit where
  increment : Nat
  quantum : Nat
  counter : Nat      -- quantum_counter, uint32_t
  clock : Nat        -- pok_tick_counter, uint64_t
  rounds : Nat       -- calls to pok_global_sched
deriving DecidableEq, Repr

/-- `pok_x86_qemu_timer_init`, kernel/arch/x86/x86-qemu/pit.c 56-76, for the configured frequencies
`POK_TIMER_FREQUENCY` and `POK_TIMER_QUANTUM`; `none` on a division by zero or a failed assertion. -/
def timerInit (freq quantum : Nat) : Option Pit :=
  if freq = 0 ∨ quantum = 0 then none
  else
    let divisor := oscillator / freq
    let inc := divisor * nsSecond / oscillator
    let q := nsSecond / quantum
    if divisor ≤ 65536 ∧ inc ≤ q then some ⟨inc, q, 0, 0, 0⟩ else none

/-- `pit_interrupt`, kernel/arch/x86/x86-qemu/pit.c 42-54. -/
def pitInterrupt (p : Pit) : Pit :=
  let p := { p with clock := (p.clock + p.increment) % 18446744073709551616 }
  let p := { p with counter := (p.counter + p.increment) % U32 }
  if p.counter ≥ p.quantum then { p with counter := p.counter - p.quantum, rounds := p.rounds + 1 } else p

/-- `n` interrupts. -/
def pitRun (p : Pit) : Nat → Pit
  | 0 => p
  | n + 1 => pitInterrupt (pitRun p n)

end Pok.X86
