import Verif.Model.Basic

/-!
# Timers and kernel memory of the PowerPC and SPARC boards

Model of kernel/arch/ppc/timer.c, of `pok_bsp_mem_alloc` in kernel/arch/ppc/prep/bsp.c and of the settings in kernel/arch/sparc/leon3/timer.c.
Machine integers are natural numbers reduced where C reduces them.
-/

namespace Pok.Timers

/-! ### PowerPC -/

/-- `POK_TIMER_FREQUENCY`, kernel/include/core/time.h 24. -/
def TIMER_FREQUENCY : Nat := 100000
/-- `BUS_FREQ`, kernel/arch/ppc/timer.c 21. -/
def BUS_FREQ : Nat := 100 * 1000000
/-- `FREQ_DIV`, timer.c 23. -/
def FREQ_DIV : Nat := 40

/-- The variables of timer.c and the clock; `decr` is the last value that `mtdec` put in the decrementer, `ok` says
whether the last answer of `pok_arch_set_decr` was `POK_ERRNO_OK`. -/
structure Ppc where
  /-- `time_last`, 64 bits -/
  last : Nat
  /-- `time_inter`, 32 bits -/
  inter : Nat
  /-- `pok_tick_counter`, 64 bits -/
  ticks : Nat
  decr : Nat
  ok : Bool
  deriving DecidableEq, Repr

/-- A 64-bit difference stored in an `int`. -/
def toInt (x : Nat) : Int := if x % 2 ^ 32 < 2 ^ 31 then (x % 2 ^ 32 : Nat) else ((x % 2 ^ 32 : Nat) : Int) - 2 ^ 32

/-- `pok_arch_set_decr`, timer.c 49-62, when the time base reads `tb`. -/
def setDecr (t : Ppc) (tb : Nat) : Ppc :=
  let new := (t.last + t.inter) % 2 ^ 64
  let delta := toInt ((new + 2 ^ 64 - tb) % 2 ^ 64)
  if delta < 0 then { t with last := new, ok := false } else { t with last := new, decr := delta.toNat, ok := true }

/-- `pok_tick_counter += FREQ_DIV`, timer.c 71. -/
def tick (t : Ppc) : Ppc := { t with ticks := (t.ticks + FREQ_DIV) % 2 ^ 64 }

/-- The loop of `pok_arch_decr_int`, timer.c 68-72, for the successive readings of the time base.  `none`: it has not ended after them. -/
def decrInt (t : Ppc) : List Nat → Option Ppc
  | [] => none
  | tb :: l => if (setDecr t tb).ok then some (tick (setDecr t tb)) else decrInt (tick (setDecr t tb)) l

/-- The value of `time_inter`, timer.c 78. -/
def timeInter : Nat := BUS_FREQ * FREQ_DIV % 2 ^ 32 / TIMER_FREQUENCY

/-- `pok_time_init` and `pok_bsp_time_init`, kernel/core/time.c 43-46, timer.c 77-83, with the two readings of the time base. -/
def timeInit (tb tb' : Nat) : Ppc :=
  setDecr { last := tb, inter := timeInter, ticks := 0, decr := 0, ok := true } tb'

/-- `pok_bsp_mem_alloc`, kernel/arch/ppc/prep/bsp.c 29-35: the address and the new `heap_end`. -/
def memAlloc (heapEnd sz : Nat) : Nat × Nat :=
  let res := (heapEnd + 4095) % 2 ^ 32 / 4096 * 4096
  (res, (res + sz) % 2 ^ 32)

/-- A sequence of allocations. -/
def allocs (heapEnd : Nat) : List Nat → List (Nat × Nat)
  | [] => []
  | sz :: l => ((memAlloc heapEnd sz).1, sz) :: allocs (memAlloc heapEnd sz).2 l

/-! ### SPARC -/

/-- `SPARC_PROC_FREQ`, kernel/arch/sparc/leon3/sparc_conf.h 26. -/
def SPARC_FREQ : Nat := 50000000

/-- The values that `pok_bsp_time_init` writes to the reload registers of the scaler and of the counter, kernel/arch/sparc/leon3/timer.c 50-54. -/
def sparcScaler : Nat := 1
def sparcReload : Nat := SPARC_FREQ / TIMER_FREQUENCY

/-- The clock after a number of timer interrupts, `timer_isr`, timer.c 37-43. -/
def sparcClock : Nat → Nat
  | 0 => 0
  | n + 1 => (sparcClock n + 10000) % 2 ^ 64

end Pok.Timers
