import Mathlib.Logic.Function.Basic

/-!
# Several processors: rendezvous and spinlocks

Model of kernel/include/arch/x86/rendezvous.h and of its use in kernel/core/sched.c (`pok_global_sched`,
`synchro_processors`), and of kernel/include/arch/x86/spinlock.h.  One step is one access to shared memory by one processor; memory
is sequentially consistent (the variables are `volatile`, and written by one instruction).  An assertion that fails is `none`.
-/

namespace Pok.Smp

/-! ## Rendezvous -/

/-- Where the initiating processor is (the one that takes the timer interrupt): kernel/core/sched.c 308-334. -/
inductive Ipc where
  | fenceTest    -- start_rendezvous(&fence): assert(!*r)
  | fenceSet     -- *r = 1
  | send         -- pok_send_global_schedule_thread()
  | waitTest     -- spin_wait_for_rendezvous(&fence): assert(*r > 0)
  | wait         -- while (*r != others_count)
  | space        -- pok_space_switch
  | barrTest     -- start_rendezvous(&barr): assert(!*r)
  | barrSet      -- *r = 1
  | openTest     -- unblock_rendezvous(&fence): assert(*r > 0)
  | openSet      -- *r = 0
  | bwaitTest    -- spin_wait_for_rendezvous(&barr): assert(*r > 0)
  | bwait        -- while (*r != others_count)
  | closeTest    -- unblock_rendezvous(&barr): assert(*r > 0)
  | closeSet     -- *r = 0
deriving DecidableEq, Repr

/-- Where another processor is: kernel/core/sched.c 322-324. -/
inductive Opc where
  | run          -- not in the rendezvous
  | joinTest     -- join_rendezvous(&fence): assert(*r > 0)
  | joinInc      -- lock incw
  | spin         -- while (*r)
  | bjoinTest    -- join_rendezvous(&barr): assert(*r > 0)
  | bjoinInc     -- lock incw
  | bspin        -- while (*r)
deriving DecidableEq, Repr

/-- The shared variables, where the processors are, the interrupts sent and not yet taken; and counters that the code does not have,
for the statements: arrivals at the fence, departures from it, arrivals at the second barrier, departures; openings and closings made
by the initiator. -/
structure Rv (n : Nat) where
  fence : Nat
  barr : Nat
  ipc : Ipc
  opc : Fin n → Opc
  pend : Fin n → Bool
  arrived : Fin n → Nat
  passed : Fin n → Nat
  barrived : Fin n → Nat
  left : Fin n → Nat
  opened : Nat
  closed : Nat

/-- Before the first round (kernel/core/sched.c 64: zero-initialised). -/
def Rv.init (n : Nat) : Rv n :=
  ⟨0, 0, .fenceTest, fun _ => .run, fun _ => false, fun _ => 0, fun _ => 0, fun _ => 0, fun _ => 0, 0, 0⟩

/-- `lock incw`: 16-bit increment of the low half of the variable. -/
def incw (x : Nat) : Nat := x / 65536 * 65536 + (x + 1) % 65536

/-- A step of the initiator; `others_count` is `multiprocessing_system`, the number of processors, `n + 1`. -/
def Rv.stepInit {n : Nat} (s : Rv n) : Option (Rv n) :=
  match s.ipc with
  | .fenceTest => if s.fence = 0 then some { s with ipc := .fenceSet } else none
  | .fenceSet => some { s with fence := 1, ipc := .send }
  | .send => some { s with pend := fun _ => true, ipc := .waitTest }
  | .waitTest => if s.fence > 0 then some { s with ipc := .wait } else none
  | .wait => if s.fence ≠ n + 1 then some s else some { s with ipc := .space }
  | .space => some { s with ipc := .barrTest }
  | .barrTest => if s.barr = 0 then some { s with ipc := .barrSet } else none
  | .barrSet => some { s with barr := 1, ipc := .openTest }
  | .openTest => if s.fence > 0 then some { s with ipc := .openSet } else none
  | .openSet => some { s with fence := 0, opened := s.opened + 1, ipc := .bwaitTest }
  | .bwaitTest => if s.barr > 0 then some { s with ipc := .bwait } else none
  | .bwait => if s.barr ≠ n + 1 then some s else some { s with ipc := .closeTest }
  | .closeTest => if s.barr > 0 then some { s with ipc := .closeSet } else none
  | .closeSet => some { s with barr := 0, closed := s.closed + 1, ipc := .fenceTest }

/-- A step of another processor.  Outside the rendezvous it takes the interrupt when there is one. -/
def Rv.stepOther {n : Nat} (s : Rv n) (i : Fin n) : Option (Rv n) :=
  match s.opc i with
  | .run => if s.pend i
      then some { s with pend := Function.update s.pend i false, opc := Function.update s.opc i .joinTest }
      else some s
  | .joinTest => if s.fence > 0 then some { s with opc := Function.update s.opc i .joinInc } else none
  | .joinInc => some { s with fence := incw s.fence, arrived := Function.update s.arrived i (s.arrived i + 1), opc := Function.update s.opc i .spin }
  | .spin => if s.fence ≠ 0 then some s
      else some { s with passed := Function.update s.passed i (s.passed i + 1), opc := Function.update s.opc i .bjoinTest }
  | .bjoinTest => if s.barr > 0 then some { s with opc := Function.update s.opc i .bjoinInc } else none
  | .bjoinInc => some { s with barr := incw s.barr, barrived := Function.update s.barrived i (s.barrived i + 1), opc := Function.update s.opc i .bspin }
  | .bspin => if s.barr ≠ 0 then some s
      else some { s with left := Function.update s.left i (s.left i + 1), opc := Function.update s.opc i .run }

/-- A step of a processor: `none` is the initiator. -/
def Rv.step {n : Nat} (s : Rv n) : Option (Fin n) → Option (Rv n)
  | none => s.stepInit
  | some i => s.stepOther i

/-- An interleaving. -/
def Rv.steps {n : Nat} (s : Rv n) : List (Option (Fin n)) → Option (Rv n)
  | [] => some s
  | a :: as => (s.step a).bind fun s => Rv.steps s as

/-! ## Spinlocks -/

/-- Where a processor is with respect to the spinlock macros. -/
inductive Spc where
  | out                    -- outside the macros
  | xchg (l : Nat)         -- SPIN_LOCK: lock xchg %0, %al; test; jnz
  | count (l : Nat)        -- spinlocks[proc]++
  | test (l : Nat)         -- SPIN_UNLOCK: assert(_spin_)
  | test2 (l : Nat)        -- assert(spinlocks[proc])
  | uncount (l : Nat)      -- spinlocks[proc]--
  | clear (l : Nat)        -- _spin_ = 0
deriving DecidableEq, Repr

/-- The locks, the counters `spinlocks`, the processors; `held` records, for the statements, the locks a processor has acquired (from
the successful exchange) and not yet released (until the store of zero). -/
structure Sl where
  lock : Nat → Nat
  count : Nat → Nat
  pc : Nat → Spc
  held : Nat → List Nat

/-- What a processor does next when it is outside the macros. -/
inductive Sop where
  | work
  | lock (l : Nat)
  | unlock (l : Nat)

/-- A step of processor `p`, kernel/include/arch/x86/spinlock.h 24-45.  The choice of the next operation matters only outside the
macros. -/
def Sl.step (s : Sl) (p : Nat) (o : Sop) : Option Sl :=
  match s.pc p with
  | .out => match o with
    | .work => some s
    | .lock l => some { s with pc := Function.update s.pc p (.xchg l) }
    | .unlock l => some { s with pc := Function.update s.pc p (.test l) }
  | .xchg l =>
    if s.lock l ≠ 0 then some { s with lock := Function.update s.lock l 1 }
    else some { s with lock := Function.update s.lock l 1, held := Function.update s.held p (l :: s.held p), pc := Function.update s.pc p (.count l) }
  | .count _ => some { s with count := Function.update s.count p (s.count p + 1), pc := Function.update s.pc p .out }
  | .test l => if s.lock l ≠ 0 then some { s with pc := Function.update s.pc p (.test2 l) } else none
  | .test2 l => if s.count p ≠ 0 then some { s with pc := Function.update s.pc p (.uncount l) } else none
  | .uncount l => some { s with count := Function.update s.count p (s.count p - 1), pc := Function.update s.pc p (.clear l) }
  | .clear l => some { s with lock := Function.update s.lock l 0, held := Function.update s.held p ((s.held p).erase l), pc := Function.update s.pc p .out }

/-- All free. -/
def Sl.init : Sl := ⟨fun _ => 0, fun _ => 0, fun _ => .out, fun _ => []⟩

/-- An interleaving. -/
def Sl.steps (s : Sl) : List (Nat × Sop) → Option Sl
  | [] => some s
  | (p, o) :: es => (s.step p o).bind fun s => Sl.steps s es

end Pok.Smp
