import Mathlib.Logic.Function.Basic
/-!
# The spinlocks of PowerPC and SPARC

kernel/include/arch/ppc/spinlock.h and kernel/include/arch/sparc/spinlock.h.  One step is one instruction of one processor, in any order; memory is sequentially
consistent.  The locks of x86 are in `Verif.Model.Smp`.
-/
namespace Pok.Spin

/-! ## PowerPC -/

/-- Where a processor is with respect to the macros. -/
inductive Ppc
  | out                    -- outside the macros
  | lwarx (l : Nat)        -- SPIN_LOCK: lwarx
  | cmp (l v : Nat)        -- cmpwi, bne with the value read
  | stwcx (l : Nat)        -- stwcx.
  | bne (l : Nat) (eq : Bool) -- bne with the outcome of stwcx.
  | test (l : Nat)         -- SPIN_UNLOCK: assert(_spin_)
  | clear (l : Nat)        -- _spin_ = 0
  deriving DecidableEq, Repr

/-- The locks, the reservation of each processor, the processors; `held` records, for the statements, the locks a processor has acquired (from the successful
conditional store) and not yet released (until the store of zero). -/
structure Pp where
  lock : Nat → Nat
  res : Nat → Option Nat
  pc : Nat → Ppc
  held : Nat → List Nat

/-- What happens next: outside the macros the processor chooses; `lose` is the loss of a reservation for a reason outside the model (a store of another device, a
store to another word of the reserved block, an interrupt). -/
inductive Pop
  | work
  | lock (l : Nat)
  | unlock (l : Nat)
  | lose

/-- A store to lock `l` by processor `p`: the other processors lose their reservations of it. -/
def Pp.store (s : Pp) (p l v : Nat) : Pp :=
  { s with lock := Function.update s.lock l v, res := fun q => if q ≠ p ∧ s.res q = some l then none else s.res q }

/-- A step of processor `p`, kernel/include/arch/ppc/spinlock.h 22-41.  `none`: the assertion of line 24 fails. -/
def Pp.step (s : Pp) (p : Nat) (o : Pop) : Option Pp :=
  match o with
  | .lose => some { s with res := Function.update s.res p none }
  | o =>
  match s.pc p with
  | .out => match o with
    | .lock l => some { s with pc := Function.update s.pc p (.lwarx l) }
    | .unlock l => some { s with pc := Function.update s.pc p (.test l) }
    | _ => some s
  | .lwarx l => some { s with res := Function.update s.res p (some l), pc := Function.update s.pc p (.cmp l (s.lock l)) }
  | .cmp l v => some { s with pc := Function.update s.pc p (if v ≠ 0 then .lwarx l else .stwcx l) }
  | .stwcx l =>
    if s.res p = some l then
      let s' := s.store p l 1
      some { s' with res := Function.update s'.res p none, held := Function.update s.held p (l :: s.held p), pc := Function.update s.pc p (.bne l true) }
    else some { s with res := Function.update s.res p none, pc := Function.update s.pc p (.bne l false) }
  | .bne l eq => some { s with pc := Function.update s.pc p (if eq then .out else .lwarx l) }
  | .test l => if s.lock l ≠ 0 then some { s with pc := Function.update s.pc p (.clear l) } else none
  | .clear l =>
    let s' := s.store p l 0
    some { s' with held := Function.update s.held p ((s.held p).erase l), pc := Function.update s.pc p .out }

/-- All free. -/
def Pp.init : Pp := ⟨fun _ => 0, fun _ => none, fun _ => .out, fun _ => []⟩

/-- An interleaving. -/
def Pp.steps (s : Pp) : List (Nat × Pop) → Option Pp
  | [] => some s
  | (p, o) :: es => (s.step p o).bind fun s => Pp.steps s es

/-! ## SPARC -/

/-- The instructions of the macros, kernel/include/arch/sparc/spinlock.h 24-38, and `act a`: an instruction of the section between them, which is no branch. -/
inductive Ins
  | ldstub | tst | bnz
  | act (a : Nat)
  | clear
  deriving DecidableEq, Repr

/-- A section guarded by the lock, as the processor sees it: `SPIN_LOCK`, the instructions `first` and `body`, the store of `SPIN_UNLOCK` (its assertion is left
out).  The compiler places the first instruction of the section directly behind the branch of the macro: the macro has no instruction there. -/
def program (first : Nat) (body : List Nat) : List Ins := [.ldstub, .tst, .bnz, .act first] ++ body.map .act ++ [.clear]

/-- One processor: the addresses of this and of the next instruction (a branch of SPARC takes effect after the instruction behind it), the register `%1` and the flag
`tst` sets. -/
structure Core where
  pc : Nat
  npc : Nat
  reg : Nat
  z : Bool
  deriving DecidableEq, Repr

/-- All processors, the lock; for the statements, `owner` is the processor that has found the lock free and not yet released it, and `log` the instructions of the
section in the order of their execution, the last first: processor, place in the program, instruction, whether the processor then owned the lock. -/
structure Sp where
  core : Nat → Core
  lock : Nat
  owner : Option Nat
  log : List (Nat × Nat × Nat × Bool)

/-- A processor at the start of the program. -/
def Core.start : Core := ⟨0, 1, 1, true⟩

/-- A step of processor `p`; behind the end of the program it starts anew.  `ldstub` writes 0xff to the first byte of the word. -/
def Sp.step (prog : List Ins) (s : Sp) (p : Nat) : Sp :=
  let c := s.core p
  let next : Core := ⟨c.npc, c.npc + 1, c.reg, c.z⟩
  match prog[c.pc]? with
  | none => { s with core := Function.update s.core p .start }
  | some .ldstub => { s with
      core := Function.update s.core p { next with reg := s.lock / 2 ^ 24 }
      lock := 0xff000000 + s.lock % 2 ^ 24
      owner := if s.lock / 2 ^ 24 = 0 then some p else s.owner }
  | some .tst => { s with core := Function.update s.core p { next with z := decide (c.reg = 0) } }
  | some .bnz => { s with core := Function.update s.core p (if c.z then next else { next with npc := 0 }) }
  | some (.act a) => { s with core := Function.update s.core p next, log := (p, c.pc, a, decide (s.owner = some p)) :: s.log }
  | some .clear => { s with core := Function.update s.core p next, lock := 0, owner := if s.owner = some p then none else s.owner }

/-- All processors at the start, the lock free. -/
def Sp.init : Sp := ⟨fun _ => .start, 0, none, []⟩

/-- An interleaving. -/
def Sp.steps (prog : List Ins) (s : Sp) (ps : List Nat) : Sp := ps.foldl (Sp.step prog) s

end Pok.Spin
