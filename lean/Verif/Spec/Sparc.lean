import Verif.Model.SparcTrap

/-!
# What a program on SPARC sees of its registers

A program sees its globals, the outs, locals and ins of the current function, and, through `restore`, the locals and ins of each caller.  The
windows from the current one upwards, up to the invalid one, hold the newest callers; the older ones are in memory, each at its own stack
pointer, which is the frame pointer (in 6) of its callee.
-/

namespace Pok.SparcSpec
open Pok.Sparc

/-- The locals and the ins of a function. -/
structure Frame where
  l : Nat → Nat
  i : Nat → Nat

/-- Two frames agree on their sixteen registers. -/
def Frame.Same (f f' : Frame) : Prop := ∀ r < 8, f.l r = f'.l r ∧ f.i r = f'.i r

/-- The frame kept in memory at a stack pointer. -/
def frameIn (mem : Nat → Nat) (sp : Nat) : Frame := ⟨fun r => mem (sp + 4 * r), fun r => mem (sp + 0x20 + 4 * r)⟩

/-- The window `k` above the current one is reached without crossing the invalid window. -/
def InWindow (c : Cpu) (k : Nat) : Prop := ∀ j ≤ k, c.invalid ((c.cwp + j) % 8) = false

instance (c : Cpu) (k : Nat) : Decidable (InWindow c k) :=
  decidable_of_iff (∀ j < k + 1, c.invalid ((c.cwp + j) % 8) = false) ⟨fun h j hj => h j (by omega), fun h j hj => h j (by omega)⟩

/-- The frame of the current function (0), of its caller (1), of the caller of the caller (2), ... -/
def frame (c : Cpu) : Nat → Frame
  | 0 => ⟨c.l c.cwp, c.i c.cwp⟩
  | k + 1 => if InWindow c (k + 1) then ⟨c.l ((c.cwp + (k + 1)) % 8), c.i ((c.cwp + (k + 1)) % 8)⟩ else frameIn c.mem ((frame c k).i 6)

/-- The stack pointer of the current function, of its caller, ... -/
def stackPtr (c : Cpu) : Nat → Nat
  | 0 => c.outs 6
  | k + 1 => (frame c k).i 6

/-- The windows are in order: exactly one is invalid, and it is not the current one. -/
def Windows (c : Cpu) (v : Nat) : Prop := v < 8 ∧ c.cwp < 8 ∧ c.wim = 2 ^ v ∧ v ≠ c.cwp

/-- The number of frames in windows. -/
def inUse (c : Cpu) (v : Nat) : Nat := (v + 8 - c.cwp) % 8

/-- The stack of a program `n` calls deep: aligned, growing downwards with room for the registers of each function, in memory, and with room
for a context below each stack pointer. -/
structure StackOk (ok : Nat → Bool) (c : Cpu) (n : Nat) : Prop where
  aligned : ∀ k < n, stackPtr c k % 8 = 0
  apart : ∀ k, k + 1 < n → stackPtr c k + 64 ≤ stackPtr c (k + 1)
  fits : ∀ k < n, stackPtr c k + 64 ≤ W
  below : 0x54 ≤ stackPtr c 0
  reach : ∀ k < n, ∀ a, stackPtr c k ≤ a → a < stackPtr c k + 64 → ok a = true
  reachBelow : ∀ k < n, ∀ a, stackPtr c k ≤ a + 0x54 → a < stackPtr c k → ok a = true

/-- Nothing of what a program sees has changed, `n` calls deep. -/
def Unchanged (c c' : Cpu) (n : Nat) : Prop :=
  (∀ r < 8, 1 ≤ r → c'.g r = c.g r) ∧ (∀ r < 8, c'.outs r = c.outs r) ∧ ∀ k < n, (frame c' k).Same (frame c k)

/-- The words in which registers of the program may be kept: the 64 bytes at each stack pointer, and the 84 bytes below the current one. -/
def StackArea (c : Cpu) (n a : Nat) : Prop := (stackPtr c 0 ≤ a + 0x54 ∧ a < stackPtr c 0) ∨ ∃ k < n, stackPtr c k ≤ a ∧ a < stackPtr c k + 64

/-! ## The program's view of calls: no windows, an unbounded stack of frames -/

/-- The registers of a function; `none` where the architecture says nothing. -/
structure PFrame where
  l : Nat → Option Nat
  i : Nat → Option Nat

/-- A program: globals, outs, and the frames of the current function and its callers. -/
structure Prog where
  g : Nat → Option Nat
  outs : Nat → Option Nat
  frames : List PFrame

/-- What a program does with its registers: call a function, which takes a stack frame at `sp` (`save`), return (`restore`), write a
register or a word of memory. -/
inductive POp
  | call (sp : Nat)
  | ret
  | setL (r v : Nat)
  | setI (r v : Nat)
  | setO (r v : Nat)
  | setG (r v : Nat)
  | store (a v : Nat)

/-- The stack pointers of the functions of a program. -/
def Prog.sp (p : Prog) : Nat → Option Nat
  | 0 => p.outs 6
  | k + 1 => (p.frames[k]?).bind fun f => f.i 6

/-- One step of a well-behaved program: stack frames are aligned, in reachable memory, 64 bytes or more apart; the stack and frame pointers
are left alone; data is not stored over the register area of a stack frame.  A function called sees the outs of the caller as ins; after the
return the caller finds its frame again, and the ins of the callee as outs. -/
def Prog.Step (ok : Nat → Bool) (p : Prog) : POp → Prog → Prop
  | .call sp, p' => (∃ s, p.sp 0 = some s ∧ sp + 64 ≤ s) ∧ sp % 8 = 0 ∧ 0x54 ≤ sp ∧ (∀ a, sp ≤ a + 0x54 → a < sp + 64 → ok a = true) ∧
      p' = ⟨p.g, upd (fun _ => none) 6 (some sp), ⟨fun _ => none, p.outs⟩ :: p.frames⟩
  | .ret, p' => ∃ f rest, p.frames = f :: rest ∧ rest ≠ [] ∧ p' = ⟨p.g, f.i, rest⟩
  | .setL r v, p' => r < 8 ∧ ∃ f rest, p.frames = f :: rest ∧ p' = ⟨p.g, p.outs, ⟨upd f.l r (some v), f.i⟩ :: rest⟩
  | .setI r v, p' => r < 8 ∧ r ≠ 6 ∧ ∃ f rest, p.frames = f :: rest ∧ p' = ⟨p.g, p.outs, ⟨f.l, upd f.i r (some v)⟩ :: rest⟩
  | .setO r v, p' => r < 8 ∧ r ≠ 6 ∧ p' = ⟨p.g, upd p.outs r (some v), p.frames⟩
  | .setG r v, p' => r < 8 ∧ 1 ≤ r ∧ p' = ⟨upd p.g r (some v), p.outs, p.frames⟩
  | .store a _, p' => (∀ k < p.frames.length, ∃ s, p.sp k = some s ∧ (a < s ∨ s + 64 ≤ a)) ∧ p' = p

/-- A run of steps. -/
inductive Prog.Run (ok : Nat → Bool) : Prog → List POp → Prog → Prop
  | nil (p) : Prog.Run ok p [] p
  | cons {p p1 p2 op ops} : p.Step ok op p1 → Prog.Run ok p1 ops p2 → Prog.Run ok p (op :: ops) p2

/-- The processor holds the registers of the program. -/
def Holds (c : Cpu) (p : Prog) : Prop :=
  (∀ r < 8, 1 ≤ r → ∀ v, p.g r = some v → c.g r = v) ∧ (∀ r < 8, ∀ v, p.outs r = some v → c.outs r = v) ∧
  ∀ k f, p.frames[k]? = some f → ∀ r < 8, (∀ v, f.l r = some v → (frame c k).l r = v) ∧ (∀ v, f.i r = some v → (frame c k).i r = v)

end Pok.SparcSpec
