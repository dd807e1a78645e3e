import Verif.Model.Alloc

/-!
# Specification of the heap

A block is a pair (offset, size).  A program holds a list of blocks, the most recent first.
-/

namespace Pok.HeapSpec

/-- The byte `x` belongs to the block. -/
def Holds (b : Nat × Nat) (x : Nat) : Prop := b.1 ≤ x ∧ x < b.1 + b.2

/-- What a program relies on: no byte belongs to two of its blocks, and every byte of a block is in the heap. -/
def Sound (c : HeapCfg) (live : List (Nat × Nat)) : Prop :=
  live.Pairwise (fun a b => ∀ x, ¬ (Holds a x ∧ Holds b x)) ∧ ∀ b ∈ live, ∀ x, Holds b x → x < c.mem

/-- A correct program: it asks for positive sizes and frees only blocks that it holds. -/
def Legal (live : List (Nat × Nat)) : Heap.Op → Prop
  | .alloc n => 0 < n
  | .free p => ∃ n, (p, n) ∈ live

/-- The block at `p` is freed while the blocks on both sides of it (or the borders of the heap) are held. -/
def Isolated (c : HeapCfg) (live : List (Nat × Nat)) : Heap.Op → Prop
  | .alloc _ => True
  | .free p => ∀ n, (p, n) ∈ live →
      (p = 0 ∨ ∃ b ∈ live, b.1 + b.2 = p) ∧ (p + n = c.mem ∨ ∃ b ∈ live, b.1 = p + n)

/-- The last block allocated is freed first. -/
def Lifo (live : List (Nat × Nat)) : Heap.Op → Prop
  | .alloc _ => True
  | .free p => ∃ n l, live = (p, n) :: l

/-- Sum of the sizes of the blocks held. -/
def total (live : List (Nat × Nat)) : Nat := (live.map Prod.snd).sum

/-- `P` holds of every call of a program, with what the program holds at that moment. -/
def Always (P : List (Nat × Nat) → Heap.Op → Prop) (c : HeapCfg) : Heap × List (Nat × Nat) → List Heap.Op → Prop
  | _, [] => True
  | x, op :: ops => P x.2 op ∧ Always P c (Heap.step c x op).1 ops

end Pok.HeapSpec
