import Verif.Spec.Libc

/-!
# What an executable image says

The segments of an ELF image, read from its bytes, and what memory is once they are in place.
-/

namespace Pok.ElfSpec
open Libc (Mem)

/-- Byte, half-word and word at a position in the image. -/
def byte (img : List Nat) (k : Nat) : Nat := img.getD k 0
def half (img : List Nat) (k : Nat) : Nat := byte img k + 256 * byte img (k + 1)
def word (img : List Nat) (k : Nat) : Nat := byte img k + 256 * byte img (k + 1) + 65536 * byte img (k + 2) + 16777216 * byte img (k + 3)

/-- A segment: where it goes, the bytes it starts with, its size in memory. -/
structure Seg where
  vaddr : Nat
  bytes : List Nat
  size : Nat
deriving DecidableEq, Repr

/-- Position in the image, address, size in the file and size in memory of segment `i`. -/
def phdr (img : List Nat) (i : Nat) : Nat := word img 28 + 32 * i

/-- Segment `i` of an image. -/
def seg (img : List Nat) (i : Nat) : Seg :=
  ⟨word img (phdr img i + 8), (img.drop (word img (phdr img i + 4))).take (word img (phdr img i + 16)), word img (phdr img i + 20)⟩

/-- The segments, in order. -/
def segs (img : List Nat) : List Seg := (List.range (half img 44)).map (seg img)

/-- A well-formed image: all the headers and the bytes of the segments are in it, and no segment is larger in the file than in
memory. -/
structure WellFormed (img : List Nat) : Prop where
  bytes : ∀ b ∈ img, b < 256
  header : 52 ≤ img.length
  magic : byte img 0 = 0x7f ∧ byte img 1 = 69 ∧ byte img 2 = 76 ∧ byte img 3 = 70
  table : word img 28 + 32 * half img 44 ≤ img.length
  inside : ∀ i < half img 44, word img (phdr img i + 4) + word img (phdr img i + 16) ≤ img.length
  sizes : ∀ i < half img 44, word img (phdr img i + 16) ≤ word img (phdr img i + 20)

/-- Address `a` is in segment `s` when addresses are shifted by `offset`. -/
def Seg.Covers (offset : Nat) (s : Seg) (a : Nat) : Prop := s.vaddr + offset ≤ a ∧ a < s.vaddr + offset + s.size

instance (offset : Nat) (s : Seg) (a : Nat) : Decidable (s.Covers offset a) := by unfold Seg.Covers; infer_instance

/-- What segment `s` puts at address `a`: its bytes, then zeros. -/
def Seg.at (offset : Nat) (s : Seg) (a : Nat) : Nat := s.bytes.getD (a - (s.vaddr + offset)) 0

/-- What is at address `a` once the segments are in place, one after the other: what the last segment that covers it puts there, and
what was there before if none does. -/
def placed (offset : Nat) (m : Mem) (a : Nat) : List Seg → Option Nat
  | [] => m a
  | s :: ss => if (∀ t ∈ ss, ¬t.Covers offset a) ∧ s.Covers offset a then some (s.at offset a) else placed offset m a ss

end Pok.ElfSpec
