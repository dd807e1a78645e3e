import Verif.Model.X86

/-!
# What the x86 hardware makes of a segment descriptor; the screen as a grid
-/

namespace Pok.X86Spec
open Pok.X86

/-- The base address in a descriptor. -/
def base (d : Desc) : Nat := d.baseLow + d.baseHigh * 16777216

/-- The greatest offset accepted: the 20-bit limit, counted in pages when the granularity bit is set. -/
def lastOffset (d : Desc) : Nat :=
  if d.granularity then (d.limitLow + d.limitHigh * 65536) * 4096 + 4095 else d.limitLow + d.limitHigh * 65536

/-- The hardware lets a program that uses the segment access the byte at address `a`. -/
def Reaches (d : Desc) (a : Nat) : Prop :=
  d.present = true ∧ ∃ off, off ≤ lastOffset d ∧ a = (base d + off) % 4294967296

/-- Both segments of a partition can be used. -/
def Enabled (nproc : Nat) (g : Gdt) (pid : Nat) : Prop :=
  (g (codeSeg nproc pid)).present = true ∧ (g (dataSeg nproc pid)).present = true

/-- None of them can. -/
def Disabled (nproc : Nat) (g : Gdt) (pid : Nat) : Prop :=
  (g (codeSeg nproc pid)).present = false ∧ (g (dataSeg nproc pid)).present = false

/-- The partitions given a window by a sequence of decisions. -/
def windows : List Elect → List Nat
  | [] => []
  | .round p _ :: es => p :: windows es
  | .within _ :: es => windows es

/-- Every elected thread belongs to the partition whose window it is (no idle thread). -/
def Loyal : Nat → List Elect → Prop
  | _, [] => True
  | _, .round p t :: es => t = p ∧ Loyal p es
  | cur, .within t :: es => t = cur ∧ Loyal cur es

/-! ## The screen -/

/-- A cell: character and colour. -/
abbrev Cell := Nat × Nat

/-- A terminal of 25 rows and 80 columns. -/
structure Term where
  cell : Nat → Nat → Cell
  row : Nat
  col : Nat
  attr : Nat

/-- Scroll up: every row takes the contents of the next, the last one is blank. -/
def Term.scroll (t : Term) : Term :=
  { t with cell := fun r c => if r = 24 then (0, t.attr) else t.cell (r + 1) c }

/-- Go to the start of the next row, scrolling at the bottom. -/
def Term.newline (t : Term) : Term :=
  if t.row = 24 then { t.scroll with col := 0 } else { t with col := 0, row := t.row + 1 }

/-- Print a character: carriage return, new line, tabulation to the next multiple of eight, or a visible character. -/
def Term.print (t : Term) (c : Nat) : Term :=
  if c = 13 then { t with col := 0 }
  else if c = 10 then t.newline
  else if c = 9 then (if t.col < 72 then { t with col := (t.col / 8 + 1) * 8 } else t.newline)
  else
    let t := { t with cell := fun r k => if r = t.row ∧ k = t.col then (c, t.attr) else t.cell r k }
    if t.col < 79 then { t with col := t.col + 1 } else t.newline

/-- Clear the screen with the current colour. -/
def Term.clear (t : Term) : Term := { t with cell := fun _ _ => (0, t.attr), row := 0, col := 0 }

/-- The commands a stream of bytes stands for, and the number of characters printed. -/
def Term.write (t : Term) (n : Nat) : List Nat → Option (Nat × Term)
  | [] => some (n, t)
  | 255 :: 1 :: rest => Term.write t.clear n rest
  | 255 :: 2 :: a :: rest => Term.write { t with attr := a } n rest
  | 255 :: 4 :: y :: rest => Term.write { t with row := y % 25 } n rest
  | 255 :: 3 :: x :: rest => Term.write { t with col := x % 80 } n rest
  | [255] => none
  | [255, 2] => none
  | [255, 4] => none
  | [255, 3] => none
  | 255 :: c :: rest => Term.write (t.print c) (n + 1) rest
  | c :: rest => Term.write (t.print c) (n + 1) rest

/-- The video memory shows the terminal. -/
def Shows (s : Cons) (t : Term) : Prop :=
  s.row = t.row ∧ s.col = t.col ∧ s.attr = t.attr ∧ s.row < 25 ∧ s.col < 80 ∧
  ∀ r c, r < 25 → c < 80 → (s.vga (2 * (80 * r + c)), s.vga (2 * (80 * r + c) + 1)) = t.cell r c

end Pok.X86Spec
