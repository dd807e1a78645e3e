import Verif.Spec.Printf
import Mathlib.Tactic.Common
import Mathlib.Tactic.IntervalCases

/-!
# Characters, strings and numbers in the buffer of formatted output
-/

namespace Pok.Printf
open Pok.PrintfSpec

/-- Everything printed so far. -/
def File.content (f : File) : List Nat := f.blocks.flatten ++ f.buf

/-- Between two calls of `my_putc`: room in the buffer, and only full blocks written. -/
def File.Good (f : File) : Prop := f.buf.length < 128 ∧ ∀ b ∈ f.blocks, b.length = 128

theorem putc_spec {f : File} (h : f.Good) (c : Nat) : (f.putc c).Good ∧ (f.putc c).content = f.content ++ [c] := by
  unfold File.putc
  simp only
  split
  · rename_i hl
    refine ⟨⟨by simp [File.flush], ?_⟩, ?_⟩
    · intro b hb
      simp only [File.flush, List.mem_append, List.mem_singleton] at hb
      rcases hb with hb | rfl
      · exact h.2 b hb
      · exact hl
    · simp [File.content, File.flush]
  · rename_i hl
    refine ⟨⟨?_, h.2⟩, ?_⟩
    · have := h.1
      simp only [List.length_append, List.length_singleton] at hl ⊢
      omega
    · simp [File.content]

theorem puts_spec (cs : List Nat) : ∀ {f : File}, f.Good → (f.puts cs).Good ∧ (f.puts cs).content = f.content ++ cs := by
  induction cs with
  | nil => intro f h; exact ⟨h, by simp [File.puts]⟩
  | cons c cs ih =>
    intro f h
    obtain ⟨h1, h2⟩ := putc_spec h c
    obtain ⟨h3, h4⟩ := ih h1
    exact ⟨h3, by show (File.puts (f.putc c) cs).content = _; rw [h4, h2]; simp⟩

theorem digit_char (d : Nat) (h : d < 16) : digit d = (Nat.digitChar d).toNat := by
  interval_cases d <;> rfl

theorem conv_spec {b : Nat} (hb : 1 < b) (hb' : b ≤ 16) : ∀ (room n : Nat), n < b ^ room → 0 < n →
    ∃ ds, conv b room n = some ds ∧ ds.reverse.map digit = inBase b n := by
  intro room
  induction room with
  | zero => intro n h h0; simp at h; omega
  | succ room ih =>
    intro n h h0
    have hd : n % b < 16 := Nat.lt_of_lt_of_le (Nat.mod_lt _ (by omega)) hb'
    rw [conv, if_neg (by omega)]
    by_cases hn : n < b
    · rw [Nat.div_eq_of_lt hn]
      refine ⟨[n % b], ?_, ?_⟩
      · cases room <;> simp [conv]
      · rw [inBase, Nat.toDigits_of_lt_base hn]
        simp [Nat.mod_eq_of_lt hn, digit_char n (by omega)]
    · obtain ⟨ds, h1, h2⟩ := ih (n / b) (by rw [Nat.pow_succ] at h; exact Nat.div_lt_of_lt_mul (by rwa [Nat.mul_comm] at h))
        (Nat.div_pos (by omega) (by omega))
      refine ⟨n % b :: ds, by rw [h1]; rfl, ?_⟩
      rw [inBase, Nat.toDigits_of_base_le hb (by omega), List.map_append]
      simp only [List.reverse_cons, List.map_append, h2, List.map_cons, List.map_nil]
      rw [digit_char _ hd]
      rfl

theorem inBase_zero (b : Nat) : inBase b 0 = [48] := by simp [inBase, Nat.toDigits_zero]

theorem inBase_pos (b n : Nat) : 0 < (inBase b n).length := by
  rw [inBase, List.length_map]; exact Nat.length_toDigits_pos

/-- What a number prints and returns. -/
theorem printnbr_spec {b n : Nat} (hb : 1 < b) (hb' : b ≤ 16) (hn : n < 2 ^ 64) {f : File} (hf : f.Good) :
    ∃ g k, printnbr n b f = some (g, k) ∧ g.Good ∧ g.content = f.content ++ inBase b n ∧
      k + (if n = 0 then 0 else 1) = (inBase b n).length := by
  unfold printnbr
  by_cases h0 : n = 0
  · subst h0
    obtain ⟨h1, h2⟩ := putc_spec hf 48
    exact ⟨_, _, if_pos rfl, h1, by rw [h2, inBase_zero], by rw [inBase_zero]; rfl⟩
  · have hr : n < b ^ 96 := Nat.lt_of_lt_of_le hn (Nat.le_trans (Nat.pow_le_pow_right (by omega) (by omega)) (Nat.pow_le_pow_left hb 96))
    obtain ⟨ds, h1, h2⟩ := conv_spec hb hb' 96 n hr (by omega)
    obtain ⟨h3, h4⟩ := puts_spec (ds.reverse.map digit) hf
    refine ⟨_, _, by rw [if_neg h0, h1]; rfl, h3, by rw [h4, h2], ?_⟩
    have := inBase_pos b n
    have hl : ds.length = (inBase b n).length := by rw [← h2]; simp
    rw [if_neg h0]
    omega

end Pok.Printf
