import Verif.Spec.X86
import Mathlib.Tactic.Common

/-!
# Console and timer (C56, C57)
-/

namespace Pok.X86
open X86Spec

theorem vput_some {v : Nat → Nat} {i b : Nat} (h : i < 4000) : vput v i b = some (upd v i b) := by simp [vput, h]

theorem vcopy_spec (n i : Nat) (v : Nat → Nat) (h : 160 + i + n ≤ 4000) :
    ∃ v', vcopy 0 160 n i v = some v' ∧ ∀ j, v' j = if i ≤ j ∧ j < i + n then v (j + 160) else v j := by
  induction n generalizing i v with
  | zero => exact ⟨v, rfl, fun j => by rw [if_neg (by omega)]⟩
  | succ n ih =>
    obtain ⟨v', h1, h2⟩ := ih (i + 1) (upd v i (v (160 + i))) (by omega)
    refine ⟨v', ?_, ?_⟩
    · simp only [vcopy]
      rw [if_pos (by omega), Nat.zero_add, vput_some (by omega)]
      exact h1
    · intro j
      rw [h2 j]
      by_cases hj : j = i
      · subst hj
        rw [if_neg (by omega), if_pos (by omega), upd_same, Nat.add_comm]
      · by_cases hr : i + 1 ≤ j ∧ j < i + 1 + n
        · rw [if_pos hr, if_pos (by omega), upd_other _ _ (by omega)]
        · rw [if_neg hr, if_neg (by omega), upd_other _ _ hj]

theorem vblank_spec (attr n i : Nat) (v : Nat → Nat) (h : i + n ≤ 80) :
    ∃ v', vblank attr n i v = some v' ∧ (∀ j, j < 3840 + 2 * i → v' j = v j) ∧
      ∀ c, i ≤ c → c < i + n → v' (3840 + 2 * c) = 0 ∧ v' (3840 + 2 * c + 1) = attr := by
  induction n generalizing i v with
  | zero => exact ⟨v, rfl, fun j _ => rfl, fun c h1 h2 => by omega⟩
  | succ n ih =>
    obtain ⟨v', h1, h2, h3⟩ := ih (i + 1) (upd (upd v (3840 + 2 * i) 0) (3840 + 2 * i + 1) attr) (by omega)
    refine ⟨v', ?_, ?_, ?_⟩
    · simp only [vblank, screenW, screenH]
      rw [show 2 * 80 * (25 - 1) = 3840 from rfl, vput_some (by omega)]
      simp only [Option.bind_some]
      rw [vput_some (by omega)]
      exact h1
    · intro j hj
      rw [h2 j (by omega), upd_other _ _ (by omega), upd_other _ _ (by omega)]
    · intro c hc1 hc2
      by_cases hc : c = i
      · subst hc
        rw [h2 _ (by omega), h2 _ (by omega), upd_other _ _ (by omega), upd_same, upd_same]
        exact ⟨rfl, rfl⟩
      · exact h3 c (by omega) (by omega)

theorem vclear_spec (attr n i : Nat) (v : Nat → Nat) (h : i + n ≤ 2000) :
    ∃ v', vclear attr n i v = some v' ∧ (∀ j, j < 2 * i → v' j = v j) ∧
      ∀ c, i ≤ c → c < i + n → v' (2 * c) = 0 ∧ v' (2 * c + 1) = attr := by
  induction n generalizing i v with
  | zero => exact ⟨v, rfl, fun j _ => rfl, fun c h1 h2 => by omega⟩
  | succ n ih =>
    obtain ⟨v', h1, h2, h3⟩ := ih (i + 1) (upd (upd v (2 * i) 0) (2 * i + 1) attr) (by omega)
    refine ⟨v', ?_, ?_, ?_⟩
    · simp only [vclear]
      rw [vput_some (by omega)]
      simp only [Option.bind_some]
      rw [vput_some (by omega)]
      exact h1
    · intro j hj
      rw [h2 j (by omega), upd_other _ _ (by omega), upd_other _ _ (by omega)]
    · intro c hc1 hc2
      by_cases hc : c = i
      · subst hc
        rw [h2 _ (by omega), h2 _ (by omega), upd_other _ _ (by omega), upd_same, upd_same]
        exact ⟨rfl, rfl⟩
      · exact h3 c (by omega) (by omega)

/-- The end of `pok_cons_print_char`: wrapping and scrolling. -/
def finish (s : Cons) : Option Cons :=
  let s := if s.col ≥ screenW then { s with col := 0, row := s.row + 1 } else s
  if s.row ≥ screenH then
    (vcopy 0 (2 * screenW) ((screenH - 1) * screenW * 2) 0 s.vga).bind fun v =>
      (vblank s.attr screenW 0 v).map fun v => { s with vga := v, row := screenH - 1 }
  else some s

theorem finish_plain {s : Cons} (h1 : s.col < 80) (h2 : s.row < 25) : finish s = some s := by
  unfold finish
  have h3 : ¬ s.col ≥ screenW := by simp only [screenW]; omega
  have h4 : ¬ s.row ≥ screenH := by simp only [screenH]; omega
  simp only [h3, h4, if_false]

/-- `s` shows the cells of `t`, whatever the cursors. -/
def SameCells (s : Cons) (t : Term) : Prop :=
  ∀ r c, r < 25 → c < 80 → (s.vga (2 * (80 * r + c)), s.vga (2 * (80 * r + c) + 1)) = t.cell r c

/-- Wrapping at the end of a row, or after a new line: the terminal goes to the next row. -/
theorem finish_newline {s : Cons} {t : Term} (hc : SameCells s t) (ha : s.attr = t.attr) (hr : t.row < 25)
    (h : (s.col = 80 ∧ s.row = t.row) ∨ (s.col = 0 ∧ s.row = t.row + 1)) :
    ∃ s', finish s = some s' ∧ Shows s' t.newline := by
  unfold finish
  obtain ⟨s1, e1, p1, p2, p3, p4⟩ : ∃ s1, s1 = (if s.col ≥ screenW then { s with col := 0, row := s.row + 1 } else s) ∧
      s1.col = 0 ∧ s1.row = t.row + 1 ∧ s1.vga = s.vga ∧ s1.attr = t.attr := by
    refine ⟨_, rfl, ?_⟩
    rcases h with ⟨h1, h2⟩ | ⟨h1, h2⟩
    · rw [if_pos (by simp only [screenW]; omega)]
      exact ⟨rfl, by simp only [h2], rfl, ha⟩
    · rw [if_neg (by simp only [screenW]; omega)]
      exact ⟨h1, h2, rfl, ha⟩
  simp only
  rw [← e1]
  by_cases hb : t.row = 24
  · rw [if_pos (by simp only [screenH]; omega)]
    obtain ⟨v1, k1, k2⟩ := vcopy_spec 3840 0 s1.vga (by omega)
    obtain ⟨v2, k3, k4, k5⟩ := vblank_spec s1.attr 80 0 v1 (by omega)
    refine ⟨{ s1 with vga := v2, row := 24 }, ?_, ?_⟩
    · simp only [screenW, screenH]
      rw [show (25 - 1) * 80 * 2 = 3840 from rfl, show 2 * 80 = 160 from rfl, k1]
      simp only [Option.bind_some]
      rw [k3]
      rfl
    · unfold Term.newline
      rw [if_pos hb]
      refine ⟨by simp [Term.scroll, hb], p1, p4, by simp, by simp [p1], ?_⟩
      intro r c hr' hc'
      simp only [Term.scroll]
      by_cases hl : r = 24
      · subst hl
        rw [if_pos rfl]
        obtain ⟨q1, q2⟩ := k5 c (by omega) (by omega)
        rw [show 2 * (80 * 24 + c) = 3840 + 2 * c by omega, q1, q2, p4]
      · rw [if_neg hl, k4 _ (by omega), k4 _ (by omega), k2, k2, if_pos (by omega), if_pos (by omega), p3]
        have := hc (r + 1) c (by omega) hc'
        rw [← this, show 2 * (80 * (r + 1) + c) = 2 * (80 * r + c) + 160 by omega]
  · rw [if_neg (by simp only [screenH]; omega)]
    refine ⟨s1, rfl, ?_⟩
    unfold Term.newline
    rw [if_neg hb]
    refine ⟨by simp [p2], by simp [p1], by simp [p4], by omega, by omega, ?_⟩
    intro r c hr' hc'
    rw [p3]
    exact hc r c hr' hc'

theorem printChar_eq (s : Cons) (c : Nat) : printChar s c =
    if c = 13 then finish { s with col := 0 }
    else if c = 10 then finish { s with col := 0, row := s.row + 1 }
    else if c = 9 then finish { s with col := s.col + (8 - s.col % 8) }
    else (vput s.vga (160 * s.row + 2 * s.col) c).bind fun v => (vput v (160 * s.row + 2 * s.col + 1) s.attr).bind fun v =>
      finish { s with vga := v, col := s.col + 1 } := by
  by_cases h1 : c = 13
  · subst h1; simp [printChar, finish]
  · by_cases h2 : c = 10
    · subst h2; simp [printChar, finish]
    · by_cases h3 : c = 9
      · subst h3; simp [printChar, finish]
      · simp only [printChar, h1, h2, h3, if_false, not_false_eq_true, and_self, if_true, ne_eq, screenW]
        cases vput s.vga (160 * s.row + 2 * s.col) c with
        | none => simp
        | some v =>
          simp only [Option.bind_some]
          cases vput v (160 * s.row + 2 * s.col + 1) s.attr with
          | none => simp
          | some v => rfl

/-- Printing any character on any screen stays inside the video memory and does what a terminal does. -/
theorem print_shows {s : Cons} {t : Term} (h : Shows s t) (c : Nat) :
    ∃ s', printChar s c = some s' ∧ Shows s' (t.print c) := by
  obtain ⟨h1, h2, h3, h4, h5, h6⟩ := h
  have hc : SameCells s t := h6
  rw [printChar_eq]
  unfold Term.print
  by_cases c1 : c = 13
  · simp only [if_pos c1]
    refine ⟨_, finish_plain (by simp) h4, h1, rfl, h3, h4, by simp, h6⟩
  · simp only [if_neg c1]
    by_cases c2 : c = 10
    · simp only [if_pos c2]
      exact finish_newline hc h3 (by omega) (Or.inr ⟨rfl, by simp [h1]⟩)
    · simp only [if_neg c2]
      by_cases c3 : c = 9
      · simp only [if_pos c3]
        by_cases ht : t.col < 72
        · rw [if_pos ht]
          refine ⟨_, finish_plain (by simp only; omega) h4, h1, ?_, h3, h4, by simp only; omega, h6⟩
          simp only
          omega
        · rw [if_neg ht]
          exact finish_newline hc h3 (by omega) (Or.inl ⟨by simp only; omega, h1⟩)
      · simp only [if_neg c3]
        rw [vput_some (by omega)]
        simp only [Option.bind_some]
        rw [vput_some (by omega)]
        simp only [Option.bind_some]
        have cells : SameCells { s with vga := upd (upd s.vga (160 * s.row + 2 * s.col) c) (160 * s.row + 2 * s.col + 1) s.attr, col := s.col + 1 }
            { t with cell := fun r k => if r = t.row ∧ k = t.col then (c, t.attr) else t.cell r k } := by
          intro r k hr hk
          by_cases e : r = t.row ∧ k = t.col
          · obtain ⟨e1, e2⟩ := e
            subst e1 e2
            simp only [and_self, if_true]
            rw [show 2 * (80 * t.row + t.col) = 160 * s.row + 2 * s.col by omega, upd_same, upd_other _ _ (by omega), upd_same, h3]
          · simp only [if_neg e]
            rw [upd_other _ _ (by omega), upd_other _ _ (by omega), upd_other _ _ (by omega), upd_other _ _ (by omega)]
            exact h6 r k hr hk
        by_cases hw : t.col < 79
        · rw [if_pos hw]
          refine ⟨_, finish_plain (by simp only; omega) h4, h1, by simp [h2], h3, h4, by simp only; omega, ?_⟩
          exact cells
        · rw [if_neg hw]
          exact finish_newline cells h3 (by simp only; omega) (Or.inl ⟨by simp only; omega, h1⟩)

theorem clear_shows {s : Cons} {t : Term} (h : Shows s t) : ∃ s', consClear s = some s' ∧ Shows s' t.clear := by
  obtain ⟨h1, h2, h3, h4, h5, h6⟩ := h
  obtain ⟨v', k1, k2, k3⟩ := vclear_spec s.attr 2000 0 s.vga (by omega)
  refine ⟨{ s with vga := v', row := 0, col := 0 }, ?_, rfl, rfl, h3, by simp, by simp, ?_⟩
  · simp only [consClear, screenH, screenW]
    rw [show 25 * 80 = 2000 from rfl, k1]
    rfl
  · intro r c hr hc
    obtain ⟨q1, q2⟩ := k3 (80 * r + c) (by omega) (by omega)
    simp only [Term.clear]
    rw [q1, q2, h3]

/-- Whatever is written, the screen is the one of the terminal: every store falls inside the 4000 bytes of the video memory, the
cursor stays inside the 80 × 25 screen, the number returned is the number of characters printed.  The only exception is an escape
sequence cut by the end of the buffer (see C21). -/
theorem C56_console (bs : List Nat) : ∀ (s : Cons) (t : Term) (n : Nat), Shows s t →
    match t.write n bs with
    | none => consWrite s n bs = none
    | some (m, t') => ∃ s', consWrite s n bs = some (m, s') ∧ Shows s' t' ∧ s'.row < 25 ∧ s'.col < 80 := by
  suffices H : ∀ (t : Term) (n : Nat) (s : Cons), Shows s t →
      match t.write n bs with
      | none => consWrite s n bs = none
      | some (m, t') => ∃ s', consWrite s n bs = some (m, s') ∧ Shows s' t' by
    intro s t n h
    have := H t n s h
    revert this
    cases t.write n bs with
    | none => exact id
    | some x =>
      rintro ⟨s', e, hs⟩
      exact ⟨s', e, hs, hs.2.2.2.1, hs.2.2.2.2.1⟩
  intro t n
  fun_induction Term.write t n bs with
  | case1 t n => intro s h; exact ⟨s, rfl, h⟩
  | case2 t n rest ih =>
    intro s h
    obtain ⟨s', e, hs⟩ := clear_shows h
    simp only [consWrite, e, Option.bind_some]
    exact ih s' hs
  | case3 t n a rest ih =>
    intro s h
    simp only [consWrite]
    exact ih _ ⟨h.1, h.2.1, rfl, h.2.2.2⟩
  | case4 t n y rest ih =>
    intro s h
    simp only [consWrite]
    exact ih _ ⟨rfl, h.2.1, h.2.2.1, Nat.mod_lt _ (by simp [screenH]), h.2.2.2.2⟩
  | case5 t n x rest ih =>
    intro s h
    simp only [consWrite]
    exact ih _ ⟨h.1, rfl, h.2.2.1, h.2.2.2.1, Nat.mod_lt _ (by simp [screenW]), h.2.2.2.2.2⟩
  | case6 => intro s h; rfl
  | case7 => intro s h; rfl
  | case8 => intro s h; rfl
  | case9 => intro s h; rfl
  | case10 t n c rest h1 h2 h3 h4 h5 h6 h7 ih =>
    intro s h
    obtain ⟨s', e, hs⟩ := print_shows h c
    rw [consWrite]
    · simp only [e, Option.bind_some]
      exact ih s' hs
    all_goals assumption
  | case11 t n c rest h1 h2 h3 h4 h5 h6 h7 h8 h9 ih =>
    intro s h
    obtain ⟨s', e, hs⟩ := print_shows h c
    rw [consWrite]
    · simp only [e, Option.bind_some]
      exact ih s' hs
    all_goals assumption

/-- At boot the screen is clear; any text shows as on the terminal. -/
example : ∃ s t, Shows s t ∧ t.write 0 [72, 105, 10, 255, 2, 4, 9, 33] ≠ none := by
  refine ⟨⟨fun _ => 0, 24, 79, 7⟩, ⟨fun _ _ => (0, 0), 24, 79, 7⟩, ⟨rfl, rfl, rfl, by simp, by simp, fun _ _ _ _ => rfl⟩, ?_⟩
  simp [Term.write]

/-! ## Timer -/

theorem pitRun_spec (p : Pit) (h0 : p.counter = 0) (hc : p.clock = 0) (hr : p.rounds = 0) (hq : p.increment ≤ p.quantum) (hpos : 0 < p.quantum)
    (hb : 2 * p.quantum ≤ U32) (n : Nat) :
    (pitRun p n).increment = p.increment ∧ (pitRun p n).quantum = p.quantum ∧
    (pitRun p n).clock = n * p.increment % 18446744073709551616 ∧
    (pitRun p n).counter < p.quantum ∧ (pitRun p n).rounds * p.quantum + (pitRun p n).counter = n * p.increment := by
  induction n with
  | zero => simp [pitRun, h0, hc, hr, hpos]
  | succ n ih =>
    obtain ⟨i1, i2, i3, i4, i5⟩ := ih
    simp only [pitRun]
    generalize pitRun p n = q at *
    unfold pitInterrupt
    simp only
    rw [i1, i2, Nat.mod_eq_of_lt (b := U32) (by omega)]
    have e : (q.clock + p.increment) % 18446744073709551616 = (n + 1) * p.increment % 18446744073709551616 := by
      rw [i3, Nat.mod_add_mod, Nat.add_mul, Nat.one_mul]
    split
    · refine ⟨rfl, rfl, e, by simp only; omega, ?_⟩
      simp only
      rw [Nat.add_mul, Nat.add_mul, Nat.one_mul, Nat.one_mul]
      omega
    · refine ⟨rfl, rfl, e, by simp only; omega, ?_⟩
      simp only
      rw [Nat.add_mul, Nat.one_mul]
      omega

/-- For every pair of frequencies the initialisation accepts (a quantum of at least a nanosecond), after `n` interrupts the clock
shows `n` increments (modulo 2^64), the scheduler has been called once per whole quantum elapsed, and the accumulator holds the
rest. -/
theorem C57_timer (freq quantum : Nat) (p : Pit) (h : timerInit freq quantum = some p) (hq : quantum ≤ 1000000000) (n : Nat) :
    (pitRun p n).clock = n * p.increment % 18446744073709551616 ∧
    (pitRun p n).rounds = n * p.increment / p.quantum ∧
    (pitRun p n).counter = n * p.increment % p.quantum ∧ (pitRun p n).counter < p.quantum := by
  unfold timerInit at h
  split at h
  · cases h
  · rename_i hz
    simp only at h
    split at h
    · rename_i ha
      simp only [Option.some.injEq] at h
      have hpos : 0 < nsSecond / quantum := Nat.div_pos (by simpa [nsSecond] using hq) (by omega)
      have hle : nsSecond / quantum ≤ nsSecond := Nat.div_le_self _ _
      have := pitRun_spec p (by rw [← h]) (by rw [← h]) (by rw [← h]) (by rw [← h]; exact ha.2) (by rw [← h]; exact hpos)
        (by rw [← h]; simp only [nsSecond, U32] at *; omega) n
      obtain ⟨_, _, h3, h4, h5⟩ := this
      refine ⟨h3, ?_, ?_, h4⟩
      · rw [← h5, Nat.add_comm, Nat.add_mul_div_right _ _ (by omega), Nat.div_eq_of_lt h4, Nat.zero_add]
      · rw [← h5, Nat.add_comm, Nat.add_mul_mod_self_right, Nat.mod_eq_of_lt h4]
    · cases h

/-- Which configurations the initialisation accepts: an interrupt frequency of 19 Hz or more (the 16-bit counter of the timer divides 1193182
Hz), a scheduling frequency that is not zero, and a round of the scheduler no shorter than the time between two interrupts. -/
theorem C57_accepts (freq quantum : Nat) :
    (timerInit freq quantum).isSome ↔ 19 ≤ freq ∧ 0 < quantum ∧ 1193182 / freq * 1000000000 / 1193182 ≤ 1000000000 / quantum := by
  have key : freq ≠ 0 → (1193182 / freq ≤ 65536 ↔ 19 ≤ freq) := by
    intro h0
    rw [← Nat.lt_succ_iff, Nat.div_lt_iff_lt_mul (by omega)]
    omega
  unfold timerInit
  simp only
  by_cases h : freq = 0 ∨ quantum = 0
  · rw [if_pos h]; simp; omega
  · rw [if_neg h]
    have k := key (by omega)
    by_cases hh : oscillator / freq ≤ 65536 ∧ oscillator / freq * nsSecond / oscillator ≤ nsSecond / quantum
    · rw [if_pos hh]; simp only [Option.isSome_some, true_iff]; exact ⟨k.1 hh.1, by omega, hh.2⟩
    · rw [if_neg hh]; simp only [Option.isSome_none, Bool.false_eq_true, false_iff]
      rintro ⟨h1, h2, h3⟩
      exact hh ⟨k.2 h1, h3⟩

/-- The default configuration: 100 kHz, 1000 rounds a second. -/
example : timerInit 100000 1000 = some ⟨9219, 1000000, 0, 0, 0⟩ := by decide

/-- An increment is the time between two interrupts, rounded down to a nanosecond: the clock is never fast, and late by less than one
nanosecond per interrupt. -/
theorem C57_increment (freq quantum : Nat) (p : Pit) (h : timerInit freq quantum = some p) :
    p.increment * 1193182 ≤ (1193182 / freq) * 1000000000 ∧ (1193182 / freq) * 1000000000 < (p.increment + 1) * 1193182 := by
  unfold timerInit at h
  split at h
  · cases h
  · simp only at h
    split at h
    · simp only [Option.some.injEq] at h
      rw [← h]
      simp only [oscillator, nsSecond]
      omega
    · cases h

/-- With the default configuration an interrupt comes every 11 periods of the oscillator: 1193182 interrupts take exactly eleven
seconds, for which the clock counts 55142 nanoseconds less. -/
theorem C57_drift (p : Pit) (h : timerInit 100000 1000 = some p) (k : Nat) :
    1193182 * k * p.increment + 55142 * k = 11 * 1000000000 * k := by
  have e : p.increment = 9219 := by
    have h2 : timerInit 100000 1000 = some ⟨9219, 1000000, 0, 0, 0⟩ := by decide
    rw [h2] at h
    cases h
    rfl
  rw [e]
  omega

end Pok.X86
