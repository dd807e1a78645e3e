import Verif.Props.Remainder
/-!
# The square root

Property C91.  libpok/libm/e_sqrt.c, sqrt.c.
-/
namespace Pok.Libm
open Pok.Float Pok.Fpu

/-! ## The loops -/

/-- What the loop variables hold: the rest, twice the root so far, the root so far. -/
structure Holds (v : Sq) (Y S Q : Nat) : Prop where
  ix1 : v.ix1 < 2 ^ 32
  s1 : v.s1 < 2 ^ 32
  q1 : v.q1 < 2 ^ 32
  y : join v.ix0 v.ix1 = Y
  s : join v.s0 v.s1 = S
  q : join v.q v.q1 = Q

theorem top_bit {l : Nat} (hl : l < 2 ^ 32) : (l &&& 0x80000000) >>> 31 = l / 2 ^ 31 := by
  rw [and_sign hl, Nat.shiftRight_eq_div_pow, Nat.mul_div_cancel _ (by decide)]

theorem w_dbl {a b Y : Nat} (hb : b < 2 ^ 32) (h : a * 2 ^ 32 + b = Y) (hY : Y < 2 ^ 62) :
    (a + (a + b / 2 ^ 31)) % 2 ^ 32 * 2 ^ 32 + (b + b) % 2 ^ 32 = 2 * Y := by
  have ha : a < 2 ^ 30 := by omega
  have e : (a + (a + b / 2 ^ 31)) % 2 ^ 32 = a + (a + b / 2 ^ 31) := Nat.mod_eq_of_lt (by omega)
  rw [e, ← h]
  clear h hY e ha
  omega

theorem w_sub1 {a b s r Y S : Nat} (hb : b < 2 ^ 32) (h : a * 2 ^ 32 + b = Y) (hY : Y < 2 ^ 60) (hs : s * 2 ^ 32 + 0 = S) (hle : S + r * 2 ^ 32 ≤ Y) :
    (a + 2 ^ 32 - (s + r)) % 2 ^ 32 * 2 ^ 32 + b = Y - S - r * 2 ^ 32 := by
  have ha : a < 2 ^ 30 := by omega
  have hl : s + r ≤ a := by omega
  have e : (a + 2 ^ 32 - (s + r)) % 2 ^ 32 = a - (s + r) := by omega
  obtain ⟨d, rfl⟩ : ∃ d, a = s + r + d := ⟨a - (s + r), by omega⟩
  rw [e, ← h, ← hs, show s + r + d - (s + r) = d from by omega]
  symm
  apply Nat.sub_eq_of_eq_add
  apply Nat.sub_eq_of_eq_add
  ring

theorem w_add1 {s r S : Nat} (hs : s * 2 ^ 32 + 0 = S) (hS : S < 2 ^ 60) (hr : r ≤ 2 ^ 21) :
    (s + r + r) % 2 ^ 32 * 2 ^ 32 + 0 = S + 2 * (r * 2 ^ 32) := by
  have ha : s < 2 ^ 30 := by omega
  rw [Nat.mod_eq_of_lt (by omega), ← hs]; ring

theorem w_add1' {s r S : Nat} (hs : s * 2 ^ 32 + 0 = S) (hS : S < 2 ^ 60) (hr : r ≤ 2 ^ 21) :
    (s + r) % 2 ^ 32 * 2 ^ 32 + 0 = S + r * 2 ^ 32 := by
  have ha : s < 2 ^ 30 := by omega
  rw [Nat.mod_eq_of_lt (by omega), ← hs]; ring

theorem w_sub2 {a b s t r Y S : Nat} (hb : b < 2 ^ 32) (h : a * 2 ^ 32 + b = Y) (hY : Y < 2 ^ 60) (hs : s * 2 ^ 32 + t = S) (ht : t + r < 2 ^ 32)
    (hle : S + r ≤ Y) : (if b < t + r then ((a + 2 ^ 32 - s) % 2 ^ 32 + 2 ^ 32 - 1) % 2 ^ 32 else (a + 2 ^ 32 - s) % 2 ^ 32) * 2 ^ 32
      + (b + 2 ^ 32 - (t + r)) % 2 ^ 32 = Y - S - r := by
  have ha : a < 2 ^ 30 := by omega
  have hl : s ≤ a := by omega
  have e : (a + 2 ^ 32 - s) % 2 ^ 32 = a - s := by omega
  rw [e, ← h, ← hs]
  split
  · have hl : s + 1 ≤ a := by omega
    have e1 : (a - s + 2 ^ 32 - 1) % 2 ^ 32 = a - s - 1 := by omega
    have e2 : (b + 2 ^ 32 - (t + r)) % 2 ^ 32 = b + 2 ^ 32 - (t + r) := Nat.mod_eq_of_lt (by omega)
    obtain ⟨d, rfl⟩ : ∃ d, a = s + 1 + d := ⟨a - (s + 1), by omega⟩
    obtain ⟨c, hc⟩ : ∃ c, b + 2 ^ 32 = t + r + c := ⟨b + 2 ^ 32 - (t + r), by omega⟩
    rw [e1, e2, show s + 1 + d - s - 1 = d from by omega, hc, show t + r + c - (t + r) = c from by omega]
    symm
    apply Nat.sub_eq_of_eq_add
    apply Nat.sub_eq_of_eq_add
    calc (s + 1 + d) * 2 ^ 32 + b = s * 2 ^ 32 + d * 2 ^ 32 + (b + 2 ^ 32) := by ring
      _ = _ := by rw [hc]; ring
  · have e2 : (b + 2 ^ 32 - (t + r)) % 2 ^ 32 = b - (t + r) := by omega
    obtain ⟨d, rfl⟩ : ∃ d, a = s + d := ⟨a - s, by omega⟩
    obtain ⟨c, rfl⟩ : ∃ c, b = t + r + c := ⟨b - (t + r), by omega⟩
    rw [e2, show s + d - s = d from by omega, show t + r + c - (t + r) = c from by omega]
    symm
    apply Nat.sub_eq_of_eq_add
    apply Nat.sub_eq_of_eq_add
    ring

theorem w_add2 {s t r S : Nat} (hs : s * 2 ^ 32 + t = S) (hS : S < 2 ^ 60) (ht : (r = 2 ^ 31 ∧ t = 0) ∨ t + 4 * r ≤ 2 ^ 32) (hr : 0 < r) :
    (if t + r + r ≥ 2 ^ 32 then (s + 1) % 2 ^ 32 else s) * 2 ^ 32 + (t + r + r) % 2 ^ 32 = S + 2 * r := by
  have ha : s < 2 ^ 30 := by omega
  split
  · have : r = 2 ^ 31 ∧ t = 0 := by omega
    rw [Nat.mod_eq_of_lt (by omega), this.1, this.2, ← hs, this.2]; ring_nf
  · rw [Nat.mod_eq_of_lt (by omega), ← hs]; ring

theorem w_add2' {q t r Q : Nat} (hs : q * 2 ^ 32 + t = Q) (ht : t + r < 2 ^ 32) : q * 2 ^ 32 + (t + r) % 2 ^ 32 = Q + r := by
  rw [Nat.mod_eq_of_lt ht]; omega

theorem w_carry {t r : Nat} (ht : (r = 2 ^ 31 ∧ t = 0) ∨ t + 4 * r ≤ 2 ^ 32) (hr : 0 < r) :
    ((t + r) / 2 ^ 31 * 2 ^ 31 = 0x80000000 ∧ (t + r + r) % 2 ^ 32 / 2 ^ 31 * 2 ^ 31 = 0) ↔ t + r + r ≥ 2 ^ 32 := by
  rcases ht with ⟨h1, h2⟩ | h
  · subst h1; subst h2; decide
  · rw [Nat.mod_eq_of_lt (by omega)]; omega

theorem holds_mk {a b c d e f Y S Q : Nat} : Holds ⟨a, b, c, d, e, f⟩ Y S Q ↔
    b < 2 ^ 32 ∧ d < 2 ^ 32 ∧ f < 2 ^ 32 ∧ a * 2 ^ 32 + b = Y ∧ c * 2 ^ 32 + d = S ∧ e * 2 ^ 32 + f = Q :=
  ⟨fun h => ⟨h.ix1, h.s1, h.q1, h.y, h.s, h.q⟩, fun h => ⟨h.1, h.2.1, h.2.2.1, h.2.2.2.1, h.2.2.2.2.1, h.2.2.2.2.2⟩⟩

theorem dbl_mk (a b c d e f : Nat) : Sq.dbl ⟨a, b, c, d, e, f⟩ = ⟨(a + (a + (b &&& 0x80000000) >>> 31)) % 2 ^ 32, (b + b) % 2 ^ 32, c, d, e, f⟩ := rfl

theorem dbl_holds {a b c d e f Y S Q : Nat} (h : Holds ⟨a, b, c, d, e, f⟩ Y S Q) (hY : Y < 2 ^ 62) : Holds (Sq.dbl ⟨a, b, c, d, e, f⟩) (2 * Y) S Q := by
  rw [holds_mk] at h
  obtain ⟨h1, h2, h3, h4, h5, h6⟩ := h
  rw [dbl_mk, holds_mk, top_bit h1]
  exact ⟨Nat.mod_lt _ (by decide), h2, h3, w_dbl h1 h4 hY, h5, h6⟩

theorem step1_mk (r a b c d e f : Nat) : sqrtStep1 r ⟨a, b, c, d, e, f⟩ =
    Sq.dbl (if int32 ((c + r) % 2 ^ 32) ≤ int32 a then ⟨(a + 2 ^ 32 - (c + r) % 2 ^ 32) % 2 ^ 32, b, ((c + r) % 2 ^ 32 + r) % 2 ^ 32, d, (e + r) % 2 ^ 32, f⟩
      else ⟨a, b, c, d, e, f⟩) := rfl

theorem step2_mk (r a b c d e f : Nat) : sqrtStep2 r ⟨a, b, c, d, e, f⟩ =
    Sq.dbl (if int32 c < int32 a ∨ (c = a ∧ (d + r) % 2 ^ 32 ≤ b) then
      ⟨if b < (d + r) % 2 ^ 32 then ((a + 2 ^ 32 - c) % 2 ^ 32 + 2 ^ 32 - 1) % 2 ^ 32 else (a + 2 ^ 32 - c) % 2 ^ 32,
        (b + 2 ^ 32 - (d + r) % 2 ^ 32) % 2 ^ 32,
        if (d + r) % 2 ^ 32 &&& 0x80000000 = 0x80000000 ∧ ((d + r) % 2 ^ 32 + r) % 2 ^ 32 &&& 0x80000000 = 0 then (c + 1) % 2 ^ 32 else c,
        ((d + r) % 2 ^ 32 + r) % 2 ^ 32, e, (f + r) % 2 ^ 32⟩
      else ⟨a, b, c, d, e, f⟩) := rfl

/-- One step of the digit by digit method. -/
theorem step1 {a b c e Y S Q k : Nat} (h : Holds ⟨a, b, c, 0, e, 0⟩ Y S Q) (hk : k ≤ 21) (hY : Y < 2 ^ 60) (hS : S < 2 ^ 60) (hQ : Q < 2 ^ 60) :
    ∃ a' b' c' e', sqrtStep1 (2 ^ k) ⟨a, b, c, 0, e, 0⟩ = ⟨a', b', c', 0, e', 0⟩ ∧
    ((S + 2 ^ (k + 32) ≤ Y → Holds ⟨a', b', c', 0, e', 0⟩ (2 * (Y - S - 2 ^ (k + 32))) (S + 2 * 2 ^ (k + 32)) (Q + 2 ^ (k + 32)))
      ∧ (¬ S + 2 ^ (k + 32) ≤ Y → Holds ⟨a', b', c', 0, e', 0⟩ (2 * Y) S Q)) := by
  have hr : 2 ^ k ≤ 2 ^ 21 := Nat.pow_le_pow_right (by omega) hk
  have hR : 2 ^ (k + 32) = 2 ^ k * 2 ^ 32 := by rw [Nat.pow_add]
  rw [hR, step1_mk]
  generalize 2 ^ k = r at *
  have hh := h
  rw [holds_mk] at h
  obtain ⟨h1, h2, h3, h4, h5, h6⟩ := h
  have hlt : a < 2 ^ 28 ∧ c < 2 ^ 28 ∧ e < 2 ^ 28 := by omega
  obtain ⟨hlt1, hlt2, hlt3⟩ := hlt
  rw [Nat.mod_eq_of_lt (show c + r < 2 ^ 32 by omega)]
  have ei : int32 (c + r) ≤ int32 a ↔ S + r * 2 ^ 32 ≤ Y := by
    unfold int32
    rw [if_pos (by omega), if_pos (by omega)]
    omega
  by_cases hc : S + r * 2 ^ 32 ≤ Y
  · rw [if_pos (ei.2 hc)]
    have hb : Y - S - r * 2 ^ 32 < 2 ^ 62 := Nat.lt_of_le_of_lt (Nat.le_trans (Nat.sub_le _ _) (Nat.sub_le _ _)) (Nat.lt_trans hY (by decide))
    have hd := dbl_holds (holds_mk.2 ⟨h1, h2, h3, w_sub1 h1 h4 hY h5 hc, w_add1 h5 hS hr, w_add1' h6 hQ hr⟩) hb
    rw [dbl_mk] at *
    exact ⟨_, _, _, _, rfl, fun _ => hd, fun hn => absurd hc hn⟩
  · rw [if_neg (fun hh => hc (ei.1 hh))]
    have hd := dbl_holds hh (show Y < 2 ^ 62 by omega)
    rw [dbl_mk] at *
    exact ⟨_, _, _, _, rfl, fun hn => absurd hn hc, fun _ => hd⟩

theorem step2 {a b c d e f Y S Q r : Nat} (h : Holds ⟨a, b, c, d, e, f⟩ Y S Q) (hr0 : 0 < r)
    (hs1 : (r = 2 ^ 31 ∧ d = 0) ∨ d + 4 * r ≤ 2 ^ 32) (hq1 : f + r < 2 ^ 32) (hY : Y < 2 ^ 60) (hS : S < 2 ^ 60) :
    (S + r ≤ Y → Holds (sqrtStep2 r ⟨a, b, c, d, e, f⟩) (2 * (Y - S - r)) (S + 2 * r) (Q + r))
      ∧ (¬ S + r ≤ Y → Holds (sqrtStep2 r ⟨a, b, c, d, e, f⟩) (2 * Y) S Q) := by
  have hh := h
  rw [holds_mk] at h
  obtain ⟨h1, h2, h3, h4, h5, h6⟩ := h
  have hlt : a < 2 ^ 28 ∧ c < 2 ^ 28 := by omega
  obtain ⟨hlt1, hlt2⟩ := hlt
  rw [step2_mk, Nat.mod_eq_of_lt (show d + r < 2 ^ 32 by omega)]
  have ei : (int32 c < int32 a ∨ c = a ∧ d + r ≤ b) ↔ S + r ≤ Y := by
    unfold int32
    rw [if_pos (by omega), if_pos (by omega)]
    omega
  constructor
  · intro hc
    rw [if_pos (ei.2 hc)]
    have hb : Y - S - r < 2 ^ 62 := Nat.lt_of_le_of_lt (Nat.le_trans (Nat.sub_le _ _) (Nat.sub_le _ _)) (Nat.lt_trans hY (by decide))
    have hcarry : (d + r &&& 0x80000000 = 0x80000000 ∧ (d + r + r) % 2 ^ 32 &&& 0x80000000 = 0) ↔ d + r + r ≥ 2 ^ 32 := by
      rw [and_sign (by omega), and_sign (Nat.mod_lt _ (by decide))]; exact w_carry hs1 hr0
    rw [if_congr hcarry rfl rfl]
    exact dbl_holds (holds_mk.2 ⟨Nat.mod_lt _ (by decide), Nat.mod_lt _ (by decide), Nat.mod_lt _ (by decide),
      w_sub2 h1 h4 hY h5 (by omega) hc, w_add2 h5 hS hs1 hr0, w_add2' h6 hq1⟩) hb
  · intro hc
    rw [if_neg (fun hh => hc (ei.1 hh))]
    exact dbl_holds hh (by omega)

/-- Before the step for bit `k` of the root of `T`. -/
structure Inv (T k : Nat) (v : Sq) (Y Q : Nat) : Prop where
  holds : Holds v Y (2 * Q) Q
  eq : Y * 2 ^ k + Q * Q = T
  div : 2 ^ (k + 1) ∣ Q
  lt : Y < 4 * Q + 4 * 2 ^ k
  le : Q + 2 ^ (k + 1) ≤ 2 ^ 54

/-- After the last step. -/
structure Done (T : Nat) (v : Sq) (Y Q : Nat) : Prop where
  holds : Holds v Y (2 * Q) Q
  eq : Y + 2 * (Q * Q) = 2 * T
  lt : Y < 4 * Q + 2
  le : Q < 2 ^ 54

theorem inv_small {T k : Nat} {v : Sq} {Y Q : Nat} (h : Inv T k v Y Q) : Y < 2 ^ 58 ∧ Q < 2 ^ 54 ∧ 2 ^ k < 2 ^ 54 := by
  have h1 := h.lt
  have h2 := h.le
  have h3 : 2 ^ (k + 1) = 2 * 2 ^ k := by rw [Nat.pow_succ]; omega
  have h4 := Nat.two_pow_pos k
  omega

/-- The arithmetic of a step. -/
theorem inv_next {T k : Nat} {v w : Sq} {Y Q : Nat} (h : Inv T (k + 1) v Y Q)
    (hw : (2 * Q + 2 ^ (k + 1) ≤ Y → Holds w (2 * (Y - 2 * Q - 2 ^ (k + 1))) (2 * Q + 2 * 2 ^ (k + 1)) (Q + 2 ^ (k + 1)))
      ∧ (¬ 2 * Q + 2 ^ (k + 1) ≤ Y → Holds w (2 * Y) (2 * Q) Q)) :
    ∃ Y' Q', Inv T k w Y' Q' := by
  obtain ⟨h1, h2, h3, h4, h5⟩ := h
  have e : 2 ^ (k + 1) = 2 * 2 ^ k := by rw [Nat.pow_succ]; omega
  have e2 : 2 ^ (k + 1 + 1) = 4 * 2 ^ k := by rw [Nat.pow_succ, Nat.pow_succ]; omega
  have hp := Nat.two_pow_pos k
  obtain ⟨c, hc⟩ := h3
  rw [e2] at hc h5
  by_cases hle : 2 * Q + 2 ^ (k + 1) ≤ Y
  · have hw := hw.1 hle
    refine ⟨2 * (Y - 2 * Q - 2 ^ (k + 1)), Q + 2 ^ (k + 1), ?_, ?_, ?_, ?_, ?_⟩
    · rw [show 2 * (Q + 2 ^ (k + 1)) = 2 * Q + 2 * 2 ^ (k + 1) from by ring]; exact hw
    · rw [e] at *
      obtain ⟨d, rfl⟩ : ∃ d, Y = 2 * Q + 2 * 2 ^ k + d := ⟨Y - (2 * Q + 2 * 2 ^ k), by omega⟩
      rw [show 2 * Q + 2 * 2 ^ k + d - 2 * Q - 2 * 2 ^ k = d from by omega, ← h2]
      ring
    · rw [e]; exact ⟨2 * c + 1, by rw [hc]; ring⟩
    · rw [e] at *; omega
    · rw [e] at *
      have : c + 1 ≤ 2 ^ 54 / (4 * 2 ^ k) := by
        rw [Nat.le_div_iff_mul_le (by omega)]
        calc (c + 1) * (4 * 2 ^ k) = 4 * 2 ^ k * c + 4 * 2 ^ k := by ring
          _ ≤ 2 ^ 54 := by rw [← hc]; omega
      omega
  · have hw := hw.2 hle
    refine ⟨2 * Y, Q, hw, ?_, ?_, ?_, ?_⟩
    · rw [← h2, e]; ring
    · rw [e]; exact ⟨2 * c, by rw [hc]; ring⟩
    · rw [e] at *; omega
    · rw [e] at *; omega

theorem done_next {T : Nat} {v w : Sq} {Y Q : Nat} (h : Inv T 0 v Y Q)
    (hw : (2 * Q + 1 ≤ Y → Holds w (2 * (Y - 2 * Q - 1)) (2 * Q + 2 * 1) (Q + 1)) ∧ (¬ 2 * Q + 1 ≤ Y → Holds w (2 * Y) (2 * Q) Q)) :
    ∃ Y' Q', Done T w Y' Q' := by
  obtain ⟨h1, h2, h3, h4, h5⟩ := h
  rw [Nat.pow_zero] at h2 h4
  by_cases hle : 2 * Q + 1 ≤ Y
  · have hw := hw.1 hle
    refine ⟨2 * (Y - 2 * Q - 1), Q + 1, by rw [show 2 * (Q + 1) = 2 * Q + 2 * 1 from by ring]; exact hw, ?_, by omega, by omega⟩
    obtain ⟨d, rfl⟩ : ∃ d, Y = 2 * Q + 1 + d := ⟨Y - (2 * Q + 1), by omega⟩
    rw [show 2 * Q + 1 + d - 2 * Q - 1 = d from by omega, ← h2]
    ring
  · have hw := hw.2 hle
    exact ⟨2 * Y, Q, hw, by rw [← h2]; ring, by omega, by omega⟩

/-- The first loop: bits 53 to 32. -/
theorem loop1 {T : Nat} (k : Nat) : ∀ (a b c e Y Q : Nat), k ≤ 21 → Inv T (k + 32) ⟨a, b, c, 0, e, 0⟩ Y Q →
    ∃ Y' Q', Inv T 31 (sqrtLoop sqrtStep1 k ⟨a, b, c, 0, e, 0⟩) Y' Q' := by
  induction k with
  | zero =>
    intro a b c e Y Q _ h
    obtain ⟨b1, b2, b3⟩ := inv_small h
    obtain ⟨a', b', c', e', hs, hst⟩ := step1 (k := 0) h.holds (by omega) (by omega) (by omega) (by omega)
    rw [show 0 + 32 = 31 + 1 from rfl] at hst h
    rw [Nat.pow_zero] at hs
    rw [sqrtLoop, hs]
    exact inv_next (k := 31) (w := ⟨a', b', c', 0, e', 0⟩) h hst
  | succ k ih =>
    intro a b c e Y Q hk h
    obtain ⟨b1, b2, b3⟩ := inv_small h
    obtain ⟨a', b', c', e', hs, hst⟩ := step1 (k := k + 1) h.holds hk (by omega) (by omega) (by omega)
    rw [show k + 1 + 32 = k + 32 + 1 from by omega] at hst h
    obtain ⟨Y', Q', h'⟩ := inv_next (k := k + 32) (w := ⟨a', b', c', 0, e', 0⟩) h hst
    rw [sqrtLoop, hs]
    exact ih _ _ _ _ Y' Q' (by omega) h'

theorem words_fit {T k a b c d e f Y Q : Nat} (hk : k ≤ 31) (h : Inv T k ⟨a, b, c, d, e, f⟩ Y Q) :
    ((2 ^ k = 2 ^ 31 ∧ d = 0) ∨ d + 4 * 2 ^ k ≤ 2 ^ 32) ∧ f + 2 ^ k < 2 ^ 32 := by
  obtain ⟨w, hc⟩ := h.div
  have hp := Nat.two_pow_pos k
  have ee : 2 ^ (k + 1) = 2 * 2 ^ k := by rw [Nat.pow_succ]; omega
  obtain ⟨_, hs1, hq1, _, hs, hq⟩ := holds_mk.1 h.holds
  have es : d = (2 * Q) % 2 ^ 32 := by omega
  have eq : f = Q % 2 ^ 32 := by omega
  rcases Nat.lt_or_ge k 31 with h31 | h31
  · have hsplit : (2 : Nat) ^ 32 = 2 ^ (30 - k) * (4 * 2 ^ k) := by
      have : (4 : Nat) * 2 ^ k = 2 ^ (k + 2) := by rw [Nat.pow_add]; omega
      rw [this, ← Nat.pow_add]; congr 1; omega
    have e1 : (2 * Q) % 2 ^ 32 = w % 2 ^ (30 - k) * (4 * 2 ^ k) := by
      rw [hsplit, hc, ee, show 2 * (2 * 2 ^ k * w) = w * (4 * 2 ^ k) from by ring, Nat.mul_mod_mul_right]
    have hlt := Nat.mod_lt w (Nat.two_pow_pos (30 - k))
    have b1 : (w % 2 ^ (30 - k) + 1) * (4 * 2 ^ k) ≤ 2 ^ (30 - k) * (4 * 2 ^ k) := Nat.mul_le_mul_right _ hlt
    have hsplit2 : (2 : Nat) ^ 32 = 2 ^ (31 - k) * (2 * 2 ^ k) := by
      rw [← ee, ← Nat.pow_add]; congr 1; omega
    have e2 : Q % 2 ^ 32 = w % 2 ^ (31 - k) * (2 * 2 ^ k) := by
      rw [hsplit2, hc, ee, show 2 * 2 ^ k * w = w * (2 * 2 ^ k) from by ring, Nat.mul_mod_mul_right]
    have hlt2 := Nat.mod_lt w (Nat.two_pow_pos (31 - k))
    have b2 : (w % 2 ^ (31 - k) + 1) * (2 * 2 ^ k) ≤ 2 ^ (31 - k) * (2 * 2 ^ k) := Nat.mul_le_mul_right _ hlt2
    rw [Nat.add_mul, ← e1, ← hsplit] at b1
    rw [Nat.add_mul, ← e2, ← hsplit2] at b2
    exact ⟨Or.inr (by omega), by omega⟩
  · have h31 : k = 31 := by omega
    subst h31
    exact ⟨Or.inl ⟨rfl, by omega⟩, by omega⟩

/-- The second loop: bits 31 to 0. -/
theorem loop2 {T : Nat} (k : Nat) : ∀ (v : Sq) (Y Q : Nat), k ≤ 31 → Inv T k v Y Q → ∃ Y' Q', Done T (sqrtLoop sqrtStep2 k v) Y' Q' := by
  induction k with
  | zero =>
    rintro ⟨a, b, c, d, e, f⟩ Y Q hk h
    obtain ⟨b1, b2, b3⟩ := inv_small h
    obtain ⟨w1, w2⟩ := words_fit hk h
    rw [Nat.pow_zero] at w1 w2
    have hst := step2 (r := 1) h.holds (by omega) w1 w2 (by omega) (by omega)
    rw [sqrtLoop]
    exact done_next h hst
  | succ k ih =>
    rintro ⟨a, b, c, d, e, f⟩ Y Q hk h
    obtain ⟨b1, b2, b3⟩ := inv_small h
    obtain ⟨w1, w2⟩ := words_fit hk h
    obtain ⟨Y', Q', h'⟩ := inv_next h (step2 h.holds (Nat.two_pow_pos _) w1 w2 (by omega) (by omega))
    rw [sqrtLoop]
    exact ih _ Y' Q' (by omega) h'

/-- The loops compute the integer root, and the rest says whether it is exact. -/
theorem root_spec {a b Y : Nat} (hb : b < 2 ^ 32) (hy : a * 2 ^ 32 + b = Y) (hY : Y < 2 ^ 55) :
    ∃ Y' Q, Done (Y * 2 ^ 53) (sqrtLoop sqrtStep2 31 (sqrtLoop sqrtStep1 21 ⟨a, b, 0, 0, 0, 0⟩)) Y' Q := by
  have h0 : Inv (Y * 2 ^ 53) (21 + 32) ⟨a, b, 0, 0, 0, 0⟩ Y 0 :=
    ⟨holds_mk.2 ⟨hb, by decide, by decide, hy, rfl, rfl⟩, by rw [Nat.zero_mul, Nat.add_zero], ⟨0, rfl⟩, by omega, by decide⟩
  obtain ⟨Y', Q', h'⟩ := loop1 21 a b 0 0 Y 0 (by omega) h0
  exact loop2 31 _ Y' Q' (by omega) h'

/-! ## Before the loops -/

theorem bit_20 {x : Nat} (h : x < 2 ^ 21) : x &&& 0x00100000 = 0 ↔ x < 2 ^ 20 := by
  have e : (0x00100000 : Nat) = not32 (2 ^ 20 - 1) &&& (2 ^ 21 - 1) := by decide
  rw [e, ← Nat.and_assoc, and_not (by omega) (by decide), and_mask]
  omega

theorem keep_20 {h : Nat} (h1 : 2 ^ 20 ≤ h) (h2 : h < 2 ^ 21) : h &&& 0x000fffff ||| 0x00100000 = h := by
  rw [show (0x000fffff : Nat) = 2 ^ 20 - 1 from rfl, and_mask, Nat.or_comm]
  have := or_add (a := 1) (b := h % 2 ^ 20) (i := 20) (by omega)
  rw [Nat.one_mul] at this
  rw [show (0x00100000 : Nat) = 2 ^ 20 from rfl, this]
  omega

theorem sub2_spec (fuel : Nat) : ∀ {h i : Nat}, h < 2 ^ 21 → 2 ^ 20 ≤ h * 2 ^ fuel →
    ∃ j, j ≤ fuel ∧ sqrtSub2 fuel h i = (h * 2 ^ j, i + j) ∧ 2 ^ 20 ≤ h * 2 ^ j ∧ h * 2 ^ j < 2 ^ 21 ∧ (j = 0 → 2 ^ 20 ≤ h) := by
  induction fuel with
  | zero =>
    intro h i h1 h2
    rw [Nat.pow_zero, Nat.mul_one] at h2
    exact ⟨0, by omega, by rw [sqrtSub2, Nat.pow_zero, Nat.mul_one, Nat.add_zero], by omega, by omega, fun _ => h2⟩
  | succ fuel ih =>
    intro h i h1 h2
    rw [sqrtSub2]
    by_cases hb : h < 2 ^ 20
    · rw [if_pos ((bit_20 h1).2 hb), Nat.shiftLeft_eq, Nat.pow_one, Nat.mod_eq_of_lt (by omega)]
      obtain ⟨j, hj, e, e1, e2, _⟩ := ih (h := h * 2) (i := i + 1) (by omega) (by rw [Nat.pow_succ] at h2; rw [Nat.mul_assoc, Nat.mul_comm 2]; exact h2)
      have e3 : h * 2 * 2 ^ j = h * 2 ^ (j + 1) := by rw [Nat.pow_succ]; ring
      rw [e3] at e e1 e2
      exact ⟨j + 1, by omega, by rw [e]; congr 1; omega, e1, e2, fun hz => by omega⟩
    · rw [if_neg (fun hh => hb ((bit_20 h1).1 hh))]
      exact ⟨0, by omega, by rw [Nat.pow_zero, Nat.mul_one, Nat.add_zero], by omega, by omega, fun _ => by omega⟩

/-- The end of the normalisation. -/
theorem fin_spec {h l : Nat} (h0 : 0 < h) (h1 : h < 2 ^ 21) (hl : l < 2 ^ 32) (hor : h < 2 ^ 20 ∨ l % 2 ^ 21 = 0) :
    ∃ j, (sqrtSub2 21 h 0).2 = j ∧ (l <<< j) % 2 ^ 32 < 2 ^ 32
      ∧ join (((sqrtSub2 21 h 0).1 ||| l >>> ((32 - j) % 32)) &&& 0x000fffff ||| 0x00100000) ((l <<< j) % 2 ^ 32) = join h l * 2 ^ j
      ∧ 2 ^ 52 ≤ join h l * 2 ^ j ∧ join h l * 2 ^ j < 2 ^ 53 := by
  obtain ⟨j, hj, e, e1, e2, e3⟩ := sub2_spec 21 (h := h) (i := 0) h1 (by
    calc 2 ^ 20 ≤ 1 * 2 ^ 21 := by decide
      _ ≤ h * 2 ^ 21 := Nat.mul_le_mul_right _ h0)
  rw [e]
  simp only [Nat.zero_add]
  have hp := Nat.two_pow_pos j
  have hrange : 2 ^ 52 ≤ join h l * 2 ^ j ∧ join h l * 2 ^ j < 2 ^ 53 := by
    unfold join
    constructor
    · calc 2 ^ 52 = 2 ^ 20 * 2 ^ 32 := by decide
        _ ≤ h * 2 ^ j * 2 ^ 32 := Nat.mul_le_mul_right _ e1
        _ = h * 2 ^ 32 * 2 ^ j := by ring
        _ ≤ (h * 2 ^ 32 + l) * 2 ^ j := Nat.mul_le_mul_right _ (Nat.le_add_right _ _)
    · have hj2 : (h + 1) * 2 ^ j ≤ 2 ^ 21 := by
        have hle : j ≤ 21 := hj
        have hs := pow_split hle
        have : h < 2 ^ (21 - j) := Nat.lt_of_mul_lt_mul_right (a := 2 ^ j) (by rw [← hs]; exact e2)
        rw [hs]; exact Nat.mul_le_mul_right _ this
      calc (h * 2 ^ 32 + l) * 2 ^ j < (h * 2 ^ 32 + 2 ^ 32) * 2 ^ j := Nat.mul_lt_mul_of_pos_right (by omega) hp
        _ = (h + 1) * 2 ^ j * 2 ^ 32 := by ring
        _ ≤ 2 ^ 21 * 2 ^ 32 := Nat.mul_le_mul_right _ hj2
        _ = 2 ^ 53 := by decide
  refine ⟨j, rfl, Nat.mod_lt _ (by decide), ?_, hrange⟩
  by_cases hz : j = 0
  · subst hz
    have hb := e3 rfl
    have hm : l % 2 ^ 21 = 0 := by omega
    have h20 : l % 2 ^ 20 = 0 := by omega
    rw [Nat.pow_zero, Nat.mul_one, Nat.mul_one, Nat.shiftLeft_zero, Nat.mod_eq_of_lt hl, show (32 - 0) % 32 = 0 from rfl, Nat.shiftRight_zero,
      Nat.and_or_distrib_right]
    have : l &&& 0x000fffff = 0 := by rw [show (0x000fffff : Nat) = 2 ^ 20 - 1 from rfl, and_mask, h20]
    rw [this, Nat.or_zero, keep_20 hb h1]
  · have hj32 : (32 - j) % 32 = 32 - j := Nat.mod_eq_of_lt (by omega)
    have hs := shl_join (h := h) (l := l) (n := j) hl (by omega) (by omega)
    rw [Nat.shiftLeft_eq h, Nat.mod_eq_of_lt (show h * 2 ^ j < 2 ^ 32 by omega)] at hs
    rw [hj32]
    have hk : 2 ^ 20 ≤ h * 2 ^ j ||| l >>> (32 - j) ∧ h * 2 ^ j ||| l >>> (32 - j) < 2 ^ 21 := by
      have hl2 : (l <<< j) % 2 ^ 32 < 2 ^ 32 := Nat.mod_lt _ (by decide)
      unfold join at hs hrange
      rw [← hs] at hrange
      generalize (l <<< j) % 2 ^ 32 = l' at *
      generalize h * 2 ^ j ||| l >>> (32 - j) = h' at *
      omega
    rw [keep_20 hk.1 hk.2]
    exact hs

/-- The normalised number: 53 bits and the exponent. -/
theorem norm_spec {h l : Nat} (hl : l < 2 ^ 32) (hh : h < 0x7ff00000) (h0 : join h l ≠ 0) :
    ∃ X n : Nat, (sqrtNorm h l).2.1 < 2 ^ 32 ∧ join ((sqrtNorm h l).1 &&& 0x000fffff ||| 0x00100000) (sqrtNorm h l).2.1 = X
      ∧ 2 ^ 52 ≤ X ∧ X < 2 ^ 53 ∧ n ≤ 2097 ∧ (sqrtNorm h l).2.2 = (n : Int) - 51 ∧ units (join h l) * 2 ^ 52 = X * 2 ^ n := by
  unfold sqrtNorm
  simp only [Nat.shiftRight_eq_div_pow h]
  by_cases hsub : h < 2 ^ 20
  · have hm : ((h / 2 ^ 20 : Nat) : Int) = 0 := by omega
    rw [hm]
    simp only [if_true]
    have hJ : join h l < 2 ^ 52 := join_lt hsub hl
    rw [units_small hJ]
    -- after the first loop
    have h1 : ∃ w h' l' : Nat, sqrtSub1 3 h l 0 = (h', l', -(w : Int)) ∧ join h' l' = join h l * 2 ^ w ∧ 0 < h' ∧ h' < 2 ^ 21 ∧ l' < 2 ^ 32
        ∧ (h' < 2 ^ 20 ∨ l' % 2 ^ 21 = 0) := by
      rw [sqrtSub1]
      by_cases hz : h = 0
      · subst hz
        rw [if_pos rfl, Nat.zero_or, Nat.shiftRight_eq_div_pow, Nat.shiftLeft_eq, sqrtSub1]
        have hl0 : 0 < l := by unfold join at h0; omega
        by_cases hz2 : l / 2 ^ 11 = 0
        · rw [if_pos hz2, hz2, Nat.zero_or, Nat.shiftRight_eq_div_pow, Nat.shiftLeft_eq, sqrtSub1]
          have e1 : l * 2 ^ 21 % 2 ^ 32 = l * 2 ^ 21 := Nat.mod_eq_of_lt (by omega)
          rw [e1]
          have e2 : l * 2 ^ 21 / 2 ^ 11 = l * 2 ^ 10 := by omega
          have e3 : l * 2 ^ 21 * 2 ^ 21 % 2 ^ 32 = 0 := by
            rw [show l * 2 ^ 21 * 2 ^ 21 = l * 2 ^ 10 * 2 ^ 32 from by ring, Nat.mul_mod_left]
          rw [e2, e3, if_neg (by omega)]
          refine ⟨42, l * 2 ^ 10, 0, by norm_num, ?_, by omega, by omega, by decide, Or.inr rfl⟩
          unfold join
          ring
        · rw [if_neg hz2]
          refine ⟨21, l / 2 ^ 11, l * 2 ^ 21 % 2 ^ 32, by norm_num, ?_, by omega, by omega, Nat.mod_lt _ (by decide), Or.inr (by omega)⟩
          unfold join
          have e1 : l * 2 ^ 21 % 2 ^ 32 = (l % 2 ^ 11) * 2 ^ 21 := by omega
          rw [e1]
          calc l / 2 ^ 11 * 2 ^ 32 + l % 2 ^ 11 * 2 ^ 21 = (2 ^ 11 * (l / 2 ^ 11) + l % 2 ^ 11) * 2 ^ 21 := by ring
            _ = (0 * 2 ^ 32 + l) * 2 ^ 21 := by rw [Nat.div_add_mod]; ring
      · rw [if_neg hz]
        exact ⟨0, h, l, by norm_num, by rw [Nat.pow_zero, Nat.mul_one], by omega, by omega, hl, Or.inl hsub⟩
    obtain ⟨w, h', l', e, ej, p1, p2, p3, p4⟩ := h1
    rw [e]
    simp only
    obtain ⟨j, ej2, f1, f2, f3, f4⟩ := fin_spec p1 p2 p3 p4
    rw [ej2]
    have ex : join h' l' * 2 ^ j = join h l * 2 ^ (w + j) := by rw [ej, Nat.pow_add]; ring
    rw [ex] at f2 f3 f4
    have hz : w + j ≤ 52 := by
      by_contra hc
      have : 2 ^ 53 ≤ 2 ^ (w + j) := Nat.pow_le_pow_right (by omega) (by omega)
      have : 1 * 2 ^ (w + j) ≤ join h l * 2 ^ (w + j) := Nat.mul_le_mul_right _ (Nat.pos_of_ne_zero h0)
      omega
    refine ⟨join h l * 2 ^ (w + j), 52 - (w + j), f1, f2, f3, f4, by omega, by omega, ?_⟩
    rw [Nat.mul_assoc, ← Nat.pow_add]; congr 2; omega
  · have hm : ¬ ((h / 2 ^ 20 : Nat) : Int) = 0 := by omega
    rw [if_neg hm]
    simp only
    have e1 : h &&& 0x000fffff ||| 0x00100000 = 2 ^ 20 + h % 2 ^ 20 := by
      rw [show (0x000fffff : Nat) = 2 ^ 20 - 1 from rfl, and_mask, Nat.or_comm]
      have := or_add (a := 1) (b := h % 2 ^ 20) (i := 20) (by omega)
      rw [Nat.one_mul] at this
      exact this
    rw [e1]
    have hJ : join h l = h / 2 ^ 20 * 2 ^ 52 + join (h % 2 ^ 20) l := by unfold join; omega
    have hF : join (h % 2 ^ 20) l < 2 ^ 52 := join_lt (by omega) hl
    have hX : join (2 ^ 20 + h % 2 ^ 20) l = 2 ^ 52 + join (h % 2 ^ 20) l := by unfold join; omega
    refine ⟨join (2 ^ 20 + h % 2 ^ 20) l, h / 2 ^ 20 + 51, hl, rfl, by omega, by omega, by omega, by omega, ?_⟩
    rw [hJ, units_make (by omega) hF.le, hX, Nat.mul_assoc, ← Nat.pow_add]
    congr 2
    omega

/-! ## After the loops -/

/-- The rounded root, as one number. -/
theorem round_spec {T Y Q a b c d e f : Nat} (h : Done T ⟨a, b, c, d, e, f⟩ Y Q) :
    (sqrtRound ⟨a, b, c, d, e, f⟩).2 < 2 ^ 32
    ∧ join (sqrtRound ⟨a, b, c, d, e, f⟩).1 (sqrtRound ⟨a, b, c, d, e, f⟩).2 = if Y = 0 then Q else Q + Q % 2 := by
  obtain ⟨h1, h2, h3, h4, h5, h6⟩ := holds_mk.1 h.holds
  have hQ := h.le
  have c1 : le one (sub one tiny) = true := by decide +kernel
  have c2 : lt one (add one tiny) = false := by decide +kernel
  unfold sqrtRound
  simp only
  by_cases hz : Y = 0
  · have : ¬ a ||| b ≠ 0 := by
      rw [not_not, Nat.or_eq_zero_iff]; omega
    rw [if_neg this, if_pos hz]
    exact ⟨h3, h6⟩
  · have : a ||| b ≠ 0 := by
      intro hh; rw [Nat.or_eq_zero_iff] at hh; omega
    rw [if_pos this, if_neg hz, c1, c2, if_pos rfl, if_neg (show ¬ false = true by decide)]
    by_cases hf : f = 0xffffffff
    · rw [if_pos hf]
      have he : e < 2 ^ 22 := by omega
      have hQ2 : Q % 2 = 1 := by omega
      rw [Nat.mod_eq_of_lt (show e + 1 < 2 ^ 32 by omega), hQ2, ← h6, hf]
      exact ⟨Nat.two_pow_pos 32, by unfold join; simp only; ring⟩
    · rw [if_neg hf, Nat.and_one_is_mod]
      have hm : f + f % 2 < 2 ^ 32 := by omega
      rw [Nat.mod_eq_of_lt hm]
      refine ⟨hm, ?_⟩
      have hQ2 : Q % 2 = f % 2 := by omega
      unfold join
      simp only
      rw [hQ2, ← h6]; ring

/-- The words of the result. -/
theorem pack_spec {q q1 P M : Nat} (hq1 : q1 < 2 ^ 32) (hP : join q q1 = P) (hlt : P ≤ 2 ^ 54) (hM : M ≤ 1534) {m : Int} (hm : m = (M : Int) - 1022) :
    insert ((((q >>> 1 + 0x3fe00000 : Nat) : Int) + m * 2 ^ 20).toNat % 2 ^ 32) (if q &&& 1 = 1 then q1 >>> 1 ||| 0x80000000 else q1 >>> 1) = M * 2 ^ 52 + P / 2 := by
  rw [Nat.shiftRight_eq_div_pow, Nat.shiftRight_eq_div_pow, Nat.and_one_is_mod, Nat.pow_one]
  have hor : (if q % 2 = 1 then q1 / 2 ||| 0x80000000 else q1 / 2) = q % 2 * 2 ^ 31 + q1 / 2 := by
    have := or_add (a := 1) (b := q1 / 2) (i := 31) (by omega)
    split
    · rename_i h
      rw [h, Nat.or_comm]
      exact this
    · rename_i h
      rw [show q % 2 = 0 from by omega, Nat.zero_mul, Nat.zero_add]
  rw [hor]
  have hq : q ≤ 2 ^ 22 := by unfold join at hP; omega
  have e1 : (((q / 2 + 0x3fe00000 : Nat) : Int) + m * 2 ^ 20).toNat = q / 2 + M * 2 ^ 20 := by
    rw [hm]; push_cast; omega
  rw [e1, Nat.mod_eq_of_lt (by omega)]
  have e2 : P / 2 = q / 2 * 2 ^ 32 + q % 2 * 2 ^ 31 + q1 / 2 := by unfold join at hP; omega
  rw [e2]
  unfold insert
  ring

theorem pow_split' {n a b : Nat} (h : n = a + b) : 2 ^ n = 2 ^ a * 2 ^ b := by rw [h, Nat.pow_add]

theorem pow_same {a b c d : Nat} (h : a + b = c + d) : 2 ^ a * 2 ^ b = 2 ^ c * 2 ^ d := by rw [← Nat.pow_add, ← Nat.pow_add, h]

/-- What `sqrt` computes, on natural numbers. -/
theorem sqrt_nat {x : Nat} (h : x < 2 ^ 64) (hf : IsFinite x) (hs : sign x = 0) (h0 : mag x ≠ 0) :
    ∃ G T e, sqrt x < inf ∧ units (sqrt x) = G * 2 ^ e ∧ 2 ^ 52 ≤ G ∧ 4 * (units (mag x) * 2 ^ 1074) = T * (2 ^ e * 2 ^ e) ∧ 2 ^ 106 ≤ T
      ∧ (2 * G - 1) * (2 * G - 1) < T ∧ T < (2 * G + 1) * (2 * G + 1) := by
  have hfx := (finite_iff x).1 hf
  have hx := self_eq h
  rw [hs, Nat.zero_mul, Nat.zero_add] at hx
  have hhi : hi x = mag x / 2 ^ 32 := by rw [hi_eq h]; congr 1
  have hlo := lo_lt x
  have hj := join_mag x
  have hh7 : mag x / 2 ^ 32 < 0x7ff00000 := by unfold inf at hfx; omega
  obtain ⟨X, n, n1, n2, n3, n4, n5, n6, n7⟩ := norm_spec hlo hh7 (by rw [hj]; exact h0)
  rw [hj] at n7
  have c1 : ¬ mag x / 2 ^ 32 &&& 0x7ff00000 = 0x7ff00000 := by
    rw [and_expo _ (by omega)]; omega
  have c2 : ¬ (int32 (mag x / 2 ^ 32) ≤ 0 ∧ (mag x / 2 ^ 32 &&& 0x7fffffff) ||| lo x = 0) := by
    rintro ⟨_, hh⟩
    rw [and_31, Nat.mod_eq_of_lt (by omega), ilog_zero] at hh
    exact h0 hh
  have c3 : ¬ int32 (mag x / 2 ^ 32) < 0 := by
    unfold int32; rw [if_pos (by omega)]; omega
  unfold sqrt
  simp only
  rw [hhi, if_neg c1, if_neg c2, if_neg c3, n6]
  generalize sqrtNorm (mag x / 2 ^ 32) (lo x) = nn at *
  generalize nn.1 &&& 0x000fffff ||| 0x00100000 = a at *
  generalize nn.2.1 = b at *
  have hm : ((n : Int) - 51 - 1023) % 2 = 1 ↔ n % 2 = 1 := by omega
  have hm2 : ((n : Int) - 51 - 1023) / 2 = ((n / 2 + 485 : Nat) : Int) - 1022 := by omega
  rw [if_congr hm rfl rfl, hm2]
  -- the number before the loops
  have hstart : ∃ a' b', Sq.dbl (if n % 2 = 1 then Sq.dbl ⟨a, b, 0, 0, 0, 0⟩ else ⟨a, b, 0, 0, 0, 0⟩) = ⟨a', b', 0, 0, 0, 0⟩ ∧ b' < 2 ^ 32
      ∧ a' * 2 ^ 32 + b' = 2 * (X * 2 ^ (n % 2)) := by
    have hd : Holds ⟨a, b, 0, 0, 0, 0⟩ X 0 0 := holds_mk.2 ⟨n1, by decide, by decide, n2, rfl, rfl⟩
    have hd1 := dbl_holds hd (show X < 2 ^ 62 by omega)
    by_cases hn : n % 2 = 1
    · rw [if_pos hn, hn]
      rw [dbl_mk] at hd1 ⊢
      have hd2 := dbl_holds hd1 (show 2 * X < 2 ^ 62 by omega)
      rw [dbl_mk] at hd2 ⊢
      have := holds_mk.1 hd2
      exact ⟨_, _, rfl, this.1, by rw [this.2.2.2.1]; ring⟩
    · rw [if_neg hn, show n % 2 = 0 from by omega]
      rw [dbl_mk] at hd1 ⊢
      have := holds_mk.1 hd1
      exact ⟨_, _, rfl, this.1, by rw [this.2.2.2.1]; ring⟩
  obtain ⟨a', b', es, hb', hy⟩ := hstart
  rw [es]
  obtain ⟨t, ht, ht2⟩ : ∃ t, t = 2 ^ (n % 2) ∧ (t = 1 ∨ t = 2) := ⟨_, rfl, by
    rcases Nat.mod_two_eq_zero_or_one n with hh | hh <;> rw [hh] <;> decide⟩
  rw [← ht] at hy
  have hXt : 2 ^ 52 ≤ X * t ∧ X * t < 2 ^ 54 := by rcases ht2 with hh | hh <;> rw [hh] <;> omega
  obtain ⟨Y', Q, hD⟩ := root_spec hb' hy (by omega)
  generalize sqrtLoop sqrtStep2 31 (sqrtLoop sqrtStep1 21 ⟨a', b', 0, 0, 0, 0⟩) = v at *
  obtain ⟨va, vb, vc, vd, ve, vf⟩ := v
  obtain ⟨r1, r2⟩ := round_spec hD
  generalize sqrtRound ⟨va, vb, vc, vd, ve, vf⟩ = q at *
  obtain ⟨_, d1, d2, d3⟩ := hD
  obtain ⟨T, hT⟩ : ∃ T, T = 2 * (X * t) * 2 ^ 53 := ⟨_, rfl⟩
  rw [← hT] at d1
  have hT106 : 2 ^ 106 ≤ T := by
    rw [hT]
    calc 2 ^ 106 = 2 * 2 ^ 52 * 2 ^ 53 := by decide
      _ ≤ 2 * (X * t) * 2 ^ 53 := Nat.mul_le_mul_right _ (by omega)
  have hT2 : T % 2 = 0 := by rw [hT]; omega
  have hQ53 : 2 ^ 53 ≤ Q := by
    by_contra hc
    have h1 : (Q + 1) * (Q + 1) ≤ 2 ^ 53 * 2 ^ 53 := Nat.mul_le_mul (by omega) (by omega)
    have h2 : (Q + 1) * (Q + 1) = Q * Q + 2 * Q + 1 := by ring
    omega
  obtain ⟨G, hG, hG2⟩ : ∃ G, (if Y' = 0 then Q else Q + Q % 2) = 2 * G ∧ ((2 * G = Q ∧ Q * Q ≤ T) ∨ (2 * G = Q + 1 ∧ Q * Q < T)) := by
    by_cases hz : Y' = 0
    · rw [if_pos hz]
      have hQQ : Q * Q = T := by omega
      have : Q % 2 = 0 := by
        have := Nat.mul_mod Q Q 2
        rw [hQQ, hT2] at this
        rcases Nat.mod_two_eq_zero_or_one Q with hh | hh
        · exact hh
        · rw [hh] at this; omega
      exact ⟨Q / 2, by omega, Or.inl ⟨by omega, by omega⟩⟩
    · rw [if_neg hz]
      rcases Nat.mod_two_eq_zero_or_one Q with hh | hh
      · exact ⟨Q / 2, by omega, Or.inl ⟨by omega, by omega⟩⟩
      · exact ⟨(Q + 1) / 2, by omega, Or.inr ⟨by omega, by omega⟩⟩
  rw [hG] at r2
  have hT3 : T < (Q + 1) * (Q + 1) := by
    have h2 : (Q + 1) * (Q + 1) = Q * Q + 2 * Q + 1 := by ring
    omega
  have hG52 : 2 ^ 52 ≤ G ∧ G ≤ 2 ^ 53 := by omega
  have hn2 : n / 2 + 485 ≤ 1534 := by omega
  rw [pack_spec r1 r2 (by omega) hn2 rfl, show 2 * G / 2 = G from by omega]
  obtain ⟨g, hg⟩ : ∃ g, G = 2 ^ 52 + g := ⟨G - 2 ^ 52, by omega⟩
  have hbits : (n / 2 + 485) * 2 ^ 52 + G = (n / 2 + 486) * 2 ^ 52 + g := by rw [hg]; ring
  refine ⟨G, T, n / 2 + 485, ?_, ?_, hG52.1, ?_, hT106, ?_, ?_⟩
  · unfold inf; omega
  · rw [hbits, units_make (by omega) (by omega), ← hg]
    rfl
  · rw [hT, ht]
    have hnn : n = 2 * (n / 2) + n % 2 := by omega
    have e1 : 4 * (units (mag x) * 2 ^ 1074) = units (mag x) * 2 ^ 52 * 2 ^ 1024 := by
      rw [show (2 : Nat) ^ 1074 = 2 ^ 54 * 2 ^ 1020 from pow_split' rfl, show (2 : Nat) ^ 1024 = 2 ^ 4 * 2 ^ 1020 from pow_split' rfl]
      generalize 2 ^ 1020 = K
      ring
    rw [e1, n7]
    generalize n % 2 = u at *
    generalize n / 2 = w at *
    rw [hnn]
    have e2 : (2 : Nat) ^ (w + 485) * 2 ^ (w + 485) = 2 ^ (2 * w) * 2 ^ 970 := pow_same (show w + 485 + (w + 485) = 2 * w + 970 by clear * -; omega)
    rw [e2, Nat.pow_add, show (2 : Nat) ^ 1024 = 2 ^ 54 * 2 ^ 970 from pow_split' rfl]
    generalize 2 ^ 970 = K
    ring
  · rcases hG2 with ⟨g1, g2⟩ | ⟨g1, g2⟩
    · calc (2 * G - 1) * (2 * G - 1) < (2 * G) * (2 * G) := Nat.mul_lt_mul'' (by omega) (by omega)
        _ ≤ T := by rw [g1]; exact g2
    · rw [show 2 * G - 1 = Q from by omega]; exact g2
  · exact Nat.lt_of_lt_of_le hT3 (Nat.mul_le_mul (by omega) (by omega))

end Pok.Libm
