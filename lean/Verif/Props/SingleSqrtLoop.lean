import Verif.Props.SingleRemainder
import Verif.Props.SqrtLoop
/-!
# The square root of floats

Property C120.  libpok/libm/e_sqrtf.c, sqrtf.c.
-/
namespace Pok.Libmf
open Pok.Single Pok.Fpu32
open Pok.Float (and_mask and_not and_31 and_sign)
open Pok.Libm (not32 int32 or_add pow_split' pow_same)

/-! ## The loop -/

/-- One step of the digit by digit method; what the variables hold: the rest, twice the root so far, the root so far. -/
theorem step {Y S Q r : Nat} (hr : r ≤ 2 ^ 24) (hY : Y < 2 ^ 29) (hS : S < 2 ^ 29) (hQ : Q < 2 ^ 29) :
    sqrtStep r ⟨Y, S, Q⟩ = if S + r ≤ Y then ⟨2 * (Y - S - r), S + 2 * r, Q + r⟩ else ⟨2 * Y, S, Q⟩ := by
  unfold sqrtStep
  simp only
  rw [Nat.mod_eq_of_lt (show S + r < 2 ^ 32 by omega)]
  have ei : int32 (S + r) ≤ int32 Y ↔ S + r ≤ Y := by
    unfold int32
    rw [if_pos (by omega), if_pos (by omega)]
    omega
  by_cases hc : S + r ≤ Y
  · rw [if_pos (ei.2 hc), if_pos hc]
    simp only [Sq.mk.injEq]
    omega
  · rw [if_neg (fun hh => hc (ei.1 hh)), if_neg hc]
    simp only [Sq.mk.injEq, and_true]
    omega

/-- Before the step for bit `k` of the root of `T`. -/
structure Inv (T k : Nat) (v : Sq) (Y Q : Nat) : Prop where
  holds : v = ⟨Y, 2 * Q, Q⟩
  eq : Y * 2 ^ k + Q * Q = T
  div : 2 ^ (k + 1) ∣ Q
  lt : Y < 4 * Q + 4 * 2 ^ k
  le : Q + 2 ^ (k + 1) ≤ 2 ^ 25

/-- After the last step. -/
structure Done (T : Nat) (v : Sq) (Y Q : Nat) : Prop where
  holds : v = ⟨Y, 2 * Q, Q⟩
  eq : Y + 2 * (Q * Q) = 2 * T
  lt : Y < 4 * Q + 2
  le : Q < 2 ^ 25

theorem inv_small {T k : Nat} {v : Sq} {Y Q : Nat} (h : Inv T k v Y Q) : Y < 2 ^ 29 ∧ Q < 2 ^ 25 ∧ 2 ^ k ≤ 2 ^ 24 := by
  have h1 := h.lt
  have h2 := h.le
  have h3 : 2 ^ (k + 1) = 2 * 2 ^ k := by rw [Nat.pow_succ]; omega
  have h4 := Nat.two_pow_pos k
  omega

/-- The arithmetic of a step. -/
theorem inv_next {T k : Nat} {v : Sq} {Y Q : Nat} (h : Inv T (k + 1) v Y Q) : ∃ Y' Q', Inv T k (sqrtStep (2 ^ (k + 1)) v) Y' Q' := by
  obtain ⟨b1, b2, b3⟩ := inv_small h
  obtain ⟨h1, h2, h3, h4, h5⟩ := h
  rw [h1, step b3 (by omega) (by omega) (by omega)]
  have e : 2 ^ (k + 1) = 2 * 2 ^ k := by rw [Nat.pow_succ]; omega
  have e2 : 2 ^ (k + 1 + 1) = 4 * 2 ^ k := by rw [Nat.pow_succ, Nat.pow_succ]; omega
  have hp := Nat.two_pow_pos k
  obtain ⟨c, hc⟩ := h3
  rw [e2] at hc h5
  by_cases hle : 2 * Q + 2 ^ (k + 1) ≤ Y
  · rw [if_pos hle]
    refine ⟨2 * (Y - 2 * Q - 2 ^ (k + 1)), Q + 2 ^ (k + 1), ?_, ?_, ?_, ?_, ?_⟩
    · rw [show 2 * (Q + 2 ^ (k + 1)) = 2 * Q + 2 * 2 ^ (k + 1) from by ring]
    · rw [e] at *
      obtain ⟨d, rfl⟩ : ∃ d, Y = 2 * Q + 2 * 2 ^ k + d := ⟨Y - (2 * Q + 2 * 2 ^ k), by omega⟩
      rw [show 2 * Q + 2 * 2 ^ k + d - 2 * Q - 2 * 2 ^ k = d from by omega, ← h2]
      ring
    · rw [e]; exact ⟨2 * c + 1, by rw [hc]; ring⟩
    · rw [e] at *; omega
    · rw [e] at *
      have : c + 1 ≤ 2 ^ 25 / (4 * 2 ^ k) := by
        rw [Nat.le_div_iff_mul_le (by omega)]
        calc (c + 1) * (4 * 2 ^ k) = 4 * 2 ^ k * c + 4 * 2 ^ k := by ring
          _ ≤ 2 ^ 25 := by rw [← hc]; omega
      omega
  · rw [if_neg hle]
    refine ⟨2 * Y, Q, rfl, ?_, ?_, ?_, ?_⟩
    · rw [← h2, e]; ring
    · rw [e]; exact ⟨2 * c, by rw [hc]; ring⟩
    · rw [e] at *; omega
    · rw [e] at *; omega

theorem done_next {T : Nat} {v : Sq} {Y Q : Nat} (h : Inv T 0 v Y Q) : ∃ Y' Q', Done T (sqrtStep 1 v) Y' Q' := by
  obtain ⟨b1, b2, b3⟩ := inv_small h
  obtain ⟨h1, h2, h3, h4, h5⟩ := h
  rw [h1, step (by decide) (by omega) (by omega) (by omega)]
  rw [Nat.pow_zero] at h2 h4
  by_cases hle : 2 * Q + 1 ≤ Y
  · rw [if_pos hle]
    refine ⟨2 * (Y - 2 * Q - 1), Q + 1, by rw [show 2 * (Q + 1) = 2 * Q + 2 * 1 from by ring], ?_, by omega, by omega⟩
    obtain ⟨d, rfl⟩ : ∃ d, Y = 2 * Q + 1 + d := ⟨Y - (2 * Q + 1), by omega⟩
    rw [show 2 * Q + 1 + d - 2 * Q - 1 = d from by omega, ← h2]
    ring
  · rw [if_neg hle]
    exact ⟨2 * Y, Q, rfl, by rw [← h2]; ring, by omega, by omega⟩

theorem loop_spec {T : Nat} (k : Nat) : ∀ (v : Sq) (Y Q : Nat), Inv T k v Y Q → ∃ Y' Q', Done T (sqrtLoop k v) Y' Q' := by
  induction k with
  | zero =>
    intro v Y Q h
    rw [sqrtLoop]
    exact done_next h
  | succ k ih =>
    intro v Y Q h
    obtain ⟨Y', Q', h'⟩ := inv_next h
    rw [sqrtLoop]
    exact ih _ Y' Q' h'

/-- The loop computes the integer root, and the rest says whether it is exact. -/
theorem root_spec {Y : Nat} (hY : Y < 2 ^ 26) : ∃ Y' Q, Done (Y * 2 ^ 24) (sqrtLoop 24 ⟨Y, 0, 0⟩) Y' Q :=
  loop_spec 24 _ Y 0 ⟨rfl, by rw [Nat.zero_mul, Nat.add_zero], ⟨0, rfl⟩, by omega, by decide⟩

/-! ## Before the loop -/

theorem bit_23 {x : Nat} (h : x < 2 ^ 24) : x &&& 0x00800000 = 0 ↔ x < 2 ^ 23 := by
  have e : (0x00800000 : Nat) = not32 (2 ^ 23 - 1) &&& (2 ^ 24 - 1) := by decide
  rw [e, ← Nat.and_assoc, and_not (by omega) (by decide), and_mask]
  omega

theorem keep_23 {h : Nat} (h1 : 2 ^ 23 ≤ h) (h2 : h < 2 ^ 24) : h &&& 0x007fffff ||| 0x00800000 = h := by
  rw [show (0x007fffff : Nat) = 2 ^ 23 - 1 from rfl, and_mask, Nat.or_comm]
  have := or_add (a := 1) (b := h % 2 ^ 23) (i := 23) (by omega)
  rw [Nat.one_mul] at this
  rw [show (0x00800000 : Nat) = 2 ^ 23 from rfl, this]
  omega

theorem sub_spec (fuel : Nat) : ∀ {h i : Nat}, h < 2 ^ 24 → 2 ^ 23 ≤ h * 2 ^ fuel →
    ∃ j, j ≤ fuel ∧ sqrtSub fuel h i = (h * 2 ^ j, i + j) ∧ 2 ^ 23 ≤ h * 2 ^ j ∧ h * 2 ^ j < 2 ^ 24 := by
  induction fuel with
  | zero =>
    intro h i h1 h2
    rw [Nat.pow_zero, Nat.mul_one] at h2
    exact ⟨0, by omega, by rw [sqrtSub, Nat.pow_zero, Nat.mul_one, Nat.add_zero], by omega, by omega⟩
  | succ fuel ih =>
    intro h i h1 h2
    rw [sqrtSub]
    by_cases hb : h < 2 ^ 23
    · rw [if_pos ((bit_23 h1).2 hb), Nat.shiftLeft_eq, Nat.pow_one, Nat.mod_eq_of_lt (by omega)]
      obtain ⟨j, hj, e, e1, e2⟩ := ih (h := h * 2) (i := i + 1) (by omega) (by rw [Nat.pow_succ] at h2; rw [Nat.mul_assoc, Nat.mul_comm 2]; exact h2)
      have e3 : h * 2 * 2 ^ j = h * 2 ^ (j + 1) := by rw [Nat.pow_succ]; ring
      rw [e3] at e e1 e2
      exact ⟨j + 1, by omega, by rw [e]; congr 1; omega, e1, e2⟩
    · rw [if_neg (fun hh => hb ((bit_23 h1).1 hh))]
      exact ⟨0, by omega, by rw [Nat.pow_zero, Nat.mul_one, Nat.add_zero], by omega, by omega⟩

/-- The normalised number: 24 bits and the exponent. -/
theorem norm_spec {m : Nat} (hh : m < inf) (h0 : m ≠ 0) :
    ∃ X n : Nat, (sqrtNorm m).1 &&& 0x007fffff ||| 0x00800000 = X
      ∧ 2 ^ 23 ≤ X ∧ X < 2 ^ 24 ∧ n ≤ 276 ∧ (sqrtNorm m).2 = (n : Int) - 22 ∧ units m * 2 ^ 23 = X * 2 ^ n := by
  have hi : inf = 0x7f800000 := by decide
  unfold sqrtNorm
  simp only [Nat.shiftRight_eq_div_pow m]
  by_cases hsub : m < 2 ^ 23
  · have hm : ((m / 2 ^ 23 : Nat) : Int) = 0 := by omega
    rw [hm]
    simp only [if_true]
    rw [units_small hsub]
    obtain ⟨j, hj, e, e1, e2⟩ := sub_spec 23 (h := m) (i := 0) (by omega) (by
      calc 2 ^ 23 = 1 * 2 ^ 23 := by decide
        _ ≤ m * 2 ^ 23 := Nat.mul_le_mul_right _ (Nat.pos_of_ne_zero h0))
    rw [e]
    simp only [Nat.zero_add]
    refine ⟨m * 2 ^ j, 23 - j, keep_23 e1 e2, e1, e2, by omega, by omega, ?_⟩
    rw [Nat.mul_assoc, ← Nat.pow_add]; congr 2; omega
  · have hm : ¬ ((m / 2 ^ 23 : Nat) : Int) = 0 := by omega
    rw [if_neg hm]
    simp only
    have e1 : m &&& 0x007fffff ||| 0x00800000 = 2 ^ 23 + m % 2 ^ 23 := by
      rw [show (0x007fffff : Nat) = 2 ^ 23 - 1 from rfl, and_mask, Nat.or_comm]
      have := or_add (a := 1) (b := m % 2 ^ 23) (i := 23) (by omega)
      rw [Nat.one_mul] at this
      exact this
    rw [e1]
    have hJ : m = m / 2 ^ 23 * 2 ^ 23 + m % 2 ^ 23 := by omega
    have hu : units m = (2 ^ 23 + m % 2 ^ 23) * 2 ^ (m / 2 ^ 23 - 1) := by
      conv_lhs => rw [hJ]
      exact units_make (by omega) (by omega)
    refine ⟨2 ^ 23 + m % 2 ^ 23, m / 2 ^ 23 + 22, rfl, by omega, by omega, by omega, by omega, ?_⟩
    rw [hu, Nat.mul_assoc, ← Nat.pow_add]
    congr 2
    omega

/-! ## After the loop -/

/-- The rounded root. -/
theorem round_spec {T Y Q : Nat} {v : Sq} (h : Done T v Y Q) : sqrtRound v = if Y = 0 then Q else Q + Q % 2 := by
  have hQ := h.le
  have c1 : le one (sub one tiny) = true := by decide +kernel
  have c2 : lt one (add one tiny) = false := by decide +kernel
  rw [h.holds]
  unfold sqrtRound
  simp only
  by_cases hz : Y = 0
  · rw [if_neg (by omega), if_pos hz]
  · rw [if_pos hz, if_neg hz, c1, c2, if_pos rfl, if_neg (show ¬ false = true by decide), Nat.and_one_is_mod, Nat.mod_eq_of_lt (by omega)]

/-- The bits of the result. -/
theorem pack_spec {P M : Nat} (hlt : P ≤ 2 ^ 25) (hM : M ≤ 189) {m : Int} (hm : m = (M : Int) - 126) :
    (((P >>> 1 + 0x3f000000 : Nat) : Int) + m * 2 ^ 23).toNat % 2 ^ 32 = M * 2 ^ 23 + P / 2 := by
  rw [Nat.shiftRight_eq_div_pow, Nat.pow_one]
  have e1 : (((P / 2 + 0x3f000000 : Nat) : Int) + m * 2 ^ 23).toNat = P / 2 + M * 2 ^ 23 := by
    rw [hm]; push_cast; omega
  rw [e1, Nat.mod_eq_of_lt (by omega), Nat.add_comm]

/-- What `sqrtf` computes, on natural numbers. -/
theorem sqrt_nat {x : Nat} (h : x < 2 ^ 32) (hf : IsFinite x) (hs : sign x = 0) (h0 : mag x ≠ 0) :
    ∃ G T e, sqrt x < inf ∧ units (sqrt x) = G * 2 ^ e ∧ 2 ^ 23 ≤ G ∧ 4 * (units (mag x) * 2 ^ 149) = T * (2 ^ e * 2 ^ e) ∧ 2 ^ 48 ≤ T
      ∧ (2 * G - 1) * (2 * G - 1) < T ∧ T < (2 * G + 1) * (2 * G + 1) := by
  have hfx := (finite_iff x).1 hf
  have hx := self_eq h
  rw [hs, Nat.zero_mul, Nat.zero_add] at hx
  have hi : inf = 0x7f800000 := by decide
  obtain ⟨X, n, n2, n3, n4, n5, n6, n7⟩ := norm_spec hfx h0
  have c1 : ¬ mag x &&& 0x7f800000 = 0x7f800000 := by
    rw [and_expo _ (by omega)]
    have := mag_eq x
    unfold IsFinite at hf
    have e : expo (mag x) = expo x := by rw [← hx]
    rw [e]
    have := expo_lt x
    omega
  have c2 : ¬ (int32 (mag x) ≤ 0 ∧ mag x &&& 0x7fffffff = 0) := by
    rintro ⟨_, hh⟩
    rw [and_31, Nat.mod_eq_of_lt (by omega)] at hh
    exact h0 hh
  have c3 : ¬ int32 (mag x) < 0 := by
    unfold int32; rw [if_pos (by omega)]; omega
  have hsq : sqrt x = sqrt (mag x) := by rw [← hx]
  rw [hsq]
  unfold sqrt
  simp only
  rw [if_neg c1, if_neg c2, if_neg c3, n2, n6]
  have hm : ((n : Int) - 22 - 127) % 2 = 1 ↔ (n + 1) % 2 = 1 := by omega
  have hm2 : ((n : Int) - 22 - 127) / 2 = (((n + 1) / 2 + 51 : Nat) : Int) - 126 := by omega
  rw [if_congr hm rfl rfl, hm2]
  obtain ⟨t, ht, ht2⟩ : ∃ t, t = 2 ^ ((n + 1) % 2) ∧ (t = 1 ∨ t = 2) := ⟨_, rfl, by
    rcases Nat.mod_two_eq_zero_or_one (n + 1) with hh | hh <;> rw [hh] <;> decide⟩
  -- the number before the loop
  have hstart : ((if (n + 1) % 2 = 1 then (X + X) % 2 ^ 32 else X) + (if (n + 1) % 2 = 1 then (X + X) % 2 ^ 32 else X)) % 2 ^ 32 = 2 * (X * t) := by
    by_cases hn : (n + 1) % 2 = 1
    · rw [if_pos hn, ht, hn]; omega
    · rw [if_neg hn, ht, show (n + 1) % 2 = 0 from by omega]; omega
  rw [hstart]
  have hXt : 2 ^ 23 ≤ X * t ∧ X * t < 2 ^ 25 := by rcases ht2 with hh | hh <;> rw [hh] <;> omega
  obtain ⟨Y', Q, hD⟩ := root_spec (Y := 2 * (X * t)) (by omega)
  generalize sqrtLoop 24 ⟨2 * (X * t), 0, 0⟩ = v at *
  rw [round_spec hD]
  obtain ⟨_, d1, d2, d3⟩ := hD
  obtain ⟨T, hT⟩ : ∃ T, T = 2 * (X * t) * 2 ^ 24 := ⟨_, rfl⟩
  rw [← hT] at d1
  have hT48 : 2 ^ 48 ≤ T := by
    rw [hT]
    calc 2 ^ 48 = 2 * 2 ^ 23 * 2 ^ 24 := by decide
      _ ≤ 2 * (X * t) * 2 ^ 24 := Nat.mul_le_mul_right _ (by omega)
  have hT2 : T % 2 = 0 := by rw [hT]; omega
  have hQ24 : 2 ^ 24 ≤ Q := by
    by_contra hc
    have h1 : (Q + 1) * (Q + 1) ≤ 2 ^ 24 * 2 ^ 24 := Nat.mul_le_mul (by omega) (by omega)
    have h2 : (Q + 1) * (Q + 1) = Q * Q + 2 * Q + 1 := by ring
    omega
  obtain ⟨G, hG, hG2⟩ : ∃ G, (if Y' = 0 then Q else Q + Q % 2) = 2 * G ∧ ((2 * G = Q ∧ Q * Q ≤ T) ∨ (2 * G = Q + 1 ∧ Q * Q < T)) := by
    by_cases hz : Y' = 0
    · rw [if_pos hz]
      have hQQ : Q * Q = T := by omega
      have : Q % 2 = 0 := by
        have := Nat.mul_mod Q Q 2
        rw [hQQ, hT2] at this
        rcases Nat.mod_two_eq_zero_or_one Q with hh | hh
        · exact hh
        · rw [hh] at this; omega
      exact ⟨Q / 2, by omega, Or.inl ⟨by omega, by omega⟩⟩
    · rw [if_neg hz]
      rcases Nat.mod_two_eq_zero_or_one Q with hh | hh
      · exact ⟨Q / 2, by omega, Or.inl ⟨by omega, by omega⟩⟩
      · exact ⟨(Q + 1) / 2, by omega, Or.inr ⟨by omega, by omega⟩⟩
  rw [hG]
  have hT3 : T < (Q + 1) * (Q + 1) := by
    have h2 : (Q + 1) * (Q + 1) = Q * Q + 2 * Q + 1 := by ring
    omega
  have hG23 : 2 ^ 23 ≤ G ∧ G ≤ 2 ^ 24 := by omega
  have hn2 : (n + 1) / 2 + 51 ≤ 189 := by omega
  rw [pack_spec (by omega) hn2 rfl, show 2 * G / 2 = G from by omega]
  obtain ⟨g, hg⟩ : ∃ g, G = 2 ^ 23 + g := ⟨G - 2 ^ 23, by omega⟩
  have hbits : ((n + 1) / 2 + 51) * 2 ^ 23 + G = ((n + 1) / 2 + 52) * 2 ^ 23 + g := by rw [hg]; ring
  refine ⟨G, T, (n + 1) / 2 + 51, ?_, ?_, hG23.1, ?_, hT48, ?_, ?_⟩
  · unfold inf; omega
  · rw [hbits, units_make (by omega) (by omega), ← hg]
    rfl
  · rw [hT, ht]
    have hnn : n + 1 = 2 * ((n + 1) / 2) + (n + 1) % 2 := by omega
    have e1 : 4 * (units (mag x) * 2 ^ 149) = units (mag x) * 2 ^ 23 * 2 ^ 128 := by
      rw [show (2 : Nat) ^ 149 = 2 ^ 23 * 2 ^ 126 from pow_split' rfl, show (2 : Nat) ^ 128 = 4 * 2 ^ 126 from pow_split' (a := 2) rfl]
      generalize 2 ^ 126 = K
      ring
    rw [e1, n7]
    have e3 : X * 2 ^ n * 2 ^ 128 = X * 2 ^ (n + 1) * 2 ^ 127 := by
      rw [Nat.mul_assoc, Nat.mul_assoc, pow_same (show n + 128 = n + 1 + 127 by omega)]
    rw [e3]
    generalize (n + 1) % 2 = u at *
    generalize (n + 1) / 2 = w at *
    rw [hnn]
    have e2 : (2 : Nat) ^ (w + 51) * 2 ^ (w + 51) = 2 ^ (2 * w) * 2 ^ 102 := pow_same (show w + 51 + (w + 51) = 2 * w + 102 by clear * -; omega)
    rw [e2, Nat.pow_add, show (2 : Nat) ^ 127 = 2 ^ 25 * 2 ^ 102 from pow_split' rfl]
    generalize 2 ^ 102 = K
    ring
  · rcases hG2 with ⟨g1, g2⟩ | ⟨g1, g2⟩
    · calc (2 * G - 1) * (2 * G - 1) < (2 * G) * (2 * G) := Nat.mul_lt_mul'' (by omega) (by omega)
        _ ≤ T := by rw [g1]; exact g2
    · rw [show 2 * G - 1 = Q from by omega]; exact g2
  · exact Nat.lt_of_lt_of_le hT3 (Nat.mul_le_mul (by omega) (by omega))

end Pok.Libmf
