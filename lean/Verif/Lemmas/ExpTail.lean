import Verif.Lemmas.ExpKernel
/-!
# The exponential function of a reduced argument: the error
-/
namespace Pok.Exp
open Pok.Err Pok.Float Pok.Fpu Pok.Poly

theorem exp_at {q : ℚ} {lo up : ℚ} (hq : |q| ≤ 1 / 2) (h : evq expT q - 1 / 10 ^ 20 ≥ lo ∧ evq expT q + 1 / 10 ^ 20 ≤ up) :
    (lo : ℝ) ≤ Real.exp q ∧ Real.exp q ≤ up := by
  have hq' : |(q : ℝ)| ≤ 1 / 2 := by have := (Rat.cast_le (K := ℝ)).2 hq; push_cast at this ⊢; exact this
  have p := exp_poly (x := (q : ℝ)) (by linarith)
  have e0 : |(q : ℝ)| ^ 18 / 2 ^ 52 ≤ 1 / 10 ^ 20 := by
    have := pow_le_pow_left₀ (abs_nonneg _) hq' 18
    rw [div_le_iff₀ (by positivity)]
    refine le_trans this ?_
    norm_num
  rw [← evq_cast] at p
  have p := abs_le.1 (le_trans p e0)
  have h1 := (Rat.cast_le (K := ℝ)).2 h.1
  have h2 := (Rat.cast_le (K := ℝ)).2 h.2
  push_cast at h1 h2
  generalize ((evq expT q : ℚ) : ℝ) = K at *
  constructor
  · linarith only [p.1, h1]
  · linarith only [p.2, h2]

theorem exp_a : (7070 / 10000 : ℝ) ≤ Real.exp (-(34658 / 100000)) := by
  have := (exp_at (q := -(34658 / 100000)) (lo := 7070 / 10000) (up := 1) (by norm_num [abs_le]) (by decide +kernel)).1
  push_cast at this; exact this
theorem exp_b : (7408 / 10000 : ℝ) ≤ Real.exp (-(3 / 10)) := by
  have := (exp_at (q := -(3 / 10)) (lo := 7408 / 10000) (up := 1) (by norm_num [abs_le]) (by decide +kernel)).1
  push_cast at this; exact this
theorem exp_c : Real.exp (34658 / 100000) ≤ (14143 / 10000 : ℝ) := by
  have := (exp_at (q := 34658 / 100000) (lo := 1) (up := 14143 / 10000) (by norm_num [abs_le]) (by decide +kernel)).2
  push_cast at this; exact this

theorem v_one : Libm.one < 2 ^ 64 ∧ IsFinite Libm.one ∧ (value Libm.one : ℝ) = 1 := by
  refine ⟨by decide, by decide, ?_⟩
  have : value Libm.one = 1 := by unfold Libm.one value sign expo frac; norm_num
  rw [this]; norm_num

theorem near_one : Near Libm.one 1 0 := ⟨v_one.1, v_one.2.1, by rw [v_one.2.2]; simp⟩

/-- The last steps with a scaling. -/
theorem tail1 {hi lo g : Nat} {G eG gm im E0 : ℝ} (hh : hi < 2 ^ 64) (fh : IsFinite hi) (hl : lo < 2 ^ 64) (fl : IsFinite lo)
    (bL : |(value lo : ℝ)| ≤ 3 / 10 ^ 7) (bS : |(value hi : ℝ) - value lo| ≤ 34658 / 100000) (hg : Near g G eG) (bG : |G| ≤ gm)
    (rat : |1 + (value (sub hi lo) : ℝ) + G - Real.exp (value (sub hi lo))| ≤ 1 / 10 ^ 18) (hi1 : |Real.exp (value (sub hi lo)) - 1| ≤ im)
    (hE : E0 ≤ Real.exp (value (sub hi lo))) (e1 : eG ≤ 1 / 10 ^ 15) (g1 : gm ≤ 1) (i1 : im ≤ 1)
    (num : eG + (gm + im + 4 / 10 ^ 7) / 2 ^ 53 + 34659 / 10 ^ 5 / 2 ^ 53 * im + 1 / 10 ^ 18 + 1 / 10 ^ 24 ≤ 998 / 1000 / 2 ^ 53 * E0) :
    Near (sub Libm.one (sub (sub lo g) hi)) (Real.exp (value hi - value lo)) (Real.exp (value hi - value lo) * (1999 / 1000 / 2 ^ 53)) := by
  have hs := (Near.self hh fh).sub (Near.self hl fl) (m := 34658 / 100000) (g := 34658 / 100000 / 2 ^ 53) bS (by norm_num) (by norm_num)
  have e0 : 0 ≤ eG := le_trans (abs_nonneg _) hg.2.2
  have g0 : 0 ≤ gm := le_trans (abs_nonneg _) bG
  have i0 : 0 ≤ im := le_trans (abs_nonneg _) hi1
  have hd := hs.2.2
  generalize hX : (value (sub hi lo) : ℝ) = X at *
  generalize hR : (value hi : ℝ) - value lo = R at *
  obtain ⟨d, hdd⟩ : ∃ d, d = R - X := ⟨_, rfl⟩
  have hd' : |d| ≤ 34658 / 100000 / 2 ^ 53 := by rw [hdd, abs_sub_comm]; exact hd
  have Ep := Real.exp_pos X
  obtain ⟨E, hEE⟩ : ∃ E, E = Real.exp X := ⟨_, rfl⟩
  have eR : Real.exp R = E * Real.exp d := by rw [hEE, ← Real.exp_add, hdd]; congr 1; ring
  have hd1 : |d| ≤ 1 / 10 ^ 16 := le_trans hd' (by norm_num)
  have q := Real.abs_exp_sub_one_sub_id_le (x := d) (by linarith)
  have q2 : d ^ 2 ≤ 1 / 10 ^ 32 := by
    rw [← sq_abs]
    exact le_trans (pow_le_pow_left₀ (abs_nonneg _) hd1 2) (by norm_num)
  obtain ⟨η, hη⟩ : ∃ η, η = Real.exp d - 1 - d := ⟨_, rfl⟩
  rw [← hη] at q
  have q := le_trans q q2
  have eR' : Real.exp R = E + E * d + E * η := by rw [eR, show Real.exp d = 1 + d + η by rw [hη]; ring]; ring
  rw [← hEE] at rat hi1 hE Ep
  have hi1' := abs_le.1 hi1
  have E2 : E ≤ 2 := by linarith
  have ed : |E * d - d| ≤ im * (34658 / 100000 / 2 ^ 53) := by
    rw [show E * d - d = (E - 1) * d by ring, abs_mul]
    exact mul_le_mul hi1 hd' (abs_nonneg _) i0
  have eη : |E * η| ≤ 2 / 10 ^ 32 := by
    rw [abs_mul, abs_of_pos Ep]
    exact le_trans (mul_le_mul E2 q (abs_nonneg _) (by norm_num)) (by norm_num)
  have rat' := abs_le.1 rat
  have ed' := abs_le.1 ed
  have eη' := abs_le.1 eη
  have hd1' := abs_le.1 hd1
  have ims : im * (34658 / 100000 / 2 ^ 53) ≤ 1 / 10 ^ 16 := by norm_num; linarith
  -- the operations
  have s1 := (Near.self hl fl).sub hg (m := gm + 3 / 10 ^ 7) (g := eG + (gm + 3 / 10 ^ 7 + eG) / 2 ^ 53) (by
    refine le_trans (abs_sub _ _) ?_; linarith) (by rw [zero_add, add_zero]) (by norm_num at *; linarith)
  have hY : (value lo : ℝ) - G - value hi = 1 - (1 + R + G) := by rw [← hR]; ring
  have dR : R = X + d := by rw [hdd]; ring
  have s2 := s1.sub (Near.self hh fh) (m := im + 1 / 10 ^ 15) (g := eG + (gm + im + 4 / 10 ^ 7) / 2 ^ 53) (by
    rw [hY, dR, abs_le]; constructor <;> norm_num at * <;> linarith) (by norm_num at *; linarith) (by norm_num at *; linarith)
  rw [hY] at s2
  have s3 := near_one.sub s2 (m := E + 1 / 10 ^ 15) (g := eG + (gm + im + 4 / 10 ^ 7) / 2 ^ 53 + (E + 2 / 10 ^ 15) / 2 ^ 53) (by
    rw [dR, abs_le]; constructor <;> norm_num at * <;> linarith) (by norm_num at *; linarith) (by norm_num at *; linarith)
  rw [show (1 : ℝ) - (1 - (1 + R + G)) = 1 + R + G by ring] at s3
  have mv := s3.move (w := Real.exp R) (f := 1 / 10 ^ 18 + im * (34658 / 100000 / 2 ^ 53) + 2 / 10 ^ 32) (by
    rw [eR', dR, abs_le]; constructor
    · linarith only [rat'.1, ed'.2, eη'.2]
    · linarith only [rat'.2, ed'.1, eη'.1])
  refine mv.weaken ?_
  rw [eR']
  norm_num at *
  linarith

/-- The last steps without a scaling. -/
theorem tail0 {x g : Nat} {G eG im E0 : ℝ} (hx : x < 2 ^ 64) (fx : IsFinite x) (hg : Near g (-G) eG)
    (rat : |1 + (value x : ℝ) + G - Real.exp (value x)| ≤ 1 / 10 ^ 18) (hi1 : |Real.exp (value x) - 1| ≤ im)
    (hE : E0 ≤ Real.exp (value x)) (e1 : eG ≤ 1 / 10 ^ 15) (i1 : im ≤ 1)
    (num : eG + (im + 4 / 10 ^ 7) / 2 ^ 53 + 1 / 10 ^ 18 + 1 / 10 ^ 24 ≤ 998 / 1000 / 2 ^ 53 * E0) :
    Near (sub Libm.one (sub g x)) (Real.exp (value x)) (Real.exp (value x) * (1999 / 1000 / 2 ^ 53)) := by
  have e0 : 0 ≤ eG := le_trans (abs_nonneg _) hg.2.2
  have i0 : 0 ≤ im := le_trans (abs_nonneg _) hi1
  have Ep := Real.exp_pos (value x : ℝ)
  generalize Real.exp (value x : ℝ) = E at *
  have hi1' := abs_le.1 hi1
  have rat' := abs_le.1 rat
  have hxn := Near.self hx fx
  generalize (value x : ℝ) = X at *
  have s2 := hg.sub hxn (m := im + 1 / 10 ^ 15) (g := eG + (im + 4 / 10 ^ 7) / 2 ^ 53) (by
    rw [abs_le]; constructor <;> norm_num at * <;> linarith) (by norm_num at *; linarith) (by norm_num at *; linarith)
  have s3 := near_one.sub s2 (m := E + 1 / 10 ^ 15) (g := eG + (im + 4 / 10 ^ 7) / 2 ^ 53 + (E + 2 / 10 ^ 15) / 2 ^ 53) (by
    rw [abs_le]; constructor <;> norm_num at * <;> linarith) (by norm_num at *; linarith) (by norm_num at *; linarith)
  have mv := s3.move (w := E) (f := 1 / 10 ^ 18) (by rw [abs_le]; constructor <;> linarith only [rat'.1, rat'.2])
  refine mv.weaken ?_
  norm_num at *
  linarith

/-- The three ranges together. -/
theorem reduced {x : Nat} (hx : x < 2 ^ 64) (fx : IsFinite x) (b : |(value x : ℝ)| ≤ 34658 / 100000) : ∃ G eG gm im E0 : ℝ,
    Near (div (mul x (primary x)) (sub two (primary x))) G eG ∧ Near (div (mul x (primary x)) (sub (primary x) two)) (-G) eG ∧ |G| ≤ gm ∧
    |1 + (value x : ℝ) + G - Real.exp (value x)| ≤ 1 / 10 ^ 18 ∧ |Real.exp (value x) - 1| ≤ im ∧ E0 ≤ Real.exp (value x) ∧ eG ≤ 1 / 10 ^ 15 ∧ gm ≤ 1 ∧
    im ≤ 1 ∧ 0 ≤ gm ∧ 0 ≤ im ∧
    eG + (gm + im + 4 / 10 ^ 7) / 2 ^ 53 + 34659 / 10 ^ 5 / 2 ^ 53 * im + 1 / 10 ^ 18 + 1 / 10 ^ 24 ≤ 998 / 1000 / 2 ^ 53 * E0 := by
  have hs := Near.self hx fx
  have b' := abs_le.1 b
  have neg : ∀ X : ℝ, X * Cx X / (Cx X - 2) = -(X * Cx X / (2 - Cx X)) := fun X => by rw [← neg_sub 2 (Cx X), div_neg]
  generalize hX : (value x : ℝ) = X at *
  rcases le_total 0 X with c | c
  · obtain ⟨r1, r2, r3, r4, r5⟩ := range_pos (x := x) (X := X) ⟨hs, le_trans b (by norm_num)⟩ c b'.2
    rw [neg] at r2
    have m := Real.exp_le_exp.2 b'.2
    have m0 := Real.exp_le_exp.2 c
    rw [Real.exp_zero] at m0
    have mc := exp_c
    refine ⟨_, _, _, 4143 / 10000, 1, r1, r2, r3, rat_exp b r4 (by norm_num) r5, ?_, m0, by norm_num, by norm_num, by norm_num, by norm_num, by norm_num, by norm_num⟩
    rw [abs_of_nonneg (by linarith)]; linarith
  · have m0 := Real.exp_le_exp.2 c
    rw [Real.exp_zero] at m0
    rcases le_total X (-(3 / 10)) with d | d
    · obtain ⟨r1, r2, r3, r4, r5⟩ := range_low (x := x) (X := X) ⟨hs, le_trans b (by norm_num)⟩ b'.1 d
      rw [neg] at r2
      have m := le_trans exp_a (Real.exp_le_exp.2 b'.1)
      refine ⟨_, _, _, 2930 / 10000, 7070 / 10000, r1, r2, r3, rat_exp b r4 (by norm_num) r5, ?_, m, by norm_num, by norm_num, by norm_num, by norm_num, by norm_num, by norm_num⟩
      rw [abs_of_nonpos (by linarith)]; linarith
    · obtain ⟨r1, r2, r3, r4, r5⟩ := range_mid (x := x) (X := X) ⟨hs, by rw [abs_le]; constructor <;> norm_num <;> linarith⟩ d c
      rw [neg] at r2
      have m := le_trans exp_b (Real.exp_le_exp.2 d)
      refine ⟨_, _, _, 2592 / 10000, 7408 / 10000, r1, r2, r3, rat_exp b r4 (by norm_num) r5, ?_, m, by norm_num, by norm_num, by norm_num, by norm_num, by norm_num, by norm_num⟩
      rw [abs_of_nonpos (by linarith)]; linarith

/-- A reduced argument in two parts. -/
theorem kernel1 {hi lo : Nat} (hh : hi < 2 ^ 64) (fh : IsFinite hi) (hl : lo < 2 ^ 64) (fl : IsFinite lo)
    (bL : |(value lo : ℝ)| ≤ 3 / 10 ^ 7) (bS : |(value hi : ℝ) - value lo| ≤ 346579 / 1000000) :
    Near (sub Libm.one (sub (sub lo (div (mul (sub hi lo) (primary (sub hi lo))) (sub two (primary (sub hi lo))))) hi))
      (Real.exp (value hi - value lo)) (Real.exp (value hi - value lo) * (1999 / 1000 / 2 ^ 53)) := by
  have hs := (Near.self hh fh).sub (Near.self hl fl) (m := 346579 / 1000000) (g := 1 / 10 ^ 16) bS (by norm_num) (by norm_num)
  have bX : |(value (sub hi lo) : ℝ)| ≤ 34658 / 100000 := by
    have := hs.abs_le bS
    norm_num at *; linarith
  obtain ⟨G, eG, gm, im, E0, a1, -, a3, a4, a5, a6, a7, a8, a9, -, -, a12⟩ := reduced hs.1 hs.2.1 bX
  exact tail1 hh fh hl fl bL (le_trans bS (by norm_num)) a1 a3 a4 a5 a6 a7 a8 a9 a12

/-- A small argument. -/
theorem kernel0 {x : Nat} (hx : x < 2 ^ 64) (fx : IsFinite x) (b : |(value x : ℝ)| ≤ 34658 / 100000) :
    Near (sub Libm.one (sub (div (mul x (primary x)) (sub (primary x) two)) x)) (Real.exp (value x)) (Real.exp (value x) * (1999 / 1000 / 2 ^ 53)) := by
  obtain ⟨G, eG, gm, im, E0, -, a2, -, a4, a5, a6, a7, -, a9, g0, i0, a12⟩ := reduced hx fx b
  refine tail0 hx fx a2 a4 a5 a6 a7 a9 ?_
  have : 0 ≤ 34659 / 10 ^ 5 / 2 ^ 53 * im := mul_nonneg (by norm_num) i0
  norm_num at *
  linarith

end Pok.Exp
