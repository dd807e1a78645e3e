import Verif.Lemmas.Reduce
import Verif.Lemmas.Pow
/-!
# `__ieee754_rem_pio2`
-/
namespace Pok.Trig
open Pok.Err Pok.Float Pok.Fpu Pok.Poly

/-- An angle reduced: `x` less `n` times pi/2 is `y0 + y1`, up to `10^-18`. -/
structure Red (x : ℝ) (r : Int × Nat × Nat) : Prop where
  h0 : r.2.1 < 2 ^ 64 ∧ IsFinite r.2.1
  h1 : r.2.2 < 2 ^ 64 ∧ IsFinite r.2.2
  b0 : |(value r.2.1 : ℝ)| ≤ 7855 / 10000
  b1 : |(value r.2.2 : ℝ)| ≤ 12 / 10 ^ 17
  near : |(value r.2.1 : ℝ) + value r.2.2 - (x - r.1 * (Real.pi / 2))| ≤ 1 / 10 ^ 18

theorem Red.neg {x : ℝ} {r : Int × Nat × Nat} (h : Red x r) : Red (-x) (-r.1, negate r.2.1, negate r.2.2) := by
  have n0 := (Near.self h.h0.1 h.h0.2).neg
  have n1 := (Near.self h.h1.1 h.h1.2).neg
  have v0 := value_negate h.h0.1 h.h0.2
  have v1 := value_negate h.h1.1 h.h1.2
  refine ⟨⟨n0.1, n0.2.1⟩, ⟨n1.1, n1.2.1⟩, ?_, ?_, ?_⟩
  · rw [v0, abs_neg]; exact h.b0
  · rw [v1, abs_neg]; exact h.b1
  · show |(value (negate r.2.1) : ℝ) + value (negate r.2.2) - (-x - ((-r.1 : Int) : ℝ) * (Real.pi / 2))| ≤ 1 / 10 ^ 18
    rw [v0, v1, ← abs_neg]
    refine le_trans (le_of_eq ?_) h.near
    congr 1; push_cast; ring

theorem pi_1 : |((pio2_1q : ℝ) + pio2_1tq) - Real.pi / 2| ≤ 1 / 10 ^ 26 := by
  have h := abs_le.1 halfPi_near
  have e : (halfPi : ℝ) = 15707963267948966192313216916397514 / 10 ^ 34 := by unfold halfPi; norm_num
  rw [e] at h
  unfold pio2_1q pio2_1tq
  rw [abs_le]; constructor <;> norm_num at * <;> linarith

theorem pi_2 : |((pio2_1q : ℝ) + (pio2_2q + pio2_2tq)) - Real.pi / 2| ≤ 1 / 10 ^ 26 := by
  have h := abs_le.1 halfPi_near
  have e : (halfPi : ℝ) = 15707963267948966192313216916397514 / 10 ^ 34 := by unfold halfPi; norm_num
  rw [e] at h
  unfold pio2_1q pio2_2q pio2_2tq
  rw [abs_le]; constructor <;> norm_num at * <;> linarith

theorem pi_3 : |((pio2_1q : ℝ) + (pio2_2q + (pio2_3q + pio2_3tq))) - Real.pi / 2| ≤ 1 / 10 ^ 26 := by
  have h := abs_le.1 halfPi_near
  have e : (halfPi : ℝ) = 15707963267948966192313216916397514 / 10 ^ 34 := by unfold halfPi; norm_num
  rw [e] at h
  unfold pio2_1q pio2_2q pio2_3q pio2_3tq
  rw [abs_le]; constructor <;> norm_num at * <;> linarith

/-- `n` times a small number. -/
theorem times {N a e : ℝ} (hN : |N| ≤ 2 ^ 20) (h : |a| ≤ e) : |N * a| ≤ 2 ^ 20 * e := by
  rw [abs_mul]; exact mul_le_mul hN h (abs_nonneg _) (by positivity)

/-- The end of the reduction: the two parts. -/
theorem red_fin {x : ℝ} {n : Int} {r w : Nat} (hN : |(n : ℝ)| ≤ 2 ^ 20) (hθ : |x - n * (Real.pi / 2)| ≤ 7854 / 10000)
    (hr : r < 2 ^ 64 ∧ IsFinite r) (hw : w < 2 ^ 64 ∧ IsFinite w) (br : |(value r : ℝ)| ≤ 79 / 100)
    (bw : |(value w : ℝ)| ≤ 1 / 10 ^ 4) (h : |(value r : ℝ) - value w - (x - n * (Real.pi / 2))| ≤ 5 / 10 ^ 19) :
    Red x (n, sub r w, sub (sub r (sub r w)) w) := by
  obtain ⟨a0, a1, c1, c2⟩ := fin_sub hr.1 hr.2 hw.1 hw.2 br bw
  have θ := abs_le.1 hθ
  have h' := abs_le.1 h
  have c1' := abs_le.1 c1
  have c2' := abs_le.1 c2
  refine ⟨a0, a1, ?_, le_trans c1 (by norm_num), ?_⟩
  · rw [abs_le]; constructor <;> norm_num at * <;> linarith
  · rw [abs_le]; constructor <;> norm_num at * <;> linarith

/-- The same with a sum. -/
theorem red_fin' {x : ℝ} {n : Int} {r w : Nat} (hN : |(n : ℝ)| ≤ 2 ^ 20) (hθ : |x - n * (Real.pi / 2)| ≤ 7854 / 10000)
    (hr : r < 2 ^ 64 ∧ IsFinite r) (hw : w < 2 ^ 64 ∧ IsFinite w) (br : |(value r : ℝ)| ≤ 79 / 100)
    (bw : |(value w : ℝ)| ≤ 1 / 10 ^ 4) (h : |(value r : ℝ) + value w - (x - n * (Real.pi / 2))| ≤ 5 / 10 ^ 19) :
    Red x (n, add r w, add (sub r (add r w)) w) := by
  obtain ⟨a0, a1, c1, c2⟩ := fin_add hr.1 hr.2 hw.1 hw.2 br bw
  have θ := abs_le.1 hθ
  have h' := abs_le.1 h
  have c1' := abs_le.1 c1
  have c2' := abs_le.1 c2
  refine ⟨a0, a1, ?_, le_trans c1 (by norm_num), ?_⟩
  · rw [abs_le]; constructor <;> norm_num at * <;> linarith
  · rw [abs_le]; constructor <;> norm_num at * <;> linarith

theorem mag_self {t : Nat} (ht : t < 2 ^ 63) : mag t = t := by unfold mag; omega

theorem value_pos {t : Nat} (ht : t < 2 ^ 63) : |value t| = value t := by
  apply abs_of_nonneg
  have := abs_value' (d := t) (by omega)
  have := value_self (d := t) (by omega)
  rw [show sign t = 0 by unfold sign; omega, pow_zero, one_mul] at this
  rw [this]
  exact div_nonneg (Nat.cast_nonneg _) (pow_nonneg (by norm_num) _)

/-- The multiple of pi/2 that is taken away. -/
theorem multiple {t : Nat} (ht : t < 2 ^ 64) (ft : IsFinite t) {T : ℝ} (hT : (value t : ℝ) = T) (t0 : 235 / 100 ≤ T) (t1 : T ≤ 1647100) :
    ∃ n : Int, toInt (add (mul t invpio2) half) = n ∧ 0 ≤ n ∧ n ≤ 2 ^ 20 ∧ |T - n * (Real.pi / 2)| ≤ 7854 / 10000 := by
  refine ⟨_, rfl, ?_⟩
  have iq : (invpio2q : ℝ) = 5734161139222659 / 2 ^ 53 := by unfold invpio2q; norm_num
  have hq : (halfq : ℝ) = 1 / 2 := by unfold halfq; norm_num
  have h1 := mul_err ht v_invpio2.1 ft v_invpio2.2.1 (by
    rw [hT, v_invpio2.2.2, abs_of_nonneg (by rw [iq]; positivity), iq]; norm_num; linarith)
  rw [hT, v_invpio2.2.2, abs_of_nonneg (by rw [iq]; positivity)] at h1
  have h1 := h1.weaken (f := 2 / 10 ^ 10) (by rw [iq]; norm_num; linarith)
  have h2 := h1.add (Near.self v_half.1 v_half.2.1) (m := 1048600) (g := 4 / 10 ^ 10) (by
    rw [v_half.2.2, hq, iq, abs_le]; constructor <;> norm_num <;> linarith) (by norm_num) (by norm_num)
  rw [v_half.2.2, hq] at h2
  have e2 := abs_le.1 h2.2.2
  have pos : 0 ≤ value (add (mul t invpio2) half) := by
    have : (0 : ℝ) ≤ (value (add (mul t invpio2) half) : ℝ) := by rw [iq] at e2; norm_num at e2; linarith only [e2.1, t0]
    exact_mod_cast this
  obtain ⟨f1, f2, f3⟩ := toInt_floor h2.1 pos
  generalize toInt (add (mul t invpio2) half) = n at *
  generalize (value (add (mul t invpio2) half) : ℝ) = q at *
  refine ⟨f3, ?_, ?_⟩
  · have : (n : ℝ) < 2 ^ 20 + 1 := by rw [iq] at e2; norm_num at e2 ⊢; linarith only [e2.2, f1, t1]
    have : n < 2 ^ 20 + 1 := by exact_mod_cast this
    omega
  · have hp := abs_le.1 halfPi_near
    have e : (halfPi : ℝ) = 15707963267948966192313216916397514 / 10 ^ 34 := by unfold halfPi; norm_num
    rw [e] at hp
    have p0 : 15707963267 / 10 ^ 10 ≤ Real.pi / 2 := by norm_num at *; linarith
    have p1 : Real.pi / 2 ≤ 15707963268 / 10 ^ 10 := by norm_num at *; linarith
    have d1 : |T * invpio2q - n| ≤ 1 / 2 + 4 / 10 ^ 10 := by
      rw [abs_le]; constructor <;> norm_num at * <;> linarith
    have d2 : |(invpio2q : ℝ) * (Real.pi / 2) - 1| ≤ 1 / 10 ^ 15 := by
      rw [iq, abs_le]; constructor <;> norm_num at * <;> linarith
    have d3 : |T * (invpio2q * (Real.pi / 2) - 1)| ≤ 1647100 * (1 / 10 ^ 15) := by
      rw [abs_mul]; exact mul_le_mul (by rw [abs_of_nonneg (by linarith)]; exact t1) d2 (abs_nonneg _) (by norm_num)
    have d4 : |(T * invpio2q - n) * (Real.pi / 2)| ≤ (1 / 2 + 4 / 10 ^ 10) * (15707963268 / 10 ^ 10) := by
      rw [abs_mul]; exact mul_le_mul d1 (by rw [abs_of_nonneg (by linarith)]; exact p1) (abs_nonneg _) (by norm_num)
    rw [show T - n * (Real.pi / 2) = (T * invpio2q - n) * (Real.pi / 2) - T * (invpio2q * (Real.pi / 2) - 1) by ring]
    refine le_trans (abs_sub _ _) ?_
    norm_num at *
    linarith

/-- The first part of pi/2, times `n`, is taken away without an error. -/
theorem first {t f : Nat} {n : Int} (ht : t < 2 ^ 64) (ft : IsFinite t) (hf : f < 2 ^ 64) (ff : IsFinite f) (vf : value f = n) (n0 : |n| ≤ 2 ^ 20)
    (t0 : 1 / 2 ≤ |value t|) (hs : |(value t : ℝ) - n * pio2_1q| ≤ 79 / 100) :
    (sub t (mul f pio2_1) < 2 ^ 64 ∧ IsFinite (sub t (mul f pio2_1))) ∧ (value (sub t (mul f pio2_1)) : ℝ) = value t - n * pio2_1q := by
  obtain ⟨A, hA⟩ := grid_of ht t0
  have n0' : |(n : ℝ)| ≤ 2 ^ 20 := by exact_mod_cast n0
  have pq : pio2_1q = 1686629713 / 2 ^ 30 := rfl
  have hs' : |value t - n * pio2_1q| ≤ 79 / 100 := by
    have : ((|value t - n * pio2_1q| : ℚ) : ℝ) ≤ ((79 / 100 : ℚ) : ℝ) := by push_cast; exact hs
    exact_mod_cast this
  obtain ⟨d, hd, fd, vd⟩ : ∃ d, d < 2 ^ 64 ∧ IsFinite d ∧ value d = value f * value pio2_1 := by
    have hn : n.natAbs ≤ 2 ^ 20 := by rw [Int.abs_eq_natAbs] at n0; exact_mod_cast n0
    obtain ⟨d, hd, fd, vd⟩ := double_of (a := n.natAbs * 1686629713) (b := 1044) (s := if n < 0 then 1 else 0) (by omega) (by split <;> omega) (by
      have : ((n.natAbs * 1686629713 : ℕ) : ℚ) ≤ 2 ^ 53 := by exact_mod_cast (by omega : n.natAbs * 1686629713 ≤ 2 ^ 53)
      refine le_trans (mul_le_mul_of_nonneg_right this (by positivity)) ?_
      rw [← pow_add]
      exact (fun n m (h : n ≤ m) => pow_le_pow_right₀ (by norm_num) h : ∀ n m : ℕ, n ≤ m → (2 : ℚ) ^ n ≤ 2 ^ m) _ _ (by omega))
    refine ⟨d, hd, fd, ?_⟩
    rw [vd, vf, v_pio2_1.2.2, pq, show (1074 : ℕ) = 30 + 1044 by rfl, pow_add, mul_div_mul_right _ _ (by positivity)]
    have a : ((n.natAbs : ℕ) : ℚ) = |(n : ℚ)| := by rw [← Int.cast_abs, Int.abs_eq_natAbs]; rfl
    rw [Nat.cast_mul, a]
    split
    · rename_i c
      rw [abs_of_neg (by exact_mod_cast c)]; push_cast; ring
    · rename_i c
      rw [abs_of_nonneg (by exact_mod_cast not_lt.1 c)]; push_cast; ring
  have vf' : (value f : ℝ) = n := by rw [vf]; norm_num
  obtain ⟨m1, m2, m3⟩ := mul_exact hf v_pio2_1.1 ff v_pio2_1.2.1 (by
    rw [vf', v_pio2_1.2.2, abs_mul]
    refine le_trans (mul_le_mul n0' n_pio2_1.2 (abs_nonneg _) (by positivity)) (by norm_num)) hd fd vd
  rw [vf, v_pio2_1.2.2] at m3
  obtain ⟨e, he, fe, ve⟩ := grid_exact (D := A - n * 1686629713 * 2 ^ 23) (by
    rw [hA, pq] at hs'
    have : |((A - n * 1686629713 * 2 ^ 23 : ℤ) : ℚ)| ≤ 2 ^ 53 := by
      rw [show (A : ℚ) / 2 ^ 53 - n * (1686629713 / 2 ^ 30) = ((A - n * 1686629713 * 2 ^ 23 : ℤ) : ℚ) / 2 ^ 53 by push_cast; ring, abs_div,
        div_le_iff₀ (by positivity)] at hs'
      rw [abs_of_pos (show (0 : ℚ) < 2 ^ 53 by positivity)] at hs'
      refine le_trans hs' (by norm_num)
    exact_mod_cast this)
  obtain ⟨r1, r2, r3⟩ := sub_exact ht m1 ft m2 (by
    rw [m3]; push_cast; refine le_trans hs (by norm_num)) he fe (by rw [ve, m3, hA, pq]; push_cast; ring)
  refine ⟨⟨r1, r2⟩, ?_⟩
  rw [r3, m3]; push_cast; rfl

theorem hi_expo {y : Nat} (hy : y < 2 ^ 64) : (Libm.hi y >>> 20 &&& 0x7ff) = expo y := by
  rw [show (0x7ff : ℕ) = 2 ^ 11 - 1 by rfl, Nat.and_two_pow_sub_one_eq_mod, Nat.shiftRight_eq_div_pow]
  unfold Libm.hi expo; omega

/-- The medium case. -/
theorem remMedium_red {t : Nat} (h1 : 0x4002d97c * 2 ^ 32 ≤ t) (h2 : t < 0x413921fc * 2 ^ 32) : Red (value t) (remMedium t (t / 2 ^ 32)) := by
  have ht : t < 2 ^ 64 := by omega
  have ft : IsFinite t := by unfold IsFinite expo; omega
  have hm := mag_self (t := t) (by omega)
  obtain ⟨B0, B1⟩ := hi_range (p := 235 / 100) (q := 1647100) ht (a := 0x4002d97c) (b := 0x413921fc) (by omega) (by omega) (by omega) (by omega)
    (by unfold value sign expo frac; norm_num) (by unfold value sign expo frac; norm_num)
  have vp : |(value t : ℝ)| = value t := by rw [← Rat.cast_abs, value_pos (by omega)]
  rw [vp] at B0 B1
  push_cast at B0 B1
  have tq : 1 / 2 ≤ |value t| := by
    have : ((1 / 2 : ℚ) : ℝ) ≤ ((|value t| : ℚ) : ℝ) := by push_cast; rw [vp]; linarith
    exact_mod_cast this
  obtain ⟨n, hn, n0, n1, hθ⟩ := multiple ht ft rfl B0 B1
  obtain ⟨f1, f2, f3⟩ := Libm.ofInt_value (i := n) (by omega)
  have nR0 : (0 : ℝ) ≤ n := by exact_mod_cast n0
  have nR1 : (n : ℝ) ≤ 2 ^ 20 := by exact_mod_cast n1
  have hN : |(n : ℝ)| ≤ 2 ^ 20 := by rw [abs_of_nonneg nR0]; exact nR1
  have c1t : |(pio2_1tq : ℝ)| ≤ 61 / 10 ^ 12 := le_trans n_pio2_1t.2 (by norm_num)
  have c2 : |(pio2_2q : ℝ)| ≤ 61 / 10 ^ 12 := le_trans n_pio2_2.2 (by norm_num)
  have c2t : |(pio2_2tq : ℝ)| ≤ 3 / 10 ^ 21 := le_trans n_pio2_2t.2 (by norm_num)
  have c3 : |(pio2_3q : ℝ)| ≤ 3 / 10 ^ 21 := le_trans n_pio2_3.2 (by norm_num)
  have c3t : |(pio2_3tq : ℝ)| ≤ 1 / 10 ^ 30 := le_trans n_pio2_3t.2 (by norm_num)
  have q1 := times hN pi_1
  have q2 := times hN pi_2
  have q3 := times hN pi_3
  have m1 := times hN c1t
  have m2 := times hN c2
  have m2t := times hN c2t
  have m3 := times hN c3
  have m3t := times hN c3t
  rw [mul_sub, mul_add] at q1 q2 q3
  rw [mul_add] at q2 q3
  rw [mul_add (n : ℝ) (pio2_3q : ℝ)] at q3
  have θ := abs_le.1 hθ
  have q1' := abs_le.1 q1
  have q2' := abs_le.1 q2
  have q3' := abs_le.1 q3
  have m1' := abs_le.1 m1
  have m2' := abs_le.1 m2
  have m2t' := abs_le.1 m2t
  have hs : |(value t : ℝ) - n * pio2_1q| ≤ 7856 / 10000 := by
    rw [abs_le]; constructor <;> linarith only [θ.1, θ.2, q1'.1, q1'.2, m1'.1, m1'.2]
  obtain ⟨hr, vr⟩ := first ht ft f1 f2 (by rw [f3]) (by rw [abs_of_nonneg n0]; exact n1) tq (le_trans hs (by norm_num))
  have br : |(value (sub t (mul (Libm.ofInt n) pio2_1)) : ℝ)| ≤ 7856 / 10000 := by rw [vr]; exact hs
  have vf : (value (Libm.ofInt n) : ℝ) = n := by rw [f3]; norm_num
  have hw := mul_err f1 v_pio2_1t.1 f2 v_pio2_1t.2.1 (by rw [vf, v_pio2_1t.2.2]; refine le_trans m1 (by norm_num))
  rw [vf, v_pio2_1t.2.2] at hw
  have hw := hw.weaken (f := 1 / 10 ^ 20) (by
    have := div_le_div_of_nonneg_right m1 (show (0 : ℝ) ≤ 2 ^ 53 by positivity)
    refine le_trans (add_le_add this le_rfl) (by norm_num))
  have ew := abs_le.1 hw.2.2
  -- the first round
  have R1 : Red (value t) (n, sub (sub t (mul (Libm.ofInt n) pio2_1)) (mul (Libm.ofInt n) pio2_1t),
      sub (sub (sub t (mul (Libm.ofInt n) pio2_1)) (sub (sub t (mul (Libm.ofInt n) pio2_1)) (mul (Libm.ofInt n) pio2_1t))) (mul (Libm.ofInt n) pio2_1t)) := by
    refine red_fin hN hθ hr ⟨hw.1, hw.2.1⟩ (le_trans br (by norm_num)) ?_ ?_
    · have := hw.abs_le m1; refine le_trans this (by norm_num)
    · rw [vr, abs_le]; constructor <;> linarith only [ew.1, ew.2, q1'.1, q1'.2]
  unfold remMedium
  simp only [hn]
  split
  · exact R1
  · split
    · -- the second round
      obtain ⟨hr2, hw2, br2, bw2, d2, k2⟩ := round_next hr.1 hr.2 (le_trans br (by norm_num)) f1 f2 vf v_pio2_2 v_pio2_2t
        (le_trans m2 (by norm_num)) (le_trans m2t (by norm_num))
      rw [vr] at d2 k2
      rw [mul_add] at d2
      generalize sub t (mul (Libm.ofInt n) pio2_1) = r1 at *
      generalize sub r1 (mul (Libm.ofInt n) pio2_2) = r2 at *
      generalize sub (mul (Libm.ofInt n) pio2_2t) (sub (sub r1 r2) (mul (Libm.ofInt n) pio2_2)) = w2 at *
      have d2' := abs_le.1 d2
      split
      · -- the third round
        rename_i hj
        have small : |(value (sub r2 w2) : ℝ)| ≤ 2 / 10 ^ 9 := by
          obtain ⟨a0, -⟩ := fin_sub hr2.1 hr2.2 hw2.1 hw2.2 br2 (le_trans bw2 (by norm_num))
          rw [hi_expo a0.1, Nat.shiftRight_eq_div_pow] at hj
          have ex : expo (sub r2 w2) ≤ 993 := by omega
          have := value_mono a0.1 (c := 994 * 2 ^ 52) (by norm_num) (by rw [mag_eq]; have := frac_lt (sub r2 w2); omega)
          have v : value (994 * 2 ^ 52) ≤ 2 / 10 ^ 9 := by unfold value sign expo frac; norm_num
          have := (Rat.cast_le (K := ℝ)).2 (le_trans this v)
          push_cast at this ⊢; exact this
        have z := (Near.self hr2.1 hr2.2).sub (Near.self hw2.1 hw2.2) (m := 8 / 10) (g := 9 / 10 ^ 17) (by
          refine le_trans (abs_sub _ _) ?_; linarith only [br2, bw2]) (by norm_num) (by norm_num)
        have z' := abs_le.1 z.2.2
        have s' := abs_le.1 small
        have w' := abs_le.1 bw2
        have r2s : |(value r2 : ℝ)| ≤ 3 / 10 ^ 9 := by
          rw [abs_le]; constructor <;> linarith only [z'.1, z'.2, s'.1, s'.2, w'.1, w'.2]
        have k2 : |(value r2 : ℝ) - (value t - n * pio2_1q - n * pio2_2q)| ≤ 3 / 10 ^ 20 := by
          refine le_trans k2 ?_; linarith only [r2s]
        have k2' := abs_le.1 k2
        obtain ⟨hr3, hw3, br3, bw3, d3, -⟩ := round_next hr2.1 hr2.2 (le_trans r2s (by norm_num)) f1 f2 vf v_pio2_3 v_pio2_3t
          (le_trans m3 (by norm_num)) (le_trans m3t (by norm_num))
        rw [mul_add] at d3
        generalize sub r2 (mul (Libm.ofInt n) pio2_3) = r3 at *
        generalize sub (mul (Libm.ofInt n) pio2_3t) (sub (sub r2 r3) (mul (Libm.ofInt n) pio2_3)) = w3 at *
        have d3' := abs_le.1 d3
        refine red_fin hN hθ hr3 hw3 br3 (le_trans bw3 (by norm_num)) ?_
        rw [abs_le]; constructor <;> linarith only [d3'.1, d3'.2, k2'.1, k2'.2, q3'.1, q3'.2]
      · refine red_fin hN hθ hr2 hw2 br2 (le_trans bw2 (by norm_num)) ?_
        rw [abs_le]; constructor <;> linarith only [d2'.1, d2'.2, q2'.1, q2'.2]
    · exact R1

/-- The first part of pi/2 is taken away from an angle near it without an error. -/
theorem first_one {x : Nat} (hx : x < 2 ^ 64) (fx : IsFinite x) (t0 : 1 / 2 ≤ |value x|) :
    (|(value x : ℝ) - pio2_1q| ≤ 79 / 100 → (sub x pio2_1 < 2 ^ 64 ∧ IsFinite (sub x pio2_1)) ∧ (value (sub x pio2_1) : ℝ) = value x - pio2_1q) ∧
    (|(value x : ℝ) + pio2_1q| ≤ 79 / 100 → (add x pio2_1 < 2 ^ 64 ∧ IsFinite (add x pio2_1)) ∧ (value (add x pio2_1) : ℝ) = value x + pio2_1q) := by
  obtain ⟨A, hA⟩ := grid_of hx t0
  have pq : pio2_1q = 1686629713 / 2 ^ 30 := rfl
  constructor
  · intro hs
    have hs' : |value x - pio2_1q| ≤ 79 / 100 := by
      have : ((|value x - pio2_1q| : ℚ) : ℝ) ≤ ((79 / 100 : ℚ) : ℝ) := by push_cast; exact hs
      exact_mod_cast this
    obtain ⟨e, he, fe, ve⟩ := grid_exact (D := A - 1686629713 * 2 ^ 23) (by
      rw [hA, pq] at hs'
      have : |((A - 1686629713 * 2 ^ 23 : ℤ) : ℚ)| ≤ 2 ^ 53 := by
        rw [show (A : ℚ) / 2 ^ 53 - 1686629713 / 2 ^ 30 = ((A - 1686629713 * 2 ^ 23 : ℤ) : ℚ) / 2 ^ 53 by push_cast; ring, abs_div,
          div_le_iff₀ (by positivity)] at hs'
        rw [abs_of_pos (show (0 : ℚ) < 2 ^ 53 by positivity)] at hs'
        refine le_trans hs' (by norm_num)
      exact_mod_cast this)
    obtain ⟨r1, r2, r3⟩ := sub_exact hx v_pio2_1.1 fx v_pio2_1.2.1 (by
      rw [v_pio2_1.2.2]; refine le_trans hs (by norm_num)) he fe (by rw [ve, v_pio2_1.2.2, hA, pq]; push_cast; ring)
    refine ⟨⟨r1, r2⟩, ?_⟩
    rw [r3, v_pio2_1.2.2]; push_cast; rfl
  · intro hs
    have hs' : |value x + pio2_1q| ≤ 79 / 100 := by
      have : ((|value x + pio2_1q| : ℚ) : ℝ) ≤ ((79 / 100 : ℚ) : ℝ) := by push_cast; exact hs
      exact_mod_cast this
    obtain ⟨e, he, fe, ve⟩ := grid_exact (D := A + 1686629713 * 2 ^ 23) (by
      rw [hA, pq] at hs'
      have : |((A + 1686629713 * 2 ^ 23 : ℤ) : ℚ)| ≤ 2 ^ 53 := by
        rw [show (A : ℚ) / 2 ^ 53 + 1686629713 / 2 ^ 30 = ((A + 1686629713 * 2 ^ 23 : ℤ) : ℚ) / 2 ^ 53 by push_cast; ring, abs_div,
          div_le_iff₀ (by positivity)] at hs'
        rw [abs_of_pos (show (0 : ℚ) < 2 ^ 53 by positivity)] at hs'
        refine le_trans hs' (by norm_num)
      exact_mod_cast this)
    obtain ⟨r1, r2, r3⟩ := add_exact hx v_pio2_1.1 fx v_pio2_1.2.1 (by
      rw [v_pio2_1.2.2]; refine le_trans hs (by norm_num)) he fe (by rw [ve, v_pio2_1.2.2, hA, pq]; push_cast; ring)
    refine ⟨⟨r1, r2⟩, ?_⟩
    rw [r3, v_pio2_1.2.2]; push_cast; rfl

/-- The reduction, up to `2^20` times pi/2. -/
theorem remPio2_red (big : Nat → Int × Nat × Nat) {x : Nat} (hx : x < 2 ^ 64) (h1 : 0x3fe921fc ≤ mag x / 2 ^ 32) (h2 : mag x / 2 ^ 32 ≤ 0x413921fb) :
    Red (value x) (remPio2 big x) := by
  have fx : IsFinite x := by
    unfold IsFinite; have := mag_eq x; have := frac_lt x; omega
  unfold remPio2
  simp only []
  rw [hi31 hx, if_neg (by omega)]
  have sg := sign_lt x
  have hn := Libm.neg32_eq hx
  have hp := abs_le.1 halfPi_near
  have he : (halfPi : ℝ) = 15707963267948966192313216916397514 / 10 ^ 34 := by unfold halfPi; norm_num
  rw [he] at hp
  have e1 : (pio2_1q : ℝ) = 1686629713 / 2 ^ 30 := by unfold pio2_1q; norm_num
  by_cases c : mag x / 2 ^ 32 < 0x4002d97c
  · rw [if_pos c]
    obtain ⟨B0, B1⟩ := hi_range (p := 785398 / 10 ^ 6) (q := 2356194 / 10 ^ 6) hx (a := 0x3fe921fc) (b := 0x4002d97c) (by omega) (by omega) (by omega) (by omega)
      (by unfold value sign expo frac; norm_num) (by unfold value sign expo frac; norm_num)
    push_cast at B0 B1
    have tq : 1 / 2 ≤ |value x| := by
      have : ((1 / 2 : ℚ) : ℝ) ≤ ((|value x| : ℚ) : ℝ) := by push_cast; linarith
      exact_mod_cast this
    obtain ⟨s1, s2⟩ := first_one hx fx tq
    have p1 := abs_le.1 pi_1
    have p2 := abs_le.1 pi_2
    have near2 : mag x / 2 ^ 32 = 0x3ff921fb → 15707 / 10 ^ 4 ≤ |(value x : ℝ)| ∧ |(value x : ℝ)| ≤ 15708 / 10 ^ 4 := by
      intro k
      obtain ⟨B0, B1⟩ := hi_range (p := 15707 / 10 ^ 4) (q := 15708 / 10 ^ 4) hx (a := 0x3ff921fb) (b := 0x3ff921fc) (by omega) (by omega) (by omega) (by omega)
        (by unfold value sign expo frac; norm_num) (by unfold value sign expo frac; norm_num)
      push_cast at B0 B1
      exact ⟨B0, B1⟩
    have b1 := n_pio2_1t.2
    have b2 := n_pio2_2t.2
    rcases (by omega : sign x = 0 ∨ sign x = 1) with s0 | s0
    · have vx : |(value x : ℝ)| = value x := by
        rw [← Rat.cast_abs, value_pos (by unfold sign at s0; omega)]
      rw [vx] at B0 B1 near2
      rw [if_pos ⟨by rw [hn, s0]; rfl, by unfold Libm.hi; unfold mag at h1; omega⟩]
      have hs : |(value x : ℝ) - pio2_1q| ≤ 78541 / 10 ^ 5 := by
        rw [e1, abs_le]; constructor <;> linarith only [B0, B1]
      obtain ⟨hz, vz⟩ := s1 (le_trans hs (by norm_num))
      have hθ : |(value x : ℝ) - ((1 : Int) : ℝ) * (Real.pi / 2)| ≤ 7854 / 10000 := by
        rw [Int.cast_one, one_mul, abs_le]; constructor <;> linarith only [B0, B1, hp.1, hp.2]
      split
      · refine red_fin (by norm_num) hθ hz ⟨v_pio2_1t.1, v_pio2_1t.2.1⟩ (by rw [vz]; exact le_trans hs (by norm_num)) ?_ ?_
        · rw [v_pio2_1t.2.2]; exact le_trans b1 (by norm_num)
        · rw [vz, v_pio2_1t.2.2, Int.cast_one, one_mul, abs_le]; constructor <;> linarith only [p1.1, p1.2]
      · rename_i k
        obtain ⟨C0, C1⟩ := near2 (by omega)
        have b := abs_le.1 n_pio2_2.2
        have q := (Near.self hz.1 hz.2).sub (Near.self v_pio2_2.1 v_pio2_2.2.1) (m := 1 / 10 ^ 3) (g := 2 / 10 ^ 19) (by
          rw [vz, v_pio2_2.2.2, e1, abs_le]; constructor <;> linarith only [C0, C1, b.1, b.2]) (by norm_num) (by norm_num)
        rw [vz, v_pio2_2.2.2] at q
        have q' := abs_le.1 q.2.2
        refine red_fin (by norm_num) hθ ⟨q.1, q.2.1⟩ ⟨v_pio2_2t.1, v_pio2_2t.2.1⟩ ?_ ?_ ?_
        · rw [abs_le]; rw [e1] at q'; constructor <;> linarith only [C0, C1, b.1, b.2, q'.1, q'.2]
        · rw [v_pio2_2t.2.2]; exact le_trans b2 (by norm_num)
        · rw [v_pio2_2t.2.2, Int.cast_one, one_mul, abs_le]; constructor <;> linarith only [p2.1, p2.2, q'.1, q'.2]
    · have vx : |(value x : ℝ)| = - value x := by
        have a := value_self hx
        have a' := abs_value' hx
        rw [s0, pow_one, neg_one_mul, ← a'] at a
        rw [← Rat.cast_abs]
        have : |value x| = - value x := by rw [a, abs_neg, abs_abs, neg_neg]
        rw [this]; push_cast; rfl
      rw [vx] at B0 B1 near2
      rw [if_neg (by rw [hn, s0]; simp)]
      have hs : |(value x : ℝ) + pio2_1q| ≤ 78541 / 10 ^ 5 := by
        rw [e1, abs_le]; constructor <;> linarith only [B0, B1]
      obtain ⟨hz, vz⟩ := s2 (le_trans hs (by norm_num))
      have hθ : |(value x : ℝ) - ((-1 : Int) : ℝ) * (Real.pi / 2)| ≤ 7854 / 10000 := by
        rw [Int.cast_neg, Int.cast_one, neg_one_mul, abs_le]; constructor <;> linarith only [B0, B1, hp.1, hp.2]
      split
      · refine red_fin' (by norm_num) hθ hz ⟨v_pio2_1t.1, v_pio2_1t.2.1⟩ (by rw [vz]; exact le_trans hs (by norm_num)) ?_ ?_
        · rw [v_pio2_1t.2.2]; exact le_trans b1 (by norm_num)
        · rw [vz, v_pio2_1t.2.2, Int.cast_neg, Int.cast_one, neg_one_mul, abs_le]; constructor <;> linarith only [p1.1, p1.2]
      · rename_i k
        obtain ⟨C0, C1⟩ := near2 (by omega)
        have b := abs_le.1 n_pio2_2.2
        have q := (Near.self hz.1 hz.2).add (Near.self v_pio2_2.1 v_pio2_2.2.1) (m := 1 / 10 ^ 3) (g := 2 / 10 ^ 19) (by
          rw [vz, v_pio2_2.2.2, e1, abs_le]; constructor <;> linarith only [C0, C1, b.1, b.2]) (by norm_num) (by norm_num)
        rw [vz, v_pio2_2.2.2] at q
        have q' := abs_le.1 q.2.2
        refine red_fin' (by norm_num) hθ ⟨q.1, q.2.1⟩ ⟨v_pio2_2t.1, v_pio2_2t.2.1⟩ ?_ ?_ ?_
        · rw [abs_le]; rw [e1] at q'; constructor <;> linarith only [C0, C1, b.1, b.2, q'.1, q'.2]
        · rw [v_pio2_2t.2.2]; exact le_trans b2 (by norm_num)
        · rw [v_pio2_2t.2.2, Int.cast_neg, Int.cast_one, neg_one_mul, abs_le]; constructor <;> linarith only [p2.1, p2.2, q'.1, q'.2]
  · rw [if_neg c, if_pos h2]
    have fm := Libm.fabs_mag hx
    have vm : (value (mag x) : ℝ) = |(value x : ℝ)| := by
      have a := abs_value' (d := mag x) (by have := mag_lt x; omega)
      rw [value_pos (mag_lt x), mag_self (mag_lt x), ← abs_value' hx] at a
      rw [a, Rat.cast_abs]
    have R := remMedium_red (t := mag x) (by omega) (by omega)
    rw [fm]
    rcases (by omega : sign x = 0 ∨ sign x = 1) with s0 | s0
    · rw [if_neg (by rw [hn, s0]; simp)]
      have vx : |(value x : ℝ)| = value x := by
        rw [← Rat.cast_abs, value_pos (by unfold sign at s0; omega)]
      rw [vm, vx] at R
      exact R
    · rw [if_pos (by rw [hn, s0]; rfl)]
      have vx : |(value x : ℝ)| = - value x := by
        have a := value_self hx
        have a' := abs_value' hx
        rw [s0, pow_one, neg_one_mul, ← a'] at a
        rw [← Rat.cast_abs]
        have : |value x| = - value x := by rw [a, abs_neg, abs_abs, neg_neg]
        rw [this]; push_cast; rfl
      rw [vm, vx] at R
      have := R.neg
      rw [neg_neg] at this
      exact this

end Pok.Trig
