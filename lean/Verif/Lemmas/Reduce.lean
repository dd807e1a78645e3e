import Verif.Lemmas.CosKernel
import Verif.Lemmas.Pi
import Verif.Props.Nextafter
import Verif.Props.Remainder
/-!
# The reduction of an angle by multiples of pi/2
-/
namespace Pok.Trig
open Pok.Err Pok.Float Pok.Fpu Pok.Poly

/-! The constants. -/
def invpio2q : ℚ := 5734161139222659 / 2 ^ 53
theorem v_invpio2 : invpio2 < 2 ^ 64 ∧ IsFinite invpio2 ∧ value invpio2 = invpio2q := by
  refine ⟨by decide, by decide, ?_⟩
  unfold invpio2 invpio2q value sign expo frac; norm_num
theorem n_invpio2 : Nb invpio2 (invpio2q : ℝ) 0 (636619772368 / 10 ^ 12) := Nb.const v_invpio2 (by unfold invpio2q; rw [abs_le]; constructor <;> norm_num)
def pio2_1q : ℚ := 1686629713 / 2 ^ 30
theorem v_pio2_1 : pio2_1 < 2 ^ 64 ∧ IsFinite pio2_1 ∧ value pio2_1 = pio2_1q := by
  refine ⟨by decide, by decide, ?_⟩
  unfold pio2_1 pio2_1q value sign expo frac; norm_num
theorem n_pio2_1 : Nb pio2_1 (pio2_1q : ℝ) 0 (157079632674 / 10 ^ 11) := Nb.const v_pio2_1 (by unfold pio2_1q; rw [abs_le]; constructor <;> norm_num)
def pio2_1tq : ℚ := 4701928774853425 / 2 ^ 86
theorem v_pio2_1t : pio2_1t < 2 ^ 64 ∧ IsFinite pio2_1t ∧ value pio2_1t = pio2_1tq := by
  refine ⟨by decide, by decide, ?_⟩
  unfold pio2_1t pio2_1tq value sign expo frac; norm_num
theorem n_pio2_1t : Nb pio2_1t (pio2_1tq : ℝ) 0 (607710050651 / 10 ^ 22) := Nb.const v_pio2_1t (by unfold pio2_1tq; rw [abs_le]; constructor <;> norm_num)
def pio2_2q : ℚ := 2242054355 / 2 ^ 65
theorem v_pio2_2 : pio2_2 < 2 ^ 64 ∧ IsFinite pio2_2 ∧ value pio2_2 = pio2_2q := by
  refine ⟨by decide, by decide, ?_⟩
  unfold pio2_2 pio2_2q value sign expo frac; norm_num
theorem n_pio2_2 : Nb pio2_2 (pio2_2q : ℝ) 0 (607710050631 / 10 ^ 22) := Nb.const v_pio2_2 (by unfold pio2_2q; rw [abs_le]; constructor <;> norm_num)
def pio2_2tq : ℚ := 5376105825661043 / 2 ^ 121
theorem v_pio2_2t : pio2_2t < 2 ^ 64 ∧ IsFinite pio2_2t ∧ value pio2_2t = pio2_2tq := by
  refine ⟨by decide, by decide, ?_⟩
  unfold pio2_2t pio2_2tq value sign expo frac; norm_num
theorem n_pio2_2t : Nb pio2_2t (pio2_2tq : ℝ) 0 (202226624880 / 10 ^ 32) := Nb.const v_pio2_2t (by unfold pio2_2tq; rw [abs_le]; constructor <;> norm_num)
def pio2_3q : ℚ := 160220439 / 2 ^ 96
theorem v_pio2_3 : pio2_3 < 2 ^ 64 ∧ IsFinite pio2_3 ∧ value pio2_3 = pio2_3q := by
  refine ⟨by decide, by decide, ?_⟩
  unfold pio2_3 pio2_3q value sign expo frac; norm_num
theorem n_pio2_3 : Nb pio2_3 (pio2_3q : ℝ) 0 (202226624872 / 10 ^ 32) := Nb.const v_pio2_3 (by unfold pio2_3q; rw [abs_le]; constructor <;> norm_num)
def pio2_3tq : ℚ := 7744522442262977 / 2 ^ 156
theorem v_pio2_3t : pio2_3t < 2 ^ 64 ∧ IsFinite pio2_3t ∧ value pio2_3t = pio2_3tq := by
  refine ⟨by decide, by decide, ?_⟩
  unfold pio2_3t pio2_3tq value sign expo frac; norm_num
theorem n_pio2_3t : Nb pio2_3t (pio2_3tq : ℝ) 0 (847842766037 / 10 ^ 43) := Nb.const v_pio2_3t (by unfold pio2_3tq; rw [abs_le]; constructor <;> norm_num)

/-! ## Integers and doubles on a grid -/

theorem toInt_floor {q : Nat} (hq : q < 2 ^ 64) (h : 0 ≤ value q) : ((toInt q : Int) : ℝ) ≤ value q ∧ (value q : ℝ) < (toInt q : Int) + 1 ∧ 0 ≤ toInt q := by
  obtain ⟨D, hD⟩ : ∃ D : Int, D = 2 ^ 1074 := ⟨_, rfl⟩
  have D0 : 0 < D := by rw [hD]; positivity
  have v : value q * (D : ℚ) = (sunits q : ℚ) := by
    rw [hD, value_units]; push_cast
    exact div_mul_cancel₀ _ (by positivity)
  have D0' : (0 : ℚ) < D := by exact_mod_cast D0
  have s0 : 0 ≤ sunits q := by
    have : (0 : ℚ) ≤ (sunits q : ℚ) := by rw [← v]; positivity
    exact_mod_cast this
  have e : toInt q = sunits q / D := by unfold toInt; rw [← hD, Int.tdiv_eq_ediv_of_nonneg s0]
  rw [e]
  have m := Int.emod_add_mul_ediv (sunits q) D
  have m0 := Int.emod_nonneg (sunits q) (by omega : D ≠ 0)
  have m1 := Int.emod_lt_of_pos (sunits q) D0
  have l : ((sunits q / D : Int) : ℚ) ≤ value q := by
    have : D * (sunits q / D) ≤ sunits q := by omega
    have c : (D : ℚ) * ((sunits q / D : Int) : ℚ) ≤ (sunits q : ℚ) := by exact_mod_cast this
    rw [← v, mul_comm] at c
    exact le_of_mul_le_mul_right c D0'
  have r : value q < ((sunits q / D : Int) : ℚ) + 1 := by
    have : sunits q < D * (sunits q / D) + D := by omega
    have c : (sunits q : ℚ) < (D : ℚ) * ((sunits q / D : Int) : ℚ) + D := by exact_mod_cast this
    rw [← v] at c
    have c : value q * (D : ℚ) < (((sunits q / D : Int) : ℚ) + 1) * D := by linarith only [c]
    exact lt_of_mul_lt_mul_right c D0'.le
  refine ⟨?_, ?_, Int.ediv_nonneg s0 D0.le⟩
  · have := (Rat.cast_le (K := ℝ)).2 l; push_cast at this ⊢; exact this
  · have := (Rat.cast_lt (K := ℝ)).2 r; push_cast at this ⊢; exact this

/-- A double of at least 1/2 is a multiple of `2^-53`. -/
theorem grid_of {t : Nat} (ht : t < 2 ^ 64) (h : 1 / 2 ≤ |value t|) : ∃ A : ℤ, value t = A / 2 ^ 53 := by
  have he : 1022 ≤ expo t := by
    by_contra c
    have m : mag t ≤ 0x3fe0000000000000 - 1 := by rw [mag_eq]; have := frac_lt t; omega
    have := value_mono ht (by norm_num) m
    have v : value (0x3fe0000000000000 - 1) < 1 / 2 := by unfold value sign expo frac; norm_num
    linarith
  have e := units_expo t
  rw [if_neg (by omega), show expo t - 1 = (expo t - 1022) + 1021 by omega, pow_add] at e
  refine ⟨(-1) ^ sign t * ((2 ^ 52 + frac t : ℕ) * 2 ^ (expo t - 1022)), ?_⟩
  rw [value_self ht, e, show (1074 : ℕ) = 53 + 1021 by rfl, pow_add]
  push_cast
  rw [← mul_assoc, mul_div_mul_right _ _ (by positivity)]
  ring

/-- Multiples of `2^-53` up to 1 are doubles. -/
theorem grid_exact {D : ℤ} (h : |D| ≤ 2 ^ 53) : ∃ d, d < 2 ^ 64 ∧ IsFinite d ∧ value d = D / 2 ^ 53 := by
  have hn : D.natAbs ≤ 2 ^ 53 := by rw [Int.abs_eq_natAbs] at h; exact_mod_cast h
  obtain ⟨d, hd, fd, vd⟩ := double_of (a := D.natAbs) (b := 1021) (s := if D < 0 then 1 else 0) hn (by split <;> omega) (by
    have : ((D.natAbs : ℕ) : ℚ) ≤ 2 ^ 53 := by exact_mod_cast hn
    refine le_trans (mul_le_mul_of_nonneg_right this (by positivity)) ?_
    rw [← pow_add]
    exact (fun n m (h : n ≤ m) => pow_le_pow_right₀ (by norm_num) h : ∀ n m : ℕ, n ≤ m → (2 : ℚ) ^ n ≤ 2 ^ m) _ _ (by omega))
  refine ⟨d, hd, fd, ?_⟩
  rw [vd, show (1074 : ℕ) = 53 + 1021 by rfl, pow_add, mul_div_mul_right _ _ (by positivity)]
  have a : ((D.natAbs : ℕ) : ℚ) = |(D : ℚ)| := by rw [← Int.cast_abs, Int.abs_eq_natAbs]; rfl
  rw [a]
  split
  · rename_i c
    rw [abs_of_neg (by exact_mod_cast c)]; ring
  · rename_i c
    rw [abs_of_nonneg (by exact_mod_cast not_lt.1 c)]; ring

theorem sub_exact {a b d : Nat} (ha : a < 2 ^ 64) (hb : b < 2 ^ 64) (fa : IsFinite a) (fb : IsFinite b) (h : |(value a : ℝ) - value b| ≤ 2 ^ 200)
    (hd : d < 2 ^ 64) (fd : IsFinite d) (e : value d = value a - value b) :
    sub a b < 2 ^ 64 ∧ IsFinite (sub a b) ∧ value (sub a b) = value a - value b := by
  have n3 : value (negate b) = - value b := by exact_mod_cast value_negate hb fb
  obtain ⟨n1, n2, -⟩ := (Near.self hb fb).neg
  rw [sub_eq fb]
  have := add_exact ha n1 fa n2 (by rw [n3]; push_cast; rw [← sub_eq_add_neg]; exact h) hd fd (by rw [e, n3]; ring)
  rw [n3] at this
  rw [sub_eq_add_neg]; exact this

/-! ## The parts of the reduction -/

/-- The two parts of the result, from a remainder `r` and a correction `w`. -/
theorem fin_sub {r w : Nat} (hr : r < 2 ^ 64) (fr : IsFinite r) (hw : w < 2 ^ 64) (fw : IsFinite w) (br : |(value r : ℝ)| ≤ 79 / 100)
    (bw : |(value w : ℝ)| ≤ 1 / 10 ^ 4) :
    (sub r w < 2 ^ 64 ∧ IsFinite (sub r w)) ∧ (sub (sub r (sub r w)) w < 2 ^ 64 ∧ IsFinite (sub (sub r (sub r w)) w)) ∧
    |(value (sub (sub r (sub r w)) w) : ℝ)| ≤ 11 / 10 ^ 17 ∧
    |(value (sub r w) : ℝ) + value (sub (sub r (sub r w)) w) - (value r - value w)| ≤ 2 / 10 ^ 20 := by
  have h0 := (Near.self hr fr).sub (Near.self hw fw) (m := 7901 / 10000) (g := 8775 / 10 ^ 20) (by
    have := abs_sub (value r : ℝ) (value w); norm_num at *; linarith) (by norm_num) (by norm_num)
  have hy := Near.self h0.1 h0.2.1
  have e0 := abs_le.1 h0.2.2
  have bw' := abs_le.1 bw
  have h1 := (Near.self hr fr).sub hy (m := 10001 / 10 ^ 8) (g := 112 / 10 ^ 22) (by
    rw [abs_le]; constructor <;> norm_num at * <;> linarith) (by norm_num) (by norm_num)
  have e1 := abs_le.1 h1.2.2
  have h2 := (Near.self h1.1 h1.2.1).sub (Near.self hw fw) (m := 8777 / 10 ^ 20) (g := 1 / 10 ^ 32) (by
    rw [abs_le]; constructor <;> norm_num at * <;> linarith) (by norm_num) (by norm_num)
  have e2 := abs_le.1 h2.2.2
  refine ⟨⟨h0.1, h0.2.1⟩, ⟨h2.1, h2.2.1⟩, ?_, ?_⟩
  · rw [abs_le]; constructor <;> norm_num at * <;> linarith
  · rw [abs_le]; constructor <;> norm_num at * <;> linarith

/-- The same for a sum. -/
theorem fin_add {r w : Nat} (hr : r < 2 ^ 64) (fr : IsFinite r) (hw : w < 2 ^ 64) (fw : IsFinite w) (br : |(value r : ℝ)| ≤ 79 / 100)
    (bw : |(value w : ℝ)| ≤ 1 / 10 ^ 4) :
    (add r w < 2 ^ 64 ∧ IsFinite (add r w)) ∧ (add (sub r (add r w)) w < 2 ^ 64 ∧ IsFinite (add (sub r (add r w)) w)) ∧
    |(value (add (sub r (add r w)) w) : ℝ)| ≤ 11 / 10 ^ 17 ∧
    |(value (add r w) : ℝ) + value (add (sub r (add r w)) w) - (value r + value w)| ≤ 2 / 10 ^ 20 := by
  have h0 := (Near.self hr fr).add (Near.self hw fw) (m := 7901 / 10000) (g := 8775 / 10 ^ 20) (by
    have := abs_add_le (value r : ℝ) (value w); norm_num at *; linarith) (by norm_num) (by norm_num)
  have hy := Near.self h0.1 h0.2.1
  have e0 := abs_le.1 h0.2.2
  have bw' := abs_le.1 bw
  have h1 := (Near.self hr fr).sub hy (m := 10001 / 10 ^ 8) (g := 112 / 10 ^ 22) (by
    rw [abs_le]; constructor <;> norm_num at * <;> linarith) (by norm_num) (by norm_num)
  have e1 := abs_le.1 h1.2.2
  have h2 := (Near.self h1.1 h1.2.1).add (Near.self hw fw) (m := 8777 / 10 ^ 20) (g := 1 / 10 ^ 32) (by
    rw [abs_le]; constructor <;> norm_num at * <;> linarith) (by norm_num) (by norm_num)
  have e2 := abs_le.1 h2.2.2
  refine ⟨⟨h0.1, h0.2.1⟩, ⟨h2.1, h2.2.1⟩, ?_, ?_⟩
  · rw [abs_le]; constructor <;> norm_num at * <;> linarith
  · rw [abs_le]; constructor <;> norm_num at * <;> linarith

/-- One more round: `t - n (c + d)` as a remainder and a correction. -/
theorem round_next {t f c d : Nat} {N : ℝ} {cq dq : ℚ} (ht : t < 2 ^ 64) (ft : IsFinite t) (bt : |(value t : ℝ)| ≤ 7899 / 10000)
    (hf : f < 2 ^ 64) (ff : IsFinite f) (vf : (value f : ℝ) = N) (vc : c < 2 ^ 64 ∧ IsFinite c ∧ value c = cq) (vd : d < 2 ^ 64 ∧ IsFinite d ∧ value d = dq)
    (b1 : |N * cq| ≤ 8 / 10 ^ 5) (b2 : |N * dq| ≤ 1 / 10 ^ 14) :
    let w := mul f c
    let r := sub t w
    let w' := sub (mul f d) (sub (sub t r) w)
    (r < 2 ^ 64 ∧ IsFinite r) ∧ (w' < 2 ^ 64 ∧ IsFinite w') ∧ |(value r : ℝ)| ≤ 79 / 100 ∧ |(value w' : ℝ)| ≤ 2 / 10 ^ 14 ∧
    |(value r : ℝ) - value w' - (value t - N * (cq + dq))| ≤ 3 / 10 ^ 20 ∧
    |(value r : ℝ) - (value t - N * cq)| ≤ |(value r : ℝ)| / 2 ^ 52 + 2 / 10 ^ 20 := by
  intro w r w'
  have hw : Near w (N * cq) (1 / 10 ^ 20) := by
    have := mul_err hf vc.1 ff vc.2.1 (by rw [vf, vc.2.2]; norm_num at *; linarith)
    rw [vf, vc.2.2] at this
    exact this.weaken (by norm_num at *; linarith)
  have hp : Near (mul f d) (N * dq) (2 / 10 ^ 30) := by
    have := mul_err hf vd.1 ff vd.2.1 (by rw [vf, vd.2.2]; norm_num at *; linarith)
    rw [vf, vd.2.2] at this
    exact this.weaken (by norm_num at *; linarith)
  have ew := abs_le.1 hw.2.2
  have ep := abs_le.1 hp.2.2
  have b1' := abs_le.1 b1
  have b2' := abs_le.1 b2
  have bt' := abs_le.1 bt
  have hwn := (Near.self hw.1 hw.2.1)
  have b0 : |(value t : ℝ) - value w| ≤ 78999 / 100000 := by rw [abs_le]; constructor <;> norm_num at * <;> linarith
  have h0 : Near r ((value t : ℝ) - value w) (|(value t : ℝ) - value w| / 2 ^ 53) := (Near.self ht ft).sub hwn le_rfl (by norm_num) (by norm_num at *; linarith)
  have hr := Near.self h0.1 h0.2.1
  have e0 := h0.2.2
  have ev0 : |(value t : ℝ) - value w| / 2 ^ 53 ≤ 88 / 10 ^ 18 := by norm_num at *; linarith
  have e0' := abs_le.1 (le_trans e0 ev0)
  have h1 := (Near.self ht ft).sub hr (m := 9 / 10 ^ 5) (g := 1 / 10 ^ 20) (by
    rw [abs_le]; constructor <;> norm_num at * <;> linarith) (by norm_num) (by norm_num)
  have e1 := abs_le.1 h1.2.2
  have h2 := (Near.self h1.1 h1.2.1).sub hwn (m := 9 / 10 ^ 17) (g := 1 / 10 ^ 32) (by
    rw [abs_le]; constructor <;> norm_num at * <;> linarith) (by norm_num) (by norm_num)
  have e2 := abs_le.1 h2.2.2
  have h3 := (Near.self hp.1 hp.2.1).sub (Near.self h2.1 h2.2.1) (m := 11 / 10 ^ 15) (g := 2 / 10 ^ 30) (by
    rw [abs_le]; constructor <;> norm_num at * <;> linarith) (by norm_num) (by norm_num)
  have e3 := abs_le.1 h3.2.2
  refine ⟨⟨h0.1, h0.2.1⟩, ⟨h3.1, h3.2.1⟩, ?_, ?_, ?_, ?_⟩
  · have b0' := abs_le.1 b0
    rw [abs_le]; constructor <;> norm_num at * <;> linarith
  · rw [abs_le]; constructor <;> norm_num at * <;> linarith
  · rw [mul_add, abs_le]; constructor <;> norm_num at * <;> linarith
  · have a1 := abs_sub_abs_le_abs_sub ((value t : ℝ) - value w) (value r : ℝ)
    rw [abs_sub_comm ((value t : ℝ) - value w) (value r : ℝ)] at a1
    have a2 := abs_sub_le (value r : ℝ) ((value t : ℝ) - value w) (value t - N * cq)
    have a3 : |(value t : ℝ) - value w - (value t - N * cq)| ≤ 1 / 10 ^ 20 := by
      rw [abs_le]; constructor <;> norm_num at * <;> linarith
    have v0 := abs_nonneg ((value t : ℝ) - value w)
    generalize |(value t : ℝ) - value w| = V at *
    generalize |(value r : ℝ) - (value t - value w)| = G at *
    generalize |(value r : ℝ)| = Z at *
    linarith only [a1, a2, a3, e0, v0]

end Pok.Trig
