import Verif.Lemmas.Hypot
import Verif.Lemmas.ErrDiv
import Verif.Model.Cbrt
/-!
# The first steps of the cube root

A third of the exponent and of the mantissa gives the cube root to five bits, whatever the remainder of the exponent by three.
-/
namespace Pok.Cbrt
open Pok.Err Pok.Float Pok.Fpu Pok.Rel Pok.Hypot

/-! ## The rough cube root -/

theorem cube_low {y y0 : ℝ} (h : 0 ≤ y) (h0 : 0 ≤ y0) : 3 * y0 ^ 2 * y - 2 * y0 ^ 3 ≤ y ^ 3 := by
  have : y ^ 3 - (3 * y0 ^ 2 * y - 2 * y0 ^ 3) = (y - y0) ^ 2 * (y + 2 * y0) := by ring
  have := mul_nonneg (sq_nonneg (y - y0)) (show 0 ≤ y + 2 * y0 by linarith)
  linarith

theorem cube_high {y a b : ℝ} (ha : a ≤ y) (hb : y ≤ b) (a0 : 0 ≤ a) : y ^ 3 ≤ (a ^ 2 + a * b + b ^ 2) * y - a * b * (a + b) := by
  have : (a ^ 2 + a * b + b ^ 2) * y - a * b * (a + b) - y ^ 3 = (y - a) * (b - y) * (y + a + b) := by ring
  have := mul_nonneg (mul_nonneg (sub_nonneg.2 ha) (sub_nonneg.2 hb)) (show 0 ≤ y + a + b by linarith)
  linarith

/-- The four cases: `φ` is the mantissa of the number, `η` that of the cube root with the carry into the exponent. -/
theorem rough_real {φ η β : ℝ} {j : Nat} (hj : j < 3) (f0 : 0 ≤ φ) (f1 : φ < 1) (hβ : β = 1013907 / 1048576) (l : β + (j + φ) / 3 - 1 / 2 ^ 20 ≤ η)
    (u : η ≤ β + (j + φ) / 3 + 1 / 2 ^ 20) :
    (η < 1 → 905 / 1000 * (2 ^ j * (1 + φ)) ≤ ((1 + η) / 2) ^ 3 ∧ ((1 + η) / 2) ^ 3 ≤ 1105 / 1000 * (2 ^ j * (1 + φ))) ∧
    (1 ≤ η → 905 / 1000 * (2 ^ j * (1 + φ)) ≤ η ^ 3 ∧ η ^ 3 ≤ 1105 / 1000 * (2 ^ j * (1 + φ))) := by
  subst hβ
  norm_num at l u
  obtain rfl | rfl | rfl : j = 0 ∨ j = 1 ∨ j = 2 := by omega
  · norm_num at l u ⊢
    constructor
    · intro h
      have p : 0 ≤ (1 + η) / 2 := by linarith
      have := cube_low p (show (0 : ℝ) ≤ 1 by norm_num)
      have := cube_high (y := (1 + η) / 2) (a := 983 / 1000) (b := 1) (by linarith) (by linarith) (by norm_num)
      norm_num at *
      constructor <;> linarith
    · intro h
      have := cube_low (y := η) (by linarith) (show (0 : ℝ) ≤ 1 by norm_num)
      have := cube_high (y := η) (a := 1) (b := 13005 / 10000) (by linarith) (by linarith) (by norm_num)
      norm_num at *
      constructor <;> linarith
  · norm_num at l u ⊢
    refine ⟨fun h => by linarith, fun _ => ?_⟩
    have := cube_low (y := η) (by linarith) (show (0 : ℝ) ≤ 145 / 100 by norm_num)
    have := cube_high (y := η) (a := 13 / 10) (b := 1634 / 1000) (by linarith) (by linarith) (by norm_num)
    norm_num at *
    constructor <;> linarith
  · norm_num at l u ⊢
    refine ⟨fun h => by linarith, fun _ => ?_⟩
    have := cube_low (y := η) (by linarith) (show (0 : ℝ) ≤ 194 / 100 by norm_num)
    have := cube_high (y := η) (a := 1633 / 1000) (b := 1967 / 1000) (by linarith) (by linarith) (by norm_num)
    norm_num at *
    constructor <;> linarith

theorem scale_cube {K Y φ : ℝ} {q j : Nat} (h : Y ^ 3 = 2 ^ 159 * K) : (Y * 2 ^ (q + 680) / 2 ^ 1074) ^ 3 * (2 ^ j * (1 + φ)) = K * ((2 ^ 52 * (1 + φ)) * 2 ^ (3 * q + j) / 2 ^ 1075) := by
  rw [div_pow, mul_pow, h, ← pow_mul, ← pow_mul, show (q + 680) * 3 = 3 * q + 2040 by ring, pow_add, pow_add, div_mul_eq_mul_div, mul_div_assoc', div_eq_div_iff (by positivity) (by positivity)]
  rw [show 1074 * 3 = 1075 + 2147 from rfl, pow_add (2 : ℝ) 1075, show 2147 = 159 + (2040 - 52) from rfl, pow_add (2 : ℝ) 159, show (2 : ℝ) ^ 2040 = 2 ^ 52 * 2 ^ (2040 - 52) by rw [← pow_add]]
  ring

theorem start_range {Q y : Nat} (h : Q ≤ 1363) (h0 : 681 ≤ Q) (y1 : y < 2 ^ 53) : Q * 2 ^ 52 + y < 2047 * 2 ^ 52 ∧ 2 ^ 58 ≤ Q * 2 ^ 52 + y ∧ Q * 2 ^ 52 + y < 2 ^ 63 := by
  have a := Nat.mul_le_mul_right (2 ^ 52) h
  have b := Nat.mul_le_mul_right (2 ^ 52) h0
  norm_num at *
  generalize Q * 4503599627370496 = A at *
  omega

theorem start {m l : Nat} (h1 : 2 ^ 52 ≤ m) (h2 : m < inf) (hl : l < 2 ^ 32) :
    (m / 2 ^ 32 / 3 + B1) * 2 ^ 32 + l < inf ∧ 2 ^ 58 ≤ (m / 2 ^ 32 / 3 + B1) * 2 ^ 32 + l ∧ 905 / 1000 * (value m : ℝ) ≤ (value ((m / 2 ^ 32 / 3 + B1) * 2 ^ 32 + l) : ℝ) ^ 3 ∧
      (value ((m / 2 ^ 32 / 3 + B1) * 2 ^ 32 + l) : ℝ) ^ 3 ≤ 1105 / 1000 * (value m : ℝ) := by
  have hi := inf_lt
  unfold inf at h2 hi ⊢
  obtain ⟨q, j, f, hj, hf, rfl⟩ : ∃ q j f, j < 3 ∧ f < 2 ^ 52 ∧ m = (3 * q + j) * 2 ^ 52 + f := ⟨m / 2 ^ 52 / 3, m / 2 ^ 52 % 3, m % 2 ^ 52, by omega, by omega, by omega⟩
  obtain ⟨v, hv, hv'⟩ : ∃ v, v = 1013907 + (j * 2 ^ 20 + f / 2 ^ 32) / 3 ∧ ((3 * q + j) * 2 ^ 52 + f) / 2 ^ 32 / 3 + B1 = (q + 681) * 2 ^ 20 + v := ⟨_, rfl, by unfold B1; omega⟩
  rw [hv']
  obtain ⟨y, hy⟩ : ∃ y, y = v * 2 ^ 32 + l := ⟨_, rfl⟩
  rw [show ((q + 681) * 2 ^ 20 + v) * 2 ^ 32 + l = (q + 681) * 2 ^ 52 + y by rw [hy]; ring]
  have k1 : 3 * y ≤ 3 * 1013907 * 2 ^ 32 + j * 2 ^ 52 + f + 3 * 2 ^ 32 := by omega
  have k2 : 3 * 1013907 * 2 ^ 32 + j * 2 ^ 52 + f ≤ 3 * y + 3 * 2 ^ 32 := by omega
  have q1 : q ≤ 682 := by omega
  have y0 : 2 ^ 51 ≤ y := by omega
  have y1 : y < 2 ^ 53 := by omega
  have p1 : 1 ≤ 3 * q + j := by omega
  have lm : (3 * q + j) * 2 ^ 52 + f < 2 ^ 63 := by omega
  clear hv hv' hy h1 h2
  obtain ⟨Q, hQ⟩ : ∃ Q, Q = q + 681 := ⟨_, rfl⟩
  rw [← hQ]
  have Q1 : Q ≤ 1363 := by rw [hQ]; exact Nat.add_le_add_right q1 681
  have Q0 : 681 ≤ Q := by rw [hQ]; exact Nat.le_add_left _ _
  have Q2 : Q - 1 = q + 680 := by rw [hQ]; rfl
  obtain ⟨b1, b2, b4⟩ := start_range Q1 Q0 y1
  refine ⟨b1, b2, ?_⟩
  have k1 : (3 * y : ℝ) ≤ 3 * 1013907 * 2 ^ 32 + j * 2 ^ 52 + f + 3 * 2 ^ 32 := by exact_mod_cast k1
  have k2 : (3 * 1013907 * 2 ^ 32 + j * 2 ^ 52 + f : ℝ) ≤ 3 * y + 3 * 2 ^ 32 := by exact_mod_cast k2
  have fr : (f : ℝ) < 2 ^ 52 := by exact_mod_cast hf
  obtain ⟨φ, hφ⟩ : ∃ φ : ℝ, (f : ℝ) = 2 ^ 52 * φ := ⟨f / 2 ^ 52, by field_simp⟩
  obtain ⟨η, hη⟩ : ∃ η : ℝ, (y : ℝ) = 2 ^ 52 * η := ⟨y / 2 ^ 52, by field_simp⟩
  have f0 : 0 ≤ φ := by have : (0 : ℝ) ≤ f := by positivity
                        rw [hφ] at this; linarith
  rw [hφ, hη] at k1 k2
  rw [hφ] at fr
  have R := rough_real (φ := φ) (η := η) hj f0 (by linarith) rfl (by norm_num at *; linarith) (by norm_num at *; linarith)
  have vm : (value ((3 * q + j) * 2 ^ 52 + f) : ℝ) = (2 ^ 52 * (1 + φ)) * 2 ^ (3 * q + j) / 2 ^ 1075 := by
    obtain ⟨k, hk⟩ : ∃ k, 3 * q + j = k + 1 := ⟨3 * q + j - 1, by omega⟩
    rw [val lm, units_make p1 hf.le, hk, Nat.add_sub_cancel]
    simp only [Nat.cast_add, Nat.cast_mul, Nat.cast_pow, Nat.cast_ofNat]
    rw [hφ, pow_succ (2 : ℝ) k, pow_succ (2 : ℝ) 1074]
    generalize (2 : ℝ) ^ 1074 = A
    rw [← mul_assoc, mul_div_mul_right _ _ (by norm_num)]; ring
  have V0 : 0 < (value ((3 * q + j) * 2 ^ 52 + f) : ℝ) := by rw [vm]; positivity
  have Z0 : (0 : ℝ) < 2 ^ j * (1 + φ) := by positivity
  have fin : ∀ {W K : ℝ}, W ^ 3 * (2 ^ j * (1 + φ)) = K * (value ((3 * q + j) * 2 ^ 52 + f) : ℝ) → 905 / 1000 * (2 ^ j * (1 + φ)) ≤ K → K ≤ 1105 / 1000 * (2 ^ j * (1 + φ)) →
      905 / 1000 * (value ((3 * q + j) * 2 ^ 52 + f) : ℝ) ≤ W ^ 3 ∧ W ^ 3 ≤ 1105 / 1000 * (value ((3 * q + j) * 2 ^ 52 + f) : ℝ) := by
    intro W K e a b
    have a := mul_le_mul_of_nonneg_right a V0.le
    have b := mul_le_mul_of_nonneg_right b V0.le
    rw [← e] at a b
    constructor
    · refine le_of_mul_le_mul_right ?_ Z0; linarith
    · refine le_of_mul_le_mul_right ?_ Z0; linarith
  rcases Nat.lt_or_ge y (2 ^ 52) with c | c
  · have cr : (y : ℝ) < 2 ^ 52 := by exact_mod_cast c
    rw [hη] at cr
    obtain ⟨r1, r2⟩ := R.1 (by linarith)
    refine fin ?_ r1 r2
    rw [vm, val b4, units_make (le_trans (by norm_num) Q0) c.le, Q2]
    simp only [Nat.cast_add, Nat.cast_mul, Nat.cast_pow, Nat.cast_ofNat]
    rw [hη]
    exact scale_cube (by ring)
  · have cr : (2 ^ 52 : ℝ) ≤ y := by exact_mod_cast c
    rw [hη] at cr
    obtain ⟨r1, r2⟩ := R.2 (by linarith)
    refine fin ?_ r1 r2
    rw [vm]
    have e : Q * 2 ^ 52 + y = (Q + 1) * 2 ^ 52 + (y - 2 ^ 52) := by clear hQ Q2; omega
    rw [e] at b4 ⊢
    rw [val b4, units_make (Nat.le_add_left _ _) (by omega), show 2 ^ 52 + (y - 2 ^ 52) = y by omega, show Q + 1 - 1 = q + 680 + 1 by rw [← Q2]; clear hQ Q2; omega]
    simp only [Nat.cast_mul, Nat.cast_pow, Nat.cast_ofNat]
    rw [hη, pow_succ (2 : ℝ) (q + 680), show (2 : ℝ) ^ 52 * η * (2 ^ (q + 680) * 2) = (2 ^ 53 * η) * 2 ^ (q + 680) by generalize (2 : ℝ) ^ (q + 680) = A; ring]
    exact scale_cube (by ring)

end Pok.Cbrt
