import Verif.Lemmas.Expm1
import Verif.Lemmas.Hypot
import Verif.Props.Exp
import Mathlib.Analysis.SpecialFunctions.Trigonometric.DerivHyp
/-!
# The ranges of the hyperbolic cosine
-/
namespace Pok.Cosh
open Pok.Err Pok.Float Pok.Fpu Pok.Poly Pok.Hypot

theorem mag_s {t : Nat} (ht : t < 2 ^ 63) : mag t = t := by unfold mag; omega

theorem quiet_lt {a : Nat} (h : a < 2 ^ 64) : quiet a < 2 ^ 64 := by unfold quiet; split <;> omega

theorem withSign_lt {s : Bool} {m : Nat} (h : m ≤ 2047 * 2 ^ 52) : withSign s m < 2 ^ 64 := by unfold withSign; split <;> omega

theorem add_lt {a b : Nat} (ha : a < 2 ^ 64) (hb : b < 2 ^ 64) : add a b < 2 ^ 64 := by
  unfold add
  split
  · exact quiet_lt ha
  split
  · exact quiet_lt hb
  split
  · split
    · decide
    · exact ha
  split
  · exact hb
  split
  · split <;> decide
  · exact withSign_lt (Nat.min_le_right _ _)

theorem mul_lt {a b : Nat} (ha : a < 2 ^ 64) (hb : b < 2 ^ 64) : mul a b < 2 ^ 64 := by
  unfold mul
  split
  · exact quiet_lt ha
  split
  · exact quiet_lt hb
  split
  · split
    · decide
    · exact withSign_lt (by decide)
  · exact withSign_lt (Nat.min_le_right _ _)

theorem setHi_lt {y : Nat} (k : Int) : Libm.setHi y ((k % 2 ^ 32).toNat) < 2 ^ 64 := by
  unfold Libm.setHi Libm.insert Libm.lo
  omega

theorem finish_lt {x h l : Nat} {k : Int} (k0 : k ≠ 0) : Exp.finish x h l k < 2 ^ 64 := by
  unfold Exp.finish
  simp only []
  rw [if_neg k0]
  split
  · exact setHi_lt _
  · exact mul_lt (setHi_lt _) (by decide)

theorem v_half : half < 2 ^ 64 ∧ IsFinite half ∧ value half = 1 / 2 := v_halfBits

/-- Half of a number of at least one is exact. -/
theorem halved {t : Nat} (ht : t < 2 ^ 64) (ft : IsFinite t) (h1 : 3 / 4 ≤ (value t : ℝ)) (h2 : (value t : ℝ) ≤ 2 ^ 1024) :
    mul half t < 2 ^ 64 ∧ IsFinite (mul half t) ∧ (value (mul half t) : ℝ) = value t / 2 := by
  have hs : t < 2 ^ 63 := by
    by_contra c
    have := Exp.value_neg (x := t) (by omega) ht
    have h1' : ((3 / 4 : ℚ) : ℝ) ≤ ((value t : ℚ) : ℝ) := by push_cast; exact h1
    have h1' := Rat.cast_le.1 h1'
    have := abs_nonneg (value t)
    linarith
  have h53 : 2 ^ 53 ≤ t := by
    by_contra c
    have m := val_mono (m := t) (n := 2 ^ 53) (by omega) (by norm_num)
    have v : value (2 ^ 53) ≤ 1 / 2 := by
      rw [show value (2 ^ 53) = 1 / 2 ^ 1021 by unfold value sign expo frac; norm_num]
      exact one_div_le_one_div_of_le (by norm_num) (le_self_pow₀ (by norm_num) (by norm_num))
    have v' := (Rat.cast_le (K := ℝ)).2 v
    simp only [Rat.cast_div, Rat.cast_one, Rat.cast_ofNat] at v'
    exact absurd (le_trans h1 (le_trans m v')) (by norm_num)
  have e := val_add (m := t - 2 ^ 52) (by omega) (j := 1) (by omega)
  rw [show t - 2 ^ 52 + 1 * 2 ^ 52 = t by omega] at e
  obtain ⟨a, b, c⟩ := v_half
  have mi := (finite_iff t).1 ft
  refine exact_of (Libm.fpu_mul a ht b ft) ?_ (d := t - 2 ^ 52) (by omega) ?_ ?_ (below ?_)
  · rw [c]; push_cast; ring
  · rw [finite_iff, mag_s (by omega)]; rw [mag_s hs] at mi; omega
  · rw [e]; ring
  · rw [abs_of_nonneg (by linarith), show (2 : ℝ) ^ 1023 = 2 ^ 1024 / 2 by
      rw [show (2 : ℝ) ^ 1024 = 2 ^ 1023 * 2 from pow_succ _ _]; exact (mul_div_cancel_right₀ _ (by norm_num)).symm]
    linarith

/-- Numbers near the greatest double are rounded to within half of a step. -/
theorem near_top {q : ℚ} {s r : Nat} (h : Rounded q s r) (q0 : 0 ≤ (q : ℝ)) (q1 : (q : ℝ) < (2 ^ 53 - 1) * 2 ^ 971) :
    r < 2 ^ 64 ∧ IsFinite r ∧ |(value r : ℝ) - q| ≤ 2 ^ 970 := by
  obtain ⟨h1, _, h3⟩ := h
  obtain ⟨P, hP⟩ : ∃ P : ℝ, P = 2 ^ 970 := ⟨_, rfl⟩
  have P0 : 0 < P := by rw [hP]; positivity
  have e971 : (2 : ℝ) ^ 971 = 2 * P := by rw [hP, show (971 : ℕ) = 970 + 1 from rfl, pow_succ]; ring
  have lim : |(q : ℝ)| < (2 ^ 54 - 1) * 2 ^ 970 := by
    rw [abs_of_nonneg q0, ← hP]; rw [e971] at q1
    refine lt_of_lt_of_le q1 ?_
    linarith only [P0]
  rw [if_pos (by
    have : ((|q| : ℚ) : ℝ) < (((2 ^ 54 - 1) * 2 ^ 970 : ℚ) : ℝ) := by push_cast; exact lim
    exact Rat.cast_lt.1 this)] at h3
  refine ⟨h1, h3.1, ?_⟩
  have grid : ∀ k : ℕ, k < 2 ^ 53 → ∃ d, d < 2 ^ 64 ∧ IsFinite d ∧ (value d : ℝ) = k * 2 ^ 971 := fun k hk => by
    obtain ⟨m, hm⟩ := exists_units (a := k) (b := 2045) hk
    have hl := inf_lt
    have hi : m < inf := by
      rw [← units_lt, units_inf, hm]
      have e : 2 ^ 54 * 2 ^ 2044 = 2 ^ 53 * 2 ^ 2045 := by rw [← Nat.pow_add, ← Nat.pow_add]
      rw [e]
      exact Nat.mul_lt_mul_of_pos_right hk (Nat.two_pow_pos _)
    refine ⟨m, by omega, by rw [finite_iff, mag_s (by omega)]; exact hi, ?_⟩
    rw [val (by omega), hm]; push_cast
    rw [show (2 : ℝ) ^ 2045 = 2 ^ 971 * 2 ^ 1074 by rw [← pow_add]]
    rw [← mul_assoc]
    exact mul_div_cancel_right₀ _ (by positivity)
  have best : ∀ k : ℕ, k < 2 ^ 53 → |(value r : ℝ) - q| ≤ |(k : ℝ) * 2 ^ 971 - q| := fun k hk => by
    obtain ⟨d, d1, d2, d3⟩ := grid k hk
    have := (Rat.cast_le (K := ℝ)).2 (h3.2.1 d d1 d2)
    push_cast at this
    rw [d3] at this
    exact this
  rw [e971] at best q1
  obtain ⟨k, hk⟩ : ∃ k, k = ⌊(q : ℝ) / (2 * P)⌋₊ := ⟨_, rfl⟩
  have f0 := Nat.floor_le (a := (q : ℝ) / (2 * P)) (by positivity)
  have f1 := Nat.lt_floor_add_one ((q : ℝ) / (2 * P))
  rw [← hk] at f0 f1
  rw [le_div_iff₀ (by positivity)] at f0
  rw [div_lt_iff₀ (by positivity)] at f1
  have kl : k + 1 < 2 ^ 53 ∨ k + 1 = 2 ^ 53 - 1 + 1 ∧ False ∨ k + 1 ≥ 2 ^ 53 := by omega
  have kb : k < 2 ^ 53 - 1 := by
    have : (k : ℝ) * (2 * P) < (2 ^ 53 - 1) * (2 * P) := lt_of_le_of_lt f0 q1
    have : (k : ℝ) < 2 ^ 53 - 1 := lt_of_mul_lt_mul_right this (by positivity)
    have : ((k + 1 : ℕ) : ℝ) < ((2 ^ 53 : ℕ) : ℝ) := by push_cast; linarith
    have := Nat.cast_lt.1 this
    omega
  have b0 := best k (by omega)
  have b1 := best (k + 1) (by omega)
  push_cast at b1
  rw [abs_of_nonpos (a := (k : ℝ) * (2 * P) - q) (by linarith)] at b0
  rw [abs_of_nonneg (a := ((k : ℝ) + 1) * (2 * P) - q) (by linarith)] at b1
  rw [← hP]
  rcases le_total ((q : ℝ) - k * (2 * P)) P with c | c
  · linarith
  · linarith

theorem bits_lt {y c : Nat} (h : y ≤ c) (hc : c < 2 ^ 63) {b : ℝ} (v : (value c : ℝ) ≤ b) : (value y : ℝ) ≤ b := le_trans (val_mono h hc) v

/-- `expm1` of a positive number in the primary range. -/
theorem expm1_near {y : Nat} (hy : y < 2 ^ 63) (h : y / 2 ^ 32 ≤ 0x3fd62e42) : Near (expm1 y) (Real.exp (value y) - 1) (71 / 10 ^ 18) := by
  have hl := inf_lt
  have fy : IsFinite y := by rw [finite_iff, mag_s hy]; have : inf = 0x7ff0000000000000 := rfl; omega
  have hb : (value y : ℝ) ≤ 34658 / 10 ^ 5 := bits_lt (c := 0x3fd62e4300000000) (by omega) (by norm_num) (by
    rw [show value 0x3fd62e4300000000 = 1453635 / 2 ^ 22 by unfold value sign expo frac; norm_num]; norm_num)
  have h0 := val_nonneg hy
  unfold expm1
  simp only []
  rw [hi31 (by omega), mag_s hy, if_neg (by omega), if_neg (by omega), if_neg (by omega), if_neg (by omega)]
  by_cases c : y / 2 ^ 32 < 0x3c900000
  · rw [if_pos c]
    have hs : (value y : ℝ) ≤ 1 / 2 ^ 54 := bits_lt (c := 0x3c90000000000000) (by omega) (by norm_num) (by
      rw [show value 0x3c90000000000000 = 1 / 2 ^ 54 by unfold value sign expo frac; norm_num]; norm_num)
    have hh : huge < 2 ^ 64 ∧ IsFinite huge := by decide
    have vh : (value huge : ℝ) ≤ 2 ^ 1000 := by
      have q : value huge ≤ 2 ^ 1000 := by
        unfold huge value sign expo frac; norm_num
        rw [show (2 : ℚ) ^ 1000 = 2 ^ 4 * 2 ^ 996 from pow_add 2 4 996]
        exact mul_le_mul_of_nonneg_right (by norm_num) (by positivity)
      exact_mod_cast q
    have vh0 := val_nonneg (m := huge) (by decide)
    have p1000 : (2 : ℝ) ^ 1000 * 4 ≤ 2 ^ 1015 := by
      rw [show (2 : ℝ) ^ 1015 = 2 ^ 1000 * 2 ^ 15 by rw [← pow_add]]
      exact mul_le_mul_of_nonneg_left (by norm_num) (by positivity)
    have one1000 : (1 : ℝ) ≤ 2 ^ 1000 := one_le_pow₀ (by norm_num)
    have s : |(value huge : ℝ) + value y| ≤ 2 ^ 1020 := by
      rw [abs_of_nonneg (by linarith)]
      have : (2 : ℝ) ^ 1015 ≤ 2 ^ 1020 := pow_le_pow_right₀ (by norm_num) (by norm_num)
      generalize (2 : ℝ) ^ 1000 = A at *
      generalize (2 : ℝ) ^ 1015 = B at *
      generalize (2 : ℝ) ^ 1020 = C at *
      have : (1 : ℝ) / 2 ^ 54 ≤ 1 := by norm_num
      linarith
    obtain ⟨a1, a2, -⟩ := Rel.add_rel hh.1 (by omega : y < 2 ^ 64) hh.2 fy s
    have z := Rl.diff a1 a1 a2 a2 (by rw [sub_self, abs_zero]; positivity)
    unfold Rl at z
    rw [sub_self, abs_zero, mul_zero, add_zero] at z
    have r := (Near.self (by omega : y < 2 ^ 64) fy).sub z (m := 1 / 2 ^ 54) (g := 1 / 10 ^ 30) (by rw [sub_zero, abs_of_nonneg h0]; exact hs) (by norm_num) (by norm_num)
    have e := Real.abs_exp_sub_one_sub_id_le (x := (value y : ℝ)) (by rw [abs_of_nonneg h0]; norm_num at *; linarith)
    have sq : (value y : ℝ) ^ 2 ≤ 1 / 10 ^ 30 := by
      have := pow_le_pow_left₀ h0 hs 2
      refine le_trans this ?_
      norm_num
    rw [sub_zero] at r
    exact (r.move (f := 1 / 10 ^ 30) (by rw [abs_sub_comm]; exact le_trans e sq)).weaken (by norm_num)
  · rw [if_neg c]
    exact primary_near (by omega) fy (by rw [abs_of_nonneg h0]; exact hb)

theorem cosh_exp (X : ℝ) : Real.cosh X = (Real.exp X + (Real.exp X)⁻¹) / 2 := by rw [Real.cosh_eq, Real.exp_neg]

/-- Numbers up to half of the logarithm of two. -/
theorem small_near {y : Nat} (hy : y < 2 ^ 63) (h : y / 2 ^ 32 ≤ 0x3fd62e42) :
    Near (if y / 2 ^ 32 < 0x3c800000 then add Libm.one (expm1 y)
      else add Libm.one (div (mul (expm1 y) (expm1 y)) (add (add Libm.one (expm1 y)) (add Libm.one (expm1 y)))))
      (Real.cosh (value y)) (Real.cosh (value y) * (24 / 10 / 2 ^ 53)) := by
  have hb : (value y : ℝ) ≤ 34658 / 10 ^ 5 := bits_lt (c := 0x3fd62e4300000000) (by omega) (by norm_num) (by
    rw [show value 0x3fd62e4300000000 = 1453635 / 2 ^ 22 by unfold value sign expo frac; norm_num]; norm_num)
  have h0 := val_nonneg hy
  have t := expm1_near hy h
  have e1 : Real.exp (value y) ≤ 14143 / 10000 := le_trans (Real.exp_le_exp.2 (by norm_num at *; linarith)) Exp.exp_c
  have e2 : 1 ≤ Real.exp (value y : ℝ) := Real.one_le_exp h0
  have c1 := Real.one_le_cosh (value y : ℝ)
  have nt : Nb (expm1 y) (Real.exp (value y) - 1) (71 / 10 ^ 18) (4143 / 10 ^ 4) := ⟨t, by rw [abs_le]; constructor <;> linarith only [e1, e2]⟩
  have nw := Nb.add' (2281 / 10 ^ 19) (14143 / 10 ^ 4) n_one nt (by rw [abs_le]; constructor <;> linarith only [e1, e2]) (by norm_num) (by norm_num)
  rw [show (1 : ℝ) + (Real.exp (value y) - 1) = Real.exp (value y) by ring] at nw
  split
  · rename_i c
    have hs : (value y : ℝ) ≤ 1 / 2 ^ 55 := bits_lt (c := 0x3c80000000000000) (by omega) (by norm_num) (by
      rw [show value 0x3c80000000000000 = 1 / 2 ^ 55 by unfold value sign expo frac; norm_num]; norm_num)
    have e3 := Real.abs_exp_sub_one_sub_id_le (x := (value y : ℝ)) (by rw [abs_of_nonneg h0]; norm_num at *; linarith)
    have sq : (value y : ℝ) ^ 2 ≤ 1 / 10 ^ 20 := by
      have := pow_le_pow_left₀ h0 hs 2
      refine le_trans this ?_
      norm_num
    have e3' := abs_le.1 (le_trans e3 sq)
    have nw' := Nb.add' (1822 / 10 ^ 19) (1 + 1 / 10 ^ 16) n_one nt (by rw [abs_le]; constructor <;> linarith only [e3'.1, e3'.2, e2, hs, h0]) (by norm_num) (by norm_num)
    rw [show (1 : ℝ) + (Real.exp (value y) - 1) = Real.exp (value y) by ring] at nw'
    have d : |Real.exp (value y) - Real.cosh (value y)| ≤ 3 / 10 ^ 17 := by
      rw [cosh_exp]
      have i1 : (Real.exp (value y : ℝ))⁻¹ ≤ 1 := inv_le_one_of_one_le₀ e2
      have i2 : 1 - (Real.exp (value y) - 1) ≤ (Real.exp (value y : ℝ))⁻¹ := by
        have p : 0 < Real.exp (value y : ℝ) := Real.exp_pos _
        rw [← one_div, le_div_iff₀ p]
        nlinarith
      rw [abs_le]; constructor <;> linarith only [i1, i2, e3'.1, e3'.2, hs, h0, e2]
    refine (nw'.1.move d).weaken ?_
    linarith only [c1]
  · have tt := Nb.mul (7795 / 10 ^ 20) (1717 / 10 ^ 4) nt nt (by norm_num) (by norm_num) (by norm_num)
    have ww := Nb.add (7704 / 10 ^ 19) (28287 / 10 ^ 4) nw nw (by norm_num) (by norm_num) (by norm_num)
    have p : 0 < Real.exp (value y : ℝ) := Real.exp_pos _
    have qb : |(Real.exp (value y) - 1) * (Real.exp (value y) - 1) / (Real.exp (value y) + Real.exp (value y))| ≤ 86 / 10 ^ 3 := by
      rw [abs_div, abs_of_pos (by linarith : 0 < Real.exp (value y : ℝ) + Real.exp (value y)), div_le_iff₀ (by linarith)]
      refine le_trans tt.2 ?_
      linarith only [e2]
    have q := tt.1.div ww.1 (l := 2) (q := 86 / 10 ^ 3) (d := 722 / 10 ^ 19) (by rw [abs_of_pos (by linarith)]; linarith) (by norm_num) qb
      (g := 818 / 10 ^ 19) (by norm_num) (by norm_num) (by norm_num)
    have r := n_one.1.add q (m := 1086 / 10 ^ 3) (g := 2025 / 10 ^ 19) (by
      refine le_trans (abs_add_le _ _) ?_
      rw [abs_one]; linarith only [qb]) (by norm_num) (by norm_num)
    rw [show (1 : ℝ) + (Real.exp (value y) - 1) * (Real.exp (value y) - 1) / (Real.exp (value y) + Real.exp (value y)) = Real.cosh (value y) by
      rw [cosh_exp]; field_simp; ring] at r
    refine r.weaken ?_
    linarith only [c1]

theorem exp_lt {y : Nat} (hy : y < 2 ^ 63) (fy : IsFinite y) (h1 : Real.exp (value y) < 2 ^ 1024) : Exp.exp y < 2 ^ 64 := by
  have mi := (finite_iff y).1 fy
  have hinf : inf = 0x7ff00000 * 2 ^ 32 := rfl
  have hx : y < 2 ^ 64 := by omega
  unfold Exp.exp
  simp only []
  rw [hi31 hx, Exp.xsb_eq hx, if_neg (by omega)]
  split
  · exact mul_lt (by decide) (by decide)
  split
  · exact mul_lt (by decide) (by decide)
  by_cases c1 : 0x3fd62e42 < mag y / 2 ^ 32
  · rw [if_pos c1]
    have sx := sign_lt y
    split
    · exact finish_lt (by omega)
    · rename_i c2
      have v : 10397 / 10 ^ 4 ≤ value 0x3ff0a2b200000000 := by unfold value sign expo frac; norm_num
      have m := value_mono' hx (c := 0x3ff0a2b200000000) (by norm_num) (by omega)
      have h0 : 10397 / 10 ^ 4 ≤ |(value y : ℝ)| := by
        have := (Rat.cast_le (K := ℝ)).2 (le_trans v m); push_cast at this ⊢; exact this
      have h2 : |(value y : ℝ)| ≤ 746 := by
        have n := val_nonneg hy
        rw [Exp.exp_1024] at h1
        have := Real.exp_lt_exp.1 h1
        have l2 := Exp.ln2_b.2
        rw [abs_of_nonneg n]
        linarith only [this, l2]
      obtain ⟨k, hk, k0, -⟩ := Exp.multiple2 hx fy h0 h2 rfl
      rw [hk]
      exact finish_lt k0
  · rw [if_neg c1]
    split
    · exact add_lt (by decide) hx
    · have m := value_mono (x := y) (c := 0x3fd62e4300000000) hx (by norm_num) (by omega)
      have v : value 0x3fd62e4300000000 ≤ 34658 / 100000 := by unfold value sign expo frac; norm_num
      have b : |(value y : ℝ)| ≤ 34658 / 100000 := by
        have := (Rat.cast_le (K := ℝ)).2 (le_trans m v); push_cast at this ⊢; exact this
      have k := Exp.kernel0 hx fy b
      have fe : Exp.finish y 0 0 0 = sub Libm.one (sub (div (mul y (Exp.primary y)) (sub (Exp.primary y) Exp.two)) y) := by
        unfold Exp.finish; rw [if_pos rfl]
      rw [fe]
      exact k.1

/-- The exponential function between one and `2^1024`. -/
theorem exp_pos_near {y : Nat} (hy : y < 2 ^ 63) (fy : IsFinite y) (h1 : Real.exp (value y) < 2 ^ 1024) :
    Near (Exp.exp y) (Real.exp (value y)) (Real.exp (value y) / 2 ^ 52) := by
  have one : 1 ≤ Real.exp (value y : ℝ) := Real.one_le_exp (val_nonneg hy)
  have := Exp.C125_exp (by omega) fy (le_trans (by rw [div_le_one (by positivity)]; exact one_le_pow₀ (by norm_num)) one) h1
  exact ⟨exp_lt hy fy h1, this⟩

end Pok.Cosh
