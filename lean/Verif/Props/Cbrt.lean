import Verif.Lemmas.CbrtNear
import Verif.Props.Fmod
import Verif.Props.SingleBits
import Verif.Props.Nextafter
import Mathlib.Analysis.SpecialFunctions.Pow.Real
/-!
# C139: the cube root

The specification is the equation `c³ = x` in the real numbers, and `value`, `IsFinite`, `IsNaN` and `IsInf` of `Verif.Spec.Float`.
-/
namespace Pok.Cbrt
open Pok.Err Pok.Float Pok.Fpu Pok.Rel Pok.Hypot

/-! ## The rough cube root of every positive double -/

theorem value_ge {m : Nat} (h0 : m ≠ 0) (h : m < 2 ^ 63) : 1 / 2 ^ 1074 ≤ (value m : ℝ) := by
  rw [val h]
  have : 0 < units m := by
    have := units_lt.2 (Nat.pos_of_ne_zero h0); omega
  refine div_le_div_of_nonneg_right ?_ (by positivity)
  exact_mod_cast this

theorem value_le {m : Nat} (h : m < inf) : (value m : ℝ) ≤ 2 ^ 1024 := by
  have hi := inf_lt
  rw [val (by omega), div_le_iff₀ (by positivity), ← pow_add]
  have := (units_lt.2 h).le
  rw [units_inf] at this
  have : (units m : ℝ) ≤ 2 ^ 54 * 2 ^ 2044 := by exact_mod_cast this
  rwa [← pow_add] at this

/-- The product with `2^54` of a subnormal double is exact and normal. -/
theorem scaled54 {m : Nat} (h0 : m ≠ 0) (h : m < 2 ^ 52) : ∃ M, mul (Libm.setHi 0 0x43500000) m = M ∧ 2 ^ 52 ≤ M ∧ M < inf ∧ (value M : ℝ) = 2 ^ 54 * value m := by
  have hi := inf_lt
  have m1 : (value m : ℝ) ≤ 1 / 2 ^ 1022 := by rw [← m1022]; exact val_mono (by omega) (by omega)
  have m0 := value_ge h0 (by omega)
  have t : (value (Libm.setHi 0 0x43500000) : ℝ) = 2 ^ 54 := by
    rw [show Libm.setHi 0 0x43500000 = 1077 * 2 ^ 52 by decide, pow_val (by omega) (by omega), show 1077 + 51 = 54 + 1074 from rfl, pow_add, mul_div_cancel_right₀ _ (by positivity)]
  have up : (value m : ℝ) * 2 ^ 54 ≤ 1 := by
    refine le_trans (mul_le_mul_of_nonneg_right (le_trans m1 (inv_le (a := 54) (by norm_num))) (by positivity)) ?_
    norm_num
  obtain ⟨d, hd, fd, vd⟩ := scale_up (a := m) (by omega) 54 (lt_of_le_of_lt up (one_lt_pow₀ (by norm_num) (by norm_num)))
  have f := finite_of (m := m) (by unfold inf; omega)
  obtain ⟨r1, r2, r3⟩ := exact_of (X := 2 ^ 54 * (value m : ℝ)) (Libm.fpu_mul (show Libm.setHi 0 0x43500000 < 2 ^ 64 by decide) (show m < 2 ^ 64 by omega) (by decide) f.2)
    (by rw [Rat.cast_mul, t]) hd fd (by rw [vd]; ring) (below (by
      rw [abs_of_nonneg (mul_nonneg (by positivity) (le_trans (by positivity) m0)), mul_comm]; exact le_trans up (one_le_pow₀ (by norm_num))))
  refine ⟨_, rfl, ?_⟩
  generalize mul (Libm.setHi 0 0x43500000) m = M at *
  have p : 0 < (value M : ℝ) := by rw [r3]; exact mul_pos (by positivity) (lt_of_lt_of_le (by positivity) m0)
  have M1 := pos_lt r1 p
  have M2 : M < inf := by have := (finite_iff M).1 r2; rwa [show mag M = M by unfold mag; omega] at this
  refine ⟨?_, M2, r3⟩
  by_contra c
  have := val_mono (m := M) (n := 1 * 2 ^ 52) (by omega) (by omega)
  rw [m1022, r3] at this
  have l : (1 : ℝ) / 2 ^ 1022 < 2 ^ 54 * (1 / 2 ^ 1074) := by
    rw [mul_one_div, div_lt_div_iff₀ (by positivity) (by positivity), one_mul, ← pow_add]
    exact pow_lt_pow_right₀ (by norm_num) (by norm_num)
  have := mul_le_mul_of_nonneg_left m0 (show (0 : ℝ) ≤ 2 ^ 54 by positivity)
  generalize (1 : ℝ) / 2 ^ 1022 = A at *
  generalize (1 : ℝ) / 2 ^ 1074 = B at *
  linarith

theorem rough_near {m : Nat} (h0 : m ≠ 0) (h : m < inf) : rough m (m / 2 ^ 32) < inf ∧ 0 < (value (rough m (m / 2 ^ 32)) : ℝ) ∧
    905 / 1000 * (value m : ℝ) ≤ (value (rough m (m / 2 ^ 32)) : ℝ) ^ 3 ∧ (value (rough m (m / 2 ^ 32)) : ℝ) ^ 3 ≤ 1105 / 1000 * (value m : ℝ) := by
  have hi := inf_lt
  have pos : ∀ {n : Nat}, 2 ^ 52 ≤ n → n < inf → 0 < (value n : ℝ) := fun a b => lt_of_lt_of_le (by positivity) (value_ge (by omega) (by omega))
  unfold rough
  by_cases c : m < 2 ^ 52
  · rw [if_pos (by omega)]
    obtain ⟨M, e, M1, M2, vM⟩ := scaled54 h0 c
    simp only []
    rw [e]
    obtain ⟨s1, s2, s3, s4⟩ := start M1 M2 (Nat.mod_lt M (show 0 < 2 ^ 32 by norm_num))
    obtain ⟨n, hn⟩ : ∃ n, n = (Libm.hi M / 3 + B2) * 2 ^ 32 + M % 2 ^ 32 := ⟨_, rfl⟩
    have e2 : (M / 2 ^ 32 / 3 + B1) * 2 ^ 32 + M % 2 ^ 32 = n + 18 * 2 ^ 52 := by
      rw [hn, hi_eq (by omega)]; unfold B1 B2; omega
    have e3 : Libm.setHi M (Libm.hi M / 3 + B2) = n := by rw [hn]; rfl
    rw [e3]
    rw [e2] at s1 s2 s3 s4
    have n1 : 2 ^ 52 ≤ n := by omega
    have n2 : n < inf := by omega
    rw [val_add n1 (by omega), vM, mul_pow, ← pow_mul] at s3 s4
    refine ⟨n2, pos n1 n2, ?_, ?_⟩
    · norm_num at s3 ⊢; linarith
    · norm_num at s4 ⊢; linarith
  · rw [if_neg (by omega)]
    obtain ⟨s1, s2, s3, s4⟩ := start (l := 0) (by omega) h (by norm_num)
    have e : Libm.setHi 0 (m / 2 ^ 32 / 3 + B1) = (m / 2 ^ 32 / 3 + B1) * 2 ^ 32 + 0 := by unfold Libm.setHi Libm.insert Libm.lo; omega
    rw [e]
    exact ⟨s1, pos (by omega) s1, s3, s4⟩

/-! ## The cube root of every positive double -/

/-- The bits of a double near the cube root of a double. -/
theorem middle {n : Nat} {c : ℝ} (h : Near n c (c / 2 ^ 22)) (c0 : 0 < c) (lo : 1 / 2 ^ 358 ≤ c) (up : c ≤ 2 ^ 342) : 600 * 2 ^ 52 ≤ n ∧ n ≤ 1400 * 2 ^ 52 := by
  have hi := inf_lt
  obtain ⟨a, b⟩ := abs_le.1 h.2.2
  have n0 : c / 2 ≤ (value n : ℝ) := by norm_num at a; linarith only [a, c0]
  have n1 : (value n : ℝ) ≤ 2 * c := by norm_num at b; linarith only [b, c0]
  have l := pos_lt h.1 (lt_of_lt_of_le (by positivity) n0)
  constructor
  · by_contra k
    have := val_mono (m := n) (n := 600 * 2 ^ 52) (by omega) (by norm_num)
    rw [pow_val (by norm_num) (by norm_num), show 1074 = 423 + (600 + 51) from rfl, pow_add (2 : ℝ) 423, mul_comm, ← div_div, div_self (by positivity)] at this
    have i : (1 : ℝ) / 2 ^ 423 ≤ 1 / 2 ^ 358 * (1 / 2 ^ 10) := by rw [one_div_mul_one_div, ← pow_add]; exact inv_le (by norm_num)
    generalize (1 : ℝ) / 2 ^ 423 = A at *
    generalize (1 : ℝ) / 2 ^ 358 = B at *
    norm_num at i
    linarith only [i, this, n0, lo, c0]
  · by_contra k
    have := val_mono (m := 1400 * 2 ^ 52) (n := n) (by omega) l
    rw [pow_val (by norm_num) (by norm_num), show 1400 + 51 = 377 + 1074 from rfl, pow_add, mul_div_cancel_right₀ _ (by positivity)] at this
    have i : (2 : ℝ) ^ 342 * 2 ^ 10 ≤ 2 ^ 377 := by rw [← pow_add]; exact two_le (by norm_num)
    generalize (2 : ℝ) ^ 377 = A at *
    generalize (2 : ℝ) ^ 342 = B at *
    norm_num at i
    linarith only [i, this, n1, up, c0]

theorem positive_near {m : Nat} (h0 : m ≠ 0) (h : m < inf) {c : ℝ} (c0 : 0 < c) (hc : c ^ 3 = (value m : ℝ)) :
    Near (last m (cut (better m (rough m (m / 2 ^ 32))))) c (7 / 5 * c / 2 ^ 53) ∧
      ∃ t p, t < 2 ^ 64 ∧ IsFinite t ∧ p < 2 ^ 64 ∧ IsFinite p ∧ last m (cut (better m (rough m (m / 2 ^ 32)))) = add t p ∧ |(value t : ℝ) + value p - c| ≤ 2 / 5 * c / 2 ^ 53 := by
  have hi := inf_lt
  have fm := finite_of h
  obtain ⟨r1, r2, r3, r4⟩ := rough_near h0 h
  have fr := finite_of r1
  obtain ⟨lo, up⟩ := root_range c0 (by rw [hc]; exact value_ge h0 fm.1) (by rw [hc]; exact value_le h)
  have b := better_near (lt_trans fm.1 (by norm_num)) fm.2 (lt_trans fr.1 (by norm_num)) fr.2 c0 hc r2 lo up r3 r4
  generalize better m (rough m (m / 2 ^ 32)) = n at *
  obtain ⟨m1, m2⟩ := middle b c0 lo up
  obtain ⟨k1, k2, k3, k4⟩ := cut_near m1 m2
  have ft := finite_of k1
  generalize cut n = t at *
  obtain ⟨ba, bb⟩ := abs_le.1 b.2.2
  have T1 : (1 - 1 / 2 ^ 22) * c ≤ value t := by linarith only [ba, k2]
  have T2 : (value t : ℝ) ≤ (1 + 1 / 2 ^ 20) * ((1 + 1 / 2 ^ 22) * c) := le_trans k3 (mul_le_mul_of_nonneg_left (by linarith only [bb]) (by positivity))
  have t0 : 0 < (value t : ℝ) := lt_of_lt_of_le (mul_pos (by norm_num) c0) T1
  have z : |c / value t - 1| ≤ 1 / 2 ^ 19 := by
    rw [div_sub_one t0.ne', abs_div, abs_of_pos t0, div_le_iff₀ t0, abs_le]
    norm_num at T1 T2 ⊢
    constructor <;> linarith only [T1, T2, c0]
  have i1 : (1 : ℝ) / 2 ^ 400 ≤ 1 / 2 ^ 358 * (1 / 2 ^ 10) := by rw [one_div_mul_one_div, ← pow_add]; exact inv_le (by norm_num)
  have i2 : (2 : ℝ) ^ 342 * 2 ^ 10 ≤ 2 ^ 400 := by rw [← pow_add]; exact two_le (by norm_num)
  have tl : 1 / 2 ^ 400 ≤ (value t : ℝ) := by
    generalize (1 : ℝ) / 2 ^ 400 = A at *
    generalize (1 : ℝ) / 2 ^ 358 = B at *
    norm_num at i1 T1; linarith only [i1, T1, lo, c0]
  have tu : (value t : ℝ) ≤ 2 ^ 400 := by
    generalize (2 : ℝ) ^ 400 = A at *
    generalize (2 : ℝ) ^ 342 = B at *
    norm_num at i2 T2; linarith only [i2, T2, up, c0]
  obtain ⟨l1, p, l2, l3, l4, l5⟩ := last_near (lt_trans fm.1 (by norm_num)) fm.2 (lt_trans ft.1 (by norm_num)) ft.2 c0 hc t0 tl tu z k4
  exact ⟨l1, t, p, lt_trans ft.1 (by norm_num), ft.2, l2, l3, l4, l5⟩

/-! ## The sign -/

theorem cbrt_eq {x : Nat} (hx : x < 2 ^ 64) (h : mag x < inf) (h0 : mag x ≠ 0) (w : last (mag x) (cut (better (mag x) (rough (mag x) (mag x / 2 ^ 32)))) < 2 ^ 63) :
    cbrt x = sign x * 2 ^ 63 + last (mag x) (cut (better (mag x) (rough (mag x) (mag x / 2 ^ 32)))) := by
  unfold inf at h
  unfold cbrt
  simp only []
  rw [Libm.hi_xor hx, if_neg (by omega), if_neg (by
    rw [Nat.or_eq_zero_iff]; unfold Libm.lo; unfold mag at *; omega), show Libm.setHi x (mag x / 2 ^ 32) = mag x by unfold Libm.setHi Libm.insert Libm.lo mag; omega]
  generalize last (mag x) (cut (better (mag x) (rough (mag x) (mag x / 2 ^ 32)))) = t at *
  rw [and_sign (Libm.hi_lt x), show Libm.hi x / 2 ^ 31 = sign x by unfold Libm.hi sign; omega, Libmf.or_sign (by unfold Libm.hi; omega)]
  unfold Libm.setHi Libm.insert Libm.lo Libm.hi; omega

theorem cbrt_zero {x : Nat} (hx : x < 2 ^ 64) (h : mag x = 0) : cbrt x = x := by
  unfold cbrt
  simp only []
  rw [Libm.hi_xor hx, h, if_neg (by norm_num), if_pos (by rw [Nat.or_eq_zero_iff]; unfold Libm.lo; unfold mag at h; omega)]

theorem sign_cube {s : Nat} (h : s < 2) {c : ℝ} : ((-1) ^ s * c) ^ 3 = (-1) ^ s * c ^ 3 := by
  obtain rfl | rfl : s = 0 ∨ s = 1 := by omega
  · simp
  · ring

theorem sign_abs {s : Nat} {a c : ℝ} : |(-1) ^ s * a - (-1) ^ s * c| = |a - c| := by
  rw [← mul_sub, abs_mul, abs_pow, abs_neg, abs_one, one_pow, one_mul]

theorem split_value {x : Nat} (hx : x < 2 ^ 64) : (value x : ℝ) = (-1) ^ sign x * value (mag x) := by
  have := value_sm (s := sign x) (m := mag x) (sign_lt x) (mag_lt x)
  rw [show sign x * 2 ^ 63 + mag x = x by unfold sign mag; omega] at this
  rw [this, val (mag_lt x)]; push_cast; rfl

theorem value_zero {x : Nat} (h : mag x = 0) (hx : x < 2 ^ 64) : (value x : ℝ) = 0 := by
  rw [split_value hx, h, val (by norm_num), show units 0 = 0 by decide]; simp

theorem joined {s w : Nat} (hs : s < 2) (hw : w < 2 ^ 63) (fw : IsFinite w) : s * 2 ^ 63 + w < 2 ^ 64 ∧ IsFinite (s * 2 ^ 63 + w) ∧ (value (s * 2 ^ 63 + w) : ℝ) = (-1) ^ s * value w := by
  refine ⟨by omega, ?_, ?_⟩
  · rw [finite_iff] at fw ⊢
    rw [mag_make hw]; rwa [show mag w = w by unfold mag; omega] at fw
  · rw [value_sm hs hw, val hw]; push_cast; rfl

theorem root_exists {a : ℝ} (h : 0 < a) : ∃ c : ℝ, 0 < c ∧ c ^ 3 = a :=
  ⟨a ^ ((3 : ℕ)⁻¹ : ℝ), Real.rpow_pos_of_pos h _, Real.rpow_inv_natCast_pow h.le (by norm_num)⟩

/-- The result is near the cube root, and the rounded value of a number nearer. -/
theorem cbrt_near {x : Nat} (hx : x < 2 ^ 64) (h : mag x < inf) (h0 : mag x ≠ 0) {c : ℝ} (c0 : 0 < c) (hc : c ^ 3 = (value (mag x) : ℝ)) :
    cbrt x < 2 ^ 64 ∧ IsFinite (cbrt x) ∧ ∃ w, w < 2 ^ 63 ∧ IsFinite w ∧ (value (cbrt x) : ℝ) = (-1) ^ sign x * value w ∧ |(value w : ℝ) - c| ≤ 7 / 5 * c / 2 ^ 53 ∧
      ∃ t p, t < 2 ^ 64 ∧ IsFinite t ∧ p < 2 ^ 64 ∧ IsFinite p ∧ w = add t p ∧ |(value t : ℝ) + value p - c| ≤ 2 / 5 * c / 2 ^ 53 := by
  obtain ⟨n, t, p, ht, ft, hp, fp, e, d⟩ := positive_near h0 h c0 hc
  obtain ⟨a, b⟩ := abs_le.1 n.2.2
  have w := pos_lt n.1 (show 0 < (value (last (mag x) (cut (better (mag x) (rough (mag x) (mag x / 2 ^ 32))))) : ℝ) by
    norm_num at a; linarith only [a, c0])
  obtain ⟨j1, j2, j3⟩ := joined (sign_lt x) w n.2.1
  rw [cbrt_eq hx h h0 w]
  exact ⟨j1, j2, _, w, n.2.1, j3, n.2.2, t, p, ht, ft, hp, fp, e, d⟩

/-- **C139.** For every finite number `cbrt` returns a finite number, and it differs from the cube root of the number by a relative error of at most `1.4·2^-53`: for subnormal and for
the largest numbers alike, without overflow or underflow. -/
theorem C139_cbrt {x : Nat} (hx : x < 2 ^ 64) (fx : IsFinite x) :
    cbrt x < 2 ^ 64 ∧ IsFinite (cbrt x) ∧ ∃ c : ℝ, c ^ 3 = value x ∧ |(value (cbrt x) : ℝ) - c| ≤ 7 / 5 * |c| / 2 ^ 53 := by
  have hm := (finite_iff x).1 fx
  by_cases h0 : mag x = 0
  · rw [cbrt_zero hx h0]
    refine ⟨hx, fx, 0, ?_, ?_⟩
    · rw [value_zero h0 hx]; norm_num
    · rw [value_zero h0 hx]; norm_num
  · obtain ⟨c, c0, hc⟩ := root_exists (lt_of_lt_of_le (by positivity) (value_ge h0 (mag_lt x)))
    obtain ⟨a, b, w, _, _, v, d, _⟩ := cbrt_near hx hm h0 c0 hc
    refine ⟨a, b, (-1) ^ sign x * c, ?_, ?_⟩
    · rw [sign_cube (sign_lt x), hc, ← split_value hx]
    · rw [v, sign_abs, abs_mul, abs_pow, abs_neg, abs_one, one_pow, one_mul, abs_of_pos c0]; exact d

/-- The cube root of two, of the least double and of the largest, each within a step of the correctly rounded number. -/
example : cbrt 0x4000000000000000 = 0x3ff428a2f98d728b ∧ cbrt 1 = 0x2990000000000000 ∧ IsFinite 0x7fefffffffffffff ∧ cbrt 0x7fefffffffffffff = 0x554428a2f98d728b := by decide +kernel

/-! ## Cubes -/

/-- Different doubles differ by at least a part in `2^53`. -/
theorem apart {m n : Nat} (h : 2 ^ 53 ≤ m) (hm : m < inf) (hn : n < inf) (ne : m ≠ n) : (value m : ℝ) / 2 ^ 53 ≤ |(value n : ℝ) - value m| := by
  have hi := inf_lt
  obtain ⟨E, F, hF, rfl⟩ : ∃ E F, F < 2 ^ 52 ∧ m = E * 2 ^ 52 + F := ⟨m / 2 ^ 52, m % 2 ^ 52, by omega, by omega⟩
  have hE : 2 ≤ E := by omega
  obtain ⟨e, rfl⟩ : ∃ e, E = e + 2 := ⟨E - 2, by omega⟩
  obtain ⟨A, hA⟩ : ∃ A : ℝ, A = 2 ^ e / 2 ^ 1074 := ⟨_, rfl⟩
  have A0 : 0 < A := by rw [hA]; positivity
  have u : ∀ {f : Nat}, f ≤ 2 ^ 52 → (e + 2) * 2 ^ 52 + f < 2 ^ 63 → (value ((e + 2) * 2 ^ 52 + f) : ℝ) = (2 ^ 52 + f) * (2 * A) := by
    intro f hf l
    rw [val l, units_make (by omega) hf, show e + 2 - 1 = e + 1 by omega, hA]
    simp only [Nat.cast_add, Nat.cast_mul, Nat.cast_pow, Nat.cast_ofNat]
    rw [pow_succ]; ring
  have l1 : (e + 2) * 2 ^ 52 + (F + 1) < 2 ^ 63 := by omega
  have Fr : (F : ℝ) + 1 ≤ 2 ^ 52 := by exact_mod_cast hF
  have F0 : (0 : ℝ) ≤ F := by positivity
  have v := u hF.le (by omega)
  rcases Nat.lt_or_gt_of_ne ne with g | g
  · have a := val_mono (m := (e + 2) * 2 ^ 52 + (F + 1)) (n := n) (by omega) (by omega)
    rw [u (by omega) l1] at a
    push_cast at a
    rw [v]
    refine le_trans ?_ (le_abs_self _)
    have := mul_le_mul_of_nonneg_right Fr A0.le
    norm_num at *
    linarith only [a, this, A0]
  · rw [abs_sub_comm]
    refine le_trans ?_ (le_abs_self _)
    rcases Nat.eq_zero_or_pos F with z | z
    · subst z
      obtain ⟨f, hf⟩ : ∃ f, f + 1 = 2 ^ 52 := ⟨2 ^ 52 - 1, by norm_num⟩
      have fr : (f : ℝ) + 1 = 2 ^ 52 := by exact_mod_cast hf
      have lt : (e + 1) * 2 ^ 52 + f < (e + 2) * 2 ^ 52 + 0 := by clear hF l1 h hm ne g; omega
      have l63 := lt_trans lt (lt_trans hm hi)
      have a := val_mono (m := n) (n := (e + 1) * 2 ^ 52 + f) (by clear hF l1 h hm ne l63; omega) l63
      have w : (value ((e + 1) * 2 ^ 52 + f) : ℝ) = (2 ^ 53 - 1) * A := by
        rw [val l63, units_make (Nat.le_add_left _ _) (by clear hF l1 h hm ne l63 g lt; omega), Nat.add_sub_cancel, hA]
        simp only [Nat.cast_add, Nat.cast_mul, Nat.cast_pow, Nat.cast_ofNat]
        rw [mul_div_assoc, show (f : ℝ) = 2 ^ 52 - 1 by linarith only [fr]]
        ring
      rw [w] at a
      rw [v]
      norm_num at *
      linarith only [a, A0]
    · obtain ⟨f, rfl⟩ : ∃ f, F = f + 1 := ⟨F - 1, by omega⟩
      have a := val_mono (m := n) (n := (e + 2) * 2 ^ 52 + f) (by omega) (by omega)
      rw [u (by omega) (by omega)] at a
      rw [v]
      have := mul_le_mul_of_nonneg_right Fr A0.le
      push_cast at *
      norm_num at *
      linarith only [a, this, A0]

/-- The sum of two doubles near a third one is the third one. -/
theorem sum_exact {t p y : Nat} (ht : t < 2 ^ 64) (hp : p < 2 ^ 64) (ft : IsFinite t) (fp : IsFinite p) (hy : y < inf) (hy1 : 600 * 2 ^ 52 ≤ y) (hy2 : y ≤ 1400 * 2 ^ 52)
    (h : |(value t : ℝ) + value p - value y| ≤ 2 / 5 * value y / 2 ^ 53) (w : add t p < 2 ^ 63) : add t p = y := by
  have hi := inf_lt
  have yl : (value y : ℝ) ≤ 2 ^ 377 := by
    have := val_mono hy2 (by norm_num)
    rwa [pow_val (by norm_num) (by norm_num), show 1400 + 51 = 377 + 1074 from rfl, pow_add, mul_div_cancel_right₀ _ (by positivity)] at this
  have y0 : 0 < (value y : ℝ) := lt_of_lt_of_le (by positivity) (value_ge (by omega) (by omega))
  obtain ⟨a, b⟩ := abs_le.1 h
  have s0 : 0 < (value t : ℝ) + value p := by norm_num at a; linarith only [a, y0]
  have s1 : |(value t : ℝ) + value p| ≤ 2 ^ 1020 := by
    rw [abs_of_pos s0]
    have i : (2 : ℝ) ^ 377 * 2 ^ 1 ≤ 2 ^ 1020 := by rw [← pow_add]; exact two_le (by norm_num)
    generalize (2 : ℝ) ^ 1020 = A at *
    generalize (2 : ℝ) ^ 377 = B at *
    norm_num at b i; linarith only [b, i, yl, y0]
  have r := Libm.fpu_add ht hp ft fp (by
    intro z
    have : (value t : ℝ) + value p = 0 := by exact_mod_cast congrArg (fun q : ℚ => (q : ℝ)) z
    linarith only [this, s0])
  obtain ⟨r1, r2, r3⟩ := rounded_close r (by push_cast; exact s1)
  have fy := finite_of hy
  have := r3 y (lt_trans fy.1 (by norm_num)) fy.2
  push_cast at this
  by_contra ne
  have n : add t p < inf := by have := (finite_iff _).1 r2.1; rwa [show mag (add t p) = add t p by unfold mag; omega] at this
  have ap := apart (m := y) (n := add t p) (by omega) hy n (fun h => ne h.symm)
  rw [abs_sub_comm (value y : ℝ)] at this
  obtain ⟨c, d⟩ := abs_le.1 (le_trans this h)
  have : |(value (add t p) : ℝ) - value y| ≤ 4 / 5 * value y / 2 ^ 53 := by
    rw [abs_le]; norm_num at a b c d ⊢; constructor <;> linarith only [a, b, c, d]
  norm_num at ap this
  linarith only [ap, this, y0]

/-- **C139.** The cube root of the cube of a double is exact. -/
theorem C139_cube {x y : Nat} (hx : x < 2 ^ 64) (hy : y < 2 ^ 64) (fx : IsFinite x) (fy : IsFinite y) (h : value x = value y ^ 3) : value (cbrt x) = value y := by
  have hm := (finite_iff x).1 fx
  have hn := (finite_iff y).1 fy
  have h' : (value x : ℝ) = (value y : ℝ) ^ 3 := by rw [h]; push_cast; rfl
  have goal : (value (cbrt x) : ℝ) = value y → value (cbrt x) = value y := fun e => by exact_mod_cast e
  apply goal
  by_cases h0 : mag x = 0
  · rw [cbrt_zero hx h0, value_zero h0 hx]
    rw [value_zero h0 hx] at h'
    exact (pow_eq_zero_iff (n := 3) (by norm_num)).1 h'.symm |>.symm
  · have y0 : mag y ≠ 0 := by
      intro z
      rw [value_zero z hy, split_value hx] at h'
      have := value_ge h0 (mag_lt x)
      have p : 0 < (value (mag x) : ℝ) := lt_of_lt_of_le (by positivity) this
      have : |(-1 : ℝ) ^ sign x * value (mag x)| = 0 := by rw [h']; norm_num
      rw [abs_mul, abs_pow, abs_neg, abs_one, one_pow, one_mul, abs_of_pos p] at this
      linarith
    have cy : 0 < (value (mag y) : ℝ) := lt_of_lt_of_le (by positivity) (value_ge y0 (mag_lt y))
    have cx : 0 < (value (mag x) : ℝ) := lt_of_lt_of_le (by positivity) (value_ge h0 (mag_lt x))
    have e := h'
    rw [split_value hx, split_value hy, sign_cube (sign_lt y)] at e
    have ab : (value (mag y) : ℝ) ^ 3 = value (mag x) := by
      have := congrArg abs e
      rw [abs_mul, abs_mul, abs_pow, abs_pow, abs_neg, abs_one, one_pow, one_pow, one_mul, one_mul, abs_of_pos cx, abs_of_pos (by positivity)] at this
      exact this.symm
    have sg : (-1 : ℝ) ^ sign x = (-1) ^ sign y := by
      rw [ab] at e; exact mul_right_cancel₀ cx.ne' e
    obtain ⟨_, _, w, hw, fw, v, _, t, p, ht, ft, hp, fp, ew, d⟩ := cbrt_near hx hm h0 cy ab
    obtain ⟨lo, up⟩ := root_range cy (by rw [ab]; exact value_ge h0 (mag_lt x)) (by rw [ab]; exact value_le hm)
    have fm := finite_of hn
    obtain ⟨m1, m2⟩ := middle (Near.weaken (Near.self (lt_trans fm.1 (by norm_num)) fm.2) (by positivity)) cy lo up
    have := sum_exact ht hp ft fp hn m1 m2 d (by rw [← ew]; exact hw)
    rw [v, ew, this, sg, ← split_value hy]

example : value 0x403b000000000000 = value 0x4008000000000000 ^ 3 ∧ cbrt 0x403b000000000000 = 0x4008000000000000 ∧ cbrt 0xc03b000000000000 = 0xc008000000000000 := by
  refine ⟨?_, by decide +kernel, by decide +kernel⟩
  unfold value sign expo frac; norm_num

/-- **C139.** The cube root of the negative of a number is the negative of its cube root. -/
theorem C139_odd {x : Nat} (hx : x < 2 ^ 64) (fx : IsFinite x) : cbrt (negate x) = negate (cbrt x) := by
  have hm := (finite_iff x).1 fx
  have n : negate x < 2 ^ 64 ∧ mag (negate x) = mag x ∧ sign (negate x) = 1 - sign x := by
    unfold negate neg sign mag
    simp only [decide_eq_true_eq]
    split <;> refine ⟨?_, ?_, ?_⟩ <;> omega
  have m : ∀ {s w : Nat}, s < 2 → w < 2 ^ 63 → (1 - s) * 2 ^ 63 + w = negate (s * 2 ^ 63 + w) := by
    intro s w hs hw
    unfold negate neg
    simp only [decide_eq_true_eq]
    obtain rfl | rfl : s = 0 ∨ s = 1 := by omega
    · rw [if_neg (by omega)]; omega
    · rw [if_pos (by omega)]; omega
  by_cases h0 : mag x = 0
  · rw [cbrt_zero hx h0, cbrt_zero n.1 (by rw [n.2.1]; exact h0)]
  · obtain ⟨c, c0, hc⟩ := root_exists (lt_of_lt_of_le (by positivity) (value_ge h0 (mag_lt x)))
    have p := (positive_near h0 hm c0 hc).1
    obtain ⟨a, b⟩ := abs_le.1 p.2.2
    have w := pos_lt p.1 (show 0 < (value (last (mag x) (cut (better (mag x) (rough (mag x) (mag x / 2 ^ 32))))) : ℝ) by
      norm_num at a; linarith only [a, c0])
    rw [cbrt_eq hx hm h0 w, cbrt_eq n.1 (by rw [n.2.1]; exact hm) (by rw [n.2.1]; exact h0) (by rw [n.2.1]; exact w), n.2.1, n.2.2]
    exact m (sign_lt x) w

example : IsFinite 0x4008000000000001 ∧ cbrt (negate 0x4008000000000001) = negate (cbrt 0x4008000000000001) ∧ cbrt 0x4008000000000001 ≠ 0 := by decide +kernel

/-- **C139.** Zeros and infinite numbers are returned as they are, and what is not a number gives what is not a number. -/
theorem C139_special {x : Nat} (hx : x < 2 ^ 64) : (IsZero x ∨ IsInf x → cbrt x = x) ∧ (IsNaN x → IsNaN (cbrt x)) := by
  have top : inf ≤ mag x → cbrt x = add x x := by
    intro h
    unfold cbrt
    simp only []
    rw [Libm.hi_xor hx, if_pos (by unfold inf at h; omega)]
  refine ⟨?_, ?_⟩
  · rintro (h | h)
    · refine cbrt_zero hx ?_
      unfold IsZero expo frac at h; unfold mag; omega
    · rw [top (by unfold IsInf expo frac at h; unfold mag inf; omega)]; exact Libm.add_inf h
  · intro h
    rw [top (by unfold IsNaN expo frac at h; unfold mag inf; omega)]; exact Libm.add_nan (Or.inl h)

example : cbrt 0x7ff0000000000000 = 0x7ff0000000000000 ∧ cbrt 0x8000000000000000 = 0x8000000000000000 ∧ IsNaN (cbrt 0x7ff8000000000000) := by decide +kernel

end Pok.Cbrt
