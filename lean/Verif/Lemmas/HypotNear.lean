import Verif.Lemmas.HypotScale
import Verif.Lemmas.Atan2
/-!
# The error of `hypot`, case by case
-/
namespace Pok.Hypot
open Pok.Err Pok.Float Pok.Fpu Pok.Rel

theorem near_pos {w : Nat} {R : ℝ} (n : Near w R (353 / 100 * R / 2 ^ 53)) (p : 0 < R) : w < 2 ^ 63 ∧ 0 < (value w : ℝ) := by
  have h := (abs_le.1 n.2.2).1
  have : 0 < (value w : ℝ) := by
    have : 353 / 100 * R / 2 ^ 53 < R := by rw [div_lt_iff₀ (by norm_num)]; linarith
    linarith
  exact ⟨pos_lt n.1 this, this⟩

/-- The last product, for a factor below one. -/
theorem last_down {c w : Nat} {L r : ℝ} (hc : c < 2 ^ 64) (fc : IsFinite c) (L0 : 0 < L) (vc : (value c : ℝ) = 1 / L) (r0 : 0 ≤ r) (r1 : r ≤ 1)
    (n : Near w (L * r) (353 / 100 * (L * r) / 2 ^ 53)) : Near (mul c w) r (5 * r / 2 ^ 53 + 1 / 2 ^ 1075) := by
  have h := n.2.2
  have hv : |(value c : ℝ) * value w - r| ≤ 353 / 100 * r / 2 ^ 53 := by
    have e : (value c : ℝ) * value w - r = 1 / L * (value w - L * r) := by rw [vc, mul_sub, ← mul_assoc, one_div_mul_cancel L0.ne', one_mul]
    rw [e, abs_mul, abs_of_pos (by positivity), div_mul_eq_mul_div, one_mul, div_le_iff₀ L0]
    refine le_trans h (le_of_eq (by ring))
  have hm : |(value c : ℝ) * value w| ≤ r + 353 / 100 * r / 2 ^ 53 := by
    have := abs_add_le ((value c : ℝ) * value w - r) r
    rw [sub_add_cancel, abs_of_nonneg r0] at this
    linarith
  have big : |(value c : ℝ) * value w| ≤ 2 ^ 1020 := by
    refine le_trans hm (le_trans (b := (2 : ℝ) ^ 2) ?_ (pow_le_pow_right₀ (by norm_num) (by norm_num)))
    have : 353 / 100 * r / 2 ^ 53 ≤ 1 := by rw [div_le_iff₀ (by norm_num)]; linarith
    linarith
  have m := mul_rel hc n.1 fc n.2.1 big
  refine ⟨m.1, m.2.1, ?_⟩
  have m := m.2.2
  clear big n
  generalize (value c : ℝ) * value w = z at *
  generalize (value (mul c w) : ℝ) = v at *
  generalize (1 : ℝ) / 2 ^ 1075 = t at *
  have := abs_add_le (v - z) (z - r)
  rw [show v - z + (z - r) = v - r by ring] at this
  have : |z| / 2 ^ 53 ≤ (r + 353 / 100 * r / 2 ^ 53) / 2 ^ 53 := div_le_div_of_nonneg_right hm (by positivity)
  have e : (r + 353 / 100 * r / 2 ^ 53) / 2 ^ 53 + 353 / 100 * r / 2 ^ 53 ≤ 5 * r / 2 ^ 53 := by
    rw [← add_div]; apply div_le_div_of_nonneg_right _ (by positivity)
    have : 353 / 100 * r / 2 ^ 53 ≤ r / 100 := by rw [div_le_iff₀ (by norm_num)]; linarith
    linarith
  linarith

theorem pow_le_val {E m : Nat} (h : 1 ≤ E) (l : m < 2 ^ 63) (k : E * 2 ^ 52 ≤ m) (hE : E < 2047) : 2 ^ (E + 51) / 2 ^ 1074 ≤ (value m : ℝ) := by
  rw [← pow_val h hE]; exact val_mono k l

theorem val_le_pow {E m : Nat} (h : 1 ≤ E) (k : m ≤ E * 2 ^ 52) (hE : E < 2047) : (value m : ℝ) ≤ 2 ^ (E + 51) / 2 ^ 1074 := by
  rw [← pow_val h hE]; exact val_mono k (by omega)

theorem div_pows {m n k : Nat} (h : m = n + k) : (2 : ℝ) ^ m / 2 ^ n = 2 ^ k := by
  rw [h, pow_add, mul_comm, mul_div_assoc, div_self (by positivity), mul_one]

theorem div_pows' {m n k : Nat} (h : n = m + k) : (2 : ℝ) ^ m / 2 ^ n = 1 / 2 ^ k := by
  rw [h, pow_add, ← div_div, div_self (by positivity)]

theorem pw {m n : Nat} (h : m ≤ n) : (2 : ℝ) ^ m ≤ 2 ^ n := pow_le_pow_right₀ (by norm_num) h
theorem ipw {m n : Nat} (h : m ≤ n) : (1 : ℝ) / 2 ^ n ≤ 1 / 2 ^ m := one_div_le_one_div_of_le (by positivity) (pw h)

theorem root_le {A B : ℝ} (a0 : 0 ≤ A) (b0 : 0 ≤ B) : Real.sqrt (A ^ 2 + B ^ 2) ≤ A + B ∧ A ≤ Real.sqrt (A ^ 2 + B ^ 2) ∧ B ≤ Real.sqrt (A ^ 2 + B ^ 2) := by
  refine ⟨?_, ?_, ?_⟩
  · rw [Real.sqrt_le_left (by positivity)]; nlinarith [mul_nonneg a0 b0]
  · apply Real.le_sqrt_of_sq_le; nlinarith [sq_nonneg B]
  · apply Real.le_sqrt_of_sq_le; nlinarith [sq_nonneg A]

/-! ## Medium numbers -/

theorem near_medium {a b : Nat} (h : ¬ ((a / 2 ^ 32 : Nat) : Int) - (b / 2 ^ 32 : Nat) > 0x3c00000) (h0 : b / 2 ^ 32 ≤ a / 2 ^ 32) (h1 : a / 2 ^ 32 ≤ 0x5f300000) (h2 : 0x20b00000 ≤ b / 2 ^ 32)
    {A B : ℝ} (vA : (value a : ℝ) = A) (vB : (value b : ℝ) = B) :
    Near (ordered a b (a / 2 ^ 32) (b / 2 ^ 32)) (Real.sqrt (A ^ 2 + B ^ 2)) (353 / 100 * Real.sqrt (A ^ 2 + B ^ 2) / 2 ^ 53) := by
  rw [case_medium h h1 h2]
  have l1 : a ≤ 1524 * 2 ^ 52 := by omega
  have l2 : b ≤ 1524 * 2 ^ 52 := by omega
  have l3 : 523 * 2 ^ 52 ≤ a := by omega
  have u := val_le_pow (by omega) l1 (by omega)
  have v := val_le_pow (by omega) l2 (by omega)
  have w := pow_le_val (by omega) (by omega) l3 (by omega)
  rw [div_pows (k := 501) rfl] at u v
  rw [div_pows' (k := 500) rfl] at w
  rw [vA] at u w
  rw [vB] at v
  exact medium_self (by omega) (by omega) (by omega) vA vB w u (le_trans v (pw (by omega)))

/-! ## Small numbers -/

theorem near_up {a b : Nat} (h : ¬ ((a / 2 ^ 32 : Nat) : Int) - (b / 2 ^ 32 : Nat) > 0x3c00000) (h0 : b / 2 ^ 32 ≤ a / 2 ^ 32) (h1 : 0xfffff < b / 2 ^ 32) (h2 : b / 2 ^ 32 < 0x20b00000)
    {A B : ℝ} (vA : (value a : ℝ) = A) (vB : (value b : ℝ) = B) :
    Near (ordered a b (a / 2 ^ 32) (b / 2 ^ 32)) (Real.sqrt (A ^ 2 + B ^ 2)) (5 * Real.sqrt (A ^ 2 + B ^ 2) / 2 ^ 53 + 1 / 2 ^ 1075) := by
  rw [case_up h h1 h2, rem600]
  have l1 : a ≤ 584 * 2 ^ 52 := by omega
  have l2 : b ≤ 584 * 2 ^ 52 := by omega
  have l3 : 1 * 2 ^ 52 ≤ a := by omega
  have l4 : 1 * 2 ^ 52 ≤ b := by omega
  have u := val_le_pow (by omega) l1 (by omega)
  have v := val_le_pow (by omega) l2 (by omega)
  have w := pow_le_val (by omega) (by omega) l3 (by omega)
  rw [div_pows' (k := 439) rfl, vA] at u
  rw [div_pows' (k := 439) rfl, vB] at v
  rw [div_pows' (k := 1022) rfl, vA] at w
  have a0 : 0 ≤ A := le_trans (by positivity) w
  have b0 : 0 ≤ B := by rw [← vB]; exact val_nonneg (by omega)
  have ea := val_add (m := a) (j := 600) (by omega) (by omega)
  have eb := val_add (m := b) (j := 600) (by omega) (by omega)
  rw [vA] at ea
  rw [vB] at eb
  have lim : ∀ {X : ℝ}, X ≤ 1 / 2 ^ 439 → (2 : ℝ) ^ 600 * X ≤ 2 ^ 161 := by
    intro X hX
    refine le_trans (mul_le_mul_of_nonneg_left hX (by positivity)) (le_of_eq ?_)
    rw [mul_one_div, div_pows (k := 161) rfl]
  have n := medium_self (a := a + 600 * 2 ^ 52) (b := b + 600 * 2 ^ 52) (by omega) (by omega) (by omega) ea eb (by
    refine le_trans ?_ (mul_le_mul_of_nonneg_left w (by positivity))
    rw [mul_one_div, div_pows' (k := 422) rfl]; exact ipw (by omega)) (le_trans (lim u) (pw (by omega))) (le_trans (lim v) (pw (by omega)))
  rw [root_scale (by positivity)] at n
  have f := finite_of (m := 423 * 2 ^ 52) (by unfold inf; omega)
  refine last_down (by omega) f.2 (by positivity) m600 (Real.sqrt_nonneg _) ?_ n
  have q : (1 : ℝ) / 2 ^ 439 ≤ 1 / 2 ^ 1 := ipw (by omega)
  have := (root_le a0 b0).1
  generalize (1 : ℝ) / 2 ^ 439 = t at *
  linarith

/-! ## A subnormal number -/

theorem mul1022 {a : Nat} (ha : a < 2 ^ 63) (fa : IsFinite a) {A : ℝ} (vA : (value a : ℝ) = A) (h : A ≤ 1 / 2 ^ 962) (p : 0 < A) :
    mul a two1022 < 2 ^ 63 ∧ IsFinite (mul a two1022) ∧ (value (mul a two1022) : ℝ) = 2 ^ 1022 * A := by
  have f := finite_of (m := two1022) (by decide)
  have b : A * 2 ^ 1022 ≤ 2 ^ 60 := by
    refine le_trans (mul_le_mul_of_nonneg_right h (by positivity)) (le_of_eq ?_)
    rw [one_div_mul_eq_div, div_pows (k := 60) rfl]
  obtain ⟨d, hd, fd, vd⟩ := scale_up ha 1022 (by rw [vA]; exact lt_of_le_of_lt b (pow_lt_pow_right₀ (by norm_num) (by norm_num)))
  rw [vA] at vd
  have r := Libm.fpu_mul (a := a) (b := two1022) (by omega) (by have := f.1; omega) fa f.2
  have := exact_of r (X := A * 2 ^ 1022) (by push_cast; rw [vA, p1022]) hd fd vd (below (by
    rw [abs_of_nonneg (by positivity)]; exact le_trans b (pw (by omega))))
  refine ⟨pos_lt this.1 (by rw [this.2.2]; positivity), this.2.1, by rw [this.2.2, mul_comm]⟩

/-- The least positive double. -/
theorem least {a : Nat} (ha : a < 2 ^ 63) (h : a ≠ 0) : 1 / 2 ^ 1074 ≤ (value a : ℝ) := by
  rw [val ha]
  apply div_le_div_of_nonneg_right _ (by positivity)
  have : units 0 < units a := units_lt.2 (by omega)
  have : 1 ≤ units a := by omega
  exact_mod_cast this

theorem near_small {a b : Nat} (h : ¬ ((a / 2 ^ 32 : Nat) : Int) - (b / 2 ^ 32 : Nat) > 0x3c00000) (n0 : a ≠ 0) (h1 : b ≠ 0) (h2 : b / 2 ^ 32 ≤ 0xfffff)
    {A B : ℝ} (vA : (value a : ℝ) = A) (vB : (value b : ℝ) = B) :
    Near (ordered a b (a / 2 ^ 32) (b / 2 ^ 32)) (Real.sqrt (A ^ 2 + B ^ 2)) (5 * Real.sqrt (A ^ 2 + B ^ 2) / 2 ^ 53 + 1 / 2 ^ 1075) := by
  rw [case_small h h1 h2, rem1022]
  have l1 : a ≤ 61 * 2 ^ 52 := by omega
  have l2 : b ≤ 61 * 2 ^ 52 := by omega
  have u := val_le_pow (by omega) l1 (by omega)
  have v := val_le_pow (by omega) l2 (by omega)
  have w := least (by omega) n0
  have w' := least (by omega) h1
  rw [div_pows' (k := 962) rfl, vA] at u
  rw [div_pows' (k := 962) rfl, vB] at v
  rw [vA] at w
  rw [vB] at w'
  have a0 : 0 < A := lt_of_lt_of_le (by positivity) w
  have b0 : 0 < B := lt_of_lt_of_le (by positivity) w'
  obtain ⟨la, fa, ea⟩ := mul1022 (by omega) (finite_of (m := a) (by unfold inf; omega)).2 vA u a0
  obtain ⟨lb, fb, eb⟩ := mul1022 (by omega) (finite_of (m := b) (by unfold inf; omega)).2 vB v b0
  have lim : ∀ {X : ℝ}, X ≤ 1 / 2 ^ 962 → (2 : ℝ) ^ 1022 * X ≤ 2 ^ 60 := by
    intro X hX
    refine le_trans (mul_le_mul_of_nonneg_left hX (by positivity)) (le_of_eq ?_)
    rw [mul_one_div, div_pows (k := 60) rfl]
  have grow : ∀ {X : ℝ}, 0 < X → X ≤ (2 : ℝ) ^ 1022 * X := by
    intro X hX; exact le_mul_of_one_le_left hX.le (one_le_pow₀ (by norm_num))
  have low : 1 / 2 ^ 52 ≤ (2 : ℝ) ^ 1022 * A := by
    refine le_trans (le_of_eq ?_) (mul_le_mul_of_nonneg_left w (by positivity))
    rw [mul_one_div, div_pows' (k := 52) rfl]
  have e : ∀ h, Libm.setHi 0 h = h * 2 ^ 32 := fun h => by unfold Libm.setHi Libm.insert Libm.lo; omega
  have n := medium_near la lb fa fb ea eb (ha := a / 2 ^ 32) (hb := b / 2 ^ 32) (by omega) (by omega)
    (by rw [e]; refine le_trans (val_mono (n := a) (by omega) (by omega)) ?_; rw [vA]; exact grow a0)
    (by
      rw [e]
      refine le_trans (val_le_pow (E := 62) (by omega) (by omega) (by omega)) ?_
      rw [div_pows' (k := 961) rfl]
      refine le_trans (le_trans (ipw (m := 52) (by omega)) low) ?_
      have : 0 ≤ (2 : ℝ) ^ 1022 * A := by positivity
      generalize (2 : ℝ) ^ 1022 * A = t at *
      linarith)
    (by rw [e]; refine le_trans (val_mono (n := b) (by omega) (by omega)) ?_; rw [vB]; exact grow b0)
    (le_trans (ipw (by omega)) low) (le_trans (lim u) (pw (by omega))) (le_trans (lim v) (pw (by omega)))
  rw [root_scale (by positivity)] at n
  have f := finite_of (m := 1 * 2 ^ 52) (by unfold inf; omega)
  refine last_down (by omega) f.2 (by positivity) m1022 (Real.sqrt_nonneg _) ?_ n
  have q : (1 : ℝ) / 2 ^ 962 ≤ 1 / 2 ^ 1 := ipw (by omega)
  have := (root_le a0.le b0.le).1
  generalize (1 : ℝ) / 2 ^ 962 = t at *
  linarith

theorem lim5 {n : Nat} {x : ℝ} (h : x ≤ 32) (hn : 5 ≤ n) : x ≤ 2 ^ n := le_trans (le_trans h (by norm_num)) (pw hn)

theorem origin_zero {z d : Nat} (lz : z < 2 ^ 63) (fz : IsFinite z) {S : ℝ} (vz : (value z : ℝ) = S) (p : 0 ≤ S) (small : S ≤ 1) (dd : Rl d S (1 / 2 ^ 53) 0) :
    Rl (add (mul (2 ^ 52) d) (mul (negate (2 ^ 52)) z)) 0 (3005 / 1000 / 2 ^ 53) (12 * (1 / 2 ^ 1022)) := by
  have f := finite_of (m := 1 * 2 ^ 52) (by unfold inf; omega)
  rw [one_mul] at f
  have vt := m1022
  rw [one_mul] at vt
  have st := Rl.self (a := 2 ^ 52) (by omega) f.2
  rw [vt] at st
  have sz := Rl.self (by omega) fz
  rw [vz] at sz
  have eta : (1 : ℝ) / 2 ^ 1022 ≤ 1 := le_trans (ipw (m := 0) (by omega)) (by norm_num)
  have eta0 : (0 : ℝ) ≤ 1 / 2 ^ 1022 := by positivity
  have tau : (1 : ℝ) / 2 ^ 1075 ≤ 1 / 2 ^ 1022 := ipw (by omega)
  have nt := st.neg
  clear vt
  generalize (1 : ℝ) / 2 ^ 1022 = η at *
  have pr : η * S ≤ η := mul_le_of_le_one_right eta0 small
  have pr0 : 0 ≤ η * S := mul_nonneg eta0 p
  have m1 := Rl.mul (3 / 2 ^ 53) st dd (by norm_num) le_rfl (by norm_num) (by norm_num) (by norm_num) (by rw [abs_of_nonneg pr0]; exact lim5 (by linarith) (by omega))
  have m2 := Rl.mul (3 / 2 ^ 53) nt sz (by norm_num) le_rfl (by norm_num) le_rfl (by norm_num) (by rw [neg_mul, abs_neg, abs_of_nonneg pr0]; exact lim5 (by linarith) (by omega))
  generalize mul (2 ^ 52) d = r1 at *
  generalize mul (negate (2 ^ 52)) z = r2 at *
  obtain ⟨p1, p2, p3⟩ := m1
  obtain ⟨q1, q2, q3⟩ := m2
  rw [abs_of_nonneg pr0] at p3
  rw [neg_mul, abs_neg, abs_of_nonneg pr0, ← neg_mul] at q3
  generalize (1 : ℝ) / 2 ^ 1075 = τ at *
  have g1 : |(value r1 : ℝ)| ≤ 3 * η := by
    have := abs_add_le ((value r1 : ℝ) - η * S) (η * S)
    rw [sub_add_cancel, abs_of_nonneg pr0] at this
    have : 3 / 2 ^ 53 * (η * S) ≤ η := by rw [div_mul_eq_mul_div, div_le_iff₀ (by norm_num)]; linarith
    linarith
  have g2 : |(value r2 : ℝ)| ≤ 3 * η := by
    have := abs_add_le ((value r2 : ℝ) - -η * S) (-η * S)
    rw [sub_add_cancel, neg_mul, abs_neg, abs_of_nonneg pr0, ← neg_mul] at this
    have : 3 / 2 ^ 53 * (η * S) ≤ η := by rw [div_mul_eq_mul_div, div_le_iff₀ (by norm_num)]; linarith
    linarith
  have g3 := abs_add_le (value r1 : ℝ) (value r2)
  have n := add_rel p1 q1 p2 q2 (lim5 (by linarith) (by omega))
  refine ⟨n.1, n.2.1, ?_⟩
  have n3 := n.2.2
  rw [abs_zero, mul_zero, zero_add, sub_zero]
  generalize (value r1 : ℝ) + value r2 = u at *
  have := abs_add_le ((value (add r1 r2) : ℝ) - u) u
  rw [sub_add_cancel] at this
  have : |u| / 2 ^ 53 ≤ |u| := div_le_self (abs_nonneg _) (by norm_num)
  linarith

theorem origin_sum {z w : Nat} (lz : z < 2 ^ 63) (fz : IsFinite z) {S : ℝ} (vz : (value z : ℝ) = S) (low : 1 / 2 ^ 52 ≤ S) (small : S ≤ 1) (dw : Rl w (-S) (1 / 2 ^ 53) 0) (v0 : (value 0 : ℝ) = 0) :
    Rl (sub 0 (sub (mul w (negate w)) (add (mul (2 ^ 52) (sub z 0)) (mul (negate (2 ^ 52)) z)))) (S ^ 2) (503 / 100 / 2 ^ 53) (6 / 2 ^ 1075) := by
  have p : 0 ≤ S := le_trans (by positivity) low
  have f0 := finite_of (m := 0) (by unfold inf; omega)
  have dd := Rl.diff (a := z) (b := 0) (by omega) (by omega) fz f0.2 (by rw [v0, vz, sub_zero, abs_of_nonneg p]; exact lim5 (by linarith) (by omega))
  rw [v0, vz, sub_zero] at dd
  have o := origin_zero lz fz vz p small dd
  generalize add (mul (2 ^ 52) (sub z 0)) (mul (negate (2 ^ 52)) z) = e at *
  have s0 := (Rl.self (a := 0) (by omega) f0.2).weaken (c' := 401 / 100 / 2 ^ 53) (t' := 0) (by norm_num) le_rfl
  rw [v0] at s0
  have sq : S * S ≤ 1 := mul_le_one₀ small p small
  have sq0 : 0 ≤ S * S := mul_self_nonneg S
  have q := Rl.mul (3005 / 1000 / 2 ^ 53) dw dw.neg (by norm_num) (by norm_num) (by norm_num) (by norm_num) (by norm_num) (by
    rw [neg_neg, neg_mul, abs_neg, abs_of_nonneg sq0]; exact lim5 (by linarith) (by omega))
  rw [neg_neg] at q
  have eta : (1 : ℝ) / 2 ^ 1022 ≤ 1 / 2 ^ 250 := ipw (by omega)
  have eta0 : (0 : ℝ) ≤ 1 / 2 ^ 1022 := by positivity
  have tau : (1 : ℝ) / 2 ^ 1075 ≤ 1 / 2 ^ 1022 := ipw (by omega)
  have tau0 : (0 : ℝ) ≤ 1 / 2 ^ 1075 := by positivity
  rw [show (6 : ℝ) / 2 ^ 1075 = 6 * (1 / 2 ^ 1075) by ring]
  generalize (1 : ℝ) / 2 ^ 1022 = η at *
  generalize (1 : ℝ) / 2 ^ 1075 = τ at *
  have eta1 : η ≤ 1 / 2 ^ 10 := le_trans eta (ipw (by omega))
  have q2 := Rl.sub (401 / 100 / 2 ^ 53) (14 * η) q o (by rw [mul_zero]) (by norm_num) (by norm_num; linarith) (by norm_num) (by norm_num) (by
    rw [sub_zero, neg_mul, abs_neg, abs_of_nonneg sq0]; exact lim5 (by linarith) (by omega)) (by linarith)
  rw [sub_zero] at q2
  have q3 := Rl.sub (5015 / 1000 / 2 ^ 53) (15 * η) s0 q2 (by rw [zero_mul]) (by norm_num) (by norm_num; linarith) (by norm_num) (by norm_num) (by
    rw [neg_mul, sub_neg_eq_add, zero_add, abs_of_nonneg sq0]; exact lim5 (by linarith) (by omega)) (by linarith)
  rw [neg_mul, sub_neg_eq_add, zero_add, ← pow_two] at q3
  refine Near.weaken q3 ?_
  have l2 : (1 / 2 ^ 52) ^ 2 ≤ S ^ 2 := pow_le_pow_left₀ (by positivity) low 2
  rw [abs_of_nonneg (by positivity)]
  have : 15 * η ≤ 15 / 1000 / 2 ^ 53 * S ^ 2 := by
    refine le_trans (mul_le_mul_of_nonneg_left eta (by norm_num)) (le_trans ?_ (mul_le_mul_of_nonneg_left l2 (by norm_num)))
    norm_num
  generalize S ^ 2 = Q at *
  linarith

/-- Both upper words are zero and so is the first number. -/
theorem near_origin {b : Nat} (h1 : b ≠ 0) (h2 : b / 2 ^ 32 = 0) {B : ℝ} (vB : (value b : ℝ) = B) :
    Near (ordered 0 b 0 (b / 2 ^ 32)) B (5 * B / 2 ^ 53 + 1 / 2 ^ 1075) := by
  have l2 : b ≤ 61 * 2 ^ 52 := by omega
  have l5 : b ≤ 2 ^ 52 := by omega
  have v := val_le_pow (by omega) l2 (by omega)
  have v' := val_le_pow (E := 1) (by omega) (by omega : b ≤ 1 * 2 ^ 52) (by omega)
  have w' := least (by omega) h1
  rw [div_pows' (k := 962) rfl, vB] at v
  rw [div_pows' (k := 1022) rfl, vB] at v'
  rw [vB] at w'
  have b0 : 0 < B := lt_of_lt_of_le (by positivity) w'
  obtain ⟨lb, fb, eb⟩ := mul1022 (by omega) (finite_of (m := b) (by unfold inf; omega)).2 vB v b0
  have c := case_small (a := 0) (b := b) (by omega) h1 (by omega)
  rw [Nat.zero_div] at c
  rw [c, rem1022, h2, show mul 0 two1022 = 0 by decide +kernel]
  have small : (2 : ℝ) ^ 1022 * B ≤ 1 := by
    refine le_trans (mul_le_mul_of_nonneg_left v' (by positivity)) (le_of_eq ?_)
    rw [mul_one_div, div_self (by positivity)]
  have low : 1 / 2 ^ 52 ≤ (2 : ℝ) ^ 1022 * B := by
    refine le_trans (le_of_eq ?_) (mul_le_mul_of_nonneg_left w' (by positivity))
    rw [mul_one_div, div_pows' (k := 52) rfl]
  have f := finite_of (m := 1 * 2 ^ 52) (by unfold inf; omega)
  refine last_down (by omega) f.2 (by positivity) m1022 b0.le ?_ ?_
  · refine le_trans v (le_trans (ipw (m := 0) (by omega)) (by norm_num))
  have p : 0 ≤ (2 : ℝ) ^ 1022 * B := by positivity
  generalize (2 : ℝ) ^ 1022 * B = S at *
  generalize mul b two1022 = z at *
  clear w' v v' c vB b0
  have fz := finite_of (m := 0) (by unfold inf; omega)
  have v0 : (value 0 : ℝ) = 0 := by rw [val (by omega), show units 0 = 0 by decide]; simp
  have big : (2 : ℝ) ^ 0 ≤ 2 ^ 1015 := pw (by omega)
  rw [pow_zero] at big
  have dw := Rl.diff (a := 0) (b := z) (by omega) (by omega) fz.2 fb (by rw [v0, eb, zero_sub, abs_neg, abs_of_nonneg p]; exact le_trans small big)
  rw [v0, eb, zero_sub] at dw
  have lo : 1 / 2 ^ 1000 ≤ 0 ^ 2 + S ^ 2 := by
    have : (1 / 2 ^ 52) ^ 2 ≤ S ^ 2 := pow_le_pow_left₀ (by positivity) low 2
    rw [div_pow, one_pow, ← pow_mul] at this
    rw [zero_pow (by norm_num), zero_add]
    exact le_trans (ipw (by omega)) this
  have rs : Real.sqrt (0 ^ 2 + S ^ 2) = S := by rw [zero_pow (by norm_num), zero_add, Real.sqrt_sq p]
  have key : Near (medium 0 z 0 0) (Real.sqrt (0 ^ 2 + S ^ 2)) (353 / 100 * Real.sqrt (0 ^ 2 + S ^ 2) / 2 ^ 53) := by
    have z0 : Libm.setHi 0 0 = 0 := by decide
    have z1 : Libm.setHi 0 (0 + 0x00100000) = 2 ^ 52 := by decide
    unfold medium
    simp only []
    rw [z0, z1]
    split
    · exact root (first (T := 0) (by omega) (by omega) (by omega) fz.2 fb fz.2 v0 eb v0 le_rfl le_rfl p
        (le_trans small (le_trans (by norm_num) (pw (m := 0) (by omega)))) (by positivity)) lo
    · rw [show mul (2 ^ 52) 0 = 0 by decide +kernel, show sub (add 0 0) (2 ^ 52) = negate (2 ^ 52) by decide +kernel]
      apply root _ lo
      rw [zero_pow (by norm_num), zero_add]
      exact origin_sum lb fb eb low small dw v0
  rw [rs] at key
  exact key

/-! ## Large numbers -/

theorem down_scaled {a b : Nat} (la : a < inf) (lb : b < inf) (h : ¬ ((a / 2 ^ 32 : Nat) : Int) - (b / 2 ^ 32 : Nat) > 0x3c00000) (h1 : 0x5f300000 < a / 2 ^ 32)
    {A B : ℝ} (vA : (value a : ℝ) = A) (vB : (value b : ℝ) = B) :
    ∃ w R, ordered a b (a / 2 ^ 32) (b / 2 ^ 32) = mul (1623 * 2 ^ 52) w ∧ 0 < R ∧ Near w R (353 / 100 * R / 2 ^ 53) ∧ Real.sqrt (A ^ 2 + B ^ 2) = 2 ^ 600 * R := by
  have hi := inf_lt
  have h2 : a / 2 ^ 32 < 0x7ff00000 := by unfold inf at la; omega
  obtain ⟨_, d2, d3⟩ := down_big h h1
  obtain ⟨a', ea⟩ : ∃ a', a = a' + 600 * 2 ^ 52 := ⟨a - 600 * 2 ^ 52, by omega⟩
  obtain ⟨b', eb⟩ : ∃ b', b = b' + 600 * 2 ^ 52 := ⟨b - 600 * 2 ^ 52, by omega⟩
  have c := case_down (by omega) (by omega) h h1 h2
  rw [show a - 600 * 2 ^ 52 = a' by omega, show b - 600 * 2 ^ 52 = b' by omega, re600] at c
  rw [show b - 600 * 2 ^ 52 = b' by omega] at d3
  have l1 : a' ≤ 1447 * 2 ^ 52 := by unfold inf at la; omega
  have l2 : b' ≤ 1447 * 2 ^ 52 := by unfold inf at lb; omega
  have l3 : 923 * 2 ^ 52 ≤ a' := by omega
  have l4 : 1 * 2 ^ 52 ≤ b' := by omega
  have va := val_add (m := a') (j := 600) (by omega) (by omega)
  have vb := val_add (m := b') (j := 600) (by omega) (by omega)
  rw [← ea, vA] at va
  rw [← eb, vB] at vb
  have u := val_le_pow (by omega) l1 (by omega)
  have v := val_le_pow (by omega) l2 (by omega)
  have w := pow_le_val (by omega) (by omega) l3 (by omega)
  rw [div_pows (k := 424) rfl] at u v
  rw [div_pows' (k := 100) rfl] at w
  have n := medium_self (a := a') (b := b') (by omega) (by omega) (by omega) rfl rfl (le_trans (ipw (by omega)) w) (le_trans u (pw (by omega))) (le_trans v (pw (by omega)))
  refine ⟨_, _, c, ?_, n, by rw [va, vb, root_scale (by positivity)]⟩
  exact lt_of_lt_of_le (lt_of_lt_of_le (by positivity) w) (root_le (le_trans (by positivity) w) (val_nonneg (by omega))).2.1

theorem near_down {a b : Nat} (la : a < inf) (lb : b < inf) (h : ¬ ((a / 2 ^ 32 : Nat) : Int) - (b / 2 ^ 32 : Nat) > 0x3c00000) (h1 : 0x5f300000 < a / 2 ^ 32)
    {A B : ℝ} (vA : (value a : ℝ) = A) (vB : (value b : ℝ) = B) (le : Real.sqrt (A ^ 2 + B ^ 2) ≤ (2 ^ 50 - 1) * 2 ^ 974) :
    Near (ordered a b (a / 2 ^ 32) (b / 2 ^ 32)) (Real.sqrt (A ^ 2 + B ^ 2)) (353 / 100 * Real.sqrt (A ^ 2 + B ^ 2) / 2 ^ 53) := by
  obtain ⟨w, R, c, R0, n, e⟩ := down_scaled la lb h h1 vA vB
  obtain ⟨lw, pw'⟩ := near_pos n R0
  rw [c, e]
  have f := finite_of (m := 1623 * 2 ^ 52) (by unfold inf; omega)
  have near : |2 ^ 600 * (value w : ℝ) - 2 ^ 600 * R| ≤ 353 / 100 * (2 ^ 600 * R) / 2 ^ 53 := by
    rw [← mul_sub, abs_mul, abs_of_pos (by positivity)]
    refine le_trans (mul_le_mul_of_nonneg_left n.2.2 (by positivity)) (le_of_eq (by ring))
  have top : 2 ^ 600 * (value w : ℝ) < (2 ^ 54 - 1) * 2 ^ 970 := by
    have k := (abs_le.1 near).2
    rw [e, show (2 : ℝ) ^ 974 = 2 ^ 4 * 2 ^ 970 by rw [← pow_add]] at le
    have p : (0 : ℝ) < 2 ^ 970 := by positivity
    clear near c e n
    generalize 2 ^ 600 * R = r at *
    generalize 2 ^ 600 * (value w : ℝ) = z at *
    generalize (2 : ℝ) ^ 970 = P at *
    have : z ≤ (1 + 353 / 100 / 2 ^ 53) * r := by linarith
    refine lt_of_le_of_lt (le_trans this (mul_le_mul_of_nonneg_left le (by positivity))) ?_
    rw [show (1 + 353 / 100 / 2 ^ 53) * ((2 ^ 50 - 1) * (2 ^ 4 * P)) = ((1 + 353 / 100 / 2 ^ 53) * ((2 ^ 50 - 1) * 2 ^ 4)) * P by ring]
    exact mul_lt_mul_of_pos_right (by norm_num) p
  obtain ⟨d, hd, fd, vd⟩ := scale_up lw 600 (by
    rw [mul_comm]
    refine lt_trans top ?_
    rw [show (2 : ℝ) ^ 1024 = 2 ^ 54 * 2 ^ 970 by rw [← pow_add]]
    exact mul_lt_mul_of_pos_right (by norm_num) (by positivity))
  have r := Libm.fpu_mul (a := 1623 * 2 ^ 52) (b := w) (by omega) (by omega) f.2 n.2.1
  have x := exact_of r (X := 2 ^ 600 * value w) (by rw [Rat.cast_mul, p600]) hd fd (by rw [vd, mul_comm]) (by rw [abs_of_nonneg (by positivity)]; exact top)
  exact ⟨x.1, x.2.1, by rw [x.2.2]; exact near⟩

theorem over_down {a b : Nat} (la : a < inf) (lb : b < inf) (h : ¬ ((a / 2 ^ 32 : Nat) : Int) - (b / 2 ^ 32 : Nat) > 0x3c00000) (h1 : 0x5f300000 < a / 2 ^ 32)
    {A B : ℝ} (vA : (value a : ℝ) = A) (vB : (value b : ℝ) = B) (le : (2 ^ 50 + 1) * 2 ^ 974 ≤ Real.sqrt (A ^ 2 + B ^ 2)) :
    IsInf (ordered a b (a / 2 ^ 32) (b / 2 ^ 32)) ∧ ordered a b (a / 2 ^ 32) (b / 2 ^ 32) < 2 ^ 63 := by
  obtain ⟨w, R, c, R0, n, e⟩ := down_scaled la lb h h1 vA vB
  obtain ⟨lw, pw'⟩ := near_pos n R0
  rw [c]
  have f := finite_of (m := 1623 * 2 ^ 52) (by unfold inf; omega)
  have near : |2 ^ 600 * (value w : ℝ) - 2 ^ 600 * R| ≤ 353 / 100 * (2 ^ 600 * R) / 2 ^ 53 := by
    rw [← mul_sub, abs_mul, abs_of_pos (by positivity)]
    refine le_trans (mul_le_mul_of_nonneg_left n.2.2 (by positivity)) (le_of_eq (by ring))
  have top : (2 ^ 54 - 1) * 2 ^ 970 ≤ 2 ^ 600 * (value w : ℝ) := by
    have k := (abs_le.1 near).1
    rw [e, show (2 : ℝ) ^ 974 = 2 ^ 4 * 2 ^ 970 by rw [← pow_add]] at le
    have p : (0 : ℝ) < 2 ^ 970 := by positivity
    clear near c e n
    generalize 2 ^ 600 * R = r at *
    generalize 2 ^ 600 * (value w : ℝ) = z at *
    generalize (2 : ℝ) ^ 970 = P at *
    have : (1 - 353 / 100 / 2 ^ 53) * r ≤ z := by linarith
    refine le_trans ?_ (le_trans (mul_le_mul_of_nonneg_left le (by norm_num)) this)
    rw [show (1 - 353 / 100 / 2 ^ 53) * ((2 ^ 50 + 1) * (2 ^ 4 * P)) = ((1 - 353 / 100 / 2 ^ 53) * ((2 ^ 50 + 1) * 2 ^ 4)) * P by ring]
    exact mul_le_mul_of_nonneg_right (by norm_num) p.le
  have r := Libm.fpu_mul (a := 1623 * 2 ^ 52) (b := w) (by omega) (by omega) f.2 n.2.1
  obtain ⟨r1, r2, r3⟩ := r
  rw [if_neg (by
    intro c
    have : ((|value (1623 * 2 ^ 52) * value w| : ℚ) : ℝ) < (((2 ^ 54 - 1) * 2 ^ 970 : ℚ) : ℝ) := Rat.cast_lt.2 c
    rw [Rat.cast_abs, Rat.cast_mul, p600, abs_of_nonneg (by positivity)] at this
    push_cast at this
    exact absurd top (not_le.2 this))] at r3
  have s1 : sign (1623 * 2 ^ 52) = 0 := by decide
  have s2 : sign w = 0 := by unfold sign; omega
  rw [s1, s2] at r2
  exact ⟨r3, by unfold sign at r2; omega⟩

/-! ## Numbers far apart -/

theorem near_far {a b : Nat} (la : a < inf) (lb : b < inf) (h : ((a / 2 ^ 32 : Nat) : Int) - (b / 2 ^ 32 : Nat) > 0x3c00000)
    {A B : ℝ} (vA : (value a : ℝ) = A) (vB : (value b : ℝ) = B) (le : A ≤ (2 ^ 50 - 1) * 2 ^ 974) :
    Near (ordered a b (a / 2 ^ 32) (b / 2 ^ 32)) (Real.sqrt (A ^ 2 + B ^ 2)) (Real.sqrt (A ^ 2 + B ^ 2) / 2 ^ 57) := by
  have hi := inf_lt
  rw [case_far h]
  have k : b + 59 * 2 ^ 52 ≤ a := by omega
  have r : 2 ^ 59 * B ≤ A := by
    rw [← vA, ← vB, val (by omega), val (by omega), mul_div_assoc']
    refine div_le_div_of_nonneg_right ?_ (by positivity)
    have := le_trans (Atan2.units_up b 59) (units_le.2 k)
    exact_mod_cast this
  have b0 : 0 ≤ B := by rw [← vB]; exact val_nonneg (by omega)
  have a0 : 0 < A := by rw [← vA]; exact lt_of_lt_of_le (by positivity) (least (by omega) (by omega))
  have fa := finite_of la
  have fb := finite_of lb
  have q := Libm.fpu_add (a := a) (b := b) (by omega) (by omega) fa.2 fb.2 (by
    intro c
    have : (value a : ℝ) + value b = 0 := by exact_mod_cast congrArg (fun q : ℚ => (q : ℝ)) c
    rw [vA, vB] at this; linarith)
  have top : A + B < (2 ^ 54 - 1) * 2 ^ 970 := by
    rw [show (2 : ℝ) ^ 974 = 2 ^ 4 * 2 ^ 970 by rw [← pow_add]] at le
    have p : (0 : ℝ) < 2 ^ 970 := by positivity
    generalize (2 : ℝ) ^ 970 = P at *
    linarith
  obtain ⟨q1, _, q3⟩ := q
  rw [if_pos (by
    have : ((|value a + value b| : ℚ) : ℝ) < (((2 ^ 54 - 1) * 2 ^ 970 : ℚ) : ℝ) := by
      push_cast; rw [vA, vB, abs_of_nonneg (by linarith)]; exact top
    exact Rat.cast_lt.1 this)] at q3
  refine ⟨q1, q3.1, ?_⟩
  have c := q3.2.1 a (by omega) fa.2
  have c : |(value (add a b) : ℝ) - (value a + value b)| ≤ |(value a : ℝ) - (value a + value b)| := by exact_mod_cast c
  rw [vA, vB, show A - (A + B) = -B by ring, abs_neg, abs_of_nonneg b0] at c
  obtain ⟨r1, r2, r3⟩ := root_le a0.le b0
  clear top le q3 q1
  generalize Real.sqrt (A ^ 2 + B ^ 2) = R at *
  have c1 := abs_le.1 c
  rw [abs_le]
  constructor <;> linarith

end Pok.Hypot
