import Verif.Lemmas.CbrtStep
import Verif.Lemmas.HypotScale
/-!
# The steps of the cube root, on doubles
-/
namespace Pok.Cbrt
open Pok.Err Pok.Float Pok.Fpu Pok.Rel Pok.Hypot

theorem cube_le {a b : ℝ} (ha : 0 ≤ a) (hb : 0 ≤ b) (h : a ^ 3 ≤ b ^ 3) : a ≤ b := (pow_le_pow_iff_left₀ ha hb (by norm_num)).1 h

/-- The cube roots of all positive doubles are far from the limits. -/
theorem root_range {c : ℝ} (c0 : 0 < c) (l : 1 / 2 ^ 1074 ≤ c ^ 3) (u : c ^ 3 ≤ 2 ^ 1024) : 1 / 2 ^ 358 ≤ c ∧ c ≤ 2 ^ 342 := by
  constructor
  · refine cube_le (by positivity) c0.le (le_trans (le_of_eq ?_) l)
    rw [div_pow, one_pow, ← pow_mul]
  · refine cube_le c0.le (by positivity) (le_trans u ?_)
    rw [← pow_mul]; exact pow_le_pow_right₀ (by norm_num) (by norm_num)

theorem inv_le {a b : Nat} (h : a ≤ b) : (1 : ℝ) / 2 ^ b ≤ 1 / 2 ^ a := one_div_le_one_div_of_le (by positivity) (pow_le_pow_right₀ (by norm_num) h)

theorem two_le {a b : Nat} (h : a ≤ b) : (2 : ℝ) ^ a ≤ 2 ^ b := pow_le_pow_right₀ (by norm_num) h

/-- What multiplications of numbers between `2^-400` and `2^400` give. -/
theorem prod_range {a b : ℝ} (a0 : 1 / 2 ^ 400 ≤ a) (a1 : a ≤ 2 ^ 400) (b0 : 1 / 2 ^ 400 ≤ b) (b1 : b ≤ 2 ^ 400) : 1 / 2 ^ 1000 ≤ |a * b| ∧ |a * b| ≤ 2 ^ 1015 := by
  have pa : 0 < a := lt_of_lt_of_le (by positivity) a0
  have pb : 0 < b := lt_of_lt_of_le (by positivity) b0
  rw [abs_of_pos (mul_pos pa pb)]
  constructor
  · refine le_trans ?_ (mul_le_mul a0 b0 (by positivity) pa.le)
    rw [one_div_mul_one_div, ← pow_add]; exact inv_le (by norm_num)
  · refine le_trans (mul_le_mul a1 b1 pb.le (by positivity)) ?_
    rw [← pow_add]; exact two_le (by norm_num)

theorem near_of_cubes {W c : ℝ} (c0 : 0 < c) (w0 : 0 < W) (h : |W ^ 3 - c ^ 3| ≤ c ^ 3 / 2 ^ 23) : |W - c| ≤ c / 2 ^ 23 := by
  have e : W ^ 3 - c ^ 3 = (W - c) * (W ^ 2 + W * c + c ^ 2) := by ring
  rw [e, abs_mul, abs_of_pos (show 0 < W ^ 2 + W * c + c ^ 2 by positivity)] at h
  have p : 0 < c ^ 2 := by positivity
  have : |W - c| * c ^ 2 ≤ c / 2 ^ 23 * c ^ 2 := by
    have := mul_le_mul_of_nonneg_left (show c ^ 2 ≤ W ^ 2 + W * c + c ^ 2 by nlinarith [mul_pos w0 c0]) (abs_nonneg (W - c))
    refine le_trans this (le_trans h (le_of_eq ?_)); ring
  exact le_of_mul_le_mul_right this p

theorem better_near {x n : Nat} {c : ℝ} (hx : x < 2 ^ 64) (fx : IsFinite x) (hn : n < 2 ^ 64) (fn : IsFinite n) (c0 : 0 < c) (hc : c ^ 3 = (value x : ℝ)) (n0 : 0 < (value n : ℝ))
    (lo : 1 / 2 ^ 358 ≤ c) (up : c ≤ 2 ^ 342) (h1 : 905 / 1000 * (value x : ℝ) ≤ (value n : ℝ) ^ 3) (h2 : (value n : ℝ) ^ 3 ≤ 1105 / 1000 * (value x : ℝ)) :
    Near (better x n) c (c / 2 ^ 22) := by
  have st := Rl.self hn fn
  have sx := Rl.self hx fx
  rw [← hc] at h1 h2 sx
  have p3 : 0 < c ^ 3 := by positivity
  obtain ⟨T, hT⟩ : ∃ T : ℝ, T = value n := ⟨_, rfl⟩
  rw [← hT] at st h1 h2 n0
  have t1 : c / 2 ≤ T := cube_le (by positivity) n0.le (by rw [div_pow]; linarith)
  have t2 : T ≤ 2 * c := cube_le n0.le (by positivity) (by rw [mul_pow]; linarith)
  have i1 : (1 : ℝ) / 2 ^ 400 ≤ 1 / 2 ^ 358 * (1 / 2 ^ 10) := by rw [one_div_mul_one_div, ← pow_add]; exact inv_le (by norm_num)
  have i2 : (2 : ℝ) ^ 342 * 2 ^ 10 ≤ 2 ^ 400 := by rw [← pow_add]; exact two_le (by norm_num)
  have T1 : 1 / 2 ^ 400 ≤ T := by
    generalize (1 : ℝ) / 2 ^ 400 = A at *
    generalize (1 : ℝ) / 2 ^ 358 = B at *
    norm_num at i1; linarith
  have T2 : T ≤ 2 ^ 400 := by
    generalize (2 : ℝ) ^ 400 = A at *
    generalize (2 : ℝ) ^ 342 = B at *
    norm_num at i2; linarith
  obtain ⟨ρ, hρ⟩ : ∃ ρ, ρ = T ^ 3 / c ^ 3 := ⟨_, rfl⟩
  have ρ1 : 905 / 1000 ≤ ρ := by rw [hρ, le_div_iff₀ p3]; exact h1
  have ρ2 : ρ ≤ 1105 / 1000 := by rw [hρ, div_le_iff₀ p3]; exact h2
  have q0 : T * T / c ^ 3 = ρ * (1 / T) := by rw [hρ]; field_simp
  have q1 : 1 / 2 ^ 400 ≤ 1 / T := one_div_le_one_div_of_le n0 T2
  have q2 : 1 / T ≤ 2 ^ 400 := by rw [div_le_iff₀ n0]; rw [div_le_iff₀ (by positivity)] at T1; linarith
  have one1 : (1 : ℝ) / 2 ^ 400 ≤ 9 / 10 := le_trans (inv_le (a := 1) (by norm_num)) (by norm_num)
  have one2 : (2 : ℝ) ≤ 2 ^ 400 := by have := two_le (a := 1) (b := 400) (by norm_num); rwa [pow_one] at this
  obtain ⟨m1, m2⟩ := prod_range T1 T2 T1 T2
  have tt := mul_rl (2 / 2 ^ 53) st st (by norm_num) le_rfl (by norm_num) le_rfl (by norm_num) m1 m2
  have mid : ∀ {a : ℝ}, 9 / 10 ≤ a → a ≤ 2 → 1 / 2 ^ 400 ≤ a ∧ a ≤ 2 ^ 400 := fun h1 h2 => ⟨le_trans one1 h1, le_trans h2 one2⟩
  have mρ := mid (a := ρ) (le_trans (by norm_num) ρ1) (le_trans ρ2 (by norm_num))
  have mo := mid (a := 1) (by norm_num) (by norm_num)
  obtain ⟨d1, d2⟩ := prod_range mρ.1 mρ.2 q1 q2
  have r := div_rl (4 / 2 ^ 53) tt sx (by norm_num) (by norm_num) (by norm_num) le_rfl (by norm_num) p3.ne' (by rw [q0]; exact d1) (by rw [q0]; exact d2)
  have e1 : T * T / c ^ 3 * T = ρ := by rw [hρ]; field_simp
  obtain ⟨w1, w2⟩ := prod_range mρ.1 mρ.2 mo.1 mo.2
  rw [mul_one] at w1 w2
  have rt := mul_rl (6 / 2 ^ 53) r st (by norm_num) (by norm_num) (by norm_num) le_rfl (by norm_num) (by rw [e1]; exact w1) (by rw [e1]; exact w2)
  rw [e1] at rt
  have rn : Near _ ρ (1 / 2 ^ 50) := Near.weaken rt (by rw [abs_of_pos (lt_of_lt_of_le (by norm_num) ρ1), add_zero]; norm_num; linarith only [ρ2])
  have k := fit_near rn ρ1 ρ2
  obtain ⟨f1, f2, f3⟩ := fit_close ρ1 ρ2
  have kr : Rl _ (fit ρ) (1 / 2 ^ 43) 0 := k.weaken (by rw [abs_of_pos (lt_of_lt_of_le (by norm_num) f2), add_zero]; norm_num; linarith only [f2])
  obtain ⟨y1, y2⟩ := prod_range T1 T2 (mid f2 (le_trans f3 (by norm_num))).1 (mid f2 (le_trans f3 (by norm_num))).2
  have t := mul_rl (1 / 2 ^ 42) st kr (by norm_num) le_rfl (by norm_num) (by norm_num) (by norm_num) y1 y2
  have w0 : 0 < T * fit ρ := mul_pos n0 (lt_of_lt_of_le (by norm_num) f2)
  have g : |T * fit ρ - c| ≤ c / 2 ^ 23 := by
    refine near_of_cubes c0 w0 ?_
    rw [show (T * fit ρ) ^ 3 - c ^ 3 = (ρ * fit ρ ^ 3 - 1) * c ^ 3 by rw [hρ, mul_pow]; field_simp, abs_mul, abs_of_pos p3]
    have := mul_le_mul_of_nonneg_right f1 p3.le
    refine le_trans this (le_of_eq ?_); ring
  have w3 : T * fit ρ ≤ 2 * c * (11 / 10) := mul_le_mul t2 f3 (le_trans (by norm_num) f2) (by positivity)
  refine (Near.move (show Near _ _ _ from t) g).weaken ?_
  rw [abs_of_pos w0]
  norm_num at w3 ⊢
  linarith only [w3, c0]

/-- A number cut to the upper word and rounded up: larger by a part in `2^20`, and its square has 42 bits. -/
theorem cut_near {n : Nat} (h1 : 600 * 2 ^ 52 ≤ n) (h2 : n ≤ 1400 * 2 ^ 52) :
    cut n < inf ∧ (value n : ℝ) ≤ value (cut n) ∧ (value (cut n) : ℝ) ≤ (1 + 1 / 2 ^ 20) * value n ∧
      mul (cut n) (cut n) < 2 ^ 64 ∧ IsFinite (mul (cut n) (cut n)) ∧ (value (mul (cut n) (cut n)) : ℝ) = value (cut n) * value (cut n) := by
  have hi := inf_lt
  have e : cut n = (n / 2 ^ 32 + 1) * 2 ^ 32 := by unfold cut Libm.insert Libm.hi; omega
  obtain ⟨E, F, hF, rfl⟩ : ∃ E F, F < 2 ^ 52 ∧ n = E * 2 ^ 52 + F := ⟨n / 2 ^ 52, n % 2 ^ 52, by omega, by omega⟩
  have E1 : 600 ≤ E := by omega
  have E2 : E ≤ 1400 := by omega
  obtain ⟨k, hk, hk1, hk2, hk3⟩ : ∃ k, E * 2 ^ 52 + k * 2 ^ 32 = cut (E * 2 ^ 52 + F) ∧ k ≤ 2 ^ 20 ∧ F < k * 2 ^ 32 ∧ k * 2 ^ 32 ≤ F + 2 ^ 32 := by
    rw [e]
    clear h1 h2 e E1 E2 hi
    exact ⟨F / 2 ^ 32 + 1, by omega, by omega, by omega, by omega⟩
  have l1 : cut (E * 2 ^ 52 + F) < 1402 * 2 ^ 52 := by rw [← hk]; omega
  have l2 : cut (E * 2 ^ 52 + F) < inf := by unfold inf; omega
  have un : units (E * 2 ^ 52 + F) = (2 ^ 52 + F) * 2 ^ (E - 1) := units_make (by omega) hF.le
  have uc : units (cut (E * 2 ^ 52 + F)) = (2 ^ 52 + k * 2 ^ 32) * 2 ^ (E - 1) := by rw [← hk]; exact units_make (le_trans (by norm_num) E1) (by clear h1 h2 e E1 E2 hi hk hk2 hk3; omega)
  have vn := val (m := E * 2 ^ 52 + F) (by omega)
  have vc := val (m := cut (E * 2 ^ 52 + F)) (by omega)
  rw [un] at vn
  rw [uc] at vc
  have k2 : (F : ℝ) ≤ k * 2 ^ 32 := by exact_mod_cast hk2.le
  have k3 : (k * 2 ^ 32 : ℝ) ≤ F + 2 ^ 32 := by exact_mod_cast hk3
  have F0 : (0 : ℝ) ≤ F := by positivity
  simp only [Nat.cast_add, Nat.cast_mul, Nat.cast_pow, Nat.cast_ofNat] at vn vc
  have pe : (0 : ℝ) < 2 ^ (E - 1) / 2 ^ 1074 := by positivity
  refine ⟨l2, ?_, ?_, ?_⟩
  · rw [vn, vc, mul_div_assoc, mul_div_assoc]
    exact mul_le_mul_of_nonneg_right (by linarith) pe.le
  · rw [vn, vc, mul_div_assoc, mul_div_assoc, ← mul_assoc]
    refine mul_le_mul_of_nonneg_right ?_ pe.le
    norm_num at k3 ⊢; linarith
  · have f := finite_of l2
    obtain ⟨b, hb⟩ : ∃ b, 2 * E + 62 = b + 1074 := ⟨2 * E + 62 - 1074, by omega⟩
    have sq : (value (cut (E * 2 ^ 52 + F)) : ℝ) * value (cut (E * 2 ^ 52 + F)) = (((2 ^ 20 + k) ^ 2 : Nat) * 2 ^ b : ℝ) / 2 ^ 1074 := by
      have : (2 : ℝ) ^ (E - 1) * 2 ^ (E - 1) * (2 ^ 32 * 2 ^ 32) = 2 ^ b * 2 ^ 1074 := by
        rw [← pow_add, ← pow_add, ← pow_add, ← pow_add]; congr 1; omega
      rw [vc, show (2 ^ 52 + k * 2 ^ 32 : ℝ) = (2 ^ 20 + k) * 2 ^ 32 by ring, div_mul_div_comm, div_eq_div_iff (by positivity) (by positivity)]
      simp only [Nat.cast_add, Nat.cast_pow, Nat.cast_ofNat]
      have e3 : ((2 ^ 20 + k : ℝ) * 2 ^ 32 * 2 ^ (E - 1) * ((2 ^ 20 + k) * 2 ^ 32 * 2 ^ (E - 1))) = (2 ^ 20 + k) ^ 2 * (2 ^ (E - 1) * 2 ^ (E - 1) * (2 ^ 32 * 2 ^ 32)) := by ring
      rw [e3, this]
      generalize (2 : ℝ) ^ 1074 = A
      ring
    have kk : (2 ^ 20 + k) ^ 2 ≤ 2 ^ 42 := le_trans (Nat.pow_le_pow_left (show 2 ^ 20 + k ≤ 2 ^ 21 by omega) 2) (by norm_num)
    have bb : (2 ^ 20 + k) ^ 2 * 2 ^ b ≤ 2 ^ 1830 := by
      refine le_trans (Nat.mul_le_mul kk (Nat.pow_le_pow_right (by norm_num) (show b ≤ 1788 by omega))) ?_
      rw [← Nat.pow_add]
    obtain ⟨d, hd, fd, vd⟩ := double_up (a := (2 ^ 20 + k) ^ 2) (b := b) (s := 0) (le_trans kk (by norm_num)) (by norm_num) (le_trans bb (Nat.pow_le_pow_right (by norm_num) (by norm_num)))
    rw [pow_zero, one_mul, ← sq] at vd
    refine exact_of (Libm.fpu_mul (lt_trans f.1 (by norm_num)) (lt_trans f.1 (by norm_num)) f.2 f.2) (by push_cast; rfl) hd fd vd (below ?_)
    rw [sq, abs_of_nonneg (div_nonneg (mul_nonneg (Nat.cast_nonneg _) (by positivity)) (by positivity)), div_le_iff₀ (by positivity), ← pow_add]
    have : ((((2 ^ 20 + k) ^ 2 * 2 ^ b : Nat)) : ℝ) ≤ ((2 ^ 1830 : Nat) : ℝ) := Nat.cast_le.2 bb
    rw [Nat.cast_mul, Nat.cast_pow 2 b, Nat.cast_pow 2 1830, Nat.cast_ofNat] at this
    exact le_trans this (two_le (by norm_num))

/-! ## The last step -/

theorem scaled {T a b e : ℝ} (h : 0 < T) (k : |T * a - T * b| ≤ T * e) : |a - b| ≤ e := by
  rw [← mul_sub, abs_mul, abs_of_pos h] at k
  exact le_of_mul_le_mul_left k h

theorem last_near {x t : Nat} {c : ℝ} (hx : x < 2 ^ 64) (fx : IsFinite x) (ht : t < 2 ^ 64) (ft : IsFinite t) (c0 : 0 < c) (hc : c ^ 3 = (value x : ℝ)) (t0 : 0 < (value t : ℝ))
    (lo : 1 / 2 ^ 400 ≤ (value t : ℝ)) (up : (value t : ℝ) ≤ 2 ^ 400) (hz : |c / value t - 1| ≤ 1 / 2 ^ 19)
    (hs : mul t t < 2 ^ 64 ∧ IsFinite (mul t t) ∧ (value (mul t t) : ℝ) = value t * value t) :
    Near (last x t) c (7 / 5 * c / 2 ^ 53) ∧ ∃ p, p < 2 ^ 64 ∧ IsFinite p ∧ last x t = add t p ∧ |(value t : ℝ) + value p - c| ≤ 2 / 5 * c / 2 ^ 53 := by
  obtain ⟨T, hT⟩ : ∃ T : ℝ, (value t : ℝ) = T := ⟨_, rfl⟩
  rw [hT] at t0 lo up hz hs
  obtain ⟨z, hzT⟩ : ∃ z, z = c / T := ⟨_, rfl⟩
  have cz : c = T * z := by rw [hzT]; field_simp
  rw [← hzT] at hz
  obtain ⟨z1, z2⟩ := abs_le.1 hz
  have zl : 99 / 100 ≤ z := by norm_num at z1; linarith only [z1]
  have zu : z ≤ 101 / 100 := by norm_num at z2; linarith only [z2]
  have z30 : 9 / 10 ≤ z ^ 3 := le_trans (by norm_num) (pow_le_pow_left₀ (by norm_num) zl 3)
  have z31 : z ^ 3 ≤ 11 / 10 := le_trans (pow_le_pow_left₀ (le_trans (by norm_num) zl) zu 3) (by norm_num)
  have tiny : (1 : ℝ) / 2 ^ 1075 ≤ T * (1 / 2 ^ 80) := by
    refine le_trans ?_ (mul_le_mul_of_nonneg_right lo (by positivity))
    rw [one_div_mul_one_div, ← pow_add]; exact inv_le (by norm_num)
  have tiny' : (1 : ℝ) / 2 ^ 1075 ≤ 1 / 2 ^ 80 := inv_le (by norm_num)
  have big : ∀ {a : ℝ}, |a| ≤ 100 → |T * a| ≤ 2 ^ 1015 := by
    intro a h
    rw [abs_mul, abs_of_pos t0]
    refine le_trans (mul_le_mul up h (abs_nonneg _) (by positivity)) (le_trans (mul_le_mul_of_nonneg_left (show (100 : ℝ) ≤ 2 ^ 7 by norm_num) (by positivity)) ?_)
    rw [← pow_add]; exact two_le (by norm_num)
  have big' : ∀ {a : ℝ}, |a| ≤ 100 → |T * a| ≤ 2 ^ 1020 := fun h => le_trans (big h) (two_le (by norm_num))
  have small : ∀ {a : ℝ}, |a| ≤ 100 → |a| ≤ 2 ^ 1020 := fun h => le_trans h (le_trans (show (100 : ℝ) ≤ 2 ^ 7 by norm_num) (two_le (by norm_num)))
  -- the quotient
  have s0 : (value (mul t t) : ℝ) ≠ 0 := by rw [hs.2.2]; exact (mul_pos t0 t0).ne'
  have qe : (value x : ℝ) / value (mul t t) = T * z ^ 3 := by rw [hs.2.2, ← hc, cz]; field_simp
  have r := div_rel hx hs.1 fx hs.2.1 s0 (by rw [qe]; exact big' (by rw [abs_of_nonneg (by linarith only [z30])]; linarith only [z31]))
  rw [qe] at r
  obtain ⟨ρ, hρ⟩ : ∃ ρ, (value (div x (mul t t)) : ℝ) = T * ρ := ⟨value (div x (mul t t)) / T, by field_simp⟩
  have r1 : |ρ - z ^ 3| ≤ z ^ 3 / 2 ^ 53 + 1 / 2 ^ 80 := by
    refine scaled t0 ?_
    have := r.2.2
    rw [hρ] at this
    refine le_trans this ?_
    rw [abs_of_pos (mul_pos t0 (by linarith only [z30])), mul_add, mul_div_assoc]
    exact add_le_add le_rfl tiny
  obtain ⟨ra, rb⟩ := abs_le.1 r1
  have ρl : 8 / 10 ≤ ρ := by norm_num at ra; linarith only [ra, z30, z31]
  have ρu : ρ ≤ 12 / 10 := by norm_num at rb; linarith only [rb, z30, z31]
  -- the difference
  have d := Rl.diff r.1 ht r.2.1 ft (by
    rw [hρ, hT, show T * ρ - T = T * (ρ - 1) by ring]; exact big (by rw [abs_le]; constructor <;> linarith only [ρl, ρu]))
  obtain ⟨δ, hδ⟩ : ∃ δ, (value (sub (div x (mul t t)) t) : ℝ) = T * δ := ⟨value (sub (div x (mul t t)) t) / T, by field_simp⟩
  have d1 : |δ - (ρ - 1)| ≤ |ρ - 1| / 2 ^ 53 := by
    refine scaled t0 ?_
    have := d.2.2
    rw [hρ, hT, hδ, show T * ρ - T = T * (ρ - 1) by ring, add_zero, abs_mul, abs_of_pos t0] at this
    refine le_trans this (le_of_eq ?_); ring
  have δb : |δ| ≤ 1 := by
    obtain ⟨a, b⟩ := abs_le.1 d1
    have : |ρ - 1| ≤ 2 / 10 := by rw [abs_le]; constructor <;> linarith only [ρl, ρu]
    rw [abs_le]; norm_num at a b; constructor <;> linarith only [a, b, this, ρl, ρu]
  -- the sum
  have w := add_rel ht ht ft ft (by rw [hT, ← mul_two]; exact big' (by norm_num))
  obtain ⟨ω, hω⟩ : ∃ ω, (value (add t t) : ℝ) = T * ω := ⟨value (add t t) / T, by field_simp⟩
  have w1 : |ω - 2| ≤ 2 / 2 ^ 53 := by
    refine scaled t0 ?_
    have := w.2.2
    rw [hω, hT, ← mul_two, abs_of_pos (show 0 < T * 2 by linarith only [t0])] at this
    rwa [← mul_div_assoc]
  obtain ⟨wa, wb⟩ := abs_le.1 w1
  have ωl : 1 ≤ ω := by norm_num at wa; linarith only [wa]
  have ωu : ω ≤ 3 := by norm_num at wb; linarith only [wb]
  have s := add_rel w.1 r.1 w.2.1 r.2.1 (by rw [hω, hρ, ← mul_add]; exact big' (by rw [abs_le]; constructor <;> linarith only [ρl, ρu, ωl, ωu]))
  obtain ⟨σ, hσ⟩ : ∃ σ, (value (add (add t t) (div x (mul t t))) : ℝ) = T * σ := ⟨value (add (add t t) (div x (mul t t))) / T, by field_simp⟩
  have s1 : |σ - (ω + ρ)| ≤ |ω + ρ| / 2 ^ 53 := by
    refine scaled t0 ?_
    have := s.2.2
    rw [hω, hρ, hσ, ← mul_add, abs_mul T (ω + ρ), abs_of_pos t0] at this
    rwa [← mul_div_assoc]
  obtain ⟨sa, sb⟩ := abs_le.1 s1
  have σl : 1 ≤ σ := by
    rw [abs_of_pos (by linarith only [ωl, ρl])] at sa
    norm_num at sa; linarith only [sa, ωl, ωu, ρl, ρu]
  -- the quotient of both
  have qq : (value (sub (div x (mul t t)) t) : ℝ) / value (add (add t t) (div x (mul t t))) = δ / σ := by rw [hδ, hσ]; field_simp
  have qb : |δ / σ| ≤ 1 := by
    rw [abs_div, abs_of_pos (show 0 < σ by linarith only [σl]), div_le_one (by linarith only [σl])]; linarith only [σl, δb]
  have q := div_rel d.1 s.1 d.2.1 s.2.1 (by rw [hσ]; exact (mul_pos t0 (by linarith only [σl])).ne') (by rw [qq]; exact small (by linarith only [qb]))
  rw [qq] at q
  obtain ⟨Q, hQ⟩ : ∃ Q : ℝ, (value (div (sub (div x (mul t t)) t) (add (add t t) (div x (mul t t)))) : ℝ) = Q := ⟨_, rfl⟩
  have q1 : |Q - δ / σ| ≤ |δ / σ| / 2 ^ 53 + 1 / 2 ^ 80 := by
    have := q.2.2
    rw [hQ] at this
    exact le_trans this (add_le_add le_rfl tiny')
  have Qb : |Q| ≤ 2 := by
    have := abs_add_le (Q - δ / σ) (δ / σ)
    rw [sub_add_cancel] at this
    norm_num at q1; linarith only [this, q1, qb]
  -- the product and the result
  have p := mul_rel ht q.1 ft q.2.1 (by rw [hT, hQ]; exact big' (by linarith only [Qb]))
  rw [hT, hQ] at p
  obtain ⟨π, hπ⟩ : ∃ π, (value (mul t (div (sub (div x (mul t t)) t) (add (add t t) (div x (mul t t))))) : ℝ) = T * π :=
    ⟨value (mul t (div (sub (div x (mul t t)) t) (add (add t t) (div x (mul t t))))) / T, by field_simp⟩
  have p1 : |π - Q| ≤ |Q| / 2 ^ 53 + 1 / 2 ^ 80 := by
    refine scaled t0 ?_
    have := p.2.2
    rw [hπ] at this
    refine le_trans this ?_
    rw [abs_mul, abs_of_pos t0, mul_add, mul_div_assoc]
    exact add_le_add le_rfl tiny
  have πb : |π| ≤ 3 := by
    have := abs_add_le (π - Q) Q
    rw [sub_add_cancel] at this
    norm_num at p1; linarith only [this, p1, Qb]
  obtain ⟨πl, πu⟩ := abs_le.1 πb
  have f := add_rel ht p.1 ft p.2.1 (by
    rw [hT, hπ, show T + T * π = T * (1 + π) by ring]; exact big' (by rw [abs_le]; constructor <;> linarith only [πl, πu]))
  obtain ⟨τ, hτ⟩ : ∃ τ, (value (last x t) : ℝ) = T * τ := ⟨value (last x t) / T, by field_simp⟩
  have f1 : |τ - (1 + π)| ≤ |1 + π| / 2 ^ 53 := by
    refine scaled t0 ?_
    have := f.2.2
    rw [hT, hπ, show T + T * π = T * (1 + π) by ring, abs_mul T (1 + π), abs_of_pos t0] at this
    rw [← hτ, ← mul_div_assoc]; exact this
  obtain ⟨k1, k2, k3⟩ := last_rounding hz r1 d1 w1 s1 q1 p1 f1
  have zz : 1 - 1 / 2 ^ 19 ≤ z := by linarith only [z1]
  refine ⟨⟨f.1, f.2.1, ?_⟩, _, p.1, p.2.1, rfl, ?_⟩
  · have := mul_le_mul_of_nonneg_left (last_real hz k2 k1) t0.le
    rw [hτ, cz, ← mul_sub, abs_mul, abs_of_pos t0]
    refine le_trans this ?_
    rw [show 7 / 5 * (T * z) / 2 ^ 53 = T * (7 / 5 * z / 2 ^ 53) by ring]
    refine mul_le_mul_of_nonneg_left ?_ t0.le
    norm_num at zz ⊢; linarith only [zz]
  · have := mul_le_mul_of_nonneg_left (last_real hz k2 k3) t0.le
    rw [hT, hπ, cz, show T + T * π - T * z = T * (1 + π - z) by ring, abs_mul, abs_of_pos t0]
    refine le_trans this ?_
    rw [show 2 / 5 * (T * z) / 2 ^ 53 = T * (2 / 5 * z / 2 ^ 53) by ring]
    refine mul_le_mul_of_nonneg_left ?_ t0.le
    norm_num at zz ⊢; linarith only [zz]

end Pok.Cbrt
