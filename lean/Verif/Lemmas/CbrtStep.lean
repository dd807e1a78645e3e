import Verif.Lemmas.Cbrt
/-!
# The rational function and the last step of the cube root
-/
namespace Pok.Cbrt
open Pok.Err Pok.Float Pok.Fpu Pok.Rel Pok.Hypot

theorem div_rel {a b : Nat} (ha : a < 2 ^ 64) (hb : b < 2 ^ 64) (fa : IsFinite a) (fb : IsFinite b) (h0 : (value b : ℝ) ≠ 0) (h : |(value a : ℝ) / value b| ≤ 2 ^ 1020) :
    Near (div a b) ((value a : ℝ) / value b) (|(value a : ℝ) / value b| / 2 ^ 53 + 1 / 2 ^ 1075) := by
  have r := Libm.fpu_div ha hb fa fb (not_zero (by exact_mod_cast h0))
  obtain ⟨r1, r2, r3⟩ := rounded_close r (by push_cast; exact h)
  push_cast at r3
  exact ⟨r1, r2.1, (close r3 h).1⟩

/-- An absolute error of the size of the least double is a small relative error of what is not tiny. -/
theorem absorb {n : Nat} {V c c' : ℝ} (h : Rl n V c (1 / 2 ^ 1075)) (lo : 1 / 2 ^ 1000 ≤ |V|) (hc : c + 1 / 2 ^ 75 ≤ c') : Rl n V c' 0 := by
  unfold Rl at *
  refine h.weaken ?_
  have : (1 : ℝ) / 2 ^ 1075 ≤ 1 / 2 ^ 75 * |V| := by
    rw [show (1 : ℝ) / 2 ^ 1075 = 1 / 2 ^ 75 * (1 / 2 ^ 1000) by rw [show 1075 = 75 + 1000 from rfl, pow_add]; ring]
    exact mul_le_mul_of_nonneg_left lo (by positivity)
  have := mul_le_mul_of_nonneg_right hc (abs_nonneg V)
  linarith

theorem mul_rl {a b : Nat} {X Y c d : ℝ} (c' : ℝ) (ha : Rl a X c 0) (hb : Rl b Y d 0) (hc : (1 + c) * (1 + d) * (1 + 1 / 2 ^ 53) - 1 + 1 / 2 ^ 75 ≤ c')
    (c0 : 0 ≤ c) (c1 : c ≤ 1) (d0 : 0 ≤ d) (d1 : d ≤ 1) (lo : 1 / 2 ^ 1000 ≤ |X * Y|) (big : |X * Y| ≤ 2 ^ 1015) : Rl (Fpu.mul a b) (X * Y) c' 0 :=
  absorb (Rl.mul _ ha hb le_rfl c0 c1 d0 d1 big) lo hc

theorem div_rl {a b : Nat} {X Y c d : ℝ} (c' : ℝ) (ha : Rl a X c 0) (hb : Rl b Y d 0) (hc : (1 + (c + d) / (1 - d)) * (1 + 1 / 2 ^ 53) - 1 + 1 / 2 ^ 75 ≤ c')
    (c0 : 0 ≤ c) (c1 : c ≤ 1 / 4) (d0 : 0 ≤ d) (d1 : d ≤ 1 / 4) (Y0 : Y ≠ 0) (lo : 1 / 2 ^ 1000 ≤ |X / Y|) (big : |X / Y| ≤ 2 ^ 1015) : Rl (Fpu.div a b) (X / Y) c' 0 := by
  refine absorb (c := (1 + (c + d) / (1 - d)) * (1 + 1 / 2 ^ 53) - 1) ?_ lo hc
  have h1 := ha.2.2
  have h2 := hb.2.2
  rw [add_zero] at h1 h2
  have py := abs_pos.2 Y0
  have bl : (1 - d) * |Y| ≤ |(value b : ℝ)| := by
    have := abs_sub_abs_le_abs_sub Y (value b : ℝ)
    rw [abs_sub_comm Y (value b : ℝ)] at this
    linarith
  have e0 : 0 < 1 - d := by linarith
  have bp : 0 < |(value b : ℝ)| := lt_of_lt_of_le (mul_pos e0 py) bl
  have b0 : (value b : ℝ) ≠ 0 := abs_pos.1 bp
  have p := abs_nonneg (X / Y)
  have dd : |(value a : ℝ) / value b - X / Y| ≤ (c + d) / (1 - d) * |X / Y| := by
    rw [show (value a : ℝ) / value b - X / Y = ((value a - X) - X / Y * (value b - Y)) / value b by field_simp; ring, abs_div, div_le_iff₀ bp]
    have xe : |X| = |X / Y| * |Y| := by rw [abs_div, div_mul_cancel₀ _ py.ne']
    refine le_trans (abs_sub _ _) ?_
    rw [abs_mul]
    have a2 := mul_le_mul_of_nonneg_left h2 p
    have a3 := mul_le_mul_of_nonneg_left bl (mul_nonneg (div_nonneg (add_nonneg c0 d0) e0.le) p)
    rw [show (c + d) / (1 - d) * |X / Y| * ((1 - d) * |Y|) = (c + d) * (|X / Y| * |Y|) by field_simp] at a3
    rw [xe] at h1
    linarith
  have m : |(value a : ℝ) / value b| ≤ (1 + (c + d) / (1 - d)) * |X / Y| := by
    have := abs_add_le ((value a : ℝ) / value b - X / Y) (X / Y)
    rw [sub_add_cancel] at this; linarith
  have lim : (1 + (c + d) / (1 - d)) * |X / Y| ≤ 2 ^ 1020 := by
    have : (2 : ℝ) ^ 1020 = 32 * 2 ^ 1015 := by rw [show (32 : ℝ) = 2 ^ 5 by norm_num, ← pow_add]
    rw [this]
    refine mul_le_mul ?_ big p (by norm_num)
    have : (c + d) / (1 - d) ≤ 1 := by rw [div_le_one e0]; linarith
    linarith
  have n := div_rel ha.1 hb.1 ha.2.1 hb.2.1 b0 (le_trans m lim)
  refine ⟨n.1, n.2.1, ?_⟩
  have := abs_add_le ((value (Fpu.div a b) : ℝ) - ((value a : ℝ) / value b)) ((value a : ℝ) / value b - X / Y)
  rw [sub_add_sub_cancel] at this
  have h3 := n.2.2
  have h4 : |(value a : ℝ) / value b| / 2 ^ 53 ≤ (1 + (c + d) / (1 - d)) * |X / Y| / 2 ^ 53 := div_le_div_of_nonneg_right m (by positivity)
  refine le_trans this (le_trans (add_le_add h3 dd) ?_)
  generalize (1 : ℝ) / 2 ^ 1075 = τ at *
  generalize |X / Y| = V at *
  generalize (c + d) / (1 - d) = k at *
  linarith

/-! ## The rational function -/

/-- What the rational function of `ρ`, the cube of the quotient of the rough and the exact cube root, gives. -/
noncomputable def fit (ρ : ℝ) : ℝ := 5 / 14 + 45 / 28 / (19 / 35 + ρ + 99 / 70 + -864 / 1225 / (19 / 35 + ρ))

theorem fit_close {ρ : ℝ} (h1 : 905 / 1000 ≤ ρ) (h2 : ρ ≤ 1105 / 1000) : |ρ * fit ρ ^ 3 - 1| ≤ 1 / 2 ^ 23 ∧ 9 / 10 ≤ fit ρ ∧ fit ρ ≤ 11 / 10 := by
  obtain ⟨u, rfl⟩ : ∃ u, ρ = 1 + u := ⟨ρ - 1, by ring⟩
  have u1 : -(105 / 1000) ≤ u := by linarith
  have u2 : u ≤ 105 / 1000 := by linarith
  have ua : |u| ≤ 105 / 1000 := abs_le.2 ⟨u1, u2⟩
  obtain ⟨M, hM⟩ : ∃ M, M = 27 / 7 + 9 / 2 * u + u ^ 2 := ⟨_, rfl⟩
  obtain ⟨N, hN⟩ : ∃ N, N = 27 / 7 + 45 / 14 * u + 5 / 14 * u ^ 2 := ⟨_, rfl⟩
  have s0 : 0 < 19 / 35 + (1 + u) := by linarith
  have M1 : 33 / 10 ≤ M := by rw [hM]; nlinarith [sq_nonneg u]
  have e : fit (1 + u) = N / M := by
    have q : 19 / 35 + (1 + u) + 99 / 70 + -864 / 1225 / (19 / 35 + (1 + u)) = M / (19 / 35 + (1 + u)) := by
      rw [eq_div_iff s0.ne', add_mul, div_mul_cancel₀ _ s0.ne', hM]; ring
    unfold fit
    rw [q, div_div_eq_mul_div, hN, eq_div_iff (by linarith), add_mul, div_mul_cancel₀ _ (by linarith), hM]; ring
  have M0 : 0 < M := by linarith
  refine ⟨?_, ?_, ?_⟩
  · rw [e, show (1 + u) * (N / M) ^ 3 - 1 = u ^ 5 * (27 / 98 + 27 / 98 * u + 125 / 2744 * u ^ 2) / M ^ 3 by
      rw [div_pow, mul_div_assoc', div_sub_one (by positivity)]; congr 1; rw [hM, hN]; ring]
    rw [abs_div, abs_of_pos (show 0 < M ^ 3 by positivity), div_le_iff₀ (by positivity), abs_mul, abs_pow]
    have p1 : |u| ^ 5 ≤ (105 / 1000) ^ 5 := pow_le_pow_left₀ (abs_nonneg u) ua 5
    have p2 : |27 / 98 + 27 / 98 * u + 125 / 2744 * u ^ 2| ≤ 31 / 100 := by rw [abs_le]; constructor <;> nlinarith
    have p3 : (33 / 10 : ℝ) ^ 3 ≤ M ^ 3 := pow_le_pow_left₀ (by norm_num) M1 3
    refine le_trans (mul_le_mul p1 p2 (abs_nonneg _) (by norm_num)) ?_
    norm_num at p3 ⊢
    linarith
  · rw [e, le_div_iff₀ M0, hM, hN]; nlinarith
  · rw [e, div_le_iff₀ M0, hM, hN]; nlinarith

theorem v_C : C < 2 ^ 64 ∧ IsFinite C ∧ |(value C : ℝ) - 19 / 35| ≤ 1 / 2 ^ 53 := by
  refine ⟨by decide, by decide, ?_⟩
  rw [show value C = 4889622452573681 / 2 ^ 53 by unfold C value sign expo frac; norm_num]
  push_cast; rw [abs_le]; constructor <;> norm_num
theorem v_D : D < 2 ^ 64 ∧ IsFinite D ∧ |(value D : ℝ) - -864 / 1225| ≤ 1 / 2 ^ 53 := by
  refine ⟨by decide, by decide, ?_⟩
  rw [show value D = -6352832780486708 / 2 ^ 53 by unfold D value sign expo frac; norm_num]
  push_cast; rw [abs_le]; constructor <;> norm_num
theorem v_E : E < 2 ^ 64 ∧ IsFinite E ∧ |(value E : ℝ) - 99 / 70| ≤ 1 / 2 ^ 53 := by
  refine ⟨by decide, by decide, ?_⟩
  rw [show value E = 6369376615852559 / 2 ^ 52 by unfold E value sign expo frac; norm_num]
  push_cast; rw [abs_le]; constructor <;> norm_num
theorem v_F : F < 2 ^ 64 ∧ IsFinite F ∧ |(value F : ℝ) - 45 / 28| ≤ 1 / 2 ^ 53 := by
  refine ⟨by decide, by decide, ?_⟩
  rw [show value F = 7237927972559726 / 2 ^ 52 by unfold F value sign expo frac; norm_num]
  push_cast; rw [abs_le]; constructor <;> norm_num
theorem v_G : G < 2 ^ 64 ∧ IsFinite G ∧ |(value G : ℝ) - 5 / 14| ≤ 1 / 2 ^ 53 := by
  refine ⟨by decide, by decide, ?_⟩
  rw [show value G = 6433713753386423 / 2 ^ 54 by unfold G value sign expo frac; norm_num]
  push_cast; rw [abs_le]; constructor <;> norm_num

/-- The factor computed from a double near `ρ`. -/
theorem fit_near {n : Nat} {ρ : ℝ} (h : Near n ρ (1 / 2 ^ 50)) (h1 : 905 / 1000 ≤ ρ) (h2 : ρ ≤ 1105 / 1000) :
    Near (add G (div F (add (add (add C n) E) (div D (add C n))))) (fit ρ) (1 / 2 ^ 44) := by
  have c : Nb C (19 / 35) (1 / 2 ^ 53) 1 := ⟨v_C, by norm_num⟩
  have d : Near D (-864 / 1225) (1 / 2 ^ 53) := v_D
  have e : Nb E (99 / 70) (1 / 2 ^ 53) 2 := ⟨v_E, by norm_num⟩
  have f : Near F (45 / 28) (1 / 2 ^ 53) := v_F
  have g : Nb G (5 / 14) (1 / 2 ^ 53) 1 := ⟨v_G, by norm_num⟩
  have s := Nb.add (1 / 2 ^ 49) 3 c (⟨h, abs_le.2 ⟨by linarith, h2⟩⟩ : Nb n ρ (1 / 2 ^ 50) (1105 / 1000)) (by norm_num) (by norm_num) (by norm_num)
  have s0 : 14 / 10 ≤ 19 / 35 + ρ := by linarith
  have q := Near.div (l := 14 / 10) (q := 1) (d := 1 / 2 ^ 48) (g := 1 / 2 ^ 47) d s.1 (by rw [abs_of_pos (by linarith)]; exact s0) (by norm_num) (by
    rw [abs_div, abs_of_pos (show 0 < 19 / 35 + ρ by linarith), div_le_one (by linarith)]; rw [abs_of_neg (by norm_num)]; linarith) (by norm_num) (by norm_num) (by norm_num)
  have q1 : -864 / 1225 / (19 / 35 + ρ) ≤ 0 := div_nonpos_of_nonpos_of_nonneg (by norm_num) (by linarith)
  have q2 : -(51 / 100) ≤ -864 / 1225 / (19 / 35 + ρ) := by rw [le_div_iff₀ (by linarith)]; linarith
  have se := Nb.add (1 / 2 ^ 48) 6 s e (by norm_num) (by norm_num) (by norm_num)
  have dn := Nb.add (1 / 2 ^ 46) 8 se (⟨q, abs_le.2 ⟨by linarith, by linarith⟩⟩ : Nb _ _ (1 / 2 ^ 47) 1) (by norm_num) (by norm_num) (by norm_num)
  have t0 : 2 ≤ 19 / 35 + ρ + 99 / 70 + -864 / 1225 / (19 / 35 + ρ) := by linarith
  have r := Near.div (l := 2) (q := 1) (d := 1 / 2 ^ 46) (g := 3 / 2 ^ 47) f dn.1 (by rw [abs_of_pos (by linarith)]; exact t0) (by norm_num) (by
    rw [abs_div, abs_of_pos (show 0 < 19 / 35 + ρ + 99 / 70 + -864 / 1225 / (19 / 35 + ρ) by linarith), div_le_one (by linarith)]; rw [abs_of_pos (by norm_num)]; linarith) (by norm_num) (by norm_num) (by norm_num)
  have r1 : |45 / 28 / (19 / 35 + ρ + 99 / 70 + -864 / 1225 / (19 / 35 + ρ))| ≤ 1 := by
    rw [abs_div, abs_of_pos (show 0 < 19 / 35 + ρ + 99 / 70 + -864 / 1225 / (19 / 35 + ρ) by linarith), div_le_one (by linarith)]; rw [abs_of_pos (by norm_num)]; linarith
  exact (Nb.add (1 / 2 ^ 44) 2 g (⟨r, r1⟩ : Nb _ _ (3 / 2 ^ 47) 1) (by norm_num) (by norm_num) (by norm_num)).1

/-! ## The last step, in real numbers -/

theorem last_rounding {z ρ δ ω σ Q π τ : ℝ} (hz : |z - 1| ≤ 1 / 2 ^ 19) (hρ : |ρ - z ^ 3| ≤ z ^ 3 / 2 ^ 53 + 1 / 2 ^ 80) (hδ : |δ - (ρ - 1)| ≤ |ρ - 1| / 2 ^ 53)
    (hω : |ω - 2| ≤ 2 / 2 ^ 53) (hσ : |σ - (ω + ρ)| ≤ |ω + ρ| / 2 ^ 53) (hQ : |Q - δ / σ| ≤ |δ / σ| / 2 ^ 53 + 1 / 2 ^ 80) (hπ : |π - Q| ≤ |Q| / 2 ^ 53 + 1 / 2 ^ 80)
    (hτ : |τ - (1 + π)| ≤ |1 + π| / 2 ^ 53) : |τ - (1 + (ρ - 1) / (2 + ρ))| ≤ 1002 / 1000 / 2 ^ 53 ∧ |ρ - z ^ 3| ≤ 10001 / 10000 / 2 ^ 53 ∧ |1 + π - (1 + (ρ - 1) / (2 + ρ))| ≤ 1 / 2 ^ 64 := by
  obtain ⟨z1, z2⟩ := abs_le.1 hz
  have zl : 1 - 1 / 2 ^ 19 ≤ z := by linarith
  have zu : z ≤ 1 + 1 / 2 ^ 19 := by linarith
  have z0 : 0 ≤ z := by norm_num at zl; linarith
  have yl : (1 - 1 / 2 ^ 19) ^ 3 ≤ z ^ 3 := pow_le_pow_left₀ (by norm_num) zl 3
  have yu : z ^ 3 ≤ (1 + 1 / 2 ^ 19) ^ 3 := pow_le_pow_left₀ z0 zu 3
  obtain ⟨y, hy⟩ : ∃ y, y = z ^ 3 := ⟨_, rfl⟩
  rw [← hy] at hρ yl yu
  have r1 : |ρ - y| ≤ 10001 / 10000 / 2 ^ 53 := le_trans hρ (by norm_num at yu ⊢; linarith)
  have r2 : |ρ - 1| ≤ 1 / 2 ^ 17 := by
    obtain ⟨a, b⟩ := abs_le.1 r1
    rw [abs_le]; norm_num at a b yl yu ⊢; constructor <;> linarith
  obtain ⟨r3, r4⟩ := abs_le.1 r2
  have d1 : |δ - (ρ - 1)| ≤ 1 / 2 ^ 70 := le_trans hδ (by norm_num at r2 ⊢; linarith)
  have s1 : |σ - (2 + ρ)| ≤ 1 / 2 ^ 50 := by
    obtain ⟨a, b⟩ := abs_le.1 hω
    have wp : |ω + ρ| ≤ 4 := by rw [abs_le]; norm_num at *; constructor <;> linarith
    obtain ⟨c, d⟩ := abs_le.1 (le_trans hσ (div_le_div_of_nonneg_right wp (by positivity)))
    rw [abs_le]; norm_num at *; constructor <;> linarith
  have sl : 29 / 10 ≤ σ := by obtain ⟨a, b⟩ := abs_le.1 s1; norm_num at *; linarith
  have bl : 29 / 10 ≤ 2 + ρ := by norm_num at *; linarith
  have q1 : |δ / σ - (ρ - 1) / (2 + ρ)| ≤ 1 / 2 ^ 66 := by
    rw [show δ / σ - (ρ - 1) / (2 + ρ) = ((δ - (ρ - 1)) - (ρ - 1) / (2 + ρ) * (σ - (2 + ρ))) / σ by field_simp; ring, abs_div, abs_of_pos (show 0 < σ by linarith), div_le_iff₀ (by linarith)]
    refine le_trans (abs_sub _ _) ?_
    rw [abs_mul, abs_div, abs_of_pos (show 0 < 2 + ρ by linarith)]
    have k : |ρ - 1| / (2 + ρ) ≤ 1 / 2 ^ 17 := by
      rw [div_le_iff₀ (by linarith)]; refine le_trans r2 ?_; norm_num; linarith
    have := mul_le_mul k s1 (abs_nonneg _) (by positivity)
    norm_num at *
    linarith
  have hb : |(ρ - 1) / (2 + ρ)| ≤ 1 / 2 ^ 17 := by
    rw [abs_div, abs_of_pos (show 0 < 2 + ρ by linarith), div_le_iff₀ (by linarith)]; refine le_trans r2 ?_; norm_num; linarith
  have qb : |δ / σ| ≤ 1 / 2 ^ 16 := by
    have := abs_add_le (δ / σ - (ρ - 1) / (2 + ρ)) ((ρ - 1) / (2 + ρ))
    rw [sub_add_cancel] at this; norm_num at *; linarith
  have q2 : |Q - δ / σ| ≤ 1 / 2 ^ 68 := le_trans hQ (by norm_num at qb ⊢; linarith)
  have Qb : |Q| ≤ 1 / 2 ^ 15 := by
    have := abs_add_le (Q - δ / σ) (δ / σ)
    rw [sub_add_cancel] at this; norm_num at *; linarith
  have p2 : |π - Q| ≤ 1 / 2 ^ 67 := le_trans hπ (by norm_num at Qb ⊢; linarith)
  have P : |π - (ρ - 1) / (2 + ρ)| ≤ 1 / 2 ^ 64 := by
    obtain ⟨a, b⟩ := abs_le.1 p2
    obtain ⟨c, d⟩ := abs_le.1 q2
    obtain ⟨e, f⟩ := abs_le.1 q1
    rw [abs_le]; norm_num at *; constructor <;> linarith
  have pb : |1 + π| ≤ 1 + 1 / 2 ^ 14 := by
    obtain ⟨a, b⟩ := abs_le.1 P
    obtain ⟨c, d⟩ := abs_le.1 hb
    rw [abs_le]; norm_num at *; constructor <;> linarith
  have t1 : |τ - (1 + π)| ≤ 10001 / 10000 / 2 ^ 53 := le_trans hτ (by norm_num at pb ⊢; linarith)
  refine ⟨?_, by rw [← hy]; exact r1, by rw [add_sub_add_left_eq_sub]; exact P⟩
  obtain ⟨a, b⟩ := abs_le.1 t1
  obtain ⟨c, d⟩ := abs_le.1 P
  rw [abs_le]
  generalize (ρ - 1) / (2 + ρ) = A at *
  clear hδ hω hσ hQ hπ hτ d1 s1 q1 hb qb q2 Qb p2 pb
  norm_num at *
  constructor <;> linarith

theorem last_real {z ρ τ e : ℝ} (hz : |z - 1| ≤ 1 / 2 ^ 19) (r1 : |ρ - z ^ 3| ≤ 10001 / 10000 / 2 ^ 53) (t1 : |τ - (1 + (ρ - 1) / (2 + ρ))| ≤ e) :
    |τ - z| ≤ e + 379 / 1000 / 2 ^ 53 := by
  obtain ⟨z1, z2⟩ := abs_le.1 hz
  have zl : 1 - 1 / 2 ^ 19 ≤ z := by linarith
  have zu : z ≤ 1 + 1 / 2 ^ 19 := by linarith
  have z0 : 0 ≤ z := by norm_num at zl; linarith
  have yl : (1 - 1 / 2 ^ 19) ^ 3 ≤ z ^ 3 := pow_le_pow_left₀ (by norm_num) zl 3
  have yu : z ^ 3 ≤ (1 + 1 / 2 ^ 19) ^ 3 := pow_le_pow_left₀ z0 zu 3
  obtain ⟨y, hy⟩ : ∃ y, y = z ^ 3 := ⟨_, rfl⟩
  rw [← hy] at r1 yl yu
  have yl' : 2999 / 1000 ≤ y + 2 := by norm_num at yl ⊢; linarith
  have rl' : 2999 / 1000 ≤ 2 + ρ := by obtain ⟨a, b⟩ := abs_le.1 r1; norm_num at yl a ⊢; linarith
  have H1 : |1 + (ρ - 1) / (2 + ρ) - (1 + (y - 1) / (y + 2))| ≤ 335 / 1000 / 2 ^ 53 := by
    rw [show 1 + (ρ - 1) / (2 + ρ) - (1 + (y - 1) / (y + 2)) = 3 * (ρ - y) / ((2 + ρ) * (y + 2)) by
      have a : 2 + ρ ≠ 0 := by linarith
      have b : y + 2 ≠ 0 := by linarith
      field_simp; ring, abs_div, abs_mul, abs_of_pos (show (0 : ℝ) < 3 by norm_num), abs_of_pos (show 0 < (2 + ρ) * (y + 2) from mul_pos (by linarith) (by linarith)),
      div_le_iff₀ (mul_pos (by linarith) (by linarith))]
    have := mul_le_mul rl' yl' (by norm_num) (by linarith)
    norm_num at r1 this ⊢
    linarith
  have H2 : |1 + (y - 1) / (y + 2) - z| ≤ 43 / 1000 / 2 ^ 53 := by
    rw [show 1 + (y - 1) / (y + 2) - z = -((z - 1) ^ 3 * (z + 1)) / (y + 2) by
      have b : y + 2 ≠ 0 := by linarith
      rw [eq_div_iff b, sub_mul, add_mul, div_mul_cancel₀ _ b, hy]; ring, abs_div, abs_neg, abs_mul, abs_pow, abs_of_pos (show 0 < y + 2 by linarith), div_le_iff₀ (by linarith)]
    have a := pow_le_pow_left₀ (abs_nonneg _) hz 3
    have b : |z + 1| ≤ 2001 / 1000 := by rw [abs_le]; norm_num at z1 z2 ⊢; constructor <;> linarith
    have := mul_le_mul a b (abs_nonneg _) (by positivity)
    norm_num at this ⊢
    linarith
  obtain ⟨a1, a2⟩ := abs_le.1 t1
  obtain ⟨c1, c2⟩ := abs_le.1 H1
  obtain ⟨e1, e2⟩ := abs_le.1 H2
  rw [abs_le]
  generalize (ρ - 1) / (2 + ρ) = A at *
  generalize (y - 1) / (y + 2) = B at *
  norm_num at a1 a2 c1 c2 e1 e2 zl ⊢
  constructor <;> linarith

end Pok.Cbrt
