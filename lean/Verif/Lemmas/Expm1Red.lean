import Verif.Lemmas.Expm1Rel
import Verif.Lemmas.ExpFinish
import Verif.Lemmas.Cosh
/-!
# The exponential minus one with a reduced argument
-/
namespace Pok.Cosh
open Pok.Err Pok.Float Pok.Fpu Pok.Poly

/-- `e` of the code with a reduced argument. -/
def rest (x c : Nat) : Nat := sub (sub (mul x (sub (quotient x) c)) c) (square x)

/-- What the reduced argument and `e` stand for. -/
theorem rest_near {Y : ℝ} {k : Int} {hi lo : Nat} (h : Exp.Red Y k hi lo) :
    ∃ X G : ℝ, Nb (sub hi lo) X 0 (34658 / 10 ^ 5) ∧ Nb (rest (sub hi lo) (sub (sub hi (sub hi lo)) lo)) G (2587 / 10 ^ 20) (6944 / 10 ^ 5) ∧
      |X - G - (Real.exp (Y - k * Real.log 2) - 1)| ≤ 5 / 10 ^ 18 ∧ 7070 / 10 ^ 4 ≤ Real.exp (Y - k * Real.log 2) ∧ Real.exp (Y - k * Real.log 2) ≤ 14143 / 10 ^ 4 := by
  obtain ⟨⟨hh, fh⟩, ⟨hl, fl⟩, bl, near, small⟩ := h
  have near' := abs_le.1 near
  have small' := abs_le.1 small
  have bl' := abs_le.1 bl
  obtain ⟨R, hR⟩ : ∃ R : ℝ, R = (value hi : ℝ) - value lo := ⟨_, rfl⟩
  rw [← hR] at near'
  have Rb : |R| ≤ 3465781 / 10 ^ 7 := by rw [abs_le]; constructor <;> linarith only [near'.1, near'.2, small'.1, small'.2]
  have nx := (Near.self hh fh).sub (Near.self hl fl) (m := 3465781 / 10 ^ 7) (g := 3848 / 10 ^ 20) (by rw [← hR]; exact Rb) (by norm_num) (by norm_num)
  rw [← hR] at nx
  have sx := Near.self nx.1 nx.2.1
  have xr := nx.2.2
  generalize sub hi lo = x at *
  obtain ⟨X, hX⟩ : ∃ X : ℝ, X = (value x : ℝ) := ⟨_, rfl⟩
  rw [← hX] at sx xr
  obtain ⟨C, hC⟩ : ∃ C : ℝ, C = R - X := ⟨_, rfl⟩
  have Cb : |C| ≤ 3848 / 10 ^ 20 := by rw [hC, abs_sub_comm]; exact xr
  have Cb' := abs_le.1 Cb
  have Rb' := abs_le.1 Rb
  have Xb : |X| ≤ 34658 / 10 ^ 5 := by rw [abs_le]; constructor <;> linarith only [Cb'.1, Cb'.2, Rb'.1, Rb'.2, hC]
  have xN : Nb x X 0 (34658 / 10 ^ 5) := ⟨sx, Xb⟩
  -- the correction
  have c1 := (Near.self hh fh).sub sx (m := 31 / 10 ^ 8) (g := 35 / 10 ^ 24) (by
    rw [abs_le]; constructor <;> linarith only [hR, hC, Cb'.1, Cb'.2, bl'.1, bl'.2]) (by norm_num) (by norm_num)
  have c2 := c1.sub (Near.self hl fl) (m := 3848 / 10 ^ 20) (g := 36 / 10 ^ 24) (by
    rw [show (value hi : ℝ) - X - value lo = C by linarith only [hR, hC]]; exact Cb) (by norm_num) (by norm_num)
  rw [show (value hi : ℝ) - X - value lo = C by linarith only [hR, hC]] at c2
  generalize sub (sub hi x) lo = c at *
  have cN : Nb c C (36 / 10 ^ 24) (3848 / 10 ^ 20) := ⟨c2, Cb⟩
  -- the rest
  obtain ⟨hs, d0, d1, q, eq, hq⟩ := steps xN
  have rat := rat_expm1 (by norm_num at *; exact Xb) d0 d1
  have he := Nb.mul (2405 / 10 ^ 20) (2703 / 10 ^ 5) hs hq (by norm_num) (by norm_num) (by norm_num)
  rw [← eq, show Hx X * ((Rx X - Tx X) / Dx X) = Ex X from rfl] at he
  have s1 := Nb.sub (2707 / 10 ^ 20) (2704 / 10 ^ 5) he cN (by norm_num) (by norm_num) (by norm_num)
  have s2 := Nb.mul (1043 / 10 ^ 20) (9372 / 10 ^ 6) xN s1 (by norm_num) (by norm_num) (by norm_num)
  have s3 := Nb.sub (1148 / 10 ^ 20) (9373 / 10 ^ 6) s2 cN (by norm_num) (by norm_num) (by norm_num)
  have s4 := Nb.sub (2587 / 10 ^ 20) (6944 / 10 ^ 5) s3 hs (by norm_num) (by norm_num) (by norm_num)
  have ex := Exp.exp_c
  have ea := Exp.exp_a
  have W0 : 7070 / 10 ^ 4 ≤ Real.exp (Y - k * Real.log 2) := le_trans (by norm_num at *; exact ea) (Real.exp_le_exp.2 (by linarith only [small'.1] : -(34658 / 100000) ≤ Y - k * Real.log 2))
  have W1 : Real.exp (Y - k * Real.log 2) ≤ 14143 / 10 ^ 4 := le_trans (Real.exp_le_exp.2 (by linarith only [small'.2] : Y - k * Real.log 2 ≤ 34658 / 100000)) (by norm_num at *; exact ex)
  refine ⟨X, _, xN, s4, ?_, W0, W1⟩
  -- against the exponential function
  have X' := abs_le.1 Xb
  have EX : Real.exp X ≤ 14143 / 10000 := le_trans (Real.exp_le_exp.2 (by linarith only [X'.2] : X ≤ 34658 / 100000)) ex
  have EX0 := Real.exp_pos X
  obtain ⟨D, hD⟩ : ∃ D : ℝ, D = Y - k * Real.log 2 - X := ⟨_, rfl⟩
  have Dc : |D - C| ≤ 2 / 10 ^ 22 := by rw [abs_le]; constructor <;> linarith only [near'.1, near'.2, hD, hC]
  have Dc' := abs_le.1 Dc
  have Db : |D| ≤ 4 / 10 ^ 17 := by rw [abs_le]; constructor <;> linarith only [Dc'.1, Dc'.2, Cb'.1, Cb'.2]
  have eD := Real.abs_exp_sub_one_sub_id_le (x := D) (le_trans Db (by norm_num))
  have eD2 : D ^ 2 ≤ 16 / 10 ^ 34 := by
    rw [← sq_abs]; exact le_trans (pow_le_pow_left₀ (abs_nonneg _) Db 2) (by norm_num)
  have eX := Real.abs_exp_sub_one_sub_id_le (x := X) (le_trans Xb (by norm_num))
  have eX2 : X ^ 2 ≤ 1202 / 10 ^ 4 := by
    rw [← sq_abs]; exact le_trans (pow_le_pow_left₀ (abs_nonneg _) Xb 2) (by norm_num)
  have sp : Real.exp (Y - k * Real.log 2) = Real.exp X * Real.exp D := by rw [← Real.exp_add, hD]; congr 1; ring
  rw [sp]
  have key : X - (X * (Ex X - C) - C - X * (1 / 2 * X)) - (Real.exp X * Real.exp D - 1) =
      (X - (X * Ex X - Hx X) - (Real.exp X - 1)) - Real.exp X * (Real.exp D - 1 - D) - C * (Real.exp X - 1 - X) - Real.exp X * (D - C) := by unfold Hx; ring
  have a1 : |Real.exp X * (Real.exp D - 1 - D)| ≤ 2 * (16 / 10 ^ 34) := by
    rw [abs_mul, abs_of_pos EX0]; exact mul_le_mul (by linarith only [EX]) (le_trans eD eD2) (abs_nonneg _) (by norm_num)
  have a2 : |C * (Real.exp X - 1 - X)| ≤ 3848 / 10 ^ 20 * (1202 / 10 ^ 4) := by
    rw [abs_mul]; exact mul_le_mul Cb (le_trans eX eX2) (abs_nonneg _) (by norm_num)
  have a3 : |Real.exp X * (D - C)| ≤ 2 * (2 / 10 ^ 22) := by
    rw [abs_mul, abs_of_pos EX0]; exact mul_le_mul (by linarith only [EX]) Dc (abs_nonneg _) (by norm_num)
  have a1 := abs_le.1 a1
  have a2 := abs_le.1 a2
  have a3 := abs_le.1 a3
  have r := abs_le.1 rat
  have : |X - (X * (Ex X - C) - C - X * (1 / 2 * X)) - (Real.exp X * Real.exp D - 1)| ≤ 5 / 10 ^ 18 := by
    rw [key, abs_le]; constructor <;> linarith only [a1.1, a1.2, a2.1, a2.2, a3.1, a3.2, r.1, r.2]
  exact this

/-- Scaling by a power of two. -/
theorem scaled_near {y : Nat} {k : Int} {V e : ℝ} (h : Near y V e) (v0 : 1 / 4 + e ≤ V) (v1 : V + e < 2) (k0 : -100 ≤ k) (k1 : k ≤ 100) :
    Near (scaled y k) (V * (2 : ℝ) ^ k) (e * (2 : ℝ) ^ k) := by
  have t := abs_le.1 h.2.2
  have y0 : 1 / 4 ≤ (value y : ℝ) := by linarith only [t.1, v0]
  have y1 : (value y : ℝ) < 2 := by linarith only [t.2, v1]
  have y63 : y < 2 ^ 63 := by
    by_contra c
    have := Exp.value_neg (x := y) (by omega) h.1
    have n := abs_nonneg (value y)
    rw [this] at n
    have n' := (Rat.cast_le (K := ℝ)).2 n
    push_cast at n'
    linarith only [n', y0]
  have lo : 0x3fd0000000000000 ≤ y := by
    by_contra c
    have := bits_lt (y := y) (c := 0x3fcfffffffffffff) (by omega) (by norm_num) (b := 1 / 4 - 1 / 2 ^ 60) (by
      rw [show value 0x3fcfffffffffffff = 1 / 4 - 1 / 2 ^ 55 by unfold value sign expo frac; norm_num]; norm_num)
    linarith only [this, y0]
  have up : y < 0x4000000000000000 := by
    by_contra c
    have := le_trans (show (2 : ℝ) ≤ (value 0x4000000000000000 : ℝ) by
      rw [show value 0x4000000000000000 = 2 by unfold value sign expo frac; norm_num]; norm_num) (Hypot.val_mono (by omega : 0x4000000000000000 ≤ y) y63)
    linarith only [this, y1]
  have ex : 1021 ≤ expo y ∧ expo y ≤ 1023 := by unfold expo; omega
  obtain ⟨s1, s2, s3⟩ := Exp.scale_spec (k := k) y63 (by omega) (by omega) (by omega)
  refine ⟨s1, s2, ?_⟩
  have p0 : (0 : ℝ) < (2 : ℝ) ^ k := by positivity
  have : (value (scaled y k) : ℝ) = value y * (2 : ℝ) ^ k := by
    unfold scaled; rw [s3]; push_cast; rfl
  rw [this, ← sub_mul, abs_mul, abs_of_pos p0]
  exact mul_le_mul_of_nonneg_right h.2.2 p0.le

theorem upper_const {n : Nat} (h0 : 2 ≤ n) (h1 : n < 20) : Near (Libm.setHi Libm.one (0x3ff00000 - 0x200000 >>> n)) (1 - 1 / 2 ^ n) 0 := by
  have v : value (Libm.setHi Libm.one (0x3ff00000 - 0x200000 >>> n)) = 1 - 1 / 2 ^ n := by
    interval_cases n <;> (unfold Libm.setHi Libm.insert Libm.lo Libm.one value sign expo frac; norm_num [Nat.shiftRight_eq_div_pow, Nat.shiftLeft_eq])
  refine ⟨?_, ?_, ?_⟩
  · interval_cases n <;> decide
  · interval_cases n <;> decide
  · rw [v]; push_cast; simp

theorem lower_const {n : Nat} (h0 : 20 ≤ n) (h1 : n ≤ 56) : Near (Libm.setHi Libm.one ((0x3ff - n) <<< 20)) (1 / 2 ^ n) 0 := by
  have v : value (Libm.setHi Libm.one ((0x3ff - n) <<< 20)) = 1 / 2 ^ n := by
    interval_cases n <;> (unfold Libm.setHi Libm.insert Libm.lo Libm.one value sign expo frac; norm_num [Nat.shiftRight_eq_div_pow, Nat.shiftLeft_eq])
  refine ⟨?_, ?_, ?_⟩
  · interval_cases n <;> decide
  · interval_cases n <;> decide
  · rw [v]; push_cast; simp

theorem near_half : Near half (1 / 2) 0 := by
  refine ⟨by decide, by decide, ?_⟩
  rw [show value half = 1 / 2 by unfold half value sign expo frac; norm_num]; norm_num
theorem near_two : Near two 2 0 := by
  refine ⟨by decide, by decide, ?_⟩
  rw [show value two = 2 by unfold two value sign expo frac; norm_num]; norm_num
theorem near_mtwo : Near mtwo (-2) 0 := by
  refine ⟨by decide, by decide, ?_⟩
  rw [show value mtwo = -2 by unfold mtwo value sign expo frac; norm_num]; norm_num

/-- The last steps with a reduced argument. -/
theorem finish_rel {Y : ℝ} {k : Int} {hi lo : Nat} (h : Exp.Red Y k hi lo) (k0 : k ≠ 0) (k1 : -100 ≤ k) (k2 : k ≤ 100) :
    Near (finish (sub hi lo) (sub (sub hi (sub hi lo)) lo) k) (Real.exp Y - 1) (|Real.exp Y - 1| * (53 / 10 / 2 ^ 53)) := by
  obtain ⟨X, G, xN, eN, d, W0, W1⟩ := rest_near h
  rw [Exp.exp_split Y k]
  have fe : ∀ x c, finish x c k = if k = -1 then sub (mul half (sub x (rest x c))) half
    else if k = 1 then
      if lt x mquarter then mul mtwo (sub (rest x c) (add x half)) else add Libm.one (mul two (sub x (rest x c)))
    else if k ≤ -2 ∨ 56 < k then sub (scaled (sub Libm.one (sub (rest x c) x)) k) Libm.one
    else if k < 20 then scaled (sub (Libm.setHi Libm.one (0x3ff00000 - 0x200000 >>> k.toNat)) (sub (rest x c) x)) k
    else scaled (add (sub x (add (rest x c) (Libm.setHi Libm.one ((0x3ff - k.toNat) <<< 20)))) Libm.one) k := fun _ _ => rfl
  rw [fe]
  generalize rest (sub hi lo) (sub (sub hi (sub hi lo)) lo) = e at *
  generalize sub hi lo = x at *
  generalize Real.exp (Y - k * Real.log 2) = W at *
  have d' := abs_le.1 d
  have G' := abs_le.1 eN.2
  obtain ⟨A, hA⟩ : ∃ A, A = |W - 1| := ⟨_, rfl⟩
  have A0 : 0 ≤ A := by rw [hA]; exact abs_nonneg _
  have A1 : A ≤ 4143 / 10 ^ 4 := by rw [hA, abs_le]; constructor <;> linarith only [W0, W1]
  have AW : (W ≤ 1 ∧ A = 1 - W) ∨ (1 ≤ W ∧ A = W - 1) := by
    rcases le_total W 1 with c | c
    · left; exact ⟨c, by rw [hA, abs_of_nonpos (by linarith only [c])]; ring⟩
    · right; exact ⟨c, by rw [hA, abs_of_nonneg (by linarith only [c])]⟩
  have m1 : |X - G| ≤ A + 5 / 10 ^ 18 := by
    have := abs_add_le (X - G - (W - 1)) (W - 1)
    rw [sub_add_cancel, ← hA] at this
    linarith only [this, d]
  have d1 : Near (sub x e) (W - 1) (3088 / 10 ^ 20 + A / 2 ^ 53) :=
    ((xN.1.sub eN.1 (g := 2588 / 10 ^ 20 + A / 2 ^ 53) m1 (by linarith only) (by linarith only [A1])).move d).weaken (by linarith only)
  have d2 : Near (sub e x) (1 - W) (3088 / 10 ^ 20 + A / 2 ^ 53) := by
    refine ((eN.1.sub xN.1 (m := A + 5 / 10 ^ 18) (g := 2588 / 10 ^ 20 + A / 2 ^ 53) (by rw [abs_sub_comm]; exact m1) (by linarith only) (by linarith only [A1])).move
      (w := 1 - W) (f := 5 / 10 ^ 18) ?_).weaken (by linarith only)
    rw [abs_le]; constructor <;> linarith only [d'.1, d'.2]
  by_cases c1 : k = -1
  · subst c1
    rw [if_pos rfl, show (2 : ℝ) ^ (-1 : ℤ) = 1 / 2 by norm_num]
    have hf := Nb.half (m := 1) ⟨d1, by rw [← hA]; linarith only [A1]⟩ (by linarith only [A1])
    have r := hf.1.sub near_half (m := 1 - W / 2) (g := (1 - W / 2) * (53 / 10 / 2 ^ 53)) (by rw [abs_le]; constructor <;> linarith only [W0, W1]) (by
      rcases AW with ⟨w, a⟩ | ⟨w, a⟩ <;> linarith only [w, a, W0, W1]) (by linarith only [A1, W0, W1])
    rw [show 1 / 2 * (W - 1) - 1 / 2 = W * (1 / 2) - 1 by ring] at r
    rw [abs_of_nonpos (by linarith only [W1])]
    exact r.weaken (by linarith only)
  rw [if_neg c1]
  by_cases c2 : k = 1
  · subst c2
    rw [if_pos rfl, show (2 : ℝ) ^ (1 : ℤ) = 2 by norm_num, abs_of_pos (by linarith only [W0])]
    split
    · have s1 := xN.1.add near_half (m := W - 43 / 100) (g := (W - 43 / 100) / 2 ^ 53) (by
        rw [abs_le]; constructor <;> linarith only [d'.1, d'.2, G'.1, G'.2, W0, W1]) (by linarith only) (by linarith only [W1])
      have s2 := eN.1.sub s1 (m := W - 1 / 2 + 5 / 10 ^ 18) (g := 2588 / 10 ^ 20 + (W - 43 / 100) / 2 ^ 53 + (W - 1 / 2) / 2 ^ 53) (by
        rw [abs_le]; constructor <;> linarith only [d'.1, d'.2, W0, W1]) (by linarith only [W1]) (by linarith only [W1])
      have s2 := s2.move (w := 1 / 2 - W) (f := 5 / 10 ^ 18) (by rw [abs_le]; constructor <;> linarith only [d'.1, d'.2])
      have s3 := near_mtwo.mul s2 (m := 2) (n := W - 1 / 2) (g := (W * 2 - 1) * (53 / 10 / 2 ^ 53)) (by norm_num) (by
        rw [abs_le]; constructor <;> linarith only [W0]) (by linarith only [W0, W1]) (by linarith only [W0, W1])
      rw [show -2 * (1 / 2 - W) = W * 2 - 1 by ring] at s3
      exact s3
    · have s1 := near_two.mul d1 (m := 2) (n := A) (g := 6177 / 10 ^ 20 + 4 * A / 2 ^ 53) (by norm_num) (by rw [hA]) (by linarith only [A1, A0]) (by linarith only [A1, A0])
      have s2 := Exp.near_one.add s1 (m := W * 2 - 1) (g := (W * 2 - 1) * (53 / 10 / 2 ^ 53)) (by
        rw [show 1 + 2 * (W - 1) = W * 2 - 1 by ring, abs_of_pos (by linarith only [W0])]) (by
        rcases AW with ⟨w, a⟩ | ⟨w, a⟩ <;> linarith only [w, a, W0, W1]) (by linarith only [A1, W0, W1])
      rw [show 1 + 2 * (W - 1) = W * 2 - 1 by ring] at s2
      exact s2
  rw [if_neg c2]
  obtain ⟨P, hP⟩ : ∃ P : ℝ, P = (2 : ℝ) ^ k := ⟨_, rfl⟩
  have P0 : 0 < P := by rw [hP]; positivity
  have PU : P ≤ 2 ^ 100 := by
    rw [hP]; have : (2 : ℝ) ^ k ≤ (2 : ℝ) ^ (100 : ℤ) := zpow_le_zpow_right₀ (by norm_num) k2
    exact le_trans this (by norm_num)
  by_cases c3 : k ≤ -2 ∨ 56 < k
  · rw [if_pos c3, ← hP]
    have s1 := Exp.near_one.sub d2 (m := W) (g := W * (19 / 10 / 2 ^ 53)) (by rw [sub_sub_cancel, abs_of_pos (by linarith only [W0])]) (by
      rcases AW with ⟨w, a⟩ | ⟨w, a⟩ <;> linarith only [w, a, W0, W1]) (by linarith only [A1, W1])
    rw [sub_sub_cancel] at s1
    have s2 := scaled_near (k := k) s1 (by linarith only [W0, W1]) (by linarith only [W1]) k1 k2
    rw [← hP, show W * (19 / 10 / 2 ^ 53) * P = W * P * (19 / 10 / 2 ^ 53) by ring] at s2
    obtain ⟨Z, hZ⟩ : ∃ Z, Z = W * P := ⟨_, rfl⟩
    rw [← hZ] at s2 ⊢
    have Z0 : 0 < Z := by rw [hZ]; exact mul_pos (by linarith only [W0]) P0
    have ZU : Z ≤ 2 * 2 ^ 100 := by rw [hZ]; exact mul_le_mul (by linarith only [W1]) PU P0.le (by norm_num)
    refine s2.sub Exp.near_one (m := |Z - 1|) le_rfl ?_ ?_
    · rcases c3 with c | c
      · have : P ≤ 1 / 4 := by
          rw [hP]; have : (2 : ℝ) ^ k ≤ (2 : ℝ) ^ (-2 : ℤ) := zpow_le_zpow_right₀ (by norm_num) c
          exact le_trans this (by norm_num)
        have z : Z ≤ 3536 / 10 ^ 4 := by
          rw [hZ]; have := mul_le_mul W1 this P0.le (by norm_num); linarith only [this]
        rw [abs_of_nonpos (by linarith only [z])]
        linarith only [z, Z0]
      · have : 2 ^ 57 ≤ P := by
          rw [hP]; have : (2 : ℝ) ^ (57 : ℤ) ≤ (2 : ℝ) ^ k := zpow_le_zpow_right₀ (by norm_num) (by omega)
          exact le_trans (by norm_num) this
        have z : 2 ^ 56 ≤ Z := by
          rw [hZ]; have := mul_le_mul W0 this (by norm_num) (by linarith only [W0]); linarith only [this]
        rw [abs_of_nonneg (by linarith only [z])]
        linarith only [z, Z0]
    · have : |Z - 1| ≤ Z + 1 := by rw [abs_le]; constructor <;> linarith only [Z0]
      linarith only [this, ZU, Z0]
  rw [if_neg c3]
  obtain ⟨n, hn⟩ : ∃ n : Nat, k = n := ⟨k.toNat, by omega⟩
  subst hn
  have Pn : P = 2 ^ n := by rw [hP, zpow_natCast]
  obtain ⟨I, hI⟩ : ∃ I : ℝ, I = 1 / 2 ^ n := ⟨_, rfl⟩
  have PI : I * P = 1 := by rw [hI, Pn]; field_simp
  have I0 : 0 < I := by rw [hI]; positivity
  have I1 : I ≤ 1 / 4 := by
    rw [hI]; have : (2 : ℝ) ^ 2 ≤ 2 ^ n := pow_le_pow_right₀ (by norm_num) (by omega)
    exact le_trans (one_div_le_one_div_of_le (by norm_num) this) (by norm_num)
  have goal : ∀ y, Near y (W - I) ((W - I) * (53 / 10 / 2 ^ 53)) → Near (scaled y n) (W * (2 : ℝ) ^ (n : ℤ) - 1) (|W * (2 : ℝ) ^ (n : ℤ) - 1| * (53 / 10 / 2 ^ 53)) := by
    intro y hy
    have := scaled_near (k := n) hy (by linarith only [W0, W1, I1, I0]) (by linarith only [W1, I0]) k1 k2
    rw [← hP] at this ⊢
    have e : (W - I) * P = W * P - 1 := by rw [sub_mul, PI]
    have p : 0 < (W - I) * P := mul_pos (by linarith only [W0, I1]) P0
    rw [← e, abs_of_pos p]
    exact this.weaken (by linarith only)
  split
  · next c4 =>
    apply goal
    have u := upper_const (n := n) (by omega) (by omega)
    rw [← hI] at u
    have r := u.sub d2 (m := W - I) (g := (W - I) * (53 / 10 / 2 ^ 53)) (by
      rw [show 1 - I - (1 - W) = W - I by ring, abs_of_pos (by linarith only [W0, I1])]) (by
      rcases AW with ⟨w, a⟩ | ⟨w, a⟩ <;> linarith only [w, a, W0, W1, I1]) (by linarith only [A1, W1, I0])
    rw [show 1 - I - (1 - W) = W - I by ring] at r
    exact r
  · next c4 =>
    apply goal
    have u := lower_const (n := n) (by omega) (by omega)
    rw [← hI] at u
    have s1 := eN.1.add u (m := 32 / 100) (g := 6140 / 10 ^ 20) (by rw [abs_le]; constructor <;> linarith only [G'.1, G'.2, I0, I1]) (by norm_num) (by norm_num)
    have s2 := xN.1.sub s1 (m := A + I + 5 / 10 ^ 18) (g := 6141 / 10 ^ 20 + (A + I) / 2 ^ 53) (by
      have := abs_sub (X - G) I
      rw [abs_of_pos I0] at this
      rw [← sub_sub]; linarith only [this, m1]) (by linarith only) (by linarith only [A1, I1])
    have s2 := s2.move (w := W - 1 - I) (f := 5 / 10 ^ 18) (by rw [abs_le]; constructor <;> linarith only [d'.1, d'.2])
    have r := s2.add Exp.near_one (m := W - I) (g := (W - I) * (53 / 10 / 2 ^ 53)) (by
      rw [show W - 1 - I + 1 = W - I by ring, abs_of_pos (by linarith only [W0, I1])]) (by
      rcases AW with ⟨w, a⟩ | ⟨w, a⟩ <;> linarith only [w, a, W0, W1, I1]) (by linarith only [A1, W1, I0])
    rw [show W - 1 - I + 1 = W - I by ring] at r
    exact r

/-- `expm1` of a number with a reduced argument. -/
theorem expm1_red {a : Nat} (ha : a < 2 ^ 64) (h0 : 0x3fd62e42 < mag a / 2 ^ 32) (h1 : mag a / 2 ^ 32 < 0x40460000) (h2 : a < 2 ^ 63 ∨ mag a / 2 ^ 32 < 0x4043687A) :
    Near (expm1 a) (Real.exp (value a) - 1) (|Real.exp (value a) - 1| * (53 / 10 / 2 ^ 53)) := by
  have hinf : inf = 0x7ff00000 * 2 ^ 32 := rfl
  have fa : IsFinite a := by rw [finite_iff]; omega
  have l2 := Exp.ln2_b
  have xs : (Libm.hi a &&& 0x80000000 = 0 ↔ sign a = 0) ∧ (sign a = 0 ↔ a < 2 ^ 63) := by
    constructor
    · rw [Float.and_sign (by unfold Libm.hi; omega)]; unfold Libm.hi sign; omega
    · unfold sign; omega
  have bound : |(value a : ℝ)| ≤ 44 := by
    have := value_mono ha (c := 0x4046000000000000) (by norm_num) (by omega)
    rw [show value 0x4046000000000000 = 44 by unfold value sign expo frac; norm_num] at this
    have := (Rat.cast_le (K := ℝ)).2 this
    push_cast at this; exact this
  have bound' := abs_le.1 bound
  have kb : ∀ k : Int, |(value a : ℝ) - k * Real.log 2| ≤ 346578 / 1000000 → -100 ≤ k ∧ k ≤ 100 := by
    intro k hk
    have hk := abs_le.1 hk
    constructor
    · by_contra c
      have : (k : ℝ) ≤ -101 := by exact_mod_cast (by omega : k ≤ -101)
      have := mul_le_mul_of_nonneg_right this (show 0 ≤ Real.log 2 by linarith only [l2.1])
      linarith only [this, hk.1, hk.2, bound'.1, bound'.2, l2.1, l2.2]
    · by_contra c
      have : (101 : ℝ) ≤ k := by exact_mod_cast (by omega : 101 ≤ k)
      have := mul_le_mul_of_nonneg_right this (show 0 ≤ Real.log 2 by linarith only [l2.1])
      linarith only [this, hk.1, hk.2, bound'.1, bound'.2, l2.1, l2.2]
  have done : ∀ (k : Int) (hi lo : Nat), Exp.Red (value a) k hi lo → k ≠ 0 →
      Near (finish (sub hi lo) (sub (sub hi (sub hi lo)) lo) k) (Real.exp (value a) - 1) (|Real.exp (value a) - 1| * (53 / 10 / 2 ^ 53)) := by
    intro k hi lo R k0
    obtain ⟨b0, b1⟩ := kb k R.small
    exact finish_rel R k0 b0 b1
  unfold expm1
  simp only []
  rw [hi31 ha, if_neg (by omega), if_neg (by omega), if_neg (by rw [ne_eq, xs.1, xs.2]; omega), if_pos h0]
  by_cases c : mag a / 2 ^ 32 < 0x3FF0A2B2
  · simp only [if_pos c]
    have R := Exp.red_one ha h0 c rfl
    by_cases s : sign a = 0
    · simp only [if_pos (xs.1.2 s)]
      rw [s] at R
      exact done 1 _ _ R (by omega)
    · have s1 : sign a = 1 := by have := sign_lt a; omega
      simp only [if_neg (fun h => s (xs.1.1 h))]
      rw [s1, sub_eq (a := a) (b := Exp.ln2HI 1) (by decide), show negate (Exp.ln2HI 1) = ln2_hi by decide] at R
      exact done (-1) _ _ R (by omega)
  · simp only [if_neg c]
    have v : 10397 / 10 ^ 4 ≤ value 0x3ff0a2b200000000 := by unfold value sign expo frac; norm_num
    have m := value_mono' ha (c := 0x3ff0a2b200000000) (by norm_num) (by omega)
    have h0 : 10397 / 10 ^ 4 ≤ |(value a : ℝ)| := by
      have := (Rat.cast_le (K := ℝ)).2 (le_trans v m); push_cast at this ⊢; exact this
    have h1 : |(value a : ℝ)| ≤ 746 := by linarith only [bound]
    obtain ⟨k, hk, k0, ks⟩ := Exp.multiple2 ha fa h0 h1 rfl
    have hh : (if Libm.hi a &&& 0x80000000 = 0 then half else mhalf) = Exp.halF (sign a) := by
      by_cases s : sign a = 0
      · rw [if_pos (xs.1.2 s), s]; decide
      · have s1 : sign a = 1 := by have := sign_lt a; omega
        rw [if_neg (fun h => s (xs.1.1 h)), s1]; decide
    rw [hh]
    have hk' : Trig.toInt (add (mul invln2 a) (Exp.halF (sign a))) = k := hk
    rw [hk']
    exact done k _ _ (Exp.red_many ha fa h0 h1 ks) k0

end Pok.Cosh
