import Verif.Lemmas.Expm1
/-!
# The exponential minus one on the primary range, with a relative error
-/
namespace Pok.Cosh
open Pok.Err Pok.Float Pok.Fpu Pok.Poly

/-- What remains of the equation of the rational function has no constant term. -/
theorem errP_head : errP.head? = some 0 := by decide +kernel
theorem errP_tail_ok : ok errP.tail (-34659 / 100000) (34659 / 6400000) (4 / 10 ^ 18) 64 = true := by decide +kernel

theorem ev_errP (X : ℝ) : ev errP X = X * ev errP.tail X := by
  have h := errP_head
  cases e : errP with
  | nil => rw [e] at h; simp at h
  | cons a l =>
    rw [e] at h
    simp only [List.head?_cons, Option.some.injEq] at h
    rw [h]; simp only [ev, List.tail_cons]; push_cast; ring

/-- The rational function against the exponential function. -/
theorem rat_rel {X : ℝ} (hX : |X| ≤ 34658 / 100000) (h1 : 489 / 100 ≤ Dx X) (h3 : Dx X ≤ 72 / 10) :
    |X - (X * Ex X - Hx X) - (Real.exp X - 1)| ≤ |X| * (1 / 10 ^ 18) := by
  have hX' := abs_le.1 hX
  have b0 := ev_ok (t := X) (by norm_num) errP_tail_ok (by push_cast; linarith) (by push_cast; linarith)
  have b : |ev errP X| ≤ |X| * (4 / 10 ^ 18) := by
    rw [ev_errP, abs_mul]
    push_cast at b0
    exact mul_le_mul_of_nonneg_left b0 (abs_nonneg _)
  have p := exp_poly (x := X) (by linarith)
  have e0 : |X| ^ 18 / 2 ^ 52 ≤ |X| * (1 / 10 ^ 20) := by
    have := pow_le_pow_left₀ (abs_nonneg _) hX 17
    rw [pow_succ', mul_div_assoc]
    refine mul_le_mul_of_nonneg_left ?_ (abs_nonneg _)
    rw [div_le_iff₀ (by positivity)]
    refine le_trans this ?_
    norm_num
  have p := le_trans p e0
  have e : ev errP X = (X + X * X / 2) * Dx X - X * X * X / 2 * (Rx X - Tx X) - Dx X * (ev expT X - 1) := by
    unfold errP
    rw [ev_plus, ev_plus, ev_times, ev_times, ev_times, ev_times, ev_plus, ev_times, ev_plus, rP_eq, tP_eq, dP_eq]
    simp only [ev]; push_cast; ring
  rw [e] at b
  unfold Ex Hx
  generalize Dx X = D at *
  generalize Rx X = R at *
  generalize Tx X = T at *
  have w0 : 0 < D := by linarith
  have key : X - (X * (X * (1 / 2 * X) * ((R - T) / D)) - X * (1 / 2 * X)) - (Real.exp X - 1) =
      (((X + X * X / 2) * D - X * X * X / 2 * (R - T) - D * (ev expT X - 1)) - D * (Real.exp X - ev expT X)) / D := by
    field_simp; ring
  rw [key, abs_div, abs_of_pos w0, div_le_iff₀ w0]
  refine le_trans (abs_sub _ _) ?_
  rw [abs_mul, abs_of_pos w0]
  have m := mul_le_mul h3 p (abs_nonneg _) (by norm_num)
  have z := mul_le_mul_of_nonneg_left h1 (abs_nonneg X)
  have zz := abs_nonneg X
  linarith only [m, z, b, zz]

/-- The exponential minus one is not much less than its argument. -/
theorem arg_le {X : ℝ} (hX : |X| ≤ 34658 / 100000) : |X| * (8267 / 10 ^ 4) ≤ |Real.exp X - 1| := by
  rcases le_total 0 X with c | c
  · rw [abs_of_nonneg c, abs_of_nonneg (by linarith only [Real.add_one_le_exp X, c])]
    linarith only [Real.add_one_le_exp X, c]
  · have n : Real.exp X ≤ 1 := Real.exp_le_one_iff.2 c
    rw [abs_of_nonpos c] at hX ⊢
    rw [abs_of_nonpos (by linarith only [n])]
    obtain ⟨Z, rfl⟩ : ∃ Z, X = -Z := ⟨-X, by ring⟩
    rw [neg_neg] at hX ⊢
    have z0 : 0 ≤ Z := by linarith only [c]
    have q := Real.quadratic_le_exp_of_nonneg z0
    have h : Real.exp (-Z) * Real.exp Z = 1 := by rw [← Real.exp_add]; simp
    generalize Real.exp (-Z) = E at *
    generalize Real.exp Z = F at *
    have F0 : 0 < F := by nlinarith only [q, z0]
    have e : E = 1 / F := by field_simp; linarith only [h]
    have i : E ≤ 1 - Z + Z ^ 2 / 2 := by
      rw [e, div_le_iff₀ F0]
      have s0 : 0 ≤ 1 - Z + Z ^ 2 / 2 := by nlinarith only [sq_nonneg (1 - Z)]
      have := mul_le_mul_of_nonneg_left q s0
      nlinarith only [this, sq_nonneg (Z ^ 2)]
    have : Z ^ 2 ≤ Z * (34658 / 100000) := by rw [pow_two]; exact mul_le_mul_of_nonneg_left hX z0
    linarith only [i, this, z0]

/-- `expm1` on the primary range, with a relative error. -/
theorem primary_rel {x : Nat} (hx : x < 2 ^ 64) (fx : IsFinite x) (b : |(value x : ℝ)| ≤ 34658 / 10 ^ 5) (b0 : 1 / 2 ^ 54 ≤ |(value x : ℝ)|) :
    Near (sub x (sub (mul x (quotient x)) (square x))) (Real.exp (value x) - 1) (|Real.exp (value x) - 1| * (176 / 100 / 2 ^ 53)) := by
  obtain ⟨X, hX⟩ : ∃ X : ℝ, X = value x := ⟨_, rfl⟩
  have hx : Nb x X 0 (34658 / 10 ^ 5) := ⟨by rw [hX]; exact Near.self hx fx, by rw [hX]; exact b⟩
  obtain ⟨-, d0, d1, q, eq, hq⟩ := steps hx
  have bX : |X| ≤ 34658 / 100000 := by have := hx.2; norm_num at *; exact this
  have rat := rat_rel bX d0 d1
  have low := arg_le bX
  rw [← hX] at b0
  rw [eq, ← hX]
  have hf : Near (mul half x) (1 / 2 * X) (1 / 2 ^ 199) := (Nb.half hx (by norm_num)).1.weaken (by norm_num)
  obtain ⟨H, hH⟩ : ∃ H : ℝ, H = Hx X := ⟨_, rfl⟩
  have hA : H = |X| * (|X| / 2) := by
    rw [hH]; unfold Hx
    have := abs_mul_abs_self X
    linarith only [this]
  have H0 : 1 / 2 ^ 109 ≤ H := by
    rw [hA]
    have := mul_le_mul b0 b0 (by norm_num) (abs_nonneg X)
    linarith only [this]
  have H1 : H ≤ |X| * (17329 / 10 ^ 5) := by
    rw [hA]
    exact mul_le_mul_of_nonneg_left (by linarith only [bX]) (abs_nonneg X)
  have Hp : 0 < H := by linarith only [H0]
  have Ha : |Hx X| ≤ H := by rw [← hH, abs_of_pos Hp]
  have hs : Near (square x) (Hx X) (H * (11103 / 10 ^ 20)) := by
    refine hx.1.mul hf (m := |X|) (n := |X| / 2) le_rfl (by rw [abs_mul, abs_of_pos (by norm_num : (0 : ℝ) < 1 / 2)]; linarith only) ?_ ?_
    · rw [← hA]; linarith only [bX, H0]
    · rw [← hA]; linarith only [bX, H1]
  have he : Near (mul (square x) q) (Ex X) (H * (4004 / 10 ^ 19)) := by
    refine hs.mul hq.1 (m := H) (n := 45 / 100) Ha hq.2 ?_ ?_
    · linarith only [H0]
    · linarith only [bX, H1, H0]
  have eb : |Ex X| ≤ H * (45 / 100) := by
    unfold Ex; rw [abs_mul]
    exact mul_le_mul Ha hq.2 (abs_nonneg _) Hp.le
  have hxe : Near (mul x (mul (square x) q)) (X * Ex X) (H * (1562 / 10 ^ 19)) := by
    refine hx.1.mul he (m := 34658 / 10 ^ 5) (n := H * (45 / 100)) hx.2 eb ?_ ?_
    · linarith only [H0]
    · linarith only [bX, H1, H0]
  have xb : |X * Ex X| ≤ H * (156 / 1000) := by
    rw [abs_mul]
    have := mul_le_mul hx.2 eb (abs_nonneg _) (by norm_num)
    linarith only [this, Hp]
  have hdd : Near (sub (mul x (mul (square x) q)) (square x)) (X * Ex X - Hx X) (H * (3956 / 10 ^ 19)) := by
    refine hxe.sub hs (m := H * (1156 / 1000)) ?_ ?_ ?_
    · have := abs_sub (X * Ex X) (Hx X)
      linarith only [this, xb, Ha]
    · linarith only [H0]
    · linarith only [bX, H1, H0]
  have ex := Exp.exp_c
  have X1 := abs_le.1 bX
  have e1 : Real.exp X ≤ 14143 / 10000 := le_trans (Real.exp_le_exp.2 (by linarith only [X1.2])) ex
  have e2 := Real.add_one_le_exp X
  have eb : |Real.exp X - 1| ≤ 1 := by rw [abs_le]; constructor <;> linarith only [e1, e2, X1.1]
  have r2 : |X - (X * Ex X - Hx X)| ≤ |Real.exp X - 1| + |X| * (1 / 10 ^ 18) := by
    have := abs_add_le (X - (X * Ex X - Hx X) - (Real.exp X - 1)) (Real.exp X - 1)
    rw [sub_add_cancel] at this
    linarith only [this, rat]
  have hres := hx.1.sub hdd (m := |Real.exp X - 1| + |X| * (1 / 10 ^ 18))
    (g := 0 + H * (3956 / 10 ^ 19) + (|Real.exp X - 1| + |X| * (1 / 10 ^ 18) + 0 + H * (3956 / 10 ^ 19)) / 2 ^ 53) r2 le_rfl (by linarith only [bX, H1, eb])
  refine (hres.move rat).weaken ?_
  have := abs_nonneg X
  linarith only [this, H1, low]

/-- `expm1` from `2^-54` to half of the logarithm of two, on both sides of zero. -/
theorem expm1_rel {a : Nat} (ha : a < 2 ^ 64) (h0 : 0x3c900000 ≤ mag a / 2 ^ 32) (h : mag a / 2 ^ 32 ≤ 0x3fd62e42) :
    Near (expm1 a) (Real.exp (value a) - 1) (|Real.exp (value a) - 1| * (176 / 100 / 2 ^ 53)) := by
  have hinf : inf = 0x7ff00000 * 2 ^ 32 := rfl
  have fa : IsFinite a := by rw [finite_iff]; omega
  have ex : expm1 a = sub a (sub (mul a (quotient a)) (square a)) := by
    unfold expm1
    simp only []
    rw [hi31 ha, if_neg (by omega), if_neg (by omega), if_neg (by omega), if_neg (by omega), if_neg (by omega)]
  rw [ex]
  refine primary_rel ha fa ?_ ?_
  · have := value_mono ha (c := 0x3fd62e4300000000) (by norm_num) (by omega)
    rw [show value 0x3fd62e4300000000 = 1453635 / 2 ^ 22 by unfold value sign expo frac; norm_num] at this
    have := (Rat.cast_le (K := ℝ)).2 this
    push_cast at this
    exact le_trans this (by norm_num)
  · have := value_mono' ha (c := 0x3c90000000000000) (by norm_num) (by omega)
    rw [show value 0x3c90000000000000 = 1 / 2 ^ 54 by unfold value sign expo frac; norm_num] at this
    have := (Rat.cast_le (K := ℝ)).2 this
    push_cast at this
    exact this

end Pok.Cosh
