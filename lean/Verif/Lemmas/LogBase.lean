import Verif.Props.Log
/-!
# Logarithms to the bases 10 and 2: constants and sums
-/
namespace Pok.Log
open Pok.Err Pok.Float Pok.Fpu Pok.Poly Pok.Exp

/-! ## Constants -/

def ivq : ℚ := 3911776933737095 / 2 ^ 53
def hi10q : ℚ := 661971961083 / 2 ^ 41
def lo10q : ℚ := 3658597174646171 / 2 ^ 93
def ln2dq : ℚ := 6243314768165359 / 2 ^ 53
theorem v_iv : ivln10 < 2 ^ 64 ∧ IsFinite ivln10 ∧ value ivln10 = ivq := by
  refine ⟨by decide, by decide, ?_⟩
  unfold ivln10 ivq value sign expo frac; norm_num
theorem v_hi10 : log10_2hi < 2 ^ 64 ∧ IsFinite log10_2hi ∧ value log10_2hi = hi10q := by
  refine ⟨by decide, by decide, ?_⟩
  unfold log10_2hi hi10q value sign expo frac; norm_num
theorem v_lo10 : log10_2lo < 2 ^ 64 ∧ IsFinite log10_2lo ∧ value log10_2lo = lo10q := by
  refine ⟨by decide, by decide, ?_⟩
  unfold log10_2lo lo10q value sign expo frac; norm_num
theorem v_ln2d : ln2 < 2 ^ 64 ∧ IsFinite ln2 ∧ value ln2 = ln2dq := by
  refine ⟨by decide, by decide, ?_⟩
  unfold ln2 ln2dq value sign expo frac; norm_num

/-- The natural logarithm of ten: 3 log 2 + log (5/4). -/
theorem ln10_b : 2302585092994045684 / 10 ^ 18 - 1 / 10 ^ 18 ≤ Real.log 10 ∧ Real.log 10 ≤ 2302585092994045684 / 10 ^ 18 + 1 / 10 ^ 18 := by
  have a := series (s := 1 / 9) (by rw [abs_of_nonneg] <;> norm_num)
  have e : Real.log (1 + 1 / 9) - Real.log (1 - 1 / 9) = Real.log (5 / 4) := by
    rw [← Real.log_div (by norm_num) (by norm_num)]; norm_num
  have t : Real.log 10 = 3 * Real.log 2 + Real.log (5 / 4) := by
    rw [show (10 : ℝ) = 2 ^ 3 * (5 / 4) by norm_num, Real.log_mul (by norm_num) (by norm_num), Real.log_pow]; norm_num
  have b := ln2_b
  rw [e] at a
  have a := abs_le.1 a
  rw [t]
  generalize Real.log (5 / 4) = X at *
  generalize Real.log 2 = Y at *
  simp only [lgT, ev] at a
  norm_num at a b ⊢
  constructor <;> linarith

/-! ## The sum of `log10` -/

theorem combine {X Y p r h P M Z R : ℝ} (s : (0 ≤ X ∧ 0 ≤ Y) ∨ (X ≤ 0 ∧ Y ≤ 0)) (f1 : |p - Y| ≤ |Y| * (224 / 100 / 2 ^ 53)) (f2 : |r| ≤ |X| * (2 / 10 ^ 12))
    (f3 : |r + h - X| ≤ |X| * (2 / 100 / 2 ^ 53)) (f4 : |P - p| ≤ |p| / 2 ^ 53 + 1 / 2 ^ 200) (f5 : |M - r| ≤ |r| / 2 ^ 53 + 1 / 2 ^ 200)
    (f6 : |Z - (M + P)| ≤ |M + P| / 2 ^ 53) (f7 : |R - (Z + h)| ≤ |Z + h| / 2 ^ 53) (big : 1 / 2 ^ 60 ≤ |X| + |Y|) :
    |R - (X + Y)| ≤ |X + Y| * (6 / 2 ^ 53) := by
  have e : |X + Y| = |X| + |Y| := by
    rcases s with ⟨a, b⟩ | ⟨a, b⟩
    · rw [abs_of_nonneg a, abs_of_nonneg b, abs_of_nonneg (by linarith)]
    · rw [abs_of_nonpos a, abs_of_nonpos b, abs_of_nonpos (by linarith)]; ring
  rw [e]
  have A0 := abs_nonneg X
  have B0 := abs_nonneg Y
  have tri : ∀ a b : ℝ, |a| ≤ |b| + |a - b| := fun a b => by
    have := abs_sub_abs_le_abs_sub a b; linarith
  have hp := tri p Y
  have t1 : |P - Y| ≤ |P - p| + |p - Y| := abs_sub_le _ _ _
  have hP := tri P Y
  have hM := tri M r
  have t2 : |M + P| ≤ |M| + |P| := abs_add_le _ _
  have t3 : |Z - (r + Y)| ≤ |Z - (M + P)| + (|M - r| + |P - Y|) := by
    have a := abs_sub_le Z (M + P) (r + Y)
    have b : |M + P - (r + Y)| ≤ |M - r| + |P - Y| := by
      rw [show M + P - (r + Y) = (M - r) + (P - Y) by ring]; exact abs_add_le _ _
    linarith
  have t4 : |Z + h - (X + Y)| ≤ |Z - (r + Y)| + |r + h - X| := by
    rw [show Z + h - (X + Y) = (Z - (r + Y)) + (r + h - X) by ring]; exact abs_add_le _ _
  have t5 := tri (Z + h) (X + Y)
  rw [e] at t5
  have t6 := abs_sub_le R (Z + h) (X + Y)
  generalize |X| = A at *
  generalize |Y| = B at *
  generalize |p - Y| = x1 at *
  generalize |p| = x2 at *
  generalize |P - p| = x3 at *
  generalize |P - Y| = x4 at *
  generalize |P| = x5 at *
  generalize |M - r| = x6 at *
  generalize |M| = x7 at *
  generalize |r| = x8 at *
  generalize |M + P| = x9 at *
  generalize |Z - (M + P)| = y1 at *
  generalize |Z - (r + Y)| = y2 at *
  generalize |r + h - X| = y3 at *
  generalize |Z + h - (X + Y)| = y4 at *
  generalize |Z + h| = y5 at *
  generalize |R - (Z + h)| = y6 at *
  generalize |R - (X + Y)| = y7 at *
  have c2 : x2 ≤ B * (1 + 3 / 2 ^ 53) := by norm_num at *; linarith
  have c3 : x3 ≤ B * (1001 / 1000 / 2 ^ 53) + 1 / 2 ^ 200 := by norm_num at *; linarith
  have c4 : x4 ≤ B * (325 / 100 / 2 ^ 53) + 1 / 2 ^ 200 := by norm_num at *; linarith
  have c5 : x5 ≤ B * (1 + 4 / 2 ^ 53) + 1 / 2 ^ 200 := by norm_num at *; linarith
  have c6 : x6 ≤ A * (2 / 10 ^ 12 / 2 ^ 53) + 1 / 2 ^ 200 := by norm_num at *; linarith
  have c7 : x7 ≤ A * (3 / 10 ^ 12) + 1 / 2 ^ 200 := by norm_num at *; linarith
  have c9 : x9 ≤ A * (3 / 10 ^ 12) + B * (1 + 4 / 2 ^ 53) + 2 / 2 ^ 200 := by norm_num at *; linarith
  have d1 : y1 ≤ A * (4 / 10 ^ 12 / 2 ^ 53) + B * (1001 / 1000 / 2 ^ 53) + 1 / 2 ^ 200 := by norm_num at *; linarith
  have d2 : y2 ≤ A * (7 / 10 ^ 12 / 2 ^ 53) + B * (426 / 100 / 2 ^ 53) + 3 / 2 ^ 200 := by norm_num at *; linarith
  have d4 : y4 ≤ A * (21 / 1000 / 2 ^ 53) + B * (426 / 100 / 2 ^ 53) + 3 / 2 ^ 200 := by norm_num at *; linarith
  have d5 : y5 ≤ (A + B) * (1 + 5 / 2 ^ 53) + 3 / 2 ^ 200 := by norm_num at *; linarith
  have d6 : y6 ≤ (A + B) * (1001 / 1000 / 2 ^ 53) + 1 / 2 ^ 200 := by norm_num at *; linarith
  norm_num at *; linarith

theorem times_hi10 {k : Int} (kn : k.natAbs ≤ 1080) :
    mul (Libm.ofInt k) log10_2hi < 2 ^ 64 ∧ IsFinite (mul (Libm.ofInt k) log10_2hi) ∧ value (mul (Libm.ofInt k) log10_2hi) = k * hi10q := by
  have kb : |(k : ℝ)| ≤ 1080 := by
    have : |k| ≤ 1080 := by rw [Int.abs_eq_natAbs]; exact_mod_cast kn
    exact_mod_cast this
  obtain ⟨o1, o2, o3⟩ := Libm.ofInt_value (i := k) (by omega)
  have o3' : (value (Libm.ofInt k) : ℝ) = k := by rw [o3]; norm_num
  have hq : (hi10q : ℝ) = 661971961083 / 2 ^ 41 := by unfold hi10q; norm_num
  have pq : hi10q = 661971961083 / 2 ^ 41 := rfl
  have vh := v_hi10
  obtain ⟨d, hd, fd, vd⟩ : ∃ d, d < 2 ^ 64 ∧ IsFinite d ∧ value d = value (Libm.ofInt k) * value log10_2hi := by
    obtain ⟨d, hd, fd, vd⟩ := double_of (a := k.natAbs * 661971961083) (b := 1033) (s := if k < 0 then 1 else 0) (by omega) (by split <;> omega) (by
      have : ((k.natAbs * 661971961083 : ℕ) : ℚ) ≤ 2 ^ 53 := by exact_mod_cast (by omega : k.natAbs * 661971961083 ≤ 2 ^ 53)
      refine le_trans (mul_le_mul_of_nonneg_right this (by positivity)) ?_
      rw [← pow_add]
      exact (fun n m (h : n ≤ m) => pow_le_pow_right₀ (by norm_num) h : ∀ n m : ℕ, n ≤ m → (2 : ℚ) ^ n ≤ 2 ^ m) _ _ (by omega))
    refine ⟨d, hd, fd, ?_⟩
    rw [vd, o3, vh.2.2, pq, show (1074 : ℕ) = 41 + 1033 by rfl, pow_add, mul_div_mul_right _ _ (by positivity)]
    have a : ((k.natAbs : ℕ) : ℚ) = |(k : ℚ)| := by rw [← Int.cast_abs, Int.abs_eq_natAbs]; rfl
    rw [Nat.cast_mul, a]
    split
    · rename_i c
      rw [abs_of_neg (by exact_mod_cast c)]; push_cast; ring
    · rename_i c
      rw [abs_of_nonneg (by exact_mod_cast not_lt.1 c)]; push_cast; ring
  obtain ⟨m1, m2, m3⟩ := mul_exact o1 vh.1 o2 vh.2.1 (by
    rw [o3', vh.2.2, abs_mul]
    refine le_trans (mul_le_mul kb (d := 1) (by rw [hq]; norm_num [abs_le]) (abs_nonneg _) (by positivity)) (by norm_num)) hd fd vd
  rw [o3, vh.2.2] at m3
  exact ⟨m1, m2, m3⟩

/-- The last lines of `log10` for a number with exponent `n` and rest `x'`, whose logarithms do not have opposite signs. -/
theorem sum10 {x' : Nat} {n : Int} (hx : x' < 2 ^ 64) (fx : IsFinite x') (l0 : 1 / 2 ≤ value x') (l1 : value x' ≤ 2) (kn : n.natAbs ≤ 1080)
    (s : (0 ≤ n ∧ 1 ≤ value x') ∨ (n ≤ 0 ∧ value x' ≤ 1)) (ne : n ≠ 0 ∨ value x' ≠ 1) (far : value x' ≠ 1 → 1 / 2 ^ 53 ≤ |(value x' : ℝ) - 1|) :
    IsFinite (add (add (mul (Libm.ofInt n) log10_2lo) (mul ivln10 (log x'))) (mul (Libm.ofInt n) log10_2hi)) ∧
    |(value (add (add (mul (Libm.ofInt n) log10_2lo) (mul ivln10 (log x'))) (mul (Libm.ofInt n) log10_2hi)) : ℝ) - (n * Real.log 2 + Real.log (value x')) / Real.log 10| ≤
      |(n * Real.log 2 + Real.log (value x')) / Real.log 10| * (6 / 2 ^ 53) := by
  have vp : 0 < value x' := by linarith
  have vpr : (0 : ℝ) < (value x' : ℝ) := by exact_mod_cast vp
  obtain ⟨hl, lf, le⟩ := log_near hx fx vp
  obtain ⟨t0, t1⟩ := ln10_b
  obtain ⟨u0, u1⟩ := ln2_b
  have lb : |Real.log (value x')| ≤ 1 := by
    have a := Real.log_le_sub_one_of_pos vpr
    have b := Real.one_sub_inv_le_log_of_pos vpr
    have c : ((value x' : ℚ) : ℝ)⁻¹ ≤ 2 := by
      rw [inv_le_comm₀ vpr (by norm_num)]
      have : ((1 / 2 : ℚ) : ℝ) ≤ value x' := by exact_mod_cast l0
      norm_num at *; linarith
    have : (value x' : ℝ) ≤ 2 := by exact_mod_cast l1
    rw [abs_le]; constructor <;> linarith
  have lbig : value x' ≠ 1 → 1 / 2 ^ 55 ≤ |Real.log (value x')| := by
    intro q
    have f := far q
    have a := Real.log_le_sub_one_of_pos vpr
    have b := Real.one_sub_inv_le_log_of_pos vpr
    have v2 : (value x' : ℝ) ≤ 2 := by exact_mod_cast l1
    rcases le_total (value x' : ℝ) 1 with c | c
    · rw [abs_of_nonpos (by linarith)] at f
      rw [abs_of_nonpos (by linarith)]
      norm_num at *; linarith
    · rw [abs_of_nonneg (by linarith)] at f
      have i : 1 / 2 ^ 54 ≤ 1 - ((value x' : ℚ) : ℝ)⁻¹ := by
        rw [show 1 - ((value x' : ℚ) : ℝ)⁻¹ = ((value x' : ℝ) - 1) / value x' by field_simp, le_div_iff₀ vpr]
        norm_num at *; linarith
      rw [abs_of_nonneg (by norm_num at *; linarith)]
      norm_num at *; linarith
  have kb : |(n : ℝ)| ≤ 1080 := by
    have : |n| ≤ 1080 := by rw [Int.abs_eq_natAbs]; exact_mod_cast kn
    exact_mod_cast this
  have n1 : n ≠ 0 → 1 ≤ |(n : ℝ)| := fun q => by exact_mod_cast Int.one_le_abs q
  have sg : (0 ≤ (n : ℝ) ∧ 0 ≤ Real.log (value x')) ∨ ((n : ℝ) ≤ 0 ∧ Real.log (value x') ≤ 0) := by
    rcases s with ⟨a, b⟩ | ⟨a, b⟩
    · exact Or.inl ⟨by exact_mod_cast a, Real.log_nonneg (by exact_mod_cast b)⟩
    · exact Or.inr ⟨by exact_mod_cast a, Real.log_nonpos vpr.le (by exact_mod_cast b)⟩
  generalize Real.log (value x') = l at *
  generalize log x' = w at *
  generalize Real.log 10 = T at *
  generalize Real.log 2 = U at *
  have T0 : 0 < T := by norm_num at *; linarith
  have U0 : 0 < U := by norm_num at *; linarith
  obtain ⟨o1, o2, o3⟩ := Libm.ofInt_value (i := n) (by omega)
  have o3' : (value (Libm.ofInt n) : ℝ) = n := by rw [o3]; norm_num
  obtain ⟨h1, h2, h3⟩ := times_hi10 kn
  have h3' : (value (mul (Libm.ofInt n) log10_2hi) : ℝ) = n * hi10q := by rw [h3]; push_cast; rfl
  have ivr : (ivq : ℝ) = 3911776933737095 / 2 ^ 53 := by unfold ivq; norm_num
  have hir : (hi10q : ℝ) = 661971961083 / 2 ^ 41 := by unfold hi10q; norm_num
  have lor : (lo10q : ℝ) = 3658597174646171 / 2 ^ 93 := by unfold lo10q; norm_num
  have wb : |(value w : ℝ)| ≤ 2 := by
    have := abs_sub_abs_le_abs_sub (value w : ℝ) l
    norm_num at *; linarith
  have mp := mul_err v_iv.1 hl v_iv.2.1 lf (by
    rw [v_iv.2.2, abs_mul]
    refine le_trans (mul_le_mul (b := 1) (by rw [ivr]; norm_num [abs_le]) wb (abs_nonneg _) (by norm_num)) (by norm_num))
  rw [v_iv.2.2] at mp
  have rb : |(n : ℝ) * lo10q| ≤ 1 := by
    rw [abs_mul]; refine le_trans (mul_le_mul kb (d := 1 / 10 ^ 12) (by rw [lor]; norm_num [abs_le]) (abs_nonneg _) (by positivity)) (by norm_num)
  have mm := mul_err o1 v_lo10.1 o2 v_lo10.2.1 (by rw [o3', v_lo10.2.2]; exact le_trans rb (by norm_num))
  rw [o3', v_lo10.2.2] at mm
  generalize mul ivln10 w = P at *
  generalize mul (Libm.ofInt n) log10_2lo = M at *
  generalize mul (Libm.ofInt n) log10_2hi = H at *
  have pb : |(ivq : ℝ) * value w| ≤ 2 := by
    rw [abs_mul]; exact le_trans (mul_le_mul (b := 1) (d := 2) (by rw [ivr]; norm_num [abs_le]) wb (abs_nonneg _) (by norm_num)) (by norm_num)
  have Pb : |(value P : ℝ)| ≤ 4 := by
    have := abs_sub_abs_le_abs_sub (value P : ℝ) (ivq * value w)
    have := mp.2.2
    norm_num at *; linarith
  have Mb : |(value M : ℝ)| ≤ 4 := by
    have := abs_sub_abs_le_abs_sub (value M : ℝ) (n * lo10q)
    have := mm.2.2
    norm_num at *; linarith
  have z := add_err mm.1 mp.1 mm.2.1 mp.2.1 (by refine le_trans (abs_add_le _ _) ?_; norm_num; linarith)
  generalize add M P = Z at *
  have Zb : |(value Z : ℝ)| ≤ 20 := by
    have a := abs_sub_abs_le_abs_sub (value Z : ℝ) (value M + value P)
    have b := abs_add_le (value M : ℝ) (value P)
    have c := z.2.2
    norm_num at *; linarith
  have Hb : |(value H : ℝ)| ≤ 1080 := by
    rw [h3', abs_mul]; refine le_trans (mul_le_mul kb (d := 1) (by rw [hir]; norm_num [abs_le]) (abs_nonneg _) (by positivity)) (by norm_num)
  have r := add_err z.1 h1 z.2.1 h2 (by refine le_trans (abs_add_le _ _) ?_; norm_num; linarith)
  refine ⟨r.2.1, ?_⟩
  generalize add Z H = R at *
  rw [h3'] at r
  have q0 : (T⁻¹ : ℝ) ≤ 4343 / 10000 := by rw [inv_le_comm₀ T0 (by norm_num)]; norm_num at *; linarith
  have q1 : (4342 / 10000 : ℝ) ≤ T⁻¹ := by rw [le_inv_comm₀ (by norm_num) T0]; norm_num at *; linarith
  rw [add_div]
  have iv : |(ivq : ℝ) * T - 1| ≤ 233 / 1000 / 2 ^ 53 := by
    rw [ivr, abs_le]; constructor <;> norm_num at * <;> linarith
  have hl2 : |((hi10q : ℝ) + lo10q) * T - U| ≤ U * (2 / 100 / 2 ^ 53) := by
    rw [hir, lor, abs_le]; constructor <;> norm_num at * <;> linarith
  have g1 : ∀ a : ℝ, |a / T| = |a| / T := fun a => by rw [abs_div, abs_of_pos T0]
  apply combine (p := ivq * value w) (r := n * lo10q) (h := n * hi10q) (P := value P) (M := value M) (Z := value Z)
  · rcases sg with ⟨a, b⟩ | ⟨a, b⟩
    · exact Or.inl ⟨by positivity, by positivity⟩
    · refine Or.inr ⟨div_nonpos_of_nonpos_of_nonneg (mul_nonpos_of_nonpos_of_nonneg a U0.le) T0.le, div_nonpos_of_nonpos_of_nonneg b T0.le⟩
  · -- the logarithm and the constant
    rw [g1, show (ivq : ℝ) * value w - l / T = ((ivq * T) * (value w - l) + (ivq * T - 1) * l) / T by field_simp; ring, g1, div_mul_eq_mul_div]
    refine div_le_div_of_nonneg_right ?_ T0.le
    refine le_trans (abs_add_le _ _) ?_
    rw [abs_mul ((ivq : ℝ) * T), abs_mul ((ivq : ℝ) * T - 1)]
    have ii : |(ivq : ℝ) * T| ≤ 1001 / 1000 := by
      have := abs_le.1 iv
      rw [abs_le]; constructor <;> norm_num at * <;> linarith
    have x1 := mul_le_mul ii le (abs_nonneg _) (by norm_num)
    have x2 := mul_le_mul_of_nonneg_right iv (abs_nonneg l)
    have l0 := abs_nonneg l
    clear mp mm z r
    generalize |l| = A at *
    generalize |(ivq : ℝ) * T| * |(value w : ℝ) - l| = B at *
    generalize |(ivq : ℝ) * T - 1| * A = C at *
    norm_num at x1 x2 ⊢; linarith
  · rw [g1, abs_mul, abs_mul, abs_of_pos U0, mul_div_assoc, mul_assoc]
    refine mul_le_mul_of_nonneg_left ?_ (abs_nonneg _)
    have : (3 / 10 : ℝ) ≤ U / T := by rw [le_div_iff₀ T0]; norm_num at *; linarith
    rw [lor, abs_of_nonneg (by positivity)]
    norm_num at *; linarith
  · rw [g1, show (n : ℝ) * lo10q + n * hi10q - n * U / T = n * (((hi10q + lo10q) * T - U) / T) by field_simp; ring, abs_mul, g1, abs_mul, abs_of_pos U0, mul_div_assoc,
      mul_assoc]
    refine mul_le_mul_of_nonneg_left ?_ (abs_nonneg _)
    rw [div_mul_eq_mul_div]
    exact div_le_div_of_nonneg_right hl2 T0.le
  · exact mp.2.2
  · exact mm.2.2
  · exact z.2.2
  · exact r.2.2
  · rw [g1, g1, abs_mul, abs_of_pos U0]
    have t : ∀ a : ℝ, 0 ≤ a → a * (4 / 10) ≤ a / T := fun a ha => by
      rw [div_eq_mul_inv]; exact mul_le_mul_of_nonneg_left (by norm_num at *; linarith) ha
    have a1 := t (|(n : ℝ)| * U) (by positivity)
    have a2 := t |l| (abs_nonneg _)
    rcases ne with q | q
    · have := mul_le_mul_of_nonneg_right (n1 q) U0.le
      have l0 := abs_nonneg l
      generalize |l| = A at *
      norm_num at *; linarith
    · have := lbig q
      have : 0 ≤ |(n : ℝ)| * U := by positivity
      norm_num at *; linarith

/-- What `ends10` does with exponent and fraction of a normal number. -/
theorem ends10_spec {x : Nat} (hx : x < 2 ^ 63) (h1 : 1 ≤ expo x) (h2 : expo x ≤ 2046) (k0 : Int) :
    ∃ (x' : Nat) (n : Int), ends10 x k0 = add (add (mul (Libm.ofInt n) log10_2lo) (mul ivln10 (log x'))) (mul (Libm.ofInt n) log10_2hi) ∧
      x' < 2 ^ 64 ∧ IsFinite x' ∧ 1 / 2 ≤ value x' ∧ value x' ≤ 2 ∧ ((0 ≤ n ∧ 1 ≤ value x') ∨ (n ≤ 0 ∧ value x' ≤ 1)) ∧
      (value x' ≠ 1 → 1 / 2 ^ 53 ≤ |(value x' : ℝ) - 1|) ∧ (n = 0 → value x' = 1 → x' = 0x3ff0000000000000) ∧
      (value x : ℝ) = (2 : ℝ) ^ (n - k0) * value x' ∧ k0 + expo x - 1023 ≤ n ∧ n ≤ k0 + expo x - 1022 := by
  have fr := frac_lt x
  have e1 : x = expo x * 2 ^ 52 + frac x := by unfold expo frac; omega
  have s0 : sign x = 0 := by unfold sign; omega
  obtain ⟨h, hh⟩ : ∃ h, h = frac x / 2 ^ 32 := ⟨_, rfl⟩
  have hl : h < 2 ^ 20 := by omega
  have hih : Libm.hi x = expo x * 2 ^ 20 + h := by unfold Libm.hi; omega
  have a20 : Libm.hi x &&& 0x000fffff = h := by
    rw [show (0x000fffff : ℕ) = 2 ^ 20 - 1 by rfl, Nat.and_two_pow_sub_one_eq_mod]; omega
  have sh : Libm.hi x >>> 20 = expo x := by rw [hih, Nat.shiftRight_eq_div_pow]; omega
  have or : ∀ e : Nat, h ||| e <<< 20 = e * 2 ^ 20 + h := fun e => by
    rw [Nat.or_comm, Nat.shiftLeft_eq, Nat.mul_comm e, ← Nat.two_pow_add_eq_or_of_lt hl]
  have vx : value x = (2 : ℚ) ^ ((expo x : ℤ) - 1023) * (1 + (frac x : ℚ) / 2 ^ 52) := by
    unfold value
    rw [s0, if_neg (by omega)]
    ring
  have fq : (0 : ℚ) ≤ frac x := by positivity
  have fq2 : (frac x : ℚ) + 1 ≤ 2 ^ 52 := by exact_mod_cast fr
  have fr0 : (0 : ℝ) ≤ frac x := by positivity
  have fr2 : (frac x : ℝ) + 1 ≤ 2 ^ 52 := by exact_mod_cast fr
  have un : ends10 x k0 = (let k : Int := k0 + expo x - 1023
      let i : Nat := if k < 0 then 1 else 0
      add (add (mul (Libm.ofInt (k + i)) log10_2lo) (mul ivln10 (log (Libm.setHi x ((0x3ff - i) * 2 ^ 20 + h))))) (mul (Libm.ofInt (k + i)) log10_2hi)) := by
    unfold ends10
    rw [if_neg (by rw [hih]; omega)]
    simp only []
    rw [a20, sh, or]
  rw [un]
  simp only []
  by_cases c : k0 + expo x - 1023 < 0
  · rw [if_pos c]
    obtain ⟨y, hy⟩ : ∃ y, y = Libm.setHi x ((0x3ff - 1) * 2 ^ 20 + h) := ⟨_, rfl⟩
    have hy' : y = 0x3fe * 2 ^ 52 + frac x := by
      rw [hy]; unfold Libm.setHi Libm.insert Libm.lo; omega
    have yf : IsFinite y := by unfold IsFinite expo; omega
    have yv : value y = (2 ^ 52 + frac x) / 2 ^ 53 := by
      unfold value
      rw [show sign y = 0 by unfold sign; omega, show expo y = 0x3fe by unfold expo; omega, show frac y = frac x by unfold frac at *; omega]
      norm_num; ring
    rw [← hy]
    refine ⟨y, k0 + expo x - 1023 + (1 : ℕ), rfl, by omega, yf, by rw [yv]; linarith, by rw [yv]; linarith, Or.inr ⟨by push_cast; omega, by rw [yv]; linarith⟩, ?_, ?_, ?_, by push_cast; omega, by push_cast; omega⟩
    · intro _
      rw [yv]; push_cast
      rw [abs_of_nonpos (by linarith)]; linarith
    · intro _ q
      rw [yv] at q
      linarith
    · rw [vx, yv]
      push_cast
      rw [show (k0 + (expo x : ℤ) - 1023 + 1 - k0) = ((expo x : ℤ) - 1023) + 1 by ring, zpow_add₀ (by norm_num), zpow_one]
      ring
  · rw [if_neg c]
    obtain ⟨y, hy⟩ : ∃ y, y = Libm.setHi x ((0x3ff - 0) * 2 ^ 20 + h) := ⟨_, rfl⟩
    have hy' : y = 0x3ff * 2 ^ 52 + frac x := by
      rw [hy]; unfold Libm.setHi Libm.insert Libm.lo; omega
    have yf : IsFinite y := by unfold IsFinite expo; omega
    have yv : value y = 1 + frac x / 2 ^ 52 := by
      unfold value
      rw [show sign y = 0 by unfold sign; omega, show expo y = 0x3ff by unfold expo; omega, show frac y = frac x by unfold frac at *; omega]
      norm_num
    rw [← hy]
    refine ⟨y, k0 + expo x - 1023 + (0 : ℕ), rfl, by omega, yf, by rw [yv]; linarith, by rw [yv]; linarith, Or.inl ⟨by push_cast; omega, by rw [yv]; linarith⟩, ?_, ?_, ?_, by push_cast; omega, by push_cast; omega⟩
    · intro q
      have : frac x ≠ 0 := fun z => q (by rw [yv, z]; norm_num)
      have : (1 : ℝ) ≤ frac x := by exact_mod_cast (by omega : 1 ≤ frac x)
      rw [yv]; push_cast
      rw [abs_of_nonneg (by linarith)]; linarith
    · intro _ q
      rw [yv] at q
      have : (frac x : ℚ) = 0 := by linarith
      have : frac x = 0 := by exact_mod_cast this
      rw [hy', this]; norm_num
    · rw [vx, yv]
      push_cast
      rw [show (k0 + (expo x : ℤ) - 1023 + 0 - k0) = ((expo x : ℤ) - 1023) by ring]

theorem one10 : add (add (mul (Libm.ofInt 0) log10_2lo) (mul ivln10 (log 0x3ff0000000000000))) (mul (Libm.ofInt 0) log10_2hi) = 0 := by decide +kernel

theorem ends10_near {x : Nat} (hx : x < 2 ^ 63) (h1 : 1 ≤ expo x) (h2 : expo x ≤ 2046) (k0 : Int) (b0 : -54 ≤ k0) (b1 : k0 ≤ 0) :
    IsFinite (ends10 x k0) ∧ |(value (ends10 x k0) : ℝ) - (k0 * Real.log 2 + Real.log (value x)) / Real.log 10| ≤
      |(k0 * Real.log 2 + Real.log (value x)) / Real.log 10| * (6 / 2 ^ 53) := by
  obtain ⟨x', n, e, hx', fx', l0, l1, s, far, one, v, n1, n2⟩ := ends10_spec hx h1 h2 k0
  have p : (0 : ℝ) < value x' := by
    have : 0 < value x' := by linarith
    exact_mod_cast this
  have L : k0 * Real.log 2 + Real.log (value x) = n * Real.log 2 + Real.log (value x') := by
    rw [v, Real.log_mul (by positivity) p.ne', Real.log_zpow]; push_cast; ring
  rw [L, e]
  by_cases ne : n = 0 ∧ value x' = 1
  · obtain ⟨z, o⟩ := ne
    rw [one z o, z, one10]
    have : value 0x3ff0000000000000 = 1 := by rw [← one z o, o]
    have z0 : value 0 = 0 := by unfold value sign expo frac; norm_num
    refine ⟨by decide, ?_⟩
    rw [this, z0]; simp
  · exact sum10 hx' fx' l0 l1 (by omega) s (by
      by_contra q
      push Not at q
      exact ne q) far

/-! ## The base 2 -/

theorem finish0' {f q : Nat} {F L D : ℝ} (hf : Near f F 0) (h : Shape F L D)
    (hq : Near q D (D * (4003 / 1000 / 2 ^ 53) + |F| * (97 / 1000 / 2 ^ 53))) :
    Near (sub q f) (-Real.log (1 + F)) (|Real.log (1 + F)| / 2 ^ 52) := by
  obtain ⟨e, d0, pos, neg, near, lo, hi⟩ := h
  have n := abs_le.1 near
  rcases le_total 0 F with c | c
  · have pos := pos c
    rw [abs_of_nonneg c] at hq near n
    have s := hq.sub hf (m := L) (g := L * (100001 / 10 ^ 5 / 2 ^ 53) + D * (4004 / 1000 / 2 ^ 53) + F * (98 / 1000 / 2 ^ 53))
      (by rw [show D - F = -L by rw [e]; ring, abs_neg, abs_of_nonneg (by linarith)]) (by norm_num at *; linarith) (by norm_num at *; linarith)
    refine ⟨s.1, s.2.1, ?_⟩
    have a := abs_le.1 s.2.2
    rw [abs_of_nonneg (show 0 ≤ Real.log (1 + F) by norm_num at *; linarith)]
    generalize Real.log (1 + F) = Λ at *
    rw [abs_le]; constructor <;> norm_num at * <;> linarith
  · have neg := neg c
    rw [abs_of_nonpos c] at hq near n
    have s := hq.sub hf (m := -L) (g := -L * (100001 / 10 ^ 5 / 2 ^ 53) + D * (4004 / 1000 / 2 ^ 53) + -F * (98 / 1000 / 2 ^ 53))
      (by rw [show D - F = -L by rw [e]; ring, abs_neg, abs_of_nonpos (by linarith)]) (by norm_num at *; linarith) (by norm_num at *; linarith)
    refine ⟨s.1, s.2.1, ?_⟩
    have a := abs_le.1 s.2.2
    rw [abs_of_nonpos (show Real.log (1 + F) ≤ 0 by norm_num at *; linarith)]
    generalize Real.log (1 + F) = Λ at *
    rw [abs_le]; constructor <;> norm_num at * <;> linarith

theorem inner2_near {f h : Nat} {F : ℝ} (s : Split f h F) (z : F ≠ 0) : Near (inner2 f h) (-Real.log (1 + F)) (|Real.log (1 + F)| / 2 ^ 52) := by
  obtain ⟨hf, lo, hi, zero, least, small, large, mid⟩ := s
  have up : ∀ {p : Nat} {L D : ℝ}, Shape F L D → Near p D (D * (4003 / 1000 / 2 ^ 53) + |F| * (965 / 10000 / 2 ^ 53)) →
      Near p D (D * (4003 / 1000 / 2 ^ 53) + |F| * (97 / 1000 / 2 ^ 53)) := by
    intro p L D _ h
    refine h.weaken ?_
    have := abs_nonneg F
    norm_num; linarith
  unfold inner2
  simp only []
  by_cases c : (0x000fffff &&& (2 + h)) < 3
  · rw [if_pos c]
    obtain ⟨D, L, sh, n⟩ := branch0 hf (least z) (small c)
    exact finish0' hf sh (up sh n)
  · rw [if_neg c]
    by_cases m : middle h = true
    · rw [if_pos m]
      rcases mid m with q | q
      · obtain ⟨D, L, sh, n1, _⟩ := branch2 hf lo hi q
        exact finish0' hf sh (up sh n1)
      · obtain ⟨D, L, sh, n1, _⟩ := branch3 hf lo hi q
        exact finish0' hf sh (up sh n1)
    · rw [if_neg m]
      obtain ⟨D, L, sh, n⟩ := branch1 hf (large c) lo hi
      exact finish0' hf sh (up sh n)

/-- The logarithm of the reduced argument is at most about half that of 2. -/
theorem half_log {F : ℝ} (lo : -(2929 / 10 ^ 4) ≤ F) (hi : F ≤ 41422 / 10 ^ 5) : |Real.log (1 + F)| ≤ Real.log 2 * (50002 / 10 ^ 5) := by
  have b := ln2_b
  have p : 0 < 1 + F := by norm_num at *; linarith
  have e : Real.log ((1 + F) ^ 2) = 2 * Real.log (1 + F) := by rw [Real.log_pow]; norm_num
  have u : (1 + F) ^ 2 ≤ 2 * (1 + 1 / 10 ^ 5) := by
    have : (1 + F) ^ 2 ≤ (141422 / 10 ^ 5) ^ 2 := pow_le_pow_left₀ p.le (by norm_num at *; linarith) 2
    norm_num at *; linarith
  have l : 2⁻¹ * (1 + 1 / 5 / 10 ^ 4)⁻¹ ≤ (1 + F) ^ 2 := by
    have : (7071 / 10 ^ 4) ^ 2 ≤ (1 + F) ^ 2 := pow_le_pow_left₀ (by norm_num) (by norm_num at *; linarith) 2
    norm_num at *; linarith
  have u' := Real.log_le_log (by positivity) u
  have l' := Real.log_le_log (by positivity) l
  rw [e, Real.log_mul (by norm_num) (by norm_num)] at u'
  rw [e, Real.log_mul (by norm_num) (by norm_num), Real.log_inv, Real.log_inv] at l'
  have q1 := Real.log_le_sub_one_of_pos (show (0 : ℝ) < 1 + 1 / 10 ^ 5 by norm_num)
  have q2 := Real.log_le_sub_one_of_pos (show (0 : ℝ) < 1 + 1 / 5 / 10 ^ 4 by norm_num)
  generalize Real.log (1 + F) = A at *
  generalize Real.log 2 = B at *
  generalize Real.log (1 + 1 / 10 ^ 5) = C at *
  generalize Real.log (1 + 1 / 5 / 10 ^ 4) = D at *
  rw [abs_le]; constructor <;> norm_num at * <;> linarith

theorem main2_near {f h : Nat} {F : ℝ} {k : Int} (s : Split f h F) (kn : k.natAbs ≤ 1080) :
    IsFinite (main2 f h k) ∧ |(value (main2 f h k) : ℝ) - (k * Real.log 2 + Real.log (1 + F)) / Real.log 2| ≤
      |(k * Real.log 2 + Real.log (1 + F)) / Real.log 2| * (5 / 2 ^ 53) ∧ (F = 0 → value (main2 f h k) = k) := by
  have b := ln2_b
  have B0 : 0 < Real.log 2 := by norm_num at *; linarith
  obtain ⟨o1, o2, o3⟩ := Libm.ofInt_value (i := k) (by omega)
  have o3' : (value (Libm.ofInt k) : ℝ) = k := by rw [o3]; norm_num
  unfold main2
  by_cases z : F = 0
  · have c : (0x000fffff &&& (2 + h)) < 3 := by
      by_contra c
      have := s.large c
      rw [z, abs_zero] at this
      norm_num at this
    rw [if_pos ⟨c, s.zero.2 z⟩]
    refine ⟨o2, ?_, fun _ => o3⟩
    rw [o3', z, add_zero, Real.log_one, add_zero, mul_div_cancel_right₀ _ B0.ne', sub_self, abs_zero]
    positivity
  · rw [if_neg (fun q => z (s.zero.1 q.2))]
    have n := inner2_near s z
    have hl := half_log s.lo s.hi
    have least := s.least z
    have p : 0 < 1 + F := by have := s.lo; norm_num at *; linarith
    have low : 1 / 2 ^ 56 ≤ |Real.log (1 + F)| := by
      have a := Real.log_le_sub_one_of_pos p
      have b := Real.one_sub_inv_le_log_of_pos p
      have v2 : 1 + F ≤ 2 := by have := s.hi; norm_num at *; linarith
      rcases le_total F 0 with c | c
      · rw [abs_of_nonpos (by linarith)] at least
        rw [abs_of_nonpos (by linarith)]
        norm_num at *; linarith
      · rw [abs_of_nonneg (by linarith)] at least
        have i : 1 / 2 ^ 54 ≤ 1 - (1 + F)⁻¹ := by
          rw [show 1 - (1 + F)⁻¹ = F / (1 + F) by field_simp; ring, le_div_iff₀ p]
          norm_num at *; linarith
        rw [abs_of_nonneg (by norm_num at *; linarith)]
        norm_num at *; linarith
    have kb : |(k : ℝ)| ≤ 1080 := by
      have : |k| ≤ 1080 := by rw [Int.abs_eq_natAbs]; exact_mod_cast kn
      exact_mod_cast this
    have n1 : k ≠ 0 → 1 ≤ |(k : ℝ)| := fun q => by exact_mod_cast Int.one_le_abs q
    generalize inner2 f h = w at *
    generalize Real.log (1 + F) = l at *
    generalize Real.log 2 = U at *
    have lr : (ln2dq : ℝ) = 6243314768165359 / 2 ^ 53 := by unfold ln2dq; norm_num
    have wb : |(value w : ℝ)| ≤ |l| * (1 + 1 / 2 ^ 52) := by
      have := abs_sub_abs_le_abs_sub (value w : ℝ) (-l)
      rw [abs_neg] at this
      have := n.2.2
      norm_num at *; linarith
    have l1 : |l| ≤ 1 := by norm_num at *; linarith
    have wq : |(value w : ℝ) / ln2dq| ≤ |l| * 2 := by
      rw [abs_div, lr, abs_of_pos (show (0 : ℝ) < 6243314768165359 / 2 ^ 53 by norm_num), div_le_iff₀ (by norm_num)]
      have := abs_nonneg l
      generalize |l| = A at *
      norm_num at wb ⊢; linarith
    have d := div_err n.1 v_ln2d.1 n.2.1 v_ln2d.2.1 (by rw [v_ln2d.2.2]; unfold ln2dq; norm_num) (by
      rw [v_ln2d.2.2]; exact le_trans wq (by norm_num at *; linarith))
    rw [v_ln2d.2.2] at d
    generalize div w ln2 = q at *
    -- what is subtracted
    have Y : |(value q : ℝ) + l / U| ≤ |l / U| * (34 / 10 / 2 ^ 53) := by
      have e1 : |(value w : ℝ) / ln2dq + l / U| ≤ |l / U| * (235 / 100 / 2 ^ 53) := by
        have g : (value w : ℝ) / ln2dq + l / U = ((value w - -l) * U + l * (ln2dq - U)) / (ln2dq * U) := by
          have : (ln2dq : ℝ) ≠ 0 := by rw [lr]; norm_num
          field_simp; ring
        have dp : (0 : ℝ) < ln2dq := by rw [lr]; norm_num
        have x : |(ln2dq : ℝ) - U| ≤ U * (31 / 100 / 2 ^ 53) := by
          rw [lr, abs_le]; constructor <;> norm_num at * <;> linarith
        rw [g, abs_div, abs_mul, abs_of_pos dp, abs_of_pos B0, div_le_iff₀ (by positivity), abs_div, abs_of_pos B0]
        refine le_trans (abs_add_le _ _) ?_
        rw [abs_mul, abs_mul, abs_of_pos B0]
        have y1 := mul_le_mul_of_nonneg_right n.2.2 B0.le
        have y2 := mul_le_mul_of_nonneg_left x (abs_nonneg l)
        rw [show |l| / U * (235 / 100 / 2 ^ 53) * ((ln2dq : ℝ) * U) = |l| * ln2dq * (235 / 100 / 2 ^ 53) by field_simp]
        have y3 : |l| * U ≤ |l| * ln2dq * (1 + 1 / 2 ^ 52) := by
          rw [mul_assoc]
          refine mul_le_mul_of_nonneg_left ?_ (abs_nonneg _)
          rw [lr]; norm_num at *; linarith
        have y4 : 0 ≤ |l| * (ln2dq : ℝ) := by positivity
        generalize |(value w : ℝ) - -l| * U = A1 at *
        generalize |l| * |(ln2dq : ℝ) - U| = A2 at *
        have y1' : A1 ≤ (|l| * U) / 2 ^ 52 := by rw [show |l| * U / 2 ^ 52 = |l| / 2 ^ 52 * U by ring]; exact y1
        have y2' : A2 ≤ (|l| * U) * (31 / 100 / 2 ^ 53) := by rw [mul_assoc]; exact y2
        generalize |l| * U = A3 at *
        generalize |l| * (ln2dq : ℝ) = A4 at *
        norm_num at y1' y2' y3 ⊢; linarith
      have e2 : |(value w : ℝ) / ln2dq| ≤ |l / U| * (1 + 3 / 2 ^ 53) := by
        have a := abs_sub_abs_le_abs_sub ((value w : ℝ) / ln2dq) (-(l / U))
        rw [abs_neg, sub_neg_eq_add] at a
        have A0 := abs_nonneg (l / U)
        generalize |l / U| = A at *
        norm_num at e1 a ⊢; linarith
      have e3 : 1 / 2 ^ 56 ≤ |l / U| := by
        rw [abs_div, abs_of_pos B0, le_div_iff₀ B0]
        norm_num at *; linarith
      have e4 := abs_add_le ((value q : ℝ) - value w / ln2dq) (value w / ln2dq + l / U)
      rw [show (value q : ℝ) - value w / ln2dq + (value w / ln2dq + l / U) = value q + l / U by ring] at e4
      have d3 := d.2.2
      clear d wq
      generalize |l / U| = A at *
      generalize |(value w : ℝ) / ln2dq| = B at *
      generalize |(value w : ℝ) / ln2dq + l / U| = C at *
      norm_num at *; linarith
    have yb : |l / U| ≤ 50002 / 10 ^ 5 := by
      rw [abs_div, abs_of_pos B0, div_le_iff₀ B0, mul_comm]; exact hl
    rw [add_div, mul_div_cancel_right₀ _ B0.ne']
    have T : |l / U| ≤ |(k : ℝ) + l / U| * (10002 / 10 ^ 4) := by
      by_cases k0 : k = 0
      · rw [k0]; push_cast; rw [zero_add]
        have := abs_nonneg (l / U)
        norm_num; linarith
      · have a := n1 k0
        have c := abs_sub_abs_le_abs_sub (k : ℝ) (-(l / U))
        rw [abs_neg, sub_neg_eq_add] at c
        norm_num at *; linarith
    have qb : |(value q : ℝ)| ≤ 1 := by
      have a := abs_sub_abs_le_abs_sub (value q : ℝ) (-(l / U))
      rw [abs_neg, sub_neg_eq_add] at a
      norm_num at *; linarith
    have nq : Near q (-(l / U)) (|l / U| * (34 / 10 / 2 ^ 53)) := ⟨d.1, d.2.1, by rw [sub_neg_eq_add]; exact Y⟩
    have nk : Near (Libm.ofInt k) k 0 := ⟨o1, o2, by rw [o3']; simp⟩
    have tb : |(k : ℝ) + l / U| ≤ 1081 := by
      have := abs_add_le (k : ℝ) (l / U)
      norm_num at *; linarith
    have r := nk.sub nq (m := |(k : ℝ) + l / U|) (g := |(k : ℝ) + l / U| * (5 / 2 ^ 53)) (by rw [sub_neg_eq_add]) (by
      have := abs_nonneg ((k : ℝ) + l / U)
      generalize |(k : ℝ) + l / U| = A at *
      generalize |l / U| = B at *
      norm_num at *; linarith) (by norm_num at *; linarith)
    rw [sub_neg_eq_add] at r
    exact ⟨r.2.1, r.2.2, fun q => absurd q z⟩

end Pok.Log
