import Verif.Props.Sinh
import Verif.Lemmas.Expm1Red
/-!
# C142: the hyperbolic sine of every finite number

The specification is that of `Verif.Props.Sinh`.
-/
namespace Pok.Sinh
open Pok.Err Pok.Float Pok.Fpu Pok.Poly Pok.Hypot Pok.Cosh

/-- Numbers from half of the logarithm of two to 22. -/
theorem mid_near {y : Nat} (hy : y < 2 ^ 63) (h0 : 0x3fd62e42 < y / 2 ^ 32) (h1 : y / 2 ^ 32 < 0x40360000) :
    Near (sinh y) (Real.sinh (value y)) (Real.sinh (value y) * (93 / 10 / 2 ^ 53)) := by
  have hinf : inf = 0x7ff00000 * 2 ^ 32 := rfl
  have fy : IsFinite y := by rw [finite_iff, mag_s hy]; omega
  have lb : 3465 / 10 ^ 4 ≤ (value y : ℝ) := bits_ge (c := 0x3fd62e4300000000) (by omega) hy (by
    rw [show value 0x3fd62e4300000000 = 1453635 / 2 ^ 22 by unfold value sign expo frac; norm_num]; norm_num)
  have ub : (value y : ℝ) ≤ 22 := bits_lt (c := 0x4036000000000000) (by omega) (by norm_num) (by
    rw [show value 0x4036000000000000 = 22 by unfold value sign expo frac; norm_num]; norm_num)
  have t := expm1_red (a := y) (by omega) (by rw [mag_s hy]; omega) (by rw [mag_s hy]; omega) (Or.inl hy)
  have e2 := Real.add_one_le_exp (value y : ℝ)
  have l2 := Exp.ln2_b
  have eu : Real.exp (value y : ℝ) ≤ 2 ^ 32 := by
    have := Exp.exp_pow2 32
    rw [show ((2 : ℝ) ^ (32 : ℤ)) = 2 ^ 32 by norm_cast] at this
    rw [this]; apply Real.exp_le_exp.2; push_cast; linarith only [ub, l2.1]
  have e1 : y / 2 ^ 32 < 0x3ff00000 → Real.exp (value y : ℝ) ≤ 27183 / 10 ^ 4 := by
    intro c
    have : (value y : ℝ) ≤ 1 := bits_lt (c := 0x3ff0000000000000) (by omega) (by norm_num) (by
      rw [show value 0x3ff0000000000000 = 1 by unfold value sign expo frac; norm_num]; norm_num)
    refine le_trans (Real.exp_le_exp.2 this) (le_trans Real.exp_one_lt_d9.le (by norm_num))
  have el : ¬ y / 2 ^ 32 < 0x3ff00000 → 2 ≤ Real.exp (value y : ℝ) := by
    intro c
    have : 1 ≤ (value y : ℝ) := bits_ge (c := 0x3ff0000000000000) (by omega) hy (by
      rw [show value 0x3ff0000000000000 = 1 by unfold value sign expo frac; norm_num]; norm_num)
    linarith only [this, e2]
  rw [sinh_eq (by omega) fy, mag_s hy, if_neg (show ¬ 2 ^ 63 ≤ y by omega), if_pos (by omega), if_neg (by omega), sinh_exp]
  generalize Real.exp (value y : ℝ) = E at *
  have E0 : 0 < E := by linarith only [e2, lb]
  obtain ⟨J, hJ⟩ : ∃ J, J = E⁻¹ := ⟨_, rfl⟩
  have EJ : E * J = 1 := by rw [hJ]; exact mul_inv_cancel₀ E0.ne'
  have J0 : 0 < J := by rw [hJ]; positivity
  rw [← hJ]
  rw [abs_of_pos (by linarith only [e2, lb])] at t
  have tr := t.2.2
  have st := Near.self t.1 t.2.1
  generalize expm1 y = r at *
  obtain ⟨F, hF⟩ : ∃ F : ℝ, F = value r + 1 := ⟨_, rfl⟩
  have hr : (value r : ℝ) = F - 1 := by rw [hF]; ring
  rw [hr] at tr st
  have tr' := abs_le.1 tr
  have F0 : 13464 / 10 ^ 4 ≤ F := by linarith only [tr'.1, e2, lb]
  have Fp : 0 < F := by linarith only [F0]
  obtain ⟨K, hK⟩ : ∃ K, K = F⁻¹ := ⟨_, rfl⟩
  have FK : F * K = 1 := by rw [hK]; exact mul_inv_cancel₀ Fp.ne'
  have K0 : 0 < K := by rw [hK]; positivity
  have K1 : K ≤ 1 := by rw [hK]; exact inv_le_one_of_one_le₀ (by linarith only [F0])
  have JE : (E - 1) * (1 + J) = E - J := by linear_combination EJ
  -- the function of the two numbers
  have cl : |(F - K) / 2 - (E - J) / 2| ≤ (E - J) / 2 * (53 / 10 / 2 ^ 53) := by
    have e : (F - K) / 2 - (E - J) / 2 = (F - 1 - (E - 1)) * ((1 + J * K) / 2) := by linear_combination (- J / 2) * FK + (K / 2) * EJ
    have jk : J * K ≤ J := mul_le_of_le_one_right J0.le K1
    have jk0 : 0 < J * K := mul_pos J0 K0
    rw [e, abs_mul, abs_of_pos (by linarith only [jk0] : 0 < (1 + J * K) / 2)]
    have a := mul_le_mul tr (by linarith only [jk] : (1 + J * K) / 2 ≤ (1 + J) / 2) (by linarith only [jk0]) (le_trans (abs_nonneg _) tr)
    refine le_trans a (le_of_eq ?_)
    linear_combination (53 / 10 / 2 ^ 53 / 2) * JE
  have nw : Near (add r Libm.one) F (F / 2 ^ 53) := by
    have := st.add Exp.near_one (m := F) (g := F / 2 ^ 53) (by rw [sub_add_cancel, abs_of_pos Fp]) (by linarith only) (by linarith only [tr'.2, eu])
    rw [sub_add_cancel] at this
    exact this
  have FU : F ≤ 2 ^ 34 := by linarith only [tr'.2, eu]
  have main : Near (mul half (if y / 2 ^ 32 < 0x3ff00000 then sub (mul two r) (div (mul r r) (add r Libm.one)) else add r (div r (add r Libm.one))))
      ((F - K) / 2) ((F - K) / 2 * (39 / 10 / 2 ^ 53)) := by
    have Tp : 0 < F - 1 := by linarith only [F0]
    have half : ∀ z, Near z (F - K) ((F - K) * (389 / 100 / 2 ^ 53)) → Near (mul Cosh.half z) ((F - K) / 2) ((F - K) / 2 * (39 / 10 / 2 ^ 53)) := by
      intro z hz
      have := Nb.half (m := 2 ^ 35) ⟨hz, by rw [abs_le]; constructor <;> linarith only [F0, FU, K0, K1]⟩ (by linarith only [F0, FU, K0, K1])
      rw [show 1 / 2 * (F - K) = (F - K) / 2 by ring] at this
      exact this.1.weaken (by linarith only [F0, K1])
    split
    · next c =>
      apply half
      have Fu : F ≤ 272 / 100 := by linarith only [tr'.2, e1 c]
      obtain ⟨P, hP⟩ : ∃ P, P = (F - 1) * (F - 1) := ⟨_, rfl⟩
      obtain ⟨Q, hQ⟩ : ∃ Q, Q = P / F := ⟨_, rfl⟩
      have QF : Q * F = P := by rw [hQ]; field_simp
      have P0 : 1 / 10 ≤ P := by
        rw [hP]; have := mul_le_mul (by linarith only [F0] : 3464 / 10 ^ 4 ≤ F - 1) (by linarith only [F0] : 3464 / 10 ^ 4 ≤ F - 1) (by norm_num) Tp.le
        linarith only [this]
      have P1 : P ≤ 3 := by
        rw [hP]; have := mul_le_mul (by linarith only [Fu] : F - 1 ≤ 172 / 100) (by linarith only [Fu] : F - 1 ≤ 172 / 100) Tp.le (by norm_num)
        linarith only [this]
      have Q0 : 1 / 30 ≤ Q := by rw [hQ, le_div_iff₀ Fp]; linarith only [P0, Fu]
      have Q1 : Q ≤ 6324 / 10 ^ 4 * (F - 1) := by
        rw [hQ, div_le_iff₀ Fp, hP]
        have := mul_nonneg Tp.le (by linarith only [Fu] : 0 ≤ 6324 / 10 ^ 4 * F - (F - 1))
        linarith only [this]
      have id : 2 * (F - 1) - Q = F - K := by
        have : Q = F - 2 + K := by
          rw [hQ, div_eq_iff Fp.ne', hP]; linear_combination - FK
        rw [this]; ring
      have tt : Near (mul r r) P (P * (1001 / 1000 / 2 ^ 53)) := by
        rw [hP]
        refine st.mul st (m := F - 1) (n := F - 1) (abs_of_pos Tp).le (abs_of_pos Tp).le ?_ ?_
        · rw [← hP]; linarith only [P0]
        · rw [← hP]; linarith only [P1]
      have t2 : Near (mul two r) (2 * (F - 1)) ((F - 1) * (2001 / 1000 / 2 ^ 53)) :=
        near_two.mul st (m := 2) (n := F - 1) (by norm_num) (abs_of_pos Tp).le (by linarith only [F0]) (by linarith only [Fu])
      have q : Near (div (mul r r) (add r Libm.one)) Q (Q * (3004 / 1000 / 2 ^ 53)) := by
        rw [hQ]
        refine tt.div nw (l := F) (q := Q) (d := Q * (2002 / 1000 / 2 ^ 53)) (le_abs_self _) (by linarith only [F0]) ?_ ?_ ?_ ?_
        · rw [← hQ, abs_of_pos (by linarith only [Q0])]
        · have e : Q * (2002 / 1000 / 2 ^ 53) * (F - F / 2 ^ 53) = P * (2002 / 1000 / 2 ^ 53 * (1 - 1 / 2 ^ 53)) := by rw [← QF]; ring
          have e' : Q * (F / 2 ^ 53) = P / 2 ^ 53 := by rw [← QF]; ring
          rw [e, e']
          linarith only [P0]
        · rw [← hQ]; linarith only [Q0]
        · linarith only [Q1, Fu]
      have := t2.sub q (m := 2 * (F - 1) - Q) (g := (F - K) * (389 / 100 / 2 ^ 53)) (abs_of_nonneg (by linarith only [Q1, Tp])).le (by
        linarith only [Q1, id, Tp, Q0]) (by linarith only [Q1, Fu, Q0])
      rw [id] at this
      exact this
    · next c =>
      apply half
      have Fl : 199 / 100 ≤ F := by linarith only [tr'.1, el c]
      obtain ⟨Q, hQ⟩ : ∃ Q, Q = (F - 1) / F := ⟨_, rfl⟩
      have QF : Q * F = F - 1 := by rw [hQ]; field_simp
      have QK : Q = 1 - K := by rw [hQ, div_eq_iff Fp.ne']; linear_combination FK
      have K2 : K ≤ 51 / 100 := by
        rw [hK, inv_le_iff_one_le_mul₀ Fp]; linarith only [Fl]
      have q : Near (div r (add r Libm.one)) Q (Q * (2004 / 1000 / 2 ^ 53)) := by
        rw [hQ]
        refine st.div nw (l := F) (q := Q) (d := Q * (1001 / 1000 / 2 ^ 53)) (le_abs_self _) (by linarith only [F0]) ?_ ?_ ?_ ?_
        · rw [← hQ, abs_of_pos (by linarith only [QK, K2])]
        · have e : Q * (1001 / 1000 / 2 ^ 53) * (F - F / 2 ^ 53) = (F - 1) * (1001 / 1000 / 2 ^ 53 * (1 - 1 / 2 ^ 53)) := by rw [← QF]; ring
          have e' : Q * (F / 2 ^ 53) = (F - 1) / 2 ^ 53 := by rw [← QF]; ring
          rw [e, e']
          linarith only [F0]
        · rw [← hQ]; linarith only [QK, K2]
        · linarith only [QK, K0]
      have := st.add q (m := F - K) (g := (F - K) * (389 / 100 / 2 ^ 53)) (by
        rw [QK, show F - 1 + (1 - K) = F - K by ring, abs_of_pos (by linarith only [Fl, K2])]) (by linarith only [QK, K0, K2, Fl]) (by linarith only [QK, K0, FU])
      rw [QK, show F - 1 + (1 - K) = F - K by ring] at this
      exact this
  have cl' := abs_le.1 cl
  have S0 : 0 < E - J := by
    have : J ≤ 1 := by rw [hJ]; exact inv_le_one_of_one_le₀ (by linarith only [e2, lb])
    linarith only [this, e2, lb]
  have fin := (main.move cl).weaken (f := (E - J) / 2 * (93 / 10 / 2 ^ 53)) (by linarith only [cl'.2, S0])
  split at fin
  · next c => rw [if_pos c]; exact fin
  · next c => rw [if_neg c]; exact fin

theorem all_near {x : Nat} (hx : x < 2 ^ 64) (fx : IsFinite x) (h : |Real.sinh (value x)| < 2 ^ 1024) :
    Near (sinh x) (Real.sinh (value x)) (|Real.sinh (value x)| * (93 / 10 / 2 ^ 53)) := by
  have m : mag x < 2 ^ 63 := mag_lt x
  have s0 := abs_nonneg (Real.sinh (value x))
  by_cases c0 : mag x / 2 ^ 32 < 0x3e300000
  · have b : |(value x : ℝ)| < 1 / 2 ^ 28 := by
      rw [← value_mag hx]
      have := bits_lt (y := mag x) (c := 0x3e2fffffffffffff) (by omega) (by norm_num) (b := 1 / 2 ^ 28 - 1 / 2 ^ 90) (by
        rw [show value 0x3e2fffffffffffff = 1 / 2 ^ 28 - 1 / 2 ^ 81 by unfold value sign expo frac; norm_num]; norm_num)
      linarith only [this]
    obtain ⟨a, e⟩ := C142_tiny hx b fx
    rw [a]
    exact ⟨hx, fx, le_trans e (by linarith only [s0])⟩
  refine both hx fx (e := fun s => s * (93 / 10 / 2 ^ 53)) ?_
  rw [abs_mag hx] at *
  by_cases c1 : mag x / 2 ^ 32 ≤ 0x3fd62e42
  · exact (small_rel m (by omega) c1).weaken (by linarith only [s0])
  by_cases c2 : mag x / 2 ^ 32 < 0x40360000
  · exact mid_near m (by omega) c2
  refine (large_near ?_ (bits_ge (c := 0x4036000000000000) (by omega) m ?_)).weaken (by linarith only [s0])
  · by_contra c
    exact absurd (above_sinh (by omega) m) (not_le.2 h)
  · rw [show value 0x4036000000000000 = 22 by unfold value sign expo frac; norm_num]; norm_num

/-- **C142.** For every finite double whose hyperbolic sine is below `2^1024` in magnitude, `sinh` returns a finite number, with a relative error of at most
`9.3·2^-53`. -/
theorem C142_sinh {x : Nat} (hx : x < 2 ^ 64) (fx : IsFinite x) (h : |Real.sinh (value x)| < 2 ^ 1024) :
    IsFinite (sinh x) ∧ |(value (sinh x) : ℝ) - Real.sinh (value x)| ≤ |Real.sinh (value x)| * (93 / 10 / 2 ^ 53) := (all_near hx fx h).2

/-- -1, where the argument is reduced once, and 10. -/
example : |(value (sinh 0xbff0000000000000) : ℝ) - Real.sinh (-1)| ≤ |Real.sinh (-1)| * (93 / 10 / 2 ^ 53) ∧
    |(value (sinh 0x4024000000000000) : ℝ) - Real.sinh 10| ≤ |Real.sinh 10| * (93 / 10 / 2 ^ 53) := by
  constructor
  · have := (C142_sinh (x := 0xbff0000000000000) (by norm_num) (by decide) (by
      rw [abs_mag (by norm_num)]; exact lt_trans (sinh_lt_cosh _) (below_limit (by decide)))).2
    rw [show value 0xbff0000000000000 = -1 by unfold value sign expo frac; norm_num] at this
    push_cast at this; exact this
  · have := (C142_sinh (x := 0x4024000000000000) (by norm_num) (by decide) (by
      rw [abs_mag (by norm_num)]; exact lt_trans (sinh_lt_cosh _) (below_limit (by decide)))).2
    rw [show value 0x4024000000000000 = 10 by unfold value sign expo frac; norm_num] at this
    push_cast at this; exact this

/-- **C142** **Odd.** The result for the opposite of a number is the opposite, bit for bit. -/
theorem C142_odd {x : Nat} (hx : x < 2 ^ 63) (n : ¬ IsNaN x) :
    sinh (2 ^ 63 + x) % 2 ^ 63 = sinh x % 2 ^ 63 ∧ sign (sinh (2 ^ 63 + x)) + sign (sinh x) = 1 := by
  refine odd_of hx n ?_
  by_cases fx : IsFinite x
  · by_cases c : |Real.sinh (value x)| < 2 ^ 1024
    · have := near_nan (all_near (by omega) fx c)
      rw [Libm.nan_iff]; unfold isNaN at this; simpa using this
    · have := (C142_overflow (by omega) fx (not_lt.1 c)).1
      intro h
      exact h.2 this.2
  · have e : x = inf := by
      rw [finite_iff, mag_s hx] at fx
      rw [Libm.nan_iff, mag_s hx] at n
      omega
    rw [e, C142_special.2.2.1]; decide

example : sinh (2 ^ 63 + 0x3ff0000000000000) % 2 ^ 63 = sinh 0x3ff0000000000000 % 2 ^ 63 := (C142_odd (by norm_num) (by decide)).1

end Pok.Sinh
