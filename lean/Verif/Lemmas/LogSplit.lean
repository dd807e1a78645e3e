import Verif.Lemmas.LogTail
import Verif.Model.LogBase
import Verif.Props.Scale
import Mathlib.Data.Nat.Bitwise
/-!
# The logarithm: exponent and fraction
-/
namespace Pok.Log
open Pok.Err Pok.Float Pok.Fpu Pok.Poly Pok.Exp

theorem carry {h : Nat} (hh : h < 2 ^ 20) : (h + 0x95f64) &&& 0x100000 = if 0x6a09c ≤ h then 0x100000 else 0 := by
  rw [show (0x100000 : ℕ) = 2 ^ 20 by rfl, Nat.and_two_pow]
  have t : (h + 0x95f64).testBit 20 = decide (0x6a09c ≤ h) := by
    rw [Nat.testBit_eq_decide_div_mod_eq]
    apply decide_eq_decide.2
    omega
  rw [t]
  split <;> rename_i c <;> simp [c]

theorem exponent_or {h : Nat} (hh : h < 2 ^ 20) : (h ||| ((if 0x6a09c ≤ h then 0x100000 else 0) ^^^ 0x3ff00000)) = h + (if 0x6a09c ≤ h then 0x3fe00000 else 0x3ff00000) := by
  split
  · rw [show (0x100000 ^^^ 0x3ff00000 : ℕ) = 2 ^ 20 * 0x3fe by decide, Nat.or_comm, ← Nat.two_pow_add_eq_or_of_lt hh]; omega
  · rw [show (0 ^^^ 0x3ff00000 : ℕ) = 2 ^ 20 * 0x3ff by decide, Nat.or_comm, ← Nat.two_pow_add_eq_or_of_lt hh]; omega

theorem middle_range {h : Nat} (hh : h < 2 ^ 20) (hm : middle h = true) : 0x6147a ≤ h ∧ h ≤ 0x6b851 := by
  unfold middle at hm
  simp only [decide_eq_true_eq] at hm
  have a : (h + 2 ^ 32 - 0x6147a) % 2 ^ 32 ≤ (h + 2 ^ 32 - 0x6147a) % 2 ^ 32 ||| (0x6b851 + 2 ^ 32 - h) % 2 ^ 32 := Nat.left_le_or
  have b : (0x6b851 + 2 ^ 32 - h) % 2 ^ 32 ≤ (h + 2 ^ 32 - 0x6147a) % 2 ^ 32 ||| (0x6b851 + 2 ^ 32 - h) % 2 ^ 32 := Nat.right_le_or
  omega

/-- What the exponent and the fraction of a positive normal double become. -/
structure Split (f h : Nat) (F : ℝ) : Prop where
  hf : Near f F 0
  lo : -(2929 / 10 ^ 4) ≤ F
  hi : F ≤ 41422 / 10 ^ 5
  zero : eq f Log.zero = true ↔ F = 0
  least : F ≠ 0 → 1 / 2 ^ 53 ≤ |F|
  small : (0x000fffff &&& (2 + h)) < 3 → |F| ≤ 1 / 2 ^ 20
  large : ¬ (0x000fffff &&& (2 + h)) < 3 → 1 / 2 ^ 20 ≤ |F|
  mid : middle h = true → 3799 / 10 ^ 4 ≤ F ∨ F ≤ -(2899 / 10 ^ 4)

theorem eq_zero {f : Nat} (ff : IsFinite f) : eq f Log.zero = true ↔ (value f : ℝ) = 0 := by
  have n := notNaN ((finite_iff f).1 ff)
  have n' : isNaN 0 = false := by decide
  have k : key 0 = 0 := by decide
  unfold eq Log.zero
  rw [n, n', k]
  simp only [Bool.not_false, Bool.true_and, decide_eq_true_eq]
  have v := value_units f
  have z : (value f : ℝ) = 0 ↔ value f = 0 := by norm_cast
  rw [z, v]
  have d : (sunits f : ℚ) / 2 ^ 1074 = 0 ↔ sunits f = 0 := by
    rw [div_eq_zero_iff]
    constructor
    · rintro (c | c)
      · exact_mod_cast c
      · exact absurd c (by positivity)
    · intro c; left; exact_mod_cast c
  rw [d]
  have u : units (mag f) = 0 ↔ mag f = 0 := by
    have := units_inj (a := mag f) (b := 0)
    rwa [show units 0 = 0 by decide] at this
  unfold key sunits
  split <;> omega

theorem split_both {x : Nat} (hx : x < 2 ^ 63) (h1 : 1 ≤ expo x) (h2 : expo x ≤ 2046) (k : Int) :
    ∃ (f h : Nat) (F : ℝ) (j : Int), (split x k = main f h (k + j) ∧ split2 x k = main2 f h (k + j)) ∧ Split f h F ∧ (value x : ℝ) = (2 : ℝ) ^ j * (1 + F) ∧ -1022 ≤ j ∧ j ≤ expo x - 1022 := by
  have fr := frac_lt x
  have e1 : x = expo x * 2 ^ 52 + frac x := by unfold expo frac; omega
  have s0 : sign x = 0 := by unfold sign; omega
  obtain ⟨h, hh⟩ : ∃ h, h = frac x / 2 ^ 32 := ⟨_, rfl⟩
  have hl : h < 2 ^ 20 := by omega
  have hih : Libm.hi x = expo x * 2 ^ 20 + h := by unfold Libm.hi; omega
  have a20 : Libm.hi x &&& 0x000fffff = h := by
    rw [show (0x000fffff : ℕ) = 2 ^ 20 - 1 by rfl, Nat.and_two_pow_sub_one_eq_mod]; omega
  have sm : (0x000fffff &&& (2 + h)) = (2 + h) % 2 ^ 20 := by
    rw [Nat.and_comm, show (0x000fffff : ℕ) = 2 ^ 20 - 1 by rfl, Nat.and_two_pow_sub_one_eq_mod]
  have vx : value x = (2 : ℚ) ^ ((expo x : ℤ) - 1023) * (1 + (frac x : ℚ) / 2 ^ 52) := by
    unfold value
    rw [s0, if_neg (by omega)]
    ring
  have v1 : Libm.one < 2 ^ 64 ∧ IsFinite Libm.one ∧ value Libm.one = 1 := ⟨by decide, by decide, by unfold Libm.one value sign expo frac; norm_num⟩
  by_cases c : 0x6a09c ≤ h
  · -- the fraction is halved
    obtain ⟨y, hy⟩ : ∃ y, y = Libm.setHi x (h + 0x3fe00000) := ⟨_, rfl⟩
    have hy' : y = 0x3fe * 2 ^ 52 + frac x := by
      rw [hy]; unfold Libm.setHi Libm.insert Libm.lo; omega
    have yl : y < 2 ^ 64 := by omega
    have yf : IsFinite y := by unfold IsFinite expo; omega
    have yv : value y = (2 ^ 52 + frac x) / 2 ^ 53 := by
      unfold value
      rw [show sign y = 0 by unfold sign; omega, show expo y = 0x3fe by unfold expo; omega, show frac y = frac x by unfold frac at *; omega]
      norm_num; ring
    obtain ⟨d, hd, fd, vd⟩ := double_of (a := 2 ^ 52 - frac x) (b := 1021) (s := 1) (by omega) (by omega) (by
      have : ((2 ^ 52 - frac x : ℕ) : ℚ) ≤ 2 ^ 53 := by exact_mod_cast (by omega : 2 ^ 52 - frac x ≤ 2 ^ 53)
      refine le_trans (mul_le_mul_of_nonneg_right this (by positivity)) ?_
      rw [← pow_add]
      exact (fun n m (h : n ≤ m) => pow_le_pow_right₀ (by norm_num) h : ∀ n m : ℕ, n ≤ m → (2 : ℚ) ^ n ≤ 2 ^ m) _ _ (by omega))
    rw [show (1074 : ℕ) = 53 + 1021 by rfl, pow_add, mul_div_mul_right _ _ (by positivity), Nat.cast_sub (by omega)] at vd
    push_cast at vd
    have fq : (0 : ℚ) ≤ frac x := by positivity
    have fq2 : (frac x : ℚ) ≤ 2 ^ 52 := by exact_mod_cast fr.le
    obtain ⟨r1, r2, r3⟩ := Trig.sub_exact yl v1.1 yf v1.2.1 (by
      have : |value y - value Libm.one| ≤ 2 ^ 200 := by
        rw [yv, v1.2.2, abs_le]; constructor <;> linarith
      exact_mod_cast (Rat.cast_le (K := ℝ)).2 this) hd fd (by rw [vd, yv, v1.2.2]; ring)
    rw [yv, v1.2.2] at r3
    have fr' : (frac x : ℝ) < 2 ^ 52 := by exact_mod_cast fr
    have h0 : (0x6a09c * 2 ^ 32 : ℝ) ≤ frac x := by exact_mod_cast (by omega : 0x6a09c * 2 ^ 32 ≤ frac x)
    have r3' : (value (sub y Libm.one) : ℝ) = (2 ^ 52 + frac x) / 2 ^ 53 - 1 := by rw [r3]; push_cast; rfl
    have neg : ((2 ^ 52 + frac x) / 2 ^ 53 - 1 : ℝ) < 0 := by linarith
    refine ⟨sub y Libm.one, h, (2 ^ 52 + frac x) / 2 ^ 53 - 1, expo x - 1022, ?_, ⟨⟨r1, r2, by rw [r3']; simp⟩, ?_, ?_, ?_, ?_, ?_, ?_, ?_⟩, ?_, by omega, by omega⟩
    · constructor
      · unfold split
        rw [if_neg (by rw [hih]; omega)]
        simp only []
        rw [a20, carry hl, exponent_or hl, if_pos c, if_pos c, ← hy]
        congr 1
        rw [hih, Nat.shiftRight_eq_div_pow, Nat.shiftRight_eq_div_pow, show (expo x * 2 ^ 20 + h) / 2 ^ 20 = expo x by omega]
        norm_num
        omega
      · unfold split2
        rw [if_neg (by rw [hih]; omega)]
        simp only []
        rw [a20, carry hl, exponent_or hl, if_pos c, if_pos c, ← hy]
        congr 1
        rw [hih, Nat.shiftRight_eq_div_pow, Nat.shiftRight_eq_div_pow, show (expo x * 2 ^ 20 + h) / 2 ^ 20 = expo x by omega]
        norm_num
        omega
    · linarith
    · linarith
    · rw [eq_zero r2, r3']
    · intro _
      have : (frac x : ℝ) ≤ 2 ^ 52 - 1 := by
        have : frac x + 1 ≤ 2 ^ 52 := fr
        have : (frac x : ℝ) + 1 ≤ 2 ^ 52 := by exact_mod_cast this
        linarith
      rw [abs_of_neg neg]; linarith
    · intro q
      rw [sm] at q
      have : (0xffffe * 2 ^ 32 : ℝ) ≤ frac x := by exact_mod_cast (by omega : 0xffffe * 2 ^ 32 ≤ frac x)
      rw [abs_of_neg neg]; linarith
    · intro q
      rw [sm] at q
      have : (frac x : ℝ) ≤ 0xffffe * 2 ^ 32 := by exact_mod_cast (by omega : frac x ≤ 0xffffe * 2 ^ 32)
      rw [abs_of_neg neg]; linarith
    · intro q
      right
      have := middle_range hl q
      have : (frac x : ℝ) ≤ 0x6b852 * 2 ^ 32 := by exact_mod_cast (by omega : frac x ≤ 0x6b852 * 2 ^ 32)
      linarith
    · rw [vx]
      push_cast
      rw [show ((expo x : ℤ) - 1022) = ((expo x : ℤ) - 1023) + 1 by ring, zpow_add₀ (by norm_num), zpow_one]
      ring
  · obtain ⟨y, hy⟩ : ∃ y, y = Libm.setHi x (h + 0x3ff00000) := ⟨_, rfl⟩
    have hy' : y = 0x3ff * 2 ^ 52 + frac x := by
      rw [hy]; unfold Libm.setHi Libm.insert Libm.lo; omega
    have yl : y < 2 ^ 64 := by omega
    have yf : IsFinite y := by unfold IsFinite expo; omega
    have yv : value y = 1 + frac x / 2 ^ 52 := by
      unfold value
      rw [show sign y = 0 by unfold sign; omega, show expo y = 0x3ff by unfold expo; omega, show frac y = frac x by unfold frac at *; omega]
      norm_num
    obtain ⟨d, hd, fd, vd⟩ := double_of (a := frac x) (b := 1022) (s := 0) (by omega) (by omega) (by
      have : ((frac x : ℕ) : ℚ) ≤ 2 ^ 53 := by exact_mod_cast (by omega : frac x ≤ 2 ^ 53)
      refine le_trans (mul_le_mul_of_nonneg_right this (by positivity)) ?_
      rw [← pow_add]
      exact (fun n m (h : n ≤ m) => pow_le_pow_right₀ (by norm_num) h : ∀ n m : ℕ, n ≤ m → (2 : ℚ) ^ n ≤ 2 ^ m) _ _ (by omega))
    rw [show (1074 : ℕ) = 52 + 1022 by rfl, pow_add, mul_div_mul_right _ _ (by positivity)] at vd
    have fq : (0 : ℚ) ≤ frac x := by positivity
    have fq2 : (frac x : ℚ) ≤ 2 ^ 52 := by exact_mod_cast fr.le
    obtain ⟨r1, r2, r3⟩ := Trig.sub_exact yl v1.1 yf v1.2.1 (by
      have : |value y - value Libm.one| ≤ 2 ^ 200 := by
        rw [yv, v1.2.2, abs_le]; constructor <;> linarith
      exact_mod_cast (Rat.cast_le (K := ℝ)).2 this) hd fd (by rw [vd, yv, v1.2.2]; ring)
    rw [yv, v1.2.2] at r3
    have h0 : (frac x : ℝ) ≤ 0x6a09c * 2 ^ 32 := by exact_mod_cast (by omega : frac x ≤ 0x6a09c * 2 ^ 32)
    have r3' : (value (sub y Libm.one) : ℝ) = frac x / 2 ^ 52 := by rw [r3]; push_cast; ring
    have pos : (0 : ℝ) ≤ frac x / 2 ^ 52 := by positivity
    have fpos : (0 : ℝ) ≤ frac x := by positivity
    refine ⟨sub y Libm.one, h, frac x / 2 ^ 52, expo x - 1023, ?_, ⟨⟨r1, r2, by rw [r3']; simp⟩, ?_, ?_, ?_, ?_, ?_, ?_, ?_⟩, ?_, by omega, by omega⟩
    · constructor
      · unfold split
        rw [if_neg (by rw [hih]; omega)]
        simp only []
        rw [a20, carry hl, exponent_or hl, if_neg c, if_neg c, ← hy]
        congr 1
        rw [hih, Nat.shiftRight_eq_div_pow, Nat.shiftRight_eq_div_pow, show (expo x * 2 ^ 20 + h) / 2 ^ 20 = expo x by omega]
        norm_num
        omega
      · unfold split2
        rw [if_neg (by rw [hih]; omega)]
        simp only []
        rw [a20, carry hl, exponent_or hl, if_neg c, if_neg c, ← hy]
        congr 1
        rw [hih, Nat.shiftRight_eq_div_pow, Nat.shiftRight_eq_div_pow, show (expo x * 2 ^ 20 + h) / 2 ^ 20 = expo x by omega]
        norm_num
        omega
    · linarith
    · linarith
    · rw [eq_zero r2, r3']
    · intro q
      have : frac x ≠ 0 := fun z => q (by rw [z]; norm_num)
      have : (1 : ℝ) ≤ frac x := by exact_mod_cast (by omega : 1 ≤ frac x)
      rw [abs_of_nonneg pos]; linarith
    · intro q
      rw [sm] at q
      have : (frac x : ℝ) ≤ 1 * 2 ^ 32 := by exact_mod_cast (by omega : frac x ≤ 1 * 2 ^ 32)
      rw [abs_of_nonneg pos]; linarith
    · intro q
      rw [sm] at q
      have : (1 * 2 ^ 32 : ℝ) ≤ frac x := by exact_mod_cast (by omega : 1 * 2 ^ 32 ≤ frac x)
      rw [abs_of_nonneg pos]; linarith
    · intro q
      left
      have := middle_range hl q
      have : (0x6147a * 2 ^ 32 : ℝ) ≤ frac x := by exact_mod_cast (by omega : 0x6147a * 2 ^ 32 ≤ frac x)
      linarith
    · rw [vx]
      push_cast
      rfl

theorem split_spec {x : Nat} (hx : x < 2 ^ 63) (h1 : 1 ≤ expo x) (h2 : expo x ≤ 2046) (k : Int) :
    ∃ (f h : Nat) (F : ℝ) (j : Int), split x k = main f h (k + j) ∧ Split f h F ∧ (value x : ℝ) = (2 : ℝ) ^ j * (1 + F) ∧ -1022 ≤ j ∧ j ≤ expo x - 1022 := by
  obtain ⟨f, h, F, j, ⟨a, -⟩, b⟩ := split_both hx h1 h2 k
  exact ⟨f, h, F, j, a, b⟩

/-- The logarithm of a number given by exponent and fraction. -/
theorem main_near {f h : Nat} {F : ℝ} {k : Int} (s : Split f h F) (kn : k.natAbs ≤ 1080) :
    main f h k < 2 ^ 64 ∧ IsFinite (main f h k) ∧ |(value (main f h k) : ℝ) - (k * Real.log 2 + Real.log (1 + F))| ≤ |k * Real.log 2 + Real.log (1 + F)| / 2 ^ 52 := by
  obtain ⟨hf, lo, hi, zero, least, small, large, mid⟩ := s
  have kz : k = 0 → (k : ℝ) * Real.log 2 + Real.log (1 + F) = Real.log (1 + F) := by rintro rfl; simp
  have fin : ∀ {t : Nat} {L D : ℝ}, k ≠ 0 → Shape F L D → Near t (D - k * ln2lq) (D * (5004 / 1000 / 2 ^ 53) + |F| * (97 / 1000 / 2 ^ 53) + 1 / 10 ^ 6 / 2 ^ 53) →
      sub (mul (Libm.ofInt k) ln2_hi) (sub t f) < 2 ^ 64 ∧ IsFinite (sub (mul (Libm.ofInt k) ln2_hi) (sub t f)) ∧
      |(value (sub (mul (Libm.ofInt k) ln2_hi) (sub t f)) : ℝ) - (k * Real.log 2 + Real.log (1 + F))| ≤ |k * Real.log 2 + Real.log (1 + F)| / 2 ^ 52 := by
    intro t L D k0 sh ht
    rcases le_total 0 F with c | c
    · by_cases ck : k = -1
      · exact finish_close hf sh ht (Or.inr ⟨ck, c⟩)
      · exact finish_far kn hf sh ht (by
          by_cases c1 : k = 1
          · exact Or.inr (Or.inl ⟨c1, c⟩)
          · left; omega)
    · by_cases ck : k = 1
      · exact finish_close hf sh ht (Or.inl ⟨ck, c⟩)
      · exact finish_far kn hf sh ht (by
          by_cases c1 : k = -1
          · exact Or.inr (Or.inr ⟨c1, c⟩)
          · left; omega)
  have F1 : |F| ≤ 1 := by rw [abs_le]; constructor <;> norm_num at * <;> linarith
  have up : ∀ {p : Nat} {L D : ℝ}, Shape F L D → Near p D (D * (4003 / 1000 / 2 ^ 53) + |F| * (965 / 10000 / 2 ^ 53)) →
      Near p D (D * (4003 / 1000 / 2 ^ 53) + |F| * (97 / 1000 / 2 ^ 53)) := by
    intro p L D _ h
    refine h.weaken ?_
    have := abs_nonneg F
    norm_num; linarith
  have d1 : ∀ {L D : ℝ}, Shape F L D → D ≤ 1 := by
    intro L D sh
    have := sh.eq
    rcases le_total 0 F with c | c
    · have := sh.pos c; norm_num at *; linarith
    · have := sh.neg c; norm_num at *; linarith
  unfold main
  simp only []
  by_cases c : (0x000fffff &&& (2 + h)) < 3
  · rw [if_pos c]
    by_cases z : F = 0
    · rw [if_pos (zero.2 z)]
      by_cases k0 : k = 0
      · rw [if_pos k0, kz k0, z, add_zero, Real.log_one]
        refine ⟨by decide, by decide, ?_⟩
        have : value Log.zero = 0 := by unfold Log.zero value sign expo frac; norm_num
        rw [this]; simp
      · rw [if_neg k0, z, add_zero, Real.log_one, add_zero]
        obtain ⟨m1, m2, m3⟩ := times_hi kn
        obtain ⟨⟨l1, l2⟩, l3⟩ := times_lo kn
        have hm : Near (mul (Libm.ofInt k) ln2_hi) (k * ln2hq) 0 := ⟨m1, m2, by rw [m3]; push_cast; simp⟩
        have b := ln2_b
        have kb : 693 / 1000 ≤ |(k : ℝ) * Real.log 2| := by
          rw [abs_mul, abs_of_pos (show 0 < Real.log 2 by norm_num at *; linarith)]
          have : (1 : ℝ) ≤ |(k : ℝ)| := by exact_mod_cast Int.one_le_abs k0
          have := mul_le_mul_of_nonneg_right this (show 0 ≤ Real.log 2 by norm_num at *; linarith)
          norm_num at *; linarith
        have ku : |(k : ℝ) * Real.log 2| ≤ 1080 := by
          have : |(k : ℝ)| ≤ 1080 := by
            have : |k| ≤ 1080 := by rw [Int.abs_eq_natAbs]; exact_mod_cast kn
            exact_mod_cast this
          rw [abs_mul]
          refine le_trans (mul_le_mul this (d := 1) ?_ (abs_nonneg _) (by norm_num)) (by norm_num)
          rw [abs_of_pos (show 0 < Real.log 2 by norm_num at *; linarith)]
          norm_num at *; linarith
        have r := hm.add l1 (m := |(k : ℝ) * Real.log 2| + 1 / 10 ^ 20) (g := |(k : ℝ) * Real.log 2| * (101 / 100 / 2 ^ 53)) (by
          have := abs_add_le ((k : ℝ) * ln2hq + k * ln2lq - k * Real.log 2) (k * Real.log 2)
          rw [sub_add_cancel] at this
          norm_num at *; linarith) (by
          generalize |(k : ℝ) * Real.log 2| = q at *
          norm_num at kb ⊢; linarith) (by
          generalize |(k : ℝ) * Real.log 2| = q at *
          norm_num at ku ⊢; linarith)
        refine ⟨r.1, r.2.1, ?_⟩
        have := (r.move l3).2.2
        refine le_trans this ?_
        generalize |(k : ℝ) * Real.log 2| = q at *
        norm_num at kb ⊢; linarith
    · rw [if_neg (fun q => z (zero.1 q))]
      obtain ⟨D, L, sh, n⟩ := branch0 hf (least z) (small c)
      by_cases k0 : k = 0
      · rw [if_pos k0, kz k0]
        exact finish0 hf sh (up sh n)
      · rw [if_neg k0]
        exact fin k0 sh (less_lo kn sh.d0 (d1 sh) F1 n)
  · rw [if_neg c]
    by_cases m : middle h = true
    · rw [if_pos m]
      obtain ⟨D, L, sh, n1, n2⟩ : ∃ D L, Shape F L D ∧
          Near (sub (mul (mul half f) f) (mul (div f (add two f)) (add (mul (mul half f) f) (tail (div f (add two f)))))) D
            (D * (4003 / 1000 / 2 ^ 53) + |F| * (965 / 10000 / 2 ^ 53)) ∧
          ∀ (k : Int), k.natAbs ≤ 1080 → Near (sub (mul (mul half f) f) (add (mul (div f (add two f)) (add (mul (mul half f) f) (tail (div f (add two f))))) (mul (Libm.ofInt k) ln2_lo)))
            (D - k * ln2lq) (D * (5004 / 1000 / 2 ^ 53) + |F| * (97 / 1000 / 2 ^ 53) + 1 / 10 ^ 6 / 2 ^ 53) := by
        rcases mid m with q | q
        · exact branch2 hf lo hi q
        · exact branch3 hf lo hi q
      by_cases k0 : k = 0
      · rw [if_pos k0, kz k0]
        exact finish0 hf sh (up sh n1)
      · rw [if_neg k0]
        exact fin k0 sh (n2 k kn)
    · rw [if_neg m]
      obtain ⟨D, L, sh, n⟩ := branch1 hf (large c) lo hi
      by_cases k0 : k = 0
      · rw [if_pos k0, kz k0]
        exact finish0 hf sh (up sh n)
      · rw [if_neg k0]
        exact fin k0 sh (less_lo kn sh.d0 (d1 sh) F1 n)

end Pok.Log
