import Verif.Spec.Single
import Verif.Model.Fpu32
import Mathlib.Tactic.IntervalCases
import Mathlib.Tactic.Ring
import Mathlib.Tactic.FieldSimp
import Mathlib.Tactic.Linarith
import Mathlib.Tactic.NormNum
import Mathlib.Tactic.Push
/-!
# Facts about floats and 32-bit words
-/
namespace Pok.Single
open Pok.Fpu32

theorem pow_split {a b : Nat} (h : b ≤ a) : 2 ^ a = 2 ^ (a - b) * 2 ^ b := by
  rw [← Nat.pow_add, Nat.sub_add_cancel h]

/-- The parts of a float. -/
theorem parts {d : Nat} (h : d < 2 ^ 32) : d = sign d * 2 ^ 31 + expo d * 2 ^ 23 + frac d := by
  unfold sign expo frac; omega

theorem sign_lt (d : Nat) : sign d < 2 := by unfold sign; omega
theorem expo_lt (d : Nat) : expo d < 256 := by unfold expo; omega
theorem frac_lt (d : Nat) : frac d < 2 ^ 23 := by unfold frac; omega

theorem mag_eq (d : Nat) : mag d = expo d * 2 ^ 23 + frac d := by
  unfold mag expo frac; omega

theorem neg_iff (d : Nat) : neg d = true ↔ sign d = 1 := by
  unfold neg sign; simp

theorem sign_make {s m : Nat} (hs : s < 2) (hm : m < 2 ^ 31) : sign (s * 2 ^ 31 + m) = s := by
  unfold sign; omega

theorem mag_make {s m : Nat} (hm : m < 2 ^ 31) : mag (s * 2 ^ 31 + m) = m := by
  unfold mag; omega

theorem expo_make {s E f : Nat} (hE : E < 256) (hf : f < 2 ^ 23) : expo (s * 2 ^ 31 + E * 2 ^ 23 + f) = E := by
  unfold expo; omega

theorem frac_make {s E f : Nat} (hf : f < 2 ^ 23) : frac (s * 2 ^ 31 + E * 2 ^ 23 + f) = f := by
  unfold frac; omega

/-- The multiple of the least positive float; the fraction may be full, that is carry into the exponent. -/
theorem units_make {a f : Nat} (ha : 1 ≤ a) (hf : f ≤ 2 ^ 23) : units (a * 2 ^ 23 + f) = (2 ^ 23 + f) * 2 ^ (a - 1) := by
  unfold units
  rcases Nat.lt_or_eq_of_le hf with h | h
  · have h1 : (a * 2 ^ 23 + f) / 2 ^ 23 = a := by omega
    have h2 : (a * 2 ^ 23 + f) % 2 ^ 23 = f := by omega
    rw [h1, h2, if_neg (by omega)]
  · have h1 : (a * 2 ^ 23 + f) / 2 ^ 23 = a + 1 := by omega
    have h2 : (a * 2 ^ 23 + f) % 2 ^ 23 = 0 := by omega
    rw [h1, h2, if_neg (by omega), h]
    obtain ⟨b, rfl⟩ := Nat.exists_eq_add_of_le ha
    simp only [Nat.add_sub_cancel, Nat.add_sub_cancel_left, Nat.add_zero]
    rw [Nat.add_comm 1 b, Nat.pow_succ 2 b, ← Nat.two_mul]
    ring

theorem units_small {f : Nat} (hf : f < 2 ^ 23) : units f = f := by
  unfold units; rw [if_pos (by omega)]

theorem units_expo (d : Nat) : units (mag d) = if expo d = 0 then frac d else (2 ^ 23 + frac d) * 2 ^ (expo d - 1) := by
  have := frac_lt d
  rw [mag_eq]
  split
  · rename_i h; rw [h, Nat.zero_mul, Nat.zero_add, units_small this]
  · rename_i h; rw [units_make (by omega) (by omega)]

theorem value_units (d : Nat) : value d = (sunits d : ℚ) / 2 ^ 149 := by
  have hv : (if expo d = 0 then ((frac d : ℚ) / 2 ^ 23) * 2 ^ (-126 : ℤ) else (1 + (frac d : ℚ) / 2 ^ 23) * 2 ^ ((expo d : ℤ) - 127))
      = (units (mag d) : ℚ) / 2 ^ 149 := by
    rw [units_expo]
    split
    · rw [zpow_neg, show (2 : ℚ) ^ (149 : ℕ) = 2 ^ 23 * 2 ^ (126 : ℕ) from by rw [← pow_add]]
      rw [show (2 : ℚ) ^ (126 : ℤ) = 2 ^ (126 : ℕ) from zpow_natCast 2 126]
      field_simp
    · rename_i h
      push_cast
      have : (2 : ℚ) ^ ((expo d : ℤ) - 127) = 2 ^ (expo d - 1) / 2 ^ 126 := by
        rw [show ((expo d : ℤ) - 127) = ((expo d - 1 : ℕ) : ℤ) - (126 : ℕ) from by omega, zpow_sub₀ (by norm_num), zpow_natCast, zpow_natCast]
      rw [this, show (2 : ℚ) ^ (149 : ℕ) = 2 ^ 23 * 2 ^ (126 : ℕ) from by rw [← pow_add]]
      field_simp
      norm_num
  unfold value sunits
  rw [hv]
  rcases Nat.lt_or_ge (sign d) 1 with h | h
  · have h0 : sign d = 0 := by omega
    have : neg d = false := by
      cases hn : neg d
      · rfl
      · have := (neg_iff d).1 hn; omega
    rw [h0, this, pow_zero, one_mul, if_neg (by decide), Int.cast_natCast]
  · have h1 : sign d = 1 := by have := sign_lt d; omega
    rw [h1, (neg_iff d).2 h1]
    rw [pow_one, if_pos rfl, Int.cast_neg, Int.cast_natCast, neg_one_mul, neg_div]

/-! ## Order, and numbers that are floats -/

theorem units_succ (m : Nat) : units m < units (m + 1) := by
  obtain ⟨E, F, hF, rfl⟩ : ∃ E F, F < 2 ^ 23 ∧ m = E * 2 ^ 23 + F := ⟨m / 2 ^ 23, m % 2 ^ 23, by omega, by omega⟩
  rcases Nat.eq_zero_or_pos E with h | h
  · subst h
    rw [Nat.zero_mul, Nat.zero_add, units_small hF]
    rcases Nat.lt_or_ge (F + 1) (2 ^ 23) with h2 | h2
    · rw [units_small h2]; omega
    · have := units_make (a := 1) (f := F + 1 - 2 ^ 23) (by omega) (by omega)
      rw [show 1 * 2 ^ 23 + (F + 1 - 2 ^ 23) = F + 1 from by omega] at this
      rw [this]
      simp only [Nat.sub_self, Nat.pow_zero, Nat.mul_one]
      omega
  · rw [Nat.add_assoc, units_make h (by omega), units_make h (by omega)]
    exact Nat.mul_lt_mul_of_pos_right (by omega) (Nat.two_pow_pos _)

theorem units_strictMono : StrictMono units := strictMono_nat_of_lt_succ units_succ

theorem units_lt {a b : Nat} : units a < units b ↔ a < b := units_strictMono.lt_iff_lt
theorem units_le {a b : Nat} : units a ≤ units b ↔ a ≤ b := units_strictMono.le_iff_le
theorem units_inj {a b : Nat} : units a = units b ↔ a = b := units_strictMono.injective.eq_iff

/-- A number with at most 24 significant bits is a float. -/
theorem exists_units {a b : Nat} (ha : a < 2 ^ 24) : ∃ m, units m = a * 2 ^ b := by
  induction b generalizing a with
  | zero =>
    refine ⟨a, ?_⟩
    rw [Nat.pow_zero, Nat.mul_one]
    rcases Nat.lt_or_ge a (2 ^ 23) with h | h
    · exact units_small h
    · have := units_make (a := 1) (f := a - 2 ^ 23) (by omega) (by omega)
      rw [show 1 * 2 ^ 23 + (a - 2 ^ 23) = a from by omega] at this
      rw [this]
      simp only [Nat.sub_self, Nat.pow_zero, Nat.mul_one]
      omega
  | succ b ih =>
    rcases Nat.lt_or_ge a (2 ^ 23) with h | h
    · obtain ⟨m, hm⟩ := ih (a := 2 * a) (by omega)
      exact ⟨m, by rw [hm, Nat.pow_succ]; ring⟩
    · refine ⟨(b + 2) * 2 ^ 23 + (a - 2 ^ 23), ?_⟩
      rw [units_make (by omega) (by omega)]
      rw [show 2 ^ 23 + (a - 2 ^ 23) = a from by omega, show b + 2 - 1 = b + 1 from by omega]

theorem rne_exact (n s : Nat) : rne (n * 2 ^ s) s = n := by
  unfold rne
  have := Nat.two_pow_pos s
  rw [Nat.mul_mod_left, Nat.mul_div_cancel _ this, if_pos (Or.inl (by omega))]

theorem log2_units {E F : Nat} (_hE : 1 ≤ E) (hF : F < 2 ^ 23) : Nat.log2 ((2 ^ 23 + F) * 2 ^ (E - 1)) = 23 + (E - 1) := by
  have := Nat.two_pow_pos (E - 1)
  rw [Nat.log2_eq_iff (by positivity)]
  constructor
  · rw [Nat.pow_add]; exact Nat.mul_le_mul_right _ (by omega)
  · rw [show 23 + (E - 1) + 1 = 24 + (E - 1) from by omega, Nat.pow_add]
    exact Nat.mul_lt_mul_of_pos_right (by omega) this

/-- Rounding leaves floats alone. -/
theorem roundMag_exact {m : Nat} (s : Nat) (hm : m ≤ inf) : roundMag (units m * 2 ^ s) s = m := by
  have hs := Nat.two_pow_pos s
  unfold roundMag
  rw [Nat.mul_div_cancel _ hs]
  unfold inf at hm
  obtain ⟨E, F, hF, rfl⟩ : ∃ E F, F < 2 ^ 23 ∧ m = E * 2 ^ 23 + F := ⟨m / 2 ^ 23, m % 2 ^ 23, by omega, by omega⟩
  rcases Nat.eq_zero_or_pos E with h | h
  · subst h
    rw [Nat.zero_mul, Nat.zero_add, units_small hF]
    have : Nat.log2 F < 23 := by
      rcases Nat.eq_zero_or_pos F with h0 | h0
      · subst h0; decide
      · exact (Nat.log2_lt (by omega)).2 hF
    rw [show Nat.log2 F - 23 = 0 from by omega, Nat.zero_mul, Nat.zero_add, Nat.add_zero, rne_exact]
    omega
  · rw [units_make h (by omega), log2_units h hF, show 23 + (E - 1) - 23 = E - 1 from by omega]
    rw [Nat.mul_assoc, ← Nat.pow_add, Nat.add_comm (E - 1) s, rne_exact]
    omega

theorem roundMag_exact0 {m : Nat} (hm : m ≤ inf) : roundMag (units m) 0 = m := by
  have := roundMag_exact 0 hm
  rwa [Nat.pow_zero, Nat.mul_one] at this

theorem sunits_make {s m : Nat} (hs : s < 2) (hm : m < 2 ^ 31) : sunits (s * 2 ^ 31 + m) = if s = 1 then - (units m : Int) else units m := by
  unfold sunits
  rw [mag_make hm]
  by_cases h : s = 1
  · have : neg (s * 2 ^ 31 + m) = true := (neg_iff _).2 (by rw [sign_make hs hm, h])
    rw [this, if_pos rfl, if_pos h]
  · have : ¬ neg (s * 2 ^ 31 + m) = true := fun hh => h (by have := (neg_iff _).1 hh; rwa [sign_make hs hm] at this)
    rw [if_neg this, if_neg h]

theorem self_eq {x : Nat} (hx : x < 2 ^ 32) : x = sign x * 2 ^ 31 + mag x := by
  unfold sign mag; omega

theorem sunits_eq {x : Nat} (hx : x < 2 ^ 32) : sunits x = if sign x = 1 then - (units (mag x) : Int) else units (mag x) := by
  have hm : mag x < 2 ^ 31 := by unfold mag; omega
  have e := self_eq hx
  conv_lhs => rw [e]
  exact sunits_make (sign_lt x) hm

theorem finite_iff (x : Nat) : IsFinite x ↔ mag x < inf := by
  have h := mag_eq x; have := frac_lt x; have := expo_lt x
  unfold IsFinite; rw [h]; unfold inf; omega

theorem neg_div_nat (U D : Nat) (hD : 0 < D) : (-(U : Int)) / (D : Int) = if U % D = 0 then -((U / D : Nat) : Int) else -((U / D + 1 : Nat) : Int) := by
  have hr := Nat.mod_lt U hD
  have e : (D : Int) * ((U / D : Nat) : Int) + ((U % D : Nat) : Int) = U := by exact_mod_cast Nat.div_add_mod U D
  split
  · rename_i h
    rw [h] at e
    exact ((Int.ediv_emod_unique (b := (D : Int)) (r := 0) (by omega)).2 ⟨by push_cast at e ⊢; linarith, by omega, by omega⟩).1
  · rename_i h
    exact ((Int.ediv_emod_unique (b := (D : Int)) (r := (D : Int) - ((U % D : Nat) : Int)) (by omega)).2
      ⟨by push_cast at e ⊢; linarith, by omega, by omega⟩).1

/-! ## Operations on finite floats -/

theorem mag_lt (x : Nat) : mag x < 2 ^ 31 := by unfold mag; omega

theorem notNaN {a : Nat} (h : mag a < inf) : isNaN a = false := by unfold isNaN; simp; omega
theorem notInf {a : Nat} (h : mag a < inf) : isInf a = false := by unfold isInf; simp; omega

theorem add_finite {a b : Nat} (ha : mag a < inf) (hb : mag b < inf) :
    add a b = if sunits a + sunits b = 0 then (if neg a && neg b then 2 ^ 31 else 0)
      else withSign (sunits a + sunits b < 0) (roundMag (sunits a + sunits b).natAbs 0) := by
  unfold add
  rw [notNaN ha, notNaN hb, notInf ha, notInf hb]
  simp only [Bool.false_eq_true, if_false]

theorem negate_make {s m : Nat} (hs : s < 2) (hm : m < 2 ^ 31) : negate (s * 2 ^ 31 + m) = (1 - s) * 2 ^ 31 + m := by
  unfold negate
  have : neg (s * 2 ^ 31 + m) = decide (s = 1) := by
    rcases Nat.lt_or_ge s 1 with h | h
    · have h0 : s = 0 := by omega
      cases hb : neg (s * 2 ^ 31 + m)
      · simp [h0]
      · have := (neg_iff _).1 hb; rw [sign_make hs hm] at this; omega
    · have h1 : s = 1 := by omega
      rw [(neg_iff _).2 (by rw [sign_make hs hm, h1])]; simp [h1]
  rw [this]
  rcases Nat.lt_or_ge s 1 with h | h
  · have h0 : s = 0 := by omega
    subst h0; simp; omega
  · have h1 : s = 1 := by omega
    subst h1; simp

theorem neg_make {s m : Nat} (hs : s < 2) (hm : m < 2 ^ 31) : neg (s * 2 ^ 31 + m) = decide (s = 1) := by
  rcases Nat.lt_or_ge s 1 with h | h
  · have h0 : s = 0 := by omega
    cases hb : neg (s * 2 ^ 31 + m)
    · simp [h0]
    · have := (neg_iff _).1 hb; rw [sign_make hs hm] at this; omega
  · have h1 : s = 1 := by omega
    rw [(neg_iff _).2 (by rw [sign_make hs hm, h1])]; simp [h1]

theorem inf_lt : inf < 2 ^ 31 := by unfold inf; omega

/-- The difference of floats of the same sign is exact when it is a float. -/
theorem sub_make {s a b c : Nat} (hs : s < 2) (ha : a < inf) (hb : b < inf) (hc : c < inf) (h0 : c ≠ 0) (h : units a = units b + units c) :
    sub (s * 2 ^ 31 + a) (s * 2 ^ 31 + b) = s * 2 ^ 31 + c := by
  have hi := inf_lt
  have hcu : 0 < units c := by
    have := units_lt.2 (Nat.pos_of_ne_zero h0); omega
  unfold sub
  rw [notNaN (by rw [mag_make (by omega)]; exact hb), if_neg (by decide), negate_make hs (by omega)]
  rw [add_finite (by rw [mag_make (by omega)]; exact ha) (by rw [mag_make (by omega)]; exact hb)]
  rw [sunits_make hs (by omega), sunits_make (by omega) (by omega), h]
  rcases Nat.lt_or_ge s 1 with h1 | h1
  · have hs0 : s = 0 := by omega
    subst hs0
    rw [if_neg (show ¬ ((0 : Nat) = 1) from by decide), if_pos (show (1 : Nat) - 0 = 1 from rfl)]
    have e : ((units b + units c : Nat) : Int) + -(units b : Int) = (units c : Nat) := by push_cast; ring
    rw [e, if_neg (by omega), Int.natAbs_natCast, roundMag_exact0 (by omega)]
    unfold withSign
    rw [if_neg (by simp)]; omega
  · have hs0 : s = 1 := by omega
    subst hs0
    rw [if_pos (show (1 : Nat) = 1 from rfl), if_neg (show ¬ ((1 : Nat) - 1 = 1) from by decide)]
    have e : -((units b + units c : Nat) : Int) + (units b : Int) = -((units c : Nat) : Int) := by push_cast; ring
    rw [e, if_neg (by omega), Int.natAbs_neg, Int.natAbs_natCast, roundMag_exact0 (by omega)]
    unfold withSign
    rw [if_pos (by simp; omega)]; omega

/-- A float minus itself is the positive zero. -/
theorem sub_self_make {s a : Nat} (hs : s < 2) (ha : a < inf) : sub (s * 2 ^ 31 + a) (s * 2 ^ 31 + a) = 0 := by
  have hi := inf_lt
  unfold sub
  rw [notNaN (by rw [mag_make (by omega)]; exact ha), if_neg (by decide), negate_make hs (by omega)]
  rw [add_finite (by rw [mag_make (by omega)]; exact ha) (by rw [mag_make (by omega)]; exact ha)]
  rw [sunits_make hs (by omega), sunits_make (by omega) (by omega), neg_make hs (by omega), neg_make (by omega) (by omega)]
  rcases Nat.lt_or_ge s 1 with h1 | h1
  · have hs0 : s = 0 := by omega
    subst hs0; simp
  · have hs0 : s = 1 := by omega
    subst hs0; simp

/-- The sum of floats of the same sign is exact when it is a float. -/
theorem add_make {s a b c : Nat} (hs : s < 2) (ha : a < inf) (hb : b < inf) (hc : c < inf) (h0 : c ≠ 0) (h : units c = units a + units b) :
    add (s * 2 ^ 31 + a) (s * 2 ^ 31 + b) = s * 2 ^ 31 + c := by
  have hi := inf_lt
  have hcu : 0 < units c := by
    have := units_lt.2 (Nat.pos_of_ne_zero h0); omega
  rw [add_finite (by rw [mag_make (by omega)]; exact ha) (by rw [mag_make (by omega)]; exact hb)]
  rw [sunits_make hs (by omega), sunits_make (by omega) (by omega)]
  rcases Nat.lt_or_ge s 1 with h1 | h1
  · have hs0 : s = 0 := by omega
    subst hs0
    simp only [show ((0 : Nat) = 1) = False from by simp, if_false]
    have e : (units a : Int) + (units b : Int) = (units c : Nat) := by rw [h]; push_cast; ring
    rw [e, if_neg (by omega), Int.natAbs_natCast, roundMag_exact0 (by omega)]
    unfold withSign
    rw [if_neg (by simp)]; omega
  · have hs0 : s = 1 := by omega
    subst hs0
    simp only [if_true]
    have e : -(units a : Int) + -(units b : Int) = -((units c : Nat) : Int) := by rw [h]; push_cast; ring
    rw [e, if_neg (by omega), Int.natAbs_neg, Int.natAbs_natCast, roundMag_exact0 (by omega)]
    unfold withSign
    rw [if_pos (by simp; omega)]; omega

/-- Comparison of positive floats. -/
theorem le_make {a b : Nat} (ha : a < inf) (hb : b < inf) : le a b = decide (units a ≤ units b) := by
  have hi := inf_lt
  have e : ∀ m, m < inf → mag m = m := fun m hm => by have := mag_make (s := 0) (m := m) (by omega); simpa using this
  have n : ∀ m, m < inf → neg m = false := fun m hm => by have := neg_make (s := 0) (m := m) (by omega) (by omega); simpa using this
  unfold le key
  rw [notNaN (by rw [e a ha]; exact ha), notNaN (by rw [e b hb]; exact hb), n a ha, n b hb, e a ha, e b hb]
  simp [units_le]

end Pok.Single
