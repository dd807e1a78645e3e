import Verif.Model.Pow
import Verif.Props.Scale
import Verif.Props.Sqrt
/-!
# The power function in terms of signs and magnitudes
-/
namespace Pok.Libm
open Pok.Float Pok.Fpu

/-! ### Division -/

theorem abs_le_half {r d : ℤ} {X : ℚ} : |(r : ℚ) - X| ≤ |(d : ℚ) - X| ↔ r = d ∨ (r < d ∧ X ≤ (r + d) / 2) ∨ (d < r ∧ ((r : ℚ) + d) / 2 ≤ X) := by
  rcases lt_trichotomy r d with h | h | h
  · have hq : (r : ℚ) < d := by exact_mod_cast h
    have e : |(r : ℚ) - X| ≤ |(d : ℚ) - X| ↔ X ≤ (r + d) / 2 := by
      rw [← sq_le_sq]
      constructor <;> intro g <;> nlinarith
    rw [e]
    constructor
    · intro g; exact Or.inr (Or.inl ⟨h, g⟩)
    · rintro (g | ⟨_, g⟩ | ⟨g, _⟩)
      · omega
      · exact g
      · omega
  · subst h; simp
  · have hq : (d : ℚ) < r := by exact_mod_cast h
    have e : |(r : ℚ) - X| ≤ |(d : ℚ) - X| ↔ ((r : ℚ) + d) / 2 ≤ X := by
      rw [← sq_le_sq]
      constructor <;> intro g <;> nlinarith
    rw [e]
    constructor
    · intro g; exact Or.inr (Or.inr ⟨h, g⟩)
    · rintro (g | ⟨g, _⟩ | ⟨_, g⟩)
      · omega
      · omega
      · exact g

/-- Two numbers on the same side of every half integer are equally near to integers. -/
theorem abs_le_same {r d : ℤ} {X Y : ℚ} (h1 : ∀ m : ℤ, (m : ℚ) / 2 ≤ X ↔ (m : ℚ) / 2 ≤ Y) (h2 : ∀ m : ℤ, X ≤ (m : ℚ) / 2 ↔ Y ≤ (m : ℚ) / 2) :
    |(r : ℚ) - X| ≤ |(d : ℚ) - X| ↔ |(r : ℚ) - Y| ≤ |(d : ℚ) - Y| := by
  rw [abs_le_half, abs_le_half]
  have a := h1 (r + d)
  have b := h2 (r + d)
  push_cast at a b
  rw [a, b]

theorem rounded_same {X Y : ℚ} {s r : Nat} (h1 : ∀ m : ℤ, (m : ℚ) / 2 ≤ X ↔ (m : ℚ) / 2 ≤ Y) (h2 : ∀ m : ℤ, X ≤ (m : ℚ) / 2 ↔ Y ≤ (m : ℚ) / 2)
    (h : Rounded (X / 2 ^ 1074) s r) : Rounded (Y / 2 ^ 1074) s r := by
  have hD : (0 : ℚ) < 2 ^ 1074 := pow_pos (by norm_num) _
  have scale : ∀ (d : Nat) (Z : ℚ), |value d - Z / 2 ^ 1074| = |(sunits d : ℚ) - Z| / 2 ^ 1074 := by
    intro d Z
    rw [value_units, ← sub_div, abs_div, abs_of_pos hD]
  have le_iff : ∀ (a b : Nat) (Z : ℚ), |value a - Z / 2 ^ 1074| ≤ |value b - Z / 2 ^ 1074| ↔ |(sunits a : ℚ) - Z| ≤ |(sunits b : ℚ) - Z| := by
    intro a b Z
    rw [scale, scale, div_le_div_iff_of_pos_right hD]
  have both : ∀ a b : Nat, |value a - X / 2 ^ 1074| ≤ |value b - X / 2 ^ 1074| ↔ |value a - Y / 2 ^ 1074| ≤ |value b - Y / 2 ^ 1074| := by
    intro a b
    rw [le_iff, le_iff]
    exact abs_le_same h1 h2
  have lim : |X / 2 ^ 1074| < (2 ^ 54 - 1) * 2 ^ 970 ↔ |Y / 2 ^ 1074| < (2 ^ 54 - 1) * 2 ^ 970 := by
    have k : ∀ Z : ℚ, |Z / 2 ^ 1074| < (2 ^ 54 - 1) * 2 ^ 970 ↔
        ¬ ((((2 * ((2 ^ 54 - 1) * 2 ^ 2044) : ℤ)) : ℚ) / 2 ≤ Z) ∧ ¬ (Z ≤ ((-(2 * ((2 ^ 54 - 1) * 2 ^ 2044)) : ℤ) : ℚ) / 2) := by
      intro Z
      rw [abs_div, abs_of_pos hD, div_lt_iff₀ hD, mul_assoc, ← pow_add, abs_lt, not_le, not_le]
      have e : (((2 * ((2 ^ 54 - 1) * 2 ^ 2044) : ℤ)) : ℚ) / 2 = (2 ^ 54 - 1) * 2 ^ (970 + 1074) := by
        rw [Int.cast_mul, Int.cast_ofNat, mul_div_cancel_left₀ _ (by norm_num : (2 : ℚ) ≠ 0)]
        push_cast
        norm_num
      have e' : ((-(2 * ((2 ^ 54 - 1) * 2 ^ 2044)) : ℤ) : ℚ) / 2 = -((2 ^ 54 - 1) * 2 ^ (970 + 1074)) := by
        rw [Int.cast_neg, neg_div, e]
      rw [e, e']
      exact and_comm
    rw [k, k, h1, h2]
  refine ⟨h.1, h.2.1, ?_⟩
  have g := h.2.2
  by_cases c : |X / 2 ^ 1074| < (2 ^ 54 - 1) * 2 ^ 970
  · rw [if_pos c] at g
    rw [if_pos (lim.1 c)]
    refine ⟨g.1, fun d hd hf => (both r d).1 (g.2.1 d hd hf), fun d hd hf he hne => g.2.2 d hd hf ?_ hne⟩
    exact le_antisymm ((both d r).2 he.le) ((both r d).2 he.ge)
  · rw [if_neg c] at g
    rw [if_neg (fun x => c (lim.2 x))]
    exact g

theorem sticky_side {A B : Nat} (hB : 0 < B) (m : ℤ) :
    ((m : ℚ) / 2 ≤ ((2 * (2 * A / B) + (if 2 * A % B = 0 then 0 else 1) : ℕ) : ℚ) / 2 ^ 2 ↔ (m : ℚ) / 2 ≤ (A : ℚ) / B)
    ∧ (((2 * (2 * A / B) + (if 2 * A % B = 0 then 0 else 1) : ℕ) : ℚ) / 2 ^ 2 ≤ (m : ℚ) / 2 ↔ (A : ℚ) / B ≤ (m : ℚ) / 2) := by
  have hB' : (0 : ℚ) < B := by exact_mod_cast hB
  have e := Nat.div_add_mod (2 * A) B
  have hlt := Nat.mod_lt (2 * A) hB
  generalize 2 * A / B = q at *
  generalize 2 * A % B = t at *
  have e' : 2 * (A : ℤ) = B * q + t := by exact_mod_cast e.symm
  have hB2 : (0 : ℤ) < B := by exact_mod_cast hB
  have ht : (t : ℤ) < B := by exact_mod_cast hlt
  have c1 : (m : ℚ) / 2 ≤ (A : ℚ) / B ↔ m * B ≤ 2 * A := by
    rw [div_le_div_iff₀ (by norm_num) hB', mul_comm (A : ℚ)]; exact_mod_cast Iff.rfl
  have c2 : (A : ℚ) / B ≤ (m : ℚ) / 2 ↔ 2 * A ≤ m * B := by
    rw [div_le_div_iff₀ hB' (by norm_num), mul_comm (A : ℚ)]; exact_mod_cast Iff.rfl
  have d1 : ∀ n : ℕ, (m : ℚ) / 2 ≤ (n : ℚ) / 2 ^ 2 ↔ 2 * m ≤ n := by
    intro n
    rw [div_le_div_iff₀ (by norm_num) (by norm_num)]
    constructor
    · intro g
      have : (2 : ℚ) * m ≤ n := by linarith
      exact_mod_cast this
    · intro g
      have : (2 : ℚ) * m ≤ n := by exact_mod_cast g
      linarith
  have d2 : ∀ n : ℕ, (n : ℚ) / 2 ^ 2 ≤ (m : ℚ) / 2 ↔ (n : ℤ) ≤ 2 * m := by
    intro n
    rw [div_le_div_iff₀ (by norm_num) (by norm_num)]
    constructor
    · intro g
      have : (n : ℚ) ≤ 2 * m := by linarith
      exact_mod_cast this
    · intro g
      have : (n : ℚ) ≤ 2 * m := by exact_mod_cast g
      linarith
  rw [c1, c2, d1, d2, e']
  have mono : ∀ a b : ℤ, a ≤ b → a * B ≤ b * B := fun a b hab => Int.mul_le_mul_of_nonneg_right hab hB2.le
  constructor
  · constructor
    · intro g
      have : m ≤ q := by split at g <;> push_cast at g <;> omega
      have := mono _ _ this
      rw [mul_comm (B : ℤ)]
      omega
    · intro g
      have : m ≤ q := by
        by_contra hc
        have := mono (q + 1) m (by omega)
        rw [add_mul, one_mul, mul_comm (q : ℤ)] at this
        omega
      split <;> push_cast <;> omega
  · constructor
    · intro g
      by_cases h0 : t = 0
      · rw [if_pos h0] at g
        push_cast at g
        have := mono q m (by omega)
        rw [h0, mul_comm (B : ℤ)]
        push_cast
        omega
      · rw [if_neg h0] at g
        push_cast at g
        have := mono (q + 1) m (by omega)
        rw [add_mul, one_mul, mul_comm (q : ℤ)] at this
        omega
    · intro g
      by_cases h0 : t = 0
      · rw [if_pos h0]
        have : (q : ℤ) ≤ m := by
          by_contra hc
          have := mono (m + 1) q (by omega)
          rw [add_mul, one_mul, mul_comm (q : ℤ)] at this
          omega
        push_cast
        omega
      · rw [if_neg h0]
        have : (q : ℤ) + 1 ≤ m := by
          by_contra hc
          have := mono m q (by omega)
          rw [mul_comm (q : ℤ)] at this
          omega
        push_cast
        omega

theorem div_make {s t a b : Nat} (hs : s < 2) (ht : t < 2) (ha : a < inf) (hb : b < inf) (h0 : b ≠ 0) :
    div (s * 2 ^ 63 + a) (t * 2 ^ 63 + b) = ((s + t) % 2) * 2 ^ 63
      + roundMag (2 * (units a * 2 ^ 1075 / units b) + (if units a * 2 ^ 1075 % units b = 0 then 0 else 1)) 2 := by
  have hi := inf_lt
  have ma : mag (s * 2 ^ 63 + a) = a := mag_make (by omega)
  have mb : mag (t * 2 ^ 63 + b) = b := mag_make (by omega)
  have na : neg (s * 2 ^ 63 + a) = decide (s = 1) := neg_make hs (by omega)
  have nb : neg (t * 2 ^ 63 + b) = decide (t = 1) := neg_make ht (by omega)
  unfold div
  rw [notNaN (by rw [ma]; exact ha), notNaN (by rw [mb]; exact hb), notInf (by rw [ma]; exact ha), notInf (by rw [mb]; exact hb), ma, mb, na, nb]
  simp only [Bool.false_eq_true, if_false, h0]
  generalize roundMag _ 2 = k
  unfold withSign
  rcases (by omega : s = 0 ∨ s = 1) with rfl | rfl <;> rcases (by omega : t = 0 ∨ t = 1) with rfl | rfl <;> simp

/-- The quotient of the model of the unit is the exact quotient, rounded. -/
theorem fpu_div {a b : Nat} (ha : a < 2 ^ 64) (hb : b < 2 ^ 64) (fa : IsFinite a) (fb : IsFinite b) (h0 : ¬ IsZero b) :
    Rounded (value a / value b) ((sign a + sign b) % 2) (div a b) := by
  have hb0 : mag b ≠ 0 := by have := mag_eq b; unfold IsZero at h0; omega
  have e := div_make (sign_lt a) (sign_lt b) ((finite_iff a).1 fa) ((finite_iff b).1 fb) hb0
  rw [← self_eq ha, ← self_eq hb] at e
  have hu : 0 < units (mag b) := by
    have := units_lt.2 (Nat.pos_of_ne_zero hb0)
    omega
  rw [e]
  have hA : units (mag a) * 2 ^ 1075 = 2 * (units (mag a) * 2 ^ 1074) := by rw [show 1075 = 1074 + 1 from rfl, Nat.pow_succ]; ring
  rw [hA]
  have side := sticky_side (A := units (mag a) * 2 ^ 1074) hu
  generalize hn : 2 * (2 * (units (mag a) * 2 ^ 1074) / units (mag b)) + (if 2 * (units (mag a) * 2 ^ 1074) % units (mag b) = 0 then 0 else 1) = n at *
  have r := rounded_mag (s := (sign a + sign b) % 2) (n := n) (sh := 2) (by omega)
  have v : value a / value b = (-1) ^ ((sign a + sign b) % 2) * (((units (mag a) * 2 ^ 1074 : ℕ) : ℚ) / units (mag b)) / 2 ^ 1074 := by
    have hd : (2 : ℚ) ^ 1074 ≠ 0 := pow_ne_zero _ (by norm_num)
    have hq : (units (mag b) : ℚ) ≠ 0 := by exact_mod_cast hu.ne'
    rw [value_self ha, value_self hb, ← neg_one_mod (sign_lt a) (sign_lt b), Nat.cast_mul, Nat.cast_pow, Nat.cast_ofNat]
    generalize (2 : ℚ) ^ 1074 = K at *
    rcases (by have := sign_lt b; omega : sign b = 0 ∨ sign b = 1) with h | h <;> rw [h] <;> simp only [pow_zero, pow_one] <;> field_simp
  rw [v]
  rw [← mul_div_assoc] at r
  refine rounded_same ?_ ?_ r
  all_goals
    intro m
    rcases (by omega : (sign a + sign b) % 2 = 0 ∨ (sign a + sign b) % 2 = 1) with h | h <;> rw [h]
    simp only [pow_zero, one_mul]
  · exact (side m).1
  · simp only [pow_one, neg_mul, one_mul]
    have g := (side (-m)).2
    generalize ((n : ℚ) / 2 ^ 2) = P at *
    generalize (((units (mag a) * 2 ^ 1074 : ℕ) : ℚ) / units (mag b)) = Q at *
    push_cast at g
    constructor <;> intro k
    · have := g.1 (by linarith); linarith
    · have := g.2 (by linarith); linarith
  · exact (side m).2
  · simp only [pow_one, neg_mul, one_mul]
    have g := (side (-m)).1
    generalize ((n : ℚ) / 2 ^ 2) = P at *
    generalize (((units (mag a) * 2 ^ 1074 : ℕ) : ℚ) / units (mag b)) = Q at *
    push_cast at g
    constructor <;> intro k
    · have := g.1 (by linarith); linarith
    · have := g.2 (by linarith); linarith

/-! ### The power function -/

theorem or_zero {a b : Nat} : a ||| b = 0 ↔ a = 0 ∧ b = 0 := Nat.or_eq_zero_iff

theorem ix_eq {x : Nat} (h : x < 2 ^ 64) : hi x &&& 0x7fffffff = mag x / 2 ^ 32 := by
  rw [and_31, hi_eq h]; unfold mag; omega

theorem lx_eq (x : Nat) : lo x = mag x % 2 ^ 32 := by unfold lo mag; omega

theorem neg32_eq {x : Nat} (h : x < 2 ^ 64) : neg32 (hi x) = decide (sign x = 1) := by
  have := neg32_hi h
  cases e : neg32 (hi x) <;> simp_all

/-- 0, 1 or 2 for a magnitude that is not an integer, an odd one or an even one. -/
def intM (m : Nat) : Nat :=
  if m / 2 ^ 52 ≥ 1076 then 2
  else if m / 2 ^ 52 ≥ 1023 then
    (if (2 ^ 52 + m % 2 ^ 52) % 2 ^ (1075 - m / 2 ^ 52) = 0 then 2 - (2 ^ 52 + m % 2 ^ 52) / 2 ^ (1075 - m / 2 ^ 52) % 2 else 0)
  else 0

set_option maxHeartbeats 4000000 in
theorem powInt_eq {m : Nat} (hm : m < 2 ^ 63) : powInt (m / 2 ^ 32) (m % 2 ^ 32) = intM m := by
  unfold powInt intM
  by_cases h1 : m / 2 ^ 52 ≥ 1076
  · rw [if_pos h1, if_pos (by omega)]
  rw [if_neg h1, if_neg (by omega)]
  by_cases h2 : m / 2 ^ 52 ≥ 1023
  · rw [if_pos h2, if_pos (by omega)]
    have hk : (m / 2 ^ 32) >>> 20 - 0x3ff = m / 2 ^ 52 - 1023 := by rw [Nat.shiftRight_eq_div_pow, Nat.div_div_eq_div_mul, ← Nat.pow_add]
    simp only [hk]
    obtain ⟨t, ht, hE⟩ : ∃ t, t ≤ 52 ∧ m / 2 ^ 52 = 1075 - t := ⟨1075 - m / 2 ^ 52, by omega, by omega⟩
    simp only [hE, show 1075 - (1075 - t) = t by omega, show 52 - (1075 - t - 1023) = t by omega, Nat.shiftRight_eq_div_pow, Nat.shiftLeft_eq,
      show ∀ j : Nat, j &&& 1 = j % 2 from fun j => Nat.and_one_is_mod j]
    have hm' : m = (1075 - t) * 2 ^ 52 + m % 2 ^ 52 := by have := Nat.div_add_mod m (2 ^ 52); rw [hE] at this; omega
    generalize m % 2 ^ 52 = f at *
    by_cases h3 : 1075 - t - 1023 > 20
    · rw [if_pos h3]
      clear hE hk h1 h2
      have h32 : t < 32 := by omega
      interval_cases t <;> (try simp only [Nat.reducePow]) <;> split <;> split <;> omega
    · rw [if_neg h3]
      have h32 : 32 ≤ t := by omega
      simp only [show 20 - (1075 - t - 1023) = t - 32 by omega]
      clear hE hk h1 h2 h3
      interval_cases t <;> (try simp only [Nat.reducePow]) <;> split <;> (try split) <;> (try split) <;> omega
  · rw [if_neg h2, if_neg (by omega)]

/-- The function by cases on signs and magnitudes. -/
theorem pow_eq (core : Nat → Nat → PowCore) {x y : Nat} (hx : x < 2 ^ 64) (hy : y < 2 ^ 64) :
    pow core x y =
      if mag y = 0 then one
      else if inf < mag x ∨ inf < mag y then add x y
      else if mag y = inf then
        (if mag x = one then nan else if one < mag x then (if sign y = 1 then 0 else inf) else (if sign y = 1 then inf else 0))
      else if mag y = one then (if sign y = 1 then div one x else x)
      else if y = 0x4000000000000000 then mul x x
      else if y = 0x3fe0000000000000 ∧ sign x = 0 then sqrt x
      else if mag x = inf ∨ mag x = 0 ∨ mag x = one then
        (if sign x = 1 then
          (if mag x = one ∧ intM (mag y) = 0 then nan
           else (if intM (mag y) = 1 then negate else id) (if sign y = 1 then div one (mag x) else mag x))
         else (if sign y = 1 then div one (mag x) else mag x))
      else if sign x = 1 ∧ intM (mag y) = 0 then nan
      else
        powEnd (if sign x = 1 ∧ intM (mag y) = 1 then negate one else one)
          (if 0x41e0000100000000 ≤ mag y ∧ (mag x < 0x3fefffff00000000 ∨ 0x3ff0000100000000 ≤ mag x) ∨ 0x43f0000100000000 ≤ mag y
           then (if (sign y = 1) = (mag x < one) then .over else .under) else core (mag x) y) := by
  have hmx := mag_lt x
  have hmy := mag_lt y
  have hsx := sign_lt x
  have hsy := sign_lt y
  have hsx' := self_eq hx
  have hsy' := self_eq hy
  have ho : one = 1023 * 2 ^ 52 := rfl
  have hin : inf = 2047 * 2 ^ 52 := rfl
  have hfx : fabs x = mag x := by
    unfold fabs setHi insert
    rw [ix_eq hx, lx_eq]; omega
  have sxx : ∀ {z : Nat}, z < 2 ^ 64 → mag z < inf → div (sub z z) (sub z z) = nan := by
    intro z hz hm
    have := sub_self_make (sign_lt z) hm
    rw [← self_eq hz] at this
    rw [this]; rfl
  have yy : mag y = inf → sub y y = nan := by
    intro h
    rcases (by omega : sign y = 0 ∨ sign y = 1) with e | e <;> rw [hsy', h, e] <;> decide +kernel
  have i32 : int32 (hi y) > 0 ↔ sign y = 0 ∧ mag y / 2 ^ 32 ≠ 0 := by
    unfold int32
    rw [hi_eq hy]
    split <;> omega
  unfold pow
  simp only [ix_eq hx, ix_eq hy, lx_eq, powInt_eq hmy, neg32_eq hx, neg32_eq hy, or_zero, decide_eq_true_eq, hfx, i32,
    decide_eq_false_iff_not]
  simp only [hi_eq hy]
  by_cases c1 : mag y = 0
  · rw [if_pos c1, if_pos (by omega)]
  rw [if_neg c1, if_neg (by omega)]
  by_cases c2 : inf < mag x ∨ inf < mag y
  · rw [if_pos c2, if_pos (by omega)]
  rw [if_neg c2, if_neg (by omega)]
  by_cases c3 : mag y = inf
  · rw [if_pos c3, if_pos (by omega), yy c3]
    by_cases d1 : mag x = one
    · rw [if_pos d1, if_pos (by omega)]
    rw [if_neg d1, if_neg (by omega)]
    by_cases d2 : one < mag x
    · rw [if_pos d2, if_pos (by omega)]
      by_cases d3 : sign y = 1
      · rw [if_pos d3, if_pos d3]
      · rw [if_neg d3, if_neg d3]; omega
    · rw [if_neg d2, if_neg (by omega)]
      by_cases d3 : sign y = 1
      · rw [if_pos d3, if_pos d3, hsy', d3, c3]; decide
      · rw [if_neg d3, if_neg d3]
  rw [if_neg c3, if_neg (by omega)]
  by_cases c4 : mag y = one
  · rw [if_pos c4, if_pos (by omega)]
  rw [if_neg c4, if_neg (by omega)]
  by_cases c5 : y = 0x4000000000000000
  · rw [if_pos c5, if_pos (by omega)]
  rw [if_neg c5, if_neg (by omega)]
  by_cases c6 : y = 0x3fe0000000000000 ∧ sign x = 0
  · rw [if_pos c6, if_pos (by omega)]
  rw [if_neg c6, if_neg (by omega)]
  by_cases c7 : mag x = inf ∨ mag x = 0 ∨ mag x = one
  · rw [if_pos c7, if_pos (by omega)]
    by_cases d1 : sign x = 1
    · rw [if_pos d1, if_pos d1, if_pos d1]
      by_cases d2 : mag x = one ∧ intM (mag y) = 0
      · rw [if_pos d2, if_pos (by omega), d2.1]
        have e : (if sign y = 1 then div one one else one) = one := by
          split
          · decide +kernel
          · rfl
        rw [e]
        exact sxx (by decide) (by decide)
      · rw [if_neg d2, if_neg (by omega)]
        split <;> rfl
    · rw [if_neg d1, if_neg d1]
  rw [if_neg c7, if_neg (by omega)]
  by_cases c8 : sign x = 1 ∧ intM (mag y) = 0
  · rw [if_pos c8, if_pos (by rw [if_pos c8.1, if_pos c8.1]; exact ⟨rfl, c8.2⟩)]
    exact sxx hx (by omega)
  rw [if_neg c8, if_neg (by
    rintro ⟨h1, h2⟩
    split at h1
    · next h => rw [if_pos h] at h2; exact c8 ⟨h, h2⟩
    · omega)]
  have hs : (if (if sign x = 1 then 0 else 1) = 0 ∧ (if sign x = 1 then intM (mag y) else 0) = 1 then negate one else one)
      = (if sign x = 1 ∧ intM (mag y) = 1 then negate one else one) := by
    by_cases d : sign x = 1
    · simp [d]
    · simp [d]
  rw [hs]
  by_cases c9 : 0x41e00000 < mag y / 2 ^ 32
  swap
  · generalize (if sign x = 1 ∧ intM (mag y) = 1 then negate one else one) = S
    rw [if_neg (by omega), if_neg (by omega)]
  rw [if_pos (by omega)]
  by_cases c10 : 0x43f0000100000000 ≤ mag y
  · have hi2 : intM (mag y) = 2 := by unfold intM; rw [if_pos (by omega)]
    have e1 : ∀ q : PowCore, powEnd (if sign x = 1 ∧ intM (mag y) = 1 then negate one else one) q = powEnd one q := by
      intro q; rw [hi2, if_neg (by omega)]
    rw [e1]
    simp only [e1]
    have eo : mul huge huge = powEnd one .over := by decide +kernel
    have eu : mul tiny tiny = powEnd one .under := by decide +kernel
    rw [eo, eu, if_pos (Or.inr c10)]
    by_cases d1 : mag x < one
    · rw [if_pos (by omega)]
      by_cases d2 : sign y = 1
      · rw [if_pos d2, if_pos (by simp [d1, d2])]
      · rw [if_neg d2, if_neg (by simp [d1, d2])]
    · rw [if_neg (by omega), if_pos (by omega)]
      by_cases d2 : sign y = 1
      · rw [if_neg (by omega), if_neg (by simp [d1, d2])]
      · rw [if_pos (by omega), if_pos (by simp [d1, d2])]
  · generalize (if sign x = 1 ∧ intM (mag y) = 1 then negate one else one) = S
    rw [if_neg (by omega), if_neg (by omega)]
    by_cases d1 : mag x < 0x3fefffff00000000
    · rw [if_pos (show mag x / 2 ^ 32 < 0x3fefffff by omega),
        if_pos (show 0x41e0000100000000 ≤ mag y ∧ (mag x < 0x3fefffff00000000 ∨ 0x3ff0000100000000 ≤ mag x) ∨ 0x43f0000100000000 ≤ mag y by omega)]
      congr 1
      have d3 : mag x < one := by omega
      by_cases d2 : sign y = 1
      · rw [if_pos d2, if_pos (by simp [d3, d2])]
      · rw [if_neg d2, if_neg (by simp [d3, d2])]
    · rw [if_neg (show ¬ mag x / 2 ^ 32 < 0x3fefffff by omega)]
      by_cases d4 : 0x3ff0000100000000 ≤ mag x
      · rw [if_pos (show mag x / 2 ^ 32 > 0x3ff00000 by omega),
          if_pos (show 0x41e0000100000000 ≤ mag y ∧ (mag x < 0x3fefffff00000000 ∨ 0x3ff0000100000000 ≤ mag x) ∨ 0x43f0000100000000 ≤ mag y by omega)]
        have d3 : ¬ mag x < one := by omega
        congr 1
        by_cases d2 : sign y = 1
        · rw [if_neg (show ¬ (sign y = 0 ∧ mag y / 2 ^ 32 ≠ 0) by omega), if_neg (by simp [d3, d2])]
        · rw [if_pos (show sign y = 0 ∧ mag y / 2 ^ 32 ≠ 0 by omega), if_pos (by simp [d3, d2])]
      · rw [if_neg (show ¬ mag x / 2 ^ 32 > 0x3ff00000 by omega),
          if_neg (show ¬ (0x41e0000100000000 ≤ mag y ∧ (mag x < 0x3fefffff00000000 ∨ 0x3ff0000100000000 ≤ mag x) ∨ 0x43f0000100000000 ≤ mag y) by omega)]

end Pok.Libm
