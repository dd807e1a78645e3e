import Verif.Lemmas.PowCases
import Mathlib.Analysis.SpecialFunctions.Pow.Real
import Mathlib.Analysis.Complex.ExponentialBounds
/-!
# C122: the power function where the answer is known

libpok/libm/e_pow.c and pow.c.  The approximation of `|x|^y` is any function `core`: nothing here depends on it.
-/
namespace Pok.Libm
open Pok.Float Pok.Fpu

/-- **C122**: `pow(x, ±0)` is 1 for every `x`. -/
theorem C122_zero_exponent (core : Nat → Nat → PowCore) {x y : Nat} (hx : x < 2 ^ 64) (hy : y < 2 ^ 64) (h : IsZero y) : pow core x y = unit := by
  rw [pow_eq core hx hy, if_pos ((zero_iff y).1 h)]; rfl

theorem nan_mag {a : Nat} : isNaN a = true ↔ inf < mag a := by
  unfold isNaN; simp

/-- **C122**: with an argument that is not a number the result is not a number, unless the exponent is zero. -/
theorem C122_nan (core : Nat → Nat → PowCore) {x y : Nat} (hx : x < 2 ^ 64) (hy : y < 2 ^ 64) (h0 : ¬ IsZero y) (h : IsNaN x ∨ IsNaN y) :
    IsNaN (pow core x y) := by
  rw [zero_iff] at h0
  rw [nan_iff, nan_iff] at h
  rw [pow_eq core hx hy, if_neg h0, if_pos h]
  unfold add
  split
  · next c => exact quiet_nan ((nan_iff x).2 (nan_mag.1 c))
  · next c =>
    have g := h.resolve_left (fun g => c (nan_mag.2 g))
    rw [if_pos (nan_mag.2 g)]
    exact quiet_nan ((nan_iff y).2 g)

/-- **C122**: an infinite exponent.  Magnitudes above one go to infinity or to zero, magnitudes below one to zero or to infinity; `±1` gives no
number. -/
theorem C122_infinite_exponent (core : Nat → Nat → PowCore) {x y : Nat} (hx : x < 2 ^ 64) (hy : y < 2 ^ 64) (h : IsInf y) (hn : ¬ IsNaN x) :
    ((AboveOne x ∧ sign y = 0 ∨ BelowOne x ∧ sign y = 1) → IsInf (pow core x y) ∧ sign (pow core x y) = 0) ∧
    ((AboveOne x ∧ sign y = 1 ∨ BelowOne x ∧ sign y = 0) → IsZero (pow core x y) ∧ sign (pow core x y) = 0) ∧
    (|value x| = 1 → IsFinite x → IsNaN (pow core x y)) := by
  rw [inf_iff] at h
  rw [nan_iff] at hn
  have ho : one < inf := by decide
  have hi0 : inf ≠ 0 := by decide
  obtain ⟨c1, c2, c3⟩ := abs_cmp hx
  have e := pow_eq core hx hy
  rw [if_neg (by omega), if_neg (by omega), if_pos h] at e
  have ri : IsInf inf ∧ sign inf = 0 := by decide
  have rz : IsZero 0 ∧ sign 0 = 0 := by decide
  have up : AboveOne x ↔ one < mag x := by
    unfold AboveOne
    rw [inf_iff, finite_iff, c1]; omega
  have lw : BelowOne x ↔ mag x < one := by
    unfold BelowOne
    rw [finite_iff, c2]; omega
  rw [up, lw, c3, e]
  refine ⟨?_, ?_, ?_⟩
  · rintro (⟨g1, g2⟩ | ⟨g1, g2⟩)
    · rw [if_neg (by omega), if_pos g1, if_neg (by omega)]; exact ri
    · rw [if_neg (by omega), if_neg (by omega), if_pos g2]; exact ri
  · rintro (⟨g1, g2⟩ | ⟨g1, g2⟩)
    · rw [if_neg (by omega), if_pos g1, if_pos g2]; exact rz
    · rw [if_neg (by omega), if_neg (by omega), if_neg (by omega)]; exact rz
  · intro g _
    rw [if_pos g]
    decide

/-! ### Zero and infinite bases -/

theorem div_one_zero {s : Nat} (hs : s < 2) : div one (s * 2 ^ 63 + 0) = s * 2 ^ 63 + inf := by
  rcases (by omega : s = 0 ∨ s = 1) with rfl | rfl <;> decide +kernel

theorem div_one_inf {s : Nat} (hs : s < 2) : div one (s * 2 ^ 63 + inf) = s * 2 ^ 63 + 0 := by
  rcases (by omega : s = 0 ∨ s = 1) with rfl | rfl <;> decide +kernel

open scoped Classical in
/-- Bases zero (`a = 0`, `b = inf`) and infinite (`a = inf`, `b = 0`) at once: the result has magnitude `a` or `b`. -/
theorem pow_extreme (core : Nat → Nat → PowCore) {x y a b : Nat} (hx : x < 2 ^ 64) (hy : y < 2 ^ 64) (hab : a = 0 ∧ b = inf ∨ a = inf ∧ b = 0)
    (hm : mag x = a) (h0 : mag y ≠ 0) (hn : mag y ≤ inf) :
    pow core x y = (if sign x = 1 ∧ IsOdd y then 1 else 0) * 2 ^ 63 + (if sign y = 1 then b else a) := by
  have hsx := sign_lt x
  have hsy := sign_lt y
  have ho : one = 1023 * 2 ^ 52 := rfl
  have hin : inf = 2047 * 2 ^ 52 := rfl
  have hself := self_eq hx
  have dv : ∀ s, s < 2 → div one (s * 2 ^ 63 + a) = s * 2 ^ 63 + b := by
    intro s hs
    rcases hab with ⟨rfl, rfl⟩ | ⟨rfl, rfl⟩
    · exact div_one_zero hs
    · exact div_one_inf hs
  rw [pow_eq core hx hy, if_neg h0, if_neg (by omega)]
  by_cases c1 : mag y = inf
  · have no : ¬ IsOdd y := by
      rintro ⟨hf, _⟩
      rw [finite_iff] at hf
      omega
    rw [if_pos c1, if_neg (show ¬ (sign x = 1 ∧ IsOdd y) from fun h => no h.2), if_neg (show ¬ mag x = one by omega), Nat.zero_mul, Nat.zero_add, hm]
    rcases hab with ⟨rfl, rfl⟩ | ⟨rfl, rfl⟩
    · rw [if_neg (by omega)]
    · rw [if_pos (by omega)]
  rw [if_neg c1]
  have hodd := intM_one hy h0 (by omega)
  by_cases c2 : mag y = one
  · have : IsOdd y := by
      rw [← hodd, c2]; decide
    rw [if_pos c2]
    simp only [this, and_true]
    have e : (if sign x = 1 then 1 else 0) = sign x := by split <;> omega
    rw [e]
    by_cases d : sign y = 1
    · rw [if_pos d, if_pos d]
      have := dv _ hsx
      rwa [← hm, ← hself] at this
    · rw [if_neg d, if_neg d]; omega
  rw [if_neg c2]
  by_cases c3 : y = 0x4000000000000000
  · have no : ¬ IsOdd y := by rw [← hodd, c3]; decide
    have sy : sign y = 0 := by rw [c3]; decide
    rw [if_pos c3, if_neg (show ¬ (sign x = 1 ∧ IsOdd y) from fun h => no h.2), if_neg (show ¬ sign y = 1 by omega), Nat.zero_mul, Nat.zero_add, hself, hm]
    rcases (by omega : sign x = 0 ∨ sign x = 1) with d | d <;> rcases hab with ⟨rfl, rfl⟩ | ⟨rfl, rfl⟩ <;> rw [d] <;> decide +kernel
  rw [if_neg c3]
  by_cases c4 : y = 0x3fe0000000000000 ∧ sign x = 0
  · have sy : sign y = 0 := by rw [c4.1]; decide
    rw [if_pos c4, if_neg (by omega), if_neg (by omega), Nat.zero_mul, Nat.zero_add]
    have sp := C91_sqrt_special hx
    have e : sqrt x = x := by
      rcases hab with ⟨rfl, rfl⟩ | ⟨rfl, rfl⟩
      · exact sp.1 ((zero_iff x).2 hm)
      · exact sp.2.1 ((inf_iff x).2 hm) c4.2
    rw [e]; omega
  rw [if_neg c4, if_pos (by omega), hm]
  have dz : (if sign y = 1 then div one a else a) = if sign y = 1 then b else a := by
    have := dv 0 (by omega)
    rw [Nat.zero_mul, Nat.zero_add, Nat.zero_add] at this
    rw [this]
  rw [dz]
  by_cases d : sign x = 1
  · rw [if_pos d, if_neg (by omega)]
    by_cases o : IsOdd y
    · rw [if_pos (hodd.2 o), if_pos (show sign x = 1 ∧ IsOdd y from ⟨d, o⟩), Nat.one_mul]
      have hb : (if sign y = 1 then b else a) < 2 ^ 63 := by split <;> omega
      have := negate_make (s := 0) (by omega) hb
      rw [Nat.zero_mul, Nat.zero_add] at this
      simpa using this
    · rw [if_neg (fun h => o (hodd.1 h)), if_neg (show ¬ (sign x = 1 ∧ IsOdd y) from fun h => o h.2), Nat.zero_mul, Nat.zero_add]; rfl
  · rw [if_neg d, if_neg (show ¬ (sign x = 1 ∧ IsOdd y) from fun h => d h.1), Nat.zero_mul, Nat.zero_add]

theorem kind_make {s m : Nat} (hs : s < 2) (hm : m = 0 ∨ m = inf) :
    sign (s * 2 ^ 63 + m) = s ∧ (IsZero (s * 2 ^ 63 + m) ↔ m = 0) ∧ (IsInf (s * 2 ^ 63 + m) ↔ m = inf) := by
  have hin : inf = 2047 * 2 ^ 52 := rfl
  have hl : m < 2 ^ 63 := by omega
  rw [zero_iff, inf_iff, mag_make hl, sign_make hs hl]
  simp

open scoped Classical in
/-- **C122**: a zero base.  Positive exponents give zero, negative ones infinity; the sign is that of the base for odd exponents, positive for all
others. -/
theorem C122_zero_base (core : Nat → Nat → PowCore) {x y : Nat} (hx : x < 2 ^ 64) (hy : y < 2 ^ 64) (h : IsZero x) (h0 : ¬ IsZero y)
    (hn : ¬ IsNaN y) :
    (sign y = 0 → IsZero (pow core x y)) ∧ (sign y = 1 → IsInf (pow core x y)) ∧ (sign (pow core x y) = 1 ↔ sign x = 1 ∧ IsOdd y) := by
  rw [zero_iff] at h h0
  rw [nan_iff] at hn
  rw [pow_extreme core hx hy (Or.inl ⟨rfl, rfl⟩) h h0 (by omega)]
  obtain ⟨k1, k2, k3⟩ := kind_make (s := if sign x = 1 ∧ IsOdd y then 1 else 0) (m := if sign y = 1 then inf else 0) (by split <;> omega)
    (by split <;> simp)
  rw [k1, k2, k3]
  refine ⟨fun g => by rw [if_neg (by omega)], fun g => by rw [if_pos g], ?_⟩
  split <;> simp_all

open scoped Classical in
/-- **C122**: an infinite base.  Positive exponents give infinity, negative ones zero; the sign is that of the base for odd exponents, positive for
all others. -/
theorem C122_infinite_base (core : Nat → Nat → PowCore) {x y : Nat} (hx : x < 2 ^ 64) (hy : y < 2 ^ 64) (h : IsInf x) (h0 : ¬ IsZero y)
    (hn : ¬ IsNaN y) :
    (sign y = 0 → IsInf (pow core x y)) ∧ (sign y = 1 → IsZero (pow core x y)) ∧ (sign (pow core x y) = 1 ↔ sign x = 1 ∧ IsOdd y) := by
  rw [inf_iff] at h
  rw [zero_iff] at h0
  rw [nan_iff] at hn
  rw [pow_extreme core hx hy (Or.inr ⟨rfl, rfl⟩) h h0 (by omega)]
  obtain ⟨k1, k2, k3⟩ := kind_make (s := if sign x = 1 ∧ IsOdd y then 1 else 0) (m := if sign y = 1 then 0 else inf) (by split <;> omega)
    (by split <;> simp)
  rw [k1, k2, k3]
  refine ⟨fun g => by rw [if_neg (by omega)], fun g => by rw [if_pos g], ?_⟩
  split <;> simp_all

/-! ### Negative bases -/

/-- **C122**: a negative number to an exponent that is not a whole number is not a number. -/
theorem C122_domain (core : Nat → Nat → PowCore) {x y : Nat} (hx : x < 2 ^ 64) (hy : y < 2 ^ 64) (fx : IsFinite x) (sx : sign x = 1)
    (h0 : ¬ IsZero x) (fy : IsFinite y) (hw : ¬ IsWhole y) : IsNaN (pow core x y) := by
  rw [finite_iff] at fx fy
  rw [zero_iff] at h0
  have hin : inf = 2047 * 2 ^ 52 := rfl
  have ho : one = 1023 * 2 ^ 52 := rfl
  have y0 : mag y ≠ 0 := by
    intro h
    apply hw
    refine ⟨(finite_iff y).2 fy, 0, ?_⟩
    rw [value_self hy, h]; simp [units]
  have hi := (intM_zero hy y0 fy).2 hw
  have rn : IsNaN nan := by decide
  have n1 : intM one = 1 := by decide
  have n2 : intM (mag 0x4000000000000000) = 2 := by decide
  rw [pow_eq core hx hy, if_neg y0, if_neg (by omega), if_neg (by omega), if_neg (fun h => by rw [h, n1] at hi; omega),
    if_neg (fun h => by rw [h, n2] at hi; omega), if_neg (by omega)]
  by_cases c : mag x = inf ∨ mag x = 0 ∨ mag x = one
  · rw [if_pos c, if_pos sx, if_pos ⟨by omega, hi⟩]; exact rn
  · rw [if_neg c, if_pos ⟨sx, hi⟩]; exact rn

theorem mul_one_make {s z : Nat} (hs : s < 2) (hz : z < 2 ^ 64) (hn : mag z ≤ inf) :
    mul (s * 2 ^ 63 + one) z = ((s + sign z) % 2) * 2 ^ 63 + mag z := by
  rcases Nat.lt_or_eq_of_le hn with h | h
  · have e := mul_make hs (sign_lt z) (show one < inf by decide) h
    rw [← self_eq hz] at e
    rw [e, units_one', Nat.mul_comm (2 ^ 1074), roundMag_exact 1074 hn]
  · have e := self_eq hz
    have := sign_lt z
    rw [e, h]
    have k : mag (sign z * 2 ^ 63 + inf) = inf := mag_make inf_lt
    have k' : sign (sign z * 2 ^ 63 + inf) = sign z := sign_make this inf_lt
    rw [k, k']
    rcases (by omega : s = 0 ∨ s = 1) with rfl | rfl <;> rcases (by omega : sign z = 0 ∨ sign z = 1) with d | d <;> rw [d] <;> decide +kernel

theorem negate_eq {a : Nat} (ha : a < 2 ^ 64) : negate a = (1 - sign a) * 2 ^ 63 + mag a := by
  have := negate_make (sign_lt a) (mag_lt a)
  rwa [← self_eq ha] at this

/-- Multiplied by `-1` instead of by 1. -/
theorem powEnd_neg {q : PowCore} (hq : ∀ z, q = .val z → z < 2 ^ 64) :
    powEnd (negate one) q = negate (powEnd one q) ∨ (IsNaN (powEnd (negate one) q) ∧ IsNaN (powEnd one q)) := by
  have e1 : negate one = 1 * 2 ^ 63 + one := by decide
  have e0 : one = 0 * 2 ^ 63 + one := by decide
  cases q with
  | over => left; decide +kernel
  | under => left; decide +kernel
  | val z =>
    have hz := hq z rfl
    have hs := sign_lt z
    have hm := mag_lt z
    show mul (negate one) z = negate (mul one z) ∨ (IsNaN (mul (negate one) z) ∧ IsNaN (mul one z))
    by_cases hn : mag z ≤ inf
    · left
      rw [e1, mul_one_make (by omega) hz hn]
      conv_rhs => rw [e0]
      rw [mul_one_make (by omega) hz hn, negate_make (by omega) hm, show (1 + sign z) % 2 = 1 - (0 + sign z) % 2 by omega]
    · right
      have hz' : isNaN z = true := by unfold isNaN; simpa using hn
      have a : isNaN one = false := by decide
      have b : isNaN (negate one) = false := by decide
      unfold mul
      rw [a, b, hz']
      simp only [Bool.false_eq_true, if_false, if_true]
      exact ⟨quiet_nan ((nan_iff z).2 (nan_mag.1 hz')), quiet_nan ((nan_iff z).2 (nan_mag.1 hz'))⟩

theorem div_negate {x : Nat} (hx : x < 2 ^ 63) (hn : x ≤ inf) : div one (2 ^ 63 + x) = negate (div one x) := by
  have hin : inf = 2047 * 2 ^ 52 := rfl
  rcases Nat.eq_zero_or_pos x with h | h
  · subst h; decide +kernel
  rcases Nat.lt_or_eq_of_le hn with h1 | h1
  · have a := div_make (s := 0) (t := 1) (by omega) (by omega) (show one < inf by decide) h1 h.ne'
    have b := div_make (s := 0) (t := 0) (by omega) (by omega) (show one < inf by decide) h1 h.ne'
    rw [Nat.zero_mul, Nat.zero_add, Nat.one_mul] at a
    rw [Nat.zero_mul, Nat.zero_add, show 0 + x = x by omega] at b
    rw [a, b]
    generalize (2 * (units one * 2 ^ 1075 / units x) + if units one * 2 ^ 1075 % units x = 0 then 0 else 1) = n
    have : roundMag n 2 ≤ inf := by unfold roundMag; exact Nat.min_le_right _ _
    have := negate_make (s := 0) (m := roundMag n 2) (by omega) (by omega)
    rw [Nat.zero_mul] at this
    rw [this]; omega
  · subst h1; decide +kernel

/-- **C122**: a change of the sign of the base changes the sign of the result when the exponent is odd, and nothing when it is even.  (If the
approximation goes wrong and gives no number, it does so for both.) -/
theorem C122_sign (core : Nat → Nat → PowCore) (hcore : ∀ a b z, core a b = .val z → z < 2 ^ 64) {x y : Nat} (hx : x < 2 ^ 63) (hy : y < 2 ^ 64)
    (hn : ¬ IsNaN x) (hw : IsWhole y) (h0 : ¬ IsZero y) :
    (¬ IsOdd y → pow core (2 ^ 63 + x) y = pow core x y) ∧
    (IsOdd y → pow core (2 ^ 63 + x) y = negate (pow core x y) ∨ (IsNaN (pow core (2 ^ 63 + x) y) ∧ IsNaN (pow core x y))) := by
  have fy := (finite_iff y).1 hw.1
  rw [zero_iff] at h0
  rw [nan_iff] at hn
  have hin : inf = 2047 * 2 ^ 52 := rfl
  have ho : one = 1023 * 2 ^ 52 := rfl
  have hx' : 2 ^ 63 + x < 2 ^ 64 := by omega
  have m1 : mag (2 ^ 63 + x) = x := by unfold mag; omega
  have m0 : mag x = x := by unfold mag; omega
  have s1 : sign (2 ^ 63 + x) = 1 := by unfold sign; omega
  have s0 : sign x = 0 := by unfold sign; omega
  rw [m0] at hn
  have i0 : intM (mag y) ≠ 0 := fun h => (intM_zero hy h0 fy).1 h hw
  have i1 := intM_one hy h0 fy
  have half : y ≠ 0x3fe0000000000000 := by
    intro h
    rw [h] at i0
    exact i0 (by decide)
  have e1 := pow_eq core hx' hy
  have e0 := pow_eq core (show x < 2 ^ 64 by omega) hy
  rw [m1, s1, if_neg h0, if_neg (by omega), if_neg (by omega)] at e1
  rw [m0, s0, if_neg h0, if_neg (by omega), if_neg (by omega)] at e0
  have zb : ∀ {q : PowCore}, q = core x y → ∀ z, q = .val z → z < 2 ^ 64 := fun h z hz => hcore x y z (by rw [← h, hz])
  by_cases c1 : mag y = one
  · have od : IsOdd y := by rw [← i1, c1]; decide
    refine ⟨fun h => absurd od h, fun _ => Or.inl ?_⟩
    rw [if_pos c1] at e0 e1
    rw [e0, e1]
    by_cases d : sign y = 1
    · rw [if_pos d, if_pos d, div_negate hx (by omega)]
    · rw [if_neg d, if_neg d, negate_eq (by omega), m0, s0]; omega
  rw [if_neg c1] at e0 e1
  by_cases c2 : y = 0x4000000000000000
  · have no : ¬ IsOdd y := by rw [← i1, c2]; decide
    refine ⟨fun _ => ?_, fun h => absurd h no⟩
    rw [if_pos c2] at e0 e1
    rw [e0, e1]
    rcases Nat.lt_or_eq_of_le (Nat.not_lt.1 hn) with h | h
    · have a := mul_make (s := 1) (t := 1) (by omega) (by omega) h h
      have b := mul_make (s := 0) (t := 0) (by omega) (by omega) h h
      simp only [Nat.one_mul, Nat.zero_mul, Nat.zero_add] at a b
      rw [a, b]
    · subst h; decide +kernel
  rw [if_neg c2, if_neg (fun h => half h.1)] at e0 e1
  by_cases c3 : x = inf ∨ x = 0 ∨ x = one
  · rw [if_pos c3] at e0 e1
    simp only [if_true, Nat.zero_ne_one, if_false] at e0 e1
    rw [if_neg (fun h => i0 h.2)] at e1
    rw [e0, e1]
    constructor
    · intro h
      rw [if_neg (fun g => h (i1.1 g))]; rfl
    · intro h
      left
      rw [if_pos (i1.2 h)]
  rw [if_neg c3, if_neg (fun h => i0 h.2)] at e0 e1
  simp only [true_and, Nat.zero_ne_one, false_and, if_false] at e0 e1
  rw [e0, e1]
  constructor
  · intro h
    rw [if_neg (fun g => h (i1.1 g))]
  · intro h
    rw [if_pos (i1.2 h)]
    apply powEnd_neg
    intro z hz
    split at hz
    · split at hz <;> cases hz
    · exact hcore _ _ _ hz

/-! ### Exponents for which the result is exact or correctly rounded -/

theorem of_value {y s c : Nat} (hy : y < 2 ^ 64) (hs : s < 2) (c0 : c ≠ 0)
    (v : value y = (-1) ^ s * ((units c : ℚ) / 2 ^ 1074)) : y = s * 2 ^ 63 + c := by
  have a := abs_value' hy
  have up : (0 : ℚ) < (units c : ℚ) / 2 ^ 1074 := by
    have : 0 < units c := by
      rw [Nat.pos_iff_ne_zero, Ne, units_eq_zero]; exact c0
    positivity
  have ab : |(-1 : ℚ) ^ s * ((units c : ℚ) / 2 ^ 1074)| = (units c : ℚ) / 2 ^ 1074 := by
    rw [abs_mul, abs_pow, abs_neg, abs_one, one_pow, one_mul, abs_of_pos up]
  rw [v, ab, div_left_inj' (by positivity), Nat.cast_inj, units_inj] at a
  have w := value_self hy
  rw [v, ← a] at w
  have hs' := sign_lt y
  have e : sign y = s := by
    rcases (by omega : s = 0 ∨ s = 1) with rfl | rfl <;> rcases (by omega : sign y = 0 ∨ sign y = 1) with d | d <;> rw [d] at w ⊢ <;> exfalso <;>
      revert w up <;> generalize (units c : ℚ) / 2 ^ 1074 = q <;> intro up w <;> simp at w <;> linarith
  have := self_eq hy
  rw [e, ← a] at this
  exact this

theorem ratio (k j : Nat) : (2 : ℚ) ^ k / 2 ^ (k + j) = 1 / 2 ^ j := by
  rw [pow_add]; field_simp

theorem ratio' (k j : Nat) : (2 : ℚ) ^ (k + j) / 2 ^ k = 2 ^ j := by
  rw [pow_add]; field_simp

theorem one_eq' : ((units one : ℕ) : ℚ) / 2 ^ 1074 = 1 := by
  rw [units_one']; push_cast; exact div_self (by positivity)

theorem two_eq : ((units 0x4000000000000000 : ℕ) : ℚ) / 2 ^ 1074 = 2 := by
  have := units_make (a := 1024) (f := 0) (by omega) (by omega)
  rw [show (0x4000000000000000 : ℕ) = 1024 * 2 ^ 52 + 0 by norm_num, this]
  push_cast
  rw [mul_div_assoc, show (1074 : ℕ) = 1023 + 51 by norm_num, ratio]
  norm_num

theorem half_eq : ((units 0x3fe0000000000000 : ℕ) : ℚ) / 2 ^ 1074 = 1 / 2 := by
  have := units_make (a := 1022) (f := 0) (by omega) (by omega)
  rw [show (0x3fe0000000000000 : ℕ) = 1022 * 2 ^ 52 + 0 by norm_num, this]
  push_cast
  rw [mul_div_assoc, show (1074 : ℕ) = 1021 + 53 by norm_num, ratio]
  norm_num

/-- **C122**: to the exponent 1, the base itself; to the exponent -1, the reciprocal correctly rounded; to the exponent 2, the square correctly
rounded. -/
theorem C122_exact (core : Nat → Nat → PowCore) {x y : Nat} (hx : x < 2 ^ 64) (hy : y < 2 ^ 64) :
    (¬ IsNaN x → value y = 1 → pow core x y = x) ∧
    (IsFinite x → ¬ IsZero x → value y = -1 → Rounded (1 / value x) (sign x) (pow core x y)) ∧
    (IsFinite x → value y = 2 → Rounded (value x ^ 2) 0 (pow core x y)) := by
  have hin : inf = 2047 * 2 ^ 52 := rfl
  have ho : one = 1023 * 2 ^ 52 := rfl
  have hsx := sign_lt x
  refine ⟨fun hn v => ?_, fun fx x0 v => ?_, fun fx v => ?_⟩
  · have e := of_value (s := 0) (c := one) hy (by omega) (by decide) (by rw [v, one_eq']; norm_num)
    rw [Nat.zero_mul, Nat.zero_add] at e
    rw [nan_iff] at hn
    have m : mag y = one := by rw [e]; decide
    have s : sign y = 0 := by rw [e]; decide
    rw [pow_eq core hx hy, m, s, if_neg (by omega), if_neg (by omega), if_neg (by omega), if_pos rfl, if_neg (by omega)]
  · have e := of_value (s := 1) (c := one) hy (by omega) (by decide) (by rw [v, one_eq']; norm_num)
    have fx' := (finite_iff x).1 fx
    have m : mag y = one := by rw [e]; decide
    have s : sign y = 1 := by rw [e]; decide
    rw [pow_eq core hx hy, m, s, if_neg (by omega), if_neg (by omega), if_neg (by omega), if_pos rfl, if_pos rfl]
    have r := fpu_div (a := one) (by decide) hx (by decide) fx x0
    have v1 : value one = 1 := by
      rw [value_self (by decide), show mag one = one by decide, one_eq', show sign one = 0 by decide]; norm_num
    rwa [v1, show sign one = 0 by decide, Nat.zero_add, Nat.mod_eq_of_lt hsx] at r
  · have e := of_value (s := 0) (c := 0x4000000000000000) hy (by omega) (by decide) (by rw [v, two_eq]; norm_num)
    rw [Nat.zero_mul, Nat.zero_add] at e
    have fx' := (finite_iff x).1 fx
    have m : mag y = 0x4000000000000000 := by rw [e]; decide
    rw [pow_eq core hx hy, m, if_neg (by omega), if_neg (by omega), if_neg (by omega), if_neg (by omega), if_pos e]
    have r := fpu_mul hx hx fx fx
    rwa [← pow_two, show (sign x + sign x) % 2 = 0 by omega] at r

/-- **C122**: to the exponent 1/2, the square root correctly rounded: no other double is as near. -/
theorem C122_root (core : Nat → Nat → PowCore) {x y : Nat} (hx : x < 2 ^ 64) (hy : y < 2 ^ 64) (fx : IsFinite x) (sx : sign x = 0) (x0 : ¬ IsZero x)
    (v : value y = 1 / 2) :
    IsFinite (pow core x y) ∧ sign (pow core x y) = 0
    ∧ ∀ d, d < 2 ^ 64 → IsFinite d → value d ≠ value (pow core x y) →
      |((value (pow core x y) : ℚ) : ℝ) - Real.sqrt ((value x : ℚ) : ℝ)| < |((value d : ℚ) : ℝ) - Real.sqrt ((value x : ℚ) : ℝ)| := by
  have hin : inf = 2047 * 2 ^ 52 := rfl
  have ho : one = 1023 * 2 ^ 52 := rfl
  have e := of_value (s := 0) (c := 0x3fe0000000000000) hy (by omega) (by decide) (by rw [v, half_eq]; norm_num)
  rw [Nat.zero_mul, Nat.zero_add] at e
  have fx' := (finite_iff x).1 fx
  have m : mag y = 0x3fe0000000000000 := by rw [e]; decide
  have p : pow core x y = sqrt x := by
    rw [pow_eq core hx hy, m, if_neg (by omega), if_neg (by omega), if_neg (by omega), if_neg (by omega), if_neg (by omega), if_pos ⟨e, sx⟩]
  rw [p]
  exact (C91_sqrt hx fx sx x0).2

/-- **C122**: the base 1 gives 1 for every finite exponent. -/
theorem C122_one (core : Nat → Nat → PowCore) {x y : Nat} (hx : x < 2 ^ 64) (hy : y < 2 ^ 64) (v : value x = 1) (fy : IsFinite y) :
    pow core x y = unit := by
  have hin : inf = 2047 * 2 ^ 52 := rfl
  have ho : one = 1023 * 2 ^ 52 := rfl
  have hu : unit = one := rfl
  have e := of_value (s := 0) (c := one) hx (by omega) (by decide) (by rw [v, one_eq']; norm_num)
  rw [Nat.zero_mul, Nat.zero_add] at e
  rw [finite_iff] at fy
  have d : div one one = one := by decide +kernel
  have q : mul one one = one := by decide +kernel
  have r : sqrt one = one := by decide +kernel
  have m : mag x = one := by rw [e]; decide
  have s : sign x = 0 := by rw [e]; decide
  rw [pow_eq core hx hy, m, s, hu, e, d, q, r]
  simp only [or_true, if_true, Nat.zero_ne_one, if_false, ite_self]
  rw [if_neg (show ¬ (inf < one ∨ inf < mag y) by omega), if_neg (show ¬ mag y = inf by omega)]
  simp

/-! ### Powers out of range -/

theorem cmp_le {x c : Nat} (hx : x < 2 ^ 64) : (units c : ℚ) / 2 ^ 1074 ≤ |value x| ↔ c ≤ mag x := by
  rw [abs_value' hx, div_le_div_iff_of_pos_right (by positivity), Nat.cast_le, units_le]

theorem cmp_lt {x c : Nat} (hx : x < 2 ^ 64) : |value x| < (units c : ℚ) / 2 ^ 1074 ↔ mag x < c := by
  rw [← not_le, cmp_le hx, Nat.not_le]

theorem c31 : ((units 0x41e0000100000000 : ℕ) : ℚ) / 2 ^ 1074 = 2 ^ 31 * (1 + 1 / 2 ^ 20) := by
  rw [show (0x41e0000100000000 : ℕ) = 1054 * 2 ^ 52 + 2 ^ 32 by norm_num, units_make (by omega) (by norm_num)]
  push_cast
  rw [mul_div_assoc, show (1074 : ℕ) = 1053 + 21 by norm_num, ratio]
  norm_num

theorem c64 : ((units 0x43f0000100000000 : ℕ) : ℚ) / 2 ^ 1074 = 2 ^ 64 * (1 + 1 / 2 ^ 20) := by
  rw [show (0x43f0000100000000 : ℕ) = 1087 * 2 ^ 52 + 2 ^ 32 by norm_num, units_make (by omega) (by norm_num)]
  push_cast
  rw [mul_div_assoc, show (1086 : ℕ) = 1074 + 12 by norm_num, ratio']
  norm_num

theorem clo : ((units 0x3fefffff00000000 : ℕ) : ℚ) / 2 ^ 1074 = 1 - 1 / 2 ^ 21 := by
  rw [show (0x3fefffff00000000 : ℕ) = 1022 * 2 ^ 52 + (2 ^ 52 - 2 ^ 32) by norm_num, units_make (by omega) (by norm_num)]
  rw [show (2 ^ 52 + (2 ^ 52 - 2 ^ 32) : ℕ) = 9007194959773696 by norm_num]
  push_cast
  rw [mul_div_assoc, show (1074 : ℕ) = 1021 + 53 by norm_num, ratio]
  norm_num

theorem chi : ((units 0x3ff0000100000000 : ℕ) : ℚ) / 2 ^ 1074 = 1 + 1 / 2 ^ 20 := by
  rw [show (0x3ff0000100000000 : ℕ) = 1023 * 2 ^ 52 + 2 ^ 32 by norm_num, units_make (by omega) (by norm_num)]
  push_cast
  rw [mul_div_assoc, show (1074 : ℕ) = 1022 + 52 by norm_num, ratio]
  norm_num

theorem cup : ((units (one + 1) : ℕ) : ℚ) / 2 ^ 1074 = 1 + 1 / 2 ^ 52 := by
  rw [show (one + 1 : ℕ) = 1023 * 2 ^ 52 + 1 from rfl, units_make (by omega) (by norm_num)]
  push_cast
  rw [mul_div_assoc, show (1074 : ℕ) = 1022 + 52 by norm_num, ratio]
  norm_num

theorem cdn : ((units (one - 1) : ℕ) : ℚ) / 2 ^ 1074 = 1 - 1 / 2 ^ 53 := by
  rw [show (one - 1 : ℕ) = 1022 * 2 ^ 52 + (2 ^ 52 - 1) by decide, units_make (by omega) (by norm_num)]
  rw [show (2 ^ 52 + (2 ^ 52 - 1) : ℕ) = 9007199254740991 by norm_num]
  push_cast
  rw [mul_div_assoc, show (1074 : ℕ) = 1021 + 53 by norm_num, ratio]
  norm_num

theorem exp_big {t : ℝ} (h : 1024 ≤ t) : (2 : ℝ) ^ 1280 ≤ Real.exp t := by
  have e : Real.exp 1024 = Real.exp 1 ^ 1024 := by rw [← Real.exp_nat_mul]; norm_num
  have g := Real.exp_one_gt_d9
  have p : (2 : ℝ) ^ 5 ≤ Real.exp 1 ^ 4 := by
    calc (2 : ℝ) ^ 5 ≤ 2.7 ^ 4 := by norm_num
      _ ≤ _ := pow_le_pow_left₀ (by norm_num) (by linarith) 4
  calc (2 : ℝ) ^ 1280 = (2 ^ 5) ^ 256 := by rw [← pow_mul]
    _ ≤ (Real.exp 1 ^ 4) ^ 256 := pow_le_pow_left₀ (by norm_num) p 256
    _ = Real.exp 1024 := by rw [← pow_mul, e]
    _ ≤ _ := Real.exp_le_exp.2 h

theorem two_le (a b : Nat) (h : a ≤ b) : (2 : ℝ) ^ a ≤ 2 ^ b := pow_le_pow_right₀ (by norm_num) h

theorem rpow_big {a b : ℝ} (ha : 0 < a) (h : 1024 ≤ Real.log a * b) : (2 : ℝ) ^ 1024 ≤ a ^ b := by
  rw [Real.rpow_def_of_pos ha]
  exact le_trans (two_le _ _ (by norm_num)) (exp_big h)

theorem rpow_small {a b : ℝ} (ha : 0 < a) (h : Real.log a * b ≤ -1024) : a ^ b < 1 / (2 : ℝ) ^ 1075 := by
  rw [Real.rpow_def_of_pos ha]
  have g := exp_big (t := -(Real.log a * b)) (by linarith)
  rw [Real.exp_neg] at g
  have p := Real.exp_pos (Real.log a * b)
  rw [lt_div_iff₀ (by positivity)]
  have q : (2 : ℝ) ^ 1075 < 2 ^ 1280 := pow_lt_pow_right₀ (by norm_num) (by norm_num)
  calc Real.exp (Real.log a * b) * 2 ^ 1075 < Real.exp (Real.log a * b) * 2 ^ 1280 := by gcongr
    _ ≤ Real.exp (Real.log a * b) * (Real.exp (Real.log a * b))⁻¹ := by gcongr
    _ = 1 := mul_inv_cancel₀ p.ne'

/-- The logarithm of a number at a distance from one. -/
theorem log_far {a B : ℝ} (ha : 0 < a) (h : (B ≥ 2 ^ 31 * (1 + 1 / 2 ^ 20) ∧ (a < 1 - 1 / 2 ^ 21 ∨ 1 + 1 / 2 ^ 20 ≤ a)) ∨
    (B ≥ 2 ^ 64 * (1 + 1 / 2 ^ 20) ∧ (a ≤ 1 - 1 / 2 ^ 53 ∨ 1 + 1 / 2 ^ 52 ≤ a))) :
    (a < 1 → Real.log a * B ≤ -1024) ∧ (1 < a → 1024 ≤ Real.log a * B) := by
  have B0 : 0 ≤ B := by
    rcases h with ⟨h, _⟩ | ⟨h, _⟩ <;> norm_num at h <;> linarith
  have u := Real.log_le_sub_one_of_pos ha
  have l := Real.one_sub_inv_le_log_of_pos ha
  constructor
  · intro g
    have m : Real.log a * B ≤ (a - 1) * B := mul_le_mul_of_nonneg_right u B0
    have : (a - 1) * B ≤ -1024 := by
      rcases h with ⟨h, h1 | h1⟩ | ⟨h, h1 | h1⟩
      · norm_num at h h1; nlinarith
      · norm_num at h1; linarith
      · norm_num at h h1; nlinarith
      · norm_num at h1; linarith
    linarith
  · intro g
    have m : (1 - a⁻¹) * B ≤ Real.log a * B := mul_le_mul_of_nonneg_right l B0
    have key : ∀ e : ℝ, 0 < e → 1 + e ≤ a → e / (1 + e) ≤ 1 - a⁻¹ := by
      intro e he h
      have : a⁻¹ ≤ (1 + e)⁻¹ := inv_anti₀ (by linarith) h
      have : e / (1 + e) = 1 - (1 + e)⁻¹ := by field_simp; ring
      linarith
    have : 1024 ≤ (1 - a⁻¹) * B := by
      rcases h with ⟨h, h1 | h1⟩ | ⟨h, h1 | h1⟩
      · norm_num at h1; linarith
      · have k := key _ (by positivity) h1
        norm_num at h k; nlinarith
      · norm_num at h1; linarith
      · have k := key _ (by positivity) h1
        norm_num at h k; nlinarith
    linarith

theorem powEnd_range (s : Nat) (hs : s < 2) : IsInf (powEnd (s * 2 ^ 63 + one) .over) ∧ sign (powEnd (s * 2 ^ 63 + one) .over) = s ∧
    IsZero (powEnd (s * 2 ^ 63 + one) .under) ∧ sign (powEnd (s * 2 ^ 63 + one) .under) = s := by
  rcases (by omega : s = 0 ∨ s = 1) with rfl | rfl <;> decide +kernel

/-- **C122**: with an exponent of at least about `2^31` and a base not very near to one, and with an exponent of at least about `2^64` and any other
base, the result is infinite only if the true power is too large for a double, zero only if it is less than half the least double above zero, and
one of the two it is; its sign is that of the power. -/
theorem C122_far (core : Nat → Nat → PowCore) {x y : Nat} (hx : x < 2 ^ 64) (hy : y < 2 ^ 64) (fx : IsFinite x) (fy : IsFinite y) (x0 : ¬ IsZero x)
    (hd : sign x = 0 ∨ IsWhole y)
    (h : (2 ^ 31 * (1 + 1 / 2 ^ 20) ≤ |value y| ∧ (|value x| < 1 - 1 / 2 ^ 21 ∨ 1 + 1 / 2 ^ 20 ≤ |value x|)) ∨
      (2 ^ 64 * (1 + 1 / 2 ^ 20) ≤ |value y| ∧ |value x| ≠ 1)) :
    ((IsInf (pow core x y) ∧ (2 : ℝ) ^ 1024 ≤ ((|value x| : ℚ) : ℝ) ^ ((value y : ℚ) : ℝ)) ∨
      (IsZero (pow core x y) ∧ ((|value x| : ℚ) : ℝ) ^ ((value y : ℚ) : ℝ) < 1 / 2 ^ 1075)) ∧
    (sign (pow core x y) = 1 ↔ sign x = 1 ∧ IsOdd y) := by
  have hin : inf = 2047 * 2 ^ 52 := rfl
  have ho : one = 1023 * 2 ^ 52 := rfl
  have hsx := sign_lt x
  have hsy := sign_lt y
  have fx' := (finite_iff x).1 fx
  have fy' := (finite_iff y).1 fy
  have x0' : mag x ≠ 0 := fun h => x0 ((zero_iff x).2 h)
  obtain ⟨q1, q2, q3⟩ := abs_cmp hx
  -- the real side
  have ha : (0 : ℝ) < ((|value x| : ℚ) : ℝ) := by
    have : value x ≠ 0 := by
      intro h
      have := abs_value' hx
      rw [h, abs_zero, eq_comm, div_eq_zero_iff] at this
      rcases this with h | h
      · rw [Nat.cast_eq_zero, units_eq_zero] at h; exact x0' h
      · exact absurd h (by positivity)
    exact_mod_cast abs_pos.2 this
  have lf := log_far (a := ((|value x| : ℚ) : ℝ)) (B := ((|value y| : ℚ) : ℝ)) ha (by
    rcases h with ⟨h, h1 | h1⟩ | ⟨h, h1⟩
    · left; exact ⟨by have := (Rat.cast_le (K := ℝ)).2 h; push_cast at this ⊢; exact this, Or.inl (by have := (Rat.cast_lt (K := ℝ)).2 h1; push_cast at this ⊢; exact this)⟩
    · left; exact ⟨by have := (Rat.cast_le (K := ℝ)).2 h; push_cast at this ⊢; exact this, Or.inr (by have := (Rat.cast_le (K := ℝ)).2 h1; push_cast at this ⊢; exact this)⟩
    · right
      refine ⟨by have := (Rat.cast_le (K := ℝ)).2 h; push_cast at this ⊢; exact this, ?_⟩
      rw [Ne, q3] at h1
      rcases Nat.lt_or_gt_of_ne h1 with g | g
      · left
        have := cmp_lt (c := one) hx
        have t : |value x| ≤ ((units (one - 1) : ℕ) : ℚ) / 2 ^ 1074 := by
          rw [abs_value' hx, div_le_div_iff_of_pos_right (by positivity), Nat.cast_le, units_le]; omega
        rw [cdn] at t
        have := (Rat.cast_le (K := ℝ)).2 t
        push_cast at this ⊢; exact this
      · right
        have t := (cmp_le (c := one + 1) hx).2 (by omega)
        rw [cup] at t
        have := (Rat.cast_le (K := ℝ)).2 t
        push_cast at this ⊢; exact this)
  have sv : (value y : ℚ) = if sign y = 1 then -|value y| else |value y| := by
    rw [abs_value' hy, value_self hy]
    rcases (by omega : sign y = 0 ∨ sign y = 1) with d | d <;> rw [d] <;> simp
  have n1 : mag x ≠ one := by
    intro e
    rcases h with ⟨h, h1 | h1⟩ | ⟨h, h1⟩
    · rw [q3.2 e] at h1; norm_num at h1
    · rw [q3.2 e] at h1; norm_num at h1
    · exact h1 (q3.2 e)
  -- the branch taken
  have big : 0x41e0000100000000 ≤ mag y ∧ (mag x < 0x3fefffff00000000 ∨ 0x3ff0000100000000 ≤ mag x) ∨ 0x43f0000100000000 ≤ mag y := by
    rcases h with ⟨h, h1 | h1⟩ | ⟨h, h1⟩
    · rw [← c31, cmp_le hy] at h; rw [← clo, cmp_lt hx] at h1; exact Or.inl ⟨h, Or.inl h1⟩
    · rw [← c31, cmp_le hy] at h; rw [← chi, cmp_le hx] at h1; exact Or.inl ⟨h, Or.inr h1⟩
    · rw [← c64, cmp_le hy] at h; exact Or.inr h
  have yb : 0x41e0000100000000 ≤ mag y := by omega
  have i0 := intM_zero hy (by omega) fy'
  have i1 := intM_one hy (by omega) fy'
  have m2 : mag 0x4000000000000000 = 0x4000000000000000 := by decide
  have m3 : mag 0x3fe0000000000000 = 0x3fe0000000000000 := by decide
  have e := pow_eq core hx hy
  rw [if_neg (by omega), if_neg (by omega), if_neg (by omega), if_neg (by omega), if_neg (fun h => by rw [h, m2] at yb; omega),
    if_neg (fun h => by rw [h.1, m3] at yb; omega), if_neg (by omega), if_neg (fun h => by
      rcases hd with d | d
      · omega
      · exact i0.1 h.2 d), if_pos big] at e
  obtain ⟨s, hs, es⟩ : ∃ s, (s = 1 ↔ sign x = 1 ∧ IsOdd y) ∧ s < 2 ∧ (if sign x = 1 ∧ intM (mag y) = 1 then negate one else one) = s * 2 ^ 63 + one := by
    by_cases c : sign x = 1 ∧ intM (mag y) = 1
    · exact ⟨1, by rw [← i1]; simp [c], by omega, by rw [if_pos c]; decide⟩
    · exact ⟨0, by rw [← i1]; simpa using c, by omega, by rw [if_neg c]; decide⟩
  obtain ⟨s2, es⟩ := es
  rw [es] at e
  obtain ⟨r1, r2, r3, r4⟩ := powEnd_range s s2
  by_cases c : (sign y = 1) = (mag x < one)
  · rw [if_pos c] at e
    rw [e, r2]
    refine ⟨Or.inl ⟨r1, ?_⟩, hs⟩
    apply rpow_big ha
    by_cases d : sign y = 1
    · have d' := c.mp d
      have := lf.1 (by exact_mod_cast q2.2 d')
      rw [if_pos d] at sv
      rw [sv]; push_cast at this ⊢; linarith
    · have d' : ¬ mag x < one := fun g => d (c.mpr g)
      have := lf.2 (by exact_mod_cast q1.2 (by omega))
      rw [if_neg d] at sv
      rw [sv]; push_cast at this ⊢; linarith
  · rw [if_neg c] at e
    rw [e, r4]
    refine ⟨Or.inr ⟨r3, ?_⟩, hs⟩
    apply rpow_small ha
    by_cases d : sign y = 1
    · have d' : ¬ mag x < one := fun g => c (by simp [d, g])
      have := lf.2 (by exact_mod_cast q1.2 (by omega))
      rw [if_pos d] at sv
      rw [sv]; push_cast at this ⊢; linarith
    · have d' : mag x < one := by
        by_contra g
        exact c (by simp [d, g])
      have := lf.1 (by exact_mod_cast q2.2 d')
      rw [if_neg d] at sv
      rw [sv]; push_cast at this ⊢; linarith

/-! ### The hypotheses are met -/

/-- `0x4008000000000000` is 3, an odd whole number. -/
theorem three_odd : IsOdd 0x4008000000000000 := (intM_one (by decide) (by decide) (by decide)).1 (by decide)

theorem three_whole : IsWhole 0x4008000000000000 := by
  by_contra h
  have := (intM_zero (by decide) (by decide) (by decide)).2 h
  revert this; decide

/-- `0xbff8000000000000` is -1.5, finite and no whole number. -/
theorem neg_half_whole : ¬ IsWhole 0xbff8000000000000 := (intM_zero (by decide) (by decide) (by decide)).1 (by decide)

-- 0 to the exponent 0; no number to the exponent 3; -infinity; 1.5 to an infinite exponent
example (core : Nat → Nat → PowCore) : pow core 0 (2 ^ 63) = unit := C122_zero_exponent core (by decide) (by decide) (by decide)
example (core : Nat → Nat → PowCore) : IsNaN (pow core nan 0x4008000000000000) :=
  C122_nan core (by decide) (by decide) (by decide) (Or.inl (by decide))
example (core : Nat → Nat → PowCore) : IsInf (pow core 0xfff0000000000000 inf) ∧ sign (pow core 0xfff0000000000000 inf) = 0 :=
  (C122_infinite_exponent core (by decide) (by decide) (by decide) (by decide)).1 (Or.inl ⟨Or.inl (by decide), by decide⟩)
-- (-0)^3 = -0; (-infinity)^3 = -infinity
example (core : Nat → Nat → PowCore) : IsZero (pow core (2 ^ 63) 0x4008000000000000) ∧ sign (pow core (2 ^ 63) 0x4008000000000000) = 1 :=
  have h := C122_zero_base core (x := 2 ^ 63) (y := 0x4008000000000000) (by decide) (by decide) (by decide) (by decide) (by decide)
  ⟨h.1 (by decide), h.2.2.2 ⟨by decide, three_odd⟩⟩
example (core : Nat → Nat → PowCore) : IsInf (pow core 0xfff0000000000000 0x4008000000000000) :=
  (C122_infinite_base core (x := 0xfff0000000000000) (y := 0x4008000000000000) (by decide) (by decide) (by decide) (by decide) (by decide)).1 (by decide)
-- (-2)^(-1.5); (-2)^3
example (core : Nat → Nat → PowCore) : IsNaN (pow core 0xc000000000000000 0xbff8000000000000) :=
  C122_domain core (by decide) (by decide) (by decide) (by decide) (by decide) (by decide) neg_half_whole
example : pow (fun _ _ => .val 0x4020000000000000) 0xc000000000000000 0x4008000000000000 = 0xc020000000000000 := by decide +kernel
example (core : Nat → Nat → PowCore) (h : ∀ a b z, core a b = .val z → z < 2 ^ 64) :
    pow core (2 ^ 63 + 0x4000000000000000) 0x4008000000000000 = negate (pow core 0x4000000000000000 0x4008000000000000) ∨
      (IsNaN (pow core (2 ^ 63 + 0x4000000000000000) 0x4008000000000000) ∧ IsNaN (pow core 0x4000000000000000 0x4008000000000000)) :=
  (C122_sign core h (by decide) (by decide) (by decide) three_whole (by decide)).2 three_odd
-- 3 to the exponents 2 and 1/2; 1 to the exponent 3; 1.5 to the exponent 2^32
example (core : Nat → Nat → PowCore) : Rounded (value 0x4008000000000000 ^ 2) 0 (pow core 0x4008000000000000 0x4000000000000000) :=
  (C122_exact core (by decide) (by decide)).2.2 (by decide) (by
    rw [value_self (by decide), show mag 0x4000000000000000 = 0x4000000000000000 by decide, two_eq, show sign 0x4000000000000000 = 0 by decide]
    norm_num)
example (core : Nat → Nat → PowCore) : IsFinite (pow core 0x4008000000000000 0x3fe0000000000000) :=
  (C122_root core (by decide) (by decide) (by decide) (by decide) (by decide) (by
    rw [value_self (by decide), show mag 0x3fe0000000000000 = 0x3fe0000000000000 by decide, half_eq, show sign 0x3fe0000000000000 = 0 by decide]
    norm_num)).1
example (core : Nat → Nat → PowCore) : pow core one 0x4008000000000000 = unit :=
  C122_one core (by decide) (by decide)
    (by rw [value_self (by decide), show mag one = one by decide, one_eq', show sign one = 0 by decide]; norm_num) (by decide)
example (core : Nat → Nat → PowCore) :
    (IsInf (pow core 0x3ff8000000000000 0x41f0000000000000) ∧
      (2 : ℝ) ^ 1024 ≤ ((|value 0x3ff8000000000000| : ℚ) : ℝ) ^ ((value 0x41f0000000000000 : ℚ) : ℝ)) ∨
    (IsZero (pow core 0x3ff8000000000000 0x41f0000000000000) ∧
      ((|value 0x3ff8000000000000| : ℚ) : ℝ) ^ ((value 0x41f0000000000000 : ℚ) : ℝ) < 1 / 2 ^ 1075) :=
  (C122_far core (by decide) (by decide) (by decide) (by decide) (by decide) (Or.inl (by decide))
    (Or.inl ⟨by rw [← c31, cmp_le (by decide)]; decide, Or.inr (by rw [← chi, cmp_le (by decide)]; decide)⟩)).1

end Pok.Libm
