import Verif.Props.SingleBits
import Verif.Lemmas.SingleRound
/-!
# Scaling by powers of two

Property C117.  libpok/libm/scalbnf.c, ldexpf.c, frexpf.c.
-/
namespace Pok.Libmf
open Pok.Single Pok.Fpu32
open Pok.Float (and_mask and_not and_31 and_sign)
open Pok.Libm (not32 neg32 minus32 int32 wrap32 normLoop FP_NAN FP_INFINITE FP_NORMAL FP_SUBNORMAL FP_ZERO)

/-! ## The floating-point unit of the model is that of the standard -/

theorem withSign_make {s : Nat} (hs : s < 2) (b : Bool) (hb : b = decide (s = 1)) (m : Nat) : withSign b m = s * 2 ^ 31 + m := by
  unfold withSign
  rcases Nat.lt_or_ge s 1 with h | h
  · have h0 : s = 0 := by omega
    subst h0; rw [hb]; simp
  · have h1 : s = 1 := by omega
    subst h1; rw [hb]; simp

theorem mul_make {s t a b : Nat} (hs : s < 2) (ht : t < 2) (ha : a < inf) (hb : b < inf) :
    mul (s * 2 ^ 31 + a) (t * 2 ^ 31 + b) = ((s + t) % 2) * 2 ^ 31 + roundMag (units a * units b) 149 := by
  have hi := inf_lt
  have ma : mag (s * 2 ^ 31 + a) = a := mag_make (by omega)
  have mb : mag (t * 2 ^ 31 + b) = b := mag_make (by omega)
  have na : neg (s * 2 ^ 31 + a) = decide (s = 1) := neg_make hs (by omega)
  have nb : neg (t * 2 ^ 31 + b) = decide (t = 1) := neg_make ht (by omega)
  unfold mul
  rw [notNaN (by rw [ma]; exact ha), notNaN (by rw [mb]; exact hb), notInf (by rw [ma]; exact ha), notInf (by rw [mb]; exact hb), ma, mb, na, nb]
  simp only [Bool.false_eq_true, if_false, Bool.or_self]
  apply withSign_make (by omega)
  rcases Nat.lt_or_ge s 1 with h | h <;> rcases Nat.lt_or_ge t 1 with h' | h'
  · rw [show s = 0 from by omega, show t = 0 from by omega]; rfl
  · rw [show s = 0 from by omega, show t = 1 from by omega]; rfl
  · rw [show s = 1 from by omega, show t = 0 from by omega]; rfl
  · rw [show s = 1 from by omega, show t = 1 from by omega]; rfl

theorem neg_one_mod {s t : Nat} (hs : s < 2) (ht : t < 2) : ((-1 : ℚ)) ^ s * (-1) ^ t = (-1) ^ ((s + t) % 2) := by
  rcases Nat.lt_or_ge s 1 with h | h <;> rcases Nat.lt_or_ge t 1 with h' | h'
  · rw [show s = 0 from by omega, show t = 0 from by omega]; norm_num
  · rw [show s = 0 from by omega, show t = 1 from by omega]; norm_num
  · rw [show s = 1 from by omega, show t = 0 from by omega]; norm_num
  · rw [show s = 1 from by omega, show t = 1 from by omega]; norm_num

/-- The product of the model of the unit is the exact product, rounded. -/
theorem fpu_mul {a b : Nat} (ha : a < 2 ^ 32) (hb : b < 2 ^ 32) (fa : IsFinite a) (fb : IsFinite b) :
    Rounded (value a * value b) ((sign a + sign b) % 2) (mul a b) := by
  have e := mul_make (sign_lt a) (sign_lt b) ((finite_iff a).1 fa) ((finite_iff b).1 fb)
  rw [← self_eq ha, ← self_eq hb] at e
  have r := rounded_mag (s := (sign a + sign b) % 2) (n := units (mag a) * units (mag b)) (sh := 149) (by omega)
  rw [e]
  have v : value a * value b = (-1) ^ ((sign a + sign b) % 2) * (((units (mag a) * units (mag b) : ℕ) : ℚ) / 2 ^ 149 / 2 ^ 149) := by
    rw [value_self ha, value_self hb, ← neg_one_mod (sign_lt a) (sign_lt b), Nat.cast_mul]
    generalize (2 : ℚ) ^ 149 = K
    ring
  rw [v]; exact r

/-- The sum of the model of the unit is the exact sum, rounded; the sign of a sum that is not zero is its sign. -/
theorem fpu_add {a b : Nat} (ha : a < 2 ^ 32) (hb : b < 2 ^ 32) (fa : IsFinite a) (fb : IsFinite b) (h0 : value a + value b ≠ 0) :
    Rounded (value a + value b) (if value a + value b < 0 then 1 else 0) (add a b) := by
  have hD0 : (0 : ℚ) < 2 ^ 149 := pow_pos (by norm_num) _
  rw [add_finite ((finite_iff a).1 fa) ((finite_iff b).1 fb)]
  rw [value_units, value_units, ← add_div, ← Int.cast_add] at *
  generalize sunits a + sunits b = z at *
  have hz : z ≠ 0 := by rintro rfl; simp at h0
  rw [if_neg hz]
  have hneg : ((z : ℚ) / 2 ^ 149 < 0) ↔ z < 0 := by
    rw [div_lt_iff₀ hD0, zero_mul]; exact_mod_cast Iff.rfl
  by_cases hn : z < 0
  · rw [if_pos (hneg.2 hn)]
    have r := rounded_mag (s := 1) (n := z.natAbs) (sh := 0) (by omega)
    rw [withSign_make (s := 1) (by omega) _ (by simp [hn])]
    have v : (z : ℚ) = - (z.natAbs : ℚ) := by
      have : (z : ℤ) = -(z.natAbs : ℤ) := by omega
      rw [← Int.cast_natCast, ← Int.cast_neg, ← this]
    rw [v, neg_div]
    rwa [pow_zero, div_one, pow_one, neg_one_mul] at r
  · rw [if_neg (fun h => hn (hneg.1 h))]
    have r := rounded_mag (s := 0) (n := z.natAbs) (sh := 0) (by omega)
    rw [withSign_make (s := 0) (by omega) _ (by simp [hn])]
    have v : (z : ℚ) = (z.natAbs : ℚ) := by
      have : (z : ℤ) = (z.natAbs : ℤ) := by omega
      rw [← Int.cast_natCast, ← this]
    rw [v]
    rwa [pow_zero, one_mul, pow_zero, div_one] at r

/-! ## Setting the exponent -/

theorem and_expo (x : Nat) (hx : x < 2 ^ 32) : x &&& 0x7f800000 = expo x * 2 ^ 23 := by
  have e : (0x7f800000 : Nat) = not32 (2 ^ 23 - 1) &&& 0x7fffffff := by decide
  rw [e, ← Nat.and_assoc, and_not hx (by decide), and_31]
  unfold expo
  omega

theorem expo_mask {x : Nat} (h : x < 2 ^ 32) : (x &&& 0x7f800000) >>> 23 = expo x := by
  rw [and_expo _ h, Nat.shiftRight_eq_div_pow, Nat.mul_div_cancel _ (by decide)]

theorem and_rest (x : Nat) (hx : x < 2 ^ 32) : x &&& 0x807fffff = sign x * 2 ^ 31 + frac x := by
  have e : (0x807fffff : Nat) = 0x80000000 ||| (2 ^ 23 - 1) := by decide
  rw [e, Nat.and_or_distrib_left, and_sign hx, and_mask, sign_div hx, Nat.or_comm, show x % 2 ^ 23 = frac x from rfl,
    or_sign (by have := frac_lt x; omega)]

theorem set_expo {x k : Nat} (h : x < 2 ^ 32) (hk : k < 256) :
    (x &&& 0x807fffff ||| k <<< 23) = sign x * 2 ^ 31 + (k * 2 ^ 23 + frac x) := by
  have hF := frac_lt x
  rw [and_rest _ h]
  have h1 := Nat.two_pow_add_eq_or_of_lt (i := 31) (b := frac x) (by omega) (sign x)
  have h2 := Nat.two_pow_add_eq_or_of_lt (i := 23) (b := frac x) (by omega) k
  have h3 := Nat.two_pow_add_eq_or_of_lt (i := 31) (b := 2 ^ 23 * k + frac x) (by omega) (sign x)
  rw [Nat.mul_comm (sign x), h1, Nat.or_assoc, Nat.shiftLeft_eq, Nat.mul_comm k, Nat.or_comm (frac x), ← h2, ← h3]

/-- A subnormal number times `2^25`. -/
theorem mul_two25 {x : Nat} (h : x < 2 ^ 32) (hE : expo x = 0) (h0 : frac x ≠ 0) :
    ∃ E F, 1 ≤ E ∧ E < 49 ∧ F < 2 ^ 23 ∧ mul x two25 = sign x * 2 ^ 31 + (E * 2 ^ 23 + F) ∧ frac x * 2 ^ 25 = (2 ^ 23 + F) * 2 ^ (E - 1) := by
  have hF := frac_lt x
  have hm : mag x = frac x := by rw [mag_eq, hE]; omega
  obtain ⟨m, hmu⟩ := exists_units (a := frac x) (b := 25) (by omega)
  have hlo : 2 ^ 23 ≤ m := by
    by_contra hc
    rw [units_small (by omega)] at hmu
    omega
  have hhi : m < 49 * 2 ^ 23 := by
    apply units_lt.1
    have := units_make (a := 49) (f := 0) (by omega) (by omega)
    rw [hmu]
    have e : 49 * 2 ^ 23 = 49 * 2 ^ 23 + 0 := rfl
    rw [e, this]
    norm_num
    omega
  have hxe : x = sign x * 2 ^ 31 + frac x := by have := self_eq h; rwa [hm] at this
  have ht : two25 = 0 * 2 ^ 31 + 152 * 2 ^ 23 := by decide
  have hp : mul x two25 = sign x * 2 ^ 31 + m := by
    have hinf : inf = 255 * 2 ^ 23 := rfl
    have := mul_make (s := sign x) (t := 0) (a := frac x) (b := 152 * 2 ^ 23) (sign_lt x) (by omega) (by omega) (by omega)
    rw [← hxe, ← ht] at this
    rw [this, units_small hF]
    have hu : units (152 * 2 ^ 23) = 2 ^ 25 * 2 ^ 149 := by decide +kernel
    rw [hu, ← Nat.mul_assoc, ← hmu, roundMag_exact 149 (by omega)]
    exact congrArg (· * 2 ^ 31 + m) (Nat.mod_eq_of_lt (sign_lt x))
  refine ⟨m / 2 ^ 23, m % 2 ^ 23, by omega, by omega, by omega, ?_, ?_⟩
  · rw [hp]; congr 1; omega
  · rw [← hmu]
    conv_lhs => rw [show m = m / 2 ^ 23 * 2 ^ 23 + m % 2 ^ 23 from by omega]
    exact units_make (by omega) (by omega)

/-- Sign, significand with its leading bit, and exponent of a finite float that is not zero. -/
theorem norm_parts {x : Nat} (h : x < 2 ^ 32) (hf : IsFinite x) (h0 : mag x ≠ 0) :
    ∃ F k0, F < 2 ^ 23 ∧ k0 < 280 ∧ units (mag x) * 2 ^ 25 = (2 ^ 23 + F) * 2 ^ (k0 + 24 - 25)
      ∧ (expo x = 0 → 1 ≤ k0 ∧ k0 < 49 ∧ mul x two25 = sign x * 2 ^ 31 + (k0 * 2 ^ 23 + F))
      ∧ (expo x ≠ 0 → k0 = expo x + 25 ∧ F = frac x) := by
  have hE := expo_lt x
  have hF := frac_lt x
  by_cases hz : expo x = 0
  · obtain ⟨E, F, a, b, c, d, e⟩ := mul_two25 h hz (by have := mag_eq x; omega)
    refine ⟨F, E, c, by omega, ?_, fun _ => ⟨a, b, d⟩, fun hc => absurd hz hc⟩
    rw [units_expo, if_pos hz, e, show E + 24 - 25 = E - 1 from by omega]
  · refine ⟨frac x, expo x + 25, hF, by unfold IsFinite at hf; omega, ?_, fun hc => absurd hc hz, fun _ => ⟨rfl, rfl⟩⟩
    rw [units_expo, if_neg hz, Nat.mul_assoc, ← Nat.pow_add]
    congr 2; omega

/-- The value by parts; `k` is the exponent plus 54. -/
theorem value_norm {x F k : Nat} (h : x < 2 ^ 32) (hk : 1 ≤ k) (hu : units (mag x) * 2 ^ 25 = (2 ^ 23 + F) * 2 ^ (k + 24 - 25)) :
    value x = (-1) ^ sign x * (((2 ^ 23 + F : ℕ) : ℚ) * (2 : ℚ) ^ ((k : ℤ) - 26) / 2 ^ 149) := by
  rw [value_self h]
  congr 2
  rw [show k + 24 - 25 = k - 1 from by omega] at hu
  have hc : (units (mag x) : ℚ) * 2 ^ 25 = ((2 ^ 23 + F : ℕ) : ℚ) * 2 ^ (k - 1) := by exact_mod_cast hu
  have e : (2 : ℚ) ^ ((k : ℤ) - 26) = 2 ^ (k - 1) / 2 ^ 25 := by
    rw [show (k : ℤ) - 26 = ((k - 1 : ℕ) : ℤ) - (25 : ℕ) from by omega, zpow_sub₀ (by norm_num), zpow_natCast, zpow_natCast]
  rw [e, ← mul_div_assoc, ← hc, mul_div_assoc, div_self (by norm_num), _root_.mul_one]

theorem lt32 {s m : Nat} (hs : s < 2) (hm : m < 2 ^ 31) : s * 2 ^ 31 + m < 2 ^ 32 := by omega

theorem lt_inf {E F : Nat} (hE : E < 255) (hF : F < 2 ^ 23) : E * 2 ^ 23 + F < inf := by unfold inf; omega

theorem zpow_frexp (a : ℤ) : (2 : ℚ) ^ (a + 24 - 149) = 2 ^ a * 2 ^ 24 / 2 ^ 149 := by
  rw [show a + 24 - 149 = a + (24 : ℕ) - (149 : ℕ) from rfl, zpow_sub₀ (by norm_num), zpow_add₀ (by norm_num), zpow_natCast, zpow_natCast]

/-- `frexpf` splits a finite float that is not zero, without error, into a fraction from one half to one and a power of two. -/
theorem C117_frexp {x : Nat} (h : x < 2 ^ 32) (hf : IsFinite x) (h0 : ¬ IsZero x) :
    (frexp x).1 < 2 ^ 32 ∧ IsFinite (frexp x).1 ∧ sign (frexp x).1 = sign x ∧ 1 / 2 ≤ |value (frexp x).1| ∧ |value (frexp x).1| < 1
    ∧ value x = value (frexp x).1 * (2 : ℚ) ^ (frexp x).2 := by
  have hm0 : mag x ≠ 0 := by
    have := mag_eq x; unfold IsZero at h0; omega
  have hfin := (finite_iff x).1 hf
  have hs := sign_lt x
  obtain ⟨F, k, hF, hk, hu, hsub, hnor⟩ := norm_parts h hf hm0
  have hk1 : 1 ≤ k := by
    by_cases hz : expo x = 0
    · exact (hsub hz).1
    · have := (hnor hz).1; omega
  have e : frexp x = (sign x * 2 ^ 31 + (126 * 2 ^ 23 + F), (k : ℤ) - 25 - 126) := by
    have c1 : ¬ (mag x ≥ 0x7f800000 ∨ mag x = 0) := by
      unfold inf at hfin; omega
    have hE : mag x < 0x00800000 ↔ expo x = 0 := by
      have := mag_eq x; have := frac_lt x; have := expo_lt x; omega
    unfold frexp
    simp only
    rw [Nat.and_comm 0x7fffffff, and_mag, if_neg c1]
    by_cases hz : expo x = 0
    · obtain ⟨a, b, c⟩ := hsub hz
      have hyl : mul x two25 < 2 ^ 32 := by rw [c]; omega
      have hse := set_expo hyl (k := 126) (by omega)
      simp only [if_pos (hE.2 hz)]
      rw [show (0x3f000000 : Nat) = 126 <<< 23 from rfl, hse, and_mag, Nat.shiftRight_eq_div_pow]
      have m1 : mag (mul x two25) = k * 2 ^ 23 + F := by rw [c]; exact mag_make (by omega)
      have s1 : sign (mul x two25) = sign x := by rw [c]; exact sign_make hs (by omega)
      have f1 : frac (mul x two25) = F := by rw [c, ← Nat.add_assoc]; exact frac_make hF
      rw [m1, s1, f1]
      refine Prod.ext rfl ?_
      simp only
      omega
    · obtain ⟨a, b⟩ := hnor hz
      have hse := set_expo h (k := 126) (by omega)
      simp only [if_neg (fun hh => hz (hE.1 hh))]
      rw [show (0x3f000000 : Nat) = 126 <<< 23 from rfl, hse, Nat.shiftRight_eq_div_pow, b]
      refine Prod.ext rfl ?_
      simp only
      have := mag_eq x; have := frac_lt x; omega
  have hfm : 126 * 2 ^ 23 + F < 2 ^ 31 := by omega
  have hv := value_sm hs hfm
  rw [units_make (by omega) (by omega), show 126 - 1 = 125 from rfl] at hv
  have hq : (((2 ^ 23 + F) * 2 ^ 125 : ℕ) : ℚ) / 2 ^ 149 = ((2 ^ 23 + F : ℕ) : ℚ) / 2 ^ 24 := by
    rw [Nat.cast_mul, Nat.cast_pow, show 149 = 24 + 125 from rfl, pow_add]
    generalize hK : (2 : ℚ) ^ 125 = K
    have hK0 : K ≠ 0 := by rw [← hK]; exact pow_ne_zero _ (by norm_num)
    rw [mul_div_mul_right _ _ hK0]
  rw [hq] at hv
  have hpos : (0 : ℚ) ≤ ((2 ^ 23 + F : ℕ) : ℚ) / 2 ^ 24 := div_nonneg (Nat.cast_nonneg _) (by norm_num)
  have habs : |value (frexp x).1| = ((2 ^ 23 + F : ℕ) : ℚ) / 2 ^ 24 := by rw [e]; simp only; rw [hv, abs_sm hs hpos]
  have hFq : (F : ℚ) < 2 ^ 23 := by exact_mod_cast hF
  have hFq0 : (0 : ℚ) ≤ F := Nat.cast_nonneg _
  refine ⟨by rw [e]; exact lt32 hs hfm, ?_, by rw [e]; exact sign_make hs hfm, ?_, ?_, ?_⟩
  · rw [e]; exact (finite_iff _).2 (by rw [mag_make hfm]; exact lt_inf (by omega) hF)
  · rw [habs, Nat.cast_add, Nat.cast_pow]
    generalize (F : ℚ) = f at *
    norm_num at *
    linarith
  · rw [habs, Nat.cast_add, Nat.cast_pow]
    generalize (F : ℚ) = f at *
    norm_num at *
    linarith
  · rw [value_norm h hk1 hu, e]
    simp only
    rw [hv, mul_assoc]
    congr 1
    generalize ((2 ^ 23 + F : ℕ) : ℚ) = f
    rw [show (k : ℤ) - 25 - 126 = ((k : ℤ) - 26) + 24 - 149 from by ring, zpow_frexp]
    generalize hK : (2 : ℚ) ^ 149 = K
    have hK0 : K ≠ 0 := by rw [← hK]; exact pow_ne_zero _ (by norm_num)
    generalize (2 : ℚ) ^ ((k : ℤ) - 26) = z
    field_simp

/-- Zeros, infinities and floats that are not numbers come back as they are. -/
theorem C117_frexp_special {x : Nat} (h : x < 2 ^ 32) (h0 : IsZero x ∨ ¬ IsFinite x) : frexp x = (x, 0) := by
  have hm := mag_eq x
  have := frac_lt x
  have := expo_lt x
  have c1 : mag x ≥ 0x7f800000 ∨ mag x = 0 := by
    unfold IsZero IsFinite at h0
    omega
  unfold frexp
  simp only
  rw [Nat.and_comm 0x7fffffff, and_mag, if_pos c1]

/-! ## `scalbnf` -/

theorem roundMag_zero {n s : Nat} (h : 2 * n < 2 ^ s) : roundMag n s = 0 := by
  have h1 : n / 2 ^ s = 0 := Nat.div_eq_of_lt (by omega)
  have h2 : n % 2 ^ s = n := Nat.mod_eq_of_lt (by omega)
  rw [roundMag, h1, show Nat.log2 0 - 23 = 0 from by decide, Nat.add_zero, rne, h2, h1, if_pos (Or.inl h)]
  rfl

theorem mod_sign {s : Nat} (hs : s < 2) : (0 + s) % 2 = s := by omega

theorem huge_mul {x : Nat} (hx : x < 2 ^ 32) : mul huge (copysign huge x) = sign x * 2 ^ 31 + inf := by
  rw [copysign_make hx, show mag huge = huge from by decide]
  have := mul_make (s := 0) (t := sign x) (a := huge) (b := huge) (by omega) (sign_lt x) (by decide) (by decide)
  rw [mod_sign (sign_lt x), show roundMag (units huge * units huge) 149 = inf from by decide +kernel, Nat.zero_mul, Nat.zero_add] at this
  exact this

theorem tiny_mul {x : Nat} (hx : x < 2 ^ 32) : mul tiny (copysign tiny x) = sign x * 2 ^ 31 + 0 := by
  rw [copysign_make hx, show mag tiny = tiny from by decide]
  have := mul_make (s := 0) (t := sign x) (a := tiny) (b := tiny) (by omega) (sign_lt x) (by decide) (by decide)
  rw [mod_sign (sign_lt x), show roundMag (units tiny * units tiny) 149 = 0 from by decide +kernel, Nat.zero_mul, Nat.zero_add] at this
  exact this

theorem tiny_mul_sub {s k F : Nat} (hs : s < 2) (h1 : 1 ≤ k) (hk : k < 49) (hF : F < 2 ^ 23) :
    mul tiny (s * 2 ^ 31 + (k * 2 ^ 23 + F)) = s * 2 ^ 31 + 0 := by
  have := mul_make (s := 0) (t := s) (a := tiny) (b := k * 2 ^ 23 + F) (by omega) hs (by decide) (lt_inf (by omega) hF)
  rw [mod_sign hs, Nat.zero_mul, Nat.zero_add] at this
  rw [this, roundMag_zero]
  have ht : units tiny < 2 ^ 50 := by decide +kernel
  have hu : units (k * 2 ^ 23 + F) < 2 ^ 72 := by
    rw [units_make h1 (by omega)]
    calc (2 ^ 23 + F) * 2 ^ (k - 1) < 2 ^ 24 * 2 ^ (k - 1) := Nat.mul_lt_mul_of_pos_right (by omega) (Nat.two_pow_pos _)
      _ ≤ 2 ^ 24 * 2 ^ 48 := Nat.mul_le_mul_left _ (Nat.pow_le_pow_right (by omega) (by omega))
      _ = 2 ^ 72 := by norm_num
  calc 2 * (units tiny * units (k * 2 ^ 23 + F)) ≤ 2 * (2 ^ 50 * 2 ^ 72) := Nat.mul_le_mul_left _ (Nat.mul_le_mul ht.le hu.le)
    _ = 2 ^ 123 := by norm_num
    _ < 2 ^ 149 := Nat.pow_lt_pow_right (by omega) (by omega)

/-- What `scalbnf` returns, by parts: `k` is the exponent of the argument plus 54. -/
theorem scalbn_eq {x F k : Nat} {n : Int} (h : x < 2 ^ 32) (hf : IsFinite x) (h0 : mag x ≠ 0) (hn : -2 ^ 31 ≤ n) (hn2 : n < 2 ^ 31)
    (hF : F < 2 ^ 23) (hk1 : 1 ≤ k)
    (hsub : expo x = 0 → 1 ≤ k ∧ k < 49 ∧ mul x two25 = sign x * 2 ^ 31 + (k * 2 ^ 23 + F))
    (hnor : expo x ≠ 0 → k = expo x + 25 ∧ F = frac x) :
    scalbn x n = sign x * 2 ^ 31 + (if (k : Int) - 25 + n > 254 then inf else if (k : Int) - 25 + n > 0 then ((k : Int) - 25 + n).toNat * 2 ^ 23 + F
      else if (k : Int) - 25 + n ≤ -25 then 0 else roundMag ((2 ^ 23 + F) * 2 ^ (((k : Int) - 25 + n + 25).toNat - 1) * 2 ^ 124) 149) := by
  have hs := sign_lt x
  have hE := expo_lt x
  have hE2 : expo x ≠ 255 := hf
  -- the number after normalisation
  obtain ⟨y, hy⟩ : ∃ y, y = if expo x = 0 then mul x two25 else x := ⟨_, rfl⟩
  have hyp : ∃ ey, ey < 255 ∧ y = sign x * 2 ^ 31 + (ey * 2 ^ 23 + F) := by
    by_cases hz : expo x = 0
    · obtain ⟨a, b, c⟩ := hsub hz
      exact ⟨k, by omega, by rw [hy, if_pos hz, c]⟩
    · obtain ⟨a, b⟩ := hnor hz
      refine ⟨expo x, by omega, ?_⟩
      rw [hy, if_neg hz, b, ← Nat.add_assoc]; exact parts h
  obtain ⟨ey, hey, hyv⟩ := hyp
  have hey31 : ey * 2 ^ 23 + F < 2 ^ 31 := by clear hyv hy; omega
  have hy32 : y < 2 ^ 32 := by rw [hyv]; exact lt32 hs hey31
  have ys : sign y = sign x := by rw [hyv]; exact sign_make hs hey31
  have yf : frac y = F := by rw [hyv, ← Nat.add_assoc]; exact frac_make hF
  have hke : (if expo x = 0 then (((y &&& 0x7f800000) >>> 23 : Nat) : Int) - 25 else ((expo x : Nat) : Int)) = (k : Int) - 25 := by
    by_cases hz : expo x = 0
    · obtain ⟨a, b, c⟩ := hsub hz
      rw [if_pos hz, expo_mask hy32]
      have : expo y = k := by rw [hy, if_pos hz, c, ← Nat.add_assoc]; exact expo_make (by omega) hF
      rw [this]
    · rw [if_neg hz, (hnor hz).1]; push_cast; ring
  unfold scalbn
  simp only [expo_mask h]
  have hzi : ((expo x : Nat) : Int) = 0 ↔ expo x = 0 := by omega
  rw [if_neg (by rw [and_mag]; exact fun hh => h0 hh.2)]
  simp only [hzi]
  rw [← hy, hke]
  have hk54 : ¬ ((k : Int) - 25 = 0xff) := by
    by_cases hz : expo x = 0
    · have := hsub hz; omega
    · have := hnor hz; omega
  have hkr : (k : Int) - 25 ≤ 254 ∧ -24 ≤ (k : Int) - 25 := by
    by_cases hz : expo x = 0
    · have := hsub hz; omega
    · have := hnor hz; omega
  by_cases hc : expo x = 0 ∧ n < -50000
  · rw [if_pos hc, hyv]
    obtain ⟨a, b, c⟩ := hsub hc.1
    have : ey = k := by
      have e1 : expo y = k := by rw [hy, if_pos hc.1, c, ← Nat.add_assoc]; exact expo_make (by omega) hF
      have e2 : expo y = ey := by rw [hyv, ← Nat.add_assoc]; exact expo_make (by omega) hF
      omega
    rw [this, tiny_mul_sub hs a b hF, if_neg (by omega), if_neg (by omega), if_pos (by omega)]
  · rw [if_neg hc, if_neg hk54]
    have hnn : expo x = 0 → -50000 ≤ n := fun hz => by by_contra hh; exact hc ⟨hz, by omega⟩
    have hK1 : -2 ^ 31 ≤ (k : Int) - 25 + n := by
      by_cases hz : expo x = 0
      · have := hnn hz; omega
      · have := hnor hz; omega
    generalize hK : (k : Int) - 25 + n = K at *
    by_cases hbig : 2 ^ 31 ≤ K
    · have hw : wrap32 K = K - 2 ^ 32 := by unfold wrap32; omega
      rw [hw, if_neg (by omega), if_neg (by omega), if_pos (by omega), if_pos (by omega), huge_mul hy32, if_pos (by omega), ys]
    · have hw : wrap32 K = K := by unfold wrap32; omega
      rw [hw]
      by_cases c1 : K > 254
      · rw [if_pos (by omega), if_pos c1, huge_mul hy32, ys]
      · rw [if_neg (by omega), if_neg c1]
        by_cases c2 : K > 0
        · rw [if_pos c2, if_pos c2, set_expo hy32 (by omega), ys, yf]
        · rw [if_neg c2, if_neg c2]
          by_cases c3 : K ≤ -25
          · rw [if_pos c3, if_pos c3, if_neg (by omega), tiny_mul hy32, ys]
          · rw [if_neg c3, if_neg c3, set_expo hy32 (by omega), ys, yf]
            have ht : twom25 = 0 * 2 ^ 31 + 102 * 2 ^ 23 := by decide
            have := mul_make (s := sign x) (t := 0) (a := (K + 25).toNat * 2 ^ 23 + F) (b := 102 * 2 ^ 23) hs (by omega) (lt_inf (by omega) hF) (by decide)
            rw [← ht, Nat.add_zero, Nat.mod_eq_of_lt hs, units_make (by omega) (by omega)] at this
            rw [show units (102 * 2 ^ 23) = 2 ^ 124 from by decide +kernel] at this
            exact this

theorem zpow_1020 {a : Nat} {K : ℤ} (h : K = a + 124 - 149) : (2 : ℚ) ^ K = 2 ^ a * 2 ^ 124 / 2 ^ 149 := by
  rw [h, show (a : ℤ) + 124 - 149 = a + (124 : ℕ) - (149 : ℕ) from rfl, zpow_sub₀ (by norm_num), zpow_add₀ (by norm_num), zpow_natCast,
    zpow_natCast, zpow_natCast]

theorem rounded_of {s N sh : Nat} {v : ℚ} {m : Nat} (hs : s < 2) (hv : v = (-1) ^ s * ((N : ℚ) / 2 ^ sh / 2 ^ 149)) (hm : roundMag N sh = m) :
    Rounded v s (s * 2 ^ 31 + m) := by
  rw [hv, ← hm]; exact rounded_mag hs

/-- `scalbnf(x, n)` is `x` times the power of two `n`, rounded to the nearest float, ties to even, or the infinite if that is too large, with
the sign of `x`: for every finite float and every `int`. -/
theorem C117_scalbn {x : Nat} {n : Int} (h : x < 2 ^ 32) (hf : IsFinite x) (hn : -2 ^ 31 ≤ n) (hn2 : n < 2 ^ 31) :
    Rounded (value x * (2 : ℚ) ^ n) (sign x) (scalbn x n) := by
  have hs := sign_lt x
  by_cases h0 : mag x = 0
  · have e : scalbn x n = x := by
      have hE : expo x = 0 := by have := mag_eq x; omega
      unfold scalbn
      simp only [expo_mask h]
      rw [if_pos ⟨by omega, (and_mag x).trans h0⟩]
    have hv : value x = 0 := by rw [value_self h, h0, units_zero]; simp
    rw [e, hv, zero_mul]
    have hx := self_eq h
    rw [h0] at hx
    conv => arg 3; rw [hx]
    exact rounded_of (N := 0) (sh := 0) hs (by simp) (by decide +kernel)
  · obtain ⟨F, k, hF, hk, hu, hsub, hnor⟩ := norm_parts h hf h0
    have hk1 : 1 ≤ k := by
      by_cases hz : expo x = 0
      · exact (hsub hz).1
      · have := (hnor hz).1; omega
    rw [scalbn_eq h hf h0 hn hn2 hF hk1 hsub hnor, value_norm h hk1 hu]
    have hz : (-1) ^ sign x * (((2 ^ 23 + F : ℕ) : ℚ) * (2 : ℚ) ^ ((k : ℤ) - 26) / 2 ^ 149) * (2 : ℚ) ^ n
        = (-1) ^ sign x * (((2 ^ 23 + F : ℕ) : ℚ) * (2 : ℚ) ^ ((k : ℤ) - 25 + n - 1) / 2 ^ 149) := by
      rw [show (k : ℤ) - 25 + n - 1 = ((k : ℤ) - 26) + n from by ring, zpow_add₀ (by norm_num)]
      generalize (2 : ℚ) ^ 149 = A
      generalize (2 : ℚ) ^ ((k : ℤ) - 26) = B
      ring
    rw [hz]
    clear hz
    have hK53 : -24 ≤ (k : ℤ) - 25 := by omega
    generalize (k : ℤ) - 25 + n = K at *
    by_cases c1 : K > 254
    · rw [if_pos c1]
      refine rounded_of (N := (2 ^ 23 + F) * 2 ^ (K - 1).toNat) (sh := 0) hs ?_ ?_
      · rw [Nat.cast_mul (2 ^ 23 + F), Nat.cast_pow, pow_zero, div_one]
        rw [show K - 1 = ((K - 1).toNat : ℤ) from by omega, zpow_natCast]
        simp only [Int.toNat_natCast, Nat.cast_ofNat]
      · apply (roundMag_near _ 0).2
        calc (2 ^ 25 - 1) * 2 ^ 252 * 2 ^ 0 ≤ 2 ^ 25 * 2 ^ 252 := by
              rw [Nat.pow_zero, Nat.mul_one]; exact Nat.mul_le_mul_right _ (by omega)
          _ = 2 ^ 23 * 2 ^ 254 := by rw [← Nat.pow_add, ← Nat.pow_add]
          _ ≤ (2 ^ 23 + F) * 2 ^ (K - 1).toNat := Nat.mul_le_mul (by omega) (Nat.pow_le_pow_right (by omega) (by omega))
    · rw [if_neg c1]
      by_cases c2 : K > 0
      · rw [if_pos c2]
        have hm : K.toNat * 2 ^ 23 + F < inf := lt_inf (by omega) hF
        refine rounded_of (N := units (K.toNat * 2 ^ 23 + F)) (sh := 0) hs ?_ (roundMag_exact0 hm.le)
        rw [units_make (by omega) (by omega), Nat.cast_mul (2 ^ 23 + F), Nat.cast_pow, pow_zero, div_one]
        rw [show K - 1 = ((K.toNat - 1 : ℕ) : ℤ) from by omega, zpow_natCast, Nat.cast_ofNat]
      · rw [if_neg c2]
        by_cases c3 : K ≤ -25
        · rw [if_pos c3]
          refine rounded_of (N := 2 ^ 23 + F) (sh := (1 - K).toNat) hs ?_ ?_
          · rw [show K - 1 = -((1 - K).toNat : ℤ) from by omega, zpow_neg, zpow_natCast]
            rw [← div_eq_mul_inv]
          · apply roundMag_zero
            have : 2 ^ 26 ≤ 2 ^ (1 - K).toNat := Nat.pow_le_pow_right (by omega) (by omega)
            omega
        · rw [if_neg c3]
          refine rounded_of (sh := 149) hs ?_ rfl
          rw [Nat.cast_mul ((2 ^ 23 + F) * _), Nat.cast_mul (2 ^ 23 + F), Nat.cast_pow, Nat.cast_pow]
          have e1 : (2 : ℚ) ^ (K - 1) = 2 ^ ((K + 25).toNat - 1) * 2 ^ 124 / 2 ^ 149 := zpow_1020 (by omega)
          rw [e1, Nat.cast_ofNat]
          generalize (2 : ℚ) ^ 149 = A
          generalize (2 : ℚ) ^ 124 = B
          ring

/-- `ldexpf` is `scalbnf`. -/
theorem C117_ldexp {x : Nat} {n : Int} (h : x < 2 ^ 32) (hf : IsFinite x) (hn : -2 ^ 31 ≤ n) (hn2 : n < 2 ^ 31) :
    Rounded (value x * (2 : ℚ) ^ n) (sign x) (ldexp x n) := by
  have hfin : finite x ≠ 0 := by rw [(C115_kinds h).2.2.2.2.2.2.2, if_pos hf]; decide
  unfold ldexp
  by_cases hz : eq x 0 = true
  · rw [if_pos (Or.inr hz)]
    have hmx : mag x = 0 := by
      have hm0 : mag 0 = 0 := rfl
      have hn0 : neg 0 = false := rfl
      unfold eq key at hz
      rw [hm0, hn0] at hz
      simp only [Bool.and_eq_true, decide_eq_true_eq, Bool.false_eq_true, if_false] at hz
      have := hz.2
      split at this <;> omega
    have := C117_scalbn h hf hn hn2
    have e : scalbn x n = x := by
      have hE : expo x = 0 := by have := mag_eq x; omega
      unfold scalbn
      simp only [expo_mask h]
      rw [if_pos ⟨by omega, (and_mag x).trans hmx⟩]
    rwa [e] at this
  · rw [if_neg (by rintro (hh | hh); exacts [hfin hh, hz hh])]
    exact C117_scalbn h hf hn hn2

end Pok.Libmf
