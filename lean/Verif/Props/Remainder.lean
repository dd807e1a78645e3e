import Verif.Props.Fmod
import Mathlib.Algebra.Ring.Int.Parity
/-!
# The IEEE remainder

Property C90.  libpok/libm/e_remainder.c, remainder.c.
-/
namespace Pok.Libm
open Pok.Fpu Pok.Float

/-- A double is a number of at most 53 bits times a power of two. -/
theorem units_form (m : Nat) : ∃ f e, f < 2 ^ 53 ∧ units m = f * 2 ^ e ∧ (e = 0 ∨ 2 ^ 52 ≤ f) := by
  unfold units
  by_cases h : m / 2 ^ 52 = 0
  · rw [if_pos h]; exact ⟨m, 0, by omega, by omega, Or.inl rfl⟩
  · rw [if_neg h]; exact ⟨2 ^ 52 + m % 2 ^ 52, m / 2 ^ 52 - 1, by omega, rfl, Or.inr (by omega)⟩

/-- The difference of two doubles is a double if neither is more than twice the other. -/
theorem sterbenz {a b : Nat} (h1 : units b ≤ units a) (h2 : units a ≤ 2 * units b) : ∃ c, c ≤ b ∧ units c = units a - units b := by
  obtain ⟨f, e, hf, he, hor⟩ := units_form b
  have hp := Nat.two_pow_pos e
  have hj : ∃ j, units a = j * 2 ^ e := by
    rcases units_mul a e with hlt | hj
    · rcases hor with h | h
      · subst h; exact ⟨units a, by omega⟩
      · exfalso
        have : 2 ^ 52 * 2 ^ e ≤ f * 2 ^ e := Nat.mul_le_mul_right _ h
        rw [Nat.pow_add] at hlt
        omega
    · exact hj
  obtain ⟨j, hj⟩ := hj
  have hd : units a - units b = (j - f) * 2 ^ e := by rw [hj, he, Nat.sub_mul]
  have hle : (j - f) * 2 ^ e ≤ f * 2 ^ e := by rw [← hd, ← he]; omega
  have := Nat.le_of_mul_le_mul_right hle hp
  obtain ⟨c, hc⟩ := exists_units (a := j - f) (b := e) (by omega)
  exact ⟨c, units_le.1 (by rw [hc, he]; exact hle), by rw [hc, hd]⟩

theorem units_dbl {m : Nat} (h : m < 2046 * 2 ^ 52) : ∃ c, c < inf ∧ units c = 2 * units m := by
  by_cases h0 : m < 2 ^ 52
  · obtain ⟨c, hc⟩ := exists_units (a := m) (b := 1) (by omega)
    refine ⟨c, ?_, by rw [hc, units_small h0]; omega⟩
    apply units_lt.1
    rw [hc, units_inf]
    have := Nat.two_pow_pos 2044
    generalize 2 ^ 2044 = K at *
    omega
  · refine ⟨m + 2 ^ 52, by unfold inf; omega, ?_⟩
    unfold units
    rw [if_neg (by omega), if_neg (by omega), show (m + 2 ^ 52) % 2 ^ 52 = m % 2 ^ 52 from by omega,
      show (m + 2 ^ 52) / 2 ^ 52 - 1 = (m / 2 ^ 52 - 1) + 1 from by omega, Nat.pow_succ]
    ring

/-- A smaller double minus a greater one. -/
theorem sub_neg {a b c : Nat} (ha : a < inf) (hb : b < inf) (hc : c < inf) (h0 : c ≠ 0) (h : units b = units a + units c) :
    sub a b = 1 * 2 ^ 63 + c := by
  have hi := inf_lt
  have hcu : 0 < units c := by
    have := units_lt.2 (Nat.pos_of_ne_zero h0); omega
  have ma : ∀ m, m < inf → mag m = m := fun m hm => by have := mag_make (s := 0) (m := m) (by omega); simpa using this
  have hn := negate_make (s := 0) (m := b) (by omega) (by omega)
  rw [Nat.zero_mul, Nat.zero_add] at hn
  have hs := sunits_make (s := 0) (m := a) (by omega) (by omega)
  rw [Nat.zero_mul, Nat.zero_add] at hs
  unfold sub
  rw [notNaN (by rw [ma b hb]; exact hb), if_neg (by decide), hn]
  rw [add_finite (by rw [ma a ha]; exact ha) (by rw [mag_make (by omega)]; exact hb), hs, sunits_make (by omega) (by omega), h]
  rw [if_neg (show ¬ ((0 : Nat) = 1) from by decide), if_pos (show (1 : Nat) - 0 = 1 from rfl)]
  have e : (units a : Int) + -((units a + units c : Nat) : Int) = -((units c : Nat) : Int) := by push_cast; ring
  rw [e, if_neg (by omega), Int.natAbs_neg, Int.natAbs_natCast, roundMag_exact0 (by omega)]
  unfold withSign
  rw [if_pos (by simp; omega), Nat.one_mul]

theorem sub_pos {a b c : Nat} (ha : a < inf) (hb : b < inf) (hc : c < inf) (h : units a = units b + units c) : sub a b = c := by
  by_cases h0 : c = 0
  · subst h0
    rw [units_zero, Nat.add_zero] at h
    have := units_inj.1 h
    subst this
    have := sub_self_make (s := 0) (by omega) ha
    rwa [Nat.zero_mul, Nat.zero_add] at this
  · have := sub_make (s := 0) (by omega) ha hb hc h0 h
    rwa [Nat.zero_mul, Nat.zero_add, Nat.zero_add, Nat.zero_add] at this

theorem lt_make {a b : Nat} (ha : a < inf) (hb : b < inf) : lt a b = decide (units a < units b) := by
  have hi := inf_lt
  have e : ∀ m, m < inf → mag m = m := fun m hm => by have := mag_make (s := 0) (m := m) (by omega); simpa using this
  have n : ∀ m, m < inf → neg m = false := fun m hm => by have := neg_make (s := 0) (m := m) (by omega) (by omega); simpa using this
  unfold lt key
  rw [notNaN (by rw [e a ha]; exact ha), notNaN (by rw [e b hb]; exact hb), n a ha, n b hb, e a ha, e b hb]
  simp [units_lt]

theorem le_neg {a c : Nat} (ha : a < inf) (h0 : a ≠ 0) (hc : c < inf) : le a (1 * 2 ^ 63 + c) = false := by
  have hi := inf_lt
  have e : mag a = a := by have := mag_make (s := 0) (m := a) (by omega); simpa using this
  have n : neg a = false := by have := neg_make (s := 0) (m := a) (by omega) (by omega); simpa using this
  unfold le key
  rw [notNaN (by rw [e]; exact ha), notNaN (by rw [mag_make (by omega)]; exact hc), n, e, neg_make (by omega) (by omega), mag_make (by omega)]
  simp; omega

/-- What the reduction leaves of `V < 2 P`: sign `t` and magnitude `m`. -/
def Left (V P t m : Nat) : Prop :=
  m < inf ∧ ((2 * V ≤ P ∧ t = 0 ∧ units m = V) ∨ (P < 2 * V ∧ 2 * V < 3 * P ∧ P ≤ V ∧ t = 0 ∧ units m = V - P)
    ∨ (P < 2 * V ∧ V < P ∧ t = 1 ∧ units m = P - V) ∨ (3 * P ≤ 2 * V ∧ t = 1 ∧ units m = 2 * P - V))

/-- Two subtractions. -/
theorem reduce_spec {a b : Nat} (ha : a < inf) (hb : b < inf) (h2 : units a < 2 * units b) (half : Nat → Bool) (half' : Nat → Bool)
    (hh : half a = decide (units b < 2 * units a)) (hh' : ∀ c, c < inf → units c < units b → half' c = decide (units b ≤ 2 * units c))
    (hn : ∀ c, c < inf → units c < units b → half' (1 * 2 ^ 63 + c) = false) :
    ∃ t m, Left (units a) (units b) t m ∧
      (if half a then (if half' (sub a b) then sub (sub a b) b else sub a b) else a) = t * 2 ^ 63 + m := by
  rw [hh]
  by_cases c1 : units b < 2 * units a
  · rw [if_pos (by simpa using c1)]
    by_cases c2 : units b ≤ units a
    · obtain ⟨c, hc, hu⟩ := sterbenz c2 (by omega)
      have hci : c < inf := by omega
      have e := sub_pos ha hb hci (by omega)
      rw [e, hh' c hci (by omega)]
      by_cases c3 : units b ≤ 2 * units c
      · rw [if_pos (by simpa using c3)]
        obtain ⟨c', hc', hu'⟩ := sterbenz (a := b) (b := c) (by omega) (by omega)
        have hne : c' ≠ 0 := fun hz => by rw [hz, units_zero] at hu'; omega
        exact ⟨1, c', ⟨by omega, by right; right; right; omega⟩, sub_neg hci hb (by omega) hne (by omega)⟩
      · rw [if_neg (by simpa using c3)]
        exact ⟨0, c, ⟨hci, by right; left; omega⟩, by omega⟩
    · obtain ⟨c, hc, hu⟩ := sterbenz (a := b) (b := a) (by omega) (by omega)
      have hci : c < inf := by omega
      have hne : c ≠ 0 := fun hz => by rw [hz, units_zero] at hu; omega
      have e := sub_neg ha hb hci hne (by omega)
      have hua : 0 < units a := by omega
      rw [e, hn c hci (by omega), if_neg (by decide)]
      exact ⟨1, c, ⟨hci, by right; right; left; omega⟩, rfl⟩
  · rw [if_neg (by simpa using c1)]
    exact ⟨0, a, ⟨ha, by left; omega⟩, by omega⟩

theorem add_zero_zero : add 0 0 = 0 := by decide

theorem add_dbl {s m c : Nat} (hs : s < 2) (hm : m < inf) (hc : c < inf) (h0 : m ≠ 0) (h : units c = 2 * units m) :
    add (s * 2 ^ 63 + m) (s * 2 ^ 63 + m) = s * 2 ^ 63 + c := by
  have : c ≠ 0 := fun hz => by
    rw [hz, units_zero] at h
    exact h0 (units_eq_zero.1 (by omega))
  exact add_make hs hm hm hc this (by omega)

theorem flip_sign {t m s : Nat} (ht : t < 2) (hs : s < 2) (hm : m < 2 ^ 63) :
    setHi (t * 2 ^ 63 + m) (hi (t * 2 ^ 63 + m) ^^^ (s * 2 ^ 31)) = ((t + s) % 2) * 2 ^ 63 + m := by
  have e1 : hi (t * 2 ^ 63 + m) = t * 2 ^ 31 + m / 2 ^ 32 := by unfold hi; omega
  have e2 : lo (t * 2 ^ 63 + m) = m % 2 ^ 32 := by unfold lo; omega
  have hx : (2 ^ 31 + m / 2 ^ 32) ^^^ 2 ^ 31 = m / 2 ^ 32 := by
    have h1 := xor_sign (x := 2 ^ 31 + m / 2 ^ 32) (by omega)
    rw [and_sign (by omega), show (2 ^ 31 + m / 2 ^ 32) / 2 ^ 31 * 2 ^ 31 = 2 ^ 31 from by omega] at h1
    rw [h1]; omega
  have hx' : (m / 2 ^ 32) ^^^ 2 ^ 31 = 2 ^ 31 + m / 2 ^ 32 := by
    conv_lhs => rw [← hx]
    rw [Nat.xor_assoc, Nat.xor_self, Nat.xor_zero]
  unfold setHi
  rw [e1, e2]
  unfold insert
  rcases Nat.lt_or_ge t 1 with h | h <;> rcases Nat.lt_or_ge s 1 with h' | h'
  · rw [show t = 0 from by omega, show s = 0 from by omega, Nat.zero_mul, Nat.xor_zero]; omega
  · rw [show t = 0 from by omega, show s = 1 from by omega, Nat.zero_mul, Nat.zero_add, Nat.one_mul, hx']; omega
  · rw [show t = 1 from by omega, show s = 0 from by omega, Nat.zero_mul, Nat.xor_zero]; omega
  · rw [show t = 1 from by omega, show s = 1 from by omega, Nat.one_mul, hx]; omega

theorem fabs_mag {x : Nat} (hx : x < 2 ^ 64) : fabs x = mag x := by
  unfold fabs setHi insert; rw [hi_mag hx, lo_mag]; omega

theorem units_two : units (2 * 2 ^ 52) = 2 ^ 53 := by decide

theorem pow_step {n k : Nat} (h : n = k + 1) : 2 ^ n = 2 ^ k * 2 := by rw [h, Nat.pow_succ]

theorem half_mul {b : Nat} (hb : b < inf) (h2 : 2 * 2 ^ 52 ≤ b) : mul 0x3fe0000000000000 b = b - 2 ^ 52 ∧ 2 * units (b - 2 ^ 52) = units b := by
  have hu : 2 * units (b - 2 ^ 52) = units b := by
    unfold units
    rw [if_neg (by omega), if_neg (by omega), show (b - 2 ^ 52) % 2 ^ 52 = b % 2 ^ 52 from by omega,
      show b / 2 ^ 52 - 1 = ((b - 2 ^ 52) / 2 ^ 52 - 1) + 1 from by omega, Nat.pow_succ]
    ring
  refine ⟨?_, hu⟩
  have := mul_make (s := 0) (t := 0) (a := 0x3fe0000000000000) (b := b) (by omega) (by omega) (by decide) hb
  simp only [Nat.zero_mul, Nat.zero_add, Nat.add_zero, Nat.zero_mod] at this
  rw [this]
  have e : units 0x3fe0000000000000 * units b = units (b - 2 ^ 52) * 2 ^ 1074 := by
    have hp : (2 : Nat) ^ 1074 = 2 ^ 1073 * 2 := pow_step (by decide)
    rw [← hu, show units 0x3fe0000000000000 = 2 ^ 1073 from by decide +kernel, hp]
    generalize 2 ^ 1073 = K
    generalize units (b - 2 ^ 52) = W
    ring
  rw [e, roundMag_exact _ (by omega)]

theorem reduce_small {a b : Nat} (ha : a < inf) (hb : b < 2 * 2 ^ 52) (h0 : b ≠ 0) (h2 : units a < 2 * units b) :
    ∃ t m, Left (units a) (units b) t m ∧
      (if lt b (add a a) then (if le b (add (sub a b) (sub a b)) then sub (sub a b) b else sub a b) else a) = t * 2 ^ 63 + m := by
  have hi : (2 : Nat) * 2 ^ 52 < inf := by decide
  have hub : units b < 2 ^ 53 := by rw [← units_two]; exact units_lt.2 hb
  have hbi : b < inf := by omega
  have key : ∀ c s, s < 2 → c < inf → units c < 2 * units b → c ≠ 0 → ∃ d, d < inf ∧ units d = 2 * units c ∧ add (s * 2 ^ 63 + c) (s * 2 ^ 63 + c) = s * 2 ^ 63 + d := by
    intro c s hs hc hlt hne
    obtain ⟨d, hd, e⟩ := units_dbl (m := c) (by
      by_contra hge
      have h1 := units_le.2 (show 3 * 2 ^ 52 ≤ c by omega)
      rw [show units (3 * 2 ^ 52) = 2 ^ 54 from by decide] at h1
      omega)
    exact ⟨d, hd, e, add_dbl hs hc hd hne e⟩
  apply reduce_spec ha hbi h2 (fun x => lt b (add x x)) (fun x => le b (add x x))
  · by_cases hz : a = 0
    · subst hz
      rw [add_zero_zero, lt_make hbi (by decide), units_zero]
    · obtain ⟨d, hd, e, ea⟩ := key a 0 (by omega) ha h2 hz
      simp only [Nat.zero_mul, Nat.zero_add] at ea
      rw [ea, lt_make hbi hd, e]
  · intro c hc hlt
    by_cases hz : c = 0
    · subst hz
      rw [add_zero_zero, le_make hbi (by decide), units_zero]
    · obtain ⟨d, hd, e, ea⟩ := key c 0 (by omega) hc (by omega) hz
      simp only [Nat.zero_mul, Nat.zero_add] at ea
      rw [ea, le_make hbi hd, e]
  · intro c hc hlt
    by_cases hz : c = 0
    · subst hz
      rw [show add (1 * 2 ^ 63 + 0) (1 * 2 ^ 63 + 0) = 1 * 2 ^ 63 + 0 from by decide]
      exact le_neg hbi h0 (by decide)
    · obtain ⟨d, hd, e, ea⟩ := key c 1 (by omega) hc (by omega) hz
      rw [ea]
      exact le_neg hbi h0 hd

theorem reduce_large {a b : Nat} (ha : a < inf) (hb : b < inf) (hb2 : 2 * 2 ^ 52 ≤ b) (h2 : units a < 2 * units b) :
    ∃ t m, Left (units a) (units b) t m ∧
      (if lt (mul 0x3fe0000000000000 b) a then (if le (mul 0x3fe0000000000000 b) (sub a b) then sub (sub a b) b else sub a b) else a) = t * 2 ^ 63 + m := by
  obtain ⟨hm, hu⟩ := half_mul hb hb2
  rw [hm]
  have hhi : b - 2 ^ 52 < inf := by omega
  apply reduce_spec ha hb h2 (fun x => lt (b - 2 ^ 52) x) (fun x => le (b - 2 ^ 52) x)
  · rw [lt_make hhi ha]; rw [← hu]; generalize units (b - 2 ^ 52) = W; exact decide_eq_decide.2 (by omega)
  · intro c hc hlt
    rw [le_make hhi hc]; rw [← hu]; generalize units (b - 2 ^ 52) = W; exact decide_eq_decide.2 (by omega)
  · intro c hc hlt
    exact le_neg hhi (by omega) hc

theorem big_dbl {m : Nat} (h : 2046 * 2 ^ 52 ≤ m) : units inf ≤ 2 * units m := by
  have h1 := units_le.2 h
  have e : units (2046 * 2 ^ 52) = (2 ^ 52 + 0) * 2 * 2 ^ 2044 := units_up 2044 (f := 0) (by omega)
  rw [e] at h1
  rw [units_inf]
  generalize 2 ^ 2044 = K at *
  omega

theorem remainder_eq {x p : Nat} (h : x < 2 ^ 64) (h' : p < 2 ^ 64) (hf : IsFinite x) (hf' : IsFinite p) (h0 : mag p ≠ 0) :
    ∃ t m, t < 2 ∧ Left (units (mag x) % (2 * units (mag p))) (units (mag p)) t m ∧ remainder x p = ((t + sign x) % 2) * 2 ^ 63 + m := by
  have hfx := (finite_iff x).1 hf
  have hfp := (finite_iff p).1 hf'
  have hi := inf_lt
  have hsx := sign_lt x
  have hsp := sign_lt p
  have hup : 0 < units (mag p) := Nat.pos_of_ne_zero (fun hh => h0 (units_eq_zero.1 hh))
  have hlmx := lo_mag x
  have hlmp := lo_mag p
  -- the number after the first reduction
  have hfirst : ∃ a, a < inf ∧ units a = units (mag x) % (2 * units (mag p))
      ∧ (if mag p / 2 ^ 32 ≤ 0x7fdfffff then fmod x (add p p) else x) = sign x * 2 ^ 63 + a := by
    by_cases hc : mag p / 2 ^ 32 ≤ 0x7fdfffff
    · rw [if_pos hc]
      obtain ⟨c, hc1, hc2⟩ := units_dbl (m := mag p) (by omega)
      have e := add_dbl hsp hfp hc1 h0 hc2
      rw [← self_eq h'] at e
      have hm63 : c < 2 ^ 63 := by omega
      have hmag : mag (add p p) = c := by rw [e, mag_make hm63]
      obtain ⟨m, hm, hu, ef⟩ := fmod_eq h (y := add p p) (by rw [e]; exact lt64 hsp hm63) hf ((finite_iff _).2 (by rw [hmag]; exact hc1))
        (by rw [hmag]; intro hz; rw [hz, units_zero] at hc2; omega)
      rw [hmag, hc2] at hu
      exact ⟨m, hm, hu, ef⟩
    · rw [if_neg hc]
      refine ⟨mag x, hfx, (Nat.mod_eq_of_lt ?_).symm, self_eq h⟩
      exact Nat.lt_of_lt_of_le (units_lt.2 hfx) (big_dbl (by omega))
  obtain ⟨a, ha, hua, hfa⟩ := hfirst
  have hmod := Nat.mod_lt (units (mag x)) (show 2 * units (mag p) > 0 by omega)
  rw [← hua] at hmod
  have hfin : mag p / 2 ^ 32 < 0x7ff00000 := by unfold inf at hfp; omega
  have hfinx : mag x / 2 ^ 32 < 0x7ff00000 := by unfold inf at hfx; omega
  unfold remainder
  simp only
  rw [hi_mag h, hi_mag h', sign_hi h, hfa, if_neg (by rw [ilog_zero]; exact h0), if_neg (by omega)]
  have ma : mag (sign x * 2 ^ 63 + a) = a := mag_make (by omega)
  by_cases heq : mag x = mag p
  · rw [if_pos (by rw [hlmx, hlmp, heq]; exact ⟨rfl, rfl⟩)]
    have hm := mul_make (s := 0) (t := sign x) (a := 0) (b := a) (by omega) hsx (by decide) ha
    rw [Nat.zero_mul, Nat.zero_add, mod_sign hsx, units_zero, Nat.zero_mul, show roundMag 0 1074 = 0 from by decide +kernel] at hm
    refine ⟨0, 0, by omega, ⟨by decide, ?_⟩, ?_⟩
    · rw [heq, Nat.mod_eq_of_lt (by omega), units_zero]; right; left; omega
    · rw [mod_sign hsx]; exact hm
  · rw [if_neg (by omega), fabs_mag (lt64 hsx (by omega)), fabs_mag h', ma, ← hua]
    by_cases hsm : mag p / 2 ^ 32 < 0x00200000
    · rw [if_pos hsm]
      obtain ⟨t, m, hl, e⟩ := reduce_small ha (by omega) h0 hmod
      rw [e]
      have ht : t < 2 := by rcases hl.2 with hh | hh | hh | hh <;> omega
      exact ⟨t, m, ht, hl, flip_sign ht hsx (by have := hl.1; omega)⟩
    · rw [if_neg hsm]
      obtain ⟨t, m, hl, e⟩ := reduce_large ha hfp (by omega) hmod
      rw [e]
      have ht : t < 2 := by rcases hl.2 with hh | hh | hh | hh <;> omega
      exact ⟨t, m, ht, hl, flip_sign ht hsx (by have := hl.1; omega)⟩

/-- The nearest multiple, on natural numbers: `t` says whether the rest is taken from it, not added. -/
theorem left_near {U P t m : Nat} (hP : 0 < P) (hl : Left (U % (2 * P)) P t m) :
    ∃ n : Nat, (U : ℤ) - n * P = (-1) ^ t * (units m : ℤ) ∧ 2 * units m ≤ P ∧ (2 * units m = P → n % 2 = 0) ∧ (units m = 0 → t = 0) := by
  have hdm := Nat.div_add_mod U (2 * P)
  have hlt := Nat.mod_lt U (show 2 * P > 0 by omega)
  generalize U % (2 * P) = V at *
  generalize U / (2 * P) = k at *
  have hU : (U : ℤ) = 2 * P * k + V := by rw [← hdm]; push_cast; ring
  obtain ⟨_, hl⟩ := hl
  rcases hl with ⟨h1, h2, h3⟩ | ⟨h1, h2, h3, h4, h5⟩ | ⟨h1, h2, h3, h4⟩ | ⟨h1, h2, h3⟩
  · refine ⟨2 * k, ?_, by omega, by omega, by omega⟩
    rw [hU, h2, h3]; push_cast; ring
  · refine ⟨2 * k + 1, ?_, by omega, by omega, by omega⟩
    rw [hU, h4, h5, Nat.cast_sub h3]; push_cast; ring
  · refine ⟨2 * k + 1, ?_, by omega, by omega, by omega⟩
    rw [hU, h3, h4, Nat.cast_sub h2.le]; push_cast; ring
  · refine ⟨2 * k + 2, ?_, by omega, by omega, by omega⟩
    rw [hU, h2, h3, Nat.cast_sub hlt.le]; push_cast; ring

/-- `remainder(x, p)` is, without error, what remains of `x` after the multiple `n` of `p` nearest to it, the even one if two are as near; a
remainder of zero has the sign of `x`. -/
theorem C90_remainder {x p : Nat} (h : x < 2 ^ 64) (h' : p < 2 ^ 64) (hf : IsFinite x) (hf' : IsFinite p) (h0 : ¬ IsZero p) :
    remainder x p < 2 ^ 64 ∧ IsFinite (remainder x p) ∧ (value (remainder x p) = 0 → sign (remainder x p) = sign x)
    ∧ ∃ n : ℤ, value (remainder x p) = value x - n * value p ∧ |value (remainder x p)| ≤ |value p| / 2
      ∧ (|value (remainder x p)| = |value p| / 2 → Even n) := by
  have hp0 : mag p ≠ 0 := by have := mag_eq p; unfold IsZero at h0; omega
  have hp : (0 : ℚ) < 2 ^ 1074 := pow_pos (by norm_num) _
  have hup : 0 < units (mag p) := Nat.pos_of_ne_zero (fun hh => hp0 (units_eq_zero.1 hh))
  obtain ⟨t, m, ht, hl, e⟩ := remainder_eq h h' hf hf' hp0
  obtain ⟨n, hn1, hn2, hn3, hn4⟩ := left_near hup hl
  have hi := inf_lt
  have hsx := sign_lt x
  have hsp := sign_lt p
  have hm63 : m < 2 ^ 63 := by have := hl.1; omega
  have hs : (t + sign x) % 2 < 2 := Nat.mod_lt _ (by decide)
  have h64 := lt64 hs hm63
  have hmi := hl.1
  have hq : (units (mag x) : ℚ) - n * units (mag p) = (-1) ^ t * (units m : ℚ) := by exact_mod_cast congrArg (Int.cast : ℤ → ℚ) hn1
  have hsq : ((-1 : ℚ) ^ sign p) * (-1) ^ sign p = 1 := by rw [neg_one_mod hsp hsp, show (sign p + sign p) % 2 = 0 from by omega, pow_zero]
  rw [e, abs_value' h64, abs_value' h', mag_make hm63, sign_make hs hm63]
  refine ⟨h64, (finite_iff _).2 (by rw [mag_make hm63]; exact hmi), ?_, ((-1) ^ sign x * (-1) ^ sign p) * n, ?_, ?_, ?_⟩
  · intro hz
    have : (units m : ℚ) = 0 := by
      have habs := abs_value' h64
      rw [hz, abs_zero, mag_make hm63] at habs
      rcases div_eq_zero_iff.1 habs.symm with hh | hh
      · exact hh
      · exact absurd hh hp.ne'
    rw [hn4 (by exact_mod_cast this), mod_sign hsx]
  · rw [value_sm hs hm63, ← neg_one_mod ht hsx, value_self h, value_self h']
    push_cast
    generalize (2 : ℚ) ^ 1074 = K at *
    have e2 : (-1 : ℚ) ^ t * (-1) ^ sign x * ((units m : ℚ) / K) = (-1) ^ sign x * (((-1) ^ t * (units m : ℚ)) / K) := by ring
    rw [e2, ← hq]
    generalize (-1 : ℚ) ^ sign p = σ at *
    generalize (-1 : ℚ) ^ sign x = τ at *
    have e3 : τ * ((units (mag x) : ℚ) / K) - τ * σ * n * (σ * ((units (mag p) : ℚ) / K))
        = τ * ((units (mag x) : ℚ) / K) - τ * n * ((units (mag p) : ℚ) / K) * (σ * σ) := by ring
    rw [e3, hsq]
    ring
  · rw [div_div, mul_comm, ← div_div]
    apply div_le_div_of_nonneg_right _ hp.le
    rw [le_div_iff₀ (by norm_num)]
    exact_mod_cast (by omega : units m * 2 ≤ units (mag p))
  · intro hh
    generalize (2 : ℚ) ^ 1074 = K at *
    have : (units m : ℚ) * 2 = units (mag p) := by field_simp at hh; linarith
    have h2 : units m * 2 = units (mag p) := by exact_mod_cast this
    have he : Even (n : ℤ) := by exact_mod_cast Nat.even_iff.2 (hn3 (by omega))
    exact he.mul_left _

/-- An infinite divisor leaves the number as it is; an infinite number, a divisor zero, and arguments that are not numbers give what is not a
number. -/
theorem C90_remainder_special {x p : Nat} (h : x < 2 ^ 64) (h' : p < 2 ^ 64) :
    (IsFinite x → IsInf p → remainder x p = x) ∧ (¬ IsFinite x ∨ IsZero p ∨ IsNaN p → IsNaN (remainder x p)) := by
  have hmx := mag_eq x
  have hmp := mag_eq p
  have hlmx := lo_mag x
  have hlmp := lo_mag p
  have := frac_lt x
  have := frac_lt p
  have := expo_lt x
  have := expo_lt p
  constructor
  · intro hf hi
    have hm := (isInf_mag p).1 hi
    have hfx := (finite_iff x).1 hf
    have hinf := inf_lt
    have hsx := sign_lt x
    have hlo : lo p = 0 := by rw [hlmp, hm]; decide
    have hhi : mag p / 2 ^ 32 = 0x7ff00000 := by rw [hm]; decide
    have hhx : mag x / 2 ^ 32 < 0x7ff00000 := by unfold inf at hfx; omega
    unfold remainder
    simp only
    rw [hi_mag h, hi_mag h', hlo, hhi, sign_hi h, if_neg (by decide), if_neg (by simp; exact hhx), if_neg (show ¬ 0x7ff00000 ≤ 0x7fdfffff by decide), if_neg (by omega),
      if_neg (show ¬ (0x7ff00000 : Nat) < 0x00200000 by decide), fabs_mag h, fabs_mag h', hm, show mul 0x3fe0000000000000 inf = inf from by decide +kernel]
    have hlt : lt inf (mag x) = false := by
      have mm : mag (mag x) = mag x := by unfold mag; omega
      have nn : neg (mag x) = false := by unfold neg mag; simp
      unfold lt key
      rw [nn, mm, show mag inf = inf from by decide, show neg inf = false from by decide]
      simp; omega
    rw [hlt, if_neg (by decide)]
    have := flip_sign (t := 0) (s := sign x) (by omega) hsx (mag_lt x)
    rw [Nat.zero_mul, Nat.zero_add, mod_sign hsx] at this
    rw [this, ← self_eq h]
  · intro hh
    have hn : IsNaN nan := by decide
    unfold remainder
    simp only
    rw [hi_mag h, hi_mag h']
    by_cases hz : mag p = 0
    · rw [if_pos (ilog_zero.2 hz)]; exact hn
    · rw [if_neg (by rw [ilog_zero]; exact hz), if_pos]
      · exact hn
      · rcases hh with hh | hh | hh
        · left; unfold IsFinite at hh; omega
        · exact absurd (by rw [hmp, hh.1, hh.2]; rfl) hz
        · right
          have hgt := (isNaN_mag p).1 hh
          unfold inf at hgt
          refine ⟨by omega, fun hz => ?_⟩
          have := Nat.or_eq_zero_iff.1 hz
          omega

/-- `remainder(5.0, 2.0)` is 1 (twice 2, not three times: a tie), `remainder(7.0, 2.0)` is -1, `remainder(-4.0, 2.0)` is -0; these meet the
hypotheses. -/
example : remainder 0x4014000000000000 0x4000000000000000 = 0x3ff0000000000000
    ∧ remainder 0x401c000000000000 0x4000000000000000 = 0xbff0000000000000
    ∧ remainder 0xc010000000000000 0x4000000000000000 = 0x8000000000000000
    ∧ IsFinite 0x4014000000000000 ∧ ¬ IsZero 0x4000000000000000 := by decide +kernel

end Pok.Libm
