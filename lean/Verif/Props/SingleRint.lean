import Verif.Props.SingleRemainder
import Verif.Props.Rint
import Mathlib.Tactic.Linarith
import Mathlib.Tactic.FieldSimp
import Mathlib.Algebra.Ring.Int.Parity

/-!
# `rintf` of floats
-/
namespace Pok.Libmf
open Pok.Single Pok.Fpu32
open Pok.Float (and_mask and_not and_31 and_sign)
open Pok.Libm (not32 neg32 minus32 int32 wrap32 half_mask cut_same or_low log2_top minus32_lt sticky)

/-! ## Adding and subtracting 2^23 rounds to an integer -/

theorem rne_le_succ (n s : Nat) : rne n s ≤ n / 2 ^ s + 1 := by unfold rne; split <;> omega

theorem rne_add_even {a n s : Nat} : rne (2 * a * 2 ^ s + n) s = 2 * a + rne n s := by
  have hp := Nat.two_pow_pos s
  have e1 : (2 * a * 2 ^ s + n) / 2 ^ s = 2 * a + n / 2 ^ s := by
    rw [Nat.add_comm, Nat.add_mul_div_right _ _ hp, Nat.add_comm]
  have e2 : (2 * a * 2 ^ s + n) % 2 ^ s = n % 2 ^ s := by rw [Nat.mul_add_mod_self_right]
  unfold rne
  rw [e1, e2]
  have : (2 * a + n / 2 ^ s) % 2 = n / 2 ^ s % 2 := by omega
  rw [this]
  split <;> omega

theorem rne_shift (n k c : Nat) : rne (n * 2 ^ c) (k + c) = rne n k := by
  have hp := Nat.two_pow_pos c
  have e1 : n * 2 ^ c / 2 ^ (k + c) = n / 2 ^ k := by rw [Nat.pow_add, Nat.mul_div_mul_right _ _ hp]
  have e2 : n * 2 ^ c % 2 ^ (k + c) = n % 2 ^ k * 2 ^ c := by rw [Nat.pow_add, Nat.mul_mod_mul_right]
  unfold rne
  rw [e1, e2, Nat.pow_add, ← Nat.mul_assoc]
  have i1 : 2 * (n % 2 ^ k) * 2 ^ c < 2 ^ k * 2 ^ c ↔ 2 * (n % 2 ^ k) < 2 ^ k := Nat.mul_lt_mul_right hp
  have i2 : 2 * (n % 2 ^ k) * 2 ^ c = 2 ^ k * 2 ^ c ↔ 2 * (n % 2 ^ k) = 2 ^ k := Nat.mul_left_inj (by omega)
  exact if_congr (or_congr i1 (and_congr i2 Iff.rfl)) rfl rfl

/-- Rounding depends on the integer part, the first bit after it, and whether anything follows that bit. -/
theorem rne_same {u v k : Nat} (h1 : u / 2 ^ k = v / 2 ^ k) (h2 : u % 2 ^ k = 0 ↔ v % 2 ^ k = 0) : rne u (k + 1) = rne v (k + 1) := by
  have hp := Nat.two_pow_pos k
  have q : ∀ w, w / 2 ^ (k + 1) = w / 2 ^ k / 2 := fun w => by rw [Nat.pow_succ, Nat.div_div_eq_div_mul]
  have r : ∀ w, w % 2 ^ (k + 1) = w % 2 ^ k + 2 ^ k * (w / 2 ^ k % 2) := fun w => by rw [Nat.pow_succ, Nat.mod_mul]
  have hu := Nat.mod_lt u hp
  have hv := Nat.mod_lt v hp
  unfold rne
  rw [q, q, r, r, h1, Nat.pow_succ]
  generalize u % 2 ^ k = a at *
  generalize v % 2 ^ k = b at *
  generalize v / 2 ^ k = c at *
  generalize 2 ^ k = P at *
  clear q r h1
  have := Nat.mod_two_eq_zero_or_one c
  rcases this with h | h <;> rw [h]
  · rw [if_pos (by omega), if_pos (by omega)]
  · by_cases ha : a = 0
    · have := h2.1 ha
      subst this; subst ha; rfl
    · have hb : b ≠ 0 := fun hh => ha (h2.2 hh)
      rw [if_neg (by omega), if_neg (by omega)]

theorem B_lt : 150 * 2 ^ 23 < inf := by unfold inf; omega

theorem units_B : units (150 * 2 ^ 23) = 2 ^ 23 * D := by
  have := units_make (a := 150) (f := 0) (by omega) (by omega)
  rw [Nat.add_zero] at this
  rw [this, D_eq, Nat.add_zero]

theorem two23_make {s : Nat} (hs : s < 2) : two23 s = s * 2 ^ 31 + 150 * 2 ^ 23 := by
  unfold two23; split <;> omega

theorem log2_B {u : Nat} (h : u < 2 ^ 23 * D) : Nat.log2 (2 ^ 23 * D + u) = 172 := by
  have hD : 2 ^ 23 * D = 2 ^ 172 := by rw [D_eq, ← Nat.pow_add]
  rw [hD] at h ⊢
  exact log2_top h

theorem rne_le52 {u : Nat} (h : u < 2 ^ 23 * D) : rne u 149 ≤ 2 ^ 23 := rne_le (by rw [← D_eq]; exact h)

theorem push {s m : Nat} (hs : s < 2) (hm : m < inf) (hu : units m < 2 ^ 23 * D) :
    add (two23 s) (s * 2 ^ 31 + m) = s * 2 ^ 31 + (150 * 2 ^ 23 + rne (units m) 149) := by
  have hi := inf_lt
  have hB := B_lt
  rw [two23_make hs, add_finite (by rw [mag_make (by omega)]; exact hB) (by rw [mag_make (by omega)]; exact hm),
    sunits_make hs (by omega), sunits_make hs (by omega), neg_make hs (by omega), neg_make hs (by omega)]
  have hBp : 0 < units (150 * 2 ^ 23) := by rw [units_B]; have := D_pos; omega
  have hlog : Nat.log2 (units (150 * 2 ^ 23) + units m) = 172 := by rw [units_B]; exact log2_B hu
  have hq := rne_le52 hu
  have hrne : rne (units (150 * 2 ^ 23) + units m) 149 = 2 ^ 23 + rne (units m) 149 := by
    rw [units_B, D_eq, show (2 : Nat) ^ 23 = 2 * 2 ^ 22 from by rfl]
    exact rne_add_even
  have hr : roundMag (units (150 * 2 ^ 23) + units m) 0 = 150 * 2 ^ 23 + rne (units m) 149 := by
    unfold roundMag
    rw [Nat.pow_zero, Nat.div_one, hlog]
    have : (172 - 23 : Nat) = 149 := rfl
    rw [this, Nat.zero_add, hrne]
    omega
  generalize units (150 * 2 ^ 23) = b at *
  generalize units m = a at *
  rcases Nat.lt_or_ge s 1 with h0 | h0
  · obtain rfl : s = 0 := by omega
    simp only [Nat.zero_ne_one, if_false]
    rw [if_neg (by omega), show ((b : Int) + (a : Int)).natAbs = b + a from by omega, hr]
    have : decide ((b : Int) + (a : Int) < 0) = false := by simp; omega
    rw [this]; unfold withSign; simp
  · obtain rfl : s = 1 := by omega
    simp only [if_true]
    rw [if_neg (by omega), show (-(b : Int) + -(a : Int)).natAbs = b + a from by omega, hr]
    have : decide (-(b : Int) + -(a : Int) < 0) = true := by simp; omega
    rw [this]; unfold withSign; simp

/-- What is left when 2^23 has been added and taken away again. -/
theorem push_pop {s m : Nat} (hs : s < 2) (hm : m < inf) (hu : units m < 2 ^ 23 * D) :
    ∃ c, c < inf ∧ units c = rne (units m) 149 * D
      ∧ sub (add (two23 s) (s * 2 ^ 31 + m)) (two23 s) = if c = 0 then 0 else s * 2 ^ 31 + c := by
  have hq := rne_le52 hu
  have hB := B_lt
  rw [push hs hm hu]
  generalize rne (units m) 149 = q at *
  obtain ⟨c, hc⟩ := exists_units (a := q) (b := 149) (by omega)
  rw [← D_eq] at hc
  have hw : units (150 * 2 ^ 23 + q) = units (150 * 2 ^ 23) + units c := by
    rw [units_make (by omega) hq, units_B, hc, ← Nat.add_mul, D_eq]
  have hci : c < inf := by
    refine Nat.lt_of_le_of_lt ?_ hB
    rw [← units_le, hc, units_B]; exact Nat.mul_le_mul_right _ hq
  refine ⟨c, hci, hc, ?_⟩
  rw [two23_make hs]
  split
  · rename_i h0
    rw [h0, units_zero, Nat.add_zero, units_inj] at hw
    rw [hw]
    exact sub_self_make hs hB
  · rename_i h0
    exact sub_make hs (by unfold inf; omega) hB hci h0 hw

/-! ## The bits handed to that rounding -/

theorem bit20 {j : Nat} (h : j ≤ 20) : 0x100000 >>> j = 2 ^ (20 - j) := by
  rw [Nat.shiftRight_eq_div_pow, show (0x100000 : Nat) = 2 ^ 20 from rfl, Nat.pow_div h (by decide)]

theorem sx_eq {x : Nat} (_h : x < 2 ^ 32) : x >>> 31 &&& 1 = sign x := by
  rw [Nat.shiftRight_eq_div_pow, show (1 : Nat) = 2 ^ 1 - 1 from rfl, and_mask]
  unfold sign; omega

/-- The bits that `rintf` rounds, for a number that is not an integer: everything after the first bit below the binary point is replaced,
and that it is zero or not is kept; except that one bit is lost when the exponent is 21. -/
theorem rint_mid {x : Nat} (h : x < 2 ^ 32) (h1 : 127 ≤ expo x) (h2 : expo x ≤ 149) (hz : x % 2 ^ (150 - expo x) ≠ 0) :
    ∃ y, rint x = sub (add (two23 (sign x)) y) (two23 (sign x)) ∧ y < 2 ^ 32 ∧ y / 2 ^ (149 - expo x) = x / 2 ^ (149 - expo x)
      ∧ (expo x = 148 ∧ x % 2 ^ 1 = 1 → y % 2 ^ 1 = 0)
      ∧ (¬ (expo x = 148 ∧ x % 2 ^ 1 = 1) → (y % 2 ^ (149 - expo x) = 0 ↔ x % 2 ^ (149 - expo x) = 0)) := by
  unfold rint
  simp only [exponent_eq, sx_eq h]
  rw [if_pos (by omega), if_neg (by omega)]
  obtain ⟨j, hj⟩ : ∃ j : Nat, expo x = 127 + j := ⟨expo x - 127, by omega⟩
  rw [hj] at hz ⊢
  rw [show ((127 + j : Nat) : Int) - 127 = (j : Int) from by omega, Int.toNat_natCast, mask23 (by omega)]
  rw [show 150 - (127 + j) = 23 - j from by omega] at hz
  rw [if_neg (fun h0 => hz (low_zero.1 h0)), half_mask (by omega), show 149 - (127 + j) = 23 - j - 1 from by omega]
  have hcz := low_zero (x := x) (k := 23 - j - 1)
  by_cases hst : x % 2 ^ (23 - j - 1) = 0
  · -- nothing to clear
    rw [if_neg (fun hh => hh (hcz.2 hst))]
    refine ⟨x, rfl, h, rfl, ?_, fun _ => Iff.rfl⟩
    rintro ⟨e1, e2⟩
    have : j = 21 := by omega
    subst this
    rw [show 23 - 21 - 1 = 1 from rfl] at hst
    omega
  · rw [if_pos (fun hh => hst (hcz.1 hh))]
    have hj21 : j ≤ 21 := by
      by_contra hcon
      have : 23 - j - 1 = 0 := by omega
      rw [this, Nat.pow_zero, Nat.mod_one] at hst
      exact hst rfl
    obtain ⟨b, hb, hor, hb21⟩ : ∃ b, b < 2 ^ (23 - j - 1) ∧ x &&& not32 (2 ^ (23 - j - 1) - 1) ||| 0x100000 >>> j
        = x / 2 ^ (23 - j - 1) * 2 ^ (23 - j - 1) + b ∧ (b = 0 ↔ j = 21) := by
      rw [and_not h (by omega)]
      by_cases h21 : j = 21
      · subst h21
        refine ⟨0, by decide, ?_, by decide⟩
        rw [show 0x100000 >>> 21 = 0 from rfl, Nat.or_zero, Nat.add_zero]
      · refine ⟨2 ^ (20 - j), Nat.pow_lt_pow_right (by decide) (by omega), ?_, ?_⟩
        · rw [bit20 (by omega), or_low (Nat.pow_lt_pow_right (by decide) (by omega))]
        · have := Nat.two_pow_pos (20 - j); omega
    rw [hor]
    obtain ⟨e1, e2⟩ := cut_same (x := x) hb
    refine ⟨_, rfl, ?_, e1, ?_, ?_⟩
    · have hd : x / 2 ^ (23 - j - 1) < 2 ^ 32 / 2 ^ (23 - j - 1) := Nat.div_lt_div_of_lt_of_dvd (Nat.pow_dvd_pow 2 (by omega)) h
      have h3 := Nat.div_mul_cancel (Nat.pow_dvd_pow 2 (show 23 - j - 1 ≤ 32 by omega))
      have h4 : (x / 2 ^ (23 - j - 1) + 1) * 2 ^ (23 - j - 1) ≤ 2 ^ 32 / 2 ^ (23 - j - 1) * 2 ^ (23 - j - 1) := Nat.mul_le_mul_right _ hd
      rw [h3, Nat.add_mul, Nat.one_mul] at h4
      omega
    · rintro ⟨e3, e4⟩
      have : j = 21 := by omega
      subst this
      rw [hb21.2 rfl, show 23 - 21 - 1 = 1 from rfl]; omega
    · intro hnb
      rw [e2]
      refine ⟨fun h0 => ?_, fun h0 => absurd h0 hst⟩
      exfalso
      have hj21 : j = 21 := hb21.1 h0
      subst hj21
      apply hnb
      refine ⟨rfl, ?_⟩
      rw [show 23 - 21 - 1 = 1 from rfl] at hst
      omega

theorem same_bits {x y k : Nat} (hk : k ≤ 22) (h : y / 2 ^ k = x / 2 ^ k) :
    sign y = sign x ∧ expo y = expo x ∧ frac y / 2 ^ k = frac x / 2 ^ k ∧ frac y % 2 ^ k = y % 2 ^ k ∧ frac x % 2 ^ k = x % 2 ^ k := by
  have h52 : (2 : Nat) ^ 23 = 2 ^ k * 2 ^ (23 - k) := by rw [← Nat.pow_add]; congr 1; omega
  have q : y / 2 ^ 23 = x / 2 ^ 23 := by rw [h52, ← Nat.div_div_eq_div_mul, ← Nat.div_div_eq_div_mul, h]
  have f : ∀ w, frac w / 2 ^ k = w / 2 ^ k % 2 ^ (23 - k) := fun w => by
    unfold frac; rw [h52, Nat.mod_mul_right_div_self]
  have r : ∀ w, frac w % 2 ^ k = w % 2 ^ k := fun w => by
    unfold frac; rw [Nat.mod_mod_of_dvd _ (Nat.pow_dvd_pow 2 (by omega))]
  refine ⟨?_, ?_, by rw [f, f, h], r y, r x⟩
  · unfold sign; omega
  · unfold expo; omega

theorem rne_mid {x : Nat} (h : x < 2 ^ 32) (h1 : 127 ≤ expo x) (h2 : expo x ≤ 149) :
    rne (units (mag x)) 149 = rne (2 ^ 23 + frac x) (149 - expo x + 1) := by
  rw [mid_units h h1 h2]
  have e : 149 = (149 - expo x + 1) + (expo x - 1) := by omega
  generalize expo x - 1 = c at *
  generalize 149 - expo x + 1 = k at *
  rw [e]
  exact rne_shift _ _ _

theorem add_top {f k : Nat} (hk : k ≤ 22) : (2 ^ 23 + f) / 2 ^ k = 2 ^ (23 - k) + f / 2 ^ k ∧ (2 ^ 23 + f) % 2 ^ k = f % 2 ^ k := by
  have h52 : (2 : Nat) ^ 23 = 2 ^ (23 - k) * 2 ^ k := by rw [← Nat.pow_add]; congr 1; omega
  rw [h52, Nat.mul_add_mod_self_right, Nat.add_comm, Nat.add_mul_div_right _ _ (Nat.two_pow_pos _)]
  exact ⟨Nat.add_comm _ _, rfl⟩

/-- The arguments for which `rintf` is wrong: those between 2^21 and 2^22 whose fraction is three quarters and whose integer part is even. -/
def Lost (x : Nat) : Prop := expo x = 148 ∧ x % 2 ^ 3 = 3

instance (x : Nat) : Decidable (Lost x) := inferInstanceAs (Decidable (_ ∧ _))

/-- Losing the last bit of a fraction of two bits makes a difference only when it turns three quarters into a tie that goes down. -/
theorem rne_lost {f g : Nat} (hf : f % 2 ^ 1 = 1) (hg : g % 2 ^ 1 = 0) (hq : g / 2 ^ 1 = f / 2 ^ 1) :
    (f % 2 ^ 3 ≠ 3 → rne (2 ^ 23 + g) 2 = rne (2 ^ 23 + f) 2) ∧ (f % 2 ^ 3 = 3 → rne (2 ^ 23 + g) 2 = (2 ^ 23 + f) / 2 ^ 2) := by
  unfold rne
  have hr : 2 * ((2 ^ 23 + g) % 2 ^ 2) < 2 ^ 2 ∨ 2 * ((2 ^ 23 + g) % 2 ^ 2) = 2 ^ 2 := by omega
  constructor
  · intro h
    by_cases c : 2 * ((2 ^ 23 + g) % 2 ^ 2) < 2 ^ 2
    · rw [if_pos (Or.inl c), if_pos (by omega)]; omega
    · rw [if_neg (by omega), if_neg (by omega)]; omega
  · intro h
    rw [if_pos (by omega)]; omega

/-- What `rintf` rounds to. -/
def rintTo (x : Nat) : Nat := if Lost x then units (mag x) / D else rne (units (mag x)) 149

theorem rne_pos_mid {x : Nat} (h : x < 2 ^ 32) (h1 : 127 ≤ expo x) (h2 : expo x ≤ 149) : 0 < units (mag x) / D := by
  have := units_le.2 (show 127 * 2 ^ 23 ≤ mag x by rw [mag_eq]; omega)
  rw [units_one] at this
  exact Nat.div_pos this D_pos

theorem rne_whole {u : Nat} (h : u % D = 0) : rne u 149 = u / D := by
  have : u = u / D * 2 ^ 149 := by rw [← D_eq]; exact (Nat.div_mul_cancel (Nat.dvd_of_mod_eq_zero h)).symm
  conv_lhs => rw [this]
  exact rne_exact _ _

theorem units_lt_mid {x : Nat} (h2 : expo x ≤ 149) : units (mag x) < 2 ^ 23 * D := by
  rw [← units_B, units_lt, mag_eq]
  have := frac_lt x
  omega

theorem not_lost_whole {x : Nat} (h : x < 2 ^ 32) (hz : units (mag x) % D = 0) : ¬ Lost x := by
  rintro ⟨h1, h2⟩
  have := (mid_whole h (by omega) (by omega)).2 hz
  rw [h1] at this
  omega

theorem rint_is_mid {x : Nat} (h : x < 2 ^ 32) (h1 : 127 ≤ expo x) (h2 : expo x ≤ 149) (hz : x % 2 ^ (150 - expo x) ≠ 0) :
    Is x (rint x) (rintTo x) := by
  obtain ⟨y, hr, hy, hq, hl, hs⟩ := rint_mid h h1 h2 hz
  obtain ⟨es, ee, ef, ery, erx⟩ := same_bits (by omega) hq
  have hfy : mag y < inf := by rw [mag_eq, ee]; have := frac_lt y; unfold inf; omega
  have hpos := rne_pos_mid h h1 h2
  have hposy := rne_pos_mid hy (by omega) (by omega)
  have hto : rne (units (mag y)) 149 = rintTo x := by
    unfold rintTo
    by_cases hb : expo x = 148 ∧ x % 2 ^ 1 = 1
    · have hy33 := hl hb
      rw [hb.1] at hq ef ery erx
      rw [show 149 - 148 = 1 from rfl] at hq ef ery erx
      obtain ⟨k1, k2⟩ := rne_lost (f := frac x) (g := frac y) (by rw [erx]; exact hb.2) (by rw [ery]; exact hy33) ef
      have hx35 : frac x % 2 ^ 3 = x % 2 ^ 3 := by unfold frac; omega
      rw [hx35] at k1 k2
      rw [rne_mid hy (by omega) (by omega), ee, hb.1, show 149 - 148 + 1 = 2 from rfl]
      by_cases hL : Lost x
      · rw [if_pos hL, k2 hL.2, mid_quot h h1 h2, hb.1]
      · rw [if_neg hL, k1 (fun hh => hL ⟨hb.1, hh⟩), rne_mid h h1 h2, hb.1]
    · have hL : ¬ Lost x := fun hh => hb ⟨hh.1, by have := hh.2; omega⟩
      rw [if_neg hL, rne_mid hy (by omega) (by omega), rne_mid h h1 h2, ee]
      obtain ⟨a1, a2⟩ := add_top (f := frac x) (k := 149 - expo x) (by omega)
      obtain ⟨b1, b2⟩ := add_top (f := frac y) (k := 149 - expo x) (by omega)
      refine rne_same (by rw [a1, b1, ef]) ?_
      rw [a2, b2, erx, ery]
      exact hs hb
  obtain ⟨c, hc, hcu, hsub⟩ := push_pop (sign_lt x) hfy (units_lt_mid (by omega))
  rw [← es, ← self_eq hy, es] at hsub
  have hc0 : c ≠ 0 := by
    intro h0
    rw [h0, units_zero] at hcu
    have hge : units (mag y) / D ≤ rne (units (mag y)) 149 := rne_ge (by rw [← D_eq]; exact Nat.div_mul_le_self _ _)
    have := D_pos
    have hmul : rne (units (mag y)) 149 * D ≠ 0 := Nat.mul_ne_zero (by omega) (by omega)
    exact hmul hcu.symm
  rw [if_neg hc0] at hsub
  exact ⟨c, by rw [hr, hsub], hc, by rw [hcu, hto]⟩

theorem sticky22 {l : Nat} (hl : l < 2 ^ 32) : (l ||| minus32 l) >>> 9 &&& 0x400000 = (if l = 0 then 0 else 1) * 2 ^ 22 := by
  have h := sticky hl
  have hv : l ||| minus32 l < 2 ^ 32 := Nat.or_lt_two_pow hl (minus32_lt l)
  have e : (l ||| minus32 l) >>> 9 &&& 0x400000 = ((l ||| minus32 l) &&& 0x80000000) >>> 9 := by
    rw [Nat.shiftRight_and_distrib]; rfl
  rw [e, and_sign hv]
  generalize (l ||| minus32 l) = v at *
  rw [Nat.shiftRight_eq_div_pow] at h ⊢
  rw [← h]; omega

/-- Below one in magnitude, the exponent is kept, and so is whether the fraction is zero. -/
theorem small_bits {x : Nat} (h : x < 2 ^ 32) :
    ∃ y, y = (x &&& 0xfff00000 ||| ((x &&& 0x07fffff) ||| minus32 (x &&& 0x07fffff)) >>> 9 &&& 0x400000)
      ∧ y < 2 ^ 32 ∧ sign y = sign x ∧ expo y = expo x ∧ (frac y = 0 ↔ frac x = 0) := by
  have h23 : x &&& 0x07fffff = frac x := and_mask _ 23
  have hfl := frac_lt x
  refine ⟨_, rfl, ?_⟩
  rw [h23, sticky22 (by omega), show 0xfff00000 = not32 (2 ^ 20 - 1) from rfl, and_not h (by decide)]
  generalize hb : (if frac x = 0 then 0 else 1) = b
  have hb2 : b < 2 := by rw [← hb]; split <;> omega
  have hb0 : b = 0 ↔ frac x = 0 := by rw [← hb]; split <;> omega
  have hq : (x / 2 ^ 20 * 2 ^ 20 ||| b * 2 ^ 22) / 2 ^ 23 = x / 2 ^ 23 := by
    rw [← Nat.shiftRight_eq_div_pow, Nat.shiftRight_or_distrib, Nat.shiftRight_eq_div_pow, Nat.shiftRight_eq_div_pow,
      show b * 2 ^ 22 / 2 ^ 23 = 0 from by omega, Nat.or_zero]
    omega
  have hr : (x / 2 ^ 20 * 2 ^ 20 ||| b * 2 ^ 22) % 2 ^ 23 = (x / 2 ^ 20 * 2 ^ 20 % 2 ^ 23 ||| b * 2 ^ 22) := by
    rw [Nat.or_mod_two_pow, Nat.mod_eq_of_lt (show b * 2 ^ 22 < 2 ^ 23 by omega)]
  have hr0 : (x / 2 ^ 20 * 2 ^ 20 ||| b * 2 ^ 22) % 2 ^ 23 = 0 → b = 0 := by
    rw [hr, Nat.or_eq_zero_iff]; omega
  have hr1 : frac x = 0 → (x / 2 ^ 20 * 2 ^ 20 ||| b * 2 ^ 22) % 2 ^ 23 = 0 := by
    intro h0
    rw [hr, hb0.2 h0, Nat.zero_mul, Nat.or_zero]
    unfold frac at h0
    omega
  generalize (x / 2 ^ 20 * 2 ^ 20 ||| b * 2 ^ 22) = w at *
  have hw : w < 2 ^ 32 := by omega
  refine ⟨hw, ?_, ?_, ?_⟩
  · unfold sign; omega
  · unfold expo; omega
  · constructor
    · intro h0
      apply hb0.1; apply hr0
      unfold frac at h0; omega
    · intro h0
      have := hr1 h0
      unfold frac; omega

theorem rne_tiny {u : Nat} (h : 2 * u < D) : rne u 149 = 0 := by
  have hlt : u < D := by omega
  unfold rne
  rw [← D_eq, Nat.mod_eq_of_lt hlt, Nat.div_eq_of_lt hlt, if_pos (Or.inl h)]

theorem rne_half_f {f : Nat} (hf : f < 2 ^ 23) : rne (2 ^ 23 + f) 24 = if f = 0 then 0 else 1 := by
  unfold rne
  by_cases h : f = 0
  · rw [if_pos h, if_pos (by omega)]; omega
  · rw [if_neg h, if_neg (by omega)]; omega

theorem rne_small {x : Nat} (hE : expo x < 127) : rne (units (mag x)) 149 = if expo x = 126 ∧ frac x ≠ 0 then 1 else 0 := by
  by_cases h : expo x = 126
  · rw [units_expo, if_neg (by omega), h]
    have e : 149 = 24 + (126 - 1) := by omega
    generalize 126 - 1 = c at *
    rw [e, rne_shift, rne_half_f (frac_lt x)]
    by_cases h0 : frac x = 0
    · rw [if_pos h0, if_neg (by tauto)]
    · rw [if_neg h0, if_pos (by tauto)]
  · rw [if_neg (by tauto)]
    apply rne_tiny
    have := units_lt.2 (show mag x < 0x3f000000 by rw [mag_eq]; have := frac_lt x; omega)
    have := half_units
    omega

theorem sx_shift {x : Nat} (h : x < 2 ^ 32) : sign x <<< 31 = x &&& 0x80000000 := by
  rw [sign_and h, Nat.shiftLeft_eq]

theorem rint_is {x : Nat} (h : x < 2 ^ 32) (hf : IsFinite x) : Is x (rint x) (rintTo x) := by
  have hs := sign_lt x
  rcases Nat.lt_or_ge (expo x) 127 with hE | hE
  · have hL : ¬ Lost x := fun hh => by have := hh.1; omega
    unfold rintTo
    rw [if_neg hL]
    by_cases h0 : mag x = 0
    · have hr : rint x = x := by
        unfold rint
        simp only [exponent_eq]
        rw [if_pos (by omega), if_pos (by omega), if_pos (zero_or.2 h0)]
      rw [hr, h0, units_zero]
      refine ⟨0, ?_, by decide, ?_⟩
      · conv_lhs => rw [self_eq h]
        rw [h0]
      · rw [rne_tiny (by have := D_pos; omega), units_zero, Nat.zero_mul]
    · obtain ⟨y, hy, hylt, es, ee, ef⟩ := small_bits h
      have hr : rint x = copysign (sub (add (two23 (sign x)) y) (two23 (sign x))) x := by
        unfold rint
        simp only [exponent_eq, sx_eq h]
        rw [if_pos (by omega), if_pos (by omega), if_neg (fun hh => h0 (zero_or.1 hh)), ← hy]
        unfold copysign
        rw [sx_shift h]
      have hfy : mag y < inf := by rw [mag_eq, ee]; have := frac_lt y; unfold inf; omega
      obtain ⟨c, hc, hcu, hsub⟩ := push_pop hs hfy (units_lt_mid (by omega))
      rw [← es, ← self_eq hylt, es] at hsub
      have hinf := inf_lt
      refine ⟨c, ?_, hc, ?_⟩
      · rw [hr, hsub, copysign_make]
        · split
          · rename_i hc0; rw [hc0]; rfl
          · rw [mag_make (by omega)]
        · exact h
      · rw [hcu, rne_small (by omega), rne_small hE, ee]
        congr 1
        have : (expo x = 126 ∧ frac y ≠ 0) ↔ (expo x = 126 ∧ frac x ≠ 0) := by rw [Ne, Ne, ef]
        exact if_congr this rfl rfl
  · by_cases hz : units (mag x) % D = 0
    · have hL := not_lost_whole h hz
      have hr : rint x = x := by
        unfold rint
        simp only [exponent_eq]
        have hlt := expo_lt x
        unfold IsFinite at hf
        by_cases h22 : expo x ≤ 149
        · have hw := (mid_whole h hE h22).2 hz
          rw [if_pos (by omega), if_neg (by omega)]
          obtain ⟨j, hj⟩ : ∃ j : Nat, expo x = 127 + j := ⟨expo x - 127, by omega⟩
          rw [hj] at hw ⊢
          rw [show ((127 + j : Nat) : Int) - 127 = (j : Int) from by omega, Int.toNat_natCast, mask23 (by omega)]
          rw [show 150 - (127 + j) = 23 - j from by omega] at hw
          rw [if_pos (low_zero.2 hw)]
        · rw [if_neg (by omega), if_neg (by omega)]
      unfold rintTo
      rw [if_neg hL, hr, rne_whole hz]
      exact Is.self h hf (Nat.dvd_of_mod_eq_zero hz)
    · have h2 : expo x ≤ 149 := by
        by_contra hcon
        exact hz (Nat.mod_eq_zero_of_dvd (D_dvd (by omega)))
      exact rint_is_mid h hE h2 (fun hh => hz ((mid_whole h hE h2).1 hh))

theorem rne_int (u : Nat) : 2 * |(u : ℤ) - rne u 149 * (D : ℤ)| ≤ D ∧ (2 * |(u : ℤ) - rne u 149 * (D : ℤ)| = D → rne u 149 % 2 = 0) := by
  have hdm := Nat.div_add_mod u D
  have hlt := Nat.mod_lt u D_pos
  have hD := D_pos
  have hq : rne u 149 = if 2 * (u % D) < D ∨ (2 * (u % D) = D ∧ u / D % 2 = 0) then u / D else u / D + 1 := by
    unfold rne; rw [← D_eq]
  generalize rne u 149 = q at *
  generalize u / D = a at *
  generalize u % D = r at *
  generalize D = K at *
  have e : (u : ℤ) = K * a + r := by exact_mod_cast hdm.symm
  split at hq
  · subst hq
    have e2 : (u : ℤ) - q * K = r := by rw [e]; ring
    rw [e2, abs_of_nonneg (by omega)]
    omega
  · subst hq
    have e2 : (u : ℤ) - ((a + 1 : ℕ) : ℤ) * K = -((K : ℤ) - r) := by rw [e]; push_cast; ring
    rw [e2, abs_neg, abs_of_nonneg (by omega)]
    omega

theorem units_21 : units (148 * 2 ^ 23) = 2 ^ 21 * D ∧ units (149 * 2 ^ 23) = 2 ^ 22 * D := by
  have h1 := units_make (a := 148) (f := 0) (by omega) (by omega)
  have h2 := units_make (a := 149) (f := 0) (by omega) (by omega)
  rw [Nat.add_zero] at h1 h2
  rw [h1, h2, D_split (E := 148) (by omega) (by omega)]
  have e : (2 : Nat) ^ (149 - 1) = 2 * 2 ^ (148 - 1) := by rw [← Nat.pow_succ']
  rw [e]
  generalize (2 : Nat) ^ (148 - 1) = P
  constructor <;> ring

/-- `Lost`, said of the number. -/
theorem lost_iff {x : Nat} (h : x < 2 ^ 32) : Lost x ↔ 2 ^ 21 ≤ |value x| ∧ |value x| < 2 ^ 22 ∧ ∃ k : ℕ, |value x| = 2 * k + 3 / 4 := by
  have hD0 : (0 : ℚ) < (D : ℚ) := Nat.cast_pos.2 D_pos
  have hab : |value x| = ((units (mag x) : ℕ) : ℚ) / (D : ℚ) := by rw [abs_value h]; push_cast; rfl
  have hlo : (2 : ℚ) ^ 21 ≤ |value x| ↔ 148 * 2 ^ 23 ≤ mag x := by
    rw [hab, le_div_iff₀ hD0, ← units_le, units_21.1]
    exact_mod_cast Iff.rfl
  have hhi : |value x| < (2 : ℚ) ^ 22 ↔ mag x < 149 * 2 ^ 23 := by
    rw [hab, div_lt_iff₀ hD0, ← units_lt, units_21.2]
    exact_mod_cast Iff.rfl
  have hex : expo x = 148 ↔ 2 ^ 21 ≤ |value x| ∧ |value x| < 2 ^ 22 := by
    rw [hlo, hhi, mag_eq]; have := frac_lt x; omega
  rw [← and_assoc, ← hex]
  unfold Lost
  refine and_congr_right (fun hE => ?_)
  have hu := mid_units h (by omega) (by omega)
  have hDs := D_split (E := 148) (by omega) (by omega)
  rw [hE] at hu
  have hval : |value x| = ((2 ^ 23 + frac x : ℕ) : ℚ) / 2 ^ 2 := by
    rw [hab, hu, hDs, Nat.cast_mul, Nat.cast_mul, mul_div_mul_right]
    · norm_num
    · exact Nat.cast_ne_zero.2 (Nat.two_pow_pos _).ne'
  rw [hval]
  have hf := frac_lt x
  have hx3 : x % 2 ^ 3 = frac x % 2 ^ 3 := by unfold frac; omega
  rw [hx3]
  constructor
  · intro hm
    refine ⟨(2 ^ 23 + frac x) / 2 ^ 3, ?_⟩
    have : 2 ^ 23 + frac x = (2 ^ 23 + frac x) / 2 ^ 3 * 2 ^ 3 + 3 := by omega
    generalize (2 ^ 23 + frac x) / 2 ^ 3 = k at *
    rw [this]; push_cast
    generalize (k : ℚ) = k
    ring
  · rintro ⟨k, hk⟩
    have hk' : ((2 ^ 23 + frac x : ℕ) : ℚ) = ((k * 2 ^ 3 + 3 : ℕ) : ℚ) := by
      rw [div_eq_iff (by norm_num)] at hk
      rw [hk]; push_cast
      generalize (k : ℚ) = k
      ring
    have := Nat.cast_injective hk'
    omega

/-- `rintf` returns the integer nearest to a finite float, the even one of two that are equally near, with the sign of the argument; proved
for all arguments but those between 2^21 and 2^22 in magnitude whose integer part is even and whose fraction is 3/4.  For these it is false:
see `C118_rint_violated`. -/
theorem C118_rint_partial {x : Nat} (h : x < 2 ^ 32) (hf : IsFinite x)
    (hex : ¬ (2 ^ 21 ≤ |value x| ∧ |value x| < 2 ^ 22 ∧ ∃ k : ℕ, |value x| = 2 * k + 3 / 4)) :
    rint x < 2 ^ 32 ∧ IsFinite (rint x) ∧ sign (rint x) = sign x
    ∧ ∃ n : ℤ, value (rint x) = n ∧ |value x - n| ≤ 1 / 2 ∧ (|value x - n| = 1 / 2 → Even n) := by
  have hL : ¬ Lost x := fun hh => hex ((lost_iff h).1 hh)
  have his := rint_is h hf
  unfold rintTo at his
  rw [if_neg hL] at his
  obtain ⟨h1, h2, h3, h4⟩ := his.spec
  refine ⟨h1, h2, h3, (-1) ^ sign x * (rne (units (mag x)) 149 : ℤ), by rw [h4]; push_cast; rfl, ?_⟩
  obtain ⟨k1, k2⟩ := rne_int (units (mag x))
  have hD0 : (0 : ℚ) < (D : ℚ) := Nat.cast_pos.2 D_pos
  have hdist : |value x - (((-1) ^ sign x * (rne (units (mag x)) 149 : ℤ) : ℤ) : ℚ)|
      = ((|(units (mag x) : ℤ) - rne (units (mag x)) 149 * (D : ℤ)| : ℤ) : ℚ) / (D : ℚ) := by
    have e : value x - (((-1) ^ sign x * (rne (units (mag x)) 149 : ℤ) : ℤ) : ℚ)
        = (-1) ^ sign x * ((((units (mag x) : ℤ) - rne (units (mag x)) 149 * (D : ℤ) : ℤ) : ℚ) / (D : ℚ)) := by
      rw [value_self h, ← D_cast]; push_cast
      generalize (D : ℚ) = K at *
      field_simp
    rw [e, abs_mul, abs_pow, abs_neg, abs_one, one_pow, _root_.one_mul, abs_div, abs_of_pos hD0, Int.cast_abs]
  rw [hdist]
  generalize |(units (mag x) : ℤ) - rne (units (mag x)) 149 * (D : ℤ)| = g at *
  generalize rne (units (mag x)) 149 = q at *
  constructor
  · rw [div_le_iff₀ hD0]
    have : (2 : ℚ) * g ≤ D := by exact_mod_cast k1
    linarith
  · intro heq
    rw [div_eq_iff hD0.ne'] at heq
    have : (2 : ℚ) * g = D := by linarith
    have hq : q % 2 = 0 := k2 (by exact_mod_cast this)
    have : Even (q : ℤ) := by rw [Int.even_iff]; omega
    exact this.mul_left _

/-- The full claim of `C118_rint_partial` is false: for every float between 2^21 and 2^22 in magnitude whose integer part is even and whose
fraction is 3/4, `rintf` returns the integer part, which is 3/4 away, although the next integer is 1/4 away.  libpok/libm/rintf.c lacks the
case that its origin has for the exponent 21, so that `0x100000 >> 21` clears the last bit of the fraction. -/
theorem C118_rint_violated {x : Nat} (h : x < 2 ^ 32) {k : ℕ} (h1 : 2 ^ 21 ≤ |value x|) (h2 : |value x| < 2 ^ 22) (h3 : |value x| = 2 * k + 3 / 4) :
    |value (rint x)| = 2 * k := by
  have hL : Lost x := (lost_iff h).2 ⟨h1, h2, k, h3⟩
  have hf : IsFinite x := by unfold IsFinite; have := hL.1; omega
  have his := rint_is h hf
  unfold rintTo at his
  rw [if_pos hL] at his
  obtain ⟨-, -, -, h4⟩ := his.spec
  have hD0 : (0 : ℚ) < (D : ℚ) := Nat.cast_pos.2 D_pos
  have hab : |value x| = ((units (mag x) : ℕ) : ℚ) / (D : ℚ) := by rw [abs_value h]; push_cast; rfl
  have hdiv : units (mag x) / D = 2 * k := by
    rw [hab, div_eq_iff hD0.ne'] at h3
    apply Nat.div_eq_of_lt_le
    · have : ((2 * k * D : ℕ) : ℚ) ≤ (units (mag x) : ℚ) := by rw [h3]; push_cast; nlinarith
      exact_mod_cast this
    · have : (units (mag x) : ℚ) < (((2 * k + 1) * D : ℕ) : ℚ) := by rw [h3]; push_cast; nlinarith
      exact_mod_cast this
  rw [h4, hdiv, abs_mul, abs_pow, abs_neg, abs_one, one_pow, _root_.one_mul, abs_of_nonneg (Nat.cast_nonneg _)]
  push_cast; rfl

/-- 2097152.75 is rounded to 2097152; 2097153.75, 2.5 and -0.75 are rounded rightly. -/
example : rint 0x4a000003 = 0x4a000000 ∧ Lost 0x4a000003 ∧ rint 0x4a000007 = 0x4a000008
    ∧ rint 0x40200000 = 0x40000000 ∧ rint 0xBF400000 = 0xBF800000 ∧ ¬ Lost 0x4a000007 := by decide +kernel

/-- `rintf` of the infinites is its argument; of what is not a number it is not a number. -/
theorem C118_rint_special {x : Nat} (h : x < 2 ^ 32) : (IsInf x → rint x = x) ∧ (IsNaN x → IsNaN (rint x)) := by
  have hr : expo x = 255 → rint x = add x x := by
    intro hE
    unfold rint
    simp only [exponent_eq]
    rw [if_neg (by omega), if_pos (by rw [hE]; rfl)]
  exact ⟨fun hh => by rw [hr hh.1, add_inf hh], fun hh => by rw [hr hh.1]; exact add_nan (Or.inl hh)⟩

end Pok.Libmf
