import Verif.Props.Remainder
import Mathlib.Tactic.Linarith
import Mathlib.Tactic.FieldSimp
import Mathlib.Algebra.Ring.Int.Parity

/-!
# `rint` of doubles
-/
namespace Pok.Libm
open Pok.Fpu Pok.Float

/-! ## Adding and subtracting 2^52 rounds to an integer -/

theorem rne_le_succ (n s : Nat) : rne n s ≤ n / 2 ^ s + 1 := by unfold rne; split <;> omega

theorem rne_add_even {a n s : Nat} : rne (2 * a * 2 ^ s + n) s = 2 * a + rne n s := by
  have hp := Nat.two_pow_pos s
  have e1 : (2 * a * 2 ^ s + n) / 2 ^ s = 2 * a + n / 2 ^ s := by
    rw [Nat.add_comm, Nat.add_mul_div_right _ _ hp, Nat.add_comm]
  have e2 : (2 * a * 2 ^ s + n) % 2 ^ s = n % 2 ^ s := by rw [Nat.mul_add_mod_self_right]
  unfold rne
  rw [e1, e2]
  have : (2 * a + n / 2 ^ s) % 2 = n / 2 ^ s % 2 := by omega
  rw [this]
  split <;> omega

theorem rne_shift (n k c : Nat) : rne (n * 2 ^ c) (k + c) = rne n k := by
  have hp := Nat.two_pow_pos c
  have e1 : n * 2 ^ c / 2 ^ (k + c) = n / 2 ^ k := by rw [Nat.pow_add, Nat.mul_div_mul_right _ _ hp]
  have e2 : n * 2 ^ c % 2 ^ (k + c) = n % 2 ^ k * 2 ^ c := by rw [Nat.pow_add, Nat.mul_mod_mul_right]
  unfold rne
  rw [e1, e2, Nat.pow_add, ← Nat.mul_assoc]
  have i1 : 2 * (n % 2 ^ k) * 2 ^ c < 2 ^ k * 2 ^ c ↔ 2 * (n % 2 ^ k) < 2 ^ k := Nat.mul_lt_mul_right hp
  have i2 : 2 * (n % 2 ^ k) * 2 ^ c = 2 ^ k * 2 ^ c ↔ 2 * (n % 2 ^ k) = 2 ^ k := Nat.mul_left_inj (by omega)
  exact if_congr (or_congr i1 (and_congr i2 Iff.rfl)) rfl rfl

/-- Rounding depends on the integer part, the first bit after it, and whether anything follows that bit. -/
theorem rne_same {u v k : Nat} (h1 : u / 2 ^ k = v / 2 ^ k) (h2 : u % 2 ^ k = 0 ↔ v % 2 ^ k = 0) : rne u (k + 1) = rne v (k + 1) := by
  have hp := Nat.two_pow_pos k
  have q : ∀ w, w / 2 ^ (k + 1) = w / 2 ^ k / 2 := fun w => by rw [Nat.pow_succ, Nat.div_div_eq_div_mul]
  have r : ∀ w, w % 2 ^ (k + 1) = w % 2 ^ k + 2 ^ k * (w / 2 ^ k % 2) := fun w => by rw [Nat.pow_succ, Nat.mod_mul]
  have hu := Nat.mod_lt u hp
  have hv := Nat.mod_lt v hp
  unfold rne
  rw [q, q, r, r, h1, Nat.pow_succ]
  generalize u % 2 ^ k = a at *
  generalize v % 2 ^ k = b at *
  generalize v / 2 ^ k = c at *
  generalize 2 ^ k = P at *
  clear q r h1
  have := Nat.mod_two_eq_zero_or_one c
  rcases this with h | h <;> rw [h]
  · rw [if_pos (by omega), if_pos (by omega)]
  · by_cases ha : a = 0
    · have := h2.1 ha
      subst this; subst ha; rfl
    · have hb : b ≠ 0 := fun hh => ha (h2.2 hh)
      rw [if_neg (by omega), if_neg (by omega)]

theorem B_lt : 1075 * 2 ^ 52 < inf := by unfold inf; omega

theorem units_B : units (1075 * 2 ^ 52) = 2 ^ 52 * D := by
  have := units_make (a := 1075) (f := 0) (by omega) (by omega)
  rw [Nat.add_zero] at this
  rw [this, D_eq, Nat.add_zero]

theorem two52_make {s : Nat} (hs : s < 2) : two52 s = s * 2 ^ 63 + 1075 * 2 ^ 52 := by
  unfold two52; split <;> omega

theorem log2_top {u k : Nat} (h : u < 2 ^ k) : Nat.log2 (2 ^ k + u) = k := by
  have hp := Nat.two_pow_pos k
  rw [Nat.log2_eq_iff (by omega)]
  exact ⟨Nat.le_add_right _ _, by rw [Nat.pow_succ]; omega⟩

theorem log2_B {u : Nat} (h : u < 2 ^ 52 * D) : Nat.log2 (2 ^ 52 * D + u) = 1126 := by
  have hD : 2 ^ 52 * D = 2 ^ 1126 := by rw [D_eq, ← Nat.pow_add]
  rw [hD] at h ⊢
  exact log2_top h

theorem rne_le52 {u : Nat} (h : u < 2 ^ 52 * D) : rne u 1074 ≤ 2 ^ 52 := rne_le (by rw [← D_eq]; exact h)

theorem push {s m : Nat} (hs : s < 2) (hm : m < inf) (hu : units m < 2 ^ 52 * D) :
    add (two52 s) (s * 2 ^ 63 + m) = s * 2 ^ 63 + (1075 * 2 ^ 52 + rne (units m) 1074) := by
  have hi := inf_lt
  have hB := B_lt
  rw [two52_make hs, add_finite (by rw [mag_make (by omega)]; exact hB) (by rw [mag_make (by omega)]; exact hm),
    sunits_make hs (by omega), sunits_make hs (by omega), neg_make hs (by omega), neg_make hs (by omega)]
  have hBp : 0 < units (1075 * 2 ^ 52) := by rw [units_B]; have := D_pos; omega
  have hlog : Nat.log2 (units (1075 * 2 ^ 52) + units m) = 1126 := by rw [units_B]; exact log2_B hu
  have hq := rne_le52 hu
  have hrne : rne (units (1075 * 2 ^ 52) + units m) 1074 = 2 ^ 52 + rne (units m) 1074 := by
    rw [units_B, D_eq, show (2 : Nat) ^ 52 = 2 * 2 ^ 51 from by rfl]
    exact rne_add_even
  have hr : roundMag (units (1075 * 2 ^ 52) + units m) 0 = 1075 * 2 ^ 52 + rne (units m) 1074 := by
    unfold roundMag
    rw [Nat.pow_zero, Nat.div_one, hlog]
    have : (1126 - 52 : Nat) = 1074 := rfl
    rw [this, Nat.zero_add, hrne]
    omega
  generalize units (1075 * 2 ^ 52) = b at *
  generalize units m = a at *
  rcases Nat.lt_or_ge s 1 with h0 | h0
  · obtain rfl : s = 0 := by omega
    simp only [Nat.zero_ne_one, if_false]
    rw [if_neg (by omega), show ((b : Int) + (a : Int)).natAbs = b + a from by omega, hr]
    have : decide ((b : Int) + (a : Int) < 0) = false := by simp; omega
    rw [this]; unfold withSign; simp
  · obtain rfl : s = 1 := by omega
    simp only [if_true]
    rw [if_neg (by omega), show (-(b : Int) + -(a : Int)).natAbs = b + a from by omega, hr]
    have : decide (-(b : Int) + -(a : Int) < 0) = true := by simp; omega
    rw [this]; unfold withSign; simp

/-- What is left when 2^52 has been added and taken away again. -/
theorem push_pop {s m : Nat} (hs : s < 2) (hm : m < inf) (hu : units m < 2 ^ 52 * D) :
    ∃ c, c < inf ∧ units c = rne (units m) 1074 * D
      ∧ sub (add (two52 s) (s * 2 ^ 63 + m)) (two52 s) = if c = 0 then 0 else s * 2 ^ 63 + c := by
  have hq := rne_le52 hu
  have hB := B_lt
  rw [push hs hm hu]
  generalize rne (units m) 1074 = q at *
  obtain ⟨c, hc⟩ := exists_units (a := q) (b := 1074) (by omega)
  rw [← D_eq] at hc
  have hw : units (1075 * 2 ^ 52 + q) = units (1075 * 2 ^ 52) + units c := by
    rw [units_make (by omega) hq, units_B, hc, ← Nat.add_mul, D_eq]
  have hci : c < inf := by
    refine Nat.lt_of_le_of_lt ?_ hB
    rw [← units_le, hc, units_B]; exact Nat.mul_le_mul_right _ hq
  refine ⟨c, hci, hc, ?_⟩
  rw [two52_make hs]
  split
  · rename_i h0
    rw [h0, units_zero, Nat.add_zero, units_inj] at hw
    rw [hw]
    exact sub_self_make hs hB
  · rename_i h0
    exact sub_make hs (by unfold inf; omega) hB hci h0 hw

/-! ## The bits handed to that rounding -/

theorem or_low {a b n : Nat} (h : b < 2 ^ n) : a * 2 ^ n ||| b = a * 2 ^ n + b := by
  rw [Nat.mul_comm]; exact (Nat.two_pow_add_eq_or_of_lt h a).symm

theorem half_mask {k : Nat} (h : 1 ≤ k) : (2 ^ k - 1) >>> 1 = 2 ^ (k - 1) - 1 := by
  rw [Nat.shiftRight_eq_div_pow]
  have : 2 ^ k = 2 ^ (k - 1) * 2 := by rw [← Nat.pow_succ]; congr 1; omega
  have := Nat.two_pow_pos (k - 1)
  omega

theorem bit17 {j : Nat} (h : j ≤ 17) : 0x20000 >>> j = 2 ^ (17 - j) := by
  rw [Nat.shiftRight_eq_div_pow, show (0x20000 : Nat) = 2 ^ 17 from rfl, Nat.pow_div h (by decide)]

theorem bit30 {j : Nat} (h : j ≤ 30) : 0x40000000 >>> j = 2 ^ (30 - j) := by
  rw [Nat.shiftRight_eq_div_pow, show (0x40000000 : Nat) = 2 ^ 30 from rfl, Nat.pow_div h (by decide)]

theorem sx_eq {x : Nat} (h : x < 2 ^ 64) : hi x >>> 31 &&& 1 = sign x := by
  rw [Nat.shiftRight_eq_div_pow, show (1 : Nat) = 2 ^ 1 - 1 from rfl, and_mask]
  unfold hi sign; omega

theorem cut_same {x b P : Nat} (hb : b < P) : (x / P * P + b) / P = x / P ∧ (x / P * P + b) % P = b := by
  have hP : 0 < P := by omega
  constructor
  · rw [Nat.add_comm, Nat.add_mul_div_right _ _ hP, Nat.div_eq_of_lt hb, Nat.zero_add]
  · rw [Nat.mul_add_mod_self_right, Nat.mod_eq_of_lt hb]

theorem join_lt64 {a l : Nat} (ha : a < 2 ^ 32) (hl : l < 2 ^ 32) : a * 2 ^ 32 + l < 2 ^ 64 := by omega

theorem even_join (a : Nat) : a / 2 ^ (20 - 18 - 1) * 2 ^ (20 - 18 - 1) * 2 ^ 32 % 2 ^ 33 = 0 := by
  rw [show 20 - 18 - 1 = 1 from rfl]; omega

/-- The bits that `rint` rounds, for a number that is not an integer: everything after the first bit below the binary point is replaced,
and that it is zero or not is kept; except that one bit is lost when the exponent is 18. -/
theorem rint_mid {x : Nat} (h : x < 2 ^ 64) (h1 : 1023 ≤ expo x) (h2 : expo x ≤ 1074) (hz : x % 2 ^ (1075 - expo x) ≠ 0) :
    ∃ y, rint x = sub (add (two52 (sign x)) y) (two52 (sign x)) ∧ y < 2 ^ 64 ∧ y / 2 ^ (1074 - expo x) = x / 2 ^ (1074 - expo x)
      ∧ (expo x = 1041 ∧ x % 2 ^ 33 = 2 ^ 32 → y % 2 ^ 33 = 0)
      ∧ (¬ (expo x = 1041 ∧ x % 2 ^ 33 = 2 ^ 32) → (y % 2 ^ (1074 - expo x) = 0 ↔ x % 2 ^ (1074 - expo x) = 0)) := by
  have hw := words h
  have hl := lo_lt x
  have hh := hi_lt x
  unfold rint
  simp only [exponent_eq h, sx_eq h]
  by_cases hc : expo x < 1043
  · rw [if_pos (by omega), if_neg (by omega)]
    obtain ⟨j, hj⟩ : ∃ j : Nat, expo x = 1023 + j := ⟨expo x - 1023, by omega⟩
    rw [hj] at hz ⊢
    rw [show ((1023 + j : Nat) : Int) - 1023 = (j : Int) from by omega, Int.toNat_natCast, mask20 (by omega)]
    rw [show 1075 - (1023 + j) = 20 - j + 32 from by omega] at hz
    rw [if_neg (fun h0 => hz ((low_zero h).1 h0)), half_mask (by omega), show 1074 - (1023 + j) = 20 - j - 1 + 32 from by omega]
    have hcz := low_zero (k := 20 - j - 1) h
    by_cases hst : x % 2 ^ (20 - j - 1 + 32) = 0
    · -- nothing to clear
      have hc0 := hcz.2 hst
      rw [if_neg (fun hh => hh.1 hc0), if_neg (fun hh => hh.1 hc0)]
      have e : insert (hi x) (lo x) = x := by unfold insert; exact hw
      rw [e]
      refine ⟨x, rfl, h, rfl, ?_, fun _ => Iff.rfl⟩
      rintro ⟨e1, e2⟩
      have : j = 18 := by omega
      subst this
      rw [show 20 - 18 - 1 + 32 = 33 from rfl] at hst
      omega
    · have hc1 : ((hi x &&& (2 ^ (20 - j - 1) - 1)) ||| lo x ≠ 0) := fun hh => hst (hcz.1 hh)
      by_cases h19 : j = 19
      · subst h19
        rw [if_neg (fun hh => hh.2 (by omega)), if_pos ⟨hc1, by omega⟩]
        rw [show 20 - 19 - 1 + 32 = 32 from rfl] at hst ⊢
        have hx32 : x / 2 ^ 32 = hi x := (hi_eq h).symm
        refine ⟨_, rfl, ?_, ?_, ?_, ?_⟩
        · unfold insert; omega
        · unfold insert; omega
        · rintro ⟨e1, e2⟩; omega
        · intro _; unfold insert; omega
      · rw [if_pos ⟨hc1, by omega⟩, if_neg (fun hh => h19 (by omega))]
        have hP : 2 ^ (20 - j - 1 + 32) = 2 ^ (20 - j - 1) * 2 ^ 32 := Nat.pow_add _ _ _
        obtain ⟨b, hb, hor, hb18⟩ : ∃ b, b < 2 ^ (20 - j - 1) ∧ hi x &&& not32 (2 ^ (20 - j - 1) - 1) ||| 0x20000 >>> j
            = hi x / 2 ^ (20 - j - 1) * 2 ^ (20 - j - 1) + b ∧ (b = 0 ↔ j = 18) := by
          rw [and_not hh (by omega)]
          by_cases h18 : j = 18
          · subst h18
            refine ⟨0, by decide, ?_, by decide⟩
            rw [show 0x20000 >>> 18 = 0 from rfl, Nat.or_zero, Nat.add_zero]
          · refine ⟨2 ^ (17 - j), Nat.pow_lt_pow_right (by decide) (by omega), ?_, ?_⟩
            · rw [bit17 (by omega), or_low (Nat.pow_lt_pow_right (by decide) (by omega))]
            · have := Nat.two_pow_pos (17 - j); omega
        rw [hor]
        have hcut : insert (hi x / 2 ^ (20 - j - 1) * 2 ^ (20 - j - 1) + b) (lo x)
            = x / (2 ^ (20 - j - 1) * 2 ^ 32) * (2 ^ (20 - j - 1) * 2 ^ 32) + (b * 2 ^ 32 + lo x) := by
          unfold insert
          have : x / (2 ^ (20 - j - 1) * 2 ^ 32) = hi x / 2 ^ (20 - j - 1) := by
            rw [hi_eq h, Nat.div_div_eq_div_mul, Nat.mul_comm]
          rw [this]; ring
        have hblt : b * 2 ^ 32 + lo x < 2 ^ (20 - j - 1) * 2 ^ 32 := by
          generalize 2 ^ (20 - j - 1) = P at *
          have : (b + 1) * 2 ^ 32 ≤ P * 2 ^ 32 := Nat.mul_le_mul_right _ hb
          omega
        obtain ⟨e1, e2⟩ := cut_same (x := x) hblt
        have hPle : 2 ^ (20 - j - 1) ≤ 2 ^ 19 := Nat.pow_le_pow_right (by decide) (by omega)
        refine ⟨_, rfl, ?_, ?_, ?_, ?_⟩
        · unfold insert
          have : hi x / 2 ^ (20 - j - 1) * 2 ^ (20 - j - 1) + b < 2 ^ 32 := by
            have hd : hi x / 2 ^ (20 - j - 1) < 2 ^ 32 / 2 ^ (20 - j - 1) :=
              Nat.div_lt_div_of_lt_of_dvd (Nat.pow_dvd_pow 2 (by omega)) hh
            have h3 := Nat.div_mul_cancel (Nat.pow_dvd_pow 2 (show 20 - j - 1 ≤ 32 by omega))
            have h4 : (hi x / 2 ^ (20 - j - 1) + 1) * 2 ^ (20 - j - 1) ≤ 2 ^ 32 / 2 ^ (20 - j - 1) * 2 ^ (20 - j - 1) := Nat.mul_le_mul_right _ hd
            rw [h3, Nat.add_mul] at h4
            omega
          exact join_lt64 this hl
        · rw [hcut, hP, e1]
        · rintro ⟨e3, e4⟩
          have : j = 18 := by omega
          subst this
          have hb0 := hb18.2 rfl
          have : lo x = 0 := by unfold lo; omega
          unfold insert; rw [hb0, this, Nat.add_zero, Nat.add_zero]
          exact even_join _
        · intro hnb
          rw [hcut, hP, e2, ← hP]
          refine ⟨fun h0 => ?_, fun h0 => absurd h0 hst⟩
          exfalso
          have hj18 : j = 18 := hb18.1 (by omega)
          have hlo : lo x = 0 := by omega
          subst hj18
          apply hnb
          refine ⟨rfl, ?_⟩
          rw [show 20 - 18 - 1 + 32 = 33 from rfl] at hst
          unfold lo at hlo
          omega
  · rw [if_neg (by omega), if_neg (by omega)]
    obtain ⟨j, hj⟩ : ∃ j : Nat, expo x = 1043 + j := ⟨expo x - 1043, by omega⟩
    rw [hj] at hz ⊢
    rw [show (((1043 + j : Nat) : Int) - 1023 - 20) = (j : Int) from by omega, Int.toNat_natCast, mask32 (by omega)]
    rw [show 1075 - (1043 + j) = 32 - j from by omega] at hz
    rw [if_neg (fun h0 => hz ((low_zero' (by omega)).1 h0)), half_mask (by omega), show 1074 - (1043 + j) = 32 - j - 1 from by omega]
    have hcz := low_zero' (x := x) (k := 32 - j - 1) (by omega)
    have h41 : ¬ (1043 + j = 1041 ∧ x % 2 ^ 33 = 2 ^ 32) := by omega
    by_cases hst : x % 2 ^ (32 - j - 1) = 0
    · rw [if_neg (fun hh => hh (hcz.2 hst))]
      have e : insert (hi x) (lo x) = x := by unfold insert; exact hw
      rw [e]
      exact ⟨x, rfl, h, rfl, fun hh => absurd hh h41, fun _ => Iff.rfl⟩
    · rw [if_pos (fun hh => hst (hcz.1 hh))]
      have hj30 : j ≤ 30 := by
        by_contra hcon
        have : 32 - j - 1 = 0 := by omega
        rw [this, Nat.pow_zero, Nat.mod_one] at hst
        exact hst rfl
      have hb : 2 ^ (30 - j) < 2 ^ (32 - j - 1) := Nat.pow_lt_pow_right (by decide) (by omega)
      rw [and_not hl (by omega), bit30 hj30, or_low hb]
      have hcut : insert (hi x) (lo x / 2 ^ (32 - j - 1) * 2 ^ (32 - j - 1) + 2 ^ (30 - j)) = x / 2 ^ (32 - j - 1) * 2 ^ (32 - j - 1) + 2 ^ (30 - j) := by
        have := insert_trunc (h := hi x) hl (show 32 - j - 1 ≤ 32 by omega)
        rw [hw] at this
        rw [← this]; unfold insert; omega
      obtain ⟨e1, e2⟩ := cut_same (x := x) hb
      refine ⟨_, rfl, ?_, by rw [hcut, e1], fun hh => absurd hh h41, fun _ => ?_⟩
      · rw [hcut]
        have hd : x / 2 ^ (32 - j - 1) < 2 ^ 64 / 2 ^ (32 - j - 1) := Nat.div_lt_div_of_lt_of_dvd (Nat.pow_dvd_pow 2 (by omega)) h
        have h3 := Nat.div_mul_cancel (Nat.pow_dvd_pow 2 (show 32 - j - 1 ≤ 64 by omega))
        have h4 : (x / 2 ^ (32 - j - 1) + 1) * 2 ^ (32 - j - 1) ≤ 2 ^ 64 / 2 ^ (32 - j - 1) * 2 ^ (32 - j - 1) := Nat.mul_le_mul_right _ hd
        rw [h3, Nat.add_mul, Nat.one_mul] at h4
        omega
      · rw [hcut, e2]
        have := Nat.two_pow_pos (30 - j)
        exact ⟨fun hh => by omega, fun hh => absurd hh hst⟩

theorem same_bits {x y k : Nat} (hk : k ≤ 51) (h : y / 2 ^ k = x / 2 ^ k) :
    sign y = sign x ∧ expo y = expo x ∧ frac y / 2 ^ k = frac x / 2 ^ k ∧ frac y % 2 ^ k = y % 2 ^ k ∧ frac x % 2 ^ k = x % 2 ^ k := by
  have h52 : (2 : Nat) ^ 52 = 2 ^ k * 2 ^ (52 - k) := by rw [← Nat.pow_add]; congr 1; omega
  have q : y / 2 ^ 52 = x / 2 ^ 52 := by rw [h52, ← Nat.div_div_eq_div_mul, ← Nat.div_div_eq_div_mul, h]
  have f : ∀ w, frac w / 2 ^ k = w / 2 ^ k % 2 ^ (52 - k) := fun w => by
    unfold frac; rw [h52, Nat.mod_mul_right_div_self]
  have r : ∀ w, frac w % 2 ^ k = w % 2 ^ k := fun w => by
    unfold frac; rw [Nat.mod_mod_of_dvd _ (Nat.pow_dvd_pow 2 (by omega))]
  refine ⟨?_, ?_, by rw [f, f, h], r y, r x⟩
  · unfold sign; omega
  · unfold expo; omega

theorem rne_mid {x : Nat} (h : x < 2 ^ 64) (h1 : 1023 ≤ expo x) (h2 : expo x ≤ 1074) :
    rne (units (mag x)) 1074 = rne (2 ^ 52 + frac x) (1074 - expo x + 1) := by
  rw [mid_units h h1 h2]
  have e : 1074 = (1074 - expo x + 1) + (expo x - 1) := by omega
  generalize expo x - 1 = c at *
  generalize 1074 - expo x + 1 = k at *
  rw [e]
  exact rne_shift _ _ _

theorem add_top {f k : Nat} (hk : k ≤ 51) : (2 ^ 52 + f) / 2 ^ k = 2 ^ (52 - k) + f / 2 ^ k ∧ (2 ^ 52 + f) % 2 ^ k = f % 2 ^ k := by
  have h52 : (2 : Nat) ^ 52 = 2 ^ (52 - k) * 2 ^ k := by rw [← Nat.pow_add]; congr 1; omega
  rw [h52, Nat.mul_add_mod_self_right, Nat.add_comm, Nat.add_mul_div_right _ _ (Nat.two_pow_pos _)]
  exact ⟨Nat.add_comm _ _, rfl⟩

/-- The arguments for which `rint` is wrong: those between 2^18 and 2^19 whose fraction is three quarters and whose integer part is even. -/
def Lost (x : Nat) : Prop := expo x = 1041 ∧ x % 2 ^ 35 = 3 * 2 ^ 32

instance (x : Nat) : Decidable (Lost x) := inferInstanceAs (Decidable (_ ∧ _))

/-- Losing the last bit of a fraction of two bits makes a difference only when it turns three quarters into a tie that goes down. -/
theorem rne_lost {f g : Nat} (hf : f % 2 ^ 33 = 2 ^ 32) (hg : g % 2 ^ 33 = 0) (hq : g / 2 ^ 33 = f / 2 ^ 33) :
    (f % 2 ^ 35 ≠ 3 * 2 ^ 32 → rne (2 ^ 52 + g) 34 = rne (2 ^ 52 + f) 34) ∧ (f % 2 ^ 35 = 3 * 2 ^ 32 → rne (2 ^ 52 + g) 34 = (2 ^ 52 + f) / 2 ^ 34) := by
  unfold rne
  have hr : 2 * ((2 ^ 52 + g) % 2 ^ 34) < 2 ^ 34 ∨ 2 * ((2 ^ 52 + g) % 2 ^ 34) = 2 ^ 34 := by omega
  constructor
  · intro h
    by_cases c : 2 * ((2 ^ 52 + g) % 2 ^ 34) < 2 ^ 34
    · rw [if_pos (Or.inl c), if_pos (by omega)]; omega
    · rw [if_neg (by omega), if_neg (by omega)]; omega
  · intro h
    rw [if_pos (by omega)]; omega

/-- What `rint` rounds to. -/
def rintTo (x : Nat) : Nat := if Lost x then units (mag x) / D else rne (units (mag x)) 1074

theorem rne_pos_mid {x : Nat} (h : x < 2 ^ 64) (h1 : 1023 ≤ expo x) (h2 : expo x ≤ 1074) : 0 < units (mag x) / D := by
  have := units_le.2 (show 1023 * 2 ^ 52 ≤ mag x by rw [mag_eq]; omega)
  rw [units_one] at this
  exact Nat.div_pos this D_pos

theorem rne_whole {u : Nat} (h : u % D = 0) : rne u 1074 = u / D := by
  have : u = u / D * 2 ^ 1074 := by rw [← D_eq]; exact (Nat.div_mul_cancel (Nat.dvd_of_mod_eq_zero h)).symm
  conv_lhs => rw [this]
  exact rne_exact _ _

theorem units_lt_mid {x : Nat} (h2 : expo x ≤ 1074) : units (mag x) < 2 ^ 52 * D := by
  rw [← units_B, units_lt, mag_eq]
  have := frac_lt x
  omega

theorem not_lost_whole {x : Nat} (h : x < 2 ^ 64) (hz : units (mag x) % D = 0) : ¬ Lost x := by
  rintro ⟨h1, h2⟩
  have := (mid_whole h (by omega) (by omega)).2 hz
  rw [h1] at this
  omega

theorem rint_is_mid {x : Nat} (h : x < 2 ^ 64) (h1 : 1023 ≤ expo x) (h2 : expo x ≤ 1074) (hz : x % 2 ^ (1075 - expo x) ≠ 0) :
    Is x (rint x) (rintTo x) := by
  obtain ⟨y, hr, hy, hq, hl, hs⟩ := rint_mid h h1 h2 hz
  obtain ⟨es, ee, ef, ery, erx⟩ := same_bits (by omega) hq
  have hfy : mag y < inf := by rw [mag_eq, ee]; have := frac_lt y; unfold inf; omega
  have hpos := rne_pos_mid h h1 h2
  have hposy := rne_pos_mid hy (by omega) (by omega)
  have hto : rne (units (mag y)) 1074 = rintTo x := by
    unfold rintTo
    by_cases hb : expo x = 1041 ∧ x % 2 ^ 33 = 2 ^ 32
    · have hy33 := hl hb
      rw [hb.1] at hq ef ery erx
      rw [show 1074 - 1041 = 33 from rfl] at hq ef ery erx
      obtain ⟨k1, k2⟩ := rne_lost (f := frac x) (g := frac y) (by rw [erx]; exact hb.2) (by rw [ery]; exact hy33) ef
      have hx35 : frac x % 2 ^ 35 = x % 2 ^ 35 := by unfold frac; omega
      rw [hx35] at k1 k2
      rw [rne_mid hy (by omega) (by omega), ee, hb.1, show 1074 - 1041 + 1 = 34 from rfl]
      by_cases hL : Lost x
      · rw [if_pos hL, k2 hL.2, mid_quot h h1 h2, hb.1]
      · rw [if_neg hL, k1 (fun hh => hL ⟨hb.1, hh⟩), rne_mid h h1 h2, hb.1]
    · have hL : ¬ Lost x := fun hh => hb ⟨hh.1, by have := hh.2; omega⟩
      rw [if_neg hL, rne_mid hy (by omega) (by omega), rne_mid h h1 h2, ee]
      obtain ⟨a1, a2⟩ := add_top (f := frac x) (k := 1074 - expo x) (by omega)
      obtain ⟨b1, b2⟩ := add_top (f := frac y) (k := 1074 - expo x) (by omega)
      refine rne_same (by rw [a1, b1, ef]) ?_
      rw [a2, b2, erx, ery]
      exact hs hb
  obtain ⟨c, hc, hcu, hsub⟩ := push_pop (sign_lt x) hfy (units_lt_mid (by omega))
  rw [← es, ← self_eq hy, es] at hsub
  have hc0 : c ≠ 0 := by
    intro h0
    rw [h0, units_zero] at hcu
    have hge : units (mag y) / D ≤ rne (units (mag y)) 1074 := rne_ge (by rw [← D_eq]; exact Nat.div_mul_le_self _ _)
    have := D_pos
    have hmul : rne (units (mag y)) 1074 * D ≠ 0 := Nat.mul_ne_zero (by omega) (by omega)
    exact hmul hcu.symm
  rw [if_neg hc0] at hsub
  exact ⟨c, by rw [hr, hsub], hc, by rw [hcu, hto]⟩

theorem minus32_lt (l : Nat) : minus32 l < 2 ^ 32 := by unfold minus32; omega

theorem sticky19 {l : Nat} (hl : l < 2 ^ 32) : (l ||| minus32 l) >>> 12 &&& 0x80000 = (if l = 0 then 0 else 1) * 2 ^ 19 := by
  have h := sticky hl
  have hv : l ||| minus32 l < 2 ^ 32 := Nat.or_lt_two_pow hl (minus32_lt l)
  have e : (l ||| minus32 l) >>> 12 &&& 0x80000 = ((l ||| minus32 l) &&& 0x80000000) >>> 12 := by
    rw [Nat.shiftRight_and_distrib]; rfl
  rw [e, and_sign hv]
  generalize (l ||| minus32 l) = v at *
  rw [Nat.shiftRight_eq_div_pow] at h ⊢
  rw [← h]; omega

/-- Below one in magnitude, the exponent is kept, and so is whether the fraction is zero. -/
theorem small_bits {x : Nat} (h : x < 2 ^ 64) :
    ∃ y, y = setHi x (hi x &&& 0xfffe0000 ||| ((lo x ||| hi x &&& 0x0fffff) ||| minus32 (lo x ||| hi x &&& 0x0fffff)) >>> 12 &&& 0x80000)
      ∧ y < 2 ^ 64 ∧ sign y = sign x ∧ expo y = expo x ∧ (frac y = 0 ↔ frac x = 0) := by
  have hl := lo_lt x
  have hh := hi_lt x
  have h20 : hi x &&& 0x0fffff = hi x % 2 ^ 20 := and_mask _ 20
  have hor : lo x ||| hi x % 2 ^ 20 < 2 ^ 32 := Nat.or_lt_two_pow hl (by omega)
  have hz : lo x ||| hi x % 2 ^ 20 = 0 ↔ frac x = 0 := by
    rw [Nat.or_eq_zero_iff]; unfold lo hi frac; omega
  refine ⟨_, rfl, ?_⟩
  rw [h20, sticky19 hor, show 0xfffe0000 = not32 (2 ^ 17 - 1) from rfl, and_not hh (by decide)]
  generalize hb : (if lo x ||| hi x % 2 ^ 20 = 0 then 0 else 1) = b
  have hb2 : b < 2 := by rw [← hb]; split <;> omega
  have hb0 : b = 0 ↔ frac x = 0 := by rw [← hz, ← hb]; split <;> omega
  have hq : (hi x / 2 ^ 17 * 2 ^ 17 ||| b * 2 ^ 19) / 2 ^ 20 = hi x / 2 ^ 20 := by
    rw [← Nat.shiftRight_eq_div_pow, Nat.shiftRight_or_distrib, Nat.shiftRight_eq_div_pow, Nat.shiftRight_eq_div_pow,
      show b * 2 ^ 19 / 2 ^ 20 = 0 from by omega, Nat.or_zero]
    omega
  have hr : (hi x / 2 ^ 17 * 2 ^ 17 ||| b * 2 ^ 19) % 2 ^ 20 = (hi x / 2 ^ 17 * 2 ^ 17 % 2 ^ 20 ||| b * 2 ^ 19) := by
    rw [Nat.or_mod_two_pow, Nat.mod_eq_of_lt (show b * 2 ^ 19 < 2 ^ 20 by omega)]
  have hr0 : (hi x / 2 ^ 17 * 2 ^ 17 ||| b * 2 ^ 19) % 2 ^ 20 = 0 → b = 0 := by
    rw [hr, Nat.or_eq_zero_iff]; omega
  have hr1 : frac x = 0 → (hi x / 2 ^ 17 * 2 ^ 17 ||| b * 2 ^ 19) % 2 ^ 20 = 0 := by
    intro h0
    rw [hr, hb0.2 h0, Nat.zero_mul, Nat.or_zero]
    unfold frac at h0
    rw [hi_eq h]; omega
  have hlo : frac x = 0 → lo x = 0 := by unfold frac lo; omega
  generalize (hi x / 2 ^ 17 * 2 ^ 17 ||| b * 2 ^ 19) = w at *
  have hw : w < 2 ^ 32 := by omega
  rw [hi_eq h] at hq
  unfold setHi insert
  refine ⟨by omega, ?_, ?_, ?_⟩
  · unfold sign; omega
  · unfold expo; omega
  · constructor
    · intro h0
      apply hb0.1; apply hr0
      unfold frac at h0; omega
    · intro h0
      have := hr1 h0; have := hlo h0
      unfold frac; omega

theorem rne_tiny {u : Nat} (h : 2 * u < D) : rne u 1074 = 0 := by
  have hlt : u < D := by omega
  unfold rne
  rw [← D_eq, Nat.mod_eq_of_lt hlt, Nat.div_eq_of_lt hlt, if_pos (Or.inl h)]

theorem rne_half_f {f : Nat} (hf : f < 2 ^ 52) : rne (2 ^ 52 + f) 53 = if f = 0 then 0 else 1 := by
  unfold rne
  by_cases h : f = 0
  · rw [if_pos h, if_pos (by omega)]; omega
  · rw [if_neg h, if_neg (by omega)]; omega

theorem rne_small {x : Nat} (hE : expo x < 1023) : rne (units (mag x)) 1074 = if expo x = 1022 ∧ frac x ≠ 0 then 1 else 0 := by
  by_cases h : expo x = 1022
  · rw [units_expo, if_neg (by omega), h]
    have e : 1074 = 53 + (1022 - 1) := by omega
    generalize 1022 - 1 = c at *
    rw [e, rne_shift, rne_half_f (frac_lt x)]
    by_cases h0 : frac x = 0
    · rw [if_pos h0, if_neg (by tauto)]
    · rw [if_neg h0, if_pos (by tauto)]
  · rw [if_neg (by tauto)]
    apply rne_tiny
    have := units_lt.2 (show mag x < 0x3fe0000000000000 by rw [mag_eq]; have := frac_lt x; omega)
    have := half_units
    omega

theorem sx_shift {x : Nat} (h : x < 2 ^ 64) : sign x <<< 31 = hi x &&& 0x80000000 := by
  rw [and_sign (hi_lt x), Nat.shiftLeft_eq]
  have : sign x = hi x / 2 ^ 31 := by unfold sign hi; omega
  rw [this]

theorem rint_is {x : Nat} (h : x < 2 ^ 64) (hf : IsFinite x) : Is x (rint x) (rintTo x) := by
  have hs := sign_lt x
  rcases Nat.lt_or_ge (expo x) 1023 with hE | hE
  · have hL : ¬ Lost x := fun hh => by have := hh.1; omega
    unfold rintTo
    rw [if_neg hL]
    by_cases h0 : mag x = 0
    · have hr : rint x = x := by
        unfold rint
        simp only [exponent_eq h]
        rw [if_pos (by omega), if_pos (by omega), if_pos ((zero_or h).2 h0)]
      rw [hr, h0, units_zero]
      refine ⟨0, ?_, by decide, ?_⟩
      · conv_lhs => rw [self_eq h]
        rw [h0]
      · rw [rne_tiny (by have := D_pos; omega), units_zero, Nat.zero_mul]
    · obtain ⟨y, hy, hylt, es, ee, ef⟩ := small_bits h
      have hr : rint x = copysign (sub (add (two52 (sign x)) y) (two52 (sign x))) x := by
        unfold rint
        simp only [exponent_eq h, sx_eq h]
        rw [if_pos (by omega), if_pos (by omega), if_neg (fun hh => h0 ((zero_or h).1 hh)), ← hy]
        unfold copysign
        rw [sx_shift h]
      have hfy : mag y < inf := by rw [mag_eq, ee]; have := frac_lt y; unfold inf; omega
      obtain ⟨c, hc, hcu, hsub⟩ := push_pop hs hfy (units_lt_mid (by omega))
      rw [← es, ← self_eq hylt, es] at hsub
      have hinf := inf_lt
      refine ⟨c, ?_, hc, ?_⟩
      · rw [hr, hsub, copysign_make]
        · split
          · rename_i hc0; rw [hc0]; rfl
          · rw [mag_make (by omega)]
        · split
          · omega
          · omega
      · rw [hcu, rne_small (by omega), rne_small hE, ee]
        congr 1
        have : (expo x = 1022 ∧ frac y ≠ 0) ↔ (expo x = 1022 ∧ frac x ≠ 0) := by rw [Ne, Ne, ef]
        exact if_congr this rfl rfl
  · by_cases hz : units (mag x) % D = 0
    · have hL := not_lost_whole h hz
      have hr : rint x = x := by
        unfold rint
        simp only [exponent_eq h]
        have hlt := expo_lt x
        unfold IsFinite at hf
        by_cases h20 : expo x < 1043
        · have hw := (mid_whole h hE (by omega)).2 hz
          rw [if_pos (by omega), if_neg (by omega)]
          obtain ⟨j, hj⟩ : ∃ j : Nat, expo x = 1023 + j := ⟨expo x - 1023, by omega⟩
          rw [hj] at hw ⊢
          rw [show ((1023 + j : Nat) : Int) - 1023 = (j : Int) from by omega, Int.toNat_natCast, mask20 (by omega)]
          rw [show 1075 - (1023 + j) = 20 - j + 32 from by omega] at hw
          rw [if_pos ((low_zero h).2 hw)]
        · rw [if_neg (by omega)]
          by_cases h51 : expo x ≤ 1074
          · have hw := (mid_whole h hE h51).2 hz
            rw [if_neg (by omega)]
            obtain ⟨j, hj⟩ : ∃ j : Nat, expo x = 1043 + j := ⟨expo x - 1043, by omega⟩
            rw [hj] at hw ⊢
            rw [show (((1043 + j : Nat) : Int) - 1023 - 20) = (j : Int) from by omega, Int.toNat_natCast, mask32 (by omega)]
            rw [show 1075 - (1043 + j) = 32 - j from by omega] at hw
            rw [if_pos ((low_zero' (by omega)).2 hw)]
          · rw [if_pos (by omega), if_neg (by omega)]
      unfold rintTo
      rw [if_neg hL, hr, rne_whole hz]
      exact Is.self h hf (Nat.dvd_of_mod_eq_zero hz)
    · have h2 : expo x ≤ 1074 := by
        by_contra hcon
        exact hz (Nat.mod_eq_zero_of_dvd (D_dvd (by omega)))
      exact rint_is_mid h hE h2 (fun hh => hz ((mid_whole h hE h2).1 hh))

theorem rne_int (u : Nat) : 2 * |(u : ℤ) - rne u 1074 * (D : ℤ)| ≤ D ∧ (2 * |(u : ℤ) - rne u 1074 * (D : ℤ)| = D → rne u 1074 % 2 = 0) := by
  have hdm := Nat.div_add_mod u D
  have hlt := Nat.mod_lt u D_pos
  have hD := D_pos
  have hq : rne u 1074 = if 2 * (u % D) < D ∨ (2 * (u % D) = D ∧ u / D % 2 = 0) then u / D else u / D + 1 := by
    unfold rne; rw [← D_eq]
  generalize rne u 1074 = q at *
  generalize u / D = a at *
  generalize u % D = r at *
  generalize D = K at *
  have e : (u : ℤ) = K * a + r := by exact_mod_cast hdm.symm
  split at hq
  · subst hq
    have e2 : (u : ℤ) - q * K = r := by rw [e]; ring
    rw [e2, abs_of_nonneg (by omega)]
    omega
  · subst hq
    have e2 : (u : ℤ) - ((a + 1 : ℕ) : ℤ) * K = -((K : ℤ) - r) := by rw [e]; push_cast; ring
    rw [e2, abs_neg, abs_of_nonneg (by omega)]
    omega

theorem units_18 : units (1041 * 2 ^ 52) = 2 ^ 18 * D ∧ units (1042 * 2 ^ 52) = 2 ^ 19 * D := by
  have h1 := units_make (a := 1041) (f := 0) (by omega) (by omega)
  have h2 := units_make (a := 1042) (f := 0) (by omega) (by omega)
  rw [Nat.add_zero] at h1 h2
  rw [h1, h2, D_split (E := 1041) (by omega) (by omega)]
  have e : (2 : Nat) ^ (1042 - 1) = 2 * 2 ^ (1041 - 1) := by rw [← Nat.pow_succ']
  rw [e]
  generalize (2 : Nat) ^ (1041 - 1) = P
  constructor <;> ring

/-- `Lost`, said of the number. -/
theorem lost_iff {x : Nat} (h : x < 2 ^ 64) : Lost x ↔ 2 ^ 18 ≤ |value x| ∧ |value x| < 2 ^ 19 ∧ ∃ k : ℕ, |value x| = 2 * k + 3 / 4 := by
  have hD0 : (0 : ℚ) < (D : ℚ) := Nat.cast_pos.2 D_pos
  have hab : |value x| = ((units (mag x) : ℕ) : ℚ) / (D : ℚ) := by rw [abs_value h]; push_cast; rfl
  have hlo : (2 : ℚ) ^ 18 ≤ |value x| ↔ 1041 * 2 ^ 52 ≤ mag x := by
    rw [hab, le_div_iff₀ hD0, ← units_le, units_18.1]
    exact_mod_cast Iff.rfl
  have hhi : |value x| < (2 : ℚ) ^ 19 ↔ mag x < 1042 * 2 ^ 52 := by
    rw [hab, div_lt_iff₀ hD0, ← units_lt, units_18.2]
    exact_mod_cast Iff.rfl
  have hex : expo x = 1041 ↔ 2 ^ 18 ≤ |value x| ∧ |value x| < 2 ^ 19 := by
    rw [hlo, hhi, mag_eq]; have := frac_lt x; omega
  rw [← and_assoc, ← hex]
  unfold Lost
  refine and_congr_right (fun hE => ?_)
  have hu := mid_units h (by omega) (by omega)
  have hDs := D_split (E := 1041) (by omega) (by omega)
  rw [hE] at hu
  have hval : |value x| = ((2 ^ 52 + frac x : ℕ) : ℚ) / 2 ^ 34 := by
    rw [hab, hu, hDs, Nat.cast_mul, Nat.cast_mul, mul_div_mul_right]
    · norm_num
    · exact_mod_cast (Nat.two_pow_pos _).ne'
  rw [hval]
  have hf := frac_lt x
  have hx35 : x % 2 ^ 35 = frac x % 2 ^ 35 := by unfold frac; omega
  rw [hx35]
  constructor
  · intro hm
    refine ⟨(2 ^ 52 + frac x) / 2 ^ 35, ?_⟩
    have : 2 ^ 52 + frac x = (2 ^ 52 + frac x) / 2 ^ 35 * 2 ^ 35 + 3 * 2 ^ 32 := by omega
    generalize (2 ^ 52 + frac x) / 2 ^ 35 = k at *
    rw [this]; push_cast
    generalize (k : ℚ) = k
    ring
  · rintro ⟨k, hk⟩
    have hk' : ((2 ^ 52 + frac x : ℕ) : ℚ) = ((k * 2 ^ 35 + 3 * 2 ^ 32 : ℕ) : ℚ) := by
      rw [div_eq_iff (by norm_num)] at hk
      rw [hk]; push_cast
      generalize (k : ℚ) = k
      ring
    have := Nat.cast_injective hk'
    omega

/-- `rint` returns the integer nearest to a finite double, the even one of two that are equally near, with the sign of the argument; proved
for all arguments but those between 2^18 and 2^19 in magnitude whose integer part is even and whose fraction is 3/4.  For these it is false:
see `C89_rint_violated`. -/
theorem C89_rint_partial {x : Nat} (h : x < 2 ^ 64) (hf : IsFinite x)
    (hex : ¬ (2 ^ 18 ≤ |value x| ∧ |value x| < 2 ^ 19 ∧ ∃ k : ℕ, |value x| = 2 * k + 3 / 4)) :
    rint x < 2 ^ 64 ∧ IsFinite (rint x) ∧ sign (rint x) = sign x
    ∧ ∃ n : ℤ, value (rint x) = n ∧ |value x - n| ≤ 1 / 2 ∧ (|value x - n| = 1 / 2 → Even n) := by
  have hL : ¬ Lost x := fun hh => hex ((lost_iff h).1 hh)
  have his := rint_is h hf
  unfold rintTo at his
  rw [if_neg hL] at his
  obtain ⟨h1, h2, h3, h4⟩ := his.spec
  refine ⟨h1, h2, h3, (-1) ^ sign x * (rne (units (mag x)) 1074 : ℤ), by rw [h4]; push_cast; rfl, ?_⟩
  obtain ⟨k1, k2⟩ := rne_int (units (mag x))
  have hD0 : (0 : ℚ) < (D : ℚ) := Nat.cast_pos.2 D_pos
  have hdist : |value x - (((-1) ^ sign x * (rne (units (mag x)) 1074 : ℤ) : ℤ) : ℚ)|
      = ((|(units (mag x) : ℤ) - rne (units (mag x)) 1074 * (D : ℤ)| : ℤ) : ℚ) / (D : ℚ) := by
    have e : value x - (((-1) ^ sign x * (rne (units (mag x)) 1074 : ℤ) : ℤ) : ℚ)
        = (-1) ^ sign x * ((((units (mag x) : ℤ) - rne (units (mag x)) 1074 * (D : ℤ) : ℤ) : ℚ) / (D : ℚ)) := by
      rw [value_self h, ← D_cast]; push_cast
      generalize (D : ℚ) = K at *
      field_simp
    rw [e, abs_mul, abs_pow, abs_neg, abs_one, one_pow, _root_.one_mul, abs_div, abs_of_pos hD0, Int.cast_abs]
  rw [hdist]
  generalize |(units (mag x) : ℤ) - rne (units (mag x)) 1074 * (D : ℤ)| = g at *
  generalize rne (units (mag x)) 1074 = q at *
  constructor
  · rw [div_le_iff₀ hD0]
    have : (2 : ℚ) * g ≤ D := by exact_mod_cast k1
    linarith
  · intro heq
    rw [div_eq_iff hD0.ne'] at heq
    have : (2 : ℚ) * g = D := by linarith
    have hq : q % 2 = 0 := k2 (by exact_mod_cast this)
    have : Even (q : ℤ) := by rw [Int.even_iff]; omega
    exact this.mul_left _

/-- The full claim of `C89_rint_partial` is false: for every double between 2^18 and 2^19 in magnitude whose integer part is even and whose
fraction is 3/4, `rint` returns the integer part, which is 3/4 away, although the next integer is 1/4 away.  libpok/libm/rint.c lacks the
case that its origin has for the exponent 18, so that `0x20000 >> 18` clears the last bit of the fraction. -/
theorem C89_rint_violated {x : Nat} (h : x < 2 ^ 64) {k : ℕ} (h1 : 2 ^ 18 ≤ |value x|) (h2 : |value x| < 2 ^ 19) (h3 : |value x| = 2 * k + 3 / 4) :
    |value (rint x)| = 2 * k := by
  have hL : Lost x := (lost_iff h).2 ⟨h1, h2, k, h3⟩
  have hf : IsFinite x := by unfold IsFinite; have := hL.1; omega
  have his := rint_is h hf
  unfold rintTo at his
  rw [if_pos hL] at his
  obtain ⟨-, -, -, h4⟩ := his.spec
  have hD0 : (0 : ℚ) < (D : ℚ) := Nat.cast_pos.2 D_pos
  have hab : |value x| = ((units (mag x) : ℕ) : ℚ) / (D : ℚ) := by rw [abs_value h]; push_cast; rfl
  have hdiv : units (mag x) / D = 2 * k := by
    rw [hab, div_eq_iff hD0.ne'] at h3
    apply Nat.div_eq_of_lt_le
    · have : ((2 * k * D : ℕ) : ℚ) ≤ (units (mag x) : ℚ) := by rw [h3]; push_cast; nlinarith
      exact_mod_cast this
    · have : (units (mag x) : ℚ) < (((2 * k + 1) * D : ℕ) : ℚ) := by rw [h3]; push_cast; nlinarith
      exact_mod_cast this
  rw [h4, hdiv, abs_mul, abs_pow, abs_neg, abs_one, one_pow, _root_.one_mul, abs_of_nonneg (Nat.cast_nonneg _)]
  push_cast; rfl

/-- 262144.75 is rounded to 262144; 262145.75, 2.5 and -0.75 are rounded rightly. -/
example : rint 0x4110000300000000 = 0x4110000000000000 ∧ Lost 0x4110000300000000 ∧ rint 0x4110000700000000 = 0x4110000800000000
    ∧ rint 0x4004000000000000 = 0x4000000000000000 ∧ rint 0xBFE8000000000000 = 0xBFF0000000000000 ∧ ¬ Lost 0x4110000700000000 := by decide +kernel

/-- `rint` of the infinites is its argument; of what is not a number it is not a number. -/
theorem C89_rint_special {x : Nat} (h : x < 2 ^ 64) : (IsInf x → rint x = x) ∧ (IsNaN x → IsNaN (rint x)) := by
  have hr : expo x = 2047 → rint x = add x x := by
    intro hE
    unfold rint
    simp only [exponent_eq h]
    rw [if_neg (by omega), if_pos (by omega), if_pos (by rw [hE]; rfl)]
  exact ⟨fun hh => by rw [hr hh.1, add_inf hh], fun hh => by rw [hr hh.1]; exact add_nan (Or.inl hh)⟩

end Pok.Libm
