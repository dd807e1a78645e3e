import Verif.Lemmas.Float
import Mathlib.Tactic.Positivity
/-!
# Rounding a double to an integer: `floor`, `ceil`, `trunc`, `modf`, `round`

Property C87.  libpok/libm/floor.c, ceil.c, trunc.c, modf.c, round.c.
-/
namespace Pok.Libm
open Pok.Float Pok.Fpu

/-! ## What the bit operations compute -/

theorem insert_trunc {h l k : Nat} (_hl : l < 2 ^ 32) (hk : k ≤ 32) : insert h (l / 2 ^ k * 2 ^ k) = (h * 2 ^ 32 + l) / 2 ^ k * 2 ^ k := by
  have hp : (2 : Nat) ^ 32 = 2 ^ (32 - k) * 2 ^ k := pow_split hk
  unfold insert
  rw [hp, ← Nat.mul_assoc, Nat.add_comm _ l, Nat.add_mul_div_right _ _ (Nat.two_pow_pos k)]
  ring

theorem insert_high {h l k : Nat} (hl : l < 2 ^ 32) : insert (h / 2 ^ k * 2 ^ k) 0 = (h * 2 ^ 32 + l) / 2 ^ (k + 32) * 2 ^ (k + 32) := by
  unfold insert
  rw [Nat.add_comm k 32, Nat.pow_add, ← Nat.div_div_eq_div_mul]
  rw [show (h * 2 ^ 32 + l) / 2 ^ 32 = h from by omega]
  ring

theorem low_zero {x k : Nat} (h : x < 2 ^ 64) : ((hi x &&& (2 ^ k - 1)) ||| lo x = 0) ↔ x % 2 ^ (k + 32) = 0 := by
  rw [Nat.or_eq_zero_iff, and_mask, hi_eq h, Nat.add_comm k 32, Nat.pow_add, Nat.mod_mul]
  unfold lo
  have := Nat.two_pow_pos 32
  constructor
  · rintro ⟨h1, h2⟩; rw [h1, h2]
  · intro h1; constructor
    · have : 2 ^ 32 * (x / 2 ^ 32 % 2 ^ k) = 0 := by omega
      rcases Nat.mul_eq_zero.1 this with h3 | h3
      · omega
      · exact h3
    · omega

theorem low_zero' {x k : Nat} (hk : k ≤ 32) : (lo x &&& (2 ^ k - 1) = 0) ↔ x % 2 ^ k = 0 := by
  rw [and_mask]; unfold lo
  rw [Nat.mod_mod_of_dvd _ (Nat.pow_dvd_pow 2 hk)]

theorem words {x : Nat} (h : x < 2 ^ 64) : hi x * 2 ^ 32 + lo x = x := by unfold hi lo; omega
theorem lo_lt (x : Nat) : lo x < 2 ^ 32 := by unfold lo; omega
theorem hi_lt (x : Nat) : hi x < 2 ^ 32 := by unfold hi; omega

theorem trunc_bits {x : Nat} (h : x < 2 ^ 64) (h1 : 1023 ≤ expo x) (h2 : expo x ≤ 1074) :
    trunc x = x / 2 ^ (1075 - expo x) * 2 ^ (1075 - expo x) := by
  unfold trunc
  simp only [exponent_eq h]
  have hx : ∀ k, x % 2 ^ k = 0 → x = x / 2 ^ k * 2 ^ k := fun k hk => by
    have := Nat.div_add_mod x (2 ^ k); rw [hk, Nat.add_zero, Nat.mul_comm] at this; exact this.symm
  by_cases hc : expo x < 1043
  · rw [if_pos (by omega), if_neg (by omega)]
    obtain ⟨j, hj⟩ : ∃ j : Nat, expo x = 1023 + j := ⟨expo x - 1023, by omega⟩
    rw [hj, show ((1023 + j : Nat) : Int) - 1023 = (j : Int) from by omega, Int.toNat_natCast, mask20 (by omega)]
    rw [show 1075 - (1023 + j) = 20 - j + 32 from by omega]
    split
    · rename_i hz; exact hx _ ((low_zero h).1 hz)
    · rw [and_not (hi_lt x) (by omega), insert_high (lo_lt x), words h]
  · rw [if_neg (by omega), if_neg (by omega)]
    obtain ⟨j, hj⟩ : ∃ j : Nat, expo x = 1043 + j := ⟨expo x - 1043, by omega⟩
    rw [hj, show (((1043 + j : Nat) : Int) - 1023 - 20) = (j : Int) from by omega, Int.toNat_natCast, mask32 (by omega)]
    rw [show 1075 - (1043 + j) = 32 - j from by omega]
    split
    · rename_i hz; exact hx _ ((low_zero' (by omega)).1 hz)
    · rw [and_not (lo_lt x) (by omega), insert_trunc (lo_lt x) (by omega), words h]

theorem carry {h l p : Nat} (hl : l < 2 ^ 32) (hp : p < 2 ^ 32) (hpos : 0 < p) (hh : h + 1 < 2 ^ 32) :
    (if (l + p) % 2 ^ 32 < l then (h + 1) % 2 ^ 32 else h) * 2 ^ 32 + (l + p) % 2 ^ 32 = h * 2 ^ 32 + l + p := by
  split <;> omega

/-- The step away from zero that `floor` takes for negative and `ceil` for positive numbers. -/
theorem up_low {x K : Nat} (h : x < 2 ^ 63 + 1075 * 2 ^ 52) (hK : K < 32) :
    insert (if (lo x + 2 ^ K) % 2 ^ 32 < lo x then (hi x + 1) % 2 ^ 32 else hi x) ((lo x + 2 ^ K) % 2 ^ 32 &&& not32 (2 ^ K - 1))
      = (x / 2 ^ K + 1) * 2 ^ K := by
  have hlt : (lo x + 2 ^ K) % 2 ^ 32 < 2 ^ 32 := by omega
  have hKlt : 2 ^ K < 2 ^ 32 := Nat.pow_lt_pow_right (by decide) hK
  have hpos := Nat.two_pow_pos K
  rw [and_not hlt (by omega), insert_trunc hlt (by omega)]
  have hl := lo_lt x
  have hh : hi x + 1 < 2 ^ 32 := by unfold hi; omega
  have hw := words (x := x) (by omega)
  have : (if (lo x + 2 ^ K) % 2 ^ 32 < lo x then (hi x + 1) % 2 ^ 32 else hi x) * 2 ^ 32 + (lo x + 2 ^ K) % 2 ^ 32 = x + 2 ^ K := by
    rw [carry hl hKlt hpos hh, hw]
  rw [this, Nat.add_div_right _ hpos]

theorem up_mid {x : Nat} (h : x < 2 ^ 63 + 1075 * 2 ^ 52) :
    insert ((hi x + 1) % 2 ^ 32) (lo x &&& not32 (2 ^ 32 - 1)) = (x / 2 ^ 32 + 1) * 2 ^ 32 := by
  have h0 : lo x &&& not32 (2 ^ 32 - 1) = 0 := by
    rw [show not32 (2 ^ 32 - 1) = 0 from rfl, Nat.and_zero]
  rw [h0]
  unfold insert hi
  omega

theorem up_high {x k : Nat} (h : x < 2 ^ 63 + 1075 * 2 ^ 52) (hk : k ≤ 20) :
    insert ((hi x + 2 ^ k) % 2 ^ 32 &&& not32 (2 ^ k - 1)) 0 = (x / 2 ^ (k + 32) + 1) * 2 ^ (k + 32) := by
  have hkle : 2 ^ k ≤ 2 ^ 20 := Nat.pow_le_pow_right (by decide) hk
  have hpos := Nat.two_pow_pos k
  have hh : hi x + 2 ^ k < 2 ^ 32 := by unfold hi; omega
  rw [Nat.mod_eq_of_lt hh, and_not hh (by omega), Nat.add_div_right _ hpos]
  unfold insert
  rw [Nat.add_comm k 32, Nat.pow_add, ← Nat.div_div_eq_div_mul, hi_eq (by omega)]
  ring

/-- `floor` and `ceil`, told apart by the sign for which the number is moved away from zero. -/
theorem floor_bits {x : Nat} (h : x < 2 ^ 64) (h1 : 1023 ≤ expo x) (h2 : expo x ≤ 1074) :
    floor x = if sign x = 0 ∨ x % 2 ^ (1075 - expo x) = 0 then x / 2 ^ (1075 - expo x) * 2 ^ (1075 - expo x)
      else (x / 2 ^ (1075 - expo x) + 1) * 2 ^ (1075 - expo x) := by
  have hs := sign_lt x
  have hlt : x < 2 ^ 63 + 1075 * 2 ^ 52 := by
    have := parts h; have := frac_lt x
    have : sign x * 2 ^ 63 ≤ 2 ^ 63 := by omega
    omega
  have hn := neg32_hi h
  have hx : ∀ k, x % 2 ^ k = 0 → x = x / 2 ^ k * 2 ^ k := fun k hk => by
    have := Nat.div_add_mod x (2 ^ k); rw [hk, Nat.add_zero, Nat.mul_comm] at this; exact this.symm
  unfold floor
  simp only [exponent_eq h]
  by_cases hc : expo x < 1043
  · rw [if_pos (by omega), if_neg (by omega)]
    obtain ⟨j, hj⟩ : ∃ j : Nat, expo x = 1023 + j := ⟨expo x - 1023, by omega⟩
    rw [hj, show ((1023 + j : Nat) : Int) - 1023 = (j : Int) from by omega, Int.toNat_natCast, mask20 (by omega), bit20 (by omega)]
    rw [show 1075 - (1023 + j) = 20 - j + 32 from by omega]
    split
    · rename_i hz
      have hz := (low_zero h).1 hz
      rw [if_pos (Or.inr hz)]; exact hx _ hz
    · rename_i hz
      have hz : ¬ x % 2 ^ (20 - j + 32) = 0 := fun hh => hz ((low_zero h).2 hh)
      by_cases hs0 : sign x = 0
      · have : neg32 (hi x) = false := by cases hb : neg32 (hi x); rfl; have := hn.1 hb; omega
        rw [if_pos (Or.inl hs0), this, if_neg (by decide), and_not (hi_lt x) (by omega), insert_high (lo_lt x), words h]
      · rw [if_neg (fun hor : sign x = 0 ∨ _ => hor.elim hs0 hz), hn.2 (by omega), if_pos rfl, up_high hlt (by omega)]
  · rw [if_neg (by omega), if_neg (by omega)]
    obtain ⟨j, hj⟩ : ∃ j : Nat, expo x = 1043 + j := ⟨expo x - 1043, by omega⟩
    rw [hj, show (((1043 + j : Nat) : Int) - 1023 - 20) = (j : Int) from by omega, Int.toNat_natCast, mask32 (by omega)]
    rw [show 1075 - (1043 + j) = 32 - j from by omega]
    split
    · rename_i hz
      have hz := (low_zero' (by omega)).1 hz
      rw [if_pos (Or.inr hz)]; exact hx _ hz
    · rename_i hz
      have hz : ¬ x % 2 ^ (32 - j) = 0 := fun hh => hz ((low_zero' (by omega)).2 hh)
      by_cases hs0 : sign x = 0
      · have : neg32 (hi x) = false := by cases hb : neg32 (hi x); rfl; have := hn.1 hb; omega
        rw [if_pos (Or.inl hs0), this, if_neg (by decide), and_not (lo_lt x) (by omega), insert_trunc (lo_lt x) (by omega), words h]
      · rw [if_neg (fun hor : sign x = 0 ∨ _ => hor.elim hs0 hz), hn.2 (by omega), if_pos rfl]
        by_cases hj0 : j = 0
        · subst hj0
          rw [if_pos (by omega)]
          exact up_mid hlt
        · rw [if_neg (by omega), show (52 - (((1043 + j : Nat) : Int) - 1023)).toNat = 32 - j from by omega, Nat.one_shiftLeft]
          exact up_low hlt (by omega)

theorem ceil_bits {x : Nat} (h : x < 2 ^ 64) (h1 : 1023 ≤ expo x) (h2 : expo x ≤ 1074) :
    ceil x = if sign x = 1 ∨ x % 2 ^ (1075 - expo x) = 0 then x / 2 ^ (1075 - expo x) * 2 ^ (1075 - expo x)
      else (x / 2 ^ (1075 - expo x) + 1) * 2 ^ (1075 - expo x) := by
  have hs := sign_lt x
  have hlt : x < 2 ^ 63 + 1075 * 2 ^ 52 := by
    have := parts h; have := frac_lt x
    have : sign x * 2 ^ 63 ≤ 2 ^ 63 := by omega
    omega
  have hn := neg32_hi h
  have hne : hi x ≠ 0 := by rw [hi_parts h]; omega
  have hx : ∀ k, x % 2 ^ k = 0 → x = x / 2 ^ k * 2 ^ k := fun k hk => by
    have := Nat.div_add_mod x (2 ^ k); rw [hk, Nat.add_zero, Nat.mul_comm] at this; exact this.symm
  unfold ceil
  simp only [exponent_eq h]
  by_cases hc : expo x < 1043
  · rw [if_pos (by omega), if_neg (by omega)]
    obtain ⟨j, hj⟩ : ∃ j : Nat, expo x = 1023 + j := ⟨expo x - 1023, by omega⟩
    rw [hj, show ((1023 + j : Nat) : Int) - 1023 = (j : Int) from by omega, Int.toNat_natCast, mask20 (by omega), bit20 (by omega)]
    rw [show 1075 - (1023 + j) = 20 - j + 32 from by omega]
    split
    · rename_i hz
      have hz := (low_zero h).1 hz
      rw [if_pos (Or.inr hz)]; exact hx _ hz
    · rename_i hz
      have hz : ¬ x % 2 ^ (20 - j + 32) = 0 := fun hh => hz ((low_zero h).2 hh)
      by_cases hs0 : sign x = 1
      · rw [if_pos (Or.inl hs0), hn.2 hs0, if_neg (by simp), and_not (hi_lt x) (by omega), insert_high (lo_lt x), words h]
      · have : neg32 (hi x) = false := by cases hb : neg32 (hi x); rfl; have := hn.1 hb; omega
        rw [if_neg (fun hor : sign x = 1 ∨ _ => hor.elim hs0 hz), this, if_pos (by simp [hne]), up_high hlt (by omega)]
  · rw [if_neg (by omega), if_neg (by omega)]
    obtain ⟨j, hj⟩ : ∃ j : Nat, expo x = 1043 + j := ⟨expo x - 1043, by omega⟩
    rw [hj, show (((1043 + j : Nat) : Int) - 1023 - 20) = (j : Int) from by omega, Int.toNat_natCast, mask32 (by omega)]
    rw [show 1075 - (1043 + j) = 32 - j from by omega]
    split
    · rename_i hz
      have hz := (low_zero' (by omega)).1 hz
      rw [if_pos (Or.inr hz)]; exact hx _ hz
    · rename_i hz
      have hz : ¬ x % 2 ^ (32 - j) = 0 := fun hh => hz ((low_zero' (by omega)).2 hh)
      by_cases hs0 : sign x = 1
      · rw [if_pos (Or.inl hs0), hn.2 hs0, if_neg (by simp), and_not (lo_lt x) (by omega), insert_trunc (lo_lt x) (by omega), words h]
      · have : neg32 (hi x) = false := by cases hb : neg32 (hi x); rfl; have := hn.1 hb; omega
        rw [if_neg (fun hor : sign x = 1 ∨ _ => hor.elim hs0 hz), this, if_pos (by simp [hne])]
        by_cases hj0 : j = 0
        · subst hj0
          rw [if_pos (by omega)]
          exact up_mid hlt
        · rw [if_neg (by omega), show (52 - (((1043 + j : Nat) : Int) - 1023)).toNat = 32 - j from by omega, Nat.one_shiftLeft]
          exact up_low hlt (by omega)
/-! ## What the results stand for -/

/-- One, in units of the least positive double. -/
@[irreducible] def D : Nat := 2 ^ 1074

theorem D_eq : D = 2 ^ 1074 := by unfold D; rfl

theorem D_pos : 0 < D := by unfold D; exact Nat.two_pow_pos _

theorem D_cast : (D : ℚ) = 2 ^ 1074 := by
  unfold D; exact Nat.cast_pow 2 1074

theorem D_split {E : Nat} (h1 : 1 ≤ E) (h2 : E ≤ 1075) : D = 2 ^ (1075 - E) * 2 ^ (E - 1) := by
  unfold D; rw [← Nat.pow_add]; congr 1; omega

/-- Below one in magnitude. -/
theorem units_lt_D {x : Nat} (h : expo x < 1023) : units (mag x) < D := by
  have := units_make (a := 1023) (f := 0) (by omega) (by omega)
  have e : units (1023 * 2 ^ 52) = D := by
    rw [show 1023 * 2 ^ 52 = 1023 * 2 ^ 52 + 0 from rfl, this]
    unfold D; rw [Nat.add_zero, ← Nat.pow_add]
  rw [← e, units_lt, mag_eq]
  have := frac_lt x; omega

theorem units_one : units (1023 * 2 ^ 52) = D := by
  have := units_make (a := 1023) (f := 0) (by omega) (by omega)
  rw [show 1023 * 2 ^ 52 = 1023 * 2 ^ 52 + 0 from rfl, this]
  unfold D; rw [Nat.add_zero, ← Nat.pow_add]

/-- From `2^52` on, doubles are integers. -/
theorem D_dvd {x : Nat} (h : 1075 ≤ expo x) : D ∣ units (mag x) := by
  rw [units_expo, if_neg (by omega)]
  unfold D
  exact Dvd.dvd.mul_left (Nat.pow_dvd_pow 2 (by omega)) _

section mid
variable {x : Nat} (h : x < 2 ^ 64) (h1 : 1023 ≤ expo x) (h2 : expo x ≤ 1074)
include h h1 h2

theorem mid_units : units (mag x) = (2 ^ 52 + frac x) * 2 ^ (expo x - 1) := by
  rw [units_expo, if_neg (by omega)]

theorem mid_quot : units (mag x) / D = (2 ^ 52 + frac x) / 2 ^ (1075 - expo x) := by
  rw [mid_units h h1 h2, D_split (E := expo x) (by omega) (by omega), Nat.mul_div_mul_right _ _ (Nat.two_pow_pos _)]

theorem mid_rem : units (mag x) % D = (2 ^ 52 + frac x) % 2 ^ (1075 - expo x) * 2 ^ (expo x - 1) := by
  rw [mid_units h h1 h2, D_split (E := expo x) (by omega) (by omega), Nat.mul_mod_mul_right]

theorem mid_whole : x % 2 ^ (1075 - expo x) = 0 ↔ units (mag x) % D = 0 := by
  rw [mid_rem h h1 h2]
  have hp : (2 : Nat) ^ 52 = 2 ^ (expo x - 1023) * 2 ^ (1075 - expo x) := by rw [← Nat.pow_add]; congr 1; omega
  have e1 : (2 ^ 52 + frac x) % 2 ^ (1075 - expo x) = frac x % 2 ^ (1075 - expo x) := by
    rw [hp, Nat.mul_add_mod_self_right]
  have e2 : x % 2 ^ (1075 - expo x) = frac x % 2 ^ (1075 - expo x) := by
    unfold frac
    rw [Nat.mod_mod_of_dvd _ (Nat.pow_dvd_pow 2 (by omega))]
  rw [e1, e2]
  have := Nat.two_pow_pos (expo x - 1)
  constructor
  · intro hh; rw [hh, Nat.zero_mul]
  · intro hh; rcases Nat.mul_eq_zero.1 hh with h3 | h3
    · exact h3
    · omega

theorem mid_div : x / 2 ^ (1075 - expo x) * 2 ^ (1075 - expo x)
    = sign x * 2 ^ 63 + (expo x * 2 ^ 52 + frac x / 2 ^ (1075 - expo x) * 2 ^ (1075 - expo x)) := by
  have hp : (2 : Nat) ^ 52 = 2 ^ (expo x - 1023) * 2 ^ (1075 - expo x) := by rw [← Nat.pow_add]; congr 1; omega
  have e : x = frac x + (sign x * 2 ^ 11 + expo x) * 2 ^ (expo x - 1023) * 2 ^ (1075 - expo x) := by
    rw [Nat.mul_assoc, ← hp]; have := parts h; omega
  have : x / 2 ^ (1075 - expo x) = frac x / 2 ^ (1075 - expo x) + (sign x * 2 ^ 11 + expo x) * 2 ^ (expo x - 1023) := by
    refine (congrArg (· / 2 ^ (1075 - expo x)) e).trans ?_
    exact Nat.add_mul_div_right _ _ (Nat.two_pow_pos _)
  rw [this, Nat.add_mul, Nat.mul_assoc (sign x * 2 ^ 11 + expo x), ← hp]
  omega

/-- The number cut after the binary point. -/
theorem down : ∃ m, x / 2 ^ (1075 - expo x) * 2 ^ (1075 - expo x) = sign x * 2 ^ 63 + m ∧ m < inf ∧ units m = units (mag x) / D * D := by
  have hf := frac_lt x
  have hle := Nat.div_mul_le_self (frac x) (2 ^ (1075 - expo x))
  refine ⟨_, mid_div h h1 h2, by unfold inf; omega, ?_⟩
  have hp : (2 : Nat) ^ 52 = 2 ^ (expo x - 1023) * 2 ^ (1075 - expo x) := by rw [← Nat.pow_add]; congr 1; omega
  rw [units_make (by omega) (by omega), mid_quot h h1 h2, D_split (E := expo x) (by omega) (by omega), ← Nat.mul_assoc]
  congr 1
  rw [hp, Nat.add_comm (_ * _) (frac x), Nat.add_mul_div_right _ _ (Nat.two_pow_pos _)]
  ring

/-- The next integer away from zero. -/
theorem up : ∃ m, (x / 2 ^ (1075 - expo x) + 1) * 2 ^ (1075 - expo x) = sign x * 2 ^ 63 + m ∧ m < inf
    ∧ units m = (units (mag x) / D + 1) * D := by
  have hf := frac_lt x
  have hp : (2 : Nat) ^ 52 = 2 ^ (expo x - 1023) * 2 ^ (1075 - expo x) := by rw [← Nat.pow_add]; congr 1; omega
  have hlt : frac x / 2 ^ (1075 - expo x) < 2 ^ (expo x - 1023) := by
    rw [Nat.div_lt_iff_lt_mul (Nat.two_pow_pos _), ← hp]; exact hf
  have hle : (frac x / 2 ^ (1075 - expo x) + 1) * 2 ^ (1075 - expo x) ≤ 2 ^ 52 := by
    rw [hp]; exact Nat.mul_le_mul_right _ hlt
  refine ⟨expo x * 2 ^ 52 + (frac x / 2 ^ (1075 - expo x) + 1) * 2 ^ (1075 - expo x), ?_, by unfold inf; omega, ?_⟩
  · rw [Nat.add_mul, mid_div h h1 h2, Nat.add_mul]; omega
  · rw [units_make (by omega) hle, mid_quot h h1 h2, D_split (E := expo x) (by omega) (by omega), ← Nat.mul_assoc]
    congr 1
    rw [hp, Nat.add_comm (_ * _) (frac x), Nat.add_mul_div_right _ _ (Nat.two_pow_pos _)]
    ring

end mid

/-- A double that is the integer `n`, with the sign of `x`. -/
def Is (x r : Nat) (n : Nat) : Prop := ∃ m, r = sign x * 2 ^ 63 + m ∧ m < inf ∧ units m = n * D

theorem Is.self {x : Nat} (h : x < 2 ^ 64) (hf : IsFinite x) (hd : D ∣ units (mag x)) : Is x x (units (mag x) / D) :=
  ⟨mag x, self_eq h, (finite_iff x).1 hf, (Nat.div_mul_cancel hd).symm⟩

theorem Is.spec {x r n : Nat} (h : Is x r n) : r < 2 ^ 64 ∧ IsFinite r ∧ sign r = sign x ∧ value r = (-1) ^ sign x * (n : ℚ) := by
  obtain ⟨m, rfl, hm, hu⟩ := h
  have hs := sign_lt x
  have hm' : m < 2 ^ 63 := by unfold inf at hm; omega
  refine ⟨by omega, (finite_iff _).2 (by rwa [mag_make hm']), sign_make hs hm', ?_⟩
  rw [value_units, sunits_make hs hm', hu]
  have hD : (D : ℚ) = 2 ^ 1074 := by exact D_cast
  have hD0 : (2 : ℚ) ^ 1074 ≠ 0 := pow_ne_zero _ (by norm_num)
  rcases Nat.lt_or_ge (sign x) 1 with h0 | h0
  · rw [show sign x = 0 from by omega, if_neg (by omega), pow_zero, one_mul, Int.cast_natCast, Nat.cast_mul, hD, mul_div_assoc, div_self hD0, mul_one]
  · rw [show sign x = 1 from by omega, if_pos rfl, pow_one, Int.cast_neg, Int.cast_natCast, Nat.cast_mul, hD, neg_div, mul_div_assoc, div_self hD0, mul_one, neg_one_mul]

theorem zero_or {x : Nat} (_h : x < 2 ^ 64) : (hi x &&& 0x7fffffff) ||| lo x = 0 ↔ mag x = 0 := by
  rw [Nat.or_eq_zero_iff, and_31]; unfold hi lo mag; omega

theorem units_zero : units 0 = 0 := units_small (by decide)

theorem units_eq_zero {m : Nat} : units m = 0 ↔ m = 0 := by
  exact ⟨fun h => units_inj.1 (h.trans units_zero.symm), fun h => h ▸ units_zero⟩

theorem floor_is {x : Nat} (h : x < 2 ^ 64) (hf : IsFinite x) :
    Is x (floor x) (if sign x = 0 ∨ units (mag x) % D = 0 then units (mag x) / D else units (mag x) / D + 1) := by
  have hs := sign_lt x
  rcases Nat.lt_or_ge (expo x) 1023 with hE | hE
  · have hU := units_lt_D hE
    rw [Nat.mod_eq_of_lt hU, Nat.div_eq_of_lt hU]
    unfold floor
    simp only [exponent_eq h]
    rw [if_pos (by omega), if_pos (by omega)]
    have hn := neg32_hi h
    by_cases hs0 : sign x = 0
    · have : neg32 (hi x) = false := by cases hb : neg32 (hi x); rfl; have := hn.1 hb; omega
      rw [this, if_pos (by rfl), if_pos (Or.inl hs0)]
      exact ⟨0, by rw [hs0]; rfl, by decide, by rw [units_zero, Nat.zero_mul]⟩
    · have hs1 : sign x = 1 := by omega
      rw [hn.2 hs1, if_neg (by decide)]
      by_cases hz : mag x = 0
      · rw [if_neg (by rw [not_not]; exact (zero_or h).2 hz), if_pos (Or.inr (units_eq_zero.2 hz))]
        refine ⟨0, ?_, by decide, by rw [units_zero, Nat.zero_mul]⟩
        have := self_eq h
        rw [hz] at this
        exact (words h).trans this
      · rw [if_pos (fun hh => hz ((zero_or h).1 hh)), if_neg (fun hh => hh.elim hs0 (fun h3 => hz (units_eq_zero.1 h3)))]
        exact ⟨1023 * 2 ^ 52, by rw [hs1]; rfl, by decide, by rw [units_one, Nat.zero_add, Nat.one_mul]⟩
  · rcases Nat.lt_or_ge (expo x) 1075 with hE2 | hE2
    · rw [floor_bits h hE (by omega)]
      have hw := mid_whole h hE (by omega)
      by_cases hc : sign x = 0 ∨ units (mag x) % D = 0
      · rw [if_pos hc, if_pos (hc.imp id hw.2)]; exact down h hE (by omega)
      · rw [if_neg hc, if_neg (fun hh => hc (hh.imp id hw.1))]; exact up h hE (by omega)
    · have hd := D_dvd hE2
      have : floor x = x := by
        unfold floor; simp only [exponent_eq h]
        unfold IsFinite at hf
        rw [if_neg (by omega), if_pos (by omega), if_neg (by omega)]
      rw [this, if_pos (Or.inr (Nat.mod_eq_zero_of_dvd hd))]
      exact Is.self h hf hd

theorem ceil_is {x : Nat} (h : x < 2 ^ 64) (hf : IsFinite x) :
    Is x (ceil x) (if sign x = 1 ∨ units (mag x) % D = 0 then units (mag x) / D else units (mag x) / D + 1) := by
  have hs := sign_lt x
  rcases Nat.lt_or_ge (expo x) 1023 with hE | hE
  · have hU := units_lt_D hE
    rw [Nat.mod_eq_of_lt hU, Nat.div_eq_of_lt hU]
    unfold ceil
    simp only [exponent_eq h]
    rw [if_pos (by omega), if_pos (by omega)]
    have hn := neg32_hi h
    by_cases hs0 : sign x = 1
    · rw [hn.2 hs0, if_pos rfl, if_pos (Or.inl hs0)]
      exact ⟨0, by rw [hs0]; rfl, by decide, by rw [units_zero, Nat.zero_mul]⟩
    · have hs1 : sign x = 0 := by omega
      have : neg32 (hi x) = false := by cases hb : neg32 (hi x); rfl; have := hn.1 hb; omega
      rw [this, if_neg (by decide)]
      have hor : hi x ||| lo x = 0 ↔ mag x = 0 := by
        rw [Nat.or_eq_zero_iff]; have := self_eq h; unfold hi lo; omega
      by_cases hz : mag x = 0
      · rw [if_neg (by rw [not_not]; exact hor.2 hz), if_pos (Or.inr (units_eq_zero.2 hz))]
        refine ⟨0, ?_, by decide, by rw [units_zero, Nat.zero_mul]⟩
        have := self_eq h
        rw [hz] at this
        exact (words h).trans this
      · rw [if_pos (fun hh => hz (hor.1 hh)), if_neg (fun hh => hh.elim hs0 (fun h3 => hz (units_eq_zero.1 h3)))]
        exact ⟨1023 * 2 ^ 52, by rw [hs1]; rfl, by decide, by rw [units_one, Nat.zero_add, Nat.one_mul]⟩
  · rcases Nat.lt_or_ge (expo x) 1075 with hE2 | hE2
    · rw [ceil_bits h hE (by omega)]
      have hw := mid_whole h hE (by omega)
      by_cases hc : sign x = 1 ∨ units (mag x) % D = 0
      · rw [if_pos hc, if_pos (hc.imp id hw.2)]; exact down h hE (by omega)
      · rw [if_neg hc, if_neg (fun hh => hc (hh.imp id hw.1))]; exact up h hE (by omega)
    · have hd := D_dvd hE2
      have : ceil x = x := by
        unfold ceil; simp only [exponent_eq h]
        unfold IsFinite at hf
        rw [if_neg (by omega), if_pos (by omega), if_neg (by omega)]
      rw [this, if_pos (Or.inr (Nat.mod_eq_zero_of_dvd hd))]
      exact Is.self h hf hd

theorem trunc_is {x : Nat} (h : x < 2 ^ 64) (hf : IsFinite x) : Is x (trunc x) (units (mag x) / D) := by
  have hs := sign_lt x
  rcases Nat.lt_or_ge (expo x) 1023 with hE | hE
  · have hU := units_lt_D hE
    rw [Nat.div_eq_of_lt hU]
    unfold trunc
    simp only [exponent_eq h]
    rw [if_pos (by omega), if_pos (by omega), and_sign (hi_lt x)]
    refine ⟨0, ?_, by decide, by rw [units_zero, Nat.zero_mul]⟩
    unfold insert hi sign; omega
  · rcases Nat.lt_or_ge (expo x) 1075 with hE2 | hE2
    · rw [trunc_bits h hE (by omega)]; exact down h hE (by omega)
    · have hd := D_dvd hE2
      have : trunc x = x := by
        unfold trunc; simp only [exponent_eq h]
        unfold IsFinite at hf
        rw [if_neg (by omega), if_pos (by omega), if_neg (by omega)]
      rw [this]; exact Is.self h hf hd

/-! ## The properties -/

theorem value_floor {x : Nat} (h : x < 2 ^ 64) :
    ⌊value x⌋ = if sign x = 1 then (if units (mag x) % D = 0 then -((units (mag x) / D : Nat) : ℤ) else -((units (mag x) / D + 1 : Nat) : ℤ))
      else ((units (mag x) / D : Nat) : ℤ) := by
  have e : value x = (sunits x : ℚ) / ((D : ℕ) : ℚ) := by rw [value_units, D_cast]
  rw [e, Rat.floor_intCast_div_natCast, sunits_eq h]
  split
  · exact neg_div_nat _ _ D_pos
  · exact_mod_cast rfl

theorem value_neg {x : Nat} (h : x < 2 ^ 64) :
    ⌊-value x⌋ = if sign x = 0 then (if units (mag x) % D = 0 then -((units (mag x) / D : Nat) : ℤ) else -((units (mag x) / D + 1 : Nat) : ℤ))
      else ((units (mag x) / D : Nat) : ℤ) := by
  have hs := sign_lt x
  have e : -value x = ((-sunits x : ℤ) : ℚ) / ((D : ℕ) : ℚ) := by rw [value_units, D_cast, Int.cast_neg, neg_div]
  rw [e, Rat.floor_intCast_div_natCast, sunits_eq h]
  rcases Nat.lt_or_ge (sign x) 1 with h0 | h0
  · rw [if_neg (by omega), if_pos (by omega)]; exact neg_div_nat _ _ D_pos
  · rw [if_pos (by omega), if_neg (by omega), neg_neg]; exact_mod_cast rfl

/-- `floor` returns the greatest integer that is not above the argument, as a double, with the sign of the argument: for every finite double. -/
theorem C87_floor {x : Nat} (h : x < 2 ^ 64) (hf : IsFinite x) :
    floor x < 2 ^ 64 ∧ IsFinite (floor x) ∧ sign (floor x) = sign x ∧ value (floor x) = (⌊value x⌋ : ℤ) := by
  obtain ⟨a, b, c, d⟩ := (floor_is h hf).spec
  refine ⟨a, b, c, d.trans ?_⟩
  rw [value_floor h]
  have hs := sign_lt x
  rcases Nat.lt_or_ge (sign x) 1 with h0 | h0
  · have hs0 : sign x = 0 := by omega
    generalize units (mag x) / D = q
    simp [hs0]
  · have hs1 : sign x = 1 := by omega
    generalize units (mag x) / D = q
    by_cases hz : units (mag x) % D = 0 <;> simp [hs1, hz]

/-- `ceil` returns the least integer that is not below the argument, with its sign. -/
theorem C87_ceil {x : Nat} (h : x < 2 ^ 64) (hf : IsFinite x) :
    ceil x < 2 ^ 64 ∧ IsFinite (ceil x) ∧ sign (ceil x) = sign x ∧ value (ceil x) = (⌈value x⌉ : ℤ) := by
  obtain ⟨a, b, c, d⟩ := (ceil_is h hf).spec
  refine ⟨a, b, c, d.trans ?_⟩
  rw [show ⌈value x⌉ = -⌊-value x⌋ from by rw [Int.floor_neg, neg_neg], value_neg h]
  have hs := sign_lt x
  rcases Nat.lt_or_ge (sign x) 1 with h0 | h0
  · have hs0 : sign x = 0 := by omega
    generalize units (mag x) / D = q
    by_cases hz : units (mag x) % D = 0 <;> simp [hs0, hz]
  · have hs1 : sign x = 1 := by omega
    generalize units (mag x) / D = q
    simp [hs1]

/-- `trunc` drops the digits after the point: the integer part of the magnitude, with the sign of the argument. -/
theorem C87_trunc {x : Nat} (h : x < 2 ^ 64) (hf : IsFinite x) :
    trunc x < 2 ^ 64 ∧ IsFinite (trunc x) ∧ sign (trunc x) = sign x ∧ value (trunc x) = (-1) ^ sign x * (⌊|value x|⌋ : ℤ) := by
  obtain ⟨a, b, c, d⟩ := (trunc_is h hf).spec
  refine ⟨a, b, c, d.trans ?_⟩
  have hs := sign_lt x
  have hD0 : (0 : ℚ) < 2 ^ 1074 := pow_pos (by norm_num) _
  have e : |value x| = ((units (mag x) : ℤ) : ℚ) / ((D : ℕ) : ℚ) := by
    have hD : (D : ℚ) = 2 ^ 1074 := by exact D_cast
    rw [value_units, sunits_eq h, hD, abs_div, abs_of_pos hD0]
    split
    · rw [Int.cast_neg, abs_neg, abs_of_nonneg (Int.cast_nonneg (Int.natCast_nonneg _))]
    · rw [abs_of_nonneg (Int.cast_nonneg (Int.natCast_nonneg _))]
  rw [e, Rat.floor_intCast_div_natCast]
  rw [← Int.natCast_ediv, Int.cast_natCast]

/-! ## The fraction -/

theorem abs_value {x : Nat} (h : x < 2 ^ 64) : |value x| = ((units (mag x) : ℤ) : ℚ) / ((D : ℕ) : ℚ) := by
  have hD0 : (0 : ℚ) < 2 ^ 1074 := pow_pos (by norm_num) _
  rw [value_units, sunits_eq h, D_cast, abs_div, abs_of_pos hD0]
  split
  · rw [Int.cast_neg, abs_neg, abs_of_nonneg (Int.cast_nonneg (Int.natCast_nonneg _))]
  · rw [abs_of_nonneg (Int.cast_nonneg (Int.natCast_nonneg _))]

/-- What is left of a number without its integer part is a double. -/
theorem rem_units {x : Nat} (h : x < 2 ^ 64) (hE : 1023 ≤ expo x) : ∃ c, c < 1023 * 2 ^ 52 ∧ units c = units (mag x) % D := by
  have hlt := Nat.mod_lt (units (mag x)) D_pos
  rcases Nat.lt_or_ge (expo x) 1075 with h2 | h2
  · have e := mid_rem h hE (by omega)
    have hr : (2 ^ 52 + frac x) % 2 ^ (1075 - expo x) < 2 ^ 53 :=
      Nat.lt_of_lt_of_le (Nat.mod_lt _ (Nat.two_pow_pos _)) (Nat.pow_le_pow_right (by decide) (by omega))
    obtain ⟨c, hc⟩ := exists_units (b := expo x - 1) hr
    refine ⟨c, ?_, hc.trans e.symm⟩
    rw [← units_lt, units_one, hc, ← e]; exact hlt
  · exact ⟨0, by omega, by rw [units_zero, Nat.mod_eq_zero_of_dvd (D_dvd h2)]⟩

theorem one_lt_inf : 1023 * 2 ^ 52 < inf := by unfold inf; omega

/-- A double without its integer part. -/
theorem sub_trunc {x t : Nat} (h : x < 2 ^ 64) (hf : IsFinite x) (hE : 1023 ≤ expo x) (ht : Is x t (units (mag x) / D)) :
    ∃ c, c < 1023 * 2 ^ 52 ∧ units c = units (mag x) % D ∧ sub x t = if c = 0 then 0 else sign x * 2 ^ 63 + c := by
  obtain ⟨m, rfl, hm, hu⟩ := ht
  obtain ⟨c, hc, hcu⟩ := rem_units h hE
  have := one_lt_inf
  have hx := (finite_iff x).1 hf
  have e : units (mag x) = units m + units c := by rw [hu, hcu, Nat.mul_comm]; exact (Nat.div_add_mod _ _).symm
  refine ⟨c, hc, hcu, ?_⟩
  split
  · rename_i h0
    rw [h0, units_zero, Nat.add_zero, units_inj] at e
    rw [← e, ← self_eq h]
    have := sub_self_make (sign_lt x) hx
    rwa [← self_eq h] at this
  · rename_i h0
    have := sub_make (sign_lt x) hx hm (by omega) h0 e
    rwa [← self_eq h] at this

theorem value_make {s m : Nat} (hs : s < 2) (hm : m < 2 ^ 63) : value (s * 2 ^ 63 + m) = (-1) ^ s * ((units m : ℚ) / (D : ℚ)) := by
  rw [value_units, sunits_make hs hm, D_cast]
  rcases Nat.lt_or_ge s 1 with h0 | h0
  · rw [show s = 0 from by omega, if_neg (by omega), pow_zero, one_mul, Int.cast_natCast]
  · rw [show s = 1 from by omega, if_pos rfl, pow_one, neg_one_mul, Int.cast_neg, Int.cast_natCast, neg_div]

theorem sign_zero {x : Nat} : insert (hi x &&& 0x80000000) 0 = sign x * 2 ^ 63 + 0 := by
  rw [and_sign (hi_lt x)]; unfold insert hi sign; omega

theorem mul_one {x : Nat} (h : x < 2 ^ 64) (hf : IsFinite x) : mul x one = x := by
  have hx := (finite_iff x).1 hf
  have h1 : mag one = 1023 * 2 ^ 52 := by rfl
  have hn1 : neg one = false := by rfl
  have hinf := one_lt_inf
  unfold mul
  rw [notNaN hx, notNaN (by rw [h1]; exact hinf), notInf hx, notInf (by rw [h1]; exact hinf), h1, units_one]
  simp only [Bool.false_eq_true, if_false, Bool.or_self, hn1, Bool.bne_false]
  unfold D
  rw [roundMag_exact 1074 (by omega)]
  conv_rhs => rw [self_eq h]
  unfold withSign
  have hs := sign_lt x
  by_cases hs1 : sign x = 1
  · rw [(neg_iff x).2 hs1, if_pos rfl, hs1, Nat.one_mul]
  · rw [if_neg (fun hh => hs1 ((neg_iff x).1 hh)), show sign x = 0 from by omega, Nat.zero_mul, Nat.zero_add]

/-- `modf` stores what `trunc` returns. -/
theorem modf_int {x : Nat} (h : x < 2 ^ 64) (hf : IsFinite x) : (modf x).2 = trunc x := by
  unfold modf trunc
  simp only [exponent_eq h]
  by_cases h1 : (expo x : Int) - 1023 < 20
  · by_cases h2 : (expo x : Int) - 1023 < 0
    · rw [if_pos h1, if_pos h2, if_pos h1, if_pos h2]
    · rw [if_pos h1, if_neg h2, if_pos h1, if_neg h2]
      split <;> rfl
  · by_cases h2 : (expo x : Int) - 1023 > 51
    · unfold IsFinite at hf
      have := expo_lt x
      rw [if_neg h1, if_pos h2, if_neg h1, if_pos h2, if_neg (by omega)]
      exact mul_one h hf
    · rw [if_neg h1, if_neg h2, if_neg h1, if_neg h2]
      split <;> rfl

theorem modf_frac {x : Nat} (h : x < 2 ^ 64) (hf : IsFinite x) :
    ∃ c, c < 1023 * 2 ^ 52 ∧ units c = units (mag x) % D ∧ (modf x).1 = sign x * 2 ^ 63 + c := by
  have ht := trunc_is h hf
  have hi2 := modf_int h hf
  rcases Nat.lt_or_ge (expo x) 1023 with hE | hE
  · refine ⟨mag x, ?_, (Nat.mod_eq_of_lt (units_lt_D hE)).symm, ?_⟩
    · rw [← units_lt, units_one]; exact units_lt_D hE
    · unfold modf; simp only [exponent_eq h]
      rw [if_pos (by omega), if_pos (by omega)]; exact self_eq h
  · obtain ⟨c, hc, hcu, hsub⟩ := sub_trunc h hf hE ht
    refine ⟨c, hc, hcu, ?_⟩
    have hz : D ∣ units (mag x) → insert (hi x &&& 0x80000000) 0 = sign x * 2 ^ 63 + c := fun hd => by
      rw [Nat.mod_eq_zero_of_dvd hd, units_eq_zero] at hcu
      rw [hcu]; exact sign_zero
    have hnz : units (mag x) % D ≠ 0 → sub x (trunc x) = sign x * 2 ^ 63 + c := fun hn => by
      rw [hsub, if_neg (fun h0 => hn (by rw [← hcu, h0, units_zero]))]
    rw [← hi2] at hnz
    rcases Nat.lt_or_ge (expo x) 1075 with h2 | h2
    · have hw := mid_whole h hE (by omega)
      revert hnz
      unfold modf
      simp only [exponent_eq h]
      by_cases hc2 : expo x < 1043
      · rw [if_pos (by omega), if_neg (by omega)]
        obtain ⟨j, hj⟩ : ∃ j : Nat, expo x = 1023 + j := ⟨expo x - 1023, by omega⟩
        rw [hj] at hw ⊢
        rw [show ((1023 + j : Nat) : Int) - 1023 = (j : Int) from by omega, Int.toNat_natCast, mask20 (by omega)]
        rw [show 1075 - (1023 + j) = 20 - j + 32 from by omega] at hw
        split
        · rename_i h0
          intro _; exact hz (Nat.dvd_of_mod_eq_zero (hw.1 ((low_zero h).1 h0)))
        · rename_i h0
          intro hnz
          exact hnz (fun hh => h0 ((low_zero h).2 (hw.2 hh)))
      · rw [if_neg (by omega), if_neg (by omega)]
        obtain ⟨j, hj⟩ : ∃ j : Nat, expo x = 1043 + j := ⟨expo x - 1043, by omega⟩
        rw [hj] at hw ⊢
        rw [show (((1043 + j : Nat) : Int) - 1023 - 20) = (j : Int) from by omega, Int.toNat_natCast, mask32 (by omega)]
        rw [show 1075 - (1043 + j) = 32 - j from by omega] at hw
        split
        · rename_i h0
          intro _; exact hz (Nat.dvd_of_mod_eq_zero (hw.1 ((low_zero' (by omega)).1 h0)))
        · rename_i h0
          intro hnz
          exact hnz (fun hh => h0 ((low_zero' (by omega)).2 (hw.2 hh)))
    · unfold modf; simp only [exponent_eq h]
      rw [if_neg (by omega), if_pos (by omega)]
      exact hz (D_dvd h2)

/-- `modf` splits a finite double, without error, into the integer that `trunc` returns and a fraction: their sum is the argument, the
fraction is below one in magnitude, and both have the sign of the argument. -/
theorem C87_modf {x : Nat} (h : x < 2 ^ 64) (hf : IsFinite x) :
    (modf x).2 = trunc x ∧ (modf x).1 < 2 ^ 64 ∧ IsFinite (modf x).1 ∧ sign (modf x).1 = sign x
      ∧ |value (modf x).1| < 1 ∧ value (modf x).1 + value (modf x).2 = value x := by
  obtain ⟨c, hc, hcu, e⟩ := modf_frac h hf
  obtain ⟨m, hm, hmi, hmu⟩ := trunc_is h hf
  have hs := sign_lt x
  have hinf := inf_lt
  have hone := one_lt_inf
  have hD0 : (0 : ℚ) < (D : ℚ) := Nat.cast_pos.2 D_pos
  refine ⟨modf_int h hf, ?_, ?_, ?_, ?_, ?_⟩
  · rw [e]; omega
  · rw [e, finite_iff, mag_make (by omega)]; omega
  · rw [e, sign_make hs (by omega)]
  · rw [abs_value (by rw [e]; omega), e, mag_make (by omega), hcu, div_lt_one hD0]
    exact_mod_cast Nat.mod_lt _ D_pos
  · rw [modf_int h hf, e, hm, value_make hs (by omega), value_make hs (by omega)]
    conv_rhs => rw [self_eq h, value_make hs (mag_lt x)]
    rw [← mul_add, ← add_div]
    congr 2
    rw [hcu, hmu, ← Nat.cast_add, Nat.mul_comm, Nat.add_comm, Nat.div_add_mod]

/-! ## Rounding to nearest -/

theorem half_units : units 0x3fe0000000000000 * 2 = D := by
  have := units_make (a := 1022) (f := 0) (by omega) (by omega)
  rw [show 0x3fe0000000000000 = 1022 * 2 ^ 52 + 0 from rfl, this, Nat.add_zero, ← Nat.pow_add, ← Nat.pow_succ]
  unfold D; congr 1

/-- The body of `round`, for a positive number. -/
theorem round_pos {x : Nat} (h : x < inf) :
    Is x (if le 0x3fe0000000000000 (sub x (floor x)) then add (floor x) one else floor x)
      (if D ≤ 2 * (units x % D) then units x / D + 1 else units x / D) := by
  have hinf := inf_lt
  have hone := one_lt_inf
  have hx64 : x < 2 ^ 64 := by omega
  have hmx : mag x = x := by have := mag_make (s := 0) (m := x) (by omega); simpa using this
  have hsx : sign x = 0 := by have := sign_make (s := 0) (m := x) (by omega) (by omega); simpa using this
  have hf : IsFinite x := (finite_iff x).2 (by rw [hmx]; exact h)
  have hfl := floor_is hx64 hf
  rw [hmx, if_pos (Or.inl hsx)] at hfl
  have hhalf : (0x3fe0000000000000 : Nat) < inf := by unfold inf; omega
  -- the difference
  have key : ∃ c, c < 1023 * 2 ^ 52 ∧ units c = units x % D ∧ sub x (floor x) = c := by
    rcases Nat.lt_or_ge (expo x) 1023 with hE | hE
    · have hU := units_lt_D hE
      rw [hmx] at hU
      obtain ⟨m, hm, hmi, hmu⟩ := hfl
      rw [Nat.div_eq_of_lt hU, Nat.zero_mul, units_eq_zero] at hmu
      rw [hsx, hmu] at hm
      refine ⟨x, ?_, (Nat.mod_eq_of_lt hU).symm, ?_⟩
      · rw [← units_lt, units_one]; exact hU
      · rw [hm]
        rcases Nat.eq_zero_or_pos x with h0 | h0
        · rw [h0]; exact sub_self_make (s := 0) (a := 0) (by omega) (by omega)
        · have := sub_make (s := 0) (a := x) (b := 0) (c := x) (by omega) h (by omega) h (by omega) (by rw [units_zero, Nat.zero_add])
          simpa using this
    · have := sub_trunc hx64 hf hE (t := floor x) (by rw [hmx]; exact hfl)
      rw [hmx, hsx] at this
      obtain ⟨c, hc, hcu, hsub⟩ := this
      refine ⟨c, hc, hcu, ?_⟩
      rw [hsub]
      split
      · omega
      · omega
  obtain ⟨c, hc, hcu, hsub⟩ := key
  rw [hsub, le_make hhalf (by omega)]
  have hh := half_units
  have hiff : units 0x3fe0000000000000 ≤ units c ↔ D ≤ 2 * (units x % D) := by rw [← hcu]; omega
  by_cases hcmp : D ≤ 2 * (units x % D)
  · rw [if_pos hcmp, if_pos (by simpa using hiff.2 hcmp)]
    obtain ⟨m, hm, hmi, hmu⟩ := hfl
    rw [hsx, Nat.zero_mul, Nat.zero_add] at hm
    -- not an integer, so below 2^52
    have hE : expo x < 1075 := by
      by_contra hge
      have := Nat.mod_eq_zero_of_dvd (D_dvd (x := x) (by omega))
      rw [hmx] at this
      rw [this] at hcmp
      have := D_pos; omega
    have hN : units x / D + 1 < 2 ^ 53 := by
      have : units x < 2 ^ 52 * D := by
        rw [← units_one, ← hmx, mag_eq]
        have e2 := units_make (a := 1075) (f := 0) (by omega) (by omega)
        have e1 := units_make (a := 1023) (f := 0) (by omega) (by omega)
        have : units (expo x * 2 ^ 52 + frac x) < units (1075 * 2 ^ 52 + 0) := by
          rw [units_lt]; have := frac_lt x; omega
        refine Nat.lt_of_lt_of_eq this ?_
        rw [e2, show 1023 * 2 ^ 52 = 1023 * 2 ^ 52 + 0 from rfl, e1]
        rw [Nat.add_zero, ← Nat.pow_add, ← Nat.pow_add, ← Nat.pow_add]
      have := (Nat.div_lt_iff_lt_mul D_pos).2 this
      omega
    obtain ⟨r, hr⟩ := exists_units (b := 1074) hN
    have hrlt : r < inf := by
      rw [← units_lt, hr]
      have e2 := units_make (a := 2047) (f := 0) (by omega) (by omega)
      unfold inf
      rw [show 2047 * 2 ^ 52 = 2047 * 2 ^ 52 + 0 from rfl, e2, show (2 ^ 52 + 0 : Nat) = 2 ^ 52 from rfl]
      refine Nat.lt_of_lt_of_le (Nat.mul_lt_mul_of_pos_right hN (Nat.two_pow_pos _)) ?_
      rw [← Nat.pow_add, ← Nat.pow_add]; exact Nat.pow_le_pow_right (by decide) (by decide)
    have hrD : units r = (units x / D + 1) * D := by
      rw [D_eq] at hr ⊢; exact hr
    have hr0 : r ≠ 0 := by
      intro h0; rw [h0, units_zero] at hrD
      exact absurd hrD (Nat.ne_of_lt (Nat.mul_pos (Nat.succ_pos (units x / D)) D_pos))
    have := add_make (s := 0) (a := m) (b := 1023 * 2 ^ 52) (c := r) (by omega) hmi hone hrlt hr0
      (by rw [hrD, hmu, units_one, Nat.add_mul, Nat.one_mul])
    rw [Nat.zero_mul, Nat.zero_add, Nat.zero_add, Nat.zero_add] at this
    refine ⟨r, ?_, hrlt, hrD⟩
    rw [hm, hsx, Nat.zero_mul, Nat.zero_add]
    exact this
  · rw [if_neg hcmp, if_neg (by simpa using fun hh => hcmp (hiff.1 hh))]
    exact hfl

theorem round_is {x : Nat} (h : x < 2 ^ 64) (hf : IsFinite x) :
    Is x (round x) (if D ≤ 2 * (units (mag x) % D) then units (mag x) / D + 1 else units (mag x) / D) := by
  have hinf := inf_lt
  have hx := (finite_iff x).1 hf
  have hs := sign_lt x
  have hcl : ¬ (fpclassify x = FP_INFINITE ∨ fpclassify x = FP_NAN) := by
    unfold IsFinite expo at hf
    unfold fpclassify FP_INFINITE FP_NAN FP_ZERO FP_NORMAL FP_SUBNORMAL hi lo
    simp only
    split
    · decide
    · split
      · decide
      · split
        · decide
        · exfalso; omega
  unfold round
  simp only
  rw [if_neg hcl]
  have hle : le 0 x = decide (sign x = 0 ∨ mag x = 0) := by
    unfold le key
    rw [notNaN (show mag 0 < inf from by unfold mag inf; omega), notNaN hx, show neg 0 = false from rfl, show mag 0 = 0 from rfl]
    by_cases hs1 : sign x = 1
    · rw [(neg_iff x).2 hs1]; simp [hs1]
    · have : neg x = false := by cases hb : neg x; rfl; exact absurd ((neg_iff x).1 hb) hs1
      rw [this]; simp [show sign x = 0 from by omega]
  rw [hle]
  by_cases hs0 : sign x = 0
  · have e : x = mag x := by have := self_eq h; rw [hs0, Nat.zero_mul, Nat.zero_add] at this; exact this
    have := round_pos hx
    rw [← e] at this ⊢
    rw [if_pos (by simp [hs0])]
    exact this
  · have hs1 : sign x = 1 := by omega
    by_cases hm : mag x = 0
    · rw [if_pos (by simp [hm])]
      have hfl := floor_is h hf
      rw [hm, units_zero, Nat.zero_mod, Nat.zero_div] at hfl ⊢
      rw [if_pos (Or.inr rfl)] at hfl
      rw [if_neg (show ¬ D ≤ 2 * 0 from by have := D_pos; omega)]
      obtain ⟨m, hm2, hmi, hmu⟩ := hfl
      rw [Nat.zero_mul, units_eq_zero] at hmu
      have hfx : floor x = x := by rw [hm2, hmu]; conv_rhs => rw [self_eq h, hm]
      have hsub : sub x (floor x) = 0 := by
        rw [hfx]
        have := sub_self_make hs hx
        rwa [← self_eq h] at this
      rw [hsub, le_make (by unfold inf; omega) (by unfold inf; omega), units_zero]
      have hh := half_units
      have := D_pos
      rw [if_neg (by simp; omega)]
      exact ⟨m, hm2, hmi, by rw [hmu, units_zero, Nat.zero_mul]⟩
    · rw [if_neg (by simp [hs1, hm])]
      have hn : negate x = mag x := by
        have := negate_make hs (mag_lt x)
        rw [← self_eq h, hs1, Nat.sub_self, Nat.zero_mul, Nat.zero_add] at this; exact this
      rw [hn]
      obtain ⟨m, hm2, hmi, hmu⟩ := round_pos hx
      have hsm : sign (mag x) = 0 := by have := sign_make (s := 0) (m := mag x) (by omega) (mag_lt x); simpa using this
      rw [hsm] at hm2
      rw [hm2, negate_make (by omega) (by omega)]
      exact ⟨m, by rw [hs1], hmi, hmu⟩

/-- `round` returns the nearest integer, halves away from zero, with the sign of the argument. -/
theorem C87_round {x : Nat} (h : x < 2 ^ 64) (hf : IsFinite x) :
    round x < 2 ^ 64 ∧ IsFinite (round x) ∧ sign (round x) = sign x ∧ value (round x) = (-1) ^ sign x * (⌊|value x| + 1 / 2⌋ : ℤ) := by
  obtain ⟨a, b, c, d⟩ := (round_is h hf).spec
  refine ⟨a, b, c, d.trans ?_⟩
  have hD := D_pos
  have hD0 : (D : ℚ) ≠ 0 := Nat.cast_ne_zero.2 (by omega)
  have e : |value x| + 1 / 2 = (((2 * units (mag x) + D : ℕ) : ℤ) : ℚ) / ((2 * D : ℕ) : ℚ) := by
    rw [abs_value h]; push_cast; field_simp
  rw [e, Rat.floor_intCast_div_natCast, ← Int.natCast_ediv, Int.cast_natCast]
  congr 2
  have hdm := Nat.div_add_mod (units (mag x)) D
  have hlt := Nat.mod_lt (units (mag x)) hD
  generalize units (mag x) % D = r at *
  generalize units (mag x) / D = q at *
  rw [← hdm, show 2 * (D * q + r) + D = (2 * r + D) + q * (2 * D) from by ring, Nat.add_mul_div_right _ _ (by omega)]
  split
  · rw [Nat.div_eq_of_lt_le (k := 1) (by omega) (by omega)]; omega
  · rw [Nat.div_eq_of_lt (by omega)]; omega

/-- What the five functions return for infinite arguments and for arguments that are not numbers. -/
theorem C87_special {x : Nat} (h : x < 2 ^ 64) :
    (IsInf x → floor x = x ∧ ceil x = x ∧ trunc x = x ∧ round x = x ∧ (modf x).2 = x ∧ (modf x).1 = sign x * 2 ^ 63)
    ∧ (IsNaN x → IsNaN (floor x) ∧ IsNaN (ceil x) ∧ IsNaN (trunc x) ∧ IsNaN (round x) ∧ IsNaN (modf x).2) := by
  have hone : mag one < inf := by rw [show mag one = 1023 * 2 ^ 52 from rfl]; exact one_lt_inf
  have hone0 : mag one ≠ 0 := by rw [show mag one = 1023 * 2 ^ 52 from rfl]; omega
  have hb : expo x = 2047 → floor x = add x x ∧ ceil x = add x x ∧ trunc x = add x x ∧ modf x = (insert (hi x &&& 0x80000000) 0, mul x one) := by
    intro hE
    unfold floor ceil trunc modf
    simp only [exponent_eq h, hE]
    simp
  constructor
  · rintro ⟨hE, hF⟩
    have hm : mag x = inf := by rw [mag_eq, hE, hF]; unfold inf; omega
    have h1 : isNaN x = false := by unfold isNaN; rw [hm]; simp
    have h2 : isInf x = true := by unfold isInf; rw [hm]; simp
    have ha : add x x = x := by unfold add; rw [h1, h2]; simp
    have hmul : mul x one = x := by
      unfold mul
      rw [h1, notNaN hone, h2]
      simp only [Bool.false_eq_true, if_false, Bool.true_or, if_true]
      rw [if_neg (by simp only [hm, hone0]; unfold inf; simp), show neg one = false from rfl, Bool.bne_false]
      conv_rhs => rw [self_eq h, hm]
      have hs := sign_lt x
      unfold withSign
      by_cases hs1 : sign x = 1
      · rw [(neg_iff x).2 hs1, if_pos rfl, hs1, Nat.one_mul]
      · rw [if_neg (fun hh => hs1 ((neg_iff x).1 hh)), show sign x = 0 from by omega, Nat.zero_mul, Nat.zero_add]
    obtain ⟨a, b, c, d⟩ := hb hE
    refine ⟨a.trans ha, b.trans ha, c.trans ha, ?_, by rw [d]; exact hmul, by rw [d]; exact sign_zero.trans (Nat.add_zero _)⟩
    have hcl : fpclassify x = FP_INFINITE := by
      have := hi_parts h
      have hl : lo x = 0 := by unfold lo; unfold frac at hF; omega
      have hs := sign_lt x
      unfold fpclassify
      simp only [hl, this, hE, hF]
      rcases Nat.lt_or_ge (sign x) 1 with h0 | h0
      · rw [show sign x = 0 from by omega]; decide
      · rw [show sign x = 1 from by omega]; decide
    unfold round; rw [hcl]; rfl
  · rintro ⟨hE, hF⟩
    have hFl := frac_lt x
    have hm : inf < mag x := by rw [mag_eq, hE]; unfold inf; omega
    have h1 : isNaN x = true := by unfold isNaN; simpa using hm
    have hq : IsNaN (quiet x) := by
      unfold quiet
      split
      · exact ⟨hE, hF⟩
      · rename_i hq
        unfold IsNaN expo frac at *
        omega
    have ha : IsNaN (add x x) := by unfold add; rw [h1]; exact hq
    have hmul : IsNaN (mul x one) := by unfold mul; rw [h1]; exact hq
    obtain ⟨a, b, c, d⟩ := hb hE
    refine ⟨a ▸ ha, b ▸ ha, c ▸ ha, ?_, by rw [d]; exact hmul⟩
    have hcl : fpclassify x = FP_NAN := by
      have hh := hi_parts h
      have hs := sign_lt x
      have hl : lo x = frac x % 2 ^ 32 := by unfold lo frac; omega
      unfold fpclassify FP_INFINITE FP_NAN FP_ZERO FP_NORMAL FP_SUBNORMAL
      simp only
      rw [hE] at hh
      rw [if_neg (by omega), if_neg (by omega), if_neg (by omega), if_neg (by omega)]
    unfold round; rw [hcl]
    exact ⟨hE, hF⟩

/-- `floor(-2.5)` is -3, `ceil(-2.5)` is -2, `trunc(2.75)` is 2, `round(-2.5)` is -3, `modf(2.75)` is 0.75 and 2: these doubles meet the
hypotheses. -/
example : IsFinite 0xc004000000000000 ∧ floor 0xc004000000000000 = 0xc008000000000000 ∧ ceil 0xc004000000000000 = 0xc000000000000000
    ∧ trunc 0x4006000000000000 = 0x4000000000000000 ∧ round 0xc004000000000000 = 0xc008000000000000
    ∧ modf 0x4006000000000000 = (0x3fe8000000000000, 0x4000000000000000) := by decide +kernel

end Pok.Libm
