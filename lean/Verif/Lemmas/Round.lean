import Verif.Lemmas.Float
import Mathlib.Tactic.Linarith
import Mathlib.Tactic.FieldSimp
/-!
# Rounding

`roundMag` of Model/Fpu.lean returns the nearest double, ties to even.
-/
namespace Pok.Float
open Pok.Fpu

/-- Distance of two numbers. -/
def gap (a b : Nat) : Nat := (a - b) + (b - a)

theorem near_mul {n P k t q : Nat} (hn : n = k * P + t) (ht : t < P)
    (hq : q = if 2 * t < P ∨ (2 * t = P ∧ k % 2 = 0) then k else k + 1) (j : Nat) :
    gap (q * P) n ≤ gap (j * P) n ∧ (gap (j * P) n = gap (q * P) n → j ≠ q → q % 2 = 0) := by
  have e : (k + 1) * P = k * P + P := by ring
  have hj : j < k ∧ j * P + P ≤ k * P ∨ j = k ∨ j = k + 1 ∨ k + 1 < j ∧ k * P + 2 * P ≤ j * P := by
    rcases Nat.lt_trichotomy j k with h | h | h
    · left; exact ⟨h, by have := Nat.mul_le_mul_right P h; rw [Nat.succ_mul] at this; exact this⟩
    · right; left; exact h
    · rcases Nat.lt_or_eq_of_le h with h | h
      · right; right; right
        exact ⟨h, by have := Nat.mul_le_mul_right P h; rw [show (k + 1).succ * P = k * P + 2 * P from by rw [Nat.succ_eq_add_one]; ring] at this; exact this⟩
      · right; right; left; omega
  unfold gap
  split at hq
  · rcases hj with ⟨h1, h2⟩ | h1 | h1 | ⟨h1, h2⟩
    · subst hq; generalize j * P = jP at *; generalize q * P = kP at *; omega
    · subst hq; subst h1; omega
    · subst hq; subst h1; rw [e]; generalize q * P = kP at *; omega
    · subst hq; generalize j * P = jP at *; generalize q * P = kP at *; omega
  · rcases hj with ⟨h1, h2⟩ | h1 | h1 | ⟨h1, h2⟩
    · subst hq; rw [e]; generalize j * P = jP at *; generalize k * P = kP at *; omega
    · subst hq; subst h1; rw [e]; generalize j * P = kP at *; omega
    · subst hq; subst h1; omega
    · subst hq; rw [e]; generalize j * P = jP at *; generalize k * P = kP at *; omega

theorem rne_near (n s j : Nat) :
    gap (rne n s * 2 ^ s) n ≤ gap (j * 2 ^ s) n ∧ (gap (j * 2 ^ s) n = gap (rne n s * 2 ^ s) n → j ≠ rne n s → rne n s % 2 = 0) :=
  near_mul (k := n / 2 ^ s) (t := n % 2 ^ s) (by rw [Nat.mul_comm]; exact (Nat.div_add_mod _ _).symm)
    (Nat.mod_lt _ (Nat.two_pow_pos s)) rfl j

/-- A double is a multiple of `2^e` or below `2^(52 + e)`. -/
theorem units_mul (m e : Nat) : units m < 2 ^ (52 + e) ∨ ∃ j, units m = j * 2 ^ e := by
  obtain ⟨E, F, hF, rfl⟩ : ∃ E F, F < 2 ^ 52 ∧ m = E * 2 ^ 52 + F := ⟨m / 2 ^ 52, m % 2 ^ 52, by omega, by omega⟩
  rcases Nat.eq_zero_or_pos E with h | h
  · subst h
    rw [Nat.zero_mul, Nat.zero_add, units_small hF, Nat.pow_add]
    left
    exact Nat.lt_of_lt_of_le hF (Nat.le_mul_of_pos_right _ (Nat.two_pow_pos e))
  · rw [units_make h (by omega)]
    rcases Nat.lt_or_ge (E - 1) e with h1 | h1
    · left
      calc (2 ^ 52 + F) * 2 ^ (E - 1) < 2 ^ 53 * 2 ^ (E - 1) := Nat.mul_lt_mul_of_pos_right (by omega) (Nat.two_pow_pos _)
        _ = 2 ^ (53 + (E - 1)) := (Nat.pow_add _ _ _).symm
        _ ≤ 2 ^ (52 + e) := Nat.pow_le_pow_right (by omega) (by omega)
    · right
      exact ⟨(2 ^ 52 + F) * 2 ^ (E - 1 - e), by rw [Nat.mul_assoc, ← Nat.pow_add, Nat.sub_add_cancel h1]⟩

theorem rne_le {n s b : Nat} (h : n < b * 2 ^ s) : rne n s ≤ b := by
  have : n / 2 ^ s < b := (Nat.div_lt_iff_lt_mul (Nat.two_pow_pos s)).2 h
  unfold rne; split <;> omega

theorem rne_ge {n s b : Nat} (h : b * 2 ^ s ≤ n) : b ≤ rne n s := by
  have : b ≤ n / 2 ^ s := (Nat.le_div_iff_mul_le (Nat.two_pow_pos s)).2 h
  unfold rne; split <;> omega

/-- The number before the cut at the infinite. -/
def preRound (n s : Nat) : Nat := (Nat.log2 (n / 2 ^ s) - 52) * 2 ^ 52 + rne n (s + (Nat.log2 (n / 2 ^ s) - 52))

theorem roundMag_eq (n s : Nat) : roundMag n s = min (preRound n s) inf := rfl

theorem preRound_near (n s m : Nat) :
    gap (units (preRound n s) * 2 ^ s) n ≤ gap (units m * 2 ^ s) n
    ∧ (gap (units m * 2 ^ s) n = gap (units (preRound n s) * 2 ^ s) n → m ≠ preRound n s → preRound n s % 2 = 0) := by
  have hs := Nat.two_pow_pos s
  obtain ⟨e, he⟩ : ∃ e, e = Nat.log2 (n / 2 ^ s) - 52 := ⟨_, rfl⟩
  have hpre : preRound n s = e * 2 ^ 52 + rne n (s + e) := by rw [he]; rfl
  have hhi : n < 2 ^ 53 * 2 ^ (s + e) := by
    have h1 : n / 2 ^ s < 2 ^ (Nat.log2 (n / 2 ^ s) + 1) := Nat.lt_log2_self
    have h2 : 2 ^ (Nat.log2 (n / 2 ^ s) + 1) ≤ 2 ^ (53 + e) := Nat.pow_le_pow_right (by omega) (by omega)
    have h3 := (Nat.div_lt_iff_lt_mul hs).1 (Nat.lt_of_lt_of_le h1 h2)
    rwa [← Nat.pow_add, show 53 + e + s = 53 + (s + e) from by omega, Nat.pow_add] at h3
  have hlo : e ≠ 0 → 2 ^ 52 * 2 ^ (s + e) ≤ n := by
    intro h0
    have hn0 : n / 2 ^ s ≠ 0 := by
      intro hz; rw [hz] at he; rw [show Nat.log2 0 = 0 from by decide] at he; omega
    have h1 : 2 ^ (Nat.log2 (n / 2 ^ s)) ≤ n / 2 ^ s := Nat.log2_self_le hn0
    rw [show Nat.log2 (n / 2 ^ s) = 52 + e from by omega] at h1
    have h3 := (Nat.le_div_iff_mul_le hs).1 h1
    rwa [← Nat.pow_add, show 52 + e + s = 52 + (s + e) from by omega, Nat.pow_add] at h3
  have hq1 := rne_le hhi
  have hq0 : e ≠ 0 → 2 ^ 52 ≤ rne n (s + e) := fun h => rne_ge (hlo h)
  have hnear := rne_near n (s + e)
  rw [hpre]
  generalize rne n (s + e) = q at *
  have hu : units (e * 2 ^ 52 + q) = q * 2 ^ e := by
    rcases Nat.lt_or_ge q (2 ^ 52) with h | h
    · have h0 : e = 0 := by
        by_contra hc; have := hq0 hc; omega
      subst h0
      rw [Nat.zero_mul, Nat.zero_add, units_small h, Nat.pow_zero, Nat.mul_one]
    · obtain ⟨f, rfl⟩ : ∃ f, q = 2 ^ 52 + f := ⟨q - 2 ^ 52, by omega⟩
      have := units_make (a := e + 1) (f := f) (by omega) (by omega)
      rw [Nat.add_sub_cancel] at this
      rw [← this, Nat.succ_mul, Nat.add_assoc]
  have hP : ∀ j, j * 2 ^ e * 2 ^ s = j * 2 ^ (s + e) := fun j => by rw [Nat.pow_add]; ring
  rw [hu, hP]
  rcases units_mul m e with h | ⟨j, hj⟩
  · by_cases h0 : e = 0
    · subst h0
      have hm : units m = m := by
        rw [Nat.add_zero] at h
        rcases Nat.lt_or_ge m (2 ^ 52) with h1 | h1
        · exact units_small h1
        · exfalso
          have := units_le.2 h1
          rw [show units (2 ^ 52) = 2 ^ 52 from by decide] at this; omega
      have := hnear m
      rw [Nat.add_zero] at *
      rw [hm]
      refine ⟨this.1, fun a b => ?_⟩
      have := this.2 a (fun hc => b (by rw [hc]; omega)); omega
    · have h1 := (hnear (2 ^ 52)).1
      have h2 := hlo h0
      have h3 : units m * 2 ^ s < 2 ^ 52 * 2 ^ (s + e) := by
        have := Nat.mul_lt_mul_of_pos_right h hs
        rwa [← Nat.pow_add, show 52 + e + s = 52 + (s + e) from by omega, Nat.pow_add 2 52] at this
      generalize units m * 2 ^ s = um at *
      generalize 2 ^ 52 * 2 ^ (s + e) = B at *
      generalize q * 2 ^ (s + e) = Q at *
      unfold gap at *
      constructor
      · omega
      · intro hh; omega
  · rw [hj, hP]
    refine ⟨(hnear j).1, fun a b => ?_⟩
    have := (hnear j).2 a (fun hc => b (by apply units_inj.1; rw [hj, hu, hc]))
    omega

theorem units_up (k : Nat) {f : Nat} (hf : f ≤ 2 ^ 52) : units ((k + 2) * 2 ^ 52 + f) = (2 ^ 52 + f) * 2 * 2 ^ k := by
  rw [units_make (by omega) hf, show k + 2 - 1 = k + 1 from by omega, Nat.pow_succ]; ring

theorem units_inf : units inf = 2 ^ 54 * 2 ^ 2044 := by
  have e : inf = (2044 + 2) * 2 ^ 52 + 2 ^ 52 := by unfold inf; omega
  have := units_up 2044 (f := 2 ^ 52) (by omega)
  rw [e]
  generalize 2 ^ 2044 = A at *
  omega

theorem units_max : units (inf - 1) = (2 ^ 54 - 2) * 2 ^ 2044 := by
  have e : inf - 1 = (2044 + 2) * 2 ^ 52 + (2 ^ 52 - 1) := by unfold inf; omega
  have := units_up 2044 (f := 2 ^ 52 - 1) (by omega)
  rw [e]
  generalize 2 ^ 2044 = A at *
  omega

/-- Rounding: below the limit the result is finite and nearest, from there on it is the infinite. -/
theorem roundMag_near (n s : Nat) :
    (n < (2 ^ 54 - 1) * 2 ^ 2044 * 2 ^ s →
      roundMag n s < inf ∧ ∀ m, gap (units (roundMag n s) * 2 ^ s) n ≤ gap (units m * 2 ^ s) n
        ∧ (gap (units m * 2 ^ s) n = gap (units (roundMag n s) * 2 ^ s) n → m ≠ roundMag n s → roundMag n s % 2 = 0))
    ∧ ((2 ^ 54 - 1) * 2 ^ 2044 * 2 ^ s ≤ n → roundMag n s = inf) := by
  have hs := Nat.two_pow_pos s
  have hp := preRound_near n s
  have hi := hp inf
  have hm := hp (inf - 1)
  have hmi : ∀ r, r < inf → units r * 2 ^ s ≤ units (inf - 1) * 2 ^ s ∧ (r ≠ inf - 1 → units r * 2 ^ s < units (inf - 1) * 2 ^ s) := fun r hr =>
    ⟨Nat.mul_le_mul_right _ (units_le.2 (by omega)), fun h => Nat.mul_lt_mul_of_pos_right (units_lt.2 (by omega)) hs⟩
  have hii : ∀ r, inf ≤ r → units inf * 2 ^ s ≤ units r * 2 ^ s := fun r hr => Nat.mul_le_mul_right _ (units_le.2 hr)
  have e1 : units inf * 2 ^ s = (2 ^ 54 - 1) * 2 ^ 2044 * 2 ^ s + 2 ^ 2044 * 2 ^ s := by
    rw [units_inf, Nat.mul_assoc, Nat.mul_assoc]
    generalize 2 ^ 2044 * 2 ^ s = B
    omega
  have e2 : units (inf - 1) * 2 ^ s + 2 ^ 2044 * 2 ^ s = (2 ^ 54 - 1) * 2 ^ 2044 * 2 ^ s := by
    rw [units_max, Nat.mul_assoc, Nat.mul_assoc]
    generalize 2 ^ 2044 * 2 ^ s = B
    omega
  have hB : 0 < 2 ^ 2044 * 2 ^ s := Nat.mul_pos (Nat.two_pow_pos _) hs
  rw [roundMag_eq]
  have hodd : (inf - 1) % 2 = 1 := by unfold inf; omega
  generalize preRound n s = r at *
  generalize (2 ^ 54 - 1) * 2 ^ 2044 * 2 ^ s = T at *
  generalize 2 ^ 2044 * 2 ^ s = B at *
  constructor
  · intro hn
    have hr : r < inf := by
      by_contra hc
      have h1 := hii r (by omega)
      have h2 := hm.1
      generalize units r * 2 ^ s = ur at *
      generalize units inf * 2 ^ s = ui at *
      generalize units (inf - 1) * 2 ^ s = um at *
      clear hp hi hm hmi hii
      unfold gap at *
      omega
    rw [Nat.min_eq_left (Nat.le_of_lt hr)]
    exact ⟨hr, hp⟩
  · intro hn
    apply Nat.min_eq_right
    by_contra hc
    have hr : r < inf := by omega
    have ⟨h1, h2⟩ := hmi r hr
    have ⟨h3, h4⟩ := hi
    have hne : inf ≠ r := by omega
    generalize units r * 2 ^ s = ur at *
    generalize units inf * 2 ^ s = ui at *
    generalize units (inf - 1) * 2 ^ s = um at *
    clear hp hm hmi hii
    by_cases hx : r = inf - 1
    · have h5 : ¬ r % 2 = 0 := by omega
      have : ¬ gap ui n = gap ur n := fun hh => h5 (h4 hh hne)
      unfold gap at *
      clear h2 h4 hc hr hne hodd
      omega
    · have := h2 hx
      unfold gap at *
      clear h2 h4 hc hr hne hodd hx
      omega

theorem value_sm {s m : Nat} (hs : s < 2) (hm : m < 2 ^ 63) : value (s * 2 ^ 63 + m) = (-1) ^ s * ((units m : ℚ) / 2 ^ 1074) := by
  rw [value_units, sunits_make hs hm]
  rcases Nat.lt_or_ge s 1 with h | h
  · have h0 : s = 0 := by omega
    subst h0; simp
  · have h1 : s = 1 := by omega
    subst h1; rw [if_pos rfl, pow_one, Int.cast_neg, Int.cast_natCast]; ring

theorem abs_sm {s : Nat} (hs : s < 2) {q : ℚ} (hq : 0 ≤ q) : |(-1) ^ s * q| = q := by
  rcases Nat.lt_or_ge s 1 with h | h
  · have h0 : s = 0 := by omega
    subst h0; rw [pow_zero, one_mul, abs_of_nonneg hq]
  · have h1 : s = 1 := by omega
    subst h1; rw [pow_one, neg_one_mul, abs_neg, abs_of_nonneg hq]

theorem value_self {d : Nat} (hd : d < 2 ^ 64) : value d = (-1) ^ sign d * ((units (mag d) : ℚ) / 2 ^ 1074) := by
  have e := self_eq hd
  have := value_sm (sign_lt d) (mag_lt d)
  rwa [← e] at this

theorem abs_value' {d : Nat} (hd : d < 2 ^ 64) : |value d| = (units (mag d) : ℚ) / 2 ^ 1074 := by
  have e := self_eq hd
  have := value_sm (sign_lt d) (mag_lt d)
  rw [← e] at this
  rw [this]
  exact abs_sm (sign_lt d) (div_nonneg (Nat.cast_nonneg _) (pow_pos (by norm_num) _).le)

theorem gap_cast (u n sh : Nat) : |(u : ℚ) / 2 ^ 1074 - (n : ℚ) / 2 ^ sh / 2 ^ 1074| = (gap (u * 2 ^ sh) n : ℚ) / 2 ^ sh / 2 ^ 1074 := by
  have hp : (0 : ℚ) < 2 ^ sh := pow_pos (by norm_num) _
  have hd : (0 : ℚ) < 2 ^ 1074 := pow_pos (by norm_num) _
  generalize (2 : ℚ) ^ 1074 = K at *
  rw [← sub_div, abs_div, abs_of_pos hd]
  congr 1
  have e : (u : ℚ) - n / 2 ^ sh = ((u * 2 ^ sh : ℕ) - (n : ℚ)) / 2 ^ sh := by push_cast; field_simp
  rw [e, abs_div, abs_of_pos hp]
  congr 1
  generalize u * 2 ^ sh = a
  unfold gap
  rcases Nat.le_total a n with h | h
  · rw [Nat.sub_eq_zero_of_le h, Nat.zero_add, Nat.cast_sub h, abs_of_nonpos (by have : (a : ℚ) ≤ n := Nat.cast_le.2 h; linarith)]; ring
  · rw [Nat.sub_eq_zero_of_le h, Nat.add_zero, Nat.cast_sub h, abs_of_nonneg (by have : (n : ℚ) ≤ a := Nat.cast_le.2 h; linarith)]

theorem neg_pow_cases {s d : Nat} (hs : s < 2) (hd : d < 2) {w : ℚ} (h : (-1) ^ d * w ≠ (-1) ^ s * w) : (-1) ^ d * w = -((-1) ^ s * w) := by
  rcases Nat.lt_or_ge s 1 with h1 | h1 <;> rcases Nat.lt_or_ge d 1 with h2 | h2
  · rw [show s = 0 from by omega, show d = 0 from by omega] at h; exact absurd rfl h
  · rw [show s = 0 from by omega, show d = 1 from by omega]; ring
  · rw [show s = 1 from by omega, show d = 0 from by omega]; ring
  · rw [show s = 1 from by omega, show d = 1 from by omega] at h; exact absurd rfl h

/-- What the floating-point unit does with a result: `n / 2^sh` multiples of the least double, of sign `s`. -/
theorem rounded_mag {s n sh : Nat} (hs : s < 2) :
    Rounded ((-1) ^ s * ((n : ℚ) / 2 ^ sh / 2 ^ 1074)) s (s * 2 ^ 63 + roundMag n sh) := by
  have hp : (0 : ℚ) < 2 ^ sh := pow_pos (by norm_num) _
  have hd : (0 : ℚ) < 2 ^ 1074 := pow_pos (by norm_num) _
  have hx0 : 0 ≤ (n : ℚ) / 2 ^ sh / 2 ^ 1074 := div_nonneg (div_nonneg (Nat.cast_nonneg _) hp.le) hd.le
  have hrl : roundMag n sh ≤ inf := Nat.min_le_right _ _
  have hinf := inf_lt
  have hr63 : roundMag n sh < 2 ^ 63 := by omega
  have ⟨h1, h2⟩ := roundMag_near n sh
  have hthr : |(-1) ^ s * ((n : ℚ) / 2 ^ sh / 2 ^ 1074)| < (2 ^ 54 - 1) * 2 ^ 970 ↔ n < (2 ^ 54 - 1) * 2 ^ 2044 * 2 ^ sh := by
    rw [abs_sm hs hx0, div_lt_iff₀ hd, div_lt_iff₀ hp, mul_assoc _ _ ((2 : ℚ) ^ 1074), ← pow_add, show 970 + 1074 = 2044 from rfl]
    generalize hA : (2 : ℕ) ^ 2044 = A
    have hA' : (2 : ℚ) ^ 2044 = A := by rw [← hA]; push_cast; rfl
    rw [hA']
    have e : ((2 : ℚ) ^ 54 - 1) * (A : ℚ) * 2 ^ sh = (((2 ^ 54 - 1) * A * 2 ^ sh : ℕ) : ℚ) := by push_cast; norm_num
    rw [e, Nat.cast_lt]
  refine ⟨by omega, sign_make hs hr63, ?_⟩
  by_cases hlt : n < (2 ^ 54 - 1) * 2 ^ 2044 * 2 ^ sh
  · rw [if_pos (hthr.2 hlt)]
    obtain ⟨hri, hnear⟩ := h1 hlt
    have hmr : mag (s * 2 ^ 63 + roundMag n sh) = roundMag n sh := mag_make hr63
    have hvr := value_sm hs hr63
    have hdist : |value (s * 2 ^ 63 + roundMag n sh) - (-1) ^ s * ((n : ℚ) / 2 ^ sh / 2 ^ 1074)|
        = (gap (units (roundMag n sh) * 2 ^ sh) n : ℚ) / 2 ^ sh / 2 ^ 1074 := by
      rw [hvr, ← mul_sub, abs_mul, abs_pow, abs_neg, abs_one, one_pow, one_mul, gap_cast]
    have hdd : ∀ d, d < 2 ^ 64 → (gap (units (mag d) * 2 ^ sh) n : ℚ) / 2 ^ sh / 2 ^ 1074
        ≤ |value d - (-1) ^ s * ((n : ℚ) / 2 ^ sh / 2 ^ 1074)| := by
      intro d hd64
      have := abs_abs_sub_abs_le (value d) ((-1) ^ s * ((n : ℚ) / 2 ^ sh / 2 ^ 1074))
      rwa [abs_value' hd64, abs_sm hs hx0, gap_cast] at this
    have hmono : ∀ a b : ℕ, (a : ℚ) / 2 ^ sh / 2 ^ 1074 ≤ (b : ℚ) / 2 ^ sh / 2 ^ 1074 ↔ a ≤ b := fun a b => by
      rw [div_le_div_iff_of_pos_right hd, div_le_div_iff_of_pos_right hp, Nat.cast_le]
    refine ⟨(finite_iff _).2 (by rw [hmr]; exact hri), fun d hd64 _ => ?_, fun d hd64 hfd heq hne => ?_⟩
    · rw [hdist]
      exact ((hmono _ _).2 (hnear (mag d)).1).trans (hdd d hd64)
    · have hfr : frac (s * 2 ^ 63 + roundMag n sh) % 2 = roundMag n sh % 2 := by unfold frac; omega
      rw [hfr]
      have hge := (hmono _ _).1 ((hdd d hd64).trans (heq.trans hdist).le)
      have hgap : gap (units (mag d) * 2 ^ sh) n = gap (units (roundMag n sh) * 2 ^ sh) n := Nat.le_antisymm hge (hnear (mag d)).1
      by_cases hm : mag d = roundMag n sh
      · exfalso
        have hds := sign_lt d
        have hv0 : value d = - value (s * 2 ^ 63 + roundMag n sh) := by
          obtain ⟨w, hw⟩ : ∃ w : ℚ, w = (units (roundMag n sh) : ℚ) / 2 ^ 1074 := ⟨_, rfl⟩
          have hvd := value_self hd64
          rw [hm, ← hw] at hvd
          rw [← hw] at hvr
          clear hw
          generalize value (s * 2 ^ 63 + roundMag n sh) = vr at *
          rw [hvd, hvr]
          rw [hvd, hvr] at hne
          exact neg_pow_cases hs hds hne
        rw [hv0] at heq hne
        generalize hX : (-1) ^ s * ((n : ℚ) / 2 ^ sh / 2 ^ 1074) = X at *
        generalize hV : value (s * 2 ^ 63 + roundMag n sh) = V at *
        have hVX : V * X = 0 := by
          have := sq_eq_sq_iff_abs_eq_abs (-V - X) (V - X) |>.2 heq
          have h4 : (-V - X) ^ 2 - (V - X) ^ 2 = 4 * (V * X) := by ring
          rw [this, sub_self] at h4
          exact (mul_eq_zero.1 h4.symm).resolve_left (by norm_num)
        have hV0 : V ≠ 0 := fun h => hne (by rw [h]; ring)
        have hX0 : X = 0 := by
          rcases mul_eq_zero.1 hVX with h | h
          · exact absurd h hV0
          · exact h
        have hn0 : n = 0 := by
          have h1 : |X| = 0 := by rw [hX0, abs_zero]
          rw [← hX, abs_sm hs hx0] at h1
          have := (div_eq_zero_iff.1 h1).resolve_right hd.ne'
          have := (div_eq_zero_iff.1 this).resolve_right hp.ne'
          exact_mod_cast this
        have hz := (hnear 0).1
        rw [hn0, show units 0 = 0 from by decide, Nat.zero_mul] at hz
        have hz2 : units (roundMag n sh) * 2 ^ sh = 0 := by
          rw [hn0]
          unfold gap at hz; omega
        have hz3 : units (roundMag n sh) = 0 := by
          rcases Nat.mul_eq_zero.1 hz2 with h | h
          · exact h
          · have := Nat.two_pow_pos sh; omega
        apply hV0
        rw [hvr, hz3]; simp
      · exact (hnear (mag d)).2 hgap hm
  · rw [if_neg (fun hh => hlt (hthr.1 hh))]
    rw [h2 (by omega)]
    have hmi : mag (s * 2 ^ 63 + inf) = inf := mag_make hinf
    have hme := mag_eq (s * 2 ^ 63 + inf)
    have := frac_lt (s * 2 ^ 63 + inf)
    have := expo_lt (s * 2 ^ 63 + inf)
    unfold IsInf
    rw [show mag (s * 2 ^ 63 + inf) = 2047 * 2 ^ 52 from hmi] at hme
    omega

end Pok.Float
