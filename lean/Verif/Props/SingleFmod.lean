import Verif.Props.SingleNextafter
import Verif.Props.Fmod
/-!
# Remainders of floats

Property C119.  libpok/libm/e_fmodf.c, fmodf.c.
-/
namespace Pok.Libmf
open Pok.Single Pok.Fpu32
open Pok.Float (and_mask and_not and_31 and_sign)
open Pok.Libm (not32 neg32 minus32 int32 wrap32 normLoop or_add xor_sign log2_mul)

/-- The significand: the number shifted so that its leading bit is bit 23. -/
theorem fmodSig_spec {m L : Nat} (hh : m < inf) (h0 : m ≠ 0) (hL : L = Nat.log2 (units m)) :
    units m * 2 ^ 23 = fmodSig m ((L : Int) - 149) * 2 ^ L := by
  unfold fmodSig
  rcases Nat.lt_or_ge m (2 ^ 23) with hs | hs
  · rw [units_small hs] at *
    have hL2 := (Nat.log2_lt h0).2 hs
    have hlt : m < 2 ^ (L + 1) := by rw [hL]; exact Nat.lt_log2_self
    rw [if_neg (by omega)]
    have e : (-126 - ((L : Int) - 149)).toNat = 23 - L := by omega
    have hb : m * 2 ^ (23 - L) < 2 ^ 24 := by
      calc m * 2 ^ (23 - L) < 2 ^ (L + 1) * 2 ^ (23 - L) := Nat.mul_lt_mul_of_pos_right hlt (Nat.two_pow_pos _)
        _ = 2 ^ 24 := by rw [← Nat.pow_add]; congr 1; omega
    rw [e, Nat.shiftLeft_eq, Nat.mod_eq_of_lt (by omega), Nat.mul_assoc, ← Nat.pow_add, Nat.sub_add_cancel (by omega)]
  · obtain ⟨E, f, hf, rfl⟩ : ∃ E f, f < 2 ^ 23 ∧ m = E * 2 ^ 23 + f := ⟨m / 2 ^ 23, m % 2 ^ 23, by omega, by omega⟩
    have hE1 : 1 ≤ E := by omega
    have hlog := log2_units hE1 hf
    rw [units_make hE1 hf.le] at hL
    rw [units_make hE1 hf.le]
    rw [hlog] at hL
    rw [if_pos (by omega)]
    have e1 : 0x007fffff &&& (E * 2 ^ 23 + f) = f := by
      rw [Nat.and_comm, show (0x007fffff : Nat) = 2 ^ 23 - 1 from rfl, and_mask]; omega
    have e2 := or_add (a := 1) (b := f) (i := 23) hf
    rw [e1, show (0x00800000 : Nat) = 1 * 2 ^ 23 from rfl, e2, hL, Nat.pow_add]
    generalize 2 ^ (E - 1) = A
    rw [Nat.one_mul, Nat.mul_assoc, Nat.mul_comm A]

/-- One step of the long division. -/
theorem fmodStep_spec {hx hy : Nat} (hlt : hx < 2 * hy) :
    match fmodStep hx hy with
    | none => hx = hy
    | some p => p < 2 * hy ∧ p % hy = 2 * hx % hy := by
  unfold fmodStep
  simp only
  by_cases hc : (hx : Int) - hy < 0
  · rw [if_pos hc]
    exact ⟨by omega, by congr 1; omega⟩
  · rw [if_neg hc]
    by_cases h0 : (hx : Int) - hy = 0
    · rw [if_pos h0]; simp only; omega
    · rw [if_neg h0]
      have e : ((hx : Int) - hy).toNat = hx - hy := by omega
      simp only [e]
      refine ⟨by omega, ?_⟩
      have : 2 * hx = (hx - hy + (hx - hy)) + hy * 2 := by omega
      rw [this, Nat.add_mul_mod_self_left]

theorem fmodLoop_spec {hy : Nat} (n : Nat) : ∀ {hx : Nat}, hx < 2 * hy →
    match fmodLoop n hx hy with
    | none => 2 ^ n * hx % hy = 0
    | some p => p < 2 * hy ∧ p % hy = 2 ^ n * hx % hy := by
  induction n with
  | zero => intro hx hlt; simp only [fmodLoop]; exact ⟨hlt, by rw [Nat.pow_zero, Nat.one_mul]⟩
  | succ n ih =>
    intro hx hlt
    have hs := fmodStep_spec hlt
    simp only [fmodLoop]
    cases hst : fmodStep hx hy with
    | none =>
      rw [hst] at hs
      simp only at hs
      simp only [Option.bind_none]
      rw [hs]; exact Nat.mul_mod_left _ _
    | some p =>
      rw [hst] at hs
      simp only at hs
      simp only [Option.bind_some]
      have h2 := ih hs.1
      have e : 2 ^ n * p % hy = 2 ^ (n + 1) * hx % hy := by
        rw [Nat.mul_mod, hs.2, ← Nat.mul_mod, Nat.pow_succ]; congr 1; ring
      cases hl : fmodLoop n p hy with
      | none => rw [hl] at h2; simp only at h2 ⊢; rw [← e]; exact h2
      | some q => rw [hl] at h2; simp only at h2 ⊢; rw [← e]; exact h2

theorem fmodNorm_spec {t : Nat} : ∀ {fuel hx : Nat} {iy : Int}, t ≤ fuel → 2 ^ 23 ≤ hx * 2 ^ t → hx * 2 ^ t < 2 ^ 24 →
    fmodNorm fuel hx iy = (hx * 2 ^ t, iy - t) := by
  induction t with
  | zero =>
    intro fuel hx iy _ h1 h2
    rw [Nat.pow_zero, Nat.mul_one] at *
    cases fuel with
    | zero => simp [fmodNorm]
    | succ f => unfold fmodNorm; rw [if_neg (by omega)]; simp
  | succ t ih =>
    intro fuel hx iy hf h1 h2
    obtain ⟨f, rfl⟩ : ∃ f, fuel = f + 1 := ⟨fuel - 1, by omega⟩
    have hlt : hx < 0x00800000 := by
      have h3 : hx * 2 ^ 1 ≤ hx * 2 ^ (t + 1) := Nat.mul_le_mul_left _ (Nat.pow_le_pow_right (by omega) (by omega))
      omega
    have e : hx * 2 ^ (t + 1) = (hx + hx) * 2 ^ t := by rw [Nat.pow_succ]; ring
    rw [e] at h1 h2 ⊢
    simp only [fmodNorm, if_pos hlt]
    rw [ih (iy := iy - 1) (show t ≤ f by omega) h1 h2]
    congr 1; push_cast; ring

theorem units_fit {R : Nat} (hR : R < 2 ^ 23) : R < inf := by unfold inf; omega

/-- The remainder made a float again. -/
theorem fmodPack_spec {s hx L R : Nat} (hs : s < 2) (hZ : hx < 2 ^ 24) (hL : L ≤ 276)
    (hR : R * 2 ^ 23 = hx * 2 ^ L) :
    ∃ m, m < inf ∧ units m = R ∧ fmodPack (s * 2 ^ 31) hx ((L : Int) - 149) = s * 2 ^ 31 + m := by
  have hLp := Nat.two_pow_pos L
  by_cases h0 : hx = 0
  · refine ⟨0, by decide, ?_, ?_⟩
    · rw [h0] at hR; rw [units_zero]; omega
    · unfold fmodPack; rw [if_pos h0, Nat.add_zero]
  · have hlog := (Nat.log2_lt h0).2 hZ
    obtain ⟨t, ht⟩ : ∃ t, t = 23 - Nat.log2 hx := ⟨_, rfl⟩
    have hW1 : 2 ^ 23 ≤ hx * 2 ^ t := by
      calc 2 ^ 23 = 2 ^ Nat.log2 hx * 2 ^ t := by rw [← Nat.pow_add]; congr 1; omega
        _ ≤ _ := Nat.mul_le_mul_right _ (Nat.log2_self_le h0)
    have hW2 : hx * 2 ^ t < 2 ^ 24 := by
      calc hx * 2 ^ t < 2 ^ (Nat.log2 hx + 1) * 2 ^ t := Nat.mul_lt_mul_of_pos_right Nat.lt_log2_self (Nat.two_pow_pos _)
        _ = 2 ^ 24 := by rw [← Nat.pow_add]; congr 1; omega
    have hn := fmodNorm_spec (iy := (L : Int) - 149) (show t ≤ 24 by omega) hW1 hW2
    have hRW : R * 2 ^ (23 + t) = hx * 2 ^ t * 2 ^ L := by
      rw [Nat.pow_add, ← Nat.mul_assoc, hR]; ring
    unfold fmodPack
    rw [if_neg h0]
    simp only
    rw [hn]
    simp only
    generalize hx * 2 ^ t = h at *
    clear hn hR hZ h0 hlog
    by_cases hc : (L : Int) - 149 - t ≥ -126
    · rw [if_pos hc]
      obtain ⟨e, he⟩ : ∃ e, L = e + t + 23 := ⟨L - t - 23, by omega⟩
      have hR2 : R = h * 2 ^ e := by
        have : R * 2 ^ (23 + t) = h * 2 ^ e * 2 ^ (23 + t) := by
          rw [hRW, he, Nat.mul_assoc, ← Nat.pow_add]; congr 2; omega
        exact Nat.eq_of_mul_eq_mul_right (Nat.two_pow_pos _) this
      have he2 : ((L : Int) - 149 - t + 127).toNat = e + 1 := by omega
      refine ⟨(e + 1) * 2 ^ 23 + (h - 2 ^ 23), lt_inf (by omega) (by omega), ?_, ?_⟩
      · rw [units_make (by omega) (by omega), hR2, Nat.add_sub_cancel, Nat.add_sub_cancel' hW1]
      · rw [he2, Nat.shiftLeft_eq]
        have hf : h - 0x00800000 < 2 ^ 23 := by omega
        rw [Nat.or_comm (h - 0x00800000), or_add hf, Nat.or_comm, or_add (by omega), show (0x00800000 : Nat) = 2 ^ 23 from rfl]
    · rw [if_neg hc]
      obtain ⟨n, hn⟩ : ∃ n, n + L = 23 + t := ⟨23 + t - L, by omega⟩
      have hnn : (-126 - ((L : Int) - 149 - t)).toNat = n := by omega
      have hn1 : 1 ≤ n := by omega
      rw [hnn]
      have hW : h = R * 2 ^ n := by
        have : R * 2 ^ n * 2 ^ L = h * 2 ^ L := by rw [← hRW, Nat.mul_assoc, ← Nat.pow_add, hn]
        exact (Nat.eq_of_mul_eq_mul_right hLp this).symm
      have hdiv : h / 2 ^ n = R := by rw [hW, Nat.mul_div_cancel _ (Nat.two_pow_pos n)]
      have hR23 : R < 2 ^ 23 := by
        have : R * 2 ^ 1 ≤ R * 2 ^ n := Nat.mul_le_mul_left _ (Nat.pow_le_pow_right (by omega) hn1)
        rw [← hW] at this
        omega
      refine ⟨R, units_fit hR23, units_small hR23, ?_⟩
      rw [Nat.shiftRight_eq_div_pow, hdiv, Nat.or_comm, or_add (by omega)]

theorem and_xor {x : Nat} (h : x < 2 ^ 32) : x ^^^ (x &&& 0x80000000) = mag x := by
  rw [xor_sign h]; rfl

theorem sign_and {x : Nat} (h : x < 2 ^ 32) : x &&& 0x80000000 = sign x * 2 ^ 31 := by
  rw [and_sign h]; congr 1; unfold sign; omega

theorem fmod_eq {x y : Nat} (h : x < 2 ^ 32) (hf : IsFinite x) (hf' : IsFinite y) (h0 : mag y ≠ 0) :
    ∃ m, m < inf ∧ units m = units (mag x) % units (mag y) ∧ fmod x y = sign x * 2 ^ 31 + m := by
  have hfx := (finite_iff x).1 hf
  have hfy := (finite_iff y).1 hf'
  have hs := sign_lt x
  have hi : inf = 0x7f800000 := by decide
  unfold fmod
  simp only
  rw [and_xor h, and_mag, sign_and h]
  rw [if_neg (by omega)]
  by_cases c1 : mag x < mag y
  · rw [if_pos c1]
    exact ⟨mag x, hfx, (Nat.mod_eq_of_lt (units_lt.2 c1)).symm, self_eq h⟩
  · rw [if_neg c1]
    by_cases c2 : mag x = mag y
    · rw [if_pos c2]
      refine ⟨0, by decide, ?_, (Nat.add_zero _).symm⟩
      rw [units_zero, c2, Nat.mod_self]
    · rw [if_neg c2]
      have hgt : mag y < mag x := by omega
      have hx0 : mag x ≠ 0 := by omega
      have hux0 : units (mag x) ≠ 0 := fun hh => hx0 (units_eq_zero.1 hh)
      have huy0 : units (mag y) ≠ 0 := fun hh => h0 (units_eq_zero.1 hh)
      rw [exp_eq hfx hx0, exp_eq hfy h0]
      obtain ⟨A, hA⟩ : ∃ A, A = Nat.log2 (units (mag x)) := ⟨_, rfl⟩
      obtain ⟨B, hB⟩ : ∃ B, B = Nat.log2 (units (mag y)) := ⟨_, rfl⟩
      have sx2 := fmodSig_spec hfx hx0 hA
      have sy2 := fmodSig_spec hfy h0 hB
      rw [← hA, ← hB]
      generalize fmodSig (mag x) ((A : Int) - 149) = px at *
      generalize fmodSig (mag y) ((B : Int) - 149) = py at *
      have bound : ∀ U X L, U ≠ 0 → L = Nat.log2 U → U * 2 ^ 23 = X * 2 ^ L → 2 ^ 23 ≤ X ∧ X < 2 ^ 24 := by
        intro U X L hU hL he
        have h1 := Nat.log2_self_le hU
        have h2 : U < 2 ^ (Nat.log2 U + 1) := Nat.lt_log2_self
        rw [← hL] at h1 h2
        have hp := Nat.two_pow_pos L
        constructor
        · apply Nat.le_of_mul_le_mul_right (c := 2 ^ L) _ hp
          rw [← he, Nat.mul_comm]
          exact Nat.mul_le_mul_right _ h1
        · apply Nat.lt_of_mul_lt_mul_right (a := 2 ^ L)
          rw [← he]
          calc U * 2 ^ 23 < 2 ^ (L + 1) * 2 ^ 23 := Nat.mul_lt_mul_of_pos_right h2 (by decide)
            _ = 2 ^ 24 * 2 ^ L := by rw [← Nat.pow_add, ← Nat.pow_add]; congr 1; omega
      have bx := bound _ _ A hux0 hA sx2
      have bY := bound _ _ B huy0 hB sy2
      have hAB : B ≤ A := by
        rw [hA, hB]
        have h1 := Nat.log2_self_le huy0
        have h2 : units (mag x) < 2 ^ (Nat.log2 (units (mag x)) + 1) := Nat.lt_log2_self
        have h3 := units_lt.2 hgt
        have : 2 ^ Nat.log2 (units (mag y)) < 2 ^ (Nat.log2 (units (mag x)) + 1) := by omega
        have := (Nat.pow_lt_pow_iff_right (a := 2) (by omega)).1 this
        omega
      have hB276 : B ≤ 276 := by
        have : B < 277 := by
          rw [hB]
          exact log2_mul (a := 25) (b := 252) huy0 (Nat.lt_of_lt_of_eq (units_lt.2 hfy) units_inf)
        omega
      obtain ⟨n, hn⟩ : ∃ n, A = n + B := ⟨A - B, by omega⟩
      have hnt : ((A : Int) - 149 - ((B : Int) - 149)).toNat = n := by omega
      rw [hnt]
      -- the remainder, in units
      have hrem : (units (mag x) % units (mag y)) * 2 ^ 23 = (2 ^ n * px % py) * 2 ^ B := by
        rw [← Nat.mul_mod_mul_right, ← Nat.mul_mod_mul_right, sx2, sy2, hn, Nat.pow_add]
        congr 1
        ring
      have hl := fmodLoop_spec n (show px < 2 * py by omega)
      cases hlp : fmodLoop n px py with
      | none =>
        rw [hlp] at hl
        simp only at hl ⊢
        rw [hl, Nat.zero_mul] at hrem
        exact ⟨0, by decide, by rw [units_zero]; omega, (Nat.add_zero _).symm⟩
      | some p =>
        rw [hlp] at hl
        obtain ⟨l2, l3⟩ := hl
        simp only
        rw [← l3] at hrem
        by_cases hc : (p : Int) - py ≥ 0
        · rw [if_pos hc]
          have hj : ((p : Int) - py).toNat = p - py := by omega
          have hm : p % py = p - py := by
            rw [Nat.mod_eq_sub_mod (show p ≥ py by omega), Nat.mod_eq_of_lt (show p - py < py by omega)]
          rw [hm] at hrem
          rw [hj]
          exact fmodPack_spec hs (by omega) hB276 hrem
        · rw [if_neg hc]
          rw [Nat.mod_eq_of_lt (show p < py by omega)] at hrem
          exact fmodPack_spec hs (by omega) hB276 hrem

/-- `fmodf(x, y)` is, without error, what remains of the magnitude of `x` after as many times the magnitude of `y` as it holds, with the sign
of `x`. -/
theorem C119_fmod {x y : Nat} (h : x < 2 ^ 32) (h' : y < 2 ^ 32) (hf : IsFinite x) (hf' : IsFinite y) (h0 : ¬ IsZero y) :
    fmod x y < 2 ^ 32 ∧ IsFinite (fmod x y) ∧ sign (fmod x y) = sign x ∧ |value (fmod x y)| < |value y|
    ∧ ∃ n : ℕ, |value x| = n * |value y| + |value (fmod x y)| := by
  have hy0 : mag y ≠ 0 := by have := mag_eq y; unfold IsZero at h0; omega
  have hp : (0 : ℚ) < 2 ^ 149 := pow_pos (by norm_num) _
  obtain ⟨m, hm, hu, e⟩ := fmod_eq h hf hf' hy0
  have hi := inf_lt
  have hm31 : m < 2 ^ 31 := by omega
  have hs := sign_lt x
  have h32 := lt32 hs hm31
  have huy : 0 < units (mag y) := Nat.pos_of_ne_zero (fun hh => hy0 (units_eq_zero.1 hh))
  rw [e]
  refine ⟨h32, (finite_iff _).2 (by rw [mag_make hm31]; exact hm), sign_make hs hm31, ?_, ?_⟩
  · rw [abs_value' h32, abs_value' h', mag_make hm31, hu]
    exact div_lt_div_of_pos_right (Nat.cast_lt.2 (Nat.mod_lt _ huy)) hp
  · refine ⟨units (mag x) / units (mag y), ?_⟩
    rw [abs_value' h32, abs_value' h', abs_value' h, mag_make hm31, hu]
    have hdm := Nat.div_add_mod (units (mag x)) (units (mag y))
    have hq : (units (mag x) : ℚ) = ((units (mag x) / units (mag y) : ℕ) : ℚ) * (units (mag y) : ℚ) + ((units (mag x) % units (mag y) : ℕ) : ℚ) := by
      rw [← Nat.cast_mul, ← Nat.cast_add, Nat.mul_comm, hdm]
    generalize (2 : ℚ) ^ 149 = K at *
    conv_lhs => rw [hq]
    ring

/-- An infinite divisor leaves the number as it is; an infinite number, a divisor zero, and arguments that are not numbers give what is not a
number. -/
theorem C119_fmod_special {x y : Nat} (h : x < 2 ^ 32) :
    (IsFinite x → IsInf y → fmod x y = x) ∧ (¬ IsFinite x ∨ IsZero y ∨ IsNaN y → IsNaN (fmod x y)) := by
  have hmx := mag_eq x
  have hmy := mag_eq y
  have := frac_lt x
  have := frac_lt y
  have hinf : inf = 0x7f800000 := by decide
  constructor
  · intro hf hi
    have hm := (isInf_mag y).1 hi
    have hfx := (finite_iff x).1 hf
    unfold fmod
    simp only
    rw [and_xor h, and_mag, if_neg (by omega), if_pos (by omega)]
  · intro hh
    have hn : IsNaN nan := by decide
    unfold fmod
    simp only
    rw [and_xor h, and_mag, if_pos]
    · exact hn
    · rcases hh with hh | hh | hh
      · rw [finite_iff] at hh; omega
      · left; rw [hmy, hh.1, hh.2]; rfl
      · right; right; rw [isNaN_mag] at hh; omega

/-- `fmodf(-7.5, 2.0)` is -1.5; `fmodf(1e30, 7.0)` is 1: these meet the hypotheses. -/
example : fmod 0xc0f00000 0x40000000 = 0xbfc00000 ∧ IsFinite 0xc0f00000 ∧ ¬ IsZero 0x40000000
    ∧ fmod 0x7149f2ca 0x40e00000 = 0x3f800000 := by decide +kernel

end Pok.Libmf
