import Verif.Props.Nextafter
/-!
# Remainders

Property C90.  libpok/libm/e_fmod.c, fmod.c, e_remainder.c.
-/
namespace Pok.Libm
open Pok.Float Pok.Fpu

/-- The number that two words form. -/
def join (h l : Nat) : Nat := h * 2 ^ 32 + l

theorem or_add {a b i : Nat} (hb : b < 2 ^ i) : a * 2 ^ i ||| b = a * 2 ^ i + b := by
  have := Nat.two_pow_add_eq_or_of_lt hb a
  rw [Nat.mul_comm] at this
  exact this.symm

/-- A shift of two words to the right. -/
theorem shr_join {h l n : Nat} (hl : l < 2 ^ 32) (hn : n ≤ 32) : l >>> n ||| (h <<< (32 - n)) % 2 ^ 32 = join h l / 2 ^ n % 2 ^ 32 := by
  have hp := pow_split hn
  have h1 := Nat.two_pow_pos n
  have h2 := Nat.two_pow_pos (32 - n)
  rw [Nat.shiftRight_eq_div_pow, Nat.shiftLeft_eq]
  have e1 : h * 2 ^ (32 - n) % 2 ^ 32 = h % 2 ^ n * 2 ^ (32 - n) := by
    rw [hp, Nat.mul_comm (2 ^ (32 - n)), Nat.mul_mod_mul_right]
  have e2 : l / 2 ^ n < 2 ^ (32 - n) := by
    rw [Nat.div_lt_iff_lt_mul h1, ← hp]; exact hl
  rw [e1, Nat.or_comm, or_add e2]
  unfold join
  have e3 : (h * 2 ^ 32 + l) / 2 ^ n = h * 2 ^ (32 - n) + l / 2 ^ n := by
    conv_lhs => rw [hp, ← Nat.mul_assoc, Nat.mul_comm, Nat.mul_add_div h1]
  rw [e3]
  have e4 : h * 2 ^ (32 - n) = h / 2 ^ n * 2 ^ 32 + h % 2 ^ n * 2 ^ (32 - n) := by
    conv_lhs => rw [← Nat.div_add_mod h (2 ^ n), Nat.add_mul]
    rw [hp]; ring
  rw [e4, Nat.add_assoc, Nat.mul_comm (h / 2 ^ n), Nat.mul_add_mod]
  symm
  apply Nat.mod_eq_of_lt
  rw [hp]
  have : h % 2 ^ n + 1 ≤ 2 ^ n := Nat.mod_lt _ h1
  calc h % 2 ^ n * 2 ^ (32 - n) + l / 2 ^ n < h % 2 ^ n * 2 ^ (32 - n) + 2 ^ (32 - n) := by omega
    _ = (h % 2 ^ n + 1) * 2 ^ (32 - n) := by ring
    _ ≤ 2 ^ n * 2 ^ (32 - n) := Nat.mul_le_mul_right _ this
    _ = 2 ^ (32 - n) * 2 ^ n := Nat.mul_comm _ _

/-- A shift of two words to the left. -/
theorem shl_join {h l n : Nat} (hl : l < 2 ^ 32) (hn : n ≤ 32) (hb : join h l * 2 ^ n < 2 ^ 64) :
    join ((h <<< n) % 2 ^ 32 ||| l >>> (32 - n)) ((l <<< n) % 2 ^ 32) = join h l * 2 ^ n := by
  have hp := pow_split hn
  have h1 := Nat.two_pow_pos n
  have h2 := Nat.two_pow_pos (32 - n)
  rw [Nat.shiftRight_eq_div_pow, Nat.shiftLeft_eq, Nat.shiftLeft_eq]
  have e1 : l / 2 ^ (32 - n) < 2 ^ n := by
    rw [Nat.div_lt_iff_lt_mul h2, Nat.mul_comm, ← hp]; exact hl
  have e2 : l * 2 ^ n % 2 ^ 32 = l % 2 ^ (32 - n) * 2 ^ n := by rw [hp, Nat.mul_mod_mul_right]
  have e3 : h * 2 ^ n < 2 ^ 32 := by
    unfold join at hb
    by_contra hc
    have : 2 ^ 32 * 2 ^ 32 ≤ h * 2 ^ n * 2 ^ 32 := Nat.mul_le_mul_right _ (by omega)
    have : h * 2 ^ n * 2 ^ 32 ≤ (h * 2 ^ 32 + l) * 2 ^ n := by
      rw [Nat.add_mul]; calc h * 2 ^ n * 2 ^ 32 = h * 2 ^ 32 * 2 ^ n := by ring
        _ ≤ _ := Nat.le_add_right _ _
    omega
  rw [Nat.mod_eq_of_lt e3, or_add e1, e2]
  unfold join
  have e4 : l * 2 ^ n = l / 2 ^ (32 - n) * 2 ^ 32 + l % 2 ^ (32 - n) * 2 ^ n := by
    conv_lhs => rw [← Nat.div_add_mod l (2 ^ (32 - n)), Nat.add_mul]
    rw [hp]; ring
  rw [Nat.add_mul, Nat.add_mul, e4]; ring

/-- The significand: the number shifted so that its leading bit is bit 52. -/
theorem fmodSig_join {hx lx L : Nat} (hl : lx < 2 ^ 32) (hh : hx < 0x7ff00000) (h0 : join hx lx ≠ 0) (hL : L = Nat.log2 (units (join hx lx))) :
    (fmodSig hx lx ((L : Int) - 1074)).2 < 2 ^ 32
    ∧ units (join hx lx) * 2 ^ 52 = join (fmodSig hx lx ((L : Int) - 1074)).1 (fmodSig hx lx ((L : Int) - 1074)).2 * 2 ^ L := by
  unfold fmodSig
  rcases Nat.lt_or_ge hx (2 ^ 20) with h20 | h20
  · have hs : join hx lx < 2 ^ 52 := join_lt h20 hl
    rw [units_small hs] at *
    have hL2 := (Nat.log2_lt h0).2 hs
    have hlt : join hx lx < 2 ^ (L + 1) := by rw [hL]; exact Nat.lt_log2_self
    rw [if_neg (by omega)]
    have e : (-1022 - ((L : Int) - 1074)).toNat = 52 - L := by omega
    have hb : join hx lx * 2 ^ (52 - L) < 2 ^ 53 := by
      calc join hx lx * 2 ^ (52 - L) < 2 ^ (L + 1) * 2 ^ (52 - L) := Nat.mul_lt_mul_of_pos_right hlt (Nat.two_pow_pos _)
        _ = 2 ^ 53 := by rw [← Nat.pow_add]; congr 1; omega
    simp only [e]
    have hfin : join hx lx * 2 ^ (52 - L) * 2 ^ L = join hx lx * 2 ^ 52 := by
      rw [Nat.mul_assoc, ← Nat.pow_add, Nat.sub_add_cancel (by omega)]
    split
    · rename_i hn
      refine ⟨Nat.mod_lt _ (by decide), ?_⟩
      rw [shl_join hl (by omega) (by omega), hfin]
    · rename_i hn
      refine ⟨Nat.two_pow_pos 32, ?_⟩
      have hx0 : hx = 0 := by
        by_contra hc
        have : 2 ^ 32 ≤ join hx lx := by unfold join; omega
        have : 2 ^ 32 * 2 ^ 32 ≤ join hx lx * 2 ^ (52 - L) := Nat.mul_le_mul this (Nat.pow_le_pow_right (by omega) (by omega))
        omega
      rw [← hfin]
      congr 1
      subst hx0
      have hj : join 0 lx = lx := by unfold join; omega
      rw [hj] at hb ⊢
      have e2 : lx * 2 ^ (52 - L) = lx * 2 ^ (52 - L - 32) * 2 ^ 32 := by
        rw [Nat.mul_assoc, ← Nat.pow_add]; congr 2; omega
      rw [Nat.shiftLeft_eq, e2, Nat.mod_eq_of_lt]
      · unfold join; rw [Nat.add_zero]
      · rw [e2] at hb; omega
  · obtain ⟨E, f, hf, rfl⟩ : ∃ E f, f < 2 ^ 20 ∧ hx = E * 2 ^ 20 + f := ⟨hx / 2 ^ 20, hx % 2 ^ 20, by omega, by omega⟩
    have ej : join (E * 2 ^ 20 + f) lx = E * 2 ^ 52 + (f * 2 ^ 32 + lx) := by unfold join; omega
    have hF := join_lt hf hl
    have hE1 : 1 ≤ E := by omega
    have hlog := log2_units hE1 hF
    rw [ej, units_make hE1 hF.le] at hL
    rw [ej, units_make hE1 hF.le]
    rw [hlog] at hL
    rw [if_pos (by omega)]
    refine ⟨hl, ?_⟩
    have e1 : 0x000fffff &&& (E * 2 ^ 20 + f) = f := by
      rw [Nat.and_comm, show (0x000fffff : Nat) = 2 ^ 20 - 1 from rfl, and_mask]; omega
    have e2 := or_add (a := 1) (b := f) (i := 20) hf
    simp only [e1]
    rw [show (0x00100000 : Nat) = 1 * 2 ^ 20 from rfl, e2, hL, Nat.pow_add]
    unfold join
    generalize 2 ^ (E - 1) = A
    rw [Nat.mul_assoc, Nat.mul_comm A, ← Nat.mul_assoc, ← Nat.mul_assoc]
    congr 2
    omega

theorem dbl_join {h l : Nat} (hl : l < 2 ^ 32) : join (h + h + l >>> 31) ((l + l) % 2 ^ 32) = 2 * join h l := by
  rw [Nat.shiftRight_eq_div_pow]; unfold join; omega

/-- One step of the long division. -/
theorem fmodStep_spec {hx lx hy ly : Nat} (hlx : lx < 2 ^ 32) (hly : ly < 2 ^ 32) (hlt : join hx lx < 2 * join hy ly) :
    match fmodStep hx lx hy ly with
    | none => join hx lx = join hy ly
    | some p => p.2 < 2 ^ 32 ∧ join p.1 p.2 < 2 * join hy ly ∧ join p.1 p.2 % join hy ly = 2 * join hx lx % join hy ly := by
  unfold fmodStep
  simp only
  have hz : ((hx : Int) - hy - (if lx < ly then 1 else 0) < 0) ↔ join hx lx < join hy ly := by unfold join; split <;> omega
  have hd : ¬ ((hx : Int) - hy - (if lx < ly then 1 else 0) < 0) →
      join ((hx : Int) - hy - (if lx < ly then 1 else 0)).toNat ((lx + 2 ^ 32 - ly) % 2 ^ 32) = join hx lx - join hy ly := by
    unfold join; split <;> omega
  by_cases hc : (hx : Int) - hy - (if lx < ly then 1 else 0) < 0
  · rw [if_pos hc]
    have := hz.1 hc
    refine ⟨Nat.mod_lt _ (by decide), ?_, ?_⟩
    · rw [dbl_join hlx]; omega
    · rw [dbl_join hlx]
  · rw [if_neg hc]
    have hge : join hy ly ≤ join hx lx := by by_contra h; exact hc (hz.2 (by omega))
    have hl2 : (lx + 2 ^ 32 - ly) % 2 ^ 32 < 2 ^ 32 := Nat.mod_lt _ (by decide)
    have hj := hd hc
    generalize ((hx : Int) - hy - (if lx < ly then 1 else 0)).toNat = a at *
    generalize (lx + 2 ^ 32 - ly) % 2 ^ 32 = b at *
    by_cases h0 : a ||| b = 0
    · rw [if_pos h0]
      rw [Nat.or_eq_zero_iff] at h0
      rw [h0.1, h0.2] at hj
      have : join 0 0 = 0 := rfl
      omega
    · rw [if_neg h0]
      refine ⟨Nat.mod_lt _ (by decide), ?_, ?_⟩
      · rw [dbl_join hl2, hj]; omega
      · rw [dbl_join hl2, hj, Nat.mul_sub]
        have : 2 * join hx lx = (2 * join hx lx - 2 * join hy ly) + join hy ly * 2 := by omega
        conv_rhs => rw [this, Nat.add_mul_mod_self_left]

theorem fmodLoop_spec {hy ly : Nat} (hly : ly < 2 ^ 32) (n : Nat) : ∀ {hx lx : Nat}, lx < 2 ^ 32 → join hx lx < 2 * join hy ly →
    match fmodLoop n hx lx hy ly with
    | none => 2 ^ n * join hx lx % join hy ly = 0
    | some p => p.2 < 2 ^ 32 ∧ join p.1 p.2 < 2 * join hy ly ∧ join p.1 p.2 % join hy ly = 2 ^ n * join hx lx % join hy ly := by
  induction n with
  | zero => intro hx lx hlx hlt; simp only [fmodLoop]; exact ⟨hlx, hlt, by rw [Nat.pow_zero, Nat.one_mul]⟩
  | succ n ih =>
    intro hx lx hlx hlt
    have hs := fmodStep_spec hlx hly hlt
    simp only [fmodLoop]
    cases hst : fmodStep hx lx hy ly with
    | none =>
      rw [hst] at hs
      simp only at hs
      simp only [Option.bind_none]
      rw [hs]; exact Nat.mul_mod_left _ _
    | some p =>
      rw [hst] at hs
      simp only at hs
      simp only [Option.bind_some]
      have h2 := ih hs.1 hs.2.1
      have e : 2 ^ n * join p.1 p.2 % join hy ly = 2 ^ (n + 1) * join hx lx % join hy ly := by
        rw [Nat.mul_mod, hs.2.2, ← Nat.mul_mod, Nat.pow_succ]; congr 1; ring
      cases hl : fmodLoop n p.1 p.2 hy ly with
      | none => rw [hl] at h2; simp only at h2 ⊢; rw [← e]; exact h2
      | some q => rw [hl] at h2; simp only at h2 ⊢; rw [← e]; exact h2

theorem fmodNorm_spec {t : Nat} : ∀ {fuel hx lx : Nat} {iy : Int}, t ≤ fuel → lx < 2 ^ 32 → 2 ^ 52 ≤ join hx lx * 2 ^ t → join hx lx * 2 ^ t < 2 ^ 53 →
    (fmodNorm fuel hx lx iy).2.1 < 2 ^ 32 ∧ join (fmodNorm fuel hx lx iy).1 (fmodNorm fuel hx lx iy).2.1 = join hx lx * 2 ^ t
      ∧ (fmodNorm fuel hx lx iy).2.2 = iy - t := by
  induction t with
  | zero =>
    intro fuel hx lx iy _ hl h1 h2
    rw [Nat.pow_zero, Nat.mul_one] at *
    have e : fmodNorm fuel hx lx iy = (hx, lx, iy) := by
      cases fuel with
      | zero => rfl
      | succ f => unfold fmodNorm; rw [if_neg (by unfold join at h1; omega)]
    rw [e]; exact ⟨hl, rfl, by simp⟩
  | succ t ih =>
    intro fuel hx lx iy hf hl h1 h2
    obtain ⟨f, rfl⟩ : ∃ f, fuel = f + 1 := ⟨fuel - 1, by omega⟩
    have hlt : hx < 0x00100000 := by
      have : join hx lx < 2 ^ 52 := by
        have h3 : join hx lx * 2 ^ 1 ≤ join hx lx * 2 ^ (t + 1) := Nat.mul_le_mul_left _ (Nat.pow_le_pow_right (by omega) (by omega))
        omega
      unfold join at this; omega
    have e : join hx lx * 2 ^ (t + 1) = join (hx + hx + lx >>> 31) ((lx + lx) % 2 ^ 32) * 2 ^ t := by
      rw [dbl_join hl, Nat.pow_succ]; ring
    rw [e] at h1 h2 ⊢
    have := ih (iy := iy - 1) (show t ≤ f by omega) (Nat.mod_lt _ (by decide)) h1 h2
    simp only [fmodNorm, if_pos hlt]
    refine ⟨this.1, this.2.1, ?_⟩
    rw [this.2.2]; push_cast; ring

theorem join_hi {h l : Nat} (hl : l < 2 ^ 32) : join h l / 2 ^ 32 = h := by unfold join; omega

theorem insert_join {s m : Nat} (_hm : m < 2 ^ 63) : insert (s * 2 ^ 31 + m / 2 ^ 32) (m % 2 ^ 32) = s * 2 ^ 63 + m := by
  unfold insert; omega

theorem units_fit {R : Nat} (hR : R < 2 ^ 52) : R < inf := by unfold inf; omega

/-- The remainder made a double again. -/
theorem fmodPack_spec {s hx lx L R : Nat} (hs : s < 2) (hl : lx < 2 ^ 32) (hZ : join hx lx < 2 ^ 53) (hL : L ≤ 2097)
    (hR : R * 2 ^ 52 = join hx lx * 2 ^ L) :
    ∃ m, m < inf ∧ units m = R ∧ fmodPack (s * 2 ^ 31) hx lx ((L : Int) - 1074) = s * 2 ^ 63 + m := by
  have hLp := Nat.two_pow_pos L
  by_cases h0 : join hx lx = 0
  · have hor : hx ||| lx = 0 := by rw [Nat.or_eq_zero_iff]; unfold join at h0; omega
    refine ⟨0, by decide, ?_, ?_⟩
    · rw [h0] at hR; rw [units_zero]; omega
    · unfold fmodPack insert; rw [if_pos hor]
      clear hR hLp hZ hor h0
      omega
  · have hor : ¬ hx ||| lx = 0 := by rw [Nat.or_eq_zero_iff]; unfold join at h0; omega
    have hlog := (Nat.log2_lt h0).2 hZ
    obtain ⟨t, ht⟩ : ∃ t, t = 52 - Nat.log2 (join hx lx) := ⟨_, rfl⟩
    have hW1 : 2 ^ 52 ≤ join hx lx * 2 ^ t := by
      calc 2 ^ 52 = 2 ^ Nat.log2 (join hx lx) * 2 ^ t := by rw [← Nat.pow_add]; congr 1; omega
        _ ≤ _ := Nat.mul_le_mul_right _ (Nat.log2_self_le h0)
    have hW2 : join hx lx * 2 ^ t < 2 ^ 53 := by
      calc join hx lx * 2 ^ t < 2 ^ (Nat.log2 (join hx lx) + 1) * 2 ^ t := Nat.mul_lt_mul_of_pos_right Nat.lt_log2_self (Nat.two_pow_pos _)
        _ = 2 ^ 53 := by rw [← Nat.pow_add]; congr 1; omega
    have hn := fmodNorm_spec (iy := (L : Int) - 1074) (show t ≤ 53 by omega) hl hW1 hW2
    have hRW : R * 2 ^ (52 + t) = join hx lx * 2 ^ t * 2 ^ L := by
      rw [Nat.pow_add, ← Nat.mul_assoc, hR]; ring
    unfold fmodPack
    rw [if_neg hor]
    simp only
    obtain ⟨n1, n2, n3⟩ := hn
    rw [n3]
    generalize (fmodNorm 53 hx lx ((L : Int) - 1074)).1 = h at *
    generalize (fmodNorm 53 hx lx ((L : Int) - 1074)).2.1 = l at *
    have hhi := join_hi (h := h) n1
    have hlo : join h l % 2 ^ 32 = l := by unfold join; omega
    rw [← n2] at hW1 hW2 hRW
    clear n2 n3 hR hZ h0 hor hlog
    by_cases hc : (L : Int) - 1074 - t ≥ -1022
    · rw [if_pos hc]
      obtain ⟨e, he⟩ : ∃ e, L = e + t + 52 := ⟨L - t - 52, by omega⟩
      have hR2 : R = join h l * 2 ^ e := by
        have : R * 2 ^ (52 + t) = join h l * 2 ^ e * 2 ^ (52 + t) := by
          rw [hRW, he, Nat.mul_assoc, ← Nat.pow_add]; congr 2; omega
        exact Nat.eq_of_mul_eq_mul_right (Nat.two_pow_pos _) this
      have he2 : ((L : Int) - 1074 - t + 1023).toNat = e + 1 := by omega
      refine ⟨(e + 1) * 2 ^ 52 + (join h l - 2 ^ 52), lt_inf (by omega) (by omega), ?_, ?_⟩
      · rw [units_make (by omega) (by omega), hR2, Nat.add_sub_cancel, Nat.add_sub_cancel' hW1]
      · rw [he2, Nat.shiftLeft_eq]
        have hf : h - 0x00100000 < 2 ^ 20 := by unfold join at hW2; omega
        rw [Nat.or_comm (h - 0x00100000), or_add hf, Nat.or_comm, or_add (by omega)]
        unfold insert join at *
        clear hRW hR2 hLp
        omega
    · rw [if_neg hc]
      obtain ⟨n, hn⟩ : ∃ n, n + L = 52 + t := ⟨52 + t - L, by omega⟩
      have hnn : (-1022 - ((L : Int) - 1074 - t)).toNat = n := by omega
      have hn1 : 1 ≤ n := by omega
      rw [hnn]
      have hW : join h l = R * 2 ^ n := by
        have : R * 2 ^ n * 2 ^ L = join h l * 2 ^ L := by rw [← hRW, Nat.mul_assoc, ← Nat.pow_add, hn]
        exact (Nat.eq_of_mul_eq_mul_right hLp this).symm
      have hdiv : join h l / 2 ^ n = R := by rw [hW, Nat.mul_div_cancel _ (Nat.two_pow_pos n)]
      have hR52 : R < 2 ^ 52 := by
        have : R * 2 ^ 1 ≤ R * 2 ^ n := Nat.mul_le_mul_left _ (Nat.pow_le_pow_right (by omega) hn1)
        rw [← hW] at this
        omega
      have hh := hhi
      refine ⟨R, units_fit hR52, units_small hR52, ?_⟩
      have hsx : s * 2 ^ 31 ||| s * 2 ^ 31 = s * 2 ^ 31 := Nat.or_self _
      by_cases c1 : n ≤ 20
      · rw [if_pos c1, shr_join n1 (by omega), hdiv, Nat.or_comm, Nat.shiftRight_eq_div_pow, ← hh, Nat.div_div_eq_div_mul, Nat.mul_comm (2 ^ 32),
          ← Nat.div_div_eq_div_mul, hdiv, or_add (by omega)]
        exact insert_join (by omega)
      · rw [if_neg c1]
        have hR32 : R < 2 ^ 32 := by
          have : R * 2 ^ 21 ≤ R * 2 ^ n := Nat.mul_le_mul_left _ (Nat.pow_le_pow_right (by omega) (by omega))
          rw [← hW] at this
          omega
        have hfin : insert (s * 2 ^ 31) R = s * 2 ^ 63 + R := by
          unfold insert
          clear hRW hW hLp hdiv
          omega
        by_cases c2 : n ≤ 31
        · rw [if_pos c2, Nat.or_comm (_ % _), shr_join n1 (by omega), hdiv, hsx, Nat.mod_eq_of_lt hR32, hfin]
        · rw [if_neg c2, hsx, Nat.shiftRight_eq_div_pow, ← hh, Nat.div_div_eq_div_mul, ← Nat.pow_add, Nat.add_sub_cancel' (by omega), hdiv, hfin]

theorem xor_sign {x : Nat} (hx : x < 2 ^ 32) : x ^^^ (x &&& 0x80000000) = x % 2 ^ 31 := by
  rw [← and_31]
  apply Nat.eq_of_testBit_eq
  intro i
  rw [Nat.testBit_xor, Nat.testBit_and, Nat.testBit_and, show (0x80000000 : Nat) = 2 ^ 31 from rfl, show (0x7fffffff : Nat) = 2 ^ 31 - 1 from rfl,
    Nat.testBit_two_pow, Nat.testBit_two_pow_sub_one]
  rcases Nat.lt_trichotomy i 31 with h | h | h
  · simp [h, show ¬ 31 = i from by omega]
  · subst h; simp
  · have : x.testBit i = false := Nat.testBit_lt_two_pow (Nat.lt_of_lt_of_le hx (Nat.pow_le_pow_right (by omega) (by omega)))
    simp [this]

theorem hi_xor {x : Nat} (h : x < 2 ^ 64) : hi x ^^^ (hi x &&& 0x80000000) = mag x / 2 ^ 32 := by
  rw [xor_sign (hi_lt x)]; unfold hi mag; omega

theorem sign_hi {x : Nat} (_h : x < 2 ^ 64) : hi x &&& 0x80000000 = sign x * 2 ^ 31 := by
  rw [and_sign (hi_lt x)]; congr 1; unfold hi sign; omega

theorem nan_or (y : Nat) : (mag y / 2 ^ 32) ||| (lo y ||| minus32 (lo y)) >>> 31 > 0x7ff00000 ↔ IsNaN y := by
  rw [sticky (lo_lt y), isNaN_mag]
  have hlm := lo_mag y
  unfold inf
  split
  · rw [Nat.or_zero]; omega
  · rw [or_one]; omega

theorem join_mag (x : Nat) : join (mag x / 2 ^ 32) (lo x) = mag x := by rw [lo_mag]; unfold join; omega

theorem insert_zero (s : Nat) : insert (s * 2 ^ 31) 0 = s * 2 ^ 63 + 0 := by unfold insert; omega

theorem log2_mul {a b U : Nat} (h0 : U ≠ 0) (h : U < 2 ^ a * 2 ^ b) : Nat.log2 U < a + b := by
  rw [Nat.log2_lt h0, Nat.pow_add]; exact h

theorem fmod_eq {x y : Nat} (h : x < 2 ^ 64) (h' : y < 2 ^ 64) (hf : IsFinite x) (hf' : IsFinite y) (h0 : mag y ≠ 0) :
    ∃ m, m < inf ∧ units m = units (mag x) % units (mag y) ∧ fmod x y = sign x * 2 ^ 63 + m := by
  have hfx := (finite_iff x).1 hf
  have hfy := (finite_iff y).1 hf'
  have hs := sign_lt x
  have jx := join_mag x
  have jy := join_mag y
  have hlx := lo_lt x
  have hly := lo_lt y
  have hx7 : mag x / 2 ^ 32 < 0x7ff00000 := by unfold inf at hfx; omega
  have hy7 : mag y / 2 ^ 32 < 0x7ff00000 := by unfold inf at hfy; omega
  have hnn : ¬ IsNaN y := by rw [isNaN_mag]; omega
  unfold fmod
  simp only
  rw [hi_xor h, hi_mag h', sign_hi h]
  rw [if_neg (by rw [ilog_zero]; rintro (hh | hh | hh); exacts [h0 hh, by omega, hnn ((nan_or y).1 hh)])]
  have hlmx := lo_mag x
  have hlmy := lo_mag y
  by_cases c1 : mag x < mag y
  · rw [if_pos (by omega)]
    exact ⟨mag x, hfx, (Nat.mod_eq_of_lt (units_lt.2 c1)).symm, self_eq h⟩
  · rw [if_neg (by omega)]
    by_cases c2 : mag x = mag y
    · rw [if_pos (by omega)]
      refine ⟨0, by decide, ?_, ?_⟩
      · rw [units_zero, c2, Nat.mod_self]
      · unfold insert
        generalize sign x = s
        omega
    · rw [if_neg (by omega)]
      have hgt : mag y < mag x := by omega
      have hx0 : mag x ≠ 0 := by omega
      have hux0 : units (mag x) ≠ 0 := fun hh => hx0 (units_eq_zero.1 hh)
      have huy0 : units (mag y) ≠ 0 := fun hh => h0 (units_eq_zero.1 hh)
      have ex := exp_eq hlx hx7 (by rw [show mag x / 2 ^ 32 * 2 ^ 32 + lo x = mag x from jx]; exact hx0)
      have ey := exp_eq hly hy7 (by rw [show mag y / 2 ^ 32 * 2 ^ 32 + lo y = mag y from jy]; exact h0)
      rw [show mag x / 2 ^ 32 * 2 ^ 32 + lo x = mag x from jx] at ex
      rw [show mag y / 2 ^ 32 * 2 ^ 32 + lo y = mag y from jy] at ey
      rw [ex, ey]
      obtain ⟨A, hA⟩ : ∃ A, A = Nat.log2 (units (mag x)) := ⟨_, rfl⟩
      obtain ⟨B, hB⟩ : ∃ B, B = Nat.log2 (units (mag y)) := ⟨_, rfl⟩
      have sx := fmodSig_join hlx hx7 (by rw [jx]; exact hx0) (L := A) (by rw [jx]; exact hA)
      have sy := fmodSig_join hly hy7 (by rw [jy]; exact h0) (L := B) (by rw [jy]; exact hB)
      rw [jx] at sx
      rw [jy] at sy
      rw [← hA, ← hB]
      generalize fmodSig (mag x / 2 ^ 32) (lo x) ((A : Int) - 1074) = px at *
      generalize fmodSig (mag y / 2 ^ 32) (lo y) ((B : Int) - 1074) = py at *
      obtain ⟨sx1, sx2⟩ := sx
      obtain ⟨sy1, sy2⟩ := sy
      have bound : ∀ U X L, U ≠ 0 → L = Nat.log2 U → U * 2 ^ 52 = X * 2 ^ L → 2 ^ 52 ≤ X ∧ X < 2 ^ 53 := by
        intro U X L hU hL he
        have h1 := Nat.log2_self_le hU
        have h2 : U < 2 ^ (Nat.log2 U + 1) := Nat.lt_log2_self
        rw [← hL] at h1 h2
        have hp := Nat.two_pow_pos L
        constructor
        · apply Nat.le_of_mul_le_mul_right (c := 2 ^ L) _ hp
          rw [← he, Nat.mul_comm]
          exact Nat.mul_le_mul_right _ h1
        · apply Nat.lt_of_mul_lt_mul_right (a := 2 ^ L)
          rw [← he]
          calc U * 2 ^ 52 < 2 ^ (L + 1) * 2 ^ 52 := Nat.mul_lt_mul_of_pos_right h2 (by decide)
            _ = 2 ^ 53 * 2 ^ L := by rw [← Nat.pow_add, ← Nat.pow_add]; congr 1; omega
      have bx := bound _ _ A hux0 hA sx2
      have bY := bound _ _ B huy0 hB sy2
      have hAB : B ≤ A := by
        rw [hA, hB]
        have h1 := Nat.log2_self_le huy0
        have h2 : units (mag x) < 2 ^ (Nat.log2 (units (mag x)) + 1) := Nat.lt_log2_self
        have h3 := units_lt.2 hgt
        have : 2 ^ Nat.log2 (units (mag y)) < 2 ^ (Nat.log2 (units (mag x)) + 1) := by omega
        have := (Nat.pow_lt_pow_iff_right (a := 2) (by omega)).1 this
        omega
      have hB2097 : B ≤ 2097 := by
        have : B < 2098 := by
          rw [hB]
          exact log2_mul (a := 54) (b := 2044) huy0 (Nat.lt_of_lt_of_eq (units_lt.2 hfy) units_inf)
        omega
      obtain ⟨n, hn⟩ : ∃ n, A = n + B := ⟨A - B, by omega⟩
      have hnt : ((A : Int) - 1074 - ((B : Int) - 1074)).toNat = n := by omega
      rw [hnt]
      -- the remainder, in units
      have hrem : (units (mag x) % units (mag y)) * 2 ^ 52 = (2 ^ n * join px.1 px.2 % join py.1 py.2) * 2 ^ B := by
        rw [← Nat.mul_mod_mul_right, ← Nat.mul_mod_mul_right, sx2, sy2, hn, Nat.pow_add]
        congr 1
        ring
      have hl := fmodLoop_spec sy1 n sx1 (show join px.1 px.2 < 2 * join py.1 py.2 by omega)
      cases hlp : fmodLoop n px.1 px.2 py.1 py.2 with
      | none =>
        rw [hlp] at hl
        simp only at hl ⊢
        rw [hl, Nat.zero_mul] at hrem
        refine ⟨0, by decide, ?_, ?_⟩
        · rw [units_zero]; omega
        · exact insert_zero _
      | some p =>
        rw [hlp] at hl
        obtain ⟨l1, l2, l3⟩ := hl
        simp only
        rw [← l3] at hrem
        have hz : ((p.1 : Int) - py.1 - (if p.2 < py.2 then 1 else 0) < 0) ↔ join p.1 p.2 < join py.1 py.2 := by unfold join; split <;> omega
        have hd : ((p.1 : Int) - py.1 - (if p.2 < py.2 then 1 else 0) ≥ 0) →
            join ((p.1 : Int) - py.1 - (if p.2 < py.2 then 1 else 0)).toNat ((p.2 + 2 ^ 32 - py.2) % 2 ^ 32) = join p.1 p.2 - join py.1 py.2 := by
          unfold join; split <;> omega
        by_cases hc : (p.1 : Int) - py.1 - (if p.2 < py.2 then 1 else 0) ≥ 0
        · rw [if_pos hc]
          have hj := hd hc
          have hge : join py.1 py.2 ≤ join p.1 p.2 := by
            by_contra hh; have := hz.2 (by omega); omega
          have hm : join p.1 p.2 % join py.1 py.2 = join p.1 p.2 - join py.1 py.2 := by
            rw [Nat.mod_eq_sub_mod hge, Nat.mod_eq_of_lt (by omega)]
          rw [hm, ← hj] at hrem
          exact fmodPack_spec hs (Nat.mod_lt _ (by decide)) (by omega) hB2097 hrem
        · rw [if_neg hc]
          have hlt := hz.1 (by omega)
          rw [Nat.mod_eq_of_lt hlt] at hrem
          exact fmodPack_spec hs l1 (by omega) hB2097 hrem

/-- `fmod(x, y)` is, without error, what remains of the magnitude of `x` after as many times the magnitude of `y` as it holds, with the sign
of `x`. -/
theorem C90_fmod {x y : Nat} (h : x < 2 ^ 64) (h' : y < 2 ^ 64) (hf : IsFinite x) (hf' : IsFinite y) (h0 : ¬ IsZero y) :
    fmod x y < 2 ^ 64 ∧ IsFinite (fmod x y) ∧ sign (fmod x y) = sign x ∧ |value (fmod x y)| < |value y|
    ∧ ∃ n : ℕ, |value x| = n * |value y| + |value (fmod x y)| := by
  have hy0 : mag y ≠ 0 := by have := mag_eq y; unfold IsZero at h0; omega
  have hp : (0 : ℚ) < 2 ^ 1074 := pow_pos (by norm_num) _
  obtain ⟨m, hm, hu, e⟩ := fmod_eq h h' hf hf' hy0
  have hi := inf_lt
  have hm63 : m < 2 ^ 63 := by omega
  have hs := sign_lt x
  have h64 := lt64 hs hm63
  have huy : 0 < units (mag y) := Nat.pos_of_ne_zero (fun hh => hy0 (units_eq_zero.1 hh))
  rw [e]
  refine ⟨h64, (finite_iff _).2 (by rw [mag_make hm63]; exact hm), sign_make hs hm63, ?_, ?_⟩
  · rw [abs_value' h64, abs_value' h', mag_make hm63, hu]
    exact div_lt_div_of_pos_right (Nat.cast_lt.2 (Nat.mod_lt _ huy)) hp
  · refine ⟨units (mag x) / units (mag y), ?_⟩
    rw [abs_value' h64, abs_value' h', abs_value' h, mag_make hm63, hu]
    have hdm := Nat.div_add_mod (units (mag x)) (units (mag y))
    have hq : (units (mag x) : ℚ) = ((units (mag x) / units (mag y) : ℕ) : ℚ) * (units (mag y) : ℚ) + ((units (mag x) % units (mag y) : ℕ) : ℚ) := by
      rw [← Nat.cast_mul, ← Nat.cast_add, Nat.mul_comm, hdm]
    generalize (2 : ℚ) ^ 1074 = K at *
    conv_lhs => rw [hq]
    ring

/-- An infinite divisor leaves the number as it is; an infinite number, a divisor zero, and arguments that are not numbers give what is not a
number. -/
theorem C90_fmod_special {x y : Nat} (h : x < 2 ^ 64) (h' : y < 2 ^ 64) :
    (IsFinite x → IsInf y → fmod x y = x) ∧ (¬ IsFinite x ∨ IsZero y ∨ IsNaN y → IsNaN (fmod x y)) := by
  have hmx := mag_eq x
  have hmy := mag_eq y
  have := frac_lt x
  have := frac_lt y
  have := expo_lt x
  have := expo_lt y
  constructor
  · intro hf hi
    have hm := (isInf_mag y).1 hi
    have hfx := (finite_iff x).1 hf
    have hnn : ¬ IsNaN y := by rw [isNaN_mag]; omega
    unfold fmod
    simp only
    rw [hi_xor h, hi_mag h']
    have hi0 : inf ≠ 0 := by decide
    rw [if_neg (by rw [ilog_zero]; rintro (hh | hh | hh); exacts [by omega, by unfold inf at *; omega, hnn ((nan_or y).1 hh)]),
      if_pos (by unfold inf at *; omega)]
  · intro hh
    have hn : IsNaN nan := by decide
    unfold fmod
    simp only
    rw [hi_xor h, hi_mag h', if_pos]
    · exact hn
    · rw [ilog_zero]
      rcases hh with hh | hh | hh
      · right; left; unfold IsFinite at hh; omega
      · left; rw [hmy, hh.1, hh.2]; rfl
      · right; right; exact (nan_or y).2 hh

/-- `fmod(-7.5, 2.0)` is -1.5; `fmod(1e300, 7.0)` is 1: these meet the hypotheses. -/
example : fmod 0xc01e000000000000 0x4000000000000000 = 0xbff8000000000000 ∧ IsFinite 0xc01e000000000000 ∧ ¬ IsZero 0x4000000000000000
    ∧ fmod 0x7e37e43c8800759c 0x401c000000000000 = 0x3ff0000000000000 := by decide +kernel

end Pok.Libm
