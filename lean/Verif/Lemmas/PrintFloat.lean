import Verif.Lemmas.Printf
import Verif.Lemmas.Round
import Mathlib.Algebra.Order.Floor.Semifield
/-!
# The digits that `%f` prints
-/
namespace Pok.Printf
open Pok.PrintfSpec Pok.Float Pok.Fpu

theorem rne_mul (a s : Nat) : rne (a * 2 ^ s) s = a := by
  unfold rne
  rw [Nat.mul_mod_left, Nat.mul_div_cancel _ (Nat.two_pow_pos s), if_pos (Or.inl (by have := Nat.two_pow_pos s; omega))]

/-- What fits in `p` bits is kept. -/
theorem keep_exact {p j e : Nat} (hj : j < 2 ^ p) : keep p (j * 2 ^ e) = j * 2 ^ e := by
  unfold keep
  rcases Nat.eq_zero_or_pos j with h | h
  · subst h
    rw [Nat.zero_mul]
    have : rne 0 (Nat.log2 0 + 1 - p) = 0 := by
      have := rne_mul 0 (Nat.log2 0 + 1 - p)
      rwa [Nat.zero_mul] at this
    rw [this, Nat.zero_mul]
  · have n0 : j * 2 ^ e ≠ 0 := (Nat.mul_pos h (Nat.two_pow_pos e)).ne'
    have lt : Nat.log2 (j * 2 ^ e) < p + e := by
      rw [Nat.log2_lt n0, Nat.pow_add]
      exact Nat.mul_lt_mul_of_pos_right hj (Nat.two_pow_pos e)
    generalize hs : Nat.log2 (j * 2 ^ e) + 1 - p = s
    have hse : s ≤ e := by omega
    have : j * 2 ^ e = (j * 2 ^ (e - s)) * 2 ^ s := by rw [Nat.mul_assoc, ← Nat.pow_add, Nat.sub_add_cancel hse]
    rw [this, rne_mul]

/-- Rounding does not pass a multiple of `2^1074` that is not nearest. -/
theorem keep_div {p n D : Nat} (hD : D = 2 ^ 1074) (h : n < 2 ^ (1074 + p)) : keep p n / D = n / D ∨ keep p n / D = n / D + 1 := by
  have dp : 0 < D := by rw [hD]; exact Nat.two_pow_pos _
  unfold keep
  generalize hs : Nat.log2 n + 1 - p = s
  have hse : s ≤ 1074 := by
    rcases Nat.eq_zero_or_pos n with h0 | h0
    · subst h0; simp at hs; omega
    · have := (Nat.log2_lt h0.ne').2 h; omega
  have ed : D = 2 ^ (1074 - s) * 2 ^ s := by rw [← Nat.pow_add, Nat.sub_add_cancel hse, hD]
  have lo : n / D * D ≤ rne n s * 2 ^ s := by
    have : n / D * 2 ^ (1074 - s) * 2 ^ s ≤ n := by
      rw [Nat.mul_assoc, ← ed]; exact Nat.div_mul_le_self n D
    have := rne_ge this
    calc n / D * D = n / D * 2 ^ (1074 - s) * 2 ^ s := by rw [Nat.mul_assoc, ← ed]
      _ ≤ _ := Nat.mul_le_mul_right _ this
  have hi : rne n s * 2 ^ s ≤ (n / D + 1) * D := by
    have : n < (n / D + 1) * 2 ^ (1074 - s) * 2 ^ s := by
      rw [Nat.mul_assoc, ← ed]
      have := Nat.lt_div_mul_add (a := n) dp
      rw [Nat.add_mul, Nat.one_mul]; exact this
    have := rne_le this
    calc rne n s * 2 ^ s ≤ (n / D + 1) * 2 ^ (1074 - s) * 2 ^ s := Nat.mul_le_mul_right _ this
      _ = _ := by rw [Nat.mul_assoc, ← ed]
  have l : n / D ≤ rne n s * 2 ^ s / D := (Nat.le_div_iff_mul_le dp).2 lo
  have u : rne n s * 2 ^ s / D ≤ n / D + 1 := by
    calc _ ≤ (n / D + 1) * D / D := Nat.div_le_div_right hi
      _ = _ := Nat.mul_div_cancel _ dp
  omega

theorem inBase_digit {d : Nat} (h : d < 10) : inBase 10 d = [48 + d] := by
  interval_cases d <;> rfl

theorem pow_cast (D : Nat) (hD : D = 2 ^ 1074) : (2 : Int) ^ 1074 = (D : Int) := by
  rw [hD]; push_cast; rfl

theorem keepI_nat (p n : Nat) : keepI p (n : Int) = (keep p n : Int) := by
  unfold keepI
  rw [if_neg (by omega)]; rfl

/-- The digits after the point. -/
theorem floatLoop_spec {p F D : Nat} (hD : D = 2 ^ 1074) (hF : F < D) (hp : 53 ≤ p) :
    ∀ (k i : Nat), i + k ≤ 7 → ∀ {f : File}, f.Good → ∀ n,
    ∃ g m, floatLoop p (F : Int) k (10 ^ i) f n = some (g, n + m) ∧ g.Good ∧
      g.content = f.content ++ (List.range k).map (fun j => 48 + keep p (F * 10 ^ (i + j)) / D % 10) ∧
      m + (List.range k).countP (fun j => decide (keep p (F * 10 ^ (i + j)) / D % 10 ≠ 0)) = k := by
  intro k
  induction k with
  | zero => intro i _ f hf n; exact ⟨f, 0, rfl, hf, by simp, rfl⟩
  | succ k ih =>
    intro i hi f hf n
    have dp : 0 < D := by rw [hD]; exact Nat.two_pow_pos _
    have hn : F * 10 ^ i < 2 ^ (1074 + p) := by
      have a : (10 : Nat) ^ i ≤ 10 ^ 6 := Nat.pow_le_pow_right (by omega) (by omega)
      have b : (10 : Nat) ^ 6 ≤ 2 ^ p := le_trans (by norm_num) (Nat.pow_le_pow_right (n := 2) (by omega) hp)
      rw [Nat.pow_add, ← hD]
      calc F * 10 ^ i < D * 10 ^ i := Nat.mul_lt_mul_of_pos_right hF (by positivity)
        _ ≤ D * 2 ^ p := Nat.mul_le_mul_left _ (le_trans a b)
    have hq : keep p (F * 10 ^ i) / D ≤ 10 ^ 6 := by
      have a : F * 10 ^ i / D < 10 ^ i := (Nat.div_lt_iff_lt_mul dp).2 (by rw [Nat.mul_comm]; exact Nat.mul_lt_mul_of_pos_left hF (by positivity))
      have b : (10 : Nat) ^ i ≤ 10 ^ 6 := Nat.pow_le_pow_right (by omega) (by omega)
      have := keep_div hD hn
      omega
    have hdiv : Int.tdiv (keepI p ((F : Int) * ((10 ^ i : Nat) : Int))) (2 ^ 1074) = ((keep p (F * 10 ^ i) / D : Nat) : Int) := by
      rw [← Int.natCast_mul, keepI_nat, pow_cast D hD, Int.ofNat_tdiv]
    generalize hQ : keep p (F * 10 ^ i) / D = Q at hq hdiv
    obtain ⟨g1, k1, h1, h2, h3, h4⟩ := printnbr_spec (b := 10) (n := Q % 10) (by omega) (by omega) (by omega) hf
    obtain ⟨g, m, i1, i2, i3, i4⟩ := ih (i + 1) (by omega) h2 (n + k1)
    refine ⟨g, k1 + m, ?_, i2, ?_, ?_⟩
    · rw [floatLoop]
      simp only [hdiv]
      rw [if_neg (by omega), Int.toNat_natCast, h1, Option.bind_some]
      rw [← Nat.pow_succ, i1, Nat.add_assoc]
    · rw [i3, h3, inBase_digit (Nat.mod_lt _ (by omega)), List.range_succ_eq_map, List.map_cons, List.map_map, show i + 0 = i from rfl, hQ, List.append_assoc]
      congr 1
      rw [List.singleton_append]
      congr 1
      apply List.map_congr_left
      intro j _
      simp only [Function.comp, Nat.succ_eq_add_one]
      rw [show i + 1 + j = i + (j + 1) by omega]
    · rw [List.range_succ_eq_map, List.countP_cons, List.countP_map, show i + 0 = i from rfl, hQ]
      rw [inBase_digit (Nat.mod_lt _ (by omega))] at h4
      have e : List.countP ((fun j => decide (keep p (F * 10 ^ (i + j)) / D % 10 ≠ 0)) ∘ Nat.succ) (List.range k) =
          List.countP (fun j => decide (keep p (F * 10 ^ (i + 1 + j)) / D % 10 ≠ 0)) (List.range k) := by
        apply List.countP_congr
        intro j _
        simp only [Function.comp, Nat.succ_eq_add_one, show i + 1 + j = i + (j + 1) by omega]
      rw [e]
      simp only [List.length_singleton] at h4
      generalize List.countP (fun j => decide (keep p (F * 10 ^ (i + 1 + j)) / D % 10 ≠ 0)) (List.range k) = c at i4 ⊢
      by_cases z : Q % 10 = 0 <;> simp [z] at h4 ⊢ <;> omega

/-- The fraction of a double has at most 53 bits. -/
theorem frac_bits {m D : Nat} (hD : D = 2 ^ 1074) : ∃ j e, units m % D = j * 2 ^ e ∧ j < 2 ^ 53 := by
  unfold units
  split
  · next h =>
    have hm : m < 2 ^ 53 := by omega
    refine ⟨m, 0, ?_, hm⟩
    rw [Nat.pow_zero, Nat.mul_one]
    apply Nat.mod_eq_of_lt
    rw [hD]
    exact Nat.lt_of_lt_of_le hm (Nat.pow_le_pow_right (by omega) (by omega))
  · next h =>
    generalize ha : m / 2 ^ 52 - 1 = a
    have hM : 2 ^ 52 + m % 2 ^ 52 < 2 ^ 53 := by omega
    generalize 2 ^ 52 + m % 2 ^ 52 = M at hM
    rcases Nat.lt_or_ge a 1074 with g | g
    · refine ⟨M % 2 ^ (1074 - a), a, ?_, Nat.lt_of_le_of_lt (Nat.mod_le _ _) hM⟩
      have : D = 2 ^ (1074 - a) * 2 ^ a := by rw [← Nat.pow_add, Nat.sub_add_cancel (by omega), hD]
      rw [this, Nat.mul_mod_mul_right]
    · refine ⟨0, 0, ?_, by omega⟩
      rw [Nat.zero_mul]
      apply Nat.mod_eq_zero_of_dvd
      rw [hD]
      exact Dvd.dvd.mul_left (Nat.pow_dvd_pow 2 g) M

/-- `%f` of a double between 0 and `2^31`. -/
theorem printFloat_spec {p x D : Nat} (hD : D = 2 ^ 1074) (hp : 53 ≤ p) (hx : x < 2 ^ 64) (hf : IsFinite x) (h0 : 0 ≤ value x) (h1 : value x < 2 ^ 31)
    {f : File} (hg : f.Good) :
    ∃ U : Nat, value x = (U : ℚ) / D ∧ (∃ j e, U % D = j * 2 ^ e ∧ j < 2 ^ 53) ∧
      ∃ g m, printFloat p x f = some (g, m) ∧ g.Good ∧
        g.content = f.content ++ (inBase 10 (U / D) ++ chars "." ++ (List.range 6).map (fun j => 48 + keep p (U % D * 10 ^ (j + 1)) / D % 10)) ∧
        m + (if U / D = 0 then 0 else 1) + 1 + (List.range 6).countP (fun j => decide (keep p (U % D * 10 ^ (j + 1)) / D % 10 ≠ 0)) =
          (inBase 10 (U / D)).length + 7 := by
  have dp : 0 < D := by rw [hD]; exact Nat.two_pow_pos _
  have dq : (0 : ℚ) < (D : ℚ) := by exact_mod_cast dp
  have dc : (2 : ℚ) ^ 1074 = (D : ℚ) := by rw [hD]; push_cast; rfl
  have su : sunits x = (units (mag x) : Int) := by
    have v := value_units x
    rw [sunits_eq hx] at v ⊢
    split
    · next c =>
      rw [if_pos c, dc] at v
      rw [v] at h0
      have : units (mag x) = 0 := by
        by_contra hne
        have : (0 : ℚ) < ((units (mag x) : ℕ) : ℚ) / D := div_pos (by exact_mod_cast Nat.pos_of_ne_zero hne) dq
        push_cast at h0
        rw [neg_div] at h0
        linarith
      rw [this]; rfl
    · rfl
  have hv : value x = (units (mag x) : ℚ) / D := by
    rw [value_units x, su, dc, Int.cast_natCast]
  have hb := frac_bits (m := mag x) hD
  generalize units (mag x) = U at su hv hb
  refine ⟨U, hv, hb, ?_⟩
  have hI : U / D < 2 ^ 31 := by
    rw [hv, div_lt_iff₀ dq] at h1
    rw [Nat.div_lt_iff_lt_mul dp]
    exact_mod_cast h1
  have fl : Int.tdiv (sunits x) (2 ^ 1074) = ((U / D : Nat) : Int) := by
    rw [su, pow_cast D hD, Int.ofNat_tdiv]
  have df : sunits x - ((U / D : Nat) : Int) * 2 ^ 1074 = ((U % D : Nat) : Int) := by
    rw [su, pow_cast D hD, ← Int.natCast_mul]
    have := Nat.div_add_mod U D
    rw [Nat.mul_comm] at this
    generalize U / D * D = a at *
    omega
  have hn : isNaN x = false ∧ isInf x = false := by
    have := (finite_iff x).1 hf
    unfold isNaN isInf
    simp; omega
  obtain ⟨j, e, hj, hj'⟩ := hb
  have kf : keep p (U % D) = U % D := by
    rw [hj]
    exact keep_exact (Nat.lt_of_lt_of_le hj' (Nat.pow_le_pow_right (by omega) hp))
  obtain ⟨g1, k1, a1, a2, a3, a4⟩ := printnbr_spec (b := 10) (n := U / D) (by omega) (by omega) (by omega) hg
  obtain ⟨b1, b2⟩ := putc_spec a2 46
  obtain ⟨g, m, c1, c2, c3, c4⟩ := floatLoop_spec (p := p) hD (Nat.mod_lt U dp) hp 6 1 (by omega) b1 k1
  have tn : (((U / D : Nat) : Int) % 2 ^ 64).toNat = U / D := by
    generalize U / D = I at hI
    omega
  refine ⟨g, k1 + m, ?_, c2, ?_, ?_⟩
  · unfold printFloat
    rw [hn.1, hn.2]
    simp only [Bool.or_self, Bool.false_eq_true, if_false, fl, df]
    rw [if_neg (by omega), tn, a1, Option.bind_some, keepI_nat, kf]
    exact c1
  · rw [c3, b2, a3]
    simp only [List.append_assoc, Nat.add_comm 1]
    rfl
  · have e : ∀ j, 1 + j = j + 1 := fun j => Nat.add_comm 1 j
    simp only [e] at c4
    omega

/-- The places of a number after the point depend on its fraction only. -/
theorem place_frac {U D i : Nat} (dp : 0 < D) (hi : 1 ≤ i) : place ((U : ℚ) / D) i = U % D * 10 ^ i / D % 10 := by
  unfold place
  have : (U : ℚ) / D * 10 ^ i = ((U * 10 ^ i : Nat) : ℚ) / (D : ℚ) := by push_cast; ring
  rw [this, Nat.floor_div_eq_div]
  have e : U * 10 ^ i = U % D * 10 ^ i + D * (U / D * 10 ^ (i - 1) * 10) := by
    have h := Nat.mod_add_div U D
    have t : (10 : Nat) ^ i = 10 ^ (i - 1) * 10 := by rw [← Nat.pow_succ, Nat.succ_eq_add_one, Nat.sub_add_cancel hi]
    calc U * 10 ^ i = (U % D + D * (U / D)) * 10 ^ i := by rw [h]
      _ = U % D * 10 ^ i + D * (U / D * 10 ^ i) := by ring
      _ = _ := by rw [t]; ring
  rw [e, Nat.add_mul_div_left _ _ dp, Nat.add_mul_mod_self_right]

theorem whole_part {U D : Nat} : ⌊(U : ℚ) / D⌋₊ = U / D := Nat.floor_div_eq_div U D

/-- `%f` of a double with few binary places. -/
theorem printFloat_exact {p x : Nat} (hp : 53 ≤ p) (hx : x < 2 ^ 64) (hf : IsFinite x) (h0 : 0 ≤ value x) (h1 : value x < 2 ^ 31)
    (hk : ∃ k : ℤ, value x * 2 ^ (p - 20) = k) {f : File} (hg : f.Good) :
    ∃ g m, printFloat p x f = some (g, m) ∧ g.Good ∧ g.content = f.content ++ fixed (value x) ∧ m + Item.lost (.float x) = (fixed (value x)).length := by
  obtain ⟨D, hD⟩ : ∃ D : Nat, D = 2 ^ 1074 := ⟨_, rfl⟩
  have dp : 0 < D := by rw [hD]; exact Nat.two_pow_pos _
  have dq : (0 : ℚ) < (D : ℚ) := by exact_mod_cast dp
  obtain ⟨U, hv, hb, g, m, e1, e2, e3, e4⟩ := printFloat_spec hD hp hx hf h0 h1 hg
  have key : ∀ i, 1 ≤ i → i ≤ 6 → keep p (U % D * 10 ^ i) / D % 10 = place (value x) i := by
    intro i hi hi6
    rw [hv, place_frac dp hi]
    congr 2
    -- the fraction in units of `2^(20 - p)`
    rcases Nat.lt_or_ge (p - 20) 1074 with hlt | hge
    · obtain ⟨k, hk⟩ := hk
      have hd : D = 2 ^ (1074 - (p - 20)) * 2 ^ (p - 20) := by rw [← Nat.pow_add, Nat.sub_add_cancel (by omega), hD]
      generalize hE : 2 ^ (1074 - (p - 20)) = E at hd
      generalize hP : 2 ^ (p - 20) = P at hd
      have hP0 : 0 < P := by rw [← hP]; exact Nat.two_pow_pos _
      have hE0 : 0 < E := by rw [← hE]; exact Nat.two_pow_pos _
      have hkU : (U : ℤ) = k * E := by
        have pc : (2 : ℚ) ^ (p - 20) = (P : ℚ) := by rw [← hP]; push_cast; rfl
        rw [hv, pc, hd] at hk
        push_cast at hk
        have hPq : (P : ℚ) ≠ 0 := by exact_mod_cast hP0.ne'
        have hEq : (E : ℚ) ≠ 0 := by exact_mod_cast hE0.ne'
        field_simp at hk
        have : ((U : ℤ) : ℚ) = ((k * E : ℤ) : ℚ) := by push_cast; linarith
        exact_mod_cast this
      have dv : E ∣ U := by
        have : (E : ℤ) ∣ (U : ℤ) := ⟨k, by rw [hkU]; ring⟩
        exact_mod_cast this
      obtain ⟨w, rfl⟩ := dv
      have md : E * w % D = w % P * E := by
        rw [hd, Nat.mul_mod_mul_left, Nat.mul_comm]
      have r : E * w % D * 10 ^ i = (w % P * 10 ^ i) * 2 ^ (1074 - (p - 20)) := by rw [md, hE]; ring
      rw [r]
      apply keep_exact
      have a : (10 : Nat) ^ i ≤ 10 ^ 6 := Nat.pow_le_pow_right (by omega) hi6
      have b : (10 : Nat) ^ 6 < 2 ^ 20 := by norm_num
      have c : 2 ^ p = P * 2 ^ 20 := by rw [← hP, ← Nat.pow_add, Nat.sub_add_cancel (by omega)]
      rw [c]
      have := Nat.mod_lt w hP0
      calc w % P * 10 ^ i ≤ w % P * 10 ^ 6 := Nat.mul_le_mul_left _ a
        _ ≤ P * 10 ^ 6 := Nat.mul_le_mul_right _ this.le
        _ < P * 2 ^ 20 := Nat.mul_lt_mul_of_pos_left b hP0
    · have l := Nat.mod_lt U dp
      have : U % D * 10 ^ i = (U % D * 10 ^ i) * 2 ^ 0 := by rw [Nat.pow_zero, Nat.mul_one]
      rw [this]
      apply keep_exact
      have a : (10 : Nat) ^ i ≤ 10 ^ 6 := Nat.pow_le_pow_right (by omega) hi6
      have b : (10 : Nat) ^ 6 < 2 ^ 20 := by norm_num
      calc U % D * 10 ^ i ≤ U % D * 10 ^ 6 := Nat.mul_le_mul_left _ a
        _ ≤ D * 10 ^ 6 := Nat.mul_le_mul_right _ l.le
        _ < D * 2 ^ 20 := Nat.mul_lt_mul_of_pos_left b dp
        _ = 2 ^ (1074 + 20) := by rw [Nat.pow_add, hD]
        _ ≤ 2 ^ p := Nat.pow_le_pow_right (by omega) (by omega)
  have km : ∀ j ∈ List.range 6, keep p (U % D * 10 ^ (j + 1)) / D % 10 = place (value x) (j + 1) := by
    intro j hj
    have := List.mem_range.1 hj
    exact key _ (by omega) (by omega)
  have fw : ⌊value x⌋₊ = U / D := by rw [hv]; exact whole_part
  refine ⟨g, m, e1, e2, ?_, ?_⟩
  · rw [e3, fixed, fw]
    congr 2
    exact List.map_congr_left fun j hj => by rw [km j hj]
  · have : (List.range 6).countP (fun j => decide (keep p (U % D * 10 ^ (j + 1)) / D % 10 ≠ 0)) =
        (List.range 6).countP (fun i => decide (place (value x) (i + 1) ≠ 0)) :=
      List.countP_congr fun j hj => by rw [km j hj]
    rw [this] at e4
    unfold Item.lost fixed
    simp only [fw]
    simp only [List.length_append, List.length_map, List.length_range]
    have : (chars ".").length = 1 := rfl
    omega

end Pok.Printf
