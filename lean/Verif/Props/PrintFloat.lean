import Verif.Props.Printf
/-!
# C123: doubles in formatted output

libpok/libc/stdio/printf.c `print_float`.  `p` is the number of bits that the processor keeps of a product: 53 (doubles) or 64 (x87).
-/
namespace Pok.Printf
open Pok.PrintfSpec Pok.Float Pok.Fpu

/-- With `p = 53`, what is kept of a product is what the arithmetic of doubles (Model/Fpu.lean) gives. -/
theorem keep_double {n : Nat} (h : roundMag n 0 < inf) : keep 53 n = units (roundMag n 0) := by
  have e : roundMag n 0 = (Nat.log2 n - 52) * 2 ^ 52 + rne n (Nat.log2 n - 52) := by
    unfold roundMag at h ⊢
    rw [Nat.pow_zero, Nat.div_one, Nat.zero_add] at h ⊢
    have : inf = 2047 * 2 ^ 52 := rfl
    omega
  rw [e]
  unfold keep
  rw [show Nat.log2 n + 1 - 53 = Nat.log2 n - 52 by omega]
  rcases Nat.lt_or_ge n (2 ^ 53) with g | g
  · have l : Nat.log2 n - 52 = 0 := by
      rcases Nat.eq_zero_or_pos n with z | z
      · subst z; rfl
      · have := (Nat.log2_lt z.ne').2 g; omega
    have r := rne_mul n 0
    rw [Nat.pow_zero, Nat.mul_one] at r
    rw [l, r, Nat.pow_zero, Nat.mul_one, Nat.zero_mul, Nat.zero_add]
    rcases Nat.lt_or_ge n (2 ^ 52) with c | c
    · exact (units_small c).symm
    · have := units_make (a := 1) (f := n - 2 ^ 52) (by omega) (by omega)
      rw [show 1 * 2 ^ 52 + (n - 2 ^ 52) = n by omega, show 2 ^ 52 + (n - 2 ^ 52) = n by omega, Nat.sub_self, Nat.pow_zero, Nat.mul_one] at this
      exact this.symm
  · have n0 : n ≠ 0 := by omega
    have l1 : 53 ≤ Nat.log2 n := (Nat.le_log2 n0).2 g
    have l2 := Nat.log2_self_le n0
    have l3 := (Nat.log2_lt n0 (k := Nat.log2 n + 1)).1 (by omega)
    generalize hE : Nat.log2 n - 52 = E
    have r1 : 2 ^ 52 ≤ rne n E := by
      apply rne_ge
      rw [← Nat.pow_add, show 52 + E = Nat.log2 n by omega]; exact l2
    have r2 : rne n E ≤ 2 ^ 53 := by
      apply rne_le
      rw [← Nat.pow_add, show 53 + E = Nat.log2 n + 1 by omega]; exact l3
    generalize rne n E = r at r1 r2
    have := units_make (a := E + 1) (f := r - 2 ^ 52) (by omega) (by omega)
    rw [show (E + 1) * 2 ^ 52 + (r - 2 ^ 52) = E * 2 ^ 52 + r by omega, show 2 ^ 52 + (r - 2 ^ 52) = r by omega, Nat.add_sub_cancel] at this
    exact this.symm

theorem empty_good : (⟨[], []⟩ : File).Good := ⟨by simp, by simp⟩

/-- `printf("%f", x)`. -/
theorem printf_f {p x : Nat} (hx : x < 2 ^ 64) (a : Bool) (str : Nat → Option (List Nat)) :
    printf (some p) a str (chars "%f") (words 64 x) = (printFloat p x ⟨[], []⟩).map fun (r : File × Nat) => (r.1.blocks ++ [r.1.buf], r.2) := by
  have ew : x % 2 ^ 32 % 2 ^ 32 + 2 ^ 32 * (x / 2 ^ 32 % 2 ^ 32 % 2 ^ 32) = x := by omega
  have e : printf (some p) a str (chars "%f") (words 64 x) =
      ((match (printFloat p (x % 2 ^ 32 % 2 ^ 32 + 2 ^ 32 * (x / 2 ^ 32 % 2 ^ 32 % 2 ^ 32)) ⟨[], []⟩).map fun (r : File × Nat) => some (r.1, r.2, ([] : List Nat)) with
        | none => none
        | some none => if a then none else loop (some p) a str 1 [] (words 64 x) ((⟨[], []⟩ : File).putc 102) 1
        | some (some (f, k, args)) => loop (some p) a str 1 [] args f (0 + k)).map fun (r : File × Nat) => (r.1.flush.blocks, r.2)) := rfl
  rw [e, ew]
  cases printFloat p x ⟨[], []⟩ with
  | none => rfl
  | some r =>
    show some (_, 0 + r.2) = some (_, r.2)
    rw [Nat.zero_add]; rfl

theorem content_blocks (g : File) : (g.blocks ++ [g.buf]).flatten = g.content := by simp [File.content]

/-- **C123**: a double between 0 and `2^31` with at most `p - 20` binary places (33 in double arithmetic) is printed in decimal, cut off after six
places.  Missing: negative, large and other doubles (below). -/
theorem C123_partial {p x : Nat} (hp : 53 ≤ p) (hx : x < 2 ^ 64) (hf : IsFinite x) (h0 : 0 ≤ value x) (h1 : value x < 2 ^ 31)
    (hk : ∃ k : ℤ, value x * 2 ^ (p - 20) = k) (a : Bool) (str : Nat → Option (List Nat)) :
    ∃ blocks n, printf (some p) a str (chars "%f") (words 64 x) = some (blocks, n) ∧ blocks.flatten = fixed (value x) := by
  obtain ⟨g, m, e1, e2, e3, _⟩ := printFloat_exact hp hx hf h0 h1 hk empty_good
  refine ⟨g.blocks ++ [g.buf], m, by rw [printf_f hx, e1]; rfl, ?_⟩
  rw [content_blocks, e3]; rfl

/-- What is printed of any double between 0 and `2^31`. -/
theorem printed {p x : Nat} (hp : 53 ≤ p) (hx : x < 2 ^ 64) (hf : IsFinite x) (h0 : 0 ≤ value x) (h1 : value x < 2 ^ 31) (a : Bool)
    (str : Nat → Option (List Nat)) :
    ∃ (U D : Nat) (blocks : List (List Nat)) (n : Nat), D = 2 ^ 1074 ∧ value x = (U : ℚ) / D ∧ (∃ j e, U % D = j * 2 ^ e ∧ j < 2 ^ 53) ∧
      printf (some p) a str (chars "%f") (words 64 x) = some (blocks, n) ∧
      blocks.flatten = inBase 10 ⌊value x⌋₊ ++ chars "." ++ (List.range 6).map (fun j => 48 + keep p (U % D * 10 ^ (j + 1)) / D % 10) ∧
      n + 1 ≤ blocks.flatten.length := by
  obtain ⟨D, hD⟩ : ∃ D : Nat, D = 2 ^ 1074 := ⟨_, rfl⟩
  obtain ⟨U, hv, hb, g, m, e1, e2, e3, e4⟩ := printFloat_spec hD hp hx hf h0 h1 empty_good
  have c : (g.blocks ++ [g.buf]).flatten =
      inBase 10 ⌊value x⌋₊ ++ chars "." ++ (List.range 6).map (fun j => 48 + keep p (U % D * 10 ^ (j + 1)) / D % 10) := by
    rw [content_blocks, e3, hv, whole_part]; rfl
  refine ⟨U, D, g.blocks ++ [g.buf], m, hD, hv, hb, by rw [printf_f hx, e1]; rfl, c, ?_⟩
  rw [c, hv, whole_part]
  have : (chars ".").length = 1 := rfl
  simp only [List.length_append, List.length_map, List.length_range]
  omega

/-- **C123**: every double between 0 and `2^31` is printed with its exact integer part, a point and six digits, each of which is the true one or
the one that follows it.  Missing: the digits need not be the true ones (`C123_digits_violated`). -/
theorem C123_near_partial {p x : Nat} (hp : 53 ≤ p) (hx : x < 2 ^ 64) (hf : IsFinite x) (h0 : 0 ≤ value x) (h1 : value x < 2 ^ 31) (a : Bool)
    (str : Nat → Option (List Nat)) :
    ∃ blocks n ds, printf (some p) a str (chars "%f") (words 64 x) = some (blocks, n) ∧ blocks.flatten = inBase 10 ⌊value x⌋₊ ++ chars "." ++ ds ∧
      ds.length = 6 ∧ ∀ i < 6, ds[i]? = some (48 + place (value x) (i + 1)) ∨ ds[i]? = some (48 + (place (value x) (i + 1) + 1) % 10) := by
  obtain ⟨U, D, blocks, n, hD, hv, _, hr, hc, _⟩ := printed hp hx hf h0 h1 a str
  have dp : 0 < D := by rw [hD]; exact Nat.two_pow_pos _
  refine ⟨blocks, n, _, hr, hc, by simp, ?_⟩
  intro i hi
  rw [List.getElem?_map, List.getElem?_range hi, hv, place_frac dp (by omega)]
  simp only [Option.map_some, Option.some.injEq]
  have hn : U % D * 10 ^ (i + 1) < 2 ^ (1074 + p) := by
    have a : (10 : Nat) ^ (i + 1) ≤ 10 ^ 6 := Nat.pow_le_pow_right (by omega) (by omega)
    have b : (10 : Nat) ^ 6 ≤ 2 ^ p := le_trans (by norm_num) (Nat.pow_le_pow_right (n := 2) (by omega) hp)
    rw [Nat.pow_add 2 1074 p, ← hD]
    calc U % D * 10 ^ (i + 1) < D * 10 ^ (i + 1) := Nat.mul_lt_mul_of_pos_right (Nat.mod_lt U dp) (by positivity)
      _ ≤ D * 2 ^ p := Nat.mul_le_mul_left _ (le_trans a b)
  have := keep_div hD hn
  omega

/-- **C123**: on a processor that keeps 64 bits, the integer part and the first four digits are right for every double between 0 and `2^31`; what
is printed is less than a ten-thousandth away from the number. -/
theorem C123_extended_partial {p x : Nat} (hp : 64 ≤ p) (hx : x < 2 ^ 64) (hf : IsFinite x) (h0 : 0 ≤ value x) (h1 : value x < 2 ^ 31) (a : Bool)
    (str : Nat → Option (List Nat)) :
    ∃ blocks n ds, printf (some p) a str (chars "%f") (words 64 x) = some (blocks, n) ∧ blocks.flatten = inBase 10 ⌊value x⌋₊ ++ chars "." ++ ds ∧
      ds.length = 6 ∧ ∀ i < 4, ds[i]? = some (48 + place (value x) (i + 1)) := by
  obtain ⟨U, D, blocks, n, hD, hv, ⟨j, e, hj, hj'⟩, hr, hc, _⟩ := printed (p := p) (by omega) hx hf h0 h1 a str
  have dp : 0 < D := by rw [hD]; exact Nat.two_pow_pos _
  refine ⟨blocks, n, _, hr, hc, by simp, ?_⟩
  intro i hi
  rw [List.getElem?_map, List.getElem?_range (by omega), hv, place_frac dp (by omega)]
  simp only [Option.map_some, Option.some.injEq]
  have t : U % D * 10 ^ (i + 1) = (j * 5 ^ (i + 1)) * 2 ^ (e + (i + 1)) := by
    rw [hj, show (10 : Nat) = 5 * 2 by norm_num, Nat.mul_pow, Nat.pow_add]; ring
  rw [t, keep_exact]
  have a : (5 : Nat) ^ (i + 1) ≤ 5 ^ 4 := Nat.pow_le_pow_right (by omega) (by omega)
  calc j * 5 ^ (i + 1) ≤ j * 5 ^ 4 := Nat.mul_le_mul_left _ a
    _ < 2 ^ 64 := by omega
    _ ≤ 2 ^ p := Nat.pow_le_pow_right (by omega) hp

/-- **C123** violated: the digits are computed one by one, each with its own rounding, so that what is printed can be far from the number:
`printf("%f", 0.009)` prints `0.009090` with double arithmetic, and `printf("%f", 0.70121)` prints `0.701219` on an x87. -/
theorem C123_digits_violated :
    (value 0x3f826e978d4fdf3b < 0.0090001 ∧
      printf (some 53) true (fun _ => none) (chars "%f") (words 64 0x3f826e978d4fdf3b) = some ([chars "0.009090"], 5)) ∧
    (value 0x3fe6704ff43419e3 < 0.7012101 ∧
      printf (some 64) true (fun _ => none) (chars "%f") (words 64 0x3fe6704ff43419e3) = some ([chars "0.701219"], 2)) := by
  refine ⟨⟨?_, by decide +kernel⟩, ?_, by decide +kernel⟩
  · unfold value sign expo frac; norm_num
  · unfold value sign expo frac; norm_num

/-- **C123** violated: the number returned is never the number of characters printed, which is larger. -/
theorem C123_count_violated {p x : Nat} (hp : 53 ≤ p) (hx : x < 2 ^ 64) (hf : IsFinite x) (h0 : 0 ≤ value x) (h1 : value x < 2 ^ 31) (a : Bool)
    (str : Nat → Option (List Nat)) :
    ∃ blocks n, printf (some p) a str (chars "%f") (words 64 x) = some (blocks, n) ∧ n < blocks.flatten.length := by
  obtain ⟨U, D, blocks, n, _, _, _, hr, _, hl⟩ := printed hp hx hf h0 h1 a str
  exact ⟨blocks, n, hr, hl⟩

/-! ### Negative and large numbers -/

theorem neg_units {x D : Nat} (hD : D = 2 ^ 1074) (hx : x < 2 ^ 64) (h : value x < 0) : sunits x = - (units (mag x) : Int) ∧ -value x = (units (mag x) : ℚ) / D := by
  have dp : 0 < D := by rw [hD]; exact Nat.two_pow_pos _
  have dq : (0 : ℚ) < (D : ℚ) := by exact_mod_cast dp
  have dc : (2 : ℚ) ^ 1074 = (D : ℚ) := by rw [hD]; push_cast; rfl
  have v := value_units x
  rw [sunits_eq hx] at v ⊢
  split
  · next c =>
    rw [if_pos c, dc] at v
    refine ⟨rfl, ?_⟩
    rw [v, Int.cast_neg, Int.cast_natCast, neg_div, neg_neg]
  · next c =>
    rw [if_neg c, dc] at v
    exfalso
    rw [v] at h
    have : (0 : ℚ) ≤ (((units (mag x) : ℕ) : ℤ) : ℚ) / D := div_nonneg (by exact_mod_cast Int.natCast_nonneg _) dq.le
    linarith

theorem finite_bits {x : Nat} (hf : IsFinite x) : isNaN x = false ∧ isInf x = false := by
  have := (finite_iff x).1 hf
  unfold isNaN isInf
  simp; omega

theorem keepI_neg (p n : Nat) : keepI p (-(n : Int)) = -(keep p n : Int) := by
  unfold keepI
  split
  · rw [Int.natAbs_neg, Int.natAbs_natCast]
  · next h =>
    have : n = 0 := by omega
    subst this
    have : keep p 0 = 0 := by
      have := keep_exact (p := p) (j := 0) (e := 0) (Nat.two_pow_pos p)
      rwa [Nat.zero_mul] at this
    simp [this]

/-- **C123** violated: a negative whole number is printed as a number near `2^64`: -3 as `18446744073709551613.000000`. -/
theorem C123_negative_violated {p x k : Nat} (hx : x < 2 ^ 64) (hf : IsFinite x) (hk : 1 ≤ k) (hk' : k ≤ 2 ^ 31) (hv : value x = -(k : ℚ)) (a : Bool)
    (str : Nat → Option (List Nat)) :
    ∃ blocks n, printf (some p) a str (chars "%f") (words 64 x) = some (blocks, n) ∧ blocks.flatten = inBase 10 (2 ^ 64 - k) ++ chars ".000000" := by
  obtain ⟨D, hD⟩ : ∃ D : Nat, D = 2 ^ 1074 := ⟨_, rfl⟩
  have dp : 0 < D := by rw [hD]; exact Nat.two_pow_pos _
  have dq : (0 : ℚ) < (D : ℚ) := by exact_mod_cast dp
  have kq : (1 : ℚ) ≤ (k : ℚ) := by exact_mod_cast hk
  obtain ⟨su, hu⟩ := neg_units hD hx (by rw [hv]; linarith)
  have e : units (mag x) = k * D := by
    rw [hv, neg_neg, eq_div_iff dq.ne'] at hu
    exact_mod_cast hu.symm
  rw [e] at su
  have fl : Int.tdiv (sunits x) (2 ^ 1074) = -(k : Int) := by
    rw [su, pow_cast D hD, Int.natCast_mul, Int.neg_tdiv, Int.mul_tdiv_cancel _ (by omega)]
  have df : sunits x - -(k : Int) * 2 ^ 1074 = 0 := by
    rw [su, pow_cast D hD, Int.natCast_mul]; ring
  obtain ⟨n1, n2⟩ := finite_bits hf
  have k0 : keepI p 0 = 0 := by
    have := keepI_neg p 0
    have h0 : keep p 0 = 0 := by
      have := keep_exact (p := p) (j := 0) (e := 0) (Nat.two_pow_pos p)
      rwa [Nat.zero_mul] at this
    rw [h0] at this
    simpa using this
  have tn : (-(k : Int) % 2 ^ 64).toNat = 2 ^ 64 - k := by omega
  obtain ⟨g1, k1, a1, a2, a3, a4⟩ := printnbr_spec (b := 10) (n := 2 ^ 64 - k) (by omega) (by omega) (by omega) empty_good
  obtain ⟨b1, b2⟩ := putc_spec a2 46
  have zl : ∀ (j dec : Nat) {f : File}, f.Good → ∀ n, ∃ g m, floatLoop p 0 j dec f n = some (g, m) ∧ g.Good ∧
      g.content = f.content ++ List.replicate j 48 := by
    intro j
    induction j with
    | zero => intro dec f hf n; exact ⟨f, n, rfl, hf, by simp⟩
    | succ j ih =>
      intro dec f hf n
      obtain ⟨c1, c2⟩ := putc_spec hf 48
      obtain ⟨g, m, d1, d2, d3⟩ := ih (dec * 10) c1 (n + 1)
      refine ⟨g, m, ?_, d2, by rw [d3, c2, List.replicate_succ, List.append_assoc]; rfl⟩
      rw [floatLoop]
      simp only [Int.zero_mul, k0, Int.zero_tdiv]
      rw [if_neg (by omega)]
      exact d1
  obtain ⟨g, m, d1, d2, d3⟩ := zl 6 10 b1 k1
  refine ⟨g.blocks ++ [g.buf], m, ?_, ?_⟩
  · rw [printf_f hx]
    have : printFloat p x ⟨[], []⟩ = some (g, m) := by
      unfold printFloat
      rw [n1, n2]
      simp only [Bool.or_self, Bool.false_eq_true, if_false, fl, df, k0]
      rw [if_neg (by omega), tn, a1, Option.bind_some]
      exact d1
    rw [this]; rfl
  · rw [content_blocks, d3, b2, a3]
    simp only [List.append_assoc]
    rfl

/-- **C123** violated: a negative double with a fraction of at least a millionth cannot be printed: a negative number is converted to an unsigned
one, which is undefined. -/
theorem C123_negative_fraction_violated {p x : Nat} (hp : 53 ≤ p) (hx : x < 2 ^ 64) (hf : IsFinite x) (h : value x < 0)
    (hfr : 1 / 10 ^ 6 ≤ -value x - ⌊-value x⌋₊) (a : Bool) (str : Nat → Option (List Nat)) :
    printf (some p) a str (chars "%f") (words 64 x) = none := by
  obtain ⟨D, hD⟩ : ∃ D : Nat, D = 2 ^ 1074 := ⟨_, rfl⟩
  have dp : 0 < D := by rw [hD]; exact Nat.two_pow_pos _
  have dq : (0 : ℚ) < (D : ℚ) := by exact_mod_cast dp
  obtain ⟨su, hu⟩ := neg_units hD hx h
  obtain ⟨j, e, hj, hj'⟩ := frac_bits (m := mag x) hD
  rw [hu, whole_part] at hfr
  generalize units (mag x) = U at su hj hfr
  have big : D ≤ U % D * 10 ^ 6 := by
    have s : (U : ℚ) / D - ((U / D : ℕ) : ℚ) = ((U % D : ℕ) : ℚ) / D := by
      have := Nat.div_add_mod U D
      have : (U : ℚ) = D * ((U / D : ℕ) : ℚ) + ((U % D : ℕ) : ℚ) := by exact_mod_cast this.symm
      rw [eq_div_iff dq.ne', sub_mul, div_mul_cancel₀ _ dq.ne']
      linarith
    rw [s, div_le_div_iff₀ (by positivity) dq] at hfr
    have : (D : ℚ) ≤ ((U % D : ℕ) : ℚ) * 10 ^ 6 := by linarith
    exact_mod_cast this
  have fl : Int.tdiv (sunits x) (2 ^ 1074) = -((U / D : Nat) : Int) := by
    rw [su, pow_cast D hD, Int.neg_tdiv, Int.ofNat_tdiv]
  have df : sunits x - -((U / D : Nat) : Int) * 2 ^ 1074 = -((U % D : Nat) : Int) := by
    rw [su, pow_cast D hD]
    have := Nat.div_add_mod U D
    have : (U : Int) = D * ((U / D : ℕ) : Int) + ((U % D : ℕ) : Int) := by exact_mod_cast this.symm
    linarith
  have kf : keep p (U % D) = U % D := by
    rw [hj]
    exact keep_exact (Nat.lt_of_lt_of_le hj' (Nat.pow_le_pow_right (by omega) hp))
  obtain ⟨n1, n2⟩ := finite_bits hf
  -- the loop stops at the latest at the sixth digit
  have nl : ∀ k i, 1 ≤ k → i + k = 7 → ∀ (f : File) n, floatLoop p (-((U % D : Nat) : Int)) k (10 ^ i) f n = none := by
    intro k
    induction k with
    | zero => intro i h; omega
    | succ k ih =>
      intro i _ hi f n
      rw [floatLoop]
      have hdiv : Int.tdiv (keepI p (-((U % D : Nat) : Int) * ((10 ^ i : Nat) : Int))) (2 ^ 1074) =
          -((keep p (U % D * 10 ^ i) / D : Nat) : Int) := by
        rw [Int.neg_mul, ← Int.natCast_mul, keepI_neg, pow_cast D hD, Int.neg_tdiv, Int.ofNat_tdiv]
      simp only [hdiv]
      by_cases z : keep p (U % D * 10 ^ i) / D = 0
      · have k0 : k ≠ 0 := by
          rintro rfl
          have hi6 : i = 6 := by omega
          rw [hi6] at z
          have hn : U % D * 10 ^ 6 < 2 ^ (1074 + p) := by
            have b : (10 : Nat) ^ 6 ≤ 2 ^ p := le_trans (by norm_num) (Nat.pow_le_pow_right (n := 2) (by omega) hp)
            rw [Nat.pow_add 2 1074 p, ← hD]
            calc U % D * 10 ^ 6 < D * 10 ^ 6 := Nat.mul_lt_mul_of_pos_right (Nat.mod_lt U dp) (by positivity)
              _ ≤ D * 2 ^ p := Nat.mul_le_mul_left _ b
          have q1 : 1 ≤ U % D * 10 ^ 6 / D := (Nat.le_div_iff_mul_le dp).2 (by rw [Nat.one_mul]; exact big)
          have := keep_div hD hn
          omega
        rw [if_neg (by rw [z]; omega)]
        cases hpn : printnbr ((-((keep p (U % D * 10 ^ i) / D : Nat) : Int)).toNat % 10) 10 f with
        | none => rfl
        | some r =>
          show floatLoop p _ k (10 ^ i * 10) r.1 _ = none
          rw [← Nat.pow_succ]
          exact ih (i + 1) (by omega) (by omega) _ _
      · generalize keep p (U % D * 10 ^ i) / D = w at z ⊢
        exact if_pos (Or.inl (by clear hD; omega))
  rw [printf_f hx]
  have : printFloat p x ⟨[], []⟩ = none := by
    unfold printFloat
    rw [n1, n2]
    simp only [Bool.or_self, Bool.false_eq_true, if_false, fl, df]
    split
    · rfl
    · cases printnbr (-((U / D : Nat) : Int) % 2 ^ 64).toNat 10 ⟨[], []⟩ with
      | none => rfl
      | some r =>
        show floatLoop p (keepI p (-((U % D : Nat) : Int))) 6 10 _ _ = none
        rw [keepI_neg, kf]
        exact nl 6 1 (by omega) (by omega) _ _
  rw [this]; rfl

/-- **C123** violated: doubles of `2^31` and more, infinities and what is not a number cannot be printed: they are converted to an `int`, which is
undefined. -/
theorem C123_large_violated {p x : Nat} (hx : x < 2 ^ 64) (h : ¬ IsFinite x ∨ 2 ^ 31 ≤ value x ∨ value x ≤ -(2 ^ 31 + 1)) (a : Bool)
    (str : Nat → Option (List Nat)) : printf (some p) a str (chars "%f") (words 64 x) = none := by
  rw [printf_f hx]
  suffices printFloat p x ⟨[], []⟩ = none by rw [this]; rfl
  obtain ⟨D, hD⟩ : ∃ D : Nat, D = 2 ^ 1074 := ⟨_, rfl⟩
  have dp : 0 < D := by rw [hD]; exact Nat.two_pow_pos _
  have dq : (0 : ℚ) < (D : ℚ) := by exact_mod_cast dp
  have dc : (2 : ℚ) ^ 1074 = (D : ℚ) := by rw [hD]; push_cast; rfl
  unfold printFloat
  by_cases c : IsFinite x
  · obtain ⟨n1, n2⟩ := finite_bits c
    rw [n1, n2]
    simp only [Bool.or_self, Bool.false_eq_true, if_false]
    have v := value_units x
    rw [dc] at v
    rw [if_pos]
    rw [pow_cast D hD]
    rcases h with h | h | h
    · exact absurd c h
    · right
      rw [v, le_div_iff₀ dq] at h
      have : (2 : Int) ^ 31 * D ≤ sunits x := by exact_mod_cast h
      have hz : (0 : Int) < D := by omega
      exact Int.le_tdiv_of_mul_le hz this
    · left
      rw [v, div_le_iff₀ dq] at h
      have : sunits x ≤ -(2 ^ 31 + 1) * D := by exact_mod_cast h
      have hz : (0 : Int) < D := by omega
      obtain ⟨w, hw⟩ : ∃ w, sunits x = -w := ⟨-sunits x, by ring⟩
      rw [hw] at this ⊢
      rw [Int.neg_tdiv]
      have : (2 ^ 31 + 1) * (D : Int) ≤ w := by linarith
      have := Int.le_tdiv_of_mul_le hz this
      omega
  · have : ¬ mag x < inf := fun h => c ((finite_iff x).2 h)
    have : (isNaN x || isInf x) = true := by
      unfold isNaN isInf
      simp; omega
    rw [this]; rfl

/-! ### The hypotheses are met -/

-- 2.75 = 0x4006000000000000 has two binary places; it is also any double between 0 and 2^31
theorem value_275 : value 0x4006000000000000 = 11 / 4 := by
  unfold value sign expo frac; norm_num

example (a : Bool) (str : Nat → Option (List Nat)) :
    ∃ blocks n, printf (some 53) a str (chars "%f") (words 64 0x4006000000000000) = some (blocks, n) ∧ blocks.flatten = fixed (11 / 4) := by
  have := C123_partial (p := 53) (x := 0x4006000000000000) (by omega) (by decide) (by decide) (by rw [value_275]; norm_num) (by rw [value_275]; norm_num)
    ⟨11 * 2 ^ 31, by rw [value_275]; norm_num⟩ a str
  rwa [value_275] at this
example : printf (some 53) true (fun _ => none) (chars "%f") (words 64 0x4006000000000000) = some ([chars "2.750000"], 4) := by decide +kernel
-- -3 = 0xc008000000000000; -0.5 = 0xbfe0000000000000; 2^31 = 0x41e0000000000000
example : printf (some 53) true (fun _ => none) (chars "%f") (words 64 0xc008000000000000) = some ([chars "18446744073709551613.000000"], 25) := by
  decide +kernel
example (a : Bool) (str : Nat → Option (List Nat)) : printf (some 53) a str (chars "%f") (words 64 0xbfe0000000000000) = none := by
  have v : value 0xbfe0000000000000 = -(1 / 2) := by unfold value sign expo frac; norm_num
  refine C123_negative_fraction_violated (by omega) (by decide) (by decide) (by rw [v]; norm_num) ?_ a str
  have z : ⌊-value 0xbfe0000000000000⌋₊ = 0 := by rw [v, Nat.floor_eq_zero]; norm_num
  rw [z, v]; norm_num
example (a : Bool) (str : Nat → Option (List Nat)) : printf (some 53) a str (chars "%f") (words 64 0x41e0000000000000) = none :=
  C123_large_violated (by decide) (Or.inr (Or.inl (by unfold value sign expo frac; norm_num))) a str

end Pok.Printf
