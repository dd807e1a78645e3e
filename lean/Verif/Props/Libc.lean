import Mathlib.Tactic.Common
import Mathlib.Tactic.Linarith
import Mathlib.Tactic.Ring
import Mathlib.Data.Nat.Digits.Lemmas
import Mathlib.Data.Nat.ModEq
import Mathlib.Data.Int.GCD
import Verif.Spec.Libc

/-!
# Division (C43), conversions (C44), names (C46), pseudo-random numbers
-/

namespace Pok.Libc
open LibcSpec

/-! ## C43 -/

theorem normalise_spec (d : Nat) (hd : 0 < d) : ∀ (n k : Nat), d * 2 ^ k < 2 ^ 64 → 2 ^ 64 - d * 2 ^ k ≤ n →
    ∃ j, normalise (d * 2 ^ k) (2 ^ k) = some (d * 2 ^ j, 2 ^ j) ∧ 2 ^ 63 ≤ d * 2 ^ j ∧ d * 2 ^ j < 2 ^ 64 := by
  intro n
  induction n with
  | zero => intro k h1 h2; omega
  | succ n ih =>
    intro k h1 h2
    have hpos : 0 < d * 2 ^ k := Nat.mul_pos hd (Nat.two_pow_pos k)
    rw [normalise, dif_neg (by omega)]
    split
    · rename_i hlt
      have e1 : d * 2 ^ k * 2 = d * 2 ^ (k + 1) := by rw [Nat.pow_succ, Nat.mul_assoc]
      have hk : 2 ^ k * 2 ≤ d * 2 ^ k * 2 := Nat.mul_le_mul_right _ (Nat.le_mul_of_pos_left _ hd)
      rw [Nat.mod_eq_of_lt (show d * 2 ^ k * 2 < 2 ^ 64 by omega), Nat.mod_eq_of_lt (show 2 ^ k * 2 < 2 ^ 64 by omega), e1,
        ← Nat.pow_succ]
      exact ih (k + 1) (by omega) (by omega)
    · exact ⟨k, rfl, by omega, h1⟩

theorem divLoop_spec (d : Nat) (hd : 0 < d) : ∀ (k num quot : Nat), num < d * 2 ^ (k + 1) → quot + num / d < 2 ^ 64 →
    divLoop num (d * 2 ^ k) quot (2 ^ k) = quot + num / d := by
  have half : ∀ k, d * 2 ^ (k + 1) / 2 = d * 2 ^ k := by
    intro k
    rw [Nat.pow_succ, ← Nat.mul_assoc, Nat.mul_div_cancel _ (by omega)]
  have half' : ∀ k, 2 ^ (k + 1) / 2 = 2 ^ k := by
    intro k
    rw [Nat.pow_succ, Nat.mul_div_cancel _ (by omega)]
  intro k
  induction k with
  | zero =>
    intro num quot h1 h2
    rw [divLoop, if_neg (by simp)]
    simp only [Nat.pow_zero, Nat.mul_one, Nat.zero_add, Nat.pow_one] at *
    have hz : ∀ a b c, divLoop a b c (1 / 2) = c := by
      intro a b c
      rw [divLoop]; simp
    rw [hz, hz]
    split
    · have h3 : num / d = 1 := Nat.div_eq_of_lt_le (by omega) (by omega)
      rw [h3, Nat.mod_eq_of_lt (by omega)]
    · rw [Nat.div_eq_of_lt (by omega)]; rfl
  | succ k ih =>
    intro num quot h1 h2
    rw [divLoop, if_neg (by have := Nat.two_pow_pos (k + 1); omega), half, half']
    split
    · rename_i hle
      have hq : num / d = 2 ^ (k + 1) + (num - d * 2 ^ (k + 1)) / d := by
        conv_lhs => rw [← Nat.sub_add_cancel hle, Nat.mul_comm d (2 ^ (k + 1)), Nat.add_mul_div_right _ _ hd]
        rw [Nat.mul_comm d, Nat.add_comm]
      rw [hq] at h2
      have hb : quot + 2 ^ (k + 1) < 2 ^ 64 := by
        generalize (num - d * 2 ^ (k + 1)) / d = r at h2
        omega
      rw [Nat.mod_eq_of_lt hb, ih _ _ (by rw [Nat.pow_succ, ← Nat.mul_assoc] at h1; omega) (by omega), hq]
      omega
    · exact ih _ _ (by omega) h2

/-- **C43**.  For every 64-bit dividend and every non-null 64-bit divisor, the division of the library returns the
quotient of the mathematical division. -/
theorem C43_division (num den : Nat) (hn : num < 2 ^ 64) (hd : den < 2 ^ 64) (h0 : den ≠ 0) :
    udivdi3 num den = some (num / den) := by
  obtain ⟨j, h1, h2, h3⟩ := normalise_spec den (by omega) (2 ^ 64) 0 (by simpa using hd) (by omega)
  simp only [Nat.pow_zero, Nat.mul_one] at h1
  unfold udivdi3
  rw [h1]
  simp only [Option.map_some]
  have : num / den ≤ num := Nat.div_le_self _ _
  rw [divLoop_spec den (by omega) j num 0 (by rw [Nat.pow_succ, ← Nat.mul_assoc]; omega) (by omega), Nat.zero_add]

/-- **C43**.  The remainder. -/
theorem C43_remainder (num den : Nat) (hn : num < 2 ^ 64) (hd : den < 2 ^ 64) (h0 : den ≠ 0) :
    umoddi3 num den = some (num % den) := by
  unfold umoddi3
  rw [C43_division num den hn hd h0]
  simp only [Option.map_some, Option.some.injEq]
  have h1 : num / den * den ≤ num := Nat.div_mul_le_self _ _
  have h2 := Nat.div_add_mod num den
  rw [Nat.mul_comm] at h2
  rw [Nat.mod_eq_of_lt (show num / den * den < 2 ^ 64 by omega)]
  rw [show num + 2 ^ 64 - num / den * den = num % den + 2 ^ 64 by omega, Nat.add_mod_right]
  exact Nat.mod_eq_of_lt (by omega)

example : udivdi3 (2 ^ 64 - 1) 1000000007 = some ((2 ^ 64 - 1) / 1000000007) :=
  C43_division _ _ (by norm_num) (by norm_num) (by norm_num)

/-! ## C44 -/

theorem digitChar_eq (d : Nat) : digitChar d = if d < 10 then 48 + d else 87 + d := by
  unfold digitChar; split <;> omega

theorem itoaLoop_spec (radix : Nat) (hr : 2 ≤ radix) : ∀ (n u : Nat) (temp : List Nat), u ≤ n →
    itoaLoop radix u temp =
      if temp.length + (natText radix u).length ≤ 16 then some (natText radix u ++ temp) else none := by
  intro n
  induction n with
  | zero =>
    intro u temp h
    have : u = 0 := by omega
    subst this
    rw [itoaLoop]
    simp only [natText, if_true, List.length_singleton]
    by_cases hl : temp.length ≥ 16
    · rw [if_pos hl, if_neg (by omega)]
    · rw [if_neg hl, if_neg (by omega), if_pos (by omega)]
      simp [digitChar]
  | succ n ih =>
    intro u temp h
    by_cases hu0 : u = 0
    · exact hu0 ▸ ih 0 temp (by omega)
    have hdiv : (u - u % radix) / radix = u / radix := by
      rw [show u - u % radix = radix * (u / radix) by have := Nat.div_add_mod u radix; omega]
      exact Nat.mul_div_cancel_left _ (by omega)
    have hlt : u / radix < u := Nat.div_lt_self (by omega) (by omega)
    have hdig : Nat.digits radix u = u % radix :: Nat.digits radix (u / radix) := Nat.digits_def' (by omega) (by omega)
    rw [itoaLoop, if_neg (show ¬radix < 2 by omega)]
    simp only [hdiv]
    have htext : u / radix ≠ 0 → natText radix u = natText radix (u / radix) ++ [digitChar (u % radix)] := by
      intro h0
      unfold natText
      rw [if_neg hu0, if_neg h0, hdig]
      simp [digitChar_eq]
    have htext0 : u / radix = 0 → natText radix u = [digitChar (u % radix)] := by
      intro h0
      unfold natText
      rw [if_neg hu0, hdig, h0]
      simp [digitChar_eq]
    by_cases hl : temp.length ≥ 16
    · rw [if_pos hl, if_neg]
      by_cases h0 : u / radix = 0
      · rw [htext0 h0]; simp; omega
      · rw [htext h0]; simp; omega
    rw [if_neg hl]
    by_cases h0 : u / radix = 0
    · rw [dif_pos h0, htext0 h0, if_pos (by simp; omega)]
      rfl
    · rw [dif_neg h0, ih (u / radix) _ (by omega), htext h0]
      simp only [List.length_cons, List.length_append, List.length_nil, List.append_assoc, List.cons_append, List.nil_append]
      congr 1
      simp only [eq_iff_iff]
      omega

theorem natText10_length (u : Nat) (h : u < 10 ^ 10) : (natText 10 u).length ≤ 10 := by
  unfold natText
  split
  · simp
  · simp only [List.length_map, List.length_reverse]
    have := (Nat.digits_length_le_iff (b := 10) (k := 10) (by omega) u).2 h
    exact this

/-- **C44** (part: text).  For every 32-bit integer but the least one, the decimal text is the canonical one. -/
theorem C44_text_partial (v : Int) (h1 : -2 ^ 31 < v) (h2 : v < 2 ^ 31) : itoa v 10 = some (intText v) := by
  unfold itoa intText
  by_cases hv : v < 0
  · rw [if_pos ⟨rfl, hv⟩, if_neg (by omega), itoaLoop_spec 10 (by omega) _ _ _ (Nat.le_refl _), if_pos hv, if_pos]
    · simp
    · have := natText10_length (-v).toNat (by omega)
      simp only [List.length_nil]
      omega
  · rw [if_neg (by omega), if_neg hv, itoaLoop_spec 10 (by omega) _ _ _ (Nat.le_refl _),
      Int.emod_eq_of_lt (by omega) (by omega), if_pos]
    · simp
    · have := natText10_length v.toNat (by omega)
      simp only [List.length_nil]
      omega

/-- **C44** (other radices).  For a radix from 2 to 36 other than 10, the text is the one of the number read as
unsigned, as long as it has at most 16 digits; beyond, the routine writes outside its local array. -/
theorem C44_radix (v : Int) (radix : Nat) (h : 2 ≤ radix) (h10 : radix ≠ 10) :
    itoa v radix = if (natText radix (v % 2 ^ 32).toNat).length ≤ 16 then some (natText radix (v % 2 ^ 32).toNat) else none := by
  unfold itoa
  rw [if_neg (by omega), itoaLoop_spec radix h _ _ _ (Nat.le_refl _)]
  simp

/-- **C44** fails for radix 2: the routine overflows its local array of 16 characters. -/
theorem C44_radix_violated : itoa 65536 2 = none := by
  rw [C44_radix _ _ (by omega) (by omega)]
  rw [show Int.toNat ((65536 : Int) % 2 ^ 32) = (65536 : Nat) by decide]
  rw [if_neg]
  norm_num [natText]

/-- **C44** fails for the least integer: its negation overflows. -/
theorem C44_least_violated : itoa (-2 ^ 31) 10 = none := by
  simp [itoa]

theorem atoi_step (ds : List Nat) : ∀ res, (∀ d ∈ ds, d < 10) →
    Nat.ofDigits 10 ds.reverse + res * 10 ^ ds.length + 48 < 2 ^ 31 →
    atoiLoop (ds.map (48 + ·)) res = some (Nat.ofDigits 10 ds.reverse + res * 10 ^ ds.length) := by
  induction ds with
  | nil => intro res _ _; simp [atoiLoop]
  | cons d ds ih =>
    intro res hd h
    have h9 : d < 10 := hd d List.mem_cons_self
    have e : Nat.ofDigits 10 (d :: ds).reverse + res * 10 ^ (d :: ds).length =
        Nat.ofDigits 10 ds.reverse + (10 * res + d) * 10 ^ ds.length := by
      rw [List.reverse_cons, Nat.ofDigits_append, List.length_reverse, List.length_cons, Nat.ofDigits_singleton, Nat.pow_succ]
      ring
    rw [e] at h ⊢
    simp only [List.map_cons, atoiLoop]
    have hp : 10 * res + d ≤ (10 * res + d) * 10 ^ ds.length := Nat.le_mul_of_pos_right _ (Nat.pow_pos (by omega))
    rw [if_neg (by omega), if_neg (by omega), show 10 * res + (48 + d) - 48 = 10 * res + d by omega]
    exact ih _ (fun x hx => hd x (List.mem_cons_of_mem _ hx)) h

/-- **C44** (part: round trip).  Converting an integer from 0 to 2147483599 to decimal text and back gives the
integer.

Missing: negative integers and those from 2147483600, for which the code is wrong. -/
theorem C44_roundtrip_partial (v : Nat) (h : v < 2147483600) :
    ∃ s, itoa v 10 = some s ∧ atoi s = some v := by
  refine ⟨intText v, C44_text_partial v (by omega) (by omega), ?_⟩
  unfold intText
  rw [if_neg (by omega), Int.toNat_natCast]
  unfold natText
  split
  · rename_i h0
    subst h0
    decide
  · have hds : ∀ d ∈ (Nat.digits 10 v).reverse, d < 10 := by
      intro d hd
      exact Nat.digits_lt_base (by omega) (List.mem_reverse.1 hd)
    have hmap : (Nat.digits 10 v).reverse.map (fun d => if d < 10 then 48 + d else 87 + d) =
        (Nat.digits 10 v).reverse.map (48 + ·) := by
      apply List.map_congr_left
      intro d hd
      rw [if_pos (hds d hd)]
    rw [hmap]
    unfold atoi
    have := atoi_step (Nat.digits 10 v).reverse 0 hds
    rw [List.reverse_reverse, Nat.ofDigits_digits, Nat.zero_mul, Nat.add_zero] at this
    exact this (by omega)

example : ∃ s, itoa 2147483599 10 = some s ∧ atoi s = some 2147483599 := C44_roundtrip_partial 2147483599 (by omega)

/-- **C44** fails for every negative integer: `atoi` does not know the minus sign and gives 0. -/
theorem C44_negative_violated (v : Int) (h1 : -2 ^ 31 < v) (h2 : v < 0) :
    ∃ s, itoa v 10 = some s ∧ atoi s = some 0 := by
  refine ⟨intText v, C44_text_partial v h1 (by omega), ?_⟩
  simp [intText, h2, atoi, atoiLoop]

/-- **C44** fails for the greatest integers: `atoi` overflows, because it adds the character before it takes 48
away. -/
theorem C44_great_violated : ∃ s, itoa 2147483600 10 = some s ∧ atoi s = none := by
  refine ⟨intText 2147483600, C44_text_partial _ (by omega) (by omega), ?_⟩
  rw [show intText 2147483600 = natText 10 2147483600 from rfl]
  norm_num [natText, atoi, atoiLoop]

/-! ## C46 -/

/-- **C46** (part).  For requested and configured names of the same length, below 256, a buffer or blackboard matches
exactly when the names are equal; for events and semaphores, below 65536.

Missing: names of different lengths. -/
theorem C46_same_length_partial (a b : List Nat) (h : a.length = b.length) :
    (a.length < 256 → (streq a b = true ↔ a = b)) ∧ (a.length < 65536 → (idMatches a b = true ↔ a = b)) := by
  refine ⟨fun hl => ?_, fun hl => ?_⟩
  · unfold streq
    simp only [beq_iff_eq]
    rw [← h, Nat.min_self, Nat.mod_eq_of_lt hl, List.take_length, h, List.take_length]
  · unfold idMatches eqUpTo
    simp only [beq_iff_eq]
    rw [Nat.mod_eq_of_lt hl, List.take_left' rfl, List.take_left' h.symm]

/-- **C46** (part).  A lookup finds the object whose configured name is the requested one, if no configured name is
the beginning of another one, no name is longer than 255 bytes (nor the requested one), and no name contains a null
byte. -/
theorem C46_prefix_free_partial (names : List (List Nat)) (a : List Nat) (i : Nat) (hi : names[i]? = some a)
    (hl : ∀ b ∈ names, b.length < 256) (hz : 0 ∉ a)
    (hp : ∀ (j k : Nat) (b c : List Nat), names[j]? = some b → names[k]? = some c → b <+: c → j = k) :
    findName names (streq a) = some i ∧ findName names (idMatches a) = some i := by
  have hmem : a ∈ names := List.mem_of_getElem? hi
  obtain ⟨hlt, hai⟩ := List.getElem?_eq_some_iff.1 hi
  have pre : ∀ x y : List Nat, x.length ≤ y.length → x.take x.length = y.take x.length → x <+: y := by
    intro x y _ h
    rw [List.take_length] at h
    rw [h]
    exact List.take_prefix _ _
  unfold findName
  constructor
  · rw [List.findIdx?_eq_some_iff_getElem]
    refine ⟨hlt, ?_, ?_⟩
    · rw [hai]; simp [streq]
    · intro j hj
      have hjl : j < names.length := by omega
      have hj' : names[j]? = some names[j] := List.getElem?_eq_getElem _
      simp only [Bool.not_eq_true, streq]
      apply Bool.eq_false_iff.2
      simp only [ne_eq, beq_iff_eq]
      intro e
      have hb := hl _ (List.getElem_mem hjl)
      have hal := hl a hmem
      rcases Nat.le_total a.length names[j].length with hle | hle
      · rw [Nat.min_eq_left hle, Nat.mod_eq_of_lt hal] at e
        have := hp i j a _ hi hj' (pre _ _ hle e)
        omega
      · rw [Nat.min_eq_right hle, Nat.mod_eq_of_lt hb] at e
        have := hp j i _ a hj' hi (pre _ _ hle e.symm)
        omega
  · rw [List.findIdx?_eq_some_iff_getElem]
    refine ⟨hlt, ?_, ?_⟩
    · rw [hai]; simp [idMatches, eqUpTo]
    · intro j hj
      have hjl : j < names.length := by omega
      have hj' : names[j]? = some names[j] := List.getElem?_eq_getElem _
      simp only [Bool.not_eq_true, idMatches, eqUpTo]
      apply Bool.eq_false_iff.2
      simp only [ne_eq, beq_iff_eq]
      intro e
      have hal := hl a hmem
      rw [Nat.mod_eq_of_lt (by omega), List.take_left' rfl] at e
      by_cases hle : a.length ≤ names[j].length
      · rw [List.take_append_of_le_length hle] at e
        have := hp i j a _ hi hj' (by rw [e]; exact List.take_prefix _ _)
        omega
      · apply hz
        rw [e, List.take_append]
        apply List.mem_append_right
        rw [show a.length - names[j].length = (a.length - names[j].length - 1) + 1 by omega]
        simp

example : findName [[1, 2], [1, 3], [2]] (streq [1, 3]) = some 1 := by decide

/-- **C46** fails when one name is the beginning of the other: any name finds an object with a longer name that it
begins, also the empty name; buffers and blackboards are also found by a longer name. -/
theorem C46_prefix_violated (a b : List Nat) (ha : a.length < 256) (_hb : b ≠ []) :
    streq a (a ++ b) = true ∧ streq (a ++ b) a = true ∧ idMatches a (a ++ b) = true := by
  refine ⟨?_, ?_, ?_⟩
  · simp [streq, Nat.mod_eq_of_lt ha]
  · simp [streq, Nat.mod_eq_of_lt ha]
  · simp only [idMatches, eqUpTo, beq_iff_eq]
    rw [Nat.mod_eq_of_lt (by omega), List.take_left' rfl, List.append_assoc, List.take_left' rfl]

/-- **C46** fails for long names: two names of 256 bytes always match. -/
theorem C46_long_violated (a b : List Nat) (ha : a.length = 256) (hb : b.length = 256) : streq a b = true := by
  simp [streq, ha, hb]

/-- The wrong object is found: "ab" gives the object called "abc", although "ab" exists. -/
theorem C46_lookup_violated : findName [[97, 98, 99], [97, 98]] (streq [97, 98]) = some 0 ∧
    findName [[97, 98, 99], [97, 98]] (idMatches [97, 98]) = some 0 := by decide

/-! ## Pseudo-random numbers -/

/-- The state of the generator after `n` calls. -/
def randState : Nat → Nat
  | 0 => 1
  | n + 1 => (rand (randState n)).1

/-- **C65**.  Every number returned by `rand` is between 0 and `RAND_MAX` (256). -/
theorem C65_range (next : Nat) : (rand next).2 ≤ 256 := by
  have : (rand next).2 < 257 := Nat.mod_lt _ (by omega)
  omega

/-- **C65**.  The state of the generator is a 32-bit number, and two different states have different successors: the sequence never runs
into a cycle that it did not start in, so it comes back to its seed. -/
theorem C65_states (x y : Nat) (hx : x < 2 ^ 32) (hy : y < 2 ^ 32) :
    (rand x).1 < 2 ^ 32 ∧ ((rand x).1 = (rand y).1 → x = y) := by
  refine ⟨Nat.mod_lt _ (by decide), ?_⟩
  intro h
  have h1 : x * 1103515245 + 12345 ≡ y * 1103515245 + 12345 [MOD 2 ^ 32] := h
  have h2 : x * 1103515245 ≡ y * 1103515245 [MOD 2 ^ 32] := Nat.ModEq.add_right_cancel' _ h1
  have h3 : x ≡ y [MOD 2 ^ 32] := Nat.ModEq.cancel_right_of_coprime (by decide) h2
  exact Nat.ModEq.eq_of_lt_of_lt h3 hx hy

example : (rand 1).1 = 1103527590 ∧ (rand 1).2 = 1103527590 % 257 ∧ (rand 2).1 ≠ (rand 1).1 := by decide

end Pok.Libc
