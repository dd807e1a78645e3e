import Verif.Lemmas.PrintFloat

/-!
# Formatted output (C64)
-/

namespace Pok.Printf
open Pok.PrintfSpec

theorem printInt_unsigned {n : Nat} (hn : n < 2 ^ 64) {f : File} (hf : f.Good) :
    ∃ g k, printInt false n f = some (g, k) ∧ g.Good ∧ g.content = f.content ++ inBase 10 n ∧
      k + (if n = 0 then 0 else 1) = (inBase 10 n).length := by
  have := printnbr_spec (b := 10) (by omega) (by omega) hn hf
  unfold printInt
  by_cases h0 : n = 0
  · subst h0
    simpa [printnbr] using this
  · simpa [h0] using this

theorem printInt_signed {n : Nat} (hn : n < 2 ^ 64) (hm : n ≠ 2 ^ 63) {f : File} (hf : f.Good) :
    ∃ g k, printInt true n f = some (g, k) ∧ g.Good ∧ g.content = f.content ++ decimal (toI64 n) ∧
      k + (if toI64 n = 0 then 0 else 1) = (decimal (toI64 n)).length := by
  have hU : n % U64 = n := Nat.mod_eq_of_lt hn
  have hti : toI64 n = if n < 9223372036854775808 then (n : Int) else (n : Int) - 18446744073709551616 := by
    unfold toI64; rw [hU]; rfl
  by_cases h0 : n = 0
  · subst h0
    have := printnbr_spec (b := 10) (n := 0) (by omega) (by omega) (by omega) hf
    have h1 : toI64 0 = 0 := by decide
    rw [h1]
    simpa [printInt, printnbr, decimal] using this
  · unfold printInt
    rw [if_neg h0]
    by_cases hs : toI64 n < 0
    · obtain ⟨h1, h2⟩ := putc_spec hf 45
      have hlt : (- toI64 n).toNat < 2 ^ 64 := by rw [hti] at hs ⊢; split at hs <;> rename_i hx <;> simp only [hx, if_false, if_true] <;> omega
      obtain ⟨g, k, g1, g2, g3, g4⟩ := printnbr_spec (b := 10) (by omega) (by omega) hlt h1
      have hna : (toI64 n).natAbs = (- toI64 n).toNat := by omega
      refine ⟨g, k + 1, ?_, g2, ?_, ?_⟩
      · have hm' : ¬ n = 9223372036854775808 := hm
        simp [hs, hm', g1]
      · rw [g3, h2, decimal, if_pos hs, hna]; simp
      · rw [decimal, if_pos hs, hna, if_neg (by omega), List.length_cons, ← g4, if_neg (by omega)]
    · have hp : toI64 n = (n : Int) := by
        rw [hti] at hs ⊢; split at hs <;> rename_i hx <;> simp only [hx, if_false, if_true] <;> omega
      obtain ⟨g, k, g1, g2, g3, g4⟩ := printnbr_spec (b := 10) (by omega) (by omega) hn hf
      refine ⟨g, k, by simp [hs, g1], g2, ?_, ?_⟩
      · rw [g3, hp, decimal, if_neg (by omega)]; rfl
      · rw [hp, decimal, if_neg (by omega)]
        rw [if_neg h0] at g4
        rw [if_neg (by omega)]
        exact g4

theorem toI64_lt (n : Nat) (hn : n < 18446744073709551616) :
    toI64 n = if n < 9223372036854775808 then (n : Int) else (n : Int) - 18446744073709551616 := by
  unfold toI64; rw [show n % U64 = n from Nat.mod_eq_of_lt hn]; rfl

theorem sext32 (v : Int) : signExtend 32 ((v % (2 ^ 32 : Nat) : Int).toNat % 2 ^ 32) < 2 ^ 64 ∧
    toI64 (signExtend 32 ((v % (2 ^ 32 : Nat) : Int).toNat % 2 ^ 32)) = Int.bmod v (2 ^ 32) := by
  have hx : ∀ w, signExtend 32 w = if w % 4294967296 < 2147483648 then w % 4294967296 else w % 4294967296 + 18446744069414584320 := fun w => rfl
  have hlt : ∀ w, signExtend 32 w < 18446744073709551616 := by
    intro w; rw [hx]; split <;> omega
  refine ⟨hlt _, ?_⟩
  rw [toI64_lt _ (hlt _), hx]
  simp only [Int.bmod]
  norm_num
  split <;> split <;> split <;> omega

theorem sext16 (v : Int) : signExtend 16 ((v % (2 ^ 32 : Nat) : Int).toNat % 2 ^ 32) < 2 ^ 64 ∧
    toI64 (signExtend 16 ((v % (2 ^ 32 : Nat) : Int).toNat % 2 ^ 32)) = Int.bmod v (2 ^ 16) := by
  have hx : ∀ w, signExtend 16 w = if w % 65536 < 32768 then w % 65536 else w % 65536 + 18446744073709486080 := fun w => rfl
  have hlt : ∀ w, signExtend 16 w < 18446744073709551616 := by
    intro w; rw [hx]; split <;> omega
  refine ⟨hlt _, ?_⟩
  rw [toI64_lt _ (hlt _), hx]
  simp only [Int.bmod]
  norm_num
  split <;> split <;> split <;> omega

theorem sext8 (v : Int) : signExtend 8 ((v % (2 ^ 32 : Nat) : Int).toNat % 2 ^ 32) < 2 ^ 64 ∧
    toI64 (signExtend 8 ((v % (2 ^ 32 : Nat) : Int).toNat % 2 ^ 32)) = Int.bmod v (2 ^ 8) := by
  have hx : ∀ w, signExtend 8 w = if w % 256 < 128 then w % 256 else w % 256 + 18446744073709551360 := fun w => rfl
  have hlt : ∀ w, signExtend 8 w < 18446744073709551616 := by
    intro w; rw [hx]; split <;> omega
  refine ⟨hlt _, ?_⟩
  rw [toI64_lt _ (hlt _), hx]
  simp only [Int.bmod]
  norm_num
  split <;> split <;> split <;> omega

/-- The argument of a signed conversion. -/
theorem signedArg_spec (s : Size) (v : Int) (h : -(2 ^ (passed s - 1) : Int) ≤ v ∧ v < 2 ^ (passed s - 1)) (more : List Nat) :
    ∃ n, signedArg s (words (passed s) (v % (2 ^ passed s : Nat) : Int).toNat ++ more) = some (n, more) ∧ n < 2 ^ 64 ∧
      toI64 n = Int.bmod v (2 ^ width s) := by
  have hti : ∀ n, n < 18446744073709551616 → toI64 n = if n < 9223372036854775808 then (n : Int) else (n : Int) - 18446744073709551616 := by
    intro n hn; unfold toI64; rw [show n % U64 = n from Nat.mod_eq_of_lt hn]; rfl
  cases s with
  | longLong =>
    refine ⟨_, rfl, ?_, ?_⟩
    · simp only [passed] at h ⊢; omega
    · rw [hti _ (by simp only [passed] at h ⊢; omega)]
      simp only [passed, width, Int.bmod] at h ⊢
      norm_num at h ⊢
      split <;> split <;> omega
  | long => exact ⟨_, rfl, sext32 v⟩
  | int => exact ⟨_, rfl, sext32 v⟩
  | short => exact ⟨_, rfl, sext16 v⟩
  | char => exact ⟨_, rfl, sext8 v⟩

/-- The argument of an unsigned conversion. -/
theorem unsignedArg_spec (s : Size) (v : Nat) (h : v < 2 ^ passed s) (more : List Nat) :
    unsignedArg s (words (passed s) v ++ more) = some (v % 2 ^ width s, more) ∧ v % 2 ^ width s < 2 ^ 64 := by
  cases s with
  | longLong =>
    refine ⟨?_, Nat.mod_lt _ (by decide)⟩
    simp only [passed, width, words, unsignedArg, if_true, List.cons_append, List.nil_append, Option.some.injEq, Prod.mk.injEq, and_true] at h ⊢
    omega
  | long | int | short | char =>
    refine ⟨?_, Nat.lt_of_lt_of_le (Nat.mod_lt _ (by decide)) (by simp only [width]; decide)⟩
    simp only [passed, width] at h ⊢
    refine congrArg (fun n => some (n, more)) ?_
    show v % 2 ^ 32 % _ = _
    omega

/-- No signed overflow: the one value whose negation has no representation. -/
def Item.NoMin : Item → Prop
  | .signed .longLong _ v => v ≠ -(2 ^ 63 : Int)
  | _ => True

theorem sizeModifier_spec (s : Size) (l : Nat) (rest : List Nat) (h1 : l ≠ 104) (h2 : l ≠ 108) :
    sizeModifier (modifier s ++ l :: rest) = (s, l :: rest) := by
  cases s
  · show sizeModifier (l :: rest) = _
    unfold sizeModifier
    split <;> simp_all
  · show sizeModifier (108 :: l :: rest) = _
    unfold sizeModifier
    split <;> simp_all
  · rfl
  · show sizeModifier (104 :: l :: rest) = _
    unfold sizeModifier
    split <;> simp_all
  · rfl

theorem bmod_min (v : Int) (s : Size) (h : -(2 ^ (passed s - 1) : Int) ≤ v ∧ v < 2 ^ (passed s - 1)) (hm : Item.NoMin (.signed s true v)) :
    Int.bmod v (2 ^ width s) ≠ -9223372036854775808 := by
  cases s <;> simp only [passed, width, Int.bmod] at h ⊢ <;> norm_num at h ⊢ <;> simp only [Item.NoMin] at hm <;> norm_num at hm <;>
    split <;> omega

/-- One conversion of a format. -/
theorem loop_conv {flt : Option Nat} {a : Bool} {str : Nat → Option (List Nat)} {s : Size} {sp fuel k n : Nat} {rest args args' : List Nat} {f g : File}
    (h1 : sp ≠ 104) (h2 : sp ≠ 108) (h3 : sp ≠ 37) (h : convert flt str s sp args f = some (some (g, k, args'))) :
    loop flt a str (fuel + 1) (37 :: (modifier s ++ sp :: rest)) args f n = loop flt a str fuel rest args' g (n + k) := by
  have hs := sizeModifier_spec s sp rest h1 h2
  cases s with
  | int =>
    have hs' : sizeModifier (sp :: rest) = (.int, sp :: rest) := hs
    show loop flt a str (fuel + 1) (37 :: sp :: rest) args f n = _
    simp [loop, hs', h, h3]
  | long =>
    have hs' : sizeModifier (108 :: sp :: rest) = (.long, sp :: rest) := hs
    show loop flt a str (fuel + 1) (37 :: 108 :: sp :: rest) args f n = _
    simp [loop, hs', h]
  | longLong =>
    have hs' : sizeModifier (108 :: 108 :: sp :: rest) = (.longLong, sp :: rest) := hs
    show loop flt a str (fuel + 1) (37 :: 108 :: 108 :: sp :: rest) args f n = _
    simp [loop, hs', h]
  | short =>
    have hs' : sizeModifier (104 :: sp :: rest) = (.short, sp :: rest) := hs
    show loop flt a str (fuel + 1) (37 :: 104 :: sp :: rest) args f n = _
    simp [loop, hs', h]
  | char =>
    have hs' : sizeModifier (104 :: 104 :: sp :: rest) = (.char, sp :: rest) := hs
    show loop flt a str (fuel + 1) (37 :: 104 :: 104 :: sp :: rest) args f n = _
    simp [loop, hs', h]

/-- One item of a format. -/
theorem item_spec (flt : Option Nat) (a : Bool) (str : Nat → Option (List Nat)) (it : Item) (ok : it.Ok flt str) (hm : Item.NoMin it) (fuel : Nat) (rest more : List Nat)
    {f : File} (hf : f.Good) (n : Nat) :
    ∃ g k, loop flt a str (fuel + 1) (it.source ++ rest) (it.args ++ more) f n = loop flt a str fuel rest more g (n + k) ∧ g.Good ∧
      g.content = f.content ++ it.shown ∧ k + it.lost = it.shown.length := by
  cases it with
  | text c =>
    obtain ⟨h1, h2⟩ := putc_spec hf c
    refine ⟨_, 1, ?_, h1, h2, rfl⟩
    show loop flt a str (fuel + 1) (c :: rest) more f n = _
    have hok : c ≠ 37 := ok
    simp [loop, hok]
  | percent =>
    obtain ⟨h1, h2⟩ := putc_spec hf 37
    exact ⟨_, 1, rfl, h1, h2, rfl⟩
  | char v =>
    obtain ⟨h1, h2⟩ := putc_spec hf (v % 256)
    exact ⟨_, 1, rfl, h1, h2, rfl⟩
  | string p s =>
    obtain ⟨h1, h2⟩ := puts_spec s hf
    refine ⟨_, s.length, ?_, h1, h2, rfl⟩
    show loop flt a str (fuel + 1) (37 :: 115 :: rest) (p :: more) f n = _
    have hc : convert flt str .int 115 (p :: more) f = some (some (f.puts s, s.length, more)) := by
      show (str (p % 2 ^ 32)).map _ = _
      rw [Nat.mod_eq_of_lt ok.1, ok.2]; rfl
    simp only [loop, sizeModifier, hc]
    simp
  | float x =>
    obtain ⟨hx, hfin, h0, h1, p, rfl, hp, hk⟩ := ok
    obtain ⟨g, m, e1, e2, e3, e4⟩ := printFloat_exact hp hx hfin h0 h1 hk hf
    refine ⟨g, m, ?_, e2, e3, e4⟩
    have hc : convert (some p) str .int 102 ((Item.float x).args ++ more) f = some (some (g, m, more)) := by
      have ew : x % 2 ^ 32 % 2 ^ 32 + 2 ^ 32 * (x / 2 ^ 32 % 2 ^ 32 % 2 ^ 32) = x := by omega
      show (printFloat p (x % 2 ^ 32 % 2 ^ 32 + 2 ^ 32 * (x / 2 ^ 32 % 2 ^ 32 % 2 ^ 32)) f).map _ = _
      rw [ew, e1]; rfl
    exact loop_conv (s := .int) (sp := 102) (by omega) (by omega) (by omega) hc
  | signed s l v =>
    obtain ⟨m, h1, h2, h3⟩ := signedArg_spec s v ok more
    have hmin : m ≠ 2 ^ 63 := by
      rintro rfl
      exact bmod_min v s ok (by cases s <;> exact hm) (by rw [← h3]; decide)
    obtain ⟨g, k, g1, g2, g3, g4⟩ := printInt_signed h2 hmin hf
    refine ⟨g, k, ?_, g2, by rw [g3, h3]; rfl, ?_⟩
    · have hc : ∀ sp, sp = 100 ∨ sp = 105 → convert flt str s sp ((Item.signed s l v).args ++ more) f = some (some (g, k, more)) := by
        intro sp hsp
        unfold convert
        rw [if_pos hsp]
        show (signedArg s (words _ _ ++ more)).bind _ = _
        rw [h1, Option.bind_some]
        simp only [g1, Option.map_some]
      have hsrc : (Item.signed s l v).source ++ rest = 37 :: (modifier s ++ (if l then 100 else 105) :: rest) := by
        cases s <;> cases l <;> rfl
      rw [hsrc]
      exact loop_conv (by cases l <;> decide) (by cases l <;> decide) (by cases l <;> decide) (hc _ (by cases l <;> simp))
    · show k + Item.lost (.signed s l v) = (decimal (Int.bmod v (2 ^ width s))).length
      rw [← h3, ← g4, Item.lost, ← h3]
  | unsigned s b v =>
    obtain ⟨h1, h2⟩ := unsignedArg_spec s v ok.1 more
    have key : ∃ g k, convert flt str s (if b = 8 then 111 else if b = 10 then 117 else 120) ((Item.unsigned s b v).args ++ more) f =
        some (some (g, k, more)) ∧ g.Good ∧ g.content = f.content ++ inBase b (v % 2 ^ width s) ∧
        k + (if v % 2 ^ width s = 0 then 0 else 1) = (inBase b (v % 2 ^ width s)).length := by
      rcases ok.2 with rfl | rfl | rfl
      · obtain ⟨g, k, g1, g2, g3, g4⟩ := printnbr_spec (b := 8) (by omega) (by omega) h2 hf
        refine ⟨g, k, ?_, g2, g3, g4⟩
        show (unsignedArg s (words _ _ ++ more)).bind _ = _
        rw [h1, Option.bind_some]
        simp only [g1, Option.map_some]
      · obtain ⟨g, k, g1, g2, g3, g4⟩ := printInt_unsigned h2 hf
        refine ⟨g, k, ?_, g2, g3, g4⟩
        show (unsignedArg s (words _ _ ++ more)).bind _ = _
        rw [h1, Option.bind_some]
        simp only [g1, Option.map_some]
      · obtain ⟨g, k, g1, g2, g3, g4⟩ := printnbr_spec (b := 16) (by omega) (by omega) h2 hf
        refine ⟨g, k, ?_, g2, g3, g4⟩
        show (unsignedArg s (words _ _ ++ more)).bind _ = _
        rw [h1, Option.bind_some]
        simp only [g1, Option.map_some]
    obtain ⟨g, k, hc, g2, g3, g4⟩ := key
    refine ⟨g, k, ?_, g2, g3, ?_⟩
    · have hsrc : (Item.unsigned s b v).source ++ rest =
          37 :: (modifier s ++ (if b = 8 then 111 else if b = 10 then 117 else 120) :: rest) := by
        rcases ok.2 with rfl | rfl | rfl <;> cases s <;> rfl
      rw [hsrc]
      exact loop_conv (by rcases ok.2 with rfl | rfl | rfl <;> decide) (by rcases ok.2 with rfl | rfl | rfl <;> decide)
        (by rcases ok.2 with rfl | rfl | rfl <;> decide) hc
    · show k + Item.lost (.unsigned s b v) = (inBase b (v % 2 ^ width s)).length
      rw [← g4, Item.lost]

/-- All the items of a format. -/
theorem items_spec (flt : Option Nat) (a : Bool) (str : Nat → Option (List Nat)) : ∀ (its : List Item), (∀ it ∈ its, it.Ok flt str) → (∀ it ∈ its, Item.NoMin it) →
    ∀ (fuel : Nat) (more : List Nat) (f : File), f.Good → ∀ n, (its.flatMap Item.source).length ≤ fuel →
    ∃ g k, loop flt a str fuel (its.flatMap Item.source) (its.flatMap Item.args ++ more) f n = some (g, n + k) ∧ g.Good ∧
      g.content = f.content ++ its.flatMap Item.shown ∧ k + (its.map Item.lost).sum = (its.flatMap Item.shown).length := by
  intro its
  induction its with
  | nil =>
    intro _ _ fuel more f hf n _
    refine ⟨f, 0, ?_, hf, by simp, rfl⟩
    cases fuel <;> simp [loop]
  | cons it its ih =>
    intro ok hm fuel more f hf n hl
    have hpos : 0 < it.source.length := by
      cases it <;> simp [Item.source, chars]
    rw [List.flatMap_cons, List.length_append] at hl
    obtain ⟨fuel, rfl⟩ : ∃ k, fuel = k + 1 := ⟨fuel - 1, by omega⟩
    obtain ⟨g, k, h1, h2, h3, h4⟩ := item_spec flt a str it (ok it (by simp)) (hm it (by simp)) fuel (its.flatMap Item.source)
      (its.flatMap Item.args ++ more) hf n
    obtain ⟨g', k', i1, i2, i3, i4⟩ := ih (fun x hx => ok x (by simp [hx])) (fun x hx => hm x (by simp [hx])) fuel more g h2 (n + k) (by omega)
    refine ⟨g', k + k', ?_, i2, ?_, ?_⟩
    · rw [List.flatMap_cons, List.flatMap_cons, List.append_assoc, h1, i1, Nat.add_assoc]
    · rw [i3, h3, List.flatMap_cons, List.append_assoc]
    · rw [List.flatMap_cons, List.length_append, ← h4, ← i4, List.map_cons, List.sum_cons]
      omega

/-- **C64** For every format built of ordinary characters, `%%` and the conversions `d`, `i`, `u`, `o`, `x`, `c`, `s` and (in the library) `f` with the size modifiers
`hh`, `h`, `l` and `ll`, and for all arguments of the types announced but one, `printf` prints exactly the text with every conversion replaced
by its argument in canonical form, in blocks of 128 characters and a shorter last one, whether or not assertions are enabled.  What is
missing: the most negative `long long` (`C64_min_violated`), doubles with many binary places (C123), the number returned (`C64_count_violated`), other conversions. -/
theorem C64_text_partial (flt : Option Nat) (asserts : Bool) (str : Nat → Option (List Nat)) (its : List Item) (ok : ∀ it ∈ its, it.Ok flt str)
    (hm : ∀ it ∈ its, Item.NoMin it) (more : List Nat) :
    ∃ blocks last n, printf flt asserts str (its.flatMap Item.source) (its.flatMap Item.args ++ more) = some (blocks ++ [last], n) ∧
      (blocks ++ [last]).flatten = its.flatMap Item.shown ∧ (∀ b ∈ blocks, b.length = 128) ∧ last.length < 128 := by
  obtain ⟨g, k, h1, h2, h3, _⟩ := items_spec flt asserts str its ok hm _ more ⟨[], []⟩ ⟨by simp, by simp⟩ 0 (Nat.le_refl _)
  refine ⟨g.blocks, g.buf, 0 + k, ?_, ?_, h2.2, h2.1⟩
  · unfold printf
    rw [h1]; rfl
  · have : g.content = its.flatMap Item.shown := by rw [h3]; rfl
    rw [← this]; simp [File.content]

/-- **C64** violated: the number returned is not the number of characters printed: every conversion of an integer that is not zero counts one
character too few, and `%f` loses the point and every part that is not zero. -/
theorem C64_count_violated (flt : Option Nat) (asserts : Bool) (str : Nat → Option (List Nat)) (its : List Item) (ok : ∀ it ∈ its, it.Ok flt str)
    (hm : ∀ it ∈ its, Item.NoMin it) (more : List Nat) :
    ∃ blocks n, printf flt asserts str (its.flatMap Item.source) (its.flatMap Item.args ++ more) = some (blocks, n) ∧
      n + (its.map Item.lost).sum = blocks.flatten.length := by
  obtain ⟨g, k, h1, h2, h3, h4⟩ := items_spec flt asserts str its ok hm _ more ⟨[], []⟩ ⟨by simp, by simp⟩ 0 (Nat.le_refl _)
  refine ⟨g.blocks ++ [g.buf], 0 + k, ?_, ?_⟩
  · unfold printf
    rw [h1]; rfl
  · have : g.content = its.flatMap Item.shown := by rw [h3]; rfl
    have hc : (g.blocks ++ [g.buf]).flatten = g.content := by simp [File.content]
    rw [hc, this, ← h4]; omega

/-- **C64** violated: the most negative `long long` is negated, which overflows. -/
theorem C64_min_violated (flt : Option Nat) (asserts : Bool) (str : Nat → Option (List Nat)) (rest : List Item) (more : List Nat) :
    Item.Ok flt str (.signed .longLong true (-(2 ^ 63))) ∧
    printf flt asserts str (((Item.signed .longLong true (-(2 ^ 63))) :: rest).flatMap Item.source)
      (((Item.signed .longLong true (-(2 ^ 63))) :: rest).flatMap Item.args ++ more) = none := by
  refine ⟨by simp [Item.Ok, passed], ?_⟩
  rfl

/-- **C64** violated: a conversion that is not known takes no argument, so that the arguments after it are printed in the wrong places: with
`%p` and `%d`, the pointer is printed as the number and the number is not printed.  With assertions enabled the system stops instead. -/
theorem C64_unknown_violated (flt : Option Nat) (str : Nat → Option (List Nat)) (p v : Nat) (h : v < 2 ^ 31) :
    (∃ blocks n, printf flt false str (chars "%p%d") [v, p] = some (blocks, n) ∧ blocks.flatten = 112 :: decimal v) ∧ printf flt true str (chars "%p%d") [v, p] = none := by
  refine ⟨?_, rfl⟩
  have hf : ((⟨[], []⟩ : File).putc 112).Good := (putc_spec ⟨by simp, by simp⟩ 112).1
  obtain ⟨g, k, h1, h2, h3, h4⟩ := item_spec flt false str (.signed .int true v) ⟨by simp only [passed]; omega, by simp only [passed]; omega⟩ trivial
    2 [] [p] hf 1
  have hb : Int.bmod (v : Int) (2 ^ width .int) = v := by
    simp only [width, Int.bmod]; norm_num; split <;> omega
  refine ⟨g.blocks ++ [g.buf], 1 + k, ?_, ?_⟩
  · have e : loop flt false str 4 (chars "%p%d") [v, p] ⟨[], []⟩ 0 =
        loop flt false str 3 ((Item.signed .int true v).source ++ []) [v, p] ((⟨[], []⟩ : File).putc 112) 1 := rfl
    have ea : (Item.signed .int true v).args ++ [p] = [v, p] := by
      simp only [Item.args, passed, words]
      norm_num
      omega
    have hl : (chars "%p%d").length = 4 := rfl
    unfold printf
    rw [hl, e, ← ea, h1]
    rfl
  · have : (g.blocks ++ [g.buf]).flatten = g.content := by simp [File.content]
    rw [this, h3, Item.shown, hb]
    rfl

/-- A call of `printf` in the kernel: `printf("%d,%x%%\n", -42, 255)` prints `-42,ff%` and returns 6 instead of 8. -/
example : printf none true (fun _ => none) (chars "%d,%x%%\n") [2 ^ 32 - 42, 255] = some ([chars "-42,ff%\n"], 6) := by decide +kernel

/-- The same call as items. -/
example : ∃ its : List Item, (∀ it ∈ its, it.Ok none fun _ => none) ∧ (∀ it ∈ its, Item.NoMin it) ∧ its.flatMap Item.source = chars "%d,%x%%\n" ∧
    its.flatMap Item.args = [2 ^ 32 - 42, 255] ∧ its.flatMap Item.shown = chars "-42,ff%\n" := by
  refine ⟨[.signed .int true (-42), .text 44, .unsigned .int 16 255, .percent, .text 10], ?_, ?_, by decide, by decide, by decide⟩
  · simp [Item.Ok, passed]
  · simp [Item.NoMin]

/-- The conversion to the size announced. -/
example : printf none true (fun _ => none) (chars "%hhd %hu") [200, 65537] = some ([chars "-56 1"], 3) := by decide +kernel

/-- The library's version: `printf("%f;", 2.75)`; the kernel's version does not know `f`. -/
example : printf (some 53) true (fun _ => none) (chars "%f;") [0, 0x40060000] = some ([chars "2.750000;"], 5) := by decide +kernel
example : printf none true (fun _ => none) (chars "%f;") [0, 0x40060000] = none := by decide +kernel

end Pok.Printf
