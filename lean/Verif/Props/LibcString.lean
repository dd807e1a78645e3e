import Mathlib.Tactic.Common
import Mathlib.Data.List.TakeWhile
import Verif.Spec.Libc

/-!
# String and memory routines (C45)

In every theorem the memory `m` is arbitrary outside the objects named in the hypotheses; in particular it may be
inaccessible everywhere else.  That the routine has a result (is not `none`) then says that it accesses nothing but
these objects.
-/

namespace Pok.Libc
open LibcSpec

theorem _root_.Pok.LibcSpec.Has.tail {m : Mem} {a c : Nat} {u : List Nat} (h : Has m a (c :: u)) : Has m (a + 1) u := by
  intro i hi
  have := h (i + 1) (by simp; omega)
  rw [show a + (i + 1) = a + 1 + i by omega] at this
  simpa using this

theorem _root_.Pok.LibcSpec.Has.head {m : Mem} {a c : Nat} {u : List Nat} (h : Has m a (c :: u)) : m a = some c := by
  have := h 0 (by simp)
  rwa [Nat.add_zero, List.getElem_cons_zero] at this

/-! ## memcpy, memset -/

theorem store_some {m : Mem} {a : Nat} (v : Nat) (h : (m a).isSome = true) : store m a v = some (upd m a (some v)) := by
  unfold store
  cases hm : m a with
  | none => rw [hm] at h; cases h
  | some x => rfl

/-- **C45** `memcpy`: for objects of `n` bytes that do not overlap, the bytes of the source are in the destination
afterwards and nothing else has changed. -/
theorem C45_memcpy (m : Mem) (dest src : Nat) (u : List Nat) (hs : Has m src u) (hd : Writable m dest u.length)
    (ha : Apart dest u.length src u.length) : ∃ m', memcpy m dest src u.length = some m' ∧ Wrote m m' dest u := by
  induction u generalizing m dest src with
  | nil => exact ⟨m, rfl, (fun i hi => by simp at hi), fun _ _ => rfl⟩
  | cons c u ih =>
    simp only [List.length_cons, memcpy, hs.head]
    rw [store_some _ (by simpa using hd 0 (by simp))]
    dsimp only
    simp only [List.length_cons, Apart] at ha
    have hs' : Has (upd m dest (some c)) (src + 1) u := by
      intro i hi
      rw [upd_other _ _ (by omega)]
      exact hs.tail i hi
    have hd' : Writable (upd m dest (some c)) (dest + 1) u.length := by
      intro i hi
      rw [upd_other _ _ (by omega)]
      have := hd (i + 1) (by simp; omega)
      rwa [show dest + (i + 1) = dest + 1 + i by omega] at this
    obtain ⟨m', h1, h2, h3⟩ := ih _ _ _ hs' hd' (by simp only [Apart]; omega)
    refine ⟨m', h1, ?_, ?_⟩
    · intro i hi
      cases i with
      | zero =>
        rw [h3 _ (by omega)]
        simp [upd_same]
      | succ i =>
        have := h2 i (by simp at hi; omega)
        rw [show dest + (i + 1) = dest + 1 + i by omega, this]
        simp
    · intro x hx
      simp only [List.length_cons] at hx
      rw [h3 x (by omega), upd_other _ _ (by omega)]

theorem movs_spec (m : Mem) (dest src n : Nat) (u : List Nat) (hn : n ≤ u.length) (hs : Has m src u) (hd : Writable m dest u.length) :
    ∃ m', movs m dest src n = some m' ∧ Wrote m m' dest (u.take n) := by
  unfold movs
  rw [if_pos]
  · refine ⟨_, rfl, ?_, ?_⟩
    · intro i hi
      simp only [List.length_take] at hi
      dsimp only
      rw [if_pos (by omega), show dest + i - dest = i by omega, hs i (by omega)]
      simp
    · intro x hx
      rw [List.length_take, Nat.min_eq_left hn] at hx
      show (if _ then _ else _) = _
      rw [if_neg (by omega)]
  · refine ⟨fun k hk => ?_, fun k hk => hd k (by omega)⟩
    rw [hs k (by omega)]; rfl

/-- Writing the two parts of a list one after the other. -/
theorem _root_.Pok.LibcSpec.Wrote.append {m m1 m2 : Mem} {a : Nat} {u v : List Nat} (h1 : Wrote m m1 a u) (h2 : Wrote m1 m2 (a + u.length) v) :
    Wrote m m2 a (u ++ v) := by
  refine ⟨?_, ?_⟩
  · intro i hi
    by_cases hu : i < u.length
    · rw [h2.2 _ (by omega), h1.1 i hu, List.getElem_append_left hu]
    · have := h2.1 (i - u.length) (by simp at hi; omega)
      rw [show a + u.length + (i - u.length) = a + i by omega] at this
      rw [this, List.getElem_append_right (by omega)]
  · intro x hx
    simp only [List.length_append] at hx
    rw [h2.2 _ (by omega), h1.2 _ (by omega)]

theorem _root_.Pok.LibcSpec.Has.drop {m : Mem} {a : Nat} {u : List Nat} (h : Has m a u) (k : Nat) : Has m (a + k) (u.drop k) := by
  intro i hi
  simp only [List.length_drop] at hi
  have := h (k + i) (by omega)
  rw [show a + (k + i) = a + k + i by omega] at this
  simpa using this

/-- After writing the first bytes of the destination, the rest of the source is still there. -/
theorem _root_.Pok.LibcSpec.Wrote.keep {m m1 : Mem} {dest src k : Nat} {u : List Nat} (hk : k ≤ u.length) (h : Wrote m m1 dest (u.take k))
    (hs : Has m src u) (hd : Writable m dest u.length) (ha : Apart dest u.length src u.length) :
    Has m1 (src + k) (u.drop k) ∧ Writable m1 (dest + k) (u.drop k).length ∧
      Apart (dest + k) (u.drop k).length (src + k) (u.drop k).length := by
  have hl : (u.take k).length = k := by simp [hk]
  refine ⟨?_, ?_, ?_⟩
  · intro i hi
    have hi' := hi
    simp only [List.length_drop] at hi'
    rw [h.2 _ (by rw [hl]; unfold Apart at ha; omega)]
    exact hs.drop k i hi
  · intro i hi
    simp only [List.length_drop] at hi
    rw [h.2 _ (by rw [hl]; omega), Nat.add_assoc]
    exact hd (k + i) (by omega)
  · unfold Apart at *
    simp only [List.length_drop]
    omega

theorem repMovsl_spec (c : Nat) : ∀ (m : Mem) (dest src : Nat) (u : List Nat), c * 4 ≤ u.length → Has m src u →
    Writable m dest u.length → Apart dest u.length src u.length →
    ∃ m', repMovsl m dest src c = some m' ∧ Wrote m m' dest (u.take (c * 4)) := by
  induction c with
  | zero => intro m dest src u _ _ _ _; exact ⟨m, rfl, (fun i hi => by simp at hi), fun _ _ => rfl⟩
  | succ c ih =>
    intro m dest src u hn hs hd ha
    obtain ⟨m1, h1, w1⟩ := movs_spec m dest src 4 u (by omega) hs hd
    obtain ⟨hs', hd', ha'⟩ := w1.keep (by omega) hs hd ha
    obtain ⟨m2, h2, w2⟩ := ih m1 (dest + 4) (src + 4) (u.drop 4) (by simp; omega) hs' hd' ha'
    refine ⟨m2, by simp only [repMovsl, h1, h2], ?_⟩
    have hl : (u.take 4).length = 4 := by simp; omega
    have := w1.append (v := (u.drop 4).take (c * 4)) (by rw [hl]; exact w2)
    rwa [← List.take_add, show 4 + c * 4 = (c + 1) * 4 by omega] at this

/-- **C45** `memcpy` for x86, in assembly: the same. -/
theorem C45_memcpy_x86 (m : Mem) (dest src : Nat) (u : List Nat) (hs : Has m src u) (hd : Writable m dest u.length)
    (ha : Apart dest u.length src u.length) : ∃ m', memcpyX86 m dest src u.length = some m' ∧ Wrote m m' dest u := by
  obtain ⟨m1, h1, w1⟩ := repMovsl_spec (u.length / 4) m dest src u (by omega) hs hd ha
  obtain ⟨hs1, hd1, ha1⟩ := w1.keep (by omega) hs hd ha
  have hl1 : (u.take (u.length / 4 * 4)).length = u.length / 4 * 4 := by simp; omega
  have hdl := List.length_drop (i := u.length / 4 * 4) (l := u)
  unfold memcpyX86
  rw [h1]
  dsimp only
  by_cases hb : u.length / 2 % 2 = 1
  · simp only [if_pos hb]
    obtain ⟨m2, h2, w2⟩ := movs_spec m1 (dest + u.length / 4 * 4) (src + u.length / 4 * 4) 2 _ (by omega) hs1 hd1
    obtain ⟨hs2, hd2, _⟩ := w2.keep (by omega) hs1 hd1 ha1
    have w12 := w1.append (by rw [hl1]; exact w2)
    rw [← List.take_add] at w12
    rw [h2]
    dsimp only
    by_cases hc : u.length % 2 = 1
    · rw [if_pos hc]
      obtain ⟨m3, h3, w3⟩ := movs_spec m2 _ _ 1 _ (by rw [List.length_drop]; omega) hs2 hd2
      have hl2 : (u.take (u.length / 4 * 4 + 2)).length = u.length / 4 * 4 + 2 := by simp; omega
      have w := w12.append (by rw [hl2, ← Nat.add_assoc]; exact w3)
      rw [List.drop_drop, ← List.take_add, show u.length / 4 * 4 + 2 + 1 = u.length by omega, List.take_length] at w
      exact ⟨m3, h3, w⟩
    · rw [if_neg hc]
      rw [show u.length / 4 * 4 + 2 = u.length by omega, List.take_length] at w12
      exact ⟨m2, rfl, w12⟩
  · simp only [if_neg hb, Nat.add_zero]
    by_cases hc : u.length % 2 = 1
    · rw [if_pos hc]
      obtain ⟨m3, h3, w3⟩ := movs_spec m1 _ _ 1 _ (by omega) hs1 hd1
      have w := w1.append (by rw [hl1]; exact w3)
      rw [← List.take_add, show u.length / 4 * 4 + 1 = u.length by omega, List.take_length] at w
      exact ⟨m3, h3, w⟩
    · rw [if_neg hc]
      rw [show u.length / 4 * 4 = u.length by omega, List.take_length] at w1
      exact ⟨m1, rfl, w1⟩

/-- **C45** `memset`: the `n` bytes of the object get the value and nothing else changes. -/
theorem C45_memset (m : Mem) (dest val n : Nat) (hd : Writable m dest n) :
    ∃ m', memset m dest val n = some m' ∧ Wrote m m' dest (List.replicate n val) := by
  induction n generalizing m dest with
  | zero => exact ⟨m, rfl, (fun i hi => by simp at hi), fun _ _ => rfl⟩
  | succ n ih =>
    simp only [memset]
    rw [store_some _ (by simpa using hd 0 (by omega))]
    have hd' : Writable (upd m dest (some val)) (dest + 1) n := by
      intro i hi
      rw [upd_other _ _ (by omega), Nat.add_assoc]
      exact hd (1 + i) (by omega)
    obtain ⟨m', h1, w⟩ := ih _ _ hd'
    refine ⟨m', h1, ?_⟩
    have w0 : Wrote m (upd m dest (some val)) dest [val] := by
      refine ⟨?_, ?_⟩
      · intro i hi
        have : i = 0 := by simpa using hi
        subst this
        simp [upd_same]
      · intro x hx
        simp only [List.length_singleton] at hx
        exact upd_other _ _ (by omega)
    exact w0.append w

/-! ## Strings -/

theorem strlen_loop (s : List Nat) : ∀ (m : Mem) (a len fuel : Nat), Has m a (s ++ [0]) → 0 ∉ s → s.length < fuel →
    strlenLoop m a len fuel = some (len + s.length) := by
  induction s with
  | nil =>
    intro m a len fuel h _ hf
    obtain ⟨f, rfl⟩ : ∃ f, fuel = f + 1 := ⟨fuel - 1, by simp at hf; omega⟩
    have h0 : m a = some 0 := Has.head h
    simp [strlenLoop, h0]
  | cons c s ih =>
    intro m a len fuel h hz hf
    simp only [List.length_cons] at hf
    obtain ⟨f, rfl⟩ : ∃ f, fuel = f + 1 := ⟨fuel - 1, by omega⟩
    simp only [List.mem_cons, not_or] at hz
    have h0 : m a = some c := Has.head h
    simp only [strlenLoop, h0]
    rw [if_pos (Ne.symm hz.1), ih m (a + 1) (len + 1) f (Has.tail h) hz.2 (by omega)]
    simp only [List.length_cons]
    congr 1
    omega

/-- **C45** `strlen`: the length of every string. -/
theorem C45_strlen (m : Mem) (a : Nat) (s : List Nat) (h : IsStr m a s) (hl : s.length < 2 ^ 32 - 1) :
    strlen m a = some s.length := by
  have := strlen_loop s m a 0 FUEL h.1 h.2 (by unfold FUEL; omega)
  simpa [strlen] using this

theorem scasb_loop (s : List Nat) : ∀ (m : Mem) (a ecx : Nat), Has m a (s ++ [0]) → 0 ∉ s → s.length < ecx →
    scasb m a ecx = some (ecx - s.length - 1) := by
  induction s with
  | nil =>
    intro m a ecx h _ hf
    obtain ⟨f, rfl⟩ : ∃ f, ecx = f + 1 := ⟨ecx - 1, by simp at hf; omega⟩
    have h0 : m a = some 0 := Has.head h
    simp [scasb, h0]
  | cons c s ih =>
    intro m a ecx h hz hf
    simp only [List.length_cons] at hf
    obtain ⟨f, rfl⟩ : ∃ f, ecx = f + 1 := ⟨ecx - 1, by omega⟩
    simp only [List.mem_cons, not_or] at hz
    have h0 : m a = some c := Has.head h
    simp only [scasb, h0]
    rw [if_neg (Ne.symm hz.1), ih m (a + 1) f (Has.tail h) hz.2 (by omega)]
    simp only [List.length_cons]
    congr 1
    omega

/-- **C45** `strlen` for x86, in assembly: the same. -/
theorem C45_strlen_x86 (m : Mem) (a : Nat) (s : List Nat) (h : IsStr m a s) (hl : s.length < 2 ^ 32 - 1) :
    strlenX86 m a = some s.length := by
  unfold strlenX86
  rw [scasb_loop s m a _ h.1 h.2 hl, Option.map_some, Option.some.injEq]
  generalize s.length = n at *
  omega

/-- The comparison the code makes, with the characters read as numbers by `f`. -/
def compareBy (f : Nat → Int) : List Nat → List Nat → Int
  | [], [] => 0
  | [], b :: _ => if f 0 < f b then -1 else 1
  | a :: _, [] => if f a < f 0 then -1 else 1
  | a :: s, b :: t => if f a < f b then -1 else if f a > f b then 1 else compareBy f s t

theorem compareBy_unsigned (f : Nat → Int) (s : List Nat) : ∀ t : List Nat, (∀ c ∈ s, f c = c) → (∀ c ∈ t, f c = c) → f 0 = 0 →
    0 ∉ s → 0 ∉ t → compareBy f s t = cmpStr s t := by
  induction s with
  | nil =>
    intro t _ ht h0 _ hz
    cases t with
    | nil => rfl
    | cons b t =>
      simp only [compareBy, cmpStr]
      simp only [List.mem_cons, not_or] at hz
      rw [h0, ht b List.mem_cons_self, if_pos (by omega)]
  | cons a s ih =>
    intro t hs ht h0 hz hz'
    simp only [List.mem_cons, not_or] at hz
    cases t with
    | nil =>
      simp only [compareBy, cmpStr]
      rw [h0, hs a List.mem_cons_self, if_neg (by omega)]
    | cons b t =>
      simp only [List.mem_cons, not_or] at hz'
      simp only [compareBy, cmpStr]
      rw [hs a List.mem_cons_self, ht b List.mem_cons_self,
        ih t (fun c hc => hs c (List.mem_cons_of_mem _ hc)) (fun c hc => ht c (List.mem_cons_of_mem _ hc)) h0 hz.2 hz'.2]
      by_cases h1 : a < b
      · rw [if_pos h1, if_pos (by omega)]
      · rw [if_neg h1, if_neg (by omega)]
        by_cases h2 : b < a
        · rw [if_pos h2, if_pos (by omega)]
        · rw [if_neg h2, if_neg (by omega)]

theorem charVal_inj {signed : Bool} {a b : Nat} (ha : a < 256) (hb : b < 256) (h1 : ¬charVal signed a < charVal signed b)
    (h2 : ¬charVal signed a > charVal signed b) : a = b := by
  unfold charVal at h1 h2
  split at h1 <;> split at h1 <;> simp_all <;> omega

theorem compareBy_eq_zero (signed : Bool) (s : List Nat) : ∀ t : List Nat, (∀ c ∈ s, c < 256) → (∀ c ∈ t, c < 256) →
    0 ∉ s → 0 ∉ t → (compareBy (charVal signed) s t = 0 ↔ s = t) := by
  induction s with
  | nil =>
    intro t _ _ _ _
    cases t with
    | nil => simp [compareBy]
    | cons b t =>
      simp only [compareBy]
      split <;> simp
  | cons a s ih =>
    intro t hs ht hz hz'
    simp only [List.mem_cons, not_or] at hz
    cases t with
    | nil =>
      simp only [compareBy]
      split <;> simp
    | cons b t =>
      simp only [List.mem_cons, not_or] at hz'
      simp only [compareBy]
      have := ih t (fun c hc => hs c (List.mem_cons_of_mem _ hc)) (fun c hc => ht c (List.mem_cons_of_mem _ hc)) hz.2 hz'.2
      split
      · rename_i h
        simp only [List.cons.injEq]
        refine ⟨fun e => by simp at e, ?_⟩
        rintro ⟨rfl, _⟩
        omega
      · split
        · rename_i h
          simp only [List.cons.injEq]
          refine ⟨fun e => by simp at e, ?_⟩
          rintro ⟨rfl, _⟩
          omega
        · rename_i h1 h2
          have := charVal_inj (hs a List.mem_cons_self) (ht b List.mem_cons_self) h1 h2
          subst this
          simp_all

theorem charVal_zero (signed : Bool) : charVal signed 0 = 0 := by unfold charVal; simp

theorem charVal_ne {signed : Bool} {b : Nat} (hb : b < 256) (h0 : b ≠ 0) (h : ¬charVal signed 0 < charVal signed b) :
    charVal signed 0 > charVal signed b := by
  rcases lt_trichotomy (charVal signed 0) (charVal signed b) with h' | h' | h'
  · exact absurd h' h
  · exact absurd (charVal_inj (by omega) hb h (by omega)).symm h0
  · exact h'

theorem strcmp_loop (signed : Bool) (s : List Nat) : ∀ (m : Mem) (a b fuel : Nat) (t : List Nat), Has m a (s ++ [0]) →
    Has m b (t ++ [0]) → 0 ∉ s → 0 ∉ t → (∀ c ∈ s, c < 256) → (∀ c ∈ t, c < 256) → s.length < fuel →
    strcmpLoop signed m a b fuel = some (compareBy (charVal signed) s t) := by
  induction s with
  | nil =>
    intro m a b fuel t hs ht _ hz _ hbt hf
    obtain ⟨f, rfl⟩ : ∃ f, fuel = f + 1 := ⟨fuel - 1, by simp at hf; omega⟩
    have h0 : m a = some 0 := Has.head hs
    cases t with
    | nil =>
      have h1 : m b = some 0 := Has.head ht
      simp [strcmpLoop, h0, h1, compareBy]
    | cons c t =>
      have h1 : m b = some c := Has.head ht
      simp only [List.mem_cons, not_or] at hz
      simp only [strcmpLoop, h0, h1, compareBy]
      rw [if_neg (by simp; exact Ne.symm hz.1)]
      by_cases h : charVal signed 0 < charVal signed c
      · rw [if_pos h, if_pos h]
      · rw [if_neg h, if_neg h, if_pos (charVal_ne (hbt c List.mem_cons_self) (Ne.symm hz.1) h)]
  | cons d s ih =>
    intro m a b fuel t hs ht hz hz' hbs hbt hf
    simp only [List.length_cons] at hf
    obtain ⟨f, rfl⟩ : ∃ f, fuel = f + 1 := ⟨fuel - 1, by omega⟩
    simp only [List.mem_cons, not_or] at hz
    have h0 : m a = some d := Has.head hs
    cases t with
    | nil =>
      have h1 : m b = some 0 := Has.head ht
      simp only [strcmpLoop, h0, h1, compareBy]
      rw [if_neg (by simp; exact Ne.symm hz.1)]
      by_cases h : charVal signed d < charVal signed 0
      · rw [if_pos h, if_pos h]
      · rw [if_neg h, if_neg h, if_pos]
        rcases lt_trichotomy (charVal signed d) (charVal signed 0) with h' | h' | h'
        · exact absurd h' h
        · exact absurd (charVal_inj (hbs d List.mem_cons_self) (by omega) h (by omega)) (Ne.symm hz.1)
        · exact h'
    | cons c t =>
      have h1 : m b = some c := Has.head ht
      simp only [List.mem_cons, not_or] at hz'
      simp only [strcmpLoop, h0, h1, compareBy]
      rw [if_neg (by intro h; exact hz.1 h.1.symm)]
      rw [ih m (a + 1) (b + 1) f t (Has.tail hs) (Has.tail ht) hz.2 hz'.2 (fun c hc => hbs c (List.mem_cons_of_mem _ hc))
        (fun c hc => hbt c (List.mem_cons_of_mem _ hc)) (by omega)]
      by_cases h : charVal signed d < charVal signed c
      · rw [if_pos h, if_pos h]
      · rw [if_neg h, if_neg h]
        by_cases h' : charVal signed d > charVal signed c
        · rw [if_pos h', if_pos h']
        · rw [if_neg h', if_neg h']

/-- **C45** `strcmp` (part: order).  For all strings of 7-bit characters, or when `char` is unsigned, the result is
that of the comparison of ISO C.

Missing: bytes from 128 where `char` is signed, see below. -/
theorem C45_strcmp_order_partial (signed : Bool) (m : Mem) (a b : Nat) (s t : List Nat) (hs : IsStr m a s) (ht : IsStr m b t)
    (hl : s.length < 2 ^ 32 - 1) (hbs : ∀ c ∈ s, c < 256) (hbt : ∀ c ∈ t, c < 256)
    (h7 : signed = true → (∀ c ∈ s, c < 128) ∧ (∀ c ∈ t, c < 128)) :
    strcmp signed m a b = some (cmpStr s t) := by
  unfold strcmp
  rw [strcmp_loop signed s m a b _ t hs.1 ht.1 hs.2 ht.2 hbs hbt (by unfold FUEL; omega)]
  congr 1
  apply compareBy_unsigned _ _ _ ?_ ?_ (charVal_zero _) hs.2 ht.2
  · intro c hc
    unfold charVal
    rw [if_neg]
    rintro ⟨h1, h2⟩
    have := (h7 h1).1 c hc
    omega
  · intro c hc
    unfold charVal
    rw [if_neg]
    rintro ⟨h1, h2⟩
    have := (h7 h1).2 c hc
    omega

/-- **C45** `strcmp` (equality).  For all strings, the result is 0 exactly when they are equal. -/
theorem C45_strcmp_eq (signed : Bool) (m : Mem) (a b : Nat) (s t : List Nat) (hs : IsStr m a s) (ht : IsStr m b t)
    (hl : s.length < 2 ^ 32 - 1) (hbs : ∀ c ∈ s, c < 256) (hbt : ∀ c ∈ t, c < 256) :
    ∃ r, strcmp signed m a b = some r ∧ (r = 0 ↔ s = t) := by
  refine ⟨_, strcmp_loop signed s m a b _ t hs.1 ht.1 hs.2 ht.2 hbs hbt (by unfold FUEL; omega), ?_⟩
  exact compareBy_eq_zero signed s t hbs hbt hs.2 ht.2

/-- A memory with the given bytes from address 0 on, and nothing else. -/
def ofList (u : List Nat) : Mem := fun a => u[a]?

/-- **C45** `strcmp` fails on bytes from 128 on x86: "\x80" is said to be before "\x01". -/
theorem C45_strcmp_violated : strcmp true (ofList [128, 0, 1, 0]) 0 2 = some (-1) ∧ cmpStr [128] [1] = 1 := by
  refine ⟨?_, by decide⟩
  have : FUEL = (2 ^ 32 - 1) + 1 := by decide
  unfold strcmp
  rw [this]
  simp [strcmpLoop, ofList, charVal]

theorem cut_cons {c : Nat} {u : List Nat} {n : Nat} : cut (c :: u) (n + 1) = if c = 0 then [] else c :: cut u n := by
  unfold cut
  by_cases h : c = 0 <;> simp [h]

theorem strncmp_loop (signed : Bool) (n : Nat) : ∀ (m : Mem) (a b : Nat) (u v : List Nat), Has m a u → Has m b v → Covers u n →
    Covers v n → (∀ c ∈ u, c < 256) → (∀ c ∈ v, c < 256) →
    strncmp signed m a b n = some (compareBy (charVal signed) (cut u n) (cut v n)) := by
  induction n with
  | zero => intro m a b u v _ _ _ _ _ _; simp [strncmp, cut, compareBy]
  | succ n ih =>
    intro m a b u v hu hv cu cv bu bv
    cases u with
    | nil => simp [Covers] at cu
    | cons c u =>
      cases v with
      | nil => simp [Covers] at cv
      | cons d v =>
        have h0 : m a = some c := hu.head
        have h1 : m b = some d := hv.head
        simp only [strncmp, h0, h1, cut_cons]
        by_cases hc : c = 0
        · subst hc
          by_cases hd : d = 0
          · subst hd; simp [compareBy]
          · rw [if_neg (by simp [hd]), if_pos rfl, if_neg hd]
            simp only [compareBy]
            by_cases h : charVal signed 0 < charVal signed d
            · rw [if_pos h, if_pos h]
            · rw [if_neg h, if_neg h, if_pos (charVal_ne (bv d List.mem_cons_self) hd h)]
        · rw [if_neg (by simp [hc]), if_neg hc]
          by_cases hd : d = 0
          · subst hd
            rw [if_pos rfl]
            simp only [compareBy]
            by_cases h : charVal signed c < charVal signed 0
            · rw [if_pos h, if_pos h]
            · rw [if_neg h, if_neg h, if_pos]
              rcases lt_trichotomy (charVal signed c) (charVal signed 0) with h' | h' | h'
              · exact absurd h' h
              · exact absurd (charVal_inj (bu c List.mem_cons_self) (by omega) h (by omega)) hc
              · exact h'
          · rw [if_neg hd]
            simp only [compareBy]
            rw [ih m (a + 1) (b + 1) u v hu.tail hv.tail ?_ ?_ (fun c hc => bu c (List.mem_cons_of_mem _ hc))
              (fun c hc => bv c (List.mem_cons_of_mem _ hc))]
            · by_cases h : charVal signed c < charVal signed d
              · rw [if_pos h, if_pos h]
              · rw [if_neg h, if_neg h]
                by_cases h' : charVal signed c > charVal signed d
                · rw [if_pos h', if_pos h']
                · rw [if_neg h', if_neg h']
            · rcases cu with h | h
              · exact .inl (by simpa using h)
              · exact .inr (by simpa [Ne.symm hc] using h)
            · rcases cv with h | h
              · exact .inl (by simpa using h)
              · exact .inr (by simpa [Ne.symm hd] using h)

theorem cut_sub {u : List Nat} {n c : Nat} (h : c ∈ cut u n) : c ∈ u :=
  List.take_subset _ _ (List.takeWhile_subset _ h)

theorem cut_nz {u : List Nat} {n : Nat} : 0 ∉ cut u n := by
  intro h
  have := List.mem_takeWhile_imp h
  simp at this

/-- **C45** `strncmp` (part): as for `strcmp`, up to `n` characters.  The arrays need no null byte if they have `n`
bytes. -/
theorem C45_strncmp_order_partial (signed : Bool) (m : Mem) (a b n : Nat) (u v : List Nat) (hu : Has m a u) (hv : Has m b v)
    (cu : Covers u n) (cv : Covers v n) (bu : ∀ c ∈ u, c < 256) (bv : ∀ c ∈ v, c < 256)
    (h7 : signed = true → (∀ c ∈ u, c < 128) ∧ (∀ c ∈ v, c < 128)) :
    strncmp signed m a b n = some (cmpStr (cut u n) (cut v n)) := by
  rw [strncmp_loop signed n m a b u v hu hv cu cv bu bv]
  congr 1
  apply compareBy_unsigned _ _ _ ?_ ?_ (charVal_zero _) cut_nz cut_nz
  · intro c hc
    unfold charVal
    rw [if_neg]
    rintro ⟨h1, h2⟩
    have := (h7 h1).1 c (cut_sub hc)
    omega
  · intro c hc
    unfold charVal
    rw [if_neg]
    rintro ⟨h1, h2⟩
    have := (h7 h1).2 c (cut_sub hc)
    omega

/-- **C45** `strncmp` (equality). -/
theorem C45_strncmp_eq (signed : Bool) (m : Mem) (a b n : Nat) (u v : List Nat) (hu : Has m a u) (hv : Has m b v)
    (cu : Covers u n) (cv : Covers v n) (bu : ∀ c ∈ u, c < 256) (bv : ∀ c ∈ v, c < 256) :
    ∃ r, strncmp signed m a b n = some r ∧ (r = 0 ↔ cut u n = cut v n) := by
  refine ⟨_, strncmp_loop signed n m a b u v hu hv cu cv bu bv, ?_⟩
  exact compareBy_eq_zero signed _ _ (fun c hc => bu c (cut_sub hc)) (fun c hc => bv c (cut_sub hc)) cut_nz cut_nz

/-- The lookup of events and semaphores (`idMatches`) is `strncmp(requested, configured, strlen(requested)) == 0`. -/
theorem idMatches_strncmp (signed : Bool) (m : Mem) (a b : Nat) (s t : List Nat) (hs : IsStr m a s) (ht : IsStr m b t)
    (hbs : ∀ c ∈ s, c < 256) (hbt : ∀ c ∈ t, c < 256) (hl : s.length < 65536) :
    ∃ r, strncmp signed m a b (s.length % 65536) = some r ∧ (r = 0 ↔ idMatches s t = true) := by
  rw [Nat.mod_eq_of_lt hl]
  obtain ⟨r, h1, h2⟩ := C45_strncmp_eq signed m a b s.length (s ++ [0]) (t ++ [0]) hs.1 ht.1 (.inr (by simp)) (.inr (by simp))
    (by intro c hc; rcases List.mem_append.1 hc with h | h; exact hbs c h; simp at h; omega)
    (by intro c hc; rcases List.mem_append.1 hc with h | h; exact hbt c h; simp at h; omega)
  refine ⟨r, h1, h2.trans ?_⟩
  unfold idMatches eqUpTo
  rw [Nat.mod_eq_of_lt hl]
  simp only [beq_iff_eq]
  have e1 : (s ++ [0]).take s.length = s := List.take_left' rfl
  have c1 : cut (s ++ [0]) s.length = s := by
    unfold cut
    rw [e1, List.takeWhile_eq_self_iff]
    intro c hc
    simp only [ne_eq, decide_eq_true_eq]
    rintro rfl
    exact hs.2 hc
  rw [c1, e1]
  by_cases hle : s.length ≤ t.length
  · unfold cut
    rw [List.take_append_of_le_length hle]
    have : (t.take s.length).takeWhile (· ≠ 0) = t.take s.length := by
      rw [List.takeWhile_eq_self_iff]
      intro c hc
      simp only [ne_eq, decide_eq_true_eq]
      rintro rfl
      exact ht.2 (List.take_subset _ _ hc)
    rw [this]
  · have hz : (0 : Nat) ∈ (t ++ [0]).take s.length := by
      rw [List.take_append]
      apply List.mem_append_right
      rw [show s.length - t.length = (s.length - t.length - 1) + 1 by omega]
      simp
    constructor
    · intro h
      have hlen : (cut (t ++ [0]) s.length).length ≤ t.length := by
        unfold cut
        rw [List.take_of_length_le (by simp; omega), List.takeWhile_append_of_pos]
        · simp
        · intro c hc
          simp only [ne_eq, decide_eq_true_eq]
          rintro rfl
          exact ht.2 hc
      rw [← h] at hlen
      omega
    · intro h
      rw [← h] at hz
      exact absurd hz hs.2

/-- **C45** `strcpy`: for a string and a destination of its size that do not overlap, the destination holds the
string afterwards and nothing else has changed. -/
theorem C45_strcpy (m : Mem) (dest src : Nat) (s : List Nat) (hs : IsStr m src s) (hd : Writable m dest (s.length + 1))
    (ha : Apart dest (s.length + 1) src (s.length + 1)) (hl : s.length < 2 ^ 32 - 1) :
    ∃ m', strcpy m dest src = some m' ∧ Wrote m m' dest (s ++ [0]) := by
  suffices ∀ (s : List Nat) (m : Mem) (dest src fuel : Nat), Has m src (s ++ [0]) → 0 ∉ s → Writable m dest (s.length + 1) →
      Apart dest (s.length + 1) src (s.length + 1) → s.length < fuel →
      ∃ m', strcpyLoop m dest src fuel = some m' ∧ Wrote m m' dest (s ++ [0]) from
    this s m dest src FUEL hs.1 hs.2 hd ha (by unfold FUEL; omega)
  have w1 : ∀ (m : Mem) (a v : Nat), Wrote m (upd m a (some v)) a [v] := by
    intro m a v
    refine ⟨?_, ?_⟩
    · intro i hi
      have : i = 0 := by simpa using hi
      subst this
      simp [upd_same]
    · intro x hx
      simp only [List.length_singleton] at hx
      exact upd_other _ _ (by omega)
  intro s
  induction s with
  | nil =>
    intro m dest src fuel h _ hd _ hf
    obtain ⟨f, rfl⟩ : ∃ f, fuel = f + 1 := ⟨fuel - 1, by simp at hf; omega⟩
    have h0 : m src = some 0 := Has.head h
    simp only [strcpyLoop, h0]
    rw [if_neg (by simp), store_some _ (by simpa using hd 0 (by omega))]
    exact ⟨_, rfl, w1 _ _ _⟩
  | cons c s ih =>
    intro m dest src fuel h hz hd ha hf
    simp only [List.length_cons] at hf hd ha
    obtain ⟨f, rfl⟩ : ∃ f, fuel = f + 1 := ⟨fuel - 1, by omega⟩
    simp only [List.mem_cons, not_or] at hz
    have h0 : m src = some c := Has.head h
    simp only [strcpyLoop, h0]
    rw [if_pos (Ne.symm hz.1), store_some _ (by simpa using hd 0 (by omega))]
    dsimp only
    unfold Apart at ha
    have hs1 : Has (upd m dest (some c)) (src + 1) (s ++ [0]) := by
      intro i hi
      have hi' := hi
      simp only [List.length_append, List.length_singleton] at hi'
      rw [upd_other _ _ (by omega)]
      exact Has.tail h i hi
    have hd1 : Writable (upd m dest (some c)) (dest + 1) (s.length + 1) := by
      intro i hi
      rw [upd_other _ _ (by omega), Nat.add_assoc]
      exact hd (1 + i) (by omega)
    obtain ⟨m', h1, w⟩ := ih (upd m dest (some c)) (dest + 1) (src + 1) f hs1 hz.2 hd1 (by unfold Apart; omega) (by omega)
    exact ⟨m', h1, (w1 m dest c).append w⟩

/-! ## memcmp, strncpy -/

theorem load32_byte {m : Mem} {s x : Nat} (h : load32 m s = some x) :
    ∃ b0 b1 b2 b3, m s = some b0 ∧ m (s + 1) = some b1 ∧ m (s + 2) = some b2 ∧ m (s + 3) = some b3 ∧
      x = b0 + 256 * b1 + 65536 * b2 + 16777216 * b3 := by
  unfold load32 at h
  split at h
  · rename_i b0 b1 b2 b3 h0 h1 h2 h3
    exact ⟨b0, b1, b2, b3, h0, h1, h2, h3, by simpa using h.symm⟩
  · cases h

/-- **C45** `memcmp` (part): when it has a result and the result is 0, the `n` bytes are equal.

Missing: the converse and the order; the code compares `4 n` bytes, see below. -/
theorem C45_memcmp_partial (n : Nat) : ∀ (m : Mem) (a b : Nat), (∀ x c, m x = some c → c < 256) → memcmp m a b n = some 0 →
    ∀ i < n, m (a + i) = m (b + i) := by
  suffices ∀ (n : Nat) (m : Mem) (a b : Nat), (∀ x c, m x = some c → c < 256) → memcmp m a b n = some 0 →
      ∀ i < 4 * n, m (a + i) = m (b + i) from
    fun m a b hb h i hi => this n m a b hb h i (by omega)
  intro n
  induction n with
  | zero => intro m a b _ _ i hi; omega
  | succ n ih =>
    intro m a b hb h i hi
    simp only [memcmp] at h
    cases hx : load32 m a with
    | none => rw [hx] at h; cases h
    | some x =>
      cases hy : load32 m b with
      | none => rw [hx, hy] at h; cases h
      | some y =>
        rw [hx, hy] at h
        dsimp only at h
        by_cases hxy : x = y
        · rw [if_neg (by simpa using hxy)] at h
          obtain ⟨p0, p1, p2, p3, q0, q1, q2, q3, qe⟩ := load32_byte hx
          obtain ⟨r0, r1, r2, r3, s0, s1, s2, s3, se⟩ := load32_byte hy
          have := hb _ _ q0
          have := hb _ _ q1
          have := hb _ _ q2
          have := hb _ _ s0
          have := hb _ _ s1
          have := hb _ _ s2
          have e0 : p0 = r0 := by omega
          have e1 : p1 = r1 := by omega
          have e2 : p2 = r2 := by omega
          have e3 : p3 = r3 := by omega
          subst e0 e1 e2 e3
          by_cases h4 : i < 4
          · have : i = 0 ∨ i = 1 ∨ i = 2 ∨ i = 3 := by omega
            rcases this with rfl | rfl | rfl | rfl
            · simp only [Nat.add_zero]; rw [q0, s0]
            · rw [q1, s1]
            · rw [q2, s2]
            · rw [q3, s3]
          · have := ih m (a + 4) (b + 4) hb h (i - 4) (by omega)
            rwa [show a + 4 + (i - 4) = a + i by omega, show b + 4 + (i - 4) = b + i by omega] at this
        · rw [if_pos hxy] at h
          split at h <;> simp at h

/-- **C45** `memcmp` fails: it reads outside objects of `n` bytes; it says that equal objects differ, because of the
bytes after them; and it takes the bytes of a word in the wrong order. -/
theorem C45_memcmp_violated :
    memcmp (ofList [5, 5]) 0 1 1 = none ∧
    memcmp (ofList [7, 0, 0, 0, 7, 1, 0, 0]) 0 4 1 = some (-1) ∧
    memcmp (ofList [1, 2, 0, 0, 2, 1, 0, 0]) 0 4 1 = some 1 := by decide

/-- **C45** `strncpy` fails: it does not fill the destination with null bytes after the end of the string. -/
theorem C45_strncpy_violated :
    (strncpy (ofList [65, 0, 9, 9, 9]) 2 0 3).map (fun m => [m 2, m 3, m 4]) = some [some 65, some 0, some 9] := by decide

/-! ## The hypotheses are satisfiable -/

/-- Two strings and room to copy, at addresses 0, 4 and 8. -/
def exMem : Mem := ofList [72, 105, 33, 0, 72, 105, 0, 7, 0, 0, 0, 0]

example : IsStr exMem 0 [72, 105, 33] ∧ IsStr exMem 4 [72, 105] ∧ Writable exMem 8 4 ∧ Apart 8 4 0 4 ∧
    Covers [72, 105, 33] 3 ∧ Has exMem 0 [72, 105, 33] := by
  refine ⟨⟨?_, by decide⟩, ⟨?_, by decide⟩, ?_, by unfold Apart; decide, .inl (by decide), ?_⟩
  · intro i hi
    simp only [List.length_append, List.length_cons, List.length_nil] at hi
    have : i = 0 ∨ i = 1 ∨ i = 2 ∨ i = 3 := by omega
    rcases this with rfl | rfl | rfl | rfl <;> rfl
  · intro i hi
    simp only [List.length_append, List.length_cons, List.length_nil] at hi
    have : i = 0 ∨ i = 1 ∨ i = 2 := by omega
    rcases this with rfl | rfl | rfl <;> rfl
  · intro i hi
    have : i = 0 ∨ i = 1 ∨ i = 2 ∨ i = 3 := by omega
    rcases this with rfl | rfl | rfl | rfl <;> rfl
  · intro i hi
    simp only [List.length_cons, List.length_nil] at hi
    have : i = 0 ∨ i = 1 ∨ i = 2 := by omega
    rcases this with rfl | rfl | rfl <;> rfl

example : (memcpyX86 exMem 8 0 3).map (fun m => [m 8, m 9, m 10, m 11]) = some [some 72, some 105, some 33, some 0] := by decide

end Pok.Libc
