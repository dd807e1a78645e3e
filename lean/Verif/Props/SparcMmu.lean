import Verif.Model.SparcMmu
import Mathlib.Tactic.Common

/-!
# C98: address spaces of partitions on SPARC
-/

namespace Pok.SparcMmu

theorem or_low {x y i : Nat} (hx : x % 2 ^ i = 0) (hy : y < 2 ^ i) : x ||| y = x + y := by
  have h := Nat.two_pow_add_eq_or_of_lt hy (x / 2 ^ i)
  have e : 2 ^ i * (x / 2 ^ i) = x := by have := Nat.div_add_mod x (2 ^ i); omega
  rw [e] at h
  exact h.symm

theorem fill_get (tab : Nat → Nat) (v n j : Nat) (h : j < n) : fill tab v n j = v := by
  induction n with
  | zero => omega
  | succ n ih =>
    show upd (fill tab v n) n v j = v
    by_cases e : j = n
    · rw [e, upd_same]
    · rw [upd_other _ _ e]
      exact ih (by omega)

theorem init_fold (n : Nat) (t : Tables) : ∀ i, (((List.range n).foldl initOne t).ctx i = if i < n then ((t.t1 + 1024 * i) >>> 4 ||| 1) else t.ctx i) ∧
    (∀ j < 256, ((List.range n).foldl initOne t).l1 i j = if i < n then 0 else t.l1 i j) ∧
    (∀ j < 64, ((List.range n).foldl initOne t).l2 i j = if i < n then 0 else t.l2 i j) ∧
    ((List.range n).foldl initOne t).t1 = t.t1 ∧ ((List.range n).foldl initOne t).t2 = t.t2 ∧ ((List.range n).foldl initOne t).ct = t.ct ∧
    ((List.range n).foldl initOne t).nb = t.nb := by
  induction n with
  | zero => intro i; simp
  | succ n ih =>
    intro i
    rw [List.range_succ, List.foldl_append]
    obtain ⟨h1, h2, h3, h4, h5, h6, h7⟩ := ih i
    generalize (List.range n).foldl initOne t = u at *
    show (initOne u n).ctx i = _ ∧ (∀ j < 256, (initOne u n).l1 i j = _) ∧ (∀ j < 64, (initOne u n).l2 i j = _) ∧ u.t1 = _ ∧ u.t2 = _ ∧ u.ct = _ ∧ u.nb = _
    refine ⟨?_, fun j hj => ?_, fun j hj => ?_, h4, h5, h6, h7⟩
    · show upd u.ctx n _ i = _
      by_cases e : i = n
      · subst e
        rw [upd_same, if_pos (by omega), h4]
      · rw [upd_other _ _ e, h1]
        by_cases hi : i < n
        · rw [if_pos hi, if_pos (by omega)]
        · rw [if_neg hi, if_neg (by omega)]
    · show upd u.l1 n _ i j = _
      by_cases e : i = n
      · subst e
        rw [upd_same, fill_get _ _ _ _ hj, if_pos (by omega)]
      · rw [upd_other _ _ e, h2 j hj]
        by_cases hi : i < n
        · rw [if_pos hi, if_pos (by omega)]
        · rw [if_neg hi, if_neg (by omega)]
    · show upd u.l2 n _ i j = _
      by_cases e : i = n
      · subst e
        rw [upd_same, fill_get _ _ _ _ hj, if_pos (by omega)]
      · rw [upd_other _ _ e, h3 j hj]
        by_cases hi : i < n
        · rw [if_pos hi, if_pos (by omega)]
        · rw [if_neg hi, if_neg (by omega)]

/-- The entry of the kernel's page. -/
def KENT : Nat := 0x0400009e

theorem kent : RAM >>> 4 ||| 7 <<< 2 ||| 2 ||| 1 <<< 7 = KENT := by decide
theorem idx_ram : index1 RAM = 64 := by decide

theorem kernel_fold (n : Nat) (t : Tables) : ∀ i, ((List.range n).foldl kernelOne t).ctx = t.ctx ∧ ((List.range n).foldl kernelOne t).l2 = t.l2 ∧
    (∀ j, ((List.range n).foldl kernelOne t).l1 i j = if i < n ∧ j = 64 then KENT else t.l1 i j) ∧
    ((List.range n).foldl kernelOne t).t1 = t.t1 ∧ ((List.range n).foldl kernelOne t).t2 = t.t2 ∧ ((List.range n).foldl kernelOne t).ct = t.ct ∧
    ((List.range n).foldl kernelOne t).nb = t.nb := by
  induction n with
  | zero => intro i; simp
  | succ n ih =>
    intro i
    rw [List.range_succ, List.foldl_append]
    obtain ⟨h1, h2, h3, h4⟩ := ih i
    generalize (List.range n).foldl kernelOne t = u at *
    show u.ctx = _ ∧ u.l2 = _ ∧ (∀ j, (kernelOne u n).l1 i j = _) ∧ u.t1 = _ ∧ u.t2 = _ ∧ u.ct = _ ∧ u.nb = _
    refine ⟨h1, h2, fun j => ?_, h4⟩
    show upd u.l1 n (upd (u.l1 n) (index1 RAM) _) i j = _
    rw [kent, idx_ram]
    by_cases e : i = n
    · subst e
      rw [upd_same]
      by_cases ej : j = 64
      · subst ej
        rw [upd_same, if_pos ⟨by omega, rfl⟩]
      · rw [upd_other _ _ ej, h3, if_neg (by omega), if_neg (by omega)]
    · rw [upd_other _ _ e, h3]
      by_cases hi : i < n ∧ j = 64
      · rw [if_pos hi, if_pos ⟨by omega, hi.2⟩]
      · rw [if_neg hi, if_neg (by omega)]

/-- The tables are where the compiler and the linker may put them: aligned, in 32 bits, apart from each other. -/
structure Placed (t : Tables) : Prop where
  a1 : t.t1 % 1024 = 0
  a2 : t.t2 % 256 = 0
  ac : t.ct % 64 = 0
  d12 : t.t1 + 1024 * t.nb ≤ t.t2 ∨ t.t2 + 256 * t.nb ≤ t.t1
  d1c : t.t1 + 1024 * t.nb ≤ t.ct ∨ t.ct + 4 * t.nb ≤ t.t1
  d2c : t.t2 + 256 * t.nb ≤ t.ct ∨ t.ct + 4 * t.nb ≤ t.t2

/-- What the tables hold once `done` partitions with addresses `base` have been mapped (`none`: refused). -/
structure Mapped (t : Tables) (base : Nat → Option Nat) : Prop where
  ctx : ∀ p < t.nb, t.ctx p = t.t1 / 16 + 64 * p + 1
  kern : ∀ p < t.nb, t.l1 p 64 = KENT
  first : ∀ p < t.nb, t.l1 p 0 = if (base p).isSome then t.t2 / 16 + 16 * p + 1 else 0
  rest : ∀ p < t.nb, ∀ j < 256, j ≠ 0 → j ≠ 64 → t.l1 p j = 0
  pg : ∀ p < t.nb, ∀ b, base p = some b → t.l2 p 0 = b / 16 + 0x8e ∧ b % PAGE = 0
  rest2 : ∀ p < t.nb, ∀ j < 64, j ≠ 0 → t.l2 p j = 0

theorem init_mapped (t : Tables) (h : Placed t) : Mapped (spaceInit t) (fun _ => none) ∧ Placed (spaceInit t) ∧ (spaceInit t).nb = t.nb := by
  have hi := init_fold t.nb t
  generalize hu : (List.range t.nb).foldl initOne t = u at hi
  have hk := kernel_fold t.nb u
  have he : spaceInit t = (List.range t.nb).foldl kernelOne u := by unfold spaceInit; rw [hu]
  rw [he]
  generalize (List.range t.nb).foldl kernelOne u = w at hk
  obtain ⟨_, _, _, q1, q2, q3, q4⟩ := hi 0
  obtain ⟨k1, k2, _, k4, k5, k6, k7⟩ := hk 0
  have n1 : w.nb = t.nb := k7.trans q4
  have n2 : w.t1 = t.t1 := k4.trans q1
  have n3 : w.t2 = t.t2 := k5.trans q2
  have n4 : w.ct = t.ct := k6.trans q3
  have ha := h.a1
  refine ⟨⟨fun p hp => ?_, fun p hp => ?_, fun p hp => ?_, fun p hp j hj h0 h64 => ?_, fun p hp b hb => absurd hb (by simp), fun p hp j hj _ => ?_⟩, ?_, n1⟩
  · rw [k1, (hi p).1, if_pos (by omega), n2]
    have e : (t.t1 + 1024 * p) >>> 4 = t.t1 / 16 + 64 * p := by rw [Nat.shiftRight_eq_div_pow]; omega
    show (t.t1 + 1024 * p) >>> 4 ||| 1 = _
    rw [e, or_low (i := 1) (by omega) (by decide)]
  · rw [(hk p).2.2.1, if_pos ⟨by omega, rfl⟩]
  · rw [(hk p).2.2.1, if_neg (by omega), (hi p).2.1 0 (by decide), if_pos (by omega)]
    rfl
  · rw [(hk p).2.2.1, if_neg (by omega), (hi p).2.1 j hj, if_pos (by omega)]
  · rw [k2, (hi p).2.2.1 j hj, if_pos (by omega)]
  · obtain ⟨h1, h2, h3, h4, h5, h6⟩ := h
    exact ⟨by rw [n2]; exact h1, by rw [n3]; exact h2, by rw [n4]; exact h3, by rw [n1, n2, n3]; exact h4, by rw [n1, n2, n4]; exact h5, by rw [n1, n3, n4]; exact h6⟩

theorem create_mapped (t : Tables) (base : Nat → Option Nat) (p addr size : Nat) (h : Placed t) (hm : Mapped t base) (hb : base p = none) :
    Mapped ((createSpace t p addr size).getD t) (upd base p (if size ≤ PAGE ∧ addr % PAGE = 0 then some addr else none)) ∧
    Placed ((createSpace t p addr size).getD t) ∧ ((createSpace t p addr size).getD t).nb = t.nb := by
  unfold createSpace
  by_cases h1 : size > PAGE
  · rw [if_pos h1, if_neg (by omega)]
    refine ⟨?_, h, rfl⟩
    have : upd base p none = base := by
      funext q
      by_cases e : q = p
      · rw [e, upd_same, hb]
      · rw [upd_other _ _ e]
    rw [this]
    exact hm
  · rw [if_neg h1]
    by_cases h2 : addr % PAGE ≠ 0
    · rw [if_pos h2, if_neg (by omega)]
      refine ⟨?_, h, rfl⟩
      have : upd base p none = base := by
        funext q
        by_cases e : q = p
        · rw [e, upd_same, hb]
        · rw [upd_other _ _ e]
      rw [this]
      exact hm
    · rw [if_neg h2, if_pos (by omega)]
      have ha2 := h.a2
      have hpg : addr % PAGE = 0 := by omega
      have hpg' : addr % 262144 = 0 := hpg
      have e1 : (t.t2 + 256 * p) >>> 4 ||| 1 = t.t2 / 16 + 16 * p + 1 := by
        have e : (t.t2 + 256 * p) >>> 4 = t.t2 / 16 + 16 * p := by rw [Nat.shiftRight_eq_div_pow]; omega
        rw [e, or_low (i := 1) (by omega) (by decide)]
      have e2 : addr >>> 4 ||| 3 <<< 2 ||| 2 ||| 1 <<< 7 = addr / 16 + 0x8e := by
        rw [Nat.or_assoc, Nat.or_assoc, show (3 <<< 2 ||| (2 ||| 1 <<< 7) : Nat) = 0x8e by decide, Nat.shiftRight_eq_div_pow]
        exact or_low (i := 8) (by omega) (by decide)
      have i1 : index1 0 = 0 := by decide
      have i2 : index2 0 = 0 := by decide
      refine ⟨?_, ⟨h.a1, h.a2, h.ac, h.d12, h.d1c, h.d2c⟩, rfl⟩
      simp only [Option.getD_some]
      rw [i1, i2, e1, e2]
      refine ⟨hm.ctx, fun q hq => ?_, fun q hq => ?_, fun q hq j hj h0 h64 => ?_, fun q hq b hbq => ?_, fun q hq j hj h0 => ?_⟩
      · show upd t.l1 p _ q 64 = _
        by_cases e : q = p
        · rw [e, upd_same, upd_other _ _ (by decide), ← e]
          exact hm.kern q hq
        · rw [upd_other _ _ e]
          exact hm.kern q hq
      · show upd t.l1 p _ q 0 = _
        by_cases e : q = p
        · rw [e, upd_same, upd_same, upd_same]
          rfl
        · rw [upd_other _ _ e, upd_other _ _ e]
          exact hm.first q hq
      · show upd t.l1 p _ q j = _
        by_cases e : q = p
        · rw [e, upd_same, upd_other _ _ h0, ← e]
          exact hm.rest q hq j hj h0 h64
        · rw [upd_other _ _ e]
          exact hm.rest q hq j hj h0 h64
      · show upd t.l2 p _ q 0 = _ ∧ _
        by_cases e : q = p
        · rw [e, upd_same] at hbq
          have := Option.some.inj hbq
          subst this
          rw [e, upd_same, upd_same]
          exact ⟨rfl, hpg⟩
        · rw [upd_other _ _ e] at hbq ⊢
          exact hm.pg q hq b hbq
      · show upd t.l2 p _ q j = _
        by_cases e : q = p
        · rw [e, upd_same, upd_other _ _ h0, ← e]
          exact hm.rest2 q hq j hj h0
        · rw [upd_other _ _ e]
          exact hm.rest2 q hq j hj h0

theorem word_ctx {t : Tables} (h : Placed t) {p : Nat} (hp : p < t.nb) : t.word (t.ct + 4 * p) = t.ctx p := by
  have h1 := h.d1c
  have h2 := h.d2c
  unfold Tables.word
  rw [if_neg (by omega), if_neg (by omega), if_pos (by omega)]
  congr 1
  omega

theorem word_l1 {t : Tables} {p j : Nat} (hp : p < t.nb) (hj : j < 256) : t.word (t.t1 + 1024 * p + 4 * j) = t.l1 p j := by
  unfold Tables.word
  rw [if_pos (by omega), show (t.t1 + 1024 * p + 4 * j - t.t1) / 1024 = p by omega, show (t.t1 + 1024 * p + 4 * j - t.t1) % 1024 / 4 = j by omega]

theorem word_l2 {t : Tables} (h : Placed t) {p j : Nat} (hp : p < t.nb) (hj : j < 64) : t.word (t.t2 + 256 * p + 4 * j) = t.l2 p j := by
  have h1 := h.d12
  unfold Tables.word
  rw [if_neg (by omega), if_pos (by omega), show (t.t2 + 256 * p + 4 * j - t.t2) / 256 = p by omega, show (t.t2 + 256 * p + 4 * j - t.t2) % 256 / 4 = j by omega]

/-- The walk in the context of partition `p`. -/
theorem walk_eq {t : Tables} {base : Nat → Option Nat} (h : Placed t) (hm : Mapped t base) {p va : Nat} (hp : p < t.nb) (hva : va < 4294967296) (super : Bool) (k : Kind) :
    walk t p va super k = if 0x40000000 ≤ va ∧ va < 0x41000000 then (if super then some va else none)
      else if va < PAGE then (base p).map (· + va) else none := by
  have ha1 := h.a1
  have ha2 := h.a2
  have hac := h.ac
  unfold walk
  have er : (t.ct >>> 4) / 4 * 64 + 4 * p = t.ct + 4 * p := by rw [Nat.shiftRight_eq_div_pow]; omega
  rw [er, word_ctx h hp, hm.ctx p hp]
  simp only
  rw [if_pos (by omega)]
  have hi1 : index1 va < 256 := Nat.mod_lt _ (by decide)
  have hi1' : index1 va = va / 16777216 := by unfold index1; rw [Nat.shiftRight_eq_div_pow]; omega
  have e1 : (t.t1 / 16 + 64 * p + 1) / 4 * 64 + 4 * index1 va = t.t1 + 1024 * p + 4 * index1 va := by omega
  rw [e1, word_l1 hp hi1]
  by_cases hk : 0x40000000 ≤ va ∧ va < 0x41000000
  · rw [if_pos hk]
    have : index1 va = 64 := by omega
    rw [this, hm.kern p hp, if_pos (by decide)]
    unfold page
    have ek : KENT / 4 % 8 = 7 := by decide
    have ek2 : KENT / 256 * 4096 / 16777216 * 16777216 = 0x40000000 := by decide
    rw [ek, ek2]
    cases super
    · cases k <;> rfl
    · have : allowed 7 true k = true := by cases k <;> rfl
      have e : 0x40000000 + va % 16777216 = va := by
        clear ek ek2
        omega
      rw [this, if_pos rfl, if_pos rfl, e]
  · rw [if_neg hk]
    by_cases h0 : index1 va = 0
    · rw [h0, hm.first p hp]
      have hva' : va < 16777216 := by omega
      cases hb : base p with
      | none =>
        rw [Option.map_none, ite_self]
        rfl
      | some b =>
        simp only [Option.isSome_some, if_true]
        have e2 : (t.t2 / 16 + 16 * p + 1) / 4 * 64 + 4 * index2 va = t.t2 + 256 * p + 4 * index2 va := by omega
        have hi2 : index2 va < 64 := Nat.mod_lt _ (by decide)
        have hi2' : index2 va = va / 262144 := by unfold index2; rw [Nat.shiftRight_eq_div_pow]; omega
        rw [if_neg (by omega), if_pos (by omega), e2, word_l2 h hp hi2]
        by_cases hz : index2 va = 0
        · obtain ⟨g1, g2⟩ := hm.pg p hp b hb
          have g2' : b % 262144 = 0 := g2
          rw [hz, g1, if_pos (by omega), if_pos (by unfold PAGE; omega)]
          unfold page
          have ea : (b / 16 + 142) / 4 % 8 = 3 := by omega
          rw [ea]
          have : allowed 3 super k = true := by cases super <;> cases k <;> rfl
          rw [this, if_pos rfl, Option.map_some]
          congr 1
          omega
        · rw [hm.rest2 p hp _ hi2 hz, if_neg (by decide), if_neg (by unfold PAGE; omega)]
    · rw [hm.rest p hp _ hi1 h0 (by omega), if_neg (by decide), if_neg (by decide), if_neg (by unfold PAGE; omega)]

/-- The base addresses, in order. -/
def bases (heapEnd : Nat) : List Nat → List Nat
  | [] => []
  | sz :: rest => (memAlloc heapEnd sz).1 :: bases (memAlloc heapEnd sz).2 rest

theorem load_spec : ∀ (sizes : List Nat) (t : Tables) (heapEnd p : Nat) (base : Nat → Option Nat), Placed t → Mapped t base → (∀ q, p ≤ q → base q = none) →
    ∃ base', Placed (loadAll t heapEnd sizes p).1 ∧ Mapped (loadAll t heapEnd sizes p).1 base' ∧ (loadAll t heapEnd sizes p).1.nb = t.nb ∧
      (loadAll t heapEnd sizes p).2 = bases heapEnd sizes ∧ (∀ q < p, base' q = base q) ∧
      ∀ k, (hk : k < sizes.length) → base' (p + k) = if sizes[k] ≤ PAGE then (bases heapEnd sizes)[k]? else none := by
  intro sizes
  induction sizes with
  | nil => intro t heapEnd p base h hm _; exact ⟨base, h, hm, rfl, rfl, fun _ _ => rfl, fun k hk => absurd hk (by simp)⟩
  | cons sz rest ih =>
    intro t heapEnd p base h hm hb
    have hal : (memAlloc heapEnd sz).1 % PAGE = 0 := by
      unfold memAlloc PAGE
      simp only
      omega
    obtain ⟨m1, m2, m3⟩ := create_mapped t base p (memAlloc heapEnd sz).1 sz h hm (hb p (Nat.le_refl _))
    obtain ⟨base', k1, k2, k3, k4, k5, k6⟩ := ih _ (memAlloc heapEnd sz).2 (p + 1) _ m2 m1 (fun q hq => by
      rw [upd_other _ _ (by omega)]
      exact hb q (by omega))
    refine ⟨base', k1, k2, k3.trans m3, ?_, fun q hq => ?_, fun k hk => ?_⟩
    · show _ :: (loadAll _ _ rest (p + 1)).2 = _
      rw [k4]
      rfl
    · rw [k5 q (by omega), upd_other _ _ (by omega)]
    · cases k with
      | zero =>
        rw [Nat.add_zero, k5 p (by omega), upd_same]
        show _ = if sz ≤ PAGE then some (memAlloc heapEnd sz).1 else none
        by_cases e : sz ≤ PAGE
        · rw [if_pos ⟨e, hal⟩, if_pos e]
        · rw [if_neg (fun h => e h.1), if_neg e]
      | succ k =>
        have hk' : k < rest.length := by simpa using hk
        have := k6 k hk'
        rw [show p + 1 + k = p + (k + 1) by omega] at this
        exact this

theorem bases_apart : ∀ (sizes : List Nat) (heapEnd : Nat), (∀ k a : Nat, (bases heapEnd sizes)[k]? = some a → heapEnd < a) ∧
    ∀ j k a b : Nat, j < k → (bases heapEnd sizes)[j]? = some a → (bases heapEnd sizes)[k]? = some b → a + PAGE ≤ b := by
  intro sizes
  induction sizes with
  | nil => intro heapEnd; exact ⟨fun k a h => absurd h (by simp [bases]), fun j k a b _ h => absurd h (by simp [bases])⟩
  | cons sz rest ih =>
    intro heapEnd
    obtain ⟨h1, h2⟩ := ih (memAlloc heapEnd sz).2
    have hlt : heapEnd < (memAlloc heapEnd sz).1 := by unfold memAlloc PAGE; simp only; omega
    have hle : (memAlloc heapEnd sz).1 ≤ (memAlloc heapEnd sz).2 := Nat.le_add_right _ _
    have hal : (memAlloc heapEnd sz).1 % PAGE = 0 := by unfold memAlloc PAGE; simp only; omega
    have halk : ∀ (l : List Nat) (he k a : Nat), (bases he l)[k]? = some a → a % PAGE = 0 := by
      intro l
      induction l with
      | nil => intro he k a h; exact absurd h (by simp [bases])
      | cons x l ihl =>
        intro he k a h
        cases k with
        | zero =>
          have : (memAlloc he x).1 = a := Option.some.inj h
          rw [← this]
          unfold memAlloc PAGE
          simp only
          omega
        | succ k => exact ihl _ k a h
    refine ⟨fun k a h => ?_, fun j k a b hjk ha hb => ?_⟩
    · cases k with
      | zero =>
        have : (memAlloc heapEnd sz).1 = a := Option.some.inj h
        omega
      | succ k =>
        have := h1 k a h
        omega
    · cases k with
      | zero => omega
      | succ k =>
        cases j with
        | zero =>
          have e : (memAlloc heapEnd sz).1 = a := Option.some.inj ha
          have e2 := h1 k b hb
          have e3 := halk _ _ _ _ hb
          unfold PAGE at *
          omega
        | succ j => exact h2 j k a b (by omega) ha hb

/-- **C98**, part: the address spaces of the partitions are isolated for code in user mode.  After the kernel has built its tables and placed
the partitions, a program in the context of partition `p` reaches, by any kind of access, exactly the addresses below 256 K, which are its own
256 K of memory; no two partitions share a byte, and none reaches the kernel.

Missing from the full claim: the programs do not run in user mode (`C94_supervisor_violated`); for code in supervisor mode the claim is false
(`C98_supervisor_violated`).  The tables are as the linker places them if the context table happens to lie on a multiple of 64
(`C98_alignment_violated`). -/
theorem C98_user_isolation_partial (t : Tables) (heapEnd : Nat) (sizes : List Nat) (h : Placed t) (hn : sizes.length = t.nb) (hs : ∀ s ∈ sizes, s ≤ 262144) :
    ∃ base : Nat → Nat, (∀ p < t.nb, heapEnd < base p ∧ (loadAll (spaceInit t) heapEnd sizes 0).2[p]? = some (base p)) ∧
      (∀ p < t.nb, ∀ q < t.nb, p ≠ q → base p + 262144 ≤ base q ∨ base q + 262144 ≤ base p) ∧
      ∀ p < t.nb, ∀ va < 4294967296, ∀ k pa, walk (loadAll (spaceInit t) heapEnd sizes 0).1 p va false k = some pa ↔ va < 262144 ∧ pa = base p + va := by
  obtain ⟨i1, i2, i3⟩ := init_mapped t h
  obtain ⟨base', k1, k2, k3, k4, _, k6⟩ := load_spec sizes (spaceInit t) heapEnd 0 _ i2 i1 (fun _ _ => rfl)
  obtain ⟨b1, b2⟩ := bases_apart sizes heapEnd
  have hlen : ∀ (l : List Nat) (he : Nat), (bases he l).length = l.length := by
    intro l
    induction l with
    | nil => intro he; rfl
    | cons x l ih => intro he; show (bases _ l).length + 1 = _; rw [ih]; rfl
  have hget : ∀ p < t.nb, (bases heapEnd sizes)[p]? = some ((bases heapEnd sizes).getD p 0) := fun p hp => by
    rw [List.getD_eq_getElem?_getD, List.getElem?_eq_getElem (by rw [hlen, hn]; exact hp)]
    rfl
  refine ⟨fun p => (bases heapEnd sizes).getD p 0, fun p hp => ⟨b1 p _ (hget p hp), by rw [k4]; exact hget p hp⟩, fun p hp q hq hpq => ?_, fun p hp va hva k pa => ?_⟩
  · rcases Nat.lt_or_gt_of_ne hpq with hlt | hlt
    · exact Or.inl (b2 p q _ _ hlt (hget p hp) (hget q hq))
    · exact Or.inr (b2 q p _ _ hlt (hget q hq) (hget p hp))
  · have hb := k6 p (by omega)
    rw [Nat.zero_add, if_pos (show sizes[p] ≤ PAGE from hs _ (List.getElem_mem _)), hget p hp] at hb
    rw [walk_eq k1 k2 (by rw [k3, i3]; exact hp) hva, hb, Option.map_some]
    show (if _ then (if false = true then some va else none) else if va < 262144 then _ else none) = some pa ↔ _
    by_cases hk : 0x40000000 ≤ va ∧ va < 0x41000000
    · rw [if_pos hk]
      constructor
      · intro h; exact absurd h (by simp)
      · intro h; omega
    · rw [if_neg hk]
      by_cases hv : va < 262144
      · rw [if_pos hv]
        constructor
        · intro h; exact ⟨hv, (Option.some.inj h).symm⟩
        · intro h; rw [h.2]
      · rw [if_neg hv]
        constructor
        · intro h; exact absurd h (by simp)
        · intro h; exact absurd h.1 hv

/-- **C98** violated: in supervisor mode, in which the programs run (C94), every partition reaches the memory of the kernel and of every other
partition in the first 16 MB of memory, to read, write and execute. -/
theorem C98_supervisor_violated (t : Tables) (heapEnd : Nat) (sizes : List Nat) (h : Placed t) {p : Nat} (hp : p < t.nb) (k : Kind)
    {a : Nat} (ha : 0x40000000 ≤ a) (ha' : a < 0x41000000) : walk (loadAll (spaceInit t) heapEnd sizes 0).1 p a true k = some a := by
  obtain ⟨i1, i2, i3⟩ := init_mapped t h
  obtain ⟨base', k1, k2, k3, _, _, _⟩ := load_spec sizes (spaceInit t) heapEnd 0 _ i2 i1 (fun _ _ => rfl)
  rw [walk_eq k1 k2 (by rw [k3, i3]; exact hp) (by omega), if_pos ⟨ha, ha'⟩, if_pos rfl]

/-- **C98** violated: a partition larger than 256 K is refused by `pok_create_space`, but the kernel goes on; the partition then has no memory at
all, and its first instruction faults. -/
theorem C98_big_partition_violated (t : Tables) (heapEnd : Nat) (sizes : List Nat) (h : Placed t) (hn : sizes.length = t.nb) {p : Nat} (hp : p < sizes.length)
    (hbig : sizes[p] > 262144) (k : Kind) {va : Nat} (hva : va < 4294967296) : walk (loadAll (spaceInit t) heapEnd sizes 0).1 p va false k = none := by
  obtain ⟨i1, i2, i3⟩ := init_mapped t h
  obtain ⟨base', k1, k2, k3, _, _, k6⟩ := load_spec sizes (spaceInit t) heapEnd 0 _ i2 i1 (fun _ _ => rfl)
  have hb := k6 p hp
  rw [Nat.zero_add, if_neg (by unfold PAGE; omega)] at hb
  rw [walk_eq k1 k2 (by rw [k3, i3]; omega) hva, hb, Option.map_none, ite_self]
  by_cases hk : 0x40000000 ≤ va ∧ va < 0x41000000
  · rw [if_pos hk]; rfl
  · rw [if_neg hk]

/-- Three partitions after a kernel that ends at 0x40023456. -/
def tab0 : Tables := ⟨3, 0x40020000, 0x40020400, 0x40021000, fun _ => 0, fun _ _ => 0, fun _ _ => 0, fun _ => 0⟩

example : Placed tab0 ∧ (loadAll (spaceInit tab0) 0x40023456 [200000, 262144, 100] 0).2 = [0x40040000, 0x40080000, 0x40100000] ∧
    walk (loadAll (spaceInit tab0) 0x40023456 [200000, 262144, 100] 0).1 1 0x12345 false .write = some 0x40092345 := by
  refine ⟨⟨by decide, by decide, by decide, by decide, by decide, by decide⟩, by decide +kernel, by decide +kernel⟩

/-- **C98** violated: the context table is aligned on its own size only, and the MMU ignores the low six bits of its address; two partitions and a
table at an odd multiple of eight give a walk that starts from the words before the table: no context is mapped at all (here the memory before the
table holds zeros). -/
theorem C98_alignment_violated :
    let t : Tables := ⟨2, 0x40020408, 0x40020800, 0x40021000, fun _ => 0, fun _ _ => 0, fun _ _ => 0, fun _ => 0⟩
    t.ct % (4 * t.nb) = 0 ∧ t.t1 % 1024 = 0 ∧ t.t2 % 256 = 0 ∧ ∀ p < 2, ∀ va super k, walk (loadAll (spaceInit t) 0x40023456 [200000, 100] 0).1 p va super k = none := by
  intro t
  refine ⟨by decide, by decide, by decide, fun p hp va super k => ?_⟩
  have hr : ∀ p < 2, (loadAll (spaceInit t) 0x40023456 [200000, 100] 0).1.word (((loadAll (spaceInit t) 0x40023456 [200000, 100] 0).1.ct >>> 4) / 4 * 64 + 4 * p) % 4 ≠ 1 := by
    decide +kernel
  unfold walk
  simp only
  rw [if_neg (hr p hp)]

end Pok.SparcMmu
