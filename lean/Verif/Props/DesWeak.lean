import Verif.Props.DesStd
import Mathlib.Data.List.GetD

/-!
# The keys that the DES protocol refuses as weak (C84)
-/

namespace Pok.Des
open Pok.DesSpec (Bits select bitsOf)

/-- The number of the dual of each of the keys refused as weak. -/
def dualOf : List Nat := [0, 1, 2, 3, 5, 4, 7, 6, 9, 8, 11, 10, 13, 12, 15, 14]

/-- Half a key that repeats two bits. -/
def alt (a b : Bool) : Bits := [a, b, a, b, a, b, a, b, a, b, a, b, a, b, a, b, a, b, a, b, a, b, a, b, a, b, a, b]

/-- The first two bits of each half of the keys refused as weak. -/
def weakBits : List (Bool × Bool × Bool × Bool) :=
  [(false, false, false, false), (true, true, true, true), (false, false, true, true), (true, true, false, false),
   (true, false, true, false), (false, true, false, true), (true, false, false, true), (false, true, true, false),
   (true, false, false, false), (false, true, false, false), (true, false, true, true), (false, true, true, true),
   (false, false, true, false), (false, false, false, true), (true, true, true, false), (true, true, false, true)]

theorem weak_halves : ∀ i < 16, select DesSpec.PC1 (bitsOf (weakKeys.getD i #[]).toList) =
    alt (weakBits.getD i (false, false, false, false)).1 (weakBits.getD i (false, false, false, false)).2.1 ++
    alt (weakBits.getD i (false, false, false, false)).2.2.1 (weakBits.getD i (false, false, false, false)).2.2.2 := by
  decide +kernel

theorem weak_swap : ∀ i < 16, dualOf.getD i 0 < 16 ∧ weakBits.getD (dualOf.getD i 0) (false, false, false, false) =
    ((weakBits.getD i (false, false, false, false)).2.1, (weakBits.getD i (false, false, false, false)).1,
      (weakBits.getD i (false, false, false, false)).2.2.2, (weakBits.getD i (false, false, false, false)).2.2.1) := by
  decide +kernel

theorem weak_odd : ∀ i < 16, DesSpec.OddParity (weakKeys.getD i #[]).toList ∧ (weakKeys.getD i #[]).size = 8 := by
  unfold DesSpec.OddParity
  decide +kernel

theorem alt_rotl1 (a b : Bool) : (alt a b).rotateLeft 1 = alt b a := rfl
theorem alt_rotl2 (a b : Bool) : (alt a b).rotateLeft 2 = alt a b := rfl

/-- The keys of the rounds in the reverse order come from the halves with their bits exchanged. -/
theorem alt_dual (a b e f : Bool) : DesSpec.keysFrom DesSpec.shifts (alt b a) (alt f e) =
    (DesSpec.keysFrom DesSpec.shifts (alt a b) (alt e f)).reverse := by
  unfold DesSpec.shifts
  simp only [DesSpec.keysFrom, alt_rotl1, alt_rotl2, List.reverse_cons, List.reverse_nil, List.nil_append, List.cons_append]

theorem weak_table (i : Nat) (hi : i < 16) : dualOf.getD i 0 < 16 ∧ DesSpec.OddParity (weakKeys.getD i #[]).toList ∧
    (weakKeys.getD i #[]).size = 8 ∧
    DesSpec.Dual (bitsOf (weakKeys.getD i #[]).toList) (bitsOf (weakKeys.getD (dualOf.getD i 0) #[]).toList) := by
  obtain ⟨h1, h2⟩ := weak_swap i hi
  obtain ⟨h3, h4⟩ := weak_odd i hi
  refine ⟨h1, h3, h4, ?_⟩
  unfold DesSpec.Dual DesSpec.keys
  rw [weak_halves i hi, weak_halves _ h1, h2]
  generalize weakBits.getD i (false, false, false, false) = w
  obtain ⟨a, b, e, f⟩ := w
  have ht : ∀ a b e f : Bool, (alt a b ++ alt e f).take 28 = alt a b := fun _ _ _ _ => rfl
  have hd : ∀ a b e f : Bool, (alt a b ++ alt e f).drop 28 = alt e f := fun _ _ _ _ => rfl
  simp only [ht, hd]
  exact alt_dual a b e f

/-- The keys refused as weak, and their duals among them. -/
theorem weak_dual (w : Array Byte) (hw : w ∈ weakKeys) :
    ∃ v ∈ weakKeys, DesSpec.OddParity w.toList ∧ w.size = 8 ∧ DesSpec.Dual (bitsOf w.toList) (bitsOf v.toList) := by
  obtain ⟨i, hi, rfl⟩ := Array.mem_iff_getElem.1 hw
  have h16 : weakKeys.size = 16 := rfl
  have e : ∀ j, (h : j < 16) → weakKeys.getD j #[] = weakKeys[j]'(by rw [h16]; exact h) := fun j h => by
    simp [Array.getD, h16, h]
  obtain ⟨h1, h2, h3, h4⟩ := weak_table i (by rw [← h16]; exact hi)
  rw [e i (by rw [← h16]; exact hi)] at h2 h3 h4
  rw [e _ h1] at h4
  exact ⟨_, Array.getElem_mem _, h2, h3, h4⟩

/-- A key that is refused as weak has a dual, with which a message enciphered twice is sent in clear. -/
theorem weak_has_dual (key : List Byte) (h : weak key = true) : key.length = 8 ∧ DesSpec.OddParity key ∧
    ∃ key', weak key' = true ∧ DesSpec.Dual (bitsOf key) (bitsOf key') ∧
      ∀ b : Block, encrypt1 (sched (setKey key')) true (encrypt1 (sched (setKey key)) true b) = b := by
  unfold weak at h
  rw [List.any_eq_true] at h
  obtain ⟨w, hw, he⟩ := h
  rw [beq_iff_eq] at he
  obtain ⟨v, hv, hp, hl, hd⟩ := weak_dual w (Array.mem_toList_iff.1 hw)
  obtain ⟨_, _, _, hlv, _⟩ := weak_dual v hv
  have lk : key.length = 8 := by rw [← he]; exact hl
  refine ⟨lk, by rw [← he]; exact hp, v.toList, ?_, by rw [← he]; exact hd, fun b => ?_⟩
  · unfold weak
    rw [List.any_eq_true]
    exact ⟨v, Array.mem_toList_iff.2 hv, by simp⟩
  · have e : ∀ b, encrypt1 (sched (setKey v.toList)) true b = encrypt1 (sched (setKey key)) false b := fun b => by
      have inj : ∀ x y : Block, bitsOf (little.bytes x) = bitsOf (little.bytes y) → x = y := fun x y hxy => by
        rw [bitsOf_block, bitsOf_block] at hxy
        unfold picks at hxy
        have hb : ∀ j < 64, bit x (place j) = bit y (place j) := fun j hj => by
          have := List.map_inj_left.1 hxy (place j) (List.mem_map.2 ⟨j, List.mem_range.2 hj, rfl⟩)
          exact this
        have hb' : ∀ j < 64, bit x j = bit y j := fun j hj => by
          have h1 : place (place j) = j := by unfold place; omega
          have h2 : place j < 64 := by unfold place; omega
          have := hb (place j) h2
          rwa [h1] at this
        refine Prod.ext (BitVec.eq_of_getLsbD_eq fun j hj => ?_) (BitVec.eq_of_getLsbD_eq fun j hj => ?_)
        · have := hb' j (by omega)
          unfold bit at this
          rwa [if_pos hj, if_pos hj] at this
        · have := hb' (32 + j) (by omega)
          obtain ⟨x1, x2⟩ := x
          obtain ⟨y1, y2⟩ := y
          rwa [bit_second, bit_second] at this
      refine inj _ _ ?_
      rw [encrypt1_std, encrypt1_std]
      unfold order
      rw [if_pos rfl, if_neg (by decide), C84_keys key lk, C84_keys v.toList hlv, ← he, hd]
    rw [e]
    exact C48_block _ true b

/-! Every key with a dual is refused: the equations between the keys of the rounds leave two bits in each half of the key. -/

theorem rotl_at (l : Bits) (k j : Nat) (hl : l.length = 28) (hk : k < 28) (hj : j < 28) :
    (l.rotateLeft k).getD j false = l.getD ((j + k) % 28) false := by
  unfold List.rotateLeft
  rw [hl]
  simp only [show ¬ (28 ≤ 1) by decide, if_false, Nat.mod_eq_of_lt hk]
  rw [List.getD_eq_getElem?_getD, List.getD_eq_getElem?_getD, List.getElem?_append, List.length_drop, hl]
  split
  · rw [List.getElem?_drop]
    congr 2
    omega
  · rw [List.getElem?_take_of_lt (by omega)]
    congr 2
    omega

theorem rotl_length (l : Bits) (k : Nat) (hl : l.length = 28) : (l.rotateLeft k).length = 28 := by
  unfold List.rotateLeft
  rw [hl]
  simp only [show ¬ (28 ≤ 1) by decide, if_false, List.length_append, List.length_drop, List.length_take, hl]
  omega

theorem pc2_le : ∀ n < 48, 1 ≤ DesSpec.PC2.getD n 0 ∧ DesSpec.PC2.getD n 0 ≤ 56 := by decide

/-- Bit `n` of key number `i`. -/
theorem keysFrom_at (ns : List Nat) (hn : ∀ k ∈ ns, k < 28) (c d : Bits) (hc : c.length = 28) (hd : d.length = 28) (i n : Nat) (hi : i < ns.length)
    (h48 : n < 48) :
    ((DesSpec.keysFrom ns c d).getD i []).getD n false =
      if DesSpec.PC2.getD n 0 ≤ 28 then c.getD ((DesSpec.PC2.getD n 0 - 1 + (ns.take (i + 1)).sum) % 28) false
      else d.getD ((DesSpec.PC2.getD n 0 - 29 + (ns.take (i + 1)).sum) % 28) false := by
  induction ns generalizing c d i with
  | nil => simp at hi
  | cons k ns ih =>
    have hk := hn k List.mem_cons_self
    have lc := rotl_length c k hc
    have ld := rotl_length d k hd
    have hp := pc2_le n h48
    cases i with
    | zero =>
      have hl : n < DesSpec.PC2.length := h48
      have e : DesSpec.PC2.getD n 0 = DesSpec.PC2[n] := by rw [List.getD_eq_getElem?_getD, List.getElem?_eq_getElem hl]; rfl
      have hz : (DesSpec.keysFrom (k :: ns) c d).getD 0 [] = select DesSpec.PC2 (c.rotateLeft k ++ d.rotateLeft k) := rfl
      rw [hz]
      have hs : (select DesSpec.PC2 (c.rotateLeft k ++ d.rotateLeft k)).getD n false =
          (c.rotateLeft k ++ d.rotateLeft k).getD (DesSpec.PC2.getD n 0 - 1) false := by
        unfold select
        rw [List.getD_eq_getElem?_getD, List.getElem?_map, List.getElem?_eq_getElem hl, e]
        rfl
      rw [hs]
      simp only [Nat.zero_add, List.take_succ_cons, List.take_zero, List.sum_cons, List.sum_nil, Nat.add_zero]
      split
      · rw [List.getD_append _ _ _ _ (by omega), rotl_at c k _ hc hk (by omega)]
      · rw [List.getD_append_right _ _ _ _ (by omega), lc, rotl_at d k _ hd hk (by omega)]
        congr 2
    | succ i =>
      have hi' : i < ns.length := by simpa using hi
      have hz : (DesSpec.keysFrom (k :: ns) c d).getD (i + 1) [] = (DesSpec.keysFrom ns (c.rotateLeft k) (d.rotateLeft k)).getD i [] := rfl
      rw [hz, ih (fun x hx => hn x (List.mem_cons_of_mem _ hx)) _ _ lc ld i hi', List.take_succ_cons, List.sum_cons]
      split
      · rw [rotl_at c k _ hc hk (Nat.mod_lt _ (by decide))]
        congr 1
        omega
      · rw [rotl_at d k _ hd hk (Nat.mod_lt _ (by decide))]
        congr 1
        omega

/-- How far the halves are rotated for key number `i`. -/
def turns (i : Nat) : Nat := (DesSpec.shifts.take (i + 1)).sum

theorem keysFrom_length (ns : List Nat) (c d : Bits) : (DesSpec.keysFrom ns c d).length = ns.length := by
  induction ns generalizing c d with
  | nil => rfl
  | cons k ns ih => simp [DesSpec.keysFrom, ih]

/-- The equations between the bits of dual keys. -/
theorem dual_eqs {c d c' d' : Bits} (hc : c.length = 28) (hd : d.length = 28) (hc' : c'.length = 28) (hd' : d'.length = 28)
    (h : DesSpec.keysFrom DesSpec.shifts c' d' = (DesSpec.keysFrom DesSpec.shifts c d).reverse) (i n : Nat) (hi : i < 16) (hn : n < 48) :
    (if DesSpec.PC2.getD n 0 ≤ 28 then c'.getD ((DesSpec.PC2.getD n 0 - 1 + turns i) % 28) false
      else d'.getD ((DesSpec.PC2.getD n 0 - 29 + turns i) % 28) false) =
    (if DesSpec.PC2.getD n 0 ≤ 28 then c.getD ((DesSpec.PC2.getD n 0 - 1 + turns (15 - i)) % 28) false
      else d.getD ((DesSpec.PC2.getD n 0 - 29 + turns (15 - i)) % 28) false) := by
  have hs : ∀ k ∈ DesSpec.shifts, k < 28 := by decide
  have hlen : DesSpec.shifts.length = 16 := rfl
  have h1 := keysFrom_at DesSpec.shifts hs c' d' hc' hd' i n (by rw [hlen]; exact hi) hn
  have h2 := keysFrom_at DesSpec.shifts hs c d hc hd (15 - i) n (by rw [hlen]; omega) hn
  have hl : (DesSpec.keysFrom DesSpec.shifts c d).length = 16 := keysFrom_length _ _ _
  have hm : (DesSpec.keysFrom DesSpec.shifts c' d').getD i [] = (DesSpec.keysFrom DesSpec.shifts c d).getD (15 - i) [] := by
    rw [h]
    generalize DesSpec.keysFrom DesSpec.shifts c d = ks at hl
    rw [List.getD_eq_getElem?_getD, List.getD_eq_getElem?_getD, List.getElem?_reverse (by omega), hl]
  rw [hm] at h1
  exact h1.symm.trans h2

/-- For each pair of bits at distance two in the left half: bits and keys whose equations connect them. -/
def linksC : List (Nat × Nat × Nat × Nat) :=
  [(23, 1, 6, 0), (23, 0, 6, 15), (23, 15, 6, 14), (23, 14, 1, 6), (20, 12, 0, 4), (23, 13, 1, 5), (21, 7, 19, 14), (23, 12, 1, 4), (21, 6,
   19, 13), (23, 11, 1, 3), (21, 5, 19, 12), (23, 10, 1, 2), (22, 0, 7, 7), (23, 9, 1, 1), (22, 14, 7, 6), (23, 8, 6, 7), (23, 7, 1, 14),
   (20, 5, 0, 12), (23, 6, 1, 13), (21, 0, 19, 7), (23, 5, 1, 12), (21, 14, 19, 6), (23, 4, 1, 11), (21, 13, 19, 5), (23, 3, 1, 10), (21,
   12, 19, 4)]

/-- The same for the right half. -/
def linksD : List (Nat × Nat × Nat × Nat) :=
  [(23, 2, 4, 9), (22, 15, 6, 14), (23, 1, 10, 0), (23, 0, 10, 15), (23, 15, 10, 14), (23, 14, 4, 6), (22, 12, 12, 4), (23, 13, 4, 5), (22,
   11, 12, 3), (23, 12, 4, 4), (22, 10, 12, 2), (23, 11, 4, 3), (22, 9, 12, 1), (23, 10, 4, 2), (22, 8, 12, 15), (23, 9, 4, 1), (20, 3, 3,
   10), (23, 8, 10, 7), (23, 7, 4, 14), (22, 5, 12, 12), (23, 6, 4, 13), (22, 4, 12, 11), (23, 5, 4, 12), (22, 3, 12, 10), (23, 4, 4, 11),
   (22, 2, 12, 9)]

/-- A link connects `x` and `x + 2`. -/
def LinkOk (base x : Nat) (l : Nat × Nat × Nat × Nat) : Prop :=
  let p := DesSpec.PC2.getD (base + l.1) 0 - (28 * (base / 24) + 1)
  let q := DesSpec.PC2.getD (base + l.2.2.1) 0 - (28 * (base / 24) + 1)
  l.1 < 24 ∧ l.2.1 < 16 ∧ l.2.2.1 < 24 ∧ l.2.2.2 < 16 ∧ (p + turns l.2.1) % 28 = (q + turns l.2.2.2) % 28 ∧
    (p + turns (15 - l.2.1)) % 28 = x ∧ (q + turns (15 - l.2.2.2)) % 28 = x + 2

instance (b x : Nat) (l : Nat × Nat × Nat × Nat) : Decidable (LinkOk b x l) := inferInstanceAs (Decidable (_ ∧ _))

theorem linksC_ok : ∀ x < 26, LinkOk 0 x (linksC.getD x (0, 0, 0, 0)) := by decide +kernel
theorem linksD_ok : ∀ x < 26, LinkOk 24 x (linksD.getD x (0, 0, 0, 0)) := by decide +kernel
theorem pc2_left : ∀ n < 24, DesSpec.PC2.getD (0 + n) 0 ≤ 28 := by decide
theorem pc2_right : ∀ n < 24, ¬ DesSpec.PC2.getD (24 + n) 0 ≤ 28 := by decide

/-- Both halves of a key with a dual repeat their first two bits. -/
theorem dual_repeats {c d c' d' : Bits} (hc : c.length = 28) (hd : d.length = 28) (hc' : c'.length = 28) (hd' : d'.length = 28)
    (h : DesSpec.keysFrom DesSpec.shifts c' d' = (DesSpec.keysFrom DesSpec.shifts c d).reverse) :
    (∀ x < 26, c.getD x false = c.getD (x + 2) false) ∧ (∀ x < 26, d.getD x false = d.getD (x + 2) false) := by
  refine ⟨fun x hx => ?_, fun x hx => ?_⟩
  · have hl := linksC_ok x hx
    generalize linksC.getD x (0, 0, 0, 0) = l at hl
    obtain ⟨n, i, n', i'⟩ := l
    obtain ⟨h1, h2, h3, h4, h5, h6, h7⟩ := hl
    simp only [Nat.reduceDiv, Nat.mul_zero, Nat.zero_add] at h1 h2 h3 h4 h5 h6 h7
    have e1 := dual_eqs hc hd hc' hd' h i n h2 (by omega)
    have e2 := dual_eqs hc hd hc' hd' h i' n' h4 (by omega)
    have p1 := pc2_left n h1
    have p2 := pc2_left n' h3
    rw [Nat.zero_add] at p1 p2
    rw [if_pos p1, if_pos p1, h6] at e1
    rw [if_pos p2, if_pos p2, h7] at e2
    rw [← e1, ← e2, h5]
  · have hl := linksD_ok x hx
    generalize linksD.getD x (0, 0, 0, 0) = l at hl
    obtain ⟨n, i, n', i'⟩ := l
    obtain ⟨h1, h2, h3, h4, h5, h6, h7⟩ := hl
    simp only [Nat.reduceDiv, Nat.reduceMul, Nat.reduceAdd] at h1 h2 h3 h4 h5 h6 h7
    have e1 := dual_eqs hc hd hc' hd' h i (24 + n) h2 (by omega)
    have e2 := dual_eqs hc hd hc' hd' h i' (24 + n') h4 (by omega)
    have p1 := pc2_right n h1
    have p2 := pc2_right n' h3
    rw [if_neg p1, if_neg p1, h6] at e1
    rw [if_neg p2, if_neg p2, h7] at e2
    rw [← e1, ← e2, h5]

/-- A half is then determined by its first two bits. -/
theorem repeats {l : Bits} (h : ∀ x < 26, l.getD x false = l.getD (x + 2) false) (x : Nat) (hx : x < 28) :
    l.getD x false = l.getD (x % 2) false := by
  induction x using Nat.strongRecOn with
  | ind x ih =>
    by_cases h2 : x < 2
    · rw [Nat.mod_eq_of_lt h2]
    · have := h (x - 2) (by omega)
      rw [show x - 2 + 2 = x by omega] at this
      rw [← this, ih (x - 2) (by omega) (by omega)]
      congr 1
      omega

/-- Bit number `pos` of a key with a dual, from the first two bits of its halves. -/
def pattern (a b e f : Bool) (pos : Nat) : Bool :=
  let x := DesSpec.PC1.idxOf pos
  if x < 28 then (if x % 2 = 0 then a else b) else if x % 2 = 0 then e else f

/-- Each pattern is one of the keys refused. -/
theorem patterns : ∀ a b e f : Bool, ∃ i < 16, ∀ m < 8, ∀ k < 8, 1 ≤ k →
    ((weakKeys.getD i #[]).toList.getD m 0).getLsbD k = pattern a b e f (8 * m + (8 - k)) := by
  decide +kernel

theorem parity_low : ∀ v < 256, ((bitsOf [BitVec.ofNat 8 v]).count true) % 2 = 1 → (BitVec.ofNat 8 v).getLsbD 0 =
    !((BitVec.ofNat 8 v).getLsbD 1 ^^ (BitVec.ofNat 8 v).getLsbD 2 ^^ (BitVec.ofNat 8 v).getLsbD 3 ^^ (BitVec.ofNat 8 v).getLsbD 4 ^^
      (BitVec.ofNat 8 v).getLsbD 5 ^^ (BitVec.ofNat 8 v).getLsbD 6 ^^ (BitVec.ofNat 8 v).getLsbD 7) := by
  decide +kernel

/-- A byte of odd parity is determined by its upper seven bits. -/
theorem byte_eq {b w : Byte} (hb : ((bitsOf [b]).count true) % 2 = 1) (hw : ((bitsOf [w]).count true) % 2 = 1)
    (h : ∀ k, 1 ≤ k → k < 8 → b.getLsbD k = w.getLsbD k) : b = w := by
  have e1 := parity_low b.toNat b.isLt
  have e2 := parity_low w.toNat w.isLt
  rw [BitVec.ofNat_toNat, BitVec.setWidth_eq] at e1 e2
  have e1 := e1 hb
  have e2 := e2 hw
  refine BitVec.eq_of_getLsbD_eq fun k hk => ?_
  by_cases hz : k = 0
  · subst hz
    rw [e1, e2, h 1 (by omega) (by omega), h 2 (by omega) (by omega), h 3 (by omega) (by omega), h 4 (by omega) (by omega),
      h 5 (by omega) (by omega), h 6 (by omega) (by omega), h 7 (by omega) (by omega)]
  · exact h k (by omega) hk

theorem pc1_pos : ∀ m < 8, ∀ k < 8, 1 ≤ k → DesSpec.PC1.idxOf (8 * m + (8 - k)) < 56 ∧
    DesSpec.PC1.getD (DesSpec.PC1.idxOf (8 * m + (8 - k))) 0 = 8 * m + (8 - k) := by decide +kernel

/-- Bits of a key of eight bytes. -/
theorem bitsOf_at (key : List Byte) (h : key.length = 8) (m k : Nat) (hm : m < 8) (hk : k < 8) (h1 : 1 ≤ k) :
    (bitsOf key).getD (8 * m + (8 - k) - 1) false = (key.getD m 0).getLsbD k := by
  match key, h with
  | [b0, b1, b2, b3, b4, b5, b6, b7], _ => interval_cases m <;> interval_cases k <;> rfl

theorem select_at (t : List Nat) (b : Bits) (x : Nat) (hx : x < t.length) : (select t b).getD x false = b.getD (t.getD x 0 - 1) false := by
  unfold select
  rw [List.getD_eq_getElem?_getD, List.getElem?_map, List.getElem?_eq_getElem hx, List.getD_eq_getElem?_getD (l := t), List.getElem?_eq_getElem hx]
  rfl

/-- **C84** (weak keys) A key of eight bytes of odd parity is refused as weak exactly if it has a dual. -/
theorem C84_weak (key : List Byte) (hl : key.length = 8) (hp : DesSpec.OddParity key) :
    weak key = true ↔ ∃ key' : List Byte, key'.length = 8 ∧ DesSpec.Dual (bitsOf key) (bitsOf key') := by
  constructor
  · intro h
    obtain ⟨_, _, key', hw, hd, _⟩ := weak_has_dual key h
    exact ⟨key', (weak_has_dual key' hw).1, hd⟩
  · rintro ⟨key', hl', hd⟩
    have hsel : ∀ b : Bits, (select DesSpec.PC1 b).length = 56 := fun b => by unfold select; rw [List.length_map]; rfl
    have len1 : ∀ b : Bits, ((select DesSpec.PC1 b).take 28).length = 28 := fun b => by rw [List.length_take, hsel]; rfl
    have len2 : ∀ b : Bits, ((select DesSpec.PC1 b).drop 28).length = 28 := fun b => by rw [List.length_drop, hsel]
    obtain ⟨hc, hd⟩ := dual_repeats (len1 _) (len2 _) (len1 _) (len2 _) hd
    have hc := repeats hc
    have hd := repeats hd
    have key_bit : ∀ m < 8, ∀ k < 8, 1 ≤ k → (key.getD m 0).getLsbD k = pattern (((select DesSpec.PC1 (bitsOf key)).take 28).getD 0 false)
        (((select DesSpec.PC1 (bitsOf key)).take 28).getD 1 false) (((select DesSpec.PC1 (bitsOf key)).drop 28).getD 0 false)
        (((select DesSpec.PC1 (bitsOf key)).drop 28).getD 1 false) (8 * m + (8 - k)) := by
      intro m hm k hk h1
      obtain ⟨hx, he⟩ := pc1_pos m hm k hk h1
      unfold pattern
      generalize DesSpec.PC1.idxOf (8 * m + (8 - k)) = x at hx he
      have hb : (select DesSpec.PC1 (bitsOf key)).getD x false = (key.getD m 0).getLsbD k := by
        rw [select_at _ _ _ hx, he, bitsOf_at key hl m k hm hk h1]
      rw [← hb]
      generalize select DesSpec.PC1 (bitsOf key) = L at hc hd
      simp only
      by_cases h28 : x < 28
      · have h := hc x h28
        have : (L.take 28).getD x false = L.getD x false := by
          rw [List.getD_eq_getElem?_getD, List.getElem?_take_of_lt h28, List.getD_eq_getElem?_getD]
        rw [if_pos h28, ← this, h]
        split
        · rename_i h2; rw [h2]
        · rename_i h2; rw [show x % 2 = 1 by omega]
      · have h := hd (x - 28) (by omega)
        have : (L.drop 28).getD (x - 28) false = L.getD x false := by
          rw [List.getD_eq_getElem?_getD, List.getElem?_drop, List.getD_eq_getElem?_getD]
          congr 2
          omega
        rw [if_neg h28, ← this, h]
        split
        · rename_i h2; rw [show (x - 28) % 2 = 0 by omega]
        · rename_i h2; rw [show (x - 28) % 2 = 1 by omega]
    obtain ⟨i, hi, hpat⟩ := patterns (((select DesSpec.PC1 (bitsOf key)).take 28).getD 0 false)
        (((select DesSpec.PC1 (bitsOf key)).take 28).getD 1 false) (((select DesSpec.PC1 (bitsOf key)).drop 28).getD 0 false)
        (((select DesSpec.PC1 (bitsOf key)).drop 28).getD 1 false)
    obtain ⟨_, hop, hsz, _⟩ := weak_table i hi
    have hmem : weakKeys.getD i #[] ∈ weakKeys := by
      have h16 : weakKeys.size = 16 := rfl
      have : weakKeys.getD i #[] = weakKeys[i]'(by rw [h16]; exact hi) := by simp [Array.getD, h16, hi]
      rw [this]
      exact Array.getElem_mem _
    generalize weakKeys.getD i #[] = w at hpat hop hsz hmem
    have hsz : w.toList.length = 8 := hsz
    have heq : w.toList = key := by
      refine List.ext_getElem (by rw [hsz, hl]) fun m h1 h2 => ?_
      have hm : m < 8 := by omega
      have ew : w.toList.getD m 0 = w.toList[m] := by rw [List.getD_eq_getElem?_getD, List.getElem?_eq_getElem h1]; rfl
      have ek : key.getD m 0 = key[m] := by rw [List.getD_eq_getElem?_getD, List.getElem?_eq_getElem h2]; rfl
      refine byte_eq (hop _ (List.getElem_mem h1)) (hp _ (List.getElem_mem h2)) fun k k1 k8 => ?_
      rw [← ew, ← ek, hpat m hm k k8 k1, key_bit m hm k k8 k1]
    unfold weak
    rw [List.any_eq_true]
    exact ⟨w, Array.mem_toList_iff.2 hmem, by rw [heq]; simp⟩

/-- A semi-weak key, and a key of odd parity without a dual (the default key of the protocol). -/
example : weak [0x01, 0xfe, 0x01, 0xfe, 0x01, 0xfe, 0x01, 0xfe] = true ∧ DesSpec.OddParity [0x01, 0xfe, 0x01, 0xfe, 0x01, 0xfe, 0x01, 0xfe] ∧
    weak [0x01, 0x23, 0x45, 0x67, 0x89, 0xab, 0xcd, 0xef] = false ∧ DesSpec.OddParity [0x01, 0x23, 0x45, 0x67, 0x89, 0xab, 0xcd, 0xef] := by
  unfold DesSpec.OddParity
  decide +kernel

end Pok.Des
