import Verif.Lemmas.DesRound

/-!
# The DES protocol computes the Data Encryption Standard (C84)
-/

namespace Pok.Des
open Pok.DesSpec (Bits select bitsOf)

/-! ## Sixteen rounds -/

theorem rounds_append (xs ys : List Bits) (p : Bits × Bits) : DesSpec.rounds (xs ++ ys) p = DesSpec.rounds ys (DesSpec.rounds xs p) := by
  induction xs generalizing p with
  | nil => rfl
  | cons k ks ih => obtain ⟨l, r⟩ := p; exact ih _

/-- The halves of the standard. -/
def halves (p : Word × Word) : Bits × Bits := (half p.1, half p.2)

/-- Key number `n` of a schedule. -/
def keyOf (s : Nat → Word) (n : Nat) : Bits := roundKey (s (2 * n)) (s (2 * n + 1))

theorem quadEnc_std (s : Nat → Word) (n : Nat) (p : Word × Word) :
    halves (quadEnc s (2 * n) p) = DesSpec.rounds [keyOf s n, keyOf s (n + 1), keyOf s (n + 2), keyOf s (n + 3)] (halves p) := by
  obtain ⟨l, r⟩ := p
  simp only [quadEnc, halves, round, DesSpec.rounds, keyOf, Nat.mul_add, Nat.add_zero, Nat.mul_one, Nat.reduceMul]

theorem quadDec_std (s : Nat → Word) (n : Nat) (p : Word × Word) :
    halves (quadDec s (2 * (n + 3)) p) = DesSpec.rounds [keyOf s (n + 3), keyOf s (n + 2), keyOf s (n + 1), keyOf s n] (halves p) := by
  obtain ⟨l, r⟩ := p
  have e2 : 2 * (n + 3) - 2 = 2 * (n + 2) := by omega
  have e4 : 2 * (n + 3) - 4 = 2 * (n + 1) := by omega
  have e6 : 2 * (n + 3) - 6 = 2 * n := by omega
  simp only [quadDec, e2, e4, e6, Nat.sub_zero, halves, round, DesSpec.rounds, keyOf]

/-- The keys in the order in which they are used. -/
def order (enc : Bool) (s : Nat → Word) : List Bits :=
  if enc then (List.range 16).map (keyOf s) else ((List.range 16).map (keyOf s)).reverse

theorem rounds_std (s : Nat → Word) (enc : Bool) (p : Word × Word) : halves (rounds s enc p) = DesSpec.rounds (order enc s) (halves p) := by
  cases enc
  · have e : order false s = [keyOf s 15, keyOf s 14, keyOf s 13, keyOf s 12] ++ ([keyOf s 11, keyOf s 10, keyOf s 9, keyOf s 8] ++
      ([keyOf s 7, keyOf s 6, keyOf s 5, keyOf s 4] ++ [keyOf s 3, keyOf s 2, keyOf s 1, keyOf s 0])) := rfl
    rw [e, rounds_append, rounds_append, rounds_append, ← quadDec_std s 12, ← quadDec_std s 8, ← quadDec_std s 4, ← quadDec_std s 0]
    rfl
  · have e : order true s = [keyOf s 0, keyOf s 1, keyOf s 2, keyOf s 3] ++ ([keyOf s 4, keyOf s 5, keyOf s 6, keyOf s 7] ++
      ([keyOf s 8, keyOf s 9, keyOf s 10, keyOf s 11] ++ [keyOf s 12, keyOf s 13, keyOf s 14, keyOf s 15])) := rfl
    rw [e, rounds_append, rounds_append, rounds_append, ← quadEnc_std s 0, ← quadEnc_std s 4, ← quadEnc_std s 8, ← quadEnc_std s 12]
    rfl

/-! ## Initial and final permutation -/

theorem half_in (x : Word) : half (x.rotateRight 29) = (List.range 32).map x.getLsbD := by
  simp [half, List.range, List.range.loop, BitVec.getLsbD_rotateRight]

theorem half_out (x : Word) : (List.range 32).map (x.rotateRight 3).getLsbD = half x := by
  simp [half, List.range, List.range.loop, BitVec.getLsbD_rotateRight]

theorem picks_first (p : Word × Word) : picks p (List.range 32) = (List.range 32).map p.1.getLsbD := by
  refine List.map_congr_left fun j hj => ?_
  rw [bit, if_pos (List.mem_range.1 hj)]

theorem picks_second (p : Word × Word) : picks p ((List.range 32).map (· + 32)) = (List.range 32).map p.2.getLsbD := by
  simp only [picks, List.map_map]
  refine List.map_congr_left fun j hj => ?_
  simp [bit]

theorem ip_table1 : (DesSpec.IP.map fun i => ((List.range 64).map place).getD (i - 1) 64).take 32 = ((List.range 32).map (· + 32)).map ipTab := by
  decide +kernel

theorem ip_table2 : (DesSpec.IP.map fun i => ((List.range 64).map place).getD (i - 1) 64).drop 32 = (List.range 32).map ipTab := by
  decide +kernel

theorem fp_table : ((List.range 64).map place).map (fun j => fpTab ((j + 32) % 64)) = DesSpec.IPinv.map fun i => (List.range 64).getD (i - 1) 64 := by
  decide +kernel

/-- `IP` and the rotations give the two halves of the standard's initial permutation. -/
theorem ip_std (b : Block) : ((select DesSpec.IP (bitsOf (little.bytes b))).take 32, (select DesSpec.IP (bitsOf (little.bytes b))).drop 32) =
    (half ((ip b.1 b.2).2.rotateRight 29), half ((ip b.1 b.2).1.rotateRight 29)) := by
  have h1 := ip_sel.picks b (List.range 32) (fun j hj => by have := List.mem_range.1 hj; omega)
  have h2 := ip_sel.picks b ((List.range 32).map (· + 32)) (fun j hj => by
    simp only [List.mem_map, List.mem_range] at hj; omega)
  rw [half_in, half_in, ← picks_first, ← picks_second (ip b.1 b.2), h1, h2, bitsOf_block, select_picks, picks, picks, picks, ← List.map_take, ← List.map_drop, ip_table1, ip_table2]

/-- The rotations and `FP` give the standard's final permutation. -/
theorem fp_std (l r : Word) :
    bitsOf (little.bytes ((fp (r.rotateRight 3) (l.rotateRight 3)).2, (fp (r.rotateRight 3) (l.rotateRight 3)).1)) =
      select DesSpec.IPinv (half r ++ half l) := by
  have e : half r ++ half l = picks (r.rotateRight 3, l.rotateRight 3) (List.range 64) := by
    rw [← half_out r, ← half_out l]
    have : List.range 64 = List.range 32 ++ (List.range 32).map (· + 32) := by decide
    rw [this, picks, List.map_append]
    exact congrArg₂ _ (picks_first (r.rotateRight 3, l.rotateRight 3)).symm (picks_second (r.rotateRight 3, l.rotateRight 3)).symm
  rw [e, select_picks, bitsOf_block]
  have h := (fp_sel.comp swap_sel (fun j _ => Nat.mod_lt _ (by decide))).picks (r.rotateRight 3, l.rotateRight 3) ((List.range 64).map place)
    (fun j hj => by
      simp only [List.mem_map, List.mem_range, place] at hj
      obtain ⟨a, ha, rfl⟩ := hj
      omega)
  rw [fp_table] at h
  exact h

/-- A block with the keys of a schedule. -/
theorem encrypt1_std (s : Nat → Word) (enc : Bool) (b : Block) :
    bitsOf (little.bytes (encrypt1 s enc b)) = DesSpec.crypt (order enc s) (bitsOf (little.bytes b)) := by
  unfold DesSpec.crypt
  have h := ip_std b
  have hr := rounds_std s enc ((ip b.1 b.2).2.rotateRight 29, (ip b.1 b.2).1.rotateRight 29)
  unfold halves at hr
  simp only at hr ⊢
  rw [h, ← hr]
  exact fp_std _ _

/-! ## The key schedule -/

/-- The 28 bits kept in a word. -/
def low28 (x : Word) : Bits := (List.range 28).map x.getLsbD

/-- Nothing above them. -/
def Small (x : Word) : Prop := ∀ j, 28 ≤ j → x.getLsbD j = false

/-- The word after a rotation. -/
def rotated (two : Bool) (c : Word) : Word := (if two then (c >>> 2) ||| (c <<< 26) else (c >>> 1) ||| (c <<< 27)) &&& 0x0fffffff#32

theorem mask28 (j : Nat) : (0x0fffffff#32).getLsbD j = decide (j < 28) := by
  by_cases h : j < 32
  · interval_cases j <;> rfl
  · rw [BitVec.getLsbD_of_ge _ _ (by omega)]
    simp; omega

theorem rotated_small (two : Bool) (c : Word) : Small (rotated two c) := by
  intro j hj
  unfold rotated
  rw [BitVec.getLsbD_and, mask28]
  simp; omega

theorem rotated_std (two : Bool) (c : Word) (h : Small c) : low28 (rotated two c) = (low28 c).rotateLeft (if two then 2 else 1) := by
  have h28 : c[28] = false := h 28 (by omega)
  have h29 : c[29] = false := h 29 (by omega)
  cases two
  · simp [low28, rotated, List.range, List.range.loop, List.rotateLeft, h28]
  · simp [low28, rotated, List.range, List.range.loop, List.rotateLeft, h28, h29]

/-- The bit of the index that bit `j` of the entries of table `i` shows; 6 for none. -/
def skbTab (i j : Nat) : Nat := ((List.range 6).find? fun k => ((skb.getD i #[]).getD (2 ^ k) 0).getLsbD j).getD 6

theorem skb_tables : ∀ i < 8, ∀ v < 64, ∀ j < 32, ((skb.getD i #[]).getD v 0).getLsbD j = v.testBit (skbTab i j) := by
  decide +kernel

theorem skbTab_le : ∀ i < 8, ∀ j < 32, skbTab i j ≤ 6 := by decide +kernel

theorem skbAt_bit {i j : Nat} {w x : Word} {src : Nat → Nat} (hi : i < 8) (hj : j < 32) (hw : w.toNat < 64)
    (hs : ∀ k ≤ 6, w.getLsbD k = x.getLsbD (src k)) : (skbAt i w).getLsbD j = x.getLsbD (src (skbTab i j)) := by
  unfold skbAt
  rw [skb_tables i hi _ hw j hj, ← hs _ (skbTab_le i hi j hj), BitVec.testBit_toNat]

theorem and_small (a m : Word) (h : m.toNat < 2 ^ 6) : (a &&& m).toNat < 2 ^ 6 := by
  rw [BitVec.toNat_and]; exact Nat.and_lt_two_pow _ h

theorem or_small {a b : Word} (ha : a.toNat < 2 ^ 6) (hb : b.toNat < 2 ^ 6) : (a ||| b).toNat < 2 ^ 6 := by
  rw [BitVec.toNat_or]; exact Nat.or_lt_two_pow ha hb

/-- Where bit `k` of the index of each table comes from. -/
def src (i k : Nat) : Nat :=
  if k ≥ 6 then 64 else
  match i with
  | 0 => k
  | 1 => if k < 2 then 6 + k else 7 + k
  | 2 => if k < 4 then 13 + k else 14 + k
  | 3 => if k < 1 then 20 + k else if k < 3 then 21 + k else 22 + k
  | 4 => k
  | 5 => if k < 2 then 7 + k else 8 + k
  | 6 => 15 + k
  | _ => if k < 4 then 21 + k else 22 + k

/-- The first word of the schedule before it is distributed, `s` of set_key.c 384-387. -/
def sWord (c : Word) : Word :=
  skbAt 0 (c &&& 0x3f#32) ||| skbAt 1 (((c >>> 6) &&& 0x03#32) ||| ((c >>> 7) &&& 0x3c#32)) |||
    skbAt 2 (((c >>> 13) &&& 0x0f#32) ||| ((c >>> 14) &&& 0x30#32)) |||
    skbAt 3 (((c >>> 20) &&& 0x01#32) ||| ((c >>> 21) &&& 0x06#32) ||| ((c >>> 22) &&& 0x38#32))

/-- The second one, `t` of set_key.c 388-391. -/
def tWord (d : Word) : Word :=
  skbAt 4 (d &&& 0x3f#32) ||| skbAt 5 (((d >>> 7) &&& 0x03#32) ||| ((d >>> 8) &&& 0x3c#32)) |||
    skbAt 6 ((d >>> 15) &&& 0x3f#32) ||| skbAt 7 (((d >>> 21) &&& 0x0f#32) ||| ((d >>> 22) &&& 0x30#32))

/-- The bit of the word that bit `j` shows, for the tables from number `i` on. -/
def quadTab (i j : Nat) : Nat :=
  min (min (min (src i (skbTab i j)) (src (i + 1) (skbTab (i + 1) j))) (src (i + 2) (skbTab (i + 2) j))) (src (i + 3) (skbTab (i + 3) j))

/-- At most one of four numbers is not 64. -/
def Single (a b c d : Nat) : Prop :=
  (a = 64 ∧ b = 64 ∧ c = 64 ∧ d ≤ 64) ∨ (a = 64 ∧ b = 64 ∧ c ≤ 64 ∧ d = 64) ∨ (a = 64 ∧ b ≤ 64 ∧ c = 64 ∧ d = 64) ∨
    (a ≤ 64 ∧ b = 64 ∧ c = 64 ∧ d = 64)

instance (a b c d : Nat) : Decidable (Single a b c d) := inferInstanceAs (Decidable (_ ∨ _))

theorem single_or {a b c d : Nat} (h : Single a b c d) (x : Word) :
    (x.getLsbD a || x.getLsbD b || x.getLsbD c || x.getLsbD d) = x.getLsbD (min (min (min a b) c) d) := by
  have h64 : x.getLsbD 64 = false := BitVec.getLsbD_of_ge _ _ (by omega)
  rcases h with ⟨rfl, rfl, rfl, h⟩ | ⟨rfl, rfl, h, rfl⟩ | ⟨rfl, h, rfl, rfl⟩ | ⟨h, rfl, rfl, rfl⟩ <;> simp [h64, h]

theorem s_single : ∀ j < 32, Single (src 0 (skbTab 0 j)) (src 1 (skbTab 1 j)) (src 2 (skbTab 2 j)) (src 3 (skbTab 3 j)) := by decide +kernel
theorem t_single : ∀ j < 32, Single (src 4 (skbTab 4 j)) (src 5 (skbTab 5 j)) (src 6 (skbTab 6 j)) (src 7 (skbTab 7 j)) := by decide +kernel

theorem sWord_bit (c : Word) (j : Nat) (hj : j < 32) : (sWord c).getLsbD j = c.getLsbD (quadTab 0 j) := by
  unfold sWord quadTab
  have s6 : ∀ m : Word, m.toNat < 2 ^ 6 → m.toNat < 64 := fun _ h => h
  have h0 := skbAt_bit (x := c) (src := src 0) (show 0 < 8 by decide) hj (and_small c 0x3f#32 (by decide)) (fun k hk => by
    interval_cases k <;> simp [src])
  have h1 := skbAt_bit (x := c) (src := src 1) (show 1 < 8 by decide) hj
    (or_small (and_small (c >>> 6) 0x03#32 (by decide)) (and_small (c >>> 7) 0x3c#32 (by decide))) (fun k hk => by interval_cases k <;> simp [src])
  have h2 := skbAt_bit (x := c) (src := src 2) (show 2 < 8 by decide) hj
    (or_small (and_small (c >>> 13) 0x0f#32 (by decide)) (and_small (c >>> 14) 0x30#32 (by decide))) (fun k hk => by interval_cases k <;> simp [src])
  have h3 := skbAt_bit (x := c) (src := src 3) (show 3 < 8 by decide) hj
    (or_small (or_small (and_small (c >>> 20) 0x01#32 (by decide)) (and_small (c >>> 21) 0x06#32 (by decide))) (and_small (c >>> 22) 0x38#32 (by decide)))
    (fun k hk => by interval_cases k <;> simp [src])
  rw [BitVec.getLsbD_or, BitVec.getLsbD_or, BitVec.getLsbD_or, h0, h1, h2, h3]
  exact single_or (s_single j hj) c

theorem tWord_bit (d : Word) (j : Nat) (hj : j < 32) : (tWord d).getLsbD j = d.getLsbD (quadTab 4 j) := by
  unfold tWord quadTab
  have h0 := skbAt_bit (x := d) (src := src 4) (show 4 < 8 by decide) hj (and_small d 0x3f#32 (by decide)) (fun k hk => by
    interval_cases k <;> simp [src])
  have h1 := skbAt_bit (x := d) (src := src 5) (show 5 < 8 by decide) hj
    (or_small (and_small (d >>> 7) 0x03#32 (by decide)) (and_small (d >>> 8) 0x3c#32 (by decide))) (fun k hk => by interval_cases k <;> simp [src])
  have h2 := skbAt_bit (x := d) (src := src 6) (show 6 < 8 by decide) hj (and_small (d >>> 15) 0x3f#32 (by decide)) (fun k hk => by
    interval_cases k <;> simp [src])
  have h3 := skbAt_bit (x := d) (src := src 7) (show 7 < 8 by decide) hj
    (or_small (and_small (d >>> 21) 0x0f#32 (by decide)) (and_small (d >>> 22) 0x30#32 (by decide))) (fun k hk => by interval_cases k <;> simp [src])
  rw [BitVec.getLsbD_or, BitVec.getLsbD_or, BitVec.getLsbD_or, h0, h1, h2, h3]
  exact single_or (t_single j hj) d

/-- The two words of a round of the schedule. -/
def kWords (c d : Word) : Word × Word :=
  (((tWord d <<< 16) ||| (sWord c &&& 0x0000ffff#32)).rotateRight 30, ((sWord c >>> 16) ||| (tWord d &&& 0xffff0000#32)).rotateRight 26)

theorem keyRound_eq (two : Bool) (c d : Word) :
    keyRound two c d = (rotated two c, rotated two d, (kWords (rotated two c) (rotated two d)).1, (kWords (rotated two c) (rotated two d)).2) := rfl

theorem mask_low (j : Nat) : (0x0000ffff#32).getLsbD j = decide (j < 16) := by
  by_cases h : j < 32
  · interval_cases j <;> rfl
  · rw [BitVec.getLsbD_of_ge _ _ (by omega)]
    simp; omega

theorem mask_high (j : Nat) (h : j < 32) : (0xffff0000#32).getLsbD j = decide (16 ≤ j) := by interval_cases j <;> rfl

/-- The source of bit `j` of the first word of a round. -/
def evenTab (j : Nat) : Nat := let x := (j + 30) % 32; if x < 16 then quadTab 0 x else 32 + quadTab 4 (x - 16)
/-- The source of bit `j` of the second word of a round. -/
def oddTab (j : Nat) : Nat := let x := (j + 26) % 32; if x < 16 then quadTab 0 (x + 16) else 32 + quadTab 4 x

theorem bit_first (c d : Word) (j : Nat) (h : j < 28 ∨ j = 64) : bit (c, d) j = c.getLsbD j := by
  unfold bit
  rcases h with h | rfl
  · rw [if_pos (by omega)]
  · simp

theorem bit_second (c d : Word) (j : Nat) : bit (c, d) (32 + j) = d.getLsbD j := by simp [bit]

theorem quad_range : ∀ j < 32, quadTab 0 j < 28 ∨ quadTab 0 j = 64 := by decide +kernel

theorem rot_bit (x : Word) (n j : Nat) (hn : n < 32) (hj : j < 32) : (x.rotateRight n).getLsbD j = x.getLsbD ((j + n) % 32) := by
  rw [BitVec.getLsbD_rotateRight, Nat.mod_eq_of_lt hn]
  by_cases h : j < 32 - n
  · rw [decide_eq_true h, cond_true]; congr 1; omega
  · rw [decide_eq_false h, cond_false, decide_eq_true hj, Bool.true_and]; congr 1; omega

theorem even_bit (c d : Word) (j : Nat) (hj : j < 32) : (kWords c d).1.getLsbD j = bit (c, d) (evenTab j) := by
  unfold kWords evenTab
  simp only
  rw [rot_bit _ _ _ (by decide) hj]
  generalize hx : (j + 30) % 32 = x
  have hx32 : x < 32 := by omega
  rw [BitVec.getLsbD_or, BitVec.getLsbD_shiftLeft, BitVec.getLsbD_and, mask_low, sWord_bit c x hx32]
  by_cases h : x < 16
  · rw [if_pos h, bit_first _ _ _ (quad_range x hx32)]
    simp [h]
  · rw [if_neg h, bit_second, tWord_bit d (x - 16) (by omega)]
    simp [h, hx32]

theorem odd_bit (c d : Word) (j : Nat) (hj : j < 32) : (kWords c d).2.getLsbD j = bit (c, d) (oddTab j) := by
  unfold kWords oddTab
  simp only
  rw [rot_bit _ _ _ (by decide) hj]
  generalize hx : (j + 26) % 32 = x
  have hx32 : x < 32 := by omega
  rw [BitVec.getLsbD_or, BitVec.getLsbD_ushiftRight, BitVec.getLsbD_and, mask_high x hx32, tWord_bit d x hx32]
  by_cases h : x < 16
  · rw [if_pos h, bit_first _ _ _ (quad_range (x + 16) (by omega)), sWord_bit c (16 + x) (by omega), Nat.add_comm 16 x]
    simp [show ¬ 16 ≤ x by omega]
  · rw [if_neg h, bit_second, BitVec.getLsbD_of_ge (sWord c) (16 + x) (by omega)]
    simp [show 16 ≤ x by omega]

theorem key_table : ((List.range 48).map fun j => if j / 6 % 2 = 0 then evenTab (j / 12 * 8 + 2 + j % 6) else oddTab ((j / 12 * 8 + 6 + j % 6) % 32)) =
    DesSpec.PC2.map fun i => (List.range 28 ++ (List.range 28).map (32 + ·)).getD (i - 1) 64 := by
  decide +kernel

/-- The words of a round are the standard's permuted choice 2. -/
theorem kWords_std (c d : Word) : roundKey (kWords c d).1 (kWords c d).2 = select DesSpec.PC2 (low28 c ++ low28 d) := by
  have e : low28 c ++ low28 d = picks (c, d) (List.range 28 ++ (List.range 28).map (32 + ·)) := by
    unfold picks low28
    rw [List.map_append, List.map_map]
    exact congrArg₂ _ (List.map_congr_left fun j hj => (bit_first c d j (Or.inl (List.mem_range.1 hj))).symm)
      (List.map_congr_left fun j _ => (bit_second c d j).symm)
  rw [e, select_picks, ← key_table, picks, List.map_map, roundKey]
  refine List.map_congr_left fun j hj => ?_
  have hj := List.mem_range.1 hj
  simp only [Function.comp]
  split
  · rw [even_bit _ _ _ (by omega)]
  · rw [odd_bit _ _ _ (by omega)]

/-- The whole loop. -/
theorem keyLoop_std (bs : List Bool) (c d : Word) (hc : Small c) (hd : Small d) :
    (List.range bs.length).map (keyOf (sched (keyLoop bs c d))) =
      DesSpec.keysFrom (bs.map fun b => if b then 2 else 1) (low28 c) (low28 d) := by
  induction bs generalizing c d with
  | nil => rfl
  | cons b bs ih =>
    have h := ih (rotated b c) (rotated b d) (rotated_small b c) (rotated_small b d)
    rw [rotated_std b c hc, rotated_std b d hd] at h
    rw [List.length_cons, List.range_succ_eq_map, List.map_cons, List.map_map, List.map_cons, DesSpec.keysFrom, ← h]
    congr 1
    rw [← rotated_std b c hc, ← rotated_std b d hd, ← kWords_std]
    rfl

/-- The moves of `HPERM_OP`. -/
def hTab (j : Nat) : Nat :=
  if (0xcccc0000#32).getLsbD j then j - 18 else if (0xcccc0000#32).getLsbD (j + 18) then j + 18 else j

theorem hperm_bit (a : Word) (j : Nat) (hj : j < 32) : (hpermOp 0xcccc0000#32 a).getLsbD j = a.getLsbD (hTab j) := by
  have e : ∀ x y : Bool, (x ^^ (y ^^ x)) = y := by decide
  unfold hpermOp hTab
  interval_cases j <;> simp [e]

/-- The moves of both `HPERM_OP`. -/
def hTab2 (j : Nat) : Nat := if j < 32 then hTab j else 32 + hTab (j - 32)

theorem hTab_lt : ∀ j < 32, hTab j < 32 := by decide +kernel
theorem hTab2_lt (j : Nat) (h : j < 64) : hTab2 j < 64 := by
  unfold hTab2
  split
  · have := hTab_lt j (by assumption); omega
  · have := hTab_lt (j - 32) (by omega); omega

theorem hperm_sel : Sel (fun p => (hpermOp 0xcccc0000#32 p.1, hpermOp 0xcccc0000#32 p.2)) hTab2 := by
  intro ⟨c, d⟩ j hj
  unfold hTab2
  by_cases h : j < 32
  · rw [if_pos h]
    unfold bit
    rw [if_pos h, if_pos (hTab_lt j h)]
    exact hperm_bit c j h
  · rw [if_neg h, bit_second]
    unfold bit
    rw [if_neg h]
    exact hperm_bit d (j - 32) (by omega)

/-- The words from which the rounds of the schedule start, before the last rearrangement: set_key.c 349-361. -/
def spread (p : Word × Word) : Word × Word :=
  let (c, d) := p
  let (d, c) := permOp 4 0x0f0f0f0f#32 d c
  let c := hpermOp 0xcccc0000#32 c
  let d := hpermOp 0xcccc0000#32 d
  let (d, c) := permOp 1 0x55555555#32 d c
  let (c, d) := permOp 8 0x00ff00ff#32 c d
  let (d, c) := permOp 1 0x55555555#32 d c
  (c, d)

/-- The last rearrangement: set_key.c 362-366. -/
def settle (p : Word × Word) : Word × Word :=
  (p.1 &&& 0x0fffffff#32, ((p.2 &&& 0x000000ff#32) <<< 16) ||| (p.2 &&& 0x0000ff00#32) ||| ((p.2 &&& 0x00ff0000#32) >>> 16) |||
    ((p.1 &&& 0xf0000000#32) >>> 4))

theorem setKey_eq (key : List Byte) :
    setKey key = keyLoop shifts2 (settle (spread (little.block key))).1 (settle (spread (little.block key))).2 := rfl

/-- The moves of `spread`. -/
def spreadTab (j : Nat) : Nat :=
  permTab' 4 0x0f0f0f0f#32 (hTab2 (permTab' 1 0x55555555#32 (permTab 8 0x00ff00ff#32 (permTab' 1 0x55555555#32 j))))

theorem spread_sel : Sel spread spreadTab := by
  have m4 := mask_ok 4 0x0f0f0f0f#32 (by decide)
  have m8 := mask_ok 8 0x00ff00ff#32 (by decide)
  have m1 := mask_ok 1 0x55555555#32 (by decide)
  have lt' : ∀ n m, ∀ j < 64, permTab' n m j < 64 := fun n m j _ => Nat.mod_lt _ (by decide)
  exact (((((permOp_sel' 4 _ m4).comp hperm_sel hTab2_lt).comp (permOp_sel' 1 _ m1) (lt' _ _)).comp
    (permOp_sel 8 _ m8) (permTab_lt _ _ m8)).comp (permOp_sel' 1 _ m1) (lt' _ _))

/-- The source of bit `j` of the second word after `settle`. -/
def settleTab (j : Nat) : Nat := if j < 8 then 32 + j + 16 else if j < 16 then 32 + j else if j < 24 then 32 + j - 16 else j + 4

theorem settle_second (p : Word × Word) (j : Nat) (hj : j < 28) : (settle p).2.getLsbD j = bit p (settleTab j) := by
  unfold settle settleTab bit
  interval_cases j <;> simp

theorem settle_small (p : Word × Word) : Small (settle p).1 ∧ Small (settle p).2 := by
  refine ⟨fun j hj => ?_, fun j hj => ?_⟩
  · unfold settle
    rw [BitVec.getLsbD_and, mask28]
    simp; omega
  · by_cases h : j < 32
    · unfold settle
      interval_cases j <;> simp
    · exact BitVec.getLsbD_of_ge _ _ (by omega)

theorem pc1_table1 : (DesSpec.PC1.map fun i => ((List.range 64).map place).getD (i - 1) 64).take 28 = (List.range 28).map spreadTab := by decide +kernel
theorem pc1_table2 : (DesSpec.PC1.map fun i => ((List.range 64).map place).getD (i - 1) 64).drop 28 = ((List.range 28).map settleTab).map spreadTab := by
  decide +kernel

theorem settle_std (p : Word × Word) :
    low28 (settle (spread p)).1 = (select DesSpec.PC1 (bitsOf (little.bytes p))).take 28 ∧
    low28 (settle (spread p)).2 = (select DesSpec.PC1 (bitsOf (little.bytes p))).drop 28 := by
  rw [bitsOf_block, select_picks, picks, ← List.map_take, ← List.map_drop, pc1_table1, pc1_table2]
  constructor
  · rw [low28, List.map_map]
    refine List.map_congr_left fun j hj => ?_
    have hj := List.mem_range.1 hj
    rw [Function.comp, ← spread_sel p j (by omega)]
    unfold settle bit
    rw [BitVec.getLsbD_and, mask28, if_pos (by omega)]
    simp [hj]
  · have key : ∀ j ∈ List.range 28, (settle (spread p)).2.getLsbD j = bit p (spreadTab (settleTab j)) := fun j hj => by
      have hj := List.mem_range.1 hj
      have hl : settleTab j < 64 := by unfold settleTab; split <;> (try split) <;> (try split) <;> omega
      rw [settle_second _ _ hj, spread_sel p _ hl]
    simp only [low28, List.map_map, Function.comp_def]
    exact List.map_congr_left key

theorem bytes_block8 (m : List Byte) (h : m.length = 8) : little.bytes (little.block m) = m := by
  rw [little_ok.bytes_block, List.take_append_of_le_length (by omega), List.take_of_length_le (by omega)]

/-- **C84** (keys) The key schedule that the protocol computes from a key of eight bytes is that of the standard. -/
theorem C84_keys (key : List Byte) (h : key.length = 8) : (List.range 16).map (keyOf (sched (setKey key))) = DesSpec.keys (bitsOf key) := by
  have hs := settle_std (little.block key)
  rw [bytes_block8 key h] at hs
  have hsm := settle_small (spread (little.block key))
  have := keyLoop_std shifts2 _ _ hsm.1 hsm.2
  rw [← setKey_eq, hs.1, hs.2] at this
  exact this

/-- **C84** A block of eight bytes is enciphered and deciphered as FIPS 46 says. -/
theorem C84_des (key m : List Byte) (hk : key.length = 8) (hm : m.length = 8) :
    bitsOf (little.bytes (encrypt1 (sched (setKey key)) true (little.block m))) = DesSpec.encipher (bitsOf key) (bitsOf m) ∧
    bitsOf (little.bytes (encrypt1 (sched (setKey key)) false (little.block m))) = DesSpec.decipher (bitsOf key) (bitsOf m) := by
  rw [encrypt1_std, encrypt1_std, bytes_block8 m hm]
  unfold order DesSpec.encipher DesSpec.decipher
  rw [if_pos rfl, if_neg (by decide), C84_keys key hk]
  exact ⟨rfl, rfl⟩

/-! ## Triple DES and chaining -/

theorem encrypt1_eq (s : Nat → Word) (enc : Bool) (b : Block) :
    encrypt1 s enc b = ((fp (encrypt2 s enc (ip b.1 b.2)).2 (encrypt2 s enc (ip b.1 b.2)).1).2,
      (fp (encrypt2 s enc (ip b.1 b.2)).2 (encrypt2 s enc (ip b.1 b.2)).1).1) := rfl

theorem encrypt3_eq (s1 s2 s3 : Nat → Word) (b : Block) :
    encrypt3 s1 s2 s3 b = encrypt1 s3 true (encrypt1 s2 false (encrypt1 s1 true b)) := by
  have inner : ∀ (z : Block), ip (fp z.2 z.1).2 (fp z.2 z.1).1 = z := fun z => ip_fp z.2 z.1
  rw [encrypt1_eq s3, encrypt1_eq s2, encrypt1_eq s1, inner, inner]
  rfl

/-- **C84** (triple DES) A block of eight bytes with three keys. -/
theorem C84_triple (key1 key2 key3 m : List Byte) (h1 : key1.length = 8) (h2 : key2.length = 8) (h3 : key3.length = 8) (hm : m.length = 8) :
    bitsOf (little.bytes (encrypt3 (sched (setKey key1)) (sched (setKey key2)) (sched (setKey key3)) (little.block m))) =
      DesSpec.encipher3 (bitsOf key1) (bitsOf key2) (bitsOf key3) (bitsOf m) := by
  have len : ∀ b, (little.bytes b).length = 8 := little_ok.bytes_length
  have back : ∀ b, little.block (little.bytes b) = b := fun b => by
    have := little_ok.block_bytes b []
    rwa [List.append_nil] at this
  unfold DesSpec.encipher3
  rw [encrypt3_eq, ← (C84_des key1 m h1 hm).1, ← (C84_des key2 _ h2 (len _)).2, ← (C84_des key3 _ h3 (len _)).1, back, back]

theorem bit_xor (a b : Block) (j : Nat) : bit (xorB a b) j = Bool.xor (bit a j) (bit b j) := by
  unfold bit xorB
  split <;> rw [BitVec.getLsbD_xor]

theorem bits_xor (a b : Block) : bitsOf (little.bytes (xorB a b)) = DesSpec.xor (bitsOf (little.bytes a)) (bitsOf (little.bytes b)) := by
  rw [bitsOf_block, bitsOf_block, bitsOf_block, picks, picks, picks, DesSpec.xor, List.zipWith_map, List.zipWith_self]
  exact List.map_congr_left fun j _ => bit_xor a b j

theorem block_append (b rest : List Byte) (h : b.length = 8) : little.block (b ++ rest) = little.block b := by
  match b, h with
  | [_, _, _, _, _, _, _, _], _ => rfl

theorem bitsOf_append (a b : List Byte) : bitsOf (a ++ b) = bitsOf a ++ bitsOf b := List.flatMap_append

/-- Chaining of the code is chaining of the standard, for a cipher of the standard: whole blocks, and one incomplete block completed with null
bytes. -/
theorem chain_std (E : Block → Block) (E' : Bits → Bits) (hE : ∀ b, bitsOf (little.bytes (E b)) = E' (bitsOf (little.bytes b)))
    (ms : List (List Byte)) (hms : ∀ m ∈ ms, m.length = 8) (tail : List Byte) (ht : tail.length < 8) (iv : Block) :
    bitsOf (cbcEnc little E iv (ms.flatten ++ tail)) =
      (DesSpec.chain E' (bitsOf (little.bytes iv))
        (ms.map bitsOf ++ (if tail = [] then [] else [bitsOf (tail ++ List.replicate (8 - tail.length) 0)]))).flatten := by
  induction ms generalizing iv with
  | nil =>
    simp only [List.flatten_nil, List.nil_append, List.map_nil]
    unfold cbcEnc
    rw [dif_neg (by omega)]
    by_cases h : tail = []
    · rw [if_pos h, if_pos h]; rfl
    · rw [if_neg h, if_neg h]
      have e : little.bytes (little.block tail) = tail ++ List.replicate (8 - tail.length) 0 := by
        rw [little_ok.bytes_block, List.take_append, List.take_of_length_le (by omega), List.take_replicate]
        congr 2
        omega
      simp only [DesSpec.chain, List.flatten_cons, List.flatten_nil, List.append_nil]
      rw [hE, bits_xor, e]
  | cons b bs ih =>
    have hb : b.length = 8 := hms b (List.mem_cons_self)
    have hl : 8 ≤ (b ++ (bs.flatten ++ tail)).length := by rw [List.length_append]; omega
    rw [List.flatten_cons, List.append_assoc, cbcEnc, dif_pos hl]
    have hd : (b ++ (bs.flatten ++ tail)).drop 8 = bs.flatten ++ tail := by rw [← hb, List.drop_left]
    rw [bitsOf_append]
    simp only [hd, List.map_cons, List.cons_append, DesSpec.chain, List.flatten_cons]
    rw [ih (fun m hm => hms m (List.mem_cons_of_mem _ hm)), block_append b _ hb, hE, bits_xor, bytes_block8 b hb]

/-- **C84** (chaining) A message of any length, made of whole blocks and possibly an incomplete one (which is completed with null bytes), is
enciphered in cipher block chaining mode as FIPS 81 says, with DES and with triple DES. -/
theorem C84_chain (key key2 key3 iv : List Byte) (h1 : key.length = 8) (h2 : key2.length = 8) (h3 : key3.length = 8) (hiv : iv.length = 8)
    (ms : List (List Byte)) (hms : ∀ m ∈ ms, m.length = 8) (tail : List Byte) (ht : tail.length < 8) :
    let blocks := ms.map bitsOf ++ (if tail = [] then [] else [bitsOf (tail ++ List.replicate (8 - tail.length) 0)])
    bitsOf (ncbcEncrypt (sched (setKey key)) iv (ms.flatten ++ tail)) =
      (DesSpec.chain (DesSpec.encipher (bitsOf key)) (bitsOf iv) blocks).flatten ∧
    bitsOf (ede3Encrypt (sched (setKey key)) (sched (setKey key2)) (sched (setKey key3)) iv (ms.flatten ++ tail)) =
      (DesSpec.chain (DesSpec.encipher3 (bitsOf key) (bitsOf key2) (bitsOf key3)) (bitsOf iv) blocks).flatten := by
  have len : ∀ b, (little.bytes b).length = 8 := little_ok.bytes_length
  have back : ∀ b, little.block (little.bytes b) = b := fun b => by
    have := little_ok.block_bytes b []
    rwa [List.append_nil] at this
  intro blocks
  have hb : bitsOf (little.bytes (little.block iv)) = bitsOf iv := by rw [bytes_block8 iv hiv]
  rw [← hb]
  refine ⟨chain_std _ _ (fun b => ?_) ms hms tail ht _, chain_std _ _ (fun b => ?_) ms hms tail ht _⟩
  · rw [← (C84_des key _ h1 (len b)).1, back]
  · rw [← C84_triple key key2 key3 _ h1 h2 h3 (len b), back]

/-- **C84** (protocol) With a key of odd parity that is not weak, the protocol sends, for a message of eight bytes, its DES encipherment with
the initial vector of the configuration. -/
theorem C84_protocol (key iv m : List Byte) (hk : key.length = 8) (hiv : iv.length = 8) (hm : m.length = 8) (hp : parityOk key = true)
    (hw : weak key = false) :
    ∃ c, marshall key iv m = some (c, 8) ∧ bitsOf c = DesSpec.encipher (bitsOf key) (DesSpec.xor (bitsOf m) (bitsOf iv)) := by
  have hs : setKeyChecked key = some (setKey key) := by simp [setKeyChecked, hp, hw]
  refine ⟨ncbcEncrypt (sched (setKey key)) iv m, by simp [marshall, hs], ?_⟩
  have h := (C84_chain key key key iv hk hk hk hiv [m] (by simpa using hm) [] (by decide)).1
  simpa [DesSpec.chain] using h

/-- The example of the standard's validation suite: key 133457799bbcdff1, block 0123456789abcdef gives 85e813540f0ab405. -/
example : DesSpec.encipher (bitsOf [0x13, 0x34, 0x57, 0x79, 0x9b, 0xbc, 0xdf, 0xf1]) (bitsOf [0x01, 0x23, 0x45, 0x67, 0x89, 0xab, 0xcd, 0xef]) =
    bitsOf [0x85, 0xe8, 0x13, 0x54, 0x0f, 0x0a, 0xb4, 0x05] := by decide +kernel

/-- A key of the protocol, and a message of two blocks and three bytes. -/
example : parityOk [0x01, 0x23, 0x45, 0x67, 0x89, 0xab, 0xcd, 0xef] = true ∧ weak [0x01, 0x23, 0x45, 0x67, 0x89, 0xab, 0xcd, 0xef] = false ∧
    ([List.replicate 8 1, List.replicate 8 2].flatten ++ [3, 4, 5] : List Byte).length = 19 := by decide +kernel

/-! ## Refused keys -/

theorem parity_table : ∀ v < 256, (oddParity.getD v 0 = BitVec.ofNat 8 v) ↔ ((bitsOf [BitVec.ofNat 8 v]).count true) % 2 = 1 := by decide +kernel

/-- **C84** (parity) The parity check accepts exactly the keys all of whose bytes have an odd number of ones. -/
theorem C84_parity (key : List Byte) : parityOk key = true ↔ DesSpec.OddParity key := by
  unfold parityOk DesSpec.OddParity
  rw [List.all_eq_true]
  refine forall_congr' fun b => imp_congr_right fun _ => ?_
  have h := parity_table b.toNat b.isLt
  rw [BitVec.ofNat_toNat, BitVec.setWidth_eq] at h
  rw [← h, beq_iff_eq, eq_comm]

end Pok.Des
