import Verif.Spec.Des
import Verif.Props.Des
import Mathlib.Tactic.IntervalCases

/-!
# Permutations and rounds of the DES protocol (for C84)
-/

namespace Pok.Des
open Pok.DesSpec (Bits select bitsOf)

/-! ## Selections of bits -/

/-- Bit `j` of two words; bits from 64 on are false. -/
def bit (p : Word × Word) (j : Nat) : Bool := if j < 32 then p.1.getLsbD j else p.2.getLsbD (j - 32)

/-- The bits of two words named by a list. -/
def picks (p : Word × Word) (t : List Nat) : Bits := t.map (bit p)

theorem bit_out (p : Word × Word) : bit p 64 = false := by simp [bit]

theorem select_picks (p : Word × Word) (t u : List Nat) : select t (picks p u) = picks p (t.map fun i => u.getD (i - 1) 64) := by
  simp only [select, picks, List.map_map]
  refine List.map_congr_left fun i _ => ?_
  simp only [Function.comp, List.getD_eq_getElem?_getD, List.getElem?_map]
  cases u[i - 1]? with
  | none => simp [bit_out]
  | some x => simp

/-- A function of two words that only moves bits: bit `j` of the result is bit `t j` of the argument. -/
def Sel (F : Word × Word → Word × Word) (t : Nat → Nat) : Prop := ∀ p j, j < 64 → bit (F p) j = bit p (t j)

theorem Sel.comp {F G t u} (hF : Sel F t) (hG : Sel G u) (hu : ∀ j < 64, u j < 64) : Sel (fun p => G (F p)) (fun j => t (u j)) :=
  fun p j hj => by rw [hG (F p) j hj, hF p (u j) (hu j hj)]

theorem Sel.picks {F t} (h : Sel F t) (p : Word × Word) (u : List Nat) (hu : ∀ j ∈ u, j < 64) : picks (F p) u = picks p (u.map t) := by
  simp only [Des.picks, List.map_map]
  exact List.map_congr_left fun j hj => h p j (hu j hj)

/-- The moves of `PERM_OP`. -/
def permTab (n : Nat) (m : Word) (j : Nat) : Nat :=
  if j < 32 then (if n ≤ j ∧ m.getLsbD (j - n) then 32 + (j - n) else j) else if m.getLsbD (j - 32) then j - 32 + n else j

theorem permOp_sel (n : Nat) (m : Word) (hm : ∀ k, k < 32 → m.getLsbD k = true → k + n < 32) : Sel (fun p => permOp n m p.1 p.2) (permTab n m) := by
  intro ⟨a, b⟩ j hj
  unfold bit permTab permOp
  by_cases h : j < 32
  · simp only [h, if_true, BitVec.getLsbD_xor, BitVec.getLsbD_shiftLeft, BitVec.getLsbD_and, BitVec.getLsbD_ushiftRight]
    by_cases hn : n ≤ j
    · have e : n + (j - n) = j := by omega
      cases hmb : m.getLsbD (j - n)
      · simp [hn, h]
      · simp only [hn, e]
        have h1 : ¬ j < n := by omega
        have h2 : ¬ 32 + (j - n) < 32 := by omega
        simp [h1, h]
    · simp [hn, h, show j < n by omega]
  · simp only [h, if_false, BitVec.getLsbD_xor, BitVec.getLsbD_and, BitVec.getLsbD_ushiftRight]
    cases hmb : m.getLsbD (j - 32)
    · simp [h]
    · have := hm (j - 32) (by omega) hmb
      simp only [this, Nat.add_comm n, if_true, Bool.and_true]
      rw [Bool.xor_comm, Bool.xor_assoc, Bool.xor_self, Bool.xor_false]

theorem swap_sel : Sel (fun p => (p.2, p.1)) (fun j => (j + 32) % 64) := by
  intro ⟨a, b⟩ j hj
  unfold bit
  by_cases h : j < 32
  · simp [h, show (j + 32) % 64 = j + 32 by omega]
  · have : (j + 32) % 64 = j - 32 := by omega
    simp [h, this, show j - 32 < 32 by omega]

/-- The moves of two exchanges of words around `PERM_OP`. -/
def permTab' (n : Nat) (m : Word) (j : Nat) : Nat := ((permTab n m ((j + 32) % 64)) + 32) % 64

theorem permTab_lt (n : Nat) (m : Word) (hm : ∀ k, k < 32 → m.getLsbD k = true → k + n < 32) (j : Nat) (h : j < 64) : permTab n m j < 64 := by
  unfold permTab
  split
  · split <;> omega
  · split
    · rename_i h1
      have := hm (j - 32) (by omega) h1
      omega
    · omega

theorem permOp_sel' (n : Nat) (m : Word) (hm : ∀ k, k < 32 → m.getLsbD k = true → k + n < 32) :
    Sel (fun p => ((permOp n m p.2 p.1).2, (permOp n m p.2 p.1).1)) (permTab' n m) := by
  have h1 := (swap_sel.comp (permOp_sel n m hm) (permTab_lt n m hm)).comp swap_sel (fun j _ => Nat.mod_lt _ (by decide))
  exact h1

theorem mask_ok (n : Nat) (m : Word) (h : (List.range 32).all (fun k => !m.getLsbD k || decide (k + n < 32)) = true) :
    ∀ k, k < 32 → m.getLsbD k = true → k + n < 32 := by
  intro k hk hm
  have := List.all_eq_true.1 h k (List.mem_range.2 hk)
  simpa [hm] using this

/-- The moves of `IP`. -/
def ipTab (j : Nat) : Nat :=
  permTab' 4 0x0f0f0f0f#32 (permTab 16 0x0000ffff#32 (permTab' 2 0x33333333#32 (permTab 8 0x00ff00ff#32 (permTab' 1 0x55555555#32 j))))

theorem ip_sel : Sel (fun p => ip p.1 p.2) ipTab := by
  have m4 := mask_ok 4 0x0f0f0f0f#32 (by decide)
  have m16 := mask_ok 16 0x0000ffff#32 (by decide)
  have m2 := mask_ok 2 0x33333333#32 (by decide)
  have m8 := mask_ok 8 0x00ff00ff#32 (by decide)
  have m1 := mask_ok 1 0x55555555#32 (by decide)
  have lt' : ∀ n m, ∀ j < 64, permTab' n m j < 64 := fun n m j _ => Nat.mod_lt _ (by decide)
  exact (((((permOp_sel' 4 _ m4).comp (permOp_sel 16 _ m16) (permTab_lt _ _ m16)).comp (permOp_sel' 2 _ m2) (lt' _ _)).comp
    (permOp_sel 8 _ m8) (permTab_lt _ _ m8)).comp (permOp_sel' 1 _ m1) (lt' _ _))

/-- The moves of `FP`. -/
def fpTab (j : Nat) : Nat :=
  permTab 1 0x55555555#32 (permTab' 8 0x00ff00ff#32 (permTab 2 0x33333333#32 (permTab' 16 0x0000ffff#32 (permTab 4 0x0f0f0f0f#32 j))))

theorem fp_sel : Sel (fun p => fp p.1 p.2) fpTab := by
  have m4 := mask_ok 4 0x0f0f0f0f#32 (by decide)
  have m16 := mask_ok 16 0x0000ffff#32 (by decide)
  have m2 := mask_ok 2 0x33333333#32 (by decide)
  have m8 := mask_ok 8 0x00ff00ff#32 (by decide)
  have m1 := mask_ok 1 0x55555555#32 (by decide)
  have lt' : ∀ n m, ∀ j < 64, permTab' n m j < 64 := fun n m j _ => Nat.mod_lt _ (by decide)
  exact (((((permOp_sel 1 _ m1).comp (permOp_sel' 8 _ m8) (lt' _ _)).comp (permOp_sel 2 _ m2) (permTab_lt _ _ m2)).comp
    (permOp_sel' 16 _ m16) (lt' _ _)).comp (permOp_sel 4 _ m4) (permTab_lt _ _ m4))

/-- The place in the two words of the block of bit `j` (from 0) of the standard's block. -/
def place (j : Nat) : Nat := 8 * (j / 8) + 7 - j % 8

theorem bitsOf_block (p : Block) : bitsOf (little.bytes p) = picks p ((List.range 64).map place) := by
  obtain ⟨a, b⟩ := p
  simp [bitsOf, Codec.bytes, little, l2c, picks, place, bit, List.range, List.range.loop, List.flatMap]

/-! ## Rounds -/

/-- The bits of half a block in the rotated word in which the rounds keep it. -/
def half (x : Word) : Bits := (List.range 32).map fun j => x.getLsbD ((j + 3) % 32)

/-- The bits of the key of a round in the two words in which the schedule keeps it. -/
def roundKey (s0 s1 : Word) : Bits :=
  (List.range 48).map fun j => if j / 6 % 2 = 0 then s0.getLsbD (j / 12 * 8 + 2 + j % 6) else s1.getLsbD ((j / 12 * 8 + 6 + j % 6) % 32)

/-- The four bits of selection function `i` among the 32 bits before the permutation P. -/
def pad (i : Nat) (x : Bits) : Bits := List.replicate (4 * i) false ++ x ++ List.replicate (28 - 4 * i) false

/-- The six lowest bits. -/
def six (x : Nat) : Bits := [x.testBit 0, x.testBit 1, x.testBit 2, x.testBit 3, x.testBit 4, x.testBit 5]

theorem tables : ∀ i < 8, ∀ v < 64, half ((SPtrans.getD i #[]).getD v 0) = select DesSpec.P (pad i (DesSpec.sbox (DesSpec.S.getD i []) (six v))) := by
  decide +kernel

theorem sp_half (i : Nat) (hi : i < 8) (x : Word) :
    half (sp i x) = select DesSpec.P (pad i (DesSpec.sbox (DesSpec.S.getD i [])
      [x.getLsbD 0, x.getLsbD 1, x.getLsbD 2, x.getLsbD 3, x.getLsbD 4, x.getLsbD 5])) := by
  have hv : (x &&& 0x3f#32).toNat < 64 := by
    rw [BitVec.toNat_and]
    exact Nat.lt_of_le_of_lt Nat.and_le_right (by decide)
  unfold sp
  rw [tables i hi _ hv]
  have e : ∀ k < 6, (x &&& 0x3f#32).toNat.testBit k = x.getLsbD k := fun k hk => by
    rw [BitVec.testBit_toNat, BitVec.getLsbD_and]
    have : (0x3f#32).getLsbD k = true := by interval_cases k <;> rfl
    rw [this, Bool.and_true]
  unfold six
  rw [e 0 (by decide), e 1 (by decide), e 2 (by decide), e 3 (by decide), e 4 (by decide), e 5 (by decide)]

theorem half_xor (a b : Word) : half (a ^^^ b) = DesSpec.xor (half a) (half b) := by
  simp only [half, DesSpec.xor, List.zipWith_map, BitVec.getLsbD_xor]
  rw [List.zipWith_self]

theorem select_xor (t : List Nat) (a b : Bits) (h : a.length = b.length) : select t (DesSpec.xor a b) = DesSpec.xor (select t a) (select t b) := by
  simp only [select, DesSpec.xor, List.zipWith_map]
  rw [List.zipWith_self]
  refine List.map_congr_left fun i _ => ?_
  simp only [List.getD_eq_getElem?_getD, List.getElem?_zipWith]
  by_cases hi : i - 1 < a.length
  · rw [List.getElem?_eq_getElem hi, List.getElem?_eq_getElem (h ▸ hi)]; rfl
  · rw [List.getElem?_eq_none (by omega), List.getElem?_eq_none (by omega)]; rfl

/-- The permutation P of eight groups of four bits is the exclusive or of its values for each group alone. -/
theorem gather (n0 n1 n2 n3 n4 n5 n6 n7 : Nat) :
    select DesSpec.P (DesSpec.four n0 ++ (DesSpec.four n1 ++ (DesSpec.four n2 ++ (DesSpec.four n3 ++ (DesSpec.four n4 ++ (DesSpec.four n5 ++
      (DesSpec.four n6 ++ DesSpec.four n7))))))) =
    DesSpec.xor (DesSpec.xor (DesSpec.xor (DesSpec.xor (DesSpec.xor (DesSpec.xor (DesSpec.xor
      (select DesSpec.P (pad 0 (DesSpec.four n0))) (select DesSpec.P (pad 2 (DesSpec.four n2))))
      (select DesSpec.P (pad 4 (DesSpec.four n4)))) (select DesSpec.P (pad 6 (DesSpec.four n6))))
      (select DesSpec.P (pad 1 (DesSpec.four n1)))) (select DesSpec.P (pad 3 (DesSpec.four n3))))
      (select DesSpec.P (pad 5 (DesSpec.four n5)))) (select DesSpec.P (pad 7 (DesSpec.four n7))) := by
  simp only [DesSpec.four]
  generalize n0.testBit 0 = a00, n0.testBit 1 = a01, n0.testBit 2 = a02, n0.testBit 3 = a03
  generalize n1.testBit 0 = a10, n1.testBit 1 = a11, n1.testBit 2 = a12, n1.testBit 3 = a13
  generalize n2.testBit 0 = a20, n2.testBit 1 = a21, n2.testBit 2 = a22, n2.testBit 3 = a23
  generalize n3.testBit 0 = a30, n3.testBit 1 = a31, n3.testBit 2 = a32, n3.testBit 3 = a33
  generalize n4.testBit 0 = a40, n4.testBit 1 = a41, n4.testBit 2 = a42, n4.testBit 3 = a43
  generalize n5.testBit 0 = a50, n5.testBit 1 = a51, n5.testBit 2 = a52, n5.testBit 3 = a53
  generalize n6.testBit 0 = a60, n6.testBit 1 = a61, n6.testBit 2 = a62, n6.testBit 3 = a63
  generalize n7.testBit 0 = a70, n7.testBit 1 = a71, n7.testBit 2 = a72, n7.testBit 3 = a73
  simp [select, DesSpec.P, pad, DesSpec.xor, List.replicate]

/-! The inputs of the eight selection functions. -/

theorem chunk0 (r s0 s1 : Word) : ((DesSpec.xor (select DesSpec.E (half r)) (roundKey s0 s1)).drop (6 * 0)).take 6 =
    [((r ^^^ s0) >>> 2).getLsbD 0, ((r ^^^ s0) >>> 2).getLsbD 1, ((r ^^^ s0) >>> 2).getLsbD 2, ((r ^^^ s0) >>> 2).getLsbD 3, ((r ^^^ s0) >>> 2).getLsbD 4, ((r ^^^ s0) >>> 2).getLsbD 5] := by
  simp [DesSpec.xor, select, DesSpec.E, half, roundKey, List.range, List.range.loop, BitVec.getLsbD_ushiftRight, BitVec.getLsbD_rotateRight]

theorem chunk1 (r s0 s1 : Word) : ((DesSpec.xor (select DesSpec.E (half r)) (roundKey s0 s1)).drop (6 * 1)).take 6 =
    [(((r ^^^ s1).rotateRight 4) >>> 2).getLsbD 0, (((r ^^^ s1).rotateRight 4) >>> 2).getLsbD 1, (((r ^^^ s1).rotateRight 4) >>> 2).getLsbD 2, (((r ^^^ s1).rotateRight 4) >>> 2).getLsbD 3, (((r ^^^ s1).rotateRight 4) >>> 2).getLsbD 4, (((r ^^^ s1).rotateRight 4) >>> 2).getLsbD 5] := by
  simp [DesSpec.xor, select, DesSpec.E, half, roundKey, List.range, List.range.loop, BitVec.getLsbD_ushiftRight, BitVec.getLsbD_rotateRight]

theorem chunk2 (r s0 s1 : Word) : ((DesSpec.xor (select DesSpec.E (half r)) (roundKey s0 s1)).drop (6 * 2)).take 6 =
    [((r ^^^ s0) >>> 10).getLsbD 0, ((r ^^^ s0) >>> 10).getLsbD 1, ((r ^^^ s0) >>> 10).getLsbD 2, ((r ^^^ s0) >>> 10).getLsbD 3, ((r ^^^ s0) >>> 10).getLsbD 4, ((r ^^^ s0) >>> 10).getLsbD 5] := by
  simp [DesSpec.xor, select, DesSpec.E, half, roundKey, List.range, List.range.loop, BitVec.getLsbD_ushiftRight, BitVec.getLsbD_rotateRight]

theorem chunk3 (r s0 s1 : Word) : ((DesSpec.xor (select DesSpec.E (half r)) (roundKey s0 s1)).drop (6 * 3)).take 6 =
    [(((r ^^^ s1).rotateRight 4) >>> 10).getLsbD 0, (((r ^^^ s1).rotateRight 4) >>> 10).getLsbD 1, (((r ^^^ s1).rotateRight 4) >>> 10).getLsbD 2, (((r ^^^ s1).rotateRight 4) >>> 10).getLsbD 3, (((r ^^^ s1).rotateRight 4) >>> 10).getLsbD 4, (((r ^^^ s1).rotateRight 4) >>> 10).getLsbD 5] := by
  simp [DesSpec.xor, select, DesSpec.E, half, roundKey, List.range, List.range.loop, BitVec.getLsbD_ushiftRight, BitVec.getLsbD_rotateRight]

theorem chunk4 (r s0 s1 : Word) : ((DesSpec.xor (select DesSpec.E (half r)) (roundKey s0 s1)).drop (6 * 4)).take 6 =
    [((r ^^^ s0) >>> 18).getLsbD 0, ((r ^^^ s0) >>> 18).getLsbD 1, ((r ^^^ s0) >>> 18).getLsbD 2, ((r ^^^ s0) >>> 18).getLsbD 3, ((r ^^^ s0) >>> 18).getLsbD 4, ((r ^^^ s0) >>> 18).getLsbD 5] := by
  simp [DesSpec.xor, select, DesSpec.E, half, roundKey, List.range, List.range.loop, BitVec.getLsbD_ushiftRight, BitVec.getLsbD_rotateRight]

theorem chunk5 (r s0 s1 : Word) : ((DesSpec.xor (select DesSpec.E (half r)) (roundKey s0 s1)).drop (6 * 5)).take 6 =
    [(((r ^^^ s1).rotateRight 4) >>> 18).getLsbD 0, (((r ^^^ s1).rotateRight 4) >>> 18).getLsbD 1, (((r ^^^ s1).rotateRight 4) >>> 18).getLsbD 2, (((r ^^^ s1).rotateRight 4) >>> 18).getLsbD 3, (((r ^^^ s1).rotateRight 4) >>> 18).getLsbD 4, (((r ^^^ s1).rotateRight 4) >>> 18).getLsbD 5] := by
  simp [DesSpec.xor, select, DesSpec.E, half, roundKey, List.range, List.range.loop, BitVec.getLsbD_ushiftRight, BitVec.getLsbD_rotateRight]

theorem chunk6 (r s0 s1 : Word) : ((DesSpec.xor (select DesSpec.E (half r)) (roundKey s0 s1)).drop (6 * 6)).take 6 =
    [((r ^^^ s0) >>> 26).getLsbD 0, ((r ^^^ s0) >>> 26).getLsbD 1, ((r ^^^ s0) >>> 26).getLsbD 2, ((r ^^^ s0) >>> 26).getLsbD 3, ((r ^^^ s0) >>> 26).getLsbD 4, ((r ^^^ s0) >>> 26).getLsbD 5] := by
  simp [DesSpec.xor, select, DesSpec.E, half, roundKey, List.range, List.range.loop, BitVec.getLsbD_ushiftRight, BitVec.getLsbD_rotateRight]

theorem chunk7 (r s0 s1 : Word) : ((DesSpec.xor (select DesSpec.E (half r)) (roundKey s0 s1)).drop (6 * 7)).take 6 =
    [(((r ^^^ s1).rotateRight 4) >>> 26).getLsbD 0, (((r ^^^ s1).rotateRight 4) >>> 26).getLsbD 1, (((r ^^^ s1).rotateRight 4) >>> 26).getLsbD 2, (((r ^^^ s1).rotateRight 4) >>> 26).getLsbD 3, (((r ^^^ s1).rotateRight 4) >>> 26).getLsbD 4, (((r ^^^ s1).rotateRight 4) >>> 26).getLsbD 5] := by
  simp [DesSpec.xor, select, DesSpec.E, half, roundKey, List.range, List.range.loop, BitVec.getLsbD_ushiftRight, BitVec.getLsbD_rotateRight]

/-- One round of the code is one round of the standard. -/
theorem round (s : Nat → Word) (ll r : Word) (i : Nat) :
    half (dEncrypt s ll r i) = DesSpec.xor (half ll) (DesSpec.f (half r) (roundKey (s i) (s (i + 1)))) := by
  unfold dEncrypt
  simp only [half_xor, sp_half _ (show 0 < 8 by decide), sp_half _ (show 1 < 8 by decide), sp_half _ (show 2 < 8 by decide),
    sp_half _ (show 3 < 8 by decide), sp_half _ (show 4 < 8 by decide), sp_half _ (show 5 < 8 by decide), sp_half _ (show 6 < 8 by decide),
    sp_half _ (show 7 < 8 by decide)]
  congr 1
  have hS : DesSpec.S.zipIdx = [(DesSpec.S.getD 0 [], 0), (DesSpec.S.getD 1 [], 1), (DesSpec.S.getD 2 [], 2), (DesSpec.S.getD 3 [], 3),
    (DesSpec.S.getD 4 [], 4), (DesSpec.S.getD 5 [], 5), (DesSpec.S.getD 6 [], 6), (DesSpec.S.getD 7 [], 7)] := rfl
  unfold DesSpec.f
  rw [hS]
  simp only [List.flatMap_cons, List.flatMap_nil, List.append_nil, chunk0, chunk1, chunk2, chunk3, chunk4, chunk5, chunk6, chunk7]
  unfold DesSpec.sbox
  rw [gather]

end Pok.Des
