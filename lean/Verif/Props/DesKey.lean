import Verif.Model.DesKey
import Verif.Props.DesWeak
/-!
# The parity of DES keys (C140)
-/
namespace Pok.Des
open Pok.DesSpec (bitsOf Bits select)

theorem odd_table : ∀ v < 256, ((bitsOf [oddParity.getD v 0]).count true) % 2 = 1 ∧ (oddParity.getD v 0).toNat / 2 = v / 2 := by decide +kernel

theorem odd_fixed : ∀ v < 256, ((bitsOf [BitVec.ofNat 8 v]).count true) % 2 = 1 → oddParity.getD v 0 = BitVec.ofNat 8 v :=
  fun v hv h => (parity_table v hv).2 h

theorem odd_same (b c : Byte) (h : b.toNat / 2 = c.toNat / 2) : oddParity.getD b.toNat 0 = oddParity.getD c.toNat 0 := by
  have t : ∀ v < 128, oddParity.getD (2 * v) 0 = oddParity.getD (2 * v + 1) 0 := by decide +kernel
  have hb : b.toNat < 256 := b.isLt
  have u : ∀ n, n < 256 → oddParity.getD n 0 = oddParity.getD (2 * (n / 2)) 0 := fun n hn => by
    rcases Nat.mod_two_eq_zero_or_one n with e | e
    · rw [show 2 * (n / 2) = n by omega]
    · conv_lhs => rw [show n = 2 * (n / 2) + 1 by omega]
      exact (t (n / 2) (by omega)).symm
  rw [u b.toNat hb, u c.toNat c.isLt, h]

/-- **C140** `DES_set_odd_parity` gives every byte of the key an odd number of ones, leaves its seven other bits and the memory after the key as they are, and does not
change a key whose bytes have odd parity already. -/
theorem C140_parity (key rest : List Byte) (hk : key.length = 8) :
    ∃ key', setOddParity (key ++ rest) = key' ++ rest ∧ key'.length = 8 ∧ DesSpec.OddParity key' ∧
      (∀ i < 8, (key'.getD i 0).toNat / 2 = (key.getD i 0).toNat / 2) ∧ (DesSpec.OddParity key → key' = key) := by
  refine ⟨key.map fun b => oddParity.getD b.toNat 0, ?_, by simpa using hk, ?_, fun i hi => ?_, fun h => ?_⟩
  · unfold setOddParity
    rw [show List.take 8 (key ++ rest) = key from List.take_left' hk, show List.drop 8 (key ++ rest) = rest from List.drop_left' hk]
  · intro b hb
    obtain ⟨a, -, rfl⟩ := List.mem_map.1 hb
    exact (odd_table a.toNat a.isLt).1
  · rw [List.getD_eq_getElem _ _ (by simpa [hk] using hi), List.getD_eq_getElem _ _ (by omega), List.getElem_map]
    exact (odd_table _ (BitVec.isLt _)).2
  · conv_rhs => rw [← List.map_id key]
    refine List.map_congr_left fun b hb => ?_
    have := odd_fixed b.toNat b.isLt
    rw [BitVec.ofNat_toNat, BitVec.setWidth_eq] at this
    exact this (h b hb)

/-- **C140** The key is determined by that: any key of odd parity with the same seven bits in each byte is the one that `DES_set_odd_parity` makes. -/
theorem C140_unique (key key' : List Byte) (hk : key.length = 8) (hk' : key'.length = 8) (hp : DesSpec.OddParity key')
    (hs : ∀ i < 8, (key'.getD i 0).toNat / 2 = (key.getD i 0).toNat / 2) : setOddParity key = key' := by
  obtain ⟨c, h1, h2, h3, h4, -⟩ := C140_parity key [] hk
  rw [List.append_nil, List.append_nil] at h1
  rw [h1]
  refine List.ext_getElem (by omega) fun i hi hi' => ?_
  have e := hs i (by omega)
  rw [← h4 i (by omega), List.getD_eq_getElem _ _ hi', List.getD_eq_getElem _ _ hi] at e
  have a := odd_same _ _ e
  have f : ∀ b : Byte, ((bitsOf [b]).count true) % 2 = 1 → oddParity.getD b.toNat 0 = b := fun b hb => by
    have := odd_fixed b.toNat b.isLt
    rw [BitVec.ofNat_toNat, BitVec.setWidth_eq] at this
    exact this hb
  rw [f _ (hp _ (List.getElem_mem hi')), f _ (h3 _ (List.getElem_mem hi))] at a
  exact a.symm

theorem key_bit (key : List Byte) : ∀ i, (bitsOf key).getD i false = (key.getD (i / 8) 0).getLsbD (7 - i % 8) := by
  induction key with
  | nil => intro i; simp [bitsOf]
  | cons b bs ih =>
    intro i
    have e : bitsOf (b :: bs) = ((List.range 8).map fun i => b.getLsbD (7 - i)) ++ bitsOf bs := rfl
    rw [e]
    by_cases h : i < 8
    · rw [List.getD_append _ _ _ _ (by simpa using h), List.getD_eq_getElem _ _ (by simpa using h), List.getElem_map, List.getElem_range,
        Nat.div_eq_of_lt h, Nat.mod_eq_of_lt h]
      rfl
    · rw [List.getD_append_right _ _ _ _ (by simpa using h), List.length_map, List.length_range, ih (i - 8), show i / 8 = (i - 8) / 8 + 1 by omega,
        List.getD_cons_succ, show (i - 8) % 8 = i % 8 by omega]

/-- The bits of the standard's choice: none of them is a parity bit. -/
theorem pc1_bits : ∀ i ∈ DesSpec.PC1, (i - 1) % 8 < 7 ∧ (i - 1) / 8 < 8 := by decide

theorem keys_same (key key' : List Byte) (hs : ∀ i < 8, (key'.getD i 0).toNat / 2 = (key.getD i 0).toNat / 2) :
    DesSpec.keys (bitsOf key') = DesSpec.keys (bitsOf key) := by
  have e : select DesSpec.PC1 (bitsOf key') = select DesSpec.PC1 (bitsOf key) := by
    refine List.map_congr_left fun i hi => ?_
    obtain ⟨h1, h2⟩ := pc1_bits i hi
    rw [key_bit, key_bit]
    obtain ⟨n, hn⟩ : ∃ n, 7 - (i - 1) % 8 = n + 1 := ⟨6 - (i - 1) % 8, by omega⟩
    rw [hn]
    unfold BitVec.getLsbD
    rw [Nat.testBit_succ, Nat.testBit_succ, hs _ h2]
  unfold DesSpec.keys
  rw [e]

theorem block_inj (x y : Block) (hxy : bitsOf (little.bytes x) = bitsOf (little.bytes y)) : x = y := by
  rw [bitsOf_block, bitsOf_block] at hxy
  unfold picks at hxy
  have hb : ∀ j < 64, bit x (place j) = bit y (place j) := fun j hj =>
    List.map_inj_left.1 hxy (place j) (List.mem_map.2 ⟨j, List.mem_range.2 hj, rfl⟩)
  have hb' : ∀ j < 64, bit x j = bit y j := fun j hj => by
    have h1 : place (place j) = j := by unfold place; omega
    have h2 : place j < 64 := by unfold place; omega
    have := hb (place j) h2
    rwa [h1] at this
  refine Prod.ext (BitVec.eq_of_getLsbD_eq fun j hj => ?_) (BitVec.eq_of_getLsbD_eq fun j hj => ?_)
  · have := hb' j (by omega)
    unfold bit at this
    rwa [if_pos hj, if_pos hj] at this
  · have := hb' (32 + j) (by omega)
    obtain ⟨x1, x2⟩ := x
    obtain ⟨y1, y2⟩ := y
    rwa [bit_second, bit_second] at this

/-- **C140** The parity bits have no effect on the cipher: with the key that `DES_set_odd_parity` makes, every block is enciphered and deciphered as with the key given. -/
theorem C140_same (key : List Byte) (hk : key.length = 8) (enc : Bool) (b : Block) :
    encrypt1 (sched (setKey (setOddParity key))) enc b = encrypt1 (sched (setKey key)) enc b := by
  obtain ⟨c, h1, h2, -, h4, -⟩ := C140_parity key [] hk
  rw [List.append_nil, List.append_nil] at h1
  rw [h1]
  refine block_inj _ _ ?_
  rw [encrypt1_std, encrypt1_std]
  unfold order
  rw [C84_keys key hk, C84_keys c h2, keys_same key c h4]

/-- **C140** The key schedule for the key that `DES_set_odd_parity` makes is refused only if the key is one of the weak keys. -/
theorem C140_accepted (key : List Byte) (hk : key.length = 8) :
    setKeyChecked (setOddParity key) = none ↔ weak (setOddParity key) = true := by
  obtain ⟨c, h1, h2, h3, -⟩ := C140_parity key [] hk
  rw [List.append_nil, List.append_nil] at h1
  rw [h1]
  unfold setKeyChecked
  rw [(C84_parity c).2 h3]
  cases weak c <;> simp

/-- A key of bytes of even parity, and what becomes of it. -/
example : setOddParity ([0x00, 0x22, 0x44, 0x66, 0x88, 0xaa, 0xcc, 0xee] ++ [0, 3]) = [0x01, 0x23, 0x45, 0x67, 0x89, 0xab, 0xcd, 0xef, 0, 3] ∧
    parityOk [0x00, 0x22, 0x44, 0x66, 0x88, 0xaa, 0xcc, 0xee] = false ∧ weak (setOddParity (List.replicate 8 0)) = true ∧
    weak (setOddParity [0x00, 0x22, 0x44, 0x66, 0x88, 0xaa, 0xcc, 0xee]) = false := by decide +kernel

end Pok.Des
