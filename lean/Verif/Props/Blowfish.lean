import Verif.Spec.Blowfish
import Verif.Props.Des

/-!
# The Blowfish of the library is the published cipher (C81)
-/

namespace Pok.Blowfish
open Pok.BlowfishSpec (Key F byte keyBits)

/-- The array of the code holds the subkeys. -/
structure Holds (k : Nat → Word) (K : Key) : Prop where
  p : ∀ i < 18, k i = K.P i
  s : ∀ a < 4, ∀ i < 256, k (18 + 256 * a + i) = K.S a i

theorem byte_shift (x : Word) (n : Nat) : ((x >>> n) &&& 0xff#32).toNat = x.toNat / 2 ^ n % 256 := by
  rw [BitVec.toNat_and, BitVec.toNat_ushiftRight, Nat.shiftRight_eq_div_pow]
  exact Nat.and_two_pow_sub_one_eq_mod _ 8

theorem byte_low (x : Word) : (x &&& 0xff#32).toNat = x.toNat % 256 := by
  rw [BitVec.toNat_and]
  exact Nat.and_two_pow_sub_one_eq_mod _ 8

theorem bfEnc_spec {k K} (h : Holds k K) (ll r : Word) (i : Nat) (hi : i < 18) : bfEnc k ll r i = ll ^^^ K.P i ^^^ F K r := by
  unfold bfEnc F byte
  simp only [byte_low, BitVec.toNat_ushiftRight, Nat.shiftRight_eq_div_pow]
  have e0 := h.s 0 (by omega) (r.toNat / 2 ^ 24 % 256) (Nat.mod_lt _ (by decide))
  have e1 := h.s 1 (by omega) (r.toNat / 2 ^ 16 % 256) (Nat.mod_lt _ (by decide))
  have e2 := h.s 2 (by omega) (r.toNat / 2 ^ 8 % 256) (Nat.mod_lt _ (by decide))
  have e3 := h.s 3 (by omega) (r.toNat % 256) (Nat.mod_lt _ (by decide))
  simp only [Nat.reduceMul, Nat.reduceAdd, Nat.add_zero, Nat.mul_zero, Nat.mul_one] at e0 e1 e2 e3
  simp only [Nat.reduceAdd, Nat.add_zero, h.p i hi, e0, e1, e2, e3]
  norm_num

theorem pair_spec {k K} (h : Holds k K) (n : Nat) (hn : n < 8) (b : Block) :
    pair k (2 * n + 1) (2 * n + 2) (b.1 ^^^ K.P (2 * n), b.2) =
      ((BlowfishSpec.round K (2 * n + 1) (BlowfishSpec.round K (2 * n) b)).1 ^^^ K.P (2 * n + 2),
        (BlowfishSpec.round K (2 * n + 1) (BlowfishSpec.round K (2 * n) b)).2) := by
  have e : ∀ x y z : Word, x ^^^ y ^^^ z = z ^^^ x ^^^ y := fun x y z => by rw [BitVec.xor_comm (x ^^^ y) z, BitVec.xor_assoc]
  simp only [pair, BlowfishSpec.round, bfEnc_spec h _ _ _ (show 2 * n + 1 < 18 by omega), bfEnc_spec h _ _ _ (show 2 * n + 2 < 18 by omega)]
  rw [e b.2]
  congr 1
  rw [e]

/-- Encryption of a block. -/
theorem encrypt_spec {k K} (h : Holds k K) (b : Block) : encrypt k b = BlowfishSpec.encrypt K b := by
  have hr : ∀ n, BlowfishSpec.rounds K (n + 2) b = BlowfishSpec.round K (n + 1) (BlowfishSpec.round K n (BlowfishSpec.rounds K n b)) := fun _ => rfl
  have step : ∀ n, n < 8 → pair k (2 * n + 1) (2 * n + 2) ((BlowfishSpec.rounds K (2 * n) b).1 ^^^ K.P (2 * n), (BlowfishSpec.rounds K (2 * n) b).2) =
      ((BlowfishSpec.rounds K (2 * n + 2) b).1 ^^^ K.P (2 * n + 2), (BlowfishSpec.rounds K (2 * n + 2) b).2) := by
    intro n hn
    rw [pair_spec h n hn, hr]
  have s0 := step 0 (by omega); have s1 := step 1 (by omega); have s2 := step 2 (by omega); have s3 := step 3 (by omega)
  have s4 := step 4 (by omega); have s5 := step 5 (by omega); have s6 := step 6 (by omega); have s7 := step 7 (by omega)
  simp only [Nat.reduceMul, Nat.reduceAdd] at s0 s1 s2 s3 s4 s5 s6 s7
  have h0 : (b.1 ^^^ k 0, b.2) = ((BlowfishSpec.rounds K 0 b).1 ^^^ K.P 0, (BlowfishSpec.rounds K 0 b).2) := by rw [h.p 0 (by omega)]; rfl
  simp only [encrypt, BlowfishSpec.encrypt]
  rw [h0, s0, s1, s2, s3, s4, s5, s6, s7, h.p 17 (by omega)]

theorem shift_byte (x : Word) (b : Byte) (h : x.toNat < 2 ^ 24) : ((x <<< 8) ||| b.setWidth 32).toNat = 256 * x.toNat + b.toNat := by
  rw [BitVec.toNat_or, BitVec.toNat_shiftLeft, BitVec.toNat_setWidth]
  have hb := b.isLt
  rw [Nat.shiftLeft_eq, Nat.mod_eq_of_lt (by omega), Nat.mod_eq_of_lt (by omega), ← Nat.shiftLeft_eq, ← Nat.shiftLeft_add_eq_or_of_lt hb,
    Nat.shiftLeft_eq]
  omega

theorem next_cyclic {n j : Nat} (h : 0 < n) : (if j % n + 1 ≥ n then 0 else j % n + 1) = (j + 1) % n := by
  have h1 := Nat.mod_lt j h
  have h2 : (j + 1) % n = (j % n + 1) % n := by simp
  rw [h2]
  split
  · have e : j % n + 1 = n := by omega
    rw [e, Nat.mod_self]
  · exact (Nat.mod_eq_of_lt (by omega)).symm

/-- A word of the key. -/
theorem keyWord_spec (data : List Byte) (h : 0 < data.length) (i : Nat) :
    keyWord data (4 * i % data.length) = (keyBits data i, 4 * (i + 1) % data.length) := by
  have e := fun j => next_cyclic (n := data.length) (j := j) h
  simp only [keyWord, e]
  refine Prod.ext ?_ (by show _ % _ = _; congr 1)
  apply BitVec.eq_of_toNat_eq
  have hb : ∀ j, (data.getD j 0).toNat < 256 := fun j => (data.getD j 0).isLt
  have h0 : ((data.getD (4 * i % data.length) 0).setWidth 32 : Word).toNat = (data.getD (4 * i % data.length) 0).toNat := by
    rw [BitVec.toNat_setWidth, Nat.mod_eq_of_lt]; have := hb (4 * i % data.length); omega
  have b0 := hb (4 * i % data.length)
  have b1 := hb ((4 * i + 1) % data.length)
  have b2 := hb ((4 * i + 1 + 1) % data.length)
  have b3 := hb ((4 * i + 1 + 1 + 1) % data.length)
  have h1 := shift_byte _ (data.getD ((4 * i + 1) % data.length) 0) (show _ < 2 ^ 24 by rw [h0]; omega)
  have h2 := shift_byte _ (data.getD ((4 * i + 1 + 1) % data.length) 0) (show _ < 2 ^ 24 by rw [h1, h0]; omega)
  have h3 := shift_byte _ (data.getD ((4 * i + 1 + 1 + 1) % data.length) 0) (show _ < 2 ^ 24 by rw [h2, h1, h0]; omega)
  rw [h3, h2, h1, h0]
  simp only [keyBits, BitVec.toNat_ofNat]
  simp only [Nat.add_assoc, Nat.reduceAdd] at b0 b1 b2 b3 ⊢
  generalize (data.getD (4 * i % data.length) 0).toNat = x0 at *
  generalize (data.getD ((4 * i + 1) % data.length) 0).toNat = x1 at *
  generalize (data.getD ((4 * i + 2) % data.length) 0).toNat = x2 at *
  generalize (data.getD ((4 * i + 3) % data.length) 0).toNat = x3 at *
  clear h0 h1 h2 h3
  rw [Nat.mod_eq_of_lt] <;> omega

/-- The first loop. -/
theorem mixKey_spec (data : List Byte) (h : 0 < data.length) : ∀ (n i : Nat) (k : Nat → Word) (j : Nat),
    mixKey data n i (4 * i % data.length) k j = if i ≤ j ∧ j < i + n then k j ^^^ keyBits data j else k j := by
  intro n
  induction n with
  | zero => intro i k j; rw [mixKey, if_neg (by omega)]
  | succ n ih =>
    intro i k j
    rw [mixKey, keyWord_spec data h, ih]
    by_cases e : j = i
    · subst e
      rw [if_neg (by omega), if_pos (by omega), upd_same]
    · rw [upd_other _ _ e]
      by_cases e2 : i + 1 ≤ j ∧ j < i + 1 + n
      · rw [if_pos e2, if_pos (by omega)]
      · rw [if_neg e2, if_neg (by omega)]

theorem holds_setP {k K} (h : Holds k K) (j : Nat) (hj : j < 9) (b : Block) : Holds (upd (upd k (2 * j) b.1) (2 * j + 1) b.2) (K.setP j b) := by
  constructor
  · intro i hi
    simp only [BlowfishSpec.Key.setP, upd_apply, h.p i hi]
    by_cases e : i = 2 * j
    · subst e; simp
    · simp [e]
  · intro a ha i hi
    simp only [BlowfishSpec.Key.setP, upd_apply, h.s a ha i hi]
    rw [if_neg (by omega), if_neg (by omega)]

theorem holds_setS {k K} (h : Holds k K) (j : Nat) (b : Block) :
    Holds (upd (upd k (18 + 2 * j) b.1) (18 + 2 * j + 1) b.2) (K.setS j b) := by
  constructor
  · intro i hi
    simp only [BlowfishSpec.Key.setS, upd_apply, h.p i hi]
    rw [if_neg (by omega), if_neg (by omega)]
  · intro a ha i hi
    simp only [BlowfishSpec.Key.setS, upd_apply, h.s a ha i hi]
    by_cases e : 256 * a + i = 2 * j
    · rw [if_neg (by omega), if_pos (by omega), if_pos e]
    · rw [if_neg e]
      by_cases e2 : 256 * a + i = 2 * j + 1
      · rw [if_pos (by omega), if_pos e2]
      · rw [if_neg (by omega), if_neg (by omega), if_neg e2]

theorem chainKey_add (m : Nat) : ∀ (n i : Nat) (b : Block) (k : Nat → Word),
    chainKey (n + m) i b k = chainKey m (i + 2 * n) (chainKey n i b k).2 (chainKey n i b k).1 := by
  intro n
  induction n with
  | zero => intro i b k; simp [chainKey]
  | succ n ih =>
    intro i b k
    rw [show n + 1 + m = n + m + 1 by omega, chainKey, ih, chainKey]
    congr 1
    omega

theorem chainP_spec {k K} (h : Holds k K) : ∀ n, n ≤ 9 →
    Holds (chainKey n 0 (0, 0) k).1 (BlowfishSpec.fillP K n).1 ∧ (chainKey n 0 (0, 0) k).2 = (BlowfishSpec.fillP K n).2 := by
  intro n
  induction n with
  | zero => intro _; exact ⟨h, rfl⟩
  | succ n ih =>
    intro hn
    obtain ⟨h1, h2⟩ := ih (by omega)
    rw [chainKey_add 1 n, Nat.zero_add]
    simp only [chainKey, BlowfishSpec.fillP, h2, encrypt_spec h1]
    exact ⟨holds_setP h1 n (by omega) _, trivial⟩

theorem chainS_spec {k K} (h : Holds k K) (b : Block) : ∀ n,
    Holds (chainKey n 18 b k).1 (BlowfishSpec.fillS (K, b) n).1 ∧ (chainKey n 18 b k).2 = (BlowfishSpec.fillS (K, b) n).2 := by
  intro n
  induction n with
  | zero => exact ⟨h, rfl⟩
  | succ n ih =>
    obtain ⟨h1, h2⟩ := ih
    rw [chainKey_add 1 n]
    simp only [chainKey, BlowfishSpec.fillS, h2, encrypt_spec h1]
    exact ⟨holds_setS h1 n _, trivial⟩

/-- **C81** For every key of 1 to 72 bytes and every block, the encryption with the schedule that the library computes is the encryption of the
published cipher, and its decryption is the inverse; for the initial tables that the library's array holds. -/
theorem C81_blowfish {init : Nat → Word} {I : Key} (hi : Holds init I) (key : List Byte) (h1 : 0 < key.length) (h2 : key.length ≤ 72) (b : Block) :
    encrypt (setKey init key) b = BlowfishSpec.encrypt (BlowfishSpec.schedule I key) b ∧
    decrypt (setKey init key) (BlowfishSpec.encrypt (BlowfishSpec.schedule I key) b) = b := by
  have hk : Holds (setKey init key) (BlowfishSpec.schedule I key) := by
    have hm : Holds (mixKey key 18 0 0 init) { I with P := fun i => I.P i ^^^ keyBits key i } := by
      have e := mixKey_spec key h1 18 0 init
      rw [Nat.mul_zero, Nat.zero_mod] at e
      constructor
      · intro i hlt
        rw [e, if_pos (by omega), hi.p i hlt]
      · intro a ha i hlt
        rw [e, if_neg (by omega), hi.s a ha i hlt]
    obtain ⟨p1, p2⟩ := chainP_spec hm 9 (by omega)
    have p3 := (chainS_spec p1 (chainKey 9 0 (0, 0) (mixKey key 18 0 0 init)).2 512).1
    rw [p2] at p3
    unfold setKey BlowfishSpec.schedule
    simp only
    rw [List.take_of_length_le h2, p2]
    exact p3
  refine ⟨encrypt_spec hk b, ?_⟩
  rw [← encrypt_spec hk b]
  exact (C49_block _ b).1

theorem n2l_nat (a b c d : Byte) : n2l a b c d = BitVec.ofNat 32 (2 ^ 24 * a.toNat + 2 ^ 16 * b.toNat + 2 ^ 8 * c.toNat + d.toNat) := by
  have ha := a.isLt; have hb := b.isLt; have hc := c.isLt; have hd := d.isLt
  have e : n2l a b c d = (((a.setWidth 32 <<< 8) ||| b.setWidth 32) <<< 8 ||| c.setWidth 32) <<< 8 ||| d.setWidth 32 := by
    unfold n2l
    simp only [BitVec.shiftLeft_or_distrib, ← BitVec.shiftLeft_add]
  have h0 : (a.setWidth 32 : Word).toNat = a.toNat := by rw [BitVec.toNat_setWidth, Nat.mod_eq_of_lt]; omega
  have h1 := shift_byte (a.setWidth 32) b (by rw [h0]; omega)
  have h2 := shift_byte _ c (show _ < 2 ^ 24 by rw [h1, h0]; omega)
  have h3 := shift_byte _ d (show _ < 2 ^ 24 by rw [h2, h1, h0]; omega)
  apply BitVec.eq_of_toNat_eq
  rw [e, h3, h2, h1, h0, BitVec.toNat_ofNat]
  clear h0 h1 h2 h3 e
  rw [Nat.mod_eq_of_lt] <;> omega

theorem low_byte (x : Word) (n : Nat) : ((x >>> n) &&& 0xff#32).setWidth 8 = BitVec.ofNat 8 (x.toNat / 2 ^ n % 256) := by
  apply BitVec.eq_of_toNat_eq
  rw [BitVec.toNat_setWidth, byte_shift, BitVec.toNat_ofNat]

theorem l2n_bytes (x : Word) : l2n x = [0, 1, 2, 3].map fun i => BitVec.ofNat 8 (byte x i) := by
  have e := low_byte x 0
  rw [BitVec.ushiftRight_zero] at e
  simp only [l2n, low_byte, e, List.map_cons, List.map_nil, byte, Nat.reduceSub]
  norm_num

/-- **C81** The message sent by the protocol: the eight bytes are those of the published cipher, for every message of at least eight bytes. -/
theorem C81_protocol {init : Nat → Word} {I : Key} (hi : Holds init I) (key : List Byte) (h1 : 0 < key.length) (h2 : key.length ≤ 72)
    (m : List Byte) (h : 8 ≤ m.length) :
    marshall (setKey init key) m = some (BlowfishSpec.bytesOf (BlowfishSpec.encrypt (BlowfishSpec.schedule I key) (BlowfishSpec.blockOf m)), 8) := by
  have e1 : big.block m = BlowfishSpec.blockOf m := by
    simp only [Codec.block, big, n2l_nat, BlowfishSpec.blockOf, Nat.zero_add, Nat.reduceAdd]
  have e2 : ∀ b, big.bytes b = BlowfishSpec.bytesOf b := fun b => by
    simp only [Codec.bytes, big, l2n_bytes, BlowfishSpec.bytesOf]
  simp only [marshall, ecb, if_neg (show ¬ m.length < 8 by omega), e1, e2, if_true, Option.map_some, (C81_blowfish hi key h1 h2 _).1]

/-- A key of eight bytes, and tables that are not constant. -/
example : ∃ (init : Nat → Word) (I : Key), Holds init I ∧ (0 : Nat) < [1, 2, 3, 4, 5, 6, 7, 8].length ∧ I.P 3 ≠ I.P 4 :=
  ⟨fun i => BitVec.ofNat 32 i, ⟨fun i => BitVec.ofNat 32 i, fun a i => BitVec.ofNat 32 (18 + 256 * a + i)⟩,
    ⟨fun _ _ => rfl, fun _ _ _ _ => rfl⟩, by decide, by decide⟩

/-- Two rounds of the published cipher on a concrete block. -/
example : BlowfishSpec.rounds ⟨fun i => BitVec.ofNat 32 (i + 1), fun a i => BitVec.ofNat 32 (a + i)⟩ 2 (1#32, 2#32) = (12#32, 6#32) := by
  decide +kernel

end Pok.Blowfish
