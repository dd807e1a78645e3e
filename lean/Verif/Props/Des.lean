import Verif.Model.Des
import Mathlib.Tactic.IntervalCases

/-!
# The DES and Blowfish protocols (C48, C49, C66)
-/

namespace Pok

/-! ## Blocks -/

namespace Des

theorem permOp_permOp (n : Nat) (m a b : Word) (hm : (m <<< n) >>> n = m) :
    permOp n m (permOp n m a b).1 (permOp n m a b).2 = (a, b) := by
  have ht : (((a ^^^ ((((a >>> n) ^^^ b) &&& m) <<< n)) >>> n) ^^^ (b ^^^ (((a >>> n) ^^^ b) &&& m))) &&& m
      = ((a >>> n) ^^^ b) &&& m := by
    apply BitVec.eq_of_getLsbD_eq
    intro i hi
    have hmi : m.getLsbD i = true → n + i < 32 := by
      intro h
      rw [← hm] at h
      simp [BitVec.getLsbD_ushiftRight, BitVec.getLsbD_shiftLeft] at h
      omega
    simp only [BitVec.getLsbD_and, BitVec.getLsbD_xor, BitVec.getLsbD_ushiftRight, BitVec.getLsbD_shiftLeft]
    cases hmb : m.getLsbD i with
    | false => simp
    | true =>
      have hlt := hmi hmb
      have h2 : ¬ n + i < n := by omega
      simp [hlt, hmb, h2]
  unfold permOp
  simp only [ht]
  ext i hi <;> simp

theorem permOp_inv {n : Nat} {m a b c d : Word} (hm : (m <<< n) >>> n = m) (h : permOp n m a b = (c, d)) :
    permOp n m c d = (a, b) := by
  have := permOp_permOp n m a b hm
  rwa [h] at this

/-- `FP` undoes `IP` (the halves are exchanged in between). -/
theorem fp_ip (l r : Word) : fp (ip l r).2 (ip l r).1 = (r, l) := by
  obtain ⟨r1, l1, h1⟩ : ∃ a b, permOp 4 0x0f0f0f0f#32 r l = (a, b) := ⟨_, _, rfl⟩
  obtain ⟨l2, r2, h2⟩ : ∃ a b, permOp 16 0x0000ffff#32 l1 r1 = (a, b) := ⟨_, _, rfl⟩
  obtain ⟨r3, l3, h3⟩ : ∃ a b, permOp 2 0x33333333#32 r2 l2 = (a, b) := ⟨_, _, rfl⟩
  obtain ⟨l4, r4, h4⟩ : ∃ a b, permOp 8 0x00ff00ff#32 l3 r3 = (a, b) := ⟨_, _, rfl⟩
  obtain ⟨r5, l5, h5⟩ : ∃ a b, permOp 1 0x55555555#32 r4 l4 = (a, b) := ⟨_, _, rfl⟩
  have hi : ip l r = (l5, r5) := by simp [ip, h1, h2, h3, h4, h5]
  rw [hi]
  simp [fp, permOp_inv (by decide) h1, permOp_inv (by decide) h2, permOp_inv (by decide) h3, permOp_inv (by decide) h4,
    permOp_inv (by decide) h5]

/-- `IP` undoes `FP`. -/
theorem ip_fp (l r : Word) : ip (fp l r).2 (fp l r).1 = (r, l) := by
  obtain ⟨l1, r1, h1⟩ : ∃ a b, permOp 1 0x55555555#32 l r = (a, b) := ⟨_, _, rfl⟩
  obtain ⟨r2, l2, h2⟩ : ∃ a b, permOp 8 0x00ff00ff#32 r1 l1 = (a, b) := ⟨_, _, rfl⟩
  obtain ⟨l3, r3, h3⟩ : ∃ a b, permOp 2 0x33333333#32 l2 r2 = (a, b) := ⟨_, _, rfl⟩
  obtain ⟨r4, l4, h4⟩ : ∃ a b, permOp 16 0x0000ffff#32 r3 l3 = (a, b) := ⟨_, _, rfl⟩
  obtain ⟨l5, r5, h5⟩ : ∃ a b, permOp 4 0x0f0f0f0f#32 l4 r4 = (a, b) := ⟨_, _, rfl⟩
  have hi : fp l r = (l5, r5) := by simp [fp, h1, h2, h3, h4, h5]
  rw [hi]
  simp [ip, permOp_inv (by decide) h1, permOp_inv (by decide) h2, permOp_inv (by decide) h3, permOp_inv (by decide) h4,
    permOp_inv (by decide) h5]

theorem dEncrypt_twice (s : Nat → Word) (ll r : Word) (i : Nat) : dEncrypt s (dEncrypt s ll r i) r i = ll := by
  simp [dEncrypt, BitVec.xor_assoc]

theorem quadDec_quadEnc (s : Nat → Word) (i j : Nat) (h : j = i + 6) (p : Word × Word) :
    quadDec s j (quadEnc s i p).swap = p.swap := by
  subst h
  obtain ⟨l, r⟩ := p
  simp [quadDec, quadEnc, dEncrypt_twice, Prod.swap]

theorem quadEnc_quadDec (s : Nat → Word) (i j : Nat) (h : j = i + 6) (p : Word × Word) :
    quadEnc s i (quadDec s j p).swap = p.swap := by
  subst h
  obtain ⟨l, r⟩ := p
  simp [quadDec, quadEnc, dEncrypt_twice, Prod.swap]

theorem rounds_rounds (s : Nat → Word) (enc : Bool) (p : Word × Word) :
    rounds s (!enc) (rounds s enc p).swap = p.swap := by
  cases enc
  · simp [rounds, quadEnc_quadDec s 0 6 rfl, quadEnc_quadDec s 8 14 rfl, quadEnc_quadDec s 16 22 rfl, quadEnc_quadDec s 24 30 rfl]
  · simp [rounds, quadDec_quadEnc s 0 6 rfl, quadDec_quadEnc s 8 14 rfl, quadDec_quadEnc s 16 22 rfl, quadDec_quadEnc s 24 30 rfl]

theorem rot_3_29 (x : Word) : (x.rotateRight 3).rotateRight 29 = x := by
  ext i hi
  simp only [BitVec.getElem_rotateRight]
  split <;> split <;> first | omega | (congr 1; omega)

theorem rot_29_3 (x : Word) : (x.rotateRight 29).rotateRight 3 = x := by
  ext i hi
  simp only [BitVec.getElem_rotateRight]
  split <;> split <;> first | omega | (congr 1; omega)

theorem encrypt2_encrypt2 (s : Nat → Word) (enc : Bool) (b : Block) : encrypt2 s (!enc) (encrypt2 s enc b) = b := by
  obtain ⟨x, y⟩ := b
  obtain ⟨l, r, h⟩ : ∃ a b, rounds s enc (y.rotateRight 29, x.rotateRight 29) = (a, b) := ⟨_, _, rfl⟩
  have h2 := rounds_rounds s enc (y.rotateRight 29, x.rotateRight 29)
  rw [h] at h2
  simp only [Prod.swap] at h2
  simp [encrypt2, h, rot_3_29, h2, rot_29_3]

/-- A block encrypted with a key schedule and decrypted with the same schedule is unchanged, and the other way round. -/
theorem C48_block (s : Nat → Word) (enc : Bool) (b : Block) : encrypt1 s (!enc) (encrypt1 s enc b) = b := by
  obtain ⟨x, y⟩ := b
  obtain ⟨r1, l1, h1⟩ : ∃ a b, ip x y = (a, b) := ⟨_, _, rfl⟩
  obtain ⟨l2, r2, h2⟩ : ∃ a b, rounds s enc (l1.rotateRight 29, r1.rotateRight 29) = (a, b) := ⟨_, _, rfl⟩
  obtain ⟨r3, l3, h3⟩ : ∃ a b, fp (r2.rotateRight 3) (l2.rotateRight 3) = (a, b) := ⟨_, _, rfl⟩
  have e1 : encrypt1 s enc (x, y) = (l3, r3) := by simp [encrypt1, h1, h2, h3]
  have h4 : ip l3 r3 = (l2.rotateRight 3, r2.rotateRight 3) := by
    have := ip_fp (r2.rotateRight 3) (l2.rotateRight 3)
    rwa [h3] at this
  have h5 := rounds_rounds s enc (l1.rotateRight 29, r1.rotateRight 29)
  rw [h2] at h5
  simp only [Prod.swap] at h5
  have h6 : fp l1 r1 = (y, x) := by
    have := fp_ip x y
    rwa [h1] at this
  rw [e1]
  simp [encrypt1, h4, rot_3_29, h5, rot_29_3, h6]

/-- The published test vector: key 0123456789abcdef, plain text "Now is t" gives 3fa40e8a984d4815. -/
example : encrypt1 (sched (setKey [0x01, 0x23, 0x45, 0x67, 0x89, 0xab, 0xcd, 0xef])) true (little.block [0x4e, 0x6f, 0x77, 0x20, 0x69, 0x73, 0x20, 0x74])
    = little.block [0x3f, 0xa4, 0x0e, 0x8a, 0x98, 0x4d, 0x48, 0x15] := by decide +kernel

/-- The same for triple DES. -/
theorem C48_triple (s1 s2 s3 : Nat → Word) (b : Block) :
    decrypt3 s1 s2 s3 (encrypt3 s1 s2 s3 b) = b ∧ encrypt3 s1 s2 s3 (decrypt3 s1 s2 s3 b) = b := by
  obtain ⟨x, y⟩ := b
  have inner : ∀ (z : Block), ip (fp z.2 z.1).2 (fp z.2 z.1).1 = z := fun z => ip_fp z.2 z.1
  have outer : ∀ (z : Block), fp (ip z.1 z.2).2 (ip z.1 z.2).1 = (z.2, z.1) := fun z => fp_ip z.1 z.2
  have t := encrypt2_encrypt2
  constructor
  · simp [decrypt3, encrypt3, inner, show ∀ s b, encrypt2 s false (encrypt2 s true b) = b from fun s b => t s true b,
      show ∀ s b, encrypt2 s true (encrypt2 s false b) = b from fun s b => t s false b, outer (x, y)]
  · simp [decrypt3, encrypt3, inner, show ∀ s b, encrypt2 s false (encrypt2 s true b) = b from fun s b => t s true b,
      show ∀ s b, encrypt2 s true (encrypt2 s false b) = b from fun s b => t s false b, outer (x, y)]

end Des

/-! ## Chaining -/

/-- A codec loses nothing. -/
structure Codec.Ok (k : Codec) : Prop where
  len : ∀ w, (k.write w).length = 4
  back : ∀ w, k.read ((k.write w).getD 0 0) ((k.write w).getD 1 0) ((k.write w).getD 2 0) ((k.write w).getD 3 0) = w
  forth : ∀ a b c d, k.write (k.read a b c d) = [a, b, c, d]

theorem low_byte (x : Word) : (x &&& 0xff#32).setWidth 8 = x.setWidth 8 := by
  have h : (0xff#32).setWidth 8 = BitVec.allOnes 8 := by decide
  rw [BitVec.setWidth_and, h, BitVec.and_allOnes]

theorem little_ok : little.Ok := by
  refine ⟨fun w => rfl, fun w => ?_, fun a b c d => ?_⟩
  · simp only [little, l2c, c2l, low_byte]
    apply BitVec.eq_of_getLsbD_eq
    intro i hi
    simp only [List.getD_cons_zero, List.getD_cons_succ, BitVec.getLsbD_or, BitVec.getLsbD_shiftLeft, BitVec.getLsbD_setWidth,
      BitVec.getLsbD_ushiftRight]
    interval_cases i <;> simp
  · simp only [little, l2c, c2l, low_byte, List.cons.injEq, and_true]
    refine ⟨?_, ?_, ?_, ?_⟩ <;>
    · apply BitVec.eq_of_getLsbD_eq
      intro i hi
      simp only [BitVec.getLsbD_or, BitVec.getLsbD_shiftLeft, BitVec.getLsbD_setWidth, BitVec.getLsbD_ushiftRight]
      interval_cases i <;> simp

theorem big_ok : big.Ok := by
  refine ⟨fun w => rfl, fun w => ?_, fun a b c d => ?_⟩
  · simp only [big, l2n, n2l, low_byte]
    apply BitVec.eq_of_getLsbD_eq
    intro i hi
    simp only [List.getD_cons_zero, List.getD_cons_succ, BitVec.getLsbD_or, BitVec.getLsbD_shiftLeft, BitVec.getLsbD_setWidth,
      BitVec.getLsbD_ushiftRight]
    interval_cases i <;> simp
  · simp only [big, l2n, n2l, low_byte, List.cons.injEq, and_true]
    refine ⟨?_, ?_, ?_, ?_⟩ <;>
    · apply BitVec.eq_of_getLsbD_eq
      intro i hi
      simp only [BitVec.getLsbD_or, BitVec.getLsbD_shiftLeft, BitVec.getLsbD_setWidth, BitVec.getLsbD_ushiftRight]
      interval_cases i <;> simp

theorem Codec.Ok.bytes_length {k : Codec} (h : k.Ok) (b : Block) : (k.bytes b).length = 8 := by
  simp [Codec.bytes, h.len]

/-- Reading the bytes of a block (whatever follows them) gives the block. -/
theorem Codec.Ok.block_bytes {k : Codec} (h : k.Ok) (b : Block) (rest : List Byte) : k.block (k.bytes b ++ rest) = b := by
  obtain ⟨x, y⟩ := b
  have hx := h.back x
  have hy := h.back y
  obtain ⟨a0, a1, a2, a3, ha⟩ : ∃ a0 a1 a2 a3, k.write x = [a0, a1, a2, a3] := by
    have := h.len x
    match hw : k.write x, this with
    | [a0, a1, a2, a3], _ => exact ⟨_, _, _, _, rfl⟩
  obtain ⟨b0, b1, b2, b3, hb⟩ : ∃ a0 a1 a2 a3, k.write y = [a0, a1, a2, a3] := by
    have := h.len y
    match hw : k.write y, this with
    | [a0, a1, a2, a3], _ => exact ⟨_, _, _, _, rfl⟩
  rw [ha] at hx
  rw [hb] at hy
  simp only [List.getD_cons_zero, List.getD_cons_succ] at hx hy
  simp [Codec.block, Codec.bytes, ha, hb, hx, hy]

/-- The bytes of the block made of a message: its first eight bytes, completed with null bytes. -/
theorem Codec.Ok.bytes_block {k : Codec} (h : k.Ok) (m : List Byte) :
    k.bytes (k.block m) = (m ++ List.replicate 8 0).take 8 := by
  simp only [Codec.bytes, Codec.block, h.forth]
  match m with
  | [] => rfl
  | [_] => rfl
  | [_, _] => rfl
  | [_, _, _] => rfl
  | [_, _, _, _] => rfl
  | [_, _, _, _, _] => rfl
  | [_, _, _, _, _, _] => rfl
  | [_, _, _, _, _, _, _] => rfl
  | _ :: _ :: _ :: _ :: _ :: _ :: _ :: _ :: _ => rfl

theorem xorB_xorB (a b : Block) : xorB (xorB a b) b = a := by simp [xorB, BitVec.xor_assoc]

/-- Decrypting what chaining encryption produced gives the message back, whatever its length, when `D` undoes `E`. -/
theorem cbc_round_trip (k : Codec) (hk : k.Ok) (E D : Block → Block) (h : ∀ b, D (E b) = b) (m : List Byte) :
    ∀ (iv : Block) (rest : List Byte), cbcDec k D iv (cbcEnc k E iv m ++ rest) m.length = some m := by
  induction hn : m.length using Nat.strongRecOn generalizing m with
  | _ n ih =>
    intro iv rest
    subst hn
    rw [cbcEnc, cbcDec]
    by_cases h8 : 8 ≤ m.length
    · rw [dif_pos h8, if_neg (by omega)]
      simp only [List.append_assoc]
      rw [if_neg (by simp [hk.bytes_length]), if_pos h8, hk.block_bytes, h, xorB_xorB, hk.bytes_block]
      rw [show List.drop 8 (k.bytes (E (xorB (k.block m) iv)) ++ (cbcEnc k E (E (xorB (k.block m) iv)) (m.drop 8) ++ rest))
          = cbcEnc k E (E (xorB (k.block m) iv)) (m.drop 8) ++ rest from by
        rw [List.drop_append_of_le_length (by simp [hk.bytes_length]), List.drop_of_length_le (by simp [hk.bytes_length])]; rfl]
      have := ih (m.length - 8) (by omega) (m.drop 8) (by simp) (E (xorB (k.block m) iv)) rest
      rw [this]
      simp [List.take_append_of_le_length h8]
    · rw [dif_neg h8]
      by_cases h0 : m = []
      · subst h0; simp
      · have hl : m.length ≠ 0 := by simp [h0]
        rw [if_neg h0, if_neg hl, if_neg (by simp [hk.bytes_length]), if_neg h8, hk.block_bytes, h, xorB_xorB, hk.bytes_block]
        rw [List.take_take, Nat.min_eq_left (by omega), List.take_append_of_le_length (le_refl _), List.take_length]

/-- The length of the encrypted message: whole blocks. -/
theorem cbcEnc_length (k : Codec) (hk : k.Ok) (E : Block → Block) (m : List Byte) :
    ∀ iv, (cbcEnc k E iv m).length = 8 * ((m.length + 7) / 8) := by
  induction hn : m.length using Nat.strongRecOn generalizing m with
  | _ n ih =>
    intro iv
    subst hn
    rw [cbcEnc]
    by_cases h8 : 8 ≤ m.length
    · rw [dif_pos h8]
      simp only [List.length_append, hk.bytes_length]
      rw [ih (m.length - 8) (by omega) (m.drop 8) (by simp)]
      omega
    · rw [dif_neg h8]
      by_cases h0 : m = []
      · subst h0; simp
      · have hl : m.length ≠ 0 := by simp [h0]
        rw [if_neg h0, hk.bytes_length]
        omega

namespace Des

/-- Messages of every length: the encrypted message is the least whole number of blocks, and decrypting as many bytes as
the message had gives the message, with single and with triple DES. -/
theorem C48_chain (s s1 s2 s3 : Nat → Word) (iv m : List Byte) :
    (ncbcEncrypt s iv m).length = 8 * ((m.length + 7) / 8) ∧
    ncbcDecrypt s iv (ncbcEncrypt s iv m) m.length = some m ∧
    (ede3Encrypt s1 s2 s3 iv m).length = 8 * ((m.length + 7) / 8) ∧
    ede3Decrypt s1 s2 s3 iv (ede3Encrypt s1 s2 s3 iv m) m.length = some m := by
  refine ⟨cbcEnc_length _ little_ok _ _ _, ?_, cbcEnc_length _ little_ok _ _ _, ?_⟩
  · have := cbc_round_trip little little_ok (encrypt1 s true) (encrypt1 s false) (fun b => C48_block s true b) m
      (little.block iv) []
    simpa [ncbcDecrypt, ncbcEncrypt] using this
  · have := cbc_round_trip little little_ok (encrypt3 s1 s2 s3) (decrypt3 s1 s2 s3) (fun b => (C48_triple s1 s2 s3 b).1) m
      (little.block iv) []
    simpa [ede3Decrypt, ede3Encrypt] using this

/-- A three-block message of 20 bytes. -/
example : (ncbcEncrypt (sched (setKey [1, 35, 69, 103, 137, 171, 205, 239])) [254, 220, 186, 152, 118, 84, 50, 16]
    (List.replicate 20 7)).length = 24 := by decide +kernel

/-- The protocol: with a key of odd parity that is not weak, a message of eight bytes is received as sent. -/
theorem C66_des_partial (key iv m : List Byte) (hm : m.length = 8) (hp : parityOk key = true) (hw : weak key = false) :
    ∃ c, marshall key iv m = some (c, 8) ∧ c.length = 8 ∧ unmarshall key iv c 8 = some (m, 8) := by
  have hk : setKeyChecked key = some (setKey key) := by simp [setKeyChecked, hp, hw]
  have h := C48_chain (sched (setKey key)) (fun _ => 0) (fun _ => 0) (fun _ => 0) iv m
  refine ⟨ncbcEncrypt (sched (setKey key)) iv m, by simp [marshall, hk], by rw [h.1, hm], ?_⟩
  have h2 := h.2.1
  rw [hm] at h2
  simp [unmarshall, hk, h2]

/-- The default key qualifies. -/
example : parityOk [0x01, 0x23, 0x45, 0x67, 0x89, 0xab, 0xcd, 0xef] = true ∧ weak [0x01, 0x23, 0x45, 0x67, 0x89, 0xab, 0xcd, 0xef] = false := by
  decide +kernel

/-- Violation: whatever the length of the message, the protocol announces eight bytes.  The receiver of a message of sixteen
bytes that decrypts the announced size gets the first half only. -/
theorem C66_des_size_violated :
    ∃ key iv m c n, marshall key iv m = some (c, n) ∧ m.length = 16 ∧ c.length = 16 ∧ n = 8 ∧
      unmarshall key iv c n = some (m.take 8, 8) := by
  refine ⟨[0x01, 0x23, 0x45, 0x67, 0x89, 0xab, 0xcd, 0xef], [0xfe, 0xdc, 0xba, 0x98, 0x76, 0x54, 0x32, 0x10],
    List.replicate 8 1 ++ List.replicate 8 2,
    ncbcEncrypt (sched (setKey [0x01, 0x23, 0x45, 0x67, 0x89, 0xab, 0xcd, 0xef])) [0xfe, 0xdc, 0xba, 0x98, 0x76, 0x54, 0x32, 0x10]
      (List.replicate 8 1 ++ List.replicate 8 2), 8, ?_⟩
  decide +kernel

/-- Violation: a short message comes back with null bytes added and size eight. -/
theorem C66_des_short_violated :
    ∃ key iv m c n, marshall key iv m = some (c, n) ∧ m.length = 3 ∧ n = 8 ∧
      unmarshall key iv c n = some (m ++ List.replicate 5 0, 8) := by
  refine ⟨[0x01, 0x23, 0x45, 0x67, 0x89, 0xab, 0xcd, 0xef], [0xfe, 0xdc, 0xba, 0x98, 0x76, 0x54, 0x32, 0x10], [1, 2, 3],
    ncbcEncrypt (sched (setKey [0x01, 0x23, 0x45, 0x67, 0x89, 0xab, 0xcd, 0xef])) [0xfe, 0xdc, 0xba, 0x98, 0x76, 0x54, 0x32, 0x10]
      [1, 2, 3], 8, ?_⟩
  decide +kernel

/-- Violation: with a key that has a byte of even parity, or a weak key, the schedule used is uninitialised memory. -/
theorem C66_des_key_violated (key iv m c : List Byte) (n : Nat) (h : parityOk key = false ∨ weak key = true) :
    marshall key iv m = none ∧ unmarshall key iv c n = none := by
  have : setKeyChecked key = none := by
    rcases h with h | h
    · simp [setKeyChecked, h]
    · simp [setKeyChecked, h]
  simp [marshall, unmarshall, this]

example : parityOk (List.replicate 8 0) = false ∧ weak (List.replicate 8 1) = true := by decide +kernel

end Des

namespace Blowfish

theorem bfEnc_twice (k : Nat → Word) (ll r : Word) (i : Nat) : bfEnc k (bfEnc k ll r i) r i = ll := by
  simp only [bfEnc]
  generalize (k (18 + 0 + _) + k (18 + 256 + _) ^^^ k (18 + 512 + _)) + k (18 + 768 + _) = f
  rw [BitVec.xor_assoc ll, BitVec.xor_assoc, BitVec.xor_assoc, BitVec.xor_self, BitVec.xor_zero]

theorem pair_pair (k : Nat → Word) (i j : Nat) (p : Word × Word) : pair k j i (pair k i j p).swap = p.swap := by
  obtain ⟨l, r⟩ := p
  simp [pair, Prod.swap, bfEnc_twice]

theorem rounds_eq (k : Nat → Word) (p : Word × Word) :
    pair k 2 1 (pair k 4 3 (pair k 6 5 (pair k 8 7 (pair k 10 9 (pair k 12 11 (pair k 14 13 (pair k 16 15
      (pair k 15 16 (pair k 13 14 (pair k 11 12 (pair k 9 10 (pair k 7 8 (pair k 5 6 (pair k 3 4 (pair k 1 2 p)))))))).swap)))))))
      = p.swap := by
  simp only [pair_pair]

theorem rounds_eq' (k : Nat → Word) (p : Word × Word) :
    pair k 15 16 (pair k 13 14 (pair k 11 12 (pair k 9 10 (pair k 7 8 (pair k 5 6 (pair k 3 4 (pair k 1 2
      (pair k 2 1 (pair k 4 3 (pair k 6 5 (pair k 8 7 (pair k 10 9 (pair k 12 11 (pair k 14 13 (pair k 16 15 p)))))))).swap)))))))
      = p.swap := by
  simp only [pair_pair]

/-- A block encrypted and decrypted with the same key structure is unchanged, and the other way round. -/
theorem C49_block (k : Nat → Word) (b : Block) : decrypt k (encrypt k b) = b ∧ encrypt k (decrypt k b) = b := by
  obtain ⟨x, y⟩ := b
  constructor
  · obtain ⟨l, r, h⟩ : ∃ l r, pair k 15 16 (pair k 13 14 (pair k 11 12 (pair k 9 10 (pair k 7 8 (pair k 5 6 (pair k 3 4
        (pair k 1 2 (x ^^^ k 0, y)))))))) = (l, r) := ⟨_, _, rfl⟩
    have h2 := rounds_eq k (x ^^^ k 0, y)
    rw [h] at h2
    simp only [Prod.swap] at h2
    simp [encrypt, decrypt, h, BitVec.xor_assoc, h2]
  · obtain ⟨l, r, h⟩ : ∃ l r, pair k 2 1 (pair k 4 3 (pair k 6 5 (pair k 8 7 (pair k 10 9 (pair k 12 11 (pair k 14 13
        (pair k 16 15 (x ^^^ k 17, y)))))))) = (l, r) := ⟨_, _, rfl⟩
    have h2 := rounds_eq' k (x ^^^ k 17, y)
    rw [h] at h2
    simp only [Prod.swap] at h2
    simp [encrypt, decrypt, h, BitVec.xor_assoc, h2]

/-- Messages of every length, chained. -/
theorem C49_chain (k : Nat → Word) (iv m : List Byte) :
    (cbcEncrypt k iv m).length = 8 * ((m.length + 7) / 8) ∧ cbcDecrypt k iv (cbcEncrypt k iv m) m.length = some m := by
  refine ⟨cbcEnc_length _ big_ok _ _ _, ?_⟩
  have := cbc_round_trip big big_ok (encrypt k) (decrypt k) (fun b => (C49_block k b).1) m (big.block iv) []
  simpa [cbcDecrypt, cbcEncrypt] using this

/-- The protocol: a message of eight bytes is received as sent. -/
theorem C66_blowfish_partial (k : Nat → Word) (m : List Byte) (hm : m.length = 8) :
    ∃ c, marshall k m = some (c, 8) ∧ c.length = 8 ∧ unmarshall k c = some (m, 8) := by
  refine ⟨big.bytes (encrypt k (big.block m)), by simp [marshall, ecb, hm], big_ok.bytes_length _, ?_⟩
  have h := big_ok.block_bytes (encrypt k (big.block m)) []
  rw [List.append_nil] at h
  simp only [unmarshall, ecb, big_ok.bytes_length]
  simp [h, (C49_block k (big.block m)).1, big_ok.bytes_block, hm]

/-- Violation: of every longer message only the first eight bytes are sent. -/
theorem C66_blowfish_size_violated (k : Nat → Word) (m : List Byte) (hm : 8 < m.length) :
    ∃ c, marshall k m = some (c, 8) ∧ c.length = 8 ∧ unmarshall k c = some (m.take 8, 8) := by
  obtain ⟨c, h1, h2, h3⟩ := C66_blowfish_partial k (m.take 8) (by simp; omega)
  refine ⟨c, ?_, h2, h3⟩
  have hb : big.block (m.take 8) = big.block m := by simp [Codec.block, List.getD]
  rw [← h1]
  simp only [marshall, ecb, hb]
  simp [show ¬ m.length < 8 by omega, show 8 ≤ m.length by omega]

/-- Violation: for a shorter message, memory after it is read. -/
theorem C66_blowfish_short_violated (k : Nat → Word) (m : List Byte) (hm : m.length < 8) : marshall k m = none := by
  simp [marshall, ecb, hm]

example : (List.replicate 9 (1 : Byte)).length = 9 ∧ ([] : List Byte).length < 8 := by decide

end Blowfish
end Pok
