import Verif.Model.Des

/-!
# The Blowfish cipher as published

B. Schneier, "Description of a new variable-length key, 64-bit block cipher (Blowfish)", 1993.  The initial tables are a parameter.
-/

namespace Pok.BlowfishSpec

/-- Subkeys: the P-array and the four S-boxes. -/
structure Key where
  P : Nat → Word
  S : Nat → Nat → Word

/-- Byte `i` of a word, 0 the most significant. -/
def byte (x : Word) (i : Nat) : Nat := x.toNat / 256 ^ (3 - i) % 256

/-- The function F. -/
def F (k : Key) (x : Word) : Word :=
  ((k.S 0 (byte x 0) + k.S 1 (byte x 1)) ^^^ k.S 2 (byte x 2)) + k.S 3 (byte x 3)

/-- Round `i`: `xL := xL xor P[i]; xR := F(xL) xor xR; swap`. -/
def round (k : Key) (i : Nat) (b : Block) : Block :=
  let xL := b.1 ^^^ k.P i
  (F k xL ^^^ b.2, xL)

/-- The first `n` rounds. -/
def rounds (k : Key) : Nat → Block → Block
  | 0, b => b
  | n + 1, b => round k n (rounds k n b)

/-- Encryption: 16 rounds, the last swap undone, the last two subkeys. -/
def encrypt (k : Key) (b : Block) : Block :=
  let b := rounds k 16 b
  (b.2 ^^^ k.P 17, b.1 ^^^ k.P 16)

/-- The 32 bits of the key, taken cyclically, that go with subkey `i`. -/
def keyBits (key : List Byte) (i : Nat) : Word :=
  let at_ (j : Nat) : Nat := (key.getD (j % key.length) 0).toNat
  BitVec.ofNat 32 (2 ^ 24 * at_ (4 * i) + 2 ^ 16 * at_ (4 * i + 1) + 2 ^ 8 * at_ (4 * i + 2) + at_ (4 * i + 3))

/-- Replace pair `j` of the P-array. -/
def Key.setP (k : Key) (j : Nat) (b : Block) : Key :=
  { k with P := fun i => if i = 2 * j then b.1 else if i = 2 * j + 1 then b.2 else k.P i }

/-- Replace pair `j` of the entries of the S-boxes, in order. -/
def Key.setS (k : Key) (j : Nat) (b : Block) : Key :=
  { k with S := fun a i => if 256 * a + i = 2 * j then b.1 else if 256 * a + i = 2 * j + 1 then b.2 else k.S a i }

/-- Subkeys and last output after `n` replacements of pairs of the P-array. -/
def fillP (k : Key) : Nat → Key × Block
  | 0 => (k, (0, 0))
  | n + 1 =>
    let (k, b) := fillP k n
    (k.setP n (encrypt k b), encrypt k b)

/-- The same for the S-boxes. -/
def fillS (s : Key × Block) : Nat → Key × Block
  | 0 => s
  | n + 1 =>
    let (k, b) := fillS s n
    (k.setS n (encrypt k b), encrypt k b)

/-- The key schedule: 18 subkeys mixed with the key, then 521 encryptions. -/
def schedule (init : Key) (key : List Byte) : Key :=
  (fillS (fillP { init with P := fun i => init.P i ^^^ keyBits key i } 9) 512).1

/-- Eight bytes as a block, most significant byte first. -/
def blockOf (m : List Byte) : Block :=
  let word (j : Nat) : Word := BitVec.ofNat 32
    (2 ^ 24 * (m.getD j 0).toNat + 2 ^ 16 * (m.getD (j + 1) 0).toNat + 2 ^ 8 * (m.getD (j + 2) 0).toNat + (m.getD (j + 3) 0).toNat)
  (word 0, word 4)

/-- The bytes of a block, most significant byte first. -/
def bytesOf (b : Block) : List Byte :=
  ([0, 1, 2, 3].map fun i => BitVec.ofNat 8 (byte b.1 i)) ++ ([0, 1, 2, 3].map fun i => BitVec.ofNat 8 (byte b.2 i))

end Pok.BlowfishSpec
