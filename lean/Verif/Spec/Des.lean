/-!
# The Data Encryption Standard

The algorithm of FIPS PUB 46-3, bit by bit, with the tables of the standard.  Bits are numbered from 1, from left to right, as in the standard.
-/

namespace Pok.DesSpec

/-- A string of bits, from left to right. -/
abbrev Bits := List Bool

/-- The bits that a table selects: bit `k` of the result is bit number `t[k]` of the input. -/
def select (t : List Nat) (b : Bits) : Bits := t.map fun i => b.getD (i - 1) false

/-- Exclusive or, bit by bit. -/
def xor (a b : Bits) : Bits := List.zipWith Bool.xor a b

/-- The initial permutation. -/
def IP : List Nat :=
  [58, 50, 42, 34, 26, 18, 10, 2, 60, 52, 44, 36, 28, 20, 12, 4, 62, 54, 46, 38, 30, 22, 14, 6, 64, 56, 48, 40, 32, 24, 16, 8,
   57, 49, 41, 33, 25, 17, 9, 1, 59, 51, 43, 35, 27, 19, 11, 3, 61, 53, 45, 37, 29, 21, 13, 5, 63, 55, 47, 39, 31, 23, 15, 7]

/-- The inverse of the initial permutation. -/
def IPinv : List Nat :=
  [40, 8, 48, 16, 56, 24, 64, 32, 39, 7, 47, 15, 55, 23, 63, 31, 38, 6, 46, 14, 54, 22, 62, 30, 37, 5, 45, 13, 53, 21, 61, 29,
   36, 4, 44, 12, 52, 20, 60, 28, 35, 3, 43, 11, 51, 19, 59, 27, 34, 2, 42, 10, 50, 18, 58, 26, 33, 1, 41, 9, 49, 17, 57, 25]

/-- The E bit-selection table. -/
def E : List Nat :=
  [32, 1, 2, 3, 4, 5, 4, 5, 6, 7, 8, 9, 8, 9, 10, 11, 12, 13, 12, 13, 14, 15, 16, 17,
   16, 17, 18, 19, 20, 21, 20, 21, 22, 23, 24, 25, 24, 25, 26, 27, 28, 29, 28, 29, 30, 31, 32, 1]

/-- The permutation P. -/
def P : List Nat :=
  [16, 7, 20, 21, 29, 12, 28, 17, 1, 15, 23, 26, 5, 18, 31, 10, 2, 8, 24, 14, 32, 27, 3, 9, 19, 13, 30, 6, 22, 11, 4, 25]

/-- The selection functions S1 to S8, row by row. -/
def S : List (List Nat) := [
  [14, 4, 13, 1, 2, 15, 11, 8, 3, 10, 6, 12, 5, 9, 0, 7, 0, 15, 7, 4, 14, 2, 13, 1, 10, 6, 12, 11, 9, 5, 3, 8,
   4, 1, 14, 8, 13, 6, 2, 11, 15, 12, 9, 7, 3, 10, 5, 0, 15, 12, 8, 2, 4, 9, 1, 7, 5, 11, 3, 14, 10, 0, 6, 13],
  [15, 1, 8, 14, 6, 11, 3, 4, 9, 7, 2, 13, 12, 0, 5, 10, 3, 13, 4, 7, 15, 2, 8, 14, 12, 0, 1, 10, 6, 9, 11, 5,
   0, 14, 7, 11, 10, 4, 13, 1, 5, 8, 12, 6, 9, 3, 2, 15, 13, 8, 10, 1, 3, 15, 4, 2, 11, 6, 7, 12, 0, 5, 14, 9],
  [10, 0, 9, 14, 6, 3, 15, 5, 1, 13, 12, 7, 11, 4, 2, 8, 13, 7, 0, 9, 3, 4, 6, 10, 2, 8, 5, 14, 12, 11, 15, 1,
   13, 6, 4, 9, 8, 15, 3, 0, 11, 1, 2, 12, 5, 10, 14, 7, 1, 10, 13, 0, 6, 9, 8, 7, 4, 15, 14, 3, 11, 5, 2, 12],
  [7, 13, 14, 3, 0, 6, 9, 10, 1, 2, 8, 5, 11, 12, 4, 15, 13, 8, 11, 5, 6, 15, 0, 3, 4, 7, 2, 12, 1, 10, 14, 9,
   10, 6, 9, 0, 12, 11, 7, 13, 15, 1, 3, 14, 5, 2, 8, 4, 3, 15, 0, 6, 10, 1, 13, 8, 9, 4, 5, 11, 12, 7, 2, 14],
  [2, 12, 4, 1, 7, 10, 11, 6, 8, 5, 3, 15, 13, 0, 14, 9, 14, 11, 2, 12, 4, 7, 13, 1, 5, 0, 15, 10, 3, 9, 8, 6,
   4, 2, 1, 11, 10, 13, 7, 8, 15, 9, 12, 5, 6, 3, 0, 14, 11, 8, 12, 7, 1, 14, 2, 13, 6, 15, 0, 9, 10, 4, 5, 3],
  [12, 1, 10, 15, 9, 2, 6, 8, 0, 13, 3, 4, 14, 7, 5, 11, 10, 15, 4, 2, 7, 12, 9, 5, 6, 1, 13, 14, 0, 11, 3, 8,
   9, 14, 15, 5, 2, 8, 12, 3, 7, 0, 4, 10, 1, 13, 11, 6, 4, 3, 2, 12, 9, 5, 15, 10, 11, 14, 1, 7, 6, 0, 8, 13],
  [4, 11, 2, 14, 15, 0, 8, 13, 3, 12, 9, 7, 5, 10, 6, 1, 13, 0, 11, 7, 4, 9, 1, 10, 14, 3, 5, 12, 2, 15, 8, 6,
   1, 4, 11, 13, 12, 3, 7, 14, 10, 15, 6, 8, 0, 5, 9, 2, 6, 11, 13, 8, 1, 4, 10, 7, 9, 5, 0, 15, 14, 2, 3, 12],
  [13, 2, 8, 4, 6, 15, 11, 1, 10, 9, 3, 14, 5, 0, 12, 7, 1, 15, 13, 8, 10, 3, 7, 4, 12, 5, 6, 11, 0, 14, 9, 2,
   7, 11, 4, 1, 9, 12, 14, 2, 0, 6, 10, 13, 15, 3, 5, 8, 2, 1, 14, 7, 4, 10, 8, 13, 15, 12, 9, 0, 3, 5, 6, 11]]

/-- Permuted choice 1. -/
def PC1 : List Nat :=
  [57, 49, 41, 33, 25, 17, 9, 1, 58, 50, 42, 34, 26, 18, 10, 2, 59, 51, 43, 35, 27, 19, 11, 3, 60, 52, 44, 36,
   63, 55, 47, 39, 31, 23, 15, 7, 62, 54, 46, 38, 30, 22, 14, 6, 61, 53, 45, 37, 29, 21, 13, 5, 28, 20, 12, 4]

/-- Permuted choice 2. -/
def PC2 : List Nat :=
  [14, 17, 11, 24, 1, 5, 3, 28, 15, 6, 21, 10, 23, 19, 12, 4, 26, 8, 16, 7, 27, 20, 13, 2,
   41, 52, 31, 37, 47, 55, 30, 40, 51, 45, 33, 48, 44, 49, 39, 56, 34, 53, 46, 42, 50, 36, 29, 32]

/-- The number of left shifts before each of the sixteen keys. -/
def shifts : List Nat := [1, 1, 2, 2, 2, 2, 2, 2, 1, 2, 2, 2, 2, 2, 2, 1]

/-- The number written by a string of bits. -/
def number (b : Bits) : Nat := b.foldl (fun n x => 2 * n + x.toNat) 0

/-- Four bits that write a number. -/
def four (n : Nat) : Bits := [n.testBit 3, n.testBit 2, n.testBit 1, n.testBit 0]

/-- A selection function: the first and last bit give the row, the others the column. -/
def sbox (t : List Nat) (b : Bits) : Bits :=
  four (t.getD (16 * number [b.getD 0 false, b.getD 5 false] + number ((b.drop 1).take 4)) 0)

/-- The cipher function `f`. -/
def f (r k : Bits) : Bits := select P (S.zipIdx.flatMap fun s => sbox s.1 (((xor (select E r) k).drop (6 * s.2)).take 6))

/-- The keys `K1`, `K2`, ... for the given shifts. -/
def keysFrom : List Nat → Bits → Bits → List Bits
  | [], _, _ => []
  | n :: ns, c, d => select PC2 (c.rotateLeft n ++ d.rotateLeft n) :: keysFrom ns (c.rotateLeft n) (d.rotateLeft n)

/-- The sixteen keys of a key of 64 bits. -/
def keys (key : Bits) : List Bits := keysFrom shifts ((select PC1 key).take 28) ((select PC1 key).drop 28)

/-- The rounds with the given keys. -/
def rounds : List Bits → Bits × Bits → Bits × Bits
  | [], p => p
  | k :: ks, (l, r) => rounds ks (r, xor l (f r k))

/-- The whole transformation with the given keys. -/
def crypt (ks : List Bits) (block : Bits) : Bits :=
  let b := select IP block
  let p := rounds ks (b.take 32, b.drop 32)
  select IPinv (p.2 ++ p.1)

/-- Enciphering of a block of 64 bits. -/
def encipher (key block : Bits) : Bits := crypt (keys key) block

/-- Deciphering: the keys in the reverse order. -/
def decipher (key block : Bits) : Bits := crypt (keys key).reverse block

/-- The bits of a string of bytes: the most significant bit of each byte first. -/
def bitsOf (bs : List (BitVec 8)) : Bits := bs.flatMap fun b => (List.range 8).map fun i => b.getLsbD (7 - i)

/-- Triple DES with three keys (FIPS 46-3, TDEA): enciphering with the first, deciphering with the second, enciphering with the third. -/
def encipher3 (key1 key2 key3 block : Bits) : Bits := encipher key3 (decipher key2 (encipher key1 block))

/-- Cipher block chaining (FIPS 81): each block is combined with the preceding enciphered block, the first with the initial vector. -/
def chain (E : Bits → Bits) (iv : Bits) : List Bits → List Bits
  | [] => []
  | b :: bs => E (xor b iv) :: chain E (E (xor b iv)) bs

/-- Every byte has an odd number of ones. -/
def OddParity (key : List (BitVec 8)) : Prop := ∀ b ∈ key, ((bitsOf [b]).count true) % 2 = 1

/-- Two keys are dual: enciphering with one is deciphering with the other, because the same sixteen keys come in the reverse order.  A weak key
is its own dual, a semi-weak key has another dual. -/
def Dual (key key' : Bits) : Prop := keys key' = (keys key).reverse

instance (a b : Bits) : Decidable (Dual a b) := inferInstanceAs (Decidable (_ = _))

end Pok.DesSpec
