import Verif.Model.DesTables
import Verif.Model.Basic

/-!
# The DES and Blowfish protocols

Model of libpok/protocols/des and libpok/protocols/blowfish.  `unsigned long` has 32 bits (the supported targets).
Of the variants selected by preprocessor symbols, the ones in effect (`DES_PTR`, `DES_UNROLL`, `DES_RISC1`, `DES_RISC2`,
`DES_FCRYPT` not defined; `BF_PTR2` defined, 16 rounds).
-/

namespace Pok

/-- A word and a block of two words. -/
abbrev Word := BitVec 32
abbrev Block := Word × Word
abbrev Byte := BitVec 8

/-! ## Bytes and words -/

/-- `c2l`, libpok/protocols/des/des_locl.h 158-160: four bytes, least significant first. -/
def c2l (b0 b1 b2 b3 : Byte) : Word :=
  b0.setWidth 32 ||| (b1.setWidth 32 <<< 8) ||| (b2.setWidth 32 <<< 16) ||| (b3.setWidth 32 <<< 24)

/-- `l2c`, libpok/protocols/des/des_locl.h 187-191. -/
def l2c (l : Word) : List Byte :=
  [(l &&& 0xff#32).setWidth 8, ((l >>> 8) &&& 0xff#32).setWidth 8, ((l >>> 16) &&& 0xff#32).setWidth 8,
    ((l >>> 24) &&& 0xff#32).setWidth 8]

/-- `n2l`, libpok/protocols/des/des_locl.h 197-199 and libpok/protocols/blowfish/bf_locl.h 194-197: four bytes, most significant
first. -/
def n2l (b0 b1 b2 b3 : Byte) : Word :=
  (b0.setWidth 32 <<< 24) ||| (b1.setWidth 32 <<< 16) ||| (b2.setWidth 32 <<< 8) ||| b3.setWidth 32

/-- `l2n`, libpok/protocols/des/des_locl.h 201-205 and libpok/protocols/blowfish/bf_locl.h 200-204. -/
def l2n (l : Word) : List Byte :=
  [((l >>> 24) &&& 0xff#32).setWidth 8, ((l >>> 16) &&& 0xff#32).setWidth 8, ((l >>> 8) &&& 0xff#32).setWidth 8,
    (l &&& 0xff#32).setWidth 8]

/-- How a cipher reads and writes words. -/
structure Codec where
  read : Byte → Byte → Byte → Byte → Word
  write : Word → List Byte

/-- The codec of DES. -/
def little : Codec := ⟨c2l, l2c⟩
/-- The codec of Blowfish. -/
def big : Codec := ⟨n2l, l2n⟩

/-- Two words from the first eight bytes; bytes that are missing are null (`c2ln`, libpok/protocols/des/des_locl.h
163-185, and `n2ln`, bf_locl.h 145-167, for an incomplete block). -/
def Codec.block (k : Codec) (bs : List Byte) : Block :=
  (k.read (bs.getD 0 0) (bs.getD 1 0) (bs.getD 2 0) (bs.getD 3 0), k.read (bs.getD 4 0) (bs.getD 5 0) (bs.getD 6 0) (bs.getD 7 0))

/-- The eight bytes of a block. -/
def Codec.bytes (k : Codec) (b : Block) : List Byte := k.write b.1 ++ k.write b.2

/-- Exclusive or of blocks. -/
def xorB (a b : Block) : Block := (a.1 ^^^ b.1, a.2 ^^^ b.2)

/-- Encryption in cipher block chaining mode: `DES_ncbc_encrypt` (libpok/protocols/des/ncbc_enc.c 98-130),
`DES_ede3_cbc_encrypt` (libpok/protocols/des/des_enc.c 316-350) and `BF_cbc_encrypt`
(libpok/protocols/blowfish/bf_enc.c 245-275) with `enc` not null.  `E` encrypts a block, `iv` is the initial vector,
then the last block produced. -/
def cbcEnc (k : Codec) (E : Block → Block) (iv : Block) (m : List Byte) : List Byte :=
  if h : 8 ≤ m.length then
    let c := E (xorB (k.block m) iv)
    k.bytes c ++ cbcEnc k E c (m.drop 8)
  else if m = [] then []
  else k.bytes (E (xorB (k.block m) iv))
termination_by m.length
decreasing_by simp; omega

/-- Decryption of `n` bytes in cipher block chaining mode: `DES_ncbc_encrypt` (libpok/protocols/des/ncbc_enc.c 131-166),
`DES_ede3_cbc_encrypt` (libpok/protocols/des/des_enc.c 351-399) and `BF_cbc_encrypt` (bf_enc.c 276-307) with a null
`enc`.  A whole block is read for the last bytes; `none` when it is not there. -/
def cbcDec (k : Codec) (D : Block → Block) (iv : Block) (c : List Byte) (n : Nat) : Option (List Byte) :=
  if n = 0 then some []
  else if c.length < 8 then none
  else
    let p := k.bytes (xorB (D (k.block c)) iv)
    if 8 ≤ n then (cbcDec k D (k.block c) (c.drop 8) (n - 8)).map (p ++ ·)
    else some (p.take n)
termination_by n
decreasing_by omega

namespace Des

/-- `PERM_OP(a, b, t, n, m)`, libpok/protocols/des/des_locl.h 486-487: the new `(a, b)`. -/
def permOp (n : Nat) (m : Word) (a b : Word) : Word × Word :=
  let t := ((a >>> n) ^^^ b) &&& m
  (a ^^^ (t <<< n), b ^^^ t)

/-- `IP(l, r)`, libpok/protocols/des/des_locl.h 489-497: the new `(l, r)`. -/
def ip (l r : Word) : Word × Word :=
  let (r, l) := permOp 4 0x0f0f0f0f#32 r l
  let (l, r) := permOp 16 0x0000ffff#32 l r
  let (r, l) := permOp 2 0x33333333#32 r l
  let (l, r) := permOp 8 0x00ff00ff#32 l r
  let (r, l) := permOp 1 0x55555555#32 r l
  (l, r)

/-- `FP(l, r)`, libpok/protocols/des/des_locl.h 499-507: the new `(l, r)`. -/
def fp (l r : Word) : Word × Word :=
  let (l, r) := permOp 1 0x55555555#32 l r
  let (r, l) := permOp 8 0x00ff00ff#32 r l
  let (l, r) := permOp 2 0x33333333#32 l r
  let (r, l) := permOp 16 0x0000ffff#32 r l
  let (l, r) := permOp 4 0x0f0f0f0f#32 l r
  (l, r)

/-- An entry of `DES_SPtrans`; the index is masked by the callers. -/
def sp (i : Nat) (x : Word) : Word := (SPtrans.getD i #[]).getD (x &&& 0x3f#32).toNat 0

/-- `D_ENCRYPT(LL, R, S)`, libpok/protocols/des/des_locl.h 435-445 with `LOAD_DATA` (273-276): the new `LL`. -/
def dEncrypt (s : Nat → Word) (ll r : Word) (i : Nat) : Word :=
  let u := r ^^^ s i
  let t := (r ^^^ s (i + 1)).rotateRight 4
  ll ^^^ (sp 0 (u >>> 2) ^^^ sp 2 (u >>> 10) ^^^ sp 4 (u >>> 18) ^^^ sp 6 (u >>> 26) ^^^ sp 1 (t >>> 2) ^^^ sp 3 (t >>> 10) ^^^
    sp 5 (t >>> 18) ^^^ sp 7 (t >>> 26))

/-- The four rounds in the body of the loop of libpok/protocols/des/des_enc.c 125-130 (encryption). -/
def quadEnc (s : Nat → Word) (i : Nat) (p : Word × Word) : Word × Word :=
  let (l, r) := p
  let l := dEncrypt s l r (i + 0)
  let r := dEncrypt s r l (i + 2)
  let l := dEncrypt s l r (i + 4)
  let r := dEncrypt s r l (i + 6)
  (l, r)

/-- The four rounds in the body of the loop of libpok/protocols/des/des_enc.c 151-156 (decryption). -/
def quadDec (s : Nat → Word) (i : Nat) (p : Word × Word) : Word × Word :=
  let (l, r) := p
  let l := dEncrypt s l r (i - 0)
  let r := dEncrypt s r l (i - 2)
  let l := dEncrypt s l r (i - 4)
  let r := dEncrypt s r l (i - 6)
  (l, r)

/-- The loops of libpok/protocols/des/des_enc.c 106-158. -/
def rounds (s : Nat → Word) (enc : Bool) (p : Word × Word) : Word × Word :=
  if enc then quadEnc s 24 (quadEnc s 16 (quadEnc s 8 (quadEnc s 0 p)))
  else quadDec s 6 (quadDec s 14 (quadDec s 22 (quadDec s 30 p)))

/-- `DES_encrypt1`, libpok/protocols/des/des_enc.c 78-168. -/
def encrypt1 (s : Nat → Word) (enc : Bool) (data : Block) : Block :=
  let r := data.1
  let l := data.2
  let (r, l) := ip r l
  let r := r.rotateRight 29
  let l := l.rotateRight 29
  let (l, r) := rounds s enc (l, r)
  let l := l.rotateRight 3
  let r := r.rotateRight 3
  let (r, l) := fp r l
  (l, r)

/-- `DES_encrypt2`, libpok/protocols/des/des_enc.c 170-253. -/
def encrypt2 (s : Nat → Word) (enc : Bool) (data : Block) : Block :=
  let r := data.1.rotateRight 29
  let l := data.2.rotateRight 29
  let (l, r) := rounds s enc (l, r)
  (l.rotateRight 3, r.rotateRight 3)

/-- `DES_encrypt3`, libpok/protocols/des/des_enc.c 255-272. -/
def encrypt3 (s1 s2 s3 : Nat → Word) (data : Block) : Block :=
  let (l, r) := ip data.1 data.2
  let data := encrypt2 s3 true (encrypt2 s2 false (encrypt2 s1 true (l, r)))
  let (r, l) := fp data.2 data.1
  (l, r)

/-- `DES_decrypt3`, libpok/protocols/des/des_enc.c 274-291. -/
def decrypt3 (s1 s2 s3 : Nat → Word) (data : Block) : Block :=
  let (l, r) := ip data.1 data.2
  let data := encrypt2 s1 false (encrypt2 s2 true (encrypt2 s3 false (l, r)))
  let (r, l) := fp data.2 data.1
  (l, r)

/-- `DES_ncbc_encrypt`, libpok/protocols/des/ncbc_enc.c 86-169, encryption. -/
def ncbcEncrypt (s : Nat → Word) (iv : List Byte) (m : List Byte) : List Byte :=
  cbcEnc little (encrypt1 s true) (little.block iv) m

/-- `DES_ncbc_encrypt`, libpok/protocols/des/ncbc_enc.c 86-169, decryption. -/
def ncbcDecrypt (s : Nat → Word) (iv : List Byte) (c : List Byte) (n : Nat) : Option (List Byte) :=
  cbcDec little (encrypt1 s false) (little.block iv) c n

/-- `DES_ede3_cbc_encrypt`, libpok/protocols/des/des_enc.c 300-402, encryption. -/
def ede3Encrypt (s1 s2 s3 : Nat → Word) (iv : List Byte) (m : List Byte) : List Byte :=
  cbcEnc little (encrypt3 s1 s2 s3) (little.block iv) m

/-- `DES_ede3_cbc_encrypt`, libpok/protocols/des/des_enc.c 300-402, decryption. -/
def ede3Decrypt (s1 s2 s3 : Nat → Word) (iv : List Byte) (c : List Byte) (n : Nat) : Option (List Byte) :=
  cbcDec little (decrypt3 s1 s2 s3) (little.block iv) c n

/-! ## Keys -/

/-- `HPERM_OP(a, t, n, m)`, libpok/protocols/des/set_key.c 179-181, with `n = -2`. -/
def hpermOp (m a : Word) : Word :=
  let t := ((a <<< 18) ^^^ a) &&& m
  a ^^^ t ^^^ (t >>> 18)

/-- `shifts2`, libpok/protocols/des/set_key.c 336. -/
def shifts2 : List Bool :=
  [false, false, true, true, true, true, true, true, false, true, true, true, true, true, true, false]

/-- An entry of `des_skb`. -/
def skbAt (i : Nat) (x : Word) : Word := (skb.getD i #[]).getD x.toNat 0

/-- The body of the loop of `DES_set_key_unchecked`, libpok/protocols/des/set_key.c 370-396: the new `c`, `d` and the two
words of the round. -/
def keyRound (two : Bool) (c d : Word) : Word × Word × Word × Word :=
  let c := if two then (c >>> 2) ||| (c <<< 26) else (c >>> 1) ||| (c <<< 27)
  let d := if two then (d >>> 2) ||| (d <<< 26) else (d >>> 1) ||| (d <<< 27)
  let c := c &&& 0x0fffffff#32
  let d := d &&& 0x0fffffff#32
  let s := skbAt 0 (c &&& 0x3f#32) ||| skbAt 1 (((c >>> 6) &&& 0x03#32) ||| ((c >>> 7) &&& 0x3c#32)) |||
    skbAt 2 (((c >>> 13) &&& 0x0f#32) ||| ((c >>> 14) &&& 0x30#32)) |||
    skbAt 3 (((c >>> 20) &&& 0x01#32) ||| ((c >>> 21) &&& 0x06#32) ||| ((c >>> 22) &&& 0x38#32))
  let t := skbAt 4 (d &&& 0x3f#32) ||| skbAt 5 (((d >>> 7) &&& 0x03#32) ||| ((d >>> 8) &&& 0x3c#32)) |||
    skbAt 6 ((d >>> 15) &&& 0x3f#32) ||| skbAt 7 (((d >>> 21) &&& 0x0f#32) ||| ((d >>> 22) &&& 0x30#32))
  (c, d, ((t <<< 16) ||| (s &&& 0x0000ffff#32)).rotateRight 30, ((s >>> 16) ||| (t &&& 0xffff0000#32)).rotateRight 26)

/-- The loop of `DES_set_key_unchecked`, libpok/protocols/des/set_key.c 369-397. -/
def keyLoop : List Bool → Word → Word → List Word
  | [], _, _ => []
  | two :: rest, c, d =>
    let (c, d, k0, k1) := keyRound two c d
    k0 :: k1 :: keyLoop rest c d

/-- `DES_set_key_unchecked`, libpok/protocols/des/set_key.c 335-398: the 32 words of the schedule. -/
def setKey (key : List Byte) : List Word :=
  let (c, d) := little.block key
  let (d, c) := permOp 4 0x0f0f0f0f#32 d c
  let c := hpermOp 0xcccc0000#32 c
  let d := hpermOp 0xcccc0000#32 d
  let (d, c) := permOp 1 0x55555555#32 d c
  let (c, d) := permOp 8 0x00ff00ff#32 c d
  let (d, c) := permOp 1 0x55555555#32 d c
  let d := ((d &&& 0x000000ff#32) <<< 16) ||| (d &&& 0x0000ff00#32) ||| ((d &&& 0x00ff0000#32) >>> 16) |||
    ((c &&& 0xf0000000#32) >>> 4)
  let c := c &&& 0x0fffffff#32
  keyLoop shifts2 c d

/-- `DES_check_key_parity`, libpok/protocols/des/set_key.c 117-125. -/
def parityOk (key : List Byte) : Bool := key.all fun b => b == oddParity.getD b.toNat 0

/-- `DES_is_weak_key`, libpok/protocols/des/set_key.c 157-170, with the `memcmp` of ISO C (with the one of the library,
libpok/libc/string/memcmp.c, the outcome depends on the bytes after the key). -/
def weak (key : List Byte) : Bool := weakKeys.toList.any fun w => w.toList == key

/-- `DES_set_key_checked`, libpok/protocols/des/set_key.c 326-333, as used by the protocol, which ignores the result: `none`
when the schedule is left uninitialised. -/
def setKeyChecked (key : List Byte) : Option (List Word) :=
  if parityOk key = false then none else if weak key then none else some (setKey key)

/-- The schedule as an array. -/
def sched (k : List Word) : Nat → Word := fun i => k.getD i 0

/-- `pok_protocols_des_marshall`, libpok/protocols/des/des.c 47-59: the bytes written and the size announced. -/
def marshall (key iv m : List Byte) : Option (List Byte × Nat) :=
  (setKeyChecked key).map fun k => (ncbcEncrypt (sched k) iv m, 8)

/-- `pok_protocols_des_unmarshall`, libpok/protocols/des/des.c 61-73. -/
def unmarshall (key iv c : List Byte) (n : Nat) : Option (List Byte × Nat) :=
  match setKeyChecked key with
  | none => none
  | some k => (ncbcDecrypt (sched k) iv c n).map fun m => (m, 8)

end Des

namespace Blowfish

/-- `BF_ENC(LL, R, KEY, Pi)`, libpok/protocols/blowfish/bf_locl.h 219-228 (variant `BF_PTR2`), 16 rounds: the new `LL`.  `k` is the
key structure seen as an array of words: 18 of `P`, 1024 of `S`. -/
def bfEnc (k : Nat → Word) (ll r : Word) (pi : Nat) : Word :=
  let ll := ll ^^^ k pi
  let t := k (18 + 0 + ((r >>> 24) &&& 0xff#32).toNat)
  let t := t + k (18 + 256 + ((r >>> 16) &&& 0xff#32).toNat)
  let t := t ^^^ k (18 + 512 + ((r >>> 8) &&& 0xff#32).toNat)
  let t := t + k (18 + 768 + (r &&& 0xff#32).toNat)
  ll ^^^ t

/-- Two consecutive rounds, `BF_ENC(r, l, k, i); BF_ENC(l, r, k, j)`. -/
def pair (k : Nat → Word) (i j : Nat) (p : Word × Word) : Word × Word :=
  let (l, r) := p
  let r := bfEnc k r l i
  let l := bfEnc k l r j
  (l, r)

/-- `BF_encrypt`, libpok/protocols/blowfish/bf_enc.c 126-158. -/
def encrypt (k : Nat → Word) (data : Block) : Block :=
  let l := data.1 ^^^ k 0
  let r := data.2
  let (l, r) := pair k 15 16 (pair k 13 14 (pair k 11 12 (pair k 9 10 (pair k 7 8 (pair k 5 6 (pair k 3 4 (pair k 1 2 (l, r))))))))
  let r := r ^^^ k 17
  (r, l)

/-- `BF_decrypt`, libpok/protocols/blowfish/bf_enc.c 202-234. -/
def decrypt (k : Nat → Word) (data : Block) : Block :=
  let l := data.1 ^^^ k 17
  let r := data.2
  let (l, r) := pair k 2 1 (pair k 4 3 (pair k 6 5 (pair k 8 7 (pair k 10 9 (pair k 12 11 (pair k 14 13 (pair k 16 15 (l, r))))))))
  let r := r ^^^ k 0
  (r, l)

/-- One word of the key, taken byte by byte from position `d` and from the start again at the end: lines 91-108 of
libpok/protocols/blowfish/bf_skey.c, the word and the new position. -/
def keyWord (data : List Byte) (d : Nat) : Word × Nat :=
  let next (d : Nat) := if d + 1 ≥ data.length then 0 else d + 1
  let ri := (data.getD d 0).setWidth 32
  let d := next d
  let ri := (ri <<< 8) ||| (data.getD d 0).setWidth 32
  let d := next d
  let ri := (ri <<< 8) ||| (data.getD d 0).setWidth 32
  let d := next d
  let ri := (ri <<< 8) ||| (data.getD d 0).setWidth 32
  (ri, next d)

/-- The first loop of `BF_set_key`, libpok/protocols/blowfish/bf_skey.c 90-111: `n` words from number `i`. -/
def mixKey (data : List Byte) : Nat → Nat → Nat → (Nat → Word) → (Nat → Word)
  | 0, _, _, k => k
  | n + 1, i, d, k => mixKey data n (i + 1) (keyWord data d).2 (upd k i (k i ^^^ (keyWord data d).1))

/-- The other two loops of `BF_set_key`, libpok/protocols/blowfish/bf_skey.c 113-126: `n` blocks stored from word `i` on. -/
def chainKey : Nat → Nat → Block → (Nat → Word) → (Nat → Word) × Block
  | 0, _, b, k => (k, b)
  | n + 1, i, b, k =>
    let b := encrypt k b
    chainKey n (i + 2) b (upd (upd k i b.1) (i + 1) b.2)

/-- `BF_set_key`, libpok/protocols/blowfish/bf_skey.c 83-127, for the initial tables `init` (libpok/protocols/blowfish/bf_pi.h; their contents
are not modelled) and a key of at least one byte: at most 72 bytes are used. -/
def setKey (init : Nat → Word) (data : List Byte) : Nat → Word :=
  let data := data.take 72
  let k := mixKey data 18 0 0 init
  let (k, b) := chainKey 9 0 (0, 0) k
  (chainKey 512 18 b k).1

/-- `BF_ecb_encrypt`, libpok/protocols/blowfish/bf_enc.c 312-329; eight bytes are read. -/
def ecb (k : Nat → Word) (enc : Bool) (m : List Byte) : Option (List Byte) :=
  if m.length < 8 then none
  else some (big.bytes (if enc then encrypt k (big.block m) else decrypt k (big.block m)))

/-- `BF_cbc_encrypt`, libpok/protocols/blowfish/bf_enc.c 238-310, encryption. -/
def cbcEncrypt (k : Nat → Word) (iv m : List Byte) : List Byte := cbcEnc big (encrypt k) (big.block iv) m

/-- `BF_cbc_encrypt`, libpok/protocols/blowfish/bf_enc.c 238-310, decryption. -/
def cbcDecrypt (k : Nat → Word) (iv c : List Byte) (n : Nat) : Option (List Byte) := cbcDec big (decrypt k) (big.block iv) c n

/-- `pok_protocols_blowfish_marshall`, libpok/protocols/blowfish/blowfish.c 36-48, with the schedule `k` made from the
configured key: the size given is ignored, the size announced is 8. -/
def marshall (k : Nat → Word) (m : List Byte) : Option (List Byte × Nat) := (ecb k true m).map fun c => (c, 8)

/-- `pok_protocols_blowfish_unmarshall`, libpok/protocols/blowfish/blowfish.c 50-64. -/
def unmarshall (k : Nat → Word) (c : List Byte) : Option (List Byte × Nat) := (ecb k false c).map fun m => (m, 8)

end Blowfish
end Pok
