import Verif.Model.Basic

/-!
# The Caesar protocol

Model of libpok/protocols/ceasar/ceasar.c.
-/

namespace Pok.Caesar

/-- One byte of `pok_protocols_ceasar_marshall`, libpok/protocols/ceasar/ceasar.c 43: computed in `int`, stored in a
`uint8_t`. -/
def enc (x : Nat) : Nat := (x + 4) % 255 % 256

/-- One byte of `pok_protocols_ceasar_unmarshall`, libpok/protocols/ceasar/ceasar.c 66: the remainder of C takes the
sign of the dividend; the conversion to `uint8_t` is modulo 256. -/
def dec (x : Nat) : Nat := ((((x : Int) - 4).tmod 255) % 256).toNat

/-- `pok_protocols_ceasar_marshall`, libpok/protocols/ceasar/ceasar.c 31-47: the crypted data (its length is the crypted
size). -/
def marshall (bs : List Nat) : List Nat := bs.map enc

/-- `pok_protocols_ceasar_unmarshall`, libpok/protocols/ceasar/ceasar.c 53-70. -/
def unmarshall (bs : List Nat) : List Nat := bs.map dec

end Pok.Caesar
