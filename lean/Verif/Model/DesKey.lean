import Verif.Model.Des
/-!
# The parity of DES keys

Model of `DES_set_odd_parity` of libpok/protocols/des/set_key.c.
-/
namespace Pok.Des

/-- `DES_set_odd_parity`, libpok/protocols/des/set_key.c 110-115, of the key at the beginning of `mem`; `DES_KEY_SZ` is 8, the size of `DES_cblock`
(libpok/protocols/des/des.h). -/
def setOddParity (mem : List Byte) : List Byte := (mem.take 8).map (fun b => oddParity.getD b.toNat 0) ++ mem.drop 8

end Pok.Des
