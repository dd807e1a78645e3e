import Verif.Model.Basic

/-!
# PowerPC: page faults

Model of kernel/arch/ppc/space.c: the hashed page table and the handlers of instruction and data faults.  Machine words are natural
numbers.
-/

namespace Pok.Ppc

/-- `uint32_t` arithmetic. -/
abbrev U32 : Nat := 4294967296

/-- `struct pok_space`, kernel/arch/ppc/space.c 30-33. -/
structure Space where
  physBase : Nat
  size : Nat
deriving DecidableEq, Repr

/-- `pok_create_space`, kernel/arch/ppc/space.c 37-45. -/
def createSpace (sp : Nat → Space) (pid addr size : Nat) : Nat → Space := upd sp pid ⟨addr, size⟩

/-- `ppc_pte_t`, kernel/arch/ppc/space.c 96-99. -/
structure Pte where
  vsidApi : Nat
  rpnFlags : Nat
deriving DecidableEq, Repr

/-- The page table: 1024 groups (`pt_mask` is 0x3ff, kernel/arch/ppc/space.c 122) of eight entries, in the 64 KB of memory at address 0
(`pt_base`). -/
abbrev Table := Nat → Nat → Pte

/-- `PPC_PTE_V`, kernel/arch/ppc/space.c 104. -/
def pteV : Nat := 0x80000000

/-- `pt_mask`, kernel/arch/ppc/space.c 122. -/
def ptMask : Nat := 0x3ff

/-- Test of kernel/arch/ppc/space.c 135: the entry is in use. -/
def Pte.valid (e : Pte) : Bool := decide (e.vsidApi &&& pteV ≠ 0)

/-- The hash, kernel/arch/ppc/space.c 129, and the group it selects, 133. -/
def group (vsid vaddr : Nat) : Nat := ((vsid &&& 0x7ffff) ^^^ ((vaddr >>> 12) &&& 0xffff)) &&& ptMask

/-- The entry written, kernel/arch/ppc/space.c 136-137. -/
def mkPte (vsid vaddr pte : Nat) : Pte := ⟨pteV ||| ((vsid <<< 7) % U32) ||| ((vaddr >>> 22) &&& 0x3f), pte⟩

/-- Loop of `pok_insert_pte`, kernel/arch/ppc/space.c 134-139, from entry `8 - left` of the group; `none`: no free entry, the kernel loops
for ever (153-154). -/
def insertFrom (t : Table) (g : Nat) (e : Pte) : Nat → Option Table
  | 0 => none
  | left + 1 =>
    let i := 8 - (left + 1)
    if (t g i).valid then insertFrom t g e left else some (upd t g (upd (t g) i e))

/-- `pok_insert_pte`, kernel/arch/ppc/space.c 128-149. -/
def insertPte (t : Table) (vsid vaddr pte : Nat) : Option Table := insertFrom t (group vsid vaddr) (mkPte vsid vaddr pte) 8

/-- `x & POK_PAGE_MASK`, kernel/arch/ppc/space.c 105-106. -/
def pageMask (x : Nat) : Nat := x / 4096 * 4096

/-- `PPC_PTE_R | PPC_PTE_C | PPC_PTE_PP_RW`, kernel/arch/ppc/space.c 107-116. -/
def pteFlags : Nat := 256 ||| 128 ||| 2

/-- `pok_arch_isi_int` (kernel/arch/ppc/space.c 151-179: the address is the program counter, the cause is in bit 30 of `msr`) and
`pok_arch_dsi_int` (181-203: address and cause in `dar` and `dsisr`), which have the same body.  `none` is the endless loop. -/
def fault (sp : Nat → Space) (t : Table) (cur addr cause : Nat) : Option Table :=
  if cause &&& (1 <<< 30) ≠ 0 then
    if addr < (sp cur).size then
      let vaddr := pageMask addr
      let v := pageMask (((sp cur).physBase + vaddr) % U32)
      insertPte t cur vaddr (v ||| pteFlags)
    else none
  else none

end Pok.Ppc
