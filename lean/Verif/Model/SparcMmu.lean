import Verif.Model.Basic

/-!
# SPARC: address spaces

Model of kernel/arch/sparc/space.c (tables), leon3/bsp.c (placement of partitions) and of the table walk of the SPARC reference MMU (SPARC V8
manual, appendix H): a context table, tables of 256 and of 64 entries; an entry is invalid (ET 0), a descriptor of the next table (ET 1) or of a
page (ET 2).
-/

namespace Pok.SparcMmu

/-- `SPARC_PAGE_SIZE`, kernel/arch/sparc/leon3/sparc_conf.h 32. -/
def PAGE : Nat := 262144
/-- `SPARC_RAM_ADDR`, kernel/arch/sparc/leon3/sparc_conf.h 24. -/
def RAM : Nat := 0x40000000

/-- Where the tables are (kernel/arch/sparc/space.c 49-62) and what they hold; `other` is the rest of memory. -/
structure Tables where
  nb : Nat
  ct : Nat
  t1 : Nat
  t2 : Nat
  ctx : Nat → Nat
  l1 : Nat → Nat → Nat
  l2 : Nat → Nat → Nat
  other : Nat → Nat

/-- `mm_index1`, kernel/arch/sparc/space.h 71. -/
def index1 (a : Nat) : Nat := (a >>> 24) % 256
/-- `mm_index2`, kernel/arch/sparc/space.h 79. -/
def index2 (a : Nat) : Nat := (a >>> 18) % 64

/-- A loop `for (j = 0; j < n; j++) tab[j] = v`. -/
def fill (tab : Nat → Nat) (v : Nat) : Nat → Nat → Nat
  | 0 => tab
  | n + 1 => upd (fill tab v n) n v

/-- Body of the loop of `pok_arch_space_init`, kernel/arch/sparc/space.c 156-166. -/
def initOne (t : Tables) (i : Nat) : Tables :=
  { t with
    ctx := upd t.ctx i ((t.t1 + 1024 * i) >>> 4 ||| 1)
    l1 := upd t.l1 i (fill (t.l1 i) 0 256)
    l2 := upd t.l2 i (fill (t.l2 i) 0 64) }

/-- Body of the loop of kernel/arch/sparc/space.c 172-175: the kernel's page, ACC 7, ET 2, cacheable. -/
def kernelOne (t : Tables) (i : Nat) : Tables :=
  { t with l1 := upd t.l1 i (upd (t.l1 i) (index1 RAM) (RAM >>> 4 ||| 7 <<< 2 ||| 2 ||| 1 <<< 7)) }

/-- `pok_arch_space_init`, kernel/arch/sparc/space.c 149-175.  The first loop (153-154) is overwritten by the second. -/
def spaceInit (t : Tables) : Tables :=
  (List.range t.nb).foldl kernelOne ((List.range t.nb).foldl initOne t)

/-- `pok_create_space`, kernel/arch/sparc/space.c 67-99; `none` is an error code. -/
def createSpace (t : Tables) (p addr size : Nat) : Option Tables :=
  if size > PAGE then none
  else if addr % PAGE ≠ 0 then none
  else some { t with
    l1 := upd t.l1 p (upd (t.l1 p) (index1 0) ((t.t2 + 256 * p) >>> 4 ||| 1))
    l2 := upd t.l2 p (upd (t.l2 p) (index2 0) (addr >>> 4 ||| 3 <<< 2 ||| 2 ||| 1 <<< 7)) }

/-- `pok_bsp_mem_alloc`, kernel/arch/sparc/leon3/bsp.c 41-49: the address and the new end of the heap (32-bit addresses do not wrap: see the
hypotheses of the theorems). -/
def memAlloc (heapEnd sz : Nat) : Nat × Nat :=
  let res := (heapEnd + PAGE) - (heapEnd + PAGE) % PAGE
  (res, res + sz)

/-- The partitions are placed and mapped in order, kernel/core/partition.c 151-173; errors of `pok_create_space` are ignored there.  Also the
addresses. -/
def loadAll (t : Tables) (heapEnd : Nat) : List Nat → Nat → Tables × List Nat
  | [], _ => (t, [])
  | sz :: rest, p =>
    let a := memAlloc heapEnd sz
    let r := loadAll ((createSpace t p a.1 sz).getD t) a.2 rest (p + 1)
    (r.1, a.1 :: r.2)

/-- A word of memory as the MMU reads it. -/
def Tables.word (t : Tables) (a : Nat) : Nat :=
  if t.t1 ≤ a ∧ a < t.t1 + 1024 * t.nb then t.l1 ((a - t.t1) / 1024) ((a - t.t1) % 1024 / 4)
  else if t.t2 ≤ a ∧ a < t.t2 + 256 * t.nb then t.l2 ((a - t.t2) / 256) ((a - t.t2) % 256 / 4)
  else if t.ct ≤ a ∧ a < t.ct + 4 * t.nb then t.ctx ((a - t.ct) / 4)
  else t.other a

inductive Kind | read | write | exec
deriving DecidableEq

/-- The ACC field of a page entry (SPARC V8 manual, table H-2). -/
def allowed (acc : Nat) (super : Bool) (k : Kind) : Bool :=
  match acc, super, k with
  | 0, _, .read => true
  | 1, _, .read => true
  | 1, _, .write => true
  | 2, _, .read => true
  | 2, _, .exec => true
  | 3, _, _ => true
  | 4, _, .exec => true
  | 5, _, .read => true
  | 5, true, .write => true
  | 6, true, .read => true
  | 6, true, .exec => true
  | 7, true, _ => true
  | _, _, _ => false

/-- A page of size `size` found in entry `e`. -/
def page (e size va : Nat) (super : Bool) (k : Kind) : Option Nat :=
  if allowed (e / 4 % 8) super k then some (e / 256 * 4096 / size * size + va % size) else none

/-- The table walk for context `c` (the table pointer register holds the address shifted by four, kernel/arch/sparc/space.c 178-182; its two
lowest bits are not used): the physical address, or a fault. -/
def walk (t : Tables) (c va : Nat) (super : Bool) (k : Kind) : Option Nat :=
  let root := t.word ((t.ct >>> 4) / 4 * 64 + 4 * c)
  if root % 4 = 1 then
    let e1 := t.word (root / 4 * 64 + 4 * index1 va)
    if e1 % 4 = 2 then page e1 16777216 va super k
    else if e1 % 4 = 1 then
      let e2 := t.word (e1 / 4 * 64 + 4 * index2 va)
      if e2 % 4 = 2 then page e2 262144 va super k
      else none -- no third level is ever built
    else none
  else none

end Pok.SparcMmu
