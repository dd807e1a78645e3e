import Verif.Model.Thread

/-!
# The memory allocator of partitions

Model of libpok/core/allocator.c.  The heap is an array of `mem` bytes; the table has `nb` entries of which the
first `used` describe spaces of the heap.  A pointer is its offset in the heap.

Simplification: the table is a function of all indices.  Index `nb` stands for the memory behind the table, which
`pok_allocator_delete_space` reads (it is taken to be constant); the model stays defined there.  The debugging
output is left out.
-/

namespace Pok

/-- `POK_CONFIG_ALLOCATOR_MEMORY_SIZE` and `POK_CONFIG_ALLOCATOR_NB_SPACES`, libpok/core/allocator.c 32-38. -/
structure HeapCfg where
  mem : Nat := 16384
  nb : Nat := 100

/-- `pok_allocator_space_t`, libpok/core/allocator.c 60-64. -/
structure Space where
  start : Nat
  size : Nat
  allocated : Bool
  deriving DecidableEq, Repr

/-- `pok_allocator_spaces` and `pok_allocator_used_spaces`, libpok/core/allocator.c 67-68. -/
structure Heap where
  sp : Nat → Space
  used : Nat

namespace Heap

/-- The initialisation done by the first call, libpok/core/allocator.c 40-53; `g` is the memory behind the
table. -/
def init (c : HeapCfg) (g : Space) : Heap :=
  { sp := fun i => if i = 0 then ⟨0, c.mem, false⟩ else if i < c.nb then ⟨0, 0, false⟩ else g
    used := 1 }

/-- The end of a space, in `size_t` arithmetic. -/
def fin (s : Space) : Nat := (s.start + s.size) % U32

/-- The space taken by `pok_allocator_allocate`: the first free one that is large enough,
libpok/core/allocator.c 104-111. -/
def fit (h : Heap) (n : Nat) : Option Nat :=
  (List.range h.used).find? fun i => !(h.sp i).allocated && decide ((h.sp i).size ≥ n)

/-- Cutting space `i` in two, libpok/core/allocator.c 125-139. -/
def split (h : Heap) (i n : Nat) : Heap :=
  { sp := upd (upd h.sp i ⟨(h.sp i).start, n, true⟩) h.used ⟨(h.sp i).start + n, (h.sp i).size - n, false⟩
    used := h.used + 1 }

/-- `pok_allocator_allocate`, libpok/core/allocator.c 84-154. -/
def allocate (c : HeapCfg) (h : Heap) (n : Nat) : Heap × Option Nat :=
  if h.used ≥ c.nb - 1 then (h, none)
  else
    match h.fit n with
    | none => (h, none)
    | some i =>
      if (h.sp i).size = n then
        ({ h with sp := upd h.sp i { h.sp i with allocated := true } }, some (h.sp i).start)
      else (h.split i n, some (h.sp i).start)

/-- `pok_allocator_delete_space`, libpok/core/allocator.c 159-174. -/
def delete (c : HeapCfg) (h : Heap) (i : Nat) : Heap :=
  { sp := fun j => if i ≤ j ∧ j < c.nb then h.sp (j + 1) else h.sp j
    used := h.used - 1 }

/-- The space found by the loop of `pok_allocator_merge_space`, libpok/core/allocator.c 183-195, 207-209. -/
def neighbour (h : Heap) (i : Nat) : Option Nat :=
  (List.range h.used).find? fun j =>
    decide (j ≠ i) && !(h.sp j).allocated &&
      (decide ((h.sp i).start = fin (h.sp j)) || decide ((h.sp j).start = fin (h.sp i)))

/-- Space `i` grows by the size of space `j`. -/
def grow (h : Heap) (i j : Nat) : Heap :=
  { h with sp := upd h.sp i { h.sp i with size := ((h.sp i).size + (h.sp j).size) % U32 } }

/-- `pok_allocator_merge_space`, libpok/core/allocator.c 176-223.  Every recursive call has one space less, so
`fuel = used` is enough. -/
def merge (c : HeapCfg) : Nat → Heap → Nat → Heap
  | 0, h, _ => h
  | fuel + 1, h, i =>
    if h.used = 1 then h
    else
      match h.neighbour i with
      | none => h
      | some j =>
        if (h.sp i).start = fin (h.sp j) then merge c fuel ((h.grow j i).delete c i) j
        else merge c fuel ((h.grow i j).delete c j) j

/-- The space that `pok_allocator_free` looks for, libpok/core/allocator.c 230-231. -/
def find (h : Heap) (p : Nat) : Option Nat :=
  (List.range h.used).find? fun i => decide ((h.sp i).start = p)

/-- Space `i` is marked free, libpok/core/allocator.c 233. -/
def release (h : Heap) (i : Nat) : Heap :=
  { h with sp := upd h.sp i { h.sp i with allocated := false } }

/-- `pok_allocator_free`, libpok/core/allocator.c 225-247. -/
def free (c : HeapCfg) (h : Heap) (p : Nat) : Heap :=
  match h.find p with
  | none => h
  | some i => merge c h.used (h.release i) i

/-- `malloc`, libpok/libc/stdlib/malloc.c 22. -/
def malloc (c : HeapCfg) (h : Heap) (n : Nat) : Heap × Option Nat := h.allocate c n

/-- `calloc`, libpok/libc/stdlib/calloc.c 22-24: the product is computed in `size_t`. -/
def calloc (c : HeapCfg) (h : Heap) (count size : Nat) : Heap × Option Nat := h.allocate c (count * size % U32)

/-- Calls of a program. -/
inductive Op
  | alloc (n : Nat)
  | free (p : Nat)
  deriving DecidableEq, Repr

/-- One call.  `live` is what the program holds: the blocks it was given and has not freed, with the sizes it asked
for.  The third component is the answer to an allocation. -/
def step (c : HeapCfg) (x : Heap × List (Nat × Nat)) : Op → (Heap × List (Nat × Nat)) × Option Nat
  | .alloc n =>
    match x.1.allocate c n with
    | (h, some p) => ((h, (p, n) :: x.2), some p)
    | (h, none) => ((h, x.2), none)
  | .free p => ((x.1.free c p, x.2.filter fun b => b.1 ≠ p), none)

/-- A program, from some state. -/
def run (c : HeapCfg) (x : Heap × List (Nat × Nat)) : List Op → Heap × List (Nat × Nat)
  | [] => x
  | op :: ops => run c (step c x op).1 ops

end Heap
end Pok
