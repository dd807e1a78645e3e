import Verif.Spec.Ppc
import Mathlib.Data.Fintype.EquivFin
import Mathlib.Data.Nat.Bitwise

/-!
# C59: page faults map only the partition's own memory
-/

namespace Pok.Ppc
open PpcSpec

/-! ## The page table as the processor reads it -/

theorem valid_iff (e : Pte) : e.valid = true ↔ v e = 1 := by
  unfold Pte.valid v pteV
  rw [show (0x80000000 : Nat) = 2 ^ 31 by rfl, Nat.and_two_pow, Nat.testBit_eq_decide_div_mod_eq]
  have : e.vsidApi / 2 ^ 31 % 2 = 0 ∨ e.vsidApi / 2 ^ 31 % 2 = 1 := by omega
  rcases this with h | h <;> simp [h]

theorem group_eq (sid vaddr : Nat) : group sid vaddr = hashOf sid (page vaddr) % 1024 := by
  unfold group hashOf page ptMask
  rw [show (0x7ffff : Nat) = 2 ^ 19 - 1 by rfl, show (0xffff : Nat) = 2 ^ 16 - 1 by rfl, show (0x3ff : Nat) = 2 ^ 10 - 1 by rfl,
    Nat.and_two_pow_sub_one_eq_mod, Nat.and_two_pow_sub_one_eq_mod, Nat.and_two_pow_sub_one_eq_mod, Nat.shiftRight_eq_div_pow]

theorem mkPte_eq (sid vaddr pte : Nat) (h : sid < 16777216) : mkPte sid vaddr pte = ⟨2147483648 + sid * 128 + page vaddr / 1024, pte⟩ := by
  unfold mkPte pteV page
  congr 1
  rw [show (0x3f : Nat) = 2 ^ 6 - 1 by rfl, Nat.and_two_pow_sub_one_eq_mod, Nat.shiftRight_eq_div_pow, Nat.or_assoc,
    Nat.mod_eq_of_lt (by rw [Nat.shiftLeft_eq]; simp only [U32]; omega), ← Nat.shiftLeft_add_eq_or_of_lt (by omega),
    show (0x80000000 : Nat) = 1 <<< 31 by rfl, ← Nat.shiftLeft_add_eq_or_of_lt (by rw [Nat.shiftLeft_eq]; omega), Nat.shiftLeft_eq, Nat.shiftLeft_eq]
  omega

theorem flags_eq (x : Nat) : pageMask x ||| pteFlags = pageMask x + 386 := by
  unfold pageMask
  rw [show pteFlags = 386 by rfl, show x / 4096 * 4096 = (x / 4096) <<< 12 by rw [Nat.shiftLeft_eq], Nat.shiftLeft_add_eq_or_of_lt (by omega)]

/-- What a used entry of the table is for: page `n` of partition `p`. -/
def Holds (sp : Nat → Space) (g : Nat) (e : Pte) (p n : Nat) : Prop :=
  p < 256 ∧ n < 65536 ∧ n * 4096 < (sp p).size ∧ g = hashOf p n % 1024 ∧
  e = ⟨2147483648 + p * 128 + n / 1024, pageMask (((sp p).physBase + n * 4096) % U32) + 386⟩

theorem Holds.valid {sp : Nat → Space} {g p n : Nat} {e : Pte} (h : Holds sp g e p n) : v e = 1 := by
  obtain ⟨h1, h2, _, _, rfl⟩ := h
  simp only [v]; omega

theorem Holds.fields {sp : Nat → Space} {g p n : Nat} {e : Pte} (h : Holds sp g e p n) :
    vsid e = p ∧ PpcSpec.h e = 0 ∧ api e = n / 1024 ∧ rpn e = ((sp p).physBase + n * 4096) % U32 / 4096 := by
  obtain ⟨h1, h2, _, _, rfl⟩ := h
  simp only [vsid, PpcSpec.h, api, rpn, pageMask]
  refine ⟨?_, ?_, ?_, ?_⟩ <;> omega

theorem xor_mod (a b k : Nat) : (a ^^^ b) % 2 ^ k = a % 2 ^ k ^^^ b % 2 ^ k := Nat.xor_mod_two_pow

/-- Group and page high bits determine the page. -/
theorem page_unique {p n n' : Nat} (h : hashOf p n % 1024 = hashOf p n' % 1024) (ha : n / 1024 = n' / 1024) : n = n' := by
  unfold hashOf at h
  rw [show (1024 : Nat) = 2 ^ 10 by rfl, xor_mod, xor_mod] at h
  have := Nat.xor_right_injective h
  omega

/-- The invariant of the table: entries in use are for pages of partitions, and no two entries are for the same page. -/
structure Inv (sp : Nat → Space) (t : Table) : Prop where
  holds : ∀ g i, i < 8 → v (t g i) = 1 → ∃ p n, Holds sp g (t g i) p n
  one : ∀ g i j p n, i < 8 → j < 8 → Holds sp g (t g i) p n → Holds sp g (t g j) p n → i = j

/-- The table at start: no entry in use. -/
def empty : Table := fun _ _ => ⟨0, 0⟩

theorem inv_empty (sp : Nat → Space) : Inv sp empty :=
  ⟨fun g i _ h => by simp [empty, v] at h, fun g i j p n _ _ h _ => by have := h.valid; simp [empty, v] at this⟩

theorem lookup_some {t : Table} {g sid n k : Nat} {e : Pte} (h : lookup t g sid n k = some e) : ∃ i < 8, t g i = e ∧ Matches e sid n k := by
  unfold lookup at h
  have h1 := List.find?_some h
  obtain ⟨i, hi, e1⟩ := List.mem_map.1 (List.mem_of_find?_eq_some h)
  exact ⟨i, List.mem_range.1 hi, e1, by simpa using h1⟩

theorem lookup_none {t : Table} {g sid n k : Nat} (h : lookup t g sid n k = none) (i : Nat) (hi : i < 8) : ¬Matches (t g i) sid n k := by
  unfold lookup at h
  have := List.find?_eq_none.1 h (t g i) (List.mem_map.2 ⟨i, List.mem_range.2 hi, rfl⟩)
  simpa using this

/-- What the processor finds in a table that satisfies the invariant. -/
theorem translate_some {sp : Nat → Space} {t : Table} (h : Inv sp t) {p ea pa : Nat} (e : translate t p ea = some pa) :
    ∃ i < 8, Holds sp (hashOf p (page ea) % 1024) (t (hashOf p (page ea) % 1024) i) p (page ea) ∧
      pa = ((sp p).physBase + page ea * 4096) % U32 / 4096 * 4096 + ea % 4096 := by
  unfold translate at e
  cases h1 : lookup t (hashOf p (page ea) % 1024) p (page ea) 0 with
  | some x =>
    rw [h1] at e
    simp only [Option.some_or, Option.map_some, Option.some.injEq] at e
    obtain ⟨i, hi, rfl, hm⟩ := lookup_some h1
    obtain ⟨q, n, hh⟩ := h.holds _ i hi hm.1
    obtain ⟨f1, f2, f3, f4⟩ := hh.fields
    have hq : q = p := by rw [← f1]; exact hm.2.1
    subst hq
    have hn : page ea = n := page_unique hh.2.2.2.1 (by rw [← f3]; exact hm.2.2.2.symm)
    rw [← hn] at hh f4
    exact ⟨i, hi, hh, by rw [← e, f4]⟩
  | none =>
    rw [h1] at e
    simp only [Option.none_or] at e
    cases h2 : lookup t (1023 - hashOf p (page ea) % 1024) p (page ea) 1 with
    | none => rw [h2] at e; simp at e
    | some x =>
      obtain ⟨i, hi, rfl, hm⟩ := lookup_some h2
      obtain ⟨q, n, hh⟩ := h.holds _ i hi hm.1
      have := hh.fields.2.1
      rw [hm.2.2.1] at this
      cases this

theorem translate_isSome {sp : Nat → Space} {t : Table} {p ea g i : Nat} (hi : i < 8) (h : Holds sp g (t g i) p (page ea)) :
    ∃ pa, translate t p ea = some pa := by
  have hg := h.2.2.2.1
  obtain ⟨f1, f2, f3, f4⟩ := h.fields
  unfold translate
  cases h1 : lookup t (hashOf p (page ea) % 1024) p (page ea) 0 with
  | some x => exact ⟨_, rfl⟩
  | none =>
    exact absurd ⟨h.valid, f1, f2, f3⟩ (hg ▸ lookup_none h1 i hi)

/-! ## Faults -/

theorem insertFrom_some {t t' : Table} {g : Nat} {e : Pte} : ∀ {left : Nat}, left ≤ 8 → insertFrom t g e left = some t' →
    ∃ i < 8, v (t g i) ≠ 1 ∧ t' = upd t g (upd (t g) i e)
  | 0, _, h => by simp [insertFrom] at h
  | left + 1, hl, h => by
    unfold insertFrom at h
    simp only at h
    split at h
    · exact insertFrom_some (by omega) h
    · rename_i hv
      cases h
      exact ⟨8 - (left + 1), by omega, fun hc => hv ((valid_iff _).2 hc), rfl⟩

theorem insertFrom_none {t : Table} {g : Nat} {e : Pte} : ∀ {left : Nat}, left ≤ 8 → insertFrom t g e left = none →
    ∀ i, 8 - left ≤ i → i < 8 → v (t g i) = 1
  | 0, _, _, i, h1, h2 => by omega
  | left + 1, hl, h, i, h1, h2 => by
    unfold insertFrom at h
    simp only at h
    split at h
    · rename_i hv
      by_cases hi : i = 8 - (left + 1)
      · subst hi; exact (valid_iff _).1 hv
      · exact insertFrom_none (by omega) h i (by omega) h2
    · cases h

/-- A partition uses an address: nothing happens when it is translated, otherwise the processor raises a fault of the kind "no
translation" (bit 30 of the cause). -/
def access (sp : Nat → Space) (t : Table) (p ea : Nat) : Option Table :=
  match translate t p ea with
  | some _ => some t
  | none => fault sp t p ea 0x40000000

/-- A history of accesses. -/
def run (sp : Nat → Space) (t : Table) : List (Nat × Nat) → Option Table
  | [] => some t
  | (p, ea) :: es => (access sp t p ea).bind fun t => run sp t es

/-- The addresses a program can use in segment 0, the one that is set for a partition; partition identifiers are bytes. -/
def Legal (es : List (Nat × Nat)) : Prop := ∀ x ∈ es, x.1 < 256 ∧ x.2 < 268435456

theorem page_mask {ea : Nat} (h : ea < 268435456) : page ea * 4096 = pageMask ea ∧ page (pageMask ea) = page ea ∧ page ea = ea / 4096 := by
  unfold page pageMask
  refine ⟨?_, ?_, ?_⟩ <;> omega

theorem fault_holds {sp : Nat → Space} {t t' : Table} {p ea : Nat} (hp : p < 256) (ha : ea < 268435456) (e : fault sp t p ea 0x40000000 = some t') :
    ∃ i < 8, v (t (hashOf p (page ea) % 1024) i) ≠ 1 ∧ ∃ x, Holds sp (hashOf p (page ea) % 1024) x p (page ea) ∧
      t' = upd t (hashOf p (page ea) % 1024) (upd (t (hashOf p (page ea) % 1024)) i x) := by
  obtain ⟨m1, m2, m3⟩ := page_mask ha
  unfold fault at e
  rw [if_pos (by decide)] at e
  split at e
  · rename_i hs
    simp only [insertPte, group_eq, m2] at e
    obtain ⟨i, hi, hv, rfl⟩ := insertFrom_some (Nat.le_refl 8) e
    refine ⟨i, hi, hv, _, ?_, rfl⟩
    rw [mkPte_eq _ _ _ (by omega), flags_eq, m2]
    refine ⟨hp, by omega, ?_, rfl, ?_⟩
    · rw [m1]; unfold pageMask; omega
    · rw [m1]
  · cases e

theorem fault_inv {sp : Nat → Space} {t t' : Table} {p ea : Nat} (h : Inv sp t) (hp : p < 256) (ha : ea < 268435456)
    (hn : translate t p ea = none) (e : fault sp t p ea 0x40000000 = some t') : Inv sp t' := by
  obtain ⟨i, hi, hv, x, hx, rfl⟩ := fault_holds hp ha e
  generalize hg : hashOf p (page ea) % 1024 = g at *
  have fresh : ∀ j < 8, ¬Holds sp g (t g j) p (page ea) := by
    intro j hj hc
    obtain ⟨pa, e⟩ := translate_isSome hj hc
    rw [hn] at e; cases e
  have uniq : ∀ {q n : Nat}, Holds sp g x q n → q = p ∧ n = page ea := by
    intro q n hq
    have f := hq.fields; have f' := hx.fields
    have hqp : q = p := by rw [← f.1, f'.1]
    subst hqp
    exact ⟨rfl, (page_unique (by rw [← hq.2.2.2.1, ← hx.2.2.2.1]) (by rw [← f.2.2.1, f'.2.2.1]))⟩
  have key : ∀ a b, (upd t g (upd (t g) i x)) a b = if a = g ∧ b = i then x else t a b := by
    intro a b
    by_cases h1 : a = g
    · subst h1
      rw [upd_same]
      by_cases h2 : b = i
      · subst h2; rw [upd_same, if_pos ⟨rfl, rfl⟩]
      · rw [upd_other _ _ h2, if_neg (fun hc => h2 hc.2)]
    · rw [upd_other _ _ h1, if_neg (fun hc => h1 hc.1)]
  constructor
  · intro a b hb
    rw [key]
    split
    · rename_i hc; intro _; exact ⟨p, page ea, hc.1 ▸ hx⟩
    · exact h.holds a b hb
  · intro a b c q n hb hc
    rw [key, key]
    split <;> split
    · rename_i h1 h2; intros; rw [h1.2, h2.2]
    · rename_i h1 h2
      intro k1 k2
      obtain ⟨rfl, rfl⟩ := h1
      obtain ⟨rfl, rfl⟩ := uniq k1
      exact absurd k2 (fresh c hc)
    · rename_i h1 h2
      intro k1 k2
      obtain ⟨rfl, rfl⟩ := h2
      obtain ⟨rfl, rfl⟩ := uniq k2
      exact absurd k1 (fresh b hb)
    · exact h.one a b c q n hb hc

theorem access_inv {sp : Nat → Space} {t t' : Table} {p ea : Nat} (h : Inv sp t) (hp : p < 256) (ha : ea < 268435456)
    (e : access sp t p ea = some t') : Inv sp t' := by
  unfold access at e
  split at e
  · cases e; exact h
  · rename_i hn; exact fault_inv h hp ha hn e

theorem run_inv {sp : Nat → Space} : ∀ {es : List (Nat × Nat)} {t t' : Table}, Inv sp t → Legal es → run sp t es = some t' → Inv sp t'
  | [], t, t', h, _, e => by cases e; exact h
  | (p, ea) :: es, t, t', h, hl, e => by
    unfold run at e
    obtain ⟨t1, e1, e2⟩ := Option.bind_eq_some_iff.1 e
    have := hl (p, ea) (List.mem_cons_self ..)
    exact run_inv (access_inv h this.1 this.2 e1) (fun x hx => hl x (List.mem_cons_of_mem _ hx)) e2

/-! ## The property -/

/-- A layout in whole pages. -/
structure Paged (sp : Nat → Space) : Prop where
  base : ∀ p < 256, (sp p).physBase % 4096 = 0
  size : ∀ p < 256, (sp p).size % 4096 = 0
  fits : ∀ p < 256, (sp p).physBase + (sp p).size ≤ U32

/-- **C59** (part) After any history of accesses by any partitions, a partition's address is translated only if it is inside the partition,
and then to the same place in the partition's physical memory.

Missing: bases and sizes that are not multiples of the page size, see `C59_size_violated` and `C59_base_violated`; the kernel does not check
them.  The table is taken to be empty at the start: the code does not clear it. -/
theorem C59_confined_partial (sp : Nat → Space) (hs : Paged sp) (es : List (Nat × Nat)) (hl : Legal es) (t : Table) (hr : run sp empty es = some t)
    (p ea pa : Nat) (hp : p < 256) (hea : ea < 268435456) (ht : translate t p ea = some pa) :
    ea < (sp p).size ∧ pa = (sp p).physBase + ea := by
  obtain ⟨i, _, hh, rfl⟩ := translate_some (run_inv (inv_empty sp) hl hr) ht
  have hlt := hh.2.2.1
  have h1 := hs.base p hp
  have h2 := hs.size p hp
  have h3 := hs.fits p hp
  obtain ⟨m1, m2, m3⟩ := page_mask hea
  simp only [U32] at h3 ⊢
  rw [m3] at hlt ⊢
  have h4 : ea < (sp p).size := by omega
  rw [Nat.mod_eq_of_lt (by omega)]
  refine ⟨h4, ?_⟩
  obtain ⟨b, hb⟩ : ∃ b, (sp p).physBase = b * 4096 := ⟨(sp p).physBase / 4096, by omega⟩
  rw [hb, ← Nat.add_mul, Nat.mul_div_cancel _ (by decide), Nat.add_mul, Nat.add_assoc, Nat.div_add_mod']

/-- **C59** (part) Partitions whose physical areas are disjoint never reach the same physical address. -/
theorem C59_isolation_partial (sp : Nat → Space) (hs : Paged sp) (es : List (Nat × Nat)) (hl : Legal es) (t : Table) (hr : run sp empty es = some t)
    (p q ea ea' pa : Nat) (hp : p < 256) (hq : q < 256) (hea : ea < 268435456) (hea' : ea' < 268435456)
    (hd : (sp p).physBase + (sp p).size ≤ (sp q).physBase ∨ (sp q).physBase + (sp q).size ≤ (sp p).physBase)
    (ht : translate t p ea = some pa) : translate t q ea' ≠ some pa := by
  intro hc
  have h1 := C59_confined_partial sp hs es hl t hr p ea pa hp hea ht
  have h2 := C59_confined_partial sp hs es hl t hr q ea' pa hq hea' hc
  omega

/-- **C59** (part) An access inside the partition that the kernel serves is translated afterwards; an access outside never is (the kernel
stops there). -/
theorem C59_served_partial (sp : Nat → Space) (hs : Paged sp) (es : List (Nat × Nat)) (hl : Legal es) (t t' : Table) (hr : run sp empty es = some t)
    (p ea : Nat) (hp : p < 256) (hea : ea < 268435456) (e : access sp t p ea = some t') :
    ea < (sp p).size ∧ translate t' p ea = some ((sp p).physBase + ea) := by
  have hi := run_inv (inv_empty sp) hl hr
  have hr' : run sp empty (es ++ [(p, ea)]) = some t' := by
    have : ∀ (es : List (Nat × Nat)) (t0 : Table), run sp t0 es = some t → run sp t0 (es ++ [(p, ea)]) = some t' := by
      intro es
      induction es with
      | nil => intro t0 h; cases h; simp [run, e]
      | cons x es ih =>
        intro t0 h
        obtain ⟨q, b⟩ := x
        simp only [run, List.cons_append] at h ⊢
        obtain ⟨t1, e1, e2⟩ := Option.bind_eq_some_iff.1 h
        rw [e1, Option.bind_some]
        exact ih t1 e2
    exact this es empty hr
  have hl' : Legal (es ++ [(p, ea)]) := by
    intro x hx
    rcases List.mem_append.1 hx with hx | hx
    · exact hl x hx
    · rw [List.mem_singleton.1 hx]; exact ⟨hp, hea⟩
  have : ∃ pa, translate t' p ea = some pa := by
    unfold access at e
    split at e
    · rename_i pa h; cases e; exact ⟨pa, h⟩
    · obtain ⟨i, hi, _, x, hx, rfl⟩ := fault_holds hp hea e
      refine translate_isSome (sp := sp) hi (g := hashOf p (page ea) % 1024) ?_
      rw [upd_same, upd_same]; exact hx
  obtain ⟨pa, h⟩ := this
  have := C59_confined_partial sp hs _ hl' t' hr' p ea pa hp hea h
  exact ⟨this.1, by rw [h, this.2]⟩

/-- Pages in one group: with at most eight partitions of at most 4 MB, each has at most one page in each group, so an access inside a
partition is always served. -/
theorem C59_never_full_partial (sp : Nat → Space) (es : List (Nat × Nat)) (hl : Legal es) (t : Table)
    (hn : ∀ p, 8 ≤ p → (sp p).size = 0) (h4 : ∀ p, (sp p).size ≤ 4194304) (hr : run sp empty es = some t) (p ea : Nat) (hea : ea < (sp p).size) :
    ∃ t', access sp t p ea = some t' := by
  have hp : p < 8 := by
    by_contra hc
    have := hn p (by omega)
    omega
  have he : ea < 268435456 := by have := h4 p; omega
  have inv := run_inv (inv_empty sp) hl hr
  unfold access
  cases ht : translate t p ea with
  | some pa => exact ⟨t, rfl⟩
  | none =>
    simp only
    unfold fault
    rw [if_pos (by decide), if_pos hea]
    obtain ⟨m1, m2, m3⟩ := page_mask he
    simp only [insertPte, group_eq, m2]
    cases hx : insertFrom t (hashOf p (page ea) % 1024) (mkPte p (pageMask ea) (pageMask (((sp p).physBase + pageMask ea) % U32) ||| pteFlags)) 8 with
    | some t' => exact ⟨t', rfl⟩
    | none =>
      exfalso
      have full := insertFrom_none (Nat.le_refl 8) hx
      generalize hg : hashOf p (page ea) % 1024 = g at *
      have ex : ∀ i : Fin 8, ∃ q : Fin 8, ∃ n, Holds sp g (t g i) q n := by
        intro i
        obtain ⟨q, n, hq⟩ := inv.holds g i i.2 (full i (by omega) i.2)
        have : q < 8 := by
          by_contra hc
          have := hn q (by omega)
          have := hq.2.2.1
          omega
        exact ⟨⟨q, this⟩, n, hq⟩
      choose f hf using ex
      have small : ∀ {q n : Nat} {x : Pte}, Holds sp g x q n → n < 1024 := by
        intro q n x hq
        have := hq.2.2.1
        have := h4 q
        omega
      have hinj : Function.Injective f := by
        intro i j hij
        obtain ⟨n, hi⟩ := hf i
        obtain ⟨n', hj⟩ := hf j
        rw [hij] at hi
        have : n = n' := page_unique (by rw [← hi.2.2.2.1, ← hj.2.2.2.1]) (by have := small hi; have := small hj; omega)
        subst this
        exact Fin.ext (inv.one g i j (f j) n i.2 j.2 hi hj)
      have hsurj : Function.Surjective f := Finite.injective_iff_surjective.1 hinj
      obtain ⟨i, hi⟩ := hsurj ⟨p, hp⟩
      obtain ⟨n, hh⟩ := hf i
      rw [hi] at hh
      have : n = page ea := page_unique (p := p) (by rw [← hh.2.2.2.1, hg]) (by
        have := small hh
        have : ea / 4096 < 1024 := by have := h4 p; omega
        omega)
      subst this
      obtain ⟨pa, e⟩ := translate_isSome i.2 hh
      rw [ht] at e; cases e

/-! ## Concrete cases -/

/-- Three partitions of 64 KB. -/
def three : Nat → Space := fun p => if p < 3 then ⟨0x100000 + p * 0x10000, 0x10000⟩ else ⟨0, 0⟩

example : Paged three := by
  constructor <;> intro p _ <;> simp only [three] <;> split <;> simp only [U32] <;> omega

example : ∃ t, run three empty [(0, 0), (1, 0x1234), (2, 0xffff), (1, 0x1000)] = some t ∧
    translate t 1 0x1abc = some 0x111abc ∧ translate t 0 0x1abc = none ∧ translate t 2 0xf000 = some 0x12f000 :=
  ⟨_, rfl, by decide +kernel, by decide +kernel, by decide +kernel⟩

/-- **C59** violated: a partition whose size is not a multiple of the page size reaches memory after its end (here the byte at 0x1fff of a
partition of 0x1800 bytes, once it has used one at 0x1000). -/
theorem C59_size_violated : ∃ t, run (fun _ => ⟨0x100000, 0x1800⟩) empty [(0, 0x1000)] = some t ∧ translate t 0 0x1fff = some 0x101fff :=
  ⟨_, rfl, by decide +kernel⟩

/-- **C59** violated: a base that is not a multiple of the page size is rounded down: the partition reaches memory before its area, and its
own bytes are found at the wrong place. -/
theorem C59_base_violated : ∃ t, run (fun _ => ⟨0x100800, 0x1000⟩) empty [(0, 0)] = some t ∧ translate t 0 0 = some 0x100000 :=
  ⟨_, rfl, by decide +kernel⟩

/-- **C59** violated: nine partitions, partition `p` using page `p`, all in group 0 of the table: at the ninth the kernel finds no free entry
and loops for ever, although every access is inside its partition. -/
theorem C59_full_violated : run (fun p => ⟨0x100000 + p * 0x10000, 0x10000⟩) empty ((List.range 9).map fun p => (p, p * 4096)) = none := by
  decide +kernel

/-- **C59** violated: so does one partition that uses nine pages at intervals of 4 MB. -/
theorem C59_stride_violated : run (fun _ => ⟨0x1000000, 0x8000000⟩) empty ((List.range 9).map fun k => (0, k * 4194304)) = none := by
  decide +kernel

/-- **C59**: an access outside the partition, or a fault of another kind than "no translation" (bit 30 of the cause), stops the processor: no
error is reported to health monitoring, and no other partition runs (`none` is the endless loop with interrupts as they were). -/
theorem C59_outside (sp : Nat → Space) (t : Table) (p ea cause : Nat) (h : (sp p).size ≤ ea ∨ cause.testBit 30 = false) :
    fault sp t p ea cause = none := by
  unfold fault
  split
  · rename_i hc
    rcases h with h | h
    · rw [if_neg (by omega)]
    · exfalso
      apply hc
      apply Nat.eq_of_testBit_eq
      intro i
      by_cases hi : i = 30
      · subst hi
        rw [Nat.testBit_and, h, Bool.false_and, Nat.zero_testBit]
      · rw [Nat.testBit_and, Nat.one_shiftLeft, Nat.testBit_two_pow, decide_eq_false (Ne.symm hi), Bool.and_false, Nat.zero_testBit]
  · rfl

example : fault (fun _ => ⟨0x1000000, 0x8000000⟩) empty 0 0x1000 0x08000000 = none ∧
    (fault (fun _ => ⟨0x1000000, 0x8000000⟩) empty 0 0x1000 0x40000000).isSome = true := by decide +kernel

end Pok.Ppc
