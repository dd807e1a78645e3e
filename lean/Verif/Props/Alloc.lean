import Mathlib.Tactic.Common
import Verif.Spec.Alloc

/-!
# The allocator (C39, C40)

The code merges free spaces through an index that may be stale, so both properties are false of it
(`C39_violated`, `C40_lost_violated`).  They are proved for the programs whose frees do not run into that:
a general condition on the run of `pok_allocator_merge_space` (`Clean`), and two conditions on the program itself:
every block is freed between two blocks held (`Isolated`), or blocks are freed in reverse order (`Lifo`).
-/

namespace Pok
namespace Heap
open HeapSpec

/-- Well-formed heap: the spaces in use tile the heap, and the allocated ones are the blocks held. -/
structure Inv (c : HeapCfg) (h : Heap) (live : List (Nat × Nat)) : Prop where
  pos : 1 ≤ h.used
  room : h.used ≤ c.nb - 1
  size : ∀ i, i < h.used → 0 < (h.sp i).size
  inside : ∀ i, i < h.used → (h.sp i).start + (h.sp i).size ≤ c.mem
  disj : ∀ i j, i < h.used → j < h.used → i ≠ j →
    (h.sp i).start + (h.sp i).size ≤ (h.sp j).start ∨ (h.sp j).start + (h.sp j).size ≤ (h.sp i).start
  cover : ∀ x, x < c.mem → ∃ i, i < h.used ∧ (h.sp i).start ≤ x ∧ x < (h.sp i).start + (h.sp i).size
  held : ∀ b ∈ live, ∃ i, i < h.used ∧ h.sp i = ⟨b.1, b.2, true⟩
  only : ∀ i, i < h.used → (h.sp i).allocated = true → ((h.sp i).start, (h.sp i).size) ∈ live
  nodup : live.Pairwise (fun a b => a.1 ≠ b.1)

/-- The configurations: a heap below 4 GB, not empty, and a table of at least two entries. -/
structure HCfgOk (c : HeapCfg) : Prop where
  mem : 0 < c.mem
  small : c.mem < U32
  nb : 2 ≤ c.nb

theorem fin_eq {c : HeapCfg} (hc : HCfgOk c) {h : Heap} {live : List (Nat × Nat)} (hi : Inv c h live) {i : Nat}
    (h1 : i < h.used) : fin (h.sp i) = (h.sp i).start + (h.sp i).size := by
  have := hi.inside i h1; have := hc.small
  unfold fin; rw [Nat.mod_eq_of_lt (by omega)]

theorem init_inv {c : HeapCfg} (hc : HCfgOk c) (g : Space) : Inv c (init c g) [] where
  pos := Nat.le_refl _
  room := by have := hc.nb; show 1 ≤ _; omega
  size := by intro i h; have h : i < 1 := h; have : i = 0 := by omega
             subst this; exact hc.mem
  inside := by intro i h; have h : i < 1 := h; have : i = 0 := by omega
               subst this; simp [init]
  disj := by intro i j h1 h2 hn; have h1 : i < 1 := h1; have h2 : j < 1 := h2; omega
  cover := by intro x hx; exact ⟨0, Nat.one_pos, by simp [init], by simpa [init] using hx⟩
  held := by intro b hb; cases hb
  only := by intro i h1 h2; have h1 : i < 1 := h1; have : i = 0 := by omega
             subst this; simp [init] at h2
  nodup := .nil

theorem Inv.sound {c : HeapCfg} {h : Heap} {live : List (Nat × Nat)} (hi : Inv c h live) : Sound c live := by
  refine ⟨?_, ?_⟩
  · refine List.Pairwise.imp_of_mem ?_ hi.nodup
    intro a b ha hb hab x hx
    obtain ⟨i, hi1, hi2⟩ := hi.held a ha
    obtain ⟨j, hj1, hj2⟩ := hi.held b hb
    have hij : i ≠ j := by
      rintro rfl; rw [hi2] at hj2; injection hj2 with h1; exact hab h1
    have := hi.disj i j hi1 hj1 hij
    rw [hi2, hj2] at this
    unfold Holds at hx
    dsimp only at this
    omega
  · intro b hb x hx
    obtain ⟨i, hi1, hi2⟩ := hi.held b hb
    have := hi.inside i hi1
    rw [hi2] at this
    unfold Holds at hx
    dsimp only at this
    omega

/-! ### Allocation -/

theorem fit_some {h : Heap} {n i : Nat} (hf : h.fit n = some i) :
    i < h.used ∧ (h.sp i).allocated = false ∧ n ≤ (h.sp i).size := by
  unfold fit at hf
  have h1 := List.mem_of_find?_eq_some hf
  have h2 := List.find?_some hf
  rw [List.mem_range] at h1
  simp at h2
  exact ⟨h1, h2.1, h2.2⟩

theorem fit_none {h : Heap} {n : Nat} (hf : h.fit n = none) :
    ∀ i, i < h.used → (h.sp i).allocated = false → (h.sp i).size < n := by
  intro i h1 h2
  unfold fit at hf
  rw [List.find?_eq_none] at hf
  have := hf i (List.mem_range.mpr h1)
  simp [h2] at this
  omega

theorem allocate_inv {c : HeapCfg} (hc : HCfgOk c) {h h' : Heap} {live : List (Nat × Nat)} {n p : Nat}
    (hi : Inv c h live) (hn : 0 < n) (ha : h.allocate c n = (h', some p)) : Inv c h' ((p, n) :: live) := by
  unfold allocate at ha
  split at ha
  · cases ha
  rename_i hroom
  split at ha
  · cases ha
  rename_i i hf
  obtain ⟨h1, h2, h3⟩ := fit_some hf
  have hfresh : ∀ b ∈ live, (h.sp i).start ≠ b.1 := by
    intro b hb e
    obtain ⟨j, hj1, hj2⟩ := hi.held b hb
    have hij : i ≠ j := by rintro rfl; rw [hj2] at h2; cases h2
    have := hi.disj i j h1 hj1 hij
    have s1 := hi.size i h1; have s2 := hi.size j hj1
    rw [hj2] at this s2
    dsimp only at this s2
    omega
  split at ha
  · rename_i hs
    cases ha
    have hsp : ∀ j, ((upd h.sp i { h.sp i with allocated := true }) j).start = (h.sp j).start ∧
        ((upd h.sp i { h.sp i with allocated := true }) j).size = (h.sp j).size := by
      intro j; by_cases e : j = i
      · subst e; simp [upd_same]
      · rw [upd_other _ _ e]; exact ⟨rfl, rfl⟩
    refine ⟨hi.pos, hi.room, ?_, ?_, ?_, ?_, ?_, ?_, ?_⟩
    · intro j hj; show 0 < ((upd h.sp i _) j).size; rw [(hsp j).2]; exact hi.size j hj
    · intro j hj; show ((upd h.sp i _) j).start + ((upd h.sp i _) j).size ≤ _
      rw [(hsp j).1, (hsp j).2]; exact hi.inside j hj
    · intro a b ha hb hab
      show ((upd h.sp i _) a).start + ((upd h.sp i _) a).size ≤ ((upd h.sp i _) b).start ∨
        ((upd h.sp i _) b).start + ((upd h.sp i _) b).size ≤ ((upd h.sp i _) a).start
      rw [(hsp a).1, (hsp a).2, (hsp b).1, (hsp b).2]; exact hi.disj a b ha hb hab
    · intro x hx; obtain ⟨j, hj, hj2⟩ := hi.cover x hx
      refine ⟨j, hj, ?_⟩
      show ((upd h.sp i _) j).start ≤ x ∧ x < ((upd h.sp i _) j).start + ((upd h.sp i _) j).size
      rw [(hsp j).1, (hsp j).2]; exact hj2
    · intro b hb
      rcases List.mem_cons.mp hb with rfl | hb
      · refine ⟨i, h1, ?_⟩
        show (upd h.sp i _) i = _
        rw [upd_same, hs]
      · obtain ⟨j, hj1, hj2⟩ := hi.held b hb
        refine ⟨j, hj1, ?_⟩
        have e : j ≠ i := by rintro rfl; rw [hj2] at h2; cases h2
        show (upd h.sp i _) j = _
        rw [upd_other _ _ e, hj2]
    · intro j hj ha
      by_cases e : j = i
      · subst e
        show (((upd h.sp j _) j).start, ((upd h.sp j _) j).size) ∈ _
        rw [upd_same, hs]; exact List.mem_cons_self
      · show (((upd h.sp i _) j).start, ((upd h.sp i _) j).size) ∈ _
        have ha : ((upd h.sp i _) j).allocated = true := ha
        rw [upd_other _ _ e] at ha ⊢
        exact List.mem_cons_of_mem _ (hi.only j hj ha)
    · exact List.pairwise_cons.mpr ⟨hfresh, hi.nodup⟩
  · rename_i hs
    cases ha
    have hroom' : h.used + 1 ≤ c.nb - 1 := by omega
    have hv : ∀ j, j < h.used + 1 → (h.split i n).sp j =
        if j = h.used then ⟨(h.sp i).start + n, (h.sp i).size - n, false⟩
        else if j = i then ⟨(h.sp i).start, n, true⟩ else h.sp j := by
      intro j hj
      show (upd (upd h.sp i _) h.used _) j = _
      by_cases e : j = h.used
      · subst e; rw [upd_same, if_pos rfl]
      · rw [upd_other _ _ e, if_neg e]
        by_cases e2 : j = i
        · subst e2; rw [upd_same, if_pos rfl]
        · rw [upd_other _ _ e2, if_neg e2]
    have hin := hi.inside i h1
    have hused : (h.split i n).used = h.used + 1 := rfl
    refine ⟨by rw [hused]; omega, by rw [hused]; omega, ?_, ?_, ?_, ?_, ?_, ?_, ?_⟩
    · intro j hj; rw [hused] at hj; rw [hv j hj]
      split
      · dsimp only; omega
      · split
        · exact hn
        · exact hi.size j (by omega)
    · intro j hj; rw [hused] at hj; rw [hv j hj]
      split
      · dsimp only; omega
      · split
        · dsimp only; omega
        · exact hi.inside j (by omega)
    · intro a b ha hb hab; rw [hused] at ha hb; rw [hv a ha, hv b hb]
      have d1 := fun ha' hab' => hi.disj a i ha' h1 hab'
      have d2 := fun hb' hab' => hi.disj b i hb' h1 hab'
      have d3 := fun ha' hb' => hi.disj a b ha' hb' hab
      by_cases ea : a = h.used
      · rw [if_pos ea]
        rw [if_neg (show b ≠ h.used by omega)]
        by_cases eb : b = i
        · rw [if_pos eb]; dsimp only; omega
        · rw [if_neg eb]; have := d2 (by omega) eb; dsimp only; omega
      · rw [if_neg ea]
        by_cases eb : b = h.used
        · rw [if_pos eb]
          by_cases ea2 : a = i
          · rw [if_pos ea2]; dsimp only; omega
          · rw [if_neg ea2]; have := d1 (by omega) ea2; dsimp only; omega
        · rw [if_neg eb]
          by_cases ea2 : a = i
          · rw [if_pos ea2, if_neg (show b ≠ i by omega)]
            have := d2 (by omega) (by omega); dsimp only; omega
          · rw [if_neg ea2]
            by_cases eb2 : b = i
            · rw [if_pos eb2]; have := d1 (by omega) (by omega); dsimp only; omega
            · rw [if_neg eb2]; exact d3 (by omega) (by omega)
    · intro x hx
      obtain ⟨j, hj, hj2⟩ := hi.cover x hx
      rw [hused]
      by_cases e : j = i
      · subst e
        by_cases hlt : x < (h.sp j).start + n
        · refine ⟨j, by omega, ?_⟩
          rw [hv j (by omega), if_neg (by omega), if_pos rfl]; dsimp only; omega
        · refine ⟨h.used, by omega, ?_⟩
          rw [hv _ (by omega), if_pos rfl]; dsimp only; omega
      · refine ⟨j, by omega, ?_⟩
        rw [hv j (by omega), if_neg (by omega), if_neg e]; exact hj2
    · intro b hb
      rw [hused]
      rcases List.mem_cons.mp hb with rfl | hb
      · refine ⟨i, by omega, ?_⟩
        rw [hv i (by omega), if_neg (by omega), if_pos rfl]
      · obtain ⟨j, hj1, hj2⟩ := hi.held b hb
        refine ⟨j, by omega, ?_⟩
        have e : j ≠ i := by rintro rfl; rw [hj2] at h2; cases h2
        rw [hv j (by omega), if_neg (by omega), if_neg e, hj2]
    · intro j hj ha
      rw [hused] at hj
      rw [hv j hj] at ha ⊢
      split at ha
      · cases ha
      · rename_i e1
        split at ha
        · rename_i e2
          rw [if_neg e1, if_pos e2]; exact List.mem_cons_self
        · rename_i e2
          rw [if_neg e1, if_neg e2]; exact List.mem_cons_of_mem _ (hi.only j (by omega) ha)
    · exact List.pairwise_cons.mpr ⟨hfresh, hi.nodup⟩

/-! ### Release and merging -/

/-- The two free spaces `a` and `b`, `b` just behind `a`, become one in place of `a`. -/
theorem absorb_inv {c : HeapCfg} (hc : HCfgOk c) {h : Heap} {live : List (Nat × Nat)} {a b : Nat}
    (hi : Inv c h live) (ha : a < h.used) (hb : b < h.used) (hab : a ≠ b) (fa : (h.sp a).allocated = false)
    (fb : (h.sp b).allocated = false) (adj : (h.sp a).start + (h.sp a).size = (h.sp b).start) :
    Inv c ((h.grow a b).delete c b) live := by
  have hr := hi.room
  have hsm := hc.small
  have hib := hi.inside b hb
  have hused : ((h.grow a b).delete c b).used = h.used - 1 := rfl
  -- value of the new table
  have hv : ∀ k, k < h.used - 1 → ∃ m, m < h.used ∧ m ≠ b ∧ (m = if b ≤ k then k + 1 else k) ∧
      ((h.grow a b).delete c b).sp k =
        if m = a then ⟨(h.sp a).start, (h.sp a).size + (h.sp b).size, false⟩ else h.sp m := by
    intro k hk
    refine ⟨if b ≤ k then k + 1 else k, ?_, ?_, rfl, ?_⟩
    · split <;> omega
    · split <;> omega
    · have e : ((h.grow a b).delete c b).sp k = (h.grow a b).sp (if b ≤ k then k + 1 else k) := by
        show (if b ≤ k ∧ k < c.nb then (h.grow a b).sp (k + 1) else (h.grow a b).sp k) = _
        by_cases e : b ≤ k
        · rw [if_pos ⟨e, by omega⟩, if_pos e]
        · rw [if_neg (by omega), if_neg e]
      rw [e]
      generalize (if b ≤ k then k + 1 else k) = m
      show (upd h.sp a _) m = _
      by_cases e2 : m = a
      · rw [if_pos e2, e2, upd_same, Nat.mod_eq_of_lt (by omega), fa]
      · rw [if_neg e2, upd_other _ _ e2]
  have hinv : ∀ m, m < h.used → m ≠ b → ∃ k, k < h.used - 1 ∧
      ((h.grow a b).delete c b).sp k =
        if m = a then ⟨(h.sp a).start, (h.sp a).size + (h.sp b).size, false⟩ else h.sp m := by
    intro m hm hmb
    refine ⟨if b < m then m - 1 else m, by split <;> omega, ?_⟩
    obtain ⟨m', _, _, h3, h4⟩ := hv (if b < m then m - 1 else m) (by split <;> omega)
    have : m' = m := by rw [h3]; split <;> split <;> omega
    rw [h4, this]
  refine ⟨?_, ?_, ?_, ?_, ?_, ?_, ?_, ?_, hi.nodup⟩
  · rw [hused]; omega
  · rw [hused]; omega
  · intro k hk
    obtain ⟨m, h1, h2, _, h4⟩ := hv k hk
    rw [h4]
    have := hi.size m h1
    split
    · rename_i e; subst e; dsimp only; omega
    · exact this
  · intro k hk
    obtain ⟨m, h1, h2, _, h4⟩ := hv k hk
    rw [h4]
    split
    · dsimp only; omega
    · exact hi.inside m h1
  · intro k k' hk hk' hne
    obtain ⟨m, h1, h2, h3, h4⟩ := hv k hk
    obtain ⟨m', h1', h2', h3', h4'⟩ := hv k' hk'
    have hmm : m ≠ m' := by rw [h3, h3']; split <;> split <;> omega
    rw [h4, h4']
    have dm := hi.disj m m' h1 h1' hmm
    have sm := hi.size m h1; have sm' := hi.size m' h1'
    have sa := hi.size a ha; have sb := hi.size b hb
    by_cases e : m = a
    · rw [if_pos e, if_neg (show m' ≠ a by omega)]
      have d2 := hi.disj m' b h1' hb h2'
      subst e
      dsimp only; omega
    · rw [if_neg e]
      by_cases e' : m' = a
      · rw [if_pos e']
        have d2 := hi.disj m b h1 hb h2
        subst e'
        dsimp only; omega
      · rw [if_neg e']; exact dm
  · intro x hx
    obtain ⟨m, h1, h2⟩ := hi.cover x hx
    by_cases e : m = b
    · obtain ⟨k, hk, h4⟩ := hinv a ha hab
      refine ⟨k, hk, ?_⟩
      rw [h4, if_pos rfl]; subst e; dsimp only; omega
    · obtain ⟨k, hk, h4⟩ := hinv m h1 e
      refine ⟨k, hk, ?_⟩
      rw [h4]
      split
      · rename_i e2; subst e2; dsimp only; omega
      · exact h2
  · intro x hx
    obtain ⟨m, h1, h2⟩ := hi.held x hx
    have e1 : m ≠ b := by rintro rfl; rw [h2] at fb; cases fb
    have e2 : m ≠ a := by rintro rfl; rw [h2] at fa; cases fa
    obtain ⟨k, hk, h4⟩ := hinv m h1 e1
    exact ⟨k, hk, by rw [h4, if_neg e2, h2]⟩
  · intro k hk hal
    obtain ⟨m, h1, h2, h3, h4⟩ := hv k hk
    rw [h4] at hal ⊢
    split at hal
    · cases hal
    · rename_i e
      rw [if_neg e]; exact hi.only m h1 hal

theorem neighbour_some {h : Heap} {i j : Nat} (hn : h.neighbour i = some j) :
    j < h.used ∧ j ≠ i ∧ (h.sp j).allocated = false ∧
      ((h.sp i).start = fin (h.sp j) ∨ (h.sp j).start = fin (h.sp i)) := by
  unfold neighbour at hn
  have h1 := List.mem_of_find?_eq_some hn
  have h2 := List.find?_some hn
  rw [List.mem_range] at h1
  simp at h2
  exact ⟨h1, h2.1.1, h2.1.2, h2.2⟩

theorem neighbour_none {h : Heap} {i : Nat} (hn : ∀ j, j < h.used → j ≠ i → (h.sp j).allocated = false →
    (h.sp i).start ≠ fin (h.sp j) ∧ (h.sp j).start ≠ fin (h.sp i)) : h.neighbour i = none := by
  unfold neighbour
  rw [List.find?_eq_none]
  intro j hj
  rw [List.mem_range] at hj
  simp
  intro h1 h2
  have := hn j hj h1 h2
  exact this

/-- The run of `pok_allocator_merge_space` merges only free spaces in use: whenever it merges, the space whose
index it was given is one. -/
def CleanMerge (c : HeapCfg) : Nat → Heap → Nat → Prop
  | 0, _, _ => True
  | fuel + 1, h, i =>
    h.used = 1 ∨
    match h.neighbour i with
    | none => True
    | some j =>
      (i < h.used ∧ (h.sp i).allocated = false) ∧
      if (h.sp i).start = fin (h.sp j) then CleanMerge c fuel ((h.grow j i).delete c i) j
      else CleanMerge c fuel ((h.grow i j).delete c j) j

theorem merge_inv {c : HeapCfg} (hc : HCfgOk c) {live : List (Nat × Nat)} : ∀ (fuel : Nat) (h : Heap) (i : Nat),
    Inv c h live → CleanMerge c fuel h i → Inv c (merge c fuel h i) live := by
  intro fuel
  induction fuel with
  | zero => intro h i hi _; exact hi
  | succ fuel ih =>
    intro h i hi hcl
    unfold merge
    unfold CleanMerge at hcl
    by_cases hu : h.used = 1
    · rw [if_pos hu]; exact hi
    rw [if_neg hu]
    have hcl := hcl.resolve_left hu
    cases hn : h.neighbour i with
    | none => exact hi
    | some j =>
      rw [hn] at hcl
      obtain ⟨⟨h1, h2⟩, h3⟩ := hcl
      obtain ⟨n1, n2, n3, n4⟩ := neighbour_some hn
      dsimp only at h3 ⊢
      by_cases hs : (h.sp i).start = fin (h.sp j)
      · rw [if_pos hs] at h3 ⊢
        refine ih _ _ (absorb_inv hc hi n1 h1 n2 n3 h2 ?_) h3
        rw [hs, fin_eq hc hi n1]
      · rw [if_neg hs] at h3 ⊢
        refine ih _ _ (absorb_inv hc hi h1 n1 (Ne.symm n2) h2 n3 ?_) h3
        rw [n4.resolve_left hs, fin_eq hc hi h1]

theorem release_inv {c : HeapCfg} {h : Heap} {live : List (Nat × Nat)} {i : Nat} (hi : Inv c h live)
    (h1 : i < h.used) : Inv c (h.release i) (live.filter fun b => b.1 ≠ (h.sp i).start) := by
  have hsp : ∀ j, ((h.release i).sp j).start = (h.sp j).start ∧ ((h.release i).sp j).size = (h.sp j).size := by
    intro j; show ((upd h.sp i _) j).start = _ ∧ ((upd h.sp i _) j).size = _
    by_cases e : j = i
    · subst e; simp [upd_same]
    · rw [upd_other _ _ e]; exact ⟨rfl, rfl⟩
  refine ⟨hi.pos, hi.room, ?_, ?_, ?_, ?_, ?_, ?_, ?_⟩
  · intro j hj; rw [(hsp j).2]; exact hi.size j hj
  · intro j hj; rw [(hsp j).1, (hsp j).2]; exact hi.inside j hj
  · intro a b ha hb hab
    rw [(hsp a).1, (hsp a).2, (hsp b).1, (hsp b).2]; exact hi.disj a b ha hb hab
  · intro x hx; obtain ⟨j, hj, hj2⟩ := hi.cover x hx
    exact ⟨j, hj, by rw [(hsp j).1, (hsp j).2]; exact hj2⟩
  · intro b hb
    rw [List.mem_filter] at hb
    obtain ⟨j, hj1, hj2⟩ := hi.held b hb.1
    refine ⟨j, hj1, ?_⟩
    have e : j ≠ i := by rintro rfl; rw [hj2] at hb; simp at hb
    show (upd h.sp i _) j = _
    rw [upd_other _ _ e, hj2]
  · intro j hj ha
    have e : j ≠ i := by
      rintro rfl
      have : ((upd h.sp j { h.sp j with allocated := false }) j).allocated = true := ha
      rw [upd_same] at this; cases this
    rw [(hsp j).1, (hsp j).2, List.mem_filter]
    have ha : ((upd h.sp i { h.sp i with allocated := false }) j).allocated = true := ha
    rw [upd_other _ _ e] at ha
    refine ⟨hi.only j hj ha, ?_⟩
    have := hi.disj i j h1 hj (Ne.symm e)
    have := hi.size i h1; have := hi.size j hj
    simp; omega
  · exact hi.nodup.filter _

theorem find_some {h : Heap} {p i : Nat} (hf : h.find p = some i) : i < h.used ∧ (h.sp i).start = p := by
  unfold find at hf
  have h1 := List.mem_of_find?_eq_some hf
  have h2 := List.find?_some hf
  rw [List.mem_range] at h1
  simp at h2
  exact ⟨h1, h2⟩

/-- The index found by a free of a block held is that of the block. -/
theorem find_held {c : HeapCfg} {h : Heap} {live : List (Nat × Nat)} {p n : Nat} (hi : Inv c h live)
    (hp : (p, n) ∈ live) : ∃ i, h.find p = some i ∧ i < h.used ∧ h.sp i = ⟨p, n, true⟩ := by
  obtain ⟨j, hj1, hj2⟩ := hi.held _ hp
  cases hf : h.find p with
  | none =>
    unfold find at hf
    rw [List.find?_eq_none] at hf
    have := hf j (List.mem_range.mpr hj1)
    simp [hj2] at this
  | some i =>
    obtain ⟨h1, h2⟩ := find_some hf
    have : i = j := by
      by_contra e
      have := hi.disj i j h1 hj1 e
      have := hi.size i h1; have := hi.size j hj1
      rw [hj2] at *; dsimp only at *; omega
    subst this
    exact ⟨i, rfl, h1, hj2⟩

/-- The run of a call merges only free spaces in use (see `CleanMerge`); nothing is asked of an allocation. -/
def Clean (c : HeapCfg) (h : Heap) : Op → Prop
  | .alloc _ => True
  | .free p => ∀ i, h.find p = some i → CleanMerge c h.used (h.release i) i

theorem step_inv {c : HeapCfg} (hc : HCfgOk c) {h : Heap} {live : List (Nat × Nat)} {op : Op} (hi : Inv c h live)
    (hl : Legal live op) (hcl : Clean c h op) :
    Inv c (step c (h, live) op).1.1 (step c (h, live) op).1.2 := by
  cases op with
  | alloc n =>
    unfold step
    dsimp only
    rcases ha : h.allocate c n with ⟨h', _ | p⟩
    · dsimp only
      have : h' = h := by
        unfold allocate at ha
        split at ha
        · cases ha; rfl
        split at ha
        · cases ha; rfl
        split at ha <;> cases ha
      rw [this]; exact hi
    · exact allocate_inv hc hi hl ha
  | free p =>
    obtain ⟨n, hp⟩ := hl
    obtain ⟨i, h1, h2, h3⟩ := find_held hi hp
    show Inv c (h.free c p) _
    unfold free
    rw [h1]
    dsimp only
    have := release_inv hi h2
    rw [h3] at this
    exact merge_inv hc _ _ _ this (hcl i h1)

/-- Every call of the program is `Clean` when it is made. -/
def AllClean (c : HeapCfg) : Heap × List (Nat × Nat) → List Op → Prop
  | _, [] => True
  | x, op :: ops => Clean c x.1 op ∧ AllClean c (step c x op).1 ops

theorem run_inv {c : HeapCfg} (hc : HCfgOk c) : ∀ (ops : List Op) (x : Heap × List (Nat × Nat)),
    Inv c x.1 x.2 → Always Legal c x ops → AllClean c x ops → Inv c (run c x ops).1 (run c x ops).2 := by
  intro ops
  induction ops with
  | nil => intro x hi _ _; exact hi
  | cons op ops ih =>
    intro x hi hl hcl
    exact ih _ (step_inv hc hi hl.1 hcl.1) hl.2 hcl.2

/-- C39: for every heap size, every program that asks for positive sizes and frees only what it holds, and whose
frees merge only free spaces in use, the blocks it holds are disjoint and inside the heap, at every moment. -/
theorem C39_clean_partial {c : HeapCfg} (hc : HCfgOk c) (g : Space) (ops : List Op)
    (hl : Always Legal c (init c g, []) ops) (hcl : AllClean c (init c g, []) ops) :
    Sound c (run c (init c g, []) ops).2 :=
  (run_inv hc ops _ (init_inv hc g) hl hcl).sound

/-- A block freed between two blocks held is not merged. -/
theorem isolated_clean {c : HeapCfg} (hc : HCfgOk c) {h : Heap} {live : List (Nat × Nat)} {op : Op}
    (hi : Inv c h live) (hl : Legal live op) (his : Isolated c live op) : Clean c h op := by
  cases op with
  | alloc n => trivial
  | free p =>
    obtain ⟨n, hp⟩ := hl
    intro i hf
    obtain ⟨i', h1, h2, h3⟩ := find_held hi hp
    rw [h1] at hf; cases hf
    obtain ⟨his1, his2⟩ := his n hp
    have hpos := hi.pos
    obtain ⟨f, hfu⟩ : ∃ f, h.used = f + 1 := ⟨h.used - 1, by omega⟩
    rw [hfu]
    unfold CleanMerge
    have : (h.release i).neighbour i = none := by
      apply neighbour_none
      intro j hj hji hal
      have hj : j < h.used := hj
      have e1 : (h.release i).sp j = h.sp j := upd_other _ _ hji
      have e2 : (h.release i).sp i = ⟨p, n, false⟩ := by
        show (upd h.sp i _) i = _; rw [upd_same, h3]
      rw [e1] at hal ⊢
      rw [e2, fin_eq hc hi hj]
      have hin := hi.inside i h2; rw [h3] at hin; dsimp only at hin
      have hfin : fin (⟨p, n, false⟩ : Space) = p + n := by
        unfold fin; have := hc.small; exact Nat.mod_eq_of_lt (by dsimp only; omega)
      rw [hfin]
      dsimp only
      have sj := hi.size j hj
      have ij := hi.inside j hj
      refine ⟨?_, ?_⟩
      · intro e
        rcases his1 with h0 | ⟨b, hb, hbe⟩
        · omega
        · obtain ⟨k, hk1, hk2⟩ := hi.held b hb
          have hkj : k ≠ j := by rintro rfl; rw [hk2] at hal; cases hal
          have d := hi.disj k j hk1 hj hkj
          have sk := hi.size k hk1
          rw [hk2] at d sk; dsimp only at d sk; omega
      · intro e
        rcases his2 with h0 | ⟨b, hb, hbe⟩
        · omega
        · obtain ⟨k, hk1, hk2⟩ := hi.held b hb
          have hkj : k ≠ j := by rintro rfl; rw [hk2] at hal; cases hal
          have d := hi.disj k j hk1 hj hkj
          have sk := hi.size k hk1
          rw [hk2] at d sk; dsimp only at d sk; omega
    rw [this]
    exact Or.inr trivial

/-- C39 for the programs that free a block only between two blocks held (or at a border of the heap). -/
theorem C39_isolated_partial {c : HeapCfg} (hc : HCfgOk c) (g : Space) (ops : List Op)
    (hl : Always (fun l o => Legal l o ∧ Isolated c l o) c (init c g, []) ops) :
    Sound c (run c (init c g, []) ops).2 := by
  have : ∀ (ops : List Op) (x : Heap × List (Nat × Nat)), Inv c x.1 x.2 →
      Always (fun l o => Legal l o ∧ Isolated c l o) c x ops → Inv c (run c x ops).1 (run c x ops).2 := by
    intro ops
    induction ops with
    | nil => intro x hi _; exact hi
    | cons op ops ih =>
      intro x hi hl
      exact ih _ (step_inv hc hi hl.1.1 (isolated_clean hc hi hl.1.1 hl.1.2)) hl.2
  exact (this ops _ (init_inv hc g) hl).sound

/-! ### Blocks freed in reverse order -/

/-- An entry behind those in use that cannot be taken for a neighbour of a space: it does not start at the end of
the heap and does not end inside it. -/
def Harmless (c : HeapCfg) (s : Space) : Prop := s.start ≠ c.mem ∧ (fin s = 0 ∨ c.mem ≤ fin s)

/-- The blocks held are stacked from the start of the heap. -/
def Chain : List (Nat × Nat) → Prop
  | [] => True
  | b :: l => b.1 = total l ∧ 0 < b.2 ∧ Chain l

theorem total_cons (b : Nat × Nat) (l : List (Nat × Nat)) : total (b :: l) = b.2 + total l := by
  simp [total]

/-- The table of a program that frees in reverse order: the blocks held, oldest first, then one free space. -/
structure Stack (c : HeapCfg) (h : Heap) (live : List (Nat × Nat)) : Prop where
  inv : Inv c h live
  chain : Chain live
  entry : ∀ i b, live.reverse[i]? = some b → h.sp i = ⟨b.1, b.2, true⟩
  rest : (h.used = live.length + 1 ∧ total live < c.mem ∧
      h.sp live.length = ⟨total live, c.mem - total live, false⟩) ∨ (h.used = live.length ∧ total live = c.mem)
  stale : ∀ j, h.used ≤ j → j ≤ c.nb → Harmless c (h.sp j)

theorem entry_alloc {c : HeapCfg} {h : Heap} {live : List (Nat × Nat)} (hs : Stack c h live) {i : Nat}
    (hi : i < live.length) : (h.sp i).allocated = true := by
  have : i < live.reverse.length := by simpa using hi
  rw [hs.entry i _ (List.getElem?_eq_getElem this)]

theorem init_stack {c : HeapCfg} (hc : HCfgOk c) {g : Space} (hg : Harmless c g) : Stack c (init c g) [] where
  inv := init_inv hc g
  chain := trivial
  entry := by intro i b h; simp at h
  rest := Or.inl ⟨rfl, by simpa [total] using hc.mem, by simp [init, total]⟩
  stale := by
    intro j h1 h2
    have h1 : 1 ≤ j := h1
    show Harmless c (if j = 0 then _ else if j < c.nb then _ else g)
    rw [if_neg (by omega)]
    split
    · exact ⟨by have := hc.mem; show 0 ≠ c.mem; omega, Or.inl rfl⟩
    · exact hg

/-- C40 for stacks: an allocation of `n > 0` bytes succeeds exactly when `n` bytes are left and the table has
room, and then gives the bytes just behind the blocks held. -/
theorem stack_allocate {c : HeapCfg} (hc : HCfgOk c) {h : Heap} {live : List (Nat × Nat)} {n : Nat}
    (hs : Stack c h live) (hn : 0 < n) :
    ∃ h', h.allocate c n =
        (h', if total live + n ≤ c.mem ∧ live.length + 2 < c.nb then some (total live) else none) ∧
      (¬ (total live + n ≤ c.mem ∧ live.length + 2 < c.nb) → h' = h) ∧
      (total live + n ≤ c.mem ∧ live.length + 2 < c.nb → Stack c h' ((total live, n) :: live)) := by
  have hroom := hs.inv.room
  rcases hs.rest with ⟨hu, hlt, hr⟩ | ⟨hu, hfull⟩
  · by_cases hfits : total live + n ≤ c.mem ∧ live.length + 2 < c.nb
    · rw [if_pos hfits]
      have hf : h.fit n = some live.length := by
        cases hf : h.fit n with
        | none =>
          have := fit_none hf live.length (by omega) (by rw [hr])
          rw [hr] at this; dsimp only at this; omega
        | some i =>
          obtain ⟨h1, h2, _⟩ := fit_some hf
          have : ¬ i < live.length := by
            intro h3; rw [entry_alloc hs h3] at h2; cases h2
          have : i = live.length := by omega
          rw [this]
      have ha : ∃ h', h.allocate c n = (h', some (total live)) ∧
          h' = if c.mem - total live = n then { h with sp := upd h.sp live.length ⟨total live, n, true⟩ }
            else h.split live.length n := by
        unfold allocate
        rw [if_neg (by omega), hf]
        dsimp only
        rw [hr]
        dsimp only
        split
        · rename_i e; exact ⟨_, rfl, by rw [← e]⟩
        · exact ⟨_, rfl, rfl⟩
      obtain ⟨h', ha, he⟩ := ha
      refine ⟨h', ha, fun h => absurd hfits h, fun _ => ?_⟩
      have hinv := allocate_inv hc hs.inv hn ha
      have hentry : ∀ (f : Nat → Space), (∀ i, i < live.length → f i = h.sp i) →
          f live.length = ⟨total live, n, true⟩ →
          ∀ i b, ((total live, n) :: live).reverse[i]? = some b → f i = ⟨b.1, b.2, true⟩ := by
        intro f h1 h2 i b hb
        rw [List.reverse_cons] at hb
        by_cases hi : i < live.length
        · rw [List.getElem?_append_left (by simpa using hi)] at hb
          rw [h1 i hi]; exact hs.entry i b hb
        · rw [List.getElem?_append_right (by simpa using Nat.le_of_not_lt hi)] at hb
          simp only [List.length_reverse] at hb
          have : i - live.length = 0 := by
            by_contra h0
            have : [(total live, n)][i - live.length]? = none := by
              rw [List.getElem?_eq_none]; simp; omega
            rw [this] at hb; cases hb
          have : i = live.length := by omega
          subst this
          rw [Nat.sub_self] at hb
          cases hb; exact h2
      by_cases e : c.mem - total live = n
      · rw [if_pos e] at he
        subst he
        refine ⟨hinv, ⟨rfl, hn, hs.chain⟩, hentry _ ?_ ?_, Or.inr ⟨hu, ?_⟩, ?_⟩
        · intro i hi; exact upd_other _ _ (by omega)
        · exact upd_same _ _ _
        · rw [total_cons]; dsimp only; omega
        · intro j h1 h2
          have h1 : h.used ≤ j := h1
          show Harmless c ((upd h.sp live.length _) j)
          rw [upd_other _ _ (by omega)]; exact hs.stale j h1 h2
      · rw [if_neg e] at he
        subst he
        refine ⟨hinv, ⟨rfl, hn, hs.chain⟩, hentry _ ?_ ?_, Or.inl ⟨?_, ?_, ?_⟩, ?_⟩
        · intro i hi
          show (upd (upd h.sp live.length _) h.used _) i = _
          rw [upd_other _ _ (by omega), upd_other _ _ (by omega)]
        · show (upd (upd h.sp live.length _) h.used _) live.length = _
          rw [upd_other _ _ (by omega), upd_same, hr]
        · show h.used + 1 = _; simp; omega
        · rw [total_cons]; dsimp only; omega
        · show (upd (upd h.sp live.length _) h.used _) (live.length + 1) = _
          rw [← hu, upd_same, hr, total_cons]
          dsimp only
          congr 1 <;> omega
        · intro j h1 h2
          have h1 : h.used + 1 ≤ j := h1
          show Harmless c ((upd (upd h.sp live.length _) h.used _) j)
          rw [upd_other _ _ (by omega), upd_other _ _ (by omega)]
          exact hs.stale j (by omega) h2
    · rw [if_neg hfits]
      refine ⟨h, ?_, fun _ => rfl, fun h => absurd h hfits⟩
      unfold allocate
      by_cases h2 : h.used ≥ c.nb - 1
      · rw [if_pos h2]
      · rw [if_neg h2]
        have : h.fit n = none := by
          cases hf : h.fit n with
          | none => rfl
          | some i =>
            obtain ⟨h1, h3, h4⟩ := fit_some hf
            have : ¬ i < live.length := by
              intro h5; rw [entry_alloc hs h5] at h3; cases h3
            have : i = live.length := by omega
            rw [this, hr] at h4; dsimp only at h4
            omega
        rw [this]
  · have hno : ¬ (total live + n ≤ c.mem ∧ live.length + 2 < c.nb) := by omega
    rw [if_neg hno]
    refine ⟨h, ?_, fun _ => rfl, fun h => absurd h hno⟩
    unfold allocate
    split
    · rfl
    · have : h.fit n = none := by
        cases hf : h.fit n with
        | none => rfl
        | some i =>
          obtain ⟨h1, h3, h4⟩ := fit_some hf
          rw [entry_alloc hs (by omega)] at h3; cases h3
      rw [this]

theorem stack_free {c : HeapCfg} (hc : HCfgOk c) {h : Heap} {l : List (Nat × Nat)} {p n : Nat}
    (hs : Stack c h ((p, n) :: l)) : Clean c h (.free p) ∧ Stack c (h.free c p) l := by
  have hroom := hs.inv.room
  have hp : p = total l := hs.chain.1
  have hn : 0 < n := hs.chain.2.1
  have htot : total ((p, n) :: l) = n + total l := total_cons _ _
  have htop : h.sp l.length = ⟨p, n, true⟩ := by
    refine hs.entry l.length (p, n) ?_
    rw [List.reverse_cons, List.getElem?_append_right (by simp)]
    simp
  have hlen : ((p, n) :: l).length = l.length + 1 := rfl
  have hlu : l.length < h.used := by rcases hs.rest with ⟨h1, _⟩ | ⟨h1, _⟩ <;> omega
  -- the index found
  obtain ⟨i, hf, hiu, hisp⟩ := find_held hs.inv (p := p) (n := n) List.mem_cons_self
  have hil : i = l.length := by
    by_contra e
    have := hs.inv.disj i l.length hiu hlu e
    rw [hisp, htop] at this; dsimp only at this; omega
  subst hil
  have hrel : ∀ j, j ≠ l.length → (h.release l.length).sp j = h.sp j := fun j hj => upd_other _ _ hj
  have hrel0 : (h.release l.length).sp l.length = ⟨p, n, false⟩ := by
    show (upd h.sp l.length _) l.length = _; rw [upd_same, htop]
  have hentry : ∀ j, j < l.length → (h.sp j).allocated = true := fun j hj =>
    entry_alloc hs (by rw [hlen]; omega)
  have hentry' : ∀ i b, l.reverse[i]? = some b → i < l.length ∧ h.sp i = ⟨b.1, b.2, true⟩ := by
    intro i b hb
    have hi : i < l.reverse.length := by
      by_contra h0
      rw [List.getElem?_eq_none (by omega)] at hb; cases hb
    refine ⟨by simpa using hi, hs.entry i b ?_⟩
    rw [List.reverse_cons, List.getElem?_append_left hi]; exact hb
  have hlive : ((p, n) :: l).filter (fun b => b.1 ≠ p) = l := by
    have hnd := hs.inv.nodup
    rw [List.pairwise_cons] at hnd
    rw [List.filter_cons_of_neg (by simp)]
    rw [List.filter_eq_self]
    intro b hb; simpa using Ne.symm (hnd.1 b hb)
  suffices hgoal : CleanMerge c h.used (h.release l.length) l.length ∧
      (∀ i b, l.reverse[i]? = some b → (merge c h.used (h.release l.length) l.length).sp i = ⟨b.1, b.2, true⟩) ∧
      (merge c h.used (h.release l.length) l.length).used = l.length + 1 ∧
      (merge c h.used (h.release l.length) l.length).sp l.length = ⟨total l, c.mem - total l, false⟩ ∧
      (∀ j, l.length + 1 ≤ j → j ≤ c.nb → Harmless c ((merge c h.used (h.release l.length) l.length).sp j)) by
    obtain ⟨g1, g2, g3, g4, g5⟩ := hgoal
    have hcl : Clean c h (.free p) := by
      intro i hi; rw [hf] at hi; cases hi; exact g1
    have hfree : h.free c p = merge c h.used (h.release l.length) l.length := by
      unfold free; rw [hf]
    refine ⟨hcl, ?_⟩
    have hinv := step_inv hc hs.inv (op := .free p) ⟨n, List.mem_cons_self⟩ hcl
    have hinv : Inv c (h.free c p) (((p, n) :: l).filter fun b => b.1 ≠ p) := hinv
    rw [hlive] at hinv
    rw [hfree] at hinv ⊢
    have hle : total l < c.mem := by
      have := hs.inv.inside _ hlu; rw [htop] at this; dsimp only at this; omega
    exact ⟨hinv, hs.chain.2.2, g2, Or.inl ⟨g3, hle, g4⟩, fun j h1 h2 => g5 j (by rw [g3] at h1; exact h1) h2⟩
  rcases hs.rest with ⟨hu, hlt, hr⟩ | ⟨hu, hfull⟩
  · rw [hlen] at hu hr
    rw [htot] at hlt hr
    have hsm := hc.small
    have hnei : (h.release l.length).neighbour l.length = some (l.length + 1) := by
      have hrr : (h.release l.length).sp (l.length + 1) = h.sp (l.length + 1) := hrel _ (by omega)
      cases hne : (h.release l.length).neighbour l.length with
      | none =>
        unfold neighbour at hne
        rw [List.find?_eq_none] at hne
        have := hne (l.length + 1) (List.mem_range.mpr (by show _ < h.used; omega))
        rw [hrr, hrel0, hr] at this
        exfalso
        apply this
        have e : n + total l = fin (⟨p, n, false⟩ : Space) := by
          unfold fin; dsimp only; rw [Nat.mod_eq_of_lt (by omega)]; omega
        dsimp only
        rw [← e]; simp
      | some j =>
        obtain ⟨h1, h2, h3, _⟩ := neighbour_some hne
        have h1 : j < h.used := h1
        rw [hrel j h2] at h3
        have : ¬ j < l.length := by intro h4; rw [hentry j h4] at h3; cases h3
        congr 1; omega
    have hbr : ¬ ((h.release l.length).sp l.length).start = fin ((h.release l.length).sp (l.length + 1)) := by
      rw [hrel0, hrel _ (by omega), hr]
      unfold fin; dsimp only
      rw [Nat.mod_eq_of_lt (by omega)]; omega
    -- the state after the first merge
    generalize hh1 : ((h.release l.length).grow l.length (l.length + 1)).delete c (l.length + 1) = h1
    have v1 : ∀ j, j < l.length → h1.sp j = h.sp j := by
      intro j hj; rw [← hh1]
      show (if l.length + 1 ≤ j ∧ j < c.nb then _ else (upd (h.release l.length).sp l.length _) j) = _
      rw [if_neg (by omega), upd_other _ _ (by omega), hrel j (by omega)]
    have v2 : h1.sp l.length = ⟨p, c.mem - p, false⟩ := by
      rw [← hh1]
      show (if l.length + 1 ≤ l.length ∧ l.length < c.nb then _ else (upd (h.release l.length).sp l.length _) l.length) = _
      rw [if_neg (by omega), upd_same, hrel0, hrel _ (by omega), hr]
      dsimp only
      rw [Nat.mod_eq_of_lt (by omega)]
      congr 1; omega
    have v3 : ∀ j, l.length + 1 ≤ j → j ≤ c.nb → Harmless c (h1.sp j) := by
      intro j hj1 hj2; rw [← hh1]
      show Harmless c (if l.length + 1 ≤ j ∧ j < c.nb then (upd (h.release l.length).sp l.length _) (j + 1)
        else (upd (h.release l.length).sp l.length _) j)
      split
      · rw [upd_other _ _ (by omega), hrel _ (by omega)]
        exact hs.stale (j + 1) (by omega) (by omega)
      · rw [upd_other _ _ (by omega), hrel _ (by omega)]
        exact hs.stale j (by omega) (by omega)
    have v4 : h1.used = l.length + 1 := by
      rw [← hh1]; show h.used - 1 = _; omega
    -- the second call does nothing
    have hnone : h1.used ≠ 1 → h1.neighbour (l.length + 1) = none := by
      intro hu1
      apply neighbour_none
      intro j hj1 hj2 hj3
      have : ¬ j < l.length := by
        intro h4; rw [v1 j h4, hentry j h4] at hj3; cases hj3
      have : j = l.length := by omega
      subst this
      have hst := v3 (l.length + 1) (by omega) (by omega)
      rw [v2]
      have hpm : p + (c.mem - p) = c.mem := by omega
      have e : fin (⟨p, c.mem - p, false⟩ : Space) = c.mem := by
        unfold fin; dsimp only; rw [hpm, Nat.mod_eq_of_lt hsm]
      rw [e]
      refine ⟨hst.1, ?_⟩
      dsimp only
      have hp0 : 0 < p := by
        cases l with
        | nil => simp at v4; omega
        | cons b l' =>
          have := hs.chain.2.2.2.1
          rw [hp, total_cons]; omega
      rcases hst.2 with h0 | h0 <;> omega
    have hm1 : ∀ f, merge c f h1 (l.length + 1) = h1 := by
      intro f
      cases f with
      | zero => rfl
      | succ f =>
        unfold merge
        by_cases hu1 : h1.used = 1
        · rw [if_pos hu1]
        · rw [if_neg hu1, hnone hu1]
    have hc1 : ∀ f, CleanMerge c f h1 (l.length + 1) := by
      intro f
      cases f with
      | zero => trivial
      | succ f =>
        unfold CleanMerge
        by_cases hu1 : h1.used = 1
        · exact Or.inl hu1
        · rw [hnone hu1]; exact Or.inr trivial
    obtain ⟨f, hfu⟩ : ∃ f, h.used = f + 1 := ⟨h.used - 1, by omega⟩
    have hru : (h.release l.length).used = h.used := rfl
    have hm : merge c h.used (h.release l.length) l.length = h1 := by
      rw [hfu]
      unfold merge
      rw [if_neg (by rw [hru]; omega), hnei]
      dsimp only
      rw [if_neg hbr, hh1, hm1]
    rw [hm]
    refine ⟨?_, ?_, v4, ?_, v3⟩
    · rw [hfu]
      unfold CleanMerge
      rw [hnei]
      refine Or.inr ⟨⟨hlu, by rw [hrel0]⟩, ?_⟩
      rw [if_neg hbr, hh1]; exact hc1 f
    · intro i b hb
      obtain ⟨h1', h2'⟩ := hentry' i b hb
      rw [v1 i h1', h2']
    · rw [v2, hp]
  · rw [hlen] at hu
    rw [htot] at hfull
    have hnone : (h.release l.length).neighbour l.length = none := by
      apply neighbour_none
      intro j hj1 hj2 hj3
      have hj1 : j < h.used := hj1
      rw [hrel j hj2, hentry j (by omega)] at hj3; cases hj3
    have hm : ∀ f, merge c f (h.release l.length) l.length = h.release l.length := by
      intro f
      cases f with
      | zero => rfl
      | succ f => unfold merge; rw [hnone]; split <;> rfl
    rw [hm]
    refine ⟨?_, ?_, hu, ?_, ?_⟩
    · rw [hu]; unfold CleanMerge; rw [hnone]; exact Or.inr trivial
    · intro i b hb
      obtain ⟨h1', h2'⟩ := hentry' i b hb
      rw [hrel i (by omega), h2']
    · rw [hrel0, hp]; congr 1; omega
    · intro j h1 h2
      rw [hrel j (by omega)]; exact hs.stale j (by omega) h2

theorem run_stack {c : HeapCfg} (hc : HCfgOk c) : ∀ (ops : List Op) (x : Heap × List (Nat × Nat)),
    Stack c x.1 x.2 → Always (fun l o => Legal l o ∧ Lifo l o) c x ops →
    Stack c (run c x ops).1 (run c x ops).2 := by
  intro ops
  induction ops with
  | nil => intro x hi _; exact hi
  | cons op ops ih =>
    intro x hs hl
    refine ih _ ?_ hl.2
    obtain ⟨⟨hl1, hl2⟩, _⟩ := hl
    cases op with
    | alloc n =>
      obtain ⟨h', ha, h1, h2⟩ := stack_allocate hc hs hl1
      show Stack c (step c x (.alloc n)).1.1 (step c x (.alloc n)).1.2
      unfold step
      dsimp only
      rw [ha]
      by_cases e : total x.2 + n ≤ c.mem ∧ x.2.length + 2 < c.nb
      · rw [if_pos e]; exact h2 e
      · rw [if_neg e]; dsimp only; rw [h1 e]; exact hs
    | free p =>
      obtain ⟨n, l, hx⟩ := hl2
      have hs' := hs
      rw [hx] at hs'
      have := (stack_free hc hs').2
      show Stack c (x.1.free c p) (x.2.filter fun b => b.1 ≠ p)
      have hlive : x.2.filter (fun b => b.1 ≠ p) = l := by
        rw [hx]
        have hnd := hs'.inv.nodup
        rw [List.pairwise_cons] at hnd
        rw [List.filter_cons_of_neg (by simp), List.filter_eq_self]
        intro b hb; simpa using Ne.symm (hnd.1 b hb)
      rw [hlive]; exact this

/-- C39 for the programs that free blocks in the reverse order of their allocation (if the memory behind the table
cannot be taken for a space, which holds in particular for zeroes). -/
theorem C39_lifo_partial {c : HeapCfg} (hc : HCfgOk c) {g : Space} (hg : Harmless c g) (ops : List Op)
    (hl : Always (fun l o => Legal l o ∧ Lifo l o) c (init c g, []) ops) :
    Sound c (run c (init c g, []) ops).2 :=
  (run_stack hc ops _ (init_stack hc hg) hl).inv.sound

/-- C40 for the same programs: at any moment an allocation of `n > 0` bytes succeeds exactly when at most `nb - 3`
blocks are held and together with them `n` bytes fit in the heap.  In particular, once everything is freed, the
whole heap can be allocated again. -/
theorem C40_lifo_partial {c : HeapCfg} (hc : HCfgOk c) {g : Space} (hg : Harmless c g) (ops : List Op)
    (hl : Always (fun l o => Legal l o ∧ Lifo l o) c (init c g, []) ops) (n : Nat) (hn : 0 < n) :
    let x := run c (init c g, []) ops
    (x.1.allocate c n).2.isSome = true ↔ total x.2 + n ≤ c.mem ∧ x.2.length + 2 < c.nb := by
  intro x
  obtain ⟨h', ha, _⟩ := stack_allocate hc (run_stack hc ops _ (init_stack hc hg) hl) hn
  have ha : x.1.allocate c n = _ := ha
  rw [ha]
  by_cases e : total x.2 + n ≤ c.mem ∧ x.2.length + 2 < c.nb
  · dsimp only; rw [if_pos e]; simpa using e
  · dsimp only; rw [if_neg e]; simpa using e

/-- C40 in every state whatsoever, without a condition on the program: an allocation succeeds exactly when less
than `nb - 1` entries are in use and one of them is a free space of at least the size asked for; it fails without
any effect; the block given is the beginning of a space that was free. -/
theorem C40_decision_partial (c : HeapCfg) (h : Heap) (n : Nat) :
    ((h.allocate c n).2.isSome = true ↔
      h.used < c.nb - 1 ∧ ∃ i, i < h.used ∧ (h.sp i).allocated = false ∧ n ≤ (h.sp i).size) ∧
    ((h.allocate c n).2 = none → (h.allocate c n).1 = h) ∧
    ∀ p, (h.allocate c n).2 = some p →
      ∃ i, i < h.used ∧ (h.sp i).allocated = false ∧ n ≤ (h.sp i).size ∧ p = (h.sp i).start ∧
        (h.allocate c n).1.sp i = ⟨p, n, true⟩ := by
  unfold allocate
  by_cases hu : h.used ≥ c.nb - 1
  · rw [if_pos hu]
    exact ⟨by simp; omega, fun _ => rfl, fun p hp => by cases hp⟩
  rw [if_neg hu]
  cases hf : h.fit n with
  | none =>
    refine ⟨?_, fun _ => rfl, fun p hp => by cases hp⟩
    simp only [Option.isSome_none, Bool.false_eq_true, false_iff]
    rintro ⟨_, i, h1, h2, h3⟩
    have := fit_none hf i h1 h2
    omega
  | some i =>
    obtain ⟨h1, h2, h3⟩ := fit_some hf
    dsimp only
    by_cases hs : (h.sp i).size = n
    · rw [if_pos hs]
      refine ⟨⟨fun _ => ⟨by omega, i, h1, h2, h3⟩, fun _ => rfl⟩, (fun hp => by cases hp), ?_⟩
      intro p hp
      cases hp
      exact ⟨i, h1, h2, h3, rfl, by simp [hs]⟩
    · rw [if_neg hs]
      refine ⟨⟨fun _ => ⟨by omega, i, h1, h2, h3⟩, fun _ => rfl⟩, (fun hp => by cases hp), ?_⟩
      intro p hp
      cases hp
      refine ⟨i, h1, h2, h3, rfl, ?_⟩
      show (upd (upd h.sp i _) h.used _) i = _
      rw [upd_other _ _ (by omega), upd_same]

/-- C63: when the product fits in 32 bits, `calloc` gives a block of `count * size` bytes or fails, as `malloc`
does. -/
theorem C63_size_partial (c : HeapCfg) (h : Heap) (count size : Nat) (hm : count * size < U32) :
    h.calloc c count size = h.malloc c (count * size) := by
  unfold calloc malloc; rw [Nat.mod_eq_of_lt hm]

/-! ### Programs -/

section Examples

/-- The default configuration. -/
def dflt : HeapCfg := {}

theorem dflt_ok : HCfgOk dflt := ⟨by decide, by decide, by decide⟩

/-- Zeroes behind the table. -/
def z : Space := ⟨0, 0, false⟩

theorem z_harmless : Harmless dflt z := ⟨by decide, Or.inl rfl⟩

instance (live : List (Nat × Nat)) (op : Op) : Decidable (Legal live op) :=
  match op with
  | .alloc n => inferInstanceAs (Decidable (0 < n))
  | .free p => decidable_of_iff (∃ b ∈ live, b.1 = p)
      ⟨fun ⟨b, h1, h2⟩ => ⟨b.2, by rw [← h2]; exact h1⟩, fun ⟨n, h⟩ => ⟨(p, n), h, rfl⟩⟩

instance (live : List (Nat × Nat)) (op : Op) : Decidable (Lifo live op) :=
  match op with
  | .alloc _ => inferInstanceAs (Decidable True)
  | .free p =>
    match live with
    | [] => isFalse (by rintro ⟨n, l, h⟩; cases h)
    | b :: l => decidable_of_iff (b.1 = p)
        ⟨fun h => ⟨b.2, l, by rw [← h]⟩, fun ⟨n, l', h⟩ => by cases h; rfl⟩

/-- Whether a decidable condition holds all along. -/
def alwaysB (P : List (Nat × Nat) → Op → Bool) (c : HeapCfg) : Heap × List (Nat × Nat) → List Op → Bool
  | _, [] => true
  | x, op :: ops => P x.2 op && alwaysB P c (step c x op).1 ops

theorem alwaysB_sound {P : List (Nat × Nat) → Op → Prop} {Q : List (Nat × Nat) → Op → Bool} {c : HeapCfg}
    (hPQ : ∀ l o, Q l o = true → P l o) : ∀ (ops : List Op) (x : Heap × List (Nat × Nat)),
    alwaysB Q c x ops = true → Always P c x ops := by
  intro ops
  induction ops with
  | nil => intro x _; trivial
  | cons op ops ih =>
    intro x h
    simp only [alwaysB, Bool.and_eq_true] at h
    exact ⟨hPQ _ _ h.1, ih _ h.2⟩

/-- A program that meets the premises of `C39_lifo_partial` and `C40_lifo_partial`. -/
def exLifo : List Op :=
  [.alloc 100, .alloc 200, .free 100, .alloc 16284, .alloc 1, .free 100, .alloc 16000, .alloc 300]

example : Always (fun l o => Legal l o ∧ Lifo l o) dflt (init dflt z, []) exLifo :=
  alwaysB_sound (Q := fun l o => decide (Legal l o ∧ Lifo l o)) (fun _ _ h => of_decide_eq_true h) _ _
    (by decide +kernel)

example : (run dflt (init dflt z, []) exLifo).2 = [(100, 16000), (0, 100)] := by decide +kernel

/-- A program that meets the premises of `C39_isolated_partial`: a hole is made, partly filled again. -/
def exHole : List Op :=
  [.alloc 100, .alloc 200, .alloc 300, .alloc 15784, .free 100, .alloc 50, .alloc 150, .free 150, .alloc 10]

def isolatedB (c : HeapCfg) (live : List (Nat × Nat)) : Op → Bool
  | .alloc _ => true
  | .free p => live.all fun b => b.1 != p ||
      ((p == 0 || live.any fun d => d.1 + d.2 == p) && (p + b.2 == c.mem || live.any fun d => d.1 == p + b.2))

theorem isolatedB_sound {c : HeapCfg} {live : List (Nat × Nat)} {op : Op} (h : isolatedB c live op = true) :
    Isolated c live op := by
  cases op with
  | alloc n => trivial
  | free p =>
    intro n hn
    simp only [isolatedB, List.all_eq_true] at h
    have := h _ hn
    simp at this
    obtain ⟨h1, h2⟩ := this
    refine ⟨?_, ?_⟩
    · rcases h1 with h1 | ⟨a, b, h1, h3⟩
      · exact Or.inl h1
      · exact Or.inr ⟨(a, b), h1, h3⟩
    · rcases h2 with h2 | ⟨b, h2⟩
      · exact Or.inl h2
      · exact Or.inr ⟨(p + n, b), h2, rfl⟩

example : Always (fun l o => Legal l o ∧ Isolated dflt l o) dflt (init dflt z, []) exHole :=
  alwaysB_sound (Q := fun l o => decide (Legal l o) && isolatedB dflt l o)
    (fun _ _ h => by
      rw [Bool.and_eq_true] at h
      exact ⟨of_decide_eq_true h.1, isolatedB_sound h.2⟩) _ _ (by decide +kernel)

example : (run dflt (init dflt z, []) exHole).2 = [(150, 10), (100, 50), (600, 15784), (300, 300), (0, 100)] := by decide +kernel

/-- C39 is false of the code: a correct program holds three blocks, frees the second and the first; the third,
still held, is merged into the free space, and the next allocation overlaps it. -/
theorem C39_violated : ∃ ops, Always Legal dflt (init dflt z, []) ops ∧
    ¬ Sound dflt (run dflt (init dflt z, []) ops).2 := by
  refine ⟨[.alloc 100, .alloc 100, .alloc 100, .free 100, .free 0, .alloc 300],
    alwaysB_sound (Q := fun l o => decide (Legal l o)) (fun _ _ h => of_decide_eq_true h) _ _ (by decide +kernel), ?_⟩
  have : (run dflt (init dflt z, []) [.alloc 100, .alloc 100, .alloc 100, .free 100, .free 0, .alloc 300]).2 =
      [(0, 300), (200, 100)] := by decide +kernel
  rw [this]
  rintro ⟨h, _⟩
  rw [List.pairwise_cons] at h
  exact h.1 _ List.mem_cons_self 200 ⟨⟨by decide, by decide⟩, ⟨by decide, by decide⟩⟩

/-- C39 is false of the code for empty blocks: an allocation of 0 bytes and the next one give the same address. -/
theorem C39_zero_violated :
    (run dflt (init dflt z, []) [.alloc 0, .alloc 10]).2 = [(0, 10), (0, 0)] := by decide +kernel

/-- C40 is false of the code: a correct program frees everything and then cannot allocate the whole heap, nor more
than a part of it. -/
theorem C40_lost_violated : ∃ ops, Always Legal dflt (init dflt z, []) ops ∧
    (run dflt (init dflt z, []) ops).2 = [] ∧
    ((run dflt (init dflt z, []) ops).1.allocate dflt 16384).2 = none :=
  ⟨[.alloc 100, .alloc 100, .alloc 100, .free 0, .free 200, .free 100],
    alwaysB_sound (Q := fun l o => decide (Legal l o)) (fun _ _ h => of_decide_eq_true h) _ _ (by decide +kernel),
    by decide +kernel, by decide +kernel⟩

/-- C40 is false of the code at the end of the table: with `nb = 4` and two blocks held, a third allocation that
fits exactly needs no new entry, and one entry is left besides; it is refused. -/
theorem C40_entry_violated :
    let c : HeapCfg := { mem := 30, nb := 4 }
    ((run c (init c z, []) [.alloc 10, .alloc 10]).1.used, (run c (init c z, []) [.alloc 10, .alloc 10, .alloc 10]).2) =
      (3, [(10, 10), (0, 10)]) := by decide +kernel

/-- C63 is false of the code when the product does not fit: `calloc (2^31 + 1, 2)` succeeds in a heap of 16384 bytes
and gives a block of 2 bytes. -/
theorem C63_overflow_violated :
    ((init dflt z).calloc dflt 2147483649 2).2 = some 0 ∧
      ((init dflt z).calloc dflt 2147483649 2).1.sp 0 = ⟨0, 2, true⟩ := by decide +kernel

end Examples
end Heap
end Pok
