import Verif.Spec.X86
import Mathlib.Tactic.Common

/-!
# x86 segments, boot memory and stacks (C53, C54, C55)
-/

namespace Pok.X86
open X86Spec

theorem put_some {g g' : Gdt} {i : Nat} {d : Desc} (h : put g i d = some g') : i < gdtSize ∧ g' = upd g i d := by
  unfold put at h
  split at h
  · exact ⟨by assumption, by simpa using h.symm⟩
  · cases h

/-- The descriptor written for a segment. -/
def segDesc (d0 : Desc) (base limit type dpl : Nat) : Desc :=
  let d := if limit > 1048576
    then { d0 with limitLow := limit / 4096 % 65536, limitHigh := limit / 268435456 % 16, granularity := true }
    else { d0 with limitLow := limit % 65536, limitHigh := limit / 65536 % 256 % 16, granularity := false }
  { d with baseLow := base % 16777216, baseHigh := base / 16777216 % 256, type := type % 16, dpl := dpl % 4, s := true, present := true }

theorem setSegment_eq (g : Gdt) (i base limit type dpl : Nat) :
    setSegment g i base limit type dpl = put g i (segDesc (g i) base limit type dpl) := rfl

theorem segDesc_base (d0 : Desc) (base' limit type dpl : Nat) (h : base' < U32) :
    base (segDesc d0 base' limit type dpl) = base' := by
  simp only [base, segDesc, U32] at *
  omega

/-- The last offset accepted for a partition of `size` bytes. -/
theorem segDesc_last (d0 : Desc) (base' size type dpl : Nat) (h : size < U32) :
    lastOffset (segDesc d0 base' size type dpl) =
      if size < 1048576 then size else if size = 1048576 then 0 else size / 4096 * 4096 + 4095 := by
  simp only [lastOffset, segDesc]
  by_cases h1 : size > 1048576
  · simp only [if_pos h1, if_true]
    rw [if_neg (show ¬ size < 1048576 by omega), if_neg (show ¬ size = 1048576 by omega)]
    have : size < 4294967296 := h
    omega
  · simp only [if_neg h1]
    have : ¬ (false = true) := by simp
    rw [if_neg this]
    by_cases h2 : size < 1048576
    · rw [if_pos h2]; omega
    · have h3 : size = 1048576 := by omega
      subst h3
      simp

theorem createSpace_desc {nproc pid addr size : Nat} {g g' : Gdt} (h : createSpace nproc g pid addr size = some g') :
    (∃ d0, g' (codeSeg nproc pid) = segDesc d0 addr size typeCode 3) ∧
    (∃ d0, g' (dataSeg nproc pid) = segDesc d0 addr size typeData 3) ∧
    (∀ i, i ≠ codeSeg nproc pid → i ≠ dataSeg nproc pid → g' i = g i) ∧ dataSeg nproc pid < gdtSize := by
  simp only [createSpace, setSegment_eq, Option.bind_eq_some_iff] at h
  obtain ⟨g1, h1, h2⟩ := h
  obtain ⟨_, e1⟩ := put_some h1
  obtain ⟨l2, e2⟩ := put_some h2
  have hne : codeSeg nproc pid ≠ dataSeg nproc pid := by simp [codeSeg, dataSeg]
  subst e2
  refine ⟨⟨g (codeSeg nproc pid), ?_⟩, ⟨g1 (dataSeg nproc pid), upd_same _ _ _⟩, ?_, l2⟩
  · rw [upd_other _ _ hne, e1, upd_same]
  · intro i hi1 hi2
    rw [upd_other _ _ hi2, e1, upd_other _ _ hi1]

theorem createSpace_some (nproc pid addr size : Nat) (g : Gdt) (h : dataSeg nproc pid < gdtSize) :
    ∃ g', createSpace nproc g pid addr size = some g' := by
  have h1 : codeSeg nproc pid < gdtSize := by simp only [codeSeg, dataSeg] at *; omega
  simp [createSpace, setSegment_eq, put, h, h1]

/-- The bytes reached through the segments of a partition, for every base and size (without wrap-around). -/
theorem reaches_iff {nproc pid addr size : Nat} {g g' : Gdt} (h : createSpace nproc g pid addr size = some g')
    (hs : addr + size + 4096 ≤ U32) (a : Nat) :
    (Reaches (g' (codeSeg nproc pid)) a ↔ addr ≤ a ∧ a ≤ addr + (if size < 1048576 then size else if size = 1048576 then 0 else size / 4096 * 4096 + 4095)) ∧
    (Reaches (g' (dataSeg nproc pid)) a ↔ addr ≤ a ∧ a ≤ addr + (if size < 1048576 then size else if size = 1048576 then 0 else size / 4096 * 4096 + 4095)) := by
  obtain ⟨⟨d1, e1⟩, ⟨d2, e2⟩, _, _⟩ := createSpace_desc h
  have hl : size < U32 := by simp only [U32] at *; omega
  have ha : addr < U32 := by simp only [U32] at *; omega
  rw [e1, e2]
  simp only [Reaches, segDesc_base _ _ _ _ _ ha, segDesc_last _ _ _ _ _ hl]
  have hp : ∀ d0 t, (segDesc d0 addr size t 3).present = true := fun _ _ => rfl
  simp only [hp, true_and]
  have hb : (if size < 1048576 then size else if size = 1048576 then 0 else size / 4096 * 4096 + 4095) < size + 4096 := by
    split
    · omega
    · split <;> omega
  generalize (if size < 1048576 then size else if size = 1048576 then 0 else size / 4096 * 4096 + 4095) = top at *
  have key : (∃ off, off ≤ top ∧ a = (addr + off) % 4294967296) ↔ addr ≤ a ∧ a ≤ addr + top := by
    simp only [U32] at *
    constructor
    · rintro ⟨off, h1, h2⟩
      rw [Nat.mod_eq_of_lt (by omega)] at h2
      omega
    · rintro ⟨h1, h2⟩
      exact ⟨a - addr, by omega, by rw [Nat.mod_eq_of_lt (by omega)]; omega⟩
  exact ⟨key, key⟩

/-- A partition that is not exactly one megabyte reaches every byte of its memory, and fewer than 4097 bytes after it (one, below
a megabyte). -/
theorem C53_cover_partial {nproc pid addr size : Nat} {g g' : Gdt} (h : createSpace nproc g pid addr size = some g')
    (hs : addr + size + 4096 ≤ U32) (hm : size ≠ 1048576) (a : Nat) :
    (addr ≤ a ∧ a < addr + size → Reaches (g' (codeSeg nproc pid)) a ∧ Reaches (g' (dataSeg nproc pid)) a) ∧
    (Reaches (g' (codeSeg nproc pid)) a ∨ Reaches (g' (dataSeg nproc pid)) a →
      addr ≤ a ∧ a < addr + size + 4096 ∧ (size < 1048576 → a ≤ addr + size)) := by
  obtain ⟨h1, h2⟩ := reaches_iff h hs a
  rw [h1, h2]
  by_cases hb : size < 1048576
  · simp only [if_pos hb]
    omega
  · simp only [if_neg hb, if_neg hm]
    omega

/-- Violation: the byte after the memory of a partition is reached too, whatever the size. -/
theorem C53_beyond_violated {nproc pid addr size : Nat} {g g' : Gdt} (h : createSpace nproc g pid addr size = some g')
    (hs : addr + size + 4096 ≤ U32) (hm : size ≠ 1048576) : Reaches (g' (dataSeg nproc pid)) (addr + size) := by
  rw [(reaches_iff h hs _).2]
  by_cases hb : size < 1048576
  · simp only [if_pos hb]; omega
  · simp only [if_neg hb, if_neg hm]; omega

/-- Violation: a partition of exactly one megabyte reaches its first byte only. -/
theorem C53_megabyte_violated {nproc pid addr : Nat} {g g' : Gdt} (h : createSpace nproc g pid addr 1048576 = some g')
    (hs : addr + 1048576 + 4096 ≤ U32) (a : Nat) : Reaches (g' (dataSeg nproc pid)) a ↔ a = addr := by
  rw [(reaches_iff h hs a).2]
  simp only [Nat.lt_irrefl, if_false, if_true]
  omega

/-- A table with a partition of 64 kilobytes at 16 megabytes. -/
example : ∃ g', createSpace 1 (fun _ => {}) 0 0x1000000 0x10000 = some g' ∧ 0x1000000 + 0x10000 + 4096 ≤ U32 := by
  obtain ⟨g', h⟩ := createSpace_some 1 0 0x1000000 0x10000 (fun _ => {}) (by decide)
  exact ⟨g', h, by decide⟩

/-! ## Enabling and disabling -/

theorem setPresent_some {g g' : Gdt} {i : Nat} {b : Bool} (h : setPresent g i b = some g') :
    i < gdtSize ∧ g' = upd g i { g i with present := b } := put_some h

theorem spaceSwitch_present {nproc old new : Nat} {g g' : Gdt} (h : spaceSwitch nproc g old new = some g') (i : Nat) :
    (g' i).present = (if i = codeSeg nproc new ∨ i = dataSeg nproc new then true
      else if i = codeSeg nproc old ∨ i = dataSeg nproc old then false else (g i).present) := by
  simp only [spaceSwitch, Option.bind_eq_some_iff] at h
  obtain ⟨g1, h1, g2, h2, g3, h3, h4⟩ := h
  obtain ⟨_, e1⟩ := setPresent_some h1
  obtain ⟨_, e2⟩ := setPresent_some h2
  obtain ⟨_, e3⟩ := setPresent_some h3
  obtain ⟨_, e4⟩ := setPresent_some h4
  have k : ∀ (g : Gdt) (j : Nat) (b : Bool) (i : Nat),
      (upd g j { g j with present := b } i).present = if i = j then b else (g i).present := by
    intro g j b i
    by_cases hij : i = j
    · subst hij; simp [upd_same]
    · simp [upd_other _ _ hij, hij]
  rw [e4, k, e3, k, e2, k, e1, k]
  by_cases a1 : i = dataSeg nproc new
  · simp [a1]
  · by_cases a2 : i = codeSeg nproc new
    · simp [a2]
    · by_cases a3 : i = dataSeg nproc old
      · rw [← a3]; simp [a1, a2]
      · by_cases a4 : i = codeSeg nproc old
        · rw [← a4]; simp [a1, a2]
        · simp [a1, a2, a3, a4]

theorem seg_inj {nproc p q : Nat} :
    (codeSeg nproc p = codeSeg nproc q ↔ p = q) ∧ (dataSeg nproc p = dataSeg nproc q ↔ p = q) ∧
    codeSeg nproc p ≠ dataSeg nproc q ∧ dataSeg nproc p ≠ codeSeg nproc q := by
  simp only [codeSeg, dataSeg]
  omega

theorem switch_enabled {nproc old new : Nat} {g g' : Gdt} (h : spaceSwitch nproc g old new = some g') (q : Nat) :
    (q = new → Enabled nproc g' q) ∧ (q ≠ new → q = old → Disabled nproc g' q) ∧
    (q ≠ new → q ≠ old → (Enabled nproc g' q ↔ Enabled nproc g q) ∧ (Disabled nproc g' q ↔ Disabled nproc g q)) := by
  simp only [Enabled, Disabled, spaceSwitch_present h, seg_inj.1, seg_inj.2.1, seg_inj.2.2.1, seg_inj.2.2.2, or_false, false_or]
  refine ⟨?_, ?_, ?_⟩
  · intro e; simp [e]
  · intro e1 e2; simp [e1, e2]; subst e2; simp [e1]
  · intro e1 e2; simp [e1, e2]

/-- While every elected thread belongs to the partition whose window it is, the partition that runs can use its segments, and
every partition that has had a window before cannot use its own. -/
theorem C53_switch_partial {nproc : Nat} {r r' : Run} {es : List Elect} (ht : r.thr = r.cur) (he : Enabled nproc r.gdt r.cur)
    (hl : Loyal r.cur es) (h : r.steps nproc es = some r') :
    Enabled nproc r'.gdt r'.cur ∧ ∀ q, q ∈ r.cur :: windows es → q ≠ r'.cur → Disabled nproc r'.gdt q := by
  suffices H : ∀ (es : List Elect) (r : Run) (past : List Nat), r.thr = r.cur → Enabled nproc r.gdt r.cur →
      (∀ q ∈ past, q ≠ r.cur → Disabled nproc r.gdt q) → Loyal r.cur es → r.steps nproc es = some r' →
      Enabled nproc r'.gdt r'.cur ∧ ∀ q, (q ∈ past ∨ q ∈ r.cur :: windows es) → q ≠ r'.cur → Disabled nproc r'.gdt q by
    have := H es r [] ht he (by simp) hl h
    simpa using this
  clear h hl he ht
  intro es
  induction es with
  | nil =>
    intro r past ht he hp _ h
    simp only [Run.steps, Option.some.injEq] at h
    subst h
    refine ⟨he, ?_⟩
    rintro q (hq | hq) hne
    · exact hp q hq hne
    · simp [windows] at hq
      exact absurd hq hne
  | cons e es ih =>
    intro r past ht he hp hl h
    simp only [Run.steps, Option.bind_eq_some_iff] at h
    obtain ⟨r1, h1, h2⟩ := h
    cases e with
    | within t =>
      simp only [Run.step, Option.some.injEq] at h1
      subst h1
      obtain ⟨e1, hl⟩ := hl
      exact ih { r with thr := t } past e1 he hp hl h2
    | round p t =>
      obtain ⟨e1, hl⟩ := hl
      subst e1
      simp only [Run.step] at h1
      by_cases hc : t = r.cur
      · rw [if_neg (by simpa using hc)] at h1
        simp only [Option.some.injEq] at h1
        subst h1
        have := ih ⟨r.gdt, t, t⟩ past rfl (by simpa [hc] using he) (by simpa [hc] using hp) hl h2
        refine ⟨this.1, fun q hq hne => this.2 q ?_ hne⟩
        rcases hq with hq | hq
        · exact Or.inl hq
        · simp [windows, hc] at hq ⊢
          tauto
      · rw [if_pos (by simpa using hc), ht] at h1
        simp only [Option.map_eq_some_iff] at h1
        obtain ⟨g1, h1, e⟩ := h1
        subst e
        have sw := fun q => switch_enabled h1 q
        have := ih ⟨g1, t, t⟩ (r.cur :: past) rfl ((sw t).1 rfl) (by
          intro q hq hne
          by_cases hqc : q = r.cur
          · exact (sw q).2.1 hne hqc
          · have hq' : q ∈ past := by simpa [hqc] using hq
            exact (((sw q).2.2 hne hqc).2).2 (hp q hq' hqc)) hl h2
        refine ⟨this.1, fun q hq hne => this.2 q ?_ hne⟩
        rcases hq with hq | hq
        · exact Or.inl (List.mem_cons_of_mem _ hq)
        · simp only [windows, List.mem_cons] at hq ⊢
          tauto

theorem step_some (nproc : Nat) (r : Run) (e : Elect) (bound : Nat) (hb : dataSeg nproc bound < gdtSize) (h1 : r.thr ≤ bound)
    (h2 : ∀ p t, e = .round p t → t ≤ bound) : ∃ r', r.step nproc e = some r' := by
  cases e with
  | within t => exact ⟨_, rfl⟩
  | round p t =>
    have h3 := h2 p t rfl
    simp only [Run.step]
    split
    · have a1 : codeSeg nproc r.thr < gdtSize := by simp only [codeSeg, dataSeg] at *; omega
      have a2 : dataSeg nproc r.thr < gdtSize := by simp only [dataSeg] at *; omega
      have a3 : codeSeg nproc t < gdtSize := by simp only [codeSeg, dataSeg] at *; omega
      have a4 : dataSeg nproc t < gdtSize := by simp only [dataSeg] at *; omega
      simp [spaceSwitch, setPresent, put, a1, a2, a3, a4]
    · exact ⟨_, rfl⟩

/-- Three windows on a table where everything is enabled. -/
example : ∃ r', Run.steps 1 ⟨fun _ => { present := true }, 0, 0⟩ [.round 1 1, .within 1, .round 2 2] = some r' ∧
    Loyal 0 [.round 1 1, .within 1, .round 2 2] := by
  refine ⟨_, rfl, ?_⟩
  simp [Loyal]

/-- Violation: after the creation of the partitions all their segments are enabled, so that the first partition to run can use
those of all the others. -/
theorem C53_boot_violated (nproc : Nat) (addr size : Nat → Nat) (n : Nat) (g g' : Gdt)
    (h : createAll nproc addr size n g = some g') : ∀ p, p < n → Enabled nproc g' p := by
  induction n generalizing g' with
  | zero => intro p hp; omega
  | succ n ih =>
    simp only [createAll, Option.bind_eq_some_iff] at h
    obtain ⟨g1, h1, h2⟩ := h
    obtain ⟨⟨d1, e1⟩, ⟨d2, e2⟩, e3, _⟩ := createSpace_desc h2
    intro p hp
    by_cases hpn : p = n
    · subst hpn
      exact ⟨by rw [e1]; rfl, by rw [e2]; rfl⟩
    · have := ih g1 h1 p (by omega)
      have i := @seg_inj nproc p n
      unfold Enabled
      rw [e3 _ (fun hc => hpn (i.1.1 hc)) i.2.2.1, e3 _ i.2.2.2 (fun hc => hpn (i.2.1.1 hc))]
      exact this

/-- Four partitions fit. -/
example : (createAll 1 (fun i => 0x1000000 + i * 0x10000) (fun _ => 0x10000) 4 (fun _ => {})).isSome = true := by decide +kernel

/-- Violation: partition 1 runs, its window ends with the idle thread, and partition 2 gets the next window: the segments of
partition 1 stay enabled while partition 2 runs (from any table). -/
theorem C53_idle_leak_violated (nproc : Nat) (hn : nproc ≤ 64) (g : Gdt) (he : Enabled nproc g 1) :
    ∃ r', Run.steps nproc ⟨g, 1, 1⟩ [.within 0, .round 2 2] = some r' ∧ r'.cur = 2 ∧ Enabled nproc r'.gdt 1 ∧ Enabled nproc r'.gdt 2 := by
  obtain ⟨r', h⟩ := step_some nproc ⟨g, 1, 0⟩ (.round 2 2) 2 (by simp only [dataSeg, gdtSize]; omega) (by simp)
    (by rintro p t e; cases e; exact Nat.le_refl 2)
  simp only [Run.step] at h
  rw [if_pos (by simp)] at h
  simp only [Option.map_eq_some_iff] at h
  obtain ⟨g1, h1, e⟩ := h
  refine ⟨r', by simp [Run.steps, Run.step, h1, e], by rw [← e], ?_, ?_⟩
  · rw [← e]
    exact (((switch_enabled h1 1).2.2 (by simp) (by simp)).1).2 he
  · rw [← e]
    exact (switch_enabled h1 2).1 rfl

/-- Violation: the window of partition 2 starts with the idle thread and a thread of partition 2 is elected later in the window: it
runs with its segments disabled. -/
theorem C53_idle_start_violated (nproc : Nat) (hn : nproc ≤ 64) (g : Gdt) (he : Disabled nproc g 2) :
    ∃ r', Run.steps nproc ⟨g, 1, 1⟩ [.round 2 0, .within 2] = some r' ∧ r'.cur = 2 ∧ r'.thr = 2 ∧ Disabled nproc r'.gdt 2 := by
  obtain ⟨r', h⟩ := step_some nproc ⟨g, 1, 1⟩ (.round 2 0) 2 (by simp only [dataSeg, gdtSize]; omega) (by simp)
    (by rintro p t e; cases e; exact Nat.zero_le 2)
  simp only [Run.step] at h
  rw [if_pos (by simp)] at h
  simp only [Option.map_eq_some_iff] at h
  obtain ⟨g1, h1, e⟩ := h
  refine ⟨{ r' with thr := 2 }, by simp [Run.steps, Run.step, h1, ← e], by rw [← e], rfl, ?_⟩
  rw [← e]
  exact (((switch_enabled h1 2).2.2 (by simp) (by simp)).2).2 he

example : Enabled 1 (fun _ => { present := true }) 1 ∧ Disabled 1 (fun _ => {}) 2 := ⟨⟨rfl, rfl⟩, rfl, rfl⟩

/-! ## Boot memory -/

/-- Regions `[a, a + n)` do not meet. -/
def Apart (x y : Nat × Nat) : Prop := x.1 + x.2 ≤ y.1 ∨ y.1 + y.2 ≤ x.1

theorem sbrks_spec (p : Pm) (ns : List Nat) (h : p.brk + ns.sum < U32) :
    (sbrks p ns).1.map Prod.snd = ns ∧ (sbrks p ns).2.brk = p.brk + ns.sum ∧
    (∀ r ∈ (sbrks p ns).1, p.brk ≤ r.1 ∧ r.1 + r.2 ≤ p.brk + ns.sum) ∧
    (sbrks p ns).1.Pairwise (fun x y => x.1 + x.2 ≤ y.1) := by
  induction ns generalizing p with
  | nil => simp [sbrks]
  | cons n ns ih =>
    simp only [List.sum_cons] at h
    have hb : (p.brk + n) % U32 = p.brk + n := Nat.mod_eq_of_lt (by omega)
    have := ih { p with brk := (p.brk + n) % U32 } (by simp only [hb]; omega)
    simp only [hb] at this
    obtain ⟨h1, h2, h3, h4⟩ := this
    simp only [sbrks, sbrk, hb, List.map_cons, List.sum_cons, List.pairwise_cons]
    refine ⟨by simp [h1], by omega, ?_, ?_, h4⟩
    · intro r hr
      rcases List.mem_cons.1 hr with e | hr
      · subst e; refine ⟨Nat.le_refl _, ?_⟩; simp only; omega
      · have := h3 r hr; omega
    · intro r hr
      exact (h3 r hr).1

/-- The regions given are pairwise disjoint, in the order and with the sizes requested, from the first page after the kernel
(while the total stays below four gigabytes); they are page aligned when every size requested is a multiple of the page. -/
theorem C55_regions_partial (endAddr memUpper : Nat) (ns : List Nat) (h : endAddr + 4095 + ns.sum < U32) :
    let rs := (sbrks (pmInit endAddr memUpper) ns).1
    rs.map Prod.snd = ns ∧ rs.Pairwise Apart ∧ (∀ r ∈ rs, endAddr ≤ r.1) ∧
    ((∀ n ∈ ns, n % 4096 = 0) → ∀ r ∈ rs, r.1 % 4096 = 0) := by
  have hf : (endAddr + 4095) % U32 = endAddr + 4095 := Nat.mod_eq_of_lt (by omega)
  have hb : (pmInit endAddr memUpper).brk = (endAddr + 4095) / 4096 * 4096 := by simp [pmInit, hf]
  obtain ⟨h1, _, h3, h4⟩ := sbrks_spec (pmInit endAddr memUpper) ns (by rw [hb]; omega)
  refine ⟨h1, h4.imp (fun h => Or.inl h), ?_, ?_⟩
  · intro r hr
    have := (h3 r hr).1
    rw [hb] at this
    omega
  · intro hn
    have gen : ∀ (ns : List Nat) (p : Pm), (∀ n ∈ ns, n % 4096 = 0) → p.brk % 4096 = 0 → ∀ r ∈ (sbrks p ns).1, r.1 % 4096 = 0 := by
      intro ns
      induction ns with
      | nil => intro p _ _ r hr; simp [sbrks] at hr
      | cons n ns ih =>
        intro p hn hp r hr
        simp only [sbrks, sbrk] at hr
        rcases List.mem_cons.1 hr with e | hr
        · subst e; exact hp
        · refine ih _ (fun m hm => hn m (List.mem_cons_of_mem _ hm)) ?_ r hr
          have := hn n List.mem_cons_self
          simp only [U32]
          omega
    exact gen ns _ hn (by rw [hb]; omega)

/-- Three requests. -/
example : (sbrks (pmInit 0x123456 65536) [65536, 8192, 100]).1 = [(0x124000, 65536), (0x134000, 8192), (0x136000, 100)] := by
  decide +kernel

/-- Violation: the amount of memory of the machine is never looked at; a machine with 16 megabytes gives a region that ends at 32. -/
theorem C55_memory_violated : ∃ r ∈ (sbrks (pmInit 0x100000 16384) [0x1f00000]).1,
    (pmInit 0x100000 16384).stop = 0x1000000 ∧ r.1 + r.2 = 0x2000000 := by
  refine ⟨(0x100000, 0x1f00000), ?_⟩
  decide +kernel

/-- Violation: after four gigabytes the addresses start again, and the regions overlap the kernel. -/
theorem C55_wrap_violated : (sbrks (pmInit 0x100000 16384) [0xfff00000, 4096]).1 = [(0x100000, 0xfff00000), (0, 4096)] := by
  decide +kernel

/-! ## Stacks -/

/-- The stack of thread `i` is the `stack` bytes below its initial stack pointer: when the memory of the partition is large enough
for the stacks of its threads, they lie inside it and do not meet. -/
theorem C54_stacks_partial (size stack n i j : Nat) (hs : size < U32) (hfit : n * stack + 4 ≤ size) (hi : i < n) (hj : j < n) :
    stack ≤ stackAddr size stack i ∧ stackAddr size stack i ≤ size ∧
    (i ≠ j → Apart (stackAddr size stack i - stack, stack) (stackAddr size stack j - stack, stack)) := by
  have a : ∀ k, k < n → k * stack + stack ≤ n * stack := by
    intro k hk
    have := Nat.mul_le_mul_right stack (show k + 1 ≤ n by omega)
    rw [Nat.add_mul, Nat.one_mul] at this
    exact this
  have e : ∀ k, k < n → stackAddr size stack k = size - 4 - k * stack := by
    intro k hk
    have := a k hk
    unfold stackAddr
    rw [Nat.mod_eq_of_lt (b := U32) (a := k * stack) (by omega)]
    rw [show size + 2 * U32 - 4 - k * stack = (size - 4 - k * stack) + U32 + U32 by omega, Nat.add_mod_right, Nat.add_mod_right]
    exact Nat.mod_eq_of_lt (by omega)
  have ai := a i hi
  have aj := a j hj
  rw [e i hi, e j hj]
  refine ⟨by omega, by omega, ?_⟩
  intro hne
  simp only [Apart]
  rcases Nat.lt_or_gt_of_ne hne with h | h
  · have := Nat.mul_le_mul_right stack (show i + 1 ≤ j by omega)
    rw [Nat.add_mul, Nat.one_mul] at this
    right
    omega
  · have := Nat.mul_le_mul_right stack (show j + 1 ≤ i by omega)
    rw [Nat.add_mul, Nat.one_mul] at this
    left
    omega

example : 4 * 8192 + 4 ≤ 131072 ∧ stackAddr 131072 8192 3 = 131072 - 4 - 3 * 8192 := by decide

/-- Violation: nothing checks that the stacks fit.  With 8 kilobytes each, the third thread of a partition of 16 kilobytes starts
with a stack pointer outside the partition. -/
theorem C54_fit_violated : stackAddr 16384 8192 2 = U32 - 4 := by decide

end Pok.X86
