import Verif.Lemmas.KernelStep
import Verif.Spec.Dispatch
import Verif.Props.ThreadSched

/-! Well-formedness of the kernel state: holds after boot and is kept by every kernel entry. -/

namespace Pok
open Pok.Spec

theorem insertShift_spec (p : Int) (lo : Nat) (hlo : 1 ≤ lo) : ∀ (j : Nat) (T : Threads), lo ≤ j →
    ∃ m, (insertShift T p lo j).2 = m ∧ lo ≤ m ∧ m ≤ j ∧
      (∀ i, i ≠ m → (insertShift T p lo j).1 i = if i < m then T i else if i ≤ j then T (i - 1) else T i) ∧
      (∀ i, m ≤ i → i < j → (T i).period > p) ∧ (lo < m → (T (m - 1)).period ≤ p) := by
  intro j
  induction j with
  | zero => intro T h; omega
  | succ j ih =>
    intro T h
    unfold insertShift
    by_cases hc : j ≥ lo ∧ (T j).period > p
    · rw [if_pos hc]
      obtain ⟨m, h1, h2, h3, h4, h5, h6⟩ := ih (upd T (j + 1) (T j)) hc.1
      refine ⟨m, h1, h2, by omega, ?_, ?_, ?_⟩
      · intro i hi
        rw [h4 i hi]
        by_cases a : i < m
        · simp only [a, if_true]; exact upd_other _ _ (by omega)
        · by_cases b : i ≤ j
          · have b' : i ≤ j + 1 := by omega
            simp only [a, if_false, b, b', if_true]; exact upd_other _ _ (by omega)
          · by_cases d : i = j + 1
            · subst d
              have a' : ¬ (j + 1 < m) := a
              rw [if_neg a', if_neg b, if_neg a', if_pos (Nat.le_refl _), upd_same, Nat.add_sub_cancel]
            · have b' : ¬ i ≤ j + 1 := by omega
              simp only [a, if_false, b, b']; exact upd_other _ _ d
      · intro i hi1 hi2
        by_cases d : i = j
        · subst d; exact hc.2
        · have := h5 i hi1 (by omega)
          rwa [upd_other _ _ (by omega)] at this
      · intro hm
        have := h6 hm
        rwa [upd_other _ _ (by omega)] at this
    · rw [if_neg hc]
      refine ⟨j + 1, rfl, h, Nat.le_refl _, ?_, ?_, ?_⟩
      · intro i hi
        simp only
        by_cases a : i < j + 1
        · simp [a]
        · have : ¬ i ≤ j + 1 := by omega
          simp [a, this]
      · intro i _ _; omega
      · intro hm
        have : ¬ (T j).period > p := fun h' => hc ⟨by omega, h'⟩
        simp only [Nat.add_sub_cancel]
        omega

/-- Insertion: position `m` of the new element, the rest shifted. -/
theorem insertSort_spec (T : Threads) {lo hi : Nat} (hlo : 1 ≤ lo) (h : lo ≤ hi) :
    ∃ m, lo ≤ m ∧ m ≤ hi ∧
      (∀ i, insertSort T lo hi i =
        if i < m then T i else if i = m then T hi else if i ≤ hi then T (i - 1) else T i) ∧
      (∀ i, m ≤ i → i < hi → (T i).period > (T hi).period) ∧
      (lo < m → (T (m - 1)).period ≤ (T hi).period) := by
  obtain ⟨m, h1, h2, h3, h4, h5, h6⟩ := insertShift_spec (T hi).period lo hlo hi T h
  refine ⟨m, h2, h3, ?_, h5, h6⟩
  intro i
  unfold insertSort
  simp only [h1]
  by_cases e : i = m
  · subst e; simp
  · rw [upd_other _ _ e, h4 i e]
    simp [e]

/-- Every entry after insertion is an entry from before. -/
theorem insertSort_mem (T : Threads) {lo hi : Nat} (hlo : 1 ≤ lo) (h : lo ≤ hi) (i : Nat) :
    (¬ (lo ≤ i ∧ i ≤ hi) → insertSort T lo hi i = T i) ∧
    ((lo ≤ i ∧ i ≤ hi) → ∃ j, lo ≤ j ∧ j ≤ hi ∧ insertSort T lo hi i = T j) := by
  obtain ⟨m, h1, h2, h3, _⟩ := insertSort_spec T hlo h
  rw [h3 i]
  constructor
  · intro hn
    split
    · rfl
    · split
      · omega
      · split
        · omega
        · rfl
  · intro hr
    split
    · exact ⟨i, hr.1, hr.2, rfl⟩
    · split
      · exact ⟨hi, h, Nat.le_refl _, rfl⟩
      · split
        · exact ⟨i - 1, by omega, by omega, rfl⟩
        · omega

theorem toI64_ne_zero {n : Nat} (h : n % U64 > 0) : toI64 n ≠ 0 := by
  have hlt : n % U64 < U64 := Nat.mod_lt _ (by decide)
  unfold toI64
  split
  · omega
  · omega

namespace Kernel

/-- Configurations: every partition has a thread, there is room for the idle and kernel threads,
identifiers fit 8 bits, the schedule names existing partitions. -/
structure CfgOk (c : Config) : Prop where
  parts : 0 < c.nbParts
  procs : 0 < c.nbProcs
  threads : ∀ p < c.nbParts, 0 < c.nthreads p
  room : prefixSum c.nthreads c.nbParts + c.nbProcs + 1 ≤ c.nbThreads
  small : c.nbThreads ≤ 256
  nslots : 0 < c.nbSlots
  alloc : ∀ i < c.nbSlots, c.alloc i < c.nbParts

theorem prefixSum_mono (f : Nat → Nat) {a b : Nat} (h : a ≤ b) : prefixSum f a ≤ prefixSum f b := by
  induction h with
  | refl => exact Nat.le_refl _
  | step _ ih => exact Nat.le_trans ih (by simp [prefixSum])

theorem prefixSum_le (f : Nat → Nat) {p n : Nat} (h : p < n) : prefixSum f p + f p ≤ prefixSum f n :=
  prefixSum_mono f (a := p + 1) h

/-- Well-formed partition record. -/
structure PartWf (c : Config) (p : Nat) (P : Part) : Prop where
  low : P.low = prefixSum c.nthreads p
  high : P.high = P.low + c.nthreads p
  nth : P.nthreads = c.nthreads p
  sched : P.sched = c.policy p
  mainProc : procRealId (c.affinity p) 0 = some P.mainProc
  main : P.low ≤ P.threadMain ∧ P.threadMain < P.high
  err : P.threadError = 0 ∨ (P.low ≤ P.threadError ∧ P.threadError < P.high)
  cur : ∀ q < c.nbProcs, Recorded (idle c q) P.low P.high (P.cur q)
  prev : ∀ q < c.nbProcs, Recorded (idle c q) P.low P.high (P.prev q)
  act : P.activation = 0

/-- Well-formed kernel state. -/
structure Wf (c : Config) (k : Kernel) : Prop where
  part : ∀ p < c.nbParts, PartWf c p (k.P p)
  curPart : k.curPart < c.nbParts
  cap : ∀ i < prefixSum c.nthreads c.nbParts, (k.T i).timeCapacity ≠ 0
  aff : c.multi = 0 → ∀ i < prefixSum c.nthreads c.nbParts, (k.T i).affinity = 0

theorem PartWf.range {c p P} (hc : CfgOk c) (hp : p < c.nbParts) (h : PartWf c p P) :
    P.low < P.high ∧ P.high ≤ prefixSum c.nthreads c.nbParts := by
  have := hc.threads p hp
  have := prefixSum_le c.nthreads hp
  have := h.low
  have := h.high
  omega

theorem idle_not_in_range {c p P q} (hc : CfgOk c) (hp : p < c.nbParts) (h : PartWf c p P) (hq : q < c.nbProcs) :
    P.high ≤ idle c q := by
  have := h.range hc hp
  have := hc.room
  unfold idle
  omega

/-- A choice made in a well-formed state is recorded correctly and fits 8 bits. -/
theorem choose_recorded {c proc k T p T' e} (hc : CfgOk c) (hp : p < c.nbParts) (hq : proc < c.nbProcs)
    (hP : PartWf c p (k.P p)) (h : choose c proc k T p = some (T', e)) :
    Recorded (idle c proc) (k.P p).low (k.P p).high e := by
  have hr := hP.range hc hp
  unfold choose at h
  simp only at h
  have main : Recorded (idle c proc) (k.P p).low (k.P p).high (k.P p).threadMain := Or.inr hP.main
  split at h
  · split at h <;> (simp at h; rw [← h.2])
    · exact main
    · exact Or.inl rfl
  · split at h <;> (simp at h; rw [← h.2])
    · exact main
    · exact Or.inl rfl
  · split at h
    · rename_i hcur
      simp at h
      rw [← h.2, ← hcur.1]
      exact hP.cur proc hq
    · split at h
      · simp at h
      · rename_i e' he'
        simp at h
        obtain ⟨e2, h2, hg⟩ := C04_policies (k.P p).sched (T := account c proc k T) (proc := proc)
          (idle := idle c proc) hr.1 (hP.prev proc hq) (hP.cur proc hq)
        rw [he'] at h2
        injection h2 with h2
        rw [← h.2, h2]
        rcases hg with hg | hg
        · exact Or.inr hg.1
        · exact Or.inl hg.1
  · simp at h; rw [← h.2]; exact Or.inl rfl

theorem recorded_lt {c p P q e} (hc : CfgOk c) (hp : p < c.nbParts) (hq : q < c.nbProcs) (hP : PartWf c p P)
    (h : Recorded (idle c q) P.low P.high e) : e < 256 := by
  have := hP.range hc hp
  have := hc.room
  have := hc.small
  rcases h with h | h
  · unfold idle at h; omega
  · omega

theorem wf_sched {c proc now k k'} (hc : CfgOk c) (hq : proc < c.nbProcs) (hw : Wf c k)
    (h : schedThread c proc now k = some k') : Wf c k' := by
  obtain ⟨k1, e, he, hT, hps, hcur, hP, _⟩ := sched_parts h
  have hst := elect_static he
  obtain ⟨p1, p2, p3, p4⟩ := elect_P he
  have hcp1 : k1.curPart = k.curPart := by unfold curPart; rw [p3]
  have hwp := hw.part _ hw.curPart
  have hrec : Recorded (idle c proc) (k.P k.curPart).low (k.P k.curPart).high e := by
    obtain ⟨T1, T2, _, _, h2, _⟩ := elect_parts he
    exact choose_recorded hc hw.curPart hq hwp h2
  have hmod : e % 256 = e := Nat.mod_eq_of_lt (recorded_lt hc hw.curPart hq hwp hrec)
  rw [hmod] at hP
  refine ⟨?_, ?_, ?_, ?_⟩
  · intro p hp
    rw [hP]
    obtain ⟨r1, r2, r3, r4, r5⟩ := record_P c proc k1 e p
    by_cases hpc : p = k.curPart
    · subst hpc
      rw [hcp1] at r4 r5
      rw [p1] at r1 r3 r5
      have w := hw.part _ hp
      have hcurq : ∀ q < c.nbProcs, Recorded (idle c q) (k.P k.curPart).low (k.P k.curPart).high
          (((record c proc k1 e).P k.curPart).cur q) := by
        intro q hq'
        by_cases hqq : q = proc
        · subst hqq; rw [r4]; exact hrec
        · rw [(r3 q hqq).1]; exact w.cur q hq'
      have hprevq : ∀ q < c.nbProcs, Recorded (idle c q) (k.P k.curPart).low (k.P k.curPart).high
          (((record c proc k1 e).P k.curPart).prev q) := by
        intro q hq'
        by_cases hqq : q = proc
        · subst hqq; rw [r5]
          split
          · exact w.cur q hq'
          · exact w.prev q hq'
        · rw [(r3 q hqq).2]; exact w.prev q hq'
      rw [r1]
      exact ⟨w.low, w.high, w.nth, w.sched, w.mainProc, w.main, w.err, hcurq, hprevq, w.act⟩
    · rw [r2 (by rw [hcp1]; exact hpc), p1]
      exact hw.part p hp
  · unfold curPart; rw [hps]; exact hw.curPart
  · intro i hi
    rw [hT, (hst i).timeCapacity]
    exact hw.cap i hi
  · intro hm i hi
    rw [hT, (hst i).affinity]
    exact hw.aff hm i hi

theorem electPartition_part {c : SlotTable} {s : PSched} {now : Nat} (hn : 0 < c.nbSlots)
    (ha : ∀ i < c.nbSlots, c.alloc i < c.nbParts) (h : s.part < c.nbParts) :
    (electPartition c s now).1.part < c.nbParts := by
  unfold electPartition
  split
  · exact h
  · split
    · exact ha _ (Nat.mod_lt _ hn)
    · exact h

theorem wf_switch {c now k} (hc : CfgOk c) (hw : Wf c k) : Wf c (switchPartition c now k) :=
  ⟨hw.part, electPartition_part hc.nslots hc.alloc hw.curPart, hw.cap, hw.aff⟩

theorem wf_then {c proc now k k'} (hc : CfgOk c) (hq : proc < c.nbProcs) (hw : Wf c k)
    (h : Then c proc now k k') : Wf c k' := by
  rcases h with rfl | h | h
  · exact hw
  · exact wf_sched hc hq hw h
  · exact wf_sched hc hq (wf_switch hc hw) h

theorem newThread_cap (t : Thread) (a : ThreadAttr) (pid aff stack : Nat) :
    (newThread t a pid aff stack).timeCapacity ≠ 0 := by
  unfold newThread
  simp only
  by_cases h : a.timeCapacity % U64 > 0
  · rw [if_pos h]; exact toI64_ne_zero h
  · rw [if_neg h]; simp

theorem created_T {c k a pid aff} (h : (k.P pid).low + (k.P pid).index < (k.P pid).high) (i : Nat) :
    (¬ ((k.P pid).low ≤ i ∧ i < (k.P pid).high) → (created c k a pid aff).T i = k.T i) ∧
    ((created c k a pid aff).T i =
        newThread (k.T ((k.P pid).low + (k.P pid).index)) a pid aff (c.stackAddr pid ((k.P pid).index + 1)) ∨
      ∃ j, (((k.P pid).low ≤ j ∧ j < (k.P pid).high) ∨ j = i) ∧ (created c k a pid aff).T i = k.T j) := by
  have key : ∀ j, upd k.T ((k.P pid).low + (k.P pid).index)
      (newThread (k.T ((k.P pid).low + (k.P pid).index)) a pid aff (c.stackAddr pid ((k.P pid).index + 1))) j =
      (if j = (k.P pid).low + (k.P pid).index then
        newThread (k.T ((k.P pid).low + (k.P pid).index)) a pid aff (c.stackAddr pid ((k.P pid).index + 1))
      else k.T j) := fun j => rfl
  unfold created
  simp only
  split
  · rename_i hr
    obtain ⟨m1, m2⟩ := insertSort_mem (upd k.T ((k.P pid).low + (k.P pid).index)
      (newThread (k.T ((k.P pid).low + (k.P pid).index)) a pid aff (c.stackAddr pid ((k.P pid).index + 1))))
      (lo := (k.P pid).low + 1) (hi := (k.P pid).low + (k.P pid).index) (by omega) (by omega) i
    by_cases hi : (k.P pid).low + 1 ≤ i ∧ i ≤ (k.P pid).low + (k.P pid).index
    · refine ⟨fun hn => absurd ⟨by omega, by omega⟩ hn, ?_⟩
      obtain ⟨j, hj1, hj2, hj3⟩ := m2 hi
      rw [hj3, key]
      split
      · exact Or.inl rfl
      · exact Or.inr ⟨j, Or.inl ⟨by omega, by omega⟩, rfl⟩
    · rw [m1 hi, key]
      refine ⟨fun hn => if_neg (by omega), ?_⟩
      split
      · exact Or.inl rfl
      · exact Or.inr ⟨i, Or.inr rfl, rfl⟩
  · rw [key]
    refine ⟨fun hn => if_neg (by omega), ?_⟩
    split
    · exact Or.inl rfl
    · exact Or.inr ⟨i, Or.inr rfl, rfl⟩

theorem wf_created {c k a pid aff} (hw : Wf c k) (hc : CfgOk c) (hp : pid < c.nbParts)
    (h : (k.P pid).low + (k.P pid).index < (k.P pid).high)
    (ha : if c.multi ≠ 0 then aff < c.multi else aff = 0) : Wf c (created c k a pid aff) := by
  refine ⟨?_, hw.curPart, ?_, ?_⟩
  · intro p hp
    show PartWf c p (upd k.P pid _ p)
    by_cases e : p = pid
    · subst e
      rw [upd_same]
      have w := hw.part _ hp
      exact ⟨w.low, w.high, w.nth, w.sched, w.mainProc, w.main, w.err, w.cur, w.prev, w.act⟩
    · rw [upd_other _ _ e]; exact hw.part p hp
  · intro i hi
    rcases (created_T (c := c) (a := a) (aff := aff) h i).2 with h1 | ⟨j, hj, h1⟩
    · rw [h1]; exact newThread_cap _ _ _ _ _
    · rw [h1]
      apply hw.cap
      rcases hj with hj | rfl
      · have := (hw.part pid hp).range hc hp
        omega
      · exact hi
  · intro hm i hi
    rcases (created_T (c := c) (a := a) (aff := aff) h i).2 with h1 | ⟨j, hj, h1⟩
    · rw [h1]
      rw [if_neg (by simpa using hm)] at ha
      exact ha
    · rw [h1]
      apply hw.aff hm
      rcases hj with hj | rfl
      · have := (hw.part pid hp).range hc hp
        omega
      · exact hi

theorem wf_setT {c k i t} (hw : Wf c k) (h : t.timeCapacity = (k.T i).timeCapacity)
    (ha : t.affinity = (k.T i).affinity) : Wf c (k.setT i t) := by
  refine ⟨hw.part, hw.curPart, ?_, ?_⟩
  intro j hj
  show (upd k.T i t j).timeCapacity ≠ 0
  by_cases e : j = i
  · subst e; rw [upd_same, h]; exact hw.cap j hj
  · rw [upd_other _ _ e]; exact hw.cap j hj
  intro hm j hj
  show (upd k.T i t j).affinity = 0
  by_cases e : j = i
  · subst e; rw [upd_same, ha]; exact hw.aff hm j hj
  · rw [upd_other _ _ e]; exact hw.aff hm j hj

theorem wf_setP {c k p P} (hw : Wf c k) (h : p < c.nbParts → PartWf c p P) : Wf c (k.setP p P) := by
  refine ⟨?_, hw.curPart, hw.cap, hw.aff⟩
  intro q hq
  show PartWf c q (upd k.P p P q)
  by_cases e : q = p
  · subst e; rw [upd_same]; exact h hq
  · rw [upd_other _ _ e]; exact hw.part q hq

theorem release_static (c now act t) : SameStatic t { release c now act t with wakeup := t.wakeup } := by
  unfold release
  simp only
  split
  · exact ⟨rfl, rfl, rfl, rfl, rfl, rfl, rfl, rfl, rfl, rfl, rfl⟩
  · split
    · split <;> exact ⟨rfl, rfl, rfl, rfl, rfl, rfl, rfl, rfl, rfl, rfl, rfl⟩
    · split
      · split <;> exact ⟨rfl, rfl, rfl, rfl, rfl, rfl, rfl, rfl, rfl, rfl, rfl⟩
      · exact ⟨rfl, rfl, rfl, rfl, rfl, rfl, rfl, rfl, rfl, rfl, rfl⟩

theorem releaseLoop_spec (c now act) : ∀ (n i : Nat) (T : Threads) (j : Nat),
    releaseLoop c now act T i n j = if i ≤ j ∧ j < i + n then release c now act (T j) else T j := by
  intro n
  induction n with
  | zero => intro i T j; rw [releaseLoop, if_neg (by omega)]
  | succ n ih =>
    intro i T j
    rw [releaseLoop, ih]
    by_cases h : j = i
    · subst h
      rw [if_neg (by omega), if_pos (by omega), upd_same]
    · rw [upd_other _ _ h]
      by_cases h2 : i + 1 ≤ j ∧ j < i + 1 + n
      · rw [if_pos h2, if_pos (by omega)]
      · rw [if_neg h2, if_neg (by omega)]

theorem setup_parts {c k pid k'} (h : setupMainThread c k pid = some k') :
    ∃ k1 id a, threadCreate c k a pid = some (k1, .ok, some id) ∧ a.entry = (k.P pid).mainEntry ∧
      a.affinity = 0 ∧ a.period = U64 - 1 ∧ a.timeCapacity = U64 - 1 ∧ a.deadline = 0 ∧ a.priority = 1 ∧
      k' = k1.setP pid { k1.P pid with threadMain := id } := by
  unfold setupMainThread at h
  split at h
  · rename_i k1 id hk
    injection h with h
    exact ⟨k1, id, _, hk, rfl, rfl, rfl, rfl, rfl, rfl, h.symm⟩
  · simp at h

theorem wf_activate {c proc k} (hw : Wf c k) : Wf c (activateError proc k) := by
  unfold activateError
  simp only
  split
  · refine ⟨hw.part, hw.curPart, ?_, ?_⟩
    · intro j hj
      show (upd k.T _ _ j).timeCapacity ≠ 0
      rw [upd_apply]
      split
      · rename_i e; subst e; exact hw.cap _ hj
      · exact hw.cap j hj
    · intro hm j hj
      show (upd k.T _ _ j).affinity = 0
      rw [upd_apply]
      split
      · rename_i e; subst e; exact hw.aff hm _ hj
      · exact hw.aff hm j hj
  · exact hw

theorem create_ok {c k a pid k1 id} (h : threadCreate c k a pid = some (k1, .ok, some id)) :
    id = (k.P pid).low + (k.P pid).index ∧ id < (k.P pid).high ∧
      ((k.P pid).mode = .initCold ∨ (k.P pid).mode = .initWarm) ∧
      ∃ aff, procRealId (c.affinity pid) a.affinity = some aff ∧
        (if c.multi ≠ 0 then aff < c.multi else aff = 0) ∧ k1 = created c k a pid aff := by
  rcases create_spec h with ⟨_, h2, _⟩ | ⟨_, h2, h3, h4, aff, h5, h6, _, h7⟩
  · simp at h2
  · injection h2 with h2
    subst h2
    exact ⟨rfl, h4, h3, aff, h5, h6, h7⟩

theorem wf_reinit {c proc k pid k'} (hw : Wf c k) (hc : CfgOk c) (hp : pid < c.nbParts)
    (h : reinit c proc k pid = some k') : Wf c k' := by
  unfold reinit at h
  obtain ⟨k1, id, a, hcr, _, _, _, _, _, _, rfl⟩ := setup_parts h
  obtain ⟨hid, hlt, _, aff, _, hmu, rfl⟩ := create_ok hcr
  have w := hw.part pid hp
  have hr := w.range hc hp
  have hw1 : Wf c (k.setP pid (resetPart c proc pid (k.P pid))) := by
    apply wf_setP hw
    intro _
    refine ⟨w.low, w.high, w.nth, rfl, w.mainProc, w.main, Or.inl rfl, ?_, ?_, w.act⟩
    · intro q hq
      show Recorded _ _ _ (upd (k.P pid).cur proc (k.P pid).low q)
      by_cases e : q = proc
      · subst e; rw [upd_same]; exact Or.inr ⟨Nat.le_refl _, hr.1⟩
      · rw [upd_other _ _ e]; exact w.cur q hq
    · intro q hq
      show Recorded _ _ _ (upd (k.P pid).prev proc (idle c proc) q)
      by_cases e : q = proc
      · subst e; rw [upd_same]; exact Or.inl rfl
      · rw [upd_other _ _ e]; exact w.prev q hq
  have hw2 := wf_created (a := a) (aff := aff) hw1 hc hp (hid ▸ hlt) hmu
  apply wf_setP hw2
  intro _
  have w2 := hw2.part pid hp
  refine ⟨w2.low, w2.high, w2.nth, w2.sched, w2.mainProc, ?_, w2.err, w2.cur, w2.prev, w2.act⟩
  have e1 : ∀ v : Part, (created c (k.setP pid v) a pid aff).P pid = { v with index := v.index + 1 } := by
    intro v
    simp [created, setP]
  rw [e1]
  rw [hid] at hlt ⊢
  simp only [setP, upd_same] at hlt ⊢
  constructor
  · omega
  · exact hlt

theorem wf_pre {c proc now k call k1} (hw : Wf c k) (hc : CfgOk c) (h : PreStep c proc now k call k1) :
    Wf c k1 := by
  have w := hw.part _ hw.curPart
  cases h with
  | same => exact hw
  | thread _ i t _ hk _ => exact wf_setT hw hk.2.1 hk.1
  | create a k1 id h =>
    obtain ⟨hid, hlt, _, aff, _, hmu, rfl⟩ := create_ok h
    exact wf_created hw hc hw.curPart (hid ▸ hlt) hmu
  | normal hm hi =>
    have hw1 : Wf c (k.setP k.curPart { k.P k.curPart with mode := .normal }) :=
      wf_setP hw fun _ => ⟨w.low, w.high, w.nth, w.sched, w.mainProc, w.main, w.err, w.cur, w.prev, w.act⟩
    refine ⟨hw1.part, hw1.curPart, ?_, ?_⟩
    rotate_left
    · intro hm i hi
      show ((releaseLoop c now (k.P k.curPart).activation k.T (k.P k.curPart).low
            (k.P k.curPart).nthreads).setState (k.P k.curPart).threadMain .stopped i).affinity = 0
      have hcap : ∀ j, (releaseLoop c now (k.P k.curPart).activation k.T (k.P k.curPart).low
            (k.P k.curPart).nthreads j).affinity = (k.T j).affinity := by
        intro j
        rw [releaseLoop_spec]
        split
        · exact (release_static c now _ (k.T j)).affinity
        · rfl
      unfold Threads.setState
      by_cases e : i = (k.P k.curPart).threadMain
      · subst e; rw [upd_same]; simp only; rw [hcap]; exact hw.aff hm _ hi
      · rw [upd_other _ _ e, hcap]; exact hw.aff hm _ hi
    intro i hi
    show ((releaseLoop c now (k.P k.curPart).activation k.T (k.P k.curPart).low
            (k.P k.curPart).nthreads).setState (k.P k.curPart).threadMain .stopped i).timeCapacity ≠ 0
    have hcap : ∀ j, (releaseLoop c now (k.P k.curPart).activation k.T (k.P k.curPart).low
            (k.P k.curPart).nthreads j).timeCapacity = (k.T j).timeCapacity := by
      intro j
      rw [releaseLoop_spec]
      split
      · exact (release_static c now _ (k.T j)).timeCapacity
      · rfl
    unfold Threads.setState
    by_cases e : i = (k.P k.curPart).threadMain
    · subst e; rw [upd_same]; simp only; rw [hcap]; exact hw.cap _ hi
    · rw [upd_other _ _ e, hcap]; exact hw.cap _ hi
  | stop he h0 =>
    exact wf_setP hw fun _ => ⟨w.low, w.high, w.nth, w.sched, w.mainProc, w.main, w.err, w.cur, w.prev, w.act⟩
  | init m k1 hm hwm he h0 h =>
    refine wf_reinit (k := k.setP k.curPart { k.P k.curPart with mode := m }) ?_ hc hw.curPart h
    exact wf_setP hw fun _ => ⟨w.low, w.high, w.nth, w.sched, w.mainProc, w.main, w.err, w.cur, w.prev, w.act⟩
  | errorCreate entry junk k1 id h =>
    obtain ⟨hid, hlt, _, aff, _, hmu, rfl⟩ := create_ok h
    have hw1 := wf_created (a := { junk with priority := 200, entry := entry, timeCapacity := 10000 })
      (aff := aff) hw hc hw.curPart (hid ▸ hlt) hmu
    apply wf_activate
    have w1 := hw1.part _ hw.curPart
    apply wf_setP hw1
    intro _
    refine ⟨w1.low, w1.high, w1.nth, w1.sched, w1.mainProc, w1.main, Or.inr ?_, w1.cur, w1.prev, w1.act⟩
    have h1 := w1.low
    have h2 := w1.high
    have h3 := w.low
    have h4 := w.high
    have e : (created c k { junk with priority := 200, entry := entry, timeCapacity := 10000 } k.curPart aff).curPart
      = k.curPart := rfl
    simp only [e]
    omega
  | raise => exact wf_activate hw

/-- Every kernel entry keeps the state well formed. -/
theorem wf_exec {c proc now k call k'} (hc : CfgOk c) (hq : proc < c.nbProcs) (hw : Wf c k)
    (h : exec c proc now k call = some k') : Wf c k' := by
  obtain ⟨k1, h1, h2⟩ := exec_cases h
  exact wf_then hc hq (wf_pre hw hc h1) h2

theorem wf_execAll {c} (hc : CfgOk c) : ∀ (es : List KEv) (k k' : Kernel), (∀ e ∈ es, e.proc < c.nbProcs) →
    Wf c k → execAll c k es = some k' → Wf c k' := by
  intro es
  induction es with
  | nil => intro k k' _ hw h; simp [execAll] at h; subst h; exact hw
  | cons e es ih =>
    intro k k' hq hw h
    unfold execAll at h
    split at h
    · simp at h
    · rename_i k1 h1
      exact ih k1 k' (fun e he => hq e (by simp [he])) (wf_exec hc (hq e (by simp)) hw h1) h

end Kernel
end Pok
