import Verif.Lemmas.Boot

/-!
# Thread election in reachable kernel states (C04, C05, C06, C09)

`Reachable c k` : `k` is reached from boot by any history of kernel entries on existing processors.
`exCfg` at the end is a concrete configuration with a concrete history.
-/

namespace Pok
namespace Kernel
open Pok.Spec

/-- Elections only change the deadline field after the choice is made. -/
theorem eligible_endTime {T T' : Threads} (h : ∀ j, ∃ x, T' j = { T j with endTime := x }) (proc low high i : Nat) :
    Eligible T' proc low high i ↔ Eligible T proc low high i := by
  obtain ⟨x, hx⟩ := h i
  unfold Eligible
  rw [hx]

/-- The outcome of an election: the running thread afterwards and the table it was chosen from. -/
theorem sched_outcome {c proc now k k'} (hc : CfgOk c) (hq : proc < c.nbProcs) (hw : Wf c k)
    (h : schedThread c proc now k = some k') :
    ∃ T1 T2 e, wakeLoop c proc now k.T (k.P k.curPart).low (k.P k.curPart).nthreads = some T1 ∧
      choose c proc k T1 k.curPart = some (T2, e) ∧ k'.curThread proc = e ∧
      (∀ j, ∃ x, k'.T j = { T2 j with endTime := x }) ∧
      Recorded (idle c proc) (k.P k.curPart).low (k.P k.curPart).high e := by
  obtain ⟨k1, e, he, hT, hps, hcur, hP, _⟩ := sched_parts h
  obtain ⟨T1, T2, _, h1, h2, h3⟩ := elect_parts he
  have hwp := hw.part _ hw.curPart
  have hrec := choose_recorded hc hw.curPart hq hwp h2
  refine ⟨T1, T2, e, h1, h2, ?_, ?_, hrec⟩
  · rw [hcur, upd_same]; exact Nat.mod_eq_of_lt (recorded_lt hc hw.curPart hq hwp hrec)
  · intro j
    rw [hT, h3]
    exact endTime_upd T2 _ e now j

/-- In NORMAL mode: either the error handler that is already current goes on, or the policy chooses. -/
theorem normal_outcome {c proc now k k'} (hc : CfgOk c) (hq : proc < c.nbProcs) (hw : Wf c k)
    (hm : (k.P k.curPart).mode = .normal) (h : schedThread c proc now k = some k') :
    let P := k.P k.curPart
    (P.cur proc = P.threadError ∧ k'.curThread proc = P.threadError ∧
      (P.low ≤ P.threadError ∧ P.threadError < P.high) ∧ (k'.T P.threadError).state = .runnable) ∨
    (∃ T2, (∀ j, ∃ x, k'.T j = { T2 j with endTime := x }) ∧
      schedFunc P.sched T2 proc (idle c proc) P.low P.high (P.prev proc) (P.cur proc) = some (k'.curThread proc) ∧
      GoodChoice T2 proc (idle c proc) P.low P.high (k'.curThread proc)) ∨
    (P.cur proc = P.threadError ∧ P.cur proc = idle c proc ∧ k'.curThread proc = idle c proc) := by
  intro P
  have hwp := hw.part _ hw.curPart
  have hr := hwp.range hc hw.curPart
  obtain ⟨T1, T2, e, h1, h2, h3, h4, h5⟩ := sched_outcome hc hq hw h
  unfold choose at h2
  simp only [hm] at h2
  split at h2
  · rename_i hcur
    simp at h2
    obtain ⟨rfl, rfl⟩ := h2
    rcases h5 with h5 | h5
    · right; right
      exact ⟨hcur.1, by rw [hcur.1, h5], by rw [h3, h5]⟩
    · left
      refine ⟨hcur.1, h3, h5, ?_⟩
      obtain ⟨x, hx⟩ := h4 P.threadError
      rw [hx]
      simp only
      rw [← hcur.1]; exact hcur.2
  · split at h2
    · simp at h2
    · rename_i e' he'
      simp at h2
      obtain ⟨rfl, rfl⟩ := h2
      right; left
      refine ⟨_, h4, by rw [h3]; exact he', ?_⟩
      obtain ⟨e2, he2, hg⟩ := C04_policies P.sched (T := account c proc k T1) (proc := proc)
          (idle := idle c proc) hr.1 (hwp.prev proc hq) (hwp.cur proc hq)
      rw [he2] at he'
      injection he' with he'
      rw [h3, ← he']
      exact hg

/-- The idle thread of a processor is not recorded as an error handler: the error thread is 0 or lies in
the partition, the idle threads lie above all partitions. -/
theorem error_ne_idle {c k p q} (hc : CfgOk c) (hw : Wf c k) (hp : p < c.nbParts) (hq : q < c.nbProcs) :
    (k.P p).threadError ≠ idle c q := by
  have h := hw.part p hp
  have h1 := h.range hc hp
  have h2 := idle_not_in_range hc hp h hq
  rcases h.err with he | he <;> omega

/-- **C04** (any number of processors): in every reachable state whose running partition is in NORMAL
mode, the thread running after an election is the idle thread of the processor, or a runnable thread of
the running partition; it is bound to this processor, or is the error handler that the processor was
already executing. -/
theorem C04_dispatch {c : Config} {k k' : Kernel} {proc now : Nat} (hc : CfgOk c) (hr : Reachable c k)
    (hq : proc < c.nbProcs) (hm : (k.P k.curPart).mode = .normal) (h : schedThread c proc now k = some k') :
    let P := k.P k.curPart
    let e := k'.curThread proc
    e = idle c proc ∨
    ((P.low ≤ e ∧ e < P.high) ∧ (k'.T e).state = .runnable ∧
      ((k'.T e).affinity = proc ∨ (e = P.threadError ∧ P.cur proc = e))) := by
  intro P e
  have hw := hr.wf hc
  rcases normal_outcome hc hq hw hm h with ⟨h1, h2, h3, h4⟩ | ⟨T2, h1, h2, h3 | h3⟩ | ⟨h1, h2, _⟩
  · right
    have : e = P.threadError := h2
    rw [this]
    exact ⟨h3, h4, Or.inr ⟨rfl, h1⟩⟩
  · right
    have h3' := (eligible_endTime h1 proc _ _ _).2 h3
    exact ⟨h3'.1, h3'.2.1, Or.inl h3'.2.2⟩
  · left; exact h3.1
  · exact absurd (h1.symm.trans h2) (error_ne_idle hc hw hw.curPart hq)

/-- **C04** on one processor, without exception: the thread running after an election is the idle thread
or a runnable thread of the running partition bound to the processor. -/
theorem C04_uniprocessor {c : Config} {k k' : Kernel} {now : Nat} (hc : CfgOk c) (hmu : c.multi = 0)
    (hr : Reachable c k) (hm : (k.P k.curPart).mode = .normal) (h : schedThread c 0 now k = some k') :
    k'.curThread 0 = idle c 0 ∨
      Eligible k'.T 0 (k.P k.curPart).low (k.P k.curPart).high (k'.curThread 0) := by
  rcases C04_dispatch hc hr hc.procs hm h with h1 | ⟨h1, h2, _⟩
  · exact Or.inl h1
  · right
    have hw := hr.wf hc
    have hw' := wf_sched hc hc.procs hw h
    have := (hw.part _ hw.curPart).range hc hw.curPart
    exact ⟨h1, h2, hw'.aff hmu _ (by omega)⟩

/-- **C05**: in every reachable state whose running partition is in NORMAL mode, if after the wake-ups and
the accounting of the election some thread of the partition is runnable and bound to the processor, the
idle thread does not run. -/
theorem C05_work_conserving {c : Config} {k k' : Kernel} {proc now i : Nat} (hc : CfgOk c) (hr : Reachable c k)
    (hq : proc < c.nbProcs) (hm : (k.P k.curPart).mode = .normal) (h : schedThread c proc now k = some k')
    (hi : Eligible k'.T proc (k.P k.curPart).low (k.P k.curPart).high i) :
    k'.curThread proc ≠ idle c proc := by
  have hw := hr.wf hc
  have hid := idle_not_in_range hc hw.curPart (hw.part _ hw.curPart) hq
  rcases normal_outcome hc hq hw hm h with ⟨h1, h2, h3, h4⟩ | ⟨T2, h1, h2, h3 | h3⟩ | ⟨h1, h2, _⟩
  · rw [h2]; omega
  · have := h3.1; omega
  · exact absurd ((eligible_endTime h1 proc _ _ _).1 hi) (h3.2 i)
  · exact absurd (h1.symm.trans h2) (error_ne_idle hc hw hw.curPart hq)

/-- **C05** (at boot): every processor has its own idle thread, runnable, bound to that processor, with the lowest priority. -/
theorem C05_idle_boot {c : Config} {k : Kernel} (hc : CfgOk c) (h : boot c = some k) (q : Nat) (hq : q < c.nbProcs) :
    (k.T (c.nbThreads - 2 - q)).state = .runnable ∧ (k.T (c.nbThreads - 2 - q)).affinity = q ∧
      (k.T (c.nbThreads - 2 - q)).basePriority = 0 := by
  have hroom := hc.room
  unfold boot at h
  simp only at h
  split at h
  · simp at h
  · injection h with h
    subst h
    show ((threadInit c _).T _).state = _ ∧ ((threadInit c _).T _).affinity = _ ∧ ((threadInit c _).T _).basePriority = _
    simp only [threadInit]
    rw [if_pos (show c.nbThreads - 2 - q < c.nbThreads by omega),
      if_pos (show c.nbThreads - 1 - c.nbProcs ≤ c.nbThreads - 2 - q ∧ c.nbThreads - 2 - q ≤ c.nbThreads - 2 by omega)]
    exact ⟨rfl, by show c.nbThreads - 2 - (c.nbThreads - 2 - q) = q; omega, rfl⟩

/-- An election never gets stuck: no assertion fails and no loop runs forever, in any reachable state. -/
theorem C05_total {c : Config} {k : Kernel} (proc now : Nat) (hc : CfgOk c) (hr : Reachable c k)
    (hq : proc < c.nbProcs) : ∃ k', schedThread c proc now k = some k' := by
  have hw := hr.wf hc
  have hwp := hw.part _ hw.curPart
  have hrg := hwp.range hc hw.curPart
  have hnt : (k.P k.curPart).nthreads = (k.P k.curPart).high - (k.P k.curPart).low := by
    rw [hwp.nth, hwp.high]; omega
  have hroom := hc.room
  have hsmall := hc.small
  obtain ⟨T1, hT1⟩ := wakeLoop_total (c := c) (proc := proc) (now := now) (k.P k.curPart).nthreads
    (k.P k.curPart).low k.T (fun j _ h2 => hw.cap j (by omega))
  have hch : ∃ T2 e, choose c proc k T1 k.curPart = some (T2, e) := by
    unfold choose
    simp only
    split
    · split <;> exact ⟨_, _, rfl⟩
    · split <;> exact ⟨_, _, rfl⟩
    · split
      · exact ⟨_, _, rfl⟩
      · obtain ⟨e, he, _⟩ := C04_policies (k.P k.curPart).sched (T := account c proc k T1) (proc := proc)
          (idle := idle c proc) hrg.1 (hwp.prev proc hq) (hwp.cur proc hq)
        rw [he]; exact ⟨_, _, rfl⟩
    · exact ⟨_, _, rfl⟩
  obtain ⟨T2, e, hch⟩ := hch
  unfold schedThread electThread
  rw [if_neg (by omega), hT1]
  simp only [hch]
  exact ⟨_, rfl⟩

/-- **C06** in reachable states: under the static priority policy, unless the error handler is running,
the thread that runs after an election has maximal priority among the runnable threads of the partition
bound to the processor. -/
theorem C06_election {c : Config} {k k' : Kernel} {proc now i : Nat} (hc : CfgOk c) (hr : Reachable c k)
    (hq : proc < c.nbProcs) (hm : (k.P k.curPart).mode = .normal)
    (hpol : c.policy k.curPart = .static) (h : schedThread c proc now k = some k')
    (hne : (k.P k.curPart).cur proc ≠ (k.P k.curPart).threadError)
    (hi : Eligible k'.T proc (k.P k.curPart).low (k.P k.curPart).high i) :
    Eligible k'.T proc (k.P k.curPart).low (k.P k.curPart).high (k'.curThread proc) ∧
    (k'.T i).priority ≤ (k'.T (k'.curThread proc)).priority := by
  have hw := hr.wf hc
  have hwp := hw.part _ hw.curPart
  have hrg := hwp.range hc hw.curPart
  rcases normal_outcome hc hq hw hm h with ⟨h1, _⟩ | ⟨T2, h1, h2, _⟩ | ⟨h1, _⟩
  · exact absurd h1 hne
  · rw [hwp.sched, hpol] at h2
    have hi2 := (eligible_endTime h1 proc _ _ _).1 hi
    obtain ⟨e, he, hel, hmax⟩ := C06_max_priority (T := T2) (proc := proc) hrg.1 (hwp.prev proc hq) (hwp.cur proc hq) hi2
    rw [show schedFunc .static = schedStatic from rfl, he] at h2
    injection h2 with h2
    rw [← h2]
    refine ⟨(eligible_endTime h1 proc _ _ _).2 hel, ?_⟩
    obtain ⟨x, hx⟩ := h1 i
    obtain ⟨y, hy⟩ := h1 e
    rw [hx, hy]
    exact hmax i hi2
  · exact absurd h1 hne

/-- **C09** (initialisation): in COLD or WARM start mode the thread running after an election is the main
thread on the partition's first processor and the idle thread on every other one. -/
theorem C09_init {c : Config} {k k' : Kernel} {proc now : Nat} (hc : CfgOk c) (hr : Reachable c k)
    (hq : proc < c.nbProcs) (hm : (k.P k.curPart).mode = .initCold ∨ (k.P k.curPart).mode = .initWarm)
    (h : schedThread c proc now k = some k') :
    ∃ mainProc, procRealId (c.affinity k.curPart) 0 = some mainProc ∧
      k'.curThread proc = if proc = mainProc then (k.P k.curPart).threadMain else idle c proc := by
  have hw := hr.wf hc
  refine ⟨_, (hw.part _ hw.curPart).mainProc, ?_⟩
  obtain ⟨T1, T2, e, h1, h2, h3, h4, h5⟩ := sched_outcome hc hq hw h
  rw [h3]
  unfold choose at h2
  simp only at h2
  rcases hm with hm | hm <;>
  · simp only [hm] at h2
    split at h2 <;> simp_all

/-- **C09** (other modes): in IDLE or STOPPED mode — any mode but NORMAL, COLD and WARM start — only idle
threads run. -/
theorem C09_stopped {c : Config} {k k' : Kernel} {proc now : Nat} (hc : CfgOk c) (hr : Reachable c k)
    (hq : proc < c.nbProcs) (hm : (k.P k.curPart).mode ≠ .normal ∧ (k.P k.curPart).mode ≠ .initCold ∧
      (k.P k.curPart).mode ≠ .initWarm)
    (h : schedThread c proc now k = some k') : k'.curThread proc = idle c proc := by
  have hw := hr.wf hc
  obtain ⟨T1, T2, e, h1, h2, h3, h4, h5⟩ := sched_outcome hc hq hw h
  rw [h3]
  unfold choose at h2
  simp only at h2
  split at h2
  · simp_all
  · simp_all
  · simp_all
  · simp_all

end Kernel

/-! ### A concrete system -/

/-- Two partitions with three threads each, one processor, static priorities and round robin. -/
def exCfg : Config :=
  { nbParts := 2, nbSlots := 2, slots := fun _ => 100, alloc := fun i => i, majorFrame := 200, flush := .none
    nbThreads := 8, nbProcs := 1, nthreads := fun _ => 3, nlocks := fun _ => 1
    policy := fun p => if p = 0 then .static else .rr, affinity := fun _ => 1, psize := fun _ => 4096
    entry := fun p => 1000 + p, stackAddr := fun _ _ => 0, multi := 0, wakes := true }

theorem exCfg_ok : Kernel.CfgOk exCfg :=
  ⟨by decide, by decide, fun _ _ => Nat.succ_pos 2, by decide, by decide, by decide,
   fun i hi => hi⟩

/-- The main thread of partition 0 creates two threads and enters NORMAL mode. -/
def exHist : List Kernel.KEv :=
  [⟨0, 0, .tick⟩,
   ⟨0, 1, .create { priority := 3, entry := 1, timeCapacity := 5 }⟩,
   ⟨0, 2, .create { priority := 4, entry := 2, timeCapacity := 5 }⟩,
   ⟨0, 3, .setMode .normal⟩]

/-- Run of a history from boot. -/
def runFromBoot (c : Config) (es : List Kernel.KEv) : Option Kernel :=
  match Kernel.boot c with
  | none => none
  | some k => Kernel.execAll c k es

theorem runFromBoot_reachable {c : Config} {es : List Kernel.KEv} {k : Kernel} (hq : ∀ e ∈ es, e.proc < c.nbProcs)
    (h : runFromBoot c es = some k) : Kernel.Reachable c k := by
  unfold runFromBoot at h
  split at h
  · simp at h
  · rename_i k0 hk0
    exact ⟨k0, es, hk0, hq, h⟩

/-- A summary of a state: running thread, partition, mode of partition 0, states of threads 0-5. -/
def digest (k : Kernel) : Nat × Nat × Mode × List TState :=
  (k.curThread 0, k.curPart, (k.P 0).mode, (List.range 6).map fun i => (k.T i).state)

/-- The history reaches NORMAL mode with the thread of highest priority running: the hypotheses of the
theorems above are met by a non-trivial reachable state. -/
example : (runFromBoot exCfg exHist).map digest =
    some (2, 0, .normal, [.stopped, .runnable, .runnable, .stopped, .stopped, .stopped]) := by decide +kernel

example : ∃ k, Kernel.Reachable exCfg k ∧ (k.P k.curPart).mode = .normal := by
  have h : ∃ k, runFromBoot exCfg exHist = some k ∧ digest k =
      (2, 0, .normal, [.stopped, .runnable, .runnable, .stopped, .stopped, .stopped]) := by
    have hd : (runFromBoot exCfg exHist).map digest =
      some (2, 0, .normal, [.stopped, .runnable, .runnable, .stopped, .stopped, .stopped]) := by decide +kernel
    obtain ⟨k, h1, h2⟩ := Kernel.map_some hd
    exact ⟨k, h1, h2⟩
  obtain ⟨k, h1, h2⟩ := h
  refine ⟨k, runFromBoot_reachable (by decide) h1, ?_⟩
  simp only [digest, Prod.mk.injEq] at h2
  rw [h2.2.1]
  exact h2.2.2.1

end Pok
