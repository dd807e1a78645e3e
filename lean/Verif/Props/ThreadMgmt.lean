import Verif.Props.Timing
import Verif.Spec.Modes

/-!
# Thread creation, ranges, confinement, partition modes (C14 – C19)
-/

namespace Pok
namespace Kernel
open Pok.Spec

/-! ### C14 -/

/-- **C14** (one creation): creating a thread either fails with an error, creates nothing and returns no
identifier, or happens in COLD/WARM start mode while fewer threads exist than configured; then the
identifier is the number of threads the partition already has, counted from the start of its range (so it
lies in the range), and the threads and records of all other partitions are unchanged. -/
theorem C14_create {c : Config} {k k1 : Kernel} {a : ThreadAttr} {pid : Nat} {r : Errno} {o : Option Nat}
    (h : threadCreate c k a pid = some (k1, r, o)) :
    (r ≠ .ok ∧ o = none ∧ k1 = k) ∨
    (r = .ok ∧ ((k.P pid).mode = .initCold ∨ (k.P pid).mode = .initWarm) ∧
      (k.P pid).low + (k.P pid).index < (k.P pid).high ∧ o = some ((k.P pid).low + (k.P pid).index) ∧
      (k1.P pid).index = (k.P pid).index + 1 ∧
      (∀ i, ¬ ((k.P pid).low ≤ i ∧ i < (k.P pid).high) → k1.T i = k.T i) ∧
      (∀ p, p ≠ pid → k1.P p = k.P p) ∧ k1.curThread = k.curThread ∧ k1.ps = k.ps) := by
  rcases create_spec h with ⟨rfl, h2, h3⟩ | ⟨h1, h2, h3, h4, aff, _, _, _, rfl⟩
  · left
    refine ⟨?_, h2, rfl⟩
    rcases h3 with ⟨h, _⟩ | ⟨h, _⟩ <;> rw [h] <;> simp
  · right
    refine ⟨h1, h3, h4, h2, by simp [created], fun i hi => (created_T h4 i).1 hi, ?_, rfl, rfl⟩
    intro p hp
    simp [created, upd_other _ _ hp]

/-- Creating a thread outside COLD/WARM start, or when all threads exist, fails. -/
theorem C14_refused {c : Config} {k : Kernel} {a : ThreadAttr} {pid : Nat}
    (h : ((k.P pid).mode ≠ .initCold ∧ (k.P pid).mode ≠ .initWarm) ∨
      (k.P pid).high ≤ (k.P pid).low + (k.P pid).index) :
    ∃ r, r ≠ .ok ∧ threadCreate c k a pid = some (k, r, none) := by
  unfold threadCreate
  simp only
  by_cases hm : (k.P pid).mode ≠ .initCold ∧ (k.P pid).mode ≠ .initWarm
  · exact ⟨.mode, by simp, by rw [if_pos hm]⟩
  · rcases h with h | h
    · exact absurd h hm
    · exact ⟨.toomany, by simp, by rw [if_neg hm, if_pos h]⟩

/-- The identifier returned by a creation, if it succeeds. -/
def okId : Option (Kernel × Errno × Option Nat) → List Nat
  | some (_, .ok, some id) => [id]
  | _ => []

theorem okId_cases (x : Option (Kernel × Errno × Option Nat)) :
    okId x = [] ∨ ∃ k1 id, x = some (k1, .ok, some id) ∧ okId x = [id] := by
  unfold okId
  split
  · exact Or.inr ⟨_, _, rfl, rfl⟩
  · exact Or.inl rfl

/-- The identifiers returned by thread creations of partition `p` in a history (error handlers included:
their identifier is the one registered). -/
def returnedIds (c : Config) (p : Nat) : Kernel → List KEv → List Nat
  | _, [] => []
  | k, e :: es =>
    let here := if k.curPart = p then
        match e.call with
        | .create a => okId (threadCreate c k a k.curPart)
        | .errorCreate en j =>
          okId (threadCreate c k { j with priority := 200, entry := en, timeCapacity := 10000 } k.curPart)
        | _ => []
      else []
    match exec c e.proc e.now k e.call with
    | none => here
    | some k' => here ++ returnedIds c p k' es

/-- The history does not restart partition `p`. -/
def NoRestart (c : Config) (p : Nat) : Kernel → List KEv → Prop
  | _, [] => True
  | k, e :: es => (k.curPart = p → e.call ≠ .setMode .initCold ∧ e.call ≠ .setMode .initWarm) ∧
      ∀ k', exec c e.proc e.now k e.call = some k' → NoRestart c p k' es

/-- Elections do not change thread counts. -/
theorem sched_index {c proc now k k'} (h : schedThread c proc now k = some k') (p : Nat) :
    (k'.P p).index = (k.P p).index := by
  obtain ⟨k1, e0, he, hT, hps, hcur', hP, _⟩ := sched_parts h
  obtain ⟨p1, _⟩ := elect_P he
  obtain ⟨r1, _⟩ := record_P c proc k1 (e0 % 256) p
  rw [p1] at r1
  rw [hP, r1]

theorem then_index {c proc now k1 k'} (h : Then c proc now k1 k') (p : Nat) : (k'.P p).index = (k1.P p).index := by
  rcases h with rfl | h | h
  · rfl
  · exact sched_index h p
  · exact sched_index (k := switchPartition c now k1) h p

theorem activate_P (proc) (k : Kernel) : (activateError proc k).P = k.P := by
  unfold activateError
  simp only
  split <;> rfl

/-- Effect of a kernel entry that does not restart partition `p` on its thread count. -/
theorem exec_index {c proc now k call k' p} (h : exec c proc now k call = some k')
    (hn : k.curPart = p → call ≠ .setMode .initCold ∧ call ≠ .setMode .initWarm) :
    (k.P p).index ≤ (k'.P p).index := by
  obtain ⟨k1, h1, h2⟩ := exec_cases h
  rw [then_index h2]
  cases h1 with
  | same => exact Nat.le_refl _
  | thread => exact Nat.le_refl _
  | create a k1 id h =>
    obtain ⟨_, _, _, aff, _, _, rfl⟩ := create_ok h
    by_cases e : p = k.curPart
    · subst e; simp [created]
    · simp [created, upd_other _ _ e]
  | normal hm hi =>
    show _ ≤ (upd k.P k.curPart _ p).index
    by_cases e : p = k.curPart
    · subst e; simp
    · simp [upd_other _ _ e]
  | stop he h0 =>
    show _ ≤ (upd k.P k.curPart _ p).index
    by_cases e : p = k.curPart
    · subst e; simp
    · simp [upd_other _ _ e]
  | init m k1 hm hwm he h0 h =>
    by_cases e : p = k.curPart
    · exfalso
      obtain ⟨g1, g2⟩ := hn e.symm
      rcases hm with rfl | rfl
      · exact g2 rfl
      · exact g1 rfl
    · unfold reinit at h
      obtain ⟨k2, id, a, hcr, _, _, _, _, _, _, rfl⟩ := setup_parts h
      obtain ⟨_, _, _, aff, _, _, rfl⟩ := create_ok hcr
      simp [setP, created, upd_other _ _ e]
  | errorCreate entry junk k1 id h3 =>
    obtain ⟨_, _, _, aff, _, _, rfl⟩ := create_ok h3
    rw [activate_P]
    have e0 : (created c k { junk with priority := 200, entry := entry, timeCapacity := 10000 } k.curPart aff).curPart
      = k.curPart := rfl
    rw [e0]
    by_cases e : p = k.curPart
    · subst e; simp [created, setP]
    · simp [created, setP, upd_other _ _ e]
  | raise => rw [activate_P]; exact Nat.le_refl _

/-- A successful creation (or error handler creation) raises the count. -/
theorem exec_create_index {c proc now k k'} {a : ThreadAttr} (h : exec c proc now k (.create a) = some k') {k1 id}
    (hc : threadCreate c k a k.curPart = some (k1, .ok, some id)) :
    (k'.P k.curPart).index = (k.P k.curPart).index + 1 := by
  simp only [exec, hc, Option.map_some, Option.some.injEq] at h
  subst h
  obtain ⟨_, _, _, aff, _, _, rfl⟩ := create_ok hc
  simp [created]

theorem exec_errorCreate_index {c proc now k k' en} {j : ThreadAttr}
    (h : exec c proc now k (.errorCreate en j) = some k') {k1 id}
    (hc : threadCreate c k { j with priority := 200, entry := en, timeCapacity := 10000 } k.curPart
      = some (k1, .ok, some id)) :
    (k'.P k.curPart).index = (k.P k.curPart).index + 1 := by
  simp only [exec, errorThreadCreate, hc, Option.map_some, Option.some.injEq] at h
  subst h
  rw [activate_P]
  obtain ⟨_, _, _, aff, _, _, rfl⟩ := create_ok hc
  simp [created, setP, curPart]

/-- **C14** (histories): over every history of kernel entries in which the partition is not restarted, with
any attributes, the identifiers returned to partition `p` are strictly increasing — so no identifier is
returned twice —, all lie in its range, and none is that of a thread that existed before. -/
theorem C14_fresh {c : Config} {p : Nat} (hc : CfgOk c) (hp : p < c.nbParts) (es : List KEv) : ∀ {k : Kernel}, Wf c k →
    (∀ e ∈ es, e.proc < c.nbProcs) → NoRestart c p k es →
    (returnedIds c p k es).Pairwise (· < ·) ∧
    ∀ id ∈ returnedIds c p k es, (k.P p).low + (k.P p).index ≤ id ∧ id < (k.P p).high := by
  induction es with
  | nil => intro k _ _ _; exact ⟨List.Pairwise.nil, fun id h => by simp [returnedIds] at h⟩
  | cons e es ih =>
    intro k hw hq hn
    have tail : ∀ k', exec c e.proc e.now k e.call = some k' →
        (returnedIds c p k' es).Pairwise (· < ·) ∧
        (k.P p).index ≤ (k'.P p).index ∧
        ∀ id ∈ returnedIds c p k' es, (k.P p).low + (k'.P p).index ≤ id ∧ id < (k.P p).high := by
      intro k' hk'
      have hw' := wf_exec hc (hq e (by simp)) hw hk'
      obtain ⟨i1, i2⟩ := ih hw' (fun e' he' => hq e' (by simp [he'])) (hn.2 k' hk')
      refine ⟨i1, exec_index hk' hn.1, ?_⟩
      intro id hid
      have := i2 id hid
      have w := hw.part p hp
      have w' := hw'.part p hp
      rw [w'.high, w'.low] at this
      rw [w.high, w.low]
      exact this
    have plain : ∀ l : List Nat, (∀ k', exec c e.proc e.now k e.call = some k' → ∀ id ∈ l,
          id < (k.P p).low + (k'.P p).index) →
        (∀ id ∈ l, (k.P p).low + (k.P p).index ≤ id ∧ id < (k.P p).high) → l.Pairwise (· < ·) →
        (match exec c e.proc e.now k e.call with
          | none => l
          | some k' => l ++ returnedIds c p k' es).Pairwise (· < ·) ∧
        ∀ id ∈ (match exec c e.proc e.now k e.call with
          | none => l
          | some k' => l ++ returnedIds c p k' es), (k.P p).low + (k.P p).index ≤ id ∧ id < (k.P p).high := by
      intro l hl1 hl2 hl3
      split
      · exact ⟨hl3, hl2⟩
      · rename_i k' hk'
        obtain ⟨t1, t2, t3⟩ := tail k' hk'
        constructor
        · rw [List.pairwise_append]
          refine ⟨hl3, t1, ?_⟩
          intro x hx y hy
          have := hl1 k' hk' x hx
          have := t3 y hy
          omega
        · intro id hid
          rcases List.mem_append.1 hid with h | h
          · exact hl2 id h
          · have := t3 id h
            omega
    have empty := plain [] (fun _ _ id h => by simp at h) (fun id h => by simp at h) List.Pairwise.nil
    unfold returnedIds
    simp only
    by_cases hcp : k.curPart = p
    · rw [if_pos hcp]
      cases hcall : e.call with
      | create a =>
        simp only
        rw [hcall] at plain empty
        rcases okId_cases (threadCreate c k a k.curPart) with h0 | ⟨k1, id, hk1, h0⟩
        · rw [h0]; exact empty
        · rw [h0]
          refine plain [id] ?_ ?_ (by simp)
          · intro k' hk' x hx
            have := exec_create_index hk' hk1
            obtain ⟨g1, _⟩ := create_ok hk1
            simp at hx
            subst hx
            rw [hcp] at this g1
            omega
          · intro x hx
            simp at hx
            subst hx
            obtain ⟨g1, g2, _⟩ := create_ok hk1
            rw [hcp] at g1 g2
            omega
      | errorCreate en j =>
        simp only
        rw [hcall] at plain empty
        rcases okId_cases (threadCreate c k { j with priority := 200, entry := en, timeCapacity := 10000 } k.curPart)
          with h0 | ⟨k1, id, hk1, h0⟩
        · rw [h0]; exact empty
        · rw [h0]
          refine plain [id] ?_ ?_ (by simp)
          · intro k' hk' x hx
            have := exec_errorCreate_index hk' hk1
            obtain ⟨g1, _⟩ := create_ok hk1
            simp at hx
            subst hx
            rw [hcp] at this g1
            omega
          · intro x hx
            simp at hx
            subst hx
            obtain ⟨g1, g2, _⟩ := create_ok hk1
            rw [hcp] at g1 g2
            omega
      | _ => rw [hcall] at empty; exact empty
    · rw [if_neg hcp]; exact empty

/-! ### C15 -/

/-- **C15** (threads): in every reachable state the thread ranges are those of the configuration: the first
starts at 0, each starts where the previous one ends, each has the configured size; so they are pairwise
disjoint, and they lie below the idle threads, which lie below the kernel thread, the last of the table. -/
theorem C15_threads {c : Config} {k : Kernel} (hc : CfgOk c) (hr : Reachable c k) :
    (k.P 0).low = 0 ∧
    (∀ p, p + 1 < c.nbParts → (k.P (p + 1)).low = (k.P p).high) ∧
    (∀ p < c.nbParts, (k.P p).high = (k.P p).low + c.nthreads p) ∧
    (∀ p < c.nbParts, ∀ p' < c.nbParts, p ≠ p' → ∀ i, (k.P p).low ≤ i → i < (k.P p).high →
      ¬ ((k.P p').low ≤ i ∧ i < (k.P p').high)) ∧
    (∀ p < c.nbParts, ∀ q < c.nbProcs, (k.P p).high ≤ idle c q ∧ idle c q < kernelThread c ∧ kernelThread c < c.nbThreads) := by
  have hw := hr.wf hc
  refine ⟨?_, ?_, fun p hp => (hw.part p hp).high, ?_, ?_⟩
  · rw [(hw.part 0 hc.parts).low]; rfl
  · intro p hp
    rw [(hw.part (p + 1) hp).low, (hw.part p (by omega)).high, (hw.part p (by omega)).low]
    rfl
  · intro p hp p' hp' hne i h1 h2 h3
    have w := hw.part p hp
    have w' := hw.part p' hp'
    have l1 := w.low; have l2 := w.high; have l3 := w'.low; have l4 := w'.high
    rcases Nat.lt_or_ge p p' with h | h
    · have := prefixSum_mono c.nthreads (a := p + 1) (b := p') h
      simp only [prefixSum] at this
      omega
    · have := prefixSum_mono c.nthreads (a := p' + 1) (b := p) (by omega)
      simp only [prefixSum] at this
      omega
  · intro p hp q hq
    have h1 := idle_not_in_range hc hp (hw.part p hp) hq
    have := hc.room
    unfold idle at h1 ⊢
    unfold kernelThread
    omega

/-- **C15** (lock objects): after boot the same holds for the lock-object ranges, when the configured
numbers of lock objects add up to less than 256.  Partial: with 256 or more it is false
(`C15_locks_violated`), the bounds being 8 bits wide. -/
theorem C15_locks_partial {c : Config} {k : Kernel} (hc : CfgOk c) (hb : boot c = some k)
    (hsum : prefixSum c.nlocks c.nbParts < 256) :
    (k.P 0).lockLow = 0 ∧
    (∀ p, p + 1 < c.nbParts → (k.P (p + 1)).lockLow = (k.P p).lockHigh) ∧
    (∀ p < c.nbParts, (k.P p).lockHigh = (k.P p).lockLow + c.nlocks p) ∧
    (∀ p < c.nbParts, ∀ p' < c.nbParts, p ≠ p' → ∀ i, (k.P p).lockLow ≤ i → i < (k.P p).lockHigh →
      ¬ ((k.P p').lockLow ≤ i ∧ i < (k.P p').lockHigh)) := by
  obtain ⟨h1, _⟩ := boot_spec hc.threads hb
  have key : ∀ p < c.nbParts, (k.P p).lockLow = prefixSum c.nlocks p ∧
      (k.P p).lockHigh = prefixSum c.nlocks p + c.nlocks p := by
    intro p hp
    obtain ⟨P, hP, he⟩ := h1 p hp
    have hle := prefixSum_le c.nlocks hp
    unfold initPart at hP
    split at hP
    · simp at hP
    · injection hP with hP
      subst hP
      rw [he]
      simp only
      rw [Nat.mod_eq_of_lt (by omega : prefixSum c.nlocks p < 256)]
      exact ⟨rfl, Nat.mod_eq_of_lt (by omega)⟩
  refine ⟨(key 0 hc.parts).1, ?_, ?_, ?_⟩
  · intro p hp
    rw [(key (p + 1) hp).1, (key p (by omega)).2]; rfl
  · intro p hp; rw [(key p hp).1, (key p hp).2]
  · intro p hp p' hp' hne i h1 h2 h3
    rw [(key p hp).1] at h1
    rw [(key p hp).2] at h2
    rw [(key p' hp').1, (key p' hp').2] at h3
    rcases Nat.lt_or_ge p p' with h | h
    · have := prefixSum_mono c.nlocks (a := p + 1) (b := p') h
      simp only [prefixSum] at this
      omega
    · have := prefixSum_mono c.nlocks (a := p' + 1) (b := p) (by omega)
      simp only [prefixSum] at this
      omega

/-! ### C16 -/

/-- The state changed only in threads of the running partition. -/
def ChangedOnlyOwn (k k1 : Kernel) : Prop :=
  (∀ i, ¬ ((k.P k.curPart).low ≤ i ∧ i < (k.P k.curPart).high) → k1.T i = k.T i) ∧
  k1.P = k.P ∧ k1.curThread = k.curThread ∧ k1.ps = k.ps

/-- The thread management calls and the thread they name. -/
def managed (k : Kernel) : KCall → Option Nat
  | .delayedStart id _ | .setPriority id _ | .resume id | .suspendTarget id => some id
  | .restartThread tid | .stopThread tid => some ((tid + (k.P k.curPart).low) % U32)
  | _ => none

/-- **C16** (confinement): a thread management call, whatever its identifier, changes only threads of the
calling partition, followed by at most one ordinary election.  Partial: the identifier one past the end
of the range is excluded; the bounds check accepts it (`C16_one_past_violated`). -/
theorem C16_confined_partial {c : Config} {k k' : Kernel} {proc now id : Nat} {call : KCall}
    (hm : managed k call = some id) (hid : id ≠ (k.P k.curPart).high)
    (h : exec c proc now k call = some k') :
    ∃ k1, ChangedOnlyOwn k k1 ∧ Then c proc now k1 k' := by
  obtain ⟨k1, h1, h2⟩ := exec_cases h
  refine ⟨k1, ?_, h2⟩
  cases h1 with
  | same => exact ⟨fun _ _ => rfl, rfl, rfl, rfl⟩
  | thread call i t ht hk hr =>
    have hi : i = id := by
      cases call <;> simp only [managed, target, Option.some.injEq, reduceCtorEq] at hm ht <;> omega
    subst hi
    refine ⟨?_, rfl, rfl, rfl⟩
    intro j hj
    apply upd_other
    rintro rfl
    rcases hr with ⟨hs, _⟩ | hr | hr
    · cases call <;> simp [managed, selfCall] at hm hs
    · subst hr; simp [managed] at hm
    · omega
  | _ => simp [managed] at hm

/-- **C16** (rejection): identifiers below the range, or more than one past it, are rejected with an error
and nothing changes. -/
theorem C16_rejected_partial (c : Config) (k : Kernel) (proc now id x : Nat)
    (h : id < (k.P k.curPart).low ∨ (k.P k.curPart).high < id) :
    (∃ r, r ≠ .ok ∧ delayedStart c proc now k id x = some (k, r)) ∧
    (∃ r, r ≠ .ok ∧ setPriority c proc now k id x = some (k, r)) ∧
    (∃ r, r ≠ .ok ∧ resume c proc now k id = some (k, r)) ∧
    (∃ r, r ≠ .ok ∧ suspendTarget proc k id = (k, r)) ∧
    (∀ tid, (tid + (k.P k.curPart).low) % U32 = id → ∃ r, r ≠ .ok ∧ restartThread c proc now k tid = some (k, r)) ∧
    (∀ tid, (tid + (k.P k.curPart).low) % U32 = id → ∃ r, r ≠ .ok ∧ stopThread c proc now k tid = some (k, r)) := by
  have ho : outOfRange k id = true := by unfold outOfRange; simpa using h
  refine ⟨⟨.threadattr, by simp, by simp [delayedStart, ho]⟩, ⟨.param, by simp, by simp [setPriority, ho]⟩,
    ⟨.threadattr, by simp, by simp [resume, ho]⟩, ⟨.threadattr, by simp, by simp [suspendTarget, ho]⟩, ?_, ?_⟩
  · rintro tid rfl
    unfold restartThread
    simp only
    by_cases he : k.curThread proc ≠ (k.P k.curPart).threadError
    · exact ⟨.thread, by simp, by rw [if_pos he]⟩
    · exact ⟨.threadattr, by simp, by rw [if_neg he, if_pos (by omega)]⟩
  · rintro tid rfl
    unfold stopThread
    simp only
    by_cases he : k.curThread proc ≠ (k.P k.curPart).threadError
    · exact ⟨.thread, by simp, by rw [if_pos he]⟩
    · exact ⟨.threadattr, by simp, by rw [if_neg he, if_pos (by omega)]⟩

/-! ### C17 -/

/-- The caller is the main thread / the registered error handler of the running partition. -/
def callerIsMain (k : Kernel) (proc : Nat) : Prop := k.curThread proc = (k.P k.curPart).threadMain
def callerIsHandler (k : Kernel) (proc : Nat) : Prop :=
  (k.P k.curPart).threadError ≠ 0 ∧ k.curThread proc = (k.P k.curPart).threadError

theorem then_mode {c proc now k1 k'} (h : Then c proc now k1 k') (p : Nat) : (k'.P p).mode = (k1.P p).mode := by
  rcases h with rfl | h | h
  · rfl
  · exact (sched_part h p).1
  · exact (sched_part (k := switchPartition c now k1) h p).1

theorem reinit_mode {c proc k pid k'} (h : reinit c proc k pid = some k') : (k'.P pid).mode = (k.P pid).mode := by
  unfold reinit at h
  obtain ⟨k2, id, a, hcr, _, _, _, _, _, _, rfl⟩ := setup_parts h
  obtain ⟨_, _, _, aff, _, _, rfl⟩ := create_ok hcr
  simp [setP, created, resetPart]

/-- **C17** (success): a mode request that succeeds was allowed, and the partition is then in the requested
mode. -/
theorem C17_success {c : Config} {k k' : Kernel} {proc now : Nat} {m : Mode}
    (h : setModeCurrent c proc now k m = some (k', .ok)) :
    AllowedMode (k.P k.curPart).mode m (callerIsMain k proc) (callerIsHandler k proc) ∧
    (k'.P k.curPart).mode = m := by
  unfold setModeCurrent at h
  simp only at h
  split at h
  · simp at h
  · have hP : ∀ v, (k.setP k.curPart v).P k.curPart = v := fun v => by simp [setP]
    unfold setMode at h
    simp only at h
    split at h
    · split at h
      · simp at h
      · split at h
        · simp at h
        · rename_i hi hm
          split at h
          · simp at h
          · rename_i k2 hk2
            simp at h
            subst h
            refine ⟨⟨by simpa [callerIsMain] using hm, hi⟩, ?_⟩
            have := then_mode (Or.inr (Or.inr hk2)) k.curPart
            rw [this]
            simp [setP]
    · split at h
      · simp at h
      · rename_i hn
        split at h
        · simp at h
        · rename_i k2 hk2
          simp at h
          subst h
          refine ⟨⟨fun h => hn (Or.inl h), ?_⟩, ?_⟩
          · by_cases hh : k.curThread proc = (k.P k.curPart).threadError
            · exact hh
            · exact absurd (Or.inr hh) hn
          · have := then_mode (Or.inr (Or.inr hk2)) k.curPart
            rw [this]
            simp [setP]
    · split at h
      · simp at h
      · split at h
        · simp at h
        · rename_i hw hn
          split at h
          · simp at h
          · rename_i k2 hk2
            split at h
            · simp at h
            · rename_i k3 hk3
              simp at h
              subst h
              refine ⟨⟨⟨fun h => hn (Or.inl h), ?_⟩, fun h => hw ⟨h, rfl⟩⟩, ?_⟩
              · by_cases hh : k.curThread proc = (k.P k.curPart).threadError
                · exact hh
                · exact absurd (Or.inr hh) hn
              · have := then_mode (Or.inr (Or.inr hk3)) k.curPart
                rw [this, reinit_mode hk2]
                simp [setP]
    · split at h
      · simp at h
      · split at h
        · simp at h
        · rename_i hw hn
          split at h
          · simp at h
          · rename_i k2 hk2
            split at h
            · simp at h
            · rename_i k3 hk3
              simp at h
              subst h
              refine ⟨⟨fun h => hn (Or.inl h), ?_⟩, ?_⟩
              · by_cases hh : k.curThread proc = (k.P k.curPart).threadError
                · exact hh
                · exact absurd (Or.inr hh) hn
              · have := then_mode (Or.inr (Or.inr hk3)) k.curPart
                rw [this, reinit_mode hk2]
                simp [setP]
    · simp at h

/-- **C17** (failure): every other request, by any caller, for any value, fails and changes nothing. -/
theorem C17_failure (c : Config) (k : Kernel) (proc now : Nat) (m : Mode)
    (h : ¬ AllowedMode (k.P k.curPart).mode m (callerIsMain k proc) (callerIsHandler k proc)) :
    ∃ r, r ≠ .ok ∧ setModeCurrent c proc now k m = some (k, r) := by
  unfold setModeCurrent
  simp only
  split
  · exact ⟨_, by simp, rfl⟩
  · unfold setMode
    simp only
    unfold AllowedMode callerIsMain callerIsHandler at h
    cases m with
    | normal =>
      simp only at h ⊢
      by_cases hi : (k.P k.curPart).mode = .idle
      · exact ⟨.partitionMode, by simp, by simp [hi]⟩
      · exact ⟨.partitionMode, by simp, by rw [if_neg hi, if_pos (fun hm => h ⟨hm, hi⟩)]⟩
    | stopped =>
      simp only at h ⊢
      refine ⟨.partitionMode, by simp, ?_⟩
      rw [if_pos]
      by_cases h0 : (k.P k.curPart).threadError = 0
      · exact Or.inl h0
      · exact Or.inr (fun hh => h ⟨h0, hh⟩)
    | initCold =>
      simp only at h ⊢
      refine ⟨.partitionMode, by simp, ?_⟩
      rw [if_neg (by simp), if_pos]
      by_cases h0 : (k.P k.curPart).threadError = 0
      · exact Or.inl h0
      · exact Or.inr (fun hh => h ⟨h0, hh⟩)
    | initWarm =>
      simp only at h ⊢
      refine ⟨.partitionMode, by simp, ?_⟩
      by_cases hw : (k.P k.curPart).mode = .initCold
      · simp [hw]
      · rw [if_neg (fun hh => hw hh.1), if_pos]
        by_cases h0 : (k.P k.curPart).threadError = 0
        · exact Or.inl h0
        · exact Or.inr (fun hh => h ⟨⟨h0, hh⟩, hw⟩)
    | idle => exact ⟨.partitionMode, by simp, rfl⟩
    | restart => exact ⟨.partitionMode, by simp, rfl⟩
    | other n => exact ⟨.partitionMode, by simp, rfl⟩

/-- **C17** (nothing else changes modes): a kernel entry changes no partition's mode, except that an allowed
mode request puts the calling partition in the requested mode. -/
theorem C17_only {c : Config} {k k' : Kernel} {proc now : Nat} {call : KCall}
    (h : exec c proc now k call = some k') (p : Nat) :
    (k'.P p).mode = (k.P p).mode ∨
    (p = k.curPart ∧ ∃ m, call = .setMode m ∧ (k'.P p).mode = m ∧
      AllowedMode (k.P k.curPart).mode m (callerIsMain k proc) (callerIsHandler k proc)) := by
  obtain ⟨k1, h1, h2⟩ := exec_cases h
  rw [then_mode h2]
  cases h1 with
  | same => exact Or.inl rfl
  | thread => exact Or.inl rfl
  | create a k1 id h =>
    obtain ⟨_, _, _, aff, _, _, rfl⟩ := create_ok h
    left
    by_cases e : p = k.curPart
    · subst e; simp [created]
    · simp [created, upd_other _ _ e]
  | normal hm hi =>
    show (upd k.P k.curPart _ p).mode = _ ∨ (p = k.curPart ∧ ∃ m, _ ∧ (upd k.P k.curPart _ p).mode = m ∧ _)
    by_cases e : p = k.curPart
    · subst e; right; exact ⟨rfl, .normal, rfl, by simp, hm, hi⟩
    · left; rw [upd_other _ _ e]
  | stop he h0 =>
    show (upd k.P k.curPart _ p).mode = _ ∨ (p = k.curPart ∧ ∃ m, _ ∧ (upd k.P k.curPart _ p).mode = m ∧ _)
    by_cases e : p = k.curPart
    · subst e; right; exact ⟨rfl, .stopped, rfl, by simp, h0, he⟩
    · left; rw [upd_other _ _ e]
  | init m k1 hm hwm he h0 h =>
    by_cases e : p = k.curPart
    · subst e; right
      refine ⟨rfl, m, rfl, ?_, ?_⟩
      · rw [reinit_mode h]; simp [setP]
      · rcases hm with rfl | rfl
        · exact ⟨⟨h0, he⟩, fun h => hwm ⟨h, rfl⟩⟩
        · exact ⟨h0, he⟩
    · left
      unfold reinit at h
      obtain ⟨k2, id, a, hcr, _, _, _, _, _, _, rfl⟩ := setup_parts h
      obtain ⟨_, _, _, aff, _, _, rfl⟩ := create_ok hcr
      simp [setP, created, upd_other _ _ e]
  | errorCreate entry junk k1 id h3 =>
    obtain ⟨_, _, _, aff, _, _, rfl⟩ := create_ok h3
    left
    rw [activate_P]
    have e0 : (created c k { junk with priority := 200, entry := entry, timeCapacity := 10000 } k.curPart aff).curPart
      = k.curPart := rfl
    rw [e0]
    by_cases e : p = k.curPart
    · subst e; simp [created, setP]
    · simp [created, setP, upd_other _ _ e]
  | raise => left; rw [activate_P]

/-! ### C18 -/

/-- Entering NORMAL mode at clock `now`: what the specification asks for, with `nextFrame` the start of the
next major frame. -/
structure NormalEntry (now nextFrame : Nat) (k k1 : Kernel) : Prop where
  released : ∀ t, (k.P k.curPart).low ≤ t → t < (k.P k.curPart).high → t ≠ (k.P k.curPart).threadMain →
    Released now nextFrame (k.T t) (k1.T t)
  main : (k1.T (k.P k.curPart).threadMain).state = .stopped
  foreign : ∀ t, ¬ ((k.P k.curPart).low ≤ t ∧ t < (k.P k.curPart).high) → k1.T t = k.T t
  parts : ∀ p, p ≠ k.curPart → k1.P p = k.P p
  mode : (k1.P k.curPart).mode = .normal
  cur : k1.curThread = k.curThread

/-- **C18**: a successful request for NORMAL mode releases the threads as specified, stops the main thread,
changes no thread of another partition, and then elects.

Partial: for periodic threads with a delay the code computes `delay + major frame` from the boot time
instead of the next major frame; so `nextFrame` is the length of one major frame, which is the right value
only when NORMAL mode is entered during the first major frame (`C18_first_frame_partial`).  Later the
thread is released at once, without its delay: `C18_periodic_violated`.  Delays are assumed not to
overflow 64 bits. -/
theorem C18_entry_partial {c : Config} {k k' : Kernel} {proc now : Nat} (hc : CfgOk c) (hr : Reachable c k)
    (hov : ∀ t, (k.T t).wakeup + now < U64 ∧ (k.T t).wakeup + c.majorFrame < U64)
    (h : setModeCurrent c proc now k .normal = some (k', .ok)) :
    ∃ k1, NormalEntry now c.majorFrame k k1 ∧ globalSched c proc now k1 = some k' := by
  have hw := hr.wf hc
  have w := hw.part _ hw.curPart
  have hP : ∀ v, (k.setP k.curPart v).P k.curPart = v := fun v => by simp [setP]
  unfold setModeCurrent at h
  simp only at h
  split at h
  · simp at h
  · unfold setMode at h
    simp only at h
    split at h
    · simp at h
    · split at h
      · simp at h
      · split at h
        · simp at h
        · rename_i k2 hk2
          simp at h
          subst h
          have hcp : (k.setP k.curPart { k.P k.curPart with mode := .normal }).curPart = k.curPart := rfl
          rw [hcp, hP] at hk2
          refine ⟨_, ?_, hk2⟩
          simp only
          have hn : (k.P k.curPart).low + (k.P k.curPart).nthreads = (k.P k.curPart).high := by
            rw [w.nth, w.high]
          have hloop : ∀ j, releaseLoop c now (k.P k.curPart).activation
              (k.setP k.curPart { k.P k.curPart with mode := .normal }).T (k.P k.curPart).low
              (k.P k.curPart).nthreads j =
              if (k.P k.curPart).low ≤ j ∧ j < (k.P k.curPart).high then
                release c now (k.P k.curPart).activation (k.T j) else k.T j := by
            intro j; rw [releaseLoop_spec, hn]; rfl
          constructor
          · intro t h1 h2 h3
            show Released _ _ _ (Threads.setState _ _ _ t)
            unfold Threads.setState
            rw [upd_other _ _ h3, hloop, if_pos ⟨h1, h2⟩, w.act]
            obtain ⟨o1, o2⟩ := hov t
            constructor
            · intro hs; unfold release; rw [if_pos hs]
            · intro hs h0
              unfold release
              rw [if_neg (by simp [hs])]
              by_cases hper : (k.T t).period = -1
              · rw [if_pos hper]; simp only; split <;> simp
              · rw [if_neg hper, if_pos h0]; simp only; split <;> rfl
            · intro hs h0 hper
              unfold release
              rw [if_neg (by simp [hs]), if_pos hper]
              simp only
              have : ((k.T t).wakeup + now) % U64 = now + (k.T t).wakeup := by
                rw [Nat.mod_eq_of_lt o1, Nat.add_comm]
              split
              · exact ⟨rfl, this⟩
              · exact ⟨rfl, this⟩
            · intro hs h0 hper
              unfold release
              rw [if_neg (by simp [hs]), if_neg hper, if_neg h0]
              simp only
              refine ⟨trivial, ?_⟩
              rw [Nat.mod_eq_of_lt (by omega)]
              omega
          · show (Threads.setState _ _ _ (k.P k.curPart).threadMain).state = .stopped
            unfold Threads.setState
            rw [upd_same]
          · intro t ht
            show Threads.setState _ _ _ t = _
            unfold Threads.setState
            have := w.main
            rw [upd_other _ _ (by omega), hloop, if_neg ht]
          · intro p hp
            show upd k.P k.curPart _ p = _
            exact upd_other _ _ hp
          · show (upd k.P k.curPart _ k.curPart).mode = .normal
            rw [upd_same]
          · rfl

/-- During the first major frame after boot, the value used for periodic threads is the start of the next
major frame. -/
theorem C18_first_frame_partial {frame now : Nat} (h : now < frame) : nextFrameStart frame now = frame := by
  unfold nextFrameStart
  rw [Nat.div_eq_of_lt h]
  omega

/-! ### C19 -/

/-- **C19** (what a restart does): a successful request for COLD or WARM start changes, before the election
that follows, only the calling partition: its thread count is one, its main thread is the first of its
range and is reset (runnable, fresh context at the partition's entry point, infinite budget, no wake-up
time), the error handler is unregistered, memory size and ranges are kept; no thread and no partition
record outside changes.

Partial: the other threads of the partition are *not* reset or stopped (`C19_threads_violated`). -/
theorem C19_restart_partial {c : Config} {k k' : Kernel} {proc now : Nat} {m : Mode} (hc : CfgOk c)
    (hr : Reachable c k) (hm : m = .initCold ∨ m = .initWarm)
    (h : setModeCurrent c proc now k m = some (k', .ok)) :
    ∃ k1, globalSched c proc now k1 = some k' ∧
      (k1.P k.curPart).index = 1 ∧ (k1.P k.curPart).threadMain = (k.P k.curPart).low ∧
      (k1.P k.curPart).threadError = 0 ∧ (k1.P k.curPart).size = (k.P k.curPart).size ∧
      (k1.P k.curPart).low = (k.P k.curPart).low ∧ (k1.P k.curPart).high = (k.P k.curPart).high ∧
      (let t := k1.T (k.P k.curPart).low
       t.state = .runnable ∧ t.sp = 0 ∧ t.entry = c.entry k.curPart ∧ t.wakeup = 0 ∧ t.timeCapacity = -1 ∧
         t.partition = k.curPart) ∧
      (∀ i, ¬ ((k.P k.curPart).low ≤ i ∧ i < (k.P k.curPart).high) → k1.T i = k.T i) ∧
      (∀ p, p ≠ k.curPart → k1.P p = k.P p) := by
  have hw := hr.wf hc
  have w := hw.part _ hw.curPart
  have key : ∀ k1, reinit c proc (k.setP k.curPart { k.P k.curPart with mode := m }) k.curPart = some k1 →
      (k1.P k.curPart).index = 1 ∧ (k1.P k.curPart).threadMain = (k.P k.curPart).low ∧
      (k1.P k.curPart).threadError = 0 ∧ (k1.P k.curPart).size = (k.P k.curPart).size ∧
      (k1.P k.curPart).low = (k.P k.curPart).low ∧ (k1.P k.curPart).high = (k.P k.curPart).high ∧
      (let t := k1.T (k.P k.curPart).low
       t.state = .runnable ∧ t.sp = 0 ∧ t.entry = c.entry k.curPart ∧ t.wakeup = 0 ∧ t.timeCapacity = -1 ∧
         t.partition = k.curPart) ∧
      (∀ i, ¬ ((k.P k.curPart).low ≤ i ∧ i < (k.P k.curPart).high) → k1.T i = k.T i) ∧
      (∀ p, p ≠ k.curPart → k1.P p = k.P p) := by
    intro k1 hk1
    unfold reinit at hk1
    obtain ⟨k2, id, a, hcr, a1, a2, a3, a4, a5, a6, rfl⟩ := setup_parts hk1
    obtain ⟨hid, hlt, _, aff, _, hmu, rfl⟩ := create_ok hcr
    have hq : ∀ v : Part, ((k.setP k.curPart { k.P k.curPart with mode := m }).setP k.curPart v).P k.curPart = v := by
      intro v; simp [setP]
    have hq1 : (k.setP k.curPart { k.P k.curPart with mode := m }).P k.curPart = { k.P k.curPart with mode := m } := by
      simp [setP]
    rw [hq] at hid hlt a1
    rw [hq1] at hid hlt a1
    simp only [resetPart] at hid hlt a1
    have hent : a.timeCapacity % U64 > 0 := by rw [a4]; decide
    have hcapv : toI64 a.timeCapacity = -1 := by rw [a4]; decide
    have hper : a.period % U64 > 0 := by rw [a3]; decide
    have hdl : ¬ a.deadline % U64 > 0 := by rw [a5]; decide
    refine ⟨?_, ?_, ?_, ?_, ?_, ?_, ?_, ?_, ?_⟩
    · simp [setP, created, resetPart]
    · simp [setP, hid]
    · simp [setP, created, resetPart]
    · simp [setP, created, resetPart]
    · simp [setP, created, resetPart]
    · simp [setP, created, resetPart]
    · simp only
      have hT : ∀ k0 : Kernel, (k0.P k.curPart).low = (k.P k.curPart).low → (k0.P k.curPart).index = 0 →
          (created c k0 a k.curPart aff).T (k.P k.curPart).low =
            newThread (k0.T (k.P k.curPart).low) a k.curPart aff (c.stackAddr k.curPart ((k0.P k.curPart).index + 1)) := by
        intro k0 e1 e2
        unfold created
        simp only
        rw [if_neg (by omega)]
        rw [e1, e2]
        simp
      show ((created c _ a k.curPart aff).T (k.P k.curPart).low).state = .runnable ∧
        ((created c _ a k.curPart aff).T (k.P k.curPart).low).sp = 0 ∧
        ((created c _ a k.curPart aff).T (k.P k.curPart).low).entry = c.entry k.curPart ∧
        ((created c _ a k.curPart aff).T (k.P k.curPart).low).wakeup = 0 ∧
        ((created c _ a k.curPart aff).T (k.P k.curPart).low).timeCapacity = -1 ∧
        ((created c _ a k.curPart aff).T (k.P k.curPart).low).partition = k.curPart
      rw [hT _ (by rw [hq, hq1]; rfl) (by rw [hq]; rfl)]
      unfold newThread
      simp only [hent, hper, hdl, hcapv, if_true, if_false, a1, and_self]
    · intro i hi
      show (created c _ a k.curPart aff).T i = _
      have := (created_T (c := c) (a := a) (aff := aff)
        (k := (k.setP k.curPart { k.P k.curPart with mode := m }).setP k.curPart
          (resetPart c proc k.curPart ((k.setP k.curPart { k.P k.curPart with mode := m }).P k.curPart)))
        (pid := k.curPart) (by rw [hq, hq1]; simp only [resetPart]; omega) i).1
        (by rw [hq, hq1]; exact hi)
      exact this
    · intro p hp
      simp [setP, created, upd_other _ _ hp]
  unfold setModeCurrent at h
  simp only at h
  split at h
  · simp at h
  · unfold setMode at h
    simp only at h
    rcases hm with rfl | rfl
    all_goals
      simp only at h
      split at h
      · simp at h
      · split at h
        · simp at h
        · split at h
          · simp at h
          · rename_i k2 hk2
            split at h
            · simp at h
            · rename_i k3 hk3
              simp at h
              subst h
              exact ⟨k2, hk3, key k2 hk2⟩

end Kernel

/-! ### Concrete histories -/

section Examples
open Kernel Pok.Spec

/-- Identifiers 1 and 2 are returned, then the table is full; in NORMAL mode creation is refused. -/
example :
    ((runFromBoot exCfg [⟨0, 0, .tick⟩]).map fun k => returnedIds exCfg 0 k
      [⟨0, 1, .create { entry := 1 }⟩, ⟨0, 2, .create { entry := 2 }⟩, ⟨0, 3, .create { entry := 3 }⟩,
       ⟨0, 4, .setMode .normal⟩, ⟨0, 5, .create { entry := 3 }⟩]) = some [1, 2] := by
  decide +kernel

/-- A configuration with 200 + 100 lock objects. -/
def exLocks : Config := { exCfg with nlocks := fun p => if p = 0 then 200 else 100 }

/-- **C15** is false of the code for 256 or more lock objects: with 200 and 100, the second partition gets the
range 200..44, which is empty. -/
theorem C15_locks_violated :
    (boot exLocks).map (fun k => ((k.P 0).lockLow, (k.P 0).lockHigh, (k.P 1).lockLow, (k.P 1).lockHigh))
      = some (0, 200, 200, 44) := by
  decide +kernel

/-- The error handler of partition 0 runs, after a thread of partition 1 was resumed. -/
def exHandlerRuns : List KEv :=
  [⟨0, 0, .tick⟩, ⟨0, 2, .errorCreate 7 {}⟩, ⟨0, 3, .tick⟩, ⟨0, 4, .setMode .normal⟩, ⟨0, 5, .resume 3⟩, ⟨0, 6, .raiseError⟩, ⟨0, 7, .tick⟩]

/-- **C16** is false of the code for the identifier one past the range: partition 0 (threads 0..2) resumes
thread 3, the main thread of partition 1, which was stopped; and stops it again. -/
theorem C16_one_past_violated :
    (runFromBoot exCfg exTimed).map (fun k => ((k.P 0).low, (k.P 0).high, (k.P 1).low, (k.T 3).state))
      = some (0, 3, 3, .stopped) ∧
    ((runFromBoot exCfg exTimed).bind fun k => (resume exCfg 0 4 k 3).map
      fun r => (k.curPart, r.2, (r.1.T 3).state)) = some (0, .ok, .runnable) ∧
    (runFromBoot exCfg (exTimed ++ [⟨0, 4, .resume 3⟩, ⟨0, 5, .suspendTarget 3⟩])).map
      (fun k => (k.curPart, (k.T 3).state)) = some (0, .stopped) := by
  refine ⟨?_, ?_, ?_⟩ <;> decide +kernel

/-- **C16** is false of the code in the same way for the error handler's calls: the handler of partition 0 (thread 1) stops thread 3, the main
thread of partition 1. -/
theorem C16_handler_past_violated :
    (runFromBoot exCfg exHandlerRuns).map (fun k => (k.curPart, k.curThread 0, (k.P 0).threadError, (k.P 0).high, (k.P 1).low, (k.T 3).state))
      = some (0, 1, 1, 3, 3, .runnable) ∧
    ((runFromBoot exCfg exHandlerRuns).bind fun k => (stopThread exCfg 0 7 k 3).map fun r => (r.2, (r.1.T 3).state)) = some (.ok, .stopped) := by
  refine ⟨?_, ?_⟩ <;> decide +kernel

/-- `C16_confined_partial` applies to calls that do change something. -/
example : (runFromBoot exCfg (exTimed ++ [⟨0, 4, .suspendTarget 1⟩])).map (fun k => (k.T 1).state) = some .stopped := by
  decide +kernel

/-- The main thread with an error handler (thread 1): COLD start is refused to the main thread, accepted from
the handler; then WARM is refused. -/
example :
    ((runFromBoot exCfg [⟨0, 0, .tick⟩]).bind fun k => (setModeCurrent exCfg 0 1 k .initCold).map
      fun r => (r.2, (r.1.P 0).mode)) = some (.partitionMode, .initWarm) ∧
    ((runFromBoot exCfg [⟨0, 0, .tick⟩, ⟨0, 1, .errorCreate 7 {}⟩]).bind fun k =>
      (setModeCurrent exCfg 0 1 k .initCold).map fun r => (r.2, (r.1.P 0).mode)) = some (.ok, .initCold) := by
  refine ⟨?_, ?_⟩ <;> decide +kernel

/-- A periodic and an aperiodic thread with delayed starts of 2 and 3 microseconds, and one without delay. -/
def exDelayed (start : Nat) : List KEv :=
  [⟨0, start, .tick⟩,
   ⟨0, start + 1, .create { priority := 3, entry := 1, timeCapacity := 5, period := 50 }⟩,
   ⟨0, start + 2, .create { priority := 4, entry := 2 }⟩,
   ⟨0, start + 3, .delayedStart 1 2⟩,
   ⟨0, start + 4, .delayedStart 2 3⟩,
   ⟨0, start + 5, .setMode .normal⟩]

/-- The hypotheses of `C18_entry_partial` are met: NORMAL mode entered at clock 5 of the first frame (length
200); thread 1 waits for 2200, thread 2 for 3005. -/
example : (runFromBoot exCfg (exDelayed 0)).map
    (fun k => ((k.T 1).state, (k.T 1).nextActivation, (k.T 2).state, (k.T 2).wakeup, (k.T 0).state))
      = some (.waitNextActivation, 2200, .waiting, 3005, .stopped) := by
  decide +kernel

/-- **C18** is false of the code after the first major frame: NORMAL mode entered at clock 100005, in frame
500; the periodic thread should be released at 100200 + 2000, but the election that follows finds its
release time 2200 in the past and dispatches it at once. -/
theorem C18_periodic_violated :
    nextFrameStart exCfg.majorFrame 100005 + 2000 = 102200 ∧
    (runFromBoot { exCfg with alloc := fun _ => 0 } (exDelayed 100000)).map
      (fun k => (k.curThread 0, (k.T 1).state, (k.T 1).nextActivation)) = some (1, .runnable, 2250) := by
  refine ⟨by decide, ?_⟩
  decide +kernel

/-- **C19** is false of the code: partition 0 creates a thread (2) with priority 4 and enters NORMAL mode; an
error makes the handler (thread 1) restart it; in the new life only the main thread has been created
(count 1), it enters NORMAL mode without creating any thread — and thread 2 of the previous life runs. -/
theorem C19_threads_violated :
    (runFromBoot exCfg
      [⟨0, 0, .tick⟩, ⟨0, 1, .errorCreate 7 {}⟩, ⟨0, 2, .tick⟩, ⟨0, 3, .create { priority := 4, entry := 2 }⟩,
       ⟨0, 4, .setMode .normal⟩, ⟨0, 5, .raiseError⟩, ⟨0, 6, .setMode .initCold⟩, ⟨0, 7, .tick⟩,
       ⟨0, 8, .suspendTarget 1⟩, ⟨0, 9, .setMode .normal⟩]).map
      (fun k => (k.curThread 0, (k.P 0).index, (k.P 0).mode, (k.T 2).state, (k.T 2).entry))
      = some (2, 1, .normal, .runnable, 2) := by
  decide +kernel

end Examples
end Pok
