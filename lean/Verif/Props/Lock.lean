import Verif.Lemmas.LockRun

/-!
# C26–C30: mutexes, semaphores, events

Runs are arbitrary finite interleavings of lock, unlock, wait, signal and broadcast calls, clock
ticks, timer wake-ups, priority changes and whatever threads outside lock calls do
(`Verif.Model.LockSys`).  `s.log` is what the callers observed, newest first.
-/

namespace Pok
open Pok.Spec Pok.Fifo LSys

/-- A freshly created object, all threads in user code. -/
def lockStart (T : Threads) (a : LockAttr) : LSys :=
  { now := 0, T := T, o := (LockObj.create ⟨⟨0, 0, true, fun _ => 0⟩, ⟨0, 0, true, fun _ => 0⟩, .standard,
      .fifo, .mutex, false, 0, 0⟩ a).1, pc := fun _ => .user, log := [] }

/-- Four runnable threads of priorities 10, 11, 12, ... -/
def lockThreads : Threads := fun i => { state := .runnable, priority := 10 + i }

theorem lockStart_initial (T : Threads) (a : LockAttr)
    (h1 : a.policy = .standard) (h2 : a.kind = .mutex ∨ a.kind = .semaphore ∨ a.kind = .event) :
    Initial a (lockStart T a) := by
  refine ⟨_, Prod.ext rfl ?_, fun _ => rfl, rfl⟩
  unfold LockObj.create
  rcases h2 with h | h | h <;> simp [h1, h]

theorem allOrdinary_of {es : List LEvent} (h : es.all LEvent.ordinary = true) : AllOrdinary es :=
  List.all_eq_true.1 h

theorem run_inv {N a s0 es s} (hN : 0 < N) (hd : a.kind ≠ .event → a.queueing ≠ .other)
    (h0 : Initial a s0) (hr : Run N s0 es s) (ho : AllOrdinary es) {P : Nat → List Nat → List Obs → Prop}
    (hP0 : P s0.o.current [] [])
    (hstep : ∀ c g l c' g' l', Tok a.kind s0.o.max (c, g, l) (c', g', l') → P c g l → P c' g' l') :
    ∃ q e g, Base N s q e g ∧ P s.o.current g s.log ∧ s.o.kind = a.kind := by
  induction hr with
  | nil =>
    obtain ⟨b, h1, _⟩ := initial_base hN hd h0
    obtain ⟨_, _, _, hl⟩ := h0
    exact ⟨[], [], [], b, by rw [hl]; exact hP0, h1⟩
  | @snoc s' s'' es ev hr hen hx ih =>
    obtain ⟨ho1, ho2⟩ := mem_snoc_forall ho
    obtain ⟨q, e, g, b, hp, hk⟩ := ih ho1
    obtain ⟨w, ht⟩ := hr.track
    obtain ⟨_, _, _, _, _, hm, _⟩ := trun_base hN hd h0 ht ho1
    obtain ⟨s1, hx1, g', b', htok, hk', hm', _, _⟩ := exec_base b ev ho2 hen
    rw [hx] at hx1; injection hx1 with hx1; subst hx1
    rw [hk, hm] at htok
    exact ⟨_, _, g', b', hstep _ _ _ _ _ _ htok hp, by rw [hk', hk]⟩

/-- Every call made in a run executes without undefined behaviour or failed assertion. -/
theorem C26_calls_defined {N a s0 es s} (hN : 0 < N) (hd : a.kind ≠ .event → a.queueing ≠ .other)
    (h0 : Initial a s0) (hr : Run N s0 es s) (ho : AllOrdinary es) (ev : LEvent)
    (hv : ev.ordinary = true) (hen : enabled N s ev) : ∃ s', exec N s ev = some s' := by
  obtain ⟨w, ht⟩ := hr.track
  obtain ⟨q, e, g, b, _⟩ := trun_base hN hd h0 ht ho
  obtain ⟨s', hx, _⟩ := exec_base b ev hv hen
  exact ⟨s', hx⟩

/-- **C26, part that holds**: at most one thread is between a successful lock and the matching unlock of
a mutex (or of the lock inside an event), for every number of threads and every interleaving,
timeouts included.  Missing: the runs containing one of the three steps that make a suspended thread
runnable without looking at why it is suspended (`LEvent.ordinary`); the next theorem shows that they
break the property. -/
theorem C26_mutual_exclusion_partial {N a s0 es s} (hN : 0 < N) (hk : a.kind = .mutex ∨ a.kind = .event)
    (hd : a.kind ≠ .event → a.queueing ≠ .other)
    (h0 : Initial a s0) (hr : Run N s0 es s) (ho : AllOrdinary es) (t u : Nat)
    (ht : Holding s.log t) (hu : Holding s.log u) : t = u := by
  have hns : a.kind ≠ .semaphore := by rcases hk with h | h <;> simp [h]
  obtain ⟨q, e, g, b, ⟨w, hw, hl⟩, _⟩ := run_inv hN hd h0 hr ho (P := MutexInv)
    (by
      obtain ⟨_, _, _, hc, _⟩ := initial_base hN hd h0
      exact ⟨[], by simp, by simp [hc hns]⟩)
    (fun c g l c' g' l' htok hi => tok_mutex hns htok hi)
  unfold Holding at ht hu
  have h1 := hw t
  have h2 := hw u
  have c1 : 0 < w.count t := by omega
  have c2 : 0 < w.count u := by omega
  have m1 := List.count_pos_iff.1 c1
  have m2 := List.count_pos_iff.1 c2
  match w, hl, m1, m2 with
  | [x], _, m1, m2 => simp at m1 m2; rw [m1, m2]
  | x :: y :: w, hl, _, _ => simp at hl; omega

/-- A thread that holds the mutex holds it once: between two successful locks of the same thread there
is an unlock by it. -/
theorem C26_not_reentrant_partial {N a s0 es s} (hN : 0 < N) (hk : a.kind = .mutex ∨ a.kind = .event)
    (hd : a.kind ≠ .event → a.queueing ≠ .other)
    (h0 : Initial a s0) (hr : Run N s0 es s) (ho : AllOrdinary es) (t : Nat) :
    s.log.count (.acquired t) ≤ s.log.count (.released t) + 1 := by
  have hns : a.kind ≠ .semaphore := by rcases hk with h | h <;> simp [h]
  obtain ⟨q, e, g, b, ⟨w, hw, hl⟩, _⟩ := run_inv hN hd h0 hr ho (P := MutexInv)
    (by
      obtain ⟨_, _, _, hc, _⟩ := initial_base hN hd h0
      exact ⟨[], by simp, by simp [hc hns]⟩)
    (fun c g l c' g' l' htok hi => tok_mutex hns htok hi)
  have := hw t
  have := List.count_le_length (l := w) (a := t)
  omega

/-- Thread 1 has a time budget that is used up. -/
def overrunThreads : Threads := upd lockThreads 1 { state := .runnable, timeCapacity := 5, remaining := 0 }

/-- **C26 fails** when a thread blocks on a mutex in the very election that finds its time budget used
up: its state is overwritten (kernel/core/sched.c 251-262), the next release makes it runnable
(214-220) and its lock call returns OK although thread 0 still holds the mutex. -/
theorem C26_mutual_exclusion_violated :
    ∃ s0 es s, Initial { kind := .mutex } s0 ∧ Run 4 s0 es s ∧ Holding s.log 0 ∧ Holding s.log 1 := by
  have h : ∃ s, run? 4 (lockStart overrunThreads { kind := .mutex })
      [.lock 0 0, .lock 1 0, .overrun 1, .activate 1, .resume 1] = some s ∧
      Holding s.log 0 ∧ Holding s.log 1 := by
    refine ⟨_, rfl, ?_, ?_⟩ <;> decide
  obtain ⟨s, h1, h2, h3⟩ := h
  exact ⟨_, _, s, lockStart_initial _ _ rfl (Or.inl rfl), run?_sound h1, h2, h3⟩

/-- The same through `pok_thread_resume` (kernel/core/thread.c 355-364) on a thread that is blocked. -/
theorem C26_mutual_exclusion_violated_by_resume :
    ∃ s0 es s, Initial { kind := .mutex } s0 ∧ Run 4 s0 es s ∧ Holding s.log 0 ∧ Holding s.log 1 := by
  have h : ∃ s, run? 4 (lockStart lockThreads { kind := .mutex })
      [.lock 0 0, .lock 1 0, .resumeOther 1, .resume 1] = some s ∧
      Holding s.log 0 ∧ Holding s.log 1 := by
    refine ⟨_, rfl, ?_, ?_⟩ <;> decide
  obtain ⟨s, h1, h2, h3⟩ := h
  exact ⟨_, _, s, lockStart_initial _ _ rfl (Or.inl rfl), run?_sound h1, h2, h3⟩

/-- A non-trivial run meeting the hypotheses of `C26_mutual_exclusion_partial`: two threads contend, one
with a timeout, ownership passes from 0 to 1. -/
example : ((run? 4 (lockStart lockThreads { kind := .mutex })
    [.lock 0 0, .lock 1 50, .lock 2 0, .advance 7, .unlock 0, .resume 1]).map (·.log))
    = some [.acquired 1, .released 0, .acquired 0] := by decide

/-- **C27, first part**: successful waits never exceed the initial value plus the signals. -/
theorem C27_no_excess_partial {N a s0 es s} (hN : 0 < N) (hk : a.kind = .semaphore)
    (hd : a.queueing ≠ .other) (h0 : Initial a s0) (hr : Run N s0 es s) (ho : AllOrdinary es) :
    acqs s.log ≤ a.initial + rels s.log := by
  obtain ⟨q, e, g, b, hp, _⟩ := run_inv hN (fun _ => hd) h0 hr ho
    (P := fun c g l => c + acqs l + g.length ≤ a.initial + rels l)
    (by
      obtain ⟨_, _, hc, _⟩ := initial_base hN (fun _ => hd) h0
      simp [acqs, rels, (hc hk).1])
    (fun c g l c' g' l' htok hi => tok_sem (hk ▸ htok) a.initial hi)
  omega

/-- **C27, second part**: the value never exceeds the maximum, provided it does not at creation and the
maximum is at least 1 (the code checks neither). -/
theorem C27_value_bounded_partial {N a s0 es s} (hN : 0 < N) (hk : a.kind = .semaphore)
    (hd : a.queueing ≠ .other) (hi : a.initial ≤ a.max) (hm : 1 ≤ a.max)
    (h0 : Initial a s0) (hr : Run N s0 es s) (ho : AllOrdinary es) : s.o.current ≤ a.max := by
  obtain ⟨_, _, hc, _⟩ := initial_base hN (fun _ => hd) h0
  obtain ⟨q, e, g, b, hp, _⟩ := run_inv hN (fun _ => hd) h0 hr ho
    (P := fun c _ _ => c ≤ a.max)
    (by rw [(hc hk).1]; exact hi)
    (fun c g l c' g' l' htok hi => by
      rw [(hc hk).2, hk] at htok; exact tok_sem_max htok hm hi)
  exact hp

/-- **C27, third part**: while the maximum is not reached no signal is lost — at any moment the initial
value plus all signals equals the current value plus all successful waits plus the threads that
have been granted a unit and have not run since — when all waits are without timeout.  With
timeouts a unit can be lost, see `C27_signal_lost_violated`. -/
theorem C27_no_signal_lost_partial {N a s0 es s} (hN : 0 < N) (hk : a.kind = .semaphore)
    (hd : a.queueing ≠ .other) (h0 : Initial a s0) (hr : Run N s0 es s) (ho : AllOrdinary es)
    (hnt : NoTimedLock es) (hmax : a.initial + rels s.log ≤ a.max) :
    ∃ granted : List Nat, granted.Nodup ∧
      (∀ t, t ∈ granted ↔ (s.pc t).locking = true ∧ (s.T t).state = .runnable) ∧
      s.o.current + acqs s.log + granted.length = a.initial + rels s.log := by
  obtain ⟨_, _, hc, _⟩ := initial_base hN (fun _ => hd) h0
  -- the invariant along the run
  have key : ∃ q e g, Base N s q e g ∧ Untimed s ∧
      s.o.current + acqs s.log + g.length = a.initial + rels s.log := by
    induction hr with
    | nil =>
      obtain ⟨b, _⟩ := initial_base hN (fun _ => hd) h0
      obtain ⟨_, _, hpc, hl⟩ := h0
      refine ⟨[], [], [], b, fun t d ht => by rw [hpc] at ht; simp at ht, ?_⟩
      rw [hl]; simp [acqs, rels, (hc hk).1]
    | @snoc s' s'' es ev hr hen hx ih =>
      obtain ⟨ho1, ho2⟩ := mem_snoc_forall ho
      obtain ⟨hn1, hn2⟩ := mem_snoc_forall hnt
      have hkk : s'.o.kind = .semaphore ∧ s'.o.max = a.max := by
        obtain ⟨w, ht⟩ := hr.track
        obtain ⟨_, _, _, _, h1, h2, _⟩ := trun_base hN (fun _ => hd) h0 ht ho1
        exact ⟨by rw [h1, hk], by rw [h2, (hc hk).2]⟩
      have hmono : rels s'.log ≤ rels s''.log := by
        obtain ⟨w, ht⟩ := hr.track
        obtain ⟨q, e, g, b, _⟩ := trun_base hN (fun _ => hd) h0 ht ho1
        obtain ⟨s1, hx1, g', b', htok, _⟩ := exec_base b ev ho2 hen
        rw [hx] at hx1; injection hx1 with hx1; subst hx1
        have : ∀ {k mx x y}, Tok k mx x y → rels x.2.2 ≤ rels y.2.2 := by
          intro k mx x y h; cases h <;> simp [rels, List.countP_cons]
        exact this htok
      obtain ⟨q, e, g, b, hu, hp⟩ := ih ho1 hn1 (by omega)
      obtain ⟨s1, hx1, g', b', htok, _, _, _, hu'⟩ := exec_base b ev ho2 hen
      rw [hx] at hx1; injection hx1 with hx1; subst hx1
      obtain ⟨hu1, hu2⟩ := hu' hu hn2
      rw [hkk.1, hkk.2] at htok
      exact ⟨_, _, g', b', hu1, tok_sem_eq htok a.initial hu2 hmax hp⟩
  obtain ⟨q, e, g, b, hu, hp⟩ := key
  refine ⟨g, b.ndg, fun t => ?_, hp⟩
  constructor
  · intro ht; exact ⟨((b.gr t).1 ht).2, b.grun t ht⟩
  · rintro ⟨h1, h2⟩
    refine (b.gr t).2 ⟨fun hq => ?_, h1⟩
    have hs := (b.inq t hq).2
    have hd0 : (s.pc t).deadline = 0 := by
      cases hp : s.pc t with
      | inLock d => exact hu t d hp
      | _ => simp_all [PC.deadline, PC.locking]
    simp [Susp, h2, hd0] at hs

/-- The value can exceed the maximum: it is not checked at creation. -/
theorem C27_value_bounded_violated :
    ∃ a s0 es s, a.kind = .semaphore ∧ Initial a s0 ∧ Run 4 s0 es s ∧ a.max < s.o.current := by
  refine ⟨{ kind := .semaphore, initial := 5, max := 2 }, _, [], _,
    rfl, lockStart_initial lockThreads _ rfl (Or.inr (Or.inl rfl)), Run.nil _, ?_⟩
  decide

/-- A signal below the maximum can be lost: the waiter that receives the unit runs again only after its
deadline, reports TIMEOUT and the unit is nowhere (value 0, nobody has it, one signal was made). -/
theorem C27_signal_lost_violated :
    ∃ s0 es s, Initial { kind := .semaphore, initial := 0, max := 10 } s0 ∧ Run 4 s0 es s ∧
      AllOrdinary es ∧ s.o.current = 0 ∧ acqs s.log = 0 ∧ rels s.log = 1 ∧ (∀ t, s.pc t = .user) := by
  have h : ∃ s, run? 4 (lockStart lockThreads { kind := .semaphore, initial := 0, max := 10 })
      [.lock 1 5, .unlock 0, .advance 5, .resume 1] = some s ∧
      s.o.current = 0 ∧ acqs s.log = 0 ∧ rels s.log = 1 ∧
      s.pc = upd (upd (fun _ => PC.user) 1 (.inLock 5)) 1 .user := by
    refine ⟨_, rfl, ?_, ?_, ?_, rfl⟩ <;> decide
  obtain ⟨s, h1, h2, h3, h4, h5⟩ := h
  refine ⟨_, _, s, lockStart_initial _ _ rfl (Or.inr (Or.inl rfl)), run?_sound h1, ?_, h2, h3, h4, ?_⟩
  · exact allOrdinary_of rfl
  · intro t
    rw [h5]
    by_cases h : t = 1
    · subst h; simp
    · rw [upd_other _ _ h, upd_other _ _ h]

/-- A semaphore run meeting the hypotheses of the three partial theorems. -/
example : ((run? 5 (lockStart lockThreads { kind := .semaphore, initial := 1, max := 3 })
    [.lock 0 0, .lock 1 0, .lock 2 0, .unlock 0, .resume 1, .unlock 3, .unlock 3]).map
      (fun s => (s.o.current, s.log)))
    = some (1, [.released 3, .released 3, .acquired 1, .released 0, .acquired 0]) := by decide

/-- **C28, first half**: while a thread is suspended in a lock call, no unit is available. -/
theorem C28_no_wait_when_available {N a s0 es s} (hN : 0 < N) (hd : a.kind ≠ .event → a.queueing ≠ .other)
    (h0 : Initial a s0) (hr : Run N s0 es s) (ho : AllOrdinary es) (t : Nat)
    (hl : (s.pc t).locking = true) (hs : (s.T t).state ≠ .runnable) : s.o.current = 0 := by
  obtain ⟨w, ht⟩ := hr.track
  obtain ⟨q, e, g, b, _⟩ := trun_base hN hd h0 ht ho
  have : t ∈ q := by
    by_contra h
    exact hs (b.grun t ((b.gr t).2 ⟨h, hl⟩))
  exact b.avail (List.ne_nil_of_mem this)

/-- **C28, second half**: an unlock with waiters makes exactly one thread runnable, the one to be served
next under the object's discipline (`w.1` lists the blocked threads in order of arrival), touches no
other thread and leaves no unit available (the woken thread owns it); an unlock without waiters
changes no thread and leaves a unit available.  Priorities must not be changed while threads wait. -/
theorem C28_unlock_wakes_next {N a s0 es s w} (hN : 0 < N) (hd : a.kind ≠ .event → a.queueing ≠ .other)
    (h0 : Initial a s0) (hr : TRun N s0 es s w) (ho : AllOrdinary es) (hp : NoSetPrio es) (t : Nat)
    (hen : enabled N s (.unlock t)) :
    ∃ s', exec N s (.unlock t) = some s' ∧
      match nextToServe (s.o.queueing = .priority) (fun i => (s.T i).priority) w.1 with
      | some x => s'.T = upd s.T x { s.T x with state := .runnable } ∧ s.o.current = 0 ∧
          s'.o.current = 0 ∧ x ∈ w.1
      | none => w.1 = [] ∧ s'.T = s.T ∧ 0 < s'.o.current := by
  obtain ⟨q, e, g, b, hk, hm, hqu, hord, _⟩ := trun_base hN hd h0 hr ho
  obtain ⟨o1, -⟩ := hord hp
  obtain ⟨T', o', wk, q', g', h1, h2, h3, _, _, _, _, _, h7⟩ := unlock_base b t hen.2.2.2
  refine ⟨_, by simp [exec, h1]; rfl, ?_⟩
  have hn := o1.next
  unfold byPrio at hn
  rw [hn]
  rcases h7 with ⟨rfl, rfl, rfl, rfl, rfl⟩ | ⟨x, rfl, rfl, rfl, rfl⟩
  · refine ⟨o1.eq_nil, rfl, ?_⟩
    simp only [LockObj.unlock, b.ini, empty_of_nil b.rq] at h1
    repeat' split at h1
    all_goals simp at h1
    all_goals
      subst h1
      simp
    all_goals omega
  · refine ⟨rfl, b.avail (by simp), ?_, o1.mem.1 (by simp)⟩
    have hc0 := b.avail (by simp)
    simp [LockObj.unlock, b.ini, hc0, empty_of_cons b.rq, rep_getHead b.rq] at h1
    rw [← h1]

/-- Two waiters on a priority mutex: the later one has the higher priority and is served. -/
example : ((run? 5 (lockStart lockThreads { kind := .mutex, queueing := .priority })
    [.lock 0 0, .lock 1 0, .lock 2 0, .unlock 0]).map
      (fun s => (s.o.current, (s.T 1).state, (s.T 2).state)))
    = some (0, .lock, .runnable) := by decide

/-- **C29, part that holds.**  A thread that resumes inside a lock call with deadline `d` (0: none)
gets TIMEOUT exactly if there is a deadline and it is reached — never before — and then it is in no
queue; otherwise it gets OK and had been granted the unit: it was runnable because an unlock chose
it.  Missing: "TIMEOUT exactly when it did not obtain the unit", see `C29_return_code_violated`. -/
theorem C29_return_code_partial {N a s0 es s} (hN : 0 < N) (hd : a.kind ≠ .event → a.queueing ≠ .other)
    (h0 : Initial a s0) (hr : Run N s0 es s) (ho : AllOrdinary es) (t d : Nat) (hpc : s.pc t = .inLock d)
    (hen : enabled N s (.resume t)) :
    ∃ s', exec N s (.resume t) = some s' ∧ s'.pc t = .user ∧
      (∃ q, Rep N s'.o.fifo q ∧ t ∉ q) ∧
      (s'.log = .lockFailed t .timeout :: s.log ∧ d ≠ 0 ∧ d ≤ s.now ∨
       s'.log = .acquired t :: s.log ∧ (d = 0 ∨ s.now < d) ∧ ∃ q, Rep N s.o.fifo q ∧ t ∉ q) := by
  obtain ⟨w, ht⟩ := hr.track
  obtain ⟨q, e, g, b, _⟩ := trun_base hN hd h0 ht ho
  obtain ⟨s', hx, g', b', _⟩ := exec_base b (.resume t) rfl hen
  have hx0 := hx
  have hpc' : s'.pc t = .user ∧
      (s'.log = .lockFailed t .timeout :: s.log ∧ d ≠ 0 ∧ d ≤ s.now ∨
       s'.log = .acquired t :: s.log ∧ (d = 0 ∨ s.now < d)) := by
    simp only [exec, hpc, LockObj.lockResume] at hx
    by_cases hto : d ≠ 0 ∧ s.now ≥ d
    · rw [if_pos hto] at hx
      split at hx
      · simp at hx
      · rename_i h1
        split at h1
        · simp at h1
        · simp at h1; obtain ⟨rfl, rfl⟩ := h1
          injection hx with hx; subst hx
          exact ⟨by simp, Or.inl ⟨by simp, hto⟩⟩
    · rw [if_neg hto] at hx
      simp at hx; subst hx
      exact ⟨by simp, Or.inr ⟨by simp, by omega⟩⟩
  refine ⟨s', hx0, hpc'.1, ⟨_, b'.rq, b'.notq (by simp [hpc'.1, PC.locking])⟩, ?_⟩
  rcases hpc'.2 with h | h
  · exact Or.inl h
  · refine Or.inr ⟨h.1, h.2, q, b.rq, fun hq => ?_⟩
    have hs := (b.inq t hq).2
    rw [hpc] at hs
    simp only [Susp, PC.deadline, hen.1] at hs
    rcases hs with hs | hs | hs
    · simp at hs
    · simp at hs
    · have := h.2; omega

/-- The deadline of a blocking call is the clock at the call plus the timeout, 0 for no timeout, when the
sum fits in 64 bits. -/
theorem C29_deadline_partial {N a s0 es s} (hN : 0 < N) (hd : a.kind ≠ .event → a.queueing ≠ .other)
    (h0 : Initial a s0) (hr : Run N s0 es s) (ho : AllOrdinary es) (t timeout : Nat)
    (hfit : timeout + s.now < U64) (hen : enabled N s (.lock t timeout)) :
    ∃ s', exec N s (.lock t timeout) = some s' ∧
      (0 < s.o.current ∧ s'.log = .acquired t :: s.log ∧ s'.pc t = .user ∨
       s.o.current = 0 ∧ s'.log = s.log ∧
        s'.pc t = .inLock (if timeout = 0 then 0 else s.now + timeout)) := by
  obtain ⟨w, ht⟩ := hr.track
  obtain ⟨q, e, g, b, _⟩ := trun_base hN hd h0 ht ho
  obtain ⟨htn, hrun, hpc, _⟩ := hen
  have hte : t ∉ e := b.note' (by simp [hpc, PC.waiting])
  have := doLock_base (timeout := timeout) (pcOf := fun d => .inLock d) (onOk := [.acquired t]) b htn
    (by simp [hpc, PC.locking]) hte (fun d => ⟨rfl, rfl, by simp⟩) rfl
  rcases this with ⟨hc, s', h1, _, _, h4, _, _, h7, _⟩ | ⟨hc, s', h1, _, _, h4, _, _, h7, _⟩
  · exact ⟨s', h1, Or.inl ⟨hc, h4, by rw [h7]; simp⟩⟩
  · refine ⟨s', h1, Or.inr ⟨hc, h4, ?_⟩⟩
    rw [h7, upd_same]
    unfold LockObj.mkDeadline
    split
    · rfl
    · rw [Nat.mod_eq_of_lt hfit, Nat.add_comm]

/-- **C29 fails**: a mutex is handed to the waiter (which is removed from the queue), but the waiter runs
only at its deadline, returns TIMEOUT, and the mutex stays unavailable although nobody holds it. -/
theorem C29_return_code_violated :
    ∃ s0 es s, Initial { kind := .mutex } s0 ∧ Run 4 s0 es s ∧ AllOrdinary es ∧
      s.log.head? = some (.lockFailed 1 .timeout) ∧ (∀ t < 4, ¬ Holding s.log t) ∧ s.o.current = 0 ∧
      s.o.fifo.empty = true := by
  have h : ∃ s, run? 4 (lockStart lockThreads { kind := .mutex })
      [.lock 0 0, .lock 1 5, .unlock 0, .advance 5, .resume 1] = some s ∧
      s.log.head? = some (.lockFailed 1 .timeout) ∧ (∀ t < 4, ¬ Holding s.log t) ∧ s.o.current = 0 ∧
      s.o.fifo.empty = true := by
    refine ⟨_, rfl, ?_, ?_, ?_, ?_⟩
    · decide
    · unfold Holding; decide
    · decide
    · decide
  obtain ⟨s, h1, h2⟩ := h
  refine ⟨_, _, s, lockStart_initial _ _ rfl (Or.inl rfl), run?_sound h1, ?_, h2⟩
  exact allOrdinary_of rfl

/-- A very long timeout is an immediate one: the deadline wraps around 2^64. -/
theorem C29_deadline_violated :
    ∃ s0 es s, Initial { kind := .mutex } s0 ∧ Run 4 s0 es s ∧ AllOrdinary es ∧
      es = [.advance 100, .lock 0 0, .lock 1 (U64 - 50), .wake 1, .resume 1] ∧
      s.log.head? = some (.lockFailed 1 .timeout) := by
  have h : ∃ s, run? 4 (lockStart lockThreads { kind := .mutex })
      [.advance 100, .lock 0 0, .lock 1 (U64 - 50), .wake 1, .resume 1] = some s ∧
      s.log.head? = some (.lockFailed 1 .timeout) := by
    refine ⟨_, rfl, ?_⟩
    decide
  obtain ⟨s, h1, h2⟩ := h
  refine ⟨_, _, s, lockStart_initial _ _ rfl (Or.inl rfl), run?_sound h1, ?_, rfl, h2⟩
  exact allOrdinary_of rfl

/-- A run meeting the hypotheses of `C29_return_code_partial` with a real timeout. -/
example : ((run? 4 (lockStart lockThreads { kind := .mutex })
    [.lock 0 0, .lock 1 5, .advance 5, .wake 1, .resume 1, .unlock 0, .lock 1 0]).map (·.log))
    = some [.acquired 1, .released 0, .lockFailed 1 .timeout, .acquired 0] := by decide

/-- **C30, signal**: wakes exactly the thread of highest priority that has waited longest among equals
(`w.2` lists the event waiters in order of arrival) and no other; with no waiter it reports NOTFOUND and
changes nothing. -/
theorem C30_signal {N a s0 es s w} (hN : 0 < N) (hk : a.kind = .event)
    (h0 : Initial a s0) (hr : TRun N s0 es s w) (ho : AllOrdinary es) (hp : NoSetPrio es) (t : Nat)
    (hen : enabled N s (.signal t)) :
    ∃ s', exec N s (.signal t) = some s' ∧
      match firstHighest (fun i => (s.T i).priority) w.2 with
      | some x => s'.T = upd s.T x { s.T x with state := .runnable } ∧ x ∈ w.2 ∧
          s'.log = .signalled t .ok :: s.log
      | none => w.2 = [] ∧ s'.T = s.T ∧ s'.o = s.o ∧ s'.log = .signalled t .notfound :: s.log := by
  obtain ⟨q, e, g, b, _, hm, hqu, hord, _⟩ := trun_base hN (by simp [hk]) h0 hr ho
  obtain ⟨-, o2⟩ := hord hp
  have hn := o2.next
  simp only [byPrio, decide_true, nextToServe, if_true] at hn
  rw [hn]
  cases e with
  | nil =>
    exact ⟨{ s with log := .signalled t .notfound :: s.log },
      by simp [exec, LockObj.signal, empty_of_nil b.re], o2.eq_nil, rfl, rfl, rfl⟩
  | cons x e =>
    exact ⟨_, by simp [exec, LockObj.signal, empty_of_cons b.re, rep_getHead b.re]; rfl, rfl,
      o2.mem.1 (by simp), rfl⟩

/-- **C30, broadcast**: wakes every waiter and no other thread. -/
theorem C30_broadcast {N a s0 es s w} (hN : 0 < N) (hk : a.kind = .event)
    (h0 : Initial a s0) (hr : TRun N s0 es s w) (ho : AllOrdinary es) (hp : NoSetPrio es) (t : Nat)
    (hen : enabled N s (.broadcast t)) :
    ∃ s', exec N s (.broadcast t) = some s' ∧
      ∀ u, s'.T u = if u ∈ w.2 then { s.T u with state := .runnable } else s.T u := by
  obtain ⟨q, e, g, b, _, hm, hqu, hord, _⟩ := trun_base hN (by simp [hk]) h0 hr ho
  obtain ⟨-, o2⟩ := hord hp
  have := b.elen
  obtain ⟨T', f', h1, h2, h3⟩ := broadcastLoop_base e (N + 1) s (by omega) b
  refine ⟨_, by simp [exec, LockObj.broadcast, h1]; rfl, fun u => ?_⟩
  have hm := o2.mem (t := u)
  by_cases hu : u ∈ w.2
  · simp only; rw [if_pos hu, h3, if_pos (hm.2 hu)]
  · simp only; rw [if_neg hu, h3, if_neg (fun h => hu (hm.1 h))]

/-- **C30, wait**: beginning to wait releases the lock … -/
theorem C30_wait_releases {N a s0 es s} (hN : 0 < N) (hk : a.kind = .event)
    (h0 : Initial a s0) (hr : Run N s0 es s) (ho : AllOrdinary es) (t timeout : Nat)
    (hen : enabled N s (.wait t timeout)) :
    ∃ s', exec N s (.wait t timeout) = some s' ∧ ¬ Holding s'.log t ∧ (s'.pc t).waiting = true ∧
      (s'.T t).state ≠ .runnable := by
  obtain ⟨_, _, _, b, ⟨w, hw, hl⟩, _⟩ := run_inv hN (by simp [hk]) h0 hr ho (P := MutexInv)
    (by
      obtain ⟨_, _, _, hc, _⟩ := initial_base hN (by simp [hk]) h0
      exact ⟨[], by simp, by simp [hc (by simp [hk])]⟩)
    (fun c g l c' g' l' htok hi => tok_mutex (by simp [hk]) htok hi)
  obtain ⟨ht, hrun, hpc, _, hk', hh⟩ := hen
  obtain ⟨T', o', wk, q', g', h1, h2, h3, h4, h5, h6, _, hpr, h7⟩ := unlock_base b t (fun _ => hh)
  obtain ⟨f', hf1, hf2⟩ := rep_enqueue_priority (fun i => (T' i).priority) h2.re t h2.elen
  refine ⟨{ s with T := LockObj.suspendCaller T' t (LockObj.mkDeadline timeout s.now),
                      o := { o' with eventFifo := f' },
                      pc := upd s.pc t (.inWait (LockObj.mkDeadline timeout s.now)),
                      log := .released t :: s.log },
      by simp [exec, LockObj.waitBegin, b.ini, hk', h1, hf1], ?_, by simp [PC.waiting], ?_⟩
  · have := hw t
    have hle := List.count_le_length (l := w) (a := t)
    unfold Holding
    simp only
    rw [List.count_cons_self, List.count_cons_of_ne (by simp)]
    omega
  · rcases suspendCaller_self (T := T') (cur := t) (d := LockObj.mkDeadline timeout s.now) with h | h
    · simp only; rw [h.2]; simp
    · simp only; rw [h.2.1]; simp

/-- … and when the wait returns, the lock is held again. -/
theorem C30_wait_reacquires {N a s0 es s s' ev} (hN : 0 < N) (hk : a.kind = .event)
    (h0 : Initial a s0) (hr : Run N s0 es s) (ho : AllOrdinary es) (hv : ev.ordinary = true)
    (hen : enabled N s ev) (hx : exec N s ev = some s') (t : Nat) (r : Errno) (l : List Obs)
    (hret : s'.log = .waitReturned t r :: l) (hnew : s'.log.length > s.log.length) :
    Holding s'.log t := by
  obtain ⟨q, e, g, b, ⟨w, hw, hl⟩, _⟩ := run_inv hN (by simp [hk]) h0 hr ho (P := MutexInv)
    (by
      obtain ⟨_, _, _, hc, _⟩ := initial_base hN (by simp [hk]) h0
      exact ⟨[], by simp, by simp [hc (by simp [hk])]⟩)
    (fun c g l c' g' l' htok hi => tok_mutex (by simp [hk]) htok hi)
  have hfresh : s'.log = .waitReturned t r :: .acquired t :: s.log := by
    obtain ⟨s1, hx1, g', b', htok, _, _, _, _⟩ := exec_base b ev hv hen
    have hx2 := hx
    rw [hx] at hx1; injection hx1 with hx1; subst hx1
    simp only [view] at htok
    generalize hll : s'.log = l' at htok hret hnew
    generalize hc : s'.o.current = c' at htok
    generalize hc0 : s.o.current = c0 at htok
    generalize hl0 : s.log = l0 at htok hnew
    cases htok with
    | idle => simp at hnew
    | note _ _ _ x h =>
      -- no such step
      exfalso
      injection hret with hret _
      exact (h t).2.2 r hret
    | takeW _ _ _ u r' =>
      -- the wait and the acquisition are by the same thread
      simp at hret
      obtain ⟨⟨rfl, rfl⟩, _⟩ := hret
      rfl
    | gotW _ _ _ u r' h =>
      simp at hret
      obtain ⟨⟨rfl, rfl⟩, _⟩ := hret
      rfl
    | _ => simp at hret
  unfold Holding
  rw [hfresh]
  have := hw t
  simp [List.count_cons]
  omega

/-- **C30, result of a wait**: a thread that goes on inside an event wait with deadline `d` (0: none) has TIMEOUT as the result exactly if there
is a deadline and it is reached; otherwise the result is OK, and a signal or broadcast had taken it out of the event's queue.  It returns with
that result at once if the lock is free, and else keeps it while it waits for the lock … -/
theorem C30_wait_result {N a s0 es s} (hN : 0 < N) (hk : a.kind = .event)
    (h0 : Initial a s0) (hr : Run N s0 es s) (ho : AllOrdinary es) (t d : Nat) (hpc : s.pc t = .inWait d)
    (hen : enabled N s (.resume t)) :
    ∃ s' r, exec N s (.resume t) = some s' ∧
      (r = .timeout ∧ d ≠ 0 ∧ d ≤ s.now ∨ r = .ok ∧ (d = 0 ∨ s.now < d) ∧ ∃ e, Rep N s.o.eventFifo e ∧ t ∉ e) ∧
      (0 < s.o.current ∧ s'.log = .waitReturned t r :: .acquired t :: s.log ∧ s'.pc t = .user ∨
       s.o.current = 0 ∧ s'.log = s.log ∧ s'.pc t = .inRelock r) := by
  obtain ⟨w, ht⟩ := hr.track
  obtain ⟨q, e, g, b, _⟩ := trun_base hN (by simp [hk]) h0 ht ho
  obtain ⟨s', hx, g', b', _⟩ := exec_base b (.resume t) rfl hen
  have hx0 := hx
  simp only [exec, hpc, LockObj.waitResume] at hx
  have fin : ∀ (o1 : LockObj) (r : Errno), o1.current = s.o.current → doLock N { s with o := o1 } t 0 (fun _ => .inRelock r) [.waitReturned t r, .acquired t] = some s' →
      o1.initialized = true →
      (0 < s.o.current ∧ s'.log = .waitReturned t r :: .acquired t :: s.log ∧ s'.pc t = .user ∨
       s.o.current = 0 ∧ s'.log = s.log ∧ s'.pc t = .inRelock r) := by
    intro o1 r hc h hi
    simp only [doLock, LockObj.lockBegin, hi, not_true_eq_false, if_false, hc] at h
    by_cases h1 : 0 < s.o.current
    · simp only [gt_iff_lt, h1, if_true] at h
      split at h
      · simp at h
      · rename_i h2
        split at h2 <;> simp at h2
        injection h with h; subst h
        exact Or.inl ⟨h1, rfl, by simp⟩
      · rename_i h2 h3
        split at h3 <;> simp at h3
        exact absurd h3.2.2 (by intro h; exact h2 h.symm)
      · rename_i h2
        split at h2 <;> simp at h2
    · simp only [gt_iff_lt, h1, if_false] at h
      split at h
      · simp at h
      · rename_i h2
        split at h2 <;> simp at h2
      · rename_i h3
        split at h3 <;> simp at h3
      · injection h with h; subst h
        exact Or.inr ⟨by omega, rfl, by simp⟩
  by_cases hto : d ≠ 0 ∧ s.now ≥ d
  · rw [if_pos hto] at hx
    split at hx
    · simp at hx
    · rename_i h1
      split at h1
      · simp at h1
      · simp at h1; obtain ⟨rfl, rfl⟩ := h1
        exact ⟨s', .timeout, hx0, Or.inl ⟨rfl, hto⟩, fin _ _ (by rfl) hx b.ini⟩
  · rw [if_neg hto] at hx
    have he : t ∉ e := by
      intro he
      have h := (b.ine t he).2
      rw [hpc] at h
      simp only [Susp, PC.deadline, hen.1] at h
      rcases h with h | h | h
      · simp at h
      · simp at h
      · exact hto ⟨h.1, h.2.2⟩
    exact ⟨s', .ok, hx0, Or.inr ⟨rfl, by omega, e, b.re, he⟩, fin s.o _ rfl hx b.ini⟩

/-- … and returns with that result, holding the lock, when it has been given the lock. -/
theorem C30_wait_end (N : Nat) (s : LSys) (t : Nat) (r : Errno) (hpc : s.pc t = .inRelock r) :
    ∃ s', exec N s (.resume t) = some s' ∧ s'.log = .waitReturned t r :: .acquired t :: s.log ∧ s'.pc t = .user := by
  refine ⟨_, by simp only [exec, hpc, LockObj.lockResume, ne_eq, not_true_eq_false, false_and, if_false]; rfl, ?_, by simp⟩
  simp [LockObj.waitFinal]

/-- The deadline of a wait is the clock at the call plus the timeout, 0 for no timeout, when the sum fits in 64 bits. -/
theorem C30_wait_deadline {N a s0 es s} (hN : 0 < N) (hk : a.kind = .event)
    (h0 : Initial a s0) (hr : Run N s0 es s) (ho : AllOrdinary es) (t timeout : Nat) (hfit : timeout + s.now < U64)
    (hen : enabled N s (.wait t timeout)) :
    ∃ s', exec N s (.wait t timeout) = some s' ∧ s'.pc t = .inWait (if timeout = 0 then 0 else s.now + timeout) := by
  obtain ⟨w, ht⟩ := hr.track
  obtain ⟨q, e, g, b, _⟩ := trun_base hN (by simp [hk]) h0 ht ho
  obtain ⟨ht, hrun, hpc, _, hk', hh⟩ := hen
  obtain ⟨T', o', wk, q', g', h1, h2, h3, h4, h5, h6, _, hpr, h7⟩ := unlock_base b t (fun _ => hh)
  obtain ⟨f', hf1, hf2⟩ := rep_enqueue_priority (fun i => (T' i).priority) h2.re t h2.elen
  refine ⟨_, by simp [exec, LockObj.waitBegin, b.ini, hk', h1, hf1]; rfl, ?_⟩
  simp only [upd_same]
  unfold LockObj.mkDeadline
  split
  · rfl
  · rw [Nat.mod_eq_of_lt hfit, Nat.add_comm]

/-- A run in which a wait times out (thread 0) and one that is signalled (thread 1), meeting the hypotheses of the three theorems above. -/
example : ((run? 6 (lockStart lockThreads { kind := .event })
    [.lock 0 0, .wait 0 7, .lock 1 0, .wait 1 0, .signal 2, .resume 1, .advance 7, .wake 0, .resume 0, .unlock 1, .resume 0]).map (·.log))
    = some [.waitReturned 0 .timeout, .acquired 0, .released 1, .waitReturned 1 .ok, .acquired 1, .signalled 2 .ok,
      .released 1, .acquired 1, .released 0, .acquired 0] := by decide

/-- A run with two waiters, a signal and a broadcast, meeting the hypotheses of the C30 theorems. -/
example : ((run? 6 (lockStart lockThreads { kind := .event })
    [.lock 0 0, .wait 0 0, .lock 1 0, .wait 1 0, .signal 2, .resume 1, .signal 2, .signal 2]).map (·.log))
    = some [.signalled 2 .notfound, .signalled 2 .ok, .waitReturned 1 .ok, .acquired 1, .signalled 2 .ok,
      .released 1, .acquired 1, .released 0, .acquired 0] := by decide

end Pok
