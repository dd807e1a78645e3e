import Verif.Lemmas.LockSys
import Verif.Spec.Lock
import Mathlib.Data.List.Basic

/-! Invariants of whole runs of the lock-object system. -/

namespace Pok
open Pok.Spec Pok.Fifo

namespace LSys

/-- Order of the concrete queue `q` versus the arrival order `w`. -/
def Ord (d : Discipline) (prio : Nat → Nat) (q w : List Nat) : Prop :=
  match d with
  | .priority => Sorted prio q ∧ ∀ p, q.filter (fun t => prio t = p) = w.filter (fun t => prio t = p)
  | _ => q = w

theorem Ord.mem {d prio q w t} (h : Ord d prio q w) : t ∈ q ↔ t ∈ w := by
  cases d with
  | priority =>
    have := h.2 (prio t)
    constructor
    · intro ht
      have : t ∈ q.filter (fun u => prio u = prio t) := by simp [ht]
      rw [h.2] at this; exact (List.mem_filter.1 this).1
    · intro ht
      have : t ∈ w.filter (fun u => prio u = prio t) := by simp [ht]
      rw [← h.2] at this; exact (List.mem_filter.1 this).1
  | fifo => have h : q = w := h; rw [h]
  | other => have h : q = w := h; rw [h]

theorem Ord.nil (d prio) : Ord d prio [] [] := by
  cases d <;> simp [Ord, Sorted]

theorem Ord.eq_nil {d prio w} (h : Ord d prio [] w) : w = [] := by
  apply List.eq_nil_iff_forall_not_mem.2
  intro t ht
  exact absurd (h.mem.2 ht) (by simp)

theorem Ord.arrive {d prio q w t} (h : Ord d prio q w) : Ord d prio (arrive d prio q t) (w ++ [t]) := by
  cases d with
  | priority =>
    refine ⟨sorted_arrivePrio h.1, fun p => ?_⟩
    simp only [LSys.arrive]
    rw [filter_arrivePrio h.1, h.2]
    by_cases hp : prio t = p <;> simp [hp]
  | fifo => have h : q = w := h; subst h; rfl
  | other => have h : q = w := h; subst h; rfl

theorem Ord.erase {d prio q w t} (h : Ord d prio q w) : Ord d prio (q.erase t) (w.erase t) := by
  cases d with
  | priority =>
    refine ⟨List.Pairwise.sublist List.erase_sublist h.1, fun p => ?_⟩
    rw [← List.erase_filter, ← List.erase_filter, h.2]
  | fifo => have h : q = w := h; subst h; rfl
  | other => have h : q = w := h; subst h; rfl

theorem Ord.congr {d prio prio' q w} (h : Ord d prio q w) (hp : ∀ t ∈ q, prio' t = prio t) :
    Ord d prio' q w := by
  cases d with
  | priority =>
    have hw : ∀ t ∈ w, prio' t = prio t := fun t ht => hp t ((Ord.mem (d := .priority) h).2 ht)
    refine ⟨?_, fun p => ?_⟩
    · refine List.Pairwise.imp_of_mem ?_ h.1
      intro a b ha hb hab; rw [hp a ha, hp b hb]; exact hab
    · have e1 : q.filter (fun t => prio' t = p) = q.filter (fun t => prio t = p) :=
        List.filter_congr (fun t ht => by rw [hp t ht])
      have e2 : w.filter (fun t => prio' t = p) = w.filter (fun t => prio t = p) :=
        List.filter_congr (fun t ht => by rw [hw t ht])
      rw [e1, e2, h.2]
  | fifo => exact h
  | other => exact h

/-- Does the discipline look at priorities? -/
def byPrio (d : Discipline) : Bool := d = .priority

theorem Ord.next {d prio q w} (h : Ord d prio q w) : nextToServe (byPrio d) prio w = q.head? := by
  cases d with
  | priority =>
    simp only [nextToServe, byPrio, decide_true, if_true, firstHighest]
    cases q with
    | nil => rw [h.eq_nil]; rfl
    | cons x q =>
      have hx : ∀ u ∈ w, prio u ≤ prio x := by
        intro u hu
        have hu' := (Ord.mem (d := .priority) h).2 hu
        rcases List.mem_cons.1 hu' with rfl | hu'
        · exact Nat.le_refl _
        · exact List.rel_of_pairwise_cons h.1 hu'
      have hxw : x ∈ w := (Ord.mem (d := .priority) h).1 (by simp)
      have e : w.filter (fun t => w.all (fun u => decide (prio u ≤ prio t))) =
          w.filter (fun t => prio t = prio x) := by
        apply List.filter_congr
        intro t ht
        by_cases hp : prio t = prio x
        · simp [hp]; exact hx
        · have : ¬ prio x ≤ prio t := by have := hx t ht; omega
          simp only [hp, decide_false]
          rw [List.all_eq_false]
          exact ⟨x, hxw, by simpa using this⟩
      rw [← List.head?_filter, e, ← h.2]
      simp
  | fifo => have h : q = w := h; subst h; rfl
  | other => have h : q = w := h; subst h; rfl

theorem Ord.serve {d prio q w} (h : Ord d prio q w) :
    Ord d prio q.tail (without w (nextToServe (byPrio d) prio w)) := by
  rw [h.next]
  cases q with
  | nil => simpa [without] using h
  | cons x q => simpa [without] using h.erase (t := x)

/-- Threads blocked in lock calls and in event waits, both in order of arrival, after a step.
Arrival: the call blocked.  Departure: an unlock (a wait unlocks, too) or a signal serves the next
thread; a broadcast serves all; a thread that runs again has left. -/
def track (s s' : LSys) (ev : LEvent) (w : List Nat × List Nat) : List Nat × List Nat :=
  let prio := fun i => (s.T i).priority
  match ev with
  | .lock t _ => (if (s'.pc t).locking then w.1 ++ [t] else w.1, w.2)
  | .unlock _ => (without w.1 (nextToServe (byPrio s.o.queueing) prio w.1), w.2)
  | .wait t _ => (without w.1 (nextToServe (byPrio s.o.queueing) prio w.1), w.2 ++ [t])
  | .signal _ => (w.1, without w.2 (nextToServe true prio w.2))
  | .broadcast _ => (w.1, [])
  | .resume t => (if (s'.pc t).locking then w.1 ++ [t] else w.1.erase t, w.2.erase t)
  | _ => w

/-- Runs that also compute the arrival-order lists. -/
inductive TRun (N : Nat) : LSys → List LEvent → LSys → List Nat × List Nat → Prop
  | nil (s) : TRun N s [] s ([], [])
  | snoc {s s' s'' es w} (e) : TRun N s es s' w → enabled N s' e → exec N s' e = some s'' →
      TRun N s (es ++ [e]) s'' (track s' s'' e w)

theorem TRun.run {N s es s' w} (h : TRun N s es s' w) : Run N s es s' := by
  induction h with
  | nil => exact Run.nil _
  | snoc e _ he hx ih => exact Run.snoc e ih he hx

theorem Run.track {N s es s'} (h : Run N s es s') : ∃ w, TRun N s es s' w := by
  induction h with
  | nil => exact ⟨_, TRun.nil _⟩
  | snoc e _ he hx ih => obtain ⟨w, hw⟩ := ih; exact ⟨_, TRun.snoc e hw he hx⟩

theorem initial_base {N a s} (hN : 0 < N) (hd : a.kind ≠ .event → a.queueing ≠ .other)
    (h : Initial a s) : Base N s [] [] [] ∧ s.o.kind = a.kind ∧
      (a.kind = .semaphore → s.o.current = a.initial ∧ s.o.max = a.max) ∧
      (a.kind ≠ .semaphore → s.o.current = 1) ∧
      s.o.queueing = (if a.kind = .event then .priority else a.queueing) := by
  obtain ⟨o0, h1, h2, h3⟩ := h
  unfold LockObj.create at h1
  split at h1
  · simp at h1
  · split at h1
    · simp at h1
    · have key : s.o.fifo = o0.fifo.init ∧ s.o.eventFifo = o0.eventFifo.init ∧ s.o.initialized = true ∧
        s.o.queueing = (if a.kind = .event then .priority else a.queueing) ∧ s.o.kind = a.kind ∧
        (a.kind = .semaphore → s.o.current = a.initial ∧ s.o.max = a.max) ∧
        (a.kind ≠ .semaphore → s.o.current = 1) := by
        simp only at h1
        split at h1
        · rename_i hk
          have h1 := (Prod.mk.inj h1).1
          rw [← h1]; simp [hk]
        · rename_i hk
          have h1 := (Prod.mk.inj h1).1
          rw [← h1]; simp [hk]
      obtain ⟨k1, k2, k3, k4, k5, k6, k7⟩ := key
      refine ⟨⟨by rw [k1]; exact rep_init hN _, by rw [k2]; exact rep_init hN _, by simp, by simp, by simp,
        by simp, by simp, by simp, by simp, by simp [h2, PC.locking], by simp,
        by simp [h2, PC.waiting], by simp [h2], k3, ?_, by simp⟩, k5, k6, k7, k4⟩
      rw [k4]; split
      · simp
      · rename_i hk; exact hd hk

/-- Priorities of suspended threads do not change in a step that is not a priority change. -/
theorem exec_prio {N s s' ev q e g} (b : Base N s q e g) (hen : enabled N s ev) (hord : ev.ordinary = true)
    (hx : exec N s ev = some s') (hnp : ∀ t p, ev ≠ .setPrio t p) (u : Nat)
    (hu : ∀ t th, ev = .env t th → u ≠ t) :
    (s'.T u).priority = (s.T u).priority := by
  have hsusp : ∀ (T : Threads) t d, (LockObj.suspendCaller T t d u).priority = (T u).priority := by
    intro T t d
    by_cases h : u = t
    · subst h; unfold LockObj.suspendCaller lockCurrentTimed lockCurrent Threads.setState
      split <;> simp
    · rw [suspendCaller_other h]
  have hunl : ∀ (T : Threads) x, (unlockThread T x u).priority = (T u).priority := by
    intro T x
    by_cases h : u = x
    · subst h; simp [unlockThread, Threads.setState]
    · simp [unlockThread, setState_other h]
  have hdo : ∀ {s s' : LSys} {t timeout pcOf onOk}, doLock N s t timeout pcOf onOk = some s' →
      (s'.T u).priority = (s.T u).priority := by
    intro s s' t timeout pcOf onOk h
    unfold doLock LockObj.lockBegin at h
    repeat' split at h
    all_goals first
      | (simp at h; done)
      | (injection h with h; subst h; simp_all; done)
      | skip
    all_goals
      simp_all
    all_goals
      rename_i h1
    all_goals (repeat' split at h1)
    all_goals first
      | (simp_all; done)
      | skip
    all_goals
      simp at h1
      obtain ⟨rfl, -, -⟩ := h1
      subst h
      first | rfl | exact hsusp _ _ _
  cases ev with
  | lock t timeout => exact hdo hx
  | unlock t =>
    obtain ⟨ht, hrun, hpc, hh⟩ := hen
    obtain ⟨T', o', w, q', g', h1, _, _, _, _, _, _, hp, _⟩ := unlock_base b t hh
    simp [exec, h1] at hx; subst hx; exact hp u
  | wait t timeout =>
    obtain ⟨ht, hrun, hpc, _, hk, hh⟩ := hen
    obtain ⟨T', o', w, q', g', h1, h2, _, _, _, _, _, hp, _⟩ := unlock_base b t (fun _ => hh)
    obtain ⟨f', hf1, hf2⟩ := rep_enqueue_priority (fun i => (T' i).priority) h2.re t h2.elen
    simp [exec, LockObj.waitBegin, b.ini, hk, h1, hf1] at hx; subst hx
    simp only [hsusp]; exact hp u
  | signal t =>
    simp only [exec, LockObj.signal] at hx
    split at hx
    · simp at hx
    · rename_i h1
      split at h1
      · simp at h1; obtain ⟨rfl, _, _, _⟩ := h1; injection hx with hx; subst hx; rfl
      · split at h1
        · simp at h1
        · simp at h1; obtain ⟨rfl, _, _, _⟩ := h1; injection hx with hx; subst hx; exact hunl _ _
  | broadcast t =>
    have := b.elen
    obtain ⟨T', f', h1, h2, h3⟩ := broadcastLoop_base e (N + 1) s (by omega) b
    simp [exec, LockObj.broadcast, h1] at hx; subst hx
    simp only [h3]; split <;> rfl
  | resume t =>
    simp only [exec] at hx
    repeat' split at hx
    all_goals first
      | (simp at hx; done)
      | (injection hx with hx; subst hx; rfl)
      | (have h := hdo hx; exact h)
  | advance δ => simp [exec] at hx; subst hx; rfl
  | wake t =>
    simp [exec] at hx; subst hx; exact hunl _ _
  | env t th =>
    simp [exec] at hx; subst hx
    simp [upd_other _ _ (hu t th rfl)]
  | setPrio t p => exact absurd rfl (hnp t p)
  | overrun t => simp [LEvent.ordinary] at hord
  | activate t => simp [LEvent.ordinary] at hord
  | resumeOther t => simp [LEvent.ordinary] at hord

end LSys
end Pok

namespace Pok
open Pok.Spec Pok.Fifo

namespace LSys

/-- All steps are ordinary. -/
def AllOrdinary (es : List LEvent) : Prop := ∀ e ∈ es, e.ordinary = true

/-- No step changes a priority. -/
def NoSetPrio (es : List LEvent) : Prop := ∀ e ∈ es, ∀ t p, e ≠ .setPrio t p

/-- All lock calls are without timeout. -/
def NoTimedLock (es : List LEvent) : Prop := ∀ e ∈ es, ∀ t timeout, e = .lock t timeout → timeout = 0

theorem mem_snoc_forall {α} {P : α → Prop} {l : List α} {x : α} (h : ∀ e ∈ l ++ [x], P e) :
    (∀ e ∈ l, P e) ∧ P x :=
  ⟨fun e he => h e (by simp [he]), h x (by simp)⟩

theorem track_ord {N s s' ev q e g w} (b : Base N s q e g) (hen : enabled N s ev)
    (hord : ev.ordinary = true) (hx : exec N s ev = some s') (hnp : ∀ t p, ev ≠ .setPrio t p)
    (hqu : s'.o.queueing = s.o.queueing) {g'}
    (b' : Base N s' (nextQ s s' ev q) (nextE s s' ev e) g')
    (hq : Ord s.o.queueing (fun i => (s.T i).priority) q w.1)
    (he : Ord .priority (fun i => (s.T i).priority) e w.2) :
    Ord s'.o.queueing (fun i => (s'.T i).priority) (nextQ s s' ev q) (track s s' ev w).1 ∧
    Ord .priority (fun i => (s'.T i).priority) (nextE s s' ev e) (track s s' ev w).2 := by
  rw [hqu]
  have hpr : ∀ u, (∀ t th, ev = .env t th → u ≠ t) → (s'.T u).priority = (s.T u).priority :=
    fun u hu => exec_prio b hen hord hx hnp u hu
  have noenv : ∀ {l : List Nat}, (∀ t th, ev = .env t th → t ∉ l) →
      ∀ t ∈ l, (s'.T t).priority = (s.T t).priority :=
    fun h t ht => hpr t (fun t' th he' h' => h t' th he' (h' ▸ ht))
  have hQ : Ord s.o.queueing (fun i => (s.T i).priority) (nextQ s s' ev q) (track s s' ev w).1 := by
    cases ev <;> simp only [nextQ, track]
    case lock t d => split; exact hq.arrive; exact hq
    case unlock t => exact hq.serve
    case wait t d => exact hq.serve
    case resume t => split; exact hq.arrive; exact hq.erase
    all_goals exact hq
  have hE : Ord .priority (fun i => (s.T i).priority) (nextE s s' ev e) (track s s' ev w).2 := by
    cases ev <;> simp only [nextE, track]
    case wait t d => exact he.arrive
    case signal t => exact he.serve
    case broadcast t => exact Ord.nil _ _
    case resume t => exact he.erase
    all_goals exact he
  constructor
  · refine hQ.congr (noenv ?_)
    intro t th hev
    subst hev
    exact b.notq (by have : s.pc t = .user := hen; simp [this, PC.locking])
  · refine hE.congr (noenv ?_)
    intro t th hev
    subst hev
    exact b.note' (by have : s.pc t = .user := hen; simp [this, PC.waiting])

/-- The invariant of runs. -/
theorem trun_base {N a s0 es s w} (hN : 0 < N) (hd : a.kind ≠ .event → a.queueing ≠ .other)
    (h0 : Initial a s0) (hr : TRun N s0 es s w) (ho : AllOrdinary es) :
    ∃ q e g, Base N s q e g ∧ s.o.kind = a.kind ∧ s.o.max = s0.o.max ∧ s.o.queueing = s0.o.queueing ∧
      (NoSetPrio es → Ord s.o.queueing (fun i => (s.T i).priority) q w.1 ∧
        Ord .priority (fun i => (s.T i).priority) e w.2) ∧
      (NoTimedLock es → Untimed s) := by
  induction hr with
  | nil =>
    obtain ⟨b, h1, _⟩ := initial_base hN hd h0
    refine ⟨[], [], [], b, h1, rfl, rfl, fun _ => ⟨Ord.nil _ _, Ord.nil _ _⟩, fun _ t d ht => ?_⟩
    obtain ⟨_, _, h, _⟩ := h0
    rw [h] at ht; simp at ht
  | @snoc s' s'' es w ev hr hen hx ih =>
    obtain ⟨ho1, ho2⟩ := mem_snoc_forall ho
    obtain ⟨q, e, g, b, hk, hm, hqu, hp, hu⟩ := ih ho1
    obtain ⟨s1, hx1, g', b', ht, hk', hm', hqu', hu'⟩ := exec_base b ev ho2 hen
    rw [hx] at hx1; injection hx1 with hx1; subst hx1
    refine ⟨_, _, g', b', by rw [hk', hk], by rw [hm', hm], by rw [hqu', hqu], ?_, ?_⟩
    · intro hns
      obtain ⟨hn1, hn2⟩ := mem_snoc_forall hns
      obtain ⟨p1, p2⟩ := hp hn1
      exact track_ord b hen ho2 hx hn2 hqu' b' p1 p2
    · intro hnt
      obtain ⟨hn1, hn2⟩ := mem_snoc_forall hnt
      exact (hu' (hu hn1) hn2).1

/-- Number of threads that got the resource. -/
def acqs (l : List Obs) : Nat := l.countP (fun o => match o with | .acquired _ => true | _ => false)
/-- Number of releases. -/
def rels (l : List Obs) : Nat := l.countP (fun o => match o with | .released _ => true | _ => false)

/-- Semaphore accounting. -/
theorem tok_sem {mx c g l c' g' l'} (h : Tok .semaphore mx (c, g, l) (c', g', l')) (i : Nat)
    (hi : c + acqs l + g.length ≤ i + rels l) : c' + acqs l' + g'.length ≤ i + rels l' := by
  cases h <;> simp_all [acqs, rels]
  case take => omega
  case takeW => omega
  case got h => have := List.length_pos_of_mem h; omega
  case gotW h => have := List.length_pos_of_mem h; omega
  all_goals omega

theorem tok_sem_eq {mx c g l c' g' l'} (h : Tok .semaphore mx (c, g, l) (c', g', l')) (i : Nat)
    (hnl : ∀ t, l' ≠ .lockFailed t .timeout :: l) (hm : i + rels l' ≤ mx)
    (hi : c + acqs l + g.length = i + rels l) : c' + acqs l' + g'.length = i + rels l' := by
  cases h <;> simp_all [acqs, rels]
  case take => omega
  case takeW => omega
  case got h => have := List.length_pos_of_mem h; omega
  case gotW h => have := List.length_pos_of_mem h; omega
  all_goals omega

theorem tok_sem_max {mx c g l c' g' l'} (h : Tok .semaphore mx (c, g, l) (c', g', l'))
    (h1 : 1 ≤ mx) (hi : c ≤ mx) : c' ≤ mx := by
  cases h <;> (try simp_all) <;> omega

/-- Mutex accounting: `w` lists the holders. -/
def MutexInv (c : Nat) (g : List Nat) (l : List Obs) : Prop :=
  ∃ w : List Nat, (∀ t, l.count (.acquired t) = l.count (.released t) + w.count t) ∧
    w.length + g.length + c ≤ 1

theorem tok_mutex {k mx c g l c' g' l'} (hk : k ≠ .semaphore)
    (h : Tok k mx (c, g, l) (c', g', l')) (hi : MutexInv c g l) : MutexInv c' g' l' := by
  obtain ⟨w, hw, hl⟩ := hi
  have hold : ∀ t, Holding l t → ∃ w', w = [t] ∧ w' = ([] : List Nat) ∧ g = [] ∧ c = 0 := by
    intro t ht
    unfold Holding at ht
    have := hw t
    have hc : 0 < w.count t := by omega
    have hmem := List.count_pos_iff.1 hc
    cases w with
    | nil => simp at hmem
    | cons x w =>
      have : w = [] := by
        apply List.eq_nil_of_length_eq_zero; simp at hl; omega
      subst this
      have : g = [] := by
        apply List.eq_nil_of_length_eq_zero; simp at hl; omega
      simp at hmem hl
      exact ⟨[], by simp [hmem], rfl, this, by omega⟩
  cases h with
  | idle => exact ⟨w, hw, hl⟩
  | note _ _ _ x h =>
    refine ⟨w, fun t => ?_, hl⟩
    rw [List.count_cons_of_ne (h t).1, List.count_cons_of_ne (h t).2.1, hw t]
  | take _ _ _ t =>
    refine ⟨t :: w, fun u => ?_, by simp; omega⟩
    have := hw u
    simp [List.count_cons] at *; omega
  | takeW _ _ _ t r =>
    refine ⟨t :: w, fun u => ?_, by simp; omega⟩
    have := hw u
    simp [List.count_cons] at *; omega
  | got _ _ _ t h =>
    have := List.length_pos_of_mem h
    refine ⟨t :: w, fun u => ?_, by rw [List.length_erase_of_mem h]; simp; omega⟩
    have := hw u
    simp [List.count_cons] at *; omega
  | gotW _ _ _ t r h =>
    have := List.length_pos_of_mem h
    refine ⟨t :: w, fun u => ?_, by rw [List.length_erase_of_mem h]; simp; omega⟩
    have := hw u
    simp [List.count_cons] at *; omega
  | lost _ _ _ t h =>
    refine ⟨w, fun u => ?_, by rw [List.length_erase_of_mem h]; omega⟩
    have := hw u
    simp [List.count_cons] at *; omega
  | relSem _ _ _ t h => exact absurd h hk
  | relSemMax _ _ _ t h => exact absurd h hk
  | relMutex _ _ _ t h hc hh =>
    obtain ⟨_, _, _, _, h0⟩ := hold t hh
    omega
  | relFree _ _ t hh =>
    obtain ⟨_, rfl, _, rfl, _⟩ := hold t (hh hk)
    refine ⟨[], fun u => ?_, by simp⟩
    have := hw u
    simp [List.count_cons] at *; omega
  | relGrant _ _ t x hh =>
    obtain ⟨_, rfl, _, rfl, _⟩ := hold t (hh hk)
    refine ⟨[], fun u => ?_, by simp⟩
    have := hw u
    simp [List.count_cons] at *; omega

end LSys
end Pok
