import Verif.Model.LockSys
import Verif.Lemmas.LockFifo
import Mathlib.Data.List.Nodup
import Mathlib.Data.Finset.Card

/-! Invariants of the lock-object transition system. -/

namespace Pok
open Pok.Spec Pok.Fifo

theorem length_le_of_nodup_lt' {l : List Nat} {n : Nat} (h : l.Nodup) (hlt : ∀ x ∈ l, x < n) :
    l.length ≤ n := by
  have h1 : l.toFinset ⊆ Finset.range n := by
    intro x hx; simp at hx; simpa using hlt x hx
  have := Finset.card_le_card h1
  rwa [List.toFinset_card_of_nodup h, Finset.card_range] at this

namespace LSys

/-- The queue after an arrival. -/
def arrive (d : Discipline) (prio : Nat → Nat) (q : List Nat) (t : Nat) : List Nat :=
  match d with
  | .priority => arrivePrio prio q t
  | _ => q ++ [t]

theorem arrive_perm (d prio q t) : (arrive d prio q t).Perm (t :: q) := by
  cases d
  · exact List.perm_append_singleton t q
  · exact perm_arrivePrio
  · exact List.perm_append_singleton t q

theorem rep_enqueue {N f q} (prio : Nat → Nat) (d : Discipline) (hd : d ≠ .other) (r : Rep N f q)
    (t : Nat) (hl : q.length < N) :
    ∃ f', f.enqueue N prio t d = some (f', .ok) ∧ Rep N f' (arrive d prio q t) := by
  cases d with
  | fifo => exact rep_enqueue_fifo prio r t hl
  | priority => exact rep_enqueue_priority prio r t hl
  | other => exact absurd rfl hd

/-- A thread suspended with deadline `d`. -/
def Susp (s : LSys) (t d : Nat) : Prop :=
  (d = 0 ∧ (s.T t).state = .lock) ∨ (d ≠ 0 ∧ (s.T t).state = .waiting ∧ (s.T t).wakeup = d) ∨
  (d ≠ 0 ∧ (s.T t).state = .runnable ∧ d ≤ s.now)

/-- Structural invariant.  `q`: lock queue, `e`: event queue, `g`: threads that have been granted the
resource but have not run since. -/
structure Base (N : Nat) (s : LSys) (q e g : List Nat) : Prop where
  rq : Rep N s.o.fifo q
  re : Rep N s.o.eventFifo e
  ndq : q.Nodup
  nde : e.Nodup
  ndg : g.Nodup
  ltq : ∀ t ∈ q, t < N - 1
  lte : ∀ t ∈ e, t < N - 1
  inq : ∀ t ∈ q, (s.pc t).locking = true ∧ Susp s t (s.pc t).deadline
  ine : ∀ t ∈ e, (s.pc t).waiting = true ∧ Susp s t (s.pc t).deadline
  gr : ∀ t, t ∈ g ↔ t ∉ q ∧ (s.pc t).locking = true
  grun : ∀ t ∈ g, (s.T t).state = .runnable
  erun : ∀ t, t ∉ e → (s.pc t).waiting = true → (s.T t).state = .runnable
  pclt : ∀ t, s.pc t ≠ .user → t < N - 1
  ini : s.o.initialized = true
  disc : s.o.queueing ≠ .other
  avail : q ≠ [] → s.o.current = 0

/-- Token accounting of one step: (available, granted list, log) before and after. -/
inductive Tok (kind : LockKind) (mx : Nat) :
    Nat × List Nat × List Obs → Nat × List Nat × List Obs → Prop
  | idle (c g l) : Tok kind mx (c, g, l) (c, g, l)
  | note (c g l x) (h : ∀ t, x ≠ Obs.acquired t ∧ x ≠ Obs.released t ∧ ∀ r, x ≠ Obs.waitReturned t r) :
      Tok kind mx (c, g, l) (c, g, x :: l)
  | take (c g l t) : Tok kind mx (c + 1, g, l) (c, g, .acquired t :: l)
  | takeW (c g l t r) : Tok kind mx (c + 1, g, l) (c, g, .waitReturned t r :: .acquired t :: l)
  | got (c g l t) (h : t ∈ g) : Tok kind mx (c, g, l) (c, g.erase t, .acquired t :: l)
  | gotW (c g l t r) (h : t ∈ g) :
      Tok kind mx (c, g, l) (c, g.erase t, .waitReturned t r :: .acquired t :: l)
  | lost (c g l t) (h : t ∈ g) :
      Tok kind mx (c, g, l) (c, g.erase t, .lockFailed t .timeout :: l)
  | relSem (c g l t) (h : kind = .semaphore) (hc : 0 < c) (hm : c < mx) :
      Tok kind mx (c, g, l) (c + 1, g, .released t :: l)
  | relSemMax (c g l t) (h : kind = .semaphore) (hc : 0 < c) (hm : mx ≤ c) :
      Tok kind mx (c, g, l) (c, g, .released t :: l)
  | relMutex (c g l t) (h : kind ≠ .semaphore) (hc : 0 < c) (hh : Holding l t) :
      Tok kind mx (c, g, l) (1, g, .released t :: l)
  | relFree (g l t) (hh : kind ≠ .semaphore → Holding l t) :
      Tok kind mx (0, g, l) (1, g, .released t :: l)
  | relGrant (g l t x) (hh : kind ≠ .semaphore → Holding l t) :
      Tok kind mx (0, g, l) (0, x :: g, .released t :: l)

/-- The lock queue after a step. -/
def nextQ (s s' : LSys) (ev : LEvent) (q : List Nat) : List Nat :=
  match ev with
  | .lock t _ =>
    if (s'.pc t).locking then arrive s.o.queueing (fun i => (s.T i).priority) q t else q
  | .unlock _ => q.tail
  | .wait _ _ => q.tail
  | .resume t =>
    if (s'.pc t).locking then arrive s.o.queueing (fun i => (s.T i).priority) q t else q.erase t
  | _ => q

/-- The event queue after a step. -/
def nextE (s s' : LSys) (ev : LEvent) (e : List Nat) : List Nat :=
  match ev with
  | .wait t _ => arrivePrio (fun i => (s.T i).priority) e t
  | .signal _ => e.tail
  | .broadcast _ => []
  | .resume t => e.erase t
  | _ => e

/-- The accounting view of a state. -/
def view (s : LSys) (g : List Nat) : Nat × List Nat × List Obs := (s.o.current, g, s.log)

theorem Base.notq {N s q e g t} (b : Base N s q e g) (h : (s.pc t).locking = false) : t ∉ q :=
  fun hm => by simp [(b.inq t hm).1] at h

theorem Base.note' {N s q e g t} (b : Base N s q e g) (h : (s.pc t).waiting = false) : t ∉ e :=
  fun hm => by simp [(b.ine t hm).1] at h

theorem Base.notg {N s q e g t} (b : Base N s q e g) (h : (s.pc t).locking = false) : t ∉ g :=
  fun hm => by simp [((b.gr t).1 hm).2] at h

theorem Base.qlen {N s q e g} (b : Base N s q e g) : q.length < N := by
  have := length_le_of_nodup_lt' b.ndq b.ltq
  have := b.rq.pos
  omega

theorem Base.elen {N s q e g} (b : Base N s q e g) : e.length < N := by
  have := length_le_of_nodup_lt' b.nde b.lte
  have := b.rq.pos
  omega

theorem not_both {p : PC} (h1 : p.locking = true) (h2 : p.waiting = true) : False := by
  cases p <;> simp [PC.locking, PC.waiting] at h1 h2

theorem empty_of_nil {N f} (r : Rep N f []) : f.empty = true := r.empty_iff.2 rfl
theorem empty_of_cons {N f x q} (r : Rep N f (x :: q)) : f.empty = false := by
  cases h : f.empty
  · rfl
  · exact absurd (r.empty_iff.1 h) (by simp)

theorem suspendCaller_other {T : Threads} {cur d u : Nat} (h : u ≠ cur) :
    LockObj.suspendCaller T cur d u = T u := by
  unfold LockObj.suspendCaller; split
  · simp [lockCurrentTimed, upd_other _ _ h]
  · simp [lockCurrent, Threads.setState, upd_other _ _ h]

theorem suspendCaller_self {T : Threads} {cur d : Nat} :
    (d = 0 ∧ (LockObj.suspendCaller T cur d cur).state = .lock) ∨
    (d ≠ 0 ∧ (LockObj.suspendCaller T cur d cur).state = .waiting ∧
      (LockObj.suspendCaller T cur d cur).wakeup = d) := by
  unfold LockObj.suspendCaller; split
  · right; refine ⟨by omega, ?_, ?_⟩ <;> simp [lockCurrentTimed]
  · left; refine ⟨by omega, ?_⟩; simp [lockCurrent, Threads.setState]

/-- Rebuilding `Base` when only thread `t`'s suspension status changes from "outside" to "in `q`". -/
theorem doLock_base {N s q e g t timeout pcOf onOk} (b : Base N s q e g) (ht : t < N - 1)
    (hpl : (s.pc t).locking = false) (hte : t ∉ e)
    (hpc : ∀ d, (pcOf d).locking = true ∧ (pcOf d).waiting = false ∧ pcOf d ≠ .user)
    (hdl : (pcOf (LockObj.mkDeadline timeout s.now)).deadline = LockObj.mkDeadline timeout s.now) :
    (0 < s.o.current ∧ ∃ s', doLock N s t timeout pcOf onOk = some s' ∧ Base N s' q e g ∧
      s'.o.current = s.o.current - 1 ∧ s'.log = onOk ++ s.log ∧ s'.o.kind = s.o.kind ∧
      s'.o.max = s.o.max ∧ s'.pc = upd s.pc t .user ∧ s'.o.queueing = s.o.queueing) ∨
    (s.o.current = 0 ∧ ∃ s', doLock N s t timeout pcOf onOk = some s' ∧
      Base N s' (arrive s.o.queueing (fun i => (s.T i).priority) q t) e g ∧
      s'.o.current = 0 ∧ s'.log = s.log ∧ s'.o.kind = s.o.kind ∧ s'.o.max = s.o.max ∧
      s'.pc = upd s.pc t (pcOf (LockObj.mkDeadline timeout s.now)) ∧ s'.o.queueing = s.o.queueing) := by
  have htq : t ∉ q := b.notq hpl
  have htg : t ∉ g := b.notg hpl
  by_cases hc : 0 < s.o.current
  · left
    refine ⟨hc, ?_⟩
    have hq : q = [] := by
      by_contra h; have := b.avail h; omega
    subst hq
    refine ⟨{ s with o := { s.o with current := s.o.current - 1 }, pc := upd s.pc t .user,
                      log := onOk ++ s.log }, ?_, ?_, rfl, rfl, rfl, rfl, rfl, rfl⟩
    · simp [doLock, LockObj.lockBegin, b.ini, hc, empty_of_nil b.rq]
    · refine ⟨b.rq, b.re, b.ndq, b.nde, b.ndg, b.ltq, b.lte, by simp, ?_, ?_, b.grun, ?_, ?_, b.ini,
        b.disc, by simp⟩
      · intro u hu
        have hne : u ≠ t := fun h => hte (h ▸ hu)
        simpa [upd_other _ _ hne, Susp] using b.ine u hu
      · intro u
        by_cases h : u = t
        · subst h; simp [htg, PC.locking]
        · simpa [upd_other _ _ h] using b.gr u
      · intro u hu hw
        by_cases h : u = t
        · subst h; simp [PC.waiting] at hw
        · simp only [upd_other _ _ h] at hw; exact b.erun u hu hw
      · intro u hu
        by_cases h : u = t
        · subst h; exact ht
        · simp only [upd_other _ _ h] at hu; exact b.pclt u hu
  · right
    have hc0 : s.o.current = 0 := by omega
    refine ⟨hc0, ?_⟩
    obtain ⟨f', hf1, hf2⟩ := rep_enqueue (fun i => (s.T i).priority) s.o.queueing b.disc b.rq t b.qlen
    generalize hd : LockObj.mkDeadline timeout s.now = d at *
    refine ⟨{ s with T := LockObj.suspendCaller s.T t d, o := { s.o with fifo := f' },
                      pc := upd s.pc t (pcOf d) }, ?_, ?_, hc0, rfl, rfl, rfl, rfl, rfl⟩
    · simp [doLock, LockObj.lockBegin, b.ini, hc0, hf1, hd]
    · have hperm := arrive_perm s.o.queueing (fun i => (s.T i).priority) q t
      have hmem : ∀ u, u ∈ arrive s.o.queueing (fun i => (s.T i).priority) q t ↔ u = t ∨ u ∈ q := by
        intro u; rw [hperm.mem_iff]; simp
      refine ⟨hf2, b.re, hperm.nodup_iff.2 (List.nodup_cons.2 ⟨htq, b.ndq⟩), b.nde, b.ndg, ?_, b.lte,
        ?_, ?_, ?_, ?_, ?_, ?_, b.ini, b.disc, fun _ => hc0⟩
      · intro u hu
        rcases (hmem u).1 hu with rfl | hu
        · exact ht
        · exact b.ltq u hu
      · intro u hu
        by_cases h : u = t
        · subst h
          simp only [upd_same, Susp, hdl]
          refine ⟨(hpc d).1, ?_⟩
          rcases suspendCaller_self (T := s.T) (cur := u) (d := d) with h | h
          · exact Or.inl h
          · exact Or.inr (Or.inl h)
        · have hu' : u ∈ q := by
            rcases (hmem u).1 hu with h' | h'
            · exact absurd h' h
            · exact h'
          simpa [upd_other _ _ h, Susp, suspendCaller_other h] using b.inq u hu'
      · intro u hu
        have h : u ≠ t := fun h => hte (h ▸ hu)
        simpa [upd_other _ _ h, Susp, suspendCaller_other h] using b.ine u hu
      · intro u
        rw [hmem]
        by_cases h : u = t
        · subst h; simp [htg]
        · simpa [upd_other _ _ h, h] using b.gr u
      · intro u hu
        have h : u ≠ t := fun h => htg (h ▸ hu)
        simpa [suspendCaller_other h] using b.grun u hu
      · intro u hu hw
        by_cases h : u = t
        · subst h; simp [(hpc d).2.1] at hw
        · simp only [upd_other _ _ h] at hw
          simpa [suspendCaller_other h] using b.erun u hu hw
      · intro u hu
        by_cases h : u = t
        · subst h; exact ht
        · simp only [upd_other _ _ h] at hu; exact b.pclt u hu

theorem setState_other {T : Threads} {i u : Nat} {st} (h : u ≠ i) : T.setState i st u = T u := by
  simp [Threads.setState, upd_other _ _ h]

/-- Making runnable the first queued thread moves it from `q` to `g`. -/
theorem grant_base {N s x q e g} (b : Base N s (x :: q) e g) (log : List Obs) :
    Base N { s with T := unlockThread s.T x, o := { s.o with fifo := (s.o.fifo.dequeue N).1 },
                    log := log } q e (x :: g) := by
  obtain ⟨f', h1, h2⟩ := rep_dequeue b.rq
  have hx := b.inq x (by simp)
  have hnd := List.nodup_cons.1 b.ndq
  have hxg : x ∉ g := fun h => ((b.gr x).1 h).1 (by simp)
  refine ⟨by simpa [h1] using h2, b.re, hnd.2, b.nde, List.nodup_cons.2 ⟨hxg, b.ndg⟩,
    fun t ht => b.ltq t (List.mem_cons_of_mem _ ht), b.lte, ?_, ?_, ?_, ?_, ?_, b.pclt, b.ini, b.disc,
    fun _ => b.avail (by simp)⟩
  · intro u hu
    have h : u ≠ x := fun h => hnd.1 (h ▸ hu)
    simpa [Susp, unlockThread, setState_other h] using b.inq u (List.mem_cons_of_mem _ hu)
  · intro u hu
    have h : u ≠ x := fun h => by
      subst h; exact not_both hx.1 (b.ine u hu).1
    simpa [Susp, unlockThread, setState_other h] using b.ine u hu
  · intro u
    by_cases h : u = x
    · subst h; simp [hnd.1, hx.1]
    · simpa [h] using b.gr u
  · intro u hu
    by_cases h : u = x
    · subst h; simp [unlockThread, Threads.setState]
    · simp [h] at hu
      simpa [unlockThread, setState_other h] using b.grun u hu
  · intro u hu hw
    by_cases h : u = x
    · subst h; simp [unlockThread, Threads.setState]
    · simpa [unlockThread, setState_other h] using b.erun u hu hw

/-- `pok_lockobj_unlock` in a good state. -/
theorem unlock_base {N s q e g} (b : Base N s q e g) (t : Nat) (hh : s.o.kind ≠ .semaphore → Holding s.log t) :
    ∃ T' o' w q' g', s.o.unlock N s.T = some (T', o', .ok, w) ∧
      Base N { s with T := T', o := o', log := .released t :: s.log } q' e g' ∧
      Tok s.o.kind s.o.max (view s g) (o'.current, g', .released t :: s.log) ∧
      o'.kind = s.o.kind ∧ o'.max = s.o.max ∧ o'.queueing = s.o.queueing ∧
      (∀ u, (s.pc u).locking = false → T' u = s.T u) ∧ (∀ u, (T' u).priority = (s.T u).priority) ∧
      (q = [] ∧ q' = [] ∧ g' = g ∧ w = none ∧ T' = s.T ∨
       ∃ x, q = x :: q' ∧ g' = x :: g ∧ w = some x ∧ T' = unlockThread s.T x) := by
  by_cases hc : s.o.current ≠ 0
  · have hq : q = [] := by
      by_contra h; exact hc (b.avail h)
    subst hq
    have hbase : ∀ c, Base N { s with o := { s.o with current := c }, log := .released t :: s.log } [] e g :=
      fun c => ⟨b.rq, b.re, b.ndq, b.nde, b.ndg, b.ltq, b.lte, by simp, b.ine, b.gr, b.grun, b.erun,
        b.pclt, b.ini, b.disc, by simp⟩
    by_cases hk : s.o.kind = .semaphore
    · by_cases hm : s.o.current < s.o.max
      · refine ⟨s.T, { s.o with current := s.o.current + 1 }, none, [], g, ?_, hbase _, ?_, rfl, rfl, rfl,
          fun _ _ => rfl, fun _ => rfl, Or.inl ⟨rfl, rfl, rfl, rfl, rfl⟩⟩
        · simp [LockObj.unlock, b.ini, hc, empty_of_nil b.rq, hk, hm]
        · exact Tok.relSem _ _ _ _ hk (by omega) hm
      · refine ⟨s.T, s.o, none, [], g, ?_, hbase s.o.current, ?_, rfl, rfl, rfl,
          fun _ _ => rfl, fun _ => rfl, Or.inl ⟨rfl, rfl, rfl, rfl, rfl⟩⟩
        · simp [LockObj.unlock, b.ini, hc, empty_of_nil b.rq, hk, hm]
        · exact Tok.relSemMax _ _ _ _ hk (by omega) (by omega)
    · refine ⟨s.T, { s.o with current := 1 }, none, [], g, ?_, hbase _, ?_, rfl, rfl, rfl,
          fun _ _ => rfl, fun _ => rfl, Or.inl ⟨rfl, rfl, rfl, rfl, rfl⟩⟩
      · simp [LockObj.unlock, b.ini, hc, empty_of_nil b.rq, hk]
      · exact Tok.relMutex _ _ _ _ hk (by omega) (hh hk)
  · have hc0 : s.o.current = 0 := by omega
    cases q with
    | nil =>
      refine ⟨s.T, { s.o with current := 1 }, none, [], g, ?_, ?_, ?_, rfl, rfl, rfl,
          fun _ _ => rfl, fun _ => rfl, Or.inl ⟨rfl, rfl, rfl, rfl, rfl⟩⟩
      · simp [LockObj.unlock, b.ini, hc0, empty_of_nil b.rq]
      · exact ⟨b.rq, b.re, b.ndq, b.nde, b.ndg, b.ltq, b.lte, by simp, b.ine, b.gr, b.grun, b.erun,
          b.pclt, b.ini, b.disc, by simp⟩
      · simp only [view, hc0]; exact Tok.relFree _ _ _ hh
    | cons x q =>
      refine ⟨unlockThread s.T x, { s.o with fifo := (s.o.fifo.dequeue N).1 }, some x, q, x :: g, ?_,
        grant_base b _, ?_, rfl, rfl, rfl, ?_, ?_, Or.inr ⟨x, rfl, rfl, rfl, rfl⟩⟩
      · simp [LockObj.unlock, b.ini, hc0, empty_of_cons b.rq, rep_getHead b.rq]
      · simp only [view, hc0]; exact Tok.relGrant _ _ _ _ hh
      · intro u hu
        have h : u ≠ x := fun h => by
          subst h; have := (b.inq u (by simp)).1; simp [this] at hu
        simp [unlockThread, setState_other h]
      · intro u
        by_cases h : u = x
        · subst h; simp [unlockThread, Threads.setState]
        · simp [unlockThread, setState_other h]

/-- Making runnable the first thread of the event queue. -/
theorem signal_base {N s x q e g} (b : Base N s q (x :: e) g) (log : List Obs) :
    Base N { s with T := unlockThread s.T x, o := { s.o with eventFifo := (s.o.eventFifo.dequeue N).1 },
                    log := log } q e g := by
  obtain ⟨f', h1, h2⟩ := rep_dequeue b.re
  have hx := b.ine x (by simp)
  have hnd := List.nodup_cons.1 b.nde
  refine ⟨b.rq, by simpa [h1] using h2, b.ndq, hnd.2, b.ndg, b.ltq,
    fun t ht => b.lte t (List.mem_cons_of_mem _ ht), ?_, ?_, b.gr, ?_, ?_, b.pclt, b.ini, b.disc,
    b.avail⟩
  · intro u hu
    have h : u ≠ x := fun h => by
      subst h; exact not_both (b.inq u hu).1 hx.1
    simpa [Susp, unlockThread, setState_other h] using b.inq u hu
  · intro u hu
    have h : u ≠ x := fun h => hnd.1 (h ▸ hu)
    simpa [Susp, unlockThread, setState_other h] using b.ine u (List.mem_cons_of_mem _ hu)
  · intro u hu
    by_cases h : u = x
    · subst h; simp [unlockThread, Threads.setState]
    · simpa [unlockThread, setState_other h] using b.grun u hu
  · intro u hu hw
    by_cases h : u = x
    · subst h; simp [unlockThread, Threads.setState]
    · have : u ∉ x :: e := by simp [h, hu]
      simpa [unlockThread, setState_other h] using b.erun u this hw

theorem broadcastLoop_base {N q g} : ∀ (e : List Nat) (fuel : Nat) (s : LSys), e.length < fuel →
    Base N s q e g →
    ∃ T' f', LockObj.broadcastLoop N fuel s.T s.o.eventFifo = some (T', f') ∧
      Base N { s with T := T', o := { s.o with eventFifo := f' } } q [] g ∧
      (∀ u, T' u = if u ∈ e then { s.T u with state := .runnable } else s.T u) := by
  intro e
  induction e with
  | nil =>
    intro fuel s hf b
    cases fuel with
    | zero => simp at hf
    | succ fuel =>
      refine ⟨s.T, s.o.eventFifo, by simp [LockObj.broadcastLoop, empty_of_nil b.re], b, by simp⟩
  | cons x e ih =>
    intro fuel s hf b
    cases fuel with
    | zero => simp at hf
    | succ fuel =>
      have b1 := signal_base b s.log
      obtain ⟨T', f', h1, h2, h3⟩ := ih fuel _ (by simpa using hf) b1
      refine ⟨T', f', ?_, h2, ?_⟩
      · simp only [LockObj.broadcastLoop, empty_of_cons b.re, rep_getHead b.re]
        exact h1
      · intro u
        rw [h3]
        by_cases hu : u = x
        · subst hu; simp [unlockThread, Threads.setState]
        · simp [hu, unlockThread, setState_other hu]

theorem note_base {N s q e g} (b : Base N s q e g) (log : List Obs) :
    Base N { s with log := log } q e g :=
  ⟨b.rq, b.re, b.ndq, b.nde, b.ndg, b.ltq, b.lte, b.inq, b.ine, b.gr, b.grun, b.erun, b.pclt, b.ini,
    b.disc, b.avail⟩

/-- Leaving a lock call after being granted (or after the grant was lost). -/
theorem leave_granted {N s q e g t} (b : Base N s q e g) (ht : t ∈ g) (log : List Obs) :
    Base N { s with pc := upd s.pc t .user, log := log } q e (g.erase t) := by
  have h0 := (b.gr t).1 ht
  refine ⟨b.rq, b.re, b.ndq, b.nde, b.ndg.erase t, b.ltq, b.lte, ?_, ?_, ?_, ?_, ?_, ?_, b.ini, b.disc,
    b.avail⟩
  · intro u hu
    have h : u ≠ t := fun h => h0.1 (h ▸ hu)
    simpa [upd_other _ _ h, Susp] using b.inq u hu
  · intro u hu
    have h : u ≠ t := fun h => by subst h; exact not_both h0.2 (b.ine u hu).1
    simpa [upd_other _ _ h, Susp] using b.ine u hu
  · intro u
    rw [b.ndg.mem_erase_iff]
    by_cases h : u = t
    · subst h; simp [PC.locking]
    · simpa [upd_other _ _ h, h] using b.gr u
  · intro u hu; exact b.grun u (List.mem_of_mem_erase hu)
  · intro u hu hw
    by_cases h : u = t
    · subst h; simp [PC.waiting] at hw
    · simp only [upd_other _ _ h] at hw; exact b.erun u hu hw
  · intro u hu
    by_cases h : u = t
    · subst h; simp at hu
    · simp only [upd_other _ _ h] at hu; exact b.pclt u hu

/-- Leaving the lock queue on a timeout. -/
theorem leave_queue {N s q e g t f'} (b : Base N s q e g) (ht : t ∈ q) (hf : Rep N f' (q.erase t))
    (log : List Obs) :
    Base N { s with o := { s.o with fifo := f' }, pc := upd s.pc t .user, log := log } (q.erase t) e g := by
  have h0 := b.inq t ht
  have hg : t ∉ g := fun h => ((b.gr t).1 h).1 ht
  refine ⟨hf, b.re, b.ndq.erase t, b.nde, b.ndg, fun u hu => b.ltq u (List.mem_of_mem_erase hu), b.lte,
    ?_, ?_, ?_, b.grun, ?_, ?_, b.ini, b.disc, ?_⟩
  · intro u hu
    rw [b.ndq.mem_erase_iff] at hu
    simpa [upd_other _ _ hu.1, Susp] using b.inq u hu.2
  · intro u hu
    have h : u ≠ t := fun h => by subst h; exact not_both h0.1 (b.ine u hu).1
    simpa [upd_other _ _ h, Susp] using b.ine u hu
  · intro u
    rw [b.ndq.mem_erase_iff]
    by_cases h : u = t
    · subst h; simp [PC.locking, hg]
    · simpa [upd_other _ _ h, h] using b.gr u
  · intro u hu hw
    by_cases h : u = t
    · subst h; simp [PC.waiting] at hw
    · simp only [upd_other _ _ h] at hw; exact b.erun u hu hw
  · intro u hu
    by_cases h : u = t
    · subst h; simp at hu
    · simp only [upd_other _ _ h] at hu; exact b.pclt u hu
  · intro _; exact b.avail (List.ne_nil_of_mem ht)

/-- Leaving the event queue on a timeout. -/
theorem leave_event {N s q e g t f'} (b : Base N s q e g) (ht : t ∈ e) (hr : (s.T t).state = .runnable)
    (hf : Rep N f' (e.erase t)) :
    Base N { s with o := { s.o with eventFifo := f' } } q (e.erase t) g := by
  refine ⟨b.rq, hf, b.ndq, b.nde.erase t, b.ndg, b.ltq, fun u hu => b.lte u (List.mem_of_mem_erase hu),
    b.inq, fun u hu => b.ine u (List.mem_of_mem_erase hu), b.gr, b.grun, ?_, b.pclt, b.ini, b.disc,
    b.avail⟩
  intro u hu hw
  by_cases h : u = t
  · subst h; exact hr
  · rw [b.nde.mem_erase_iff] at hu
    exact b.erun u (fun h' => hu ⟨h, h'⟩) hw

/-- Changes of the thread table that keep suspended threads suspended. -/
theorem thread_base {N s q e g} (b : Base N s q e g) (T' : Threads) (now' : Nat) (hn : s.now ≤ now')
    (h : ∀ u, s.pc u ≠ .user → (s.T u = T' u) ∨
      ((T' u).state = (s.T u).state ∧ (T' u).wakeup = (s.T u).wakeup) ∨
      ((s.T u).state = .waiting ∧ (s.T u).wakeup ≤ now' ∧ (T' u).state = .runnable)) :
    Base N { s with T := T', now := now' } q e g := by
  have hsusp : ∀ u, s.pc u ≠ .user → ∀ d, Susp s u d → Susp { s with T := T', now := now' } u d := by
    intro u hu d hs
    unfold Susp at hs ⊢
    simp only
    rcases h u hu with h | h | h
    · rw [← h]; rcases hs with hs | hs | hs
      · exact Or.inl hs
      · exact Or.inr (Or.inl hs)
      · exact Or.inr (Or.inr ⟨hs.1, hs.2.1, by omega⟩)
    · rw [h.1, h.2]; rcases hs with hs | hs | hs
      · exact Or.inl hs
      · exact Or.inr (Or.inl hs)
      · exact Or.inr (Or.inr ⟨hs.1, hs.2.1, by omega⟩)
    · rcases hs with hs | hs | hs
      · rw [hs.2] at h; simp at h
      · exact Or.inr (Or.inr ⟨hs.1, h.2.2, by omega⟩)
      · rw [hs.2.1] at h; simp at h
  have hrun : ∀ u, s.pc u ≠ .user → (s.T u).state = .runnable → (T' u).state = .runnable := by
    intro u hu hr
    rcases h u hu with h | h | h
    · rw [← h]; exact hr
    · rw [h.1]; exact hr
    · exact h.2.2
  have hl : ∀ u, (s.pc u).locking = true → s.pc u ≠ .user := by
    intro u h h'; simp [h', PC.locking] at h
  have hw : ∀ u, (s.pc u).waiting = true → s.pc u ≠ .user := by
    intro u h h'; simp [h', PC.waiting] at h
  refine ⟨b.rq, b.re, b.ndq, b.nde, b.ndg, b.ltq, b.lte, ?_, ?_, b.gr, ?_, ?_, b.pclt, b.ini, b.disc,
    b.avail⟩
  · intro u hu
    exact ⟨(b.inq u hu).1, hsusp u (hl u (b.inq u hu).1) _ (b.inq u hu).2⟩
  · intro u hu
    exact ⟨(b.ine u hu).1, hsusp u (hw u (b.ine u hu).1) _ (b.ine u hu).2⟩
  · intro u hu
    exact hrun u (hl u ((b.gr u).1 hu).2) (b.grun u hu)
  · intro u hu hw'
    exact hrun u (hw u hw') (b.erun u hu hw')

/-- Suspending the caller in the event queue. -/
theorem enter_event {N s q e g t f' d} (b : Base N s q e g) (ht : t < N - 1) (hu : s.pc t = .user)
    (hf : Rep N f' (arrivePrio (fun i => (s.T i).priority) e t)) (log : List Obs) :
    Base N { s with T := LockObj.suspendCaller s.T t d, o := { s.o with eventFifo := f' },
                    pc := upd s.pc t (.inWait d), log := log }
      q (arrivePrio (fun i => (s.T i).priority) e t) g := by
  have hte : t ∉ e := b.note' (by simp [hu, PC.waiting])
  have htq : t ∉ q := b.notq (by simp [hu, PC.locking])
  have htg : t ∉ g := b.notg (by simp [hu, PC.locking])
  refine ⟨b.rq, hf, b.ndq, perm_arrivePrio.nodup_iff.2 (List.nodup_cons.2 ⟨hte, b.nde⟩), b.ndg, b.ltq,
    ?_, ?_, ?_, ?_, ?_, ?_, ?_, b.ini, b.disc, b.avail⟩
  · intro u hu
    rcases mem_arrivePrio.1 hu with rfl | hu
    · exact ht
    · exact b.lte u hu
  · intro u hu
    have h : u ≠ t := fun h => htq (h ▸ hu)
    simpa [upd_other _ _ h, Susp, suspendCaller_other h] using b.inq u hu
  · intro u hu
    by_cases h : u = t
    · subst h
      simp only [upd_same, Susp, PC.deadline]
      refine ⟨rfl, ?_⟩
      rcases suspendCaller_self (T := s.T) (cur := u) (d := d) with h | h
      · exact Or.inl h
      · exact Or.inr (Or.inl h)
    · have hu' : u ∈ e := by
        rcases mem_arrivePrio.1 hu with h' | h'
        · exact absurd h' h
        · exact h'
      simpa [upd_other _ _ h, Susp, suspendCaller_other h] using b.ine u hu'
  · intro u
    by_cases h : u = t
    · subst h; simp [htg, PC.locking]
    · simpa [upd_other _ _ h] using b.gr u
  · intro u hu
    have h : u ≠ t := fun h => htg (h ▸ hu)
    simpa [suspendCaller_other h] using b.grun u hu
  · intro u hu hw
    have h : u ≠ t := fun h => hu (mem_arrivePrio.2 (Or.inl h))
    simp only [upd_other _ _ h] at hw
    have hu' : u ∉ e := fun h' => hu (mem_arrivePrio.2 (Or.inr h'))
    simpa [suspendCaller_other h] using b.erun u hu' hw
  · intro u hu'
    by_cases h : u = t
    · subst h; exact ht
    · simp only [upd_other _ _ h] at hu'; exact b.pclt u hu'

/-- All deadlines of suspended lock calls are 0. -/
def Untimed (s : LSys) : Prop := ∀ t d, s.pc t = .inLock d → d = 0

/-- One step of the system: it is defined, keeps `Base`, and is one token step. -/
theorem exec_base {N s q e g} (b : Base N s q e g) (ev : LEvent) (hord : ev.ordinary = true)
    (hen : enabled N s ev) :
    ∃ s', exec N s ev = some s' ∧ ∃ g', Base N s' (nextQ s s' ev q) (nextE s s' ev e) g' ∧
      Tok s.o.kind s.o.max (view s g) (view s' g') ∧ s'.o.kind = s.o.kind ∧ s'.o.max = s.o.max ∧
      s'.o.queueing = s.o.queueing ∧
      (Untimed s → (∀ t timeout, ev = .lock t timeout → timeout = 0) →
        Untimed s' ∧ ∀ t, s'.log ≠ .lockFailed t .timeout :: s.log) := by
  cases ev with
  | lock t timeout =>
    obtain ⟨ht, hrun, hpc, _⟩ := hen
    have hte : t ∉ e := b.note' (by simp [hpc, PC.waiting])
    have := doLock_base (timeout := timeout) (pcOf := fun d => .inLock d) (onOk := [.acquired t]) b ht
      (by simp [hpc, PC.locking]) hte (fun d => ⟨rfl, rfl, by simp⟩) rfl
    rcases this with ⟨hc, s', h1, h2, h3, h4, h5, h6, h7, h8⟩ | ⟨hc, s', h1, h2, h3, h4, h5, h6, h7, h8⟩
    · refine ⟨s', h1, g, by simpa [nextQ, nextE, h7, PC.locking] using h2, ?_, h5, h6, h8, ?_⟩
      · obtain ⟨c, hc'⟩ : ∃ c, s.o.current = c + 1 := ⟨s.o.current - 1, by omega⟩
        simp only [view, h3, h4, hc']
        exact Tok.take _ _ _ _
      · intro hd _
        refine ⟨?_, ?_⟩
        · intro u d hu
          rw [h7] at hu
          by_cases h : u = t
          · subst h; simp at hu
          · rw [upd_other _ _ h] at hu; exact hd u d hu
        · intro u hl; rw [h4] at hl; simp at hl
    · refine ⟨s', h1, g, by simpa [nextQ, nextE, h7, PC.locking] using h2, ?_, h5, h6, h8, ?_⟩
      · simp only [view, h3, h4, hc]; exact Tok.idle _ _ _
      · intro hd h0
        refine ⟨?_, ?_⟩
        · intro u d hu
          rw [h7] at hu
          by_cases h : u = t
          · subst h
            have := h0 u timeout rfl
            subst this
            simp [LockObj.mkDeadline] at hu; exact hu.symm
          · rw [upd_other _ _ h] at hu; exact hd u d hu
        · intro u hl; rw [h4] at hl; simp at hl
  | unlock t =>
    obtain ⟨ht, hrun, hpc, hh⟩ := hen
    obtain ⟨T', o', w, q', g', h1, h2, h3, h4, h5, h6, _, _, h7⟩ := unlock_base b t hh
    have hq' : q' = q.tail := by
      rcases h7 with ⟨rfl, rfl, _⟩ | ⟨x, rfl, _⟩ <;> rfl
    subst hq'
    refine ⟨_, by simp [exec, h1], g', h2, h3, h4, h5, h6, ?_⟩
    intro hd _
    exact ⟨hd, fun u hl => by simp at hl⟩
  | wait t timeout =>
    obtain ⟨ht, hrun, hpc, _, hk, hh⟩ := hen
    obtain ⟨T', o', w, q', g', h1, h2, h3, h4, h5, h6, _, hpr, h7⟩ := unlock_base b t (fun _ => hh)
    have hq' : q' = q.tail := by
      rcases h7 with ⟨rfl, rfl, _⟩ | ⟨x, rfl, _⟩ <;> rfl
    subst hq'
    obtain ⟨f', hf1, hf2⟩ := rep_enqueue_priority (fun i => (T' i).priority) h2.re t h2.elen
    have hb := enter_event (d := LockObj.mkDeadline timeout s.now) h2 ht hpc hf2 (.released t :: s.log)
    have hpr' : (fun i => (T' i).priority) = fun i => (s.T i).priority := funext hpr
    refine ⟨{ s with T := LockObj.suspendCaller T' t (LockObj.mkDeadline timeout s.now),
                      o := { o' with eventFifo := f' },
                      pc := upd s.pc t (.inWait (LockObj.mkDeadline timeout s.now)),
                      log := .released t :: s.log },
      by simp [exec, LockObj.waitBegin, b.ini, hk, h1, hf1], g', ?_, h3, h4, h5, h6, ?_⟩
    · simp only [nextQ, nextE, ← hpr']; exact hb
    · intro hd _
      refine ⟨?_, ?_⟩
      · intro u d hu
        by_cases h : u = t
        · subst h; simp at hu
        · simp only [upd_other _ _ h] at hu; exact hd u d hu
      · intro u hl; simp at hl
  | signal t =>
    cases e with
    | nil =>
      refine ⟨{ s with log := .signalled t .notfound :: s.log },
        by simp [exec, LockObj.signal, empty_of_nil b.re], g, note_base b _,
        Tok.note _ _ _ _ (by simp), rfl, rfl, rfl, ?_⟩
      intro hd _
      exact ⟨hd, fun u hl => by simp at hl⟩
    | cons x e =>
      refine ⟨_, by simp [exec, LockObj.signal, empty_of_cons b.re, rep_getHead b.re]; rfl, g,
        signal_base b _, Tok.note _ _ _ _ (by simp), rfl, rfl, rfl, ?_⟩
      intro hd _
      exact ⟨hd, fun u hl => by simp at hl⟩
  | broadcast t =>
    have := b.elen
    obtain ⟨T', f', h1, h2, _⟩ := broadcastLoop_base e (N + 1) s (by omega) b
    refine ⟨_, by simp [exec, LockObj.broadcast, h1]; rfl, g, note_base h2 _,
        Tok.note _ _ _ _ (by simp), rfl, rfl, rfl, ?_⟩
    intro hd _
    exact ⟨hd, fun u hl => by simp at hl⟩
  | resume t =>
    obtain ⟨hrun, hpc⟩ := hen
    cases hp : s.pc t with
    | user => exact absurd hp hpc
    | inLock d =>
      have het : t ∉ e := b.note' (by simp [hp, PC.waiting])
      have hee : e.erase t = e := List.erase_of_not_mem het
      by_cases hto : d ≠ 0 ∧ s.now ≥ d
      · by_cases hq : t ∈ q
        · obtain ⟨f', hf1, hf2⟩ := rep_remove b.rq t hq
          refine ⟨{ s with o := { s.o with fifo := f' }, pc := upd s.pc t .user,
                            log := .lockFailed t .timeout :: s.log },
            by simp [exec, hp, LockObj.lockResume, hto.1, hto.2, hf1], g, ?_,
            Tok.note _ _ _ (.lockFailed t .timeout) (by simp), rfl, rfl, rfl, ?_⟩
          · simpa [nextQ, nextE, PC.locking, hee] using
              leave_queue b hq hf2 (.lockFailed t .timeout :: s.log)
          · intro hd _
            exact absurd (hd t d hp) hto.1
        · have hg : t ∈ g := (b.gr t).2 ⟨hq, by simp [hp, PC.locking]⟩
          refine ⟨{ s with pc := upd s.pc t .user, log := .lockFailed t .timeout :: s.log }, by
            simp [exec, hp, LockObj.lockResume, hto.1, hto.2, rep_remove_notin b.rq t hq],
            g.erase t, ?_, Tok.lost _ _ _ _ hg, rfl, rfl, rfl, ?_⟩
          · simpa [nextQ, nextE, PC.locking, hee, List.erase_of_not_mem hq] using
              leave_granted b hg (.lockFailed t .timeout :: s.log)
          · intro hd _
            exact absurd (hd t d hp) hto.1
      · have hq : t ∉ q := by
          intro hq
          have h := (b.inq t hq).2
          rw [hp] at h
          simp only [Susp, PC.deadline, hrun] at h
          rcases h with h | h | h
          · simp at h
          · simp at h
          · exact hto ⟨h.1, h.2.2⟩
        have hg : t ∈ g := (b.gr t).2 ⟨hq, by simp [hp, PC.locking]⟩
        refine ⟨{ s with pc := upd s.pc t .user, log := .acquired t :: s.log },
          by simp [exec, hp, LockObj.lockResume, if_neg hto], g.erase t, ?_,
          Tok.got _ _ _ _ hg, rfl, rfl, rfl, ?_⟩
        · simpa [nextQ, nextE, PC.locking, hee, List.erase_of_not_mem hq] using
              leave_granted b hg (.acquired t :: s.log)
        · intro hd _
          refine ⟨?_, ?_⟩
          · intro u d' hu
            by_cases h : u = t
            · subst h; simp at hu
            · simp only [upd_other _ _ h] at hu; exact hd u d' hu
          · intro u hl; simp at hl
    | inWait d =>
      have htq : t ∉ q := b.notq (by simp [hp, PC.locking])
      -- first leave the event queue
      have key : ∃ o' r, s.o.waitResume N s.now t d = some (o', r) ∧
          Base N { s with o := o' } q (e.erase t) g ∧ o'.current = s.o.current ∧
          o'.kind = s.o.kind ∧ o'.max = s.o.max ∧ o'.queueing = s.o.queueing := by
        by_cases hto : d ≠ 0 ∧ s.now ≥ d
        · by_cases he : t ∈ e
          · obtain ⟨f', hf1, hf2⟩ := rep_remove b.re t he
            refine ⟨_, _, by simp [LockObj.waitResume, hto.1, hto.2, hf1]; rfl,
              leave_event b he hrun hf2, rfl, rfl, rfl, rfl⟩
          · rw [List.erase_of_not_mem he]
            refine ⟨_, _, by
              simp [LockObj.waitResume, hto.1, hto.2, rep_remove_notin b.re t he]; rfl,
              ⟨b.rq, b.re, b.ndq, b.nde, b.ndg, b.ltq, b.lte, b.inq, b.ine, b.gr, b.grun, b.erun,
                b.pclt, b.ini, b.disc, b.avail⟩, rfl, rfl, rfl, rfl⟩
        · have he : t ∉ e := by
            intro he
            have h := (b.ine t he).2
            rw [hp] at h
            simp only [Susp, PC.deadline, hrun] at h
            rcases h with h | h | h
            · simp at h
            · simp at h
            · exact hto ⟨h.1, h.2.2⟩
          rw [List.erase_of_not_mem he]
          exact ⟨s.o, .ok, by simp only [LockObj.waitResume, if_neg hto], b, rfl, rfl, rfl, rfl⟩
      obtain ⟨o', r, h1, b', hcur, hkd, hmx, hqu⟩ := key
      have hte : t ∉ e.erase t := by rw [b.nde.mem_erase_iff]; simp
      have ht : t < N - 1 := b.pclt t (by simp [hp])
      have := doLock_base (timeout := 0) (pcOf := fun _ => .inRelock r)
        (onOk := [.waitReturned t r, .acquired t]) b' ht (by simp [hp, PC.locking]) hte
        (fun d => ⟨rfl, rfl, by simp⟩) (by simp [LockObj.mkDeadline, PC.deadline])
      rcases this with ⟨hc, s', h2, h3, h4, h5, h6, h7, h8, h9⟩ | ⟨hc, s', h2, h3, h4, h5, h6, h7, h8, h9⟩
      · refine ⟨s', by simp only [exec, hp, h1]; exact h2, g, ?_, ?_, by rw [h6]; exact hkd,
          by rw [h7]; exact hmx, by rw [h9]; exact hqu, ?_⟩
        · simpa [nextQ, nextE, h8, PC.locking, List.erase_of_not_mem htq] using h3
        · simp only at hc h4 h5
          obtain ⟨c, hc'⟩ : ∃ c, s.o.current = c + 1 := ⟨s.o.current - 1, by omega⟩
          have : s'.o.current = c := by rw [h4, hcur, hc']; rfl
          simp only [view, this, h5, hc']
          exact Tok.takeW _ _ _ _ _
        · intro hd _
          refine ⟨?_, ?_⟩
          · intro u d' hu
            rw [h8] at hu
            by_cases h : u = t
            · subst h; simp at hu
            · rw [upd_other _ _ h] at hu; exact hd u d' hu
          · intro u hl; rw [h5] at hl; simp at hl
      · refine ⟨s', by simp only [exec, hp, h1]; exact h2, g, ?_, ?_, by rw [h6]; exact hkd,
          by rw [h7]; exact hmx, by rw [h9]; exact hqu, ?_⟩
        · simp only [hqu] at h3
          simpa [nextQ, nextE, h8, PC.locking] using h3
        · simp only at hc h4 h5
          have : s.o.current = 0 := by rw [← hcur]; exact hc
          simp only [view, h4, h5, this]; exact Tok.idle _ _ _
        · intro hd _
          refine ⟨?_, ?_⟩
          · intro u d' hu
            rw [h8] at hu
            by_cases h : u = t
            · subst h; simp at hu
            · rw [upd_other _ _ h] at hu; exact hd u d' hu
          · intro u hl; rw [h5] at hl; simp at hl
    | inRelock r =>
      have het : t ∉ e := b.note' (by simp [hp, PC.waiting])
      have hq : t ∉ q := by
        intro hq
        have h := (b.inq t hq).2
        rw [hp] at h
        simp [Susp, PC.deadline, hrun] at h
      have hg : t ∈ g := (b.gr t).2 ⟨hq, by simp [hp, PC.locking]⟩
      refine ⟨{ s with pc := upd s.pc t .user,
                        log := .waitReturned t (LockObj.waitFinal .ok r) :: .acquired t :: s.log },
        by simp [exec, hp, LockObj.lockResume], g.erase t, ?_,
        Tok.gotW _ _ _ _ (LockObj.waitFinal .ok r) hg, rfl, rfl, rfl, ?_⟩
      · simpa [nextQ, nextE, PC.locking, List.erase_of_not_mem het, List.erase_of_not_mem hq] using
          leave_granted b hg (.waitReturned t (LockObj.waitFinal .ok r) :: .acquired t :: s.log)
      · intro hd _
        refine ⟨?_, ?_⟩
        · intro u d' hu
          by_cases h : u = t
          · subst h; simp at hu
          · simp only [upd_other _ _ h] at hu; exact hd u d' hu
        · intro u hl; simp at hl
  | advance δ =>
    refine ⟨_, rfl, g, ?_, Tok.idle _ _ _, rfl, rfl, rfl, fun hd _ => ⟨hd, fun u hl => by simp at hl⟩⟩
    exact thread_base b s.T (s.now + δ) (by omega) (fun u _ => Or.inl rfl)
  | wake t =>
    obtain ⟨h1, h2⟩ := hen
    refine ⟨_, rfl, g, ?_, Tok.idle _ _ _, rfl, rfl, rfl, fun hd _ => ⟨hd, fun u hl => by simp at hl⟩⟩
    refine thread_base b (s.T.setState t .runnable) s.now (Nat.le_refl _) ?_
    intro u _
    by_cases h : u = t
    · subst h; exact Or.inr (Or.inr ⟨h1, h2, by simp [Threads.setState]⟩)
    · exact Or.inl (setState_other h).symm
  | env t th =>
    refine ⟨_, rfl, g, ?_, Tok.idle _ _ _, rfl, rfl, rfl, fun hd _ => ⟨hd, fun u hl => by simp at hl⟩⟩
    refine thread_base b (upd s.T t th) s.now (Nat.le_refl _) ?_
    intro u hu
    have h : u ≠ t := fun h => hu (h ▸ hen)
    exact Or.inl (upd_other _ _ h).symm
  | setPrio t p =>
    refine ⟨_, rfl, g, ?_, Tok.idle _ _ _, rfl, rfl, rfl, fun hd _ => ⟨hd, fun u hl => by simp at hl⟩⟩
    refine thread_base b _ s.now (Nat.le_refl _) ?_
    intro u hu
    by_cases h : u = t
    · subst h; exact Or.inr (Or.inl (by simp))
    · exact Or.inl (upd_other _ _ h).symm
  | overrun t => simp [LEvent.ordinary] at hord
  | activate t => simp [LEvent.ordinary] at hord
  | resumeOther t => simp [LEvent.ordinary] at hord

end LSys
end Pok
