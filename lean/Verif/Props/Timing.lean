import Verif.Lemmas.Quiet

/-!
# Sleeping, periodic releases, budgets, blocking (C10, C11, C12, C13)

Histories are arbitrary lists of kernel entries on any processors; `Spec/Timing.lean` says which of them
are operations on a given thread.
-/

namespace Pok
namespace Kernel
open Pok.Spec

/-! ### The running thread at an election -/

/-- Effect of an election on the thread that was running. -/
theorem sched_self {c proc now k k'} (h : schedThread c proc now k = some k') :
    let t := k.curThread proc
    ∃ x t1, (if (k.P k.curPart).low ≤ t ∧ t < (k.P k.curPart).low + (k.P k.curPart).nthreads
        then wakeOne c proc now (k.T t) = some t1 else t1 = k.T t) ∧
      (k'.T t = { t1 with endTime := x } ∨
       (t1.remaining > 0 ∧ k'.T t = { t1 with remaining := t1.remaining - 1, endTime := x }) ∨
       (t1.remaining ≤ 0 ∧ t1.timeCapacity > 0 ∧ k'.T t = { t1 with state := .waitNextActivation, endTime := x })) := by
  intro t
  obtain ⟨k1, e, he, hT, _⟩ := sched_parts h
  obtain ⟨T1, T2, _, h1, h2, rfl⟩ := elect_parts he
  obtain ⟨a, b⟩ := wakeLoop_spec _ _ _ _ h1
  obtain ⟨x, hx⟩ := endTime_upd T2 ((T2 (k.curThread proc)).timeCapacity > 0) e now t
  refine ⟨x, T1 t, ?_, ?_⟩
  · split
    · rename_i hj; exact a t hj.1 hj.2
    · exact b t (by omega)
  · rw [hT]
    simp only [hx]
    rcases choose_table h2 with rfl | ⟨rfl, _⟩
    · exact Or.inl rfl
    · rcases account_self c proc k T1 with h | ⟨h3, h4⟩ | ⟨h3, h4, h5⟩
      · left; show ({ account c proc k T1 (k.curThread proc) with endTime := x } : Thread) = _; rw [h]
      · right; left
        refine ⟨h3, ?_⟩
        show ({ account c proc k T1 (k.curThread proc) with endTime := x } : Thread) = _
        rw [h4]
      · right; right
        refine ⟨h3, h4, ?_⟩
        show ({ account c proc k T1 (k.curThread proc) with endTime := x } : Thread) = _
        rw [h5]

/-- In NORMAL mode, when the accounting applies and the error handler is not running, the running thread
is charged. -/
theorem sched_charged {c proc now k k'} (hm : (k.P k.curPart).mode = .normal)
    (ha : Accounted c proc k) (hne : (k.P k.curPart).cur proc ≠ (k.P k.curPart).threadError)
    (hr : (k.T (k.curThread proc)).state = .runnable) (h : schedThread c proc now k = some k') :
    let t := k.T (k.curThread proc)
    ∃ x, k'.T (k.curThread proc) =
      if t.remaining > 0 then { t with remaining := t.remaining - 1, endTime := x }
      else if t.timeCapacity > 0 then { t with state := .waitNextActivation, endTime := x }
      else { t with endTime := x } := by
  intro t
  obtain ⟨k1, e, he, hT, _⟩ := sched_parts h
  obtain ⟨T1, T2, _, h1, h2, rfl⟩ := elect_parts he
  obtain ⟨a, b⟩ := wakeLoop_spec _ _ _ _ h1
  obtain ⟨x, hx⟩ := endTime_upd T2 ((T2 (k.curThread proc)).timeCapacity > 0) e now (k.curThread proc)
  have hT1 : T1 (k.curThread proc) = t := by
    by_cases hj : (k.P k.curPart).low ≤ k.curThread proc ∧
        k.curThread proc < (k.P k.curPart).low + (k.P k.curPart).nthreads
    · rcases wakeOne_cases (a _ hj.1 hj.2) with ⟨h, _⟩ | ⟨_, _, h, _⟩ | ⟨_, h, _⟩
      · exact h
      · rw [hr] at h; simp at h
      · rw [hr] at h; simp at h
    · exact b _ (by omega)
  refine ⟨x, ?_⟩
  rw [hT]
  simp only [hx]
  have hT2 : T2 = account c proc k T1 := by
    unfold choose at h2
    simp only [hm] at h2
    rw [if_neg (fun hh => hne hh.1)] at h2
    split at h2
    · simp at h2
    · simp at h2; exact h2.1.symm
  rw [hT2, account_accounted ha, hT1]
  split
  · rfl
  · split <;> rfl

/-- The thread is not due, and if it is running it has budget left or no budget at all: an election
leaves its state and its times alone and does not dispatch it. -/
theorem sched_block {c proc now k k' t} (hc : CfgOk c) (hq : proc < c.nbProcs) (hw : Wf c k)
    (ht : t < prefixSum c.nthreads c.nbParts) (hm : NotInitMain c k t) (hcur : t = k.curThread proc)
    (hb : (k.T t).remaining > 0 ∨ (k.T t).timeCapacity ≤ 0)
    (hd : NotDue c now (k.T t)) (h : schedThread c proc now k = some k') :
    (k'.T t).state = (k.T t).state ∧ (k'.T t).wakeup = (k.T t).wakeup ∧
    (k'.T t).nextActivation = (k.T t).nextActivation ∧ k'.curThread proc ≠ t ∧
    (∀ q, q ≠ proc → k'.curThread q = k.curThread q) := by
  obtain ⟨x, t1, h1, h2⟩ := sched_self h
  have ht1 : t1 = k.T t := by
    split at h1
    · exact notDue_wake hd (by rw [← hcur] at h1; exact h1)
    · rw [hcur]; exact h1
  subst ht1
  have hsame : (k'.T t).state = (k.T t).state ∧ (k'.T t).wakeup = (k.T t).wakeup ∧
      (k'.T t).nextActivation = (k.T t).nextActivation := by
    rw [← hcur] at h2
    rcases h2 with h2 | ⟨_, h2⟩ | ⟨h3, h4, _⟩
    · rw [h2]; exact ⟨rfl, rfl, rfl⟩
    · rw [h2]; exact ⟨rfl, rfl, rfl⟩
    · rcases hb with hb | hb <;> omega
  refine ⟨hsame.1, hsame.2.1, hsame.2.2, ?_, ?_⟩
  · obtain ⟨T1, T2, e, w1, w2, w3, w4, w5⟩ := sched_outcome hc hq hw h
    rw [w3]
    rintro rfl
    have hwp := hw.part _ hw.curPart
    have hrg := hwp.range hc hw.curPart
    have hne : e ≠ idle c proc := by
      have := hc.room; unfold idle; omega
    obtain ⟨y, hy⟩ := w4 e
    have hns : (T2 e).state ≠ .runnable := by
      have := hsame.1
      rw [hy] at this
      rw [show (T2 e).state = (k.T e).state from this]
      exact notDue_not_runnable hd
    have htab := choose_table w2
    unfold choose at w2
    simp only at w2
    split at w2
    · rename_i hmo
      split at w2
      · simp at w2; exact (hm _ hw.curPart w2.2).1 hmo
      · simp at w2; exact hne w2.2.symm
    · rename_i hmo
      split at w2
      · simp at w2; exact (hm _ hw.curPart w2.2).2 hmo
      · simp at w2; exact hne w2.2.symm
    · split at w2
      · rename_i hx
        simp at w2
        rw [hx.1, w2.2, w2.1] at hx
        exact hns hx.2
      · split at w2
        · simp at w2
        · rename_i e' he'
          simp at w2
          obtain ⟨e2, he2, hg⟩ := C04_policies (k.P k.curPart).sched (T := account c proc k T1) (proc := proc)
            (idle := idle c proc) hrg.1 (hwp.prev proc hq) (hwp.cur proc hq)
          rw [he2] at he'
          injection he' with he'
          rw [he', w2.2, w2.1] at hg
          rcases hg with hg | hg
          · exact hns hg.2.1
          · exact hne hg.1
    · simp at w2; exact hne w2.2.symm
  · intro q hq'
    obtain ⟨k1, e0, he, hT, hps, hcur', hP, _⟩ := sched_parts h
    rw [hcur', upd_other _ _ hq']

/-- A call by which the running thread blocks: afterwards it is blocked and not running. -/
theorem blocked_start {c proc now k k' t} {u : Thread} (hc : CfgOk c) (hq : proc < c.nbProcs) (hw : Wf c k)
    (ht : t < prefixSum c.nthreads c.nbParts) (hm : NotInitMain c k t) (hcur : t = k.curThread proc)
    (hother : ∀ q < c.nbProcs, q ≠ proc → k.curThread q ≠ t)
    (hb : (k.T t).remaining > 0 ∨ (k.T t).timeCapacity ≤ 0)
    (hu : u.remaining = (k.T t).remaining ∧ u.timeCapacity = (k.T t).timeCapacity ∧ u.affinity = (k.T t).affinity)
    (hd : NotDue c now u) (h : schedThread c proc now (k.setT t u) = some k') :
    (k'.T t).state = u.state ∧ (k'.T t).wakeup = u.wakeup ∧ (k'.T t).nextActivation = u.nextActivation ∧
    Blocked c k' t := by
  have hw1 : Wf c (k.setT t u) := wf_setT hw hu.2.1 hu.2.2
  have hT : (k.setT t u).T t = u := upd_same _ _ _
  obtain ⟨a1, a2, a3, a4, a5⟩ := sched_block (k := k.setT t u) hc hq hw1 ht hm hcur
    (by rw [hT, hu.1, hu.2.1]; exact hb) (by rw [hT]; exact hd) h
  rw [hT] at a1 a2 a3
  refine ⟨a1, a2, a3, wf_sched hc hq hw1 h, ?_, notInitMain_sched h hm⟩
  intro q hq'
  by_cases e : q = proc
  · subst e; exact a4
  · rw [a5 q e]; exact hother q hq' e

/-! ### C10 -/

/-- **C10** (no early wake-up): after `sleep us` at clock `now`, through any history of kernel entries that
are not operations on the thread and that happen before the wake-up time, the thread is never dispatched
on any processor and is still sleeping.

Partial because of two hypotheses the property does not have: the thread still has budget (or has none
to exhaust), and it is not the main thread of a partition that is initialising.  Without them the claim
is false: see `C10_budget_violated` and `C10_init_violated`. -/
theorem C10_sleep_partial {c : Config} {k k1 k2 : Kernel} {proc now us t : Nat} {es : List KEv}
    (hc : CfgOk c) (hr : Reachable c k) (hq : proc < c.nbProcs)
    (hcur : k.curThread proc = t) (ht : t < prefixSum c.nthreads c.nbParts)
    (hother : ∀ q < c.nbProcs, q ≠ proc → k.curThread q ≠ t)
    (hb : (k.T t).remaining > 0 ∨ (k.T t).timeCapacity ≤ 0) (hm : NotInitMain c k t)
    (hus : 0 < us) (hov : us * 1000 + now < U64)
    (hs : exec c proc now k (.sleep us) = some k1)
    (hes : ∀ e ∈ es, e.proc < c.nbProcs ∧ e.now < now + us * 1000)
    (hqu : Quiet c t k1 es) (hrun : execAll c k1 es = some k2) :
    (∀ q < c.nbProcs, k2.curThread q ≠ t) ∧ (k2.T t).state = .waiting ∧ (k2.T t).wakeup = now + us * 1000 := by
  subst hcur
  have hw := hr.wf hc
  have hmod : (us * 1000 + now) % U64 = now + us * 1000 := by rw [Nat.mod_eq_of_lt hov]; omega
  obtain ⟨a1, a2, a3, a4⟩ := blocked_start (k' := k1)
    (u := { k.T (k.curThread proc) with state := .waiting, wakeup := (us * 1000 + now) % U64 })
    hc hq hw ht hm rfl hother hb ⟨rfl, rfl, rfl⟩ (by unfold NotDue; intro _; simp only [hmod]; omega) hs
  have hd : ∀ e ∈ es, NotDue c e.now (k1.T (k.curThread proc)) := by
    intro e he
    unfold NotDue
    rw [a1, a2, hmod]
    intro _
    exact (hes e he).2
  obtain ⟨⟨x, b1⟩, b2⟩ := quiet_run hc ht es k1 k2 (fun e he => (hes e he).1) a4 hd hqu hrun
  refine ⟨b2.cur, ?_, ?_⟩
  · rw [b1]; exact a1
  · rw [b1]; show (k1.T _).wakeup = _; rw [a2, hmod]

/-- **C10** for `sleep_until`. -/
theorem C10_sleep_until_partial {c : Config} {k k1 k2 : Kernel} {proc now us t : Nat} {es : List KEv}
    (hc : CfgOk c) (hr : Reachable c k) (hq : proc < c.nbProcs)
    (hcur : k.curThread proc = t) (ht : t < prefixSum c.nthreads c.nbParts)
    (hother : ∀ q < c.nbProcs, q ≠ proc → k.curThread q ≠ t)
    (hb : (k.T t).remaining > 0 ∨ (k.T t).timeCapacity ≤ 0) (hm : NotInitMain c k t)
    (hfut : now < us * 1000) (hov : us * 1000 < U64)
    (hs : exec c proc now k (.sleepUntil us) = some k1)
    (hes : ∀ e ∈ es, e.proc < c.nbProcs ∧ e.now < us * 1000)
    (hqu : Quiet c t k1 es) (hrun : execAll c k1 es = some k2) :
    (∀ q < c.nbProcs, k2.curThread q ≠ t) ∧ (k2.T t).state = .waiting ∧ (k2.T t).wakeup = us * 1000 := by
  subst hcur
  have hw := hr.wf hc
  have hmod : (us * 1000) % U64 = us * 1000 := Nat.mod_eq_of_lt hov
  obtain ⟨a1, a2, a3, a4⟩ := blocked_start (k' := k1)
    (u := { k.T (k.curThread proc) with state := .waiting, wakeup := (us * 1000) % U64 })
    hc hq hw ht hm rfl hother hb ⟨rfl, rfl, rfl⟩ (by unfold NotDue; intro _; simp only [hmod]; omega) hs
  have hd : ∀ e ∈ es, NotDue c e.now (k1.T (k.curThread proc)) := by
    intro e he
    unfold NotDue
    rw [a1, a2, hmod]
    intro _
    exact (hes e he).2
  obtain ⟨⟨x, b1⟩, b2⟩ := quiet_run hc ht es k1 k2 (fun e he => (hes e he).1) a4 hd hqu hrun
  refine ⟨b2.cur, ?_, ?_⟩
  · rw [b1]; exact a1
  · rw [b1]; show (k1.T _).wakeup = _; rw [a2, hmod]

/-- **C10** (wake-up): an election of the thread's partition on its processor at or after the wake-up time
makes the sleeping thread runnable, if lock objects or ports are compiled in. -/
theorem C10_wakes_partial {c : Config} {k k' : Kernel} {proc now t : Nat} (hc : CfgOk c) (hr : Reachable c k)
    (hwk : c.wakes = true) (hs : (k.T t).state = .waiting) (hdue : (k.T t).wakeup ≤ now)
    (hrange : (k.P k.curPart).low ≤ t ∧ t < (k.P k.curPart).high) (haff : (k.T t).affinity = proc)
    (hcur : k.curThread proc ≠ t) (h : schedThread c proc now k = some k') :
    (k'.T t).state = .runnable := by
  have hw := hr.wf hc
  have hwp := hw.part _ hw.curPart
  obtain ⟨k1, e0, he, hT, _⟩ := sched_parts h
  obtain ⟨x, t', h1, h2⟩ := elect_other he (Ne.symm hcur)
  rw [if_pos (by rw [hwp.nth, ← hwp.high]; exact hrange)] at h2
  rw [hT, h1]
  rcases wakeOne_cases h2 with ⟨_, h, _⟩ | ⟨_, _, _, _, rfl⟩ | ⟨_, h, _⟩
  · exact absurd ⟨haff, hwk, hs, hdue⟩ h
  · rfl
  · rw [hs] at h; simp at h

/-- **C10** is false when neither lock objects nor ports are compiled in: a sleeping thread is never woken,
whatever the clock. -/
theorem C10_no_wakeup_violated {c : Config} {k k' : Kernel} {t : Nat} {es : List KEv} (hc : CfgOk c)
    (hwk : c.wakes = false) (ht : t < prefixSum c.nthreads c.nbParts) (hb : Blocked c k t)
    (hs : (k.T t).state = .waiting) (hes : ∀ e ∈ es, e.proc < c.nbProcs) (hqu : Quiet c t k es)
    (hrun : execAll c k es = some k') :
    (k'.T t).state = .waiting ∧ ∀ q < c.nbProcs, k'.curThread q ≠ t := by
  obtain ⟨⟨x, b1⟩, b2⟩ := quiet_run hc ht es k k' hes hb
    (fun e _ => by unfold NotDue; rw [hs]; intro h; rw [hwk] at h; simp at h) hqu hrun
  exact ⟨by rw [b1]; exact hs, b2.cur⟩

/-! ### C13 -/

/-- **C13**: a thread that blocks without timeout (a lock object or port call, or stopping itself) is not
dispatched through any history of kernel entries that are not operations on it, whatever the clock.

Partial for the same two reasons as C10. -/
theorem C13_blocked_partial {c : Config} {k k1 k2 : Kernel} {proc now t : Nat} {es : List KEv} {call : KCall}
    (hc : CfgOk c) (hr : Reachable c k) (hq : proc < c.nbProcs)
    (hcall : call = .block ∨ call = .stopSelf)
    (hcur : k.curThread proc = t) (ht : t < prefixSum c.nthreads c.nbParts)
    (hother : ∀ q < c.nbProcs, q ≠ proc → k.curThread q ≠ t)
    (hb : (k.T t).remaining > 0 ∨ (k.T t).timeCapacity ≤ 0) (hm : NotInitMain c k t)
    (hs : exec c proc now k call = some k1)
    (hes : ∀ e ∈ es, e.proc < c.nbProcs) (hqu : Quiet c t k1 es) (hrun : execAll c k1 es = some k2) :
    (∀ q < c.nbProcs, k2.curThread q ≠ t) ∧ (k2.T t).state = (if call = .block then .lock else .stopped) := by
  subst hcur
  have hw := hr.wf hc
  have key : ∀ st : TState, (st = .lock ∨ st = .stopped) →
      schedThread c proc now (k.setT (k.curThread proc) { k.T (k.curThread proc) with state := st }) = some k1 →
      (∀ q < c.nbProcs, k2.curThread q ≠ k.curThread proc) ∧ (k2.T (k.curThread proc)).state = st := by
    intro st hst hs
    obtain ⟨a1, a2, a3, a4⟩ := blocked_start (k' := k1) (u := { k.T (k.curThread proc) with state := st })
      hc hq hw ht hm rfl hother hb ⟨rfl, rfl, rfl⟩
      (by unfold NotDue; rcases hst with rfl | rfl <;> trivial) hs
    have hd : ∀ e ∈ es, NotDue c e.now (k1.T (k.curThread proc)) := by
      intro e _
      unfold NotDue
      rw [a1]
      rcases hst with rfl | rfl <;> trivial
    obtain ⟨⟨x, b1⟩, b2⟩ := quiet_run hc ht es k1 k2 hes a4 hd hqu hrun
    exact ⟨b2.cur, by rw [b1]; exact a1⟩
  rcases hcall with rfl | rfl
  · exact key .lock (Or.inl rfl) hs
  · exact key .stopped (Or.inr rfl) hs

/-- **C13** for a thread that another thread stopped, or that already is blocked: any history. -/
theorem C13_stays {c : Config} {k k' : Kernel} {t : Nat} {es : List KEv} (hc : CfgOk c) (hr : Reachable c k)
    (ht : t < prefixSum c.nthreads c.nbParts) (hcur : ∀ q < c.nbProcs, k.curThread q ≠ t)
    (hm : NotInitMain c k t) (hs : (k.T t).state = .lock ∨ (k.T t).state = .stopped ∨ (k.T t).state = .delayedStart)
    (hes : ∀ e ∈ es, e.proc < c.nbProcs) (hqu : Quiet c t k es) (hrun : execAll c k es = some k') :
    (∀ q < c.nbProcs, k'.curThread q ≠ t) ∧ (k'.T t).state = (k.T t).state := by
  obtain ⟨⟨x, b1⟩, b2⟩ := quiet_run hc ht es k k' hes ⟨hr.wf hc, hcur, hm⟩
    (fun e _ => by unfold NotDue; rcases hs with h | h | h <;> rw [h] <;> trivial) hqu hrun
  exact ⟨b2.cur, by rw [b1]⟩

/-! ### C11 -/

/-- **C11** (release): a thread that waits for its next activation is made runnable by the first election
of its partition on its processor at or after that time, with a full budget, and its next activation
moves by exactly its period.

Partial: the thread is not the one running at that election (it waits, so normally it is not).  If it
ends its period at or after its next activation, that same election releases it and charges it one unit:
`C11_fresh_budget_violated`. -/
theorem C11_release_partial {c : Config} {k k' : Kernel} {proc now t : Nat} (hc : CfgOk c) (hr : Reachable c k)
    (hs : (k.T t).state = .waitNextActivation) (hdue : (k.T t).nextActivation ≤ now)
    (hrange : (k.P k.curPart).low ≤ t ∧ t < (k.P k.curPart).high) (haff : (k.T t).affinity = proc)
    (hcur : k.curThread proc ≠ t) (h : schedThread c proc now k = some k') :
    (k'.T t).state = .runnable ∧ (k'.T t).remaining = (k'.T t).timeCapacity ∧
    (k'.T t).timeCapacity = (k.T t).timeCapacity ∧
    ((0 ≤ (k.T t).period ∧ (k.T t).nextActivation + (k.T t).period < (U64 : Nat)) →
      ((k'.T t).nextActivation : Int) = (k.T t).nextActivation + (k.T t).period) := by
  have hw := hr.wf hc
  have hwp := hw.part _ hw.curPart
  obtain ⟨k1, e0, he, hT, _⟩ := sched_parts h
  obtain ⟨x, t', h1, h2⟩ := elect_other he (Ne.symm hcur)
  rw [if_pos (by rw [hwp.nth, ← hwp.high]; exact hrange)] at h2
  rw [hT, h1]
  rcases wakeOne_cases h2 with ⟨_, _, h⟩ | ⟨_, _, h, _⟩ | ⟨_, _, _, _, rfl⟩
  · exact absurd ⟨haff, hs, hdue⟩ h
  · rw [hs] at h; simp at h
  · refine ⟨rfl, rfl, rfl, ?_⟩
    intro hp
    show ((addU64 (k.T t).nextActivation (k.T t).period : Nat) : Int) = _
    unfold addU64
    rw [Int.emod_eq_of_lt (by omega) hp.2, Int.toNat_of_nonneg (by omega)]

/-- **C11** (not before): until its next activation the waiting thread is not dispatched, through any
history that is not an operation on it. -/
theorem C11_not_before {c : Config} {k k' : Kernel} {t : Nat} {es : List KEv} (hc : CfgOk c) (hr : Reachable c k)
    (ht : t < prefixSum c.nthreads c.nbParts) (hcur : ∀ q < c.nbProcs, k.curThread q ≠ t)
    (hm : NotInitMain c k t) (hs : (k.T t).state = .waitNextActivation)
    (hes : ∀ e ∈ es, e.proc < c.nbProcs ∧ e.now < (k.T t).nextActivation)
    (hqu : Quiet c t k es) (hrun : execAll c k es = some k') :
    (∀ q < c.nbProcs, k'.curThread q ≠ t) ∧ (k'.T t).state = .waitNextActivation ∧
    (k'.T t).nextActivation = (k.T t).nextActivation := by
  obtain ⟨⟨x, b1⟩, b2⟩ := quiet_run hc ht es k k' (fun e he => (hes e he).1) ⟨hr.wf hc, hcur, hm⟩
    (fun e he => by unfold NotDue; rw [hs]; exact (hes e he).2) hqu hrun
  exact ⟨b2.cur, by rw [b1]; exact hs, by rw [b1]⟩

/-- The kernel entry does not set the activation times of thread `t`: it is not a delayed start of `t`, nor
a creation, error or mode change of the partition of `t`. -/
def KeepsRhythm (t : Nat) (k : Kernel) (call : KCall) : Prop :=
  match call with
  | .create _ | .errorCreate _ _ | .setMode _ => ¬ ((k.P k.curPart).low ≤ t ∧ t < (k.P k.curPart).high)
  | .raiseError => (k.P k.curPart).threadError ≠ t
  | .delayedStart id _ => id ≠ t
  | _ => True

/-- A history of such entries. -/
def Steady (c : Config) (t : Nat) : Kernel → List KEv → Prop
  | _, [] => True
  | k, e :: es => KeepsRhythm t k e.call ∧ ∀ k', exec c e.proc e.now k e.call = some k' → Steady c t k' es

theorem pre_rhythm {c proc now k call k1 t} (hw : Wf c k) (hc : CfgOk c) (h : PreStep c proc now k call k1)
    (hu : KeepsRhythm t k call) :
    (k1.T t).nextActivation = (k.T t).nextActivation ∧ (k1.T t).period = (k.T t).period ∧
    (k1.T t).timeCapacity = (k.T t).timeCapacity := by
  have fin : Untouched t proc k call → (k1.T t).nextActivation = (k.T t).nextActivation ∧
      (k1.T t).period = (k.T t).period ∧ (k1.T t).timeCapacity = (k.T t).timeCapacity :=
    fun hx => by rw [(pre_untouched hw hc h hx).1]; exact ⟨rfl, rfl, rfl⟩
  cases h with
  | same => exact ⟨rfl, rfl, rfl⟩
  | thread call i u ht hk hrr =>
    by_cases e : t = i
    · subst e
      show (upd k.T t u t).nextActivation = _ ∧ (upd k.T t u t).period = _ ∧ (upd k.T t u t).timeCapacity = _
      rw [upd_same]
      refine ⟨?_, hk.2.2.2.2.2.1, hk.2.1⟩
      rcases hk.2.2.2.2.2.2.2.1 with h | ⟨id, us, rfl⟩
      · exact h
      · simp only [target, Option.some.injEq] at ht
        exact absurd ht hu
    · show (upd k.T i u t).nextActivation = _ ∧ (upd k.T i u t).period = _ ∧ (upd k.T i u t).timeCapacity = _
      rw [upd_other _ _ e]; exact ⟨rfl, rfl, rfl⟩
  | create a k1 id h => exact fin hu
  | normal hm hi => exact fin hu
  | stop he h0 => exact fin hu
  | init m k1 hm hwm he h0 h => exact fin hu
  | errorCreate entry junk k1 id h => exact fin hu
  | raise => exact fin hu

/-- What an election does to the activation times of a thread. -/
theorem sched_rhythm {c proc now k k' t} (h : schedThread c proc now k = some k') :
    (k'.T t).period = (k.T t).period ∧ (k'.T t).timeCapacity = (k.T t).timeCapacity ∧
    ((k'.T t).nextActivation = (k.T t).nextActivation ∨
     ((k.T t).nextActivation ≤ now ∧
      (k'.T t).nextActivation = addU64 (k.T t).nextActivation (k.T t).period ∧
      (k'.T t).state = .runnable ∧
      ((k'.T t).remaining = (k'.T t).timeCapacity ∨ (k'.T t).remaining = (k'.T t).timeCapacity - 1))) := by
  have hst : SameStatic (k.T t) (k'.T t) := by
    obtain ⟨k1, e, he, hT, _⟩ := sched_parts h
    rw [hT]; exact elect_static he t
  by_cases hcur : t = k.curThread proc
  · obtain ⟨x, t1, h1, h2⟩ := sched_self h
    rw [← hcur] at h1 h2
    have h1' : wakeOne c proc now (k.T t) = some t1 ∨ t1 = k.T t := by
      split at h1
      · exact Or.inl h1
      · exact Or.inr h1
    rcases h1' with h1' | rfl
    · rcases wakeOne_cases h1' with ⟨rfl, _⟩ | ⟨_, _, _, _, rfl⟩ | ⟨_, _, h5, h6, rfl⟩
      · rcases h2 with h2 | ⟨_, h2⟩ | ⟨_, _, h2⟩ <;> rw [h2] <;> exact ⟨rfl, rfl, Or.inl rfl⟩
      · rcases h2 with h2 | ⟨_, h2⟩ | ⟨_, _, h2⟩ <;> rw [h2] <;> exact ⟨rfl, rfl, Or.inl rfl⟩
      · rcases h2 with h2 | ⟨_, h2⟩ | ⟨h7, h8, h2⟩
        · rw [h2]; exact ⟨rfl, rfl, Or.inr ⟨h5, rfl, rfl, Or.inl rfl⟩⟩
        · rw [h2]; exact ⟨rfl, rfl, Or.inr ⟨h5, rfl, rfl, Or.inr rfl⟩⟩
        · simp only at h7 h8; omega
    · rcases h2 with h2 | ⟨_, h2⟩ | ⟨_, _, h2⟩ <;> rw [h2] <;> exact ⟨rfl, rfl, Or.inl rfl⟩
  · obtain ⟨k1, e0, he, hT, _⟩ := sched_parts h
    obtain ⟨x, t', h1, h2⟩ := elect_other he hcur
    rw [hT, h1]
    have h1' : wakeOne c proc now (k.T t) = some t' ∨ t' = k.T t := by
      split at h2
      · exact Or.inl h2
      · exact Or.inr h2
    rcases h1' with h1' | rfl
    · rcases wakeOne_cases h1' with ⟨rfl, _⟩ | ⟨_, _, _, _, rfl⟩ | ⟨_, _, h5, h6, rfl⟩
      · exact ⟨rfl, rfl, Or.inl rfl⟩
      · exact ⟨rfl, rfl, Or.inl rfl⟩
      · exact ⟨rfl, rfl, Or.inr ⟨h5, rfl, rfl, Or.inl rfl⟩⟩
    · exact ⟨rfl, rfl, Or.inl rfl⟩

/-- **C11** (each entry): a kernel entry leaves the next activation of a thread alone, or it releases the
thread: then the activation time has been reached, the thread is runnable with its full budget (less the
unit the election itself charges), and the next activation is one period later. -/
theorem C11_step {c : Config} {k k' : Kernel} {proc now t : Nat} {call : KCall} (hc : CfgOk c) (hw : Wf c k)
    (hu : KeepsRhythm t k call) (h : exec c proc now k call = some k') :
    (k'.T t).period = (k.T t).period ∧ (k'.T t).timeCapacity = (k.T t).timeCapacity ∧
    ((k'.T t).nextActivation = (k.T t).nextActivation ∨
     ((k.T t).nextActivation ≤ now ∧
      (k'.T t).nextActivation = addU64 (k.T t).nextActivation (k.T t).period ∧
      (k'.T t).state = .runnable ∧
      ((k'.T t).remaining = (k'.T t).timeCapacity ∨ (k'.T t).remaining = (k'.T t).timeCapacity - 1))) := by
  obtain ⟨k1, h1, h2⟩ := exec_cases h
  obtain ⟨a1, a2, a3⟩ := pre_rhythm hw hc h1 hu
  rw [← a1, ← a2, ← a3]
  rcases h2 with rfl | h2 | h2
  · exact ⟨rfl, rfl, Or.inl rfl⟩
  · exact sched_rhythm h2
  · exact sched_rhythm (k := switchPartition c now k1) h2

/-- Number of releases of thread `t` in a history: the entries at which its next activation moves. -/
def releases (c : Config) (t : Nat) : Kernel → List KEv → Nat
  | _, [] => 0
  | k, e :: es =>
    match exec c e.proc e.now k e.call with
    | none => 0
    | some k' => (if (k'.T t).nextActivation = (k.T t).nextActivation then 0 else 1) + releases c t k' es

/-- **C11** (no drift): over any history, however late the elections, the next activation is the first one
plus the number of releases times the period. -/
theorem C11_no_drift {c : Config} {t : Nat} (hc : CfgOk c) (es : List KEv) : ∀ {k k' : Kernel}, Wf c k →
    (∀ e ∈ es, e.proc < c.nbProcs) → Steady c t k es → execAll c k es = some k' →
    (k.T t).nextActivation < U64 →
    (k'.T t).period = (k.T t).period ∧
    ((k'.T t).nextActivation : Int) =
      ((k.T t).nextActivation + releases c t k es * (k.T t).period) % (U64 : Int) := by
  induction es with
  | nil =>
    intro k k' _ _ _ h hlt
    simp [execAll] at h; subst h
    refine ⟨rfl, ?_⟩
    simp only [releases]
    rw [show ((0 : Nat) : Int) * (k.T t).period = 0 by simp, Int.add_zero, Int.emod_eq_of_lt (by omega) (by omega)]
  | cons e es ih =>
    intro k k' hw hq hs h hlt
    unfold execAll at h
    split at h
    · simp at h
    · rename_i k1 h1
      obtain ⟨p1, _, p2⟩ := C11_step hc hw hs.1 h1
      have hU : (0 : Int) < (U64 : Int) := by decide
      have hlt1 : (k1.T t).nextActivation < U64 := by
        rcases p2 with p2 | ⟨_, p2, _⟩
        · omega
        · rw [p2]; unfold addU64
          have := Int.emod_lt_of_pos ((k.T t).nextActivation + (k.T t).period : Int) hU
          have := Int.emod_nonneg ((k.T t).nextActivation + (k.T t).period : Int) (Int.ne_of_gt hU)
          omega
      obtain ⟨q1, q2⟩ := ih (wf_exec hc (hq e (by simp)) hw h1) (fun e' he' => hq e' (by simp [he']))
        (hs.2 k1 h1) h hlt1
      refine ⟨q1.trans p1, ?_⟩
      rw [q2, p1]
      simp only [releases, h1]
      rcases p2 with p2 | ⟨_, p2, _⟩
      · rw [if_pos p2, p2]; simp
      · by_cases heq : (k1.T t).nextActivation = (k.T t).nextActivation
        · rw [if_pos heq, heq]; simp
        · rw [if_neg heq, p2]
          unfold addU64
          rw [Int.toNat_of_nonneg (Int.emod_nonneg _ (Int.ne_of_gt hU))]
          rw [Int.emod_add_emod, Int.natCast_add, Int.add_mul]
          congr 1
          generalize (releases c t k1 es : Int) * (k.T t).period = y
          omega

/-! ### C12 -/

/-- The entries are elections of partition `p` on processor `proc`, and at each of them `t` is running. -/
def RunsAt (c : Config) (proc p t : Nat) : Kernel → List KEv → Prop
  | _, [] => True
  | k, e :: es => e.proc = proc ∧ (e.call = .tick ∨ e.call = .resched) ∧ k.curThread proc = t ∧
      ∀ k', exec c e.proc e.now k e.call = some k' → k'.curPart = p ∧ RunsAt c proc p t k' es

/-- One election of the partition at which `t` is running: it is charged one unit, or forced to wait for
its next activation and replaced. -/
theorem C12_charge {c : Config} {k k' : Kernel} {proc now t p : Nat} (hc : CfgOk c) (hw : Wf c k)
    (hq : proc < c.nbProcs) (hp : k.curPart = p) (hm : (k.P p).mode = .normal)
    (ht : (k.P p).low ≤ t ∧ t < (k.P p).high) (hmain : t ≠ (k.P p).threadMain) (herr : t ≠ (k.P p).threadError)
    (hcur : k.curThread proc = t) (hpc : (k.P p).cur proc = t) (hr : (k.T t).state = .runnable)
    (hcap : (k.T t).timeCapacity > 0) (h : schedThread c proc now k = some k') :
    ((k.T t).remaining > 0 → (k'.T t).remaining = (k.T t).remaining - 1 ∧ (k'.T t).state = .runnable) ∧
    ((k.T t).remaining ≤ 0 → (k'.T t).state = .waitNextActivation ∧ k'.curThread proc ≠ t) := by
  subst hp
  have hwp := hw.part _ hw.curPart
  have hid := idle_not_in_range hc hw.curPart hwp hq
  have ha : Accounted c proc k := by
    unfold Accounted
    rw [hcur]
    exact ⟨by omega, hmain, herr⟩
  obtain ⟨x, hx⟩ := sched_charged hm ha (by rw [hpc]; exact herr) (by rw [hcur]; exact hr) h
  rw [hcur] at hx
  constructor
  · intro h0
    rw [if_pos h0] at hx
    rw [hx]
    exact ⟨rfl, hr⟩
  · intro h0
    rw [if_neg (by omega), if_pos hcap] at hx
    refine ⟨by rw [hx], ?_⟩
    intro he
    rcases normal_outcome hc hq hw hm h with ⟨h1, _⟩ | ⟨T2, h1, h2, h3 | h3⟩ | ⟨h1, h2, _⟩
    · exact herr (hpc ▸ h1)
    · have h3' := (eligible_endTime h1 proc _ _ _).2 h3
      have := h3'.2.1
      rw [he, hx] at this
      simp at this
    · have := h3.1; omega
    · exact herr (hpc ▸ h1)

/-- Elections change no mode, range, main thread or error handler; the elected thread is recorded. -/
theorem sched_part {c proc now k k'} (h : schedThread c proc now k = some k') (p : Nat) :
    (k'.P p).mode = (k.P p).mode ∧ (k'.P p).low = (k.P p).low ∧ (k'.P p).high = (k.P p).high ∧
    (k'.P p).threadMain = (k.P p).threadMain ∧ (k'.P p).threadError = (k.P p).threadError ∧
    (k'.P k.curPart).cur proc = k'.curThread proc ∧ k'.curPart = k.curPart := by
  obtain ⟨k1, e0, he, hT, hps, hcur', hP, _⟩ := sched_parts h
  obtain ⟨p1, p2, p3, _⟩ := elect_P he
  obtain ⟨r1, _, _, r4, _⟩ := record_P c proc k1 (e0 % 256) p
  have hcp : k1.curPart = k.curPart := by unfold curPart; rw [p3]
  rw [hcp] at r4
  rw [p1] at r1
  rw [hP, r1, r4, hcur', upd_same]
  exact ⟨rfl, rfl, rfl, rfl, rfl, rfl, by unfold curPart; rw [hps]⟩

/-- **C12**, in terms of the budget left: a thread with a finite capacity is running at no more than
`remaining + 1` consecutive elections of its partition. -/
theorem C12_remaining {c : Config} {proc p t : Nat} (hc : CfgOk c) (hq : proc < c.nbProcs) (es : List KEv) :
    ∀ {k k' : Kernel}, Wf c k → (k.P p).mode = .normal →
    (k.P p).low ≤ t ∧ t < (k.P p).high → t ≠ (k.P p).threadMain → t ≠ (k.P p).threadError →
    (k.P p).cur proc = t → (k.T t).state = .runnable → (k.T t).timeCapacity > 0 →
    RunsAt c proc p t k es → execAll c k es = some k' → es.length ≤ (k.T t).remaining.toNat + 1 := by
  induction es with
  | nil => intros; simp
  | cons e es ih =>
    intro k k' hw hm ht hmain herr hpc hr hcap hrun h
    obtain ⟨r1, r2, r3, r4⟩ := hrun
    unfold execAll at h
    split at h
    · simp at h
    · rename_i k1 h1
      obtain ⟨r5, r6⟩ := r4 k1 h1
      have key : ∀ k0, Wf c k0 → k0.T = k.T → k0.P = k.P → k0.curThread = k.curThread →
          schedThread c proc e.now k0 = some k1 → es.length + 1 ≤ (k.T t).remaining.toNat + 1 := by
        intro k0 hw0 eT eP eC hs
        obtain ⟨s1, s2, s3, s4, s5, s6, s7⟩ := sched_part hs p
        have hp0 : k0.curPart = p := by rw [← s7]; exact r5
        have hst : SameStatic (k0.T t) (k1.T t) := by
          obtain ⟨k2, e2, he2, hT2, _⟩ := sched_parts hs
          rw [hT2]; exact elect_static he2 t
        obtain ⟨c1, c2⟩ := C12_charge (now := e.now) hc hw0 hq hp0 (by rw [eP]; exact hm) (by rw [eP]; exact ht)
          (by rw [eP]; exact hmain) (by rw [eP]; exact herr) (by rw [eC]; exact r3) (by rw [eP]; exact hpc)
          (by rw [eT]; exact hr) (by rw [eT]; exact hcap) hs
        rw [eT] at c1 c2
        by_cases h0 : (k.T t).remaining > 0
        · obtain ⟨d1, d2⟩ := c1 h0
          cases es with
          | nil => simp
          | cons e' es' =>
            have hc1 : k1.curThread proc = t := r6.2.2.1
            have := ih (k := k1) (k' := k') (wf_sched hc hq hw0 hs) (by rw [s1, eP]; exact hm)
              (by rw [s2, s3, eP]; exact ht) (by rw [s4, eP]; exact hmain) (by rw [s5, eP]; exact herr)
              (by rw [hp0] at s6; rw [s6]; exact hc1) d2
              (by have := (sched_rhythm (t := t) hs).2.1; rw [this, eT]; exact hcap) r6 h
            omega
        · obtain ⟨d1, d2⟩ := c2 (by omega)
          cases es with
          | nil => simp
          | cons e' es' => exact absurd r6.2.2.1 d2
      rw [List.length_cons]
      rcases r2 with r2 | r2
      · rw [r2, r1] at h1
        exact key (switchPartition c e.now k) (wf_switch hc hw) rfl rfl rfl h1
      · rw [r2, r1] at h1
        exact key k hw rfl rfl rfl h1

/-- **C12** (infinite capacity): elections never stop a runnable thread whose capacity is infinite. -/
theorem C12_infinite {c : Config} {t : Nat} (es : List KEv) : ∀ {k k' : Kernel},
    (∀ e ∈ es, e.call = .tick ∨ e.call = .resched) →
    (k.T t).state = .runnable → (k.T t).timeCapacity ≤ 0 → execAll c k es = some k' →
    (k'.T t).state = .runnable := by
  induction es with
  | nil => intro k k' _ hr _ h; simp [execAll] at h; subst h; exact hr
  | cons e es ih =>
    intro k k' hall hr hcap h
    unfold execAll at h
    split at h
    · simp at h
    · rename_i k1 h1
      have key : ∀ k0, k0.T = k.T → schedThread c e.proc e.now k0 = some k1 →
          (k1.T t).state = .runnable ∧ (k1.T t).timeCapacity ≤ 0 := by
        intro k0 eT hs
        refine ⟨?_, by rw [(sched_rhythm (t := t) hs).2.1, eT]; exact hcap⟩
        by_cases hcur : t = k0.curThread e.proc
        · obtain ⟨x, t1, a1, a2⟩ := sched_self hs
          rw [← hcur] at a1 a2
          have ht1 : t1 = k.T t := by
            rw [eT] at a1
            split at a1
            · rcases wakeOne_cases a1 with ⟨h, _⟩ | ⟨_, _, h, _⟩ | ⟨_, h, _⟩
              · exact h
              · rw [hr] at h; simp at h
              · rw [hr] at h; simp at h
            · exact a1
          subst ht1
          rcases a2 with a2 | ⟨_, a2⟩ | ⟨_, a2, _⟩
          · rw [a2]; exact hr
          · rw [a2]; exact hr
          · omega
        · obtain ⟨k2, e0, he, hT, _⟩ := sched_parts hs
          obtain ⟨x, t', b1, b2⟩ := elect_other he hcur
          have ht1 : t' = k.T t := by
            rw [eT] at b2
            split at b2
            · rcases wakeOne_cases b2 with ⟨h, _⟩ | ⟨_, _, h, _⟩ | ⟨_, h, _⟩
              · exact h
              · rw [hr] at h; simp at h
              · rw [hr] at h; simp at h
            · exact b2
          rw [hT, b1, ht1]; exact hr
      have hk : (k1.T t).state = .runnable ∧ (k1.T t).timeCapacity ≤ 0 := by
        rcases hall e (by simp) with he | he
        · rw [he] at h1; exact key (switchPartition c e.now k) rfl h1
        · rw [he] at h1; exact key k rfl h1
      exact ih (fun e' he' => hall e' (by simp [he'])) hk.1 hk.2 h

/-! ### The budget left never exceeds the capacity -/

/-- Budgets: no thread has more left than its capacity; the error handlers have capacity 10000. -/
structure BudgetOk (c : Config) (k : Kernel) : Prop where
  bud : ∀ t < prefixSum c.nthreads c.nbParts, (k.T t).timeCapacity > 0 → (k.T t).remaining ≤ (k.T t).timeCapacity
  err : ∀ p < c.nbParts, (k.P p).threadError ≠ 0 → (k.T (k.P p).threadError).timeCapacity = 10000 ∧
    (k.P p).threadError < (k.P p).low + (k.P p).index

theorem newThread_budget (t : Thread) (a pid aff stack) :
    (newThread t a pid aff stack).remaining = (newThread t a pid aff stack).timeCapacity := by
  unfold newThread
  by_cases h1 : a.period % U64 > 0 <;> by_cases h2 : a.deadline % U64 > 0 <;>
    by_cases h3 : a.timeCapacity % U64 > 0 <;> simp only [h1, h2, h3, if_true, if_false]

theorem newThread_capacity (t : Thread) (a pid aff stack) (h : a.timeCapacity = 10000) :
    (newThread t a pid aff stack).timeCapacity = 10000 := by
  unfold newThread
  have h3 : a.timeCapacity % U64 > 0 := by rw [h]; decide
  have h4 : toI64 a.timeCapacity = 10000 := by rw [h]; decide
  by_cases h1 : a.period % U64 > 0 <;> by_cases h2 : a.deadline % U64 > 0 <;>
    simp only [h1, h2, h3, h4, if_true, if_false]

theorem release_budget (c now act t) :
    (release c now act t).remaining = t.remaining ∧ (release c now act t).timeCapacity = t.timeCapacity := by
  unfold release
  simp only
  repeat' split
  all_goals exact ⟨rfl, rfl⟩

/-- Without the rate monotonic policy a creation writes one entry of the table. -/
theorem created_table {c k a pid aff} (hs : (k.P pid).sched ≠ .rms) :
    (created c k a pid aff).T = upd k.T ((k.P pid).low + (k.P pid).index)
      (newThread (k.T ((k.P pid).low + (k.P pid).index)) a pid aff (c.stackAddr pid ((k.P pid).index + 1))) := by
  unfold created
  simp only
  rw [if_neg (fun h => hs h.1)]

theorem budget_created {c k a pid aff} (hc : CfgOk c) (hw : Wf c k) (hp : pid < c.nbParts)
    (hs : c.policy pid ≠ .rms) (hlt : (k.P pid).low + (k.P pid).index < (k.P pid).high) (hb : BudgetOk c k) :
    BudgetOk c (created c k a pid aff) := by
  have w := hw.part pid hp
  have hT := created_table (c := c) (k := k) (a := a) (pid := pid) (aff := aff) (by rw [w.sched]; exact hs)
  constructor
  · intro t ht
    rw [hT]
    by_cases e : t = (k.P pid).low + (k.P pid).index
    · rw [e, upd_same]; intro _; rw [newThread_budget]; exact Int.le_refl _
    · rw [upd_other _ _ e]; exact hb.bud t ht
  · intro p hp'
    have wp := hw.part p hp'
    have hP : ((created c k a pid aff).P p).threadError = (k.P p).threadError ∧
        ((created c k a pid aff).P p).low = (k.P p).low ∧
        (k.P p).index ≤ ((created c k a pid aff).P p).index := by
      by_cases e : p = pid
      · subst e; simp [created]
      · simp [created, upd_other _ _ e]
    rw [hP.1, hP.2.1]
    intro h0
    obtain ⟨e1, e2⟩ := hb.err p hp' h0
    refine ⟨?_, by omega⟩
    rw [hT, upd_other]
    · exact e1
    · intro he
      by_cases e : p = pid
      · subst e; omega
      · rcases wp.err with h | h
        · exact h0 h
        · have l1 := w.low; have l2 := w.high; have l3 := wp.low; have l4 := wp.high
          rcases Nat.lt_or_ge p pid with h' | h'
          · have := prefixSum_mono c.nthreads (a := p + 1) (b := pid) h'
            simp only [prefixSum] at this
            omega
          · have := prefixSum_mono c.nthreads (a := pid + 1) (b := p) (by omega)
            simp only [prefixSum] at this
            omega

theorem budget_activate {c proc k} (hw : Wf c k) (hb : BudgetOk c k) : BudgetOk c (activateError proc k) := by
  unfold activateError
  simp only
  split
  · rename_i h0
    obtain ⟨e1, e2⟩ := hb.err _ hw.curPart h0
    constructor
    · intro t ht
      show (upd k.T _ _ t).timeCapacity > 0 → (upd k.T _ _ t).remaining ≤ (upd k.T _ _ t).timeCapacity
      by_cases e : t = (k.P k.curPart).threadError
      · rw [e, upd_same]; simp only; intro _; rw [e1]; decide
      · rw [upd_other _ _ e]; exact hb.bud t ht
    · intro p hp h
      obtain ⟨f1, f2⟩ := hb.err p hp h
      refine ⟨?_, f2⟩
      show (upd k.T _ _ (k.P p).threadError).timeCapacity = 10000
      by_cases e : (k.P p).threadError = (k.P k.curPart).threadError
      · rw [e, upd_same]; exact e1
      · rw [upd_other _ _ e]; exact f1
  · exact hb

theorem budget_pre {c proc now k call k1} (hc : CfgOk c) (hpol : ∀ p < c.nbParts, c.policy p ≠ .rms) (hw : Wf c k)
    (hb : BudgetOk c k) (h : PreStep c proc now k call k1) : BudgetOk c k1 := by
  have w := hw.part _ hw.curPart
  cases h with
  | same => exact hb
  | thread call i u ht hk hrr =>
    have hcap := hk.2.1
    have hrem := hk.2.2.2.2.2.2.2.2
    constructor
    · intro t ht'
      show (upd k.T i u t).timeCapacity > 0 → (upd k.T i u t).remaining ≤ (upd k.T i u t).timeCapacity
      by_cases e : t = i
      · subst e; rw [upd_same, hcap]
        intro h0
        have := hb.bud t ht' h0
        rcases hrem with h | h | h <;> omega
      · rw [upd_other _ _ e]; exact hb.bud t ht'
    · intro p hp h0
      obtain ⟨e1, e2⟩ := hb.err p hp h0
      refine ⟨?_, e2⟩
      show (upd k.T i u (k.P p).threadError).timeCapacity = 10000
      by_cases e : (k.P p).threadError = i
      · rw [e, upd_same, hcap, ← e]; exact e1
      · rw [upd_other _ _ e]; exact e1
  | create a k1 id h =>
    obtain ⟨hid, hlt, _, aff, _, hmu, rfl⟩ := create_ok h
    exact budget_created hc hw hw.curPart (hpol _ hw.curPart) (hid ▸ hlt) hb
  | normal hm hi =>
    have key : ∀ j, ((releaseLoop c now (k.P k.curPart).activation k.T (k.P k.curPart).low
            (k.P k.curPart).nthreads).setState (k.P k.curPart).threadMain .stopped j).remaining = (k.T j).remaining ∧
        ((releaseLoop c now (k.P k.curPart).activation k.T (k.P k.curPart).low
            (k.P k.curPart).nthreads).setState (k.P k.curPart).threadMain .stopped j).timeCapacity
          = (k.T j).timeCapacity := by
      intro j
      have hl : ∀ j, (releaseLoop c now (k.P k.curPart).activation k.T (k.P k.curPart).low
            (k.P k.curPart).nthreads j).remaining = (k.T j).remaining ∧
          (releaseLoop c now (k.P k.curPart).activation k.T (k.P k.curPart).low
            (k.P k.curPart).nthreads j).timeCapacity = (k.T j).timeCapacity := by
        intro j
        rw [releaseLoop_spec]
        split
        · exact release_budget _ _ _ _
        · exact ⟨rfl, rfl⟩
      unfold Threads.setState
      by_cases e : j = (k.P k.curPart).threadMain
      · subst e; rw [upd_same]; exact hl _
      · rw [upd_other _ _ e]; exact hl _
    constructor
    · intro t ht
      show (Threads.setState _ _ _ t).timeCapacity > 0 → (Threads.setState _ _ _ t).remaining ≤ (Threads.setState _ _ _ t).timeCapacity
      rw [(key t).1, (key t).2]
      exact hb.bud t ht
    · intro p hp
      have hP : (upd k.P k.curPart { k.P k.curPart with mode := .normal } p).threadError = (k.P p).threadError ∧
          (upd k.P k.curPart { k.P k.curPart with mode := .normal } p).low = (k.P p).low ∧
          (upd k.P k.curPart { k.P k.curPart with mode := .normal } p).index = (k.P p).index := by
        by_cases e : p = k.curPart
        · subst e; simp
        · simp [upd_other _ _ e]
      show (upd k.P k.curPart _ p).threadError ≠ 0 → (Threads.setState _ _ _ (upd k.P k.curPart _ p).threadError).timeCapacity = 10000 ∧
        (upd k.P k.curPart _ p).threadError < (upd k.P k.curPart _ p).low + (upd k.P k.curPart _ p).index
      rw [hP.1, hP.2.1, hP.2.2, (key _).2]
      exact hb.err p hp
  | stop he h0 =>
    refine ⟨hb.bud, ?_⟩
    intro p hp
    have hP : (upd k.P k.curPart { k.P k.curPart with mode := .stopped } p).threadError = (k.P p).threadError ∧
          (upd k.P k.curPart { k.P k.curPart with mode := .stopped } p).low = (k.P p).low ∧
          (upd k.P k.curPart { k.P k.curPart with mode := .stopped } p).index = (k.P p).index := by
        by_cases e : p = k.curPart
        · subst e; simp
        · simp [upd_other _ _ e]
    show (upd k.P k.curPart _ p).threadError ≠ 0 → (k.T (upd k.P k.curPart _ p).threadError).timeCapacity = 10000 ∧
        (upd k.P k.curPart _ p).threadError < (upd k.P k.curPart _ p).low + (upd k.P k.curPart _ p).index
    rw [hP.1, hP.2.1, hP.2.2]
    exact hb.err p hp
  | init m k1 hm hwm he h0 h =>
    unfold reinit at h
    obtain ⟨k2, id, a, hcr, _, _, _, _, _, _, rfl⟩ := setup_parts h
    obtain ⟨hid, hlt, _, aff, _, hmu, rfl⟩ := create_ok hcr
    generalize hk0 : (k.setP k.curPart { k.P k.curPart with mode := m }).setP k.curPart
      (resetPart c proc k.curPart ((k.setP k.curPart { k.P k.curPart with mode := m }).P k.curPart)) = k0 at *
    have hP0 : k0.P k.curPart = resetPart c proc k.curPart { k.P k.curPart with mode := m } := by
      rw [← hk0]; simp [setP]
    have hPo : ∀ p, p ≠ k.curPart → k0.P p = k.P p := by
      intro p hp; rw [← hk0]; simp [setP, upd_other _ _ hp]
    have hT0 : k0.T = k.T := by rw [← hk0]; rfl
    have hps0 : k0.curPart = k.curPart := by rw [← hk0]; rfl
    have hb0 : BudgetOk c k0 := by
      refine ⟨by rw [hT0]; exact hb.bud, ?_⟩
      intro p hp h1
      by_cases e : p = k.curPart
      · subst e; rw [hP0] at h1; exact absurd rfl h1
      · rw [hPo p e] at h1 ⊢; rw [hT0]; exact hb.err p hp h1
    have hT1 := created_table (c := c) (k := k0) (a := a) (pid := k.curPart) (aff := aff)
      (by rw [hP0]; exact hpol _ hw.curPart)
    constructor
    · intro t ht
      show ((created c k0 a k.curPart aff).T t).timeCapacity > 0 → ((created c k0 a k.curPart aff).T t).remaining ≤
        ((created c k0 a k.curPart aff).T t).timeCapacity
      rw [hT1]
      by_cases e : t = (k0.P k.curPart).low + (k0.P k.curPart).index
      · rw [e, upd_same]; intro _; rw [newThread_budget]; exact Int.le_refl _
      · rw [upd_other _ _ e]; exact hb0.bud t ht
    · intro p hp
      by_cases e : p = k.curPart
      · subst e
        intro h1
        simp [setP, created, hP0, resetPart] at h1
      · have hPx : ((created c k0 a k.curPart aff).setP k.curPart
            { (created c k0 a k.curPart aff).P k.curPart with threadMain := id }).P p = k.P p := by
          simp [setP, created, upd_other _ _ e, hPo p e]
        rw [hPx]
        intro h1
        obtain ⟨e1, e2⟩ := hb.err p hp h1
        refine ⟨?_, e2⟩
        show ((created c k0 a k.curPart aff).T (k.P p).threadError).timeCapacity = 10000
        rw [hT1, upd_other, hT0]
        · exact e1
        · have wp := hw.part p hp
          intro he
          rw [hP0] at he hlt hid
          simp only [resetPart] at he hlt hid
          rcases wp.err with h | h
          · exact h1 h
          · have l1 := w.low; have l2 := w.high; have l3 := wp.low; have l4 := wp.high
            rcases Nat.lt_or_ge p k.curPart with h' | h'
            · have := prefixSum_mono c.nthreads (a := p + 1) (b := k.curPart) h'
              simp only [prefixSum] at this
              omega
            · have := prefixSum_mono c.nthreads (a := k.curPart + 1) (b := p) (by omega)
              simp only [prefixSum] at this
              omega
  | errorCreate entry junk k1 id h =>
    obtain ⟨hid, hlt, _, aff, _, hmu, rfl⟩ := create_ok h
    have hb1 := budget_created (a := { junk with priority := 200, entry := entry, timeCapacity := 10000 })
      (aff := aff) hc hw hw.curPart (hpol _ hw.curPart) (hid ▸ hlt) hb
    have hw1 := wf_created (a := { junk with priority := 200, entry := entry, timeCapacity := 10000 })
      (aff := aff) hw hc hw.curPart (hid ▸ hlt) hmu
    have hT1 := created_table (c := c) (k := k)
      (a := { junk with priority := 200, entry := entry, timeCapacity := 10000 }) (pid := k.curPart) (aff := aff)
      (by rw [w.sched]; exact hpol _ hw.curPart)
    generalize hk2 : created c k { junk with priority := 200, entry := entry, timeCapacity := 10000 }
      k.curPart aff = k2 at *
    have hcp : k2.curPart = k.curPart := by rw [← hk2]; rfl
    have hP2 : k2.P k.curPart = { k.P k.curPart with index := (k.P k.curPart).index + 1 } := by
      rw [← hk2]; simp [created]
    have w1 := hw1.part _ hw.curPart
    apply budget_activate
    · apply wf_setP hw1
      intro _
      rw [hcp]
      refine ⟨w1.low, w1.high, w1.nth, w1.sched, w1.mainProc, w1.main, Or.inr ?_, w1.cur, w1.prev, w1.act⟩
      simp only [hP2]
      exact ⟨by omega, hlt⟩
    · refine ⟨hb1.bud, ?_⟩
      intro p hp
      rw [hcp]
      by_cases e : p = k.curPart
      · subst e
        intro _
        simp only [setP, upd_same]
        refine ⟨?_, ?_⟩
        · show (k2.T id).timeCapacity = 10000
          rw [hT1, hid, upd_same]
          exact newThread_capacity _ _ _ _ _ rfl
        · rw [hP2]; simp only; omega
      · have : (k2.setP k.curPart { k2.P k.curPart with threadError := id }).P p = k2.P p := by
          simp [setP, upd_other _ _ e]
        rw [this]
        exact hb1.err p hp
  | raise => exact budget_activate hw hb

theorem sched_remaining {c proc now k k' t} (h : schedThread c proc now k = some k') :
    (k'.T t).remaining ≤ (k.T t).remaining ∨ (k'.T t).remaining ≤ (k'.T t).timeCapacity := by
  by_cases hcur : t = k.curThread proc
  · obtain ⟨x, t1, h1, h2⟩ := sched_self h
    rw [← hcur] at h1 h2
    have h1' : wakeOne c proc now (k.T t) = some t1 ∨ t1 = k.T t := by
      split at h1
      · exact Or.inl h1
      · exact Or.inr h1
    have hle : t1.remaining ≤ (k.T t).remaining ∨ t1.remaining ≤ t1.timeCapacity := by
      rcases h1' with h1' | rfl
      · rcases wakeOne_cases h1' with ⟨rfl, _⟩ | ⟨_, _, _, _, rfl⟩ | ⟨_, _, h5, h6, rfl⟩
        · left; exact Int.le_refl _
        · left; exact Int.le_refl _
        · right; exact Int.le_refl _
      · left; exact Int.le_refl _
    rcases h2 with h2 | ⟨_, h2⟩ | ⟨_, _, h2⟩ <;> rw [h2] <;> simp only <;> omega
  · obtain ⟨k1, e0, he, hT, _⟩ := sched_parts h
    obtain ⟨x, t', h1, h2⟩ := elect_other he hcur
    rw [hT, h1]
    have h1' : wakeOne c proc now (k.T t) = some t' ∨ t' = k.T t := by
      split at h2
      · exact Or.inl h2
      · exact Or.inr h2
    rcases h1' with h1' | rfl
    · rcases wakeOne_cases h1' with ⟨rfl, _⟩ | ⟨_, _, _, _, rfl⟩ | ⟨_, _, h5, h6, rfl⟩
      · left; exact Int.le_refl _
      · left; exact Int.le_refl _
      · right; exact Int.le_refl _
    · left; exact Int.le_refl _

theorem budget_sched {c proc now k k'} (hb : BudgetOk c k) (h : schedThread c proc now k = some k') :
    BudgetOk c k' := by
  constructor
  · intro t ht
    have h1 := (sched_rhythm (t := t) h).2.1
    rw [h1]
    intro h0
    have := hb.bud t ht h0
    rcases sched_remaining (t := t) h with h | h <;> omega
  · intro p hp
    obtain ⟨k1, e0, he, hT, hps, hcur', hP, _⟩ := sched_parts h
    obtain ⟨p1, _⟩ := elect_P he
    obtain ⟨r1, _⟩ := record_P c proc k1 (e0 % 256) p
    rw [p1] at r1
    have hPx : (k'.P p).threadError = (k.P p).threadError ∧ (k'.P p).low = (k.P p).low ∧
        (k'.P p).index = (k.P p).index := by rw [hP, r1]; exact ⟨rfl, rfl, rfl⟩
    rw [hPx.1, hPx.2.1, hPx.2.2, (sched_rhythm (t := (k.P p).threadError) h).2.1]
    exact hb.err p hp

theorem budget_run {c} (hc : CfgOk c) (hpol : ∀ p < c.nbParts, c.policy p ≠ .rms) :
    ∀ (es : List KEv) (k k' : Kernel), (∀ e ∈ es, e.proc < c.nbProcs) →
    Wf c k → BudgetOk c k → execAll c k es = some k' → BudgetOk c k' := by
  intro es
  induction es with
  | nil => intro k k' _ _ hb h; simp [execAll] at h; subst h; exact hb
  | cons e es ih =>
    intro k k' hq hw hb h
    unfold execAll at h
    split at h
    · simp at h
    · rename_i k1 h1
      have hb1 : BudgetOk c k1 := by
        obtain ⟨k0, g1, g2⟩ := exec_cases h1
        have := budget_pre hc hpol hw hb g1
        rcases g2 with rfl | g2 | g2
        · exact this
        · exact budget_sched this g2
        · exact budget_sched (k := switchPartition c e.now k0) ⟨this.bud, this.err⟩ g2
      exact ih k1 k' (fun e' he' => hq e' (by simp [he'])) (wf_exec hc (hq e (by simp)) hw h1) hb1 h

/-- In every reachable state of a system without the rate monotonic policy, no thread has more budget left
than its capacity. -/
theorem Reachable.budget {c k} (hc : CfgOk c) (hpol : ∀ p < c.nbParts, c.policy p ≠ .rms) (h : Reachable c k) :
    BudgetOk c k := by
  obtain ⟨k0, es, hb, hq, he⟩ := h
  refine budget_run hc hpol es k0 k hq (boot_wf hc hb) ?_ he
  obtain ⟨h1, h2, h3⟩ := boot_spec hc.threads hb
  constructor
  · intro t ht h0
    have := hc.room
    rw [(h3 t (by omega)).1] at h0
    exact absurd h0 (by decide)
  · intro p hp h0
    obtain ⟨P, hP, hx⟩ := h1 p hp
    unfold initPart at hP
    split at hP
    · simp at hP
    · injection hP with hP
      subst hP
      rw [hx] at h0
      exact absurd rfl h0

/-- **C12**: a thread with time capacity `n > 0` (not the main thread or the error handler) is running at no
more than `n + 1` consecutive elections of its partition, in any history.

Partial: the rate monotonic policy is excluded, since it moves threads under the registered error handler
identifier: see `C12_rms_violated`.  The main thread and the error handler are never charged. -/
theorem C12_budget_partial {c : Config} {k k' : Kernel} {proc p t n : Nat} {es : List KEv} (hc : CfgOk c)
    (hpol : ∀ p < c.nbParts, c.policy p ≠ .rms) (hr : Reachable c k) (hq : proc < c.nbProcs) (hp : p < c.nbParts)
    (hm : (k.P p).mode = .normal) (ht : (k.P p).low ≤ t ∧ t < (k.P p).high)
    (hmain : t ≠ (k.P p).threadMain) (herr : t ≠ (k.P p).threadError) (hcur : (k.P p).cur proc = t)
    (hs : (k.T t).state = .runnable) (hcap : (k.T t).timeCapacity = n) (hn : 0 < n)
    (hrun : RunsAt c proc p t k es) (h : execAll c k es = some k') : es.length ≤ n + 1 := by
  have hw := hr.wf hc
  have hb := hr.budget hc hpol
  have := C12_remaining hc hq es hw hm ht hmain herr hcur hs (by omega) hrun h
  have hrg := (hw.part p hp).range hc hp
  have := hb.bud t (by omega) (by omega)
  omega

end Kernel

/-! ### Concrete histories -/

section Examples
open Kernel Pok.Spec

/-- Partition 0 enters NORMAL mode with two threads (capacities 1 and 5, periods 10 and none). -/
def exTimed : List KEv :=
  [⟨0, 0, .tick⟩,
   ⟨0, 1, .create { priority := 3, entry := 1, timeCapacity := 5, period := 10 }⟩,
   ⟨0, 2, .create { priority := 4, entry := 2, timeCapacity := 1 }⟩,
   ⟨0, 3, .setMode .normal⟩]

/-- **C10** is false of the code: thread 2 exhausts its budget of 1, sleeps for 1 ms at clock 5, and runs
again at clock 6. -/
theorem C10_budget_violated :
    (runFromBoot exCfg (exTimed ++ [⟨0, 4, .tick⟩, ⟨0, 5, .sleep 1000⟩])).map
        (fun k => ((k.T 2).wakeup, decide (k.curThread 0 = 2))) = some (1000005, false) ∧
    (runFromBoot exCfg (exTimed ++ [⟨0, 4, .tick⟩, ⟨0, 5, .sleep 1000⟩, ⟨0, 6, .tick⟩])).map
        (fun k => k.curThread 0) = some 2 := by
  constructor <;> decide +kernel

/-- **C10** is false of the code: the main thread sleeps during initialisation and goes on at once. -/
theorem C10_init_violated :
    (runFromBoot exCfg [⟨0, 0, .tick⟩, ⟨0, 1, .sleep 1000⟩]).map
      (fun k => ((k.T 0).wakeup, (k.T 0).state, k.curThread 0)) = some (1000001, .waiting, 0) := by
  decide +kernel

/-- **C13** is false of the code: thread 2 exhausts its budget, blocks on a lock object without timeout,
and runs again although nothing unlocked it. -/
theorem C13_budget_violated :
    (runFromBoot exCfg (exTimed ++ [⟨0, 4, .tick⟩, ⟨0, 5, .block⟩, ⟨0, 6, .tick⟩])).map
      (fun k => (k.curThread 0, (k.T 2).state)) = some (2, .runnable) := by
  decide +kernel

/-- **C13** is false of the code: the main thread blocks during initialisation and goes on at once. -/
theorem C13_init_violated :
    (runFromBoot exCfg [⟨0, 0, .tick⟩, ⟨0, 1, .block⟩]).map
      (fun k => ((k.T 0).state, k.curThread 0)) = some (.lock, 0) := by
  decide +kernel

/-- **C11**, "with a fresh budget", is false when the thread ends its period late: thread 1 (capacity 5, next
activation 10) ends its period at clock 14; it is released by the same election with 4 units. -/
theorem C11_fresh_budget_violated :
    (runFromBoot exCfg (exTimed ++ [⟨0, 4, .stopSelf⟩, ⟨0, 14, .endPeriod⟩])).map
      (fun k => ((k.T 1).state, (k.T 1).nextActivation, (k.T 1).timeCapacity, (k.T 1).remaining))
      = some (.runnable, 20, 5, 4) := by
  decide +kernel

/-- Under the rate monotonic policy, with four threads per partition. -/
def exRms4 : Config := { exCfg with policy := fun _ => .rms, nthreads := fun _ => 4, nbThreads := 10 }

/-- **C12** is false under the rate monotonic policy: a thread A (capacity 1) is moved by the creation of the
error handler to the identifier registered for the handler, gets the handler's budget, and is moved again
by the next creation.  In NORMAL mode A, now thread 3, neither main thread nor error handler, is still
running after five consecutive elections. -/
theorem C12_rms_violated :
    (runFromBoot exRms4
      ([⟨0, 0, .tick⟩, ⟨0, 1, .create { entry := 1, timeCapacity := 1, period := 10 }⟩,
       ⟨0, 2, .errorCreate 2 { period := 5 }⟩, ⟨0, 3, .tick⟩,
       ⟨0, 4, .create { entry := 3, timeCapacity := 1, period := 3 }⟩, ⟨0, 5, .setMode .normal⟩,
       ⟨0, 6, .stopSelf⟩, ⟨0, 7, .stopSelf⟩, ⟨0, 8, .tick⟩, ⟨0, 9, .tick⟩, ⟨0, 10, .tick⟩, ⟨0, 11, .tick⟩,
       ⟨0, 12, .tick⟩])).map
      (fun k => (k.curThread 0, (k.T 3).entry, (k.T 3).timeCapacity, (k.P 0).threadMain, (k.P 0).threadError))
      = some (3, 1, 1, 0, 2) := by
  decide +kernel

/-- Decidable form of `Quiet` for concrete histories. -/
instance (t proc : Nat) (k : Kernel) (call : KCall) : Decidable (Untouched t proc k call) := by
  unfold Untouched; cases call <;> infer_instance

/-- The hypotheses of `C10_sleep_partial` are met: thread 2 (budget 1) sleeps right after its dispatch; the
clock ticks twice before its wake-up, and it is not dispatched; it is dispatched at the first election after. -/
example : (runFromBoot exCfg exTimed).map (fun k => (k.curThread 0, (k.T 2).remaining, (k.P 0).threadMain))
      = some (2, 1, 0) ∧
    (runFromBoot exCfg (exTimed ++ [⟨0, 4, .sleep 1⟩, ⟨0, 5, .tick⟩, ⟨0, 99, .tick⟩])).map
      (fun k => (k.curThread 0, (k.T 2).state, (k.T 2).wakeup)) = some (1, .waiting, 1004) ∧
    (runFromBoot exCfg (exTimed ++ [⟨0, 4, .sleep 1⟩, ⟨0, 5, .tick⟩, ⟨0, 99, .tick⟩, ⟨0, 1004, .resched⟩])).map
      (fun k => (k.curThread 0, (k.T 2).state)) = some (2, .runnable) := by
  refine ⟨?_, ?_, ?_⟩ <;> decide +kernel

/-- Thread 1 (period 10, first activation 10) ends its period at clock 6, is not released at 9, and is
released at clock 14, late; the next activation is 20, not 24. -/
example :
    (runFromBoot exCfg (exTimed ++ [⟨0, 4, .stopSelf⟩, ⟨0, 6, .endPeriod⟩, ⟨0, 9, .tick⟩])).map
      (fun k => (k.curThread 0, (k.T 1).state, (k.T 1).nextActivation)) = some (6, .waitNextActivation, 10) ∧
    (runFromBoot exCfg (exTimed ++ [⟨0, 4, .stopSelf⟩, ⟨0, 6, .endPeriod⟩, ⟨0, 9, .tick⟩, ⟨0, 14, .tick⟩])).map
      (fun k => (k.curThread 0, (k.T 1).state, (k.T 1).nextActivation, (k.T 1).remaining))
      = some (1, .runnable, 20, 5) := by
  refine ⟨?_, ?_⟩ <;> decide +kernel

/-- The bound of `C12_budget_partial` is attained: thread 2 (capacity 1) is running at two consecutive elections
and then waits. -/
example :
    (runFromBoot exCfg exTimed).map (fun k => (k.curThread 0, (k.P 0).cur 0)) = some (2, 2) ∧
    (runFromBoot exCfg (exTimed ++ [⟨0, 4, .tick⟩])).map (fun k => (k.curThread 0)) = some 2 ∧
    (runFromBoot exCfg (exTimed ++ [⟨0, 4, .tick⟩, ⟨0, 5, .tick⟩])).map
      (fun k => (k.curThread 0, (k.T 2).state)) = some (1, .waitNextActivation) := by
  refine ⟨?_, ?_, ?_⟩ <;> decide +kernel

end Examples
end Pok
