import Verif.Props.Timing

/-!
# Starting, resuming and suspending threads in NORMAL mode (C76)
-/

namespace Pok
namespace Kernel
open Pok.Spec

/-- What a tick does to a runnable thread that is not the running one: it stays runnable, with
its priority. -/
theorem runnable_stays {c proc now k k' t} (hcur : k.curThread proc ≠ t) (hs : (k.T t).state = .runnable)
    (h : globalSched c proc now k = some k') : (k'.T t).state = .runnable ∧ (k'.T t).priority = (k.T t).priority := by
  obtain ⟨k1, e0, he, hT, _⟩ := sched_parts h
  obtain ⟨x, t', h1, h2⟩ := elect_other he (j := t) (Ne.symm hcur)
  have hT0 : (switchPartition c now k).T t = k.T t := rfl
  rw [hT, h1]
  show t'.state = _ ∧ t'.priority = _
  split at h2
  · rw [hT0] at h2
    rcases wakeOne_cases h2 with ⟨rfl, _⟩ | ⟨_, _, _, _, rfl⟩ | ⟨_, _, _, _, rfl⟩
    · exact ⟨hs, rfl⟩
    · exact ⟨rfl, rfl⟩
    · exact ⟨rfl, rfl⟩
  · rw [h2, hT0]; exact ⟨hs, rfl⟩

theorem delayed_ok {k : Kernel} {t : Nat} (hrange : (k.P k.curPart).low ≤ t ∧ t < (k.P k.curPart).high) : outOfRange k t = false := by
  unfold outOfRange; simp; omega

/-- **C76** (delay): an aperiodic thread of the caller's partition that is not running, started in NORMAL mode at clock `now` with a
delay, is not dispatched on any processor before `now` plus the delay, through any history of kernel entries that are not operations on
it; it waits for exactly that time (`C10_wakes_partial`: the first election of its partition at or after it makes it runnable).

Partial: periodic threads are not started (`C76_periodic_violated`); the wait assumes that the sum does not exceed 64 bits. -/
theorem C76_delayed_partial {c : Config} {k k1 k2 : Kernel} {proc now us t : Nat} {es : List KEv}
    (hc : CfgOk c) (hr : Reachable c k) (hq : proc < c.nbProcs) (hrange : (k.P k.curPart).low ≤ t ∧ t < (k.P k.curPart).high)
    (ht : t < prefixSum c.nthreads c.nbParts) (hcur : ∀ q < c.nbProcs, k.curThread q ≠ t) (hm : NotInitMain c k t)
    (hper : (k.T t).period = -1) (hmode : (k.P (k.T t).partition).mode = .normal)
    (hus : 0 < us) (hov : now + 1000 * us < U64)
    (hs : exec c proc now k (.delayedStart t us) = some k1)
    (hes : ∀ e ∈ es, e.proc < c.nbProcs ∧ e.now < now + 1000 * us) (hqu : Quiet c t k1 es) (hrun : execAll c k1 es = some k2) :
    (∀ q < c.nbProcs, k2.curThread q ≠ t) ∧ (k2.T t).state = .waiting ∧ (k2.T t).wakeup = now + 1000 * us := by
  have hw := hr.wf hc
  let u : Thread := { k.T t with priority := (k.T t).basePriority, state := .waiting, wakeup := now + 1000 * us }
  have hg : globalSched c proc now (k.setT t u) = some k1 := by
    simp only [exec, delayedStart, delayed_ok hrange] at hs
    rw [if_neg (show ¬ (false = true) by decide), if_pos hper, if_pos hmode, if_neg (show ¬ 1000 * us = 0 by omega), Nat.mod_eq_of_lt hov] at hs
    cases hgs : globalSched c proc now (k.setT t u) with
    | none => rw [show globalSched c proc now _ = none from hgs] at hs; simp at hs
    | some k' => rw [show globalSched c proc now _ = some k' from hgs] at hs; simpa using hs
  have hT : (k.setT t u).T t = u := upd_same _ _ _
  have hw1 : Wf c (k.setT t u) := wf_setT hw rfl rfl
  have hrun' : execAll c (k.setT t u) (⟨proc, now, .tick⟩ :: es) = some k2 := by
    show (match globalSched c proc now (k.setT t u) with | none => none | some k => execAll c k es) = _
    rw [hg]; exact hrun
  have hd : ∀ e ∈ (⟨proc, now, .tick⟩ :: es : List KEv), NotDue c e.now ((k.setT t u).T t) := by
    intro e he
    rw [hT]
    unfold NotDue
    intro _
    show e.now < now + 1000 * us
    rcases List.mem_cons.1 he with rfl | he
    · show now < _; omega
    · exact (hes e he).2
  have hqu' : Quiet c t (k.setT t u) (⟨proc, now, .tick⟩ :: es) := by
    refine ⟨trivial, ?_⟩
    intro k' hk'
    have : some k' = some k1 := hk'.symm.trans hg
    cases this
    exact hqu
  obtain ⟨⟨x, b1⟩, b2⟩ := quiet_run hc ht _ (k.setT t u) k2 (by
      intro e he
      rcases List.mem_cons.1 he with rfl | he
      · exact hq
      · exact (hes e he).1) ⟨hw1, hcur, hm⟩ hd hqu' hrun'
  rw [hT] at b1
  exact ⟨b2.cur, by rw [b1], by rw [b1]⟩

/-- **C76** (no delay): an aperiodic thread started in NORMAL mode without delay is runnable at once, with the priority that it was
created with. -/
theorem C76_start {c : Config} {k k1 : Kernel} {proc now t : Nat} (hrange : (k.P k.curPart).low ≤ t ∧ t < (k.P k.curPart).high)
    (hcur : k.curThread proc ≠ t) (hper : (k.T t).period = -1) (hmode : (k.P (k.T t).partition).mode = .normal)
    (hs : exec c proc now k (.delayedStart t 0) = some k1) :
    (k1.T t).state = .runnable ∧ (k1.T t).priority = (k.T t).basePriority := by
  simp only [exec, delayedStart, delayed_ok hrange, hper, hmode, if_true] at hs
  rw [if_neg (show ¬ (false = true) by decide)] at hs
  split at hs
  · simp at hs
  · rename_i k' hk'
    simp only [Option.map_some, Option.some.injEq] at hs
    subst hs
    have hst := runnable_stays (k := k.setT t _) hcur (by show (upd k.T t _ t).state = _; rw [upd_same]; split <;> rfl) hk'
    refine ⟨hst.1, hst.2.trans ?_⟩
    show (upd k.T t _ t).priority = _
    rw [upd_same]
    split <;> rfl

/-- **C76** (resume): a thread of the caller's partition that is not running is runnable after `resume`. -/
theorem C76_resume {c : Config} {k k1 : Kernel} {proc now t : Nat} (hrange : (k.P k.curPart).low ≤ t ∧ t < (k.P k.curPart).high)
    (hcur : k.curThread proc ≠ t) (hs : exec c proc now k (.resume t) = some k1) :
    (k1.T t).state = .runnable ∧ (k1.T t).priority = (k.T t).priority := by
  simp only [exec, resume, delayed_ok hrange] at hs
  rw [if_neg (show ¬ (false = true) by decide)] at hs
  split at hs
  · simp at hs
  · rename_i k' hk'
    simp only [Option.map_some, Option.some.injEq] at hs
    subst hs
    have hst := runnable_stays (k := k.setT t _) hcur (by show (upd k.T t _ t).state = _; rw [upd_same]) hk'
    refine ⟨hst.1, hst.2.trans ?_⟩
    show (upd k.T t _ t).priority = _
    rw [upd_same]

/-- **C76** (suspend): a thread of the caller's partition that is not running on any processor, suspended by another thread, is not
dispatched through any history of kernel entries that are not operations on it. -/
theorem C76_suspend {c : Config} {k k1 k2 : Kernel} {proc now t : Nat} {es : List KEv} (hc : CfgOk c) (hr : Reachable c k)
    (hq : proc < c.nbProcs) (hrange : (k.P k.curPart).low ≤ t ∧ t < (k.P k.curPart).high)
    (ht : t < prefixSum c.nthreads c.nbParts) (hcur : ∀ q < c.nbProcs, k.curThread q ≠ t) (hm : NotInitMain c k t)
    (hs : exec c proc now k (.suspendTarget t) = some k1) (hes : ∀ e ∈ es, e.proc < c.nbProcs) (hqu : Quiet c t k1 es)
    (hrun : execAll c k1 es = some k2) : (∀ q < c.nbProcs, k2.curThread q ≠ t) ∧ (k2.T t).state = .stopped := by
  have he : k1 = k.setT t { k.T t with state := .stopped } := by
    simp only [exec, suspendTarget, delayed_ok hrange] at hs
    rw [if_neg (by rintro (h | h); · simp at h
                   · exact hcur proc hq h.symm)] at hs
    simpa using hs.symm
  subst he
  have hst : ((k.setT t { k.T t with state := .stopped }).T t).state = .stopped := by
    show (upd k.T t _ t).state = _; rw [upd_same]
  obtain ⟨⟨x, b1⟩, b2⟩ := quiet_run hc ht es _ k2 hes
    (⟨wf_setT (hr.wf hc) rfl rfl, hcur, hm⟩ : Blocked c (k.setT t { k.T t with state := .stopped }) t)
    (fun e _ => by unfold NotDue; rw [hst]; trivial) hqu hrun
  exact ⟨b2.cur, by rw [b1]; exact hst⟩

/-- **C76** is false for periodic threads: a start in NORMAL mode of a stopped periodic thread succeeds, sets its next activation to the
clock plus the delay and its deadline from it, but leaves the thread stopped: it is never dispatched, whatever the clock. -/
theorem C76_periodic_violated {c : Config} {k k2 : Kernel} {proc now us t : Nat} {es : List KEv}
    (hc : CfgOk c) (hr : Reachable c k) (hrange : (k.P k.curPart).low ≤ t ∧ t < (k.P k.curPart).high)
    (ht : t < prefixSum c.nthreads c.nbParts) (hcur : ∀ q < c.nbProcs, k.curThread q ≠ t) (hm : NotInitMain c k t)
    (hper : (k.T t).period ≠ -1) (hmode : (k.P (k.T t).partition).mode = .normal) (hst : (k.T t).state = .stopped)
    (hov : now + 1000 * us + (k.T t).deadline < U64) :
    ∃ k1, delayedStart c proc now k t us = some (k1, .ok) ∧ (k1.T t).nextActivation = now + 1000 * us ∧
      (k1.T t).endTime = now + 1000 * us + (k.T t).deadline ∧
      ((∀ e ∈ es, e.proc < c.nbProcs) → Quiet c t k1 es → execAll c k1 es = some k2 →
        (∀ q < c.nbProcs, k2.curThread q ≠ t) ∧ (k2.T t).state = .stopped) := by
  let u : Thread := { k.T t with priority := (k.T t).basePriority, nextActivation := now + 1000 * us, endTime := now + 1000 * us + (k.T t).deadline }
  have hT : (k.setT t u).T t = u := upd_same _ _ _
  refine ⟨k.setT t u, ?_, by rw [hT], by rw [hT], ?_⟩
  · simp only [delayedStart, delayed_ok hrange, hmode, if_true]
    rw [if_neg (show ¬ (false = true) by decide), if_neg hper,
      show (1000 * us + now) % U64 = now + 1000 * us by rw [Nat.mod_eq_of_lt (by omega)]; omega,
      show ((k.T t).deadline + (now + 1000 * us)) % U64 = now + 1000 * us + (k.T t).deadline by rw [Nat.mod_eq_of_lt (by omega)]; omega]
  · intro hes hqu hrun
    obtain ⟨⟨x, b1⟩, b2⟩ := quiet_run hc ht es _ k2 hes (⟨wf_setT (hr.wf hc) rfl rfl, hcur, hm⟩ : Blocked c (k.setT t u) t)
      (fun e _ => by rw [hT]; unfold NotDue; show (match (k.T t).state with | _ => _); rw [hst]; trivial) hqu hrun
    exact ⟨b2.cur, by rw [b1, hT]; exact hst⟩

end Kernel

section Examples
open Kernel Pok.Spec

/-- Partition 0 enters NORMAL mode with thread 1 and thread 2 without period; thread 2 runs and suspends thread 1. -/
def exStart (period : Nat) : List KEv :=
  [⟨0, 0, .tick⟩, ⟨0, 1, .create { priority := 3, entry := 1, timeCapacity := 5, period := period }⟩,
   ⟨0, 2, .create { priority := 4, entry := 2, timeCapacity := 9 }⟩, ⟨0, 3, .setMode .normal⟩, ⟨0, 4, .suspendTarget 1⟩]

/-- The hypotheses of the theorems are met: thread 1 is stopped, without period, in NORMAL mode and in the caller's range, and thread 2 runs.
Thread 1 is then started with a delay of 2 µs: it waits until clock 2005 and is runnable at that clock. -/
example :
    (runFromBoot exCfg (exStart 0)).map (fun k => (k.curThread 0, (k.T 1).state, (k.T 1).period, (k.P (k.T 1).partition).mode, (k.P k.curPart).low,
      (k.P k.curPart).high)) = some (2, .stopped, -1, .normal, 0, 3) ∧
    (runFromBoot exCfg (exStart 0 ++ [⟨0, 5, .delayedStart 1 2⟩, ⟨0, 2004, .resched⟩])).map (fun k => ((k.T 1).state, (k.T 1).wakeup)) =
      some (.waiting, 2005) ∧
    (runFromBoot exCfg (exStart 0 ++ [⟨0, 5, .delayedStart 1 2⟩, ⟨0, 2005, .resched⟩])).map (fun k => (k.T 1).state) = some .runnable ∧
    (runFromBoot exCfg (exStart 0 ++ [⟨0, 5, .resume 1⟩])).map (fun k => (k.T 1).state) = some .runnable := by
  refine ⟨?_, ?_, ?_, ?_⟩ <;> decide +kernel

/-- The same thread with a period stays stopped. -/
example :
    (runFromBoot exCfg (exStart 10 ++ [⟨0, 5, .delayedStart 1 2⟩, ⟨0, 2005, .resched⟩])).map (fun k => ((k.T 1).state, (k.T 1).nextActivation)) =
      some (.stopped, 2005) := by
  decide +kernel

end Examples
end Pok
