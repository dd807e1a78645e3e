import Verif.Props.Create
import Verif.Props.Timing

/-!
# Stopping and restarting threads from the error handler (C85)
-/

namespace Pok
namespace Kernel

/-- A thread at its beginning: full budget, no pending wake-up, fresh context; everything that its creation fixed is as before. -/
structure Afresh (t t' : Thread) : Prop where
  budget : t'.remaining = t.timeCapacity
  wakeup : t'.wakeup = 0
  context : t'.sp = 0
  attr : SameAttr t t'
  priority : t'.priority = t.priority

/-- What an election in the running partition, or after a change of partition, makes of a thread that is not running. -/
theorem global_other {c proc now k k' j} (h : globalSched c proc now k = some k') (hj : j ≠ k.curThread proc) :
    ∃ x t, k'.T j = { t with endTime := x } ∧
      (if (k.P (switchPartition c now k).curPart).low ≤ j ∧
          j < (k.P (switchPartition c now k).curPart).low + (k.P (switchPartition c now k).curPart).nthreads
        then wakeOne c proc now (k.T j) = some t else t = k.T j) := by
  obtain ⟨k1, e, he, hT, _⟩ := sched_parts (show schedThread c proc now (switchPartition c now k) = some k' from h)
  obtain ⟨x, t, h1, h2⟩ := elect_other he (j := j) hj
  exact ⟨x, t, by rw [hT]; exact h1, h2⟩

/-- **C85** (refusal) Only the error handler of the partition may stop or restart threads, and only threads whose number, counted from the
partition's first, stays in the range that the kernel checks; otherwise nothing changes. -/
theorem C85_refused {c : Config} {proc now tid : Nat} {k : Kernel} :
    (k.curThread proc ≠ (k.P k.curPart).threadError →
      restartThread c proc now k tid = some (k, .thread) ∧ stopThread c proc now k tid = some (k, .thread)) ∧
    (k.curThread proc = (k.P k.curPart).threadError → (k.P k.curPart).high < (k.P k.curPart).low + tid →
      (k.P k.curPart).low + tid < 2 ^ 32 →
      restartThread c proc now k tid = some (k, .threadattr) ∧ stopThread c proc now k tid = some (k, .threadattr)) := by
  refine ⟨fun h => ?_, fun h h1 h2 => ?_⟩
  · unfold restartThread stopThread
    simp [h]
  · have hm : (tid + (k.P k.curPart).low) % U32 = tid + (k.P k.curPart).low := Nat.mod_eq_of_lt (by unfold U32; omega)
    unfold restartThread stopThread
    simp only [h, ne_eq, not_true_eq_false, if_false, hm]
    rw [if_pos (Or.inr (by omega)), if_pos (Or.inr (by omega))]
    exact ⟨rfl, rfl⟩

/-- **C85** (restart, part) A restart that the handler is granted, of any thread but itself and whatever that thread was doing (stopped,
sleeping, waiting for a lock, ready): the thread is at its beginning with its full budget, and waits for its release; if the release time has
come it is ready, with its next release one period later.  The other threads only see the election.  What is missing: see the violations
below. -/
theorem C85_restart_partial {c : Config} {proc now tid id : Nat} {k k' : Kernel} (hid : id = (k.P k.curPart).low + tid) (hlt : id < 2 ^ 32)
    (hh : id ≠ (k.P k.curPart).threadError) (h : restartThread c proc now k tid = some (k', .ok)) :
    Afresh (k.T id) (k'.T id) ∧
    (((k'.T id).state = .waitNextActivation ∧ (k'.T id).nextActivation = (k.T id).nextActivation) ∨
      ((k'.T id).state = .runnable ∧ (k.T id).nextActivation ≤ now ∧
        (k'.T id).nextActivation = addU64 (k.T id).nextActivation (k.T id).period)) ∧
    (now < (k.T id).nextActivation → (k'.T id).state = .waitNextActivation) ∧
    ((k.T id).nextActivation ≤ now → (k.T id).affinity = proc → (switchPartition c now k).curPart = k.curPart →
      id < (k.P k.curPart).low + (k.P k.curPart).nthreads → (k'.T id).state = .runnable) ∧
    (∀ k0, globalSched c proc now k = some k0 → ∀ j, j ≠ id → j ≠ k.curThread proc → ∃ x, k'.T j = { k0.T j with endTime := x }) := by
  have hm : (tid + (k.P k.curPart).low) % U32 = id := by rw [hid, Nat.add_comm]; exact Nat.mod_eq_of_lt (by unfold U32; omega)
  unfold restartThread at h
  simp only [hm] at h
  split at h
  · simp at h
  · rename_i hcur
    split at h
    · simp at h
    · split at h
      · simp at h
      · rename_i k2 hg
        simp only [Option.some.injEq, Prod.mk.injEq, and_true] at h
        subst h
        have hne : id ≠ k.curThread proc := fun e => hh (e.trans (Classical.not_not.1 hcur))
        obtain ⟨x, t, h1, h2⟩ := global_other hg (j := id) hne
        have hT : (threadRestart k id).T id = { k.T id with remaining := (k.T id).timeCapacity, state := .waitNextActivation, wakeup := 0, sp := 0 } := by
          unfold threadRestart setT; exact upd_same _ _ _
        have hP : (threadRestart k id).P = k.P := rfl
        have hS : (switchPartition c now (threadRestart k id)).curPart = (switchPartition c now k).curPart := rfl
        rw [hT, hP, hS] at h2
        refine ⟨?_, ?_, ?_, ?_, ?_⟩
        · rw [h1]
          split at h2
          · rcases wakeOne_cases h2 with ⟨rfl, _⟩ | ⟨_, _, h3, _⟩ | ⟨_, _, _, _, rfl⟩
            · exact ⟨rfl, rfl, rfl, ⟨rfl, rfl, rfl, rfl, rfl, rfl, rfl⟩, rfl⟩
            · simp at h3
            · exact ⟨rfl, rfl, rfl, ⟨rfl, rfl, rfl, rfl, rfl, rfl, rfl⟩, rfl⟩
          · subst h2
            exact ⟨rfl, rfl, rfl, ⟨rfl, rfl, rfl, rfl, rfl, rfl, rfl⟩, rfl⟩
        · rw [h1]
          split at h2
          · rcases wakeOne_cases h2 with ⟨rfl, _⟩ | ⟨_, _, h3, _⟩ | ⟨_, _, hn, _, rfl⟩
            · exact Or.inl ⟨rfl, rfl⟩
            · simp at h3
            · exact Or.inr ⟨rfl, hn, rfl⟩
          · subst h2
            exact Or.inl ⟨rfl, rfl⟩
        · intro hlt
          rw [h1]
          split at h2
          · rcases wakeOne_cases h2 with ⟨rfl, _⟩ | ⟨_, _, h3, _⟩ | ⟨_, _, hn, _, rfl⟩
            · rfl
            · simp at h3
            · simp only at hn; omega
          · subst h2
            rfl
        · intro hdue haff hpart hrange
          rw [h1]
          rw [hpart, if_pos ⟨by omega, hrange⟩] at h2
          rcases wakeOne_cases h2 with ⟨_, _, h3⟩ | ⟨_, _, h3, _⟩ | ⟨_, _, hn, _, rfl⟩
          · exact absurd ⟨haff, rfl, hdue⟩ h3
          · simp at h3
          · rfl
        · intro k0 h0 j hj hjc
          obtain ⟨x1, t1, g1, g2⟩ := global_other hg (j := j) hjc
          obtain ⟨x0, t0, g3, g4⟩ := global_other h0 (j := j) hjc
          have hTj : (threadRestart k id).T j = k.T j := upd_other _ _ hj
          rw [hTj, hP, hS] at g2
          have : t1 = t0 := by
            split at g2
            · rename_i hr
              rw [if_pos hr, g2] at g4
              exact Option.some.inj g4
            · rename_i hr
              rw [if_neg hr] at g4
              rw [g2, g4]
          subst this
          exact ⟨x1, by rw [g1, g3]⟩

/-- **C85** (stop) A stop that the handler is granted, of any thread but itself and whatever that thread was doing: the thread is stopped, with
its attributes; the other threads only see the election. -/
theorem C85_stop {c : Config} {proc now tid id : Nat} {k k' : Kernel} (hid : id = (k.P k.curPart).low + tid) (hlt : id < 2 ^ 32)
    (hh : id ≠ (k.P k.curPart).threadError) (h : stopThread c proc now k tid = some (k', .ok)) :
    (k'.T id).state = .stopped ∧ SameAttr (k.T id) (k'.T id) ∧
    (∀ k0, globalSched c proc now k = some k0 → ∀ j, j ≠ id → j ≠ k.curThread proc → ∃ x, k'.T j = { k0.T j with endTime := x }) := by
  have hm : (tid + (k.P k.curPart).low) % U32 = id := by rw [hid, Nat.add_comm]; exact Nat.mod_eq_of_lt (by unfold U32; omega)
  unfold stopThread at h
  simp only [hm] at h
  split at h
  · simp at h
  · rename_i hcur
    split at h
    · simp at h
    · split at h
      · simp at h
      · rename_i k2 hg
        simp only [Option.some.injEq, Prod.mk.injEq, and_true] at h
        subst h
        have hne : id ≠ k.curThread proc := fun e => hh (e.trans (Classical.not_not.1 hcur))
        obtain ⟨x, t, h1, h2⟩ := global_other hg (j := id) hne
        have hT : (k.setT id { k.T id with state := .stopped }).T id = { k.T id with state := .stopped } := upd_same _ _ _
        rw [hT] at h2
        have ht : t = { k.T id with state := .stopped } := by
          split at h2
          · rcases wakeOne_cases h2 with ⟨h3, _⟩ | ⟨_, _, h3, _⟩ | ⟨_, h3, _⟩
            · exact h3
            · simp at h3
            · simp at h3
          · exact h2
        subst ht
        refine ⟨by rw [h1], by rw [h1]; exact ⟨rfl, rfl, rfl, rfl, rfl, rfl, rfl⟩, ?_⟩
        intro k0 h0 j hj hjc
        obtain ⟨x1, t1, g1, g2⟩ := global_other hg (j := j) hjc
        obtain ⟨x0, t0, g3, g4⟩ := global_other h0 (j := j) hjc
        have hTj : (k.setT id { k.T id with state := .stopped }).T j = k.T j := upd_other _ _ hj
        rw [hTj] at g2
        have : t1 = t0 := by
          split at g2
          · rename_i hr
            rw [if_pos (by exact hr), g2] at g4
            exact Option.some.inj g4
          · rename_i hr
            rw [if_neg (by exact hr)] at g4
            rw [g2, g4]
        subst this
        exact ⟨x1, by rw [g1, g3]⟩

/-- **C85** (granted) The handler's request is granted for every thread of its partition whenever the election that follows succeeds. -/
theorem C85_granted {c : Config} {proc now tid : Nat} {k : Kernel} (hcur : k.curThread proc = (k.P k.curPart).threadError)
    (hr : (k.P k.curPart).low + tid < (k.P k.curPart).high) (hlt : (k.P k.curPart).high < 2 ^ 32) :
    (∀ k', restartThread c proc now k tid = some k' → k'.2 = .ok) ∧ (∀ k', stopThread c proc now k tid = some k' → k'.2 = .ok) := by
  have hm : (tid + (k.P k.curPart).low) % U32 = tid + (k.P k.curPart).low := Nat.mod_eq_of_lt (by unfold U32; omega)
  unfold restartThread stopThread
  simp only [hcur, ne_eq, not_true_eq_false, if_false, hm]
  rw [if_neg (by omega)]
  refine ⟨fun k' h => ?_, fun k' h => ?_⟩
  · split at h
    · simp at h
    · simp only [Option.some.injEq] at h; rw [← h]
  · rw [if_neg (by omega)] at h
    split at h
    · simp at h
    · simp only [Option.some.injEq] at h; rw [← h]

/-- **C85** violated: the handler's request is also granted for the thread one past those of its partition, which is the first thread of the next
one (or an idle thread): it is restarted, or stopped. -/
theorem C85_one_past_violated {c : Config} {proc now : Nat} {k : Kernel} (hcur : k.curThread proc = (k.P k.curPart).threadError)
    (hle : (k.P k.curPart).low ≤ (k.P k.curPart).high) (hlt : (k.P k.curPart).high < 2 ^ 32) :
    restartThread c proc now k ((k.P k.curPart).high - (k.P k.curPart).low) =
      (globalSched c proc now (threadRestart k (k.P k.curPart).high)).map (fun k' => (k', .ok)) ∧
    ∀ k', stopThread c proc now k ((k.P k.curPart).high - (k.P k.curPart).low) = some k' → k'.2 = .ok := by
  have hm : ((k.P k.curPart).high - (k.P k.curPart).low + (k.P k.curPart).low) % U32 = (k.P k.curPart).high := by
    rw [Nat.sub_add_cancel hle]
    exact Nat.mod_eq_of_lt (by unfold U32; omega)
  unfold restartThread stopThread
  simp only [hcur, ne_eq, not_true_eq_false, if_false, hm]
  rw [if_neg (by omega), if_neg (by omega)]
  refine ⟨?_, fun k' h => ?_⟩
  · cases globalSched c proc now (threadRestart k (k.P k.curPart).high) <;> rfl
  · split at h
    · simp at h
    · simp only [Option.some.injEq] at h; rw [← h]

/-- **C85** violated: a thread without a period that was never delayed can be restarted once.  The first restart makes it ready and sets its
next release to the largest time there is; after a second restart it waits for that time, with its release still in the same place. -/
theorem C85_twice_violated {c : Config} {proc now now2 tid id : Nat} {k k1 k2 k3 : Kernel} (hid : id = (k.P k.curPart).low + tid) (hlt : id < 2 ^ 32)
    (hid2 : id = (k2.P k2.curPart).low + tid) (hh : id ≠ (k.P k.curPart).threadError) (hh2 : id ≠ (k2.P k2.curPart).threadError)
    (hp : (k.T id).period = -1) (hn : (k.T id).nextActivation = 0) (h : restartThread c proc now k tid = some (k1, .ok))
    (hrun : (k1.T id).state = .runnable) (hsame : (k2.T id).nextActivation = (k1.T id).nextActivation)
    (h2 : restartThread c proc now2 k2 tid = some (k3, .ok)) (hnow : now2 < 2 ^ 64 - 1) :
    (k3.T id).state = .waitNextActivation ∧ (k3.T id).nextActivation = 2 ^ 64 - 1 := by
  obtain ⟨_, hs, _⟩ := C85_restart_partial hid hlt hh h
  obtain ⟨_, hs2, hw, _⟩ := C85_restart_partial hid2 hlt hh2 h2
  have h1 : (k1.T id).nextActivation = 2 ^ 64 - 1 := by
    rcases hs with ⟨hs, _⟩ | ⟨_, _, hs⟩
    · rw [hrun] at hs; simp at hs
    · rw [hs, hn, hp]; decide
  rw [hsame, h1] at hw hs2
  have hw' := hw hnow
  refine ⟨hw', ?_⟩
  rcases hs2 with ⟨_, h3⟩ | ⟨h3, _⟩
  · exact h3
  · rw [hw'] at h3; simp at h3

/-- **C85** violated: a periodic thread that is restarted after missing a whole period is released for the times it missed, not from now on:
its next release, after the one granted now, is already past. -/
theorem C85_missed_violated {c : Config} {proc now tid id : Nat} {k k' : Kernel} (hid : id = (k.P k.curPart).low + tid) (hlt : id < 2 ^ 32)
    (hh : id ≠ (k.P k.curPart).threadError) (hp : 0 ≤ (k.T id).period) (hnow : now < 2 ^ 64)
    (hmiss : ((k.T id).nextActivation : Int) + (k.T id).period ≤ now) (h : restartThread c proc now k tid = some (k', .ok)) :
    (k'.T id).nextActivation ≤ now := by
  obtain ⟨_, hs, _⟩ := C85_restart_partial hid hlt hh h
  rcases hs with ⟨_, hs⟩ | ⟨_, _, hs⟩
  · omega
  · rw [hs]
    unfold addU64
    rw [Int.emod_eq_of_lt (by omega) (by unfold U64; omega)]
    omega

/-- The handler of partition 0 (thread 2) runs; thread 1 has no period. -/
def exRestart : List KEv :=
  [⟨0, 0, .tick⟩, ⟨0, 1, .create { priority := 3, entry := 1, timeCapacity := 5 }⟩, ⟨0, 2, .errorCreate 7 {}⟩, ⟨0, 3, .tick⟩, ⟨0, 4, .setMode .normal⟩,
   ⟨0, 5, .raiseError⟩]

/-- One thread slot of the partition is not used. -/
def exUnused : List KEv :=
  [⟨0, 0, .tick⟩, ⟨0, 2, .errorCreate 7 {}⟩, ⟨0, 3, .tick⟩, ⟨0, 4, .setMode .normal⟩, ⟨0, 5, .raiseError⟩]

/-- A periodic thread, stopped by the handler at clock 6. -/
def exMissed : List KEv :=
  [⟨0, 0, .tick⟩, ⟨0, 1, .create { priority := 3, entry := 1, timeCapacity := 5, period := 10 }⟩, ⟨0, 2, .errorCreate 7 {}⟩, ⟨0, 3, .tick⟩,
   ⟨0, 4, .setMode .normal⟩, ⟨0, 5, .raiseError⟩, ⟨0, 6, .stopThread 1⟩]

/-- State, budget and next release of a thread. -/
def exSeen (t : Nat) (k : Kernel) : TState × Int × Nat := ((k.T t).state, (k.T t).remaining, (k.T t).nextActivation)

/-- **C85** violated: a thread that was never created can be restarted; it is dispatched at the next occasion, from the entry point zero. -/
theorem C85_uncreated_violated :
    (runFromBoot exCfg exUnused).map (fun k => (k.curPart, k.curThread 0, (k.P 0).threadError, (k.P 0).index, (k.T 2).state))
      = some (0, 1, 1, 2, .stopped) ∧
    (runFromBoot exCfg exUnused).bind (fun k => (restartThread exCfg 0 6 k 2).map fun r => (r.2, (r.1.T 2).state)) = some (.ok, .runnable) ∧
    (runFromBoot exCfg (exUnused ++ [⟨0, 6, .restartThread 2⟩, ⟨0, 7, .stopSelf⟩])).map (fun k => (k.curThread 0, (k.T 2).entry)) = some (2, 0) := by
  refine ⟨?_, ?_, ?_⟩ <;> decide +kernel

/-- **C85** violated: before an error handler exists, the main thread of the first partition passes for one: it can stop and restart the
partition's threads. -/
theorem C85_no_handler_violated :
    (runFromBoot exCfg (exRestart.take 2)).map (fun k => (k.curThread 0, (k.P 0).threadMain, (k.P 0).threadError, (k.T 1).state)) = some (0, 0, 0, .runnable) ∧
    ((runFromBoot exCfg (exRestart.take 2)).bind fun k => (stopThread exCfg 0 2 k 1).map fun r => (r.2, (r.1.T 1).state)) = some (.ok, .stopped) := by
  refine ⟨?_, ?_⟩ <;> decide +kernel

/-- The hypotheses are met: a stopped thread is restarted, once and again. -/
example :
    (runFromBoot exCfg exRestart).map (fun k => (k.curThread 0, (k.P 0).threadError, (k.P 0).low, (k.T 1).period)) = some (2, 2, 0, -1) ∧
    (runFromBoot exCfg exRestart).map (exSeen 1) = some (.runnable, 5, 0) ∧
    (runFromBoot exCfg (exRestart ++ [⟨0, 6, .stopThread 1⟩])).map (exSeen 1) = some (.stopped, 5, 0) ∧
    (runFromBoot exCfg (exRestart ++ [⟨0, 6, .stopThread 1⟩, ⟨0, 7, .restartThread 1⟩])).map (exSeen 1) = some (.runnable, 5, 2 ^ 64 - 1) ∧
    (runFromBoot exCfg (exRestart ++ [⟨0, 6, .stopThread 1⟩, ⟨0, 7, .restartThread 1⟩, ⟨0, 8, .restartThread 1⟩])).map (exSeen 1)
      = some (.waitNextActivation, 5, 2 ^ 64 - 1) := by
  refine ⟨?_, ?_, ?_, ?_, ?_⟩ <;> decide +kernel

/-- A periodic thread: restarted at clock 60, it is next due at clock 20; restarted at clock 7, at clock 10. -/
example :
    (runFromBoot exCfg exMissed).map (exSeen 1) = some (.stopped, 5, 10) ∧
    (runFromBoot exCfg (exMissed ++ [⟨0, 60, .restartThread 1⟩])).map (exSeen 1) = some (.runnable, 5, 20) ∧
    (runFromBoot exCfg (exMissed ++ [⟨0, 7, .restartThread 1⟩])).map (exSeen 1) = some (.waitNextActivation, 5, 10) := by
  refine ⟨?_, ?_, ?_⟩ <;> decide +kernel

/-- A request outside the partition, or from another thread than the handler. -/
example :
    ((runFromBoot exCfg exRestart).bind fun k => (restartThread exCfg 0 7 k 4).map (·.2)) = some .threadattr ∧
    ((runFromBoot exCfg exHist).bind fun k => (restartThread exCfg 0 7 k 1).map (·.2)) = some .thread := by
  refine ⟨?_, ?_⟩ <;> decide +kernel

end Kernel
end Pok
