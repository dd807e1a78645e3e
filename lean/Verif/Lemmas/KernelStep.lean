import Verif.Model.KernelSys
import Verif.Lemmas.Kernel

/-! Helper lemmas: every kernel entry is an elementary change followed by at most one election. -/

namespace Pok
namespace Kernel

/-- Fields a management call on an existing thread does not change. -/
def Keeps (call : KCall) (t t' : Thread) : Prop :=
  t'.affinity = t.affinity ∧ t'.timeCapacity = t.timeCapacity ∧ t'.entry = t.entry ∧
    t'.partition = t.partition ∧ t'.basePriority = t.basePriority ∧ t'.period = t.period ∧
    t'.deadline = t.deadline ∧
    (t'.nextActivation = t.nextActivation ∨ ∃ id us, call = .delayedStart id us) ∧
    (t'.remaining = t.remaining ∨ t'.remaining = t.timeCapacity ∨ t'.remaining = 0)

/-- Which thread a call on a single thread acts on. -/
def target (proc : Nat) (k : Kernel) : KCall → Option Nat
  | .sleep _ | .sleepUntil _ | .endPeriod | .stopSelf | .block | .blockTimed _ => some (k.curThread proc)
  | .delayedStart id _ | .setPriority id _ | .resume id | .suspendTarget id | .unblock id => some id
  | .restartThread tid | .stopThread tid => some ((tid + (k.P k.curPart).low) % U32)
  | _ => none

/-- Calls by which a thread acts on itself. -/
def selfCall : KCall → Bool
  | .sleep _ | .sleepUntil _ | .endPeriod | .stopSelf | .block | .blockTimed _ => true
  | _ => false

/-- The elementary change made by a kernel entry before it elects. -/
inductive PreStep (c : Config) (proc now : Nat) (k : Kernel) : KCall → Kernel → Prop
  | same (call) : PreStep c proc now k call k
  | thread (call i t) (ht : target proc k call = some i) (hk : Keeps call (k.T i) t)
      (hr : (selfCall call = true ∧ i = k.curThread proc) ∨ call = .unblock i ∨
        ((k.P k.curPart).low ≤ i ∧ i ≤ (k.P k.curPart).high)) :
      PreStep c proc now k call (k.setT i t)
  | create (a k1 id) (h : threadCreate c k a k.curPart = some (k1, .ok, some id)) :
      PreStep c proc now k (.create a) k1
  | normal (hm : k.curThread proc = (k.P k.curPart).threadMain) (hi : (k.P k.curPart).mode ≠ .idle) :
      PreStep c proc now k (.setMode .normal)
        { (k.setP k.curPart { k.P k.curPart with mode := .normal }) with
          T := (releaseLoop c now (k.P k.curPart).activation k.T (k.P k.curPart).low
            (k.P k.curPart).nthreads).setState (k.P k.curPart).threadMain .stopped }
  | stop (he : k.curThread proc = (k.P k.curPart).threadError) (h0 : (k.P k.curPart).threadError ≠ 0) :
      PreStep c proc now k (.setMode .stopped) (k.setP k.curPart { k.P k.curPart with mode := .stopped })
  | init (m k1) (hm : m = .initWarm ∨ m = .initCold)
      (hw : ¬ ((k.P k.curPart).mode = .initCold ∧ m = .initWarm))
      (he : k.curThread proc = (k.P k.curPart).threadError) (h0 : (k.P k.curPart).threadError ≠ 0)
      (h : reinit c proc (k.setP k.curPart { k.P k.curPart with mode := m }) k.curPart = some k1) :
      PreStep c proc now k (.setMode m) k1
  | errorCreate (entry junk k1 id)
      (h : threadCreate c k { junk with priority := 200, entry := entry, timeCapacity := 10000 } k.curPart
        = some (k1, .ok, some id)) :
      PreStep c proc now k (.errorCreate entry junk)
        (activateError proc (k1.setP k1.curPart { k1.P k1.curPart with threadError := id }))
  | raise : PreStep c proc now k .raiseError (activateError proc k)

/-- What follows the elementary change. -/
def Then (c : Config) (proc now : Nat) (k1 k' : Kernel) : Prop :=
  k' = k1 ∨ schedThread c proc now k1 = some k' ∨ globalSched c proc now k1 = some k'

theorem map_some {α β} {o : Option α} {f : α → β} {b : β} (h : o.map f = some b) : ∃ a, o = some a ∧ f a = b := by
  cases o with
  | none => simp at h
  | some a => exact ⟨a, rfl, by simpa using h⟩

theorem outOfRange_false {k : Kernel} {id : Nat} (h : outOfRange k id = false) :
    (k.P k.curPart).low ≤ id ∧ id ≤ (k.P k.curPart).high := by
  unfold outOfRange at h
  simpa using h

/-- The state after a successful creation. -/
def created (c : Config) (k : Kernel) (a : ThreadAttr) (pid aff : Nat) : Kernel :=
  let P := k.P pid
  let id := P.low + P.index
  let T := upd k.T id (newThread (k.T id) a pid aff (c.stackAddr pid (P.index + 1)))
  let T := if P.sched = .rms ∧ id > P.low then insertSort T (P.low + 1) id else T
  { k with T := T, P := upd k.P pid { P with index := P.index + 1 } }

theorem create_spec {c k a pid k1 r o} (h : threadCreate c k a pid = some (k1, r, o)) :
    (k1 = k ∧ o = none ∧ ((r = .mode ∧ (k.P pid).mode ≠ .initCold ∧ (k.P pid).mode ≠ .initWarm) ∨
      (r = .toomany ∧ (k.P pid).high ≤ (k.P pid).low + (k.P pid).index))) ∨
    (r = .ok ∧ o = some ((k.P pid).low + (k.P pid).index) ∧
      ((k.P pid).mode = .initCold ∨ (k.P pid).mode = .initWarm) ∧
      (k.P pid).low + (k.P pid).index < (k.P pid).high ∧
      ∃ aff, procRealId (c.affinity pid) a.affinity = some aff ∧
        (if c.multi ≠ 0 then aff < c.multi else aff = 0) ∧
        ((k.P pid).mainEntry = a.entry → aff = (k.P pid).mainProc) ∧
        k1 = created c k a pid aff) := by
  unfold threadCreate at h
  simp only at h
  split at h
  · rename_i hm
    simp only [Option.some.injEq, Prod.mk.injEq] at h
    exact Or.inl ⟨h.1.symm, h.2.2.symm, Or.inl ⟨h.2.1.symm, hm⟩⟩
  · rename_i hm
    split at h
    · simp only [Option.some.injEq, Prod.mk.injEq] at h
      exact Or.inl ⟨h.1.symm, h.2.2.symm, Or.inr ⟨h.2.1.symm, by assumption⟩⟩
    · rename_i hlt
      split at h
      · simp at h
      · rename_i aff haff
        by_cases hmu : ¬ (if c.multi ≠ 0 then aff < c.multi else aff = 0)
        · rw [if_pos hmu] at h; simp at h
        · rw [if_neg hmu] at h
          split at h
          · simp at h
          · rename_i hme
            simp only [Option.some.injEq, Prod.mk.injEq] at h
            refine Or.inr ⟨h.2.1.symm, h.2.2.symm, ?_, by omega, aff, haff, ?_, ?_, h.1.symm⟩
            · by_cases h1 : (k.P pid).mode = .initCold
              · exact Or.inl h1
              · by_cases h2 : (k.P pid).mode = .initWarm
                · exact Or.inr h2
                · exact absurd ⟨h1, h2⟩ hm
            · exact Classical.not_not.1 hmu
            · intro he
              by_contra hne
              exact hme ⟨he, hne⟩

theorem exec_cases {c proc now k call k'} (h : exec c proc now k call = some k') :
    ∃ k1, PreStep c proc now k call k1 ∧ Then c proc now k1 k' := by
  cases call with
  | tick => exact ⟨k, .same _, Or.inr (Or.inr h)⟩
  | resched => exact ⟨k, .same _, Or.inr (Or.inl h)⟩
  | create a =>
    obtain ⟨⟨k1, r, o⟩, h1, rfl⟩ := map_some h
    rcases create_spec h1 with ⟨rfl, _⟩ | ⟨rfl, rfl, _⟩
    · exact ⟨_, .same _, Or.inl rfl⟩
    · exact ⟨k1, .create a k1 _ h1, Or.inl rfl⟩
  | sleep us =>
    refine ⟨_, .thread _ (k.curThread proc) _ rfl ?_ (Or.inl ⟨rfl, rfl⟩), Or.inr (Or.inl h)⟩
    exact ⟨rfl, rfl, rfl, rfl, rfl, rfl, rfl, by first | exact Or.inl rfl | exact Or.inr ⟨_, _, rfl⟩, by first | exact Or.inl rfl | exact Or.inr (Or.inl rfl) | exact Or.inr (Or.inr rfl)⟩
  | sleepUntil us =>
    refine ⟨_, .thread _ (k.curThread proc) _ rfl ?_ (Or.inl ⟨rfl, rfl⟩), Or.inr (Or.inl h)⟩
    exact ⟨rfl, rfl, rfl, rfl, rfl, rfl, rfl, by first | exact Or.inl rfl | exact Or.inr ⟨_, _, rfl⟩, by first | exact Or.inl rfl | exact Or.inr (Or.inl rfl) | exact Or.inr (Or.inr rfl)⟩
  | endPeriod =>
    refine ⟨_, .thread _ (k.curThread proc) _ rfl ?_ (Or.inl ⟨rfl, rfl⟩), Or.inr (Or.inl h)⟩
    exact ⟨rfl, rfl, rfl, rfl, rfl, rfl, rfl, by first | exact Or.inl rfl | exact Or.inr ⟨_, _, rfl⟩, by first | exact Or.inl rfl | exact Or.inr (Or.inl rfl) | exact Or.inr (Or.inr rfl)⟩
  | stopSelf =>
    refine ⟨_, .thread _ (k.curThread proc) _ rfl ?_ (Or.inl ⟨rfl, rfl⟩), Or.inr (Or.inl h)⟩
    exact ⟨rfl, rfl, rfl, rfl, rfl, rfl, rfl, by first | exact Or.inl rfl | exact Or.inr ⟨_, _, rfl⟩, by first | exact Or.inl rfl | exact Or.inr (Or.inl rfl) | exact Or.inr (Or.inr rfl)⟩
  | block =>
    refine ⟨_, .thread _ (k.curThread proc) _ rfl ?_ (Or.inl ⟨rfl, rfl⟩), Or.inr (Or.inl h)⟩
    exact ⟨rfl, rfl, rfl, rfl, rfl, rfl, rfl, by first | exact Or.inl rfl | exact Or.inr ⟨_, _, rfl⟩, by first | exact Or.inl rfl | exact Or.inr (Or.inl rfl) | exact Or.inr (Or.inr rfl)⟩
  | blockTimed t =>
    refine ⟨_, .thread _ (k.curThread proc) _ rfl ?_ (Or.inl ⟨rfl, rfl⟩), Or.inr (Or.inl h)⟩
    exact ⟨rfl, rfl, rfl, rfl, rfl, rfl, rfl, by first | exact Or.inl rfl | exact Or.inr ⟨_, _, rfl⟩, by first | exact Or.inl rfl | exact Or.inr (Or.inl rfl) | exact Or.inr (Or.inr rfl)⟩
  | unblock id =>
    simp only [exec, Option.some.injEq] at h
    refine ⟨_, .thread _ id _ rfl ?_ (Or.inr (Or.inl rfl)), Or.inl h.symm⟩
    exact ⟨rfl, rfl, rfl, rfl, rfl, rfl, rfl, by first | exact Or.inl rfl | exact Or.inr ⟨_, _, rfl⟩, by first | exact Or.inl rfl | exact Or.inr (Or.inl rfl) | exact Or.inr (Or.inr rfl)⟩
  | raiseError =>
    simp only [exec, Option.some.injEq] at h
    exact ⟨_, .raise, Or.inl h.symm⟩
  | suspendTarget id =>
    simp only [exec, Option.some.injEq] at h
    unfold suspendTarget at h
    split at h
    · exact ⟨k, .same _, Or.inl h.symm⟩
    · rename_i hc
      have hr := outOfRange_false (k := k) (id := id) (by cases hx : outOfRange k id <;> simp_all)
      refine ⟨_, .thread _ id _ rfl ?_ (Or.inr (Or.inr hr)), Or.inl h.symm⟩
      exact ⟨rfl, rfl, rfl, rfl, rfl, rfl, rfl, by first | exact Or.inl rfl | exact Or.inr ⟨_, _, rfl⟩, by first | exact Or.inl rfl | exact Or.inr (Or.inl rfl) | exact Or.inr (Or.inr rfl)⟩
  | setPriority id p =>
    obtain ⟨⟨k1, r⟩, h1, rfl⟩ := map_some h
    unfold setPriority at h1
    split at h1
    · simp at h1; exact ⟨k, .same _, Or.inl h1.1.symm⟩
    · rename_i hc
      have hr := outOfRange_false (k := k) (id := id) (by simpa using hc)
      split at h1
      · simp at h1
      · rename_i k2 hk2
        simp at h1
        refine ⟨_, .thread _ id _ rfl ?_ (Or.inr (Or.inr hr)),
          Or.inr (Or.inr (by rw [hk2]; exact congrArg some h1.1))⟩
        exact ⟨rfl, rfl, rfl, rfl, rfl, rfl, rfl, by first | exact Or.inl rfl | exact Or.inr ⟨_, _, rfl⟩, by first | exact Or.inl rfl | exact Or.inr (Or.inl rfl) | exact Or.inr (Or.inr rfl)⟩
  | resume id =>
    obtain ⟨⟨k1, r⟩, h1, rfl⟩ := map_some h
    unfold resume at h1
    split at h1
    · simp at h1; exact ⟨k, .same _, Or.inl h1.1.symm⟩
    · rename_i hc
      have hr := outOfRange_false (k := k) (id := id) (by simpa using hc)
      split at h1
      · simp at h1
      · rename_i k2 hk2
        simp at h1
        refine ⟨_, .thread _ id _ rfl ?_ (Or.inr (Or.inr hr)),
          Or.inr (Or.inr (by rw [hk2]; exact congrArg some h1.1))⟩
        exact ⟨rfl, rfl, rfl, rfl, rfl, rfl, rfl, by first | exact Or.inl rfl | exact Or.inr ⟨_, _, rfl⟩, by first | exact Or.inl rfl | exact Or.inr (Or.inl rfl) | exact Or.inr (Or.inr rfl)⟩
  | delayedStart id us =>
    obtain ⟨⟨k1, r⟩, h1, rfl⟩ := map_some h
    unfold delayedStart at h1
    simp only at h1
    split at h1
    · simp at h1; exact ⟨k, .same _, Or.inl h1.1.symm⟩
    · rename_i hc
      have hr := outOfRange_false (k := k) (id := id) (by simpa using hc)
      split at h1
      · split at h1
        · split at h1
          · simp at h1
          · rename_i k2 hk2
            simp at h1
            refine ⟨_, .thread _ id _ rfl ?_ (Or.inr (Or.inr hr)),
              Or.inr (Or.inr (by rw [hk2]; exact congrArg some h1.1))⟩
            split
            · split <;> exact ⟨rfl, rfl, rfl, rfl, rfl, rfl, rfl, by first | exact Or.inl rfl | exact Or.inr ⟨_, _, rfl⟩, by first | exact Or.inl rfl | exact Or.inr (Or.inl rfl) | exact Or.inr (Or.inr rfl)⟩
            · exact ⟨rfl, rfl, rfl, rfl, rfl, rfl, rfl, by first | exact Or.inl rfl | exact Or.inr ⟨_, _, rfl⟩, by first | exact Or.inl rfl | exact Or.inr (Or.inl rfl) | exact Or.inr (Or.inr rfl)⟩
        · simp at h1
          refine ⟨_, .thread _ id _ rfl ?_ (Or.inr (Or.inr hr)), Or.inl h1.1.symm⟩
          exact ⟨rfl, rfl, rfl, rfl, rfl, rfl, rfl, by first | exact Or.inl rfl | exact Or.inr ⟨_, _, rfl⟩, by first | exact Or.inl rfl | exact Or.inr (Or.inl rfl) | exact Or.inr (Or.inr rfl)⟩
      · split at h1
        · simp at h1
          refine ⟨_, .thread _ id _ rfl ?_ (Or.inr (Or.inr hr)), Or.inl h1.1.symm⟩
          exact ⟨rfl, rfl, rfl, rfl, rfl, rfl, rfl, by first | exact Or.inl rfl | exact Or.inr ⟨_, _, rfl⟩, by first | exact Or.inl rfl | exact Or.inr (Or.inl rfl) | exact Or.inr (Or.inr rfl)⟩
        · simp at h1
          refine ⟨_, .thread _ id _ rfl ?_ (Or.inr (Or.inr hr)), Or.inl h1.1.symm⟩
          exact ⟨rfl, rfl, rfl, rfl, rfl, rfl, rfl, by first | exact Or.inl rfl | exact Or.inr ⟨_, _, rfl⟩, by first | exact Or.inl rfl | exact Or.inr (Or.inl rfl) | exact Or.inr (Or.inr rfl)⟩
  | restartThread tid =>
    obtain ⟨⟨k1, r⟩, h1, rfl⟩ := map_some h
    unfold restartThread at h1
    simp only at h1
    split at h1
    · simp at h1; exact ⟨k, .same _, Or.inl h1.1.symm⟩
    · split at h1
      · simp at h1; exact ⟨k, .same _, Or.inl h1.1.symm⟩
      · rename_i hc
        split at h1
        · simp at h1
        · rename_i k2 hk2
          simp at h1
          refine ⟨_, .thread _ _ _ rfl ?_ (Or.inr (Or.inr (by omega))),
            Or.inr (Or.inr (by unfold threadRestart at hk2; rw [hk2]; exact congrArg some h1.1))⟩
          exact ⟨rfl, rfl, rfl, rfl, rfl, rfl, rfl, by first | exact Or.inl rfl | exact Or.inr ⟨_, _, rfl⟩, by first | exact Or.inl rfl | exact Or.inr (Or.inl rfl) | exact Or.inr (Or.inr rfl)⟩
  | stopThread tid =>
    obtain ⟨⟨k1, r⟩, h1, rfl⟩ := map_some h
    unfold stopThread at h1
    simp only at h1
    split at h1
    · simp at h1; exact ⟨k, .same _, Or.inl h1.1.symm⟩
    · split at h1
      · simp at h1; exact ⟨k, .same _, Or.inl h1.1.symm⟩
      · rename_i hc
        split at h1
        · simp at h1
        · rename_i k2 hk2
          simp at h1
          refine ⟨_, .thread _ _ _ rfl ?_ (Or.inr (Or.inr (by omega))),
            Or.inr (Or.inr (by rw [hk2]; exact congrArg some h1.1))⟩
          exact ⟨rfl, rfl, rfl, rfl, rfl, rfl, rfl, by first | exact Or.inl rfl | exact Or.inr ⟨_, _, rfl⟩, by first | exact Or.inl rfl | exact Or.inr (Or.inl rfl) | exact Or.inr (Or.inr rfl)⟩
  | errorCreate entry junk =>
    obtain ⟨⟨k1, r⟩, h1, rfl⟩ := map_some h
    unfold errorThreadCreate at h1
    split at h1
    · rename_i k2 id h2
      simp at h1
      exact ⟨_, .errorCreate entry junk k2 id h2, Or.inl h1.1.symm⟩
    · simp at h1
  | setMode m =>
    obtain ⟨⟨k1, r⟩, h1, rfl⟩ := map_some h
    unfold setModeCurrent at h1
    simp only at h1
    split at h1
    · simp at h1; exact ⟨k, .same _, Or.inl h1.1.symm⟩
    · have hP : ∀ v, (k.setP k.curPart v).P k.curPart = v := fun v => by simp [setP]
      unfold setMode at h1
      simp only at h1
      split at h1
      · split at h1
        · simp at h1; exact ⟨k, .same _, Or.inl h1.1.symm⟩
        · split at h1
          · simp at h1; exact ⟨k, .same _, Or.inl h1.1.symm⟩
          · rename_i hi hm
            split at h1
            · simp at h1
            · rename_i k2 hk2
              simp at h1
              refine ⟨_, .normal (by simpa using hm) hi, Or.inr (Or.inr ?_)⟩
              have hcp : (k.setP k.curPart { k.P k.curPart with mode := .normal }).curPart = k.curPart := rfl
              rw [hcp, hP] at hk2
              rw [← h1.1]
              exact hk2
      · split at h1
        · simp at h1; exact ⟨k, .same _, Or.inl h1.1.symm⟩
        · rename_i hn
          split at h1
          · simp at h1
          · rename_i k2 hk2
            simp at h1
            have h0 : (k.P k.curPart).threadError ≠ 0 := fun h => hn (Or.inl h)
            have he : k.curThread proc = (k.P k.curPart).threadError := by
              by_cases hh : k.curThread proc = (k.P k.curPart).threadError
              · exact hh
              · exact absurd (Or.inr hh) hn
            exact ⟨_, .stop he h0, Or.inr (Or.inr (by rw [hk2]; exact congrArg some h1.1))⟩
      · split at h1
        · simp at h1; exact ⟨k, .same _, Or.inl h1.1.symm⟩
        · split at h1
          · simp at h1; exact ⟨k, .same _, Or.inl h1.1.symm⟩
          · rename_i hw hn
            split at h1
            · simp at h1
            · rename_i k2 hk2
              split at h1
              · simp at h1
              · rename_i k3 hk3
                simp at h1
                have h0 : (k.P k.curPart).threadError ≠ 0 := fun h => hn (Or.inl h)
                have he : k.curThread proc = (k.P k.curPart).threadError := by
                  by_cases hh : k.curThread proc = (k.P k.curPart).threadError
                  · exact hh
                  · exact absurd (Or.inr hh) hn
                exact ⟨_, .init _ _ (Or.inl rfl) hw he h0 hk2, Or.inr (Or.inr (by rw [hk3]; exact congrArg some h1.1))⟩
      · split at h1
        · simp at h1; exact ⟨k, .same _, Or.inl h1.1.symm⟩
        · split at h1
          · simp at h1; exact ⟨k, .same _, Or.inl h1.1.symm⟩
          · rename_i hw hn
            split at h1
            · simp at h1
            · rename_i k2 hk2
              split at h1
              · simp at h1
              · rename_i k3 hk3
                simp at h1
                have h0 : (k.P k.curPart).threadError ≠ 0 := fun h => hn (Or.inl h)
                have he : k.curThread proc = (k.P k.curPart).threadError := by
                  by_cases hh : k.curThread proc = (k.P k.curPart).threadError
                  · exact hh
                  · exact absurd (Or.inr hh) hn
                exact ⟨_, .init _ _ (Or.inr rfl) hw he h0 hk2, Or.inr (Or.inr (by rw [hk3]; exact congrArg some h1.1))⟩
      · simp at h1; exact ⟨k, .same _, Or.inl h1.1.symm⟩

end Kernel
end Pok
