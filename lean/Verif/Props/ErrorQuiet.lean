import Verif.Props.ErrorMgmt
import Verif.Props.Create

/-!
# No error, no error status (C37)
-/

namespace Pok
namespace Kernel

/-- During the history no fault and no raised error happens while partition `p` runs. -/
def NoErrorIn (c : Config) (act : Actions) (p : Nat) : Kernel → List EEv → Prop
  | _, [] => True
  | k, e :: es =>
    (k.curPart = p → ∃ x, e = .entry x) ∧ ∀ k1, execE c act k e = some k1 → NoErrorIn c act p k1 es

theorem then_status {c proc now k k'} (h : Then c proc now k k') (p : Nat) : (k'.P p).error = (k.P p).error := by
  have key : ∀ k, schedThread c proc now k = some k' → (k'.P p).error = (k.P p).error := by
    intro k h
    obtain ⟨k1, e0, he, hT, hps, hcur', hP, _⟩ := sched_parts h
    obtain ⟨p1, _⟩ := elect_P he
    rw [hP, (record_P c proc k1 (e0 % 256) p).1, p1]
  rcases h with rfl | h | h
  · rfl
  · exact key _ h
  · exact key (switchPartition c now k) h

/-- A kernel entry leaves the error status of a partition alone, or (restart of the partition) empties it. -/
theorem exec_status {c proc now k call k'} (h : exec c proc now k call = some k') (p : Nat) :
    (k'.P p).error = (k.P p).error ∨
      ((k'.P p).error.kind = 9 ∧ (k'.P p).error.msgSize = 0 ∧ p = k.curPart ∧ (call = .setMode .initCold ∨ call = .setMode .initWarm)) := by
  obtain ⟨k1, h1, h2⟩ := exec_cases h
  rw [then_status h2 p]
  cases h1 with
  | same => exact Or.inl rfl
  | thread call i u ht hk hr => exact Or.inl rfl
  | create a k1 id h =>
    obtain ⟨_, _, _, aff, _, _, rfl⟩ := create_ok h
    left
    by_cases e : p = k.curPart
    · subst e; simp [created]
    · simp [created, upd_other _ _ e]
  | normal hm hi =>
    left
    by_cases e : p = k.curPart
    · subst e; simp [setP]
    · simp [setP, upd_other _ _ e]
  | stop he h0 =>
    left
    by_cases e : p = k.curPart
    · subst e; simp [setP]
    · simp [setP, upd_other _ _ e]
  | init m k1 hm hwm he h0 h =>
    unfold reinit at h
    obtain ⟨k2, id, a, hcr', _, _, _, _, _, _, rfl⟩ := setup_parts h
    obtain ⟨_, _, _, aff, _, _, rfl⟩ := create_ok hcr'
    by_cases e : p = k.curPart
    · subst e
      right
      refine ⟨by simp [setP, created, resetPart], by simp [setP, created, resetPart], rfl, ?_⟩
      rcases hm with rfl | rfl
      · exact Or.inr rfl
      · exact Or.inl rfl
    · left; simp only [setP, created, upd_other _ _ e]
  | errorCreate entry junk k1 id h3 =>
    obtain ⟨_, _, _, aff, _, _, rfl⟩ := create_ok h3
    left
    rw [activate_P]
    have hcre : ((created c k { junk with priority := 200, entry := entry, timeCapacity := 10000 } k.curPart aff).P p).error = (k.P p).error := by
      by_cases e : p = k.curPart
      · subst e; simp [created]
      · simp [created, upd_other _ _ e]
    generalize (created c k { junk with priority := 200, entry := entry, timeCapacity := 10000 } k.curPart aff) = k2 at *
    rw [← hcre]
    by_cases e : p = k2.curPart
    · subst e; simp [setP]
    · simp [setP, upd_other _ _ e]
  | raise => left; rw [activate_P]

/-- A fault or a raised error touches the status of the running partition only. -/
theorem execE_status {c act k e k' p} (h : execE c act k e = some k') (hp : k.curPart = p → ∃ x, e = .entry x) (h9 : (k.P p).error.kind = 9) :
    (k'.P p).error.kind = 9 := by
  cases e with
  | entry e =>
    rcases exec_status h p with h1 | ⟨h1, _⟩
    · rw [h1]; exact h9
    · exact h1
  | fault proc now x =>
    have hne : p ≠ k.curPart := fun e => by obtain ⟨y, hy⟩ := hp e.symm; simp at hy
    rcases fault_cases h with ⟨_, _, rfl⟩ | ⟨_, h1⟩
    · rw [activate_P, setError_other hne]; exact h9
    · rcases partitionError_cases h1 with rfl | ⟨m, _, hm⟩
      · exact h9
      · rcases exec_status hm p with h1 | ⟨h1, _⟩
        · rw [h1]; exact h9
        · exact h1
  | raise proc msg size =>
    have hne : p ≠ k.curPart := fun e => by obtain ⟨y, hy⟩ := hp e.symm; simp at hy
    simp [execE, raiseApplication] at h
    subst h
    rw [activate_P, setError_other hne]; exact h9

/-- **C37** (no error): as long as no thread of a partition has faulted or raised an error since boot, whatever errors other partitions have
had, the status query of the partition answers that there is none, stores nothing and changes nothing. -/
theorem C37_none {c : Config} {act : Actions} {k0 k : Kernel} {es : List EEv} (hc : CfgOk c) (hb : boot c = some k0)
    (hn : NoErrorIn c act k.curPart k0 es) (h : execAllE c act k0 es = some k) (hp : k.curPart < c.nbParts) :
    errorGet k = (k, .unavailable, none) := by
  have key : ∀ p (es : List EEv) (k0 k : Kernel), NoErrorIn c act p k0 es → execAllE c act k0 es = some k → (k0.P p).error.kind = 9 →
      (k.P p).error.kind = 9 := by
    intro p es
    induction es with
    | nil => intro k0 k _ h h9; simp [execAllE] at h; subst h; exact h9
    | cons e es ih =>
      intro k0 k hn h h9
      unfold execAllE at h
      split at h
      · simp at h
      · rename_i k1 h1
        exact ih k1 k (hn.2 k1 h1) h (execE_status h1 hn.1 h9)
  have h9 : (k0.P k.curPart).error.kind = 9 := by
    obtain ⟨P, hP, he⟩ := (boot_spec hc.threads hb).1 _ hp
    rw [he]
    unfold initPart at hP
    split at hP
    · simp at hP
    · injection hP with hP; subst hP; rfl
  have := key _ es k0 k hn h h9
  unfold errorGet
  rw [if_neg (by simp [this, KIND_NONE])]

/-- **C37** (restart): a partition that its handler restarts has no error status any more. -/
theorem C37_restart {c : Config} {k k' : Kernel} {proc now : Nat} {m : Mode} (hm : m = .initCold ∨ m = .initWarm)
    (h : setModeCurrent c proc now k m = some (k', .ok)) (hcur : k'.curPart = k.curPart) : errorGet k' = (k', .unavailable, none) := by
  have hx : exec c proc now k (.setMode m) = some k' := by simp [exec, h]
  have h9 : (k'.P k.curPart).error.kind = 9 := by
    unfold setModeCurrent at h
    simp only at h
    split at h
    · simp at h
    · have key : ∀ k1 : Kernel, reinit c proc (k.setP k.curPart { k.P k.curPart with mode := m }) k.curPart = some k1 →
          globalSched c proc now k1 = some k' → (k'.P k.curPart).error.kind = 9 := by
        intro k1 h1 h2
        rw [then_status (Or.inr (Or.inr h2)) k.curPart]
        unfold reinit at h1
        obtain ⟨k2, id, a, hcr', _, _, _, _, _, _, rfl⟩ := setup_parts h1
        obtain ⟨_, _, _, aff, _, _, rfl⟩ := create_ok hcr'
        simp [setP, created, resetPart]
      rcases hm with rfl | rfl <;>
      · simp only [setMode] at h
        split at h
        · simp at h
        · split at h
          · simp at h
          · split at h
            · simp at h
            · rename_i k1 hk1
              split at h
              · simp at h
              · rename_i k2 hk2
                simp only [Option.some.injEq, Prod.mk.injEq, and_true] at h
                subst h
                exact key k1 hk1 hk2
  unfold errorGet
  rw [hcur, if_neg (by simp [h9, KIND_NONE])]

/-- Partition 0 creates its handler and starts; an error in partition 0 leaves partition 1 without a status, and partition 0 with one; after
the restart there is none. -/
example : (runE exCfg noAction (exHandler ++ [.raise 0 [65, 66] 2])).map (fun k => (k.curPart, ((k.P 0).error.kind, (k.P 1).error.kind))) = some (0, 11, 9) ∧
    (runE exCfg noAction (exHandler ++ [.raise 0 [65, 66] 2, .entry ⟨0, 100, .tick⟩])).map (fun k => (k.curPart, (errorGet k).2)) = some (1, .unavailable, none) ∧
    (runE exCfg noAction (exHandler ++ [.raise 0 [65, 66] 2])).bind (fun k => (setModeCurrent exCfg 0 8 k .initCold).map fun r => (r.2, r.1.curPart, (errorGet r.1).2)) =
      some (.ok, 0, .unavailable, none) := by
  refine ⟨?_, ?_, ?_⟩ <;> decide +kernel

end Kernel
end Pok
