import Verif.Model.PartMgmt
import Verif.Lemmas.ThreadSched

/-! Helper lemmas about thread election. -/

namespace Pok
open Pok.Spec

/-- Fields that elections never change. -/
structure SameStatic (t t' : Thread) : Prop where
  priority : t'.priority = t.priority
  basePriority : t'.basePriority = t.basePriority
  period : t'.period = t.period
  deadline : t'.deadline = t.deadline
  timeCapacity : t'.timeCapacity = t.timeCapacity
  wakeup : t'.wakeup = t.wakeup
  entry : t'.entry = t.entry
  partition : t'.partition = t.partition
  sp : t'.sp = t.sp
  initStackAddr : t'.initStackAddr = t.initStackAddr
  affinity : t'.affinity = t.affinity

theorem SameStatic.refl (t : Thread) : SameStatic t t := ⟨rfl, rfl, rfl, rfl, rfl, rfl, rfl, rfl, rfl, rfl, rfl⟩

theorem SameStatic.trans {a b c : Thread} (h : SameStatic a b) (h' : SameStatic b c) : SameStatic a c :=
  ⟨h'.1.trans h.1, h'.2.trans h.2, h'.3.trans h.3, h'.4.trans h.4, h'.5.trans h.5, h'.6.trans h.6,
   h'.7.trans h.7, h'.8.trans h.8, h'.9.trans h.9, h'.10.trans h.10, h'.11.trans h.11⟩

namespace Kernel

/-- What the wake-up pass can do to a thread: nothing, a wake-up, or a release. -/
theorem wakeOne_cases {c proc now t t'} (h : wakeOne c proc now t = some t') :
    (t' = t ∧ ¬ (t.affinity = proc ∧ c.wakes = true ∧ t.state = .waiting ∧ t.wakeup ≤ now) ∧
      ¬ (t.affinity = proc ∧ t.state = .waitNextActivation ∧ t.nextActivation ≤ now)) ∨
    (t.affinity = proc ∧ c.wakes = true ∧ t.state = .waiting ∧ t.wakeup ≤ now ∧
      t' = { t with state := .runnable }) ∨
    (t.affinity = proc ∧ t.state = .waitNextActivation ∧ t.nextActivation ≤ now ∧ t.timeCapacity ≠ 0 ∧
      t' = { t with state := .runnable, remaining := t.timeCapacity,
                    nextActivation := addU64 t.nextActivation t.period }) := by
  unfold wakeOne at h
  by_cases ha : t.affinity = proc
  · rw [if_neg (by simpa using ha)] at h
    simp only at h
    by_cases hw : c.wakes = true ∧ t.state = .waiting ∧ t.wakeup ≤ now
    · rw [if_pos hw] at h
      simp at h
      subst h
      exact Or.inr (Or.inl ⟨ha, hw.1, hw.2.1, hw.2.2, rfl⟩)
    · rw [if_neg hw] at h
      by_cases hn : t.state = .waitNextActivation ∧ t.nextActivation ≤ now
      · rw [if_pos hn] at h
        split at h
        · simp at h
        · injection h with h
          subst h
          exact Or.inr (Or.inr ⟨ha, hn.1, hn.2, by assumption, rfl⟩)
      · rw [if_neg hn] at h
        injection h with h
        exact Or.inl ⟨h.symm, fun h => hw h.2, fun h => hn h.2⟩
  · rw [if_pos ha] at h
    injection h with h
    exact Or.inl ⟨h.symm, fun h => ha h.1, fun h => ha h.1⟩

theorem wakeOne_static {c proc now t t'} (h : wakeOne c proc now t = some t') : SameStatic t t' := by
  rcases wakeOne_cases h with ⟨rfl, _⟩ | ⟨_, _, _, _, rfl⟩ | ⟨_, _, _, _, rfl⟩
  · exact .refl _
  · exact ⟨rfl, rfl, rfl, rfl, rfl, rfl, rfl, rfl, rfl, rfl, rfl⟩
  · exact ⟨rfl, rfl, rfl, rfl, rfl, rfl, rfl, rfl, rfl, rfl, rfl⟩

theorem wakeLoop_spec {c proc now} : ∀ (n i : Nat) (T T' : Threads), wakeLoop c proc now T i n = some T' →
    (∀ j, i ≤ j → j < i + n → wakeOne c proc now (T j) = some (T' j)) ∧
    (∀ j, (j < i ∨ i + n ≤ j) → T' j = T j) := by
  intro n
  induction n with
  | zero =>
    intro i T T' h
    simp [wakeLoop] at h
    subst h
    exact ⟨fun j h1 h2 => by omega, fun j _ => rfl⟩
  | succ n ih =>
    intro i T T' h
    unfold wakeLoop at h
    split at h
    · simp at h
    · rename_i t ht
      obtain ⟨h1, h2⟩ := ih _ _ _ h
      refine ⟨?_, ?_⟩
      · intro j hj1 hj2
        by_cases hj : j = i
        · subst hj
          rw [h2 j (Or.inl (by omega)), upd_same]; exact ht
        · have := h1 j (by omega) (by omega)
          rwa [upd_other _ _ hj] at this
      · intro j hj
        rw [h2 j (by omega), upd_other _ _ (by omega)]

/-- The wake-up pass is defined when no thread of the partition has a zero capacity. -/
theorem wakeLoop_total {c proc now} : ∀ (n i : Nat) (T : Threads),
    (∀ j, i ≤ j → j < i + n → (T j).timeCapacity ≠ 0) → ∃ T', wakeLoop c proc now T i n = some T' := by
  intro n
  induction n with
  | zero => intro i T _; exact ⟨T, rfl⟩
  | succ n ih =>
    intro i T h
    have hone : ∃ t, wakeOne c proc now (T i) = some t := by
      have hc := h i (by omega) (by omega)
      unfold wakeOne
      by_cases ha : (T i).affinity ≠ proc
      · rw [if_pos ha]; exact ⟨_, rfl⟩
      · rw [if_neg ha]
        by_cases hw : c.wakes = true ∧ (T i).state = .waiting ∧ (T i).wakeup ≤ now
        · rw [if_pos hw]; exact ⟨{ T i with state := .runnable }, by simp⟩
        · rw [if_neg hw]
          simp only
          by_cases hn : (T i).state = .waitNextActivation ∧ (T i).nextActivation ≤ now
          · rw [if_pos hn, if_neg hc]; exact ⟨_, rfl⟩
          · rw [if_neg hn]; exact ⟨_, rfl⟩
    obtain ⟨t, ht⟩ := hone
    unfold wakeLoop
    rw [ht]
    apply ih
    intro j hj1 hj2
    rw [upd_other _ _ (by omega)]
    exact h j (by omega) (by omega)

theorem account_other {c proc k T j} (h : j ≠ k.curThread proc) : account c proc k T j = T j := by
  unfold account
  simp only
  repeat' split
  all_goals first | rfl | exact upd_other _ _ h

theorem account_static (c proc k T j) : SameStatic (T j) (account c proc k T j) := by
  unfold account
  simp only
  by_cases hj : j = k.curThread proc
  · subst hj
    repeat' split
    all_goals first
      | exact .refl _
      | (rw [upd_same]; exact ⟨rfl, rfl, rfl, rfl, rfl, rfl, rfl, rfl, rfl, rfl, rfl⟩)
  · repeat' split
    all_goals first
      | exact .refl _
      | (rw [upd_other _ _ hj]; exact .refl _)

/-- What the accounting does to the running thread. -/
theorem account_self (c proc k) (T : Threads) :
    let t := T (k.curThread proc)
    let t' := account c proc k T (k.curThread proc)
    t' = t ∨ (t.remaining > 0 ∧ t' = { t with remaining := t.remaining - 1 }) ∨
      (t.remaining ≤ 0 ∧ t.timeCapacity > 0 ∧ t' = { t with state := .waitNextActivation }) := by
  intro t t'
  simp only [t', account]
  split
  · split
    · right; left; refine ⟨by assumption, ?_⟩; rw [upd_same]
    · split
      · right; right; refine ⟨Int.not_lt.1 (by assumption), by assumption, ?_⟩; rw [upd_same]
      · left; rfl
  · left; rfl

/-- Does the accounting apply to the running thread? -/
def Accounted (c : Config) (proc : Nat) (k : Kernel) : Prop :=
  k.curThread proc ≠ idle c proc ∧ k.curThread proc ≠ (k.P k.curPart).threadMain ∧
    k.curThread proc ≠ (k.P k.curPart).threadError

theorem account_accounted {c proc k} {T : Threads} (h : Accounted c proc k) :
    account c proc k T (k.curThread proc) =
      (if (T (k.curThread proc)).remaining > 0 then
        { T (k.curThread proc) with remaining := (T (k.curThread proc)).remaining - 1 }
      else if (T (k.curThread proc)).timeCapacity > 0 then
        { T (k.curThread proc) with state := .waitNextActivation }
      else T (k.curThread proc)) := by
  unfold account
  simp only
  rw [if_pos (show _ ∧ _ ∧ _ from h)]
  split
  · rw [upd_same]
  · split
    · rw [upd_same]
    · rfl

theorem choose_table {c proc k T pid T' e} (h : choose c proc k T pid = some (T', e)) :
    T' = T ∨ (T' = account c proc k T ∧ (k.P pid).mode = .normal) := by
  unfold choose at h
  simp only at h
  split at h
  · split at h <;> (simp at h; exact Or.inl h.1.symm)
  · split at h <;> (simp at h; exact Or.inl h.1.symm)
  · rename_i hm
    split at h
    · simp at h; exact Or.inl h.1.symm
    · split at h
      · simp at h
      · simp at h; exact Or.inr ⟨h.1.symm, hm⟩
  · simp at h; exact Or.inl h.1.symm

/-- Decomposition of an election: wake-up pass `T1`, choice `T2`, deadline update. -/
theorem elect_parts {c proc now k pid k' e} (h : electThread c proc now k pid = some (k', e)) :
    ∃ T1 T2, (k.P pid).nthreads ≤ 255 ∧
      wakeLoop c proc now k.T (k.P pid).low (k.P pid).nthreads = some T1 ∧
      choose c proc k T1 pid = some (T2, e) ∧
      k' = { k with T := (if (T2 (k.curThread proc)).timeCapacity > 0 then
                (upd T2 e { T2 e with endTime := addU64 now (T2 e).remaining }) else T2) } := by
  unfold electThread at h
  split at h
  · simp at h
  · split at h
    · simp at h
    · rename_i T1 h1
      split at h
      · simp at h
      · rename_i T2 e2 h2
        simp at h
        obtain ⟨rfl, rfl⟩ := h
        exact ⟨T1, T2, by omega, h1, h2, rfl⟩

/-- The final deadline update changes nothing but `endTime`. -/
theorem endTime_upd (T2 : Threads) (cond : Prop) [Decidable cond] (e now j : Nat) :
    ∃ x, (if cond then upd T2 e { T2 e with endTime := addU64 now (T2 e).remaining } else T2) j
      = { T2 j with endTime := x } := by
  split
  · by_cases hj : j = e
    · subst hj; exact ⟨_, by rw [upd_same]⟩
    · exact ⟨_, upd_other _ _ hj⟩
  · exact ⟨_, rfl⟩

theorem elect_static {c proc now k pid k' e} (h : electThread c proc now k pid = some (k', e)) (j : Nat) :
    SameStatic (k.T j) (k'.T j) := by
  obtain ⟨T1, T2, _, h1, h2, rfl⟩ := elect_parts h
  obtain ⟨a, b⟩ := wakeLoop_spec _ _ _ _ h1
  have s1 : SameStatic (k.T j) (T1 j) := by
    by_cases hj : (k.P pid).low ≤ j ∧ j < (k.P pid).low + (k.P pid).nthreads
    · exact wakeOne_static (a j hj.1 hj.2)
    · rw [b j (by omega)]; exact .refl _
  have s2 : SameStatic (T1 j) (T2 j) := by
    rcases choose_table h2 with rfl | ⟨rfl, _⟩
    · exact .refl _
    · exact account_static _ _ _ _ _
  obtain ⟨x, hx⟩ := endTime_upd T2 ((T2 (k.curThread proc)).timeCapacity > 0) e now j
  refine s1.trans (s2.trans ?_)
  simp only [hx]
  exact ⟨rfl, rfl, rfl, rfl, rfl, rfl, rfl, rfl, rfl, rfl, rfl⟩

/-- Full description of what an election does to a thread that is not running on this processor. -/
theorem elect_other {c proc now k pid k' e} (h : electThread c proc now k pid = some (k', e)) {j : Nat}
    (hj : j ≠ k.curThread proc) :
    ∃ x t, k'.T j = { t with endTime := x } ∧
      (if (k.P pid).low ≤ j ∧ j < (k.P pid).low + (k.P pid).nthreads
        then wakeOne c proc now (k.T j) = some t else t = k.T j) := by
  obtain ⟨T1, T2, _, h1, h2, rfl⟩ := elect_parts h
  obtain ⟨a, b⟩ := wakeLoop_spec _ _ _ _ h1
  obtain ⟨x, hx⟩ := endTime_upd T2 ((T2 (k.curThread proc)).timeCapacity > 0) e now j
  have e2 : T2 j = T1 j := by
    rcases choose_table h2 with rfl | ⟨rfl, _⟩
    · rfl
    · exact account_other hj
  refine ⟨x, T1 j, hx.trans (by rw [e2]), ?_⟩
  split
  · rename_i hr; exact a j hr.1 hr.2
  · exact b j (by omega)

theorem elect_P {c proc now k pid k' e} (h : electThread c proc now k pid = some (k', e)) :
    k'.P = k.P ∧ k'.curThread = k.curThread ∧ k'.ps = k.ps ∧ k'.flushes = k.flushes := by
  obtain ⟨T1, T2, _, h1, h2, rfl⟩ := elect_parts h
  exact ⟨rfl, rfl, rfl, rfl⟩

/-- Decomposition of a scheduling decision. -/
theorem sched_parts {c proc now k k'} (h : schedThread c proc now k = some k') :
    ∃ k1 e, electThread c proc now k k.curPart = some (k1, e) ∧ k'.T = k1.T ∧ k'.ps = k.ps ∧
      k'.curThread = upd k.curThread proc (e % 256) ∧ k'.P = (record c proc k1 (e % 256)).P ∧
      k'.flushes = k.flushes := by
  unfold schedThread at h
  split at h
  · simp at h
  · rename_i k1 e he
    simp at h
    subst h
    obtain ⟨p1, p2, p3, p4⟩ := elect_P he
    have hr : (record c proc k1 (e % 256)).T = k1.T ∧ (record c proc k1 (e % 256)).ps = k1.ps ∧
        (record c proc k1 (e % 256)).curThread = k1.curThread ∧
        (record c proc k1 (e % 256)).flushes = k1.flushes := by
      unfold record
      simp only
      split
      · exact ⟨rfl, rfl, rfl, rfl⟩
      · exact ⟨rfl, rfl, rfl, rfl⟩
    refine ⟨k1, e, he, hr.1, ?_, ?_, rfl, ?_⟩
    · simp only; rw [hr.2.1, p3]
    · simp only; rw [hr.2.2.1, p2]
    · simp only; rw [hr.2.2.2, p4]

/-- Partition records after `record`: only `cur`/`prev` of this processor in the running partition. -/
theorem record_P (c proc) (k : Kernel) (e p : Nat) :
    (record c proc k e).P p = { k.P p with cur := ((record c proc k e).P p).cur, prev := ((record c proc k e).P p).prev } ∧
    (p ≠ k.curPart → (record c proc k e).P p = k.P p) ∧
    (∀ q, q ≠ proc → ((record c proc k e).P p).cur q = (k.P p).cur q ∧ ((record c proc k e).P p).prev q = (k.P p).prev q) ∧
    ((record c proc k e).P k.curPart).cur proc = e ∧
    ((record c proc k e).P k.curPart).prev proc =
      (if (k.P k.curPart).cur proc ≠ e ∧ (k.P k.curPart).cur proc ≠ idle c proc then (k.P k.curPart).cur proc
       else (k.P k.curPart).prev proc) := by
  unfold record
  simp only
  by_cases h1 : (k.P k.curPart).cur proc ≠ e
  · rw [if_pos h1]
    by_cases h2 : (k.P k.curPart).cur proc ≠ idle c proc
    · rw [if_pos h2]
      refine ⟨?_, ?_, ?_, ?_, ?_⟩
      · unfold setP
        by_cases hp : p = k.curPart
        · subst hp; simp
        · simp [upd_other _ _ hp]
      · intro hp; simp [setP, upd_other _ _ hp]
      · intro q hq
        by_cases hp : p = k.curPart
        · subst hp; simp [setP, upd_other _ _ hq]
        · simp [setP, upd_other _ _ hp]
      · simp [setP]
      · simp [setP, h1, h2]
    · rw [if_neg h2]
      refine ⟨?_, ?_, ?_, ?_, ?_⟩
      · unfold setP
        by_cases hp : p = k.curPart
        · subst hp; simp
        · simp [upd_other _ _ hp]
      · intro hp; simp [setP, upd_other _ _ hp]
      · intro q hq
        by_cases hp : p = k.curPart
        · subst hp; simp [setP, upd_other _ _ hq]
        · simp [setP, upd_other _ _ hp]
      · simp [setP]
      · simp at h2; simp [setP, h2]
  · rw [if_neg h1]
    have h1' : (k.P k.curPart).cur proc = e := by simpa using h1
    refine ⟨rfl, fun _ => rfl, fun _ _ => ⟨rfl, rfl⟩, h1', by simp [h1']⟩

end Kernel
end Pok
