import Verif.Lemmas.IsolationStep

/-! Helper lemmas: the calls of a partition do the same in two states that agree on the partition. -/

namespace Pok
namespace Kernel
open Pok.Spec

/-- The processor is in partition `b`, in both states, and they agree on it. -/
structure Rel (b : Nat) (k k' : Kernel) : Prop where
  agree : Agree b k k'
  cur : k'.curThread 0 = k.curThread 0
  here : k.curPart = b

theorem Rel.here' {b k k'} (h : Rel b k k') : k'.curPart = b := by
  unfold curPart; rw [h.agree.ps]; exact h.here

theorem Rel.setT {b k k'} (h : Rel b k k') {i : Nat} {t t' : Thread} (ht : Mine k b i → Like t t') :
    Rel b (k.setT i t) (k'.setT i t') := by
  refine ⟨⟨h.agree.ps, h.agree.part, ?_⟩, h.cur, h.here⟩
  intro j hj
  show Like (upd k.T i t j) (upd k'.T i t' j)
  by_cases e : j = i
  · subst e; rw [upd_same, upd_same]; exact ht hj
  · rw [upd_other _ _ e, upd_other _ _ e]; exact h.agree.thr j hj

theorem Rel.setP {b k k'} (h : Rel b k k') {v : Part} (h1 : v.low = (k.P b).low) (h2 : v.high = (k.P b).high) :
    Rel b (k.setP b v) (k'.setP b v) := by
  have e : (k.setP b v).P b = v := upd_same _ _ _
  refine ⟨⟨h.agree.ps, ?_, ?_⟩, h.cur, h.here⟩
  · show upd k'.P b v b = upd k.P b v b
    rw [upd_same, upd_same]
  · intro i hi
    apply h.agree.thr i
    unfold Mine at hi ⊢
    rw [e, h1, h2] at hi; exact hi

/-- The two states may elect, at the same clock reading, before the window ends. -/
theorem Rel.sched {c now b k k' k1 k1'} (h : Rel b k k') (hc : CfgOk c) (hw : Wf c k) (hw' : Wf c k')
    (hb : b < c.nbParts) (h1 : schedThread c 0 now k = some k1) (h1' : schedThread c 0 now k' = some k1') :
    Rel b k1 k1' := by
  obtain ⟨a, b1, p⟩ := sched_own hc hw hw' hb h.agree h.here (Or.inl h.cur) h1 h1'
  exact ⟨a, b1, by unfold curPart; rw [p]; exact h.here⟩

theorem Rel.global {c now b k k' k1 k1'} (h : Rel b k k') (hc : CfgOk c) (hw : Wf c k) (hw' : Wf c k')
    (hb : b < c.nbParts) (hn : now < k.ps.nextDeadline) (h1 : globalSched c 0 now k = some k1)
    (h1' : globalSched c 0 now k' = some k1') : Rel b k1 k1' := by
  unfold globalSched at h1 h1'
  rw [switch_same hn] at h1
  rw [switch_same (by rw [h.agree.ps]; exact hn)] at h1'
  exact h.sched hc hw hw' hb h1 h1'

theorem Rel.outOfRange {b k k'} (h : Rel b k k') (id : Nat) : outOfRange k' id = outOfRange k id := by
  unfold Kernel.outOfRange
  rw [h.here', h.here, h.agree.part]

theorem Rel.mine {b k k'} (h : Rel b k k') {id : Nat} (ho : Kernel.outOfRange k id = false)
    (hne : id ≠ (k.P k.curPart).high) : Mine k b id := by
  have := outOfRange_false ho
  rw [h.here] at this hne
  exact ⟨this.1, by omega⟩

section
variable {c : Config} {now b : Nat} {k k' : Kernel} (h : Rel b k k') (hc : CfgOk c) (hw : Wf c k) (hw' : Wf c k')
  (hb : b < c.nbParts) (hn : now < k.ps.nextDeadline)
include h hc hw hw' hb

/-- A change of one thread, then an election. -/
theorem Rel.schedT {i : Nat} {t t' : Thread} {k1 k1' : Kernel}
    (h1 : schedThread c 0 now (k.setT i t) = some k1) (h1' : schedThread c 0 now (k'.setT i t') = some k1')
    (ht : Mine k b i → Like t t') (c1 : t.timeCapacity = (k.T i).timeCapacity) (a1 : t.affinity = (k.T i).affinity)
    (c1' : t'.timeCapacity = (k'.T i).timeCapacity) (a1' : t'.affinity = (k'.T i).affinity) :
    Rel b k1 k1' :=
  (h.setT ht).sched hc (wf_setT hw c1 a1) (wf_setT hw' c1' a1') hb h1 h1'

include hn in
theorem Rel.globalT {i : Nat} {t t' : Thread} {k1 k1' : Kernel}
    (h1 : globalSched c 0 now (k.setT i t) = some k1) (h1' : globalSched c 0 now (k'.setT i t') = some k1')
    (ht : Mine k b i → Like t t') (c1 : t.timeCapacity = (k.T i).timeCapacity) (a1 : t.affinity = (k.T i).affinity)
    (c1' : t'.timeCapacity = (k'.T i).timeCapacity) (a1' : t'.affinity = (k'.T i).affinity) :
    Rel b k1 k1' :=
  (h.setT ht).global hc (wf_setT hw c1 a1) (wf_setT hw' c1' a1') hb hn h1 h1'

include hn in
theorem rel_setPriority {id p : Nat} {k1 k1' r r'} (hne : id ≠ (k.P k.curPart).high)
    (h1 : setPriority c 0 now k id p = some (k1, r)) (h1' : setPriority c 0 now k' id p = some (k1', r')) :
    Rel b k1 k1' ∧ r' = r := by
  unfold setPriority at h1 h1'
  rw [h.outOfRange] at h1'
  cases ho : Kernel.outOfRange k id with
  | true =>
    simp only [ho, if_true, Option.some.injEq, Prod.mk.injEq] at h1 h1'
    obtain ⟨rfl, rfl⟩ := h1; obtain ⟨rfl, rfl⟩ := h1'
    exact ⟨h, rfl⟩
  | false =>
    simp only [ho, Bool.false_eq_true, if_false] at h1 h1'
    split at h1
    · cases h1
    rename_i a g
    split at h1'
    · cases h1'
    rename_i a' g'
    simp only [Option.some.injEq, Prod.mk.injEq] at h1 h1'
    obtain ⟨rfl, rfl⟩ := h1; obtain ⟨rfl, rfl⟩ := h1'
    obtain ⟨x, hx⟩ := h.agree.thr id (h.mine ho hne)
    exact ⟨h.globalT hc hw hw' hb hn g g' (fun _ => ⟨x, by rw [hx]⟩) rfl rfl rfl rfl, rfl⟩

include hn in
theorem rel_resume {id : Nat} {k1 k1' r r'} (hne : id ≠ (k.P k.curPart).high)
    (h1 : resume c 0 now k id = some (k1, r)) (h1' : resume c 0 now k' id = some (k1', r')) :
    Rel b k1 k1' ∧ r' = r := by
  unfold resume at h1 h1'
  rw [h.outOfRange] at h1'
  cases ho : Kernel.outOfRange k id with
  | true =>
    simp only [ho, if_true, Option.some.injEq, Prod.mk.injEq] at h1 h1'
    obtain ⟨rfl, rfl⟩ := h1; obtain ⟨rfl, rfl⟩ := h1'
    exact ⟨h, rfl⟩
  | false =>
    simp only [ho, Bool.false_eq_true, if_false] at h1 h1'
    split at h1
    · cases h1
    rename_i a g
    split at h1'
    · cases h1'
    rename_i a' g'
    simp only [Option.some.injEq, Prod.mk.injEq] at h1 h1'
    obtain ⟨rfl, rfl⟩ := h1; obtain ⟨rfl, rfl⟩ := h1'
    obtain ⟨x, hx⟩ := h.agree.thr id (h.mine ho hne)
    exact ⟨h.globalT hc hw hw' hb hn g g' (fun _ => ⟨x, by rw [hx]⟩) rfl rfl rfl rfl, rfl⟩

omit hc hw hw' hb in
theorem rel_suspend {id : Nat} (hne : id ≠ (k.P k.curPart).high) :
    Rel b (suspendTarget 0 k id).1 (suspendTarget 0 k' id).1 ∧
      (suspendTarget 0 k' id).2 = (suspendTarget 0 k id).2 := by
  unfold suspendTarget
  rw [h.outOfRange, h.cur]
  by_cases ho : Kernel.outOfRange k id = true ∨ id = k.curThread 0
  · rw [if_pos ho, if_pos ho]; exact ⟨h, rfl⟩
  · rw [if_neg ho, if_neg ho]
    have ho' : Kernel.outOfRange k id = false := by simpa using fun g => ho (Or.inl g)
    obtain ⟨x, hx⟩ := h.agree.thr id (h.mine ho' hne)
    exact ⟨h.setT (fun _ => ⟨x, by rw [hx]⟩), rfl⟩

include hn in
theorem rel_restart {tid : Nat} {k1 k1' r r'} (hne : (tid + (k.P k.curPart).low) % U32 ≠ (k.P k.curPart).high)
    (h1 : restartThread c 0 now k tid = some (k1, r)) (h1' : restartThread c 0 now k' tid = some (k1', r')) :
    Rel b k1 k1' ∧ r' = r := by
  unfold restartThread at h1 h1'
  simp only [h.here', h.here, h.agree.part, h.cur] at h1 h1' hne
  split at h1
  · rename_i g
    rw [if_pos g] at h1'
    simp only [Option.some.injEq, Prod.mk.injEq] at h1 h1'
    obtain ⟨rfl, rfl⟩ := h1; obtain ⟨rfl, rfl⟩ := h1'
    exact ⟨h, rfl⟩
  · rename_i g
    rw [if_neg g] at h1'
    split at h1
    · rename_i g2
      rw [if_pos g2] at h1'
      simp only [Option.some.injEq, Prod.mk.injEq] at h1 h1'
      obtain ⟨rfl, rfl⟩ := h1; obtain ⟨rfl, rfl⟩ := h1'
      exact ⟨h, rfl⟩
    · rename_i g2
      rw [if_neg g2] at h1'
      split at h1
      · cases h1
      rename_i a q
      split at h1'
      · cases h1'
      rename_i a' q'
      simp only [Option.some.injEq, Prod.mk.injEq] at h1 h1'
      obtain ⟨rfl, rfl⟩ := h1; obtain ⟨rfl, rfl⟩ := h1'
      unfold threadRestart at q q'
      refine ⟨h.globalT hc hw hw' hb hn q q' ?_ rfl rfl rfl rfl, rfl⟩
      intro hm
      obtain ⟨x, hx⟩ := h.agree.thr _ hm
      exact ⟨x, by rw [hx]⟩

include hn in
theorem rel_stop {tid : Nat} {k1 k1' r r'} (hne : (tid + (k.P k.curPart).low) % U32 ≠ (k.P k.curPart).high)
    (h1 : stopThread c 0 now k tid = some (k1, r)) (h1' : stopThread c 0 now k' tid = some (k1', r')) :
    Rel b k1 k1' ∧ r' = r := by
  unfold stopThread at h1 h1'
  simp only [h.here', h.here, h.agree.part, h.cur] at h1 h1' hne
  split at h1
  · rename_i g
    rw [if_pos g] at h1'
    simp only [Option.some.injEq, Prod.mk.injEq] at h1 h1'
    obtain ⟨rfl, rfl⟩ := h1; obtain ⟨rfl, rfl⟩ := h1'
    exact ⟨h, rfl⟩
  · rename_i g
    rw [if_neg g] at h1'
    split at h1
    · rename_i g2
      rw [if_pos g2] at h1'
      simp only [Option.some.injEq, Prod.mk.injEq] at h1 h1'
      obtain ⟨rfl, rfl⟩ := h1; obtain ⟨rfl, rfl⟩ := h1'
      exact ⟨h, rfl⟩
    · rename_i g2
      rw [if_neg g2] at h1'
      split at h1
      · cases h1
      rename_i a q
      split at h1'
      · cases h1'
      rename_i a' q'
      simp only [Option.some.injEq, Prod.mk.injEq] at h1 h1'
      obtain ⟨rfl, rfl⟩ := h1; obtain ⟨rfl, rfl⟩ := h1'
      refine ⟨h.globalT hc hw hw' hb hn q q' ?_ rfl rfl rfl rfl, rfl⟩
      intro hm
      obtain ⟨x, hx⟩ := h.agree.thr _ hm
      exact ⟨x, by rw [hx]⟩

/-- A call by which a thread acts on itself. -/
theorem rel_self (f : Thread → Thread) (hf : ∀ t x, Like (f t) (f { t with endTime := x }))
    (hcap : ∀ t, (f t).timeCapacity = t.timeCapacity) (haff : ∀ t, (f t).affinity = t.affinity) {k1 k1'}
    (h1 : schedThread c 0 now (k.setT (k.curThread 0) (f (k.T (k.curThread 0)))) = some k1)
    (h1' : schedThread c 0 now (k'.setT (k'.curThread 0) (f (k'.T (k'.curThread 0)))) = some k1') : Rel b k1 k1' := by
  rw [h.cur] at h1'
  refine h.schedT hc hw hw' hb h1 h1' ?_ (hcap _) (haff _) (hcap _) (haff _)
  intro hm
  obtain ⟨x, hx⟩ := h.agree.thr _ hm
  rw [hx]; exact hf _ x

include hn in
theorem rel_delayed {id us : Nat} {k1 k1' r r'} (hne : id ≠ (k.P k.curPart).high)
    (hp : Kernel.outOfRange k id = false → (k.T id).partition = k.curPart)
    (h1 : delayedStart c 0 now k id us = some (k1, r)) (h1' : delayedStart c 0 now k' id us = some (k1', r')) :
    Rel b k1 k1' ∧ r' = r := by
  unfold delayedStart at h1 h1'
  simp only [h.outOfRange] at h1 h1'
  cases ho : Kernel.outOfRange k id with
  | true =>
    simp only [ho, if_true, Option.some.injEq, Prod.mk.injEq] at h1 h1'
    obtain ⟨rfl, rfl⟩ := h1; obtain ⟨rfl, rfl⟩ := h1'
    exact ⟨h, rfl⟩
  | false =>
    have hpid := hp ho
    rw [h.here] at hpid
    obtain ⟨x, hx⟩ := h.agree.thr id (h.mine ho hne)
    simp only [ho, Bool.false_eq_true, if_false, hx, hpid, h.agree.part] at h1 h1'
    split at h1
    · rename_i g
      rw [if_pos g] at h1'
      split at h1
      · rename_i g2
        rw [if_pos g2] at h1'
        split at h1
        · cases h1
        rename_i a q
        split at h1'
        · cases h1'
        rename_i a' q'
        simp only [Option.some.injEq, Prod.mk.injEq] at h1 h1'
        obtain ⟨rfl, rfl⟩ := h1; obtain ⟨rfl, rfl⟩ := h1'
        refine ⟨h.globalT hc hw hw' hb hn q q' ?_ ?_ ?_ ?_ ?_, rfl⟩
        · intro _
          split
          · split
            · exact ⟨_, rfl⟩
            · exact ⟨x, rfl⟩
          · exact ⟨x, rfl⟩
        · split
          · split <;> rfl
          · rfl
        · split
          · split <;> rfl
          · rfl
        · rw [hx]
          split
          · split <;> rfl
          · rfl
        · rw [hx]
          split
          · split <;> rfl
          · rfl
      · rename_i g2
        rw [if_neg g2] at h1'
        simp only [Option.some.injEq, Prod.mk.injEq] at h1 h1'
        obtain ⟨rfl, rfl⟩ := h1; obtain ⟨rfl, rfl⟩ := h1'
        exact ⟨h.setT (fun _ => ⟨x, rfl⟩), rfl⟩
    · rename_i g
      rw [if_neg g] at h1'
      split at h1
      · rename_i g2
        rw [if_pos g2] at h1'
        simp only [Option.some.injEq, Prod.mk.injEq] at h1 h1'
        obtain ⟨rfl, rfl⟩ := h1; obtain ⟨rfl, rfl⟩ := h1'
        exact ⟨h.setT (fun _ => ⟨_, rfl⟩), rfl⟩
      · rename_i g2
        rw [if_neg g2] at h1'
        simp only [Option.some.injEq, Prod.mk.injEq] at h1 h1'
        obtain ⟨rfl, rfl⟩ := h1; obtain ⟨rfl, rfl⟩ := h1'
        exact ⟨h.setT (fun _ => ⟨x, rfl⟩), rfl⟩

end

/-! ### Creation of threads -/

theorem insertShift_like (p : Int) (lo : Nat) (S : Nat → Prop) (hi : Nat) (hS : ∀ i, lo ≤ i → i ≤ hi → S i) :
    ∀ (j : Nat) (T T' : Threads), j ≤ hi → (∀ i, S i → Like (T i) (T' i)) →
      (insertShift T' p lo j).2 = (insertShift T p lo j).2 ∧
        ∀ i, S i → Like ((insertShift T p lo j).1 i) ((insertShift T' p lo j).1 i) := by
  intro j
  induction j with
  | zero => intro T T' _ h; exact ⟨rfl, h⟩
  | succ j ih =>
    intro T T' hj h
    unfold insertShift
    by_cases hl : j ≥ lo
    · have hm := hS j hl (by omega)
      have hp : (T' j).period = (T j).period := by obtain ⟨x, hx⟩ := h j hm; rw [hx]
      rw [hp]
      split
      · refine ih _ _ (by omega) ?_
        intro i hi
        by_cases e : i = j + 1
        · subst e; rw [upd_same, upd_same]; exact h j hm
        · rw [upd_other _ _ e, upd_other _ _ e]; exact h i hi
      · exact ⟨rfl, h⟩
    · rw [if_neg (fun g => hl g.1), if_neg (fun g => hl g.1)]
      exact ⟨rfl, h⟩

theorem insertSort_like {lo hi : Nat} {S : Nat → Prop} {T T' : Threads} (hS : ∀ i, lo ≤ i → i ≤ hi → S i)
    (hl : lo ≤ hi) (h : ∀ i, S i → Like (T i) (T' i)) (i : Nat) (hi' : S i) :
    Like (insertSort T lo hi i) (insertSort T' lo hi i) := by
  have hv := h hi (hS hi hl (Nat.le_refl _))
  have hp : (T' hi).period = (T hi).period := by obtain ⟨x, hx⟩ := hv; rw [hx]
  obtain ⟨a, b⟩ := insertShift_like (T hi).period lo S hi hS hi T T' (Nat.le_refl _) h
  unfold insertSort
  simp only [hp]
  rw [a]
  by_cases e : i = (insertShift T (T hi).period lo hi).2
  · subst e; rw [upd_same, upd_same]; exact hv
  · rw [upd_other _ _ e, upd_other _ _ e]; exact b i hi'

theorem newThread_like {t t' : Thread} (h : Like t t') (a : ThreadAttr) (pid aff st : Nat) :
    Like (newThread t a pid aff st) (newThread t' a pid aff st) := by
  obtain ⟨x, rfl⟩ := h
  refine ⟨x, ?_⟩
  unfold newThread
  simp only
  split <;> split <;> split <;> rfl

theorem Rel.created {c b k k'} (h : Rel b k k') (a : ThreadAttr) (aff : Nat)
    (hlt : (k.P b).low + (k.P b).index < (k.P b).high) :
    Rel b (Kernel.created c k a b aff) (Kernel.created c k' a b aff) := by
  have hT0 : ∀ i, Mine k b i → Like
      (upd k.T ((k.P b).low + (k.P b).index)
        (newThread (k.T ((k.P b).low + (k.P b).index)) a b aff (c.stackAddr b ((k.P b).index + 1))) i)
      (upd k'.T ((k.P b).low + (k.P b).index)
        (newThread (k'.T ((k.P b).low + (k.P b).index)) a b aff (c.stackAddr b ((k.P b).index + 1))) i) := by
    intro i hi
    by_cases e : i = (k.P b).low + (k.P b).index
    · subst e; rw [upd_same, upd_same]; exact newThread_like (h.agree.thr _ hi) _ _ _ _
    · rw [upd_other _ _ e, upd_other _ _ e]; exact h.agree.thr _ hi
  unfold Kernel.created
  simp only [h.agree.part]
  refine ⟨⟨h.agree.ps, ?_, ?_⟩, h.cur, h.here⟩
  · show upd k'.P b _ b = upd k.P b _ b
    rw [upd_same, upd_same]
  · intro i hi
    have hi : Mine k b i := by
      unfold Mine at hi ⊢
      simp only at hi
      rw [upd_same] at hi
      exact hi
    show Like _ _
    simp only
    split
    · rename_i g
      exact insertSort_like (S := Mine k b) (fun j h1 h2 => ⟨by omega, by omega⟩) (by omega) hT0 i hi
    · exact hT0 i hi

theorem rel_create {c b k k' a k1 k1' e e' o o'} (h : Rel b k k') (h1 : threadCreate c k a b = some (k1, e, o))
    (h1' : threadCreate c k' a b = some (k1', e', o')) : Rel b k1 k1' ∧ e' = e ∧ o' = o := by
  have hP := h.agree.part
  rcases create_spec h1 with ⟨q1, q2, q3⟩ | ⟨q1, q2, q3, q4, aff, q5, q6, q7, q8⟩ <;>
    rcases create_spec h1' with ⟨q1', q2', q3'⟩ | ⟨q1', q2', q3', q4', aff', q5', q6', q7', q8'⟩
  · subst q1; subst q1'
    refine ⟨h, ?_, by rw [q2, q2']⟩
    unfold threadCreate at h1 h1'
    simp only [hP] at h1 h1'
    split at h1
    · rename_i g; rw [if_pos g] at h1'
      simp only [Option.some.injEq, Prod.mk.injEq] at h1 h1'; rw [← h1.2.1, ← h1'.2.1]
    · rename_i g; rw [if_neg g] at h1'
      split at h1
      · rename_i g2; rw [if_pos g2] at h1'
        simp only [Option.some.injEq, Prod.mk.injEq] at h1 h1'; rw [← h1.2.1, ← h1'.2.1]
      · rename_i g2
        rcases q3 with ⟨_, q⟩ | ⟨_, q⟩
        · exact absurd q g
        · exact absurd q g2
  · rw [hP] at q3' q4'
    rcases q3 with ⟨_, q, q'⟩ | ⟨_, q⟩
    · rcases q3' with g | g
      · exact absurd g q
      · exact absurd g q'
    · omega
  · rw [hP] at q3'
    rcases q3' with ⟨_, q, q'⟩ | ⟨_, q⟩
    · rcases q3 with g | g
      · exact absurd g q
      · exact absurd g q'
    · omega
  · rw [q5] at q5'
    injection q5' with q5'
    subst q5'; subst q8; subst q8'
    exact ⟨h.created a aff q4, by rw [q1, q1'], by rw [q2, q2', hP]⟩

theorem release_like {c now act} {t t' : Thread} (h : Like t t') : Like (release c now act t) (release c now act t') := by
  obtain ⟨x, rfl⟩ := h
  unfold release
  simp only
  split
  · exact ⟨x, rfl⟩
  · split
    · split
      · exact ⟨_, rfl⟩
      · exact ⟨x, rfl⟩
    · split
      · split
        · exact ⟨_, rfl⟩
        · exact ⟨x, rfl⟩
      · exact ⟨_, rfl⟩

theorem Rel.activate {b k k'} (h : Rel b k k') : Rel b (activateError 0 k) (activateError 0 k') := by
  unfold activateError
  simp only [h.here', h.here, h.agree.part]
  by_cases g : (k.P b).threadError ≠ 0
  · rw [if_pos g, if_pos g]
    refine ⟨⟨h.agree.ps, h.agree.part, ?_⟩, ?_, h.here⟩
    · refine (h.setT (i := (k.P b).threadError) ?_).agree.thr
      intro hm
      obtain ⟨x, hx⟩ := h.agree.thr _ hm
      exact ⟨x, by rw [hx]⟩
    · show upd k'.curThread 0 (k.P b).threadError 0 = upd k.curThread 0 (k.P b).threadError 0
      rw [upd_same, upd_same]
  · rw [if_neg g, if_neg g]; exact h

theorem rel_errorCreate {c b k k' en j k1 k1' e e'} (h : Rel b k k')
    (h1 : errorThreadCreate c 0 k en j = some (k1, e)) (h1' : errorThreadCreate c 0 k' en j = some (k1', e')) :
    Rel b k1 k1' ∧ e' = e := by
  unfold errorThreadCreate at h1 h1'
  rw [h.here] at h1
  rw [h.here'] at h1'
  split at h1
  · rename_i k2 id g
    split at h1'
    · rename_i k2' id' g'
      obtain ⟨r, _, hid⟩ := rel_create h g g'
      injection hid with hid
      subst hid
      simp only [Option.some.injEq, Prod.mk.injEq, r.here, r.here', r.agree.part] at h1 h1'
      obtain ⟨rfl, rfl⟩ := h1; obtain ⟨rfl, rfl⟩ := h1'
      refine ⟨Rel.activate (Rel.setP r ?_ ?_), rfl⟩ <;> rfl
    · cases h1'
  · cases h1

theorem rel_setup {c b k k' k1 k1'} (h : Rel b k k') (h1 : setupMainThread c k b = some k1)
    (h1' : setupMainThread c k' b = some k1') : Rel b k1 k1' := by
  unfold setupMainThread at h1 h1'
  rw [h.agree.part] at h1'
  split at h1
  · rename_i k2 id g
    split at h1'
    · rename_i k2' id' g'
      obtain ⟨r, _, hid⟩ := rel_create h g g'
      injection hid with hid
      subst hid
      rw [r.agree.part] at h1'
      simp only [Option.some.injEq] at h1 h1'
      subst h1; subst h1'
      exact r.setP rfl rfl
    · cases h1'
  · cases h1

section
variable {c : Config} {now b : Nat} {k k' : Kernel} (h : Rel b k k') (hc : CfgOk c) (hw : Wf c k) (hw' : Wf c k')
  (hb : b < c.nbParts) (hn : now < k.ps.nextDeadline)
include h

theorem rel_reinit {k1 k1' : Kernel} (h1 : reinit c 0 k b = some k1) (h1' : reinit c 0 k' b = some k1') : Rel b k1 k1' := by
  unfold reinit at h1 h1'
  rw [h.agree.part] at h1'
  refine rel_setup (h.setP ?_ ?_) h1 h1' <;> rfl

include hc hw hw' hb hn

theorem rel_normal {k1 k1' : Kernel} {e e' : Errno} (h1 : setMode c 0 now k b .normal = some (k1, e))
    (h1' : setMode c 0 now k' b .normal = some (k1', e')) : Rel b k1 k1' ∧ e' = e := by
  obtain rfl := h.here
  have hcp : k'.curPart = k.curPart := h.here'
  have hQ : ∀ (K : Kernel) (v : Part), (K.setP k.curPart v).P k.curPart = v := fun K v => upd_same _ _ _
  have hcp2 : ∀ (K : Kernel) (v : Part), (K.setP k.curPart v).curPart = K.curPart := fun _ _ => rfl
  unfold setMode at h1 h1'
  simp only [hcp, h.agree.part, h.cur, hcp2, hQ] at h1 h1'
  split at h1
  · rename_i g2; rw [if_pos g2] at h1'
    simp only [Option.some.injEq, Prod.mk.injEq] at h1 h1'
    obtain ⟨rfl, rfl⟩ := h1; obtain ⟨rfl, rfl⟩ := h1'
    exact ⟨h, rfl⟩
  · rename_i g2; rw [if_neg g2] at h1'
    split at h1
    · rename_i g3; rw [if_pos g3] at h1'
      simp only [Option.some.injEq, Prod.mk.injEq] at h1 h1'
      obtain ⟨rfl, rfl⟩ := h1; obtain ⟨rfl, rfl⟩ := h1'
      exact ⟨h, rfl⟩
    · rename_i g3; rw [if_neg g3] at h1'
      split at h1
      · cases h1
      rename_i a q
      split at h1'
      · cases h1'
      rename_i a' q'
      simp only [Option.some.injEq, Prod.mk.injEq] at h1 h1'
      obtain ⟨rfl, rfl⟩ := h1; obtain ⟨rfl, rfl⟩ := h1'
      refine ⟨?_, rfl⟩
      have W := wf_pre hw hc (PreStep.normal (c := c) (proc := 0) (now := now) (not_ne_iff.mp g3) g2)
      have W' := wf_pre hw' hc (PreStep.normal (c := c) (proc := 0) (now := now)
        (by rw [hcp, h.agree.part, h.cur]; exact not_ne_iff.mp g3) (by rw [hcp, h.agree.part]; exact g2))
      rw [hcp, h.agree.part] at W'
      refine Rel.global ?_ hc W W' hb ?_ q q'
      · have hr := h.setP (v := { k.P k.curPart with mode := .normal }) rfl rfl
        refine ⟨⟨hr.agree.ps, hr.agree.part, ?_⟩, hr.cur, hr.here⟩
        intro i hi
        have hi : Mine k k.curPart i := by
          have : Mine (k.setP k.curPart { k.P k.curPart with mode := .normal }) k.curPart i := hi
          unfold Mine at this ⊢
          rw [hQ] at this
          exact this
        have hl : ∀ j, Mine k k.curPart j → Like
            (releaseLoop c now (k.P k.curPart).activation k.T (k.P k.curPart).low (k.P k.curPart).nthreads j)
            (releaseLoop c now (k.P k.curPart).activation k'.T (k.P k.curPart).low (k.P k.curPart).nthreads j) := by
          intro j hj
          rw [releaseLoop_spec, releaseLoop_spec]
          split
          · exact release_like (h.agree.thr j hj)
          · exact h.agree.thr j hj
        show Like (upd _ _ _ i) (upd _ _ _ i)
        by_cases e : i = (k.P k.curPart).threadMain
        · subst e
          rw [upd_same, upd_same]
          obtain ⟨x, hx⟩ := hl _ hi
          exact ⟨x, by rw [hx]⟩
        · rw [upd_other _ _ e, upd_other _ _ e]; exact hl i hi
      · exact hn

theorem rel_stopped {k1 k1' : Kernel} {e e' : Errno} (h1 : setMode c 0 now k b .stopped = some (k1, e))
    (h1' : setMode c 0 now k' b .stopped = some (k1', e')) : Rel b k1 k1' ∧ e' = e := by
  obtain rfl := h.here
  have hcp : k'.curPart = k.curPart := h.here'
  unfold setMode at h1 h1'
  simp only [hcp, h.agree.part, h.cur] at h1 h1'
  split at h1
  · rename_i g2; rw [if_pos g2] at h1'
    simp only [Option.some.injEq, Prod.mk.injEq] at h1 h1'
    obtain ⟨rfl, rfl⟩ := h1; obtain ⟨rfl, rfl⟩ := h1'
    exact ⟨h, rfl⟩
  · rename_i g2; rw [if_neg g2] at h1'
    split at h1
    · cases h1
    rename_i a q
    split at h1'
    · cases h1'
    rename_i a' q'
    simp only [Option.some.injEq, Prod.mk.injEq] at h1 h1'
    obtain ⟨rfl, rfl⟩ := h1; obtain ⟨rfl, rfl⟩ := h1'
    refine ⟨?_, rfl⟩
    have g3 := not_or.mp g2
    have W := wf_pre hw hc (PreStep.stop (c := c) (proc := 0) (now := now) (not_ne_iff.mp g3.2) g3.1)
    have W' := wf_pre hw' hc (PreStep.stop (c := c) (proc := 0) (now := now)
      (by rw [hcp, h.agree.part, h.cur]; exact not_ne_iff.mp g3.2) (by rw [hcp, h.agree.part]; exact g3.1))
    rw [hcp, h.agree.part] at W'
    exact Rel.global (h.setP (v := { k.P k.curPart with mode := .stopped }) rfl rfl) hc W W' hb hn q q'

theorem rel_init {m : Mode} {k1 k1' : Kernel} {e e' : Errno} (hm : m = .initWarm ∨ m = .initCold)
    (h1 : setMode c 0 now k b m = some (k1, e)) (h1' : setMode c 0 now k' b m = some (k1', e')) :
    Rel b k1 k1' ∧ e' = e := by
  obtain rfl := h.here
  have hcp : k'.curPart = k.curPart := h.here'
  have key : ∀ {k : Kernel} {k1 e}, setMode c 0 now k k.curPart m = some (k1, e) →
      (if (k.P k.curPart).mode = .initCold ∧ m = .initWarm then some (k, Errno.partitionMode)
       else if (k.P k.curPart).threadError = 0 ∨ k.curThread 0 ≠ (k.P k.curPart).threadError then some (k, .partitionMode)
       else
        match reinit c 0 (k.setP k.curPart { k.P k.curPart with mode := m }) k.curPart with
        | none => none
        | some k =>
          match globalSched c 0 now k with
          | none => none
          | some k => some (k, .ok)) = some (k1, e) := by
    intro k k1 e h
    unfold setMode at h
    rcases hm with rfl | rfl <;> exact h
  rw [← hcp] at h1'
  replace h1 := key h1
  replace h1' := key h1'
  simp only [hcp, h.agree.part, h.cur] at h1 h1'
  split at h1
  · rename_i g1; rw [if_pos g1] at h1'
    simp only [Option.some.injEq, Prod.mk.injEq] at h1 h1'
    obtain ⟨rfl, rfl⟩ := h1; obtain ⟨rfl, rfl⟩ := h1'
    exact ⟨h, rfl⟩
  rename_i g1; rw [if_neg g1] at h1'
  split at h1
  · rename_i g2; rw [if_pos g2] at h1'
    simp only [Option.some.injEq, Prod.mk.injEq] at h1 h1'
    obtain ⟨rfl, rfl⟩ := h1; obtain ⟨rfl, rfl⟩ := h1'
    exact ⟨h, rfl⟩
  rename_i g2; rw [if_neg g2] at h1'
  split at h1
  · cases h1
  rename_i k2 i1
  split at h1'
  · cases h1'
  rename_i k2' i1'
  split at h1
  · cases h1
  rename_i a q
  split at h1'
  · cases h1'
  rename_i a' q'
  simp only [Option.some.injEq, Prod.mk.injEq] at h1 h1'
  obtain ⟨rfl, rfl⟩ := h1; obtain ⟨rfl, rfl⟩ := h1'
  refine ⟨?_, rfl⟩
  have g3 := not_or.mp g2
  have W := wf_pre hw hc (PreStep.init (c := c) (proc := 0) (now := now) m k2 hm g1 (not_ne_iff.mp g3.2) g3.1 i1)
  have W' := wf_pre hw' hc (PreStep.init (c := c) (proc := 0) (now := now) m k2' hm
    (by rw [hcp, h.agree.part]; exact g1)
    (by rw [hcp, h.agree.part, h.cur]; exact not_ne_iff.mp g3.2) (by rw [hcp, h.agree.part]; exact g3.1)
    (by rw [hcp, h.agree.part]; exact i1'))
  have r := rel_reinit (h.setP (v := { k.P k.curPart with mode := m }) rfl rfl) i1 i1'
  refine r.global hc W W' hb ?_ q q'
  have : k2.ps = k.ps := by
    unfold reinit at i1
    obtain ⟨_, _, _, hcr, _, _, _, _, _, _, rfl⟩ := setup_parts i1
    obtain ⟨_, _, _, _, _, _, rfl⟩ := create_ok hcr
    rfl
  rw [this]; exact hn

theorem rel_setMode {m : Mode} {k1 k1' : Kernel} {e e' : Errno} (h1 : setModeCurrent c 0 now k m = some (k1, e))
    (h1' : setModeCurrent c 0 now k' m = some (k1', e')) : Rel b k1 k1' ∧ e' = e := by
  unfold setModeCurrent at h1 h1'
  simp only [h.here', h.here, h.agree.part, h.cur] at h1 h1'
  split at h1
  · rename_i g; rw [if_pos g] at h1'
    simp only [Option.some.injEq, Prod.mk.injEq] at h1 h1'
    obtain ⟨rfl, rfl⟩ := h1; obtain ⟨rfl, rfl⟩ := h1'
    exact ⟨h, rfl⟩
  · rename_i g; rw [if_neg g] at h1'
    cases m with
    | normal => exact rel_normal h hc hw hw' hb hn h1 h1'
    | stopped => exact rel_stopped h hc hw hw' hb hn h1 h1'
    | initCold => exact rel_init h hc hw hw' hb hn (Or.inr rfl) h1 h1'
    | initWarm => exact rel_init h hc hw hw' hb hn (Or.inl rfl) h1 h1'
    | _ =>
      unfold setMode at h1 h1'
      simp only [Option.some.injEq, Prod.mk.injEq] at h1 h1'
      obtain ⟨rfl, rfl⟩ := h1; obtain ⟨rfl, rfl⟩ := h1'
      exact ⟨h, rfl⟩

/-- A call of the partition does the same in both states. -/
theorem rel_call {call : KCall} {k1 k1' : Kernel} {r r' : Reply} (hadm : Admitted k call)
    (h1 : execR c now k call = some (k1, r)) (h1' : execR c now k' call = some (k1', r')) : Rel b k1 k1' ∧ r' = r := by
  have fin : ∀ {e e' : Errno} {K K' : Kernel}, (K, (some e, none)) = (k1, r) → (K', (some e', none)) = (k1', r') →
      Rel b K K' ∧ e' = e → Rel b k1 k1' ∧ r' = r := by
    intro e e' K K' g g' hh
    simp only [Prod.mk.injEq] at g g'
    obtain ⟨rfl, rfl⟩ := g; obtain ⟨rfl, rfl⟩ := g'
    exact ⟨hh.1, by rw [hh.2]⟩
  have fin' : ∀ {K K' : Kernel}, (K, ((none, none) : Reply)) = (k1, r) → (K', ((none, none) : Reply)) = (k1', r') →
      Rel b K K' → Rel b k1 k1' ∧ r' = r := by
    intro K K' g g' hh
    simp only [Prod.mk.injEq] at g g'
    obtain ⟨rfl, rfl⟩ := g; obtain ⟨rfl, rfl⟩ := g'
    exact ⟨hh, rfl⟩
  cases call with
  | tick =>
    obtain ⟨a, q, g⟩ := map_some h1; obtain ⟨a', q', g'⟩ := map_some h1'
    exact fin' g g' (h.global hc hw hw' hb hn q q')
  | resched =>
    obtain ⟨a, q, g⟩ := map_some h1; obtain ⟨a', q', g'⟩ := map_some h1'
    exact fin' g g' (h.sched hc hw hw' hb q q')
  | create a =>
    obtain ⟨⟨a, e, o⟩, q, g⟩ := map_some h1; obtain ⟨⟨a', e', o'⟩, q', g'⟩ := map_some h1'
    rw [h.here] at q; rw [h.here'] at q'
    obtain ⟨u, v, w⟩ := rel_create h q q'
    simp only [Prod.mk.injEq] at g g'
    obtain ⟨rfl, rfl⟩ := g; obtain ⟨rfl, rfl⟩ := g'
    exact ⟨u, by rw [v, w]⟩
  | sleep us =>
    obtain ⟨a, q, g⟩ := map_some h1; obtain ⟨a', q', g'⟩ := map_some h1'
    exact fin' g g' (rel_self h hc hw hw' hb (fun t => { t with state := .waiting, wakeup := (us * 1000 + now) % U64 })
      (fun t x => ⟨x, rfl⟩) (fun _ => rfl) (fun _ => rfl) q q')
  | sleepUntil us =>
    obtain ⟨a, q, g⟩ := map_some h1; obtain ⟨a', q', g'⟩ := map_some h1'
    exact fin' g g' (rel_self h hc hw hw' hb (fun t => { t with state := .waiting, wakeup := (us * 1000) % U64 })
      (fun t x => ⟨x, rfl⟩) (fun _ => rfl) (fun _ => rfl) q q')
  | endPeriod =>
    obtain ⟨a, q, g⟩ := map_some h1; obtain ⟨a', q', g'⟩ := map_some h1'
    exact fin' g g' (rel_self h hc hw hw' hb (fun t => { t with state := .waitNextActivation, remaining := 0 })
      (fun t x => ⟨x, rfl⟩) (fun _ => rfl) (fun _ => rfl) q q')
  | stopSelf =>
    obtain ⟨a, q, g⟩ := map_some h1; obtain ⟨a', q', g'⟩ := map_some h1'
    exact fin' g g' (rel_self h hc hw hw' hb (fun t => { t with state := .stopped })
      (fun t x => ⟨x, rfl⟩) (fun _ => rfl) (fun _ => rfl) q q')
  | delayedStart id us =>
    obtain ⟨a, q, g⟩ := map_some h1; obtain ⟨a', q', g'⟩ := map_some h1'
    exact fin g g' (rel_delayed h hc hw hw' hb hn hadm.1 hadm.2 q q')
  | setPriority id p =>
    obtain ⟨a, q, g⟩ := map_some h1; obtain ⟨a', q', g'⟩ := map_some h1'
    exact fin g g' (rel_setPriority h hc hw hw' hb hn hadm q q')
  | resume id =>
    obtain ⟨a, q, g⟩ := map_some h1; obtain ⟨a', q', g'⟩ := map_some h1'
    exact fin g g' (rel_resume h hc hw hw' hb hn hadm q q')
  | suspendTarget id =>
    simp only [execR, Option.some.injEq] at h1 h1'
    exact fin h1 h1' (rel_suspend h hadm)
  | restartThread id =>
    obtain ⟨a, q, g⟩ := map_some h1; obtain ⟨a', q', g'⟩ := map_some h1'
    exact fin g g' (rel_restart h hc hw hw' hb hn hadm q q')
  | stopThread id =>
    obtain ⟨a, q, g⟩ := map_some h1; obtain ⟨a', q', g'⟩ := map_some h1'
    exact fin g g' (rel_stop h hc hw hw' hb hn hadm q q')
  | setMode m =>
    obtain ⟨a, q, g⟩ := map_some h1; obtain ⟨a', q', g'⟩ := map_some h1'
    exact fin g g' (rel_setMode h hc hw hw' hb hn q q')
  | errorCreate e j =>
    obtain ⟨a, q, g⟩ := map_some h1; obtain ⟨a', q', g'⟩ := map_some h1'
    exact fin g g' (rel_errorCreate h q q')
  | raiseError =>
    simp only [execR, exec, Option.map_some, Option.some.injEq] at h1 h1'
    exact fin' h1 h1' h.activate
  | block =>
    obtain ⟨a, q, g⟩ := map_some h1; obtain ⟨a', q', g'⟩ := map_some h1'
    exact fin' g g' (rel_self h hc hw hw' hb (fun t => { t with state := .lock })
      (fun t x => ⟨x, rfl⟩) (fun _ => rfl) (fun _ => rfl) q q')
  | blockTimed time =>
    obtain ⟨a, q, g⟩ := map_some h1; obtain ⟨a', q', g'⟩ := map_some h1'
    exact fin' g g' (rel_self h hc hw hw' hb (fun t => { t with state := .waiting, wakeup := time % U64 })
      (fun t x => ⟨x, rfl⟩) (fun _ => rfl) (fun _ => rfl) q q')
  | unblock id =>
    simp only [execR, exec, Option.map_some, Option.some.injEq] at h1 h1'
    refine fin' h1 h1' (h.setT (i := id) ?_)
    intro hm
    obtain ⟨x, hx⟩ := h.agree.thr _ hm
    exact ⟨x, by rw [hx]⟩

end

end Kernel
end Pok
