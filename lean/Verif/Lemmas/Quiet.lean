import Verif.Props.Election
import Verif.Spec.Timing

/-! Helper lemmas: a blocked thread during a history without operations on it. -/

namespace Pok
namespace Kernel
open Pok.Spec

theorem activate_untouched {proc t} {k : Kernel} (h : (k.P k.curPart).threadError ≠ t) :
    (activateError proc k).T t = k.T t ∧ (activateError proc k).P = k.P ∧ (activateError proc k).ps = k.ps ∧
    ∀ q, (activateError proc k).curThread q ≠ t ∨ (activateError proc k).curThread q = k.curThread q := by
  unfold activateError
  simp only
  split
  · refine ⟨upd_other _ _ (Ne.symm h), rfl, rfl, ?_⟩
    intro q
    show upd k.curThread proc _ q ≠ t ∨ _
    by_cases e : q = proc
    · subst e; left; rw [upd_same]; exact h
    · right; exact upd_other _ _ e
  · exact ⟨rfl, rfl, rfl, fun q => Or.inr rfl⟩

/-- The elementary change of an entry that is not an operation on `t` leaves `t` alone. -/
theorem pre_untouched {c proc now k call k1 t} (hw : Wf c k) (hc : CfgOk c)
    (h : PreStep c proc now k call k1) (hu : Untouched t proc k call) :
    k1.T t = k.T t ∧ k1.ps = k.ps ∧ (∀ q, k1.curThread q ≠ t ∨ k1.curThread q = k.curThread q) ∧
    (∀ p < c.nbParts, (k.P p).low ≤ t → t < (k.P p).high →
      (k1.P p).threadMain = (k.P p).threadMain ∧ (k1.P p).mode = (k.P p).mode) := by
  have w := hw.part _ hw.curPart
  have hr := w.range hc hw.curPart
  cases h with
  | same => exact ⟨rfl, rfl, fun q => Or.inr rfl, fun p _ _ _ => ⟨rfl, rfl⟩⟩
  | thread call i u ht hk hrr =>
    refine ⟨?_, rfl, fun q => Or.inr rfl, fun p _ _ _ => ⟨rfl, rfl⟩⟩
    apply upd_other
    rintro rfl
    cases call <;> simp only [target, Option.some.injEq, reduceCtorEq] at ht <;> exact absurd ht hu
  | create a k1 id h =>
    obtain ⟨hid, hlt, _, aff, _, hmu, rfl⟩ := create_ok h
    refine ⟨(created_T (hid ▸ hlt) t).1 hu, rfl, fun q => Or.inr rfl, ?_⟩
    intro p hp h1 h2
    by_cases e : p = k.curPart
    · subst e; exact absurd ⟨h1, h2⟩ hu
    · simp [created, upd_other _ _ e]
  | normal hm hi =>
    refine ⟨?_, rfl, fun q => Or.inr rfl, ?_⟩
    · show Threads.setState _ _ _ t = _
      unfold Threads.setState
      have hu' : ¬ ((k.P k.curPart).low ≤ t ∧ t < (k.P k.curPart).high) := hu
      have hm1 := w.main
      have hn : (k.P k.curPart).low + (k.P k.curPart).nthreads = (k.P k.curPart).high := by
        rw [w.nth, w.high]
      rw [upd_other _ _ (by omega), releaseLoop_spec, if_neg (by omega)]
    · intro p hp h1 h2
      by_cases e : p = k.curPart
      · subst e; exact absurd ⟨h1, h2⟩ hu
      · simp [setP, upd_other _ _ e]
  | stop he h0 =>
    refine ⟨rfl, rfl, fun q => Or.inr rfl, ?_⟩
    intro p hp h1 h2
    by_cases e : p = k.curPart
    · subst e; exact absurd ⟨h1, h2⟩ hu
    · simp [setP, upd_other _ _ e]
  | init m k1 hm hwm he h0 h =>
    unfold reinit at h
    obtain ⟨k2, id, a, hcr, _, _, _, _, _, _, rfl⟩ := setup_parts h
    obtain ⟨hid, hlt, _, aff, _, hmu, rfl⟩ := create_ok hcr
    refine ⟨?_, rfl, fun q => Or.inr rfl, ?_⟩
    · refine (created_T (hid ▸ hlt) t).1 ?_
      have hu' : ¬ ((k.P k.curPart).low ≤ t ∧ t < (k.P k.curPart).high) := hu
      simpa [setP, resetPart] using hu'
    · intro p hp h1 h2
      by_cases e : p = k.curPart
      · subst e; exact absurd ⟨h1, h2⟩ hu
      · simp [setP, created, upd_other _ _ e]
  | errorCreate entry junk k1 id h =>
    obtain ⟨hid, hlt, _, aff, _, hmu, rfl⟩ := create_ok h
    have hu' : ¬ ((k.P k.curPart).low ≤ t ∧ t < (k.P k.curPart).high) := hu
    generalize hk2 : (created c k { junk with priority := 200, entry := entry, timeCapacity := 10000 }
      k.curPart aff) = k2 at *
    have hcp : k2.curPart = k.curPart := by rw [← hk2]; rfl
    have hte : ((k2.setP k2.curPart { k2.P k2.curPart with threadError := id }).P
        (k2.setP k2.curPart { k2.P k2.curPart with threadError := id }).curPart).threadError ≠ t := by
      show (upd k2.P k2.curPart _ k2.curPart).threadError ≠ t
      rw [upd_same]
      simp only
      omega
    obtain ⟨a1, a2, a3, a4⟩ := activate_untouched (proc := proc) hte
    refine ⟨?_, ?_, ?_, ?_⟩
    · rw [a1]
      show k2.T t = _
      rw [← hk2]
      exact (created_T (hid ▸ hlt) t).1 hu
    · rw [a3]; show k2.ps = _; rw [← hk2]; rfl
    · intro q
      have := a4 q
      have hcur : (k2.setP k2.curPart { k2.P k2.curPart with threadError := id }).curThread = k.curThread := by
        show k2.curThread = _; rw [← hk2]; rfl
      rwa [hcur] at this
    · intro p hp h1 h2
      rw [a2]
      by_cases e : p = k.curPart
      · subst e; exact absurd ⟨h1, h2⟩ hu
      · have hx : (k2.setP k2.curPart { k2.P k2.curPart with threadError := id }).P p = k.P p := by
          show upd k2.P k2.curPart _ p = _
          rw [hcp, upd_other _ _ e, ← hk2]; simp [created, upd_other _ _ e]
        rw [hx]; exact ⟨rfl, rfl⟩
  | raise =>
    obtain ⟨a1, a2, a3, a4⟩ := activate_untouched (proc := proc) (k := k) (t := t) hu
    exact ⟨a1, a3, a4, fun p _ _ _ => by rw [a2]; exact ⟨rfl, rfl⟩⟩

/-- `t` is not the main thread of a partition that is initialising. -/
def NotInitMain (c : Config) (k : Kernel) (t : Nat) : Prop :=
  ∀ p < c.nbParts, (k.P p).threadMain = t → (k.P p).mode ≠ .initCold ∧ (k.P p).mode ≠ .initWarm

/-- Equality of everything but `endTime`. -/
def EqButEnd (t t' : Thread) : Prop := ∃ x, t' = { t with endTime := x }

theorem notDue_wake {c proc now} {t t' : Thread} (h : NotDue c now t) (hw : wakeOne c proc now t = some t') :
    t' = t := by
  rcases wakeOne_cases hw with ⟨rfl, _⟩ | ⟨_, h1, h2, h3, _⟩ | ⟨_, h2, h3, _⟩
  · rfl
  · unfold NotDue at h; rw [h2] at h; have := h h1; omega
  · unfold NotDue at h; rw [h2] at h; simp only at h; omega

theorem notDue_not_runnable {c now} {t : Thread} (h : NotDue c now t) : t.state ≠ .runnable := by
  intro hs; unfold NotDue at h; rw [hs] at h; exact h

/-- An election while `t` is not due and not running leaves `t` blocked and does not dispatch it. -/
theorem sched_quiet {c proc now k k' t} (hc : CfgOk c) (hq : proc < c.nbProcs) (hw : Wf c k)
    (ht : t < prefixSum c.nthreads c.nbParts) (hcur : k.curThread proc ≠ t) (hm : NotInitMain c k t)
    (hd : NotDue c now (k.T t)) (h : schedThread c proc now k = some k') :
    EqButEnd (k.T t) (k'.T t) ∧ k'.curThread proc ≠ t ∧ (∀ q, q ≠ proc → k'.curThread q = k.curThread q) := by
  obtain ⟨k1, e0, he, hT, hps, hcur', hP, _⟩ := sched_parts h
  obtain ⟨x, t', h1, h2⟩ := elect_other he (Ne.symm hcur)
  have ht' : t' = k.T t := by
    split at h2
    · exact notDue_wake hd h2
    · exact h2
  refine ⟨⟨x, by rw [hT, h1, ht']⟩, ?_, ?_⟩
  · obtain ⟨T1, T2, e, w1, w2, w3, w4, w5⟩ := sched_outcome hc hq hw h
    rw [w3]
    rintro rfl
    have hT1 : T1 e = k.T e := by
      obtain ⟨a, b⟩ := wakeLoop_spec _ _ _ _ w1
      by_cases hj : (k.P k.curPart).low ≤ e ∧ e < (k.P k.curPart).low + (k.P k.curPart).nthreads
      · exact notDue_wake hd (a e hj.1 hj.2)
      · exact b e (by omega)
    have hns : (T1 e).state ≠ .runnable := by rw [hT1]; exact notDue_not_runnable hd
    have hwp := hw.part _ hw.curPart
    have hrg := hwp.range hc hw.curPart
    have hidle := idle_not_in_range hc hw.curPart hwp hq
    have hne : e ≠ idle c proc := by
      have := hc.room; unfold idle; omega
    unfold choose at w2
    simp only at w2
    split at w2
    · rename_i hmo
      split at w2
      · simp at w2; exact (hm _ hw.curPart w2.2).1 hmo
      · simp at w2; exact hne w2.2.symm
    · rename_i hmo
      split at w2
      · simp at w2; exact (hm _ hw.curPart w2.2).2 hmo
      · simp at w2; exact hne w2.2.symm
    · split at w2
      · rename_i hx
        simp at w2
        rw [hx.1, w2.2] at hx
        exact hns hx.2
      · split at w2
        · simp at w2
        · rename_i e' he'
          simp at w2
          obtain ⟨e2, he2, hg⟩ := C04_policies (k.P k.curPart).sched (T := account c proc k T1) (proc := proc)
            (idle := idle c proc) hrg.1 (hwp.prev proc hq) (hwp.cur proc hq)
          rw [he2] at he'
          injection he' with he'
          rw [he', w2.2] at hg
          rcases hg with hg | hg
          · have := hg.2.1
            rw [account_other (Ne.symm hcur)] at this
            exact hns this
          · exact hne hg.1
    · simp at w2; exact hne w2.2.symm
  · intro q hq'
    rw [hcur', upd_other _ _ hq']

/-- The situation of a thread that is blocked and not running. -/
structure Blocked (c : Config) (k : Kernel) (t : Nat) : Prop where
  wf : Wf c k
  cur : ∀ q < c.nbProcs, k.curThread q ≠ t
  main : NotInitMain c k t

theorem notInitMain_sched {c proc now k k' t} (h : schedThread c proc now k = some k') (hm : NotInitMain c k t) :
    NotInitMain c k' t := by
  obtain ⟨k1, e0, he, hT, hps, hcur', hP, _⟩ := sched_parts h
  obtain ⟨p1, _⟩ := elect_P he
  intro p hp
  rw [hP, (record_P c proc k1 (e0 % 256) p).1, p1]
  exact hm p hp

theorem quiet_step {c proc now k call k' t} (hc : CfgOk c) (hq : proc < c.nbProcs)
    (ht : t < prefixSum c.nthreads c.nbParts) (hb : Blocked c k t) (hd : NotDue c now (k.T t))
    (hu : Untouched t proc k call) (h : exec c proc now k call = some k') :
    EqButEnd (k.T t) (k'.T t) ∧ Blocked c k' t := by
  obtain ⟨k1, h1, h2⟩ := exec_cases h
  have hw1 := wf_pre hb.wf hc h1
  obtain ⟨a1, a2, a3, a4⟩ := pre_untouched hb.wf hc h1 hu
  have hcur1 : ∀ q < c.nbProcs, k1.curThread q ≠ t := by
    intro q hq'
    rcases a3 q with h | h
    · exact h
    · rw [h]; exact hb.cur q hq'
  have hm1 : NotInitMain c k1 t := by
    intro p hp he
    have w1 := hw1.part p hp
    have w := hb.wf.part p hp
    have hr : (k.P p).low ≤ t ∧ t < (k.P p).high := by
      rw [← he, w.low, w.high, w.low]
      have := w1.main
      rw [w1.low, w1.high, w1.low] at this
      exact this
    obtain ⟨e1, e2⟩ := a4 p hp hr.1 hr.2
    rw [e1] at he
    rw [e2]
    exact hb.main p hp he
  have key : ∀ k2, Wf c k2 → k2.T = k1.T → k2.P = k1.P → k2.curThread = k1.curThread →
      schedThread c proc now k2 = some k' → EqButEnd (k.T t) (k'.T t) ∧ Blocked c k' t := by
    intro k2 hw2 eT eP eC hs
    have hm2 : NotInitMain c k2 t := by intro p hp; rw [eP]; exact hm1 p hp
    have hd2 : NotDue c now (k2.T t) := by rw [eT, a1]; exact hd
    obtain ⟨b1, b2, b3⟩ := sched_quiet hc hq hw2 ht (by rw [eC]; exact hcur1 proc hq) hm2 hd2 hs
    refine ⟨by rw [eT, a1] at b1; exact b1, wf_sched hc hq hw2 hs, ?_, notInitMain_sched hs hm2⟩
    intro q hq'
    by_cases e : q = proc
    · subst e; exact b2
    · rw [b3 q e, eC]; exact hcur1 q hq'
  rcases h2 with rfl | h2 | h2
  · exact ⟨⟨_, by rw [a1]⟩, hw1, hcur1, hm1⟩
  · exact key k1 hw1 rfl rfl rfl h2
  · exact key _ (wf_switch hc hw1) rfl rfl rfl h2

theorem notDue_eqButEnd {c now} {t t' : Thread} (h : EqButEnd t t') : NotDue c now t' ↔ NotDue c now t := by
  obtain ⟨x, rfl⟩ := h
  rfl

theorem EqButEnd.trans {a b d : Thread} (h : EqButEnd a b) (h' : EqButEnd b d) : EqButEnd a d := by
  obtain ⟨x, rfl⟩ := h
  obtain ⟨y, rfl⟩ := h'
  exact ⟨y, rfl⟩

theorem quiet_run {c t} (hc : CfgOk c) (ht : t < prefixSum c.nthreads c.nbParts) :
    ∀ (es : List KEv) (k k' : Kernel), (∀ e ∈ es, e.proc < c.nbProcs) → Blocked c k t →
      (∀ e ∈ es, NotDue c e.now (k.T t)) → Quiet c t k es → execAll c k es = some k' →
      EqButEnd (k.T t) (k'.T t) ∧ Blocked c k' t := by
  intro es
  induction es with
  | nil =>
    intro k k' _ hb _ _ h
    simp [execAll] at h; subst h
    exact ⟨⟨_, rfl⟩, hb⟩
  | cons e es ih =>
    intro k k' hq hb hd hqu h
    unfold execAll at h
    split at h
    · simp at h
    · rename_i k1 h1
      obtain ⟨b1, b2⟩ := quiet_step hc (hq e (by simp)) ht hb (hd e (by simp)) hqu.1 h1
      obtain ⟨d1, d2⟩ := ih k1 k' (fun e' he' => hq e' (by simp [he'])) b2
        (fun e' he' => (notDue_eqButEnd b1).2 (hd e' (by simp [he']))) (hqu.2 k1 h1) h
      exact ⟨b1.trans d1, d2⟩

end Kernel
end Pok
