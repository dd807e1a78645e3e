import Verif.Lemmas.Isolation

/-! Helper lemmas: what a partition's own entries do depends on its own state only. -/

namespace Pok
namespace Kernel
open Pok.Spec

theorem wakeOne_like {c proc now t t' u u'} (h : Like t t') (hu : wakeOne c proc now t = some u)
    (hu' : wakeOne c proc now t' = some u') : Like u u' := by
  obtain ⟨x, rfl⟩ := h
  have : wakeOne c proc now { t with endTime := x } = (wakeOne c proc now t).map fun v => { v with endTime := x } := by
    unfold wakeOne
    simp only
    split
    · rfl
    · split
      · rename_i g1
        simp only
        split
        · split <;> rfl
        · rfl
      · simp only
        split
        · split <;> rfl
        · rfl
  rw [this, hu] at hu'
  simp only [Option.map_some, Option.some.injEq] at hu'
  exact ⟨x, hu'.symm⟩

/-! #### The election of a thread reads only the threads of the partition -/

theorem Like.ready {T T' : Threads} {proc i : Nat} (h : Like (T i) (T' i)) : ready T' proc i = ready T proc i := by
  obtain ⟨x, h⟩ := h
  unfold Pok.ready
  rw [h]

theorem nextIdx_range {low high i : Nat} (h : low < high) (hi : low ≤ i) :
    low ≤ nextIdx low high i ∧ nextIdx low high i < high := by
  unfold nextIdx; split <;> omega

theorem scanReady_congr {T T' : Threads} {proc low high from_ : Nat} (hlt : low < high)
    (hT : ∀ i, low ≤ i → i < high → Like (T i) (T' i)) : ∀ (fuel i : Nat), low ≤ i →
    scanReady T' proc low high from_ fuel i = scanReady T proc low high from_ fuel i := by
  intro fuel
  induction fuel with
  | zero => intro i _; rfl
  | succ n ih =>
    intro i hi
    obtain ⟨h1, h2⟩ := nextIdx_range hlt hi
    unfold scanReady
    simp only
    rw [(hT _ h1 h2).ready, ih _ h1]

theorem staticLoop_congr {T T' : Threads} {proc low high from_ : Nat} (hlt : low < high)
    (hT : ∀ i, low ≤ i → i < high → Like (T i) (T' i)) : ∀ (fuel i : Nat) (p : Int) (m : Nat), low ≤ i → i < high →
    staticLoop T' proc low high from_ fuel i p m = staticLoop T proc low high from_ fuel i p m := by
  intro fuel
  induction fuel with
  | zero => intro i p m _ _; rfl
  | succ n ih =>
    intro i p m hi hi2
    obtain ⟨h1, h2⟩ := nextIdx_range hlt hi
    unfold staticLoop
    simp only
    have hp : (T' i).priority = (T i).priority := by obtain ⟨x, h⟩ := hT i hi hi2; rw [h]
    rw [(hT i hi hi2).ready, hp, ih _ _ _ h1 h2]

theorem schedFunc_congr {T T' : Threads} {proc idle low high prev cur : Nat} (pol : Policy) (hlt : low < high)
    (hidle : high ≤ idle) (hT : ∀ i, low ≤ i → i < high → Like (T i) (T' i))
    (hcur : Recorded idle low high cur) (hprev : Recorded idle low high prev) :
    schedFunc pol T' proc idle low high prev cur = schedFunc pol T proc idle low high prev cur := by
  cases pol with
  | rms =>
    simp only [schedFunc, schedRms]
    rw [scanReady_congr hlt hT _ _ (Nat.le_refl _)]
    cases h : scanReady T proc low high low (high - low + 1) low with
    | none => rfl
    | some r =>
      simp only
      by_cases e : r = low
      · subst e
        rw [(hT r (Nat.le_refl _) hlt).ready]
      · rw [if_neg (fun g => e g.1), if_neg (fun g => e g.1)]
  | static =>
    simp only [schedFunc, schedStatic]
    have hf : low ≤ staticFrom idle low prev cur ∧ staticFrom idle low prev cur < high := by
      unfold staticFrom
      split
      · omega
      · rename_i h
        split
        · rename_i g; exact hcur.resolve_left g
        · exact hprev.resolve_left h
    rw [staticLoop_congr hlt hT _ _ _ _ hf.1 hf.2]
  | rr =>
    simp only [schedFunc, schedRr]
    have hf : low ≤ rrFrom idle low prev cur ∧ rrFrom idle low prev cur < high := by
      unfold rrFrom
      split
      · split
        · rename_i g; exact hprev.resolve_left g
        · omega
      · rename_i g; exact hcur.resolve_left g
    have hk : rrKeeps T' proc idle cur = rrKeeps T proc idle cur := by
      unfold rrKeeps
      rcases hcur with g | g
      · simp [g]
      · obtain ⟨x, h⟩ := hT cur g.1 g.2
        rw [(hT cur g.1 g.2).ready, h]
    rw [hk, scanReady_congr hlt hT _ _ hf.1]
    split
    · rfl
    · cases h : scanReady T proc low high (rrFrom idle low prev cur) (high - low + 1) (rrFrom idle low prev cur) with
      | none => rfl
      | some r =>
        simp only
        by_cases e : r = rrFrom idle low prev cur
        · rw [e, (hT _ hf.1 hf.2).ready]
        · rw [if_neg (fun g => e g.1), if_neg (fun g => e g.1)]

/-- The running threads are the same, or neither is one of partition `b`. -/
def SameCur (b : Nat) (k k' : Kernel) : Prop :=
  k'.curThread 0 = k.curThread 0 ∨ (¬ Mine k b (k.curThread 0) ∧ ¬ Mine k b (k'.curThread 0))

theorem account_like {c b k k'} {T T' : Threads} (ha : Agree b k k') (hp : k.curPart = b) (hs : SameCur b k k')
    (hT : ∀ i, Mine k b i → Like (T i) (T' i)) (i : Nat) (hi : Mine k b i) :
    Like (account c 0 k T i) (account c 0 k' T' i) := by
  have hp' : k'.curPart = b := by unfold curPart; rw [ha.ps]; exact hp
  rcases hs with h | ⟨h1, h2⟩
  · by_cases hic : i = k.curThread 0
    · obtain ⟨x, hx⟩ := hT i hi
      subst hic
      unfold account
      simp only [hp, hp', ha.part, h]
      split
      · rw [hx]
        simp only
        split
        · simp only [upd_same]; exact ⟨x, rfl⟩
        · split
          · simp only [upd_same]; exact ⟨x, rfl⟩
          · exact ⟨x, hx⟩
      · exact ⟨x, hx⟩
    · rw [account_other hic, account_other (by rw [h]; exact hic)]
      exact hT i hi
  · rw [account_other (fun g => h1 (g ▸ hi)), account_other (fun g => h2 (g ▸ hi))]
    exact hT i hi

theorem choose_like {c b k k'} {T T' U U' : Threads} {e e' : Nat} (hc : CfgOk c) (hw : Wf c k) (hb : b < c.nbParts)
    (ha : Agree b k k') (hp : k.curPart = b) (hs : SameCur b k k') (hT : ∀ i, Mine k b i → Like (T i) (T' i))
    (h : choose c 0 k T b = some (U, e)) (h' : choose c 0 k' T' b = some (U', e')) :
    e' = e ∧ ∀ i, Mine k b i → Like (U i) (U' i) := by
  have w := hw.part b hb
  have hr := w.range hc hb
  have hid := idle_not_in_range hc hb w hc.procs
  unfold choose at h h'
  simp only [ha.part] at h h'
  cases hmd : (k.P b).mode <;> simp only [hmd] at h h'
  case initCold =>
    split at h
    · rename_i g
      rw [if_pos g] at h'
      simp only [Option.some.injEq, Prod.mk.injEq] at h h'
      obtain ⟨rfl, rfl⟩ := h; obtain ⟨rfl, rfl⟩ := h'
      exact ⟨rfl, hT⟩
    · rename_i g
      rw [if_neg g] at h'
      simp only [Option.some.injEq, Prod.mk.injEq] at h h'
      obtain ⟨rfl, rfl⟩ := h; obtain ⟨rfl, rfl⟩ := h'
      exact ⟨rfl, hT⟩
  case initWarm =>
    split at h
    · rename_i g
      rw [if_pos g] at h'
      simp only [Option.some.injEq, Prod.mk.injEq] at h h'
      obtain ⟨rfl, rfl⟩ := h; obtain ⟨rfl, rfl⟩ := h'
      exact ⟨rfl, hT⟩
    · rename_i g
      rw [if_neg g] at h'
      simp only [Option.some.injEq, Prod.mk.injEq] at h h'
      obtain ⟨rfl, rfl⟩ := h; obtain ⟨rfl, rfl⟩ := h'
      exact ⟨rfl, hT⟩
  case normal =>
    have hst : ((k.P b).cur 0 = (k.P b).threadError ∧ (T' ((k.P b).cur 0)).state = .runnable) ↔
        ((k.P b).cur 0 = (k.P b).threadError ∧ (T ((k.P b).cur 0)).state = .runnable) := by
      rcases w.cur 0 hc.procs with g | g
      · have : (k.P b).cur 0 ≠ (k.P b).threadError := by
          rw [g]
          rcases w.err with e0 | e0
          · rw [e0]; omega
          · omega
        constructor <;> (intro q; exact absurd q.1 this)
      · obtain ⟨x, hx⟩ := hT _ g
        rw [hx]
    have hacc := account_like (c := c) ha hp hs hT
    have hsf : schedFunc (k.P b).sched (account c 0 k' T') 0 (idle c 0) (k.P b).low (k.P b).high ((k.P b).prev 0)
          ((k.P b).cur 0) =
        schedFunc (k.P b).sched (account c 0 k T) 0 (idle c 0) (k.P b).low (k.P b).high ((k.P b).prev 0)
          ((k.P b).cur 0) :=
      schedFunc_congr _ hr.1 hid (fun i g1 g2 => hacc i ⟨g1, g2⟩) (w.cur 0 hc.procs) (w.prev 0 hc.procs)
    split at h
    · rename_i g
      rw [if_pos (hst.2 g)] at h'
      simp only [Option.some.injEq, Prod.mk.injEq] at h h'
      obtain ⟨rfl, rfl⟩ := h; obtain ⟨rfl, rfl⟩ := h'
      exact ⟨rfl, hT⟩
    · rename_i g
      rw [if_neg (fun q => g (hst.1 q)), hsf] at h'
      split at h
      · simp at h
      · rename_i e1 he1
        rw [he1] at h'
        simp only [Option.some.injEq, Prod.mk.injEq] at h h'
        obtain ⟨rfl, rfl⟩ := h; obtain ⟨rfl, rfl⟩ := h'
        exact ⟨rfl, hacc⟩
  all_goals
    simp only [Option.some.injEq, Prod.mk.injEq] at h h'
    obtain ⟨rfl, rfl⟩ := h; obtain ⟨rfl, rfl⟩ := h'
    exact ⟨rfl, hT⟩

theorem endTime_like (T2 : Threads) (cond : Prop) [Decidable cond] (e now i : Nat) :
    Like (T2 i) ((if cond then upd T2 e { T2 e with endTime := addU64 now (T2 e).remaining } else T2) i) :=
  endTime_upd T2 cond e now i

theorem wake_like {c now b k k'} {T T' : Threads} (hw : Wf c k) (hb : b < c.nbParts) (ha : Agree b k k')
    (h : wakeLoop c 0 now k.T (k.P b).low (k.P b).nthreads = some T)
    (h' : wakeLoop c 0 now k'.T (k'.P b).low (k'.P b).nthreads = some T') (i : Nat) (hi : Mine k b i) :
    Like (T i) (T' i) := by
  have w := hw.part b hb
  have h3 := w.high
  have h4 := w.nth
  have hi' := hi
  unfold Mine at hi'
  have g := (wakeLoop_spec _ _ _ _ h).1 i hi'.1 (by omega)
  have g' := (wakeLoop_spec _ _ _ _ h').1 i (by rw [ha.part]; exact hi'.1) (by rw [ha.part]; omega)
  exact wakeOne_like (ha.thr i hi) g g'

/-- An election in partition `b` depends only on partition `b`. -/
theorem sched_own {c now b k k' k1 k1'} (hc : CfgOk c) (hw : Wf c k) (hw' : Wf c k') (hb : b < c.nbParts)
    (ha : Agree b k k') (hp : k.curPart = b) (hs : SameCur b k k')
    (h : schedThread c 0 now k = some k1) (h' : schedThread c 0 now k' = some k1') :
    Agree b k1 k1' ∧ k1'.curThread 0 = k1.curThread 0 ∧ k1.ps = k.ps := by
  have hp' : k'.curPart = b := by unfold curPart; rw [ha.ps]; exact hp
  obtain ⟨T1, T2, e, h1, h2, hrec, hT, hps, hcur, hP⟩ := sched_all hc hw h
  obtain ⟨T1', T2', e', h1', h2', hrec', hT', hps', hcur', hP'⟩ := sched_all hc hw' h'
  rw [hp] at h1 h2
  rw [hp'] at h1' h2'
  obtain ⟨he, hl⟩ := choose_like hc hw hb ha hp hs (wake_like hw hb ha h1 h1') h2 h2'
  subst he
  have hpart : k1'.P b = k1.P b := by
    rw [hP, hP']
    unfold record
    simp only [hp, hp', ha.part]
    split
    · simp [setP]
    · exact ha.part
  refine ⟨⟨by rw [hps', hps, ha.ps], hpart, ?_⟩, by rw [hcur, hcur'], hps⟩
  intro i hi
  have hm : Mine k b i := by
    unfold Mine at hi ⊢
    have := (record_P c 0 k e' b).1
    rw [hP, this] at hi
    exact hi
  rw [hT, hT']
  exact ((endTime_like T2 _ e' now i).symm.trans (hl i hm)).trans (endTime_like T2' _ e' now i)

/-- When a window of `b` ends, the running thread is charged alike. -/
theorem sched_leave {c now b k k' k1 k1'} (hc : CfgOk c) (hw : Wf c k) (hw' : Wf c k') (hb : b < c.nbParts)
    (ha : Agree b k k') (hp : k.curPart ≠ b) (hs : k'.curThread 0 = k.curThread 0)
    (hq : Settled c b k ∨ NoBudget b k) (hq' : Settled c b k' ∨ NoBudget b k')
    (h : schedThread c 0 now k = some k1) (h' : schedThread c 0 now k' = some k1') :
    Agree b k1 k1' ∧ Away b k1 ∧ Away b k1' := by
  have hcp : k'.curPart = k.curPart := by unfold curPart; rw [ha.ps]
  have hp' : k'.curPart ≠ b := by rw [hcp]; exact hp
  obtain ⟨T1, T2, e, h1, h2, hrec, hT, hps, hcur, hP⟩ := sched_all hc hw h
  obtain ⟨T1', T2', e', h1', h2', hrec', hT', hps', hcur', hP'⟩ := sched_all hc hw' h'
  have hn := recorded_away hc hw hb hp hrec
  have hn' := recorded_away hc hw' hb hp' hrec'
  have hP1 : k1.P b = k.P b := by rw [hP]; exact (record_P c 0 k e b).2.1 (fun g => hp g.symm)
  have hP1' : k1'.P b = k'.P b := by rw [hP']; exact (record_P c 0 k' e' b).2.1 (fun g => hp' g.symm)
  -- one run: what becomes of a thread of `b`
  have one : ∀ (k : Kernel) (T1 T2 : Threads) (e : Nat), Wf c k → k.curPart ≠ b →
      choose c 0 k T1 k.curPart = some (T2, e) → (∀ i, ¬ Mine k k.curPart i → T1 i = k.T i) → ∀ i, Mine k b i →
      (NoBudget b k → T2 i = k.T i) ∧
      (Settled c b k → T2 i = if i = k.curThread 0 then
        (if (k.T i).remaining > 0 then { k.T i with remaining := (k.T i).remaining - 1 }
         else if (k.T i).timeCapacity > 0 then { k.T i with state := .waitNextActivation } else k.T i)
        else k.T i) := by
    intro k T1 T2 e hw hp h2 hT1 i hi
    have hia : ¬ Mine k k.curPart i := fun g => hp (range_disjoint hw hw.curPart hb g hi)
    have e1 := hT1 i hia
    constructor
    · intro hnb
      rcases choose_table h2 with g | ⟨g, _⟩
      · rw [g, e1]
      · rw [g]
        by_cases hic : i = k.curThread 0
        · have hz := hnb i hi.1 hi.2
          rw [← e1] at hz
          unfold account
          simp only
          split
          · rw [if_neg (by rw [← hic]; omega), if_neg (by rw [← hic]; omega), e1]
          · exact e1
        · rw [account_other hic, e1]
    · intro hst
      obtain ⟨s1, s2, s3⟩ := hst _ hw.curPart hp
      have w := hw.part _ hw.curPart
      have hs2 : ¬ ((k.P k.curPart).cur 0 = (k.P k.curPart).threadError ∧
          (T1 ((k.P k.curPart).cur 0)).state = .runnable) := fun g => s2 g.1
      unfold choose at h2
      simp only [s1, if_neg hs2] at h2
      split at h2
      · simp at h2
      · simp only [Option.some.injEq, Prod.mk.injEq] at h2
        rw [← h2.1]
        split
        · rename_i hic
          have hacc : Accounted c 0 k := by
            refine ⟨?_, ?_, s3⟩
            · rw [← hic]; exact (in_range_ne hc hw hb hi).2 0 hc.procs
            · intro g
              apply hia
              unfold Mine
              rw [hic, g]; exact w.main
          rw [hic, account_accounted hacc, ← hic, e1]
        · rename_i hic
          rw [account_other hic, e1]
  have one1 := one k T1 T2 e hw hp h2 (fun i hi => wake_other hw h1 hi)
  have one2 := one k' T1' T2' e' hw' hp' h2' (fun i hi => wake_other hw' h1' hi)
  refine ⟨⟨by rw [hps', hps, ha.ps], by rw [hP1, hP1', ha.part], ?_⟩, ⟨by unfold curPart; rw [hps]; exact hp, ?_⟩,
    ⟨by unfold curPart; rw [hps']; exact hp', ?_⟩⟩
  · intro i hi
    have hm : Mine k b i := by unfold Mine at hi ⊢; rw [hP1] at hi; exact hi
    have hm' : Mine k' b i := (ha.mine i).2 hm
    rw [hT, hT', endTime_other (fun g : i = e => hn (g ▸ hm)),
      endTime_other (fun g : i = e' => hn' (g ▸ hm'))]
    obtain ⟨x, hx⟩ := ha.thr i hm
    have hnb : NoBudget b k ↔ NoBudget b k' := by
      unfold NoBudget
      rw [ha.part]
      constructor
      · intro g j g1 g2
        obtain ⟨y, hy⟩ := ha.thr j ⟨g1, g2⟩
        rw [hy]; exact g j g1 g2
      · intro g j g1 g2
        obtain ⟨y, hy⟩ := ha.thr j ⟨g1, g2⟩
        have := g j g1 g2
        rw [hy] at this; exact this
    by_cases hnk : NoBudget b k
    · rw [(one1 i hm).1 hnk, (one2 i hm').1 (hnb.1 hnk)]
      exact ⟨x, hx⟩
    · rw [(one1 i hm).2 (hq.resolve_right hnk), (one2 i hm').2 (hq'.resolve_right (fun g => hnk (hnb.2 g))), hs, hx]
      simp only
      split
      · split
        · exact ⟨x, rfl⟩
        · split
          · exact ⟨x, rfl⟩
          · exact ⟨x, rfl⟩
      · exact ⟨x, rfl⟩
  · unfold Mine; rw [hcur, hP1]; exact hn
  · unfold Mine; rw [hcur', hP1']; exact hn'

end Kernel
end Pok
