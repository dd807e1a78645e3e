import Verif.Lemmas.Boot
import Verif.Props.Election

/-! Helper lemmas: as long as no partition creates an error handler, a processor runs only threads bound to it, or the
main thread of a partition that is starting. -/

namespace Pok
namespace Kernel
open Pok.Spec

/-- The partition is starting. -/
def Starting (P : Part) : Prop := P.mode = .initCold ∨ P.mode = .initWarm

/-- Processor `q` may run thread `t` in this state. -/
def MayRun (c : Config) (k : Kernel) (q t : Nat) : Prop :=
  t = kernelThread c ∨ t = idle c q ∨ ∃ p < c.nbParts, ((k.P p).low ≤ t ∧ t < (k.P p).high) ∧
    ((Starting (k.P p) ∧ t = (k.P p).threadMain ∧ q = (k.P p).mainProc) ∨
      (¬ Starting (k.P p) ∧ (k.T t).affinity = q))

/-- The part of the invariant that does not speak of the running threads. -/
structure Still (c : Config) (k : Kernel) : Prop where
  err : ∀ p < c.nbParts, (k.P p).threadError = 0
  main : (k.P 0).threadMain = 0 ∧ 1 ≤ (k.P 0).index ∧ (k.T 0).affinity = 0
  cur : ∀ q < c.nbProcs, (k.P 0).cur q = idle c q ∨
    ((k.T ((k.P 0).cur q)).affinity = q ∧ (Starting (k.P 0) → (k.P 0).cur q = 0))

theorem range_disjoint {c k p p' t} (hw : Wf c k) (hp : p < c.nbParts) (hp' : p' < c.nbParts)
    (h : (k.P p).low ≤ t ∧ t < (k.P p).high) (h' : (k.P p').low ≤ t ∧ t < (k.P p').high) : p = p' := by
  have w := hw.part p hp
  have w' := hw.part p' hp'
  have a := w.low; have b := w.high; have a' := w'.low; have b' := w'.high
  rcases Nat.lt_trichotomy p p' with g | g | g
  · have := prefixSum_le c.nthreads g; omega
  · exact g
  · have := prefixSum_le c.nthreads g; omega

theorem low_pos {c k p} (hc : CfgOk c) (hw : Wf c k) (hp : p < c.nbParts) (h0 : p ≠ 0) : 0 < (k.P p).low := by
  have := (hw.part p hp).low
  have := hc.threads 0 hc.parts
  have := prefixSum_le c.nthreads (p := 0) (n := p) (by omega)
  omega

theorem in_range_ne {c k p t} (hc : CfgOk c) (hw : Wf c k) (hp : p < c.nbParts)
    (h : (k.P p).low ≤ t ∧ t < (k.P p).high) : t ≠ kernelThread c ∧ ∀ q < c.nbProcs, t ≠ idle c q := by
  have w := hw.part p hp
  have := w.range hc hp
  have := hc.room
  refine ⟨by unfold kernelThread; omega, fun q hq => ?_⟩
  have := idle_not_in_range hc hp w hq
  omega

/-- An election keeps the invariant, whatever the processor was running before. -/
theorem still_sched {c proc now k k'} (hc : CfgOk c) (hq : proc < c.nbProcs) (hw : Wf c k)
    (hm0 : procRealId (c.affinity 0) 0 = some 0) (hs : Still c k)
    (hr : ∀ q < c.nbProcs, q ≠ proc → MayRun c k q (k.curThread q))
    (h : schedThread c proc now k = some k') :
    Still c k' ∧ ∀ q < c.nbProcs, MayRun c k' q (k'.curThread q) := by
  have hw' := wf_sched hc hq hw h
  obtain ⟨k1, e, he, hT, hps, hcur, hP, _⟩ := sched_parts h
  have hst := elect_static he
  obtain ⟨p1, p2, p3, p4⟩ := elect_P he
  have hcp1 : k1.curPart = k.curPart := by unfold curPart; rw [p3]
  have hwp := hw.part _ hw.curPart
  have hrec : Recorded (idle c proc) (k.P k.curPart).low (k.P k.curPart).high e := by
    obtain ⟨T1, T2, _, _, h2, _⟩ := elect_parts he
    exact choose_recorded hc hw.curPart hq hwp h2
  have hmod : e % 256 = e := Nat.mod_eq_of_lt (recorded_lt hc hw.curPart hq hwp hrec)
  rw [hmod] at hP hcur
  have hct : k'.curThread proc = e := by rw [hcur, upd_same]
  have haff : ∀ j, (k'.T j).affinity = (k.T j).affinity := fun j => by rw [hT, (hst j).affinity]
  have hfix : ∀ p, (k'.P p).low = (k.P p).low ∧ (k'.P p).high = (k.P p).high ∧ (k'.P p).mode = (k.P p).mode ∧
      (k'.P p).threadMain = (k.P p).threadMain ∧ (k'.P p).mainProc = (k.P p).mainProc ∧
      (k'.P p).threadError = (k.P p).threadError ∧ (k'.P p).index = (k.P p).index := by
    intro p
    have r1 := (record_P c proc k1 e p).1
    rw [hP, r1, p1]
    exact ⟨rfl, rfl, rfl, rfl, rfl, rfl, rfl⟩
  have hstart : ∀ p, Starting (k'.P p) ↔ Starting (k.P p) := fun p => by
    unfold Starting; rw [(hfix p).2.2.1]
  have hmp0 : (k.P 0).mainProc = 0 := by
    have := (hw.part 0 hc.parts).mainProc
    rw [hm0] at this; simpa using this.symm
  -- what the elected thread is
  have hel : e = idle c proc ∨ (((k.P k.curPart).low ≤ e ∧ e < (k.P k.curPart).high) ∧
      ((Starting (k.P k.curPart) ∧ e = (k.P k.curPart).threadMain ∧ proc = (k.P k.curPart).mainProc) ∨
        (¬ Starting (k.P k.curPart) ∧ (k.T e).affinity = proc))) := by
    rcases hrec with hi | hin
    · exact Or.inl hi
    · refine Or.inr ⟨hin, ?_⟩
      have hne := (in_range_ne hc hw hw.curPart hin).2 proc hq
      by_cases hsn : Starting (k.P k.curPart)
      · refine Or.inl ⟨hsn, ?_⟩
        obtain ⟨T1, T2, _, _, h2, _⟩ := elect_parts he
        unfold choose at h2
        simp only at h2
        rcases hsn with hm | hm <;>
        · simp only [hm] at h2
          split at h2
          · rename_i hpq
            simp only [Option.some.injEq, Prod.mk.injEq] at h2
            exact ⟨h2.2.symm, hpq⟩
          · simp only [Option.some.injEq, Prod.mk.injEq] at h2
            exact absurd h2.2.symm hne
      · refine Or.inr ⟨hsn, ?_⟩
        by_cases hn : (k.P k.curPart).mode = .normal
        · rcases normal_outcome hc hq hw hn h with ⟨g1, g2, _⟩ | ⟨T2, g1, _, g2⟩ | ⟨_, _, g3⟩
          · rw [hct] at g2
            by_cases h0 : k.curPart = 0
            · rcases hs.cur proc hq with g | g
              · rw [h0] at g1 g2 
                exact absurd (g2.trans (g1.symm.trans g)) hne
              · rw [h0] at g1 g2
                rw [g2, ← g1]; exact g.1
            · have := low_pos hc hw hw.curPart h0
              have := hs.err _ hw.curPart
              omega
          · rw [hct] at g2
            rcases g2 with g2 | g2
            · have := g2.2.2
              obtain ⟨x, hx⟩ := g1 e
              have h3 := haff e
              rw [hx] at h3
              rw [← h3]; exact this
            · exact absurd g2.1 hne
          · exact absurd (hct.symm.trans g3) hne
        · have hm : (k.P k.curPart).mode ≠ .initCold ∧ (k.P k.curPart).mode ≠ .initWarm :=
            ⟨fun g => hsn (Or.inl g), fun g => hsn (Or.inr g)⟩
          obtain ⟨T1, T2, _, _, h2, _⟩ := elect_parts he
          unfold choose at h2
          simp only at h2
          split at h2
          · rename_i g; exact absurd g hm.1
          · rename_i g; exact absurd g hm.2
          · rename_i g; exact absurd g hn
          · simp only [Option.some.injEq, Prod.mk.injEq] at h2
            exact absurd h2.2.symm hne
  refine ⟨⟨?_, ?_, ?_⟩, ?_⟩
  · intro p hp
    rw [(hfix p).2.2.2.2.2.1]; exact hs.err p hp
  · obtain ⟨_, _, _, f4, _, _, f7⟩ := hfix 0
    rw [f4, f7, haff]; exact hs.main
  · intro q hq'
    rw [haff, hstart]
    obtain ⟨r1, r2, r3, r4, r5⟩ := record_P c proc k1 e 0
    by_cases hc0 : k.curPart = 0
    · by_cases hqq : q = proc
      · subst hqq
        have hcq : (k'.P 0).cur q = e := by
          rw [hcp1, hc0] at r4; rw [hP]; exact r4
        rw [hcq]
        rcases hel with g | ⟨_, g⟩
        · exact Or.inl g
        · rw [hc0] at g
          refine Or.inr ?_
          rcases g with ⟨g1, g2, g3⟩ | ⟨g1, g2⟩
          · rw [hs.main.1] at g2
            rw [hmp0] at g3
            subst g2
            exact ⟨by rw [hs.main.2.2]; exact g3.symm, fun _ => rfl⟩
          · exact ⟨g2, fun g => absurd g g1⟩
      · rw [hP, (r3 q hqq).1, p1]; exact hs.cur q hq'
    · rw [hP, r2 (by rw [hcp1]; exact fun g => hc0 g.symm), p1]; exact hs.cur q hq'
  · intro q hq'
    have lift : ∀ t, MayRun c k q t → MayRun c k' q t := by
      intro t ht
      rcases ht with g | g | ⟨p, hp, g1, g2⟩
      · exact Or.inl g
      · exact Or.inr (Or.inl g)
      · obtain ⟨f1, f2, _, f4, f5, _, _⟩ := hfix p
        refine Or.inr (Or.inr ⟨p, hp, ?_, ?_⟩)
        · rw [f1, f2]; exact g1
        · rw [hstart, f4, f5, haff]; exact g2
    by_cases hqq : q = proc
    · subst hqq
      rw [hct]
      apply lift
      rcases hel with g | ⟨g1, g2⟩
      · exact Or.inr (Or.inl g)
      · exact Or.inr (Or.inr ⟨k.curPart, hw.curPart, g1, g2⟩)
    · rw [hcur, upd_other _ _ hqq]
      exact lift _ (hr q hq' hqq)

/-- The whole invariant. -/
structure Bound (c : Config) (k : Kernel) : Prop where
  still : Still c k
  run : ∀ q < c.nbProcs, MayRun c k q (k.curThread q)

theorem bound_then {c proc now k k'} (hc : CfgOk c) (hq : proc < c.nbProcs) (hw : Wf c k)
    (hm0 : procRealId (c.affinity 0) 0 = some 0) (hb : Bound c k) (h : Then c proc now k k') : Bound c k' := by
  rcases h with rfl | h | h
  · exact hb
  · obtain ⟨a, b⟩ := still_sched hc hq hw hm0 hb.still (fun q hq _ => hb.run q hq) h
    exact ⟨a, b⟩
  · have hs : Still c (switchPartition c now k) := ⟨hb.still.err, hb.still.main, hb.still.cur⟩
    obtain ⟨a, b⟩ := still_sched hc hq (wf_switch hc hw) hm0 hs (fun q hq _ => hb.run q hq) h
    exact ⟨a, b⟩

theorem bound_affinity {c k} {T : Threads} (hb : Bound c k) (h : ∀ j, (T j).affinity = (k.T j).affinity) :
    Bound c { k with T := T } := by
  refine ⟨⟨hb.still.err, ⟨hb.still.main.1, hb.still.main.2.1, ?_⟩, ?_⟩, ?_⟩
  · show (T 0).affinity = 0
    rw [h]; exact hb.still.main.2.2
  · intro q hq
    show (k.P 0).cur q = idle c q ∨ ((T ((k.P 0).cur q)).affinity = q ∧ _)
    rw [h]; exact hb.still.cur q hq
  · intro q hq
    rcases hb.run q hq with g | g | ⟨p, hp, g1, g2⟩
    · exact Or.inl g
    · exact Or.inr (Or.inl g)
    · refine Or.inr (Or.inr ⟨p, hp, g1, ?_⟩)
      show _ ∨ (_ ∧ (T (k.curThread q)).affinity = q)
      rw [h]; exact g2

/-- A creation does not touch the main thread of partition 0 nor the threads of the other partitions. -/
theorem bound_created {c k a aff} (hw : Wf c k) (hc : CfgOk c) (hb : Bound c k)
    (hm : Starting (k.P k.curPart))
    (h : (k.P k.curPart).low + (k.P k.curPart).index < (k.P k.curPart).high) :
    Bound c (created c k a k.curPart aff) := by
  have hT : ∀ i, ¬ ((k.P k.curPart).low ≤ i ∧ i < (k.P k.curPart).high) →
      (created c k a k.curPart aff).T i = k.T i := fun i => (created_T (c := c) (a := a) (aff := aff) h i).1
  have hT0 : (created c k a k.curPart aff).T 0 = k.T 0 := by
    by_cases h0 : k.curPart = 0
    · have hlow := (hw.part 0 hc.parts).low
      have hi := hb.still.main.2.1
      simp only [prefixSum] at hlow
      unfold created
      simp only [h0]
      split
      · rename_i hr
        obtain ⟨m1, _⟩ := insertSort_mem (upd k.T ((k.P 0).low + (k.P 0).index)
          (newThread (k.T ((k.P 0).low + (k.P 0).index)) a 0 aff (c.stackAddr 0 ((k.P 0).index + 1))))
          (lo := (k.P 0).low + 1) (hi := (k.P 0).low + (k.P 0).index) (by omega) (by omega) 0
        rw [m1 (by omega), upd_other _ _ (by omega)]
      · rw [upd_other _ _ (by omega)]
    · have := low_pos hc hw hw.curPart h0
      exact hT 0 (by omega)
  have hfix : ∀ p, ((created c k a k.curPart aff).P p).low = (k.P p).low ∧
      ((created c k a k.curPart aff).P p).high = (k.P p).high ∧
      ((created c k a k.curPart aff).P p).mode = (k.P p).mode ∧
      ((created c k a k.curPart aff).P p).threadMain = (k.P p).threadMain ∧
      ((created c k a k.curPart aff).P p).mainProc = (k.P p).mainProc ∧
      ((created c k a k.curPart aff).P p).threadError = (k.P p).threadError ∧
      (k.P p).index ≤ ((created c k a k.curPart aff).P p).index ∧
      ((created c k a k.curPart aff).P p).cur = (k.P p).cur := by
    intro p
    unfold created
    simp only
    by_cases e : p = k.curPart
    · subst e; rw [upd_same]; exact ⟨rfl, rfl, rfl, rfl, rfl, rfl, by simp, rfl⟩
    · rw [upd_other _ _ e]; exact ⟨rfl, rfl, rfl, rfl, rfl, rfl, Nat.le_refl _, rfl⟩
  have hstart : ∀ p, Starting ((created c k a k.curPart aff).P p) ↔ Starting (k.P p) := fun p => by
    unfold Starting; rw [(hfix p).2.2.1]
  refine ⟨⟨?_, ?_, ?_⟩, ?_⟩
  · intro p hp; rw [(hfix p).2.2.2.2.2.1]; exact hb.still.err p hp
  · obtain ⟨_, _, _, f4, _, _, f7, _⟩ := hfix 0
    rw [f4, hT0]
    exact ⟨hb.still.main.1, by have := hb.still.main.2.1; omega, hb.still.main.2.2⟩
  · intro q hq
    rw [(hfix 0).2.2.2.2.2.2.2, hstart]
    rcases hb.still.cur q hq with g | ⟨g1, g2⟩
    · exact Or.inl g
    · refine Or.inr ⟨?_, g2⟩
      by_cases h0 : k.curPart = 0
      · rw [h0] at hm
        have := g2 hm
        rw [this] at g1 ⊢
        rw [hT0]; exact g1
      · rcases (hw.part 0 hc.parts).cur q hq with e | e
        · have hn := hT ((k.P 0).cur q) (fun hin => (in_range_ne hc hw hw.curPart hin).2 q hq e)
          rw [hn]; exact g1
        · have hn := hT ((k.P 0).cur q) (fun hin => h0 (range_disjoint hw hw.curPart hc.parts hin e))
          rw [hn]; exact g1
  · intro q hq
    rcases hb.run q hq with g | g | ⟨p, hp, g1, g2⟩
    · exact Or.inl g
    · exact Or.inr (Or.inl g)
    · obtain ⟨f1, f2, _, f4, f5, _, _, _⟩ := hfix p
      refine Or.inr (Or.inr ⟨p, hp, by rw [f1, f2]; exact g1, ?_⟩)
      rw [hstart, f4, f5]
      rcases g2 with g2 | ⟨g2, g3⟩
      · exact Or.inl g2
      · refine Or.inr ⟨g2, ?_⟩
        have hn := hT (k.curThread q) (fun hin => by
          have := range_disjoint hw hw.curPart hp hin g1
          rw [this] at hm; exact g2 hm)
        show ((created c k a k.curPart aff).T (k.curThread q)).affinity = q
        rw [hn]; exact g3

/-- `setMode NORMAL` either changes nothing or releases the partition and elects. -/
theorem exec_normal {c proc now k k'} (h : exec c proc now k (.setMode .normal) = some k') :
    k' = k ∨ (k.curThread proc = (k.P k.curPart).threadMain ∧ (k.P k.curPart).mode ≠ .idle ∧ globalSched c proc now
      { (k.setP k.curPart { k.P k.curPart with mode := .normal }) with
          T := (releaseLoop c now (k.P k.curPart).activation k.T (k.P k.curPart).low
            (k.P k.curPart).nthreads).setState (k.P k.curPart).threadMain .stopped } = some k') := by
  obtain ⟨⟨k1, r⟩, h1, rfl⟩ := map_some h
  unfold setModeCurrent at h1
  simp only at h1
  split at h1
  · simp at h1; exact Or.inl h1.1.symm
  · have hP : ∀ v, (k.setP k.curPart v).P k.curPart = v := fun v => by simp [setP]
    unfold setMode at h1
    simp only at h1
    split at h1
    · simp at h1; exact Or.inl h1.1.symm
    · split at h1
      · simp at h1; exact Or.inl h1.1.symm
      · rename_i hi hm
        split at h1
        · simp at h1
        · rename_i k2 hk2
          simp at h1
          refine Or.inr ⟨by simpa using hm, hi, ?_⟩
          have hcp : (k.setP k.curPart { k.P k.curPart with mode := .normal }).curPart = k.curPart := rfl
          rw [hcp, hP] at hk2
          rw [← h1.1]
          exact hk2

theorem bound_normal {c proc now k k'} (hc : CfgOk c) (hq : proc < c.nbProcs) (hw : Wf c k)
    (hm0 : procRealId (c.affinity 0) 0 = some 0) (hb : Bound c k)
    (hm : k.curThread proc = (k.P k.curPart).threadMain) (hi : (k.P k.curPart).mode ≠ .idle)
    (h : globalSched c proc now
      { (k.setP k.curPart { k.P k.curPart with mode := .normal }) with
          T := (releaseLoop c now (k.P k.curPart).activation k.T (k.P k.curPart).low
            (k.P k.curPart).nthreads).setState (k.P k.curPart).threadMain .stopped } = some k') : Bound c k' := by
  have haff : ∀ i, ((releaseLoop c now (k.P k.curPart).activation k.T (k.P k.curPart).low
      (k.P k.curPart).nthreads).setState (k.P k.curPart).threadMain .stopped i).affinity = (k.T i).affinity := by
    intro i
    have hcap : ∀ j, (releaseLoop c now (k.P k.curPart).activation k.T (k.P k.curPart).low
          (k.P k.curPart).nthreads j).affinity = (k.T j).affinity := by
      intro j
      rw [releaseLoop_spec]
      split
      · exact (release_static c now _ (k.T j)).affinity
      · rfl
    unfold Threads.setState
    by_cases e : i = (k.P k.curPart).threadMain
    · subst e; rw [upd_same]; simp only; rw [hcap]
    · rw [upd_other _ _ e, hcap]
  have w := hw.part _ hw.curPart
  have hwN := wf_pre hw hc (PreStep.normal (now := now) hm hi)
  generalize hT : (releaseLoop c now (k.P k.curPart).activation k.T (k.P k.curPart).low
    (k.P k.curPart).nthreads).setState (k.P k.curPart).threadMain .stopped = T at haff h hwN
  have hPn : ∀ p, (upd k.P k.curPart { k.P k.curPart with mode := .normal }) p =
      if p = k.curPart then { k.P k.curPart with mode := .normal } else k.P p := fun p => by rw [upd_apply]
  have hfix : ∀ p, ((upd k.P k.curPart { k.P k.curPart with mode := .normal }) p).low = (k.P p).low ∧
      ((upd k.P k.curPart { k.P k.curPart with mode := .normal }) p).high = (k.P p).high ∧
      ((upd k.P k.curPart { k.P k.curPart with mode := .normal }) p).threadMain = (k.P p).threadMain ∧
      ((upd k.P k.curPart { k.P k.curPart with mode := .normal }) p).mainProc = (k.P p).mainProc ∧
      ((upd k.P k.curPart { k.P k.curPart with mode := .normal }) p).threadError = (k.P p).threadError ∧
      ((upd k.P k.curPart { k.P k.curPart with mode := .normal }) p).index = (k.P p).index ∧
      ((upd k.P k.curPart { k.P k.curPart with mode := .normal }) p).cur = (k.P p).cur := by
    intro p
    rw [hPn]
    split
    · rename_i e; subst e; exact ⟨rfl, rfl, rfl, rfl, rfl, rfl, rfl⟩
    · exact ⟨rfl, rfl, rfl, rfl, rfl, rfl, rfl⟩
  have hst : ∀ p, Starting ((upd k.P k.curPart { k.P k.curPart with mode := .normal }) p) →
      p ≠ k.curPart ∧ Starting (k.P p) := by
    intro p g
    rw [hPn] at g
    split at g
    · rcases g with g | g <;> simp at g
    · rename_i e; exact ⟨e, g⟩
  have hst' : ∀ p, p ≠ k.curPart → (upd k.P k.curPart { k.P k.curPart with mode := .normal }) p = k.P p :=
    fun p e => upd_other _ _ e
  -- no other processor runs a thread of the partition while it is starting
  have hnew : ∀ q < c.nbProcs, q ≠ proc → MayRun c
      { (k.setP k.curPart { k.P k.curPart with mode := .normal }) with T := T } q (k.curThread q) := by
    intro q hq' hne
    rcases hb.run q hq' with g | g | ⟨p, hp, g1, g2⟩
    · exact Or.inl g
    · exact Or.inr (Or.inl g)
    · obtain ⟨f1, f2, f3, f4, _⟩ := hfix p
      refine Or.inr (Or.inr ⟨p, hp, ?_, ?_⟩)
      · show ((upd k.P k.curPart { k.P k.curPart with mode := .normal }) p).low ≤ _ ∧ _
        rw [f1]
        exact ⟨g1.1, by show _ < ((upd k.P k.curPart { k.P k.curPart with mode := .normal }) p).high; rw [f2]; exact g1.2⟩
      · show (Starting ((upd k.P k.curPart { k.P k.curPart with mode := .normal }) p) ∧
            k.curThread q = ((upd k.P k.curPart { k.P k.curPart with mode := .normal }) p).threadMain ∧
            q = ((upd k.P k.curPart { k.P k.curPart with mode := .normal }) p).mainProc) ∨
          (¬ Starting ((upd k.P k.curPart { k.P k.curPart with mode := .normal }) p) ∧ (T (k.curThread q)).affinity = q)
        rw [f3, f4, haff]
        by_cases e : p = k.curPart
        · refine Or.inr ⟨fun g => (hst p g).1 e, ?_⟩
          subst e
          rcases g2 with ⟨g2, g3, g4⟩ | ⟨_, g3⟩
          · exfalso
            have hr := hb.run proc hq
            rw [hm] at hr
            have hin := (in_range_ne hc hw hw.curPart w.main)
            rcases hr with r | r | ⟨p', hp', r1, r2⟩
            · exact hin.1 r
            · exact hin.2 proc hq r
            · have := range_disjoint hw hp' hw.curPart r1 w.main
              subst this
              rcases r2 with ⟨_, _, r2⟩ | ⟨r2, _⟩
              · exact hne (g4.trans r2.symm)
              · exact r2 g2
          · exact g3
        · rw [hst' p e]; exact g2
  have hS : Still c { (k.setP k.curPart { k.P k.curPart with mode := .normal }) with T := T } := by
    refine ⟨?_, ?_, ?_⟩
    · intro p hp
      exact (hfix p).2.2.2.2.1.trans (hb.still.err p hp)
    · obtain ⟨_, _, f3, _, _, f6, _⟩ := hfix 0
      exact ⟨f3.trans hb.still.main.1, by
        show 1 ≤ ((upd k.P k.curPart { k.P k.curPart with mode := .normal }) 0).index
        rw [f6]; exact hb.still.main.2.1, by
        show (T 0).affinity = 0
        rw [haff]; exact hb.still.main.2.2⟩
    · intro q hq'
      show ((upd k.P k.curPart { k.P k.curPart with mode := .normal }) 0).cur q = idle c q ∨
        ((T (((upd k.P k.curPart { k.P k.curPart with mode := .normal }) 0).cur q)).affinity = q ∧
          (Starting ((upd k.P k.curPart { k.P k.curPart with mode := .normal }) 0) →
            ((upd k.P k.curPart { k.P k.curPart with mode := .normal }) 0).cur q = 0))
      rw [(hfix 0).2.2.2.2.2.2, haff]
      rcases hb.still.cur q hq' with g | ⟨g1, g2⟩
      · exact Or.inl g
      · exact Or.inr ⟨g1, fun g => g2 (hst 0 g).2⟩
  obtain ⟨a, b⟩ := still_sched hc hq (wf_switch (now := now) hc hwN) hm0 ⟨hS.err, hS.main, hS.cur⟩ hnew h
  exact ⟨a, b⟩

/-- Every kernel entry but the creation of an error handler keeps the invariant. -/
theorem bound_exec {c proc now k call k'} (hc : CfgOk c) (hq : proc < c.nbProcs) (hw : Wf c k)
    (hm0 : procRealId (c.affinity 0) 0 = some 0) (hb : Bound c k) (hn : ∀ e j, call ≠ .errorCreate e j)
    (h : exec c proc now k call = some k') : Bound c k' := by
  have herr := hb.still.err _ hw.curPart
  by_cases hcall : call = .setMode .normal
  · subst hcall
    rcases exec_normal h with rfl | ⟨h1, h2, h3⟩
    · exact hb
    · exact bound_normal hc hq hw hm0 hb h1 h2 h3
  · obtain ⟨k1, h1, h2⟩ := exec_cases h
    refine bound_then hc hq (wf_pre hw hc h1) hm0 ?_ h2
    cases h1 with
    | same => exact hb
    | thread _ i t _ hk _ =>
      refine bound_affinity hb fun j => ?_
      by_cases e : j = i
      · subst e; rw [upd_same]; exact hk.1
      · rw [upd_other _ _ e]
    | create a k1 id h =>
      obtain ⟨hid, hlt, hst, aff, _, hmu, rfl⟩ := create_ok h
      exact bound_created hw hc hb hst (hid ▸ hlt)
    | normal => exact absurd rfl hcall
    | stop _ h0 => exact absurd herr h0
    | init _ _ _ _ _ h0 => exact absurd herr h0
    | errorCreate entry junk => exact absurd rfl (hn entry junk)
    | raise =>
      unfold activateError
      simp only [herr]
      exact hb

theorem bound_execAll {c} (hc : CfgOk c) (hm0 : procRealId (c.affinity 0) 0 = some 0) :
    ∀ (es : List KEv) (k k' : Kernel), (∀ e ∈ es, e.proc < c.nbProcs ∧ ∀ a j, e.call ≠ .errorCreate a j) →
    Wf c k → Bound c k → execAll c k es = some k' → Bound c k' := by
  intro es
  induction es with
  | nil => intro k k' _ _ hb h; simp [execAll] at h; subst h; exact hb
  | cons e es ih =>
    intro k k' hq hw hb h
    unfold execAll at h
    split at h
    · simp at h
    · rename_i k1 h1
      have he := hq e (by simp)
      exact ih k1 k' (fun e he => hq e (by simp [he])) (wf_exec hc he.1 hw h1)
        (bound_exec hc he.1 hw hm0 hb he.2 h1) h

theorem partitionInit_cur {c : Config} : ∀ (n : Nat) (k k' : Kernel), 0 < n → partitionInit c k n = some k' →
    k'.curThread = fun _ => kernelThread c := by
  intro n k k' hn h
  cases n with
  | zero => omega
  | succ n =>
    unfold partitionInit at h
    split at h
    · simp at h
    · split at h
      · simp at h
      · obtain ⟨k2, id, a, hcr, _, _, _, _, _, _, rfl⟩ := setup_parts h
        obtain ⟨_, _, _, aff, _, _, rfl⟩ := create_ok hcr
        rfl

theorem boot_bound {c : Config} {k : Kernel} (hc : CfgOk c) (h : boot c = some k) : Bound c k := by
  obtain ⟨h1, h2, h3⟩ := boot_spec hc.threads h
  have hcur : ∀ q, k.curThread q = kernelThread c := by
    unfold boot at h
    simp only at h
    split at h
    · simp at h
    · rename_i k1 hk1
      injection h with h
      have := partitionInit_cur _ _ _ hc.parts hk1
      intro q
      rw [← h]
      simp [threadInit, this]
  have hP : ∀ p < c.nbParts, (k.P p).threadError = 0 ∧ (k.P p).index = 1 ∧
      (k.P p).threadMain = prefixSum c.nthreads p ∧ ∀ q, (k.P p).cur q = idle c q := by
    intro p hp
    obtain ⟨P, hP, he⟩ := h1 p hp
    unfold initPart at hP
    split at hP
    · simp at hP
    · injection hP with hP
      subst hP
      rw [he]
      exact ⟨rfl, rfl, rfl, fun q => rfl⟩
  have hroom := hc.room
  have hth := hc.threads 0 hc.parts
  have hle := prefixSum_le c.nthreads hc.parts
  obtain ⟨_, p2, p3, p4⟩ := hP 0 hc.parts
  refine ⟨⟨fun p hp => (hP p hp).1, ⟨p3, by omega, ?_⟩, fun q _ => Or.inl (p4 q)⟩, fun q _ => Or.inl (hcur q)⟩
  exact ((h3 0 (by omega)).2.2 (by omega)).2

end Kernel
end Pok
