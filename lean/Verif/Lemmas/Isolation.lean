import Verif.Spec.Isolation
import Verif.Lemmas.Boot
import Verif.Lemmas.Bound

/-! Helper lemmas for the isolation of partitions. -/

namespace Pok
namespace Kernel
open Pok.Spec

/-- Equal but for the end time. -/
def Like (t t' : Thread) : Prop := ∃ x, t' = { t with endTime := x }

theorem Like.refl (t : Thread) : Like t t := ⟨t.endTime, rfl⟩
theorem Like.trans {a b c : Thread} (h : Like a b) (h' : Like b c) : Like a c := by
  obtain ⟨x, rfl⟩ := h; obtain ⟨y, rfl⟩ := h'; exact ⟨y, rfl⟩
theorem Like.symm {a b : Thread} (h : Like a b) : Like b a := by
  obtain ⟨x, rfl⟩ := h; exact ⟨a.endTime, rfl⟩

/-- In the range of partition `b`. -/
def Mine (k : Kernel) (b i : Nat) : Prop := (k.P b).low ≤ i ∧ i < (k.P b).high

/-- Two states with the same partition `b`. -/
structure Agree (b : Nat) (k k' : Kernel) : Prop where
  ps : k'.ps = k.ps
  part : k'.P b = k.P b
  thr : ∀ i, Mine k b i → Like (k.T i) (k'.T i)

theorem Agree.mine {b k k'} (h : Agree b k k') (i : Nat) : Mine k' b i ↔ Mine k b i := by
  unfold Mine; rw [h.part]

theorem Agree.symm {b k k'} (h : Agree b k k') : Agree b k' k :=
  ⟨h.ps.symm, h.part.symm, fun i hi => (h.thr i ((h.mine i).1 hi)).symm⟩

theorem Agree.trans {b k k' k''} (h : Agree b k k') (h' : Agree b k' k'') : Agree b k k'' :=
  ⟨h'.ps.trans h.ps, h'.part.trans h.part, fun i hi => (h.thr i hi).trans (h'.thr i ((h.mine i).2 hi))⟩

/-! ### What another partition's entries leave alone -/

/-- The processor is not in partition `b`. -/
def Away (b : Nat) (k : Kernel) : Prop := k.curPart ≠ b ∧ ¬ Mine k b (k.curThread 0)

/-- Partition `b` is as before, exactly. -/
structure Frame (b : Nat) (k k' : Kernel) : Prop where
  part : k'.P b = k.P b
  thr : ∀ i, Mine k b i → k'.T i = k.T i

theorem Frame.refl (b : Nat) (k : Kernel) : Frame b k k := ⟨rfl, fun _ _ => rfl⟩
theorem Frame.trans {b k k' k''} (h : Frame b k k') (h' : Frame b k' k'') : Frame b k k'' :=
  ⟨h'.part.trans h.part, fun i hi => (h'.thr i (by unfold Mine; rw [h.part]; exact hi)).trans (h.thr i hi)⟩

theorem recorded_away {c k b e} (hc : CfgOk c) (hw : Wf c k) (hb : b < c.nbParts) (hne : k.curPart ≠ b)
    (h : Recorded (idle c 0) (k.P k.curPart).low (k.P k.curPart).high e) : ¬ Mine k b e := by
  intro hm
  rcases h with h | h
  · exact (in_range_ne hc hw hb hm).2 0 hc.procs h
  · exact hne (range_disjoint hw hw.curPart hb h hm)

/-- What an election does, in one place. -/
theorem sched_all {c now k k'} (hc : CfgOk c) (hw : Wf c k) (h : schedThread c 0 now k = some k') :
    ∃ T1 T2 e, wakeLoop c 0 now k.T (k.P k.curPart).low (k.P k.curPart).nthreads = some T1 ∧
      choose c 0 k T1 k.curPart = some (T2, e) ∧
      Recorded (idle c 0) (k.P k.curPart).low (k.P k.curPart).high e ∧
      k'.T = (if (T2 (k.curThread 0)).timeCapacity > 0 then
        upd T2 e { T2 e with endTime := addU64 now (T2 e).remaining } else T2) ∧
      k'.ps = k.ps ∧ k'.curThread 0 = e ∧ k'.P = (record c 0 k e).P := by
  obtain ⟨k1, e, he, hT, hps, hcur, hP, _⟩ := sched_parts h
  obtain ⟨T1, T2, _, h1, h2, rfl⟩ := elect_parts he
  have hwp := hw.part _ hw.curPart
  have hrec := choose_recorded hc hw.curPart hc.procs hwp h2
  have hmod : e % 256 = e := Nat.mod_eq_of_lt (recorded_lt hc hw.curPart hc.procs hwp hrec)
  rw [hmod] at hP hcur
  refine ⟨T1, T2, e, h1, h2, hrec, hT, hps, by rw [hcur, upd_same], ?_⟩
  rw [hP]
  unfold record curPart setP
  simp only
  split <;> rfl

theorem wake_other {c now k T1} {i : Nat} (hw : Wf c k)
    (h1 : wakeLoop c 0 now k.T (k.P k.curPart).low (k.P k.curPart).nthreads = some T1)
    (hi : ¬ Mine k k.curPart i) : T1 i = k.T i := by
  have w := hw.part _ hw.curPart
  have h3 := w.high
  have h4 := w.nth
  refine (wakeLoop_spec _ _ _ _ h1).2 i ?_
  unfold Mine at hi
  omega

theorem endTime_other {T2 : Threads} {cond : Prop} [Decidable cond] {e now i : Nat} (h : i ≠ e) :
    (if cond then upd T2 e { T2 e with endTime := addU64 now (T2 e).remaining } else T2) i = T2 i := by
  split
  · exact upd_other _ _ h
  · rfl

theorem frame_sched {c now k k' b} (hc : CfgOk c) (hw : Wf c k) (hb : b < c.nbParts) (ha : Away b k)
    (h : schedThread c 0 now k = some k') : Frame b k k' ∧ k'.ps = k.ps ∧ Away b k' := by
  obtain ⟨T1, T2, e, h1, h2, hrec, hT, hps, hcur, hP⟩ := sched_all hc hw h
  have hn := recorded_away hc hw hb ha.1 hrec
  have hpart : k'.P b = k.P b := by
    rw [hP]; exact (record_P c 0 k e b).2.1 (fun g => ha.1 g.symm)
  refine ⟨⟨hpart, ?_⟩, hps, ?_⟩
  · intro i hi
    have hie : i ≠ e := fun g => hn (g ▸ hi)
    have hic : i ≠ k.curThread 0 := fun g => ha.2 (g ▸ hi)
    have hia : ¬ Mine k k.curPart i := fun g => ha.1 (range_disjoint hw hw.curPart hb g hi)
    rw [hT, endTime_other hie]
    have : T2 i = T1 i := by
      rcases choose_table h2 with g | ⟨g, _⟩
      · rw [g]
      · rw [g]; exact account_other hic
    rw [this, wake_other hw h1 hia]
  · refine ⟨by unfold curPart; rw [hps]; exact ha.1, ?_⟩
    unfold Mine
    rw [hcur, hpart]; exact hn

/-- No change of partition. -/
theorem switch_same {c now k} (h : now < k.ps.nextDeadline) : switchPartition c now k = k := by
  have : electPartition c.toSlotTable k.ps now = (k.ps, []) := by
    unfold electPartition
    split
    · rfl
    · rw [if_neg (by omega)]
  unfold switchPartition
  rw [this]
  rfl

theorem frame_then {c now k k' b} (hc : CfgOk c) (hw : Wf c k) (hb : b < c.nbParts) (ha : Away b k)
    (hn : now < k.ps.nextDeadline) (h : Then c 0 now k k') : Frame b k k' ∧ k'.ps = k.ps ∧ Away b k' := by
  rcases h with rfl | h | h
  · exact ⟨.refl _ _, rfl, ha⟩
  · exact frame_sched hc hw hb ha h
  · unfold globalSched at h
    rw [switch_same hn] at h
    exact frame_sched hc hw hb ha h

theorem activate_frame {c k b} (hc : CfgOk c) (hw : Wf c k) (hb : b < c.nbParts) (ha : Away b k) :
    Frame b k (activateError 0 k) ∧ (activateError 0 k).ps = k.ps ∧ Away b (activateError 0 k) := by
  unfold activateError
  simp only
  split
  · rename_i h0
    have hr := (hw.part _ hw.curPart).err.resolve_left h0
    have hn : ¬ Mine k b (k.P k.curPart).threadError := recorded_away hc hw hb ha.1 (Or.inr hr)
    refine ⟨⟨rfl, ?_⟩, rfl, ?_⟩
    · intro i hi
      exact upd_other _ _ (fun g => hn (g ▸ hi))
    · refine ⟨ha.1, ?_⟩
      show ¬ Mine k b (upd k.curThread 0 (k.P k.curPart).threadError 0)
      rw [upd_same]; exact hn
  · exact ⟨.refl _ _, rfl, ha⟩

theorem created_frame {c k a b aff} (hw : Wf c k) (hb : b < c.nbParts) (hne : k.curPart ≠ b)
    (h : (k.P k.curPart).low + (k.P k.curPart).index < (k.P k.curPart).high) :
    Frame b k (created c k a k.curPart aff) := by
  refine ⟨upd_other _ _ (fun g => hne g.symm), ?_⟩
  intro i hi
  exact (created_T (c := c) (a := a) (aff := aff) h i).1 (fun g => hne (range_disjoint hw hw.curPart hb g hi))

theorem frame_setP {k b v} (hne : k.curPart ≠ b) : Frame b k (k.setP k.curPart v) :=
  ⟨upd_other _ _ (fun g => hne g.symm), fun _ _ => rfl⟩

theorem away_of {b k k'} (ha : Away b k) (hp : k'.ps = k.ps) (hP : k'.P b = k.P b)
    (hcur : k'.curThread = k.curThread) : Away b k' :=
  ⟨by unfold curPart; rw [hp]; exact ha.1, by unfold Mine; rw [hP, hcur]; exact ha.2⟩

theorem frame_pre {c now k k1 b call} (hc : CfgOk c) (hw : Wf c k) (hb : b < c.nbParts) (ha : Away b k)
    (hadm : Admitted k call) (h : PreStep c 0 now k call k1) : Frame b k k1 ∧ k1.ps = k.ps ∧ Away b k1 := by
  have hdis : ∀ i, Mine k k.curPart i → ¬ Mine k b i := fun i h1 h2 => ha.1 (range_disjoint hw hw.curPart hb h1 h2)
  cases h with
  | same => exact ⟨.refl _ _, rfl, ha⟩
  | thread _ i t ht hk hr =>
    have hi : ¬ Mine k b i := by
      rcases hr with ⟨_, g⟩ | g | g
      · rw [g]; exact ha.2
      · subst g; exact hdis i hadm
      · have hne : selfCall call = true ∨ i ≠ (k.P k.curPart).high := by
          cases call <;> simp only [target, Option.some.injEq, reduceCtorEq] at ht <;>
            simp only [Admitted] at hadm <;> first | (left; rfl) | (right; omega)
        rcases hne with hs | hne
        · have : i = k.curThread 0 := by
            cases call <;> simp only [selfCall, reduceCtorEq, Bool.false_eq_true] at hs <;>
              simp only [target, Option.some.injEq] at ht <;> omega
          rw [this]; exact ha.2
        · exact hdis i ⟨g.1, by omega⟩
    refine ⟨⟨rfl, fun j hj => upd_other _ _ (fun g => hi (g ▸ hj))⟩, rfl, ha⟩
  | create a k1 id h =>
    obtain ⟨hid, hlt, _, aff, _, _, rfl⟩ := create_ok h
    have f := created_frame (a := a) (aff := aff) (c := c) hw hb ha.1 (by omega)
    exact ⟨f, rfl, away_of ha rfl f.part rfl⟩
  | normal hm hi =>
    have w := hw.part _ hw.curPart
    refine ⟨⟨upd_other _ _ (fun g => ha.1 g.symm), ?_⟩, rfl, away_of ha rfl (upd_other _ _ (fun g => ha.1 g.symm)) rfl⟩
    intro i hi
    have h1 : i ≠ (k.P k.curPart).threadMain := fun g => hdis _ w.main (g ▸ hi)
    have h2 : ¬ Mine k k.curPart i := fun g => hdis _ g hi
    show (releaseLoop c now _ k.T _ _).setState _ .stopped i = k.T i
    unfold Threads.setState
    rw [upd_other _ _ h1, releaseLoop_spec, if_neg]
    have h3 := w.high
    have h4 := w.nth
    unfold Mine at h2
    omega
  | stop he h0 =>
    exact ⟨frame_setP ha.1, rfl, away_of ha rfl (frame_setP (b := b) ha.1).part rfl⟩
  | init m k1 hm hw' he h0 h =>
    unfold reinit at h
    obtain ⟨k2, id, a, hcr, _, _, _, _, _, _, rfl⟩ := setup_parts h
    obtain ⟨hid, hlt, _, aff, _, hmu, rfl⟩ := create_ok hcr
    have hcp : ∀ v v', ((k.setP k.curPart v).setP k.curPart v').curPart = k.curPart := fun _ _ => rfl
    have hf : Frame b k (created c ((k.setP k.curPart { k.P k.curPart with mode := m }).setP k.curPart
        (resetPart c 0 k.curPart ((k.setP k.curPart { k.P k.curPart with mode := m }).P k.curPart))) a k.curPart aff) := by
      refine ⟨?_, ?_⟩
      · show upd (upd (upd k.P _ _) _ _) _ _ b = k.P b
        rw [upd_other _ _ (fun g => ha.1 g.symm), upd_other _ _ (fun g => ha.1 g.symm),
          upd_other _ _ (fun g => ha.1 g.symm)]
      · intro i hi
        refine (created_T (c := c) (a := a) (aff := aff) (by omega) i).1 ?_
        intro g
        apply hdis i _ hi
        simpa [setP, resetPart, Mine] using g
    have hP : ∀ (K : Kernel) (v : Part), K.P b = k.P b → (K.setP k.curPart v).P b = k.P b := by
      intro K v hK
      show upd K.P _ _ b = k.P b
      rw [upd_other _ _ (fun g => ha.1 g.symm), hK]
    exact ⟨⟨hP _ _ hf.part, hf.thr⟩, rfl, away_of ha rfl (hP _ _ hf.part) rfl⟩
  | errorCreate entry junk k1 id h =>
    obtain ⟨hid, hlt, _, aff, _, hmu, rfl⟩ := create_ok h
    have f := created_frame (a := { junk with priority := 200, entry := entry, timeCapacity := 10000 }) (aff := aff)
      (c := c) hw hb ha.1 (by omega)
    generalize hk1 : created c k { junk with priority := 200, entry := entry, timeCapacity := 10000 } k.curPart aff = k1 at *
    have hps : k1.ps = k.ps := by rw [← hk1]; rfl
    have hcur : k1.curThread = k.curThread := by rw [← hk1]; rfl
    have hcp : k1.curPart = k.curPart := by unfold curPart; rw [hps]
    have f2 : Frame b k (k1.setP k1.curPart { k1.P k1.curPart with threadError := id }) :=
      f.trans (frame_setP (by rw [hcp]; exact ha.1))
    have ha2 : Away b (k1.setP k1.curPart { k1.P k1.curPart with threadError := id }) :=
      away_of ha hps f2.part hcur
    have hi2 : ¬ Mine k b id := hdis id ⟨by omega, hlt⟩
    generalize hk2 : k1.setP k1.curPart { k1.P k1.curPart with threadError := id } = k2 at *
    have hps2 : k2.ps = k.ps := by rw [← hk2]; exact hps
    have hte : (k2.P k2.curPart).threadError = id := by
      rw [← hk2]; show (upd k1.P k1.curPart _ k1.curPart).threadError = id; rw [upd_same]
    have hm : ∀ j, Mine k2 b j ↔ Mine k b j := fun j => by unfold Mine; rw [f2.part]
    unfold activateError
    simp only [hte]
    split
    · refine ⟨⟨f2.part, ?_⟩, hps2, ?_⟩
      · intro i hi
        rw [← f2.thr i hi]
        exact upd_other _ _ (fun g => hi2 (g ▸ hi))
      · refine ⟨ha2.1, ?_⟩
        show ¬ Mine k2 b (upd k2.curThread 0 id 0)
        rw [upd_same, hm]; exact hi2
    · exact ⟨f2, hps2, ha2⟩
  | raise => exact activate_frame hc hw hb ha

theorem execR_exec {c now k call k1 r} (h : execR c now k call = some (k1, r)) : exec c 0 now k call = some k1 := by
  cases call <;> simp only [execR, exec] at h ⊢ <;>
    first
    | (obtain ⟨a, h1, h2⟩ := map_some h; rw [h1]; simp only [Prod.mk.injEq] at h2; simp [h2.1])
    | (simp only [Option.some.injEq, Prod.mk.injEq] at h; simp [h.1])

/-- A call of another partition leaves partition `b` alone. -/
theorem frame_call {c now k k1 b call r} (hc : CfgOk c) (hw : Wf c k) (hb : b < c.nbParts) (ha : Away b k)
    (hn : now < k.ps.nextDeadline) (hadm : Admitted k call) (h : execR c now k call = some (k1, r)) :
    Frame b k k1 ∧ k1.ps = k.ps ∧ Away b k1 := by
  have he := execR_exec h
  obtain ⟨k2, h1, h2⟩ := exec_cases he
  obtain ⟨f1, p1, a1⟩ := frame_pre hc hw hb ha hadm h1
  obtain ⟨f2, p2, a2⟩ := frame_then hc (wf_pre hw hc h1) hb a1 (by rw [p1]; exact hn) h2
  exact ⟨f1.trans f2, p2.trans p1, a2⟩

end Kernel
end Pok
