import Verif.Lemmas.IsolationCall
import Verif.Lemmas.Bound

/-! Helper lemmas: two histories that differ in what the other partitions do. -/

namespace Pok
namespace Kernel
open Pok.Spec

theorem pre_ps {c now k k1 call} (h : PreStep c 0 now k call k1) : k1.ps = k.ps := by
  have act : ∀ K : Kernel, (activateError 0 K).ps = K.ps := by
    intro K; unfold activateError; simp only; split <;> rfl
  cases h with
  | same => rfl
  | thread _ i t ht hk hr => rfl
  | create a k1 id h => obtain ⟨_, _, _, aff, _, _, rfl⟩ := create_ok h; rfl
  | normal hm hi => rfl
  | stop he h0 => rfl
  | init m k1 hm hw' he h0 h =>
    unfold reinit at h
    obtain ⟨_, _, _, hcr, _, _, _, _, _, _, rfl⟩ := setup_parts h
    obtain ⟨_, _, _, _, _, _, rfl⟩ := create_ok hcr
    rfl
  | errorCreate entry junk k1 id h =>
    obtain ⟨_, _, _, aff, _, _, rfl⟩ := create_ok h
    rw [act]; rfl
  | raise => exact act k

theorem call_ps {c now k k1 call r} (hc : CfgOk c) (hw : Wf c k) (hn : now < k.ps.nextDeadline)
    (h : execR c now k call = some (k1, r)) : k1.ps = k.ps := by
  obtain ⟨k2, h1, h2⟩ := exec_cases (execR_exec h)
  have hp := pre_ps h1
  have hw2 := wf_pre hw hc h1
  rw [← hp] at hn ⊢
  rcases h2 with rfl | h2 | h2
  · rfl
  · obtain ⟨_, _, _, _, _, _, _, hps, _⟩ := sched_all hc hw2 h2; exact hps
  · unfold globalSched at h2
    rw [switch_same hn] at h2
    obtain ⟨_, _, _, _, _, _, _, hps, _⟩ := sched_all hc hw2 h2; exact hps

theorem Frame.mine {b k k' i} (f : Frame b k k') (h : Mine k' b i) : Mine k b i := by
  unfold Mine at h ⊢; rw [f.part] at h; exact h

/-- The relation between the two histories. -/
structure View (c : Config) (b : Nat) (k k' : Kernel) : Prop where
  wf : Wf c k
  wf' : Wf c k'
  agree : Agree b k k'
  here : k.curPart = b → k'.curThread 0 = k.curThread 0
  away : k.curPart ≠ b → Away b k ∧ Away b k'

theorem tick_ps {c now k k1} (hc : CfgOk c) (hw : Wf c k) (h : exec c 0 now k .tick = some k1) :
    k1.ps = (electPartition c.toSlotTable k.ps now).1 := by
  obtain ⟨_, _, _, _, _, _, _, hps, _⟩ := sched_all hc (wf_switch (now := now) hc hw) h
  exact hps

theorem view_tick {c now b k k' k1 k1'} (hc : CfgOk c) (hb : b < c.nbParts) (v : View c b k k')
    (hq : k.curPart = b → k1.curPart ≠ b → Settled c b k ∨ NoBudget b k)
    (hq' : k'.curPart = b → k1.curPart ≠ b → Settled c b k' ∨ NoBudget b k')
    (h : exec c 0 now k .tick = some k1) (h' : exec c 0 now k' .tick = some k1') : View c b k1 k1' := by
  have hps := tick_ps hc v.wf h
  have hps' := tick_ps hc v.wf' h'
  have hpe : k1'.ps = k1.ps := by rw [hps, hps', v.agree.ps]
  have w1 := wf_exec hc hc.procs v.wf h
  have w1' := wf_exec hc hc.procs v.wf' h'
  have a0 : Agree b (switchPartition c now k) (switchPartition c now k') := by
    refine ⟨?_, v.agree.part, v.agree.thr⟩
    show (electPartition c.toSlotTable k'.ps now).1 = (electPartition c.toSlotTable k.ps now).1
    rw [v.agree.ps]
  have s0 := wf_switch (now := now) hc v.wf
  have s0' := wf_switch (now := now) hc v.wf'
  have hsw : (switchPartition c now k).curPart = k1.curPart := by unfold curPart; rw [hps]; rfl
  have hsw' : (switchPartition c now k').curPart = k1.curPart := by
    unfold curPart; rw [← hpe, hps']; rfl
  by_cases hn : k1.curPart = b
  · have hs : SameCur b (switchPartition c now k) (switchPartition c now k') := by
      by_cases ho : k.curPart = b
      · exact Or.inl (v.here ho)
      · obtain ⟨x, y⟩ := v.away ho
        exact Or.inr ⟨x.2, fun g => y.2 ((v.agree.mine _).2 g)⟩
    obtain ⟨q1, q2, _⟩ := sched_own hc s0 s0' hb a0 (hsw.trans hn) hs h h'
    exact ⟨w1, w1', q1, fun _ => q2, fun g => absurd hn g⟩
  · by_cases ho : k.curPart = b
    · have ho' : k'.curPart = b := by unfold curPart; rw [v.agree.ps]; exact ho
      obtain ⟨q1, q2, q3⟩ := sched_leave hc s0 s0' hb a0 (by rw [hsw]; exact hn) (v.here ho) (hq ho hn) (hq' ho' hn) h h'
      exact ⟨w1, w1', q1, fun g => absurd g hn, fun _ => ⟨q2, q3⟩⟩
    · obtain ⟨x, y⟩ := v.away ho
      obtain ⟨f, _, r⟩ := frame_sched hc s0 hb (show Away b (switchPartition c now k) from ⟨by rw [hsw]; exact hn, x.2⟩) h
      obtain ⟨f', _, r'⟩ := frame_sched hc s0' hb (show Away b (switchPartition c now k') from ⟨by rw [hsw']; exact hn, y.2⟩) h'
      refine ⟨w1, w1', ⟨hpe, ?_, ?_⟩, fun g => absurd g hn, fun _ => ⟨r, r'⟩⟩
      · rw [f.part, f'.part]; exact v.agree.part
      · intro i hi
        have hi0 : Mine k b i := by unfold Mine at hi ⊢; rw [f.part] at hi; exact hi
        rw [f.thr i hi0, f'.thr i ((a0.mine i).2 hi0)]
        exact v.agree.thr i hi0

theorem calls_away {c now b k calls k1 os} (hc : CfgOk c) (hb : b < c.nbParts)
    (h : Calls c Admitted now k calls k1 os) : Wf c k → now < k.ps.nextDeadline → Away b k →
      Wf c k1 ∧ Frame b k k1 ∧ k1.ps = k.ps ∧ Away b k1 := by
  induction h with
  | nil k => intro hw _ ha; exact ⟨hw, .refl _ _, rfl, ha⟩
  | cons hadm he hs ih =>
    intro hw hn ha
    obtain ⟨f, p, a⟩ := frame_call hc hw hb ha hn hadm he
    obtain ⟨w2, f2, p2, a2⟩ := ih (wf_exec hc hc.procs hw (execR_exec he)) (by rw [p]; exact hn) a
    exact ⟨w2, f.trans f2, p2.trans p, a2⟩

theorem calls_own {c now b k calls k1 os} (hc : CfgOk c) (hb : b < c.nbParts) (h : Calls c Admitted now k calls k1 os) :
    ∀ {k' k1' os'}, Calls c Admitted now k' calls k1' os' → Wf c k → Wf c k' → now < k.ps.nextDeadline → Rel b k k' →
      Wf c k1 ∧ Wf c k1' ∧ Rel b k1 k1' ∧ k1.ps = k.ps ∧ os' = os := by
  induction h with
  | nil k =>
    intro k' k1' os' h' hw hw' _ r
    cases h'
    exact ⟨hw, hw', r, rfl, rfl⟩
  | cons hadm he hs ih =>
    intro k' k1' os' h' hw hw' hn r
    cases h' with
    | cons hadm' he' hs' =>
      obtain ⟨r1, e⟩ := rel_call r hc hw hw' hb hn hadm he he'
      have p := call_ps hc hw hn he
      obtain ⟨q1, q2, q3, q4, q5⟩ := ih hs' (wf_exec hc hc.procs hw (execR_exec he))
        (wf_exec hc hc.procs hw' (execR_exec he')) (by rw [p]; exact hn) r1
      exact ⟨q1, q2, q3, q4.trans p, by rw [q5, e, r1.cur]⟩

theorem runs_view {c b k rs k1 obs} (hc : CfgOk c) (hb : b < c.nbParts) (h : Runs c b Admitted (OthersSettled c b) k rs k1 obs) :
    ∀ {k' rs' k1' obs'}, Runs c b Admitted (OthersSettled c b) k' rs' k1' obs' → SameFor c b k.ps rs rs' → View c b k k' →
      View c b k1 k1' ∧ obs' = obs := by
  induction h with
  | nil k =>
    intro k' rs' k1' obs' h' hs v
    cases h' with
    | nil => exact ⟨v, rfl⟩
    | own => exact absurd hs (by simp [SameFor])
    | other => exact absurd hs (by simp [SameFor])
  | own ht hp hcs hr ih =>
    intro k' rs' k1' obs' h' hs v
    cases h' with
    | nil => exact absurd hs (by simp [SameFor])
    | own ht' hp' hcs' hr' =>
      obtain ⟨s1, s2, s3, s4⟩ := hs
      have t1 := tick_ps hc v.wf ht
      rw [← s1] at ht' hcs'
      have v1 := view_tick hc hb v (fun _ g => absurd hp g) (fun _ g => absurd hp g) ht ht'
      rw [← t1] at s2 s3 s4
      rw [← s3 hp] at hcs'
      obtain ⟨q1, q2, q3, q4, q5⟩ := calls_own hc hb hcs hcs' v1.wf v1.wf' s2 ⟨v1.agree, v1.here hp, hp⟩
      have v2 : View c b _ _ := ⟨q1, q2, q3.agree, fun _ => q3.cur, fun g => absurd q3.here g⟩
      obtain ⟨v3, e⟩ := ih hr' (by rw [q4]; exact s4) v2
      exact ⟨v3, by rw [e, q5, v1.here hp]⟩
    | other hb' ht' hp' hcs' hr' =>
      exfalso
      obtain ⟨s1, _⟩ := hs
      have t1 := tick_ps hc v.wf ht
      have t1' := tick_ps hc v.wf' ht'
      rw [v.agree.ps, ← s1, ← t1] at t1'
      apply hp'
      unfold curPart; rw [t1']; exact hp
  | other hbq ht hp hcs hr ih =>
    intro k' rs' k1' obs' h' hs v
    cases h' with
    | nil => exact absurd hs (by simp [SameFor])
    | own ht' hp' hcs' hr' =>
      exfalso
      obtain ⟨s1, _⟩ := hs
      have t1 := tick_ps hc v.wf ht
      have t1' := tick_ps hc v.wf' ht'
      rw [v.agree.ps, ← s1, ← t1] at t1'
      apply hp
      unfold curPart at hp' ⊢; rw [← t1']; exact hp'
    | other hbq' ht' hp' hcs' hr' =>
      obtain ⟨s1, s2, _, s4⟩ := hs
      have t1 := tick_ps hc v.wf ht
      rw [← s1] at ht' hcs'
      have v1 := view_tick hc hb v (fun g _ => hbq g) (fun g _ => hbq' g) ht ht'
      rw [← t1] at s2 s4
      obtain ⟨a, a'⟩ := v1.away hp
      obtain ⟨q1, q2, q3, q4⟩ := calls_away hc hb hcs v1.wf s2 a
      obtain ⟨q1', q2', q3', q4'⟩ := calls_away hc hb hcs' v1.wf' (by rw [v1.agree.ps]; exact s2) a'
      refine ih hr' (by rw [q3]; exact s4) ⟨q1, q1', ⟨by rw [q3, q3', v1.agree.ps], ?_, ?_⟩, fun g => absurd g q4.1, fun _ => ⟨q4, q4'⟩⟩
      · rw [q2.part, q2'.part]; exact v1.agree.part
      · intro i hi
        have hi0 := q2.mine hi
        rw [q2.thr i hi0, q2'.thr i ((v1.agree.mine i).2 hi0)]
        exact v1.agree.thr i hi0

theorem boot_view {c b k} (hc : CfgOk c) (hb : b < c.nbParts) (h : boot c = some k) : View c b k k := by
  have hw := boot_wf hc h
  refine ⟨hw, hw, ⟨rfl, rfl, fun _ _ => .refl _⟩, fun _ => rfl, ?_⟩
  have hcur : k.curThread 0 = kernelThread c := by
    unfold boot at h
    simp only at h
    split at h
    · simp at h
    · rename_i k1 hk1
      injection h with h
      have := partitionInit_cur _ _ _ hc.parts hk1
      rw [← h]
      simp [threadInit, this]
  intro g
  have : Away b k := by
    refine ⟨g, ?_⟩
    rw [hcur]
    intro hm
    have := (hw.part b hb).range hc hb
    have := hc.room
    unfold Mine kernelThread at hm
    omega
  exact ⟨this, this⟩

end Kernel
end Pok
