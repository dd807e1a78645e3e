import Verif.Props.ThreadMgmt
import Verif.Props.Affinity
import Verif.Lemmas.Quiet
import Verif.Props.Results
import Mathlib.Tactic.Common

/-!
# The attributes of a created thread (C80)
-/

namespace Pok
namespace Kernel
open Pok.Results (threadInfo ThreadInfo)

/-- Same attributes: those that a partition gives when it creates a thread. -/
structure SameAttr (t t' : Thread) : Prop where
  entry : t'.entry = t.entry
  partition : t'.partition = t.partition
  affinity : t'.affinity = t.affinity
  base : t'.basePriority = t.basePriority
  period : t'.period = t.period
  cap : t'.timeCapacity = t.timeCapacity
  deadline : t'.deadline = t.deadline

theorem SameAttr.refl (t : Thread) : SameAttr t t := ⟨rfl, rfl, rfl, rfl, rfl, rfl, rfl⟩

theorem SameAttr.trans {a b d : Thread} (h : SameAttr a b) (h' : SameAttr b d) : SameAttr a d :=
  ⟨h'.entry.trans h.entry, h'.partition.trans h.partition, h'.affinity.trans h.affinity, h'.base.trans h.base, h'.period.trans h.period,
    h'.cap.trans h.cap, h'.deadline.trans h.deadline⟩

theorem sched_attr {c proc now k k'} (h : schedThread c proc now k = some k') (t : Nat) : SameAttr (k.T t) (k'.T t) := by
  obtain ⟨k1, e0, he, hT, _⟩ := sched_parts h
  have := elect_static he t
  rw [hT]
  exact ⟨this.entry, this.partition, this.affinity, this.basePriority, this.period, this.timeCapacity, this.deadline⟩

theorem then_attr {c proc now k k'} (h : Then c proc now k k') (t : Nat) : SameAttr (k.T t) (k'.T t) := by
  rcases h with rfl | h | h
  · exact SameAttr.refl _
  · exact sched_attr h t
  · exact sched_attr (k := switchPartition c now k) h t

theorem release_attr (c now act t) : SameAttr t (release c now act t) := by
  have := release_static c now act t
  exact ⟨this.entry, this.partition, this.affinity, this.basePriority, this.period, this.timeCapacity, this.deadline⟩

theorem then_error {c proc now k k'} (h : Then c proc now k k') (p : Nat) : (k'.P p).threadError = (k.P p).threadError := by
  have key : ∀ k, schedThread c proc now k = some k' → (k'.P p).threadError = (k.P p).threadError := by
    intro k h
    obtain ⟨k1, e0, he, hT, hps, hcur', hP, _⟩ := sched_parts h
    obtain ⟨p1, _⟩ := elect_P he
    rw [hP, (record_P c proc k1 (e0 % 256) p).1, p1]
  rcases h with rfl | h | h
  · rfl
  · exact key _ h
  · exact key (switchPartition c now k) h

/-- A partition's threads lie in no other partition's range. -/
theorem disjoint_ranges {c k p q t} (hw : Wf c k) (hp : p < c.nbParts) (hq : q < c.nbParts) (h : p ≠ q) (h1 : (k.P p).low ≤ t)
    (h2 : t < (k.P p).high) : ¬ ((k.P q).low ≤ t ∧ t < (k.P q).high) := by
  have wp := hw.part p hp
  have wq := hw.part q hq
  rw [wp.high] at h2
  rw [wq.high]
  rw [wp.low] at h1 h2
  rw [wq.low]
  rcases Nat.lt_or_gt_of_ne h with h | h
  · have := prefixSum_le c.nthreads h; omega
  · have := prefixSum_le c.nthreads h; omega

theorem created_old {c k a pid aff t} (hn : (k.P pid).sched ≠ .rms) (h : t ≠ (k.P pid).low + (k.P pid).index) :
    (created c k a pid aff).T t = k.T t := by
  unfold created
  simp only
  rw [if_neg (fun e => hn e.1)]
  exact upd_other _ _ h

/-- The thread exists in the partition, and is not its error handler. -/
structure Own (k : Kernel) (p t : Nat) : Prop where
  low : (k.P p).low ≤ t
  made : t < (k.P p).low + (k.P p).index
  high : t < (k.P p).high
  err : (k.P p).threadError ≠ 0 → (k.P p).threadError ≠ t

theorem activate_attr {proc t} {k : Kernel} (h : (k.P k.curPart).threadError ≠ 0 → (k.P k.curPart).threadError ≠ t) :
    (activateError proc k).T t = k.T t := by
  by_cases e : (k.P k.curPart).threadError = 0
  · unfold activateError
    simp [e]
  · exact (activate_untouched (h e)).1

/-- One kernel entry leaves the attributes of a thread of the partition alone. -/
theorem exec_attr {c proc now k call k' p t} (hc : CfgOk c) (hp : p < c.nbParts) (hpol : c.policy p ≠ .rms) (hw : Wf c k)
    (hn : k.curPart = p → call ≠ .setMode .initCold ∧ call ≠ .setMode .initWarm) (ho : Own k p t)
    (h : exec c proc now k call = some k') (hw' : Wf c k') : SameAttr (k.T t) (k'.T t) ∧ Own k' p t := by
  have hidx := exec_index h hn
  have wp := hw.part p hp
  have wp' := hw'.part p hp
  have hd : k.curPart ≠ p → ¬ ((k.P k.curPart).low ≤ t ∧ t < (k.P k.curPart).high) :=
    fun e => disjoint_ranges hw hp hw.curPart (Ne.symm e) ho.low ho.high
  have hle : ((k.P k.curPart).threadError ≠ 0 → (k.P k.curPart).threadError ≠ t) := by
    intro h0
    by_cases e : k.curPart = p
    · rw [e] at h0 ⊢; exact ho.err h0
    · rintro rfl
      rcases (hw.part _ hw.curPart).err with g | g
      · exact h0 g
      · exact hd e g
  have hlow : (k'.P p).low = (k.P p).low := by rw [wp.low, wp'.low]
  have hhigh : (k'.P p).high = (k.P p).high := by rw [wp.high, wp'.high, hlow]
  obtain ⟨k1, h1, h2⟩ := exec_cases h
  suffices hs : SameAttr (k.T t) (k1.T t) ∧ ((k1.P p).threadError ≠ 0 → (k1.P p).threadError ≠ t) by
    refine ⟨hs.1.trans (then_attr h2 t), ?_, ?_, ?_, ?_⟩
    · rw [hlow]; exact ho.low
    · rw [hlow]; have := ho.made; omega
    · rw [hhigh]; exact ho.high
    · rw [then_error h2 p]; exact hs.2
  have hcr : ∀ a aff, (k.P k.curPart).low + (k.P k.curPart).index < (k.P k.curPart).high →
      SameAttr (k.T t) ((created c k a k.curPart aff).T t) := by
    intro a aff hlt
    by_cases e : k.curPart = p
    · rw [created_old (by rw [e, wp.sched]; exact hpol) (by rw [e]; have := ho.made; omega)]
      exact SameAttr.refl _
    · rw [(created_T hlt t).1 (hd e)]
      exact SameAttr.refl _
  cases h1 with
  | same => exact ⟨SameAttr.refl _, ho.err⟩
  | thread call i u ht hk hr =>
    refine ⟨?_, ho.err⟩
    show SameAttr _ (upd k.T i u t)
    by_cases e : t = i
    · subst e; rw [upd_same]
      exact ⟨hk.2.2.1, hk.2.2.2.1, hk.1, hk.2.2.2.2.1, hk.2.2.2.2.2.1, hk.2.1, hk.2.2.2.2.2.2.1⟩
    · rw [upd_other _ _ e]; exact SameAttr.refl _
  | create a k1 id h =>
    obtain ⟨hid, hlt, _, aff, _, hmu, rfl⟩ := create_ok h
    refine ⟨hcr a aff (hid ▸ hlt), ?_⟩
    have : ((created c k a k.curPart aff).P p).threadError = (k.P p).threadError := by
      by_cases e : p = k.curPart
      · subst e; simp [created]
      · simp [created, upd_other _ _ e]
    rw [this]; exact ho.err
  | normal hm hi =>
    refine ⟨?_, ?_⟩
    · show SameAttr _ (Threads.setState _ _ _ t)
      unfold Threads.setState
      have hrel : SameAttr (k.T t) (releaseLoop c now (k.P k.curPart).activation k.T (k.P k.curPart).low (k.P k.curPart).nthreads t) := by
        rw [releaseLoop_spec]
        split
        · exact release_attr _ _ _ _
        · exact SameAttr.refl _
      by_cases e : t = (k.P k.curPart).threadMain
      · subst e
        rw [upd_same]
        exact ⟨hrel.entry, hrel.partition, hrel.affinity, hrel.base, hrel.period, hrel.cap, hrel.deadline⟩
      · rw [upd_other _ _ e]; exact hrel
    · have : ((k.setP k.curPart { k.P k.curPart with mode := .normal }).P p).threadError = (k.P p).threadError := by
        by_cases e : p = k.curPart
        · subst e; simp [setP]
        · simp [setP, upd_other _ _ e]
      exact fun h0 => by rw [this] at h0 ⊢; exact ho.err h0
  | stop he h0 =>
    refine ⟨SameAttr.refl _, ?_⟩
    have : ((k.setP k.curPart { k.P k.curPart with mode := .stopped }).P p).threadError = (k.P p).threadError := by
      by_cases e : p = k.curPart
      · subst e; simp [setP]
      · simp [setP, upd_other _ _ e]
    rw [this]; exact ho.err
  | init m k1 hm hwm he h0 h =>
    have e : p ≠ k.curPart := by
      rintro rfl
      obtain ⟨g1, g2⟩ := hn rfl
      rcases hm with rfl | rfl
      · exact g2 rfl
      · exact g1 rfl
    unfold reinit at h
    obtain ⟨k2, id, a, hcr', _, _, _, _, _, _, rfl⟩ := setup_parts h
    obtain ⟨hid, hlt, _, aff, _, hmu, rfl⟩ := create_ok hcr'
    refine ⟨?_, ?_⟩
    · show SameAttr _ ((created c _ a k.curPart aff).T t)
      rw [(created_T (hid ▸ hlt) t).1 (by simpa [setP, resetPart] using hd (Ne.symm e))]
      exact SameAttr.refl _
    · simp only [setP, created, upd_other _ _ e]
      exact ho.err
  | errorCreate entry junk k1 id h3 =>
    obtain ⟨hid, hlt, _, aff, _, hmu, rfl⟩ := create_ok h3
    have hh := hcr { junk with priority := 200, entry := entry, timeCapacity := 10000 } aff (hid ▸ hlt)
    generalize hk2 : (created c k { junk with priority := 200, entry := entry, timeCapacity := 10000 } k.curPart aff) = k2 at *
    have hcp : k2.curPart = k.curPart := by rw [← hk2]; rfl
    have hidt : id ≠ t := by
      rintro rfl
      by_cases e : k.curPart = p
      · rw [e] at hid; have := ho.made; omega
      · exact hd e ⟨by omega, hlt⟩
    refine ⟨?_, ?_⟩
    · rw [activate_attr]
      · exact hh
      · intro _
        show (upd k2.P k2.curPart _ k2.curPart).threadError ≠ t
        rw [upd_same]
        exact hidt
    · rw [activate_P]
      show (upd k2.P k2.curPart _ p).threadError ≠ 0 → (upd k2.P k2.curPart _ p).threadError ≠ t
      by_cases e : p = k.curPart
      · subst e; rw [hcp, upd_same]; exact fun _ => hidt
      · rw [hcp, upd_other _ _ e, ← hk2]
        simp only [created, upd_other _ _ e]
        exact ho.err
  | raise =>
    rw [activate_attr hle, activate_P]
    exact ⟨SameAttr.refl _, ho.err⟩

/-- Over any history without a restart of the partition. -/
theorem execAll_attr {c p t} (hc : CfgOk c) (hp : p < c.nbParts) (hpol : c.policy p ≠ .rms) : ∀ (es : List KEv) (k k' : Kernel), Wf c k →
    (∀ e ∈ es, e.proc < c.nbProcs) → NoRestart c p k es → Own k p t → execAll c k es = some k' →
    SameAttr (k.T t) (k'.T t) ∧ (k'.P p).low ≤ t ∧ t < (k'.P p).high := by
  intro es
  induction es with
  | nil =>
    intro k k' _ _ _ ho h
    simp only [execAll, Option.some.injEq] at h
    subst h
    exact ⟨SameAttr.refl _, ho.low, ho.high⟩
  | cons e es ih =>
    intro k k' hw hq hn ho h
    simp only [execAll] at h
    split at h
    · simp at h
    · rename_i k1 hk1
      have hw1 := wf_exec hc (hq e (by simp)) hw hk1
      obtain ⟨s1, s2⟩ := exec_attr hc hp hpol hw hn.1 ho hk1 hw1
      obtain ⟨r1, r2⟩ := ih k1 k' hw1 (fun e' he' => hq e' (by simp [he'])) (hn.2 k1 hk1) s2 h
      exact ⟨s1.trans r1, r2⟩

theorem toI64_mod (n : Nat) (h : n < U64) : (toI64 n % (U64 : Int)).toNat = n := by
  unfold toI64
  rw [Nat.mod_eq_of_lt h]
  split
  · rw [Int.emod_eq_of_lt (by omega) (by omega)]; rfl
  · rw [Int.sub_emod_right, Int.emod_eq_of_lt (by omega) (by omega)]; rfl

/-- A partition's view of the attributes: values that the types of the call can hold. -/
def AttrFits (a : ThreadAttr) : Prop := a.priority < 256 ∧ a.period < U64 ∧ a.timeCapacity < U64

theorem newThread_fields (t : Thread) (a : ThreadAttr) (pid aff stack : Nat) (h : AttrFits a) :
    (newThread t a pid aff stack).priority = a.priority ∧ (newThread t a pid aff stack).entry = a.entry ∧
    (newThread t a pid aff stack).affinity = aff ∧ (newThread t a pid aff stack).state = .runnable ∧
    (newThread t a pid aff stack).period = (if a.period = 0 then t.period else toI64 a.period) ∧
    (newThread t a pid aff stack).timeCapacity = (if a.timeCapacity = 0 then -1 else toI64 a.timeCapacity) ∧
    (newThread t a pid aff stack).endTime = t.endTime := by
  obtain ⟨h1, h2, h3⟩ := h
  unfold newThread
  rw [Nat.mod_eq_of_lt h2, Nat.mod_eq_of_lt h3, Nat.mod_eq_of_lt h1]
  by_cases e1 : a.period = 0 <;> by_cases e2 : a.timeCapacity = 0 <;> by_cases e3 : a.deadline % U64 > 0 <;>
    simp [e1, e2, e3, Nat.pos_iff_ne_zero]

/-- What the status call answers, from the thread's record. -/
theorem info_of {c k id pr} (h1 : (k.P k.curPart).low ≤ id) (h2 : id ≤ (k.P k.curPart).high)
    (h : procPartitionId (c.affinity k.curPart) (k.T id).affinity = some pr) :
    threadInfo c k id = some (.ok, some ⟨(k.T id).priority, pr, (k.T id).entry, ((k.T id).period % (U64 : Int)).toNat, (k.T id).endTime,
      ((k.T id).timeCapacity % (U64 : Int)).toNat, 8192, Arinc.stateNum (k.T id).state⟩) := by
  unfold threadInfo getStatus
  have : outOfRange k id = false := by unfold outOfRange; simp; omega
  simp [this, h]

theorem created_new {c k a pid aff} (hn : (k.P pid).sched ≠ .rms) : (created c k a pid aff).T ((k.P pid).low + (k.P pid).index) =
    newThread (k.T ((k.P pid).low + (k.P pid).index)) a pid aff (c.stackAddr pid ((k.P pid).index + 1)) := by
  unfold created
  simp only
  rw [if_neg (fun e => hn e.1)]
  exact upd_same _ _ _

theorem real_partition {mask v r : Nat} (h : procRealId mask v = some r) : procPartitionId mask r = some v := by
  by_cases hv : v < popcount mask
  · obtain ⟨r', h1, _, h3⟩ := C50_round_trip mask v hv
    rw [h] at h1
    injection h1 with h1
    rw [h1]; exact h3
  · rw [(C50_outside mask).1 v (by omega)] at h
    simp at h

/-- **C80** (at creation, part) Outside rate-monotonic partitions, the status of a thread that was just created tells the priority, the
processor, the entry point, the period and the time capacity that the creation gave, and that the thread is ready to run; and no other thread
has changed.  What is missing: the deadline, and a period of zero in a slot that was used before (see below). -/
theorem C80_status_partial {c : Config} {k k1 : Kernel} {a : ThreadAttr} {id : Nat} (ha : AttrFits a) (hn : (k.P k.curPart).sched ≠ .rms)
    (h : threadCreate c k a k.curPart = some (k1, .ok, some id)) :
    (∃ v, threadInfo c k1 id = some (.ok, some v) ∧ v.priority = a.priority ∧ v.affinity = a.affinity ∧ v.entry = a.entry ∧
      (a.period ≠ 0 → v.period = a.period) ∧ (a.period = 0 → (k.T id).period = -1 → v.period = 2 ^ 64 - 1) ∧
      v.capacity = (if a.timeCapacity = 0 then 2 ^ 64 - 1 else a.timeCapacity) ∧ v.state = 1) ∧
    ∀ t, t ≠ id → k1.T t = k.T t := by
  obtain ⟨rfl, hlt, _, aff, haff, _, rfl⟩ := create_ok h
  have hcp : (created c k a k.curPart aff).curPart = k.curPart := rfl
  obtain ⟨f1, f2, f3, f4, f5, f6, f7⟩ := newThread_fields (k.T ((k.P k.curPart).low + (k.P k.curPart).index)) a k.curPart aff
    (c.stackAddr k.curPart ((k.P k.curPart).index + 1)) ha
  have hP : ((created c k a k.curPart aff).P k.curPart).low = (k.P k.curPart).low ∧
      ((created c k a k.curPart aff).P k.curPart).high = (k.P k.curPart).high := by simp [created]
  refine ⟨?_, fun t ht => created_old hn ht⟩
  refine ⟨_, info_of (by rw [hcp, hP.1]; omega) (by rw [hcp, hP.2]; omega) (pr := a.affinity) ?_, ?_⟩
  · rw [created_new hn, f3, hcp]; exact real_partition haff
  · simp only [created_new hn, f1, f2, f4, f5, f6]
    refine ⟨trivial, trivial, trivial, ?_, ?_, ?_, rfl⟩
    · intro hp; rw [if_neg hp]; exact toI64_mod _ ha.2.1
    · intro hp ho; rw [if_pos hp, ho]; decide
    · split
      · decide
      · exact toI64_mod _ ha.2.2

/-- **C80** (history, part) These attributes stay, whatever happens afterwards in this and other partitions short of a restart of the partition
(a change of priority changes only the reported priority): the status call in any later state tells the same processor, entry point, period
and capacity. -/
theorem C80_history_partial {c : Config} {k k1 k2 : Kernel} {a : ThreadAttr} {id : Nat} {es : List KEv} (hc : CfgOk c) (hk : Wf c k)
    (hw : Wf c k1) (ha : AttrFits a) (hn : c.policy k.curPart ≠ .rms)
    (h : threadCreate c k a k.curPart = some (k1, .ok, some id)) (hq : ∀ e ∈ es, e.proc < c.nbProcs) (hr : NoRestart c k.curPart k1 es)
    (he : (k1.P k.curPart).threadError ≠ 0 → (k1.P k.curPart).threadError ≠ id) (hx : execAll c k1 es = some k2) (hcur : k2.curPart = k.curPart) :
    ∃ v, threadInfo c k2 id = some (.ok, some v) ∧ v.affinity = a.affinity ∧ v.entry = a.entry ∧ (a.period ≠ 0 → v.period = a.period) ∧
      (a.period = 0 → (k.T id).period = -1 → v.period = 2 ^ 64 - 1) ∧
      v.capacity = (if a.timeCapacity = 0 then 2 ^ 64 - 1 else a.timeCapacity) := by
  have hn' : (k.P k.curPart).sched ≠ .rms := by rw [(hk.part _ hk.curPart).sched]; exact hn
  obtain ⟨rfl, hlt, _, aff, haff, _, rfl⟩ := create_ok h
  obtain ⟨f1, f2, f3, f4, f5, f6, f7⟩ := newThread_fields (k.T ((k.P k.curPart).low + (k.P k.curPart).index)) a k.curPart aff
    (c.stackAddr k.curPart ((k.P k.curPart).index + 1)) ha
  have hP : ((created c k a k.curPart aff).P k.curPart).low = (k.P k.curPart).low ∧
      ((created c k a k.curPart aff).P k.curPart).high = (k.P k.curPart).high ∧
      ((created c k a k.curPart aff).P k.curPart).index = (k.P k.curPart).index + 1 := by simp [created]
  obtain ⟨s, s1, s2⟩ := execAll_attr hc hk.curPart hn es _ k2 hw hq hr ⟨by omega, by omega, by omega, he⟩ hx
  have e1 := s.affinity; have e2 := s.entry; have e3 := s.period; have e4 := s.cap
  rw [created_new hn'] at e1 e2 e3 e4
  rw [f3] at e1
  rw [f2] at e2
  rw [f5] at e3
  rw [f6] at e4
  refine ⟨_, info_of (by rw [hcur]; exact s1) (by rw [hcur]; omega) (pr := a.affinity) ?_, ?_⟩
  · rw [e1, hcur]; exact real_partition haff
  · simp only [e2, e3, e4]
    refine ⟨trivial, trivial, ?_, ?_, ?_⟩
    · intro hp; rw [if_neg hp]; exact toI64_mod _ ha.2.1
    · intro hp ho; rw [if_pos hp, ho]; decide
    · split
      · decide
      · exact toI64_mod _ ha.2.2

/-- **C80** (kept): the kernel keeps the deadline and the base priority that the creation gave, although no call tells the deadline. -/
theorem C80_kept {c : Config} {k k1 : Kernel} {a : ThreadAttr} {id : Nat} (ha : AttrFits a) (hd : a.deadline < 2 ^ 64) (hd0 : a.deadline ≠ 0)
    (hn : (k.P k.curPart).sched ≠ .rms) (h : threadCreate c k a k.curPart = some (k1, .ok, some id)) :
    (k1.T id).deadline = a.deadline ∧ (k1.T id).basePriority = a.priority ∧ (k1.T id).partition = k.curPart := by
  obtain ⟨rfl, hlt, _, aff, haff, _, rfl⟩ := create_ok h
  rw [created_new hn]
  have h0 : 0 < a.deadline := Nat.pos_of_ne_zero hd0
  have h1 := Nat.mod_eq_of_lt ha.1
  have h2 : a.deadline % U64 = a.deadline := Nat.mod_eq_of_lt (by unfold U64; omega)
  unfold newThread
  by_cases e1 : a.period % U64 > 0 <;> by_cases e2 : a.timeCapacity % U64 > 0 <;> simp [e1, e2, h0, h1, h2]

/-- **C80** violated: the deadline that the status tells does not depend on the deadline given: two creations that differ only in the deadline
are reported alike. -/
theorem C80_deadline_violated {c : Config} {k k1 k2 : Kernel} {a : ThreadAttr} {d id : Nat} (ha : AttrFits a) (hn : (k.P k.curPart).sched ≠ .rms)
    (h : threadCreate c k a k.curPart = some (k1, .ok, some id)) (h' : threadCreate c k { a with deadline := d } k.curPart = some (k2, .ok, some id)) :
    threadInfo c k1 id = threadInfo c k2 id := by
  obtain ⟨rfl, hlt, _, aff, haff, _, rfl⟩ := create_ok h
  obtain ⟨_, _, _, aff', haff', _, rfl⟩ := create_ok h'
  have : aff' = aff := by
    have hx : procRealId (c.affinity k.curPart) a.affinity = some aff' := haff'
    rw [haff] at hx; exact (Option.some.inj hx).symm
  subst this
  obtain ⟨f1, f2, f3, f4, f5, f6, f7⟩ := newThread_fields (k.T ((k.P k.curPart).low + (k.P k.curPart).index)) a k.curPart aff'
    (c.stackAddr k.curPart ((k.P k.curPart).index + 1)) ha
  obtain ⟨g1, g2, g3, g4, g5, g6, g7⟩ := newThread_fields (k.T ((k.P k.curPart).low + (k.P k.curPart).index)) { a with deadline := d } k.curPart aff'
    (c.stackAddr k.curPart ((k.P k.curPart).index + 1)) ha
  have hP : ∀ a, ((created c k a k.curPart aff').P k.curPart).low = (k.P k.curPart).low ∧
      ((created c k a k.curPart aff').P k.curPart).high = (k.P k.curPart).high := by intro a; simp [created]
  have hcp : ∀ a, (created c k a k.curPart aff').curPart = k.curPart := fun _ => rfl
  rw [info_of (k := created c k a k.curPart aff') (by rw [hcp, (hP _).1]; omega) (by rw [hcp, (hP _).2]; omega) (pr := a.affinity)
      (by rw [created_new hn, f3, hcp]; exact real_partition haff),
    info_of (k := created c k { a with deadline := d } k.curPart aff') (by rw [hcp, (hP _).1]; omega) (by rw [hcp, (hP _).2]; omega) (pr := a.affinity)
      (by rw [created_new hn, g3, hcp]; exact real_partition haff)]
  simp only [created_new hn, f1, f2, f4, f5, f6, f7, g1, g2, g4, g5, g6, g7]

/-- **C80** violated: a thread created without a period in a slot that held a periodic thread before (after a restart of the partition) has the
period of the old thread. -/
theorem C80_period_violated {c : Config} {k k1 : Kernel} {a : ThreadAttr} {id : Nat} (ha : AttrFits a) (hn : (k.P k.curPart).sched ≠ .rms)
    (hp : a.period = 0) (h : threadCreate c k a k.curPart = some (k1, .ok, some id)) : (k1.T id).period = (k.T id).period := by
  obtain ⟨rfl, hlt, _, aff, haff, _, rfl⟩ := create_ok h
  obtain ⟨f1, f2, f3, f4, f5, f6, f7⟩ := newThread_fields (k.T ((k.P k.curPart).low + (k.P k.curPart).index)) a k.curPart aff
    (c.stackAddr k.curPart ((k.P k.curPart).index + 1)) ha
  rw [created_new hn, f5, if_pos hp]

/-- The attributes of a thread. -/
def exAttr : ThreadAttr := { priority := 3, entry := 7, period := 1000, deadline := 50, timeCapacity := 5 }

/-- A creation from the boot state, seen by the status call at once and after the thread has run and been given another priority. -/
def exMade : List KEv := [⟨0, 0, .tick⟩, ⟨0, 1, .create exAttr⟩]

example : (runFromBoot exCfg [⟨0, 0, .tick⟩]).bind (fun k => (threadCreate exCfg k exAttr k.curPart).map fun r => (r.2, (k.P k.curPart).sched, (k.P k.curPart).threadError)) = some ((.ok, some 1), .static, 0) ∧
    (runFromBoot exCfg exMade).bind (fun k => threadInfo exCfg k 1) = some (.ok, some ⟨3, 0, 7, 1000, 0, 5, 8192, 1⟩) ∧
    (runFromBoot exCfg (exMade ++ [⟨0, 2, .setPriority 1 9⟩, ⟨0, 3, .setMode .normal⟩, ⟨0, 50, .tick⟩])).bind (fun k => threadInfo exCfg k 1) =
      some (.ok, some ⟨9, 0, 7, 1000, 54, 5, 8192, 1⟩) := by
  decide +kernel

/-- The restart: the thread made without a period in the new life has the period of the old one. -/
example : (runFromBoot exCfg [⟨0, 0, .tick⟩, ⟨0, 1, .create { priority := 4, entry := 2, period := 1000 }⟩, ⟨0, 2, .errorCreate 7 {}⟩, ⟨0, 3, .tick⟩,
    ⟨0, 4, .setMode .normal⟩, ⟨0, 5, .raiseError⟩, ⟨0, 6, .setMode .initCold⟩, ⟨0, 7, .tick⟩,
    ⟨0, 8, .create { priority := 4, entry := 2 }⟩]).bind (fun k => threadInfo exCfg k 1) =
      some (.ok, some ⟨4, 0, 2, 1000, 0, 2 ^ 64 - 1, 8192, 1⟩) := by
  decide +kernel

end Kernel
end Pok
