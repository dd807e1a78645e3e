import Verif.Model.Info
import Verif.Spec.Info
import Verif.Props.Results
import Verif.Props.Election
import Verif.Props.ArincArgs

/-!
# What a partition and its threads can learn about themselves (C83)
-/

namespace Pok.Info
open Pok.Results Pok.Stub Pok.StubSpec Pok.ResultSpec Pok.InfoSpec Pok.ArincSpec Pok.Kernel

/-- Memory after the stores of `GET_PARTITION_STATUS`. -/
theorem status_stores {c : Config} {k : Kernel} {m m' : Nat → Nat} {a : Nat} {code : Arinc.Code} (h : partitionStatus c k m a = some (m', code)) :
    k.curPart < c.nbSlots ∧ code = .noError ∧
    m' = put (put (put (put (put (put m (a + 16) (le 1 k.curPart)) a (le 8 0)) (a + 8) (le 8 (c.slots k.curPart))) (a + 20) (le 4 0))
      (a + 24) (le 4 (modeNum (k.P k.curPart).mode))) (a + 28) (le 4 0) := by
  unfold partitionStatus getDuration at h
  split at h
  · rename_i hc
    simp only [Option.map_some, Option.some.injEq, Prod.mk.injEq] at h
    exact ⟨hc, h.2.symm, h.1.symm⟩
  · simp at h

/-- **C83** (partition, part) For every state of the kernel, whenever the call returns: the status variable holds the identifier of the calling
partition (if the three upper bytes of the field were 0 before), its operating mode with the number that the ARINC standard gives it, for the
modes in which a partition executes; and the lock level 0; nothing else in memory changes.  The code is NO_ERROR.  The duration is the slot whose
number is that of the partition.  What is missing: see the violations below. -/
theorem C83_partition_partial (c : Config) (k : Kernel) (m m' : Nat → Nat) (a : Nat) (code : Arinc.Code) (mode : Nat)
    (hp : k.curPart < 256) (hd : c.slots k.curPart < 2 ^ 64) (hz : ∀ i, 1 ≤ i → i < 4 → m (a + 16 + i) = 0)
    (hm : mode ≠ 0) (hmode : operatingMode mode = some (k.P k.curPart).mode) (h : partitionStatus c k m a = some (m', code)) :
    code = .noError ∧ OnlyIn m m' a 32 ∧
    HoldsStatus m' a { period := 0, duration := c.slots k.curPart, identifier := k.curPart, lockLevel := 0, mode := mode, start := 0 } := by
  obtain ⟨h1, h2, h3⟩ := status_stores h
  have hn : modeNum (k.P k.curPart).mode = mode ∧ mode < 4 := by
    unfold operatingMode at hmode
    split at hmode <;> simp_all [modeNum] <;> rw [← hmode] <;> rfl
  rw [hn.1] at h3
  subst h3
  refine ⟨h2, ?_, ?_, ?_, ?_, ?_, ?_, ?_⟩
  · iterate 6 refine onlyIn_put ?_ (by omega) (by simp only [le_length]; omega)
    exact onlyIn_refl _ _ _
  · iterate 4 refine holds_other (by simp only [le_length]; omega) ?_
    exact holds_same _ _ _ _ (by norm_num)
  · iterate 3 refine holds_other (by simp only [le_length]; omega) ?_
    exact holds_same _ _ _ _ (by norm_num; omega)
  · iterate 5 refine holds_other (by simp only [le_length]; omega) ?_
    refine ⟨by norm_num; omega, fun i hi => ?_⟩
    by_cases h0 : i = 0
    · subst h0
      have := put_in m (a + 16) (le 1 k.curPart) 0 (by simp [le_length])
      rw [this]
      simp [le]
    · rw [put_out _ _ _ _ (by simp only [le_length]; omega), hz i (by omega) hi]
      have : k.curPart / 256 ^ i = 0 := Nat.div_eq_of_lt (Nat.lt_of_lt_of_le hp (Nat.le_self_pow h0 256))
      rw [this]
  · iterate 2 refine holds_other (by simp only [le_length]; omega) ?_
    exact holds_same _ _ _ _ (by norm_num)
  · refine holds_other (by simp only [le_length]; omega) ?_
    exact holds_same _ _ _ _ (by norm_num; omega)
  · exact holds_same _ _ _ _ (by norm_num)

/-- **C83** (duration, part) If each partition has one slot, the one with its own number, the duration shown is the processor time that the
partition gets in each major frame, and the call always returns. -/
theorem C83_duration_partial (c : Config) (k : Kernel) (m : Nat → Nat) (a : Nat) (halloc : ∀ i < c.nbSlots, c.alloc i = i)
    (hp : k.curPart < c.nbSlots) (hd : c.slots k.curPart < 2 ^ 64) :
    ∃ m', partitionStatus c k m a = some (m', .noError) ∧ HoldsInt m' (a + 8) 8 (allotted c.toSlotTable k.curPart) := by
  have hs : allotted c.toSlotTable k.curPart = c.slots k.curPart := by
    unfold allotted
    have : (List.range c.nbSlots).filter (fun i => c.alloc i == k.curPart) = [k.curPart] := by
      rw [List.filter_congr (q := fun i => i == k.curPart) (fun i hi => by rw [halloc i (List.mem_range.1 hi)])]
      rw [List.filter_beq, List.Nodup.count List.nodup_range, if_pos (List.mem_range.2 hp)]
      rfl
    rw [this]
    simp
  refine ⟨_, by simp only [partitionStatus, getDuration, if_pos hp, Option.map_some]; rfl, ?_⟩
  rw [hs]
  simp only [store, getMode, getId, getPeriod, getLockLevel, getStartCondition]
  iterate 3 refine holds_other (by simp only [le_length]; omega) ?_
  exact holds_same _ _ _ _ (by norm_num; omega)

/-- **C83** (thread) In every reachable state of a module whose running partition is in NORMAL mode and has an error handler: after an election
that does not leave the processor idle, `pok_thread_id` succeeds, stores the identifier of the thread that executes, which is a runnable thread of
this partition, and changes nothing else; `GET_MY_ID` returns the same. -/
theorem C83_thread {c : Config} {k k' : Kernel} {proc now : Nat} (hc : CfgOk c) (hr : Reachable c k) (hq : proc < c.nbProcs)
    (hm : (k.P k.curPart).mode = .normal) (he : (k.P k.curPart).threadError ≠ 0) (h : schedThread c proc now k = some k')
    (hi : k'.curThread proc ≠ idle c proc) (ht : c.nbThreads < 2 ^ 32) (m : Nat → Nat) (a junk : Nat) :
    ∃ t, t = k'.curThread proc ∧ (k.P k.curPart).low ≤ t ∧ t < (k.P k.curPart).high ∧ (k'.T t).state = .runnable ∧
      (threadId c proc k' m a).2 = .ok ∧ HoldsInt (threadId c proc k' m a).1 a 4 t ∧ OnlyIn m (threadId c proc k' m a).1 a 4 ∧
      myId c proc k' junk = (t, .noError) := by
  have hd := C04_dispatch hc hr hq hm h
  have hw := hr.wf hc
  have hrange := (hw.part _ hw.curPart).range hc hw.curPart
  have hroom := hc.room
  rcases hd with hd | ⟨hd, hs, _⟩
  · exact absurd hd hi
  · have hp : (k'.P k'.curPart).threadError = (k.P k.curPart).threadError := by
      unfold schedThread at h
      split at h
      · simp at h
      · rename_i k1 e heq
        have h1 : k1.P = k.P ∧ k1.ps = k.ps := by
          unfold electThread at heq
          split at heq
          · simp at heq
          · split at heq
            · simp at heq
            · split at heq
              · simp at heq
              · simp only [Option.some.injEq, Prod.mk.injEq] at heq
                rw [← heq.1]
                exact ⟨rfl, rfl⟩
        simp only [Option.some.injEq] at h
        rw [← h]
        unfold record
        simp only
        split
        · split <;> simp [setP, curPart, h1.1, h1.2]
        · simp [curPart, h1.1, h1.2]
    have hk : k'.curThread proc ≠ kernelThread c := by unfold kernelThread; omega
    have hg : getCurrent c proc k' = (.ok, some (k'.curThread proc)) := by
      unfold getCurrent
      rw [if_neg (by rw [hp]; exact he), if_neg (by rintro (h | h); exact hk h; exact hi h)]
    refine ⟨_, rfl, hd.1, hd.2, hs, ?_, ?_, ?_, ?_⟩
    · unfold threadId; rw [hg]
    · unfold threadId
      rw [hg]
      exact holds_same _ _ _ _ (by norm_num; omega)
    · unfold threadId
      rw [hg]
      exact onlyIn_put (onlyIn_refl _ _ _) (by omega) (by simp only [le_length]; omega)
    · unfold myId; rw [hg]

/-- **C83** (thread) When nothing but the idle thread or the kernel's own thread executes, `pok_thread_id` reports an error and stores nothing. -/
theorem C83_nobody (c : Config) (k : Kernel) (proc : Nat) (m : Nat → Nat) (a : Nat)
    (h : k.curThread proc = idle c proc ∨ k.curThread proc = kernelThread c) :
    (threadId c proc k m a).1 = m ∧ (threadId c proc k m a).2 ≠ .ok := by
  unfold threadId getCurrent
  split
  · rename_i heq
    split at heq
    · simp only [Prod.mk.injEq] at heq; exact ⟨rfl, by rw [← heq.1]; simp⟩
    · rw [if_pos h.symm] at heq
      simp only [Prod.mk.injEq] at heq; exact ⟨rfl, by rw [← heq.1]; simp⟩
  · rename_i heq
    split at heq
    · simp at heq
    · rw [if_pos h.symm] at heq
      simp at heq

/-! ## Violations -/

/-- **C83** violated (own identifier without a handler): in a partition that has no error handler, no thread can learn its identifier, and
GET_MY_ID nevertheless reports success, with a value that was never written. -/
theorem C83_no_handler_violated (c : Config) (k : Kernel) (proc : Nat) (h : (k.P k.curPart).threadError = 0) (m : Nat → Nat) (a junk : Nat) :
    threadId c proc k m a = (m, .thread) ∧ myId c proc k junk = (junk, .noError) := by
  have : getCurrent c proc k = (.thread, none) := by unfold getCurrent; rw [if_pos h]
  simp [threadId, myId, this]

/-- Every partition is in this situation after the start of the module. -/
theorem C83_no_handler_reached : (runFromBoot exCfg exHist).map (fun k => ((k.P k.curPart).threadError, k.curThread 0)) = some (0, 2) := by
  decide +kernel

/-- **C83** violated (period): whatever the configuration, the period shown is 0, which no partition of a module with a major frame has. -/
theorem C83_period_violated (c : Config) (k : Kernel) (m m' : Nat → Nat) (a : Nat) (code : Arinc.Code) (h : partitionStatus c k m a = some (m', code)) :
    HoldsInt m' a 8 0 := by
  obtain ⟨_, _, rfl⟩ := status_stores h
  iterate 4 refine holds_other (by simp only [le_length]; omega) ?_
  exact holds_same _ _ _ _ (by norm_num)

/-- **C83** violated (start condition): NORMAL_START (0) is shown in every state, also after a restart by the health monitor. -/
theorem C83_start_violated (c : Config) (k : Kernel) (m m' : Nat → Nat) (a : Nat) (code : Arinc.Code) (h : partitionStatus c k m a = some (m', code)) :
    HoldsInt m' (a + 28) 4 0 := by
  obtain ⟨_, _, rfl⟩ := status_stores h
  exact holds_same _ _ _ _ (by norm_num)

/-- **C83** violated (identifier): one byte of the four of the field is stored; with other contents of the variable before the call, the
identifier shown is wrong, whatever the partition. -/
theorem C83_identifier_violated (c : Config) (k : Kernel) (m m' : Nat → Nat) (a : Nat) (code : Arinc.Code) (hp : k.curPart < 256)
    (h : partitionStatus c k m a = some (m', code)) (hz : m (a + 17) ≠ 0) : ¬HoldsInt m' (a + 16) 4 k.curPart := by
  obtain ⟨_, _, rfl⟩ := status_stores h
  intro hh
  have := hh.2 1 (by omega)
  iterate 6 rw [put_out _ _ _ _ (by simp only [le_length]; omega)] at this
  rw [Nat.pow_one, Nat.div_eq_of_lt hp] at this
  exact hz this

/-- Two partitions whose slots are allocated in the opposite order. -/
def exSwap : Config := { exCfg with slots := fun i => if i = 0 then 150 else 50, alloc := fun i => 1 - i }

/-- **C83** violated (duration): the partition with the slot of 150 ticks is told 50. -/
theorem C83_duration_violated : ∃ k, runFromBoot exSwap [⟨0, 0, .tick⟩] = some k ∧ k.curPart = 1 ∧ allotted exSwap.toSlotTable 1 = 150 ∧
    ∀ m a, ∃ m', partitionStatus exSwap k m a = some (m', .noError) ∧ HoldsInt m' (a + 8) 8 50 := by
  have h : (runFromBoot exSwap [⟨0, 0, .tick⟩]).map (fun k => k.curPart) = some 1 := by decide +kernel
  obtain ⟨k, hk, hp⟩ := Option.map_eq_some_iff.1 h
  refine ⟨k, hk, hp, by decide, fun m a => ?_⟩
  refine ⟨_, by simp only [partitionStatus, getDuration, hp, if_pos (show 1 < exSwap.nbSlots by decide), Option.map_some]; rfl, ?_⟩
  simp only [store, getMode, getId, getPeriod, getLockLevel, getStartCondition]
  iterate 3 refine holds_other (by simp only [le_length]; omega) ?_
  exact holds_same _ _ _ _ (by decide)

/-- **C83** violated (duration): with fewer slots than partitions, the table is read outside its bounds. -/
theorem C83_outside_violated (c : Config) (k : Kernel) (m : Nat → Nat) (a : Nat) (h : c.nbSlots ≤ k.curPart) : partitionStatus c k m a = none := by
  unfold partitionStatus getDuration
  rw [if_neg (by omega)]
  rfl

/-! Concrete cases: a partition whose threads have a handler; the main thread of the second partition asks for the status. -/

/-- The main thread creates a thread and a handler, which stops itself, and enters NORMAL mode: thread 1 executes. -/
def exInfo : List KEv :=
  [⟨0, 0, .tick⟩, ⟨0, 1, .create { priority := 3, entry := 1, timeCapacity := 5 }⟩, ⟨0, 2, .errorCreate 7 {}⟩, ⟨0, 2, .stopSelf⟩, ⟨0, 3, .setMode .normal⟩]

example : ((runFromBoot exCfg exInfo).map fun k => ((k.P k.curPart).threadError, k.curThread 0, getCurrent exCfg 0 k)) =
    some (2, 1, (.ok, some 1)) := by decide +kernel

example : ∃ k, runFromBoot exCfg [⟨0, 0, .tick⟩, ⟨0, 100, .tick⟩] = some k ∧ ∃ m', partitionStatus exCfg k (fun _ => 0) 64 = some (m', .noError) ∧
    HoldsStatus m' 64 { period := 0, duration := 100, identifier := 1, lockLevel := 0, mode := 2, start := 0 } := by
  have h : (runFromBoot exCfg [⟨0, 0, .tick⟩, ⟨0, 100, .tick⟩]).map (fun k => (k.curPart, (k.P k.curPart).mode)) = some (1, .initWarm) := by decide +kernel
  obtain ⟨k, hk, hp⟩ := Option.map_eq_some_iff.1 h
  simp only [Prod.mk.injEq] at hp
  obtain ⟨m', hm, _⟩ := C83_duration_partial exCfg k (fun _ => 0) 64 (fun _ _ => rfl) (by rw [hp.1]; decide) (by show 100 < _; decide)
  refine ⟨k, hk, m', hm, ?_⟩
  have := (C83_partition_partial exCfg k (fun _ => 0) m' 64 .noError 2 (by omega) (by show 100 < _; decide) (fun _ _ _ => rfl) (by decide)
    (by rw [hp.2]; rfl) hm).2.2
  rw [hp.1] at this
  exact this

end Pok.Info
