import Verif.Props.Arinc
import Verif.Props.Create

/-!
# C82: the ARINC 653 services refuse bad parameters and pass good ones on
-/

namespace Pok
namespace Kernel

/-- Scheduling changes no priority. -/
theorem sched_prio {c proc now k k'} (h : globalSched c proc now k = some k') (t : Nat) : (k'.T t).priority = (k.T t).priority := by
  obtain ⟨k1, e0, he, hT, _⟩ := sched_parts h
  rw [hT, (elect_static he t).priority]
  rfl

end Kernel
end Pok

namespace Pok.Arinc
open ArincSpec

theorem u32_nat {n : Int} (h : 0 ≤ n ∧ n < 2 ^ 32) : u32 n = n.toNat := by unfold u32; omega
theorem u64_nat {n : Int} (h : 0 ≤ n ∧ n < 2 ^ 63) : u64 n = n.toNat := by unfold u64; omega

/-! ## Ports, buffers and blackboards -/

/-- **C82** (sampling ports, part) With a size, a period and a direction of the standard, the kernel is asked for exactly this port; otherwise
the service is refused with a code of the standard and the kernel is not asked.  What is missing: the refusal in normal mode, see
`C82_mode_violated`. -/
theorem C82_sampling_partial (size dir refresh : Int) (st : Nat) (e : Errno) (hs : size < 2 ^ 31) (hr : refresh < 2 ^ 63) :
    (st ≠ 3 ∧ 0 < size ∧ 0 ≤ refresh ∧ Direction dir →
      (createSamplingPort size dir refresh st e).calls = [.sampleCreate size.toNat (dir = 0) refresh.toNat]) ∧
    (¬(st ≠ 3 ∧ 0 < size ∧ 0 ≤ refresh ∧ Direction dir) → Refused (createSamplingPort size dir refresh st e)) := by
  unfold createSamplingPort Direction
  refine ⟨fun h => ?_, fun h => ?_⟩
  · rw [if_neg h.1, if_neg (by omega), if_neg (by omega), u32_nat (by omega), u64_nat (by omega)]
    rfl
  · split
    · exact ⟨rfl, _, by decide, rfl⟩
    · split
      · exact ⟨rfl, _, by decide, rfl⟩
      · rw [if_pos (by omega)]
        exact ⟨rfl, _, by decide, rfl⟩

/-- **C82** (writing) A message of positive length is written with its length to the port given; no other is. -/
theorem C82_write (id len : Int) (e : Errno) (hi : Size id) (hl : len < 2 ^ 31) :
    (0 < len → (writeSampling id len e).calls = [.sampleWrite id.toNat len.toNat]) ∧ (len ≤ 0 → Refused (writeSampling id len e)) := by
  unfold writeSampling Size at *
  refine ⟨fun h => ?_, fun h => ?_⟩
  · rw [if_neg (by omega), u32_nat (by omega), u32_nat (by omega)]; rfl
  · rw [if_pos h]; exact ⟨rfl, _, by decide, rfl⟩

/-- **C82** (queueing ports, part) With a direction and a discipline of the standard, and a total size below 4 GB, the kernel is asked for a
port of the total size, in this direction, with this discipline; with others it is not asked.  What is missing: `C82_size_violated`. -/
theorem C82_queueing_partial (msg nb dir disc : Int) (e : Errno) (h : 0 ≤ msg * nb ∧ msg * nb < 2 ^ 32) :
    (Direction dir ∧ ArincSpec.Discipline disc →
      (createQueuingPort msg nb dir disc e).calls = [.queueCreate (msg * nb).toNat (dir = 0) (disc = 0)]) ∧
    (¬(Direction dir ∧ ArincSpec.Discipline disc) → Refused (createQueuingPort msg nb dir disc e)) := by
  unfold createQueuingPort Direction ArincSpec.Discipline
  refine ⟨fun h1 => ?_, fun h1 => ?_⟩
  · rw [if_neg (by omega), if_neg (by omega), u32_nat h]; rfl
  · split
    · exact ⟨rfl, _, by decide, rfl⟩
    · rw [if_pos (by omega)]; exact ⟨rfl, _, by decide, rfl⟩

/-- **C82** (buffers, part) The same for buffers. -/
theorem C82_buffer_partial (msg nb disc : Int) (e : Errno) (hm : Size msg) (h : 0 ≤ msg * nb ∧ msg * nb < 2 ^ 32) :
    (ArincSpec.Discipline disc → (createBuffer msg nb disc e).calls = [.bufferCreate (msg * nb).toNat msg.toNat (disc = 0)]) ∧
    (¬ArincSpec.Discipline disc → Refused (createBuffer msg nb disc e)) := by
  unfold createBuffer ArincSpec.Discipline
  unfold Size at hm
  rw [u32_nat h, u32_nat (n := msg) (by omega)]
  refine ⟨fun h1 => ?_, fun h1 => ?_⟩
  · rcases h1 with rfl | rfl <;> rfl
  · rw [if_neg (by omega), if_neg (by omega)]; exact ⟨rfl, _, by decide, rfl⟩

/-- **C82** (identifiers and lengths) The services on existing buffers, blackboards and ports name the object and the length that the caller
gave; timeouts are those of C61. -/
theorem C82_pass (id len t : Int) (e : Errno) (hi : Size id) (hl : Size len) :
    (∃ x, (sendBuffer id len t e).calls = [.bufferSend id.toNat len.toNat x]) ∧
    (∃ x, (receiveBuffer id t e).calls = [.bufferReceive id.toNat x]) ∧
    (displayBlackboard id len e).calls = [.boardDisplay id.toNat len.toNat] ∧
    (∃ x, (readBlackboard id t e).calls = [.boardRead id.toNat x]) ∧
    (∃ x, (sendQueuing id len t e).calls = [.queueSend id.toNat len.toNat x]) ∧
    (∃ x, (receiveQueuing id t len e).calls = [.queueReceive id.toNat x len.toNat]) ∧
    (readSampling id e).calls = [.sampleRead id.toNat] ∧
    (∀ g, (createBlackboard len (e, g)).1.calls = [.boardCreate len.toNat]) := by
  unfold Size at hi hl
  have h1 := u32_nat (n := id) (by omega)
  have h2 := u32_nat (n := len) (by omega)
  unfold sendBuffer receiveBuffer displayBlackboard readBlackboard sendQueuing receiveQueuing readSampling createBlackboard
  rw [h1, h2]
  refine ⟨⟨_, rfl⟩, ⟨_, rfl⟩, rfl, ⟨_, rfl⟩, ⟨_, rfl⟩, ?_, rfl, fun _ => rfl⟩
  simp only
  split
  · exact ⟨_, rfl⟩
  · exact ⟨_, rfl⟩

/-- **C82** (timeouts of buffers and blackboards) are passed as they are given. -/
theorem C82_timeouts (id len t : Int) (e : Errno) (ht : 0 ≤ t ∧ t < 2 ^ 63) :
    (∃ i l, (sendBuffer id len t e).calls = [.bufferSend i l t.toNat]) ∧ (∃ i, (receiveBuffer id t e).calls = [.bufferReceive i t.toNat]) ∧
    (∃ i, (readBlackboard id t e).calls = [.boardRead i t.toNat]) := by
  unfold sendBuffer receiveBuffer readBlackboard
  rw [u64_nat ht]
  exact ⟨⟨_, _, rfl⟩, ⟨_, rfl⟩, ⟨_, rfl⟩⟩

/-- **C82** violated: the total size is computed on 32 bits: 65536 messages of 65536 bytes make a port, and a buffer, of 0 bytes. -/
theorem C82_size_violated (e : Errno) :
    (createQueuingPort 65536 65536 0 0 e).calls = [.queueCreate 0 true true] ∧
    (createBuffer 65536 65536 0 e).calls = [.bufferCreate 0 65536 true] := by
  cases e <;> decide

/-- **C82** violated: the service checks for normal mode with the state of the calling thread; a running thread is runnable, so that the
service is never refused for the mode of the partition. -/
theorem C82_mode_violated (size dir refresh : Int) (e : Errno) (h : 0 < size ∧ 0 ≤ refresh ∧ Direction dir) :
    (createSamplingPort size dir refresh (stateNum .runnable) e).calls ≠ [] := by
  unfold createSamplingPort
  unfold Direction at h
  rw [if_neg (by decide), if_neg (by omega), if_neg (by omega)]
  simp [Out.raw]

/-! ## Semaphores and events -/

/-- **C82** (semaphores) A semaphore is created with the values and the discipline given; waiting and signalling name the lock object that the
creation returned. -/
theorem C82_semaphore (names : List (List Nat)) (l l' : Layers) (name : List Nat) (cur max disc : Int) (lock : Nat) (i : Nat) (o : Out)
    (h : createSemaphore names l name cur max disc (.ok, lock) = some (l', some i, o)) (hok : o.code = some Code.noError.num) :
    o.calls = [.semCreate cur max disc] ∧ i < names.length ∧
    (∀ t e, ∃ us c, waitSemaphore names.length l' i t e = some (.after (.semWait lock us) c)) ∧
    (∀ e, ∃ c, signalSemaphore names.length l' i e = some (.after (.semSignal lock) c)) := by
  unfold createSemaphore at h
  cases hf : Libc.findName names (Libc.idMatches name) with
  | none => simp only [hf] at h; cases h
  | some j =>
    have hj : j < names.length := by
      unfold Libc.findName at hf
      exact (List.findIdx?_eq_some_iff_findIdx_eq.1 hf).1
    simp only [hf] at h
    rw [if_neg (by omega), if_neg (by omega)] at h
    split at h
    · cases h; cases hok
    · simp at h
      obtain ⟨rfl, rfl, rfl⟩ := h
      refine ⟨rfl, hj, fun t e => ?_, fun e => ?_⟩
      · unfold waitSemaphore
        rw [if_neg (by omega), if_neg (by omega)]
        simp only [Int.toNat_natCast, upd_same]
        exact ⟨_, _, rfl⟩
      · unfold signalSemaphore
        rw [if_neg (by omega), if_neg (by omega)]
        simp only [Int.toNat_natCast, upd_same]
        exact ⟨_, rfl⟩

/-- **C82** (events) The same for events. -/
theorem C82_event (names : List (List Nat)) (l l' : Layers) (name : List Nat) (lock : Nat) (i : Nat) (o : Out)
    (h : createEvent names l name (.ok, lock) = some (l', some i, o)) (hok : o.code = some Code.noError.num) :
    o.calls = [.eventCreate] ∧ i < names.length ∧
    (∀ t e, ∃ us c, waitEvent names.length l' i t e = some (.after (.eventWait lock us) c)) ∧
    (∀ e, ∃ c, setEvent names.length l' i e = some (.after (.eventSignal lock) c)) := by
  unfold createEvent at h
  cases hf : Libc.findName names (Libc.idMatches name) with
  | none => simp only [hf] at h; cases h
  | some j =>
    have hj : j < names.length := by
      unfold Libc.findName at hf
      exact (List.findIdx?_eq_some_iff_findIdx_eq.1 hf).1
    simp only [hf] at h
    rw [if_neg (by omega)] at h
    split at h
    · cases h; cases hok
    · simp at h
      obtain ⟨rfl, rfl, rfl⟩ := h
      refine ⟨rfl, hj, fun t e => ?_, fun e => ?_⟩
      · unfold waitEvent
        rw [if_neg (by omega), if_neg (by omega)]
        simp only [Int.toNat_natCast, upd_same, Bool.not_true, Bool.false_eq_true, if_false]
        exact ⟨_, _, rfl⟩
      · unfold setEvent
        rw [if_neg (by omega), if_neg (by omega)]
        simp only [Int.toNat_natCast, upd_same, Bool.not_true, Bool.false_eq_true, if_false]
        exact ⟨_, rfl⟩

/-- **C82** (unknown semaphores and events) An identifier above the table is refused; an event that was not created is refused. -/
theorem C82_unknown (nb : Nat) (l : Layers) (id t : Int) (e : Errno) :
    (nb < id → (∃ o, waitSemaphore nb l id t e = some o ∧ Refused o) ∧ ∃ o, signalSemaphore nb l id e = some o ∧ Refused o) ∧
    (nb ≤ id ∨ (0 ≤ id ∧ l.ready id.toNat = false) →
      (∃ o, waitEvent nb l id t e = some o ∧ Refused o) ∧ ∃ o, setEvent nb l id e = some o ∧ Refused o) := by
  refine ⟨fun h => ⟨?_, ?_⟩, fun h => ?_⟩
  · unfold waitSemaphore; rw [if_pos (by omega)]; exact ⟨_, rfl, rfl, _, by decide, rfl⟩
  · unfold signalSemaphore; rw [if_pos (by omega)]; exact ⟨_, rfl, rfl, _, by decide, rfl⟩
  · by_cases h1 : id ≥ nb
    · unfold waitEvent setEvent
      rw [if_pos h1, if_pos h1]
      exact ⟨⟨_, rfl, rfl, _, by decide, rfl⟩, _, rfl, rfl, _, by decide, rfl⟩
    · have h2 : 0 ≤ id ∧ l.ready id.toNat = false := by
        rcases h with h | h
        · omega
        · exact h
      constructor
      · unfold waitEvent
        rw [if_neg h1, if_neg (by omega), if_pos (by simp [h2.2])]
        exact ⟨_, rfl, rfl, _, by decide, rfl⟩
      · unfold setEvent
        rw [if_neg h1, if_neg (by omega), if_pos (by simp [h2.2])]
        exact ⟨_, rfl, rfl, _, by decide, rfl⟩

/-! ## Modes and errors -/

/-- **C82** (modes, part) The kernel is asked for the mode of the standard that the caller names, unless the partition is in it already or asks
for a warm start during a cold start; other numbers are refused.  What is missing: `COLD_START`, see `C82_cold_violated`. -/
theorem C82_mode_partial (n : Nat) (cur : Mode) (e : Errno) (hn : n ≠ 1) :
    (∀ m, operatingMode n = some m → m ≠ cur → ¬(cur = .initCold ∧ m = .initWarm) → (setPartitionMode n cur e).calls = [.setMode m]) ∧
    (∀ m, operatingMode n = some m → m = cur → setPartitionMode n cur e = .just .noAction) ∧
    (∀ m, operatingMode n = some m → cur = .initCold ∧ m = .initWarm → setPartitionMode n cur e = .just .invalidMode) ∧
    (operatingMode n = none → setPartitionMode n cur e = .just .invalidParam) := by
  rcases n with _ | _ | _ | _ | n
  · refine ⟨?_, ?_, ?_, ?_⟩
    · rintro m h h1 h2; cases h
      simp [setPartitionMode, setPartitionMode.go, Ne.symm h1, Out.raw]
    · rintro m h rfl; cases h
      simp [setPartitionMode, setPartitionMode.go]
    · rintro m h h1; cases h; cases h1.2
    · intro h; cases h
  · exact absurd rfl hn
  · refine ⟨?_, ?_, ?_, ?_⟩
    · rintro m h h1 h2; cases h
      have h3 : ¬(cur = .initCold) := fun h => h2 ⟨h, rfl⟩
      simp [setPartitionMode, setPartitionMode.go, Ne.symm h1, h3, Out.raw]
    · rintro m h rfl; cases h
      simp [setPartitionMode, setPartitionMode.go]
    · rintro m h h1; cases h
      simp [setPartitionMode, setPartitionMode.go, h1.1]
    · intro h; cases h
  · refine ⟨?_, ?_, ?_, ?_⟩
    · rintro m h h1 h2; cases h
      simp [setPartitionMode, setPartitionMode.go, Ne.symm h1, Out.raw]
    · rintro m h rfl; cases h
      simp [setPartitionMode, setPartitionMode.go]
    · rintro m h h1; cases h; cases h1.2
    · intro h; cases h
  · refine ⟨?_, ?_, ?_, fun _ => rfl⟩ <;> (intro m h; cases h)

/-- **C82** violated: a cold start is refused in every mode. -/
theorem C82_cold_violated (cur : Mode) (e : Errno) : setPartitionMode 1 cur e = .just .notAvailable := rfl

/-- **C82** (application errors) An error is raised exactly when the message has at most 64 bytes and the code is `APPLICATION_ERROR` (1). -/
theorem C82_raise (code len : Int) : ((raiseApplicationError code len).1 = true ↔ len ≤ 64 ∧ code = 1) ∧
    ((raiseApplicationError code len).2 = .noError ↔ len ≤ 64 ∧ code = 1) ∧
    ((raiseApplicationError code len).2 ≠ .noError → (raiseApplicationError code len).2 = .invalidParam) := by
  unfold raiseApplicationError
  by_cases h1 : len > 64
  · rw [if_pos h1]; simp; omega
  · rw [if_neg h1]
    by_cases h2 : code = 1
    · rw [if_neg (by simpa using h2)]; simp; omega
    · rw [if_pos h2]; simp; omega

/-! ## Processes -/

/-- **C82** (priorities) A process that is not dormant gets a priority of 1 to 63, and no other thread's priority changes; every other request
is refused and changes nothing. -/
theorem C82_priority (c : Config) (proc now nb : Nat) (p : Procs) (k k' : Kernel) (id prio : Int) (r : Nat) (t : Nat)
    (ht : coreOf nb p id = some t) (h : setPriority c proc now nb p k id prio = some (k', r)) :
    (r = Code.noError.num ↔ (1 ≤ prio ∧ prio ≤ 63) ∧ (k.T t).state ≠ .stopped ∧ (k.P k.curPart).low ≤ t ∧ t ≤ (k.P k.curPart).high) ∧
    (r = Code.noError.num → ((k'.T t).priority : Int) = prio ∧ ∀ j, j ≠ t → (k'.T j).priority = (k.T j).priority) ∧
    (r ≠ Code.noError.num → k' = k ∧ (r = Code.invalidParam.num ∨ r = Code.invalidMode.num)) := by
  have hst : threadStatus c k t = some (.param, none) ∧ Kernel.outOfRange k t = true ∨
      threadStatus c k t = none ∨
      threadStatus c k t = some (.ok, some (stateNum (k.T t).state, (k.T t).period)) ∧ Kernel.outOfRange k t = false := by
    unfold threadStatus Kernel.getStatus
    by_cases ho : Kernel.outOfRange k t = true
    · left; simp [ho]
    · right
      simp only [ho]
      cases procPartitionId (c.affinity k.curPart) (k.T t).affinity with
      | none => left; simp
      | some pr => right; simp
  unfold setPriority at h
  rw [ht, Option.bind_some] at h
  rcases hst with ⟨h1, ho⟩ | h1 | ⟨h1, ho⟩
  · rw [h1, Option.bind_some] at h
    simp only [Option.some.injEq, Prod.mk.injEq] at h
    obtain ⟨rfl, rfl⟩ := h
    unfold Kernel.outOfRange at ho
    simp at ho
    refine ⟨?_, ?_, ?_⟩
    · simp [Code.num]; omega
    · simp [Code.num]
    · exact fun _ => ⟨rfl, Or.inl rfl⟩
  · rw [h1] at h; simp at h
  · have hin : (k.P k.curPart).low ≤ t ∧ t ≤ (k.P k.curPart).high := by
      unfold Kernel.outOfRange at ho
      simp at ho
      omega
    have hd : stateNum (k.T t).state = dormant ↔ (k.T t).state = .stopped := by
      cases (k.T t).state <;> simp [stateNum, dormant]
    rw [h1, Option.bind_some] at h
    simp only at h
    split at h
    · simp only [Option.some.injEq, Prod.mk.injEq] at h
      obtain ⟨rfl, rfl⟩ := h
      refine ⟨?_, ?_, ?_⟩
      · simp [Code.num]; omega
      · simp [Code.num]
      · exact fun _ => ⟨rfl, Or.inl rfl⟩
    · rename_i hp
      split at h
      · rename_i h2
        simp only [Option.some.injEq, Prod.mk.injEq] at h
        obtain ⟨rfl, rfl⟩ := h
        refine ⟨?_, ?_, ?_⟩
        · simp only [Code.num, hd.1 h2]; simp
        · simp [Code.num]
        · exact fun _ => ⟨rfl, Or.inr rfl⟩
      · rename_i h2
        unfold Kernel.setPriority at h
        rw [if_neg (by simp [ho])] at h
        cases hg : Kernel.globalSched c proc now (k.setT t { k.T t with priority := prio.toNat % 256 }) with
        | none => rw [hg] at h; simp at h
        | some k1 =>
          rw [hg] at h
          simp only [Option.map_some, Option.some.injEq, Prod.mk.injEq] at h
          obtain ⟨rfl, rfl⟩ := h
          have hpr : ∀ j, (k1.T j).priority = ((k.setT t { k.T t with priority := prio.toNat % 256 }).T j).priority := fun j =>
            (Kernel.sched_prio hg j)
          refine ⟨?_, ?_, ?_⟩
          · simp only [Errno.code, Code.num, true_iff]
            exact ⟨by omega, fun h => h2 (hd.2 h), hin⟩
          · intro _
            refine ⟨?_, fun j hj => ?_⟩
            · rw [hpr t]
              show ((upd k.T t _ t).priority : Int) = _
              rw [upd_same]
              show ((prio.toNat % 256 : Nat) : Int) = _
              omega
            · rw [hpr j]
              show (upd k.T t _ j).priority = _
              rw [upd_other _ _ hj]
          · intro h; exact absurd rfl h

/-! Concrete cases: a sampling port of 16 bytes, a write of 0 bytes, a queueing port of four messages, a semaphore that is found by its name and
then used, and a process whose priority is set. -/

example : (createSamplingPort 16 1 1000 1 .ok).calls = [.sampleCreate 16 false 1000] := ((C82_sampling_partial 16 1 1000 1 .ok (by decide) (by decide)).1
  ⟨by decide, by decide, by decide, Or.inr rfl⟩)

example : Refused (writeSampling 3 0 .ok) := (C82_write 3 0 .ok ⟨by decide, by decide⟩ (by decide)).2 (by decide)

example : (createQueuingPort 8 4 0 1 .ok).calls = [.queueCreate 32 true false] :=
  (C82_queueing_partial 8 4 0 1 .ok ⟨by decide, by decide⟩).1 ⟨Or.inl rfl, Or.inr rfl⟩

example : ∃ l o, createSemaphore [[97, 0], [98, 0]] {} [98, 0] 1 2 0 (.ok, 5) = some (l, some 1, o) ∧ o.code = some Code.noError.num ∧
    waitSemaphore 2 l 1 5000 .ok = some (.after (.semWait 5 5) .noError) := ⟨_, _, rfl, by decide, by decide⟩

example : (runFromBoot exCfg [⟨0, 0, .tick⟩, ⟨0, 1, .create { priority := 4, entry := 2, period := 1000 }⟩, ⟨0, 2, .delayedStart 1 0⟩]).bind
    (fun k => (setPriority exCfg 0 3 4 { count := 1, core := fun _ => 1 } k 1 17).map fun r => ((r.1.T 1).priority, r.2)) = some (17, 0) := by
  decide +kernel

end Pok.Arinc
