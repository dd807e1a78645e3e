import Verif.Spec.Arinc
import Verif.Props.ThreadMgmt
import Mathlib.Tactic.Common

/-!
# C60, C61, C62, C73: the ARINC 653 layer
-/

namespace Pok.Arinc
open ArincSpec

/-! ## Return codes -/

/-- The services that make one kernel call, with their parameters. -/
inductive Service
  | waitSemaphore (nb : Nat) (l : Layers) (id timeOut : Int)
  | signalSemaphore (nb : Nat) (l : Layers) (id : Int)
  | setEvent (nb : Nat) (l : Layers) (id : Int)
  | waitEvent (nb : Nat) (l : Layers) (id timeOut : Int)
  | createBuffer (msg nb discipline : Int)
  | sendBuffer (id len timeOut : Int)
  | receiveBuffer (id timeOut : Int)
  | createBlackboard (size : Int) (given : Nat)
  | displayBlackboard (id len : Int)
  | readBlackboard (id timeOut : Int)
  | createQueuingPort (msg nb direction discipline : Int)
  | sendQueuing (id len timeOut : Int)
  | receiveQueuing (id timeOut len : Int)
  | createSamplingPort (size direction refresh : Int) (state : Nat)
  | writeSampling (id len : Int)
  | readSampling (id : Int)
  | timedWait (delay : Int)
  | periodicWait
  | getTime
  | setPartitionMode (operating : Nat) (current : Mode)

/-- The service executed, for an answer of the kernel. -/
def Service.run (s : Service) (e : Errno) : Option Out :=
  match s with
  | .waitSemaphore nb l id t => Arinc.waitSemaphore nb l id t e
  | .signalSemaphore nb l id => Arinc.signalSemaphore nb l id e
  | .setEvent nb l id => Arinc.setEvent nb l id e
  | .waitEvent nb l id t => Arinc.waitEvent nb l id t e
  | .createBuffer m n d => some (Arinc.createBuffer m n d e)
  | .sendBuffer i l t => some (Arinc.sendBuffer i l t e)
  | .receiveBuffer i t => some (Arinc.receiveBuffer i t e)
  | .createBlackboard s g => some (Arinc.createBlackboard s (e, g)).1
  | .displayBlackboard i l => some (Arinc.displayBlackboard i l e)
  | .readBlackboard i t => some (Arinc.readBlackboard i t e)
  | .createQueuingPort m n d q => some (Arinc.createQueuingPort m n d q e)
  | .sendQueuing i l t => some (Arinc.sendQueuing i l t e)
  | .receiveQueuing i t l => some (Arinc.receiveQueuing i t l e)
  | .createSamplingPort s d r st => some (Arinc.createSamplingPort s d r st e)
  | .writeSampling i l => some (Arinc.writeSampling i l e)
  | .readSampling i => some (Arinc.readSampling i e)
  | .timedWait d => some (Arinc.timedWait d e)
  | .periodicWait => some (Arinc.periodicWait e)
  | .getTime => some (Arinc.getTime e)
  | .setPartitionMode o m => some (Arinc.setPartitionMode o m e)

theorem code_zero (e : Errno) : e.code = 0 ↔ e = .ok := by cases e <;> simp [Errno.code]

theorem truthful_raw (k : Call) (e : Errno) : Truthful (.raw k e) e := by
  simp [Truthful, Out.raw, Code.num, code_zero]

theorem truthful_just (c : Code) (h : c ≠ .noError) (e : Errno) : Truthful (.just c) e := by
  cases c <;> simp_all [Truthful, Out.just, Code.num]

theorem truthful_after (k : Call) (c : Code) (e : Errno) (h : c = .noError ↔ e = .ok) : Truthful (.after k c) e := by
  cases c <;> simp_all [Truthful, Out.after, Code.num]

/-- **C60** Every service that makes one kernel call reports success exactly when the kernel was asked and agreed. -/
theorem C60_success (s : Service) (e : Errno) (o : Out) (h : s.run e = some o) : Truthful o e := by
  cases s with
  | waitSemaphore nb l id t =>
    simp only [Service.run, waitSemaphore] at h
    split at h
    · cases h; exact truthful_just _ (by decide) e
    · split at h
      · cases h
      · cases h
        apply truthful_after
        by_cases h1 : e = .timeout
        · subst h1; decide
        · by_cases h2 : e = .ok <;> simp [h1, h2]
  | signalSemaphore nb l id =>
    simp only [Service.run, signalSemaphore] at h
    split at h
    · cases h; exact truthful_just _ (by decide) e
    · split at h
      · cases h
      · cases h
        apply truthful_after
        by_cases h2 : e = .ok <;> simp [h2]
  | setEvent nb l id =>
    simp only [Service.run, setEvent] at h
    split at h
    · cases h; exact truthful_just _ (by decide) e
    · split at h
      · cases h
      · split at h
        · cases h; exact truthful_just _ (by decide) e
        · cases h
          apply truthful_after
          by_cases h2 : e = .ok <;> simp [h2]
  | waitEvent nb l id t =>
    simp only [Service.run, waitEvent] at h
    split at h
    · cases h; exact truthful_just _ (by decide) e
    · split at h
      · cases h
      · split at h
        · cases h; exact truthful_just _ (by decide) e
        · cases h
          apply truthful_after
          cases e <;> simp
  | createBuffer m n d =>
    simp only [Service.run, createBuffer] at h
    split at h
    · cases h; exact truthful_raw _ _
    · split at h
      · cases h; exact truthful_raw _ _
      · cases h; exact truthful_just _ (by decide) e
  | createQueuingPort m n d q =>
    simp only [Service.run, createQueuingPort] at h
    split at h
    · cases h; exact truthful_just _ (by decide) e
    · split at h
      · cases h; exact truthful_just _ (by decide) e
      · cases h; exact truthful_raw _ _
  | receiveQueuing i t l =>
    simp only [Service.run, receiveQueuing] at h
    split at h <;> (cases h; simp_all [Truthful, Out.raw, Code.num, code_zero])
  | createSamplingPort s d r st =>
    simp only [Service.run, createSamplingPort] at h
    split at h
    · cases h; exact truthful_just _ (by decide) e
    · split at h
      · cases h; exact truthful_just _ (by decide) e
      · split at h
        · cases h; exact truthful_just _ (by decide) e
        · cases h; exact truthful_raw _ _
  | writeSampling i l =>
    simp only [Service.run, writeSampling] at h
    split at h
    · cases h; exact truthful_just _ (by decide) e
    · cases h; exact truthful_raw _ _
  | setPartitionMode op m =>
    have key : ∀ m', Truthful (setPartitionMode.go m e m') e := by
      intro m'
      unfold setPartitionMode.go
      split
      · exact truthful_just _ (by decide) e
      · split
        · exact truthful_just _ (by decide) e
        · exact truthful_raw _ _
    simp only [Service.run, setPartitionMode] at h
    cases h
    split
    · exact key _
    · exact key _
    · exact truthful_just _ (by decide) e
    · exact key _
    · exact truthful_just _ (by decide) e
  | _ => cases h; exact truthful_raw _ _

/-- **C60** (part) The semaphore and event services give only codes of the standard, and the waiting ones report a timeout exactly when the
kernel did.  What is missing: the other services, below. -/
theorem C60_standard_partial (nb : Nat) (l : Layers) (id t : Int) (e : Errno) (o : Out)
    (h : waitSemaphore nb l id t e = some o ∨ signalSemaphore nb l id e = some o ∨ setEvent nb l id e = some o ∨ waitEvent nb l id t e = some o) :
    ∃ c : Code, o.code = some c.num := by
  rcases h with h | h | h | h
  · simp only [waitSemaphore] at h; split at h; · cases h; exact ⟨_, rfl⟩
    split at h <;> cases h; exact ⟨_, rfl⟩
  · simp only [signalSemaphore] at h; split at h; · cases h; exact ⟨_, rfl⟩
    split at h <;> cases h; exact ⟨_, rfl⟩
  · simp only [setEvent] at h; split at h; · cases h; exact ⟨_, rfl⟩
    split at h; · cases h
    split at h <;> cases h <;> exact ⟨_, rfl⟩
  · simp only [waitEvent] at h; split at h; · cases h; exact ⟨_, rfl⟩
    split at h; · cases h
    split at h <;> cases h <;> exact ⟨_, rfl⟩

theorem C60_timeout_partial (nb : Nat) (l : Layers) (id t : Int) (e : Errno) (o : Out)
    (h : waitSemaphore nb l id t e = some o ∨ waitEvent nb l id t e = some o) :
    o.code = some Code.timedOut.num ↔ o.calls ≠ [] ∧ e = .timeout := by
  rcases h with h | h
  · simp only [waitSemaphore] at h; split at h; · cases h; simp [Out.just, Code.num]
    split at h <;> cases h
    simp only [Out.after]
    cases e <;> simp [Code.num]
  · simp only [waitEvent] at h; split at h; · cases h; simp [Out.just, Code.num]
    split at h; · cases h
    split at h <;> cases h
    · simp [Out.just, Code.num]
    · simp only [Out.after]
      cases e <;> simp [Code.num]

/-- **C60** Creating a semaphore or an event: success exactly if the name is configured, the object was not created before and the kernel agreed;
then it is ready under the identifier stored, and refers to the object the kernel made; another object is not touched. -/
theorem C60_create_semaphore (names : List (List Nat)) (l l' : Layers) (name : List Nat) (cur max disc : Int) (created : Errno × Nat)
    (i : Option Nat) (o : Out) (h : createSemaphore names l name cur max disc created = some (l', i, o)) :
    (o.code = some Code.noError.num ↔ ∃ j, Libc.findName names (Libc.idMatches name) = some j ∧ l.ready j = false ∧ created.1 = .ok) ∧
    (o.code = some Code.noError.num → ∃ j, i = some j ∧ l'.ready j = true ∧ l'.core j = created.2 ∧ ∀ j', j' ≠ j → l'.ready j' = l.ready j' ∧ l'.core j' = l.core j') ∧
    (o.code ≠ some Code.noError.num → l' = l) := by
  unfold createSemaphore at h
  cases hf : Libc.findName names (Libc.idMatches name) with
  | none => simp only [hf] at h; cases h; simp [Out.just, Code.num]
  | some j =>
    have hj : j < names.length := by
      unfold Libc.findName at hf
      exact (List.findIdx?_eq_some_iff_findIdx_eq.1 hf).1
    simp only [hf] at h
    rw [if_neg (by omega), if_neg (by omega)] at h
    split at h
    · cases h; simp_all [Out.just, Code.num]
    · split at h
      · cases h; simp_all [Out.after, Code.num]
      · cases h
        refine ⟨by simp_all [Out.after, Code.num], fun _ => ⟨j, rfl, by simp, by simp, fun j' hj' => ⟨upd_other _ _ hj', upd_other _ _ hj'⟩⟩, by simp [Out.after, Code.num]⟩

theorem C60_create_event (names : List (List Nat)) (l l' : Layers) (name : List Nat) (created : Errno × Nat)
    (i : Option Nat) (o : Out) (h : createEvent names l name created = some (l', i, o)) :
    (o.code = some Code.noError.num ↔ ∃ j, Libc.findName names (Libc.idMatches name) = some j ∧ l.ready j = false ∧ created.1 = .ok) ∧
    (o.code = some Code.noError.num → ∃ j, i = some j ∧ l'.ready j = true ∧ l'.core j = created.2 ∧ ∀ j', j' ≠ j → l'.ready j' = l.ready j' ∧ l'.core j' = l.core j') ∧
    (o.code ≠ some Code.noError.num → l' = l) := by
  unfold createEvent at h
  cases hf : Libc.findName names (Libc.idMatches name) with
  | none => simp only [hf] at h; cases h; simp [Out.just, Code.num]
  | some j =>
    have hj : j < names.length := by
      unfold Libc.findName at hf
      exact (List.findIdx?_eq_some_iff_findIdx_eq.1 hf).1
    simp only [hf] at h
    rw [if_neg (by omega)] at h
    split at h
    · cases h; simp_all [Out.just, Code.num]
    · split at h
      · cases h; simp_all [Out.after, Code.num]
      · cases h
        refine ⟨by simp_all [Out.after, Code.num], fun _ => ⟨j, rfl, by simp, by simp, fun j' hj' => ⟨upd_other _ _ hj', upd_other _ _ hj'⟩⟩, by simp [Out.after, Code.num]⟩

/-- A semaphore configured under the name "ab" is created. -/
example : ((createSemaphore [[97, 98]] {} [97, 98] 0 1 0 (.ok, 5)).map fun r => (r.2.1, r.2.2.code)) = some (some 0, some 0) := by decide

/-- The services that store the kernel's result as it is. -/
def Service.isRaw : Service → Bool
  | .sendBuffer .. | .receiveBuffer .. | .createBlackboard .. | .displayBlackboard .. | .readBlackboard .. | .sendQueuing .. | .readSampling .. |
    .timedWait .. | .periodicWait | .getTime => true
  | _ => false

/-- **C60** violated: these services store the kernel's error numbers, which are not codes of the standard: a timeout is reported as 250, a
full queue as 311; and the number for a forbidden operation is that of `TIMED_OUT`. -/
theorem C60_raw_violated (s : Service) (h : s.isRaw = true) :
    (∀ e o, s.run e = some o → o.code = some e.code) ∧ ¬Standard (Errno.timeout).code ∧ ¬Standard (Errno.full).code ∧
    (Errno.eperm).code = Code.timedOut.num := by
  refine ⟨?_, ?_, ?_, rfl⟩
  · intro e o ho
    cases s <;> simp [Service.isRaw] at h <;> (cases ho; rfl)
  · rintro ⟨c, hc⟩; cases c <;> simp [Code.num, Errno.code] at hc
  · rintro ⟨c, hc⟩; cases c <;> simp [Code.num, Errno.code] at hc

/-- **C60** violated: `RESET_EVENT` stores no return code, and `GET_ERROR_STATUS` stores none when it succeeds. -/
theorem C60_unset_violated : resetEvent.code = none ∧ getErrorStatus .ok = none := by decide

/-- **C60** violated: waiting on a semaphore that was never created acts on the lock object 0, whichever it is. -/
theorem C60_uncreated_violated (nb : Nat) (id t : Int) (h : 0 ≤ id ∧ id < nb) (e : Errno) :
    ∃ o us, waitSemaphore nb {} id t e = some o ∧ o.calls = [.semWait 0 us] := by
  unfold waitSemaphore
  rw [if_neg (by omega), if_neg (by omega)]
  exact ⟨_, _, rfl, rfl⟩

/-- **C60** violated: the identifier one past the last semaphore is accepted and reads outside the table; likewise negative identifiers of
events. -/
theorem C60_bound_violated (nb : Nat) (l : Layers) (t : Int) (e : Errno) :
    waitSemaphore nb l nb t e = none ∧ signalSemaphore nb l nb e = none ∧ waitEvent nb l (-1) t e = none := by
  refine ⟨?_, ?_, ?_⟩
  · simp [waitSemaphore]
  · simp [signalSemaphore]
  · unfold waitEvent; rw [if_neg (by omega), if_pos (by omega)]

/-- **C60** violated: a blackboard is created but its identifier is never given to the caller. -/
theorem C60_blackboard_violated (size : Int) (r : Errno × Nat) : (createBlackboard size r).2 = none := rfl

/-! ## Timeouts -/

/-- The time for which `pok_sem_wait` and `pok_event_wait` (libpok/core/semwait.c 26, eventwait.c 28) ask the kernel to wait. -/
def kernelTimeout (us : Nat) : Nat := us * 1000 % U64

/-- **C61** (part) A semaphore is waited for as long as asked: for ever, or up to the microsecond below the timeout.  What is missing: timeouts
below one microsecond, and the other services, see the following theorems. -/
theorem C61_semaphore_partial (nb : Nat) (l : Layers) (id t : Int) (now : Nat) (e : Errno) (hid : 0 ≤ id ∧ id < nb)
    (ht : t = -1 ∨ (1000 ≤ t ∧ t + now < U64)) :
    ∃ us c, waitSemaphore nb l id t e = some (.after (.semWait (l.core id.toNat) us) c) ∧
      granted (LockObj.mkDeadline (kernelTimeout us) now) = wanted (if t = -1 then -1 else t / 1000 * 1000) now := by
  unfold waitSemaphore
  rw [if_neg (by omega), if_neg (by omega)]
  refine ⟨_, _, rfl, ?_⟩
  rcases ht with rfl | ⟨h1, h2⟩
  · simp [kernelTimeout, LockObj.mkDeadline, granted, wanted]
  · simp only [U64] at h2
    have e1 : (t : Int) % 18446744073709551616 = t := by omega
    obtain ⟨n, rfl⟩ : ∃ n : Nat, t = n := ⟨t.toNat, by omega⟩
    have e2 : ((n : Int) = -1) = False := by simp
    have e3 : ((n : Int) / 1000 * 1000) = ((n / 1000 * 1000 : Nat) : Int) := by omega
    simp only [e2, if_false, u64, e1, Int.toNat_natCast]
    have e4 : kernelTimeout (n / 1000) = n / 1000 * 1000 := by
      unfold kernelTimeout; exact Nat.mod_eq_of_lt (by simp only [U64]; omega)
    rw [e4, e3]
    have e5 : n / 1000 * 1000 ≠ 0 := by omega
    have e6 : (n / 1000 * 1000 + now) % U64 = n / 1000 * 1000 + now := Nat.mod_eq_of_lt (by simp only [U64]; omega)
    have e7 : ¬((n / 1000 * 1000 : Nat) : Int) = -1 := by omega
    have e8 : ¬((n / 1000 * 1000 : Nat) : Int) ≤ 0 := by omega
    have e9 : ¬(n / 1000 * 1000 + now = 0) := fun h => e5 (Nat.add_eq_zero_iff.1 h).1
    simp only [LockObj.mkDeadline, e5, if_false, e6, granted, wanted, e7, e8, e9, Int.toNat_natCast]
    rw [Nat.add_comm]

example : 0 ≤ (1 : Int) ∧ (1 : Int) < (2 : Nat) ∧ (1000 : Int) ≤ 2500 ∧ (2500 : Int) + (7 : Nat) < U64 := by decide

/-- **C61** violated: a zero timeout, which should not wait, waits for ever, and so does any timeout below a microsecond. -/
theorem C61_zero_violated (nb : Nat) (l : Layers) (id t : Int) (now : Nat) (e : Errno) (hid : 0 ≤ id ∧ id < nb) (ht : 0 ≤ t ∧ t < 1000) :
    ∃ us c, waitSemaphore nb l id t e = some (.after (.semWait (l.core id.toNat) us) c) ∧
      granted (LockObj.mkDeadline (kernelTimeout us) now) = .forever ∧ wanted t now ≠ .forever := by
  unfold waitSemaphore
  rw [if_neg (by omega), if_neg (by omega)]
  refine ⟨_, _, rfl, ?_, ?_⟩
  · have : ¬t = -1 := by omega
    have h2 : (t % 18446744073709551616).toNat / 1000 = 0 := by omega
    simp [this, u64, h2, kernelTimeout, LockObj.mkDeadline, granted]
  · unfold wanted
    rw [if_neg (by omega)]
    split <;> simp

/-- **C61** violated: a timeout on an event is taken as microseconds: the wait lasts a thousand times longer than asked. -/
theorem C61_event_violated (nb : Nat) (l : Layers) (id t : Int) (now : Nat) (e : Errno) (hid : 0 ≤ id ∧ id < nb) (hr : l.ready id.toNat = true)
    (ht : 1 ≤ t ∧ 1000 * t + now < U64) :
    ∃ us c, waitEvent nb l id t e = some (.after (.eventWait (l.core id.toNat) us) c) ∧
      granted (LockObj.mkDeadline (kernelTimeout us) now) = .until_ (now + 1000 * t.toNat) := by
  unfold waitEvent
  rw [if_neg (by omega), if_neg (by omega), if_neg (by simp [hr])]
  refine ⟨_, _, rfl, ?_⟩
  obtain ⟨n, rfl⟩ : ∃ n : Nat, t = n := ⟨t.toNat, by omega⟩
  obtain ⟨h1, h2⟩ := ht
  simp only [U64] at h2
  have e1 : u64 (n : Int) = n := by unfold u64; omega
  have e4 : kernelTimeout n = n * 1000 := by unfold kernelTimeout; exact Nat.mod_eq_of_lt (by simp only [U64]; omega)
  have e5 : ¬n * 1000 = 0 := by omega
  have e6 : (n * 1000 + now) % U64 = n * 1000 + now := Nat.mod_eq_of_lt (by simp only [U64]; omega)
  have e9 : ¬(n * 1000 + now = 0) := fun h => e5 (Nat.add_eq_zero_iff.1 h).1
  simp only [e1, e4, LockObj.mkDeadline, e5, if_false, e6, granted, e9, Int.toNat_natCast]
  congr 1
  omega

/-- **C61** violated: waiting for ever for an event ends at once: the date computed is in the past. -/
theorem C61_event_forever_violated (nb : Nat) (l : Layers) (id : Int) (now : Nat) (e : Errno) (hid : 0 ≤ id ∧ id < nb) (hr : l.ready id.toNat = true)
    (hn : 1000 < now) (hn2 : now < U64) :
    ∃ us c, waitEvent nb l id (-1) e = some (.after (.eventWait (l.core id.toNat) us) c) ∧
      granted (LockObj.mkDeadline (kernelTimeout us) now) = .until_ (now - 1000) := by
  unfold waitEvent
  rw [if_neg (by omega), if_neg (by omega), if_neg (by simp [hr])]
  refine ⟨_, _, rfl, ?_⟩
  simp only [U64] at hn2
  have e1 : kernelTimeout (u64 (-1)) = 18446744073709550616 := by decide
  have e6 : (18446744073709550616 + now) % U64 = now - 1000 := by simp only [U64]; omega
  have e9 : ¬(now - 1000 = 0) := by omega
  have e5 : ¬(18446744073709550616 : Nat) = 0 := by omega
  simp only [e1, LockObj.mkDeadline, e5, if_false, e6, granted, e9]

/-- **C61** violated: receiving from a queueing port with an infinite timeout asks the kernel not to wait at all, and timeouts of 2^32
nanoseconds (about four seconds) or more are cut to 32 bits. -/
theorem C61_queueing_violated (id len : Int) (e : Errno) :
    (receiveQueuing id (-1) len e).calls = [.queueReceive (u32 id) 0 (u32 len)] ∧
    (receiveQueuing id 4294967297 len e).calls = [.queueReceive (u32 id) 1 (u32 len)] ∧
    (sendQueuing id len 4294967296 e).calls = [.queueSend (u32 id) (u32 len) 0] := by
  refine ⟨?_, ?_, ?_⟩
  · cases e <;> rfl
  · cases e <;> rfl
  · cases e <;> rfl

/-- **C61** (part) A delay below 2^32 microseconds (71 minutes) is slept to the microsecond below. -/
theorem C61_timed_wait_partial (t : Int) (e : Errno) (h : 0 ≤ t ∧ t < 4294967296000) :
    ∃ us, (timedWait t e).calls = [.sleep us] ∧ (us * 1000 : Int) ≤ t ∧ t < us * 1000 + 1000 := by
  refine ⟨u64 t / 1000 % 4294967296, rfl, ?_, ?_⟩
  · have : u64 t = t.toNat := by unfold u64; omega
    rw [this]; omega
  · have : u64 t = t.toNat := by unfold u64; omega
    rw [this]; omega

/-- **C61** violated: longer delays wrap; a delay of 2^32 microseconds does not wait. -/
theorem C61_timed_wait_violated (e : Errno) : (timedWait 4294967296000 e).calls = [.sleep 0] := by cases e <;> rfl

/-! ## Process names -/

/-- The answered requests, in order: the tables and, for each request, the identifier given. -/
def createAll (nb : Nat) : Procs → List Request → Option (Procs × List (List Nat × Option Nat))
  | p, [] => some (p, [])
  | p, r :: rs =>
    (createProcess nb p r.name r.priority r.created r.suspended).bind fun x =>
      (createAll nb x.1 rs).map fun y => (y.1, (r.name, x.2.1) :: y.2)

/-- The tables are as after some creations. -/
structure Good (nb : Nat) (p : Procs) : Prop where
  bound : p.count < nb ∨ p.count = 0
  others : ∀ i, i = 0 ∨ p.count < i → p.name i = []
  distinct : ∀ i j, 1 ≤ i → i ≤ p.count → 1 ≤ j → j ≤ p.count → p.name i = p.name j → p.name i ≠ [] → i = j

theorem nameExist_spec (nb : Nat) (p : Procs) (name : List Nat) (g : Good nb p) (hn : name ≠ []) :
    (nameExist nb p name = 0 ∧ ∀ i, p.name i ≠ name) ∨
    (1 ≤ nameExist nb p name ∧ nameExist nb p name ≤ p.count ∧ p.name (nameExist nb p name) = name) := by
  unfold nameExist
  cases hf : (List.range nb).find? fun i => decide (name = p.name i) with
  | none =>
    left
    refine ⟨rfl, fun i hi => ?_⟩
    have hall := List.find?_eq_none.1 hf
    have hi1 : ¬(i = 0 ∨ p.count < i) := fun h => hn (by rw [← hi, g.others i h])
    have hb := g.bound
    have := hall i (List.mem_range.2 (by omega))
    simp [hi] at this
  | some i =>
    right
    have hi := List.find?_some hf
    simp only [decide_eq_true_eq] at hi
    have hi1 : ¬(i = 0 ∨ p.count < i) := fun h => hn (by rw [hi, g.others i h])
    simp only [Option.getD_some]
    exact ⟨by omega, by omega, hi.symm⟩

theorem good_create {nb : Nat} {p p' : Procs} {name : List Nat} {prio : Int} {cr : Errno × Nat} {su : Errno} {id : Option Nat} {code : Nat}
    (g : Good nb p) (h : createProcess nb p name prio cr su = some (p', id, code)) :
    Good nb p' ∧ ((id = none ∧ p' = p) ∨
      (id = some (p.count + 1) ∧ p'.count = p.count + 1 ∧ p'.name (p.count + 1) = name ∧ (∀ i, i ≠ p.count + 1 → p'.name i = p.name i) ∧
        (name ≠ [] → ∀ i, p.name i ≠ name))) := by
  unfold createProcess at h
  split at h; · cases h
  split at h
  · cases h; exact ⟨g, Or.inl ⟨rfl, rfl⟩⟩
  rename_i hne
  split at h
  · cases h; exact ⟨g, Or.inl ⟨rfl, rfl⟩⟩
  split at h
  · simp only at h
    split at h; · cases h
    rename_i hlt
    cases h
    have hfresh : name ≠ [] → ∀ i, p.name i ≠ name := by
      intro hn
      rcases nameExist_spec nb p name g hn with ⟨-, h2⟩ | ⟨h1, -, -⟩
      · exact h2
      · omega
    refine ⟨⟨by simp only; omega, ?_, ?_⟩, Or.inr ⟨rfl, rfl, by simp, fun i hi => upd_other _ _ hi, hfresh⟩⟩
    · intro i hi
      simp only at hi ⊢
      rw [upd_other _ _ (by omega)]
      exact g.others i (by omega)
    · intro i j h1 h2 h3 h4 he hn
      simp only at h2 h4 he hn ⊢
      by_cases hi : i = p.count + 1
      · by_cases hj : j = p.count + 1
        · omega
        · subst hi
          simp only [upd_same] at he hn
          rw [upd_other _ _ hj] at he
          exact absurd he.symm (hfresh hn j)
      · rw [upd_other _ _ hi] at he hn
        by_cases hj : j = p.count + 1
        · subst hj
          simp only [upd_same] at he
          exact absurd he (hfresh (he ▸ hn) i)
        · rw [upd_other _ _ hj] at he
          exact g.distinct i j h1 (by omega) h3 (by omega) he hn
  · cases h; exact ⟨g, Or.inl ⟨rfl, rfl⟩⟩

theorem lookup_known (nb : Nat) (rs : List Request) : ∀ (p p' : Procs) (outs : List (List Nat × Option Nat)), Good nb p →
    createAll nb p rs = some (p', outs) → Good nb p' ∧ p.count ≤ p'.count ∧ (∀ i, i ≤ p.count → p'.name i = p.name i) ∧
    ∀ name, name ≠ [] → (∀ i, known name outs = some i → p.count < i ∧ i ≤ p'.count ∧ p'.name i = name) ∧
      (known name outs = none → (∀ i, p.name i ≠ name) → ∀ i, p'.name i ≠ name) := by
  induction rs with
  | nil =>
    intro p p' outs g h
    cases h
    refine ⟨g, Nat.le_refl _, fun _ _ => rfl, fun name hn => ⟨fun i hi => by simp [known] at hi, fun _ hi => hi⟩⟩
  | cons r rs ih =>
    intro p p' outs g h
    simp only [createAll] at h
    cases hc : createProcess nb p r.name r.priority r.created r.suspended with
    | none => simp [hc] at h
    | some x =>
      obtain ⟨p1, id, code⟩ := x
      rw [hc, Option.bind_some] at h
      cases hr : createAll nb p1 rs with
      | none => simp [hr] at h
      | some y =>
        obtain ⟨p2, o2⟩ := y
        simp only [hr, Option.map_some, Option.some.injEq, Prod.mk.injEq] at h
        obtain ⟨rfl, rfl⟩ := h
        obtain ⟨g1, hcase⟩ := good_create g hc
        obtain ⟨g2, hle, hsame, hk⟩ := ih p1 p2 o2 g1 hr
        rcases hcase with ⟨rfl, rfl⟩ | ⟨rfl, hcnt, hnm, hoth, hfr⟩
        · exact ⟨g2, hle, hsame, fun name hn => by simpa [known] using hk name hn⟩
        · refine ⟨g2, by omega, fun i hi => by rw [hsame i (by omega), hoth i (by omega)], fun name hn => ?_⟩
          by_cases he : r.name = name
          · simp only [known, he, if_true]
            refine ⟨fun i hi => ?_, fun hi => by simp at hi⟩
            simp only [Option.some.injEq] at hi
            subst hi
            exact ⟨by omega, by omega, by rw [hsame _ (by omega), hnm, he]⟩
          · simp only [known, he, if_false]
            refine ⟨fun i hi => ?_, fun hi hp => ?_⟩
            · have := (hk name hn).1 i hi
              exact ⟨by omega, this.2⟩
            · refine (hk name hn).2 hi (fun i => ?_)
              by_cases h1 : i = p.count + 1
              · subst h1; rw [hnm]; exact he
              · rw [hoth i h1]; exact hp i

/-- **C62** (part) After any requests to create processes, the name of a process created gives its identifier, and any other name is refused.
What is missing: the empty name, and the identifiers and names given by `GET_MY_ID` and `GET_PROCESS_STATUS`, below. -/
theorem C62_names_partial (nb : Nat) (rs : List Request) (p : Procs) (outs : List (List Nat × Option Nat)) (h : createAll nb {} rs = some (p, outs))
    (name : List Nat) (hn : name ≠ []) :
    getProcessId nb p name = match known name outs with | some i => (i, .noError) | none => (0, .invalidConfig) := by
  have g0 : Good nb {} := ⟨Or.inr rfl, fun _ _ => rfl, fun i j h1 h2 => by simp at h2; omega⟩
  obtain ⟨g, -, -, hk⟩ := lookup_known nb rs {} p outs g0 h
  obtain ⟨h1, h2⟩ := hk name hn
  unfold getProcessId
  cases hc : known name outs with
  | none =>
    have := h2 hc (fun i hi => hn hi.symm)
    rcases nameExist_spec nb p name g hn with ⟨e, -⟩ | ⟨-, -, e⟩
    · simp [e]
    · exact absurd e (this _)
  | some i =>
    obtain ⟨a, b, c⟩ := h1 i hc
    rcases nameExist_spec nb p name g hn with ⟨-, e⟩ | ⟨e1, e2, e3⟩
    · exact absurd c (e i)
    · have : nameExist nb p name = i := g.distinct _ _ e1 e2 (by simp at a; omega) b (by rw [e3, c]) (by rw [e3]; exact hn)
      simp [this]
      intro h0
      simp at a
      omega

/-- **C62** A name is given once: a second request for it creates nothing and is answered with `NO_ACTION`. -/
theorem C62_duplicate (nb : Nat) (rs : List Request) (p : Procs) (outs : List (List Nat × Option Nat)) (h : createAll nb {} rs = some (p, outs))
    (name : List Nat) (hn : name ≠ []) (hl : name.length < 30) (hk : known name outs ≠ none) (prio : Int) (cr : Errno × Nat) (su : Errno) :
    createProcess nb p name prio cr su = some (p, none, Code.noAction.num) := by
  have := C62_names_partial nb rs p outs h name hn
  obtain ⟨i, hi⟩ := Option.ne_none_iff_exists'.1 hk
  rw [hi] at this
  unfold getProcessId at this
  unfold createProcess
  rw [if_neg (by omega)]
  by_cases h0 : nameExist nb p name = 0
  · rw [if_pos h0] at this; simp at this
  · rw [if_pos h0]

/-- Two processes are created. -/
example : ((createAll 4 {} [⟨[97], 5, (.ok, 1), .ok⟩, ⟨[98], 70, (.ok, 1), .ok⟩, ⟨[97, 98], 63, (.ok, 2), .ok⟩]).map fun r => r.2) =
    some [([97], some 1), ([98], none), ([97, 98], some 2)] := by decide

/-- **C62** (part) Which requests make a process: those with a name not yet used and a priority of 1 to 63, if the kernel makes the thread.  The
process then gets the next identifier, and every other request changes nothing. -/
theorem C62_create_exact {nb : Nat} {p p' : Procs} {name : List Nat} {priority : Int} {created : Errno × Nat} {suspended : Errno} {id : Option Nat} {code : Nat}
    (h : createProcess nb p name priority created suspended = some (p', id, code)) :
    (id.isSome ↔ nameExist nb p name = 0 ∧ 1 ≤ priority ∧ priority ≤ 63 ∧ created.1 = .ok) ∧ (id.isSome = false → p' = p ∧ code ≠ Code.noError.num) ∧
    ∀ n, id = some n → n = p.count + 1 ∧ p'.count = n ∧ p'.core n = created.2 ∧ p'.name n = name ∧ ∀ m, m ≠ n → p'.core m = p.core m ∧ p'.name m = p.name m := by
  unfold createProcess at h
  split at h
  · simp at h
  · split at h
    · cases h
      rename_i h1
      refine ⟨by simp [h1], fun _ => ⟨rfl, by simp [Code.num]⟩, by simp⟩
    · rename_i h1
      split at h
      · cases h
        refine ⟨?_, fun _ => ⟨rfl, by simp [Code.num]⟩, by simp⟩
        simp; omega
      · split at h
        · simp only at h
          split at h
          · simp at h
          · cases h
            rename_i h2 h3 _
            have h1' : nameExist nb p name = 0 := by simpa using h1
            refine ⟨?_, by simp, ?_⟩
            · simp [h1', h3]; omega
            · intro n hn
              cases hn
              refine ⟨rfl, rfl, upd_same _ _ _, upd_same _ _ _, fun m hm => ⟨upd_other _ _ hm, upd_other _ _ hm⟩⟩
        · cases h
          rename_i h3
          refine ⟨by simp [h3], fun _ => ⟨rfl, ?_⟩, by simp⟩
          intro hc
          exact h3 ((code_zero _).1 hc)

/-- **C62** violated: a process created with an empty name is not found under it, and the name can be given again. -/
theorem C62_empty_violated (nb : Nat) (p : Procs) (hb : 0 < nb) (g : p.name 0 = []) : getProcessId nb p [] = (0, .invalidConfig) := by
  have : nameExist nb p [] = 0 := by
    unfold nameExist
    obtain ⟨n, rfl⟩ : ∃ n, nb = n + 1 := ⟨nb - 1, by omega⟩
    rw [List.range_succ_eq_map]
    simp [g]
  simp [getProcessId, this]

/-- **C62** violated: in a partition whose threads do not start at 0, a process asks for its own identifier and gets another number: the
identifier of the thread.  And the status of a process has another process's name, or reads outside the table. -/
theorem C62_thread_ids_violated :
    ∃ p outs, createAll 4 {} [⟨[97], 5, (.ok, 2), .ok⟩, ⟨[98], 5, (.ok, 3), .ok⟩] = some (p, outs) ∧
      outs = [([97], some 1), ([98], some 2)] ∧ (getMyId (p.core 1)).1 = 2 ∧ statusName 4 p 1 = some [98] ∧ statusName 4 p 2 = some [] ∧ statusName 3 p 2 = none ∧ statusName 1 p 1 = none := by
  refine ⟨_, _, rfl, ?_, ?_, ?_, ?_, ?_, ?_⟩ <;> decide

/-! ## Process control -/

/-- The status of a thread in the range of the partition. -/
theorem status_ok (c : Config) (k : Kernel) (t : Nat) (st : Nat) (pe : Int) (e : Errno) (h : threadStatus c k t = some (e, some (st, pe))) :
    e = .ok ∧ Kernel.outOfRange k t = false ∧ st = stateNum (k.T t).state ∧ pe = (k.T t).period := by
  unfold threadStatus Kernel.getStatus at h
  split at h
  · simp at h
  · simp only at h
    split at h
    · simp at h
    · rename_i ho _ _ _
      simp at h
      obtain ⟨rfl, rfl, rfl⟩ := h
      exact ⟨rfl, by simpa using ho, rfl, rfl⟩

/-- **C73** violated: a process that was suspended cannot be resumed: its state is that of a dormant process, and `RESUME` answers
`INVALID_MODE`, whatever the process. -/
theorem C73_resume_violated (c : Config) (proc now nb : Nat) (p : Procs) (k k' : Kernel) (id : Int)
    (hs : suspend c proc nb p k id = some (k', Code.noError.num)) : resume c proc now nb p k' id = some (k', Code.invalidMode.num) := by
  unfold suspend at hs
  cases ht : coreOf nb p id with
  | none => simp [ht] at hs
  | some t =>
    rw [ht, Option.bind_some] at hs
    cases hst : threadStatus c k t with
    | none => simp [hst] at hs
    | some r =>
      obtain ⟨e, v⟩ := r
      rw [hst, Option.bind_some] at hs
      cases v with
      | none => simp at hs
      | some v =>
        obtain ⟨st, pe⟩ := v
        simp only at hs
        obtain ⟨rfl, hr, rfl, rfl⟩ := status_ok c k t st pe e hst
        split at hs; · simp [Code.num] at hs
        split at hs; · simp [Code.num] at hs
        split at hs; · simp [Code.num] at hs
        simp only [Option.some.injEq, Prod.mk.injEq] at hs
        unfold Kernel.suspendTarget at hs
        by_cases hc : t = k.curThread proc
        · simp [hc, Errno.code, Code.num] at hs
        · simp only [hr, hc, Bool.false_eq_true, false_or, if_false] at hs
          obtain ⟨rfl, -⟩ := hs
          have hst' : threadStatus c (k.setT t { k.T t with state := .stopped }) t = some (.ok, some (dormant, (k.T t).period)) := by
            unfold threadStatus Kernel.getStatus at hst ⊢
            have hr' : Kernel.outOfRange (k.setT t { k.T t with state := .stopped }) t = false := hr
            have hcp : (k.setT t { k.T t with state := .stopped }).curPart = k.curPart := rfl
            have hT : (k.setT t { k.T t with state := .stopped }).T t = { k.T t with state := .stopped } := by simp [Kernel.setT]
            simp only [hr, hr', Bool.false_eq_true, if_false, hcp, hT] at hst ⊢
            cases hp : procPartitionId (c.affinity k.curPart) (k.T t).affinity with
            | none => simp [hp] at hst
            | some x => simp [stateNum, dormant]
          unfold resume
          rw [ht, Option.bind_some, hst', Option.bind_some]
          simp

theorem status_get(c : Config) (k : Kernel) (t : Nat) (hr : Kernel.outOfRange k t = false) {x : Nat} (ha : procPartitionId (c.affinity k.curPart) (k.T t).affinity = some x) :
    threadStatus c k t = some (.ok, some (stateNum (k.T t).state, (k.T t).period)) := by
  unfold threadStatus Kernel.getStatus
  simp [hr, ha]

/-- **C73** violated: the number that the library takes for a suspended process is, in the kernel, that of a thread that waits for a lock.
`RESUME` of a periodic process that waits for a semaphore, a mutex or an event makes it ready, although nothing was released, and answers
`NO_ERROR`. -/
theorem C73_resume_lock_violated (c : Config) (proc now nb : Nat) (p : Procs) (k k' : Kernel) (id : Int) (hid : 0 ≤ id ∧ id < nb)
    (hr : (k.P k.curPart).low ≤ p.core id.toNat ∧ p.core id.toNat ≤ (k.P k.curPart).high) (hp : (k.T (p.core id.toNat)).period ≠ -1)
    {x : Nat} (ha : procPartitionId (c.affinity k.curPart) (k.T (p.core id.toNat)).affinity = some x) (hs : (k.T (p.core id.toNat)).state = .lock)
    (hk : Kernel.globalSched c proc now (k.setT (p.core id.toNat) { k.T (p.core id.toNat) with wakeup := now, state := .runnable }) = some k') :
    resume c proc now nb p k id = some (k', Code.noError.num) := by
  have ht : coreOf nb p id = some (p.core id.toNat) := by
    unfold coreOf
    rw [if_neg (by omega)]
  have ho : Kernel.outOfRange k (p.core id.toNat) = false := by
    unfold Kernel.outOfRange
    simp; omega
  unfold resume
  rw [ht, Option.bind_some, status_get c k _ ho ha, Option.bind_some]
  simp only [hs, stateNum, dormant, waiting]
  rw [if_neg (by decide), if_neg hp, if_neg (by simp)]
  unfold Kernel.resume
  rw [ho, hk]
  rfl

/-- **C73** (part) `RESUME` of a process in any other state is refused, and so is that of an aperiodic one; nothing changes. -/
theorem C73_resume_refused (c : Config) (proc now nb : Nat) (p : Procs) (k k' : Kernel) (id : Int) (r : Nat) (hid : 0 ≤ id ∧ id < nb)
    (hs : (k.T (p.core id.toNat)).state ≠ .lock ∨ (k.T (p.core id.toNat)).period = -1) (h : resume c proc now nb p k id = some (k', r)) :
    k' = k ∧ (r = Code.invalidMode.num ∨ r = Code.invalidParam.num) := by
  have ht : coreOf nb p id = some (p.core id.toNat) := by
    unfold coreOf
    rw [if_neg (by omega)]
  unfold resume at h
  rw [ht, Option.bind_some] at h
  cases hst : threadStatus c k (p.core id.toNat) with
  | none => simp [hst] at h
  | some v =>
    rw [hst, Option.bind_some] at h
    obtain ⟨e, v⟩ := v
    cases v with
    | none => cases e <;> (cases h; exact ⟨rfl, Or.inr rfl⟩)
    | some v =>
      obtain ⟨st, pe⟩ := v
      obtain ⟨rfl, _, rfl, rfl⟩ := status_ok c k _ st pe e hst
      simp only at h
      split at h
      · cases h; exact ⟨rfl, Or.inl rfl⟩
      · split at h
        · cases h; exact ⟨rfl, Or.inl rfl⟩
        · rename_i hp
          split at h
          · cases h; exact ⟨rfl, Or.inl rfl⟩
          · rename_i hw
            exfalso
            rcases hs with hs | hs
            · cases hx : (k.T (p.core id.toNat)).state <;> simp [hx, stateNum, waiting] at hw hs
            · exact hp hs

/-- **C73** violated: an aperiodic process, the only kind that the standard allows to suspend, cannot be: `SUSPEND` answers `INVALID_MODE` and
does nothing. -/
theorem C73_aperiodic_violated (c : Config) (proc nb : Nat) (p : Procs) (k : Kernel) (id : Int) (t : Nat) (ht : coreOf nb p id = some t)
    (hp : (k.T t).period = -1) (r : Kernel × Nat) (h : suspend c proc nb p k id = some r) : r = (k, Code.invalidMode.num) := by
  unfold suspend at h
  rw [ht, Option.bind_some] at h
  cases hst : threadStatus c k t with
  | none => simp [hst] at h
  | some x =>
    obtain ⟨e, v⟩ := x
    rw [hst, Option.bind_some] at h
    cases v with
    | none => simp at h
    | some v =>
      obtain ⟨st, pe⟩ := v
      obtain ⟨rfl, hr, rfl, rfl⟩ := status_ok c k t st pe e hst
      simp only [hp, if_true] at h
      split at h <;> (cases h; rfl)

/-- **C73** violated: only the error handler may stop a process; any other process gets error 49, which is no code of the standard. -/
theorem C73_stop_violated (c : Config) (proc now nb : Nat) (p : Procs) (k : Kernel) (id : Int) (t : Nat) (ht : coreOf nb p id = some t)
    (h : k.curThread proc ≠ (k.P k.curPart).threadError) : stop c proc now nb p k id = some (k, 49) := by
  unfold stop Kernel.stopThread
  rw [ht, Option.bind_some, if_pos h]
  rfl

/-- **C73** violated: a periodic process started when its partition is in normal mode stays dormant, although the answer is `NO_ERROR`. -/
theorem C73_start_periodic_violated (c : Config) (proc now nb : Nat) (p : Procs) (k : Kernel) (id : Int) (t : Nat) (ht : coreOf nb p id = some t)
    (hp : (k.T t).period ≠ -1) (hm : (k.P (k.T t).partition).mode = .normal) (r : Kernel × Code) (h : start c proc now nb p k id = some r)
    (hok : r.2 = .noError) : (r.1.T t).state = .stopped := by
  unfold start delayedStart at h
  rw [ht, Option.bind_some] at h
  cases hst : threadStatus c k t with
  | none => simp [hst] at h
  | some x =>
    obtain ⟨e, v⟩ := x
    rw [hst, Option.bind_some] at h
    cases v with
    | none => simp at h; subst h; simp at hok
    | some v =>
      obtain ⟨st, pe⟩ := v
      obtain ⟨rfl, hr, rfl, rfl⟩ := status_ok c k t st pe e hst
      simp only at h
      split at h
      · cases h; simp at hok
      rename_i hd
      have hd : stateNum (k.T t).state = 0 := by simpa [dormant] using hd
      have hs : (k.T t).state = .stopped := by
        revert hd; cases (k.T t).state <;> simp [stateNum]
      split at h
      · cases h; simp at hok
      · unfold Kernel.delayedStart at h
        simp only [hr, Bool.false_eq_true, if_false, hp, hm, if_true, Option.map_some] at h
        cases h
        simp [Kernel.setT, hs]

/-- **C73** (part) Starting a dormant process while the partition initialises: answered `NO_ERROR`, the process gets its base priority and waits
for the partition's normal mode with the delay (in microseconds).  What is missing: see the other theorems. -/
theorem C73_start_partial (c : Config) (proc now nb : Nat) (p : Procs) (k : Kernel) (id delay : Int) (t : Nat) (ht : coreOf nb p id = some t)
    (pe : Int) (hst : threadStatus c k t = some (.ok, some (dormant, pe))) (hm : (k.P (k.T t).partition).mode ≠ .normal)
    (hd : 0 ≤ delay ∧ delay < 4294967296) :
    ∃ k', delayedStart c proc now nb p k id delay = some (k', .noError) ∧ (k'.T t).state = .delayedStart ∧
      (k'.T t).wakeup = 1000 * delay.toNat ∧ (k'.T t).priority = (k.T t).basePriority ∧ ∀ j, j ≠ t → k'.T j = k.T j := by
  obtain ⟨-, hr, -, -⟩ := status_ok c k t _ pe _ hst
  unfold delayedStart
  rw [ht, Option.bind_some, hst, Option.bind_some]
  have h1 : ¬delay = -1 := by omega
  have hu : u32 delay = delay.toNat := by unfold u32; omega
  simp only [ne_eq, not_true_eq_false, if_false, h1, hu]
  unfold Kernel.delayedStart
  simp only [hr, Bool.false_eq_true, if_false, hm]
  by_cases hp : (k.T t).period = -1
  · simp only [hp, if_true, Option.map_some]
    refine ⟨_, rfl, by simp [Kernel.setT], by simp [Kernel.setT], by simp [Kernel.setT], fun j hj => by simp only [Kernel.setT]; exact upd_other _ _ hj⟩
  · simp only [hp, if_false, Option.map_some]
    refine ⟨_, rfl, by simp [Kernel.setT], by simp [Kernel.setT], by simp [Kernel.setT], fun j hj => by simp only [Kernel.setT]; exact upd_other _ _ hj⟩

/-- **C73** (part) `START` of a dormant process: while the partition initialises it waits for normal mode without a delay; in normal mode an
aperiodic process is made ready at once, with its base priority and a deadline one time capacity from now, and the processor is given away anew. -/
theorem C73_start_now_partial (c : Config) (proc now nb : Nat) (p : Procs) (k : Kernel) (id : Int) (t : Nat) (ht : coreOf nb p id = some t)
    (pe : Int) (hst : threadStatus c k t = some (.ok, some (dormant, pe))) :
    ((k.P (k.T t).partition).mode ≠ .normal → ∃ k', start c proc now nb p k id = some (k', .noError) ∧ (k'.T t).state = .delayedStart ∧ (k'.T t).wakeup = 0) ∧
    ((k.P (k.T t).partition).mode = .normal → pe = -1 → start c proc now nb p k id =
      (Kernel.globalSched c proc now { k with T := fun j => if j = t then { k.T t with priority := (k.T t).basePriority, state := .runnable, endTime := if (k.T t).timeCapacity > 0 then addU64 now (k.T t).timeCapacity else (k.T t).endTime } else k.T j }).map fun k' => (k', .noError)) := by
  constructor
  · intro hm
    obtain ⟨k', a, b, d, -⟩ := C73_start_partial c proc now nb p k id 0 t ht pe hst hm (by omega)
    exact ⟨k', a, b, d⟩
  · intro hm hpe
    obtain ⟨-, hr, -, hp⟩ := status_ok c k t _ pe _ hst
    have hp : (k.T t).period = -1 := by rw [← hp, hpe]
    unfold start delayedStart
    rw [ht, Option.bind_some, hst, Option.bind_some]
    have hu : u32 0 = 0 := by unfold u32; omega
    simp only [ne_eq, not_true_eq_false, if_false, hu, show ¬ ((0 : Int) = -1) by omega]
    unfold Kernel.delayedStart
    simp only [hr, Bool.false_eq_true, if_false, hm, hp, if_true, Nat.mul_zero]
    have e : ∀ x : Thread, k.setT t x = { k with T := fun j => if j = t then x else k.T j } := fun x => rfl
    rw [e]
    by_cases hc : (k.T t).timeCapacity > 0
    · simp only [hc, if_true]
      split <;> rename_i h <;> rw [h] <;> rfl
    · simp only [hc, if_false]
      split <;> rename_i h <;> rw [h] <;> rfl

/-- The partition's processes: one process, thread 1. -/
def exProcs : Procs := { count := 1, core := fun i => if i = 1 then 1 else 0, name := fun i => if i = 1 then [97] else [] }

/-- The hypotheses of `C73_resume_violated` and `C73_start_partial` are met from boot: a periodic thread is suspended, or started while the
partition initialises. -/
example : ((runFromBoot exCfg [⟨0, 0, .tick⟩, ⟨0, 1, .create { entry := 1, period := 1000 }⟩]).bind fun k =>
    (suspend exCfg 0 4 exProcs k 1).map fun r => (r.2, (r.1.T 1).state)) = some (0, .stopped) := by
  decide +kernel

example : ((runFromBoot exCfg [⟨0, 0, .tick⟩, ⟨0, 1, .create { entry := 1, period := 1000 }⟩, ⟨0, 2, .suspendTarget 1⟩]).bind fun k =>
    (delayedStart exCfg 0 3 4 exProcs k 1 5).map fun r => (r.2, (r.1.T 1).state, (r.1.T 1).wakeup)) = some (.noError, .delayedStart, 5000) := by
  decide +kernel

/-- `C73_start_periodic_violated` from boot. -/
example : ((runFromBoot exCfg [⟨0, 0, .tick⟩, ⟨0, 1, .create { entry := 1, period := 1000 }⟩, ⟨0, 2, .suspendTarget 1⟩,
      ⟨0, 3, .setMode .normal⟩]).bind fun k =>
    (start exCfg 0 4 4 exProcs k 1).map fun r => (r.2, (r.1.T 1).state)) = some (.noError, .stopped) := by
  decide +kernel

/-- `C73_start_now_partial` from boot: an aperiodic process that was stopped is started in normal mode. -/
example : ((runFromBoot exCfg [⟨0, 0, .tick⟩, ⟨0, 1, .create { entry := 1 }⟩, ⟨0, 2, .suspendTarget 1⟩,
      ⟨0, 3, .setMode .normal⟩]).bind fun k =>
    (start exCfg 0 4 4 exProcs k 1).map fun r => (r.2, (r.1.T 1).state)) = some (.noError, .runnable) := by
  decide +kernel

/-- `C73_aperiodic_violated` from boot. -/
example : ((runFromBoot exCfg [⟨0, 0, .tick⟩, ⟨0, 1, .create { entry := 1 }⟩]).bind fun k =>
    (suspend exCfg 0 4 exProcs k 1).map fun r => (r.2, (r.1.T 1).state)) = some (Code.invalidMode.num, .runnable) := by
  decide +kernel

/-- `C73_resume_lock_violated`: the thread created from boot, once it waits for a lock, is made ready. -/
example : ((runFromBoot exCfg [⟨0, 0, .tick⟩, ⟨0, 1, .create { entry := 1, period := 1000 }⟩]).bind fun k =>
    (resume exCfg 0 5 4 exProcs (k.setT 1 { k.T 1 with state := .lock }) 1).map fun r => (r.2, (r.1.T 1).state)) = some (0, .runnable) := by
  decide +kernel

end Pok.Arinc
