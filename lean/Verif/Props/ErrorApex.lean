import Verif.Model.ErrorApex
import Verif.Props.ErrorMgmt
import Verif.Props.Total

/-!
# C138: the registration of an error handler and the report of a message
-/

namespace Pok.ErrorApex
open Pok.Kernel Pok.Arinc

/-- The number of the next thread of the running partition. -/
def nextThread (k : Kernel) : Nat := (k.P k.curPart).low + (k.P k.curPart).index

/-- A successful registration, step by step. -/
theorem success {c : Config} {act : Actions} {k : Kernel} (proc entry : Nat) (junk : ThreadAttr) (tid : Nat) (hc : CfgOk c) (hr : ReachableE c act k)
    (hm : MayCreate k) (hp : ProcOk c k junk.affinity entry) :
    ∃ aff, createErrorHandler c proc k entry junk tid = some (activateError proc ((created c k { junk with priority := 200, entry := entry, timeCapacity := 10000 } k.curPart aff).setP k.curPart
      { (created c k { junk with priority := 200, entry := entry, timeCapacity := 10000 } k.curPart aff).P k.curPart with threadError := nextThread k }), .noError) := by
  have hw := hr.wf hc
  obtain ⟨k1, id, h1⟩ := (create_total hw { junk with priority := 200, entry := entry, timeCapacity := 10000 }).2.2 ⟨hm, hp⟩
  obtain ⟨rfl, hid, _, aff, _, _, rfl⟩ := create_ok h1
  refine ⟨aff, ?_⟩
  have hl : nextThread k < c.nbThreads := by
    have := (hw.part _ hw.curPart).range hc hw.curPart
    have := hc.room
    unfold nextThread; omega
  unfold createErrorHandler errorThreadCreateFrom
  rw [h1]
  simp only [Option.getD_some]
  rw [if_pos (show (k.P k.curPart).low + (k.P k.curPart).index < c.nbThreads from hl)]
  rfl

/-- What happens to the threads that are not the partition's own. -/
theorem created_T {c : Config} {k : Kernel} {a : ThreadAttr} {aff : Nat} (i : Nat) (hm : MayCreate k) (hi : i < (k.P k.curPart).low ∨ (k.P k.curPart).high ≤ i) :
    (created c k a k.curPart aff).T i = k.T i := by
  have := hm.2
  simp only [created]
  split
  · rename_i h
    rw [(insertSort_mem _ (by omega) (by omega) i).1 (by omega), upd_other _ _ (by omega)]
  · rw [upd_other _ _ (by omega)]

/-- The new thread, if threads are not reordered. -/
theorem created_new {c : Config} {k : Kernel} {a : ThreadAttr} {aff : Nat} (hs : (k.P k.curPart).sched ≠ .rms) :
    ((created c k a k.curPart aff).T (nextThread k)).entry = a.entry ∧ ((created c k a k.curPart aff).T (nextThread k)).partition = k.curPart := by
  simp only [created]
  rw [if_neg (fun q => hs q.1)]
  unfold nextThread
  rw [upd_same]
  exact ⟨rfl, rfl⟩

/-- **C138** (part) While a partition starts and has a thread left, the registration of a handler succeeds whatever is on the kernel's stack: the handler is a new thread of the partition, which
starts at the given place (with a policy that does not reorder threads), no other partition's record and none of their threads change. -/
theorem C138_register_partial {c : Config} {act : Actions} {k : Kernel} (proc entry : Nat) (junk : ThreadAttr) (tid : Nat) (hc : CfgOk c) (hr : ReachableE c act k)
    (hm : MayCreate k) (hp : ProcOk c k junk.affinity entry) (hi : 0 < (k.P k.curPart).index) :
    ∃ k', createErrorHandler c proc k entry junk tid = some (k', .noError) ∧ (k'.P k.curPart).threadError = nextThread k ∧
      ((k.P k.curPart).sched ≠ .rms → (k'.T (nextThread k)).entry = entry ∧ (k'.T (nextThread k)).partition = k.curPart) ∧
      (∀ p, p ≠ k.curPart → k'.P p = k.P p) ∧ ∀ i, (i < (k.P k.curPart).low ∨ (k.P k.curPart).high ≤ i) → k'.T i = k.T i := by
  obtain ⟨aff, h⟩ := success proc entry junk tid hc hr hm hp
  have hn : nextThread k ≠ 0 := by unfold nextThread; omega
  refine ⟨_, h, ?_, ?_, ?_, ?_⟩
  · rw [activate_P]; simp [setP]
  · intro hs
    have e : ∀ K : Kernel, (K.P K.curPart).threadError = nextThread k →
        ((activateError proc K).T (nextThread k)).entry = (K.T (nextThread k)).entry ∧ ((activateError proc K).T (nextThread k)).partition = (K.T (nextThread k)).partition := by
      intro K hK
      unfold activateError
      simp only [hK]
      rw [if_pos hn]
      simp [setT]
    have n := created_new (c := c) (a := { junk with priority := 200, entry := entry, timeCapacity := 10000 }) (aff := aff) hs
    refine ⟨(e _ ?_).1.trans n.1, (e _ ?_).2.trans n.2⟩ <;> simp [setP, created, curPart]
  · intro p hpp
    rw [activate_P]
    simp [setP, created, upd_other _ _ hpp]
  · intro i hi'
    have h2 := hm.2
    have hni : i ≠ nextThread k := by unfold nextThread; omega
    have e : ∀ K : Kernel, (K.P K.curPart).threadError = nextThread k → (activateError proc K).T i = K.T i := by
      intro K hK
      unfold activateError
      simp only [hK]
      rw [if_pos hn]
      simp only [setT, upd_other _ _ hni]
    rw [e _ (by simp [setP, created, curPart])]
    exact created_T i hm hi'

/-- **C138** violated: the registered handler gets the processor at once, in the middle of the call that registers it, although no error has occurred: it runs and finds no error. -/
theorem C138_runs_violated {c : Config} {act : Actions} {k : Kernel} (proc entry : Nat) (junk : ThreadAttr) (tid : Nat) (hc : CfgOk c) (hr : ReachableE c act k)
    (hm : MayCreate k) (hp : ProcOk c k junk.affinity entry) (hi : 0 < (k.P k.curPart).index) (he : (k.P k.curPart).error.kind = KIND_NONE) :
    ∃ k', createErrorHandler c proc k entry junk tid = some (k', .noError) ∧ k'.curThread proc = (k'.P k.curPart).threadError ∧ (k'.T (k'.curThread proc)).state = .runnable ∧
      (errorGet k').2.1 = .unavailable := by
  obtain ⟨aff, h⟩ := success proc entry junk tid hc hr hm hp
  have hn : nextThread k ≠ 0 := by unfold nextThread; omega
  refine ⟨_, h, ?_, ?_, ?_⟩
  · rw [activate_P]
    simp only [activateError, setP, setT, curPart, created, upd_same]
    rw [if_pos hn]
    simp only [upd_same]
  · simp only [activateError, setP, setT, curPart, created, upd_same]
    rw [if_pos hn]
    simp only [upd_same]
  · simp only [errorGet, activateError, setP, setT, curPart, created, upd_same]
    rw [if_pos hn]
    simp only [upd_same]
    rw [if_neg (by simpa [curPart] using he)]

/-- **C138** violated: a second registration does not fail: it answers NO_ERROR and the first handler is no longer one. -/
theorem C138_second_violated {c : Config} {act : Actions} {k : Kernel} (proc entry : Nat) (junk : ThreadAttr) (tid : Nat) (hc : CfgOk c) (hr : ReachableE c act k)
    (hm : MayCreate k) (hp : ProcOk c k junk.affinity entry) (_h0 : (k.P k.curPart).threadError ≠ 0) (h1 : (k.P k.curPart).threadError < nextThread k) :
    ∃ k', createErrorHandler c proc k entry junk tid = some (k', .noError) ∧ (k'.P k.curPart).threadError ≠ (k.P k.curPart).threadError := by
  obtain ⟨aff, h⟩ := success proc entry junk tid hc hr hm hp
  refine ⟨_, h, ?_⟩
  rw [activate_P]
  simp only [setP, upd_same]
  omega

/-- A registration that fails. -/
theorem failure {c : Config} {k : Kernel} (proc entry : Nat) (junk : ThreadAttr) (tid : Nat) (hm : ¬MayCreate k) (ht : tid < c.nbThreads) :
    createErrorHandler c proc k entry junk tid = some (activateError proc (k.setP k.curPart { k.P k.curPart with threadError := tid }), .invalidConfig) := by
  have h : ∃ e, e ≠ Errno.ok ∧ threadCreate c k { junk with priority := 200, entry := entry, timeCapacity := 10000 } k.curPart = some (k, e, none) := by
    unfold threadCreate
    simp only
    by_cases h1 : (k.P k.curPart).mode ≠ .initCold ∧ (k.P k.curPart).mode ≠ .initWarm
    · exact ⟨.mode, by decide, by rw [if_pos h1]⟩
    · rw [if_neg h1]
      refine ⟨.toomany, by decide, ?_⟩
      rw [if_pos]
      by_contra h2
      refine hm ⟨?_, by omega⟩
      by_contra h3
      exact h1 ⟨fun q => h3 (Or.inl q), fun q => h3 (Or.inr q)⟩
  obtain ⟨e, he, h⟩ := h
  unfold createErrorHandler errorThreadCreateFrom
  rw [h]
  simp only [Option.getD_none]
  rw [if_pos ht, Option.map_some, if_neg he]

/-- **C138** violated: a registration in NORMAL mode, or without a thread left, answers INVALID_CONFIG, yet whatever number was on the kernel's stack is now the partition's error handler: that thread
is made runnable with the highest priority and gets the processor, be it a thread of another partition. -/
theorem C138_failed_violated (c : Config) (k : Kernel) (proc entry : Nat) (junk : ThreadAttr) (tid : Nat) (hm : ¬MayCreate k) (ht : tid < c.nbThreads) (h0 : tid ≠ 0) :
    ∃ k', createErrorHandler c proc k entry junk tid = some (k', .invalidConfig) ∧ (k'.P k.curPart).threadError = tid ∧ k'.curThread proc = tid ∧ (k'.T tid).state = .runnable ∧
      (k'.T tid).priority = 255 := by
  refine ⟨_, failure proc entry junk tid hm ht, ?_, ?_, ?_, ?_⟩
  · rw [activate_P]; simp [setP]
  all_goals
    simp only [activateError, setP, setT, curPart, upd_same]
    rw [if_pos h0]
    simp only [upd_same]

/-- **C138** violated: with a zero on the stack the failed call removes the handler that the partition had. -/
theorem C138_lost_violated (c : Config) (k : Kernel) (proc entry : Nat) (junk : ThreadAttr) (hm : ¬MayCreate k) (hn : 0 < c.nbThreads) :
    ∃ k', createErrorHandler c proc k entry junk 0 = some (k', .invalidConfig) ∧ (k'.P k.curPart).threadError = 0 := by
  refine ⟨_, failure proc entry junk 0 hm hn, ?_⟩
  rw [activate_P]; simp [setP]

/-! ## The report of a message -/

/-- **C138** (part) A message of more than 64 bytes is refused and nothing changes. -/
theorem C138_report_long_partial (c : PortCfg) (proc : Nat) (k : Kernel) (m : Nat → Nat) (addr : Nat) (length : Int) (h : 64 < length) :
    reportMessage c proc k m addr length = (k, .invalidParam) := by
  unfold reportMessage; rw [if_pos h]

/-- The call inside the partition. -/
theorem report_inside {c : PortCfg} (proc : Nat) (k : Kernel) (m : Nat → Nat) {addr n : Nat} (hn : n ≤ 64) (hp : k.curPart < c.nbParts) (ha : addr + n ≤ c.psize k.curPart) :
    reportMessage c proc k m addr n = (raiseApplication proc k (Sys.bytes m addr n) n, .noError) := by
  unfold reportMessage raiseCall
  rw [if_neg (by omega)]
  have e : (((n : Int) % 2 ^ 32).toNat) = n := by omega
  rw [e, if_pos]
  unfold Ports.checkPtr
  rw [if_neg (by omega), if_neg (by omega)]
  simp only [decide_eq_true_eq]; omega

/-- **C138** (part) A message of at most 64 bytes inside the partition is kept, whole, with the number of the thread that reported it, and no other partition's record changes. -/
theorem C138_report_partial (c : PortCfg) (proc : Nat) (k : Kernel) (m : Nat → Nat) (addr n : Nat) (hn : n ≤ 64) (hp : k.curPart < c.nbParts) (ha : addr + n ≤ c.psize k.curPart) :
    ∃ k', reportMessage c proc k m addr n = (k', .noError) ∧ (k'.P k.curPart).error.msg = Sys.bytes m addr n ∧ (k'.P k.curPart).error.msgSize = n ∧
      (k'.P k.curPart).error.failedThread = relThread proc k ∧ ∀ p, p ≠ k.curPart → k'.P p = k.P p := by
  refine ⟨_, report_inside proc k m hn hp ha, ?_, ?_, ?_, ?_⟩
  all_goals unfold raiseApplication
  · rw [activate_P]
    have : ¬MAX_MSG < n := by unfold MAX_MSG; omega
    simp only [setError, setP, raisedStatus, this, if_false, upd_same]
    exact List.take_of_length_le (by simp [Sys.bytes])
  · rw [activate_P]
    have : ¬MAX_MSG < n := by unfold MAX_MSG; omega
    simp [setError, setP, raisedStatus, this]
  · rw [activate_P]
    simp [setError, setP, raisedStatus]
  · intro p hpp
    rw [activate_P]
    simp [setError, setP, upd_other _ _ hpp]

/-- **C138** violated: to report a message is to raise an error: the message takes the place of an error that is pending, and the handler gets the processor. -/
theorem C138_report_raises_violated (c : PortCfg) (proc : Nat) (k : Kernel) (m : Nat → Nat) (addr n : Nat) (hn : n ≤ 64) (hp : k.curPart < c.nbParts) (ha : addr + n ≤ c.psize k.curPart)
    (h0 : (k.P k.curPart).threadError ≠ 0) :
    ∃ k', reportMessage c proc k m addr n = (k', .noError) ∧ (k'.P k.curPart).error.kind = KIND_APPLICATION ∧ k'.curThread proc = (k.P k.curPart).threadError := by
  refine ⟨_, report_inside proc k m hn hp ha, ?_, ?_⟩
  all_goals unfold raiseApplication
  · rw [activate_P]
    simp [setError, setP, raisedStatus]
  · have h0' : (k.P k.ps.part).threadError ≠ 0 := h0
    simp only [activateError, setError, setP, setT, curPart, upd_same]
    rw [if_pos h0']
    simp only [upd_same]

/-- **C138** violated: a message that lies outside the partition, or has a negative length, is not reported, and the answer is NO_ERROR. -/
theorem C138_report_silent_violated (c : PortCfg) (proc : Nat) (k : Kernel) (m : Nat → Nat) (addr : Nat) (length : Int) (hl : length ≤ 64) (hs : c.psize k.curPart < 2 ^ 31)
    (h : c.psize k.curPart < addr ∨ (-2 ^ 31 ≤ length ∧ length < 0)) : reportMessage c proc k m addr length = (k, .noError) := by
  unfold reportMessage raiseCall
  rw [if_neg (by omega), if_neg]
  unfold Ports.checkPtr
  by_cases h1 : k.curPart ≥ c.nbParts
  · rw [if_pos h1]; simp
  rw [if_neg h1]
  split
  · simp
  · rename_i h2
    simp only [decide_eq_true_eq]
    rcases h with h | h
    · omega
    · omega

/-! ## The hypotheses are met -/

/-- Partition 0 of the example starts and has registered thread 1 at place 7: it can register a second one, thread 2. -/
example : (runE exCfg noAction [.entry ⟨0, 0, .tick⟩, .entry ⟨0, 1, .errorCreate 7 {}⟩, .entry ⟨0, 2, .tick⟩]).map (fun k =>
    (decide (((k.P k.curPart).mode = .initCold ∨ (k.P k.curPart).mode = .initWarm) ∧ nextThread k < (k.P k.curPart).high), (k.P k.curPart).threadError, nextThread k, (k.P k.curPart).error.kind, (k.P k.curPart).index)) =
    some (true, 1, 2, KIND_NONE, 2) ∧ procRealId (exCfg.affinity 0) 0 = some 0 := by constructor <;> decide +kernel

/-- The handler of partition 0 fails to register another one in NORMAL mode: with 4 on the stack, thread 4 of partition 1 gets the processor in the window of partition 0. -/
example : (runE exCfg noAction exHandler).map (fun k => decide ((k.P 0).mode = .normal ∧ k.curPart = 0 ∧ (k.P 1).low = 3) &&
    (match createErrorHandler exCfg 0 k 9 {} 4 with | some (k', .invalidConfig) => decide (k'.curThread 0 = 4 ∧ (k'.P 0).threadError = 4) | _ => false)) = some true := by decide +kernel

end Pok.ErrorApex
