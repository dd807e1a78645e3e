import Verif.Model.ErrorMgmt
import Verif.Props.ThreadMgmt

/-!
# Error handling (C37, C38)

Histories here contain, besides the kernel entries of `Verif.Model.KernelSys`, processor exceptions and
application errors raised by the running thread.
-/

namespace Pok
namespace Kernel

/-- Events of a history with errors. -/
inductive EEv
  | entry (e : KEv)
  | fault (proc now : Nat) (x : Exc)
  | raise (proc : Nat) (msg : List Nat) (size : Nat)

/-- The processor on which an event happens. -/
def EEv.proc : EEv → Nat
  | .entry e => e.proc
  | .fault p _ _ => p
  | .raise p _ _ => p

/-- Execution of one event. -/
def execE (c : Config) (act : Actions) (k : Kernel) : EEv → Option Kernel
  | .entry e => exec c e.proc e.now k e.call
  | .fault proc now x => fault c act proc now k x
  | .raise proc msg size => some (raiseApplication proc k msg size)

/-- Execution of a history. -/
def execAllE (c : Config) (act : Actions) : Kernel → List EEv → Option Kernel
  | k, [] => some k
  | k, e :: es =>
    match execE c act k e with
    | none => none
    | some k => execAllE c act k es

/-- A state reachable from boot by entries, faults and raised errors. -/
def ReachableE (c : Config) (act : Actions) (k : Kernel) : Prop :=
  ∃ k0 es, boot c = some k0 ∧ (∀ e ∈ es, e.proc < c.nbProcs) ∧ execAllE c act k0 es = some k

/-! ### Structure of the error functions -/

theorem setMode_cases {c : Config} {proc now : Nat} {k k' : Kernel} {m : Mode} {e : Errno}
    (h : setMode c proc now k k.curPart m = some (k', e)) :
    k' = k ∨ exec c proc now k (.setMode m) = some k' := by
  by_cases hx : k.curThread proc ≠ (k.P k.curPart).threadMain ∧ k.curThread proc ≠ (k.P k.curPart).threadError
  · left
    cases m with
    | normal =>
      simp only [setMode] at h
      rw [if_pos hx.1] at h
      split at h <;> simp at h <;> exact h.1.symm
    | stopped =>
      simp only [setMode] at h
      rw [if_pos (Or.inr hx.2)] at h
      simp at h; exact h.1.symm
    | initWarm =>
      simp only [setMode] at h
      rw [if_pos (Or.inr hx.2)] at h
      split at h <;> simp at h <;> exact h.1.symm
    | initCold =>
      simp only [setMode] at h
      rw [if_pos (Or.inr hx.2)] at h
      split at h <;> simp at h <;> exact h.1.symm
    | idle => simp [setMode] at h; exact h.1.symm
    | restart => simp [setMode] at h; exact h.1.symm
    | other n => simp [setMode] at h; exact h.1.symm
  · right
    simp only [exec, setModeCurrent]
    rw [if_neg hx, h]; rfl

theorem partitionError_cases {c : Config} {act : Actions} {proc now kind : Nat} {k k' : Kernel}
    (h : partitionError c act proc now k k.curPart kind = some k') :
    k' = k ∨ ∃ m, act k.curPart kind = .setMode m ∧ exec c proc now k (.setMode m) = some k' := by
  unfold partitionError at h
  split at h
  · simp at h; exact Or.inl h.symm
  · simp at h
  · rename_i m hm
    obtain ⟨⟨k1, e⟩, h1, rfl⟩ := map_some h
    rcases setMode_cases h1 with h2 | h2
    · exact Or.inl h2
    · exact Or.inr ⟨m, hm, h2⟩

theorem wf_error {c : Config} {k : Kernel} (hw : Wf c k) (st : ErrorStatus) :
    Wf c (k.setError st) := by
  have w := hw.part _ hw.curPart
  exact wf_setP hw fun _ => ⟨w.low, w.high, w.nth, w.sched, w.mainProc, w.main, w.err, w.cur, w.prev, w.act⟩

theorem setError_cur (k : Kernel) (st : ErrorStatus) : (k.setError st).curPart = k.curPart := rfl
theorem setError_T (k : Kernel) (st : ErrorStatus) : (k.setError st).T = k.T := rfl
theorem setError_own (k : Kernel) (st : ErrorStatus) :
    (k.setError st).P k.curPart = { k.P k.curPart with error := st } := by simp [setError, setP]
theorem setError_other {k : Kernel} {st : ErrorStatus} {p : Nat} (h : p ≠ k.curPart) :
    (k.setError st).P p = k.P p := by simp [setError, setP, upd_other _ _ h]

theorem activate_spec {proc : Nat} {k : Kernel} (h : (k.P k.curPart).threadError ≠ 0) :
    (activateError proc k).curThread proc = (k.P k.curPart).threadError ∧
    ((activateError proc k).T (k.P k.curPart).threadError).state = .runnable ∧
    (∀ i, i ≠ (k.P k.curPart).threadError → (activateError proc k).T i = k.T i) ∧
    (activateError proc k).P = k.P ∧
    (∀ q, q ≠ proc → (activateError proc k).curThread q = k.curThread q) ∧ (activateError proc k).ps = k.ps := by
  unfold activateError
  simp only
  rw [if_pos h]
  refine ⟨by simp, by simp [setT], ?_, rfl, ?_, rfl⟩
  · intro i hi; simp [setT, upd_other _ _ hi]
  · intro q hq; simp [setT, upd_other _ _ hq]

theorem activate_none {proc : Nat} {k : Kernel} (h : (k.P k.curPart).threadError = 0) : activateError proc k = k := by
  unfold activateError
  simp only
  rw [if_neg (by simp [h])]

theorem raiseKind_cases {c : Config} {act : Actions} {proc now kind : Nat} {k k' : Kernel}
    (h : raiseKind c act proc now k kind = some k') :
    ((k.P k.curPart).threadError ≠ 0 ∧
      k' = activateError proc (k.setError (declaredStatus proc k kind))) ∨
    ((k.P k.curPart).threadError = 0 ∧ partitionError c act proc now k k.curPart kind = some k') := by
  unfold raiseKind at h
  by_cases ht : (k.P k.curPart).threadError = 0
  · rw [if_pos ht, errorDeclare, if_neg (by simp [ht])] at h
    exact Or.inr ⟨ht, h⟩
  · rw [if_neg ht, errorDeclare, if_pos ht] at h
    simp at h
    exact Or.inl ⟨ht, h.symm⟩

theorem fault_cases {c : Config} {act : Actions} {proc now : Nat} {k k' : Kernel} {x : Exc}
    (h : fault c act proc now k x = some k') :
    (x ≠ .doubleFault ∧ (k.P k.curPart).threadError ≠ 0 ∧
      k' = activateError proc (k.setError (declaredStatus proc k x.kind))) ∨
    ((x = .doubleFault ∨ (k.P k.curPart).threadError = 0) ∧
      partitionError c act proc now k k.curPart x.kind = some k') := by
  unfold fault at h
  by_cases hx : x = .doubleFault
  · rw [if_pos hx] at h; subst hx
    exact Or.inr ⟨Or.inl rfl, h⟩
  · rw [if_neg hx] at h
    rcases raiseKind_cases h with ⟨h1, h2⟩ | ⟨h1, h2⟩
    · exact Or.inl ⟨hx, h1, h2⟩
    · exact Or.inr ⟨Or.inr h1, h2⟩

theorem wf_execE {c : Config} {act : Actions} {k k' : Kernel} {e : EEv} (hc : CfgOk c) (hq : e.proc < c.nbProcs)
    (hw : Wf c k) (h : execE c act k e = some k') : Wf c k' := by
  cases e with
  | entry e => exact wf_exec hc hq hw h
  | fault proc now x =>
    rcases fault_cases h with ⟨_, _, rfl⟩ | ⟨_, h1⟩
    · exact wf_activate (wf_error hw _)
    · rcases partitionError_cases h1 with rfl | ⟨m, _, hm⟩
      · exact hw
      · exact wf_exec hc hq hw hm
  | raise proc msg size =>
    simp [execE, raiseApplication] at h
    subst h
    exact wf_activate (wf_error hw _)

theorem wf_execAllE {c : Config} {act : Actions} (hc : CfgOk c) : ∀ (es : List EEv) (k k' : Kernel),
    (∀ e ∈ es, e.proc < c.nbProcs) → Wf c k → execAllE c act k es = some k' → Wf c k' := by
  intro es
  induction es with
  | nil => intro k k' _ hw h; simp [execAllE] at h; subst h; exact hw
  | cons e es ih =>
    intro k k' hq hw h
    unfold execAllE at h
    split at h
    · simp at h
    · rename_i k1 h1
      exact ih k1 k' (fun e he => hq e (by simp [he])) (wf_execE hc (hq e (by simp)) hw h1) h

theorem ReachableE.wf {c : Config} {act : Actions} {k : Kernel} (hc : CfgOk c) (h : ReachableE c act k) : Wf c k := by
  obtain ⟨k0, es, hb, hq, he⟩ := h
  exact wf_execAllE hc es k0 k hq (boot_wf hc hb) he

/-! ### C38 -/

/-- The threads of the running partition. -/
def OwnThread (k : Kernel) (i : Nat) : Prop := (k.P k.curPart).low ≤ i ∧ i < (k.P k.curPart).high

/-- **C38** (handler): in every reachable state, if the running partition has registered an error handler, an
exception (other than a double fault) of the running thread starts it: the handler is a thread of the partition,
becomes runnable and gets the processor; the status of the partition records the kind of the fault and the
number of the faulty thread within its partition; every other thread, every other partition and every other
processor is as before. -/
theorem C38_handler_partial {c : Config} {act : Actions} {k : Kernel} {proc now : Nat} {x : Exc} (hc : CfgOk c)
    (hr : ReachableE c act k) (hh : (k.P k.curPart).threadError ≠ 0) (hx : x ≠ .doubleFault) :
    ∃ k', fault c act proc now k x = some k' ∧
      OwnThread k (k.P k.curPart).threadError ∧
      k'.curThread proc = (k.P k.curPart).threadError ∧
      (k'.T (k.P k.curPart).threadError).state = .runnable ∧
      (k'.P k.curPart).error.kind = x.kind ∧
      (OwnThread k (k.curThread proc) → c.nbThreads ≤ U32 →
        (k'.P k.curPart).error.failedThread = k.curThread proc - (k.P k.curPart).low) ∧
      (∀ i, i ≠ (k.P k.curPart).threadError → k'.T i = k.T i) ∧
      (∀ p, p ≠ k.curPart → k'.P p = k.P p) ∧ (k'.P k.curPart).mode = (k.P k.curPart).mode ∧
      (∀ q, q ≠ proc → k'.curThread q = k.curThread q) ∧ k'.ps = k.ps := by
  have hw := hr.wf hc
  have w := hw.part _ hw.curPart
  have hrange := w.range hc hw.curPart
  have hroom := hc.room
  obtain ⟨k', hk'⟩ : ∃ k', fault c act proc now k x = some k' := by
    have e : errorDeclare c act proc now k x.kind =
        some (k.setError (declaredStatus proc k x.kind)) := by
      unfold errorDeclare; rw [if_pos hh]
    exact ⟨_, by unfold fault; rw [if_neg hx, raiseKind, if_neg hh, e]; rfl⟩
  refine ⟨k', hk', ?_⟩
  rcases fault_cases hk' with ⟨_, _, rfl⟩ | ⟨h1, _⟩
  · have hh' : ((k.setError (declaredStatus proc k x.kind)).P (k.setError (declaredStatus proc k x.kind)).curPart).threadError
        = (k.P k.curPart).threadError := by rw [setError_cur, setError_own]
    have hp := activate_spec (proc := proc) (k := k.setError (declaredStatus proc k x.kind)) (by rw [hh']; exact hh)
    rw [hh', setError_T] at hp
    obtain ⟨p1, p2, p3, p4, p5, p6⟩ := hp
    refine ⟨w.err.resolve_left hh, p1, p2, ?_, ?_, p3, ?_, ?_, ?_, ?_⟩
    · rw [p4, setError_own]; cases x <;> rfl
    · intro ho hU
      rw [p4, setError_own]
      simp only [declaredStatus, relThread]
      have := ho.1
      have := ho.2
      have h1 : k.curThread proc % U32 = k.curThread proc := Nat.mod_eq_of_lt (by omega)
      have h2 : (k.P k.curPart).low % U32 = (k.P k.curPart).low := Nat.mod_eq_of_lt (by omega)
      rw [h1, h2]
      have : k.curThread proc + U32 - (k.P k.curPart).low = (k.curThread proc - (k.P k.curPart).low) + U32 := by omega
      rw [this, Nat.add_mod_right, Nat.mod_eq_of_lt (by omega)]
    · intro p hp; rw [p4, setError_other hp]
    · rw [p4, setError_own]
    · intro q hq; rw [p5 q hq]; rfl
    · rw [p6]; rfl
  · rcases h1 with h1 | h1
    · exact absurd h1 hx
    · exact absurd h1 hh

/-- A change confined to the running partition: its record and its threads. -/
def Confined (k k1 : Kernel) : Prop :=
  (∀ i, ¬ OwnThread k i → k1.T i = k.T i) ∧ (∀ p, p ≠ k.curPart → k1.P p = k.P p) ∧ k1.ps = k.ps

theorem setMode_confined {c : Config} {proc now : Nat} {k k' : Kernel} {m : Mode} (hc : CfgOk c) (hw : Wf c k)
    (h : exec c proc now k (.setMode m) = some k') :
    ∃ k1, Confined k k1 ∧ Then c proc now k1 k' := by
  have w := hw.part _ hw.curPart
  have hrange := w.range hc hw.curPart
  obtain ⟨k1, h1, h2⟩ := exec_cases h
  refine ⟨k1, ?_, h2⟩
  cases h1 with
  | same => exact ⟨fun _ _ => rfl, fun _ _ => rfl, rfl⟩
  | thread call i t ht => simp [target] at ht
  | normal hm hi =>
    refine ⟨?_, ?_, rfl⟩
    · intro i hi
      show (releaseLoop c now _ k.T (k.P k.curPart).low (k.P k.curPart).nthreads).setState _ _ i = _
      have hmain := w.main
      have hne : i ≠ (k.P k.curPart).threadMain := by
        rintro rfl; exact hi hmain
      unfold Threads.setState
      rw [upd_other _ _ hne, releaseLoop_spec, if_neg]
      rw [w.nth]
      have := w.high
      intro hh
      exact hi ⟨hh.1, by omega⟩
    · intro p hp; simp [setP, upd_other _ _ hp]
  | stop he h0 =>
    exact ⟨fun _ _ => rfl, fun p hp => by simp [setP, upd_other _ _ hp], rfl⟩
  | init m k1 hm hwm he h0 h =>
    unfold reinit at h
    obtain ⟨k2, id, a, hcr, _, _, _, _, _, _, rfl⟩ := setup_parts h
    obtain ⟨hid, hlt, _, aff, _, _, rfl⟩ := create_ok hcr
    refine ⟨?_, ?_, rfl⟩
    · intro i hi
      have hlow : ((((k.setP k.curPart { k.P k.curPart with mode := m }).setP k.curPart (resetPart c proc k.curPart ((k.setP k.curPart { k.P k.curPart with mode := m }).P k.curPart))).P k.curPart).low = (k.P k.curPart).low) ∧
          ((((k.setP k.curPart { k.P k.curPart with mode := m }).setP k.curPart (resetPart c proc k.curPart ((k.setP k.curPart { k.P k.curPart with mode := m }).P k.curPart))).P k.curPart).high = (k.P k.curPart).high) := by
        simp [setP, resetPart]
      refine (created_T (c := c) (a := a) (aff := aff) (hid ▸ hlt) i).1 ?_
      rw [hlow.1, hlow.2]
      exact hi
    · intro p hp; simp [setP, created, upd_other _ _ hp]

/-- **C38** (containment): in every reachable state, a fault for which no handler is started (there is none
registered, or the fault is a double fault) leads to the configured action for that partition and kind of error:
it changes the faulty partition and its threads only, before at most one ordinary election. -/
theorem C38_contained {c : Config} {act : Actions} {k k' : Kernel} {proc now : Nat} {x : Exc} (hc : CfgOk c)
    (hr : ReachableE c act k) (hh : (k.P k.curPart).threadError = 0 ∨ x = .doubleFault)
    (h : fault c act proc now k x = some k') :
    partitionError c act proc now k k.curPart x.kind = some k' ∧
    ∃ k1, Confined k k1 ∧ Then c proc now k1 k' := by
  have hw := hr.wf hc
  have h1 : partitionError c act proc now k k.curPart x.kind = some k' := by
    rcases fault_cases h with ⟨h1, h2, _⟩ | ⟨_, h1⟩
    · rcases hh with hh | hh
      · exact absurd hh h2
      · exact absurd hh h1
    · exact h1
  refine ⟨h1, ?_⟩
  rcases partitionError_cases h1 with rfl | ⟨m, _, hm⟩
  · exact ⟨_, ⟨fun _ _ => rfl, fun _ _ => rfl, rfl⟩, Or.inl rfl⟩
  · exact setMode_confined hc hw hm

/-- **C38** (others): no fault changes the mode of another partition. -/
theorem C38_modes {c : Config} {act : Actions} {k k' : Kernel} {proc now : Nat} {x : Exc}
    (h : fault c act proc now k x = some k') (p : Nat) (hp : p ≠ k.curPart) :
    (k'.P p).mode = (k.P p).mode := by
  rcases fault_cases h with ⟨_, h2, rfl⟩ | ⟨_, h1⟩
  · have := activate_spec (proc := proc) (k := k.setError (declaredStatus proc k x.kind))
      (by rw [setError_cur, setError_own]; exact h2)
    rw [this.2.2.2.1, setError_other hp]
  · rcases partitionError_cases h1 with rfl | ⟨m, _, hm⟩
    · rfl
    · rcases C17_only hm p with h | ⟨h, _⟩
      · exact h
      · exact absurd h hp

/-- Without a handler, an action of the deployment that restarts or stops the partition is never applied: a
restart or stop needs the handler to be the running thread (kernel/core/partition.c 322-328, 337-343). -/
theorem C38_action_refused {c : Config} {act : Actions} {k : Kernel} {proc now : Nat} {x : Exc} {m : Mode}
    (hh : (k.P k.curPart).threadError = 0) (ha : act k.curPart x.kind = .setMode m) (hm : m ≠ .normal) :
    fault c act proc now k x = some k := by
  have h1 : partitionError c act proc now k k.curPart x.kind = some k := by
    unfold partitionError
    rw [ha]
    cases m with
    | normal => exact absurd rfl hm
    | stopped => simp only [setMode]; rw [if_pos (Or.inl hh)]; rfl
    | initWarm => simp only [setMode]; rw [if_pos (Or.inl hh)]; split <;> rfl
    | initCold => simp only [setMode]; rw [if_pos (Or.inl hh)]; split <;> rfl
    | idle => rfl
    | restart => rfl
    | other n => rfl
  unfold fault
  by_cases hx : x = .doubleFault
  · rw [if_pos hx]; subst hx; exact h1
  · rw [if_neg hx, raiseKind, if_pos hh, errorDeclare, if_neg (by simp [hh])]; exact h1

/-! ### C37 -/

/-- **C37** (delivery): in every reachable state with a handler, after the running thread `t` of a partition
raised an error with `n` bytes (`n` is the length of the message it gives), the handler runs and the status it
obtains says: application error, thread `t` (numbered within the partition), the first min (n, 250) bytes and
their number. -/
theorem C37_delivery_partial {c : Config} {act : Actions} {k : Kernel} {proc : Nat} {msg : List Nat} (hc : CfgOk c)
    (hr : ReachableE c act k) (hU : c.nbThreads ≤ U32) (hh : (k.P k.curPart).threadError ≠ 0)
    (ht : OwnThread k (k.curThread proc)) :
    (raiseApplication proc k msg msg.length).curThread proc = (k.P k.curPart).threadError ∧
    ∃ st, (errorGet (raiseApplication proc k msg msg.length)).2 = (.ok, some st) ∧
      st.kind = 11 ∧ st.failedThread + (k.P k.curPart).low = k.curThread proc ∧
      st.msg = msg.take 250 ∧ st.msgSize = min msg.length 250 := by
  have hw := hr.wf hc
  have w := hw.part _ hw.curPart
  have hrange := w.range hc hw.curPart
  have hroom := hc.room
  have hs := activate_spec (proc := proc) (k := k.setError (raisedStatus proc k msg msg.length))
      (by rw [setError_cur, setError_own]; exact hh)
  have hP : (raiseApplication proc k msg msg.length).P k.curPart =
      { k.P k.curPart with error := raisedStatus proc k msg msg.length } := by
    unfold raiseApplication; rw [hs.2.2.2.1, setError_own]
  have hcur : (raiseApplication proc k msg msg.length).curPart = k.curPart := by
    show (activateError proc _).ps.part = _
    rw [hs.2.2.2.2.2]; rfl
  refine ⟨?_, raisedStatus proc k msg msg.length, ?_, rfl, ?_, ?_, ?_⟩
  · have := hs.1; rw [setError_cur, setError_own] at this; exact this
  · have hE : ((raiseApplication proc k msg msg.length).P k.curPart).error = raisedStatus proc k msg msg.length := by
      rw [hP]
    unfold errorGet
    rw [hcur, hE, if_pos (by show KIND_APPLICATION ≠ KIND_NONE; decide)]
  · have := ht.1
    have := ht.2
    simp only [raisedStatus, relThread]
    have h1 : k.curThread proc % U32 = k.curThread proc := Nat.mod_eq_of_lt (by omega)
    have h2 : (k.P k.curPart).low % U32 = (k.P k.curPart).low := Nat.mod_eq_of_lt (by omega)
    rw [h1, h2]
    have : k.curThread proc + U32 - (k.P k.curPart).low = (k.curThread proc - (k.P k.curPart).low) + U32 := by omega
    rw [this, Nat.add_mod_right, Nat.mod_eq_of_lt (by omega)]
    omega
  · simp only [raisedStatus]
    have hmax : MAX_MSG = 250 := rfl
    by_cases hl : msg.length > MAX_MSG
    · rw [if_pos hl, hmax]
    · rw [if_neg hl, List.take_of_length_le (Nat.le_refl _), List.take_of_length_le (by omega)]
  · simp only [raisedStatus]
    have hmax : MAX_MSG = 250 := rfl
    by_cases hl : msg.length > MAX_MSG
    · rw [if_pos hl]; omega
    · rw [if_neg hl]; omega

end Kernel

/-! ### Concrete histories -/

section Examples
open Kernel

/-- Run a history with errors from boot. -/
def runE (c : Config) (act : Actions) (es : List EEv) : Option Kernel :=
  match boot c with
  | none => none
  | some k => execAllE c act k es

theorem runE_reachable {c : Config} {act : Actions} {es : List EEv} {k : Kernel}
    (hq : ∀ e ∈ es, e.proc < c.nbProcs) (h : runE c act es = some k) : ReachableE c act k := by
  unfold runE at h
  split at h
  · simp at h
  · rename_i k0 hb
    exact ⟨k0, es, hb, hq, h⟩

/-- No action is configured. -/
def noAction : Actions := fun _ _ => .ignore
/-- Cold restart on every error. -/
def coldAction : Actions := fun _ _ => .setMode .initCold

/-- Partition 0 registers thread 1 as its handler, creates thread 2 and enters NORMAL mode. -/
def exHandler : List EEv :=
  [.entry ⟨0, 0, .tick⟩, .entry ⟨0, 1, .errorCreate 7 {}⟩, .entry ⟨0, 2, .tick⟩,
   .entry ⟨0, 3, .create { priority := 4, entry := 2 }⟩, .entry ⟨0, 4, .suspendTarget 1⟩,
   .entry ⟨0, 5, .setMode .normal⟩]

/-- The hypotheses of `C38_handler_partial` and `C37_delivery_partial` are met: thread 2 of partition 0 runs, thread 1 is
the handler. -/
example : (runE exCfg noAction exHandler).map
    (fun k => (k.curPart, k.curThread 0, (k.P 0).threadError, (k.P 0).mode)) = some (0, 2, 1, .normal) := by
  decide +kernel

/-- A page fault of thread 2 starts thread 1. -/
example : (runE exCfg noAction (exHandler ++ [.fault 0 6 .pageFault])).map
    (fun k => (k.curThread 0, (k.P 0).error.kind, (k.P 0).error.failedThread)) = some (1, KIND_MEMORY, 2) := by
  decide +kernel

/-- A message of 300 bytes: the handler gets the first 250. -/
example : (runE exCfg noAction (exHandler ++ [.raise 0 (List.range 300) 300])).map
    (fun k => (k.curThread 0, (errorGet k).2.1, (errorGet k).2.2.map (·.msg), (errorGet k).2.2.map (·.msgSize)))
      = some (1, .ok, some (List.range 250), some 250) := by
  decide +kernel

/-- **C37** is false of the code in its last part: the status is still there after it has been read. -/
theorem C37_once_violated :
    (runE exCfg noAction (exHandler ++ [.raise 0 [65, 66] 2])).map
      (fun k => ((errorGet k).2, (errorGet (errorGet k).1).2)) =
    some ((.ok, some { kind := KIND_APPLICATION, failedThread := 2, msg := [65, 66], msgSize := 2 }),
          (.ok, some { kind := KIND_APPLICATION, failedThread := 2, msg := [65, 66], msgSize := 2 })) := by
  decide +kernel

/-- **C38** is false of the code for a double fault: the registered handler is not started, the faulty thread goes
on. -/
theorem C38_double_fault_violated :
    (runE exCfg noAction (exHandler ++ [.fault 0 6 .doubleFault])).map
      (fun k => ((k.P 0).threadError, k.curThread 0, (k.T 1).state)) = some (1, 2, .stopped) := by
  decide +kernel

/-- **C38** is false of the code for the configured action: partition 0 has no handler, the deployment asks for a
cold restart on every error; after a page fault in NORMAL mode the mode is still NORMAL and the faulty thread
goes on. -/
theorem C38_action_violated :
    (runE exCfg coldAction [.entry ⟨0, 0, .tick⟩, .entry ⟨0, 1, .create { priority := 4, entry := 2 }⟩,
        .entry ⟨0, 2, .setMode .normal⟩, .fault 0 3 .pageFault]).map
      (fun k => ((k.P 0).mode, k.curThread 0, (k.T 1).state)) = some (.normal, 1, .runnable) := by
  decide +kernel

/-- The partitions of `exCfg` with all slots for partition 1, which uses round robin. -/
def exRR : Config := { exCfg with alloc := fun _ => 1 }

/-- **C38** is false of the code under round robin: the handler (thread 4 of partition 1) is started, but the next
clock tick gives the processor back to the faulty thread 5, which never left the ready state. -/
theorem C38_resumed_violated :
    (runE exRR noAction
      [.entry ⟨0, 0, .tick⟩, .entry ⟨0, 1, .errorCreate 7 {}⟩, .entry ⟨0, 2, .tick⟩,
       .entry ⟨0, 3, .create { priority := 4, entry := 2 }⟩, .entry ⟨0, 4, .suspendTarget 4⟩,
       .entry ⟨0, 5, .setMode .normal⟩, .fault 0 6 .pageFault]).map
      (fun k => (k.curThread 0, (k.T 4).state, (execAllE exRR noAction k [.entry ⟨0, 7, .tick⟩]).map (·.curThread 0)))
      = some (4, .runnable, some 5) := by
  decide +kernel

end Examples
end Pok
