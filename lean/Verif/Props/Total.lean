import Verif.Props.Election

/-!
# C100: the kernel always answers

Every kernel entry comes to an end: no assertion fails, no loop runs for ever, no uninitialised variable is used.
The calls for which this does not hold are characterised exactly.
-/

namespace Pok.Kernel

/-! ### Specification -/

/-- The partition that runs may create threads and has one left. -/
def MayCreate (k : Kernel) : Prop :=
  ((k.P k.curPart).mode = .initCold ∨ (k.P k.curPart).mode = .initWarm) ∧
    (k.P k.curPart).low + (k.P k.curPart).index < (k.P k.curPart).high

/-- The processor `core`, counted among those of the partition that runs, exists; and it is the partition's first
one if `entry` is the entry point of the partition. -/
def ProcOk (c : Config) (k : Kernel) (core entry : Nat) : Prop :=
  ∃ aff, procRealId (c.affinity k.curPart) core = some aff ∧ (if c.multi ≠ 0 then aff < c.multi else aff = 0) ∧
    (entry = (k.P k.curPart).mainEntry → procRealId (c.affinity k.curPart) 0 = some aff)

/-- The calls that the kernel does not survive. -/
def Fatal (c : Config) (k : Kernel) : KCall → Prop
  | .create a => MayCreate k ∧ ¬ ProcOk c k a.affinity a.entry
  | .errorCreate entry junk => ¬ (MayCreate k ∧ ProcOk c k junk.affinity entry)
  | _ => False

/-! ### Elections -/

theorem sched_total {c : Config} {k : Kernel} (proc now : Nat) (hc : CfgOk c) (hw : Wf c k)
    (hq : proc < c.nbProcs) : ∃ k', schedThread c proc now k = some k' := by
  have hwp := hw.part _ hw.curPart
  have hrg := hwp.range hc hw.curPart
  have hnt : (k.P k.curPart).nthreads = (k.P k.curPart).high - (k.P k.curPart).low := by
    rw [hwp.nth, hwp.high]; omega
  have hroom := hc.room
  have hsmall := hc.small
  obtain ⟨T1, hT1⟩ := wakeLoop_total (c := c) (proc := proc) (now := now) (k.P k.curPart).nthreads
    (k.P k.curPart).low k.T (fun j _ h2 => hw.cap j (by omega))
  have hch : ∃ T2 e, choose c proc k T1 k.curPart = some (T2, e) := by
    unfold choose
    simp only
    split
    · split <;> exact ⟨_, _, rfl⟩
    · split <;> exact ⟨_, _, rfl⟩
    · split
      · exact ⟨_, _, rfl⟩
      · obtain ⟨e, he, _⟩ := C04_policies (k.P k.curPart).sched (T := account c proc k T1) (proc := proc)
          (idle := idle c proc) hrg.1 (hwp.prev proc hq) (hwp.cur proc hq)
        rw [he]; exact ⟨_, _, rfl⟩
    · exact ⟨_, _, rfl⟩
  obtain ⟨T2, e, hch⟩ := hch
  unfold schedThread electThread
  rw [if_neg (by omega), hT1]
  simp only [hch]
  exact ⟨_, rfl⟩

theorem global_total {c : Config} {k : Kernel} (proc now : Nat) (hc : CfgOk c) (hw : Wf c k)
    (hq : proc < c.nbProcs) : ∃ k', globalSched c proc now k = some k' :=
  sched_total proc now hc (wf_switch hc hw) hq

/-! ### Boot gives every partition a processor -/

theorem boot_procs {c : Config} {k : Kernel} (h : boot c = some k) :
    ∀ p < c.nbParts, ∃ a, procRealId (c.affinity p) 0 = some a ∧ (if c.multi ≠ 0 then a < c.multi else a = 0) := by
  have key : ∀ (n : Nat) (k k' : Kernel), partitionInit c k n = some k' →
      ∀ p < n, ∃ a, procRealId (c.affinity p) 0 = some a ∧ (if c.multi ≠ 0 then a < c.multi else a = 0) := by
    intro n
    induction n with
    | zero => intro k k' _ p hp; omega
    | succ n ih =>
      intro k k' h p hp
      unfold partitionInit at h
      split at h
      · simp at h
      · rename_i k1 hk1
        split at h
        · simp at h
        · rename_i P hP
          by_cases e : p = n
          · subst e
            obtain ⟨k2, id, a, h1, _, h3, _⟩ := setup_parts h
            obtain ⟨_, _, _, aff, h4, h5, _⟩ := create_ok h1
            rw [h3] at h4
            exact ⟨aff, h4, h5⟩
          · exact ih _ _ hk1 p (by omega)
  unfold boot at h
  simp only at h
  split at h
  · simp at h
  · rename_i k1 hk1
    exact key _ _ _ hk1

/-! ### Creation -/

theorem create_total {c : Config} {k : Kernel} (hw : Wf c k) (a : ThreadAttr) :
    (threadCreate c k a k.curPart = none ↔ MayCreate k ∧ ¬ ProcOk c k a.affinity a.entry) ∧
    ((∃ k1 id, threadCreate c k a k.curPart = some (k1, .ok, some id)) ↔ MayCreate k ∧ ProcOk c k a.affinity a.entry) := by
  have hmp := (hw.part _ hw.curPart).mainProc
  unfold threadCreate
  simp only
  by_cases hm : (k.P k.curPart).mode ≠ .initCold ∧ (k.P k.curPart).mode ≠ .initWarm
  · rw [if_pos hm]
    have : ¬ MayCreate k := by rintro ⟨h | h, _⟩ <;> simp_all
    simp [this]
  · rw [if_neg hm]
    have hm' : (k.P k.curPart).mode = .initCold ∨ (k.P k.curPart).mode = .initWarm := by
      by_cases h : (k.P k.curPart).mode = .initCold
      · exact Or.inl h
      · right
        by_contra h2
        exact hm ⟨h, h2⟩
    by_cases hr : (k.P k.curPart).low + (k.P k.curPart).index ≥ (k.P k.curPart).high
    · rw [if_pos hr]
      have : ¬ MayCreate k := by rintro ⟨_, h⟩; omega
      simp [this]
    · rw [if_neg hr]
      have hmay : MayCreate k := ⟨hm', by omega⟩
      cases haff : procRealId (c.affinity k.curPart) a.affinity with
      | none =>
        have : ¬ ProcOk c k a.affinity a.entry := by rintro ⟨aff, h, _⟩; rw [haff] at h; simp at h
        simp [this, hmay]
      | some aff =>
        simp only
        by_cases h1 : (if c.multi ≠ 0 then aff < c.multi else aff = 0)
        · rw [if_neg (not_not.2 h1)]
          by_cases h2 : (k.P k.curPart).mainEntry = a.entry ∧ aff ≠ (k.P k.curPart).mainProc
          · rw [if_pos h2]
            have : ¬ ProcOk c k a.affinity a.entry := by
              rintro ⟨aff', h, _, h3⟩
              rw [haff] at h
              injection h with h
              subst h
              have := h3 h2.1.symm
              rw [hmp] at this
              injection this with this
              exact h2.2 this.symm
            simp [this, hmay]
          · rw [if_neg h2]
            have : ProcOk c k a.affinity a.entry := by
              refine ⟨aff, haff, h1, ?_⟩
              intro he
              rw [hmp]
              congr 1
              by_contra h3
              exact h2 ⟨he.symm, fun h => h3 h.symm⟩
            simp [this, hmay]
        · rw [if_pos h1]
          have : ¬ ProcOk c k a.affinity a.entry := by
            rintro ⟨aff', h, h3, _⟩
            rw [haff] at h
            injection h with h
            subst h
            exact h1 h3
          simp [this, hmay]

theorem reinit_total {c : Config} {k : Kernel} {pid : Nat} (proc : Nat) (hc : CfgOk c) (hw : Wf c k) (hp : pid < c.nbParts)
    (hm : (k.P pid).mode = .initCold ∨ (k.P pid).mode = .initWarm)
    (ha : ∃ a, procRealId (c.affinity pid) 0 = some a ∧ (if c.multi ≠ 0 then a < c.multi else a = 0)) :
    ∃ k', reinit c proc k pid = some k' := by
  obtain ⟨a, h1, h2⟩ := ha
  have w := hw.part pid hp
  have hmp := w.mainProc
  have hrg := (w.range hc hp).1
  rw [h1] at hmp
  injection hmp with hmp
  unfold reinit setupMainThread threadCreate
  simp only [setP, upd_same, resetPart]
  rw [if_neg (by rintro ⟨x, y⟩; rcases hm with h | h <;> simp_all), if_neg (by omega), h1]
  simp only
  rw [if_neg (not_not.2 h2), if_neg (by rintro ⟨_, h⟩; exact h hmp)]
  exact ⟨_, rfl⟩

/-! ### Entries -/

theorem exec_none_iff {c : Config} {k : Kernel} {proc now : Nat} {call : KCall} (hc : CfgOk c) (hw : Wf c k)
    (hb : ∀ p < c.nbParts, ∃ a, procRealId (c.affinity p) 0 = some a ∧ (if c.multi ≠ 0 then a < c.multi else a = 0))
    (hq : proc < c.nbProcs) : exec c proc now k call = none ↔ Fatal c k call := by
  have some_ne : ∀ {α : Type} {o : Option α}, (∃ x, o = some x) → (o = none ↔ False) := by
    rintro α o ⟨x, rfl⟩; simp
  have S : ∀ {k : Kernel}, Wf c k → ∃ k', schedThread c proc now k = some k' := fun h => sched_total proc now hc h hq
  have G : ∀ {k : Kernel}, Wf c k → ∃ k', globalSched c proc now k = some k' := fun h => global_total proc now hc h hq
  have GT : ∀ {id : Nat} {t : Thread}, globalSched c proc now (k.setT id t) = none → t.timeCapacity = (k.T id).timeCapacity →
      t.affinity = (k.T id).affinity → False := by
    intro id t h h1 h2
    obtain ⟨k', hk'⟩ := G (wf_setT hw h1 h2)
    rw [h] at hk'; simp at hk'
  have w := hw.part _ hw.curPart
  cases call with
  | tick => exact some_ne (G hw)
  | resched => exact some_ne (S hw)
  | create a =>
    simp only [exec, Option.map_eq_none_iff]
    exact (create_total hw a).1
  | sleep us => exact some_ne (S (wf_setT hw rfl rfl))
  | sleepUntil us => exact some_ne (S (wf_setT hw rfl rfl))
  | endPeriod => exact some_ne (S (wf_setT hw rfl rfl))
  | stopSelf => exact some_ne (S (wf_setT hw rfl rfl))
  | delayedStart id us =>
    simp only [exec, Option.map_eq_none_iff, Fatal]
    unfold delayedStart
    simp only
    split
    · simp
    · split
      · split
        · split
          · rename_i hg
            exact (GT hg (by repeat' (first | rfl | split)) (by repeat' (first | rfl | split))).elim
          · simp
        · simp
      · split <;> simp
  | setPriority id p =>
    simp only [exec, Option.map_eq_none_iff, Fatal]
    unfold setPriority
    split
    · simp
    · obtain ⟨k', hk'⟩ := G (k := k.setT id { k.T id with priority := p % 256 }) (wf_setT hw rfl rfl)
      rw [hk']; simp
  | resume id =>
    simp only [exec, Option.map_eq_none_iff, Fatal]
    unfold resume
    split
    · simp
    · obtain ⟨k', hk'⟩ := G (k := k.setT id { k.T id with wakeup := now, state := .runnable }) (wf_setT hw rfl rfl)
      rw [hk']; simp
  | suspendTarget id => exact some_ne ⟨_, rfl⟩
  | restartThread tid =>
    simp only [exec, Option.map_eq_none_iff, Fatal]
    unfold restartThread
    simp only
    split
    · simp
    · split
      · simp
      · obtain ⟨k', hk'⟩ := G (k := threadRestart k ((tid + (k.P k.curPart).low) % U32)) (wf_setT hw rfl rfl)
        rw [hk']; simp
  | stopThread tid =>
    simp only [exec, Option.map_eq_none_iff, Fatal]
    unfold stopThread
    simp only
    split
    · simp
    · split
      · simp
      · obtain ⟨k', hk'⟩ := G (k := k.setT ((tid + (k.P k.curPart).low) % U32)
          { k.T ((tid + (k.P k.curPart).low) % U32) with state := .stopped }) (wf_setT hw rfl rfl)
        rw [hk']; simp
  | setMode m =>
    simp only [exec, Option.map_eq_none_iff, Fatal]
    have hmode : ∀ m, Wf c (k.setP k.curPart { k.P k.curPart with mode := m }) := fun m =>
      wf_setP hw fun _ => ⟨w.low, w.high, w.nth, w.sched, w.mainProc, w.main, w.err, w.cur, w.prev, w.act⟩
    unfold setModeCurrent
    simp only
    split
    · simp
    · rename_i hcur
      unfold setMode
      simp only
      split
      · split
        · simp
        · rename_i hidle
          split
          · simp
          · rename_i hmain
            have hpre : PreStep c proc now k (.setMode .normal) _ := PreStep.normal (not_not.1 hmain) hidle
            obtain ⟨k', hk'⟩ := G (wf_pre hw hc hpre)
            simp only [setP, curPart, upd_same] at hk' ⊢
            rw [hk']; simp
      · split
        · simp
        · obtain ⟨k', hk'⟩ := G (hmode .stopped)
          rw [hk']; simp
      · split
        · simp
        · split
          · simp
          · obtain ⟨k1, hk1⟩ := reinit_total proc hc (hmode .initWarm) hw.curPart (by simp [setP]) (hb _ hw.curPart)
            obtain ⟨k', hk'⟩ := G (wf_reinit (hmode .initWarm) hc hw.curPart hk1)
            rw [hk1]
            simp only
            rw [hk']; simp
      · split
        · simp
        · split
          · simp
          · obtain ⟨k1, hk1⟩ := reinit_total proc hc (hmode .initCold) hw.curPart (by simp [setP]) (hb _ hw.curPart)
            obtain ⟨k', hk'⟩ := G (wf_reinit (hmode .initCold) hc hw.curPart hk1)
            rw [hk1]
            simp only
            rw [hk']; simp
      · simp
  | errorCreate entry junk =>
    simp only [exec, Option.map_eq_none_iff, Fatal]
    have ht := (create_total hw { junk with priority := 200, entry := entry, timeCapacity := 10000 }).2
    simp only at ht
    rw [← ht]
    unfold errorThreadCreate
    split
    · rename_i k1 id h1
      simp only [reduceCtorEq, false_iff, not_not]
      exact ⟨_, _, h1⟩
    · rename_i hne
      simp only [true_iff]
      rintro ⟨k1, id, h1⟩
      exact hne _ _ h1
  | raiseError => exact some_ne ⟨_, rfl⟩
  | block => exact some_ne (S (wf_setT hw rfl rfl))
  | blockTimed t => exact some_ne (S (wf_setT hw rfl rfl))
  | unblock id => exact some_ne ⟨_, rfl⟩

/-- **C100** (part) In every state that the system can reach, a kernel entry on an existing processor — a timer interrupt, a
rescheduling request, a system call with any arguments — comes to an end, unless it is one of the calls of `Fatal`, and
these never do.  Missing: the fatal calls, which a partition can make, see the `C100_…_violated` theorems. -/
theorem C100_answers_partial {c : Config} {k : Kernel} (proc now : Nat) (call : KCall) (hc : CfgOk c) (hr : Reachable c k)
    (hq : proc < c.nbProcs) : (∃ k', exec c proc now k call = some k') ↔ ¬ Fatal c k call := by
  have hb : ∀ p < c.nbParts, ∃ a, procRealId (c.affinity p) 0 = some a ∧ (if c.multi ≠ 0 then a < c.multi else a = 0) := by
    obtain ⟨k0, _, h0, _⟩ := hr
    exact boot_procs h0
  have h := exec_none_iff (now := now) (call := call) hc (hr.wf hc) hb hq
  rw [← h]
  cases exec c proc now k call <;> simp

/-- **C100** (part) A whole history of kernel entries in which no partition creates threads or an error handler comes to an
end, from any state that the system can reach, whatever its length. -/
theorem C100_history_partial {c : Config} (hc : CfgOk c) (es : List KEv) (hes : ∀ e ∈ es, e.proc < c.nbProcs)
    (hno : ∀ e ∈ es, (∀ a, e.call ≠ .create a) ∧ ∀ n j, e.call ≠ .errorCreate n j) :
    ∀ k, Reachable c k → ∃ k', execAll c k es = some k' ∧ Reachable c k' := by
  induction es with
  | nil => intro k hr; exact ⟨k, rfl, hr⟩
  | cons e es ih =>
    intro k hr
    obtain ⟨k1, h1⟩ := (C100_answers_partial e.proc e.now e.call hc hr (hes e (by simp))).2 (by
      have := hno e (by simp)
      unfold Fatal
      split
      · exact absurd ‹_› (this.1 _)
      · exact absurd ‹_› (this.2 _ _)
      · exact id)
    have hr1 : Reachable c k1 := by
      obtain ⟨k0, es0, hb, hq, he⟩ := hr
      refine ⟨k0, es0 ++ [e], hb, ?_, ?_⟩
      · intro x hx
        rcases List.mem_append.1 hx with h | h
        · exact hq x h
        · rw [List.mem_singleton.1 h]; exact hes e (by simp)
      · rw [execAll_append, he]; simp [execAll, h1]
    obtain ⟨k', h2, h3⟩ := ih (fun e he => hes e (by simp [he])) (fun e he => hno e (by simp [he])) k1 hr1
    exact ⟨k', by simp [execAll, h1, h2], h3⟩

/-- **C100** violated: a partition stops the whole system by asking for a thread on a processor that it does not have. -/
theorem C100_processor_violated {c : Config} {k : Kernel} {a : ThreadAttr} (proc now : Nat) (hc : CfgOk c) (hr : Reachable c k)
    (hq : proc < c.nbProcs) (hm : MayCreate k) (ha : procRealId (c.affinity k.curPart) a.affinity = none) :
    exec c proc now k (.create a) = none := by
  have h := C100_answers_partial proc now (.create a) hc hr hq
  cases he : exec c proc now k (.create a) with
  | none => rfl
  | some k' =>
    exact absurd ⟨hm, by rintro ⟨_, h2, _⟩; rw [ha] at h2; simp at h2⟩ (h.1 ⟨k', he⟩)

/-- **C100** violated: asking for an error handler once the partition is in NORMAL mode, or when it has no thread left, uses
an identifier that was never set. -/
theorem C100_handler_violated {c : Config} {k : Kernel} {entry : Nat} {junk : ThreadAttr} (proc now : Nat) (hc : CfgOk c)
    (hr : Reachable c k) (hq : proc < c.nbProcs) (hm : ¬ MayCreate k) : exec c proc now k (.errorCreate entry junk) = none := by
  have h := C100_answers_partial proc now (.errorCreate entry junk) hc hr hq
  cases he : exec c proc now k (.errorCreate entry junk) with
  | none => rfl
  | some k' => exact absurd (fun hx => hm hx.1) (h.1 ⟨k', he⟩)

/-- Premises: in the example the partition may create threads after the first timer interrupt; a thread on the second of its
processors, which do not exist, is fatal, and so is an error handler in NORMAL mode. -/
example : (runFromBoot exCfg [⟨0, 0, .tick⟩]).map (fun k => ((k.P k.curPart).mode, (k.P k.curPart).low + (k.P k.curPart).index,
      (k.P k.curPart).high, procRealId (exCfg.affinity k.curPart) 1)) = some (.initWarm, 1, 3, none) ∧
    (runFromBoot exCfg [⟨0, 0, .tick⟩, ⟨0, 1, .create { affinity := 1 }⟩]).isNone ∧
    (runFromBoot exCfg (exHist ++ [⟨0, 4, .errorCreate 7 {}⟩])).isNone ∧
    (runFromBoot exCfg (exHist.take 2 ++ [⟨0, 4, .errorCreate 7 {}⟩])).isSome := by decide +kernel

end Pok.Kernel
