import Verif.Lemmas.Bound

/-!
# A thread runs on one processor (C107)

A history is a list of kernel entries, each on some processor; two entries on different processors follow one another
in any order.  Real processors meet at every change of partition, so that the code has fewer histories than the model.
-/

namespace Pok
namespace Kernel
open Pok.Spec

/-- Specification: what a history may contain — entries on existing processors, and no creation of an error handler. -/
def NoHandler (c : Config) (es : List KEv) : Prop :=
  ∀ e ∈ es, e.proc < c.nbProcs ∧ ∀ a j, e.call ≠ .errorCreate a j

theorem noHandler_bound {c : Config} {k0 k : Kernel} {es : List KEv} (hc : CfgOk c)
    (hm0 : procRealId (c.affinity 0) 0 = some 0) (hb : boot c = some k0) (hes : NoHandler c es)
    (h : execAll c k0 es = some k) : Wf c k ∧ Bound c k :=
  ⟨wf_execAll hc es k0 k (fun e he => (hes e he).1) (boot_wf hc hb) h,
    bound_execAll hc hm0 es k0 k hes (boot_wf hc hb) (boot_bound hc hb) h⟩

/-- **C107** (part).  After every history without error handler, two processors never run the same thread.  The number
of the kernel thread is the exception: it stands for the boot code of a processor that has not elected a thread yet.

Missing: error handlers, `C107_handler_violated`; and systems in which partition 0 may not use processor 0. -/
theorem C107_distinct_partial {c : Config} {k0 k : Kernel} {es : List KEv} (hc : CfgOk c)
    (hm0 : procRealId (c.affinity 0) 0 = some 0) (hb : boot c = some k0) (hes : NoHandler c es)
    (h : execAll c k0 es = some k) (q q' : Nat) (hq : q < c.nbProcs) (hq' : q' < c.nbProcs) (hne : q ≠ q')
    (hk : k.curThread q ≠ kernelThread c) : k.curThread q ≠ k.curThread q' := by
  obtain ⟨hw, hB⟩ := noHandler_bound hc hm0 hb hes h
  intro he
  have h1 := hB.run q hq
  have h2 := hB.run q' hq'
  rw [← he] at h2
  generalize k.curThread q = t at *
  have hroom := hc.room
  rcases h1 with h1 | h1 | ⟨p, hp, h1, h1'⟩
  · exact hk h1
  · rcases h2 with h2 | h2 | ⟨p, hp, h2, _⟩
    · exact hk h2
    · unfold idle at h1 h2; omega
    · exact (in_range_ne hc hw hp h2).2 q hq h1
  · rcases h2 with h2 | h2 | ⟨p', hp', h2, h2'⟩
    · exact hk h2
    · exact (in_range_ne hc hw hp h1).2 q' hq' h2
    · have := range_disjoint hw hp hp' h1 h2
      subst this
      rcases h1' with ⟨a1, _, a2⟩ | ⟨a1, a2⟩
      · rcases h2' with ⟨_, _, b2⟩ | ⟨b1, _⟩
        · exact hne (a2.trans b2.symm)
        · exact b1 a1
      · rcases h2' with ⟨b1, _⟩ | ⟨_, b2⟩
        · exact a1 b1
        · exact hne (a2.symm.trans b2)

/-- **C107** (part).  After every history without error handler, a processor that runs a thread of a partition runs the
main thread, on the first processor of the partition, if the partition is starting; and otherwise a thread that is
bound to this processor. -/
theorem C107_bound_partial {c : Config} {k0 k : Kernel} {es : List KEv} (hc : CfgOk c)
    (hm0 : procRealId (c.affinity 0) 0 = some 0) (hb : boot c = some k0) (hes : NoHandler c es)
    (h : execAll c k0 es = some k) (q p : Nat) (hq : q < c.nbProcs) (hp : p < c.nbParts)
    (hin : prefixSum c.nthreads p ≤ k.curThread q ∧ k.curThread q < prefixSum c.nthreads p + c.nthreads p) :
    (((k.P p).mode = .initCold ∨ (k.P p).mode = .initWarm) ∧ k.curThread q = (k.P p).threadMain ∧
      procRealId (c.affinity p) 0 = some q) ∨
    (((k.P p).mode ≠ .initCold ∧ (k.P p).mode ≠ .initWarm) ∧ (k.T (k.curThread q)).affinity = q) := by
  obtain ⟨hw, hB⟩ := noHandler_bound hc hm0 hb hes h
  have w := hw.part p hp
  have hin' : (k.P p).low ≤ k.curThread q ∧ k.curThread q < (k.P p).high := by
    have := w.low; have := w.high; omega
  have hn := in_range_ne hc hw hp hin'
  rcases hB.run q hq with g | g | ⟨p', hp', g1, g2⟩
  · exact absurd g hn.1
  · exact absurd g (hn.2 q hq)
  · have := range_disjoint hw hp hp' hin' g1
    subst this
    rcases g2 with ⟨a, b, d⟩ | ⟨a, b⟩
    · exact Or.inl ⟨a, b, by rw [d]; exact w.mainProc⟩
    · exact Or.inr ⟨⟨fun g => a (Or.inl g), fun g => a (Or.inr g)⟩, b⟩

/-! ### A system with two processors -/

/-- One partition of four threads on two processors. -/
def duoCfg : Config :=
  { nbParts := 1, nbSlots := 1, slots := fun _ => 1000, alloc := fun _ => 0, majorFrame := 1000, flush := .none
    nbThreads := 7, nbProcs := 2, nthreads := fun _ => 4, nlocks := fun _ => 0, policy := fun _ => .static
    affinity := fun _ => 3, psize := fun _ => 4096, entry := fun _ => 1000, stackAddr := fun _ _ => 0
    multi := 2, wakes := true }

theorem duo_ok : CfgOk duoCfg := by
  refine ⟨by decide, by decide, ?_, by decide, by decide, by decide, ?_⟩
  · intro p _; show 0 < 4; decide
  · intro i _; show 0 < 1; decide

/-- The main thread creates one thread for each processor and starts the partition; processor 1 elects. -/
def duoEs : List KEv :=
  [⟨0, 1, .resched⟩, ⟨0, 2, .create { priority := 5, entry := 1, affinity := 0, timeCapacity := 100, period := 100 }⟩,
   ⟨0, 3, .create { priority := 5, entry := 2, affinity := 1, timeCapacity := 100, period := 100 }⟩]

/-- The same, and the partition starts. -/
def duoRun : List KEv := duoEs ++ [⟨0, 6, .setMode .normal⟩, ⟨1, 6, .resched⟩]

/-- The same with an error handler, which the kernel binds to processor 0 here. -/
def duoErr : List KEv :=
  duoEs ++ [⟨0, 4, .errorCreate 7 {}⟩, ⟨0, 5, .resched⟩, ⟨0, 6, .setMode .normal⟩, ⟨1, 6, .resched⟩]

/-- Threads 1 and 2 run at the same time, on processors 0 and 1. -/
theorem duo_runs : ((boot duoCfg).bind fun k => execAll duoCfg k duoRun).map
    (fun k => (k.curThread 0, k.curThread 1)) = some (1, 2) := by decide +kernel

theorem duo_noHandler : NoHandler duoCfg duoRun := by
  intro e he
  simp only [duoRun, duoEs, List.cons_append, List.nil_append, List.mem_cons, List.not_mem_nil, or_false] at he
  rcases he with rfl | rfl | rfl | rfl | rfl <;> exact ⟨by decide, fun _ _ h => by cases h⟩

/-- The hypotheses of `C107_distinct_partial` and `C107_bound_partial` hold of this history. -/
example : ∃ k0 k, boot duoCfg = some k0 ∧ execAll duoCfg k0 duoRun = some k ∧ k.curThread 0 ≠ k.curThread 1 ∧
    (k.T (k.curThread 1)).affinity = 1 := by
  have h := duo_runs
  cases hb : boot duoCfg with
  | none => rw [hb] at h; simp at h
  | some k0 =>
    rw [hb] at h
    simp only [Option.bind_some] at h
    cases hx : execAll duoCfg k0 duoRun with
    | none => rw [hx] at h; simp at h
    | some k =>
      rw [hx] at h
      simp only [Option.map_some, Option.some.injEq, Prod.mk.injEq] at h
      have hm : procRealId (duoCfg.affinity 0) 0 = some 0 := by decide
      refine ⟨k0, k, rfl, hx, ?_, ?_⟩
      · exact C107_distinct_partial duo_ok hm hb duo_noHandler hx 0 1 (by decide) (by decide) (by decide)
          (by rw [h.1]; decide)
      · rcases C107_bound_partial duo_ok hm hb duo_noHandler hx 1 0 (by decide) (by decide)
          (by rw [h.2]; decide) with ⟨_, _, g⟩ | g
        · exact absurd g (by decide)
        · exact g.2

/-- **C107** violated: an error on one processor starts the error handler there at once, also if another processor is
running it: then both run the same thread, on the same stack.  So in every state in which a handler is running; and such
states are reached: here with a handler bound to processor 0, which runs it when a thread on processor 1 fails. -/
theorem C107_handler_violated :
    (∀ (c : Config) (k : Kernel) (q q' now : Nat), (k.P k.curPart).threadError ≠ 0 →
      k.curThread q = (k.P k.curPart).threadError →
      ∃ k', exec c q' now k .raiseError = some k' ∧ k'.curThread q = k'.curThread q' ∧
        k'.curThread q = (k.P k.curPart).threadError) ∧
    ((boot duoCfg).bind fun k => execAll duoCfg k duoErr).map
      (fun k => (k.curThread 0, k.curThread 1, (k.P k.curPart).threadError)) = some (3, 2, 3) ∧
    ((boot duoCfg).bind fun k => execAll duoCfg k (duoErr ++ [⟨1, 7, .raiseError⟩])).map
      (fun k => (k.curThread 0, k.curThread 1, (k.P k.curPart).threadError)) = some (3, 3, 3) := by
  refine ⟨?_, by decide +kernel, by decide +kernel⟩
  intro c k q q' now h0 hq
  refine ⟨activateError q' k, rfl, ?_⟩
  unfold activateError
  simp only [h0, ne_eq, not_false_eq_true, if_true]
  by_cases e : q = q'
  · subst e; simp [upd_same]
  · show upd k.curThread q' _ q = upd k.curThread q' _ q' ∧ upd k.curThread q' _ q = _
    rw [upd_other _ _ e, upd_same, hq]
    exact ⟨rfl, rfl⟩

/-- **C04** violated: the handler that an error starts need not be bound to the processor that runs it: in the history
above, processor 1 runs thread 3, which is bound to processor 0. -/
theorem C04_handler_violated :
    ((boot duoCfg).bind fun k => execAll duoCfg k (duoErr ++ [⟨1, 7, .raiseError⟩])).map
      (fun k => (k.curThread 1, (k.T 3).affinity, (k.P k.curPart).mode)) = some (3, 0, .normal) := by
  decide +kernel

end Kernel
end Pok
