import Verif.Lemmas.IsolationRun
import Verif.Props.Election

/-!
# C110: the other partitions do not change what a partition does and sees

Two histories of a system with one processor, with the same timer interrupts and the same calls in the windows of one
partition, but with other calls of the other partitions.
-/

namespace Pok.Isolation
open Pok.Kernel Pok.Spec

/-- **C110** (part).  Two histories of a system with one processor that have the same timer interrupts and, in the
windows of partition `b`, the same calls; the calls of the other partitions may differ.  Then partition `b` sees the
same: after every timer interrupt in its windows, and after every call it makes, the same thread runs, and its calls
return the same.  At the end its record and its threads are the same, but for the times by which its threads are to
end.  Missing: calls by the other partitions on the thread one past their last (`C110_neighbour_violated`) and wake-ups
of threads of others (C31), windows of `b` that end while another partition starts (`C110_budget_violated`), starts of
threads that `b` did not create (`C110_uncreated_violated`), several processors. -/
theorem C110_partial {c : Config} {b : Nat} {k0 k k' : Kernel} {rs rs' : List Round} {obs obs' : List Obs}
    (hc : CfgOk c) (hb : b < c.nbParts) (h0 : boot c = some k0) (hs : SameFor c b (schedInit c.toSlotTable) rs rs')
    (h : Runs c b Admitted (OthersSettled c b) k0 rs k obs) (h' : Runs c b Admitted (OthersSettled c b) k0 rs' k' obs') :
    obs' = obs ∧ k'.P b = k.P b ∧
      ∀ i, prefixSum c.nthreads b ≤ i → i < prefixSum c.nthreads b + c.nthreads b →
        ∃ x, k'.T i = { k.T i with endTime := x } := by
  have hps := (boot_spec hc.threads h0).2.1
  obtain ⟨v, e⟩ := runs_view hc hb h h' (by rw [hps]; exact hs) (boot_view hc hb h0)
  refine ⟨e, v.agree.part, ?_⟩
  intro i h1 h2
  have w := v.wf.part b hb
  exact v.agree.thr i ⟨by rw [w.low]; exact h1, by rw [w.high, w.low]; exact h2⟩

/-- **C110** (part).  In the same situation the status of a thread of the partition is reported equal in both histories,
but for the time by which it is to end, if the partition runs at the end. -/
theorem C110_status_partial {c : Config} {b : Nat} {k0 k k' : Kernel} {rs rs' : List Round} {obs obs' : List Obs}
    (hc : CfgOk c) (hb : b < c.nbParts) (h0 : boot c = some k0) (hs : SameFor c b (schedInit c.toSlotTable) rs rs')
    (h : Runs c b Admitted (OthersSettled c b) k0 rs k obs) (h' : Runs c b Admitted (OthersSettled c b) k0 rs' k' obs')
    (hp : k.curPart = b) (id : Nat) (hid : id ≠ prefixSum c.nthreads b + c.nthreads b) :
    k'.curThread 0 = k.curThread 0 ∧
    (getStatus c k' id).map (fun r => (r.1, r.2.map (·.2))) = (getStatus c k id).map (fun r => (r.1, r.2.map (·.2))) := by
  have hps := (boot_spec hc.threads h0).2.1
  obtain ⟨v, e⟩ := runs_view hc hb h h' (by rw [hps]; exact hs) (boot_view hc hb h0)
  have r : Rel b k k' := ⟨v.agree, v.here hp, hp⟩
  refine ⟨v.here hp, ?_⟩
  have w := v.wf.part b hb
  unfold getStatus
  rw [r.outOfRange, r.here', hp]
  cases ho : outOfRange k id with
  | true => simp
  | false =>
    obtain ⟨x, hx⟩ := v.agree.thr id (r.mine ho (by rw [hp, w.high, w.low]; exact hid))
    simp only [Bool.false_eq_true, if_false, hx]
    cases procPartitionId (c.affinity b) (k.T id).affinity <;> rfl

/-! ### Runs that can be computed -/

instance (k : Kernel) (call : KCall) : Decidable (Admitted k call) := by
  cases call <;> unfold Admitted <;> infer_instance

/-- `OthersSettled`, as a program. -/
def quiet (c : Config) (b : Nat) (k : Kernel) : Bool :=
  decide (∀ a < c.nbParts, a ≠ b → (k.P a).mode = .normal ∧ (k.P a).cur 0 ≠ (k.P a).threadError ∧
    k.curThread 0 ≠ (k.P a).threadError) ||
  decide (∀ i < (k.P b).high, (k.P b).low ≤ i → (k.T i).remaining ≤ 0 ∧ (k.T i).timeCapacity ≤ 0)

theorem quiet_ok {c b k} (h : quiet c b k = true) : OthersSettled c b k := by
  unfold quiet at h
  simp only [Bool.or_eq_true, decide_eq_true_eq] at h
  rcases h with h | h
  · exact Or.inl h
  · exact Or.inr fun i h1 h2 => h i h2 h1

/-- `Calls`, as a program. -/
def calls (c : Config) (A : Kernel → KCall → Bool) (now : Nat) : Kernel → List KCall → Option (Kernel × List (Reply × Nat))
  | k, [] => some (k, [])
  | k, call :: cs => if A k call then (execR c now k call).bind fun x => (calls c A now x.1 cs).map fun y => (y.1, (x.2, x.1.curThread 0) :: y.2) else none

theorem calls_ok {c A now} : ∀ {cs k k' os}, calls c A now k cs = some (k', os) → Calls c (fun k x => A k x = true) now k cs k' os := by
  intro cs
  induction cs with
  | nil => intro k k' os h; simp only [calls, Option.some.injEq, Prod.mk.injEq] at h; obtain ⟨rfl, rfl⟩ := h; exact .nil _
  | cons call cs ih =>
    intro k k' os h
    unfold calls at h
    split at h
    · rename_i ha
      obtain ⟨⟨k1, r⟩, h1, h2⟩ := Option.bind_eq_some_iff.mp h
      obtain ⟨⟨k2, o⟩, h3, h4⟩ := map_some h2
      simp only [Prod.mk.injEq] at h4
      obtain ⟨rfl, rfl⟩ := h4
      exact .cons ha h1 (ih h3)
    · cases h

/-- `Runs`, as a program. -/
def runs (c : Config) (b : Nat) (A : Kernel → KCall → Bool) (Q : Kernel → Bool) : Kernel → List Round → Option (Kernel × List Obs)
  | k, [] => some (k, [])
  | k, r :: rs => (exec c 0 r.now k .tick).bind fun k1 => (calls c A r.now k1 r.calls).bind fun x =>
      (runs c b A Q x.1 rs).bind fun y =>
        if k1.curPart = b then some (y.1, ⟨k1.curThread 0, x.2⟩ :: y.2)
        else if k.curPart = b ∧ Q k = false then none else some y

theorem runs_ok {c b A Q} : ∀ {rs k k' obs}, runs c b A Q k rs = some (k', obs) →
    Runs c b (fun k x => A k x = true) (fun k => Q k = true) k rs k' obs := by
  intro rs
  induction rs with
  | nil => intro k k' os h; simp only [runs, Option.some.injEq, Prod.mk.injEq] at h; obtain ⟨rfl, rfl⟩ := h; exact .nil _
  | cons r rs ih =>
    intro k k' os h
    unfold runs at h
    obtain ⟨k1, h1, h⟩ := Option.bind_eq_some_iff.mp h
    obtain ⟨⟨k2, o⟩, h2, h⟩ := Option.bind_eq_some_iff.mp h
    obtain ⟨⟨k3, o2⟩, h3, h⟩ := Option.bind_eq_some_iff.mp h
    split at h
    · rename_i hp
      simp only [Option.some.injEq, Prod.mk.injEq] at h
      obtain ⟨rfl, rfl⟩ := h
      exact .own h1 hp (calls_ok h2) (ih h3)
    · rename_i hp
      split at h
      · cases h
      · rename_i hq
        simp only [Option.some.injEq, Prod.mk.injEq] at h
        obtain ⟨rfl, rfl⟩ := h
        refine .other (fun g => ?_) h1 hp (calls_ok h2) (ih h3)
        cases hQ : Q k with
        | true => rfl
        | false => exact absurd ⟨g, hQ⟩ hq

theorem calls_mono {c A A' now k cs k' os} (hA : ∀ k x, A k x → A' k x) (h : Calls c A now k cs k' os) :
    Calls c A' now k cs k' os := by
  induction h with
  | nil k => exact .nil _
  | cons ha he _ ih => exact .cons (hA _ _ ha) he ih

theorem runs_mono {c b A A' Q Q' k rs k' obs} (hA : ∀ k x, A k x → A' k x) (hQ : ∀ k, Q k → Q' k)
    (h : Runs c b A Q k rs k' obs) : Runs c b A' Q' k rs k' obs := by
  induction h with
  | nil k => exact .nil _
  | own ht hp hc _ ih => exact .own ht hp (calls_mono hA hc) ih
  | other hb ht hp hc _ ih => exact .other (fun g => hQ _ (hb g)) ht hp (calls_mono hA hc) ih

/-- From boot of the system `exCfg`, seen by partition 1. -/
def fromBoot (A : Kernel → KCall → Bool) (Q : Kernel → Bool) (rs : List Round) : Option (Kernel × List Obs) :=
  (boot exCfg).bind fun k => runs exCfg 1 A Q k rs

def adm (k : Kernel) (x : KCall) : Bool := decide (Admitted k x)

theorem fromBoot_ok {A : Kernel → KCall → Bool} {Q : Kernel → Bool} {A' Q' rs} {α : Type} {f : Kernel × List Obs → α} {a : α}
    (hA : ∀ k x, A k x = true → A' k x) (hQ : ∀ k, Q k = true → Q' k) (h : (fromBoot A Q rs).map f = some a) :
    ∃ k0 k obs, boot exCfg = some k0 ∧ Runs exCfg 1 A' Q' k0 rs k obs ∧ f (k, obs) = a := by
  obtain ⟨⟨k, obs⟩, h1, h2⟩ := map_some h
  obtain ⟨k0, h3, h4⟩ := Option.bind_eq_some_iff.mp h1
  exact ⟨k0, k, obs, h3, runs_mono hA hQ (runs_ok h4), h2⟩

theorem adm_ok (k : Kernel) (x : KCall) (h : adm k x = true) : Admitted k x := of_decide_eq_true h

/-! ### Histories of a system with two partitions -/

/-- What partition 1 does: it creates a thread with a budget of two ticks and starts. -/
def own1 : List KCall := [.create { priority := 3, entry := 1, timeCapacity := 2, period := 1000 }, .setMode .normal]

/-- Partition 0 starts at once with a thread. -/
def h1 : List Round :=
  [⟨0, [.create { priority := 3, entry := 1 }, .setMode .normal]⟩, ⟨100, own1⟩, ⟨200, []⟩, ⟨300, []⟩, ⟨350, []⟩, ⟨390, []⟩]
/-- Partition 0 starts at once with another thread and calls the kernel in its second window. -/
def h2 : List Round :=
  [⟨0, [.create { priority := 9, entry := 1, timeCapacity := 50 }, .create { entry := 8 }, .setMode .normal]⟩, ⟨100, own1⟩,
   ⟨200, [.setPriority 1 7, .sleep 1, .raiseError]⟩, ⟨300, []⟩, ⟨350, []⟩, ⟨390, []⟩]
/-- Partition 0 does not start. -/
def h3 : List Round := [⟨0, []⟩, ⟨100, own1⟩, ⟨200, []⟩, ⟨300, []⟩, ⟨350, []⟩, ⟨390, []⟩]
/-- As `h1`, but the thread of partition 0 has a budget. -/
def h4 : List Round :=
  [⟨0, [.create { priority := 3, entry := 1, timeCapacity := 50 }, .setMode .normal]⟩, ⟨100, own1⟩, ⟨200, []⟩, ⟨300, []⟩,
   ⟨350, []⟩, ⟨390, []⟩]
/-- As `h1`, but in its second window partition 0 resumes the thread with the number one past its last. -/
def h5 : List Round :=
  [⟨0, [.create { priority := 3, entry := 1 }, .setMode .normal]⟩, ⟨100, own1⟩, ⟨200, [.resume 3]⟩, ⟨300, []⟩, ⟨350, []⟩,
   ⟨390, []⟩]

/-- Partition 1 starts a thread that it did not create. -/
def own2 : List KCall :=
  [.create { priority := 3, entry := 1, period := 1000 }, .setMode .normal, .delayedStart 5 0, .stopSelf]
/-- Partition 0 starts, then partition 1 starts. -/
def h6 : List Round := [⟨0, [.create { priority := 3, entry := 1 }, .setMode .normal]⟩, ⟨100, own2⟩]
/-- Partition 1 starts, partition 0 does not. -/
def h7 : List Round := [⟨0, []⟩, ⟨100, own2⟩]

/-- The thread that runs at the end of every round, as partition 1 sees it. -/
def firsts (x : Kernel × List Obs) : List Nat := x.2.map Obs.first

/-- The situation of the theorems: one system, two histories with the same interrupts and the same calls of partition
`b`, run under the conditions `A` and `Q`, with what is seen and the states at the end. -/
def Twice (A : Kernel → KCall → Prop) (Q : Config → Nat → Kernel → Prop)
    (claim : Config → Nat → List Obs → List Obs → Kernel → Kernel → Prop) : Prop :=
  ∃ (c : Config) (b : Nat) (k0 k k' : Kernel) (rs rs' : List Round) (obs obs' : List Obs),
    CfgOk c ∧ b < c.nbParts ∧ boot c = some k0 ∧ SameFor c b (schedInit c.toSlotTable) rs rs' ∧
    Runs c b A (Q c b) k0 rs k obs ∧ Runs c b A (Q c b) k0 rs' k' obs' ∧ claim c b obs obs' k k'

theorem twice {A : Kernel → KCall → Bool} {Q : Kernel → Bool} {A' : Kernel → KCall → Prop}
    {Q' : Config → Nat → Kernel → Prop} {claim rs rs'} {α : Type} {f : Kernel × List Obs → α} {a a' : α}
    (hA : ∀ k x, A k x = true → A' k x) (hQ : ∀ k, Q k = true → Q' exCfg 1 k)
    (hs : SameFor exCfg 1 (schedInit exCfg.toSlotTable) rs rs')
    (h : (fromBoot A Q rs).map f = some a) (h' : (fromBoot A Q rs').map f = some a')
    (hc : ∀ x y, f x = a → f y = a' → claim exCfg 1 x.2 y.2 x.1 y.1) : Twice A' Q' claim := by
  obtain ⟨k0, k, obs, b0, r, e⟩ := fromBoot_ok (Q' := Q' exCfg 1) hA hQ h
  obtain ⟨k0', k', obs', b0', r', e'⟩ := fromBoot_ok (Q' := Q' exCfg 1) hA hQ h'
  rw [b0] at b0'
  injection b0' with b0'
  subst b0'
  exact ⟨exCfg, 1, k0, k, k', rs, rs', obs, obs', exCfg_ok, by decide, b0, hs, r, r', hc _ _ e e'⟩

/-- The hypotheses of `C110_partial` and `C110_status_partial` hold of `h1` and `h2`: the thread of partition 1 runs at
300 and 350, and is out of budget at 390, whatever partition 0 does. -/
example : Twice Admitted OthersSettled fun _ b obs obs' k k' => obs.map Obs.first = [3, 4, 4, 6] ∧
    obs'.map Obs.first = [3, 4, 4, 6] ∧ k.curPart = b ∧ (k.T 1).state = .runnable ∧ (k'.T 1).state ≠ .runnable :=
  twice (rs := h1) (rs' := h2) (f := fun x => (firsts x, x.1.curPart, (x.1.T 1).state)) (a := ([3, 4, 4, 6], 1, .runnable))
    (a' := ([3, 4, 4, 6], 1, .waiting)) adm_ok (Q := quiet exCfg 1) (fun _ => quiet_ok)
    ⟨rfl, by decide, fun h => absurd h (by decide), rfl, by decide, fun _ => rfl, rfl, by decide,
      fun h => absurd h (by decide), rfl, by decide, fun _ => rfl, rfl, by decide, fun _ => rfl, rfl, by decide,
      fun _ => rfl, trivial⟩
    (by decide +kernel) (by decide +kernel)
    (fun x y hx hy => by
      simp only [Prod.mk.injEq, firsts] at hx hy
      exact ⟨hx.1, hy.1, hx.2.1, hx.2.2, by rw [hy.2.2]; decide⟩)

/-- **C110** violated: the budget of a thread is charged for the last tick of a window only if the partition that comes
next is in NORMAL mode (kernel/core/sched.c 227-264 look at the mode and the handler of the new partition, but charge the
thread of the old one).  If partition 0 has started, the thread of partition 1 runs out of budget at 390; if partition 0
is still starting, it runs on. -/
theorem C110_budget_violated : Twice Admitted (fun _ _ _ => True) fun _ _ obs obs' _ _ => obs' ≠ obs :=
  twice (rs := h1) (rs' := h3) (f := firsts) (a := [3, 4, 4, 6]) (a' := [3, 4, 4, 4]) adm_ok (Q := fun _ => true)
    (fun _ _ => trivial)
    ⟨rfl, by decide, fun h => absurd h (by decide), rfl, by decide, fun _ => rfl, rfl, by decide,
      fun h => absurd h (by decide), rfl, by decide, fun _ => rfl, rfl, by decide, fun _ => rfl, rfl, by decide,
      fun _ => rfl, trivial⟩
    (by decide +kernel) (by decide +kernel)
    (fun x y hx hy h => by
      unfold firsts at hx hy
      rw [h, hx] at hy
      exact absurd hy (by decide))

/-- **C110** violated: the time by which a thread is to end, which the thread status reports, is set at the start of the
window only if the last thread of the partition before had a budget (kernel/core/sched.c 281-285 look at the thread that
ran before, of whatever partition). -/
theorem C110_deadline_violated : Twice Admitted OthersSettled fun c b _ _ k k' =>
    k.curPart = b ∧ k'.curPart = b ∧ k.curThread 0 = 4 ∧ getStatus c k' 4 ≠ getStatus c k 4 :=
  twice (rs := h1.take 4) (rs' := h4.take 4)
    (f := fun x => (x.1.curPart, x.1.curThread 0, (getStatus exCfg x.1 4).map fun r => r.2.map (·.1)))
    (a := (1, 4, some (some 0))) (a' := (1, 4, some (some 301))) adm_ok (Q := quiet exCfg 1) (fun _ => quiet_ok)
    ⟨rfl, by decide, fun h => absurd h (by decide), rfl, by decide, fun _ => rfl, rfl, by decide,
      fun h => absurd h (by decide), rfl, by decide, fun _ => rfl, trivial⟩
    (by decide +kernel) (by decide +kernel)
    (fun x y hx hy => by
      simp only [Prod.mk.injEq] at hx hy
      refine ⟨hx.1, hy.1, hx.2.1, fun h => ?_⟩
      rw [h, hx.2.2] at hy
      exact absurd hy.2.2 (by decide))

/-- **C110** violated: a partition can resume the thread one past its last (C16), the first of the next partition: the
main thread of partition 1, which had ended with the change to NORMAL mode, runs again. -/
theorem C110_neighbour_violated : Twice (fun _ _ => True) OthersSettled fun _ _ obs obs' _ _ => obs' ≠ obs :=
  twice (rs := h1) (rs' := h5) (f := firsts) (a := [3, 4, 4, 6]) (a' := [3, 4, 3, 3]) (A := fun _ _ => true)
    (fun _ _ _ => trivial) (Q := quiet exCfg 1) (fun _ => quiet_ok)
    ⟨rfl, by decide, fun h => absurd h (by decide), rfl, by decide, fun _ => rfl, rfl, by decide,
      fun h => absurd h (by decide), rfl, by decide, fun _ => rfl, rfl, by decide, fun _ => rfl, rfl, by decide,
      fun _ => rfl, trivial⟩
    (by decide +kernel) (by decide +kernel)
    (fun x y hx hy h => by
      unfold firsts at hx hy
      rw [h, hx] at hy
      exact absurd hy (by decide))

/-- **C110** violated: a delayed start of a thread that was never created looks at the mode of partition 0, to which such
a thread seems to belong (kernel/core/thread.c 296-325): in partition 1 the thread is started if partition 0 is in NORMAL
mode, otherwise it is not. -/
theorem C110_uncreated_violated : Twice (fun _ _ => True) OthersSettled fun _ _ obs obs' _ _ => obs' ≠ obs :=
  twice (rs := h6) (rs' := h7) (f := fun x => x.2.map fun o => o.calls.map (·.2)) (a := [[3, 4, 4, 5]])
    (a' := [[3, 4, 4, 6]]) (A := fun _ _ => true) (fun _ _ _ => trivial) (Q := quiet exCfg 1) (fun _ => quiet_ok)
    ⟨rfl, by decide, fun h => absurd h (by decide), rfl, by decide, fun _ => rfl, trivial⟩
    (by decide +kernel) (by decide +kernel)
    (fun x y hx hy h => by
      rw [h, hx] at hy
      exact absurd hy (by decide))

end Pok.Isolation
