import Verif.Lemmas.LockFifo
import Mathlib.Data.List.Nodup
import Mathlib.Data.Finset.Card

/-!
# C24, C25: wait queues

The concrete machine below performs, for each event, exactly the C calls; its replies are read off
the C return codes.  The specification machines are in `Verif.Spec.Queue`.
-/

namespace Pok
open Pok.Spec Pok.Fifo

/-- One event on the C data structure: arrival = `pok_lockobj_enqueue`, serve = `pok_lockobj_get_head`
then `pok_lockobj_dequeue`, leave = `pok_lockobj_remove_thread`.  `none` = undefined behaviour. -/
def cStep (N : Nat) (prio : Nat → Nat) (d : Discipline) (f : Fifo) : QEvent → Option (Fifo × QReply)
  | .arrive t =>
    match f.enqueue N prio t d with
    | some (f', .ok) => some (f', .accepted)
    | some (f', .full) => some (f', .rejectedFull)
    | _ => none
  | .serve =>
    match f.serve N with
    | some (f', .ok, some t) => some (f', .served t)
    | some (f', .notfound, none) => some (f', .nobody)
    | _ => none
  | .leave t =>
    match f.removeThread N t with
    | some (f', .ok) => some (f', .left)
    | some (f', .notfound) => some (f', .notQueued)
    | _ => none

/-- A history on the C data structure. -/
def cRun (N : Nat) (prio : Nat → Nat) (d : Discipline) : Fifo → List QEvent → Option (Fifo × List QReply)
  | f, [] => some (f, [])
  | f, e :: es =>
    match cStep N prio d f e with
    | none => none
    | some (f1, r) =>
      match cRun N prio d f1 es with
      | none => none
      | some (f2, rs) => some (f2, r :: rs)

theorem cStep_serve {N f l} (prio d) (r : Rep N f l) :
    ∃ f' a, cStep N prio d f .serve = some (f', a) ∧ Rep N f' (fifoStep N l .serve).1 ∧
      a = (fifoStep N l .serve).2 := by
  cases l with
  | nil =>
    have : f.isEmpty = true := r.empty_iff.2 rfl
    exact ⟨f, .nobody, by simp [cStep, serve, Fifo.empty, this], r, rfl⟩
  | cons x l =>
    have : f.isEmpty = false := by
      cases h : f.isEmpty
      · rfl
      · exact absurd (r.empty_iff.1 h) (by simp)
    obtain ⟨f', h1, h2⟩ := rep_dequeue r
    exact ⟨f', .served x, by simp [cStep, serve, Fifo.empty, this, rep_getHead r, h1], h2, rfl⟩

theorem cStep_leave {N f l} (prio d) (r : Rep N f l) (t : Nat) :
    ∃ f' a, cStep N prio d f (.leave t) = some (f', a) ∧ Rep N f' (fifoStep N l (.leave t)).1 ∧
      a = (fifoStep N l (.leave t)).2 := by
  by_cases h : t ∈ l
  · obtain ⟨f', h1, h2⟩ := rep_remove r t h
    exact ⟨f', .left, by simp [cStep, h1], by simpa [fifoStep, h] using h2, by simp [fifoStep, h]⟩
  · exact ⟨f, .notQueued, by simp [cStep, rep_remove_notin r t h], by simpa [fifoStep, h] using r,
      by simp [fifoStep, h]⟩

/-- **C24.** For every capacity and every history of arrivals, services and departures, starting from
an initialised queue, the C queue never misbehaves (no bad index, no endless loop) and gives exactly
the replies of a bounded FIFO list; at the end it represents that list. -/
theorem C24_fifo_queue (N : Nat) (hN : 0 < N) (prio : Nat → Nat) (f0 : Fifo) (es : List QEvent) :
    ∃ f', cRun N prio .fifo f0.init es = some (f', (runQ (fifoStep N) [] es).2) ∧
      Rep N f' (runQ (fifoStep N) [] es).1 := by
  suffices H : ∀ es f l, Rep N f l →
      ∃ f', cRun N prio .fifo f es = some (f', (runQ (fifoStep N) l es).2) ∧
        Rep N f' (runQ (fifoStep N) l es).1 from H es f0.init [] (rep_init hN f0)
  intro es
  induction es with
  | nil => intro f l r; exact ⟨f, rfl, r⟩
  | cons e es ih =>
    intro f l r
    have step : ∃ f1 a, cStep N prio .fifo f e = some (f1, a) ∧ Rep N f1 (fifoStep N l e).1 ∧
        a = (fifoStep N l e).2 := by
      cases e with
      | arrive t =>
        by_cases h : l.length = N
        · exact ⟨f, .rejectedFull, by simp [cStep, rep_enqueue_fifo_full prio r t h],
            by simpa [fifoStep, h] using r, by simp [fifoStep, h]⟩
        · have := r.len_le
          obtain ⟨f', h1, h2⟩ := rep_enqueue_fifo prio r t (by omega)
          exact ⟨f', .accepted, by simp [cStep, h1], by simpa [fifoStep, h, arriveFifo] using h2,
            by simp [fifoStep, h]⟩
      | serve => exact cStep_serve prio _ r
      | leave t => exact cStep_leave prio _ r t
    obtain ⟨f1, a, h1, h2, h3⟩ := step
    obtain ⟨f2, h4, h5⟩ := ih f1 _ h2
    refine ⟨f2, ?_, ?_⟩
    · simp [cRun, h1, h4, runQ, h3]
    · simpa [runQ] using h5

/-- Non-vacuity for C24: a capacity-3 queue that wraps around, fills up, rejects, and loses a thread
from the middle. -/
example : (cRun 3 (fun _ => 0) .fifo (Fifo.init ⟨7, 9, false, fun _ => 42⟩)
    [.arrive 1, .serve, .arrive 4, .arrive 5, .arrive 6, .arrive 7, .leave 5, .serve, .serve, .serve]).map
      (·.2) = some [.accepted, .served 1, .accepted, .accepted, .accepted, .rejectedFull, .left,
        .served 4, .served 6, .nobody] := by decide

/-- Nodup lists of numbers below `n` have at most `n` elements. -/
theorem length_le_of_nodup_lt {l : List Nat} {n : Nat} (h : l.Nodup) (hlt : ∀ x ∈ l, x < n) :
    l.length ≤ n := by
  have h1 : l.toFinset ⊆ Finset.range n := by
    intro x hx; simp at hx; simpa using hlt x hx
  have := Finset.card_le_card h1
  rwa [List.toFinset_card_of_nodup h, Finset.card_range] at this

/-- **C25.** For every capacity, priority assignment and history in which a waiting thread does not
arrive a second time and the kernel's own thread never waits, the C queue with the PRIORITY discipline
never misbehaves and gives exactly the replies of the priority list. -/
theorem C25_priority_queue (N : Nat) (hN : 0 < N) (prio : Nat → Nat) (f0 : Fifo) (es : List QEvent)
    (hs : SaneHistory N (prioStep prio) [] es) :
    ∃ f', cRun N prio .priority f0.init es = some (f', (runQ (prioStep prio) [] es).2) ∧
      Rep N f' (runQ (prioStep prio) [] es).1 := by
  suffices H : ∀ es f l, Rep N f l → l.Nodup → (∀ x ∈ l, x < N - 1) →
      SaneHistory N (prioStep prio) l es →
      ∃ f', cRun N prio .priority f es = some (f', (runQ (prioStep prio) l es).2) ∧
        Rep N f' (runQ (prioStep prio) l es).1 from
    H es f0.init [] (rep_init hN f0) List.nodup_nil (by simp) hs
  intro es
  induction es with
  | nil => intro f l r _ _ _; exact ⟨f, rfl, r⟩
  | cons e es ih =>
    intro f l r hnd hlt hsane
    have step : (∃ f1 a, cStep N prio .priority f e = some (f1, a) ∧ Rep N f1 (prioStep prio l e).1 ∧
        a = (prioStep prio l e).2) ∧ (prioStep prio l e).1.Nodup ∧
        ∀ x ∈ (prioStep prio l e).1, x < N - 1 := by
      cases e with
      | arrive t =>
        have ht : t ∉ l ∧ t < N - 1 := hsane.1
        have hlen := length_le_of_nodup_lt hnd hlt
        obtain ⟨f', h1, h2⟩ := rep_enqueue_priority prio r t (by omega)
        refine ⟨⟨f', .accepted, by simp [cStep, h1], h2, rfl⟩, ?_, ?_⟩
        · exact (perm_arrivePrio.nodup_iff).2 (List.nodup_cons.2 ⟨ht.1, hnd⟩)
        · intro x hx
          rcases mem_arrivePrio.1 hx with rfl | hx
          · exact ht.2
          · exact hlt x hx
      | serve =>
        refine ⟨cStep_serve prio _ r, ?_, ?_⟩
        · cases l with
          | nil => simp [prioStep]
          | cons x l => simpa [prioStep] using (List.nodup_cons.1 hnd).2
        · cases l with
          | nil => simp [prioStep]
          | cons x l => intro y hy; exact hlt y (List.mem_cons_of_mem _ hy)
      | leave t =>
        refine ⟨cStep_leave prio _ r t, ?_, ?_⟩
        · simp only [prioStep]; split
          · exact hnd.erase t
          · exact hnd
        · simp only [prioStep]; split
          · intro x hx; exact hlt x (List.mem_of_mem_erase hx)
          · exact hlt
    obtain ⟨⟨f1, a, h1, h2, h3⟩, h6, h7⟩ := step
    obtain ⟨f2, h4, h5⟩ := ih f1 _ h2 h6 h7 hsane.2
    refine ⟨f2, ?_, ?_⟩
    · simp [cRun, h1, h4, runQ, h3]
    · simpa [runQ] using h5

/-- **C25 (order).** The priority list is always sorted by decreasing priority… -/
theorem C25_sorted (prio : Nat → Nat) (es : List QEvent) :
    Sorted prio (runQ (prioStep prio) [] es).1 := by
  suffices H : ∀ es l, Sorted prio l → Sorted prio (runQ (prioStep prio) l es).1 from
    H es [] List.Pairwise.nil
  intro es
  induction es with
  | nil => intro l h; exact h
  | cons e es ih =>
    intro l h
    refine ih _ ?_
    cases e with
    | arrive t => exact sorted_arrivePrio h
    | serve =>
      cases l with
      | nil => exact h
      | cons x l => exact (List.pairwise_cons.1 h).2
    | leave t =>
      show Sorted prio (if t ∈ l then (l.erase t, QReply.left) else (l, .notQueued)).1
      split
      · exact List.Pairwise.sublist List.erase_sublist h
      · exact h

/-- …so the thread served has maximal priority among the waiting ones… -/
theorem C25_serves_highest (prio : Nat → Nat) (es : List QEvent) (t : Nat) (q : List Nat)
    (h : prioStep prio (runQ (prioStep prio) [] es).1 .serve = (q, .served t)) :
    ∀ u ∈ (runQ (prioStep prio) [] es).1, prio u ≤ prio t := by
  have hs := C25_sorted prio es
  generalize (runQ (prioStep prio) [] es).1 = l at *
  cases l with
  | nil => simp [prioStep] at h
  | cons x l =>
    simp [prioStep] at h
    obtain ⟨rfl, rfl⟩ := h
    intro u hu
    rcases List.mem_cons.1 hu with rfl | hu
    · exact Nat.le_refl _
    · exact (List.pairwise_cons.1 hs).1 u hu

/-- …and threads of equal priority keep their arrival order: an arrival goes behind all waiting
threads of its own priority and does not disturb the order of any priority class. -/
theorem C25_fifo_among_equals (prio : Nat → Nat) (es : List QEvent) (t v : Nat) :
    ((prioStep prio (runQ (prioStep prio) [] es).1 (.arrive t)).1).filter (fun x => prio x = v) =
      (runQ (prioStep prio) [] es).1.filter (fun x => prio x = v) ++
        (if prio t = v then [t] else []) :=
  filter_arrivePrio (C25_sorted prio es) v

/-- Non-vacuity for C25: priorities 5,9,5,9 with wrap-around. -/
example : SaneHistory 5 (prioStep (fun t => if t % 2 = 0 then 5 else 9)) []
    [.arrive 0, .serve, .arrive 2, .arrive 1, .arrive 0, .arrive 3, .serve, .serve, .serve, .serve] := by
  simp [SaneHistory, prioStep, arrivePrio]
example : (cRun 5 (fun t => if t % 2 = 0 then 5 else 9) .priority (Fifo.init ⟨0, 0, true, fun _ => 0⟩)
    [.arrive 0, .serve, .arrive 2, .arrive 1, .arrive 0, .arrive 3, .serve, .serve, .serve, .serve]).map
      (·.2) = some [.accepted, .served 0, .accepted, .accepted, .accepted, .accepted,
        .served 1, .served 3, .served 2, .served 0] := by decide

end Pok
