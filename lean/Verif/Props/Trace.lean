import Verif.Spec.Trace
/-!
# The trace for the scheduling analysis (C131)
-/
namespace Pok.Trace

theorem read_append (st : List String) (a b : List Mark) : read st (a ++ b) = (read st a).bind (read · b) := by
  induction a generalizing st with
  | nil => simp [read]
  | cons m a ih =>
    cases m with
    | enter t => simp only [List.cons_append, read, ih]
    | num v => simp only [List.cons_append, read, ih]
    | leave t =>
      cases st with
      | nil => simp [read]
      | cons s st =>
        simp only [List.cons_append, read]
        split
        · exact ih _
        · rfl

theorem read_task (st : List String) (id : Nat) (t : ThreadRec) : read st (task id t) = some st := by
  simp [task, leaf, leafNum, read]

theorem read_space (st : List String) (id : Nat) (p : Int) : read st (space id p) = some st := by
  simp [space, leaf, leafNum, read]

/-- **C131** (part) What is printed for one thread and for one partition is an element that is closed, whatever is open around it. -/
theorem C131_elements_partial (id : Nat) (t : ThreadRec) (p : Int) : WellFormed (task id t) ∧ WellFormed (space id p) :=
  ⟨read_task [] id t, read_space [] id p⟩

theorem has_left {a : List Mark} {t : String} {v : Int} (b : List Mark) (h : Has a t v) : Has (a ++ b) t v := by
  obtain ⟨x, y, rfl⟩ := h
  exact ⟨x, y ++ b, by simp⟩

theorem has_right {b : List Mark} {t : String} {v : Int} (a : List Mark) (h : Has b t v) : Has (a ++ b) t v := by
  obtain ⟨x, y, rfl⟩ := h
  exact ⟨a ++ x, y, by simp⟩

theorem has_leaf (t : String) (v : Int) : Has (leafNum t v) t (shown v) := ⟨[], [], rfl⟩

theorem fits {v : Int} (h : -2 ^ 31 ≤ v ∧ v < 2 ^ 31) : shown v = v := by unfold shown; omega

/-- **C131** (part) The element of a thread has its identifier, its partition, its capacity, its deadline and its period, if these fit in 32 bits. -/
theorem C131_values_partial (id : Nat) (t : ThreadRec) (hi : (id : Int) < 2 ^ 31) (hp : (t.partition : Int) < 2 ^ 31) (hc : -2 ^ 31 ≤ t.capacity ∧ t.capacity < 2 ^ 31)
    (hd : -2 ^ 31 ≤ t.deadline ∧ t.deadline < 2 ^ 31) (hq : -2 ^ 31 ≤ t.period ∧ t.period < 2 ^ 31) :
    Has (task id t) "name" id ∧ Has (task id t) "address_space_name" t.partition ∧ Has (task id t) "capacity" t.capacity ∧ Has (task id t) "deadline" t.deadline ∧
    Has (task id t) "period" t.period := by
  rw [← fits (v := id) ⟨by omega, hi⟩, ← fits (v := t.partition) ⟨by omega, hp⟩, ← fits hc, ← fits hd, ← fits hq]
  unfold task
  refine ⟨?_, ?_, ?_, ?_, ?_⟩ <;> repeat' (first | exact has_right _ (has_leaf _ _) | apply has_left)

/-- **C131** (part) The element of a partition has its number, and its period as the quantum of its scheduler, if they fit in 32 bits. -/
theorem C131_partition_partial (id : Nat) (p : Int) (hi : (id : Int) < 2 ^ 31) (hp : -2 ^ 31 ≤ p ∧ p < 2 ^ 31) : Has (space id p) "name" id ∧ Has (space id p) "scheduler" p := by
  rw [← fits (v := id) ⟨by omega, hi⟩]
  refine ⟨?_, ?_⟩
  · unfold space
    repeat' (first | exact has_right _ (has_leaf _ _) | apply has_left)
  · unfold space
    rw [fits hp]
    exact has_left _ (has_right _ ⟨[], [], rfl⟩)

/-- **C131** violated: the partition of a thread is given twice in its element. -/
theorem C131_twice_violated (id : Nat) (t : ThreadRec) : (task id t).count (.enter "address_space_name") = 2 ∧ (task id t).count (.enter "name") = 1 := by
  simp [task, leaf, leafNum]

/-- **C131** violated: times are in nanoseconds and have 64 bits, but only 32 are printed: no time of 2147483648 or more, which is about 2.15 seconds, is
printed as it is, neither in the element of a thread nor in the trace of the threads that run. -/
theorem C131_time_violated (v : Int) (id : Nat) (h : 2 ^ 31 ≤ v) : shown v ≠ v ∧ (running v id).1 ≠ v := by
  have : shown v ≠ v := by unfold shown; omega
  exact ⟨this, this⟩

/-- What is open after a history. -/
def opened (f : Flags) (st : List String) : Prop :=
  match f.part, f.task with
  | false, false => st = []
  | true, false => st = ["address_spaces"]
  | true, true => st = ["tasks"]
  | false, true => False

theorem step {f : Flags} {st st' : List String} (x : Call) (h : opened f st) (hr : read st (call f x).2 = some st') : opened (call f x).1 st' := by
  obtain ⟨p, t⟩ := f
  cases x with
  | partition id q =>
    simp only [call] at hr ⊢
    rw [read_append] at hr
    cases p <;> cases t <;> simp_all [opened, read, read_space]
    all_goals (first | exact hr.symm | skip)
  | thread id first r =>
    simp only [call] at hr ⊢
    cases first
    · simp only [Bool.false_eq_true, if_false] at hr ⊢
      rw [read_append] at hr
      cases p <;> cases t <;> simp_all [opened, read, read_task]
      all_goals (first | exact hr.symm | skip)
    · simp_all [read]

theorem flags {f : Flags} (xs : List Call) {st st' : List String} (h : opened f st) (hr : read st (trace f xs) = some st') :
    ∃ g : Flags, opened g st' ∧ ((f.part || f.task) = true ∨ trace f xs ≠ [] → (g.part || g.task) = true) := by
  induction xs generalizing f st with
  | nil =>
    simp only [trace, read, Option.some.injEq] at hr
    exact ⟨f, hr ▸ h, fun q => by simpa [trace] using q⟩
  | cons x xs ih =>
    simp only [trace] at hr ⊢
    rw [read_append] at hr
    cases e : read st (call f x).2 with
    | none => rw [e] at hr; simp at hr
    | some s1 =>
      rw [e] at hr
      obtain ⟨g, g1, g2⟩ := ih (step x h e) hr
      refine ⟨g, g1, fun q => g2 ?_⟩
      by_cases c : ((call f x).1.part || (call f x).1.task) = true
      · exact Or.inl c
      · right
        intro z
        apply c
        rcases q with q | q
        · cases x with
          | partition => simp [call]
          | thread id first t =>
            simp only [call]
            split
            · exact q
            · simp
        · cases x with
          | partition => simp [call]
          | thread id first t =>
            simp only [call] at q z ⊢
            split
            · rename_i hf
              rw [if_pos hf] at q z
              simp only [List.nil_append] at q
              exact absurd z q
            · simp

/-- **C131** violated: the document is never well-formed.  Whatever partitions and threads there are and in whatever order they are made, as soon as anything has
been printed at least one element is open that nothing will close. -/
theorem C131_document_violated (xs : List Call) (h : trace {} xs ≠ []) : ¬ WellFormed (trace {} xs) := by
  intro w
  obtain ⟨g, g1, g2⟩ := flags (f := {}) xs (st := []) rfl w
  have := g2 (Or.inr h)
  obtain ⟨p, t⟩ := g
  cases p <;> cases t <;> simp_all [opened]

/-- Whether a call is for a thread that the partition makes, and whether it is for a partition. -/
def isThread : Call → Bool
  | .thread _ first _ => !first
  | _ => false
def isPartition : Call → Bool
  | .partition .. => true
  | _ => false

/-- **C131** (part) In every history there are as many `task` elements as threads made by the partitions, so none for the first thread of a partition, which
the kernel makes, and as many `address_space` elements as partitions. -/
theorem C131_count_partial (f : Flags) (xs : List Call) :
    (trace f xs).count (.enter "task") = xs.countP isThread ∧ (trace f xs).count (.enter "address_space") = xs.countP isPartition := by
  induction xs generalizing f with
  | nil => exact ⟨rfl, rfl⟩
  | cons x xs ih =>
    simp only [trace, List.count_append, List.countP_cons]
    rw [(ih _).1, (ih _).2]
    obtain ⟨p, t⟩ := f
    cases x with
    | partition id q => cases p <;> simp [call, space, leaf, leafNum, isThread, isPartition, Nat.add_comm]
    | thread id first r => cases first <;> cases t <;> simp [call, task, leaf, leafNum, isThread, isPartition, Nat.add_comm]

/-! ## The hypotheses are met -/

/-- A partition with one thread besides the first, with a period of 3 seconds. -/
example : trace {} [.partition 0 0, .thread 0 true ⟨0, 10, 0, -1⟩, .thread 1 false ⟨0, 10, 20, 3000000000⟩] ≠ [] ∧
    Has (task 1 ⟨0, 10, 20, 3000000000⟩) "period" (-1294967296) ∧ read [] (trace {} [.partition 0 0, .thread 1 false ⟨0, 10, 20, 30⟩]) = some ["tasks"] := by
  refine ⟨by decide, ?_, by decide⟩
  unfold task
  repeat' (first | exact has_right _ (has_leaf _ _) | apply has_left)

end Pok.Trace
