import Verif.Model.MwStatus
import Verif.Props.Middleware
import Verif.Props.Blackboard

/-!
# Status and identification of buffers and blackboards (C106)
-/

namespace Pok.Mw
open MwSpec

/-- Specification: the queues after a history. -/
def qAfter (nb : Nat) (pick : List Nat → Option Nat) : Queues → List BufOp → Queues
  | s, [] => s
  | s, op :: ops => qAfter nb pick (qStep nb pick s op).1 ops

/-- Specification: what a status should say of a queue, `w` processes waiting. -/
def rightStatus (q : Queue) (w : Nat) : BufStatus := ⟨q.q.length, q.cap, q.msg, w⟩

theorem after_rel (names : List (List Nat)) (ops : List BufOp) : ∀ (s : Bufs) (a : Queues) (left : Nat),
    Rel names.length s a left → AllSane names.length (lookup names) left a ops →
    ∃ s' o left', bufRun names s ops = some (s', o) ∧ Rel names.length s' (qAfter names.length (lookup names) a ops) left' := by
  induction ops with
  | nil => intro s a left R _; exact ⟨s, [], left, rfl, R⟩
  | cons op ops ih =>
    intro s a left R h
    obtain ⟨s', h1, R', _⟩ := step_rel names R op h.1
    obtain ⟨s'', o, l, h2, r⟩ := ih s' _ _ R' h.2
    exact ⟨s'', (qStep names.length (lookup names) a op).2 :: o, l, by simp only [bufRun, h1, h2], r⟩

/-- **C106** (part).  After every history for which the buffers behave as queues (C41), the status of a created buffer
gives the right capacity and the right message size.

Missing: the number of messages, the number of waiting processes, buffers that were not created. -/
theorem C106_buffer_partial (names : List (List Nat)) (ops : List BufOp) (id : Nat) (q : Queue)
    (h : AllSane names.length (lookup names) DATA (fun _ => none) ops) (hid : id < names.length)
    (hq : qAfter names.length (lookup names) (fun _ => none) ops id = some q) :
    ∃ s o st, bufRun names {} ops = some (s, o) ∧ bufStatus names.length s id = some (.ok, some st) ∧
      st.capacity = (rightStatus q 0).capacity ∧ st.msgsize = (rightStatus q 0).msgsize ∧ st.messages = 0 := by
  obtain ⟨s, o, l, h1, R⟩ := after_rel names ops _ _ _ (rel_init _) h
  obtain ⟨⟨hd, H⟩, _⟩ := R.some_ id q hq
  have hm := H.msg
  refine ⟨s, o, ⟨0, q.cap, q.msg, 0⟩, h1, ?_, rfl, rfl, rfl⟩
  simp [bufStatus, H.msgsize, H.size, Nat.not_lt.2 (Nat.le_of_lt hid), Nat.ne_of_lt hid, Nat.ne_of_gt hm,
    Nat.mul_div_cancel _ hm]

/-- **C106** violated: the status never counts messages.  After every such history, if the buffer holds a message, the
status that is reported is wrong, however many processes wait. -/
theorem C106_count_violated (names : List (List Nat)) (ops : List BufOp) (id : Nat) (q : Queue)
    (h : AllSane names.length (lookup names) DATA (fun _ => none) ops) (hid : id < names.length)
    (hq : qAfter names.length (lookup names) (fun _ => none) ops id = some q) (hne : q.q ≠ []) :
    ∃ s o st, bufRun names {} ops = some (s, o) ∧ bufStatus names.length s id = some (.ok, some st) ∧
      ∀ w, st ≠ rightStatus q w := by
  obtain ⟨s, o, st, h1, h2, _, _, h3⟩ := C106_buffer_partial names ops id q h hid hq
  refine ⟨s, o, st, h1, h2, fun w he => ?_⟩
  rw [he] at h3
  exact hne (List.length_eq_zero_iff.1 h3)

/-- The history of the examples: a buffer of two messages of two bytes, one message sent. -/
def stOps : List BufOp := [.create [1] 4 2 .ok, .send 0 [7, 8] 0]

theorem stSane : AllSane 1 (lookup [[1]]) DATA (fun _ => none) stOps := by
  refine ⟨⟨by omega, ⟨2, by omega, by omega⟩, by decide⟩, ⟨by decide, ?_⟩, trivial⟩
  intro b hb
  cases hb; rfl

example : ∃ q, qAfter 1 (lookup [[1]]) (fun _ => none) stOps 0 = some q ∧ q.q = [[7, 8]] ∧ rightStatus q 0 = ⟨1, 2, 2, 0⟩ :=
  ⟨_, rfl, rfl, rfl⟩

/-- **C106** violated: asking for the status of a buffer that was not created divides by zero, instead of returning an
error; and the number just after the last buffer is read outside the table. -/
theorem C106_uncreated_violated (names : List (List Nat)) :
    (∀ id, id < names.length → bufStatus names.length {} id = none) ∧
    (∀ s, bufStatus names.length s names.length = none) ∧ (∀ s, boardStatus names.length s names.length = none) := by
  refine ⟨fun id h => ?_, fun s => by simp [bufStatus], fun s => by simp [boardStatus]⟩
  simp [bufStatus, Nat.not_lt.2 (Nat.le_of_lt h)]

/-- A created blackboard is marked empty. -/
def Marked (s : Boards) : Prop := ∀ i, (s.B i).ready = true → (s.B i).empty = true

theorem marked_step (names : List (List Nat)) (s s' : Boards) (op : BoardOp) (o : BoardOut) (hm : Marked s)
    (h : boardStep names s op = some (s', o)) : Marked s' := by
  cases op with
  | create name size evt =>
    simp only [boardStep, Option.some.injEq, Prod.mk.injEq] at h
    obtain ⟨h, _⟩ := h
    subst h
    unfold boardCreate
    split
    · exact hm
    · split
      · exact hm
      · split
        · exact hm
        · intro i hi
          simp only [upd_apply] at hi ⊢
          split
          · rfl
          · rename_i hne; rw [if_neg hne] at hi; exact hm i hi
  | display id bs =>
    simp only [boardStep, Option.map_eq_some_iff, Prod.mk.injEq] at h
    obtain ⟨r, hr, h, _⟩ := h
    subst h
    unfold boardDisplay at hr
    split at hr
    · cases hr; exact hm
    split at hr
    · cases hr
    split at hr
    · cases hr; exact hm
    split at hr
    · cases hr; exact hm
    split at hr
    · cases hr
    · cases hr; exact hm
  | read id =>
    simp only [boardStep, Option.map_eq_some_iff, Prod.mk.injEq] at h
    obtain ⟨r, hr, h, _⟩ := h
    subst h; exact hm
  | clear id =>
    simp only [boardStep, Option.map_eq_some_iff, Prod.mk.injEq] at h
    obtain ⟨r, hr, h, _⟩ := h
    subst h
    unfold boardClear at hr
    split at hr
    · cases hr; exact hm
    split at hr
    · cases hr
    · cases hr
      intro i hi
      simp only [upd_apply] at hi ⊢
      split
      · rfl
      · rename_i hne; rw [if_neg hne] at hi; exact hm i hi

theorem marked_run (names : List (List Nat)) (ops : List BoardOp) : ∀ (s s' : Boards) (o : List BoardOut), Marked s →
    boardRun names s ops = some (s', o) → Marked s' := by
  induction ops with
  | nil => intro s s' o hm h; simp only [boardRun, Option.some.injEq, Prod.mk.injEq] at h; rw [← h.1]; exact hm
  | cons op ops ih =>
    intro s s' o hm h
    simp only [boardRun] at h
    split at h
    · cases h
    · rename_i s1 o1 h1
      split at h
      · cases h
      · rename_i s2 o2 h2
        cases h
        exact ih s1 _ _ (marked_step names s s1 op o1 hm h1) h2

/-- **C106** violated: after every history of creations, displays, reads and clears, the status of a created blackboard
says that it is empty, also just after a display. -/
theorem C106_empty_violated (names : List (List Nat)) (ops : List BoardOp) (s : Boards) (o : List BoardOut) (id : Nat)
    (h : boardRun names {} ops = some (s, o)) (hid : id < names.length) (hr : (s.B id).ready = true) :
    ∃ st, boardStatus names.length s id = some (.ok, some st) ∧ st.empty = true ∧ st.waiting = 0 := by
  have hm : Marked s := marked_run names ops {} s o (fun i hi => by cases hi) h
  refine ⟨⟨(s.B id).size, true, 0⟩, ?_, rfl, rfl⟩
  simp [boardStatus, Nat.not_lt.2 (Nat.le_of_lt hid), Nat.ne_of_lt hid, hm id hr]

example : ∃ s o, boardRun [[1]] {} [.create [1] 2 .ok, .display 0 [5, 6], .read 0] = some (s, o) ∧ (s.B 0).ready = true ∧
    o.getLast? = some ⟨.ok, none, [5, 6]⟩ ∧ boardStatus 1 s 0 = some (.ok, some ⟨2, true, 0⟩) :=
  ⟨_, _, rfl, rfl, by decide, rfl⟩

/-- **C106** (part).  The identifier of a name is the number of its first entry in the configuration; it is the one
that the creation of the buffer or of the blackboard gives; and a name without an entry is refused with
`POK_ERRNO_EINVAL` by the identification and by both creations. -/
theorem C106_id_partial (names : List (List Nat)) (name : List Nat) (size msg : Nat) (evt : Errno) :
    (∀ s n, (bufCreate names s name size msg evt).2.2 = some n → objectId names name = (.ok, some n)) ∧
    (∀ s n, (boardCreate names s name size evt).2.2 = some n → objectId names name = (.ok, some n)) ∧
    (∀ n, objectId names name = (.ok, some n) ↔
      ∃ h : n < names.length, Libc.streq name names[n] = true ∧
        ∀ j (hj : j < n), Libc.streq name (names[j]'(by omega)) = false) ∧
    ((∀ x ∈ names, Libc.streq name x = false) →
      objectId names name = (.einval, none) ∧
      (∀ s, bufCreate names s name size msg evt = (s, .done .einval, none)) ∧
      (∀ s, boardCreate names s name size evt = (s, .einval, none))) := by
  have hl : (∀ x ∈ names, Libc.streq name x = false) → lookup names name = none := by
    intro h; unfold lookup; simpa using h
  have hs : ∀ n, objectId names name = (.ok, some n) ↔ lookup names name = some n := by
    intro n; unfold objectId; cases lookup names name <;> simp
  refine ⟨?_, ?_, ?_, ?_⟩
  rotate_left 2
  · intro n
    rw [hs]
    unfold lookup
    rw [List.findIdx?_eq_some_iff_getElem]
    simp
  · intro h
    unfold objectId bufCreate boardCreate
    rw [hl h]
    simp
  all_goals
    unfold objectId
    first | unfold bufCreate | unfold boardCreate
    cases lookup names name with
    | none => simp
    | some k =>
      intro s n
      by_cases hr : (s.B k).ready = true <;> by_cases he : evt = .ok <;> simp [hr, he]

example : objectId [[1], [2]] [2] = (.ok, some 1) ∧ (bufCreate [[1], [2]] {} [2] 4 2 .ok).2.2 = some 1 ∧
    objectId [[1], [2]] [3] = (.einval, none) := by decide

end Pok.Mw
