import Mathlib.Tactic.Common
import Verif.Spec.Middleware

/-!
# Blackboards (C42)
-/

namespace Pok.Mw
open MwSpec

/-- The blackboards show the panels. -/
structure PRel (s : Boards) (a : Panels) (left : Nat) : Prop where
  room : s.next + left ≤ DATA
  fresh : ∀ x, s.next ≤ x → s.data x = 0
  none_ : ∀ i, a i = none → (s.B i).ready = false ∧ (s.B i).size = 0
  some_ : ∀ i b, a i = some b → (s.B i).ready = true ∧ b = (List.range (s.B i).size).map (fun k => s.data ((s.B i).index + k)) ∧
    (s.B i).index + (s.B i).size ≤ s.next
  disj : ∀ i j, i ≠ j → (s.B i).ready = true → (s.B j).ready = true →
    (s.B i).index + (s.B i).size ≤ (s.B j).index ∨ (s.B j).index + (s.B j).size ≤ (s.B i).index

theorem PRel.mono {s : Boards} {a : Panels} {left left' : Nat} (R : PRel s a left) (h : left' ≤ left) :
    PRel s a left' := { R with room := by have := R.room; omega }

theorem pstep_rel (names : List (List Nat)) {s : Boards} {a : Panels} {left : Nat} (R : PRel s a left)
    (op : BoardOp) (hs : PSane names.length left op) :
    ∃ s', boardStep names s op = some (s', (pStep names.length (lookup names) a op).2) ∧
      PRel s' (pStep names.length (lookup names) a op).1 (left - pCost op) := by
  have hroom := R.room
  cases op with
  | create name size evt =>
    have hl : size ≤ left := hs
    simp only [boardStep, boardCreate, pStep, pCost]
    cases hn : lookup names name with
    | none => exact ⟨s, rfl, R.mono (by omega)⟩
    | some n =>
      dsimp only
      cases ha : a n with
      | some b =>
        rw [if_pos (R.some_ n b ha).1]
        exact ⟨s, rfl, R.mono (by omega)⟩
      | none =>
        obtain ⟨hr, _⟩ := R.none_ n ha
        rw [hr]
        simp only [Bool.false_eq_true, if_false]
        by_cases he : evt = .ok
        swap
        · rw [if_pos he, if_pos he]
          exact ⟨s, rfl, R.mono (by omega)⟩
        rw [if_neg (by simp [he]), if_neg (by simp [he])]
        have hnx : (s.next + size) % U32 = s.next + size := Nat.mod_eq_of_lt (by unfold DATA at hroom; unfold U32; omega)
        refine ⟨_, rfl, ?_⟩
        simp only [hnx]
        refine ⟨by dsimp only; omega, ?_, ?_, ?_, ?_⟩
        · intro x hx
          dsimp only at hx ⊢
          exact R.fresh x (by omega)
        · intro i hi
          by_cases hin : i = n
          · subst hin; rw [upd_same] at hi; cases hi
          · rw [upd_other _ _ hin] at hi
            dsimp only
            rw [upd_other _ _ hin]
            exact R.none_ i hi
        · intro i b hi
          by_cases hin : i = n
          · subst hin
            rw [upd_same] at hi
            cases hi
            dsimp only
            rw [upd_same]
            refine ⟨rfl, ?_, by dsimp only; omega⟩
            dsimp only
            apply List.ext_getElem
            · simp
            · intro k h1 h2
              simp [R.fresh (s.next + k) (by omega)]
          · rw [upd_other _ _ hin] at hi
            dsimp only
            rw [upd_other _ _ hin]
            obtain ⟨x, y, z⟩ := R.some_ i b hi
            exact ⟨x, y, by omega⟩
        · intro i j hij
          dsimp only
          have old : ∀ i, (s.B i).ready = true → (s.B i).index + (s.B i).size ≤ s.next := by
            intro i hi
            cases hx : a i with
            | none => rw [(R.none_ i hx).1] at hi; cases hi
            | some b => exact (R.some_ i b hx).2.2
          by_cases hin : i = n
          · subst hin
            rw [upd_same, upd_other _ _ (Ne.symm hij)]
            intro _ hj
            have := old j hj
            right; exact this
          · by_cases hjn : j = n
            · subst hjn
              rw [upd_same, upd_other _ _ hij]
              intro hi _
              left; exact old i hi
            · rw [upd_other _ _ hin, upd_other _ _ hjn]
              exact R.disj i j hij
  | display id bs =>
    have hid : id ≠ names.length := hs
    simp only [boardStep, boardDisplay, pStep, pCost, Nat.sub_zero]
    by_cases h1 : id > names.length
    · rw [if_pos h1, if_pos (by omega)]
      exact ⟨s, rfl, R⟩
    rw [if_neg h1, if_neg hid, if_neg (show ¬id ≥ names.length by omega)]
    cases ha : a id with
    | none =>
      rw [(R.none_ id ha).2, if_pos (R.none_ id ha).1]
      refine ⟨s, ?_, R⟩
      cases bs <;> simp
    | some b =>
      obtain ⟨hr, hb, hix⟩ := R.some_ id b ha
      have hbl : b.length = (s.B id).size := by rw [hb]; simp
      dsimp only
      rw [hbl]
      by_cases hlen : bs.length > (s.B id).size
      · rw [if_pos hlen, if_pos hlen]
        exact ⟨s, rfl, R⟩
      rw [if_neg hlen, if_neg hlen, if_neg (by simp [hr])]
      unfold put
      rw [if_pos (by omega)]
      dsimp only
      refine ⟨_, rfl, ⟨R.room, ?_, ?_, ?_, R.disj⟩⟩
      · intro x hx
        show (if _ then _ else _) = 0
        dsimp only at hx
        rw [if_neg (by omega)]
        exact R.fresh x hx
      · intro i hi
        have hin : i ≠ id := by rintro rfl; rw [upd_same] at hi; cases hi
        rw [upd_other _ _ hin] at hi
        exact R.none_ i hi
      · intro i c hi
        by_cases hin : i = id
        · subst hin
          rw [upd_same] at hi
          cases hi
          refine ⟨hr, ?_, hix⟩
          apply List.ext_getElem
          · simp only [List.length_append, List.length_drop, List.length_map, List.length_range]; omega
          · intro k h1 h2
            simp only [List.length_map, List.length_range] at h2
            simp only [List.getElem_map, List.getElem_range]
            by_cases hk : k < bs.length
            · rw [List.getElem_append_left hk, if_pos (by omega), show (s.B i).index + k - (s.B i).index = k by omega]
              simp [List.getD_eq_getElem?_getD, hk]
            · rw [List.getElem_append_right (by omega), if_neg (by omega), List.getElem_drop]
              subst hb
              simp only [List.getElem_map, List.getElem_range]
              congr 2
              omega
        · rw [upd_other _ _ hin] at hi
          obtain ⟨x, y, z⟩ := R.some_ i c hi
          refine ⟨x, ?_, z⟩
          rw [y]
          apply List.map_congr_left
          intro k hk
          rw [List.mem_range] at hk
          dsimp only
          rw [if_neg]
          rcases R.disj i id hin x hr with hd | hd <;> omega
  | read id =>
    have hid : id ≠ names.length := hs
    simp only [boardStep, boardRead, pStep, pCost, Nat.sub_zero]
    by_cases h1 : id > names.length
    · rw [if_pos h1, if_pos (by omega)]
      exact ⟨s, rfl, R⟩
    rw [if_neg h1, if_neg hid, if_neg (show ¬id ≥ names.length by omega)]
    cases ha : a id with
    | none =>
      rw [if_pos (R.none_ id ha).1]
      exact ⟨s, rfl, R⟩
    | some b =>
      obtain ⟨hr, hb, hix⟩ := R.some_ id b ha
      rw [if_neg (by simp [hr])]
      unfold get
      rw [if_pos (by omega), ← hb]
      exact ⟨s, rfl, R⟩
  | clear id =>
    have hid : id ≠ names.length := hs
    simp only [boardStep, boardClear, pStep, pCost, Nat.sub_zero]
    by_cases h1 : id > names.length
    · rw [if_pos h1, if_pos (by omega)]
      exact ⟨s, rfl, R⟩
    rw [if_neg h1, if_neg hid, if_neg (show ¬id ≥ names.length by omega)]
    refine ⟨_, rfl, ?_⟩
    have key : ∀ i, (upd s.B id { s.B id with empty := true } i).ready = (s.B i).ready ∧
        (upd s.B id { s.B id with empty := true } i).size = (s.B i).size ∧
        (upd s.B id { s.B id with empty := true } i).index = (s.B i).index := by
      intro i
      by_cases hin : i = id
      · subst hin; simp only [upd_same, and_self]
      · rw [upd_other _ _ hin]; exact ⟨rfl, rfl, rfl⟩
    refine ⟨R.room, R.fresh, ?_, ?_, ?_⟩
    · intro i hi
      dsimp only
      rw [(key i).1, (key i).2.1]
      exact R.none_ i hi
    · intro i b hi
      dsimp only
      rw [(key i).1, (key i).2.1, (key i).2.2]
      exact R.some_ i b hi
    · intro i j
      dsimp only
      rw [(key i).1, (key i).2.1, (key i).2.2, (key j).1, (key j).2.1, (key j).2.2]
      exact R.disj i j

theorem prel_init : PRel {} (fun _ => none) DATA :=
  ⟨by simp, fun _ _ => rfl, fun _ _ => ⟨rfl, rfl⟩, (fun _ _ h => by cases h), (fun _ _ _ h => by cases h)⟩

theorem prun_rel (names : List (List Nat)) (ops : List BoardOp) : ∀ (s : Boards) (a : Panels) (left : Nat),
    PRel s a left → AllPSane names.length left ops →
    ∃ s', boardRun names s ops = some (s', pRun names.length (lookup names) a ops) := by
  induction ops with
  | nil => intro s a left R _; exact ⟨s, rfl⟩
  | cons op ops ih =>
    intro s a left R h
    obtain ⟨s', h1, R'⟩ := pstep_rel names R op h.1
    obtain ⟨s'', h2⟩ := ih s' _ _ R' h.2
    exact ⟨s'', by simp only [boardRun, h1, h2, pRun]⟩

/-- **C42** (part).  Any names and any history of creations, displays, reads and clears whose creations fit in the
storage of the partition and that does not use the number just after the last blackboard: every answer is the one of
independent panels (`MwSpec.pStep`).  In particular no display is visible on another blackboard. -/
theorem C42_panels_partial (names : List (List Nat)) (ops : List BoardOp) (h : AllPSane names.length DATA ops) :
    ∃ s, boardRun names {} ops = some (s, pRun names.length (lookup names) (fun _ => none) ops) :=
  prun_rel names ops _ _ _ prel_init h

/-- State of the panels after a history. -/
def pAfter (nb : Nat) (pick : List Nat → Option Nat) (s : Panels) (ops : List BoardOp) : Panels :=
  ops.foldl (fun s op => (pStep nb pick s op).1) s

theorem pRun_append (nb : Nat) (pick : List Nat → Option Nat) (ops ops' : List BoardOp) : ∀ s,
    pRun nb pick s (ops ++ ops') = pRun nb pick s ops ++ pRun nb pick (pAfter nb pick s ops) ops' := by
  induction ops with
  | nil => intro s; rfl
  | cons op ops ih => intro s; simp only [List.cons_append, pRun, ih]; rfl

theorem pRun_length (nb : Nat) (pick : List Nat → Option Nat) (ops : List BoardOp) : ∀ s,
    (pRun nb pick s ops).length = ops.length := by
  induction ops with
  | nil => intro s; rfl
  | cons op ops ih => intro s; simp only [pRun, List.length_cons, ih]

theorem panel_keeps (nb : Nat) (pick : List Nat → Option Nat) (id : Nat) (b : List Nat) (ops : List BoardOp) : ∀ s,
    s id = some b → (∀ bs, BoardOp.display id bs ∉ ops) → pAfter nb pick s ops id = some b := by
  induction ops with
  | nil => intro s h _; exact h
  | cons op ops ih =>
    intro s h hn
    refine ih _ ?_ (fun bs hm => hn bs (List.mem_cons_of_mem _ hm))
    cases op with
    | create name size evt =>
      simp only [pStep]
      cases pick name with
      | none => exact h
      | some n =>
        dsimp only
        cases hs : s n with
        | some _ => exact h
        | none =>
          dsimp only
          split
          · exact h
          · dsimp only
            rw [upd_other _ _ (by rintro rfl; rw [h] at hs; cases hs)]
            exact h
    | display id' bs =>
      have hne : id ≠ id' := by rintro rfl; exact hn bs List.mem_cons_self
      simp only [pStep]
      split
      · exact h
      · split
        · exact h
        · split
          · exact h
          · dsimp only
            rw [upd_other _ _ hne]
            exact h
    | read id' =>
      simp only [pStep]
      split
      · exact h
      · split <;> exact h
    | clear id' => exact h

/-- **C42** (part: the last message).  In any such history, if a message was displayed with success on blackboard `id`
and nothing was displayed on it since (whatever was done with other blackboards), a read succeeds and gives the
message, followed, when it is shorter than the blackboard, by older bytes.

Missing: the length of the message, and the report that a blackboard is empty; see the violations. -/
theorem C42_last_partial (names : List (List Nat)) (ops mid : List BoardOp) (id : Nat) (bs : List Nat)
    (h : AllPSane names.length DATA (ops ++ .display id bs :: (mid ++ [.read id])))
    (hmid : ∀ bs', BoardOp.display id bs' ∉ mid) :
    ∃ s outs, boardRun names {} (ops ++ .display id bs :: (mid ++ [.read id])) = some (s, outs) ∧
      (outs[ops.length]? = some { res := .ok } →
        ∃ rest, outs[ops.length + 1 + mid.length]? = some { res := .ok, bytes := bs ++ rest }) := by
  obtain ⟨s, hs⟩ := C42_panels_partial names _ h
  refine ⟨s, _, hs, ?_⟩
  have hl := pRun_length names.length (lookup names) ops (fun _ => none)
  rw [pRun_append]
  rw [List.getElem?_append_right (by omega), hl, Nat.sub_self, List.getElem?_append_right (by omega), hl]
  generalize pAfter names.length (lookup names) (fun _ => none) ops = p
  simp only [pRun, List.getElem?_cons_zero, Option.some.injEq]
  rw [show ops.length + 1 + mid.length - ops.length = mid.length + 1 by omega, List.getElem?_cons_succ, pRun_append,
    List.getElem?_append_right (by rw [pRun_length]; exact Nat.le_refl _), pRun_length, Nat.sub_self]
  simp only [pRun, List.getElem?_cons_zero, Option.some.injEq]
  intro hd
  simp only [pStep] at hd ⊢
  by_cases hid : id ≥ names.length
  · rw [if_pos hid] at hd; cases hd
  rw [if_neg hid] at hd
  cases hp : p id with
  | none =>
    rw [hp] at hd
    by_cases hb : bs = []
    · simp [hb] at hd
    · simp [hb] at hd
  | some b =>
    rw [hp] at hd
    dsimp only at hd
    by_cases hlen : bs.length > b.length
    · rw [if_pos hlen] at hd; cases hd
    rw [if_neg hid, if_neg hid]
    dsimp only
    rw [if_neg hlen]
    rw [panel_keeps _ _ id (bs ++ b.drop bs.length) mid _ (upd_same _ _ _) hmid]
    exact ⟨_, rfl⟩

/-- Two blackboards; the one that is read is written twice, the other one in between. -/
def exBoard : List BoardOp := [.create [2] 3 .ok, .create [1] 4 .ok, .display 1 [9, 9, 9]]
def exMid : List BoardOp := [.display 0 [5, 6, 7, 8], .clear 1, .create [2] 9 .ok, .display 0 [1]]

example : AllPSane 2 DATA (exBoard ++ .display 1 [7, 7, 7] :: (exMid ++ [.read 1])) ∧
    (∀ bs', BoardOp.display 1 bs' ∉ exMid) ∧
    (boardRun [[1], [2]] {} (exBoard ++ .display 1 [7, 7, 7] :: (exMid ++ [.read 1]))).map (fun r => (r.2[3]?, r.2[8]?)) =
      some (some { res := .ok }, some { res := .ok, bytes := [7, 7, 7] }) := by
  refine ⟨by simp [exBoard, exMid, AllPSane, PSane, pCost, DATA], by simp [exMid], by decide +kernel⟩

/-- **C42** fails for blackboards that were never written or that were cleared: reading them succeeds. -/
theorem C42_empty_violated :
    (boardRun [[1]] {} [.create [1] 2 .ok, .read 0, .display 0 [4, 5], .clear 0, .read 0]).map (fun r => (r.2[1]?, r.2[4]?)) =
      some (some { res := .ok, bytes := [0, 0] }, some { res := .ok, bytes := [4, 5] }) := by decide +kernel

/-- **C42** fails for messages shorter than the blackboard: the reader gets the end of an older message. -/
theorem C42_short_violated :
    (boardRun [[1]] {} [.create [1] 3 .ok, .display 0 [1, 2, 3], .display 0 [9], .read 0]).map (·.2[3]?) =
      some (some { res := .ok, bytes := [9, 2, 3] }) := by decide +kernel

/-- **C42** fails for the number just after the last blackboard: the code accesses beyond its table. -/
theorem C42_boundary_violated (names : List (List Nat)) (s : Boards) (bs : List Nat) :
    boardStep names s (.display names.length bs) = none ∧ boardStep names s (.read names.length) = none ∧
      boardStep names s (.clear names.length) = none := by
  simp [boardStep, boardDisplay, boardRead, boardClear]

end Pok.Mw
