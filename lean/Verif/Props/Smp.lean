import Verif.Model.Smp
import Mathlib.Data.Fintype.Card
import Mathlib.Algebra.Order.BigOperators.Group.Finset
import Mathlib.Tactic.Push
import Mathlib.Data.List.Nodup
import Mathlib.Tactic.Common

/-!
# Rendezvous and spinlocks (C51, C52)
-/

namespace Pok.Smp

/-! ## Counting processors -/

/-- How many processors are at `c`. -/
def cnt {n : Nat} (f : Fin n → Opc) (c : Opc) : Nat := (Finset.univ.filter fun i => f i = c).card

theorem cnt_enter {n : Nat} {f : Fin n → Opc} {c : Opc} {i : Fin n} (h : f i ≠ c) : cnt (Function.update f i c) c = cnt f c + 1 := by
  unfold cnt
  have : (Finset.univ.filter fun j => Function.update f i c j = c) = insert i (Finset.univ.filter fun j => f j = c) := by
    ext j
    by_cases hj : j = i
    · subst hj; simp
    · simp [Function.update_of_ne hj, hj]
  rw [this, Finset.card_insert_of_notMem (by simp [h])]

theorem cnt_other {n : Nat} {f : Fin n → Opc} {c d : Opc} {i : Fin n} (h : f i ≠ c) (h2 : d ≠ c) : cnt (Function.update f i d) c = cnt f c := by
  unfold cnt
  congr 1
  ext j
  by_cases hj : j = i
  · subst hj; simp [h, h2]
  · simp [Function.update_of_ne hj]

theorem cnt_all {n : Nat} {f : Fin n → Opc} {c : Opc} (h : cnt f c = n) : ∀ i, f i = c := by
  unfold cnt at h
  have := (Finset.card_eq_iff_eq_univ _).1 (h.trans (Fintype.card_fin n).symm)
  intro i
  have hi : i ∈ Finset.univ.filter fun i => f i = c := by rw [this]; simp
  simpa using hi

theorem cnt_none {n : Nat} {f : Fin n → Opc} {c : Opc} (h : ∀ i, f i ≠ c) : cnt f c = 0 := by
  unfold cnt
  rw [Finset.card_eq_zero]
  ext i
  simp [h i]

theorem cnt_le {n : Nat} (f : Fin n → Opc) (c : Opc) : cnt f c ≤ n := by
  unfold cnt
  exact (Finset.card_le_univ _).trans (by simp)

/-! ## The invariant of the rendezvous -/

/-- Counters of processor `i` relative to the number `k` of openings: arrivals, departures, arrivals at the second barrier, departures
(the last three may be one less). -/
def At {n : Nat} (s : Rv n) (i : Fin n) (a p b l : Nat) : Prop :=
  s.arrived i = a ∧ s.passed i = p ∧ s.barrived i = b ∧ s.left i = l

/-- Processor `i` between two rounds. -/
def Quiet {n : Nat} (s : Rv n) (i : Fin n) : Prop :=
  (s.opc i = .run ∧ At s i s.opened s.opened s.opened s.opened) ∨
  (s.opc i = .bspin ∧ ∃ k, s.opened = k + 1 ∧ At s i (k + 1) (k + 1) (k + 1) k)

/-- Processor `i` waiting at the fence. -/
def Waiting {n : Nat} (s : Rv n) (i : Fin n) : Prop :=
  s.opc i = .spin ∧ s.pend i = false ∧ At s i (s.opened + 1) s.opened s.opened s.opened

/-- Processor `i` while the initiator waits at the fence. -/
def Coming {n : Nat} (s : Rv n) (i : Fin n) : Prop :=
  (s.pend i = true ∧ Quiet s i) ∨
  (s.pend i = false ∧ (s.opc i = .joinTest ∨ s.opc i = .joinInc) ∧ At s i s.opened s.opened s.opened s.opened) ∨
  Waiting s i

/-- Processor `i` while the initiator waits at the second barrier. -/
def Going {n : Nat} (s : Rv n) (i : Fin n) : Prop :=
  s.pend i = false ∧ ∃ k, s.opened = k + 1 ∧
  ((s.opc i = .spin ∧ At s i (k + 1) k k k) ∨
   ((s.opc i = .bjoinTest ∨ s.opc i = .bjoinInc) ∧ At s i (k + 1) (k + 1) k k) ∨
   (s.opc i = .bspin ∧ At s i (k + 1) (k + 1) (k + 1) k))

/-- The invariant. -/
def Inv {n : Nat} (s : Rv n) : Prop :=
  match s.ipc with
  | .fenceTest | .fenceSet => s.fence = 0 ∧ s.barr = 0 ∧ s.closed = s.opened ∧ ∀ i, s.pend i = false ∧ Quiet s i
  | .send => s.fence = 1 ∧ s.barr = 0 ∧ s.closed = s.opened ∧ ∀ i, s.pend i = false ∧ Quiet s i
  | .waitTest | .wait => s.fence = 1 + cnt s.opc .spin ∧ s.barr = 0 ∧ s.closed = s.opened ∧ ∀ i, Coming s i
  | .space | .barrTest | .barrSet => s.fence = n + 1 ∧ s.barr = 0 ∧ s.closed = s.opened ∧ ∀ i, Waiting s i
  | .openTest | .openSet => s.fence = n + 1 ∧ s.barr = 1 ∧ s.closed = s.opened ∧ ∀ i, Waiting s i
  | .bwaitTest | .bwait => s.fence = 0 ∧ s.barr = 1 + cnt s.opc .bspin ∧ s.closed + 1 = s.opened ∧ ∀ i, Going s i
  | .closeTest | .closeSet => s.fence = 0 ∧ s.barr = n + 1 ∧ s.closed + 1 = s.opened ∧ ∀ i, Going s i ∧ s.opc i = .bspin

theorem inv_init (n : Nat) : Inv (Rv.init n) := by
  refine ⟨rfl, rfl, rfl, fun i => ⟨rfl, Or.inl ⟨rfl, rfl, rfl, rfl, rfl⟩⟩⟩

theorem inv_stepInit {n : Nat} {s : Rv n} (h : Inv s) : ∃ s', s.stepInit = some s' ∧ Inv s' := by
  unfold Inv at h
  unfold Rv.stepInit
  cases hp : s.ipc <;> rw [hp] at h <;> simp only at h ⊢
  case fenceTest =>
    refine ⟨_, if_pos h.1, ?_⟩
    exact h
  case fenceSet => exact ⟨_, rfl, rfl, h.2⟩
  case send =>
    refine ⟨_, rfl, ?_, h.2.1, h.2.2.1, fun i => Or.inl ⟨rfl, (h.2.2.2 i).2⟩⟩
    have : cnt s.opc .spin = 0 := cnt_none fun i => by
      rcases (h.2.2.2 i).2 with ⟨e, _⟩ | ⟨e, _⟩ <;> rw [e] <;> simp
    simp only [this]
    exact h.1
  case waitTest => exact ⟨_, if_pos (by omega), h⟩
  case wait =>
    by_cases hn : s.fence ≠ n + 1
    · refine ⟨s, if_pos hn, ?_⟩
      unfold Inv
      rw [hp]
      exact h
    · refine ⟨_, if_neg hn, by simp only; omega, h.2.1, h.2.2.1, fun i => ?_⟩
      have hall := cnt_all (f := s.opc) (c := .spin) (by omega) i
      rcases h.2.2.2 i with ⟨_, ⟨e, _⟩ | ⟨e, _⟩⟩ | ⟨_, e | e, _⟩ | hw
      · rw [hall] at e; cases e
      · rw [hall] at e; cases e
      · rw [hall] at e; cases e
      · rw [hall] at e; cases e
      · exact hw
  case space => exact ⟨_, rfl, h⟩
  case barrTest => exact ⟨_, if_pos h.2.1, h⟩
  case barrSet => exact ⟨_, rfl, h.1, rfl, h.2.2⟩
  case openTest => exact ⟨_, if_pos (by omega), h⟩
  case openSet =>
    refine ⟨_, rfl, rfl, ?_, by simp only; omega, fun i => ⟨(h.2.2.2 i).2.1, s.opened, rfl, Or.inl ⟨(h.2.2.2 i).1, (h.2.2.2 i).2.2⟩⟩⟩
    have : cnt s.opc .bspin = 0 := cnt_none fun i => by rw [(h.2.2.2 i).1]; simp
    simp only [this]
    exact h.2.1
  case bwaitTest => exact ⟨_, if_pos (by omega), h⟩
  case bwait =>
    by_cases hn : s.barr ≠ n + 1
    · refine ⟨s, if_pos hn, ?_⟩
      unfold Inv
      rw [hp]
      exact h
    · exact ⟨_, if_neg hn, h.1, by simp only; omega, h.2.2.1, fun i => ⟨h.2.2.2 i, cnt_all (f := s.opc) (c := .bspin) (by omega) i⟩⟩
  case closeTest => exact ⟨_, if_pos (by omega), h⟩
  case closeSet =>
    refine ⟨_, rfl, h.1, rfl, h.2.2.1, fun i => ?_⟩
    obtain ⟨⟨hq, k, hk, hg⟩, hb⟩ := h.2.2.2 i
    refine ⟨hq, Or.inr ⟨hb, k, hk, ?_⟩⟩
    rcases hg with ⟨e, _⟩ | ⟨e | e, _⟩ | ⟨_, e⟩
    · rw [hb] at e; cases e
    · rw [hb] at e; cases e
    · rw [hb] at e; cases e
    · exact e

/-- Two states agree on processor `j`. -/
def SameAt {n : Nat} (s s' : Rv n) (j : Fin n) : Prop :=
  s'.opc j = s.opc j ∧ s'.pend j = s.pend j ∧ s'.arrived j = s.arrived j ∧ s'.passed j = s.passed j ∧ s'.barrived j = s.barrived j ∧
  s'.left j = s.left j ∧ s'.opened = s.opened

theorem SameAt.all {n : Nat} {s s' : Rv n} {j : Fin n} (h : SameAt s s' j) :
    (Quiet s' j ↔ Quiet s j) ∧ (Waiting s' j ↔ Waiting s j) ∧ (Coming s' j ↔ Coming s j) ∧ (Going s' j ↔ Going s j) := by
  obtain ⟨h1, h2, h3, h4, h5, h6, h7⟩ := h
  simp only [Coming, Going, Waiting, Quiet, At, h1, h2, h3, h4, h5, h6, h7, and_self]

theorem incw_small {x : Nat} (h : x < 65535) : incw x = x + 1 := by unfold incw; omega

section
variable {n : Nat} {s : Rv n} {i : Fin n}

theorem step_take (e : s.opc i = .run) (h : s.pend i = true) : s.stepOther i =
    some { s with pend := Function.update s.pend i false, opc := Function.update s.opc i .joinTest } := by
  unfold Rv.stepOther; rw [e]; simp only; rw [if_pos h]
theorem step_run (e : s.opc i = .run) (h : s.pend i = false) : s.stepOther i = some s := by
  unfold Rv.stepOther; rw [e]; simp only; rw [if_neg (by simp [h])]
theorem step_joinTest (e : s.opc i = .joinTest) (h : s.fence > 0) : s.stepOther i =
    some { s with opc := Function.update s.opc i .joinInc } := by
  unfold Rv.stepOther; rw [e]; simp only; rw [if_pos h]
theorem step_joinInc (e : s.opc i = .joinInc) : s.stepOther i =
    some { s with fence := incw s.fence, arrived := Function.update s.arrived i (s.arrived i + 1), opc := Function.update s.opc i .spin } := by
  unfold Rv.stepOther; rw [e]
theorem step_spin (e : s.opc i = .spin) (h : s.fence ≠ 0) : s.stepOther i = some s := by
  unfold Rv.stepOther; rw [e]; simp only; rw [if_pos h]
theorem step_pass (e : s.opc i = .spin) (h : s.fence = 0) : s.stepOther i =
    some { s with passed := Function.update s.passed i (s.passed i + 1), opc := Function.update s.opc i .bjoinTest } := by
  unfold Rv.stepOther; rw [e]; simp only; rw [if_neg (by simp [h])]
theorem step_bjoinTest (e : s.opc i = .bjoinTest) (h : s.barr > 0) : s.stepOther i =
    some { s with opc := Function.update s.opc i .bjoinInc } := by
  unfold Rv.stepOther; rw [e]; simp only; rw [if_pos h]
theorem step_bjoinInc (e : s.opc i = .bjoinInc) : s.stepOther i =
    some { s with barr := incw s.barr, barrived := Function.update s.barrived i (s.barrived i + 1), opc := Function.update s.opc i .bspin } := by
  unfold Rv.stepOther; rw [e]
theorem step_bspin (e : s.opc i = .bspin) (h : s.barr ≠ 0) : s.stepOther i = some s := by
  unfold Rv.stepOther; rw [e]; simp only; rw [if_pos h]
theorem step_leave (e : s.opc i = .bspin) (h : s.barr = 0) : s.stepOther i =
    some { s with left := Function.update s.left i (s.left i + 1), opc := Function.update s.opc i .run } := by
  unfold Rv.stepOther; rw [e]; simp only; rw [if_neg (by simp [h])]
end

theorem inv_stepOther {n : Nat} (hn : n < 65535) {s : Rv n} (h : Inv s) (i : Fin n) : ∃ s', s.stepOther i = some s' ∧ Inv s' := by
  have same : ∀ (s' : Rv n), (∀ j, j ≠ i → SameAt s s' j) → ∀ j, j ≠ i → (s'.pend j = s.pend j) ∧ (Quiet s' j ↔ Quiet s j) ∧
      (Waiting s' j ↔ Waiting s j) ∧ (Coming s' j ↔ Coming s j) ∧ (Going s' j ↔ Going s j) ∧ s'.opc j = s.opc j :=
    fun s' hs j hj => ⟨(hs j hj).2.1, (hs j hj).all.1, (hs j hj).all.2.1, (hs j hj).all.2.2.1, (hs j hj).all.2.2.2, (hs j hj).1⟩
  -- the waiting states: a spinning step does nothing
  have stay : s.stepOther i = some s → ∃ s', s.stepOther i = some s' ∧ Inv s' := fun e => ⟨s, e, h⟩
  have hI := h
  -- departure from the second barrier, between rounds
  have quietStep : s.barr = 0 → Quiet s i → s.pend i = false ∨ s.opc i = .bspin →
      ∃ s', s.stepOther i = some s' ∧ (s' = s ∨ ((∀ j, j ≠ i → SameAt s s' j) ∧ s'.ipc = s.ipc ∧ s'.fence = s.fence ∧ s'.barr = s.barr ∧
        s'.closed = s.closed ∧ s'.opened = s.opened ∧ s'.pend = s.pend ∧ Quiet s' i ∧ s'.opc = Function.update s.opc i .run ∧ s.opc i = .bspin)) := by
    intro hb hq hp
    rcases hq with ⟨e, a⟩ | ⟨e, k, hk, a1, a2, a3, a4⟩
    · rcases hp with hp | hp
      · refine ⟨s, ?_, Or.inl rfl⟩
        exact step_run e hp
      · rw [e] at hp; cases hp
    · refine ⟨_, step_leave e hb, Or.inr ⟨?_, rfl, rfl, rfl, rfl, rfl, rfl, Or.inl ⟨by simp, ?_⟩, rfl, e⟩⟩
      · intro j hj
        simp [SameAt, Function.update_of_ne hj]
      · simp [At, a1, a2, a3, a4, hk]
  unfold Inv at h
  cases hp : s.ipc <;> rw [hp] at h <;> simp only at h
  case fenceTest =>
    obtain ⟨s', e, hs⟩ := quietStep h.2.1 (h.2.2.2 i).2 (Or.inl (h.2.2.2 i).1)
    refine ⟨s', e, ?_⟩
    rcases hs with hs | ⟨hs, e1, e2, e3, e4, e5, e6, e7, _⟩
    · rw [hs]; exact hI
    · unfold Inv
      rw [e1, hp]
      refine ⟨by rw [e2]; exact h.1, by rw [e3]; exact h.2.1, by rw [e4, e5]; exact h.2.2.1, fun j => ?_⟩
      by_cases hj : j = i
      · subst hj; exact ⟨by rw [e6]; exact (h.2.2.2 j).1, e7⟩
      · exact ⟨by rw [e6]; exact (h.2.2.2 j).1, (same s' hs j hj).2.1.2 (h.2.2.2 j).2⟩
  case fenceSet =>
    obtain ⟨s', e, hs⟩ := quietStep h.2.1 (h.2.2.2 i).2 (Or.inl (h.2.2.2 i).1)
    refine ⟨s', e, ?_⟩
    rcases hs with hs | ⟨hs, e1, e2, e3, e4, e5, e6, e7, _⟩
    · rw [hs]; exact hI
    · unfold Inv
      rw [e1, hp]
      refine ⟨by rw [e2]; exact h.1, by rw [e3]; exact h.2.1, by rw [e4, e5]; exact h.2.2.1, fun j => ?_⟩
      by_cases hj : j = i
      · subst hj; exact ⟨by rw [e6]; exact (h.2.2.2 j).1, e7⟩
      · exact ⟨by rw [e6]; exact (h.2.2.2 j).1, (same s' hs j hj).2.1.2 (h.2.2.2 j).2⟩
  case send =>
    obtain ⟨s', e, hs⟩ := quietStep h.2.1 (h.2.2.2 i).2 (Or.inl (h.2.2.2 i).1)
    refine ⟨s', e, ?_⟩
    rcases hs with hs | ⟨hs, e1, e2, e3, e4, e5, e6, e7, _⟩
    · rw [hs]; exact hI
    · unfold Inv
      rw [e1, hp]
      refine ⟨by rw [e2]; exact h.1, by rw [e3]; exact h.2.1, by rw [e4, e5]; exact h.2.2.1, fun j => ?_⟩
      by_cases hj : j = i
      · subst hj; exact ⟨by rw [e6]; exact (h.2.2.2 j).1, e7⟩
      · exact ⟨by rw [e6]; exact (h.2.2.2 j).1, (same s' hs j hj).2.1.2 (h.2.2.2 j).2⟩
  case space => exact stay (by simp [Rv.stepOther, (h.2.2.2 i).1, h.1])
  case barrTest => exact stay (by simp [Rv.stepOther, (h.2.2.2 i).1, h.1])
  case barrSet => exact stay (by simp [Rv.stepOther, (h.2.2.2 i).1, h.1])
  case openTest => exact stay (by simp [Rv.stepOther, (h.2.2.2 i).1, h.1])
  case openSet => exact stay (by simp [Rv.stepOther, (h.2.2.2 i).1, h.1])
  case closeTest => exact stay (by simp [Rv.stepOther, (h.2.2.2 i).2, h.2.1])
  case closeSet => exact stay (by simp [Rv.stepOther, (h.2.2.2 i).2, h.2.1])
  case waitTest =>
    have hc := h.2.2.2 i
    have key : ∃ s', s.stepOther i = some s' ∧ (∀ j, j ≠ i → SameAt s s' j) ∧ s'.ipc = s.ipc ∧ s'.barr = s.barr ∧
        s'.closed = s.closed ∧ s'.opened = s.opened ∧ Coming s' i ∧ s'.fence = 1 + cnt s'.opc .spin := by
      have hf := h.1
      rcases hc with ⟨hpe, hq⟩ | ⟨hpe, hj | hj, a1, a2, a3, a4⟩ | hw
      · rcases hq with ⟨e, a⟩ | ⟨e, k, hk, a1, a2, a3, a4⟩
        · refine ⟨_, step_take e hpe, ?_, rfl, rfl, rfl, rfl, Or.inr (Or.inl ⟨by simp, Or.inl (by simp), a⟩), ?_⟩
          · intro j hj
            simp [SameAt, Function.update_of_ne hj]
          · simp only
            rw [cnt_other (by rw [e]; simp) (by simp)]
            exact hf
        · refine ⟨_, step_leave e h.2.1, ?_, rfl, rfl, rfl, rfl, Or.inl ⟨hpe, Or.inl ⟨by simp, ?_⟩⟩, ?_⟩
          · intro j hj
            simp [SameAt, Function.update_of_ne hj]
          · simp [At, a1, a2, a3, a4, hk]
          · simp only
            rw [cnt_other (by rw [e]; simp) (by simp)]
            exact hf
      · refine ⟨_, step_joinTest hj (by omega), ?_, rfl, rfl, rfl, rfl,
          Or.inr (Or.inl ⟨hpe, Or.inr (by simp), a1, a2, a3, a4⟩), ?_⟩
        · intro j hj
          simp [SameAt, Function.update_of_ne hj]
        · simp only
          rw [cnt_other (by rw [hj]; simp) (by simp)]
          exact hf
      · refine ⟨_, step_joinInc hj, ?_, rfl, rfl, rfl, rfl, Or.inr (Or.inr ⟨by simp, hpe, by simp [a1], a2, a3, a4⟩), ?_⟩
        · intro j hj
          simp [SameAt, Function.update_of_ne hj]
        · simp only
          have hlt : cnt s.opc .spin < n := by
            rcases Nat.lt_or_ge (cnt s.opc .spin) n with hlt | hge
            · exact hlt
            · have := cnt_all (f := s.opc) (c := .spin) (Nat.le_antisymm (cnt_le _ _) hge) i
              rw [hj] at this
              cases this
          rw [cnt_enter (by rw [hj]; simp), incw_small (by omega)]
          omega
      · refine ⟨s, step_spin hw.1 (by omega), ?_, rfl, rfl, rfl, rfl, Or.inr (Or.inr hw), hf⟩
        intro j hj
        simp [SameAt]
    obtain ⟨s', e, hs, e1, e3, e4, e5, e7, e8⟩ := key
    refine ⟨s', e, ?_⟩
    unfold Inv
    rw [e1, hp]
    refine ⟨e8, by rw [e3]; exact h.2.1, by rw [e4, e5]; exact h.2.2.1, fun j => ?_⟩
    by_cases hj : j = i
    · subst hj; exact e7
    · exact (same s' hs j hj).2.2.2.1.2 (h.2.2.2 j)
  case wait =>
    have hc := h.2.2.2 i
    have key : ∃ s', s.stepOther i = some s' ∧ (∀ j, j ≠ i → SameAt s s' j) ∧ s'.ipc = s.ipc ∧ s'.barr = s.barr ∧
        s'.closed = s.closed ∧ s'.opened = s.opened ∧ Coming s' i ∧ s'.fence = 1 + cnt s'.opc .spin := by
      have hf := h.1
      rcases hc with ⟨hpe, hq⟩ | ⟨hpe, hj | hj, a1, a2, a3, a4⟩ | hw
      · rcases hq with ⟨e, a⟩ | ⟨e, k, hk, a1, a2, a3, a4⟩
        · refine ⟨_, step_take e hpe, ?_, rfl, rfl, rfl, rfl, Or.inr (Or.inl ⟨by simp, Or.inl (by simp), a⟩), ?_⟩
          · intro j hj
            simp [SameAt, Function.update_of_ne hj]
          · simp only
            rw [cnt_other (by rw [e]; simp) (by simp)]
            exact hf
        · refine ⟨_, step_leave e h.2.1, ?_, rfl, rfl, rfl, rfl, Or.inl ⟨hpe, Or.inl ⟨by simp, ?_⟩⟩, ?_⟩
          · intro j hj
            simp [SameAt, Function.update_of_ne hj]
          · simp [At, a1, a2, a3, a4, hk]
          · simp only
            rw [cnt_other (by rw [e]; simp) (by simp)]
            exact hf
      · refine ⟨_, step_joinTest hj (by omega), ?_, rfl, rfl, rfl, rfl,
          Or.inr (Or.inl ⟨hpe, Or.inr (by simp), a1, a2, a3, a4⟩), ?_⟩
        · intro j hj
          simp [SameAt, Function.update_of_ne hj]
        · simp only
          rw [cnt_other (by rw [hj]; simp) (by simp)]
          exact hf
      · refine ⟨_, step_joinInc hj, ?_, rfl, rfl, rfl, rfl, Or.inr (Or.inr ⟨by simp, hpe, by simp [a1], a2, a3, a4⟩), ?_⟩
        · intro j hj
          simp [SameAt, Function.update_of_ne hj]
        · simp only
          have hlt : cnt s.opc .spin < n := by
            rcases Nat.lt_or_ge (cnt s.opc .spin) n with hlt | hge
            · exact hlt
            · have := cnt_all (f := s.opc) (c := .spin) (Nat.le_antisymm (cnt_le _ _) hge) i
              rw [hj] at this
              cases this
          rw [cnt_enter (by rw [hj]; simp), incw_small (by omega)]
          omega
      · refine ⟨s, step_spin hw.1 (by omega), ?_, rfl, rfl, rfl, rfl, Or.inr (Or.inr hw), hf⟩
        intro j hj
        simp [SameAt]
    obtain ⟨s', e, hs, e1, e3, e4, e5, e7, e8⟩ := key
    refine ⟨s', e, ?_⟩
    unfold Inv
    rw [e1, hp]
    refine ⟨e8, by rw [e3]; exact h.2.1, by rw [e4, e5]; exact h.2.2.1, fun j => ?_⟩
    by_cases hj : j = i
    · subst hj; exact e7
    · exact (same s' hs j hj).2.2.2.1.2 (h.2.2.2 j)
  case bwaitTest =>
    have hc := h.2.2.2 i
    have key : ∃ s', s.stepOther i = some s' ∧ (∀ j, j ≠ i → SameAt s s' j) ∧ s'.ipc = s.ipc ∧ s'.fence = s.fence ∧
        s'.closed = s.closed ∧ s'.opened = s.opened ∧ Going s' i ∧ s'.barr = 1 + cnt s'.opc .bspin := by
      have hf := h.2.1
      obtain ⟨hpe, k, hk, ⟨e, a1, a2, a3, a4⟩ | ⟨e | e, a1, a2, a3, a4⟩ | ⟨e, a⟩⟩ := hc
      · refine ⟨_, step_pass e h.1, ?_, rfl, rfl, rfl, rfl, ⟨hpe, k, hk, Or.inr (Or.inl ⟨Or.inl (by simp), a1, by simp [a2], a3, a4⟩)⟩, ?_⟩
        · intro j hj
          simp [SameAt, Function.update_of_ne hj]
        · simp only
          rw [cnt_other (by rw [e]; simp) (by simp)]
          exact hf
      · refine ⟨_, step_bjoinTest e (by omega), ?_, rfl, rfl, rfl, rfl, ⟨hpe, k, hk, Or.inr (Or.inl ⟨Or.inr (by simp), a1, a2, a3, a4⟩)⟩, ?_⟩
        · intro j hj
          simp [SameAt, Function.update_of_ne hj]
        · simp only
          rw [cnt_other (by rw [e]; simp) (by simp)]
          exact hf
      · refine ⟨_, step_bjoinInc e, ?_, rfl, rfl, rfl, rfl, ⟨hpe, k, hk, Or.inr (Or.inr ⟨by simp, a1, a2, by simp [a3], a4⟩)⟩, ?_⟩
        · intro j hj
          simp [SameAt, Function.update_of_ne hj]
        · simp only
          have hlt : cnt s.opc .bspin < n := by
            rcases Nat.lt_or_ge (cnt s.opc .bspin) n with hlt | hge
            · exact hlt
            · have := cnt_all (f := s.opc) (c := .bspin) (Nat.le_antisymm (cnt_le _ _) hge) i
              rw [e] at this
              cases this
          rw [cnt_enter (by rw [e]; simp), incw_small (by omega)]
          omega
      · refine ⟨s, step_bspin e (by omega), ?_, rfl, rfl, rfl, rfl, ⟨hpe, k, hk, Or.inr (Or.inr ⟨e, a⟩)⟩, hf⟩
        intro j hj
        simp [SameAt]
    obtain ⟨s', e, hs, e1, e3, e4, e5, e7, e8⟩ := key
    refine ⟨s', e, ?_⟩
    unfold Inv
    rw [e1, hp]
    refine ⟨by rw [e3]; exact h.1, e8, by rw [e4, e5]; exact h.2.2.1, fun j => ?_⟩
    by_cases hj : j = i
    · subst hj; exact e7
    · exact (same s' hs j hj).2.2.2.2.1.2 (h.2.2.2 j)
  case bwait =>
    have hc := h.2.2.2 i
    have key : ∃ s', s.stepOther i = some s' ∧ (∀ j, j ≠ i → SameAt s s' j) ∧ s'.ipc = s.ipc ∧ s'.fence = s.fence ∧
        s'.closed = s.closed ∧ s'.opened = s.opened ∧ Going s' i ∧ s'.barr = 1 + cnt s'.opc .bspin := by
      have hf := h.2.1
      obtain ⟨hpe, k, hk, ⟨e, a1, a2, a3, a4⟩ | ⟨e | e, a1, a2, a3, a4⟩ | ⟨e, a⟩⟩ := hc
      · refine ⟨_, step_pass e h.1, ?_, rfl, rfl, rfl, rfl, ⟨hpe, k, hk, Or.inr (Or.inl ⟨Or.inl (by simp), a1, by simp [a2], a3, a4⟩)⟩, ?_⟩
        · intro j hj
          simp [SameAt, Function.update_of_ne hj]
        · simp only
          rw [cnt_other (by rw [e]; simp) (by simp)]
          exact hf
      · refine ⟨_, step_bjoinTest e (by omega), ?_, rfl, rfl, rfl, rfl, ⟨hpe, k, hk, Or.inr (Or.inl ⟨Or.inr (by simp), a1, a2, a3, a4⟩)⟩, ?_⟩
        · intro j hj
          simp [SameAt, Function.update_of_ne hj]
        · simp only
          rw [cnt_other (by rw [e]; simp) (by simp)]
          exact hf
      · refine ⟨_, step_bjoinInc e, ?_, rfl, rfl, rfl, rfl, ⟨hpe, k, hk, Or.inr (Or.inr ⟨by simp, a1, a2, by simp [a3], a4⟩)⟩, ?_⟩
        · intro j hj
          simp [SameAt, Function.update_of_ne hj]
        · simp only
          have hlt : cnt s.opc .bspin < n := by
            rcases Nat.lt_or_ge (cnt s.opc .bspin) n with hlt | hge
            · exact hlt
            · have := cnt_all (f := s.opc) (c := .bspin) (Nat.le_antisymm (cnt_le _ _) hge) i
              rw [e] at this
              cases this
          rw [cnt_enter (by rw [e]; simp), incw_small (by omega)]
          omega
      · refine ⟨s, step_bspin e (by omega), ?_, rfl, rfl, rfl, rfl, ⟨hpe, k, hk, Or.inr (Or.inr ⟨e, a⟩)⟩, hf⟩
        intro j hj
        simp [SameAt]
    obtain ⟨s', e, hs, e1, e3, e4, e5, e7, e8⟩ := key
    refine ⟨s', e, ?_⟩
    unfold Inv
    rw [e1, hp]
    refine ⟨by rw [e3]; exact h.1, e8, by rw [e4, e5]; exact h.2.2.1, fun j => ?_⟩
    by_cases hj : j = i
    · subst hj; exact e7
    · exact (same s' hs j hj).2.2.2.2.1.2 (h.2.2.2 j)

theorem inv_steps {n : Nat} (hn : n < 65535) {s : Rv n} (h : Inv s) (as : List (Option (Fin n))) :
    ∃ s', s.steps as = some s' ∧ Inv s' := by
  induction as generalizing s with
  | nil => exact ⟨s, rfl, h⟩
  | cons a as ih =>
    have : ∃ s1, s.step a = some s1 ∧ Inv s1 := by
      cases a with
      | none => exact inv_stepInit h
      | some i => exact inv_stepOther hn h i
    obtain ⟨s1, e1, h1⟩ := this
    obtain ⟨s2, e2, h2⟩ := ih h1
    exact ⟨s2, by simp [Rv.steps, e1, e2], h2⟩

theorem Quiet.bounds {n : Nat} {s : Rv n} {i : Fin n} (h : Quiet s i) :
    s.arrived i = s.opened ∧ s.passed i = s.opened ∧ s.barrived i = s.opened ∧ s.left i ≤ s.opened ∧ s.opened ≤ s.left i + 1 := by
  rcases h with ⟨_, h1, h2, h3, h4⟩ | ⟨_, k, hk, h1, h2, h3, h4⟩ <;> omega

theorem Waiting.bounds {n : Nat} {s : Rv n} {i : Fin n} (h : Waiting s i) :
    s.arrived i = s.opened + 1 ∧ s.passed i = s.opened ∧ s.barrived i = s.opened ∧ s.left i = s.opened := h.2.2

theorem Coming.bounds {n : Nat} {s : Rv n} {i : Fin n} (h : Coming s i) :
    s.opened ≤ s.arrived i ∧ s.arrived i ≤ s.opened + 1 ∧ s.passed i = s.opened ∧ s.barrived i = s.opened ∧ s.left i ≤ s.opened := by
  rcases h with ⟨_, h⟩ | ⟨_, _, h1, h2, h3, h4⟩ | h
  · have := h.bounds; omega
  · omega
  · have := h.bounds; omega

theorem Going.bounds {n : Nat} {s : Rv n} {i : Fin n} (h : Going s i) :
    s.arrived i = s.opened ∧ s.passed i ≤ s.opened ∧ s.opened ≤ s.passed i + 1 ∧ s.barrived i ≤ s.opened ∧ s.opened ≤ s.barrived i + 1 ∧
    s.opened = s.left i + 1 ∧ (s.opc i = .bspin → s.barrived i = s.opened ∧ s.passed i = s.opened) := by
  obtain ⟨_, k, hk, ⟨e, h1, h2, h3, h4⟩ | ⟨e, h1, h2, h3, h4⟩ | ⟨e, h1, h2, h3, h4⟩⟩ := h
  · refine ⟨by omega, by omega, by omega, by omega, by omega, by omega, fun hb => ?_⟩
    rw [e] at hb; cases hb
  · refine ⟨by omega, by omega, by omega, by omega, by omega, by omega, fun hb => ?_⟩
    rcases e with e | e <;> (rw [e] at hb; cases hb)
  · refine ⟨by omega, by omega, by omega, by omega, by omega, by omega, fun hb => by omega⟩

/-- The rendezvous, for every number of other processors (at most 254 in the code: `multiprocessing_system` is a byte), every
interleaving and any number of rounds:
* no assertion fails;
* while the initiator switches the address space, every other processor is stopped at the fence;
* the `k`-th opening of the fence comes after the `k`-th arrival of every processor, and no processor passes the fence for the `k`-th
  time before the `k`-th opening; nobody is more than one round ahead;
* the same for the second barrier and its closing: the next round starts when every processor has left the fence. -/
theorem C51_barrier (n : Nat) (hn : n < 255) (as : List (Option (Fin n))) :
    ∃ s, (Rv.init n).steps as = some s ∧
    (s.ipc = .space → ∀ i, s.opc i = .spin) ∧
    (∀ i, s.passed i ≤ s.opened ∧ s.opened ≤ s.arrived i ∧ s.arrived i ≤ s.opened + 1) ∧
    (∀ i, s.left i ≤ s.closed ∧ s.closed ≤ s.barrived i ∧ s.closed ≤ s.passed i ∧ s.barrived i ≤ s.closed + 1) := by
  obtain ⟨s, e, h⟩ := inv_steps (by omega) (inv_init n) as
  refine ⟨s, e, ?_, ?_, ?_⟩
  · intro hp i
    unfold Inv at h
    rw [hp] at h
    exact (h.2.2.2 i).1
  all_goals
    intro i
    unfold Inv at h
    cases hp : s.ipc <;> rw [hp] at h <;> simp only at h <;> obtain ⟨_, _, hc, h⟩ := h <;> have hi := h i
    case fenceTest => have := hi.2.bounds; omega
    case fenceSet => have := hi.2.bounds; omega
    case send => have := hi.2.bounds; omega
    case waitTest => have := hi.bounds; omega
    case wait => have := hi.bounds; omega
    case space => have := hi.bounds; omega
    case barrTest => have := hi.bounds; omega
    case barrSet => have := hi.bounds; omega
    case openTest => have := hi.bounds; omega
    case openSet => have := hi.bounds; omega
    case bwaitTest => have := hi.bounds; omega
    case bwait => have := hi.bounds; omega
    case closeTest => have := hi.1.bounds; have := this.2.2.2.2.2.2 hi.2; omega
    case closeSet => have := hi.1.bounds; have := this.2.2.2.2.2.2 hi.2; omega

/-- Two processors, one whole round. -/
example : ((Rv.init 1).steps [none, none, none, some 0, none, some 0, some 0, none, none, none, none, none, none, some 0, some 0, some 0, none, none, none, none,
    some 0]).map (fun s => (s.opened, s.closed, s.left 0, s.ipc)) = some (1, 1, 1, .fenceTest) := by decide

/-! ## Progress -/

/-- Steps the initiator still has to make to end the round. -/
def remI : Ipc → Nat
  | .fenceTest => 13 | .fenceSet => 12 | .send => 11 | .waitTest => 10 | .wait => 9 | .space => 8 | .barrTest => 7 | .barrSet => 6
  | .openTest => 5 | .openSet => 4 | .bwaitTest => 3 | .bwait => 2 | .closeTest => 1 | .closeSet => 0

/-- Steps another processor still has to make before the initiator can end the round. -/
def remO (after : Bool) : Opc → Nat
  | .run => 6 | .joinTest => 5 | .joinInc => 4 | .spin => 3 | .bjoinTest => 2 | .bjoinInc => 1 | .bspin => if after then 0 else 7

/-- The fence is open again. -/
def afterOpen : Ipc → Bool
  | .bwaitTest | .bwait | .closeTest | .closeSet => true
  | _ => false

/-- Steps still to be made in the round, all processors together. -/
def rank {n : Nat} (s : Rv n) : Nat := remI s.ipc + ∑ i, remO (afterOpen s.ipc) (s.opc i)

theorem rank_update {n : Nat} {s s' : Rv n} {i : Fin n} {c : Opc} (h1 : s'.ipc = s.ipc) (h2 : s'.opc = Function.update s.opc i c)
    (h3 : remO (afterOpen s.ipc) c < remO (afterOpen s.ipc) (s.opc i)) : rank s' < rank s := by
  unfold rank
  rw [h1, h2]
  have : ∑ j, remO (afterOpen s.ipc) (Function.update s.opc i c j) < ∑ j, remO (afterOpen s.ipc) (s.opc j) := by
    apply Finset.sum_lt_sum
    · intro j _
      by_cases hj : j = i
      · subst hj; simp only [Function.update_self]; omega
      · rw [Function.update_of_ne hj]
    · exact ⟨i, Finset.mem_univ i, by simpa using h3⟩
  omega

theorem other_effect {n : Nat} {s s' : Rv n} (h : Inv s) {i : Fin n} (e : s.stepOther i = some s') :
    s' = s ∨ (s'.closed = s.closed ∧ rank s' < rank s) := by
  unfold Rv.stepOther at e
  cases ho : s.opc i <;> rw [ho] at e <;> simp only at e
  case run =>
    split at e
    · cases e
      exact Or.inr ⟨rfl, rank_update (i := i) (c := .joinTest) rfl rfl (by rw [ho]; simp [remO])⟩
    · cases e; exact Or.inl rfl
  case joinTest =>
    split at e
    · cases e; exact Or.inr ⟨rfl, rank_update (i := i) (c := .joinInc) rfl rfl (by rw [ho]; simp [remO])⟩
    · cases e
  case joinInc => cases e; exact Or.inr ⟨rfl, rank_update (i := i) (c := .spin) rfl rfl (by rw [ho]; simp [remO])⟩
  case spin =>
    split at e
    · cases e; exact Or.inl rfl
    · cases e; exact Or.inr ⟨rfl, rank_update (i := i) (c := .bjoinTest) rfl rfl (by rw [ho]; simp [remO])⟩
  case bjoinTest =>
    split at e
    · cases e; exact Or.inr ⟨rfl, rank_update (i := i) (c := .bjoinInc) rfl rfl (by rw [ho]; simp [remO])⟩
    · cases e
  case bjoinInc =>
    have ha : afterOpen s.ipc = true := by
      unfold Inv at h
      cases hp : s.ipc <;> rw [hp] at h <;> simp only at h <;> first | rfl | (exfalso; have hi := h.2.2.2 i)
      case fenceTest => rcases hi.2 with ⟨x, _⟩ | ⟨x, _⟩ <;> (rw [ho] at x; cases x)
      case fenceSet => rcases hi.2 with ⟨x, _⟩ | ⟨x, _⟩ <;> (rw [ho] at x; cases x)
      case send => rcases hi.2 with ⟨x, _⟩ | ⟨x, _⟩ <;> (rw [ho] at x; cases x)
      case waitTest => rcases hi with ⟨_, ⟨x, _⟩ | ⟨x, _⟩⟩ | ⟨_, x | x, _⟩ | ⟨x, _⟩ <;> (rw [ho] at x; cases x)
      case wait => rcases hi with ⟨_, ⟨x, _⟩ | ⟨x, _⟩⟩ | ⟨_, x | x, _⟩ | ⟨x, _⟩ <;> (rw [ho] at x; cases x)
      all_goals (have x := hi.1; rw [ho] at x; cases x)
    cases e; exact Or.inr ⟨rfl, rank_update (i := i) (c := .bspin) rfl rfl (by rw [ho]; simp [remO, ha])⟩
  case bspin =>
    split at e
    · cases e; exact Or.inl rfl
    · rename_i hb
      have ha : afterOpen s.ipc = false := by
        unfold Inv at h
        cases hp : s.ipc <;> rw [hp] at h <;> simp only at h <;> first | rfl | (exfalso; omega)
      cases e
      exact Or.inr ⟨rfl, rank_update (i := i) (c := .run) rfl rfl (by rw [ho]; simp [remO, ha])⟩

theorem rank_init {n : Nat} {s s' : Rv n} (h1 : s'.opc = s.opc) (h2 : remI s'.ipc < remI s.ipc)
    (h3 : ∀ i, remO (afterOpen s'.ipc) (s.opc i) ≤ remO (afterOpen s.ipc) (s.opc i)) : rank s' < rank s := by
  unfold rank
  rw [h1]
  have : ∑ j, remO (afterOpen s'.ipc) (s.opc j) ≤ ∑ j, remO (afterOpen s.ipc) (s.opc j) := Finset.sum_le_sum fun i _ => h3 i
  omega

theorem init_effect {n : Nat} {s s' : Rv n} (h : Inv s) (e : s.stepInit = some s') :
    s' = s ∨ (s'.closed = s.closed ∧ rank s' < rank s) ∨ s'.closed = s.closed + 1 := by
  unfold Rv.stepInit at e
  have same : ∀ (c : Ipc), s'.opc = s.opc → s'.ipc = c → s'.closed = s.closed → remI c < remI s.ipc → afterOpen c = afterOpen s.ipc →
      s' = s ∨ (s'.closed = s.closed ∧ rank s' < rank s) ∨ s'.closed = s.closed + 1 := fun c h1 h2 h3 h4 h5 =>
    Or.inr (Or.inl ⟨h3, rank_init h1 (by rw [h2]; exact h4) (fun i => by rw [h2, h5])⟩)
  cases hp : s.ipc <;> rw [hp] at e same <;> simp only at e
  case fenceTest => split at e <;> cases e; exact same .fenceSet rfl rfl rfl (by simp [remI]) rfl
  case fenceSet => cases e; exact same .send rfl rfl rfl (by simp [remI]) rfl
  case send => cases e; exact same .waitTest rfl rfl rfl (by simp [remI]) rfl
  case waitTest => split at e <;> cases e; exact same .wait rfl rfl rfl (by simp [remI]) rfl
  case wait =>
    split at e <;> cases e
    · exact Or.inl rfl
    · exact same .space rfl rfl rfl (by simp [remI]) rfl
  case space => cases e; exact same .barrTest rfl rfl rfl (by simp [remI]) rfl
  case barrTest => split at e <;> cases e; exact same .barrSet rfl rfl rfl (by simp [remI]) rfl
  case barrSet => cases e; exact same .openTest rfl rfl rfl (by simp [remI]) rfl
  case openTest => split at e <;> cases e; exact same .openSet rfl rfl rfl (by simp [remI]) rfl
  case openSet =>
    cases e
    refine Or.inr (Or.inl ⟨rfl, rank_init rfl (by rw [hp]; simp [remI]) fun i => ?_⟩)
    simp only [hp, afterOpen]
    cases s.opc i <;> simp [remO]
  case bwaitTest => split at e <;> cases e; exact same .bwait rfl rfl rfl (by simp [remI]) rfl
  case bwait =>
    split at e <;> cases e
    · exact Or.inl rfl
    · exact same .closeTest rfl rfl rfl (by simp [remI]) rfl
  case closeTest => split at e <;> cases e; exact same .closeSet rfl rfl rfl (by simp [remI]) rfl
  case closeSet => cases e; exact Or.inr (Or.inr rfl)

theorem exists_not {n : Nat} {f : Fin n → Opc} {c : Opc} (h : cnt f c ≠ n) : ∃ i, f i ≠ c := by
  by_contra hc
  push_neg at hc
  apply h
  unfold cnt
  rw [Finset.filter_true_of_mem (fun i _ => hc i)]
  simp

theorem upd_ne {n : Nat} {f : Fin n → Opc} {i : Fin n} {c : Opc} (h : c ≠ f i) : Function.update f i c ≠ f := by
  intro e
  have := congrFun e i
  rw [Function.update_self] at this
  exact h this

theorem can_move {n : Nat} {s : Rv n} (h : Inv s) : ∃ a s', s.step a = some s' ∧ s' ≠ s := by
  have hi := h
  have viaInit : (∀ s', s.stepInit = some s' → s'.ipc ≠ s.ipc) → ∃ a s', s.step a = some s' ∧ s' ≠ s := by
    intro hne
    obtain ⟨s', e, _⟩ := inv_stepInit hi
    exact ⟨none, s', e, fun hc => hne s' e (by rw [hc])⟩
  have viaOther : ∀ i, (∃ s', s.stepOther i = some s' ∧ s'.opc ≠ s.opc) → ∃ a s', s.step a = some s' ∧ s' ≠ s := by
    rintro i ⟨s', e, hne⟩
    exact ⟨some i, s', e, fun hc => hne (by rw [hc])⟩
  unfold Inv at h
  cases hp : s.ipc <;> rw [hp] at h <;> simp only at h
  case wait =>
    by_cases hf : s.fence = n + 1
    · exact viaInit (by intro s' e; simp only [Rv.stepInit, hp] at e; rw [if_neg (by simp [hf])] at e; cases e; simp [hp])
    · obtain ⟨i, hne⟩ := exists_not (f := s.opc) (c := .spin) (by omega)
      apply viaOther i
      rcases h.2.2.2 i with ⟨hq, ⟨x, _⟩ | ⟨x, _⟩⟩ | ⟨_, x | x, _⟩ | ⟨x, _⟩
      · exact ⟨_, step_take x hq, upd_ne (by rw [x]; simp)⟩
      · exact ⟨_, step_leave x h.2.1, upd_ne (by rw [x]; simp)⟩
      · exact ⟨_, step_joinTest x (by omega), upd_ne (by rw [x]; simp)⟩
      · exact ⟨_, step_joinInc x, upd_ne (by rw [x]; simp)⟩
      · exact absurd x hne
  case bwait =>
    by_cases hf : s.barr = n + 1
    · exact viaInit (by intro s' e; simp only [Rv.stepInit, hp] at e; rw [if_neg (by simp [hf])] at e; cases e; simp [hp])
    · obtain ⟨i, hne⟩ := exists_not (f := s.opc) (c := .bspin) (by omega)
      apply viaOther i
      obtain ⟨_, k, _, ⟨x, _⟩ | ⟨x | x, _⟩ | ⟨x, _⟩⟩ := h.2.2.2 i
      · exact ⟨_, step_pass x h.1, upd_ne (by rw [x]; simp)⟩
      · exact ⟨_, step_bjoinTest x (by omega), upd_ne (by rw [x]; simp)⟩
      · exact ⟨_, step_bjoinInc x, upd_ne (by rw [x]; simp)⟩
      · exact absurd x hne
  all_goals
    apply viaInit
    intro s' e
    simp only [Rv.stepInit, hp] at e
    first
    | (cases e; simp [hp]; done)
    | (split at e <;> cases e; simp [hp])

/-- The rendezvous ends: in every reachable state some processor can make a step that changes the state, and such a step either ends the
round or reduces the number of steps left, which is never more than 13 + 7 n. -/
theorem C51_progress (n : Nat) (hn : n < 255) (as : List (Option (Fin n))) (s : Rv n) (hs : (Rv.init n).steps as = some s) :
    rank s ≤ 13 + 7 * n ∧ (∃ a s', s.step a = some s' ∧ s' ≠ s) ∧
    (∀ a s', s.step a = some s' → s' = s ∨ (s'.closed = s.closed ∧ rank s' < rank s) ∨ s'.closed = s.closed + 1) := by
  obtain ⟨s1, e, h⟩ := inv_steps (by omega) (inv_init n) as
  rw [e] at hs
  have hs : s1 = s := Option.some.inj hs
  subst hs
  refine ⟨?_, can_move h, ?_⟩
  · unfold rank
    have h1 : remI s1.ipc ≤ 13 := by cases s1.ipc <;> simp [remI]
    have h2 : ∑ i, remO (afterOpen s1.ipc) (s1.opc i) ≤ n * 7 := by
      have := Finset.sum_le_card_nsmul (Finset.univ : Finset (Fin n)) (fun i => remO (afterOpen s1.ipc) (s1.opc i)) 7 (by
        intro i _
        cases s1.opc i <;> simp [remO]
        split <;> omega)
      simpa using this
    omega
  · intro a s' e
    cases a with
    | none => exact init_effect h e
    | some i =>
      rcases other_effect h e with h1 | h1
      · exact Or.inl h1
      · exact Or.inr (Or.inl h1)

/-- So every reachable state has a continuation that ends the round. -/
theorem C51_completes (n : Nat) (hn : n < 255) (as : List (Option (Fin n))) (s : Rv n) (hs : (Rv.init n).steps as = some s) :
    ∃ bs s', s.steps bs = some s' ∧ s'.closed = s.closed + 1 := by
  obtain ⟨s1, e, h⟩ := inv_steps (by omega) (inv_init n) as
  rw [e] at hs
  have hs : s1 = s := Option.some.inj hs
  subst hs
  clear e
  induction hr : rank s1 using Nat.strongRecOn generalizing s1 with
  | _ r ih =>
    obtain ⟨a, s2, e2, hne⟩ := can_move h
    have h2 : Inv s2 := by
      cases a with
      | none => obtain ⟨x, ex, hx⟩ := inv_stepInit h; rw [show s1.stepInit = some s2 from e2] at ex; cases ex; exact hx
      | some i => obtain ⟨x, ex, hx⟩ := inv_stepOther (by omega) h i; rw [show s1.stepOther i = some s2 from e2] at ex; cases ex; exact hx
    have eff : s2 = s1 ∨ (s2.closed = s1.closed ∧ rank s2 < rank s1) ∨ s2.closed = s1.closed + 1 := by
      cases a with
      | none => exact init_effect h e2
      | some i => exact (other_effect h e2).imp id Or.inl
    rcases eff with hc | ⟨hc, hlt⟩ | hc
    · exact absurd hc hne
    · obtain ⟨bs, s3, e3, h3⟩ := ih (rank s2) (by omega) s2 h2 rfl rfl
      exact ⟨a :: bs, s3, by simp [Rv.steps, e2, e3], by omega⟩
    · exact ⟨[a], s2, by simp [Rv.steps, e2], hc⟩

/-! ## Spinlocks -/

/-- What a processor may do outside the macros: take a lock it does not have, release one it has. -/
def Allowed (s : Sl) (p : Nat) : Sop → Prop
  | .work => True
  | .lock l => l ∉ s.held p
  | .unlock l => l ∈ s.held p

/-- An interleaving of disciplined processors. -/
def Disciplined (s : Sl) : List (Nat × Sop) → Prop
  | [] => True
  | (p, o) :: es => (s.pc p = .out → Allowed s p o) ∧ ∀ s', s.step p o = some s' → Disciplined s' es

/-- What holds of processor `p` at each point. -/
def SlAt (s : Sl) (p : Nat) : Prop :=
  match s.pc p with
  | .out => s.count p = (s.held p).length
  | .xchg l => s.count p = (s.held p).length ∧ l ∉ s.held p
  | .count l => s.count p + 1 = (s.held p).length ∧ l ∈ s.held p
  | .test l => s.count p = (s.held p).length ∧ l ∈ s.held p
  | .test2 l => s.count p = (s.held p).length ∧ l ∈ s.held p
  | .uncount l => s.count p = (s.held p).length ∧ l ∈ s.held p
  | .clear l => s.count p + 1 = (s.held p).length ∧ l ∈ s.held p

structure SlInv (s : Sl) : Prop where
  one : ∀ p q l, l ∈ s.held p → l ∈ s.held q → p = q
  nodup : ∀ p, (s.held p).Nodup
  taken : ∀ l, s.lock l ≠ 0 ↔ ∃ p, l ∈ s.held p
  at_ : ∀ p, SlAt s p

theorem slAt_congr {s s' : Sl} {p : Nat} (h1 : s'.pc p = s.pc p) (h2 : s'.count p = s.count p) (h3 : s'.held p = s.held p)
    (h : SlAt s p) : SlAt s' p := by
  unfold SlAt at *
  rw [h1, h2, h3]
  exact h

theorem slAt_move {s s' : Sl} {p : Nat} (h : ∀ q, SlAt s q) (h1 : ∀ q, q ≠ p → s'.pc q = s.pc q) (h2 : ∀ q, q ≠ p → s'.count q = s.count q)
    (h3 : ∀ q, q ≠ p → s'.held q = s.held q) (h4 : SlAt s' p) : ∀ q, SlAt s' q := by
  intro q
  by_cases hq : q = p
  · subst hq; exact h4
  · exact slAt_congr (h1 q hq) (h2 q hq) (h3 q hq) (h q)

theorem sl_init : SlInv Sl.init :=
  ⟨by simp [Sl.init], by simp [Sl.init], by simp [Sl.init], by intro p; simp [SlAt, Sl.init]⟩

theorem sl_step {s : Sl} (h : SlInv s) {p : Nat} {o : Sop} (ha : s.pc p = .out → Allowed s p o) : ∃ s', s.step p o = some s' ∧ SlInv s' := by
  have hat := h.at_ p
  have pcOnly : ∀ c : Spc, SlAt { s with pc := Function.update s.pc p c } p → SlInv { s with pc := Function.update s.pc p c } := by
    intro c hc
    exact ⟨h.one, h.nodup, h.taken, slAt_move (p := p) h.at_ (fun q hq => by simp [hq]) (fun _ _ => rfl) (fun _ _ => rfl) hc⟩
  unfold Sl.step
  unfold SlAt at hat
  cases hp : s.pc p <;> rw [hp] at hat <;> simp only at hat ⊢
  case out =>
    have ha := ha hp
    cases o with
    | work => exact ⟨s, rfl, h⟩
    | lock l => exact ⟨_, rfl, pcOnly _ (by simp only [SlAt, Function.update_self]; exact ⟨hat, ha⟩)⟩
    | unlock l => exact ⟨_, rfl, pcOnly _ (by simp only [SlAt, Function.update_self]; exact ⟨hat, ha⟩)⟩
  case xchg l =>
    by_cases hl : s.lock l ≠ 0
    · rw [if_pos hl]
      refine ⟨_, rfl, h.one, h.nodup, fun m => ?_, fun q => slAt_congr rfl rfl rfl (h.at_ q)⟩
      by_cases hm : m = l
      · subst hm; simp only [Function.update_self]; exact ⟨fun _ => (h.taken m).1 hl, fun _ => by omega⟩
      · simp only [ne_eq, hm, not_false_eq_true, Function.update_of_ne]; exact h.taken m
    · rw [if_neg hl]
      have hno : ∀ q, l ∉ s.held q := fun q hq => hl ((h.taken l).2 ⟨q, hq⟩)
      refine ⟨_, rfl, ?_, ?_, ?_, slAt_move (p := p) h.at_ (fun q hq => by simp [hq]) (fun _ _ => rfl) (fun q hq => by simp [hq]) ?_⟩
      · intro a b m
        by_cases ha : a = p <;> by_cases hb : b = p <;> simp only [ha, hb, Function.update_self, ne_eq, not_false_eq_true, Function.update_of_ne, List.mem_cons]
        · intros; trivial
        · rintro (e | e) e'
          · subst e; exact absurd e' (hno b)
          · exact h.one p b m e e'
        · rintro e (e' | e')
          · subst e'; exact absurd e (hno a)
          · exact ha (h.one a p m e e')
        · exact h.one a b m
      · intro a
        by_cases ha : a = p
        · subst ha; simp only [Function.update_self, List.nodup_cons]; exact ⟨hno a, h.nodup a⟩
        · simp only [ne_eq, ha, not_false_eq_true, Function.update_of_ne]; exact h.nodup a
      · intro m
        by_cases hm : m = l
        · subst hm
          simp only [Function.update_self]
          exact ⟨fun _ => ⟨p, by simp⟩, fun _ => by omega⟩
        · simp only [ne_eq, hm, not_false_eq_true, Function.update_of_ne]
          rw [← ne_eq, h.taken m]
          constructor
          · rintro ⟨a, hma⟩
            by_cases hap : a = p
            · subst hap; exact ⟨a, by simp [hma]⟩
            · exact ⟨a, by simp [hap, hma]⟩
          · rintro ⟨a, ha⟩
            by_cases hap : a = p
            · subst hap; simp [hm] at ha; exact ⟨a, ha⟩
            · simp [hap] at ha; exact ⟨a, ha⟩
      · simp only [SlAt, Function.update_self, List.length_cons, List.mem_cons]
        exact ⟨by omega, by simp⟩
  case count l =>
    refine ⟨_, rfl, h.one, h.nodup, h.taken, slAt_move (p := p) h.at_ (fun q hq => by simp [hq]) (fun q hq => by simp [hq]) (fun _ _ => rfl) ?_⟩
    simp only [SlAt, Function.update_self]; exact hat.1
  case test l =>
    rw [if_pos ((h.taken l).2 ⟨p, hat.2⟩)]
    exact ⟨_, rfl, pcOnly _ (by simp only [SlAt, Function.update_self]; exact hat)⟩
  case test2 l =>
    have : 0 < (s.held p).length := List.length_pos_of_mem hat.2
    rw [if_pos (by omega)]
    exact ⟨_, rfl, pcOnly _ (by simp only [SlAt, Function.update_self]; exact hat)⟩
  case uncount l =>
    have : 0 < (s.held p).length := List.length_pos_of_mem hat.2
    refine ⟨_, rfl, h.one, h.nodup, h.taken, slAt_move (p := p) h.at_ (fun q hq => by simp [hq]) (fun q hq => by simp [hq]) (fun _ _ => rfl) ?_⟩
    simp only [SlAt, Function.update_self]
    exact ⟨by omega, hat.2⟩
  case clear l =>
    have hsub : ∀ a m, m ∈ Function.update s.held p ((s.held p).erase l) a ↔ m ∈ s.held a ∧ ¬(a = p ∧ m = l) := by
      intro a m
      by_cases ha : a = p
      · subst ha
        simp only [Function.update_self, (h.nodup a).mem_erase_iff, true_and, ne_eq]
        exact And.comm
      · simp [ha]
    refine ⟨_, rfl, ?_, ?_, ?_, slAt_move (p := p) h.at_ (fun q hq => by simp [hq]) (fun _ _ => rfl) (fun q hq => by simp [hq]) ?_⟩
    · intro a b m e1 e2
      exact h.one a b m ((hsub a m).1 e1).1 ((hsub b m).1 e2).1
    · intro a
      by_cases ha : a = p
      · subst ha; simp only [Function.update_self]; exact (h.nodup a).erase l
      · simp only [ne_eq, ha, not_false_eq_true, Function.update_of_ne]; exact h.nodup a
    · intro m
      simp only [hsub]
      by_cases hm : m = l
      · subst hm
        simp only [Function.update_self, ne_eq, not_true_eq_false, false_iff, and_true]
        rintro ⟨a, e1, e2⟩
        exact e2 (h.one a p m e1 hat.2)
      · simp only [ne_eq, hm, not_false_eq_true, Function.update_of_ne, and_false, and_true]; exact h.taken m
    · simp only [SlAt, Function.update_self, List.length_erase_of_mem hat.2]
      omega

theorem sl_steps {s : Sl} (h : SlInv s) (es : List (Nat × Sop)) (hd : Disciplined s es) : ∃ s', s.steps es = some s' ∧ SlInv s' := by
  induction es generalizing s with
  | nil => exact ⟨s, rfl, h⟩
  | cons e es ih =>
    obtain ⟨p, o⟩ := e
    obtain ⟨s1, e1, h1⟩ := sl_step h hd.1
    obtain ⟨s2, e2, h2⟩ := ih h1 (hd.2 s1 e1)
    exact ⟨s2, by simp [Sl.steps, e1, e2], h2⟩

/-- Spinlocks, for every number of processors and of locks and every interleaving of processors that take only locks they do not have
and release only locks they have: no assertion fails, a lock is held by at most one processor at a time, the lock variable is non-zero
exactly while someone holds it, and outside the macros a processor's counter is the number of locks it holds, so that it is zero
exactly when it holds none. -/
theorem C52_mutex (es : List (Nat × Sop)) (hd : Disciplined Sl.init es) :
    ∃ s, Sl.init.steps es = some s ∧
      (∀ p q l, l ∈ s.held p → l ∈ s.held q → p = q) ∧
      (∀ l, s.lock l ≠ 0 ↔ ∃ p, l ∈ s.held p) ∧
      (∀ p, s.pc p = .out → s.count p = (s.held p).length) ∧
      (∀ p, s.pc p = .out → (s.count p = 0 ↔ ∀ l, l ∉ s.held p)) := by
  obtain ⟨s, e, h⟩ := sl_steps sl_init es hd
  have hc : ∀ p, s.pc p = .out → s.count p = (s.held p).length := by
    intro p hp
    have := h.at_ p
    unfold SlAt at this
    rw [hp] at this
    exact this
  refine ⟨s, e, h.one, h.taken, hc, fun p hp => ?_⟩
  rw [hc p hp, List.length_eq_zero_iff, List.eq_nil_iff_forall_not_mem]

/-- A processor enters the critical section only by finding the lock free, and when it finds it free it enters. -/
theorem C52_enter (s : Sl) (p l : Nat) (o : Sop) (hp : s.pc p = .xchg l) :
    (s.lock l = 0 → ∃ s', s.step p o = some s' ∧ s'.held p = l :: s.held p ∧ s'.lock l ≠ 0) ∧
    (s.lock l ≠ 0 → ∃ s', s.step p o = some s' ∧ s'.held = s.held ∧ s'.pc p = .xchg l ∧ s'.lock l ≠ 0) := by
  constructor
  · intro h
    simp only [Sl.step, hp, h]
    exact ⟨_, rfl, by simp, by simp⟩
  · intro h
    simp only [Sl.step, hp, if_pos h]
    exact ⟨_, rfl, rfl, hp, by simp⟩

/-- A program that is not disciplined hits the assertion: releasing a lock nobody holds. -/
theorem C52_undisciplined : Sl.init.steps [(0, .unlock 7), (0, .work)] = none := by decide

/-- Two processors compete for lock 7; the second gets it only after the first has released it. -/
example : (Sl.init.steps [(0, .lock 7), (1, .lock 7), (1, .work), (0, .work), (1, .work), (0, .work), (0, .work), (1, .work)]).map
    (fun s => (s.held 0, s.held 1, s.lock 7, s.count 1)) = some ([], [7], 1, 1) := by decide

example : Disciplined Sl.init [(0, .lock 7), (1, .lock 7), (1, .work), (0, .work), (1, .work), (1, .unlock 7)] := by
  refine ⟨fun _ => by simp [Allowed, Sl.init], ?_⟩
  rintro s h; cases h
  refine ⟨fun _ => by simp [Allowed, Sl.init], ?_⟩
  rintro s h; cases h
  refine ⟨fun h => by simp at h, ?_⟩
  rintro s h
  simp [Sl.step, Sl.init] at h; subst h
  refine ⟨fun h => by simp at h, ?_⟩
  rintro s h
  simp [Sl.step] at h; subst h
  refine ⟨fun h => by simp at h, ?_⟩
  rintro s h
  simp [Sl.step] at h; subst h
  refine ⟨fun _ => by simp [Allowed], ?_⟩
  rintro s h
  trivial

end Pok.Smp
