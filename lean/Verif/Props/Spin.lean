import Verif.Model.Spin
import Mathlib.Data.List.Nodup
import Mathlib.Tactic.Common
/-!
# C135: the spinlocks of PowerPC and SPARC
-/
namespace Pok.Spin

/-! ## PowerPC -/

/-- What a processor may do outside the macros: release only locks it holds. -/
def Allowed (s : Pp) (p : Nat) : Pop → Prop
  | .unlock l => s.pc p = .out → l ∈ s.held p
  | _ => True

/-- An interleaving of processors that release only locks they hold. -/
def Disciplined (s : Pp) : List (Nat × Pop) → Prop
  | [] => True
  | (p, o) :: es => Allowed s p o ∧ ∀ s', s.step p o = some s' → Disciplined s' es

/-- What is known of a processor by its place. -/
def At (lock : Nat → Nat) (res : Option Nat) (held : List Nat) : Ppc → Prop
  | .cmp l v => res = some l → lock l = v
  | .stwcx l => res = some l → lock l = 0
  | .test l => l ∈ held
  | .clear l => l ∈ held
  | _ => True

structure Inv (s : Pp) : Prop where
  one : ∀ p q l, l ∈ s.held p → l ∈ s.held q → p = q
  nodup : ∀ p, (s.held p).Nodup
  taken : ∀ l, s.lock l ≠ 0 ↔ ∃ p, l ∈ s.held p
  at_ : ∀ p, At s.lock (s.res p) (s.held p) (s.pc p)

theorem inv_init : Inv Pp.init := ⟨fun _ _ _ h => absurd h (by simp [Pp.init]), fun _ => by simp [Pp.init], fun _ => by simp [Pp.init], fun _ => trivial⟩

/-- Only the place of `p` changes. -/
theorem Inv.move {s : Pp} (h : Inv s) (p : Nat) (r : Option Nat) (k : Ppc) (hk : At s.lock r (s.held p) k) :
    Inv { s with res := Function.update s.res p r, pc := Function.update s.pc p k } := by
  refine ⟨h.one, h.nodup, h.taken, fun q => ?_⟩
  by_cases e : q = p
  · subst e; simpa using hk
  · simpa [e] using h.at_ q

theorem Inv.move' {s : Pp} (h : Inv s) (p : Nat) (k : Ppc) (hk : At s.lock (s.res p) (s.held p) k) : Inv { s with pc := Function.update s.pc p k } := by
  have := h.move p (s.res p) k hk
  rwa [Function.update_eq_self] at this

/-- The other processors when a lock is stored. -/
theorem At.stored {s : Pp} {q p l v : Nat} (e : q ≠ p) (h : At s.lock (s.res q) (s.held q) (s.pc q)) :
    At (s.store p l v).lock ((s.store p l v).res q) (s.held q) (s.pc q) := by
  have key : ∀ m w, (s.res q = some m → s.lock m = w) → ((s.store p l v).res q = some m → (s.store p l v).lock m = w) := by
    intro m w k c
    simp only [Pp.store] at c ⊢
    split at c
    · cases c
    · next n =>
      have : m ≠ l := fun d => n ⟨e, d ▸ c⟩
      rw [Function.update_of_ne this]; exact k c
  cases hp : s.pc q <;> rw [hp] at h <;> first | exact key _ _ h | exact h | trivial

theorem inv_step {s : Pp} (h : Inv s) {p : Nat} {o : Pop} (al : Allowed s p o) : ∃ s', s.step p o = some s' ∧ Inv s' := by
  by_cases hl : o = .lose
  · subst hl
    refine ⟨_, rfl, h.one, h.nodup, h.taken, fun q => ?_⟩
    by_cases e : q = p
    · subst e
      have := h.at_ q
      simp only [Function.update_self]
      cases hp : s.pc q <;> rw [hp] at this <;> first | exact (fun c => by cases c) | exact this | trivial
    · simpa [e] using h.at_ q
  have step : s.step p o = match s.pc p with
    | .out => match o with
      | .lock l => some { s with pc := Function.update s.pc p (.lwarx l) }
      | .unlock l => some { s with pc := Function.update s.pc p (.test l) }
      | _ => some s
    | .lwarx l => some { s with res := Function.update s.res p (some l), pc := Function.update s.pc p (.cmp l (s.lock l)) }
    | .cmp l v => some { s with pc := Function.update s.pc p (if v ≠ 0 then .lwarx l else .stwcx l) }
    | .stwcx l =>
      if s.res p = some l then
        let s' := s.store p l 1
        some { s' with res := Function.update s'.res p none, held := Function.update s.held p (l :: s.held p), pc := Function.update s.pc p (.bne l true) }
      else some { s with res := Function.update s.res p none, pc := Function.update s.pc p (.bne l false) }
    | .bne l eq => some { s with pc := Function.update s.pc p (if eq then .out else .lwarx l) }
    | .test l => if s.lock l ≠ 0 then some { s with pc := Function.update s.pc p (.clear l) } else none
    | .clear l =>
      let s' := s.store p l 0
      some { s' with held := Function.update s.held p ((s.held p).erase l), pc := Function.update s.pc p .out } := by
    unfold Pp.step; cases o <;> first | rfl | exact absurd rfl hl
  rw [step]
  have hat := h.at_ p
  cases hp : s.pc p <;> rw [hp] at hat <;> simp only []
  case out =>
    cases o with
    | work => exact ⟨_, rfl, h⟩
    | lose => exact ⟨_, rfl, h⟩
    | lock l => exact ⟨_, rfl, h.move' p _ trivial⟩
    | unlock l => exact ⟨_, rfl, h.move' p _ (al hp)⟩
  case lwarx l => exact ⟨_, rfl, h.move p _ _ fun _ => rfl⟩
  case cmp l v =>
    refine ⟨_, rfl, h.move' p _ ?_⟩
    split
    · trivial
    · next n => intro c; rw [hat c]; exact not_not.1 n
  case bne l eq =>
    refine ⟨_, rfl, h.move' p _ ?_⟩
    cases eq <;> trivial
  case test l =>
    rw [if_pos ((h.taken l).2 ⟨p, hat⟩)]
    exact ⟨_, rfl, h.move' p _ hat⟩
  case stwcx l =>
    split
    · next r =>
      have free := hat r
      have none' : ∀ q, l ∉ s.held q := fun q m => absurd free ((h.taken l).2 ⟨q, m⟩)
      refine ⟨_, rfl, ?_, ?_, ?_, ?_⟩
      · intro a b m e1 e2
        simp only at e1 e2
        by_cases ha : a = p <;> by_cases hb : b = p
        · rw [ha, hb]
        · subst ha
          rw [Function.update_self] at e1
          rw [Function.update_of_ne hb] at e2
          rcases List.mem_cons.1 e1 with c | c
          · subst c; exact absurd e2 (none' b)
          · exact h.one _ _ m c e2
        · subst hb
          rw [Function.update_of_ne ha] at e1
          rw [Function.update_self] at e2
          rcases List.mem_cons.1 e2 with c | c
          · subst c; exact absurd e1 (none' a)
          · exact h.one _ _ m e1 c
        · rw [Function.update_of_ne ha] at e1
          rw [Function.update_of_ne hb] at e2
          exact h.one _ _ m e1 e2
      · intro a
        simp only
        by_cases ha : a = p
        · subst ha; rw [Function.update_self]; exact List.nodup_cons.2 ⟨none' _, h.nodup _⟩
        · rw [Function.update_of_ne ha]; exact h.nodup a
      · intro m
        simp only [Pp.store]
        by_cases hm : m = l
        · subst hm
          rw [Function.update_self]
          exact ⟨fun _ => ⟨p, by rw [Function.update_self]; exact List.mem_cons_self⟩, fun _ => by decide⟩
        · rw [Function.update_of_ne hm, h.taken m]
          constructor
          · rintro ⟨q, hq⟩
            refine ⟨q, ?_⟩
            by_cases e : q = p
            · subst e; rw [Function.update_self]; exact List.mem_cons_of_mem _ hq
            · rwa [Function.update_of_ne e]
          · rintro ⟨q, hq⟩
            refine ⟨q, ?_⟩
            by_cases e : q = p
            · subst e; rw [Function.update_self] at hq
              exact (List.mem_cons.1 hq).resolve_left hm
            · rwa [Function.update_of_ne e] at hq
      · intro q
        by_cases e : q = p
        · subst e; simp only [Function.update_self]; trivial
        · have := At.stored (l := l) (v := 1) e (h.at_ q)
          simpa only [ne_eq, e, not_false_eq_true, Function.update_of_ne] using this
    · exact ⟨_, rfl, h.move p _ _ trivial⟩
  case clear l =>
    have hsub : ∀ a m, m ∈ Function.update s.held p ((s.held p).erase l) a ↔ m ∈ s.held a ∧ ¬(a = p ∧ m = l) := by
      intro a m
      by_cases ha : a = p
      · subst ha
        simp only [Function.update_self, (h.nodup a).mem_erase_iff, true_and]
        exact And.comm
      · simp [ha]
    refine ⟨_, rfl, ?_, ?_, ?_, ?_⟩
    · intro a b m e1 e2
      exact h.one a b m ((hsub a m).1 e1).1 ((hsub b m).1 e2).1
    · intro a
      by_cases ha : a = p
      · subst ha; simp only [Function.update_self]; exact (h.nodup a).erase l
      · simp only [ne_eq, ha, not_false_eq_true, Function.update_of_ne]; exact h.nodup a
    · intro m
      simp only [hsub, Pp.store]
      by_cases hm : m = l
      · subst hm
        simp only [Function.update_self, ne_eq, not_true_eq_false, false_iff, and_true]
        rintro ⟨a, e1, e2⟩
        exact e2 (h.one a p m e1 hat)
      · simp only [ne_eq, hm, not_false_eq_true, Function.update_of_ne, and_false, and_true]; exact h.taken m
    · intro q
      by_cases e : q = p
      · subst e; simp only [Function.update_self]; trivial
      · have := At.stored (l := l) (v := 0) e (h.at_ q)
        simpa only [ne_eq, e, not_false_eq_true, Function.update_of_ne] using this

theorem inv_steps {s : Pp} (h : Inv s) (es : List (Nat × Pop)) (hd : Disciplined s es) : ∃ s', s.steps es = some s' ∧ Inv s' := by
  induction es generalizing s with
  | nil => exact ⟨s, rfl, h⟩
  | cons e es ih =>
    obtain ⟨p, o⟩ := e
    obtain ⟨s1, e1, h1⟩ := inv_step h hd.1
    obtain ⟨s2, e2, h2⟩ := ih h1 (hd.2 s1 e1)
    exact ⟨s2, by simp [Pp.steps, e1, e2], h2⟩

/-- **C135** (part) PowerPC: for every number of processors and of locks, every interleaving of their instructions and every loss of reservations, if processors release
only locks they hold then no assertion fails, a lock is held by at most one processor at a time, and the lock variable is non-zero exactly while a processor holds it. -/
theorem C135_ppc_partial (es : List (Nat × Pop)) (hd : Disciplined Pp.init es) :
    ∃ s, Pp.init.steps es = some s ∧ (∀ p q l, l ∈ s.held p → l ∈ s.held q → p = q) ∧ (∀ l, s.lock l ≠ 0 ↔ ∃ p, l ∈ s.held p) := by
  obtain ⟨s, e, h⟩ := inv_steps inv_init es hd
  exact ⟨s, e, h.one, h.taken⟩

/-- Processors 0 and 1 both find lock 7 free; only one conditional store succeeds. -/
example : Disciplined Pp.init [(0, .lock 7), (1, .lock 7), (0, .work), (1, .work), (0, .work), (1, .work), (1, .work), (0, .work)] ∧
    (Pp.init.steps [(0, .lock 7), (1, .lock 7), (0, .work), (1, .work), (0, .work), (1, .work), (1, .work), (0, .work)]).map
      (fun s => (s.held 0, s.held 1, s.lock 7)) = some ([], [7], 1) :=
  ⟨by refine ⟨trivial, fun _ _ => ⟨trivial, fun _ _ => ⟨trivial, fun _ _ => ⟨trivial, fun _ _ => ⟨trivial, fun _ _ => ⟨trivial, fun _ _ => ⟨trivial, fun _ _ => ⟨trivial, fun _ _ => trivial⟩⟩⟩⟩⟩⟩⟩⟩,
    by decide⟩

/-- **C135** (part) PowerPC: a processor at the start of `SPIN_LOCK` on a free lock has it after four steps of its own, if no other processor comes between and the
reservation is not lost; on a lock that is taken it is back at the start after two steps, and nothing has changed but its reservation. -/
theorem C135_ppc_enter_partial (s : Pp) (p l : Nat) (hp : s.pc p = .lwarx l) :
    (s.lock l = 0 → ∃ s', s.steps [(p, .work), (p, .work), (p, .work), (p, .work)] = some s' ∧ s'.pc p = .out ∧ s'.held p = l :: s.held p ∧ s'.lock l ≠ 0) ∧
    (s.lock l ≠ 0 → ∃ s', s.steps [(p, .work), (p, .work)] = some s' ∧ s'.pc = s.pc ∧ s'.held = s.held ∧ s'.lock = s.lock) := by
  constructor
  · intro f
    simp [Pp.steps, Pp.step, Pp.store, hp, f]
  · intro f
    simp [Pp.steps, Pp.step, hp, f]

/-- Processor 0 at the start, lock 7 free, and taken by processor 1. -/
example : (Pp.init.steps [(0, .lock 7)]).map (fun s => (s.pc 0, s.lock 7)) = some (.lwarx 7, 0) ∧
    (Pp.init.steps [(0, .lock 7), (1, .lock 7), (1, .work), (1, .work), (1, .work), (1, .work)]).map (fun s => (s.pc 0, s.lock 7)) = some (.lwarx 7, 1) := by decide

/-! ## SPARC -/

/-- Where the processors are and who owns the lock. -/
def Where (n : Nat) (own : Bool) (c : Core) : Prop :=
  (c.pc = 0 ∧ c.npc = 1 ∧ own = false) ∨ (c.pc = 1 ∧ c.npc = 2 ∧ (c.reg = 0 ↔ own = true)) ∨ (c.pc = 2 ∧ c.npc = 3 ∧ (c.z = own)) ∨
  (c.pc = 3 ∧ c.npc = 0 ∧ own = false) ∨ (3 ≤ c.pc ∧ c.pc ≤ 4 + n ∧ c.npc = c.pc + 1 ∧ own = true) ∨ (c.pc = 5 + n ∧ own = false)

structure SInv (n : Nat) (s : Sp) : Prop where
  at_ : ∀ p, Where n (decide (s.owner = some p)) (s.core p)
  lock : (s.owner = none → s.lock = 0) ∧ (s.owner ≠ none → s.lock = 0xff000000)
  log : ∀ e ∈ s.log, e.2.1 ≠ 3 → e.2.2.2 = true

theorem sinv_init (n : Nat) : SInv n Sp.init :=
  ⟨fun _ => Or.inl ⟨rfl, rfl, rfl⟩, ⟨fun _ => rfl, fun h => absurd rfl h⟩, fun _ h => absurd h (by simp [Sp.init])⟩

theorem code_at (f : Nat) (b : List Nat) : (program f b)[0]? = some .ldstub ∧ (program f b)[1]? = some .tst ∧ (program f b)[2]? = some .bnz ∧ (program f b)[3]? = some (.act f) ∧
    (program f b)[4 + b.length]? = some .clear ∧ (program f b)[5 + b.length]? = none ∧ ∀ i (h : i < b.length), (program f b)[4 + i]? = some (.act b[i]) := by
  refine ⟨rfl, rfl, rfl, rfl, ?_, ?_, fun i h => ?_⟩
  · unfold program; rw [List.getElem?_append_right (by simp; omega)]; simp [show 4 + b.length - (b.length + 1 + 1 + 1 + 1) = 0 by omega]
  · unfold program; rw [List.getElem?_eq_none_iff]; simp; omega
  · unfold program
    rw [List.getElem?_append_left (by simp; omega), List.getElem?_append_right (by simp)]
    simp [h]

theorem sinv_step {f : Nat} {b : List Nat} {s : Sp} (h : SInv b.length s) (p : Nat) : SInv b.length (s.step (program f b) p) := by
  obtain ⟨k0, k1, k2, k3, k4, k5, k6⟩ := code_at f b
  have hp := h.at_ p
  /- only the core of `p` changes -/
  have stay : ∀ c l, Where b.length (decide (s.owner = some p)) c → (∀ e ∈ l, e.2.1 ≠ 3 → e.2.2.2 = true) →
      SInv b.length ⟨Function.update s.core p c, s.lock, s.owner, l⟩ := by
    intro c l hc hl
    refine ⟨fun q => ?_, h.lock, hl⟩
    by_cases e : q = p
    · subst e; simpa only [Function.update_self] using hc
    · simpa only [ne_eq, e, not_false_eq_true, Function.update_of_ne] using h.at_ q
  rcases hp with ⟨a, b', c⟩ | ⟨a, b', c⟩ | ⟨a, b', c⟩ | ⟨a, b', c⟩ | ⟨a, a', b', c⟩ | ⟨a, c⟩
  · -- ldstub
    have c : s.owner ≠ some p := by simpa using c
    unfold Sp.step
    simp only [a, k0]
    by_cases o : s.owner = none
    · have l := h.lock.1 o
      rw [l]
      refine ⟨fun q => ?_, ⟨fun t => by simp at t, fun _ => by simp⟩, h.log⟩
      simp only [if_true]
      by_cases e : q = p
      · subst e
        simp only [Function.update_self, b']
        exact Or.inr (Or.inl ⟨rfl, rfl, by simp⟩)
      · have := h.at_ q
        rw [o] at this
        simpa only [ne_eq, e, not_false_eq_true, Function.update_of_ne, Option.some.injEq, Ne.symm e, reduceCtorEq] using this
    · have l := h.lock.2 o
      rw [l, if_neg (by decide)]
      have := stay ⟨2 - 1, 2, 0xff000000 / 2 ^ 24, (s.core p).z⟩ s.log (Or.inr (Or.inl ⟨rfl, rfl, by simp [c]⟩)) h.log
      rw [l] at this
      simpa [b'] using this
  · -- tst
    unfold Sp.step
    simp only [a, k1, b']
    refine stay _ _ (Or.inr (Or.inr (Or.inl ⟨rfl, rfl, ?_⟩))) h.log
    by_cases o : s.owner = some p <;> simp [o] at c ⊢ <;> exact c
  · -- bnz
    unfold Sp.step
    simp only [a, k2, b']
    refine stay _ _ ?_ h.log
    rw [c]
    by_cases o : s.owner = some p
    · simp only [o, decide_true, if_true]
      exact Or.inr (Or.inr (Or.inr (Or.inr (Or.inl ⟨Nat.le_refl _, by simp only; omega, rfl, rfl⟩))))
    · simp only [o, decide_false]
      exact Or.inr (Or.inr (Or.inr (Or.inl ⟨rfl, rfl, rfl⟩)))
  · -- behind the branch that is taken
    unfold Sp.step
    simp only [a, k3, b']
    refine stay _ _ (Or.inl ⟨rfl, rfl, c⟩) ?_
    intro e he
    rcases List.mem_cons.1 he with k | k
    · subst k; intro t; simp at t
    · exact h.log e k
  · -- the section
    have c : s.owner = some p := by simpa using c
    have step : ∀ x, (program f b)[(s.core p).pc]? = some (.act x) → (s.core p).pc < 4 + b.length → SInv b.length (s.step (program f b) p) := by
      intro x hx lt
      unfold Sp.step
      simp only [hx, b']
      refine stay _ _ ?_ ?_
      · exact Or.inr (Or.inr (Or.inr (Or.inr (Or.inl ⟨by simp only; omega, by simp only; omega, rfl, by simp [c]⟩))))
      · intro e he
        rcases List.mem_cons.1 he with k | k
        · subst k; intro _; simp [c]
        · exact h.log e k
    rcases Nat.lt_or_ge (s.core p).pc (4 + b.length) with lt | ge
    · rcases Nat.eq_or_lt_of_le a with e | e
      · exact step f (by rw [← e]; exact k3) lt
      · obtain ⟨i, hi⟩ : ∃ i, (s.core p).pc = 4 + i := ⟨(s.core p).pc - 4, by omega⟩
        exact step b[i] (by rw [hi]; exact k6 i (by omega)) lt
    · have e : (s.core p).pc = 4 + b.length := by omega
      unfold Sp.step
      simp only [e, k4]
      refine ⟨fun q => ?_, ⟨fun _ => rfl, fun t => ?_⟩, h.log⟩
      · simp only [c, if_true]
        by_cases hq : q = p
        · subst hq
          simp only [Function.update_self]
          exact Or.inr (Or.inr (Or.inr (Or.inr (Or.inr ⟨by simp only; omega, by simp⟩))))
        · have := h.at_ q
          rw [c] at this
          simpa only [ne_eq, hq, not_false_eq_true, Function.update_of_ne, Option.some.injEq, Ne.symm hq, reduceCtorEq] using this
      · simp [c] at t
  · -- the end
    unfold Sp.step
    simp only [a, k5]
    exact stay _ _ (Or.inl ⟨rfl, rfl, c⟩) h.log

/-- **C135** (part) SPARC: for every number of processors, every interleaving and every guarded section, an instruction of the section other than the first is executed
only by the processor that owns the lock. -/
theorem C135_sparc_partial (first : Nat) (body : List Nat) (ps : List Nat) :
    ∀ e ∈ (Sp.init.steps (program first body) ps).log, e.2.1 ≠ 3 → e.2.2.2 = true := by
  have : ∀ s, SInv body.length s → SInv body.length (s.steps (program first body) ps) := by
    induction ps with
    | nil => exact fun s h => h
    | cons p ps ih => exact fun s h => ih _ (sinv_step h p)
  exact (this _ (sinv_init _)).log

/-- Rounds of a processor that finds the lock taken. -/
theorem rounds (first : Nat) (body : List Nat) (s : Sp) (p : Nat) (hl : s.lock = 0xff000000) (ho : s.owner ≠ some p) (hp : (s.core p).pc = 0) (hn : (s.core p).npc = 1) (k : Nat) :
    (s.steps (program first body) (List.replicate (4 * k) p)).log = List.replicate k (p, 3, first, false) ++ s.log ∧
    (s.steps (program first body) (List.replicate (4 * k) p)).owner = s.owner := by
  obtain ⟨k0, k1, k2, k3, -⟩ := code_at first body
  have round : ∀ t : Sp, t.lock = 0xff000000 → t.owner ≠ some p → (t.core p).pc = 0 → (t.core p).npc = 1 →
      ∃ c, t.steps (program first body) [p, p, p, p] = { t with core := c, log := (p, 3, first, false) :: t.log } ∧ (c p).pc = 0 ∧ (c p).npc = 1 := by
    intro t a b c d
    simp [Sp.steps, Sp.step, a, b, c, d, k0, k1, k2, k3]
  induction k generalizing s with
  | zero => exact ⟨rfl, rfl⟩
  | succ k ih =>
    obtain ⟨c, e, c1, c2⟩ := round s hl ho hp hn
    have : List.replicate (4 * (k + 1)) p = [p, p, p, p] ++ List.replicate (4 * k) p := by
      rw [show 4 * (k + 1) = 4 + 4 * k by omega, List.replicate_add]; rfl
    rw [this, Sp.steps, List.foldl_append]
    have e' : List.foldl (Sp.step (program first body)) s [p, p, p, p] = { s with core := c, log := (p, 3, first, false) :: s.log } := e
    rw [e']
    have := ih { s with core := c, log := (p, 3, first, false) :: s.log } hl ho c1 c2
    rw [Sp.steps] at this
    exact ⟨by rw [this.1, List.replicate_succ', List.append_assoc]; rfl, this.2⟩

/-- **C135** violated: on SPARC `SPIN_LOCK` does not keep a processor out of the section.  A branch of SPARC takes effect after the instruction behind it, and the macro has
no instruction there: each time a processor finds the lock taken it executes the first instruction of the section, whatever it is, before it tries again.  Here
processor `q` takes the lock, and another processor `p` then tries it: for every `k` the first instruction of the section of `p` has been executed `k` times without the
lock after `k` rounds. -/
theorem C135_sparc_violated (first : Nat) (body : List Nat) (p q : Nat) (h : p ≠ q) (k : Nat) :
    (Sp.init.steps (program first body) (q :: List.replicate (4 * k) p)).log = List.replicate k (p, 3, first, false) ∧
    (Sp.init.steps (program first body) (q :: List.replicate (4 * k) p)).owner = some q := by
  obtain ⟨k0, -⟩ := code_at first body
  have e : ∀ l, Sp.init.steps (program first body) (q :: l) = (Sp.init.step (program first body) q).steps (program first body) l := fun _ => rfl
  have hq : (Sp.init.step (program first body) q).lock = 0xff000000 ∧ (Sp.init.step (program first body) q).owner = some q ∧ (Sp.init.step (program first body) q).log = [] ∧
      ((Sp.init.step (program first body) q).core p).pc = 0 ∧ ((Sp.init.step (program first body) q).core p).npc = 1 := by
    simp [Sp.step, Sp.init, Core.start, k0, h]
  obtain ⟨a, b, c, d, f⟩ := hq
  rw [e]
  have := rounds first body _ p a (by rw [b]; simpa using h.symm) d f k
  exact ⟨by rw [this.1, c, List.append_nil], by rw [this.2, b]⟩

/-- Such a state is reached: processor 1 owns the lock after one step, and processor 0 then executes the first instruction, 42, twice without it. -/
example : (Sp.init.steps (program 42 [43]) ([1] ++ [0, 0, 0, 0] ++ [0, 0, 0, 0] ++ [1, 1, 1, 1])).log = [(1, 4, 43, true), (1, 3, 42, true), (0, 3, 42, false), (0, 3, 42, false)] ∧
    (Sp.init.steps (program 42 [43]) [1]).lock = 0xff000000 ∧ (Sp.init.steps (program 42 [43]) [1]).owner = some 1 := by decide +kernel

end Pok.Spin
