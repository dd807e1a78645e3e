import Verif.Model.PpcCpu

/-!
# Executions of store and load sequences
-/

namespace Pok.PpcCpu

theorem put_same (m : W → W) (a v : W) : put m a v a = v := by simp [put]
theorem put_other (m : W → W) {a x : W} (v : W) (h : x ≠ a) : put m a v x = m x := by simp [put, h]

theorem run_append (p q : List Ins) (c : Cpu) : run (p ++ q) c = (run p c).bind (run q) := by
  induction p generalizing c with
  | nil => rfl
  | cons i is ih =>
    simp only [List.cons_append, run]
    cases step c i with
    | none => rfl
    | some c' => exact ih c'

/-- Memory after words have been written at offsets from a base. -/
def writes (m : W → W) (b : W) : List (W × W) → W → W
  | [] => m
  | (o, v) :: l => writes (put m (b + o) v) b l

theorem writes_other (b : W) (l : List (W × W)) : ∀ (m : W → W) (x : W), (∀ p ∈ l, x ≠ b + p.1) → writes m b l x = m x := by
  induction l with
  | nil => intro m x _; rfl
  | cons p l ih =>
    obtain ⟨o, v⟩ := p
    intro m x h
    rw [writes, ih _ _ fun p hp => h p (by simp [hp])]
    exact put_other _ _ (h (o, v) (by simp))

theorem writes_read (b : W) (l : List (W × W)) (hn : (l.map (·.1)).Nodup) : ∀ (m : W → W) (o v : W), (o, v) ∈ l →
    writes m b l (b + o) = v := by
  induction l with
  | nil => intro m o v h; simp at h
  | cons p l ih =>
    obtain ⟨o', v'⟩ := p
    intro m o v h
    simp only [List.map_cons, List.nodup_cons] at hn
    rcases List.mem_cons.1 h with h | h
    · injection h with h1 h2
      subst h1; subst h2
      rw [writes, writes_other]
      · exact put_same _ _ _
      · intro p hp e
        apply hn.1
        have : o = p.1 := by simpa using e
        rw [this]
        exact List.mem_map_of_mem hp
    · exact ih hn.2 _ _ _ h

theorem run_stores (l : List (Nat × W)) : ∀ c : Cpu, run (stores l) c =
    some { c with mem := writes c.mem (c.gpr 1) (l.map fun p => (p.2, c.gpr p.1)) } := by
  induction l with
  | nil => intro c; rfl
  | cons p l ih =>
    intro c
    simp only [stores, List.map_cons, run, step, Option.bind_some] at ih ⊢
    rw [ih]
    rfl

/-- Registers after words have been read at offsets from a base. -/
def reads (g : Nat → W) (m : W → W) (b : W) : List (Nat × W) → Nat → W
  | [] => g
  | (r, o) :: l => reads (upd g r (m (b + o))) m b l

theorem reads_other (m : W → W) (b : W) (l : List (Nat × W)) : ∀ (g : Nat → W) (r : Nat), r ∉ l.map (·.1) → reads g m b l r = g r := by
  induction l with
  | nil => intro g r _; rfl
  | cons p l ih =>
    obtain ⟨r', o⟩ := p
    intro g r h
    simp only [List.map_cons, List.mem_cons, not_or] at h
    rw [reads, ih _ _ h.2, upd_other _ _ h.1]

theorem reads_read (m : W → W) (b : W) (l : List (Nat × W)) (hn : (l.map (·.1)).Nodup) : ∀ (g : Nat → W) (r : Nat) (o : W), (r, o) ∈ l →
    reads g m b l r = m (b + o) := by
  induction l with
  | nil => intro g r o h; simp at h
  | cons p l ih =>
    obtain ⟨r', o'⟩ := p
    intro g r o h
    simp only [List.map_cons, List.nodup_cons] at hn
    rcases List.mem_cons.1 h with h | h
    · injection h with h1 h2
      subst h1; subst h2
      rw [reads, reads_other _ _ _ _ _ hn.1, upd_same]
    · exact ih hn.2 _ _ _ h

theorem run_loads (l : List (Nat × W)) : ∀ c : Cpu, 1 ∉ l.map (·.1) → run (loads l) c =
    some { c with gpr := reads c.gpr c.mem (c.gpr 1) l } := by
  induction l with
  | nil => intro c _; rfl
  | cons p l ih =>
    intro c h
    simp only [List.map_cons, List.mem_cons, not_or] at h
    simp only [loads, List.map_cons, run, step, Option.bind_some] at ih ⊢
    rw [ih _ h.2]
    simp only [reads, upd_other _ _ h.1]

theorem eqBit_record (cr xer v : W) : eqBit (record cr xer v) = decide (v = 0) := by
  unfold eqBit record
  by_cases h : v = 0
  · simp [h]
  · have h' : ¬ v = 0#32 := h
    rw [if_neg h]
    by_cases hm : v.msb
    · simp [hm, h']
    · simp [hm, h']

end Pok.PpcCpu
