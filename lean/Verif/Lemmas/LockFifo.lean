import Verif.Model.LockFifo
import Verif.Spec.Queue

/-! Helper lemmas: the ring buffer of `Verif.Model.LockFifo` represents a list. -/

namespace Pok.Fifo
open Pok.Spec

/-- Physical index of logical position `k`. -/
def ix (N h k : Nat) : Nat := (h + k) % N

theorem ix_lt {N h k : Nat} (hN : 0 < N) : ix N h k < N := Nat.mod_lt _ hN

theorem ix_zero {N h : Nat} (hh : h < N) : ix N h 0 = h := by simp [ix, Nat.mod_eq_of_lt hh]

theorem ix_succ {N h k : Nat} : (ix N h k + 1) % N = ix N h (k + 1) := by
  simp [ix, ← Nat.add_assoc]

theorem ix_eq {N h k : Nat} (hh : h < N) (hk : k ≤ N) :
    ix N h k = if h + k < N then h + k else h + k - N := by
  unfold ix
  split
  · exact Nat.mod_eq_of_lt ‹_›
  · rename_i hc
    rw [Nat.mod_eq_sub_mod (by omega)]
    by_cases h2 : h + k - N < N
    · exact Nat.mod_eq_of_lt h2
    · omega

theorem pred_ix {N h k : Nat} (hh : h < N) (hk : k + 1 ≤ N) : pred N (ix N h (k + 1)) = ix N h k := by
  rw [ix_eq hh hk, ix_eq hh (by omega)]
  unfold pred
  split <;> split <;> split <;> omega

theorem ix_inj {N h j k : Nat} (hh : h < N) (hj : j < N) (hk : k < N) (e : ix N h j = ix N h k) :
    j = k := by
  rw [ix_eq hh (by omega), ix_eq hh (by omega)] at e
  split at e <;> split at e <;> omega

theorem ix_inj' {N h j k : Nat} (hh : h < N) (h1 : 1 ≤ j) (h1' : 1 ≤ k) (hj : j ≤ N) (hk : k ≤ N)
    (e : ix N h j = ix N h k) : j = k := by
  rw [ix_eq hh (by omega), ix_eq hh (by omega)] at e
  split at e <;> split at e <;> omega

/-- The ring `f` of capacity `N` holds exactly the list `l`. -/
structure Rep (N : Nat) (f : Fifo) (l : List Nat) : Prop where
  head_lt : f.head < N
  len_le : l.length ≤ N
  last_eq : f.last = ix N f.head l.length
  empty_iff : f.isEmpty = true ↔ l = []
  get : ∀ k (h : k < l.length), f.buf (ix N f.head k) = l[k]

theorem Rep.pos {N f l} (r : Rep N f l) : 0 < N := Nat.lt_of_le_of_lt (Nat.zero_le _) r.head_lt

theorem Rep.last_lt {N f l} (r : Rep N f l) : f.last < N := by
  rw [r.last_eq]; exact ix_lt r.pos

theorem rep_init {N : Nat} (hN : 0 < N) (f : Fifo) : Rep N f.init [] :=
  ⟨hN, by simp, by simp [init, ix, Nat.mod_eq_of_lt hN], by simp [init], by simp⟩

theorem rep_getHead {N f x l} (r : Rep N f (x :: l)) : f.getHead N = some x := by
  have := r.get 0 (by simp)
  rw [ix_zero r.head_lt] at this
  simp [getHead, r.head_lt, this]

/-- The list held by a ring is unique. -/
theorem Rep.unique {N f l l'} (r : Rep N f l) (r' : Rep N f l') : l = l' := by
  have hlen : l.length = l'.length := by
    by_cases h : l = []
    · have := r'.empty_iff.1 (r.empty_iff.2 h); simp [h, this]
    · have h' : l' ≠ [] := fun h' => h (r.empty_iff.1 (r'.empty_iff.2 h'))
      have e := r.last_eq.symm.trans r'.last_eq
      have := List.length_pos_iff.2 h
      have := List.length_pos_iff.2 h'
      exact ix_inj' r.head_lt (by omega) (by omega) r.len_le r'.len_le e
  apply List.ext_getElem hlen
  intro k h1 h2
  rw [← r.get k h1, ← r'.get k h2]

/-! ### FIFO discipline -/

theorem rep_enqueue_fifo_full {N f l} (prio : Nat → Nat) (r : Rep N f l) (t : Nat)
    (hl : l.length = N) : f.enqueue N prio t .fifo = some (f, .full) := by
  have hne : l ≠ [] := by
    intro h; have := r.pos; simp [h] at hl; omega
  have h1 : f.isEmpty = false := by
    cases h : f.isEmpty
    · rfl
    · exact absurd (r.empty_iff.1 h) hne
  have h2 : f.last = f.head := by
    rw [r.last_eq, hl, ix_eq r.head_lt (Nat.le_refl _)]; split <;> omega
  simp [enqueue, h1, h2]

theorem rep_enqueue_fifo {N f l} (prio : Nat → Nat) (r : Rep N f l) (t : Nat) (hl : l.length < N) :
    ∃ f', f.enqueue N prio t .fifo = some (f', .ok) ∧ Rep N f' (l ++ [t]) := by
  have hnf : ¬ (¬ f.isEmpty = true ∧ f.last = f.head) := by
    rintro ⟨h1, h2⟩
    have hne : l ≠ [] := fun h => h1 (r.empty_iff.2 h)
    have := List.length_pos_iff.2 hne
    rw [r.last_eq] at h2
    have h3 : ix N f.head l.length = ix N f.head 0 := by rw [h2, ix_zero r.head_lt]
    have := ix_inj r.head_lt hl r.pos h3
    omega
  refine ⟨{ f with buf := upd f.buf f.last t, last := (f.last + 1) % N, isEmpty := false }, ?_, ?_⟩
  · simp only [enqueue, if_neg hnf, if_pos r.last_lt]
  · refine ⟨r.head_lt, by simp; omega, ?_, by simp, ?_⟩
    · simp [r.last_eq, ix_succ]
    · intro k hk
      simp at hk
      simp only [upd_apply]
      by_cases hkl : k = l.length
      · subst hkl; simp [r.last_eq]
      · have hk' : k < l.length := by omega
        have : ix N f.head k ≠ f.last := by
          rw [r.last_eq]; intro e
          exact hkl (ix_inj r.head_lt (by omega) hl e)
        simp [this, r.get k hk', List.getElem_append_left hk']

/-! ### PRIORITY discipline -/

/-- Number of queued threads that stay in front of `t`. -/
def pos (prio : Nat → Nat) (t : Nat) (l : List Nat) : Nat :=
  (l.takeWhile (fun x => decide (prio t ≤ prio x))).length

theorem pos_le (prio t l) : pos prio t l ≤ l.length := by
  unfold pos; exact (List.takeWhile_prefix _).length_le

theorem arrivePrio_eq (prio : Nat → Nat) (t : Nat) (l : List Nat) :
    arrivePrio prio l t = l.take (pos prio t l) ++ t :: l.drop (pos prio t l) := by
  induction l with
  | nil => simp [arrivePrio, pos]
  | cons x l ih =>
    unfold arrivePrio pos
    by_cases h : prio t ≤ prio x
    · simp only [h, if_true, List.takeWhile_cons, decide_true, List.length_cons,
        List.take_succ_cons, List.drop_succ_cons, List.cons_append]
      rw [ih]; rfl
    · simp [h]

theorem findPos_spec {N f l} (prio : Nat → Nat) (t : Nat) (r : Rep N f l) (hl : l.length < N) :
    ∀ fuel k, k ≤ l.length → l.length - k < fuel →
      findPos N prio t f fuel (ix N f.head k) = some (ix N f.head (k + pos prio t (l.drop k))) := by
  intro fuel
  induction fuel with
  | zero => intro k _ h; omega
  | succ fuel ih =>
    intro k hk hf
    unfold findPos
    by_cases e : k = l.length
    · have : ix N f.head k = f.last := by rw [r.last_eq, e]
      simp [this, e, pos, r.last_eq]
    · have hk' : k < l.length := by omega
      have : ix N f.head k ≠ f.last := by
        rw [r.last_eq]; intro h; exact e (ix_inj r.head_lt (by omega) hl h)
      rw [if_pos this, if_pos (ix_lt r.pos), r.get k hk']
      have hd : l.drop k = l[k] :: l.drop (k + 1) := List.drop_eq_getElem_cons hk'
      by_cases hp : prio t ≤ prio l[k]
      · rw [if_pos hp, ix_succ, ih (k + 1) (by omega) (by omega), hd]
        have : pos prio t (l[k] :: l.drop (k + 1)) = pos prio t (l.drop (k + 1)) + 1 := by
          simp only [pos, List.takeWhile_cons, hp]; simp
        rw [this]; congr 2; omega
      · rw [if_neg hp, hd]
        have : pos prio t (l[k] :: l.drop (k + 1)) = 0 := by
          simp only [pos, List.takeWhile_cons, hp]; simp
        rw [this]; rfl

theorem shiftRight_spec {N h : Nat} (hh : h < N) (p : Nat) :
    ∀ fuel m (b : Nat → Nat), p ≤ m → m < N → m - p < fuel →
      ∃ b', shiftRight N (ix N h p) fuel (ix N h m) b = some b' ∧
        (∀ k, p < k → k ≤ m → b' (ix N h k) = b (ix N h (k - 1))) ∧
        (∀ k, k < N → (k ≤ p ∨ m < k) → b' (ix N h k) = b (ix N h k)) := by
  intro fuel
  induction fuel with
  | zero => intro m b _ _ h; omega
  | succ fuel ih =>
    intro m b hpm hmN hf
    unfold shiftRight
    by_cases e : m = p
    · subst e
      refine ⟨b, by simp, fun k _ _ => by omega, fun k _ _ => rfl⟩
    · obtain ⟨m', rfl⟩ : ∃ m', m = m' + 1 := ⟨m - 1, by omega⟩
      have hne : ix N h (m' + 1) ≠ ix N h p := fun h' => e (ix_inj hh hmN (by omega) h')
      have hpred : pred N (ix N h (m' + 1)) = ix N h m' := pred_ix hh (by omega)
      have hN : 0 < N := by omega
      rw [if_pos hne, hpred, if_pos ⟨ix_lt hN, ix_lt hN⟩]
      obtain ⟨b', e1, e2, e3⟩ := ih m' (upd b (ix N h (m' + 1)) (b (ix N h m'))) (by omega)
        (by omega) (by omega)
      refine ⟨b', e1, ?_, ?_⟩
      · intro k hk1 hk2
        by_cases hk : k = m' + 1
        · subst hk
          rw [e3 (m' + 1) hmN (by omega)]; simp
        · rw [e2 k hk1 (by omega), upd_other]
          intro h'; have := ix_inj hh (by omega) hmN h'; omega
      · intro k hk1 hk2
        rw [e3 k hk1 (by omega), upd_other]
        intro h'; have := ix_inj hh hk1 hmN h'; omega

theorem rep_enqueue_priority {N f l} (prio : Nat → Nat) (r : Rep N f l) (t : Nat)
    (hl : l.length < N) :
    ∃ f', f.enqueue N prio t .priority = some (f', .ok) ∧ Rep N f' (arrivePrio prio l t) := by
  have h1 := findPos_spec prio t r hl (N + 1) 0 (by omega) (by omega)
  rw [ix_zero r.head_lt] at h1
  simp only [List.drop_zero, Nat.zero_add] at h1
  have hp := pos_le prio t l
  generalize hpp : pos prio t l = p at *
  obtain ⟨b, hb1, hb2, hb3⟩ := shiftRight_spec (h := f.head) r.head_lt p (N + 1) l.length f.buf hp hl
    (by omega)
  rw [← r.last_eq] at hb1
  refine ⟨{ f with buf := upd b (ix N f.head p) t, isEmpty := false, last := (f.last + 1) % N }, ?_, ?_⟩
  · simp only [enqueue, h1, hb1, if_pos (ix_lt r.pos)]
  · have hne : arrivePrio prio l t ≠ [] := by rw [arrivePrio_eq]; simp
    have hlen : (arrivePrio prio l t).length = l.length + 1 := by
      rw [arrivePrio_eq, hpp]; simp; omega
    refine ⟨r.head_lt, by omega, ?_, by simp [hne], ?_⟩
    · simp [r.last_eq, ix_succ, hlen]
    · intro k hk
      rw [hlen] at hk
      simp only [upd_apply]
      simp only [arrivePrio_eq, hpp]
      by_cases e : k = p
      · subst e
        simp [List.getElem_append_right, Nat.min_eq_left hp]
      · have : ix N f.head k ≠ ix N f.head p := fun h' => e (ix_inj r.head_lt (by omega) (by omega) h')
        rw [if_neg this]
        by_cases hlt : k < p
        · rw [hb3 k (by omega) (by omega), r.get k (by omega),
            List.getElem_append_left (by simp; omega)]
          simp
        · rw [hb2 k (by omega) (by omega), r.get (k - 1) (by omega),
            List.getElem_append_right (by simp; omega)]
          have : k - (List.take p l).length = (k - p - 1) + 1 := by
            rw [List.length_take, Nat.min_eq_left hp]; omega
          simp only [this, List.getElem_cons_succ, List.getElem_drop]
          congr 1; omega

/-! ### Leaving the queue -/

theorem rep_dequeue_nil {N f} (r : Rep N f []) : f.dequeue N = (f, .empty) := by
  have : f.isEmpty = true := r.empty_iff.2 rfl
  simp [dequeue, this]

theorem rep_dequeue {N f x l} (r : Rep N f (x :: l)) :
    ∃ f', f.dequeue N = (f', .ok) ∧ Rep N f' l := by
  have h1 : f.isEmpty = false := by
    cases h : f.isEmpty
    · rfl
    · exact absurd (r.empty_iff.1 h) (by simp)
  have hlen := r.len_le
  simp only [List.length_cons] at hlen
  have hh' : (f.head + 1) % N = ix N f.head 1 := rfl
  have hix : ∀ k, ix N ((f.head + 1) % N) k = ix N f.head (k + 1) := by
    intro k; simp [ix]; congr 1; omega
  refine ⟨{ f with head := (f.head + 1) % N, isEmpty := if f.last = (f.head + 1) % N then true else false }, ?_, ?_⟩
  · simp only [dequeue, h1, Bool.false_eq_true, if_false]
  · refine ⟨Nat.mod_lt _ r.pos, by omega, ?_, ?_, ?_⟩
    · simp [r.last_eq, hix]
    · simp only [r.last_eq, hh', List.length_cons]
      constructor
      · intro h
        split at h
        · rename_i e
          have := ix_inj' r.head_lt (by omega) (by omega) (by omega) (by omega) e
          exact List.length_eq_zero_iff.1 (by omega)
        · simp at h
      · intro h; simp [h]
    · intro k hk
      have := r.get (k + 1) (by simp; omega)
      simp only [hix, this, List.getElem_cons_succ]

theorem findThread_spec {N f l} (t : Nat) (r : Rep N f l) :
    ∀ fuel k, k < l.length → l.length - k ≤ fuel →
      findThread N t f fuel (ix N f.head k) =
        some (if t ∈ l.drop k then ix N f.head (k + (l.drop k).idxOf t) else N) := by
  intro fuel
  induction fuel with
  | zero => intro k h1 h2; omega
  | succ fuel ih =>
    intro k hk hf
    have hlen := r.len_le
    unfold findThread
    have hd : l.drop k = l[k] :: l.drop (k + 1) := List.drop_eq_getElem_cons hk
    rw [if_pos (ix_lt r.pos), r.get k hk]
    by_cases e : l[k] = t
    · rw [if_pos e, hd]; simp [e, List.idxOf_cons]
    · rw [if_neg e]
      simp only [ix_succ]
      by_cases e2 : k + 1 = l.length
      · have : ix N f.head (k + 1) = f.last := by rw [r.last_eq, e2]
        have hnil : l.drop (k + 1) = [] := by simp [e2]
        simp [this, hd, hnil, Ne.symm e]
      · have : ix N f.head (k + 1) ≠ f.last := by
          rw [r.last_eq]; intro h
          exact e2 (ix_inj' r.head_lt (by omega) (by omega) (by omega) (by omega) h)
        rw [if_pos this, ih (k + 1) (by omega) (by omega), hd]
        have hne : ¬ (t = l[k]) := fun h => e h.symm
        simp only [List.mem_cons, hne, false_or]
        split
        · rw [List.idxOf_cons]
          have : (l[k] == t) = false := by simp [e]
          simp only [this, cond_false]
          congr 2; omega
        · rfl

theorem shiftLeft_spec {N h : Nat} (hh : h < N) (m : Nat) (hm : m < N) :
    ∀ fuel p (b : Nat → Nat), p ≤ m → m - p < fuel →
      ∃ b', shiftLeft N (ix N h m) fuel (ix N h p) b = some b' ∧
        (∀ k, p ≤ k → k < m → b' (ix N h k) = b (ix N h (k + 1))) ∧
        (∀ k, k < N → (k < p ∨ m ≤ k) → b' (ix N h k) = b (ix N h k)) := by
  intro fuel
  induction fuel with
  | zero => intro p b _ h; omega
  | succ fuel ih =>
    intro p b hpm hf
    have hN : 0 < N := by omega
    unfold shiftLeft
    by_cases e : p = m
    · subst e
      exact ⟨b, by simp, fun k _ _ => by omega, fun k _ _ => rfl⟩
    · have hne : ix N h p ≠ ix N h m := fun h' => e (ix_inj hh (by omega) hm h')
      rw [if_pos hne, if_pos ⟨ix_lt hN, Nat.mod_lt _ hN⟩, ix_succ]
      obtain ⟨b', e1, e2, e3⟩ := ih (p + 1) (upd b (ix N h p) (b (ix N h (p + 1)))) (by omega)
        (by omega)
      refine ⟨b', e1, ?_, ?_⟩
      · intro k hk1 hk2
        by_cases hk : k = p
        · subst hk
          rw [e3 k (by omega) (by omega)]; simp
        · rw [e2 k (by omega) hk2, upd_other]
          intro h'; have := ix_inj hh (by omega) (by omega) h'; omega
      · intro k hk1 hk2
        rw [e3 k hk1 (by omega), upd_other]
        intro h'; have := ix_inj hh hk1 (by omega) h'; omega

theorem getElem_erase_lt {l : List Nat} {t k : Nat} (hk : k < l.idxOf t) (h : k < (l.erase t).length)
    (h2 : k < l.length) : (l.erase t)[k] = l[k] := by
  induction l generalizing k with
  | nil => simp at h2
  | cons x l ih =>
    by_cases e : x = t
    · subst e; simp at hk
    · have e' : (x == t) = false := by simp [e]
      simp only [List.idxOf_cons, e', cond_false] at hk
      have he : (x :: l).erase t = x :: l.erase t := by simp [e]
      cases k with
      | zero => simp [he]
      | succ k =>
        simp only [he, List.getElem_cons_succ]
        apply ih
        · omega

theorem getElem_erase_ge {l : List Nat} {t k : Nat} (hk : l.idxOf t ≤ k) (h : k < (l.erase t).length)
    (h2 : k + 1 < l.length) : (l.erase t)[k] = l[k + 1] := by
  induction l generalizing k with
  | nil => simp at h2
  | cons x l ih =>
    by_cases e : x = t
    · subst e; simp
    · have e' : (x == t) = false := by simp [e]
      simp only [List.idxOf_cons, e', cond_false] at hk
      have he : (x :: l).erase t = x :: l.erase t := by simp [e]
      cases k with
      | zero => omega
      | succ k =>
        simp only [he, List.getElem_cons_succ]
        apply ih
        · omega

theorem rep_remove_notin {N f l} (r : Rep N f l) (t : Nat) (ht : t ∉ l) :
    f.removeThread N t = some (f, .notfound) := by
  unfold removeThread
  by_cases h : l = []
  · have : f.isEmpty = true := r.empty_iff.2 h
    simp [this]
  · have hne : ¬ f.isEmpty = true := fun h' => h (r.empty_iff.1 h')
    have hpos := List.length_pos_iff.2 h
    have hlen := r.len_le
    have := findThread_spec t r (N + 1) 0 hpos (by omega)
    rw [ix_zero r.head_lt] at this
    simp only [List.drop_zero, ht, if_false] at this
    rw [if_neg hne, this]; simp

theorem rep_remove {N f l} (r : Rep N f l) (t : Nat) (ht : t ∈ l) :
    ∃ f', f.removeThread N t = some (f', .ok) ∧ Rep N f' (l.erase t) := by
  have h : l ≠ [] := List.ne_nil_of_mem ht
  have hne : ¬ f.isEmpty = true := fun h' => h (r.empty_iff.1 h')
  have hne' : f.isEmpty = false := by simpa using hne
  have hpos := List.length_pos_iff.2 h
  have hlen := r.len_le
  have hfind := findThread_spec t r (N + 1) 0 hpos (by omega)
  rw [ix_zero r.head_lt] at hfind
  simp only [List.drop_zero, ht, if_true, Nat.zero_add] at hfind
  have hidx : l.idxOf t < l.length := List.idxOf_lt_length_iff.2 ht
  generalize hp : l.idxOf t = p at *
  have hpN : ix N f.head p ≠ N := by have := @ix_lt N f.head p r.pos; omega
  have hlast : pred N f.last = ix N f.head (l.length - 1) := by
    rw [r.last_eq]
    have : l.length = (l.length - 1) + 1 := by omega
    rw [this, pred_ix r.head_lt (by omega)]; simp
  obtain ⟨b, hb1, hb2, hb3⟩ := shiftLeft_spec (h := f.head) r.head_lt (l.length - 1) (by omega)
    (N + 1) p f.buf (by omega) (by omega)
  have hel : (l.erase t).length = l.length - 1 := List.length_erase_of_mem ht
  refine ⟨{ f with buf := b, last := ix N f.head (l.length - 1), isEmpty := if ix N f.head (l.length - 1) = f.head then true else f.isEmpty }, ?_, ?_⟩
  · simp only [removeThread, if_neg hne, hfind, if_neg hpN, hlast, hb1]
  · refine ⟨r.head_lt, by omega, by simp [hel], ?_, ?_⟩
    · constructor
      · intro h'
        split at h'
        · rename_i e
          rw [show f.head = ix N f.head 0 from (ix_zero r.head_lt).symm] at e
          rw [ix_zero r.head_lt] at e
          have e' : ix N f.head (l.length - 1) = ix N f.head 0 := by rw [e, ix_zero r.head_lt]
          have := ix_inj r.head_lt (by omega) r.pos e'
          exact List.length_eq_zero_iff.1 (by omega)
        · simp [hne'] at h'
      · intro h'
        have : l.length - 1 = 0 := by rw [← hel, h']; rfl
        simp [this, ix_zero r.head_lt]
    · intro k hk
      show b (ix N f.head k) = _
      rw [hel] at hk
      by_cases hkp : k < p
      · rw [hb3 k (by omega) (by omega), r.get k (by omega),
          getElem_erase_lt (by omega) (by omega) (by omega)]
      · rw [hb2 k (by omega) (by omega), r.get (k + 1) (by omega),
          getElem_erase_ge (by omega) (by omega) (by omega)]

/-! ### The priority order is kept -/

theorem mem_arrivePrio {prio : Nat → Nat} {t x : Nat} {q : List Nat} :
    x ∈ arrivePrio prio q t ↔ x = t ∨ x ∈ q := by
  induction q with
  | nil => simp [arrivePrio]
  | cons y q ih =>
    unfold arrivePrio
    split
    · simp [ih]; constructor <;> (intro h; rcases h with h | h | h <;> simp [h])
    · simp

theorem sorted_arrivePrio {prio : Nat → Nat} {t : Nat} {q : List Nat} (h : Sorted prio q) :
    Sorted prio (arrivePrio prio q t) := by
  induction q with
  | nil => simp [arrivePrio, Sorted]
  | cons y q ih =>
    unfold Sorted at h ⊢
    rw [List.pairwise_cons] at h
    unfold arrivePrio
    split
    · rename_i hle
      rw [List.pairwise_cons]
      refine ⟨?_, ih h.2⟩
      intro z hz
      rcases mem_arrivePrio.1 hz with rfl | hz
      · exact hle
      · exact h.1 z hz
    · rename_i hlt
      rw [List.pairwise_cons]
      refine ⟨?_, List.pairwise_cons.2 h⟩
      intro z hz
      rcases List.mem_cons.1 hz with rfl | hz
      · omega
      · have := h.1 z hz; omega

theorem length_arrivePrio {prio : Nat → Nat} {t : Nat} {q : List Nat} :
    (arrivePrio prio q t).length = q.length + 1 := by
  induction q with
  | nil => rfl
  | cons y q ih => unfold arrivePrio; split <;> simp [ih]

/-- Among threads of one priority, arrival order is kept. -/
theorem filter_arrivePrio {prio : Nat → Nat} {t : Nat} {q : List Nat} (h : Sorted prio q) (v : Nat) :
    (arrivePrio prio q t).filter (fun x => prio x = v) =
      q.filter (fun x => prio x = v) ++ (if prio t = v then [t] else []) := by
  induction q with
  | nil => simp [arrivePrio, List.filter_cons]
  | cons y q ih =>
    unfold Sorted at h
    rw [List.pairwise_cons] at h
    unfold arrivePrio
    split
    · simp only [List.filter_cons, ih h.2]
      split <;> simp
    · rename_i hlt
      simp only [List.filter_cons (x := t)]
      by_cases e : prio t = v
      · have : (y :: q).filter (fun x => decide (prio x = v)) = [] := by
          rw [List.filter_eq_nil_iff]
          intro z hz
          rcases List.mem_cons.1 hz with rfl | hz
          · simp; omega
          · have := h.1 z hz; simp; omega
        rw [this]; simp [e]
      · simp [e]

theorem perm_arrivePrio {prio : Nat → Nat} {t : Nat} {q : List Nat} :
    (arrivePrio prio q t).Perm (t :: q) := by
  induction q with
  | nil => exact List.Perm.refl _
  | cons y q ih =>
    unfold arrivePrio; split
    · exact (List.Perm.cons y ih).trans (List.Perm.swap t y q)
    · exact List.Perm.refl _

end Pok.Fifo
