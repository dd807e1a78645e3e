import Verif.Lemmas.PortStep
import Verif.Lemmas.PortFlow
import Verif.Spec.PortIsolation

/-!
# Two port services that show the same to a group of partitions
-/

namespace Pok.Ports

/-- Port `i` is the same in both, except for its place in the port memory. -/
structure Like (s t : Ports) (i : Nat) : Prop where
  full : (t.P i).full = (s.P i).full
  size : (t.P i).size = (s.P i).size
  offB : (t.P i).offB = (s.P i).offB
  offE : (t.P i).offE = (s.P i).offE
  direction : (t.P i).direction = (s.P i).direction
  ready : (t.P i).ready = (s.P i).ready
  empty : (t.P i).empty = (s.P i).empty
  kind : (t.P i).kind = (s.P i).kind
  refresh : (t.P i).refresh = (s.P i).refresh
  lastReceive : (t.P i).lastReceive = (s.P i).lastReceive
  locked : (t.P i).locked = (s.P i).locked
  mustFlush : (t.P i).mustFlush = (s.P i).mustFlush
  partition : (t.P i).partition = (s.P i).partition
  bytes : ∀ k, k < (s.P i).size → t.data ((t.P i).index + k) = s.data ((s.P i).index + k)

theorem Like.init (i : Nat) : Like Ports.init Ports.init i :=
  ⟨rfl, rfl, rfl, rfl, rfl, rfl, rfl, rfl, rfl, rfl, rfl, rfl, rfl, fun _ _ => rfl⟩

/-- Nothing but port `i` and its bytes changes. -/
structure Moves (s s' : Ports) (i : Nat) : Prop where
  avail : s'.avail = s.avail
  other : ∀ j, j ≠ i → s'.P j = s.P j
  data : ∀ b, ¬ s.Owns i b → s'.data b = s.data b

theorem Moves.refl (s : Ports) (i : Nat) : Moves s s i := ⟨rfl, fun _ _ => rfl, fun _ _ => rfl⟩

theorem moves_set (s : Ports) (i : Nat) (p : Port) : Moves s (s.setPort i p) i :=
  ⟨rfl, fun _ hj => upd_other _ _ hj, fun _ _ => rfl⟩

theorem Only.moves {s s' : Ports} {i : Nat} (h : Only s s' i) : Moves s s' i := ⟨h.avail, h.other, h.data⟩

/-- All ports of the group are alike. -/
def Alike (c : PortCfg) (A : Nat → Bool) (s t : Ports) : Prop := ∀ i, A (c.owner i) = true → Like s t i

theorem fresh_size {c : PortCfg} {s : Ports} (hI : Inv c s) {i : Nat} (h : (s.P i).ready = false) : (s.P i).size = 0 := by
  rw [hI.fresh i h]

/-- Changes outside the group on one side are not noticed. -/
theorem Alike.within_left {c : PortCfg} {A : Nat → Bool} {s s' t : Ports} {S : Nat → Prop} (h : Alike c A s t) (hI : Inv c s) (w : Within s s' S)
    (hS : ∀ j, S j → A (c.owner j) = false) : Alike c A s' t := by
  intro i hi
  have hP : s'.P i = s.P i := w.other i (fun hs => by rw [hS i hs] at hi; exact Bool.noConfusion hi)
  have L := h i hi
  refine ⟨by rw [hP]; exact L.full, by rw [hP]; exact L.size, by rw [hP]; exact L.offB, by rw [hP]; exact L.offE, by rw [hP]; exact L.direction,
    by rw [hP]; exact L.ready, by rw [hP]; exact L.empty, by rw [hP]; exact L.kind, by rw [hP]; exact L.refresh, by rw [hP]; exact L.lastReceive,
    by rw [hP]; exact L.locked, by rw [hP]; exact L.mustFlush, by rw [hP]; exact L.partition, ?_⟩
  intro k hk
  rw [hP] at hk ⊢
  rw [L.bytes k hk, w.data]
  intro j hj hjr ho
  have hne : j ≠ i := by rintro rfl; rw [hS j hj] at hi; exact Bool.noConfusion hi
  have hir : (s.P i).ready = true := by
    cases e : (s.P i).ready with
    | true => rfl
    | false => rw [fresh_size hI e] at hk; omega
  unfold Owns at ho
  rcases hI.disj j i hne hjr hir with g | g <;> omega

theorem Like.symm {s t : Ports} {i : Nat} (h : Like s t i) : Like t s i :=
  ⟨h.full.symm, h.size.symm, h.offB.symm, h.offE.symm, h.direction.symm, h.ready.symm, h.empty.symm, h.kind.symm, h.refresh.symm, h.lastReceive.symm,
    h.locked.symm, h.mustFlush.symm, h.partition.symm, fun k hk => (h.bytes k (by rw [← h.size]; exact hk)).symm⟩

theorem Alike.symm {c : PortCfg} {A : Nat → Bool} {s t : Ports} (h : Alike c A s t) : Alike c A t s := fun i hi => (h i hi).symm

/-- The same change of one port on both sides. -/
theorem Alike.moves {c : PortCfg} {A : Nat → Bool} {s s' t t' : Ports} {i : Nat} (h : Alike c A s t) (hI : Inv c s) (hJ : Inv c t)
    (hr : (s.P i).ready = true) (hr' : (t.P i).ready = true) (m : Moves s s' i) (n : Moves t t' i)
    (L : A (c.owner i) = true → Like s' t' i) : Alike c A s' t' := by
  intro j hj
  by_cases e : j = i
  · rw [e]; exact L (by rw [← e]; exact hj)
  have g := h j hj
  have hP := m.other j e
  have hQ := n.other j e
  refine ⟨by rw [hP, hQ]; exact g.full, by rw [hP, hQ]; exact g.size, by rw [hP, hQ]; exact g.offB, by rw [hP, hQ]; exact g.offE,
    by rw [hP, hQ]; exact g.direction, by rw [hP, hQ]; exact g.ready, by rw [hP, hQ]; exact g.empty, by rw [hP, hQ]; exact g.kind,
    by rw [hP, hQ]; exact g.refresh, by rw [hP, hQ]; exact g.lastReceive, by rw [hP, hQ]; exact g.locked, by rw [hP, hQ]; exact g.mustFlush,
    by rw [hP, hQ]; exact g.partition, ?_⟩
  intro k hk
  rw [hP] at hk ⊢
  rw [hQ]
  have hjr : (s.P j).ready = true := by
    cases e2 : (s.P j).ready with
    | true => rfl
    | false => rw [fresh_size hI e2] at hk; omega
  have hjr' : (t.P j).ready = true := by rw [g.ready]; exact hjr
  rw [m.data, n.data, g.bytes k hk]
  · intro ho; unfold Owns at ho
    have := g.size
    rcases hJ.disj i j (Ne.symm e) hr' hjr' with q | q <;> omega
  · intro ho; unfold Owns at ho
    rcases hI.disj i j (Ne.symm e) hr hjr with q | q <;> omega

/-! ### Reading and writing one port -/

theorem readBytes_like {d d' : Nat → Nat} {a b n : Nat} (ha : a + n ≤ QUEUE_SIZE) (hb : b + n ≤ QUEUE_SIZE) (h : ∀ k, k < n → d' (b + k) = d (a + k)) :
    ∃ bs, readBytes d a n = some bs ∧ readBytes d' b n = some bs := by
  rw [readBytes_some ha, readBytes_some hb]
  refine ⟨_, rfl, ?_⟩
  congr 1
  apply List.map_congr_left
  intro k hk
  exact h k (by simpa using hk)

theorem ringRead_like {s t : Ports} {i n : Nat} (L : Like s t i) (h1 : (s.P i).index + (s.P i).size ≤ QUEUE_SIZE)
    (h2 : (t.P i).index + (t.P i).size ≤ QUEUE_SIZE) (hb : (s.P i).offB ≤ (s.P i).size) (hn : n ≤ (s.P i).size) :
    ∃ bs, ringRead s.data (s.P i) n = some bs ∧ ringRead t.data (t.P i) n = some bs := by
  unfold ringRead
  rw [L.size] at h2
  rw [L.offB, L.size]
  by_cases h : (s.P i).offB + n > (s.P i).size
  · rw [if_pos h, if_pos h]
    obtain ⟨x, x1, x2⟩ := readBytes_like (d := s.data) (d' := t.data) (a := (s.P i).index + (s.P i).offB) (b := (t.P i).index + (s.P i).offB)
      (n := (s.P i).size - (s.P i).offB) (by omega) (by omega) (fun k hk => by rw [Nat.add_assoc, Nat.add_assoc]; exact L.bytes _ (by omega))
    obtain ⟨y, y1, y2⟩ := readBytes_like (d := s.data) (d' := t.data) (a := (s.P i).index) (b := (t.P i).index)
      (n := n - ((s.P i).size - (s.P i).offB)) (by omega) (by omega) (fun k hk => L.bytes _ (by omega))
    rw [x1, x2, y1, y2]
    exact ⟨_, rfl, rfl⟩
  · rw [if_neg h, if_neg h]
    exact readBytes_like (by omega) (by omega) (fun k hk => by rw [Nat.add_assoc, Nat.add_assoc]; exact L.bytes _ (by omega))

theorem Like.afterGet {s t s' t' : Ports} {i n : Nat} (L : Like s t i) (hs : s' = s.setPort i (afterGet (s.P i) n))
    (ht : t' = t.setPort i (afterGet (t.P i) n)) : Like s' t' i := by
  subst hs; subst ht
  have e1 : (s.setPort i (Ports.afterGet (s.P i) n)).P i = Ports.afterGet (s.P i) n := by simp [setPort]
  have e2 : (t.setPort i (Ports.afterGet (t.P i) n)).P i = Ports.afterGet (t.P i) n := by simp [setPort]
  by_cases h : ((s.P i).offB + n) % (s.P i).size = (s.P i).offE
  · have h' : ((t.P i).offB + n) % (t.P i).size = (t.P i).offE := by rw [L.offB, L.size, L.offE]; exact h
    rw [show Ports.afterGet (s.P i) n = _ from if_pos h] at e1 ⊢
    rw [show Ports.afterGet (t.P i) n = _ from if_pos h'] at e2 ⊢
    constructor <;> rw [e1, e2]
    · exact L.size
    · show ((t.P i).offB + n) % (t.P i).size = _; rw [L.offB, L.size]
    · exact L.offE
    · exact L.direction
    · exact L.ready
    · exact L.kind
    · exact L.refresh
    · exact L.lastReceive
    · exact L.locked
    · exact L.mustFlush
    · exact L.partition
    · exact L.bytes
  · have h' : ¬ ((t.P i).offB + n) % (t.P i).size = (t.P i).offE := by rw [L.offB, L.size, L.offE]; exact h
    rw [show Ports.afterGet (s.P i) n = _ from if_neg h] at e1 ⊢
    rw [show Ports.afterGet (t.P i) n = _ from if_neg h'] at e2 ⊢
    constructor <;> rw [e1, e2]
    · exact L.full
    · exact L.size
    · show ((t.P i).offB + n) % (t.P i).size = _; rw [L.offB, L.size]
    · exact L.offE
    · exact L.direction
    · exact L.ready
    · exact L.empty
    · exact L.kind
    · exact L.refresh
    · exact L.lastReceive
    · exact L.locked
    · exact L.mustFlush
    · exact L.partition
    · exact L.bytes

theorem portGet_like {c : PortCfg} {s t s' : Ports} {i n : Nat} {e : Errno} {bs : List Nat} (hI : Inv c s) (hJ : Inv c t)
    (hr : (s.P i).ready = true) (L : Like s t i) (h : portGet s i n = some (s', e, bs)) :
    ∃ t', portGet t i n = some (t', e, bs) ∧ Moves s s' i ∧ Moves t t' i ∧ Like s' t' i := by
  have ok := hI.ok i hr
  have hr' : (t.P i).ready = true := by rw [L.ready]; exact hr
  have hin := inside_queue ok
  have hin' := inside_queue (hJ.ok i hr')
  have triv : ∀ {e' : Errno}, some (s, e', ([] : List Nat)) = some (s', e, bs) →
      ∃ t', some (t, e', ([] : List Nat)) = some (t', e, bs) ∧ Moves s s' i ∧ Moves t t' i ∧ Like s' t' i := by
    intro e' h
    injection h with h; injection h with h1 h2; injection h2 with h2 h3
    subst h1; subst h2; subst h3
    exact ⟨t, rfl, Moves.refl _ _, Moves.refl _ _, L⟩
  unfold portGet at h ⊢
  simp only [L.kind, L.empty, L.size] at *
  split at h
  · next hk =>
    rw [if_pos hk]
    split at h
    · next he => rw [if_pos he]; exact triv h
    next he =>
    rw [if_neg he]
    split at h
    · next hl => rw [if_pos hl]; exact triv h
    next hl =>
    rw [if_neg hl]
    split at h
    · simp at h
    next h0 =>
    rw [if_neg h0]
    obtain ⟨x, x1, x2⟩ := ringRead_like (n := n) L hin (by rw [L.size]; exact hin') (Nat.le_of_lt (ok.qb hk (by omega))) (by omega)
    rw [x1] at h
    rw [x2]
    simp only at h ⊢
    injection h with h; injection h with h1 h2; injection h2 with h2 h3
    subst h2; subst h3
    exact ⟨_, rfl, by rw [← h1]; exact moves_set _ _ _, moves_set _ _ _, L.afterGet h1.symm rfl⟩
  next hk =>
  rw [if_neg hk]
  split at h
  · next hk2 =>
    rw [if_pos hk2]
    split at h
    · next he => rw [if_pos he]; exact triv h
    next he =>
    rw [if_neg he]
    split at h
    · next hl => rw [if_pos hl]; exact triv h
    next hl =>
    rw [if_neg hl]
    obtain ⟨b0, _⟩ := ok.samp hk2
    obtain ⟨x, x1, x2⟩ := readBytes_like (d := s.data) (d' := t.data) (a := (s.P i).index + (s.P i).offB) (b := (t.P i).index + (t.P i).offB)
      (n := n) (by rw [b0]; omega) (by rw [L.offB, b0]; omega) (fun k hk => by rw [L.offB, b0]; exact L.bytes k (by omega))
    rw [x1] at h
    rw [x2]
    simp only at h ⊢
    injection h with h; injection h with h1 h2; injection h2 with h2 h3
    subst h1; subst h2; subst h3
    exact ⟨t, rfl, Moves.refl _ _, Moves.refl _ _, L⟩
  · next hk2 =>
    rw [if_neg hk2]
    exact triv h

/-- Every byte of a port is one place of the ring. -/
theorem ring_place {e k n : Nat} (he : e < n) (hk : k < n) : ∃ j, j < n ∧ (e + j) % n = k := by
  by_cases h : e ≤ k
  · exact ⟨k - e, by omega, by rw [show e + (k - e) = k by omega]; exact Nat.mod_eq_of_lt hk⟩
  · exact ⟨n - e + k, by omega, by rw [show e + (n - e + k) = n + k by omega, Nat.add_mod_left]; exact Nat.mod_eq_of_lt hk⟩

theorem Like.afterPut {s t : Ports} {i n : Nat} {d d' : Nat → Nat} (L : Like s t i)
    (hd : ∀ k, k < (s.P i).size → d' ((t.P i).index + k) = d ((s.P i).index + k)) :
    Like { s.setPort i (afterPut (s.P i) n) with data := d } { t.setPort i (afterPut (t.P i) n) with data := d' } i := by
  have e1 : ({ s.setPort i (Ports.afterPut (s.P i) n) with data := d } : Ports).P i = Ports.afterPut (s.P i) n := by simp [setPort]
  have e2 : ({ t.setPort i (Ports.afterPut (t.P i) n) with data := d' } : Ports).P i = Ports.afterPut (t.P i) n := by simp [setPort]
  by_cases h : ((s.P i).offE + n) % (s.P i).size = (s.P i).offB
  · have h' : ((t.P i).offE + n) % (t.P i).size = (t.P i).offB := by rw [L.offE, L.size, L.offB]; exact h
    rw [show Ports.afterPut (s.P i) n = _ from if_pos h] at e1 ⊢
    rw [show Ports.afterPut (t.P i) n = _ from if_pos h'] at e2 ⊢
    constructor <;> rw [e1, e2]
    · exact L.size
    · exact L.offB
    · show ((t.P i).offE + n) % (t.P i).size = _; rw [L.offE, L.size]
    · exact L.direction
    · exact L.ready
    · exact L.kind
    · exact L.refresh
    · exact L.lastReceive
    · exact L.locked
    · exact L.mustFlush
    · exact L.partition
    · exact hd
  · have h' : ¬ ((t.P i).offE + n) % (t.P i).size = (t.P i).offB := by rw [L.offE, L.size, L.offB]; exact h
    rw [show Ports.afterPut (s.P i) n = _ from if_neg h] at e1 ⊢
    rw [show Ports.afterPut (t.P i) n = _ from if_neg h'] at e2 ⊢
    constructor <;> rw [e1, e2]
    · exact L.full
    · exact L.size
    · exact L.offB
    · show ((t.P i).offE + n) % (t.P i).size = _; rw [L.offE, L.size]
    · exact L.direction
    · exact L.ready
    · exact L.kind
    · exact L.refresh
    · exact L.lastReceive
    · exact L.locked
    · exact L.mustFlush
    · exact L.partition
    · exact hd

theorem Like.afterSample {s t : Ports} {i now : Nat} {d d' : Nat → Nat} (L : Like s t i)
    (hd : ∀ k, k < (s.P i).size → d' ((t.P i).index + k) = d ((s.P i).index + k)) :
    Like { s.setPort i (afterSample (s.P i) now) with data := d } { t.setPort i (afterSample (t.P i) now) with data := d' } i := by
  have e1 : ({ s.setPort i (Ports.afterSample (s.P i) now) with data := d } : Ports).P i = Ports.afterSample (s.P i) now := by simp [setPort]
  have e2 : ({ t.setPort i (Ports.afterSample (t.P i) now) with data := d' } : Ports).P i = Ports.afterSample (t.P i) now := by simp [setPort]
  constructor <;> rw [e1, e2] <;> unfold Ports.afterSample
  · exact L.full
  · exact L.size
  · exact L.offB
  · exact L.offE
  · exact L.direction
  · exact L.ready
  · rfl
  · exact L.kind
  · exact L.refresh
  · rfl
  · exact L.locked
  · exact L.mustFlush
  · exact L.partition
  · exact hd

theorem portWrite_like {c : PortCfg} {s t s' : Ports} {now i : Nat} {e : Errno} {bs : List Nat} (hI : Inv c s) (hJ : Inv c t)
    (hr : (s.P i).ready = true) (L : Like s t i) (h : portWrite s now i bs = some (s', e)) :
    ∃ t', portWrite t now i bs = some (t', e) ∧ Moves s s' i ∧ Moves t t' i ∧ Like s' t' i := by
  have ok := hI.ok i hr
  have hr' : (t.P i).ready = true := by rw [L.ready]; exact hr
  have hin := inside_queue ok
  have hin' := inside_queue (hJ.ok i hr')
  have triv : ∀ {e' : Errno}, some (s, e') = some (s', e) →
      ∃ t', some (t, e') = some (t', e) ∧ Moves s s' i ∧ Moves t t' i ∧ Like s' t' i := by
    intro e' h
    injection h with h; injection h with h1 h2
    subst h1; subst h2
    exact ⟨t, rfl, Moves.refl _ _, Moves.refl _ _, L⟩
  unfold portWrite at h ⊢
  simp only [L.kind, L.full, L.size] at *
  split at h
  · next hk =>
    rw [if_pos hk]
    split at h
    · next he => rw [if_pos he]; exact triv h
    next he =>
    rw [if_neg he]
    split at h
    · next hl => rw [if_pos hl]; exact triv h
    next hl =>
    rw [if_neg hl]
    split at h
    · simp at h
    next h0 =>
    rw [if_neg h0]
    have hE := ok.qe hk (by omega)
    obtain ⟨d, d1, d2, d3⟩ := ringWrite_spec (d := s.data) (bs := bs) hin hE (by omega)
    obtain ⟨g, g1, g2, g3⟩ := ringWrite_spec (d := t.data) (bs := bs) (p := t.P i) (by rw [L.size]; exact hin') (by rw [L.offE, L.size]; exact hE)
      (by rw [L.size]; omega)
    rw [d1] at h
    rw [g1]
    simp only at h ⊢
    injection h with h; injection h with h1 h2
    subst h1; subst h2
    refine ⟨_, rfl, ⟨rfl, fun _ hj => upd_other _ _ hj, d3⟩, ⟨rfl, fun _ hj => upd_other _ _ hj, g3⟩, L.afterPut ?_⟩
    intro k hk
    obtain ⟨j, j1, j2⟩ := ring_place hE hk
    have a1 := d2 j j1
    have a2 := g2 j (by rw [L.size]; exact j1)
    rw [L.offE, L.size, j2] at a2
    rw [j2] at a1
    rw [a1, a2]
    split
    · rfl
    · exact L.bytes k hk
  next hk =>
  rw [if_neg hk]
  split at h
  · next hk2 =>
    rw [if_pos hk2]
    split at h
    · next hl => rw [if_pos hl]; exact triv h
    next hl =>
    rw [if_neg hl]
    obtain ⟨_, e0⟩ := ok.samp hk2
    rw [e0, Nat.add_zero, writeBytes_some (by omega)] at h
    rw [L.offE, e0, Nat.add_zero, writeBytes_some (by omega)]
    simp only at h ⊢
    injection h with h; injection h with h1 h2
    subst h1; subst h2
    refine ⟨_, rfl, ⟨rfl, fun _ hj => upd_other _ _ hj, fun b hb => ?_⟩, ⟨rfl, fun _ hj => upd_other _ _ hj, fun b hb => ?_⟩, L.afterSample ?_⟩
    · unfold Owns at hb; show (if _ then _ else _) = _; rw [if_neg (by omega)]
    · unfold Owns at hb; rw [L.size] at hb; show (if _ then _ else _) = _; rw [if_neg (by omega)]
    · intro k hk
      by_cases h2 : k < bs.length
      · rw [if_pos (by omega), if_pos (by omega)]; congr 1; omega
      · rw [if_neg (by omega), if_neg (by omega)]; exact L.bytes k hk
  · next hk2 =>
    rw [if_neg hk2]
    exact triv h

/-! ### Bookkeeping bits -/

theorem Like.bits {s t : Ports} {i : Nat} (L : Like s t i) (m l : Bool) :
    Like (s.setPort i { s.P i with mustFlush := m, locked := l }) (t.setPort i { t.P i with mustFlush := m, locked := l }) i := by
  have e1 : (s.setPort i { s.P i with mustFlush := m, locked := l }).P i = { s.P i with mustFlush := m, locked := l } := by simp [setPort]
  have e2 : (t.setPort i { t.P i with mustFlush := m, locked := l }).P i = { t.P i with mustFlush := m, locked := l } := by simp [setPort]
  constructor <;> rw [e1, e2]
  · exact L.full
  · exact L.size
  · exact L.offB
  · exact L.offE
  · exact L.direction
  · exact L.ready
  · exact L.empty
  · exact L.kind
  · exact L.refresh
  · exact L.lastReceive
  · exact L.partition
  · exact L.bytes

theorem Like.keep {s t s' t' : Ports} {i : Nat} (L : Like s t i) (h1 : s'.P i = s.P i) (h2 : t'.P i = t.P i) (h3 : s'.data = s.data)
    (h4 : t'.data = t.data) : Like s' t' i := by
  constructor <;> rw [h1, h2]
  · exact L.full
  · exact L.size
  · exact L.offB
  · exact L.offE
  · exact L.direction
  · exact L.ready
  · exact L.empty
  · exact L.kind
  · exact L.refresh
  · exact L.lastReceive
  · exact L.locked
  · exact L.mustFlush
  · exact L.partition
  · rw [h3, h4]; exact L.bytes

theorem Alike.bits {c : PortCfg} {A : Nat → Bool} {s t : Ports} {i : Nat} (h : Alike c A s t) (m l : Bool) :
    Alike c A (s.setPort i { s.P i with mustFlush := m, locked := l }) (t.setPort i { t.P i with mustFlush := m, locked := l }) := by
  intro j hj
  by_cases e : j = i
  · rw [e]; exact (h i (by rw [← e]; exact hj)).bits m l
  · exact (h j hj).keep (upd_other _ _ e) (upd_other _ _ e) rfl rfl

theorem Alike.mark {c : PortCfg} {A : Nat → Bool} {s t : Ports} {i : Nat} (h : Alike c A s t) (hl : (t.P i).locked = (s.P i).locked) (m : Bool) :
    Alike c A (s.setPort i { s.P i with mustFlush := m }) (t.setPort i { t.P i with mustFlush := m }) := by
  have := h.bits (i := i) m (s.P i).locked
  rw [show ({ t.P i with mustFlush := m } : Port) = { t.P i with mustFlush := m, locked := (s.P i).locked } by rw [← hl]]
  exact this

end Pok.Ports
