import Verif.Lemmas.PortIso

/-!
# Flushes and histories, for two port services that look alike to a group
-/

namespace Pok.Ports

variable {c : PortCfg} {A : Nat → Bool} {s t s' t' : Ports}

theorem flushDests_cons (now : Nat) (bs : List Nat) (g : Nat) (gs : List Nat) (s : Ports) :
    flushDests c now bs (g :: gs) s = (flushDests c now bs [g] s).bind (flushDests c now bs gs) := by
  rw [flushDests, flushDests]
  try simp only
  split
  · rfl
  split
  · rfl
  split
  · rfl
  cases portWrite s now (c.toLocal g) bs <;> rfl

/-- One destination, in the group or not. -/
theorem flushDest_like {now g : Nat} {bs : List Nat} (h : Alike c A s t) (hI : Inv c s) (hJ : Inv c t) (hlt : c.toLocal g < c.nbPorts)
    (hk : c.kindOf (c.toLocal g) = KIND_QUEUEING → 0 < bs.length) :
    ∃ s' t', flushDests c now bs [g] s = some s' ∧ flushDests c now bs [g] t = some t' ∧ Alike c A s' t' ∧ Inv c s' ∧ Inv c t' := by
  obtain ⟨s', a1, a2, a3, _, _⟩ := flushDests_within (now := now) (bs := bs) [g] s hI (by simpa using hlt) (by simpa using hk)
  obtain ⟨t', b1, b2, b3, _, _⟩ := flushDests_within (now := now) (bs := bs) [g] t hJ (by simpa using hlt) (by simpa using hk)
  refine ⟨s', t', a1, b1, ?_, a2, b2⟩
  by_cases hA : A (c.owner (c.toLocal g)) = true
  · have L := h _ hA
    unfold flushDests at a1 b1
    simp only at a1 b1
    rw [if_neg (by omega)] at a1 b1
    rw [L.ready, L.direction] at b1
    split at a1
    · next h1 => rw [if_pos h1] at b1; simp only [flushDests, Option.some.injEq] at a1 b1; rw [← a1, ← b1]; exact h
    next h1 =>
    rw [if_neg h1] at b1
    split at a1
    · next h2 => rw [if_pos h2] at b1; simp only [flushDests, Option.some.injEq] at a1 b1; rw [← a1, ← b1]; exact h
    next h2 =>
    rw [if_neg h2] at b1
    have hr : (s.P (c.toLocal g)).ready = true := by simpa using h1
    cases hw : portWrite s now (c.toLocal g) bs with
    | none => rw [hw] at a1; simp at a1
    | some x =>
      obtain ⟨s1, e⟩ := x
      obtain ⟨t1, w1, w2, w3, w4⟩ := portWrite_like hI hJ hr L hw
      rw [hw] at a1
      rw [w1] at b1
      simp only [flushDests, Option.some.injEq] at a1 b1
      rw [← a1, ← b1]
      exact h.moves hI hJ hr (by rw [L.ready]; exact hr) w2 w3 (fun _ => w4)
  · have hf : A (c.owner (c.toLocal g)) = false := by simpa using hA
    have h1 := h.within_left hI a3 (fun j hj => by have := hj.1; simp at this; rw [this]; exact hf)
    exact (h1.symm.within_left hJ b3 (fun j hj => by have := hj.1; simp at this; rw [this]; exact hf)).symm

theorem flushDests_like {now : Nat} {bs : List Nat} : ∀ (gs : List Nat) (s t : Ports), Alike c A s t → Inv c s → Inv c t →
    (∀ g ∈ gs, c.toLocal g < c.nbPorts) → (∀ g ∈ gs, c.kindOf (c.toLocal g) = KIND_QUEUEING → 0 < bs.length) →
    ∃ s' t', flushDests c now bs gs s = some s' ∧ flushDests c now bs gs t = some t' ∧ Alike c A s' t' ∧ Inv c s' ∧ Inv c t' := by
  intro gs
  induction gs with
  | nil => intro s t h hI hJ _ _; exact ⟨s, t, rfl, rfl, h, hI, hJ⟩
  | cons g gs ih =>
    intro s t h hI hJ hlt hk
    obtain ⟨s1, t1, a1, a2, a3, a4, a5⟩ := flushDest_like (now := now) (g := g) h hI hJ (hlt g List.mem_cons_self) (hk g List.mem_cons_self)
    obtain ⟨s2, t2, b1, b2, b3⟩ := ih s1 t1 a3 a4 a5 (fun g' hg => hlt g' (List.mem_cons_of_mem _ hg)) (fun g' hg => hk g' (List.mem_cons_of_mem _ hg))
    exact ⟨s2, t2, by rw [flushDests_cons, a1]; exact b1, by rw [flushDests_cons, a2]; exact b2, b3⟩

theorem flushPort_like (hc : c.Ok) {now l : Nat} (h : Alike c A s t) (hI : Inv c s) (hJ : Inv c t) (hl : l < c.nbPorts) (hA : A (c.owner l) = true) :
    ∃ s' t', flushPort c now s l = some s' ∧ flushPort c now t l = some t' ∧ Alike c A s' t' ∧ Inv c s' ∧ Inv c t' := by
  obtain ⟨s', a1, a2, _⟩ := flushPort_within hc (now := now) hI hl
  obtain ⟨t', b1, b2, _⟩ := flushPort_within hc (now := now) hJ hl
  refine ⟨s', t', a1, b1, ?_, a2, b2⟩
  have L := h l hA
  unfold flushPort at a1 b1
  rw [if_neg (by omega)] at a1 b1
  rw [L.direction, L.empty, L.mustFlush] at b1
  split at a1
  · next h1 => rw [if_pos h1] at b1; simp only [Option.some.injEq] at a1 b1; rw [← a1, ← b1]; exact h
  next h1 =>
  rw [if_neg h1] at b1
  split at a1
  · next h2 => rw [if_pos h2] at b1; simp only [Option.some.injEq] at a1 b1; rw [← a1, ← b1]; exact h
  next h2 =>
  rw [if_neg h2] at b1
  split at a1
  · next h3 => rw [if_pos h3] at b1; simp only [Option.some.injEq] at a1 b1; rw [← a1, ← b1]; exact h
  next h3 =>
  rw [if_neg h3] at b1
  have he : (s.P l).empty = false := by simpa using h2
  have hr : (s.P l).ready = true := by
    cases hh : (s.P l).ready with
    | true => rfl
    | false => rw [hI.fresh l hh] at he; simp at he
  have hcs : consumedSize (t.P l) = consumedSize (s.P l) := by unfold consumedSize; rw [L.empty, L.offB, L.offE, L.size]
  obtain ⟨s1, bs, g1, g2, g3, _, _, g6, g7⟩ := portGet_all hI hr he
  obtain ⟨t1, w1, w2, w3, w4⟩ := portGet_like hI hJ hr L g1
  obtain ⟨t1', _, k1, k2, k3, _⟩ := portGet_all hJ (by rw [L.ready]; exact hr) (by rw [L.empty]; exact he)
  rw [hcs, w1] at k1
  injection k1 with k1; injection k1 with k1 k1'
  rw [← k1] at k3
  rw [g1] at a1
  rw [hcs, w1] at b1
  simp only [ne_eq, not_true_eq_false, if_false] at a1 b1
  have hkinds : ∀ g ∈ c.dests l, c.kindOf (c.toLocal g) = KIND_QUEUEING → 0 < bs.length := by
    intro g hg hk
    have := hc.destKind l g hl hg
    rw [hk] at this
    exact (g6 (by rw [(hI.ok l hr).kindOf, ← this])).2.2
  have h1' := h.moves hI hJ hr (by rw [L.ready]; exact hr) w2 w3 (fun _ => w4)
  obtain ⟨s2, t2, d1, d2, d3, _, _⟩ := flushDests_like (now := now) (c.dests l) s1 t1 h1' g3 k3 (fun g hg => hc.dests l g hl hg) hkinds
  rw [d1] at a1
  rw [d2] at b1
  simp only [Option.some.injEq] at a1 b1
  rw [← a1, ← b1]
  exact d3.mark (d3 l hA).locked false

theorem flushList_like (hc : c.Ok) {now : Nat} : ∀ (ls : List Nat) (s t : Ports), Alike c A s t → Inv c s → Inv c t →
    (∀ l ∈ ls, l < c.nbPorts ∧ A (c.owner l) = true) →
    ∃ s' t', flushList c now ls s = some s' ∧ flushList c now ls t = some t' ∧ Alike c A s' t' ∧ Inv c s' ∧ Inv c t' := by
  intro ls
  induction ls with
  | nil => intro s t h hI hJ _; exact ⟨s, t, rfl, rfl, h, hI, hJ⟩
  | cons l ls ih =>
    intro s t h hI hJ hl
    obtain ⟨s1, t1, a1, a2, a3, a4, a5⟩ := flushPort_like hc (now := now) h hI hJ (hl l List.mem_cons_self).1 (hl l List.mem_cons_self).2
    obtain ⟨s2, t2, b1, b2, b3⟩ := ih s1 t1 a3 a4 a5 (fun l' hl' => hl l' (List.mem_cons_of_mem _ hl'))
    refine ⟨s2, t2, ?_, ?_, b3⟩
    · unfold flushList; rw [a1]; exact b1
    · unfold flushList; rw [a2]; exact b2

theorem flushPartition_like (hc : c.Ok) {now p : Nat} (h : Alike c A s t) (hI : Inv c s) (hJ : Inv c t) (hp : A p = true) :
    ∃ s' t', flushPartition c now p s = some s' ∧ flushPartition c now p t = some t' ∧ Alike c A s' t' ∧ Inv c s' ∧ Inv c t' :=
  flushList_like hc (c.portsOf p) s t h hI hJ (fun l hl => ⟨(hc.portsOf p l hl).1, by rw [(hc.portsOf p l hl).2]; exact hp⟩)

/-- The flush of another partition. -/
theorem flushPartition_skip (hc : c.Ok) (hw : NoWayIn c A) {now p : Nat} (h : Alike c A s t) (hI : Inv c s) (hp : A p = false)
    (g : flushPartition c now p s = some s') : Alike c A s' t ∧ Inv c s' := by
  obtain ⟨s1, a1, a2, a3, _⟩ := flushPartition_within hc (now := now) (p := p) hI
  rw [g] at a1; injection a1 with a1; subst a1
  refine ⟨h.within_left hI a3 ?_, a2⟩
  rintro j (⟨hj, _⟩ | ⟨l, hl, _, hj, _⟩)
  · rw [(hc.portsOf p j hj).2]; exact hp
  · simp only [List.mem_map] at hj
    obtain ⟨g', hg, rfl⟩ := hj
    cases e : A (c.owner (c.toLocal g')) with
    | false => rfl
    | true =>
      have := hw l g' (hc.portsOf p l hl).1 hg e
      rw [(hc.portsOf p l hl).2, hp] at this
      exact Bool.noConfusion this

/-! ### Memory given away -/

/-- What a call asks for. -/
def need (op : PortOp) : Nat := asked [(0, op)]

theorem asked_cons (now : Nat) (op : PortOp) (h : List (Nat × PortOp)) : asked ((now, op) :: h) = need op + asked h := by
  cases op <;> simp [asked, need]

theorem step_avail (hc : c.Ok) {now : Nat} {op : PortOp} {o : PortOut} (hI : Inv c s) (h : s.step c now op = some (s', o)) :
    s'.avail ≤ s.avail ∧ s.avail ≤ s'.avail + need op := by
  have same : s'.avail = s.avail → s'.avail ≤ s.avail ∧ s.avail ≤ s'.avail + need op := by intro e; rw [e]; omega
  cases op with
  | queueingCreate part name size dir fifo =>
    unfold Ports.step at h
    simp only [Option.map_eq_some_iff] at h
    obtain ⟨⟨s1, e, r⟩, hq, h⟩ := h
    injection h with h _
    subst h
    rcases queueingCreate_cases hI hq with ⟨h, _⟩ | ⟨g, h1, h2, h3, h4, h5, h6, _, _, h9, _⟩
    · try simp only at h
      subst h; exact same rfl
    · try simp only
      rw [h9]; simp [need, asked]; omega
  | samplingCreate part name size dir refresh =>
    unfold Ports.step at h
    simp only [Option.map_eq_some_iff] at h
    obtain ⟨⟨s1, e, r⟩, hq, h⟩ := h
    injection h with h _
    subst h
    rcases samplingCreate_cases hI hq with ⟨h, _⟩ | ⟨g, h1, h2, h3, h4, h5, h6, _, _, h9, _⟩
    · try simp only at h
      subst h; exact same rfl
    · try simp only
      rw [h9]; simp [need, asked]; omega
  | samplingWrite part id bs =>
    unfold Ports.step at h
    simp only [Option.map_eq_some_iff] at h
    obtain ⟨⟨s1, r⟩, hq, h⟩ := h
    injection h with h _
    subst h
    rcases samplingWrite_cases hq with ⟨h, _⟩ | ⟨_, _, hr, hl, _, _, _, s2, e, hw, h⟩
    · try simp only at h
      subst h; exact same rfl
    · try simp only at h
      subst h
      exact same (dataWrite_effect hI hr hl hw).1.avail
  | samplingRead part id uptr =>
    unfold Ports.step at h
    simp only [Option.map_eq_some_iff] at h
    obtain ⟨⟨s1, r, o1⟩, hq, h⟩ := h
    injection h with h _
    subst h
    rcases samplingRead_cases hq with ⟨h, _⟩ | ⟨_, _, hr, hk, _, _, ⟨_, _, h⟩ | ⟨_, e, bs, hg, _⟩⟩
    · try simp only at h
      subst h; exact same rfl
    · try simp only at h
      subst h; exact same rfl
    · exact same (by rw [portGet_sampling hI hr hk] at hg; split at hg <;> (simp only [Option.some.injEq, Prod.mk.injEq] at hg; rw [← hg.1]))
  | send part id bs timeout =>
    unfold Ports.step queueingSend at h
    simp only [Option.map_eq_some_iff] at h
    obtain ⟨⟨s1, r⟩, hq, h⟩ := h
    injection h with h _
    subst h
    rcases sendAt_cases hq with ⟨h, _⟩ | ⟨_, _, hr, _, hl, _, _, _, _, _, s2, e, hw, h⟩
    · try simp only at h
      subst h; exact same rfl
    · try simp only at h
      subst h
      exact same (dataWrite_effect hI hr hl hw).1.avail
  | sendResume part id bs timeout =>
    unfold Ports.step at h
    simp only [Option.map_eq_some_iff] at h
    obtain ⟨⟨s1, r⟩, hq, h⟩ := h
    injection h with h _
    subst h
    rcases sendAt_cases hq with ⟨h, _⟩ | ⟨_, _, hr, _, hl, _, _, _, _, _, s2, e, hw, h⟩
    · try simp only at h
      subst h; exact same rfl
    · try simp only at h
      subst h
      exact same (dataWrite_effect hI hr hl hw).1.avail
  | receive part id maxlen timeout =>
    unfold Ports.step queueingReceive at h
    simp only [Option.map_eq_some_iff] at h
    obtain ⟨⟨s1, r, b⟩, hq, h⟩ := h
    injection h with h _
    subst h
    rcases receiveAt_cases hq with ⟨h, _⟩ | ⟨_, _, hr, hm, _, hk, _, _, he, e, b, hg, _⟩
    · try simp only at h
      subst h; exact same rfl
    · exact same (receive_effect hI hr hk he hm hg).2.2.2.1.avail
  | receiveResume part id maxlen timeout =>
    unfold Ports.step at h
    simp only [Option.map_eq_some_iff] at h
    obtain ⟨⟨s1, r, b⟩, hq, h⟩ := h
    injection h with h _
    subst h
    rcases receiveAt_cases hq with ⟨h, _⟩ | ⟨_, _, hr, hm, _, hk, _, _, he, e, b, hg, _⟩
    · try simp only at h
      subst h; exact same rfl
    · exact same (receive_effect hI hr hk he hm hg).2.2.2.1.avail
  | flushPartition p =>
    unfold Ports.step at h
    simp only [Option.map_eq_some_iff] at h
    obtain ⟨s1, hq, h⟩ := h
    injection h with h _
    subst h
    obtain ⟨s2, g1, _, _, _, _, g6⟩ := flushPartition_within hc (now := now) (p := p) hI
    rw [hq] at g1; injection g1 with g1; subst g1
    exact same g6
  | flushAll ps =>
    unfold Ports.step at h
    simp only [Option.map_eq_some_iff] at h
    obtain ⟨s1, hq, h⟩ := h
    injection h with h _
    subst h
    obtain ⟨s2, g1, _, _, _, _, g6⟩ := flushAll_within hc (now := now) ps s hI
    rw [hq] at g1; injection g1 with g1; subst g1
    exact same g6

theorem step_clean (hc : c.Ok) {now : Nat} {op : PortOp} {o : PortOut} (hI : Inv c s) (hC : Clean s) (h : s.step c now op = some (s', o)) :
    Clean s' := by
  intro b hb
  have ha := (step_avail hc hI h).1
  have w := (step_effect hc hI h).2
  rw [w.data b, hC b (by omega)]
  intro i _ hr ho
  have := (hI.ok i hr).inside
  unfold Owns at ho
  omega

/-! ### One call -/

/-- A call of a partition outside the group. -/
theorem step_skip (hc : c.Ok) {now : Nat} {op : PortOp} {o : PortOut} {p : Nat} (h : Alike c A s t) (hI : Inv c s)
    (hcal : caller op = some p) (hp : A p = false) (g : s.step c now op = some (s', o)) : Alike c A s' t := by
  have w := (step_effect hc hI g).2
  have one : ∀ {id : Nat}, (s' = s ∨ c.owner id = p) → Within s s' (· = id) → Alike c A s' t := by
    intro id hor hw
    rcases hor with e | e
    · rw [e]; exact h
    · exact h.within_left hI hw (fun j hj => by rw [hj, e]; exact hp)
  cases op with
  | queueingCreate part name size dir fifo =>
    injection hcal with hcal; subst hcal
    exact h.within_left hI w (fun j hj => by rw [hj.2.1]; exact hp)
  | samplingCreate part name size dir refresh =>
    injection hcal with hcal; subst hcal
    exact h.within_left hI w (fun j hj => by rw [hj.2.1]; exact hp)
  | samplingWrite part id bs =>
    injection hcal with hcal; subst hcal
    refine one ?_ w
    unfold Ports.step at g
    simp only [Option.map_eq_some_iff] at g
    obtain ⟨⟨s1, r⟩, hq, g⟩ := g
    injection g with g _
    rcases samplingWrite_cases hq with ⟨e, _⟩ | ⟨_, e, _⟩
    · exact Or.inl (g.symm.trans e)
    · exact Or.inr e
  | samplingRead part id uptr =>
    injection hcal with hcal; subst hcal
    refine one ?_ w
    unfold Ports.step at g
    simp only [Option.map_eq_some_iff] at g
    obtain ⟨⟨s1, r, o1⟩, hq, g⟩ := g
    injection g with g _
    rcases samplingRead_cases hq with ⟨e, _⟩ | ⟨_, e, _⟩
    · exact Or.inl (g.symm.trans e)
    · exact Or.inr e
  | send part id bs timeout =>
    injection hcal with hcal; subst hcal
    refine one ?_ w
    unfold Ports.step queueingSend at g
    simp only [Option.map_eq_some_iff] at g
    obtain ⟨⟨s1, r⟩, hq, g⟩ := g
    injection g with g _
    rcases sendAt_cases hq with ⟨e, _⟩ | ⟨_, e, _⟩
    · exact Or.inl (g.symm.trans e)
    · exact Or.inr e
  | sendResume part id bs timeout =>
    injection hcal with hcal; subst hcal
    refine one ?_ w
    unfold Ports.step at g
    simp only [Option.map_eq_some_iff] at g
    obtain ⟨⟨s1, r⟩, hq, g⟩ := g
    injection g with g _
    rcases sendAt_cases hq with ⟨e, _⟩ | ⟨_, e, _⟩
    · exact Or.inl (g.symm.trans e)
    · exact Or.inr e
  | receive part id maxlen timeout =>
    injection hcal with hcal; subst hcal
    refine one ?_ w
    unfold Ports.step queueingReceive at g
    simp only [Option.map_eq_some_iff] at g
    obtain ⟨⟨s1, r, b⟩, hq, g⟩ := g
    injection g with g _
    rcases receiveAt_cases hq with ⟨e, _⟩ | ⟨_, e, _⟩
    · exact Or.inl (g.symm.trans e)
    · exact Or.inr e
  | receiveResume part id maxlen timeout =>
    injection hcal with hcal; subst hcal
    refine one ?_ w
    unfold Ports.step at g
    simp only [Option.map_eq_some_iff] at g
    obtain ⟨⟨s1, r, b⟩, hq, g⟩ := g
    injection g with g _
    rcases receiveAt_cases hq with ⟨e, _⟩ | ⟨_, e, _⟩
    · exact Or.inl (g.symm.trans e)
    · exact Or.inr e
  | flushPartition p => cases hcal
  | flushAll ps => cases hcal

/-- A call of a partition of the group. -/
theorem step_like {now : Nat} {op : PortOp} {o : PortOut} {p : Nat} (h : Alike c A s t) (hI : Inv c s) (hJ : Inv c t)
    (hC : Clean s) (hD : Clean t) (hcal : caller op = some p) (hp : A p = true) (ha : need op ≤ s.avail) (hb : need op ≤ t.avail)
    (hu : ∀ part id uptr, op = .samplingRead part id uptr → uptr + PORT_MAX_SIZE ≤ c.psize part)
    (g : s.step c now op = some (s', o)) : ∃ t', t.step c now op = some (t', o) ∧ Alike c A s' t' := by
  cases op with
  | queueingCreate part name size dir fifo =>
    injection hcal with hcal; subst hcal
    unfold Ports.step at g ⊢
    simp only [Option.map_eq_some_iff] at g
    obtain ⟨⟨s1, e, r⟩, hq, g⟩ := g
    injection g with g1 g2
    subst g1; subst g2
    obtain ⟨t1, k1, k2⟩ := queueingCreate_like h hI hJ hC hD hp (by simpa [need, asked] using ha) (by simpa [need, asked] using hb) hq
    exact ⟨t1, by simp only; rw [k1]; rfl, k2⟩
  | samplingCreate part name size dir refresh =>
    injection hcal with hcal; subst hcal
    unfold Ports.step at g ⊢
    simp only [Option.map_eq_some_iff] at g
    obtain ⟨⟨s1, e, r⟩, hq, g⟩ := g
    injection g with g1 g2
    subst g1; subst g2
    obtain ⟨t1, k1, k2⟩ := samplingCreate_like h hI hJ hC hD hp (by simpa [need, asked] using ha) (by simpa [need, asked] using hb) hq
    exact ⟨t1, by simp only; rw [k1]; rfl, k2⟩
  | samplingWrite part id bs =>
    injection hcal with hcal; subst hcal
    unfold Ports.step at g ⊢
    simp only [Option.map_eq_some_iff] at g
    obtain ⟨⟨s1, r⟩, hq, g⟩ := g
    injection g with g1 g2
    subst g1; subst g2
    obtain ⟨t1, k1, k2⟩ := samplingWrite_like h hI hJ hp hq
    exact ⟨t1, by simp only; rw [k1]; rfl, k2⟩
  | samplingRead part id uptr =>
    injection hcal with hcal; subst hcal
    unfold Ports.step at g ⊢
    simp only [Option.map_eq_some_iff] at g
    obtain ⟨⟨s1, r, o1⟩, hq, g⟩ := g
    injection g with g1 g2
    subst g1; subst g2
    obtain ⟨t1, k1, k2⟩ := samplingRead_like h hI hJ hp (hu _ _ _ rfl) hq
    exact ⟨t1, by simp only; rw [k1]; rfl, k2⟩
  | send part id bs timeout =>
    injection hcal with hcal; subst hcal
    unfold Ports.step queueingSend at g ⊢
    simp only [Option.map_eq_some_iff] at g
    obtain ⟨⟨s1, r⟩, hq, g⟩ := g
    injection g with g1 g2
    subst g1; subst g2
    obtain ⟨t1, k1, k2⟩ := sendAt_like h hI hJ hp hq
    exact ⟨t1, by simp only; rw [k1]; rfl, k2⟩
  | sendResume part id bs timeout =>
    injection hcal with hcal; subst hcal
    unfold Ports.step at g ⊢
    simp only [Option.map_eq_some_iff] at g
    obtain ⟨⟨s1, r⟩, hq, g⟩ := g
    injection g with g1 g2
    subst g1; subst g2
    obtain ⟨t1, k1, k2⟩ := sendAt_like h hI hJ hp hq
    exact ⟨t1, by simp only; rw [k1]; rfl, k2⟩
  | receive part id maxlen timeout =>
    injection hcal with hcal; subst hcal
    unfold Ports.step queueingReceive at g ⊢
    simp only [Option.map_eq_some_iff] at g
    obtain ⟨⟨s1, r, b⟩, hq, g⟩ := g
    injection g with g1 g2
    subst g1; subst g2
    obtain ⟨t1, k1, k2⟩ := receiveAt_like h hI hJ hp hq
    exact ⟨t1, by simp only; rw [k1]; rfl, k2⟩
  | receiveResume part id maxlen timeout =>
    injection hcal with hcal; subst hcal
    unfold Ports.step at g ⊢
    simp only [Option.map_eq_some_iff] at g
    obtain ⟨⟨s1, r, b⟩, hq, g⟩ := g
    injection g with g1 g2
    subst g1; subst g2
    obtain ⟨t1, k1, k2⟩ := receiveAt_like h hI hJ hp hq
    exact ⟨t1, by simp only; rw [k1]; rfl, k2⟩
  | flushPartition p => cases hcal
  | flushAll ps => cases hcal

/-! ### Histories -/

theorem flushAll_like (hc : c.Ok) (hw : NoWayIn c A) {now : Nat} : ∀ (ps : List Nat) (s t s' : Ports), Alike c A s t → Inv c s → Inv c t →
    flushAll c now ps s = some s' → ∃ t', flushAll c now (ps.filter A) t = some t' ∧ Alike c A s' t' ∧ Inv c s' ∧ Inv c t' := by
  intro ps
  induction ps with
  | nil => intro s t s' h hI hJ g; unfold flushAll at g; injection g with g; subst g; exact ⟨t, rfl, h, hI, hJ⟩
  | cons p ps ih =>
    intro s t s' h hI hJ g
    unfold flushAll at g
    split at g
    · exact absurd g (by simp)
    next s1 h1 =>
    cases hp : A p with
    | true =>
      obtain ⟨s2, t2, a1, a2, a3, a4, a5⟩ := flushPartition_like hc (now := now) h hI hJ hp
      rw [h1] at a1; injection a1 with a1; subst a1
      obtain ⟨t3, b1, b2⟩ := ih s1 t2 s' a3 a4 a5 g
      refine ⟨t3, ?_, b2⟩
      rw [List.filter_cons, if_pos hp]
      unfold flushAll
      rw [a2]
      exact b1
    | false =>
      obtain ⟨a1, a2⟩ := flushPartition_skip hc hw h hI hp h1
      rw [List.filter_cons, if_neg (by rw [hp]; simp)]
      exact ih s1 t s' a1 a2 hJ g

theorem run_flushes {now : Nat} (h : List (Nat × PortOp)) : ∀ (qs : List Nat) (t t' : Ports), flushAll c now qs t = some t' →
    Ports.run c (qs.map (fun p => (now, PortOp.flushPartition p)) ++ h) t
      = (Ports.run c h t').map fun r => (r.1, List.replicate qs.length {} ++ r.2) := by
  intro qs
  induction qs with
  | nil =>
    intro t t' g
    unfold flushAll at g
    injection g with g; subst g
    cases hr : Ports.run c h t <;> simp [hr]
  | cons q qs ih =>
    intro t t' g
    unfold flushAll at g
    split at g
    · exact absurd g (by simp)
    next t1 h1 =>
    have e := ih t1 t' g
    rw [List.map_cons, List.cons_append, Ports.run]
    simp only [Ports.step, h1, Option.map_some]
    rw [e]
    cases hr : Ports.run c h t' <;> simp [List.replicate_succ]

theorem seen_flushes {now : Nat} (h : List (Nat × PortOp)) (os : List PortOut) : ∀ (qs : List Nat),
    seen A (qs.map (fun p => (now, PortOp.flushPartition p)) ++ h) (List.replicate qs.length ({} : PortOut) ++ os) = seen A h os := by
  intro qs
  induction qs with
  | nil => rfl
  | cons q qs ih =>
    simp only [List.map_cons, List.cons_append, List.length_cons, List.replicate_succ, seen, caller, Option.any_none, Bool.false_eq_true, if_false]
    exact ih

theorem asked_flushes {now : Nat} (h : List (Nat × PortOp)) : ∀ (qs : List Nat),
    asked (qs.map (fun p => (now, PortOp.flushPartition p)) ++ h) = asked h := by
  intro qs
  induction qs with
  | nil => rfl
  | cons q qs ih => simpa [asked] using ih

theorem own_call {now : Nat} {op : PortOp} {p : Nat} (h : List (Nat × PortOp)) (hcal : caller op = some p) :
    own A ((now, op) :: h) = if A p then (now, op) :: own A h else own A h := by
  cases op <;> first | cases hcal; done | (injection hcal with hcal; subst hcal; simp [own, caller]; try rfl)

theorem seen_call {now : Nat} {op : PortOp} {p : Nat} (h : List (Nat × PortOp)) (o : PortOut) (os : List PortOut) (hcal : caller op = some p) :
    seen A ((now, op) :: h) (o :: os) = if A p then o :: seen A h os else seen A h os := by
  simp [seen, hcal]

theorem asked_own (A : Nat → Bool) : ∀ h, asked (own A h) ≤ asked h := by
  intro h
  induction h with
  | nil => exact Nat.le_refl _
  | cons x h ih =>
    obtain ⟨now, op⟩ := x
    cases hcal : caller op with
    | some p =>
      rw [own_call h hcal]
      split
      · rw [asked_cons, asked_cons]; omega
      · rw [asked_cons]; omega
    | none =>
      cases op with
      | flushPartition p => simp only [own]; split <;> simpa [asked] using ih
      | flushAll ps => simp only [own]; rw [asked_flushes]; simpa [asked] using ih
      | _ => cases hcal

theorem run_project (hc : c.Ok) (hw : NoWayIn c A) : ∀ (h : List (Nat × PortOp)) (s t s' : Ports) (os : List PortOut), Alike c A s t →
    Inv c s → Inv c t → Clean s → Clean t → asked h ≤ s.avail → asked (own A h) ≤ t.avail → RoomyBuffers c (own A h) →
    Ports.run c h s = some (s', os) →
    ∃ t' os', Ports.run c (own A h) t = some (t', os') ∧ seen A h os = seen A (own A h) os' ∧ Alike c A s' t' ∧ Inv c s' ∧ Inv c t' := by
  intro h
  induction h with
  | nil =>
    intro s t s' os hA hI hJ _ _ _ _ _ g
    rw [Ports.run] at g
    simp only [Option.some.injEq, Prod.mk.injEq] at g
    exact ⟨t, [], rfl, by simp [seen], by rw [← g.1]; exact hA, by rw [← g.1]; exact hI, hJ⟩
  | cons x h ih =>
    obtain ⟨now, op⟩ := x
    intro s t s' os hA hI hJ hC hD ha hb hu g
    rw [Ports.run] at g
    split at g
    · exact absurd g (by simp)
    next s1 o h1 =>
    split at g
    · exact absurd g (by simp)
    next s2 os1 h2 =>
    simp only [Option.some.injEq, Prod.mk.injEq] at g
    obtain ⟨rfl, rfl⟩ := g
    have hI1 := (step_effect hc hI h1).1
    have hC1 := step_clean hc hI hC h1
    have ha1 := (step_avail hc hI h1).2
    rw [asked_cons] at ha
    cases hcal : caller op with
    | some p =>
      rw [own_call h hcal] at hb hu ⊢
      rw [seen_call h o os1 hcal]
      cases hp : A p with
      | true =>
        rw [hp, if_pos rfl] at hb hu
        simp only [if_true]
        rw [asked_cons] at hb
        obtain ⟨t1, k1, k2⟩ := step_like (now := now) hA hI hJ hC hD hcal hp (by omega) (by omega)
          (fun part id uptr e => hu now part id uptr (by rw [e]; exact List.mem_cons_self)) h1
        have hJ1 := (step_effect hc hJ k1).1
        have hb1 := (step_avail hc hJ k1).2
        obtain ⟨t', os', e1, e2, e3⟩ := ih s1 t1 s2 os1 k2 hI1 hJ1 hC1 (step_clean hc hJ hD k1) (by omega) (by omega)
          (fun n a b d hm => hu n a b d (List.mem_cons_of_mem _ hm)) h2
        refine ⟨t', o :: os', ?_, ?_, e3⟩
        · rw [Ports.run, k1]; simp only; rw [e1]
        · rw [seen_call _ _ _ hcal, hp, if_pos rfl, e2]
      | false =>
        rw [hp, if_neg (by simp)] at hb hu
        simp only [Bool.false_eq_true, if_false]
        exact ih s1 t s2 os1 (step_skip hc hA hI hcal hp h1) hI1 hJ hC1 hD (by omega) hb hu h2
    | none =>
      have hseen : seen A ((now, op) :: h) (o :: os1) = seen A h os1 := by simp [seen, hcal]
      rw [hseen]
      cases op with
      | flushPartition p =>
        have hf : flushPartition c now p s = some s1 := by
          unfold Ports.step at h1
          simp only [Option.map_eq_some_iff, Prod.mk.injEq] at h1
          obtain ⟨_, h1, e, _⟩ := h1
          rw [h1, e]
        simp only [own] at hb hu ⊢
        cases hp : A p with
        | true =>
          rw [hp, if_pos rfl] at hb hu
          simp only [if_true]
          obtain ⟨s3, t1, b1, b2, b3, b4, b5⟩ := flushPartition_like hc (now := now) hA hI hJ hp
          rw [hf] at b1; injection b1 with b1; subst b1
          have k1 : t.step c now (.flushPartition p) = some (t1, {}) := by simp [Ports.step, b2]
          have hb1 := (step_avail hc hJ k1).2
          rw [asked_cons] at hb
          obtain ⟨t', os', e1, e2, e3⟩ := ih s1 t1 s2 os1 b3 hI1 b5 hC1 (step_clean hc hJ hD k1) (by omega) (by omega)
            (fun n a b d hm => hu n a b d (List.mem_cons_of_mem _ hm)) h2
          refine ⟨t', {} :: os', ?_, ?_, e3⟩
          · rw [Ports.run, k1]; simp only; rw [e1]
          · simpa [seen, caller] using e2
        | false =>
          rw [hp, if_neg (by simp)] at hb hu
          simp only [Bool.false_eq_true, if_false]
          exact ih s1 t s2 os1 (flushPartition_skip hc hw hA hI hp hf).1 hI1 hJ hC1 hD (by omega) hb hu h2
      | flushAll ps =>
        have hf : flushAll c now ps s = some s1 := by
          unfold Ports.step at h1
          simp only [Option.map_eq_some_iff, Prod.mk.injEq] at h1
          obtain ⟨_, h1, e, _⟩ := h1
          rw [h1, e]
        simp only [own] at hb hu ⊢
        rw [asked_flushes] at hb
        obtain ⟨t1, b1, b2, b3, b4⟩ := flushAll_like hc hw ps s t s1 hA hI hJ hf
        have k1 : t.step c now (.flushAll (ps.filter A)) = some (t1, {}) := by simp [Ports.step, b1]
        have hb1 := (step_avail hc hJ k1).2
        have hn : need (.flushAll (ps.filter A)) = 0 := rfl
        obtain ⟨t', os', e1, e2, e3⟩ := ih s1 t1 s2 os1 b2 hI1 b4 hC1 (step_clean hc hJ hD k1) (by omega) (by omega)
          (fun n a b d hm => hu n a b d (List.mem_append_right _ hm)) h2
        refine ⟨t', List.replicate (ps.filter A).length ({} : PortOut) ++ os', ?_, ?_, e3⟩
        · rw [run_flushes _ _ _ _ b1, e1]; rfl
        · rw [seen_flushes]; exact e2
      | _ => cases hcal

end Pok.Ports
