import Verif.Lemmas.Port

/-!
# Effects of port calls: which ports and bytes change, and the invariant
-/

namespace Pok.Ports

/-- Only ports in `S`, and bytes of created ports in `S`, change; created ports keep their attributes. -/
structure Within (s s' : Ports) (S : Nat → Prop) : Prop where
  other : ∀ j, ¬ S j → s'.P j = s.P j
  data : ∀ b, (∀ i, S i → (s.P i).ready = true → ¬ s.Owns i b) → s'.data b = s.data b
  index : ∀ i, (s.P i).ready = true → (s'.P i).index = (s.P i).index
  size : ∀ i, (s.P i).ready = true → (s'.P i).size = (s.P i).size
  dir : ∀ i, (s.P i).ready = true → (s'.P i).direction = (s.P i).direction
  kind : ∀ i, (s.P i).ready = true → (s'.P i).kind = (s.P i).kind
  ready : ∀ i, (s.P i).ready = true → (s'.P i).ready = true
  refresh : ∀ i, (s.P i).ready = true → (s'.P i).refresh = (s.P i).refresh

theorem Within.refl (s : Ports) (S : Nat → Prop) : Within s s S :=
  ⟨fun _ _ => rfl, fun _ _ => rfl, fun _ _ => rfl, fun _ _ => rfl, fun _ _ => rfl, fun _ _ => rfl, fun _ h => h,
    fun _ _ => rfl⟩

theorem Within.mono {s s' : Ports} {S S' : Nat → Prop} (h : Within s s' S) (hs : ∀ i, S i → S' i) :
    Within s s' S' where
  other := fun j hj => h.other j (fun hn => hj (hs j hn))
  data := fun b hb => h.data b (fun i hi => hb i (hs i hi))
  index := h.index
  size := h.size
  dir := h.dir
  kind := h.kind
  ready := h.ready
  refresh := h.refresh

theorem Within.trans {s1 s2 s3 : Ports} {S : Nat → Prop} (h : Within s1 s2 S) (g : Within s2 s3 S)
    (hr : ∀ i, S i → (s2.P i).ready = true → (s1.P i).ready = true) : Within s1 s3 S where
  other := fun j hj => (g.other j hj).trans (h.other j hj)
  data := fun b hb => (g.data b (fun i hi hir => by
    have := hb i hi (hr i hi hir)
    unfold Owns at this ⊢
    rwa [h.index i (hr i hi hir), h.size i (hr i hi hir)])).trans (h.data b hb)
  index := fun i hi => (g.index i (h.ready i hi)).trans (h.index i hi)
  size := fun i hi => (g.size i (h.ready i hi)).trans (h.size i hi)
  dir := fun i hi => (g.dir i (h.ready i hi)).trans (h.dir i hi)
  kind := fun i hi => (g.kind i (h.ready i hi)).trans (h.kind i hi)
  ready := fun i hi => g.ready i (h.ready i hi)
  refresh := fun i hi => (g.refresh i (h.ready i hi)).trans (h.refresh i hi)

theorem Only.within {s s' : Ports} {i : Nat} (h : Only s s' i) (hr : (s.P i).ready = true) :
    Within s s' (· = i) := by
  have key : ∀ j, (s'.P j).index = (s.P j).index ∧ (s'.P j).size = (s.P j).size ∧
      (s'.P j).direction = (s.P j).direction ∧ (s'.P j).kind = (s.P j).kind ∧
      (s'.P j).ready = (s.P j).ready ∧ (s'.P j).refresh = (s.P j).refresh := by
    intro j
    by_cases e : j = i
    · subst e; exact ⟨h.index, h.size, h.dir, h.kind, h.ready, h.refresh⟩
    · rw [h.other j e]; exact ⟨rfl, rfl, rfl, rfl, rfl, rfl⟩
  exact
    { other := fun j hj => h.other j hj
      data := fun b hb => h.data b (hb i rfl hr)
      index := fun j _ => (key j).1, size := fun j _ => (key j).2.1, dir := fun j _ => (key j).2.2.1
      kind := fun j _ => (key j).2.2.2.1, ready := fun j hj => by rw [(key j).2.2.2.2.1]; exact hj
      refresh := fun j _ => (key j).2.2.2.2.2 }

/-- Changing only bookkeeping bits of one port. -/
theorem only_bits {s : Ports} {i : Nat} {p : Port}
    (h : p = { s.P i with mustFlush := p.mustFlush, locked := (s.P i).locked }) : Only s (s.setPort i p) i := by
  have hP : (s.setPort i p).P i = p := by simp [setPort]
  exact
    { avail := rfl, other := fun j hj => upd_other _ _ hj, data := fun _ _ => rfl
      index := by rw [hP, h], size := by rw [hP, h], dir := by rw [hP, h], kind := by rw [hP, h]
      ready := by rw [hP, h], part := by rw [hP, h], refresh := by rw [hP, h], locked := by rw [hP, h] }

theorem PortOk.bits {c : PortCfg} {a i : Nat} {p : Port} (ok : PortOk c a i p) (m l : Bool) :
    PortOk c a i { p with mustFlush := m, locked := l } :=
  ⟨ok.lt, ok.inside, ok.small, ok.kind, ok.kindOf, ok.dir, ok.part, ok.samp, ok.qb, ok.qe, ok.q0, ok.emptyEq, ok.eqBits⟩

theorem PortOk.mark {c : PortCfg} {a i : Nat} {p : Port} (ok : PortOk c a i p) (m : Bool) :
    PortOk c a i { p with mustFlush := m } := ok.bits m p.locked

/-- Any write to a created port. -/
theorem portWrite_any {c : PortCfg} {s : Ports} {i now : Nat} {bs : List Nat} (hI : Inv c s)
    (hr : (s.P i).ready = true) (h0 : (s.P i).kind = KIND_QUEUEING → (s.P i).size = 0 → 0 < bs.length) :
    ∃ s' e, portWrite s now i bs = some (s', e) ∧ Only s s' i ∧ Inv c s' ∧
      (s'.P i).mustFlush = (s.P i).mustFlush ∧ (e = .ok ∨ s' = s) := by
  have ok := hI.ok i hr
  rcases ok.kind with hk | hk
  · by_cases hf : (s.P i).full = true
    · exact ⟨s, .size, by simp [portWrite, hk, hf], Only.refl _ _, hI, rfl, Or.inr rfl⟩
    · have hf' : (s.P i).full = false := by simpa using hf
      by_cases hl : bs.length ≤ (s.P i).size
      · have hs : 0 < (s.P i).size := by
          rcases Nat.eq_zero_or_pos (s.P i).size with h | h
          · have := h0 hk h; omega
          · exact h
        obtain ⟨s', h1, h2, h3, _, h5, _⟩ := portWrite_queue (now := now) hI hr hk hf' hl hs
        exact ⟨s', .ok, h1, h2, h3, h5, Or.inl rfl⟩
      · refine ⟨s, .size, ?_, Only.refl _ _, hI, rfl, Or.inr rfl⟩
        simp only [portWrite, hk, hf']
        simp; omega
  · by_cases hl : bs.length ≤ (s.P i).size
    · obtain ⟨s', h1, h2, h3, h4, _⟩ := portWrite_sampling (now := now) hI hr hk hl
      exact ⟨s', .ok, h1, h2, h3, by rw [h4]; rfl, Or.inl rfl⟩
    · refine ⟨s, .size, ?_, Only.refl _ _, hI, rfl, Or.inr rfl⟩
      simp only [portWrite, hk, show ¬ KIND_SAMPLING = KIND_QUEUEING by decide]
      simp; omega

/-- The flush step reads everything a non-empty created port holds. -/
theorem portGet_all {c : PortCfg} {s : Ports} {i : Nat} (hI : Inv c s) (hr : (s.P i).ready = true)
    (he : (s.P i).empty = false) :
    ∃ s' bs, portGet s i (consumedSize (s.P i)) = some (s', .ok, bs) ∧ Only s s' i ∧ Inv c s' ∧
      (s'.P i).mustFlush = (s.P i).mustFlush ∧ s'.data = s.data ∧
      ((s.P i).kind = KIND_QUEUEING → bs = s.queueOf i ∧ s'.queueOf i = [] ∧ 0 < bs.length) ∧
      ((s.P i).kind = KIND_SAMPLING → some bs = s.messageOf i ∧ s' = s) := by
  have ok := hI.ok i hr
  rcases ok.kind with hk | hk
  · have hc := consumed_eq ok hk
    have hp := held_pos ok hk he
    obtain ⟨s', h1, h2, h3, h4, h5, h6⟩ := portGet_queue hI hr hk he (Nat.le_refl _) hp
    have hlen : (s.queueOf i).length = held (s.P i) := by simp [Ports.queueOf]
    rw [← hlen, List.take_length] at h1
    rw [← hlen, List.drop_length] at h4
    refine ⟨s', s.queueOf i, by rw [hc, ← hlen]; exact h1, h2, h3, h5, h6, fun _ => ⟨rfl, h4, by omega⟩, ?_⟩
    intro h; rw [hk] at h; simp [KIND_QUEUEING, KIND_SAMPLING] at h
  · have hc : consumedSize (s.P i) = (s.P i).size := by
      obtain ⟨hb, hE⟩ := ok.samp hk
      have hs := ok.small
      have : PORT_MAX_SIZE = 512 := rfl
      have : U32 = 4294967296 := rfl
      unfold consumedSize
      rw [he, hb, hE]
      simp only [Bool.false_eq_true, if_false, Nat.lt_irrefl]
      rw [Nat.mod_eq_of_lt (by omega)]; omega
    have h1 := portGet_sampling hI hr hk
    have hm : ∃ bs, s.messageOf i = some bs := by unfold messageOf; rw [he]; exact ⟨_, rfl⟩
    obtain ⟨bs, hbs⟩ := hm
    rw [hbs] at h1
    refine ⟨s, bs, by rw [hc]; exact h1, Only.refl _ _, hI, rfl, rfl, ?_, fun _ => ⟨hbs.symm, rfl⟩⟩
    intro h; rw [hk] at h; simp [KIND_QUEUEING, KIND_SAMPLING] at h

/-! ### Flush -/

theorem flushDests_within {c : PortCfg} {now : Nat} {bs : List Nat} :
    ∀ (gs : List Nat) (s : Ports), Inv c s → (∀ g ∈ gs, c.toLocal g < c.nbPorts) →
      (∀ g ∈ gs, c.kindOf (c.toLocal g) = KIND_QUEUEING → 0 < bs.length) →
      ∃ s', flushDests c now bs gs s = some s' ∧ Inv c s' ∧
        Within s s' (fun j => j ∈ gs.map c.toLocal ∧ (s.P j).ready = true ∧ (s.P j).direction = DIR_IN) ∧
        (∀ j, (s'.P j).ready = (s.P j).ready) ∧ s'.avail = s.avail := by
  intro gs
  induction gs with
  | nil => intro s hI _ _; exact ⟨s, rfl, hI, Within.refl _ _, fun _ => rfl, rfl⟩
  | cons g gs ih =>
    intro s hI hlt hk
    have hlt' : ∀ g' ∈ gs, c.toLocal g' < c.nbPorts := fun g' h => hlt g' (List.mem_cons_of_mem _ h)
    have hk' : ∀ g' ∈ gs, c.kindOf (c.toLocal g') = KIND_QUEUEING → 0 < bs.length :=
      fun g' h => hk g' (List.mem_cons_of_mem _ h)
    have skip : ∃ s', flushDests c now bs gs s = some s' ∧ Inv c s' ∧
        Within s s' (fun j => j ∈ (g :: gs).map c.toLocal ∧ (s.P j).ready = true ∧ (s.P j).direction = DIR_IN) ∧
        (∀ j, (s'.P j).ready = (s.P j).ready) ∧ s'.avail = s.avail := by
      obtain ⟨s', h1, h2, h3, h4, h5⟩ := ih s hI hlt' hk'
      exact ⟨s', h1, h2, h3.mono (fun i hi => ⟨by simp only [List.map_cons]; exact List.mem_cons_of_mem _ hi.1, hi.2⟩), h4, h5⟩
    unfold flushDests
    simp only
    rw [if_neg (by have := hlt g (List.mem_cons_self); omega)]
    by_cases h1 : (s.P (c.toLocal g)).ready = false
    · rw [if_pos h1]; exact skip
    rw [if_neg h1]
    have hr : (s.P (c.toLocal g)).ready = true := by simpa using h1
    by_cases h2 : (s.P (c.toLocal g)).direction ≠ DIR_IN
    · rw [if_pos h2]; exact skip
    rw [if_neg h2]
    have hd : (s.P (c.toLocal g)).direction = DIR_IN := by simpa using h2
    obtain ⟨s1, e, w1, w2, w3, _⟩ := portWrite_any (now := now) (bs := bs) hI hr
      (fun hq _ => hk g (List.mem_cons_self) (by rw [← (hI.ok _ hr).kindOf]; exact hq))
    rw [w1]
    simp only
    obtain ⟨s', i1, i2, i3, i4, i5⟩ := ih s1 w3 hlt' hk'
    have hready : ∀ j, (s1.P j).ready = (s.P j).ready := by
      intro j
      by_cases e : j = c.toLocal g
      · rw [e]; exact w2.ready
      · rw [w2.other j e]
    have hdir : ∀ j, (s1.P j).direction = (s.P j).direction := by
      intro j
      by_cases e : j = c.toLocal g
      · rw [e]; exact w2.dir
      · rw [w2.other j e]
    refine ⟨s', i1, i2, ?_, fun j => (i4 j).trans (hready j), i5.trans w2.avail⟩
    apply Within.trans (s2 := s1)
    · exact (w2.within hr).mono (fun i hi => ⟨by rw [hi]; simp, by rw [hi]; exact hr, by rw [hi]; exact hd⟩)
    · exact i3.mono (fun i hi => ⟨by simp only [List.map_cons]; exact List.mem_cons_of_mem _ hi.1,
        by rw [← hready]; exact hi.2.1, by rw [← hdir]; exact hi.2.2⟩)
    · intro i _ h; rw [← hready]; exact h

theorem flushPort_within {c : PortCfg} (hc : c.Ok) {now l : Nat} {s : Ports} (hI : Inv c s) (hl : l < c.nbPorts) :
    ∃ s', flushPort c now s l = some s' ∧ Inv c s' ∧
      Within s s' (fun j => (s.P l).direction = DIR_OUT ∧ (j = l ∨
        (j ∈ (c.dests l).map c.toLocal ∧ (s.P j).ready = true ∧ (s.P j).direction = DIR_IN))) ∧
      (∀ j, (s'.P j).ready = (s.P j).ready) ∧ s'.avail = s.avail := by
  have triv : ∃ s', some s = some s' ∧ Inv c s' ∧
      Within s s' (fun j => (s.P l).direction = DIR_OUT ∧ (j = l ∨
        (j ∈ (c.dests l).map c.toLocal ∧ (s.P j).ready = true ∧ (s.P j).direction = DIR_IN))) ∧
      (∀ j, (s'.P j).ready = (s.P j).ready) ∧ s'.avail = s.avail :=
    ⟨s, rfl, hI, Within.refl _ _, fun _ => rfl, rfl⟩
  unfold flushPort
  rw [if_neg (by omega)]
  by_cases h1 : (s.P l).direction ≠ DIR_OUT
  · rw [if_pos h1]; exact triv
  rw [if_neg h1]
  have h1' : (s.P l).direction = DIR_OUT := by simpa using h1
  by_cases h2 : (s.P l).empty = true
  · rw [if_pos h2]; exact triv
  rw [if_neg h2]
  have h2' : (s.P l).empty = false := by simpa using h2
  by_cases h3 : (s.P l).mustFlush = false
  · rw [if_pos h3]; exact triv
  rw [if_neg h3]
  have hr : (s.P l).ready = true := by
    cases h : (s.P l).ready with
    | true => rfl
    | false => rw [hI.fresh l h] at h2'; simp at h2'
  obtain ⟨s1, bs, g1, g2, g3, _, _, g6, g7⟩ := portGet_all hI hr h2'
  rw [g1]
  simp only [ne_eq, not_true_eq_false, if_false]
  have hkinds : ∀ g ∈ c.dests l, c.kindOf (c.toLocal g) = KIND_QUEUEING → 0 < bs.length := by
    intro g hg hk
    have := hc.destKind l g hl hg
    rw [hk] at this
    exact (g6 (by rw [(hI.ok l hr).kindOf, ← this])).2.2
  obtain ⟨s2, d1, d2, d3, d4, d5⟩ := flushDests_within (now := now) (c.dests l) s1 g3
    (fun g hg => hc.dests l g hl hg) hkinds
  rw [d1]
  have hready1 : ∀ j, (s1.P j).ready = (s.P j).ready := by
    intro j
    by_cases e : j = l
    · rw [e]; exact g2.ready
    · rw [g2.other j e]
  have hdir1 : ∀ j, (s1.P j).direction = (s.P j).direction := by
    intro j
    by_cases e : j = l
    · rw [e]; exact g2.dir
    · rw [g2.other j e]
  have hr2 : (s2.P l).ready = true := by rw [d4, hready1]; exact hr
  have hbits : Only s2 (s2.setPort l { s2.P l with mustFlush := false }) l := only_bits (by simp)
  refine ⟨_, rfl, ?_, ?_, ?_, ?_⟩
  · apply hbits.inv d2 hr2
    show PortOk c s2.avail l ((s2.setPort l { s2.P l with mustFlush := false }).P l)
    simp only [setPort, upd_same]
    exact (d2.ok l hr2).mark false
  · apply Within.trans (s2 := s2)
    · apply Within.trans (s2 := s1)
      · exact (g2.within hr).mono (fun i hi => ⟨h1', Or.inl hi⟩)
      · exact d3.mono (fun i hi => ⟨h1', Or.inr ⟨hi.1, by rw [← hready1]; exact hi.2.1, by rw [← hdir1]; exact hi.2.2⟩⟩)
      · intro i _ h; rw [← hready1]; exact h
    · exact (hbits.within hr2).mono (fun i hi => ⟨h1', Or.inl hi⟩)
    · intro i _ h; rw [← hready1, ← d4]; exact h
  · intro j
    rw [← hready1, ← d4]
    by_cases e : j = l
    · rw [e]; exact hbits.ready
    · rw [hbits.other j e]
  · rw [hbits.avail, d5, g2.avail]

theorem flushList_within {c : PortCfg} (hc : c.Ok) {now : Nat} :
    ∀ (ls : List Nat) (s : Ports), Inv c s → (∀ l ∈ ls, l < c.nbPorts) →
      ∃ s', flushList c now ls s = some s' ∧ Inv c s' ∧
        Within s s' (fun j => ∃ l ∈ ls, (s.P l).direction = DIR_OUT ∧ (j = l ∨
          (j ∈ (c.dests l).map c.toLocal ∧ (s.P j).ready = true ∧ (s.P j).direction = DIR_IN))) ∧
        (∀ j, (s'.P j).ready = (s.P j).ready) ∧ (∀ j, (s'.P j).direction = (s.P j).direction) ∧
        s'.avail = s.avail := by
  intro ls
  induction ls with
  | nil => intro s hI _; exact ⟨s, rfl, hI, Within.refl _ _, fun _ => rfl, fun _ => rfl, rfl⟩
  | cons l ls ih =>
    intro s hI hlt
    obtain ⟨s1, a1, a2, a3, a4, a5⟩ := flushPort_within hc (now := now) hI (hlt l (List.mem_cons_self))
    obtain ⟨s', b1, b2, b3, b4, b5, b6⟩ := ih s1 a2 (fun l' h => hlt l' (List.mem_cons_of_mem _ h))
    have hdir : ∀ j, (s1.P j).direction = (s.P j).direction := by
      intro j
      cases h : (s.P j).ready with
      | true => exact a3.dir j h
      | false => rw [hI.fresh j h, a2.fresh j ((a4 j).trans h)]
    unfold flushList
    rw [a1]
    refine ⟨s', b1, b2, ?_, fun j => (b4 j).trans (a4 j), fun j => (b5 j).trans (hdir j), b6.trans a5⟩
    apply Within.trans (s2 := s1)
    · exact a3.mono (fun i hi => ⟨l, List.mem_cons_self, hi⟩)
    · refine b3.mono (fun i hi => ?_)
      obtain ⟨l', hl', h1, h2⟩ := hi
      refine ⟨l', List.mem_cons_of_mem _ hl', by rw [← hdir]; exact h1, ?_⟩
      rcases h2 with h | h
      · exact Or.inl h
      · exact Or.inr ⟨h.1, by rw [← a4]; exact h.2.1, by rw [← hdir]; exact h.2.2⟩
    · intro i _ h; rw [← a4]; exact h

theorem flushPartition_within {c : PortCfg} (hc : c.Ok) {now p : Nat} {s : Ports} (hI : Inv c s) :
    ∃ s', flushPartition c now p s = some s' ∧ Inv c s' ∧ Within s s' (FlushTouches c s p) ∧
      (∀ j, (s'.P j).ready = (s.P j).ready) ∧ (∀ j, (s'.P j).direction = (s.P j).direction) ∧
      s'.avail = s.avail := by
  obtain ⟨s', h1, h2, h3, h4, h5, h6⟩ := flushList_within hc (now := now) (c.portsOf p) s hI
    (fun l hl => (hc.portsOf p l hl).1)
  refine ⟨s', h1, h2, h3.mono ?_, h4, h5, h6⟩
  rintro j ⟨l, hl, hd, rfl | h⟩
  · exact Or.inl ⟨hl, hd⟩
  · exact Or.inr ⟨l, hl, hd, h⟩

theorem flushAll_within {c : PortCfg} (hc : c.Ok) {now : Nat} :
    ∀ (ps : List Nat) (s : Ports), Inv c s →
      ∃ s', flushAll c now ps s = some s' ∧ Inv c s' ∧ Within s s' (fun j => ∃ p ∈ ps, FlushTouches c s p j) ∧
        (∀ j, (s'.P j).ready = (s.P j).ready) ∧ (∀ j, (s'.P j).direction = (s.P j).direction) ∧
        s'.avail = s.avail := by
  intro ps
  induction ps with
  | nil => intro s hI; exact ⟨s, rfl, hI, Within.refl _ _, fun _ => rfl, fun _ => rfl, rfl⟩
  | cons p ps ih =>
    intro s hI
    obtain ⟨s1, a1, a2, a3, a4, a5, a6⟩ := flushPartition_within hc (now := now) (p := p) hI
    obtain ⟨s', b1, b2, b3, b4, b5, b6⟩ := ih s1 a2
    unfold flushAll
    rw [a1]
    refine ⟨s', b1, b2, ?_, fun j => (b4 j).trans (a4 j), fun j => (b5 j).trans (a5 j), b6.trans a6⟩
    apply Within.trans (s2 := s1)
    · exact a3.mono (fun i hi => ⟨p, List.mem_cons_self, hi⟩)
    · refine b3.mono (fun i hi => ?_)
      obtain ⟨p', hp', h⟩ := hi
      refine ⟨p', List.mem_cons_of_mem _ hp', ?_⟩
      unfold FlushTouches at h ⊢
      simpa only [a4, a5] using h
    · intro i _ h; rw [← a4]; exact h

/-! ### Creation -/

theorem findPort_spec {c : PortCfg} {kind : Nat} {name : List Nat} {g : Nat} (h : findPort c kind name = some g) :
    g < c.nbPorts ∧ c.name g = name ∧ c.kindOf g = kind := by
  unfold findPort at h
  have h1 := List.mem_of_find?_eq_some h
  have h2 := List.find?_some h
  simp at h1 h2
  exact ⟨h1, h2.1, h2.2⟩

theorem create_cases {c : PortCfg} {s s' : Ports} {part kind size dir : Nat} {name : List Nat} {e : Errno}
    {r : Option Nat} (h : create c s part kind name size dir = some (s', e, r)) :
    (s' = s ∧ e ≠ .ok) ∨
    (∃ g, findPort c kind name = some g ∧ c.owner g = part ∧ (s.P g).ready = false ∧ size ≤ PORT_MAX_SIZE ∧
      size ≤ s.avail ∧ (dir = DIR_IN ∨ dir = DIR_OUT) ∧ e = .ok ∧ r = some g ∧
      s' = { s.setPort g { s.P g with
              index := QUEUE_SIZE - s.avail, offB := 0, offE := 0, size := size, full := false,
              partition := part, direction := dir, ready := true, kind := kind } with
              avail := s.avail - size }) := by
  unfold create at h
  by_cases h1 : size > PORT_MAX_SIZE
  · rw [if_pos h1] at h; injection h with h; injection h with h h'; injection h' with h' h''
    subst h; subst h'; exact Or.inl ⟨rfl, by simp⟩
  rw [if_neg h1] at h
  by_cases h2 : size > s.avail
  · rw [if_pos h2] at h; injection h with h; injection h with h h'; injection h' with h' h''
    subst h; subst h'; exact Or.inl ⟨rfl, by simp⟩
  rw [if_neg h2] at h
  by_cases h3 : dir ≠ DIR_IN ∧ dir ≠ DIR_OUT
  · rw [if_pos h3] at h; injection h with h; injection h with h h'; injection h' with h' h''
    subst h; subst h'; exact Or.inl ⟨rfl, by simp⟩
  rw [if_neg h3] at h
  unfold portId at h
  cases hf : findPort c kind name with
  | none =>
    rw [hf] at h; simp only at h
    injection h with h; injection h with h h'; injection h' with h' h''
    subst h; subst h'; exact Or.inl ⟨rfl, by simp⟩
  | some g =>
    rw [hf] at h; simp only at h
    by_cases ho : c.owner g = part
    · rw [if_pos ho] at h
      simp only at h
      have hg := (findPort_spec hf).1
      have hown : ownPort c part g = some true := by
        unfold ownPort; rw [if_neg (by omega), if_neg (by omega)]; simp [ho]
      rw [hown] at h
      simp only at h
      by_cases hr : (s.P g).ready = true
      · rw [if_pos hr] at h; injection h with h; injection h with h h'; injection h' with h' h''
        subst h; subst h'; exact Or.inl ⟨rfl, by simp⟩
      · rw [if_neg hr] at h; injection h with h; injection h with h h'; injection h' with h' h''
        right
        refine ⟨g, rfl, ho, by simpa using hr, by omega, by omega, ?_, h'.symm, h''.symm, h.symm⟩
        by_cases hi : dir = DIR_IN
        · exact Or.inl hi
        · right; by_contra hn; exact h3 ⟨hi, hn⟩
    · rw [if_neg ho] at h
      simp only at h
      injection h with h; injection h with h h'; injection h' with h' h''
      subst h; subst h'; exact Or.inl ⟨rfl, by simp⟩

/-- The port that creation writes, before the final touches. -/
theorem new_port {c : PortCfg} {s s' : Ports} {g part kind size dir : Nat} (hI : Inv c s) (hg : g < c.nbPorts)
    (ho : c.owner g = part) (hk : c.kindOf g = kind) (hk2 : kind = KIND_QUEUEING ∨ kind = KIND_SAMPLING)
    (hr : (s.P g).ready = false) (hs : size ≤ PORT_MAX_SIZE) (ha : size ≤ s.avail)
    (hd : dir = DIR_IN ∨ dir = DIR_OUT) (hav : s'.avail = s.avail - size) (hdata : s'.data = s.data)
    (hother : ∀ j, j ≠ g → s'.P j = s.P j)
    (hp : ∃ rf lr, s'.P g = { index := QUEUE_SIZE - s.avail, size := size, partition := part, direction := dir, ready := true, kind := kind, refresh := rf, lastReceive := lr }) :
    Inv c s' ∧ Within s s' (· = g) := by
  obtain ⟨rf, lr, hp⟩ := hp
  have hav0 := hI.avail
  have hin : ∀ j, (s.P j).ready = true → (s.P j).index + (s.P j).size ≤ QUEUE_SIZE - s.avail :=
    fun j hj => (hI.ok j hj).inside
  have hne : ∀ j, (s.P j).ready = true → j ≠ g := fun j hj e => by rw [e, hr] at hj; simp at hj
  constructor
  · refine ⟨by omega, ?_, ?_, ?_⟩
    · intro j hj
      by_cases e : j = g
      · subst e
        rw [hp]
        exact
          { lt := hg, inside := by simp only [hav]; omega, small := hs, kind := hk2, kindOf := hk.symm, dir := hd
            part := ho.symm, samp := fun _ => ⟨rfl, rfl⟩, qb := fun _ h => h, qe := fun _ h => h
            q0 := fun _ _ => rfl, emptyEq := fun _ _ => ⟨rfl, rfl⟩, eqBits := fun _ _ => Or.inl rfl }
      · rw [hother j e] at hj ⊢
        have o := hI.ok j hj
        exact ⟨o.lt, by rw [hav]; have := o.inside; omega, o.small, o.kind, o.kindOf, o.dir, o.part, o.samp, o.qb,
          o.qe, o.q0, o.emptyEq, o.eqBits⟩
    · intro j hj
      by_cases e : j = g
      · subst e; rw [hp] at hj; simp at hj
      · rw [hother j e] at hj ⊢; exact hI.fresh j hj
    · intro a b hab ha' hb'
      by_cases e : a = g
      · subst e
        rw [hother b (Ne.symm hab)] at hb' ⊢
        rw [hp]
        have := hin b hb'
        right; exact this
      · rw [hother a e] at ha' ⊢
        by_cases e2 : b = g
        · subst e2
          rw [hp]
          have := hin a ha'
          left; exact this
        · rw [hother b e2] at hb' ⊢
          exact hI.disj a b hab ha' hb'
  · exact
      { other := hother, data := fun b _ => by rw [hdata]
        index := fun j hj => by rw [hother j (hne j hj)], size := fun j hj => by rw [hother j (hne j hj)]
        dir := fun j hj => by rw [hother j (hne j hj)], kind := fun j hj => by rw [hother j (hne j hj)]
        ready := fun j hj => by rw [hother j (hne j hj)]; exact hj
        refresh := fun j hj => by rw [hother j (hne j hj)] }

theorem queueingCreate_cases {c : PortCfg} {s s' : Ports} {part size dir : Nat} {name : List Nat} {fifo : Bool}
    {e : Errno} {r : Option Nat} (hI : Inv c s)
    (h : queueingCreate c s part name size dir fifo = some (s', e, r)) :
    (s' = s ∧ (e = .ok → ∃ g, r = some g ∧ (s.P g).ready = true ∧ c.owner g = part)) ∨
    (∃ g, findPort c KIND_QUEUEING name = some g ∧ c.owner g = part ∧ (s.P g).ready = false ∧ size ≤ PORT_MAX_SIZE ∧
      size ≤ s.avail ∧ (dir = DIR_IN ∨ dir = DIR_OUT) ∧ e = .ok ∧ r = some g ∧ s'.avail = s.avail - size ∧
      s'.data = s.data ∧ (∀ j, j ≠ g → s'.P j = s.P j) ∧
      s'.P g = { index := QUEUE_SIZE - s.avail, size := size, partition := part, direction := dir, ready := true, kind := KIND_QUEUEING }) := by
  unfold queueingCreate at h
  cases fifo with
  | false =>
    simp at h; obtain ⟨h1, h2, h3⟩ := h
    subst h1; subst h2; exact Or.inl ⟨rfl, by simp⟩
  | true =>
    simp only [Bool.not_true, Bool.false_eq_true, if_false] at h
    cases hc : create c s part KIND_QUEUEING name size dir with
    | none => rw [hc] at h; simp at h
    | some x =>
      obtain ⟨s1, e1, r1⟩ := x
      rw [hc] at h
      rcases create_cases hc with ⟨rfl, hne⟩ | ⟨g, h1, h2, h3, h4, h5, h6, rfl, rfl, rfl⟩
      · left
        by_cases hex : e1 = .exists_
        · subst hex
          simp only at h
          injection h with h; injection h with h h'; injection h' with h' h''
          refine ⟨h.symm, fun _ => ?_⟩
          -- the port existed
          unfold create at hc
          split at hc
          · simp at hc
          split at hc
          · simp at hc
          split at hc
          · simp at hc
          unfold portId at hc
          cases hf : findPort c KIND_QUEUEING name with
          | none => rw [hf] at hc; simp at hc
          | some g =>
            rw [hf] at hc; simp only at hc
            by_cases ho : c.owner g = part
            · rw [if_pos ho] at hc
              have hg := (findPort_spec hf).1
              have hown : ownPort c part g = some true := by
                unfold ownPort; rw [if_neg (by omega), if_neg (by omega)]; simp [ho]
              simp only [hown] at hc
              by_cases hr : (s1.P g).ready = true
              · rw [if_pos hr] at hc
                simp at hc
                exact ⟨g, by rw [← h'', ← hc], hr, ho⟩
              · rw [if_neg hr] at hc; simp at hc
            · rw [if_neg ho] at hc; simp at hc
        · have : s1 = s' ∧ e1 = e ∧ r1 = r := by
            cases e1 <;> simp_all
          obtain ⟨rfl, rfl, rfl⟩ := this
          exact ⟨rfl, fun h => absurd h hne⟩
      · right
        simp only at h
        injection h with h; injection h with h h'; injection h' with h' h''
        subst h
        refine ⟨g, h1, h2, h3, h4, h5, h6, h'.symm, h''.symm, rfl, rfl, ?_, ?_⟩
        · intro j hj
          simp [setPort, upd_other _ _ hj]
        · simp [setPort, hI.fresh g h3]

theorem samplingCreate_cases {c : PortCfg} {s s' : Ports} {part size dir refresh : Nat} {name : List Nat}
    {e : Errno} {r : Option Nat} (hI : Inv c s)
    (h : samplingCreate c s part name size dir refresh = some (s', e, r)) :
    (s' = s ∧ e ≠ .ok) ∨
    (∃ g, findPort c KIND_SAMPLING name = some g ∧ c.owner g = part ∧ (s.P g).ready = false ∧ size ≤ PORT_MAX_SIZE ∧
      size ≤ s.avail ∧ (dir = DIR_IN ∨ dir = DIR_OUT) ∧ e = .ok ∧ r = some g ∧ s'.avail = s.avail - size ∧
      s'.data = s.data ∧ (∀ j, j ≠ g → s'.P j = s.P j) ∧
      s'.P g = { index := QUEUE_SIZE - s.avail, size := size, partition := part, direction := dir, ready := true, kind := KIND_SAMPLING, refresh := refresh }) := by
  unfold samplingCreate at h
  cases hc : create c s part KIND_SAMPLING name size dir with
  | none => rw [hc] at h; simp at h
  | some x =>
    obtain ⟨s1, e1, r1⟩ := x
    rw [hc] at h
    rcases create_cases hc with ⟨rfl, hne⟩ | ⟨g, h1, h2, h3, h4, h5, h6, rfl, rfl, rfl⟩
    · left
      have : s1 = s' ∧ e1 = e ∧ r1 = r := by
        cases e1 <;> simp_all
      obtain ⟨rfl, rfl, rfl⟩ := this
      exact ⟨rfl, hne⟩
    · right
      simp only at h
      injection h with h; injection h with h h'; injection h' with h' h''
      subst h
      refine ⟨g, h1, h2, h3, h4, h5, h6, h'.symm, h''.symm, rfl, rfl, ?_, ?_⟩
      · intro j hj
        simp [setPort, upd_other _ _ hj]
      · simp [setPort, hI.fresh g h3]

/-! ### Data calls -/

theorem own_true {c : PortCfg} {part id : Nat} (h : ownPort c part id = some true) :
    id < c.nbPorts ∧ c.owner id = part := by
  unfold ownPort at h
  split at h
  · simp at h
  · split at h
    · simp at h
    · simp at h; exact ⟨by omega, h⟩

/-- Outcome of a sampling write. -/
theorem samplingWrite_cases {c : PortCfg} {s s' : Ports} {now part id : Nat} {bs : List Nat} {r : PRes}
    (h : samplingWrite c s now part id bs = some (s', r)) :
    (s' = s ∧ r ≠ .done .ok) ∨
    (id < c.nbPorts ∧ c.owner id = part ∧ (s.P id).ready = true ∧ bs.length ≤ (s.P id).size ∧
      (s.P id).direction = DIR_OUT ∧ (s.P id).locked = false ∧ r = .done .ok ∧
      ∃ s1 e, portWrite s now id bs = some (s1, e) ∧ s' = s1.setPort id { s1.P id with mustFlush := true }) := by
  unfold samplingWrite at h
  split at h
  · simp at h; left; exact ⟨h.1.symm, by rw [← h.2]; simp⟩
  cases ho : ownPort c part id with
  | none => rw [ho] at h; simp at h
  | some b =>
    rw [ho] at h
    cases b with
    | false => simp at h; left; exact ⟨h.1.symm, by rw [← h.2]; simp⟩
    | true =>
      simp only at h
      split at h
      · simp at h; left; exact ⟨h.1.symm, by rw [← h.2]; simp⟩
      split at h
      · simp at h; left; exact ⟨h.1.symm, by rw [← h.2]; simp⟩
      split at h
      · simp at h; left; exact ⟨h.1.symm, by rw [← h.2]; simp⟩
      split at h
      · simp at h; left; exact ⟨h.1.symm, by rw [← h.2]; simp⟩
      next hr hl hd hk =>
      cases hw : portWrite s now id bs with
      | none => rw [hw] at h; simp at h
      | some x =>
        obtain ⟨s1, e⟩ := x
        rw [hw] at h
        simp at h
        right
        obtain ⟨o1, o2⟩ := own_true ho
        exact ⟨o1, o2, by simpa using hr, by omega, by simpa using hd, by simpa using hk, h.2.symm, s1, e, rfl, h.1.symm⟩

/-- Outcome of a queueing send. -/
theorem sendAt_cases {c : PortCfg} {s s' : Ports} {now part id abs : Nat} {bs : List Nat} {r : PRes}
    (h : sendAt c s now part id bs abs = some (s', r)) :
    (s' = s ∧ r ≠ .done .ok) ∨
    (id < c.nbPorts ∧ c.owner id = part ∧ (s.P id).ready = true ∧ 0 < bs.length ∧ bs.length ≤ (s.P id).size ∧
      (s.P id).direction = DIR_OUT ∧ (s.P id).kind = KIND_QUEUEING ∧ (s.P id).locked = false ∧ r = .done .ok ∧
      bs.length ≤ availableSize (s.P id) ∧
      ∃ s1 e, portWrite s now id bs = some (s1, e) ∧ s' = s1.setPort id { s1.P id with mustFlush := true }) := by
  unfold sendAt at h
  split at h
  · simp at h; left; exact ⟨h.1.symm, by rw [← h.2]; simp⟩
  split at h
  · simp at h; left; exact ⟨h.1.symm, by rw [← h.2]; simp⟩
  next h0 =>
  cases ho : ownPort c part id with
  | none => rw [ho] at h; simp at h
  | some b =>
    rw [ho] at h
    cases b with
    | false => simp at h; left; exact ⟨h.1.symm, by rw [← h.2]; simp⟩
    | true =>
      simp only at h
      split at h
      · simp at h; left; exact ⟨h.1.symm, by rw [← h.2]; simp⟩
      split at h
      · simp at h; left; exact ⟨h.1.symm, by rw [← h.2]; simp⟩
      split at h
      · simp at h; left; exact ⟨h.1.symm, by rw [← h.2]; simp⟩
      split at h
      · simp at h; left; exact ⟨h.1.symm, by rw [← h.2]; simp⟩
      split at h
      · simp at h; left; exact ⟨h.1.symm, by rw [← h.2]; simp⟩
      split at h
      · simp at h; left; exact ⟨h.1.symm, by rw [← h.2]; simp⟩
      next hr hl hd _ hq hk =>
      unfold sendLoop at h
      split at h
      · split at h
        · simp at h; left; exact ⟨h.1.symm, by rw [← h.2]; simp⟩
        · simp at h; left; exact ⟨h.1.symm, by rw [← h.2]; simp⟩
      next hav =>
      cases hw : portWrite s now id bs with
      | none => rw [hw] at h; simp at h
      | some x =>
        obtain ⟨s1, e⟩ := x
        rw [hw] at h
        simp at h
        right
        obtain ⟨o1, o2⟩ := own_true ho
        exact ⟨o1, o2, by simpa using hr, by omega, by omega, by simpa using hd, by simpa using hq,
          by simpa using hk, h.2.symm, by omega, s1, e, rfl, h.1.symm⟩

/-- Outcome of a queueing receive. -/
theorem receiveAt_cases {c : PortCfg} {s s' : Ports} {now part id maxlen abs : Nat} {r : PRes} {bs : List Nat}
    (h : receiveAt c s now part id maxlen abs = some (s', r, bs)) :
    (s' = s ∧ r ≠ .done .ok ∧ bs = []) ∨
    (id < c.nbPorts ∧ c.owner id = part ∧ (s.P id).ready = true ∧ 0 < maxlen ∧
      (s.P id).direction = DIR_IN ∧ (s.P id).kind = KIND_QUEUEING ∧ (s.P id).locked = false ∧ r = .done .ok ∧
      (s.P id).empty = false ∧
      ∃ e b, portGet s id (if maxlen > consumedSize (s.P id) then consumedSize (s.P id) else maxlen) = some (s', e, b) ∧
        bs = if e = .ok then b else []) := by
  unfold receiveAt at h
  split at h
  · simp at h; left; exact ⟨h.1.symm, by rw [← h.2.1]; simp, h.2.2⟩
  next h0 =>
  split at h
  · simp at h; left; exact ⟨h.1.symm, by rw [← h.2.1]; simp, h.2.2⟩
  cases ho : ownPort c part id with
  | none => rw [ho] at h; simp at h
  | some b =>
    rw [ho] at h
    cases b with
    | false => simp at h; left; exact ⟨h.1.symm, by rw [← h.2.1]; simp, h.2.2⟩
    | true =>
      simp only at h
      split at h
      · simp at h; left; exact ⟨h.1.symm, by rw [← h.2.1]; simp, h.2.2⟩
      split at h
      · simp at h; left; exact ⟨h.1.symm, by rw [← h.2.1]; simp, h.2.2⟩
      split at h
      · simp at h; left; exact ⟨h.1.symm, by rw [← h.2.1]; simp, h.2.2⟩
      split at h
      · simp at h; left; exact ⟨h.1.symm, by rw [← h.2.1]; simp, h.2.2⟩
      next hr hq hd hk =>
      unfold recvLoop at h
      split at h
      · split at h
        · simp at h; left; exact ⟨h.1.symm, by rw [← h.2.1]; simp, h.2.2⟩
        · simp at h; left; exact ⟨h.1.symm, by rw [← h.2.1]; simp, h.2.2⟩
      next he =>
      simp only at h
      cases hw : portGet s id (if maxlen > consumedSize (s.P id) then consumedSize (s.P id) else maxlen) with
      | none => rw [hw] at h; simp at h
      | some x =>
        obtain ⟨s1, e, b⟩ := x
        rw [hw] at h
        simp only at h
        obtain ⟨o1, o2⟩ := own_true ho
        right
        by_cases hee : e = .ok
        · rw [if_pos hee] at h
          simp at h
          exact ⟨o1, o2, by simpa using hr, by omega, by simpa using hd, by simpa using hq, by simpa using hk,
            h.2.1.symm, by simpa using he, e, b, by rw [h.1], by rw [if_pos hee]; exact h.2.2.symm⟩
        · rw [if_neg hee] at h
          simp at h
          exact ⟨o1, o2, by simpa using hr, by omega, by simpa using hd, by simpa using hq, by simpa using hk,
            h.2.1.symm, by simpa using he, e, b, by rw [h.1], by rw [if_neg hee]; exact h.2.2⟩

/-- Outcome of a sampling read. -/
theorem samplingRead_cases {c : PortCfg} {s s' : Ports} {now part id uptr : Nat} {r : PRes} {out : ReadOut}
    (h : samplingRead c s now part id uptr = some (s', r, out)) :
    (s' = s ∧ r ≠ .done .ok ∧ r ≠ .done .empty) ∨
    (id < c.nbPorts ∧ c.owner id = part ∧ (s.P id).ready = true ∧ (s.P id).kind = KIND_SAMPLING ∧
      (s.P id).direction = DIR_IN ∧ (s.P id).locked = false ∧
      ((checkPtr c part uptr (s.P part).size = false ∧ r = .done .einval ∧
        s' = s.setPort id { s.P id with locked := true }) ∨
       (checkPtr c part uptr (s.P part).size = true ∧ ∃ e bs, portGet s id (s.P id).size = some (s', e, bs) ∧
        ((e = .empty ∧ r = .done .empty) ∨
         (e ≠ .empty ∧ r = .done .ok ∧ out.bytes = bs ∧
           out.valid = decide (¬ ((s.P id).lastReceive + (s.P id).refresh) % U64 < now)))))) := by
  unfold samplingRead at h
  split at h
  · simp at h; left; exact ⟨h.1.symm, by rw [← h.2.1]; simp, by rw [← h.2.1]; simp⟩
  cases ho : ownPort c part id with
  | none => rw [ho] at h; simp at h
  | some b =>
    rw [ho] at h
    cases b with
    | false => simp at h; left; exact ⟨h.1.symm, by rw [← h.2.1]; simp, by rw [← h.2.1]; simp⟩
    | true =>
      simp only at h
      split at h
      · simp at h; left; exact ⟨h.1.symm, by rw [← h.2.1]; simp, by rw [← h.2.1]; simp⟩
      split at h
      · simp at h; left; exact ⟨h.1.symm, by rw [← h.2.1]; simp, by rw [← h.2.1]; simp⟩
      split at h
      · simp at h; left; exact ⟨h.1.symm, by rw [← h.2.1]; simp, by rw [← h.2.1]; simp⟩
      split at h
      · simp at h; left; exact ⟨h.1.symm, by rw [← h.2.1]; simp, by rw [← h.2.1]; simp⟩
      next hr hq hd hk =>
      split at h
      · simp at h
      right
      obtain ⟨o1, o2⟩ := own_true ho
      refine ⟨o1, o2, by simpa using hr, by simpa using hq, by simpa using hd, by simpa using hk, ?_⟩
      split at h
      · next hcp =>
        simp at h
        exact Or.inl ⟨hcp, h.2.1.symm, h.1.symm⟩
      · next hcp =>
        right
        refine ⟨by simpa using hcp, ?_⟩
        cases hw : portGet s id (s.P id).size with
        | none => rw [hw] at h; simp at h
        | some x =>
          obtain ⟨s1, e, b⟩ := x
          rw [hw] at h
          simp only at h
          by_cases hee : e = .empty
          · rw [if_pos hee] at h
            simp at h
            exact ⟨e, b, by rw [h.1], Or.inl ⟨hee, h.2.1.symm⟩⟩
          · rw [if_neg hee] at h
            injection h with h; injection h with h h'; injection h' with h' h''
            refine ⟨e, b, by rw [h], Or.inr ⟨hee, h'.symm, ?_, ?_⟩⟩
            · rw [← h'']
            · rw [← h'']

/-- Marking a created port for the next flush. -/
theorem mark_effect {c : PortCfg} {s s1 : Ports} {i : Nat} (hO : Only s s1 i) (hI : Inv c s1)
    (hr : (s.P i).ready = true) :
    Only s (s1.setPort i { s1.P i with mustFlush := true }) i ∧
      Inv c (s1.setPort i { s1.P i with mustFlush := true }) := by
  have hr1 : (s1.P i).ready = true := by rw [hO.ready]; exact hr
  have hb : Only s1 (s1.setPort i { s1.P i with mustFlush := true }) i := only_bits (by simp)
  refine ⟨hO.trans hb, hb.inv hI hr1 ?_⟩
  simp only [setPort, upd_same]
  exact (hI.ok i hr1).mark true

/-- Every data call on a created port keeps the invariant and changes only that port. -/
theorem dataWrite_effect {c : PortCfg} {s s1 : Ports} {now i : Nat} {bs : List Nat} {e : Errno} (hI : Inv c s)
    (hr : (s.P i).ready = true) (hl : bs.length ≤ (s.P i).size) (hw : portWrite s now i bs = some (s1, e)) :
    Only s (s1.setPort i { s1.P i with mustFlush := true }) i ∧
      Inv c (s1.setPort i { s1.P i with mustFlush := true }) := by
  by_cases h0 : (s.P i).kind = KIND_QUEUEING → (s.P i).size = 0 → 0 < bs.length
  · obtain ⟨s', e', w1, w2, w3, _⟩ := portWrite_any (now := now) hI hr h0
    rw [hw] at w1
    injection w1 with w1; injection w1 with w1 _
    subst w1
    exact mark_effect w2 w3 hr
  · exfalso
    simp only [_root_.not_imp] at h0
    obtain ⟨hk, hs, hb⟩ := h0
    have hf : (s.P i).full = false := (((hI.ok i hr).emptyEq hk) ((hI.ok i hr).q0 hk hs)).2
    unfold portWrite at hw
    simp only [hk, if_true, hf, Bool.false_eq_true, if_false] at hw
    rw [if_neg (by omega), if_pos hs] at hw
    simp at hw

theorem receive_effect {c : PortCfg} {s s' : Ports} {i maxlen : Nat} {bs : List Nat} {e : Errno} (hI : Inv c s)
    (hr : (s.P i).ready = true) (hk : (s.P i).kind = KIND_QUEUEING) (he : (s.P i).empty = false) (hm : 0 < maxlen)
    (hw : portGet s i (if maxlen > consumedSize (s.P i) then consumedSize (s.P i) else maxlen) = some (s', e, bs)) :
    e = .ok ∧ bs = (s.queueOf i).take maxlen ∧ s'.queueOf i = (s.queueOf i).drop maxlen ∧ Only s s' i ∧ Inv c s' := by
  have ok := hI.ok i hr
  have hlen : (s.queueOf i).length = held (s.P i) := by simp [Ports.queueOf]
  rw [consumed_eq ok hk] at hw
  have hp := held_pos ok hk he
  by_cases hmx : maxlen > held (s.P i)
  · rw [if_pos hmx] at hw
    obtain ⟨s1, g1, g2, g3, g4, _⟩ := portGet_queue hI hr hk he (Nat.le_refl _) hp
    rw [hw] at g1
    injection g1 with g1; injection g1 with g1 g1'; injection g1' with g1' g1''
    subst g1
    refine ⟨g1', ?_, ?_, g2, g3⟩
    · rw [g1'', List.take_of_length_le (by omega), List.take_of_length_le (by omega)]
    · rw [g4, List.drop_of_length_le (by omega), List.drop_of_length_le (by omega)]
  · rw [if_neg hmx] at hw
    obtain ⟨s1, g1, g2, g3, g4, _⟩ := portGet_queue hI hr hk he (by omega) hm
    rw [hw] at g1
    injection g1 with g1; injection g1 with g1 g1'; injection g1' with g1' g1''
    subst g1
    exact ⟨g1', g1'', g4, g2, g3⟩

theorem read_effect {c : PortCfg} {s s' : Ports} {i : Nat} {bs : List Nat} {e : Errno} (hI : Inv c s)
    (hr : (s.P i).ready = true) (hk : (s.P i).kind = KIND_SAMPLING)
    (hw : portGet s i (s.P i).size = some (s', e, bs)) :
    s' = s ∧ ((s.messageOf i = none ∧ e = .empty) ∨ (s.messageOf i = some bs ∧ e = .ok)) := by
  rw [portGet_sampling hI hr hk] at hw
  cases hm : s.messageOf i with
  | none => rw [hm] at hw; simp at hw; exact ⟨hw.1.symm, Or.inl ⟨rfl, hw.2.1.symm⟩⟩
  | some b =>
    rw [hm] at hw; simp at hw
    exact ⟨hw.1.symm, Or.inr ⟨by rw [hw.2.2], hw.2.1.symm⟩⟩

/-- Every call keeps the invariant and changes only what `Touches` says. -/
theorem step_effect {c : PortCfg} (hc : c.Ok) {s s' : Ports} {now : Nat} {op : PortOp} {o : PortOut} (hI : Inv c s)
    (h : s.step c now op = some (s', o)) : Inv c s' ∧ Within s s' (Touches c s op) := by
  have recv : ∀ {part id maxlen abs : Nat} {r : PRes} {bs : List Nat},
      receiveAt c s now part id maxlen abs = some (s', r, bs) → Inv c s' ∧ Within s s' (· = id) := by
    intro part id maxlen abs r bs h
    rcases receiveAt_cases h with ⟨rfl, _⟩ | ⟨_, _, hr, hm, _, hk, _, _, he, e, b, hg, _⟩
    · exact ⟨hI, Within.refl _ _⟩
    · obtain ⟨_, _, _, g4, g5⟩ := receive_effect hI hr hk he hm hg
      exact ⟨g5, g4.within hr⟩
  have send : ∀ {part id abs : Nat} {r : PRes} {bs : List Nat},
      sendAt c s now part id bs abs = some (s', r) → Inv c s' ∧ Within s s' (· = id) := by
    intro part id abs r bs h
    rcases sendAt_cases h with ⟨rfl, _⟩ | ⟨_, _, hr, _, hl, _, _, _, _, _, s1, e, hw, rfl⟩
    · exact ⟨hI, Within.refl _ _⟩
    · obtain ⟨g4, g5⟩ := dataWrite_effect hI hr hl hw
      exact ⟨g5, g4.within hr⟩
  cases op with
  | queueingCreate part name size dir fifo =>
    unfold Ports.step at h
    simp only [Option.map_eq_some_iff] at h
    obtain ⟨⟨s1, e, r⟩, hq, h⟩ := h
    injection h with h _
    subst h
    rcases queueingCreate_cases hI hq with ⟨h, _⟩ | ⟨g, h1, h2, h3, h4, h5, h6, _, _, h9, h10, h11, h12⟩
    · subst h; exact ⟨hI, Within.refl _ _⟩
    · obtain ⟨f1, _, f3⟩ := findPort_spec h1
      obtain ⟨n1, n2⟩ := new_port hI f1 h2 f3 (Or.inl rfl) h3 h4 h5 h6 h9 h10 h11 ⟨_, _, h12⟩
      exact ⟨n1, n2.mono (fun i hi => by subst hi; exact ⟨h1, h2, h3⟩)⟩
  | samplingCreate part name size dir refresh =>
    unfold Ports.step at h
    simp only [Option.map_eq_some_iff] at h
    obtain ⟨⟨s1, e, r⟩, hq, h⟩ := h
    injection h with h _
    subst h
    rcases samplingCreate_cases hI hq with ⟨h, _⟩ | ⟨g, h1, h2, h3, h4, h5, h6, _, _, h9, h10, h11, h12⟩
    · subst h; exact ⟨hI, Within.refl _ _⟩
    · obtain ⟨f1, _, f3⟩ := findPort_spec h1
      obtain ⟨n1, n2⟩ := new_port hI f1 h2 f3 (Or.inr rfl) h3 h4 h5 h6 h9 h10 h11 ⟨_, _, h12⟩
      exact ⟨n1, n2.mono (fun i hi => by subst hi; exact ⟨h1, h2, h3⟩)⟩
  | samplingWrite part id bs =>
    unfold Ports.step at h
    simp only [Option.map_eq_some_iff] at h
    obtain ⟨⟨s1, r⟩, hq, h⟩ := h
    injection h with h _
    subst h
    rcases samplingWrite_cases hq with ⟨h, _⟩ | ⟨_, _, hr, hl, _, _, _, s2, e, hw, h⟩
    · subst h; exact ⟨hI, Within.refl _ _⟩
    · subst h
      obtain ⟨g4, g5⟩ := dataWrite_effect hI hr hl hw
      exact ⟨g5, g4.within hr⟩
  | samplingRead part id uptr =>
    unfold Ports.step at h
    simp only [Option.map_eq_some_iff] at h
    obtain ⟨⟨s1, r, out⟩, hq, h⟩ := h
    injection h with h _
    subst h
    rcases samplingRead_cases hq with ⟨h, _⟩ | ⟨_, _, hr, hk, _, _, ⟨_, _, h⟩ | ⟨_, e, bs, hg, _⟩⟩
    · subst h; exact ⟨hI, Within.refl _ _⟩
    · subst h
      have ok := hI.ok id hr
      have hne : ∀ j, j ≠ id → (s.setPort id { s.P id with locked := true }).P j = s.P j := fun j hj => upd_other _ _ hj
      have hP : (s.setPort id { s.P id with locked := true }).P id = { s.P id with locked := true } := by simp [setPort]
      have key : ∀ j, ((s.setPort id { s.P id with locked := true }).P j).index = (s.P j).index ∧
          ((s.setPort id { s.P id with locked := true }).P j).size = (s.P j).size ∧
          ((s.setPort id { s.P id with locked := true }).P j).direction = (s.P j).direction ∧
          ((s.setPort id { s.P id with locked := true }).P j).kind = (s.P j).kind ∧
          ((s.setPort id { s.P id with locked := true }).P j).ready = (s.P j).ready ∧
          ((s.setPort id { s.P id with locked := true }).P j).refresh = (s.P j).refresh := by
        intro j
        by_cases e : j = id
        · subst e; rw [hP]; exact ⟨rfl, rfl, rfl, rfl, rfl, rfl⟩
        · rw [hne j e]; exact ⟨rfl, rfl, rfl, rfl, rfl, rfl⟩
      refine ⟨⟨hI.avail, ?_, ?_, ?_⟩, ⟨hne, fun _ _ => rfl, fun j _ => (key j).1, fun j _ => (key j).2.1, fun j _ => (key j).2.2.1, fun j _ => (key j).2.2.2.1, fun j hj => by rw [(key j).2.2.2.2.1]; exact hj, fun j _ => (key j).2.2.2.2.2⟩⟩
      · intro j hj
        by_cases e : j = id
        · subst e
          rw [hP]
          exact ok.bits _ true
        · rw [hne j e] at hj ⊢; exact hI.ok j hj
      · intro j hj
        by_cases e : j = id
        · subst e; rw [(key j).2.2.2.2.1, hr] at hj; simp at hj
        · rw [hne j e] at hj ⊢; exact hI.fresh j hj
      · intro a b hab ha hb
        rw [(key a).1, (key a).2.1, (key b).1, (key b).2.1]
        exact hI.disj a b hab (by rw [← (key a).2.2.2.2.1]; exact ha) (by rw [← (key b).2.2.2.2.1]; exact hb)
    · obtain ⟨h, _⟩ := read_effect hI hr hk hg
      subst h; exact ⟨hI, Within.refl _ _⟩
  | send part id bs timeout =>
    unfold Ports.step at h
    simp only [Option.map_eq_some_iff] at h
    obtain ⟨⟨s1, r⟩, hq, h⟩ := h
    injection h with h _
    subst h
    exact send hq
  | sendResume part id bs abs =>
    unfold Ports.step at h
    simp only [Option.map_eq_some_iff] at h
    obtain ⟨⟨s1, r⟩, hq, h⟩ := h
    injection h with h _
    subst h
    exact send hq
  | receive part id maxlen timeout =>
    unfold Ports.step at h
    simp only [Option.map_eq_some_iff] at h
    obtain ⟨⟨s1, r, bs⟩, hq, h⟩ := h
    injection h with h _
    subst h
    exact recv hq
  | receiveResume part id maxlen abs =>
    unfold Ports.step at h
    simp only [Option.map_eq_some_iff] at h
    obtain ⟨⟨s1, r, bs⟩, hq, h⟩ := h
    injection h with h _
    subst h
    exact recv hq
  | flushPartition p =>
    unfold Ports.step at h
    simp only [Option.map_eq_some_iff] at h
    obtain ⟨s1, hq, h⟩ := h
    injection h with h _
    subst h
    obtain ⟨s2, g1, g2, g3, _⟩ := flushPartition_within hc (now := now) (p := p) hI
    rw [hq] at g1; injection g1 with g1; subst g1
    exact ⟨g2, g3⟩
  | flushAll ps =>
    unfold Ports.step at h
    simp only [Option.map_eq_some_iff] at h
    obtain ⟨s1, hq, h⟩ := h
    injection h with h _
    subst h
    obtain ⟨s2, g1, g2, g3, _⟩ := flushAll_within hc (now := now) ps s hI
    rw [hq] at g1; injection g1 with g1; subst g1
    exact ⟨g2, g3⟩

theorem run_inv {c : PortCfg} (hc : c.Ok) : ∀ (h : List (Nat × PortOp)) (s s' : Ports) (os : List PortOut),
    Inv c s → Ports.run c h s = some (s', os) → Inv c s' := by
  intro h
  induction h with
  | nil => intro s s' os hI hr; simp [Ports.run] at hr; rw [← hr.1]; exact hI
  | cons x rest ih =>
    intro s s' os hI hr
    obtain ⟨now, op⟩ := x
    unfold Ports.run at hr
    cases hs : s.step c now op with
    | none => rw [hs] at hr; simp at hr
    | some y =>
      obtain ⟨s1, o⟩ := y
      rw [hs] at hr
      simp only at hr
      cases hr2 : Ports.run c rest s1 with
      | none => rw [hr2] at hr; simp at hr
      | some z =>
        obtain ⟨s2, os2⟩ := z
        rw [hr2] at hr
        simp at hr
        rw [← hr.1]
        exact ih s1 s2 os2 (step_effect hc hI hs).1 hr2

theorem run_cons {c : PortCfg} {now : Nat} {op : PortOp} {rest : List (Nat × PortOp)} {s s' : Ports}
    {os : List PortOut} (hr : Ports.run c ((now, op) :: rest) s = some (s', os)) :
    ∃ s1 o os1, s.step c now op = some (s1, o) ∧ Ports.run c rest s1 = some (s', os1) ∧ os = o :: os1 := by
  unfold Ports.run at hr
  cases hs : s.step c now op with
  | none => rw [hs] at hr; simp at hr
  | some y =>
    obtain ⟨s1, o⟩ := y
    rw [hs] at hr
    simp only at hr
    cases hr2 : Ports.run c rest s1 with
    | none => rw [hr2] at hr; simp at hr
    | some z =>
      obtain ⟨s2, os2⟩ := z
      rw [hr2] at hr
      simp at hr
      exact ⟨s1, o, os2, rfl, by rw [hr2, hr.1], hr.2.symm⟩

end Pok.Ports
