import Verif.Lemmas.PortLike

/-!
# The same call on two port services that look alike to a group
-/

namespace Pok.Ports

variable {c : PortCfg} {A : Nat → Bool} {s t s' t' : Ports}

theorem same_state {α : Type} {x y : α} (h : Alike c A s t) (g : some (s, x) = some (s', y)) :
    ∃ t', some (t, x) = some (t', y) ∧ Alike c A s' t' := by
  injection g with g; injection g with g1 g2
  subst g1; subst g2
  exact ⟨t, rfl, h⟩

/-- A write to a port of the group, with the mark for the next flush. -/
theorem write_like {now id : Nat} {bs : List Nat} {s1 : Ports} {e : Errno} (h : Alike c A s t) (hI : Inv c s) (hJ : Inv c t)
    (hr : (s.P id).ready = true) (L : Like s t id) (hw : portWrite s now id bs = some (s1, e)) :
    ∃ t1, portWrite t now id bs = some (t1, e) ∧
      Alike c A (s1.setPort id { s1.P id with mustFlush := true }) (t1.setPort id { t1.P id with mustFlush := true }) := by
  obtain ⟨t1, w1, w2, w3, w4⟩ := portWrite_like hI hJ hr L hw
  exact ⟨t1, w1, (h.moves hI hJ hr (by rw [L.ready]; exact hr) w2 w3 (fun _ => w4)).mark w4.locked true⟩

theorem samplingWrite_like {now part id : Nat} {bs : List Nat} {r : PRes} (h : Alike c A s t) (hI : Inv c s) (hJ : Inv c t)
    (hp : A part = true) (g : samplingWrite c s now part id bs = some (s', r)) :
    ∃ t', samplingWrite c t now part id bs = some (t', r) ∧ Alike c A s' t' := by
  unfold samplingWrite at g ⊢
  split at g
  · next h0 => rw [if_pos h0]; exact same_state h g
  next h0 =>
  rw [if_neg h0]
  cases ho : ownPort c part id with
  | none => rw [ho] at g; simp at g
  | some b =>
    rw [ho] at g
    cases b with
    | false => exact same_state h g
    | true =>
      simp only at g ⊢
      have L := h id (by rw [(own_true ho).2]; exact hp)
      rw [L.ready, L.size, L.direction, L.locked]
      split at g
      · next h1 => rw [if_pos h1]; exact same_state h g
      next h1 =>
      rw [if_neg h1]
      split at g
      · next h2 => rw [if_pos h2]; exact same_state h g
      next h2 =>
      rw [if_neg h2]
      split at g
      · next h3 => rw [if_pos h3]; exact same_state h g
      next h3 =>
      rw [if_neg h3]
      split at g
      · next h4 => rw [if_pos h4]; exact same_state h g
      next h4 =>
      rw [if_neg h4]
      cases hw : portWrite s now id bs with
      | none => rw [hw] at g; simp at g
      | some x =>
        obtain ⟨s1, e⟩ := x
        rw [hw] at g
        obtain ⟨t1, w1, w2⟩ := write_like h hI hJ (by simpa using h1) L hw
        rw [w1]
        simp only at g ⊢
        injection g with g; injection g with g1 g2
        subst g1; subst g2
        exact ⟨_, rfl, w2⟩

theorem sendAt_like {now part id abs : Nat} {bs : List Nat} {r : PRes} (h : Alike c A s t) (hI : Inv c s) (hJ : Inv c t)
    (hp : A part = true) (g : sendAt c s now part id bs abs = some (s', r)) :
    ∃ t', sendAt c t now part id bs abs = some (t', r) ∧ Alike c A s' t' := by
  unfold sendAt at g ⊢
  split at g
  · next h0 => rw [if_pos h0]; exact same_state h g
  next h0 =>
  rw [if_neg h0]
  split at g
  · next h0 => rw [if_pos h0]; exact same_state h g
  next h00 =>
  rw [if_neg h00]
  cases ho : ownPort c part id with
  | none => rw [ho] at g; simp at g
  | some b =>
    rw [ho] at g
    cases b with
    | false => exact same_state h g
    | true =>
      simp only at g ⊢
      have L := h id (by rw [(own_true ho).2]; exact hp)
      rw [L.ready, L.size, L.direction, L.partition, L.kind, L.locked]
      split at g
      · next h1 => rw [if_pos h1]; exact same_state h g
      next h1 =>
      rw [if_neg h1]
      split at g
      · next h2 => rw [if_pos h2]; exact same_state h g
      next h2 =>
      rw [if_neg h2]
      split at g
      · next h3 => rw [if_pos h3]; exact same_state h g
      next h3 =>
      rw [if_neg h3]
      split at g
      · next h4 => rw [if_pos h4]; exact same_state h g
      next h4 =>
      rw [if_neg h4]
      split at g
      · next h5 => rw [if_pos h5]; exact same_state h g
      next h5 =>
      rw [if_neg h5]
      split at g
      · next h6 => rw [if_pos h6]; exact same_state h g
      next h6 =>
      rw [if_neg h6]
      unfold sendLoop at g ⊢
      have ha : availableSize (t.P id) = availableSize (s.P id) := by unfold availableSize; rw [L.full, L.offB, L.offE, L.size]
      rw [ha]
      split at g
      · next h7 =>
        rw [if_pos h7]
        split at g
        · next h8 => rw [if_pos h8]; exact same_state h g
        · next h8 => rw [if_neg h8]; exact same_state h g
      next h7 =>
      rw [if_neg h7]
      cases hw : portWrite s now id bs with
      | none => rw [hw] at g; simp at g
      | some x =>
        obtain ⟨s1, e⟩ := x
        rw [hw] at g
        obtain ⟨t1, w1, w2⟩ := write_like h hI hJ (by simpa using h1) L hw
        rw [w1]
        simp only at g ⊢
        injection g with g; injection g with g1 g2
        subst g1; subst g2
        exact ⟨_, rfl, w2⟩

theorem receiveAt_like {now part id maxlen abs : Nat} {bs : List Nat} {r : PRes} (h : Alike c A s t) (hI : Inv c s) (hJ : Inv c t)
    (hp : A part = true) (g : receiveAt c s now part id maxlen abs = some (s', r, bs)) :
    ∃ t', receiveAt c t now part id maxlen abs = some (t', r, bs) ∧ Alike c A s' t' := by
  unfold receiveAt at g ⊢
  split at g
  · next h0 => rw [if_pos h0]; exact same_state h g
  next h0 =>
  rw [if_neg h0]
  split at g
  · next h0 => rw [if_pos h0]; exact same_state h g
  next h00 =>
  rw [if_neg h00]
  cases ho : ownPort c part id with
  | none => rw [ho] at g; simp at g
  | some b =>
    rw [ho] at g
    cases b with
    | false => exact same_state h g
    | true =>
      simp only at g ⊢
      have L := h id (by rw [(own_true ho).2]; exact hp)
      rw [L.ready, L.kind, L.direction, L.locked]
      split at g
      · next h1 => rw [if_pos h1]; exact same_state h g
      next h1 =>
      rw [if_neg h1]
      split at g
      · next h2 => rw [if_pos h2]; exact same_state h g
      next h2 =>
      rw [if_neg h2]
      split at g
      · next h3 => rw [if_pos h3]; exact same_state h g
      next h3 =>
      rw [if_neg h3]
      split at g
      · next h4 => rw [if_pos h4]; exact same_state h g
      next h4 =>
      rw [if_neg h4]
      unfold recvLoop at g ⊢
      have ha : consumedSize (t.P id) = consumedSize (s.P id) := by unfold consumedSize; rw [L.empty, L.offB, L.offE, L.size]
      rw [ha, L.empty]
      split at g
      · next h7 =>
        rw [if_pos h7]
        split at g
        · next h8 => rw [if_pos h8]; exact same_state h g
        · next h8 => rw [if_neg h8]; exact same_state h g
      next h7 =>
      rw [if_neg h7]
      simp only at g ⊢
      cases hw : portGet s id (if maxlen > consumedSize (s.P id) then consumedSize (s.P id) else maxlen) with
      | none => rw [hw] at g; simp at g
      | some x =>
        obtain ⟨s1, e, b⟩ := x
        rw [hw] at g
        obtain ⟨t1, w1, w2, w3, w4⟩ := portGet_like hI hJ (by simpa using h1) L hw
        have hal := h.moves hI hJ (by simpa using h1) (by rw [L.ready]; simpa using h1) w2 w3 (fun _ => w4)
        rw [w1]
        simp only at g ⊢
        split at g
        · next h9 => rw [if_pos h9]; exact same_state hal g
        · next h9 => rw [if_neg h9]; exact same_state hal g

theorem samplingRead_like {now part id uptr : Nat} {r : PRes} {o : ReadOut} (h : Alike c A s t) (hI : Inv c s) (hJ : Inv c t)
    (hp : A part = true) (hu : uptr + PORT_MAX_SIZE ≤ c.psize part) (g : samplingRead c s now part id uptr = some (s', r, o)) :
    ∃ t', samplingRead c t now part id uptr = some (t', r, o) ∧ Alike c A s' t' := by
  unfold samplingRead at g ⊢
  split at g
  · next h0 => rw [if_pos h0]; exact same_state h g
  next h0 =>
  rw [if_neg h0]
  cases ho : ownPort c part id with
  | none => rw [ho] at g; simp at g
  | some b =>
    rw [ho] at g
    cases b with
    | false => exact same_state h g
    | true =>
      simp only at g ⊢
      have L := h id (by rw [(own_true ho).2]; exact hp)
      rw [L.ready, L.kind, L.direction, L.locked]
      split at g
      · next h1 => rw [if_pos h1]; exact same_state h g
      next h1 =>
      rw [if_neg h1]
      split at g
      · next h2 => rw [if_pos h2]; exact same_state h g
      next h2 =>
      rw [if_neg h2]
      split at g
      · next h3 => rw [if_pos h3]; exact same_state h g
      next h3 =>
      rw [if_neg h3]
      split at g
      · next h4 => rw [if_pos h4]; exact same_state h g
      next h4 =>
      rw [if_neg h4]
      split at g
      · simp at g
      next h5 =>
      rw [if_neg h5]
      have small : ∀ {x : Ports}, Inv c x → (x.P part).size ≤ PORT_MAX_SIZE := by
        intro x hx
        cases e : (x.P part).ready with
        | true => exact (hx.ok part e).small
        | false => rw [fresh_size hx e]; exact Nat.zero_le _
      have hck : checkPtr c part uptr (t.P part).size = checkPtr c part uptr (s.P part).size := by
        have a1 := small hI
        have a2 := small hJ
        unfold checkPtr
        split
        · rfl
        · rw [if_neg (by omega), if_neg (by omega), decide_eq_true (by omega), decide_eq_true (by omega)]
      rw [hck]
      split at g
      · next h6 =>
        rw [if_pos h6]
        injection g with g; injection g with g1 g2; injection g2 with g2 g3
        subst g1; subst g2; subst g3
        refine ⟨_, rfl, ?_⟩
        intro j hj
        by_cases e : j = id
        · rw [e]
          constructor <;> simp only [setPort, upd_same] <;>
            first | exact L.full | exact L.size | exact L.offB | exact L.offE | exact L.empty | exact L.refresh | exact L.lastReceive |
              exact L.mustFlush | exact L.partition | exact L.bytes
        · exact (h j hj).keep (upd_other _ _ e) (upd_other _ _ e) rfl rfl
      next h6 =>
      rw [if_neg h6]
      rw [L.size, L.lastReceive, L.refresh]
      cases hw : portGet s id (s.P id).size with
      | none => rw [hw] at g; simp at g
      | some x =>
        obtain ⟨s1, e, b⟩ := x
        rw [hw] at g
        obtain ⟨t1, w1, w2, w3, w4⟩ := portGet_like hI hJ (by simpa using h1) L hw
        have hal := h.moves hI hJ (by simpa using h1) (by rw [L.ready]; simpa using h1) w2 w3 (fun _ => w4)
        rw [w1]
        simp only at g ⊢
        split at g
        · next h9 => rw [if_pos h9]; exact same_state hal g
        · next h9 => rw [if_neg h9]; exact same_state hal g

/-! ### Creation -/

/-- The part of the port memory that has not been given away is zero. -/
def Clean (s : Ports) : Prop := ∀ b, QUEUE_SIZE - s.avail ≤ b → s.data b = 0

theorem create_like {part kind size dir : Nat} {name : List Nat} {e : Errno} {r : Option Nat} (h : Alike c A s t) (hI : Inv c s) (hJ : Inv c t)
    (hC : Clean s) (hD : Clean t) (hp : A part = true) (ha : size ≤ s.avail) (hb : size ≤ t.avail)
    (g : create c s part kind name size dir = some (s', e, r)) :
    ∃ t', create c t part kind name size dir = some (t', e, r) ∧ Alike c A s' t' := by
  unfold create at g ⊢
  split at g
  · next h0 => rw [if_pos h0]; exact same_state h g
  next h0 =>
  rw [if_neg h0]
  rw [if_neg (by omega)] at g ⊢
  split at g
  · next h1 => rw [if_pos h1]; exact same_state h g
  next h1 =>
  rw [if_neg h1]
  split at g
  · next gid hid =>
    have hown : c.owner gid = part := by
      unfold portId at hid
      split at hid
      · simp at hid
      · split at hid
        · next h2 => simp at hid; rw [← hid]; exact h2
        · simp at hid
    have L := h gid (by rw [hown]; exact hp)
    split at g
    · simp at g
    · next h2 => exact same_state h g
    · next h2 =>
      rw [L.ready]
      split at g
      · next h3 => rw [if_pos h3]; exact same_state h g
      · next h3 =>
        rw [if_neg h3]
        injection g with g; injection g with g1 g2; injection g2 with g2 g3
        subst g1; subst g2; subst g3
        refine ⟨_, rfl, ?_⟩
        have h3' : (s.P gid).ready = false := by simpa using h3
        have f1 := hI.fresh gid h3'
        have f2 := hJ.fresh gid (by rw [L.ready]; exact h3')
        intro j hj
        by_cases ej : j = gid
        · rw [ej]
          constructor <;> simp only [setPort, upd_same, f1, f2]
          intro k hk
          rw [hC _ (by omega), hD _ (by omega)]
        · exact (h j hj).keep (upd_other _ _ ej) (upd_other _ _ ej) rfl rfl
  · next e' x hne =>
    exact same_state h g

theorem create_ok_owner {part kind size dir g : Nat} {name : List Nat} {e : Errno} (h : create c s part kind name size dir = some (s', e, some g)) :
    c.owner g = part := by
  unfold create at h
  split at h
  · simp at h
  split at h
  · simp at h
  split at h
  · simp at h
  split at h
  · next gid hid =>
    have hown : c.owner gid = part := by
      unfold portId at hid
      split at hid
      · simp at hid
      · split at hid
        · next h2 => simp at hid; rw [← hid]; exact h2
        · simp at hid
    split at h
    · simp at h
    · simp at h
    · split at h
      · simp at h; rw [← h.2.2]; exact hown
      · simp at h; rw [← h.2.2]; exact hown
  · simp at h

theorem queueingCreate_like {part size dir : Nat} {name : List Nat} {fifo : Bool} {e : Errno} {r : Option Nat} (h : Alike c A s t) (hI : Inv c s)
    (hJ : Inv c t) (hC : Clean s) (hD : Clean t) (hp : A part = true) (ha : size ≤ s.avail) (hb : size ≤ t.avail)
    (g : queueingCreate c s part name size dir fifo = some (s', e, r)) :
    ∃ t', queueingCreate c t part name size dir fifo = some (t', e, r) ∧ Alike c A s' t' := by
  unfold queueingCreate at g ⊢
  split at g
  · next h0 => rw [if_pos h0]; exact same_state h g
  next h0 =>
  rw [if_neg h0]
  cases hc : create c s part KIND_QUEUEING name size dir with
  | none => rw [hc] at g; simp at g
  | some x =>
    obtain ⟨s1, e1, r1⟩ := x
    obtain ⟨t1, w1, w2⟩ := create_like h hI hJ hC hD hp ha hb hc
    rw [hc] at g
    rw [w1]
    split at g
    · next hx => simp at hx
    · next hx =>
      simp only [Option.some.injEq, Prod.mk.injEq] at hx
      obtain ⟨rfl, rfl, rfl⟩ := hx
      exact same_state w2 g
    · next gg hx =>
      simp only [Option.some.injEq, Prod.mk.injEq] at hx
      obtain ⟨rfl, rfl, rfl⟩ := hx
      simp only at g ⊢
      injection g with g; injection g with g1 g2; injection g2 with g2 g3
      subst g1; subst g2; subst g3
      refine ⟨_, rfl, ?_⟩
      have L := w2 gg (by rw [create_ok_owner hc]; exact hp)
      have := w2.bits (i := gg) (s1.P gg).mustFlush false
      rw [show ({ t1.P gg with locked := false } : Port) = { t1.P gg with mustFlush := (s1.P gg).mustFlush, locked := false } by rw [← L.mustFlush]]
      exact this
    · next s2 e2 r2 n1 n2 hx =>
      simp only [Option.some.injEq, Prod.mk.injEq] at hx
      obtain ⟨rfl, rfl, rfl⟩ := hx
      split
      · next hy => simp at hy
      · next hy =>
        simp only [Option.some.injEq, Prod.mk.injEq] at hy
        exact absurd hy.2.1 (by simpa using n1)
      · next hy =>
        simp only [Option.some.injEq, Prod.mk.injEq] at hy
        exact (n2 _ hy.2.1 hy.2.2).elim
      · next hy =>
        simp only [Option.some.injEq, Prod.mk.injEq] at hy
        obtain ⟨rfl, rfl, rfl⟩ := hy
        exact same_state w2 g

theorem samplingCreate_like {part size dir refresh : Nat} {name : List Nat} {e : Errno} {r : Option Nat} (h : Alike c A s t) (hI : Inv c s)
    (hJ : Inv c t) (hC : Clean s) (hD : Clean t) (hp : A part = true) (ha : size ≤ s.avail) (hb : size ≤ t.avail)
    (g : samplingCreate c s part name size dir refresh = some (s', e, r)) :
    ∃ t', samplingCreate c t part name size dir refresh = some (t', e, r) ∧ Alike c A s' t' := by
  unfold samplingCreate at g ⊢
  cases hc : create c s part KIND_SAMPLING name size dir with
  | none => rw [hc] at g; simp at g
  | some x =>
    obtain ⟨s1, e1, r1⟩ := x
    obtain ⟨t1, w1, w2⟩ := create_like h hI hJ hC hD hp ha hb hc
    rw [hc] at g
    rw [w1]
    split at g
    · next hx => simp at hx
    · next gg hx =>
      simp only [Option.some.injEq, Prod.mk.injEq] at hx
      obtain ⟨rfl, rfl, rfl⟩ := hx
      simp only at g ⊢
      injection g with g; injection g with g1 g2; injection g2 with g2 g3
      subst g1; subst g2; subst g3
      refine ⟨_, rfl, ?_⟩
      intro j hj
      by_cases ej : j = gg
      · rw [ej]
        have L := w2 gg (by rw [← ej]; exact hj)
        constructor <;> simp only [setPort, upd_same]
        · exact L.full
        · exact L.size
        · exact L.offB
        · exact L.offE
        · exact L.direction
        · exact L.ready
        · exact L.empty
        · exact L.kind
        · exact L.mustFlush
        · exact L.partition
        · exact L.bytes
      · exact (w2 j hj).keep (upd_other _ _ ej) (upd_other _ _ ej) rfl rfl
    · next s2 e2 r2 n1 hx =>
      simp only [Option.some.injEq, Prod.mk.injEq] at hx
      obtain ⟨rfl, rfl, rfl⟩ := hx
      split
      · next hy => simp at hy
      · next hy =>
        simp only [Option.some.injEq, Prod.mk.injEq] at hy
        exact (n1 _ hy.2.1 hy.2.2).elim
      · next hy =>
        simp only [Option.some.injEq, Prod.mk.injEq] at hy
        obtain ⟨rfl, rfl, rfl⟩ := hy
        exact same_state w2 g

end Pok.Ports
