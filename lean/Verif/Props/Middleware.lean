import Mathlib.Tactic.Common
import Mathlib.Tactic.Linarith
import Verif.Spec.Middleware

/-!
# Buffers (C41)
-/

namespace Pok.Mw
open MwSpec

/-- Slot `i` of a buffer. -/
def slot (d : Nat → Nat) (ix m i : Nat) : List Nat := (List.range m).map fun t => d (ix + i * m + t)

/-- A buffer represents a queue. -/
structure Holds (d : Nat → Nat) (b : Buf) (a : Queue) (h : Nat) : Prop where
  ready : b.ready = true
  msg : 0 < a.msg
  cap : 0 < a.cap
  msgsize : b.msgsize = a.msg
  size : b.size = a.cap * a.msg
  head : h < a.cap
  len : a.q.length ≤ a.cap
  offB : b.offB = h * a.msg
  offE : b.offE = (h + a.q.length) % a.cap * a.msg
  empty : b.empty = decide (a.q.length = 0)
  full : b.full = decide (a.q.length = a.cap)
  slots : ∀ j (hj : j < a.q.length), a.q[j] = slot d b.index a.msg ((h + j) % a.cap)

/-- The buffers represent the queues; `left` bytes of storage are left for creations. -/
structure Rel (nb : Nat) (s : Bufs) (a : Queues) (left : Nat) : Prop where
  room : s.next + left ≤ DATA
  none_ : ∀ i, a i = none → (s.B i).ready = false ∧ (s.B i).full = false
  some_ : ∀ i b, a i = some b → (∃ h, Holds s.data (s.B i) b h) ∧ (s.B i).index + (s.B i).size ≤ s.next
  disj : ∀ i j, i ≠ j → (s.B i).ready = true → (s.B j).ready = true →
    (s.B i).index + (s.B i).size ≤ (s.B j).index ∨ (s.B j).index + (s.B j).size ≤ (s.B i).index

theorem mod_case {c h j : Nat} (hh : h < c) (hj : j ≤ c) : (h + j) % c = if h + j < c then h + j else h + j - c := by
  split
  · exact Nat.mod_eq_of_lt ‹_›
  · rw [Nat.mod_eq_sub_mod (by omega), Nat.mod_eq_of_lt (by omega)]

theorem slot_end {c m i : Nat} (hi : i < c) : i * m + m ≤ c * m := by
  have := Nat.mul_le_mul_right m (Nat.succ_le_of_lt hi)
  rw [Nat.succ_mul] at this
  exact this

theorem slots_apart {m i j : Nat} (h : i ≠ j) : i * m + m ≤ j * m ∨ j * m + m ≤ i * m := by
  rcases Nat.lt_or_gt_of_ne h with h | h
  · exact .inl (slot_end h)
  · exact .inr (slot_end h)

theorem advance {c m i : Nat} (hi : i < c) (hs : c * m ≤ DATA) :
    (i * m + m) % U32 % (c * m) = (i + 1) % c * m := by
  have := slot_end (m := m) hi
  rw [Nat.mod_eq_of_lt (b := U32) (show i * m + m < U32 by unfold DATA at hs; unfold U32; omega), ← Nat.succ_mul, Nat.mul_mod_mul_right]

theorem Holds.of_agree {d d' : Nat → Nat} {b : Buf} {a : Queue} {h : Nat} (H : Holds d b a h)
    (e : ∀ x, b.index ≤ x → x < b.index + b.size → d' x = d x) : Holds d' b a h :=
  { H with
    slots := by
      intro j hj
      rw [H.slots j hj]
      unfold slot
      apply List.map_congr_left
      intro t ht
      rw [List.mem_range] at ht
      have := slot_end (m := a.msg) (Nat.mod_lt (h + j) H.cap)
      exact (e _ (by omega) (by rw [H.size]; omega)).symm }

theorem slot_put {d : Nat → Nat} {ix m i : Nat} {bs : List Nat} {d' : Nat → Nat} (hl : bs.length = m)
    (hp : put d (ix + i * m) bs = some d') :
    slot d' ix m i = bs ∧ ∀ x, x < ix + i * m ∨ ix + i * m + m ≤ x → d' x = d x := by
  unfold put at hp
  split at hp
  swap
  · cases hp
  cases hp
  refine ⟨?_, ?_⟩
  · apply List.ext_getElem
    · simp [slot, hl]
    · intro k h1 h2
      simp only [slot, List.getElem_map, List.getElem_range]
      rw [if_pos (by omega), show ix + i * m + k - (ix + i * m) = k by omega]
      simp [List.getD_eq_getElem?_getD, h2]
  · intro x hx
    show (if _ then _ else _) = _
    rw [if_neg (by omega)]

theorem send_holds {d : Nat → Nat} {b : Buf} {a : Queue} {h : Nat} (H : Holds d b a h) (hr : b.index + b.size ≤ DATA)
    {bs : List Nat} (hl : bs.length = a.msg) (hf : a.q.length ≠ a.cap) :
    ∃ d', put d (b.index + b.offE) bs = some d' ∧
      (∀ x, x < b.index ∨ b.index + b.size ≤ x → d' x = d x) ∧
      Holds d' { b with offE := (b.offE + bs.length) % U32 % b.size, empty := false, full := if (b.offE + bs.length) % U32 % b.size = b.offB then true else b.full }
        { a with q := a.q ++ [bs] } h := by
  have hi := Nat.mod_lt (h + a.q.length) H.cap
  have he := slot_end (m := a.msg) hi
  have hlen := H.len
  have hsz := H.size
  have hput : put d (b.index + b.offE) bs = some fun j => if b.index + b.offE ≤ j ∧ j < b.index + b.offE + bs.length then bs.getD (j - (b.index + b.offE)) 0 else d j := by
    unfold put
    rw [if_pos]
    rw [H.offE, hl]
    omega
  refine ⟨_, hput, ?_, ?_⟩
  · intro x hx
    show (if _ then _ else _) = _
    rw [if_neg]
    rw [H.offE, hl]
    omega
  rw [H.offE] at hput
  obtain ⟨hs1, hs2⟩ := slot_put hl hput
  have hadv : (b.offE + bs.length) % U32 % b.size = (h + (a.q.length + 1)) % a.cap * a.msg := by
    rw [H.offE, hl, hsz, advance hi (by omega), Nat.mod_add_mod, Nat.add_assoc]
  rw [hadv]
  have hh := H.head
  refine ⟨H.ready, H.msg, H.cap, H.msgsize, H.size, H.head, ?_, H.offB, ?_, ?_, ?_, ?_⟩
  · simp; omega
  · simp
  · simp
  · show (if _ then true else _) = _
    rw [H.offB, H.full]
    simp only [List.length_append, List.length_cons, List.length_nil]
    have hc : (h + (a.q.length + 1)) % a.cap * a.msg = h * a.msg ↔ a.q.length + 1 = a.cap := by
      rw [Nat.mul_left_inj (by have := H.msg; omega), mod_case H.head (by omega)]
      split <;> omega
    by_cases hx : a.q.length + 1 = a.cap
    · rw [if_pos (hc.2 hx)]; simp [hx]
    · rw [if_neg (fun e => hx (hc.1 e))]; simp [hx, hf]
  · intro j hj
    rw [H.offE]
    dsimp only
    simp only [List.length_append, List.length_cons, List.length_nil] at hj
    by_cases hj' : j < a.q.length
    · rw [List.getElem_append_left hj', H.slots j hj']
      unfold slot
      apply List.map_congr_left
      intro t ht
      rw [List.mem_range] at ht
      have hne : (h + j) % a.cap ≠ (h + a.q.length) % a.cap := by
        rw [mod_case H.head (by omega), mod_case H.head (by omega)]
        split <;> split <;> omega
      refine (hs2 _ ?_).symm
      rcases slots_apart (m := a.msg) hne with hk | hk
      · left; omega
      · right; omega
    · have : j = a.q.length := by omega
      subst this
      simp only [List.getElem_append_right (Nat.le_refl _), Nat.sub_self, List.getElem_cons_zero]
      exact hs1.symm

theorem receive_holds {d : Nat → Nat} {b : Buf} {a : Queue} {h : Nat} (H : Holds d b a h)
    (hr : b.index + b.size ≤ DATA) {m : List Nat} {q : List (List Nat)} (hq : a.q = m :: q) :
    get d (b.index + b.offB) b.msgsize = some m ∧
      ∃ h', Holds d { b with offB := (b.offB + b.msgsize) % U32 % b.size, full := false, empty := if (b.offB + b.msgsize) % U32 % b.size = b.offE then true else b.empty }
        { a with q := q } h' := by
  have he := slot_end (m := a.msg) H.head
  have hlen := H.len
  have hsz := H.size
  have hn : a.q.length = q.length + 1 := by rw [hq]; rfl
  have h0 : m = slot d b.index a.msg h := by
    have := H.slots 0 (by omega)
    simp only [hq, List.getElem_cons_zero, Nat.add_zero, Nat.mod_eq_of_lt H.head] at this
    exact this
  have hadv : (b.offB + b.msgsize) % U32 % b.size = (h + 1) % a.cap * a.msg := by
    rw [H.offB, H.msgsize, hsz, advance H.head (by omega)]
  refine ⟨?_, (h + 1) % a.cap, ?_⟩
  · unfold get
    rw [H.offB, H.msgsize, if_pos (by omega), h0]
    rfl
  rw [hadv]
  have hh := H.head
  refine ⟨H.ready, H.msg, H.cap, H.msgsize, H.size, Nat.mod_lt _ H.cap, ?_, rfl, ?_, ?_, ?_, ?_⟩
  · dsimp only; omega
  · rw [H.offE, hn]
    show _ = (_ + q.length) % _ * _
    rw [Nat.mod_add_mod, Nat.add_assoc, Nat.add_comm 1]
  · show (if _ then true else _) = _
    rw [H.offE, H.empty]
    have hc : (h + 1) % a.cap * a.msg = (h + a.q.length) % a.cap * a.msg ↔ q.length = 0 := by
      rw [Nat.mul_left_inj (by have := H.msg; omega), mod_case H.head (by omega), mod_case H.head (by omega)]
      split <;> split <;> omega
    by_cases hx : q.length = 0
    · rw [if_pos (hc.2 hx)]; simp [List.length_eq_zero_iff.1 hx]
    · rw [if_neg (fun e => hx (hc.1 e))]
      simp only [decide_eq_decide]
      omega
  · show false = decide (q.length = a.cap)
    rw [eq_comm, decide_eq_false_iff_not]
    omega
  · intro j hj
    have := H.slots (j + 1) (by dsimp only at hj; omega)
    simp only [hq, List.getElem_cons_succ] at this
    rw [this]
    show _ = slot d b.index a.msg (((h + 1) % a.cap + j) % a.cap)
    rw [Nat.mod_add_mod, Nat.add_assoc, Nat.add_comm 1]

theorem Rel.mono {nb : Nat} {s : Bufs} {a : Queues} {left left' : Nat} (R : Rel nb s a left) (h : left' ≤ left) :
    Rel nb s a left' := { R with room := by have := R.room; omega }

theorem step_rel (names : List (List Nat)) {s : Bufs} {a : Queues} {left : Nat} (R : Rel names.length s a left)
    (op : BufOp) (hs : Sane names.length left a op) :
    ∃ s', bufStep names s op = some (s', (qStep names.length (lookup names) a op).2) ∧
      Rel names.length s' (qStep names.length (lookup names) a op).1 (left - cost op) ∧
      ∀ x, s'.data x = s.data x ∨ ∃ id bs t, op = .send id bs t ∧ (s.B id).ready = true ∧ (s.B id).index ≤ x ∧
        x < (s.B id).index + (s.B id).size := by
  have hroom := R.room
  cases op with
  | create name size msg evt =>
    obtain ⟨hm, ⟨k, hk, rfl⟩, hl⟩ := hs
    simp only [bufStep, bufCreate, qStep, cost]
    cases hn : lookup names name with
    | none => exact ⟨s, rfl, R.mono (by omega), fun x => .inl rfl⟩
    | some n =>
      dsimp only
      cases ha : a n with
      | some b =>
        obtain ⟨h, H⟩ := (R.some_ n b ha).1
        rw [if_pos H.ready]
        exact ⟨s, rfl, R.mono (by omega), fun x => .inl rfl⟩
      | none =>
        obtain ⟨hr, hf⟩ := R.none_ n ha
        rw [hr]
        simp only [Bool.false_eq_true, if_false]
        by_cases he : evt = .ok
        swap
        · rw [if_pos he, if_pos he]
          exact ⟨s, rfl, R.mono (by omega), fun x => .inl rfl⟩
        rw [if_neg (by simp [he]), if_neg (by simp [he])]
        have hnx : (s.next + k * msg) % U32 = s.next + k * msg := Nat.mod_eq_of_lt (by unfold DATA at hroom; unfold U32; omega)
        refine ⟨_, rfl, ?_, fun x => .inl rfl⟩
        simp only [hnx]
        refine ⟨by dsimp only; omega, ?_, ?_, ?_⟩
        · intro i hi
          by_cases hin : i = n
          · subst hin; rw [upd_same] at hi; cases hi
          · rw [upd_other _ _ hin] at hi
            dsimp only
            rw [upd_other _ _ hin]
            exact R.none_ i hi
        · intro i b hi
          by_cases hin : i = n
          · subst hin
            rw [upd_same] at hi
            cases hi
            dsimp only
            rw [upd_same]
            refine ⟨⟨0, rfl, hm, ?_, rfl, ?_, ?_, by simp, by simp, by simp, by simp, ?_, ?_⟩, by dsimp only; omega⟩
            · rw [Nat.mul_div_cancel _ hm]; exact hk
            · rw [Nat.mul_div_cancel _ hm]
            · rw [Nat.mul_div_cancel _ hm]; exact hk
            · rw [Nat.mul_div_cancel _ hm]
              dsimp only
              rw [hf, eq_comm, decide_eq_false_iff_not]
              simp only [List.length_nil]
              omega
            · intro j hj
              simp at hj
          · rw [upd_other _ _ hin] at hi
            dsimp only
            rw [upd_other _ _ hin]
            obtain ⟨x, y⟩ := R.some_ i b hi
            exact ⟨x, by omega⟩
        · intro i j hij
          dsimp only
          have old : ∀ i, (s.B i).ready = true → (s.B i).index + (s.B i).size ≤ s.next := by
            intro i hi
            cases hx : a i with
            | none => rw [(R.none_ i hx).1] at hi; cases hi
            | some b => exact (R.some_ i b hx).2
          by_cases hin : i = n
          · subst hin
            rw [upd_same, upd_other _ _ (Ne.symm hij)]
            intro _ hj
            have := old j hj
            right; exact this
          · by_cases hjn : j = n
            · subst hjn
              rw [upd_same, upd_other _ _ hij]
              intro hi _
              left; exact old i hi
            · rw [upd_other _ _ hin, upd_other _ _ hjn]
              exact R.disj i j hij
  | send id bs t =>
    obtain ⟨hid, hbs⟩ := hs
    simp only [bufStep, bufSend, qStep, cost, Nat.sub_zero]
    by_cases h1 : id > names.length
    · rw [if_pos h1, if_pos (by omega)]
      exact ⟨s, rfl, R, fun x => .inl rfl⟩
    rw [if_neg h1, if_neg hid, if_neg (show ¬id ≥ names.length by omega)]
    cases ha : a id with
    | none =>
      rw [if_pos (R.none_ id ha).1]
      exact ⟨s, rfl, R, fun x => .inl rfl⟩
    | some b =>
      obtain ⟨⟨h, H⟩, hix⟩ := R.some_ id b ha
      have hlen := hbs b ha
      have hm := H.msg
      have hc := H.cap
      have hszle : b.msg ≤ b.cap * b.msg := Nat.le_mul_of_pos_left _ hc
      have hsz := H.size
      rw [if_neg (by simp [H.ready]), if_neg (by omega)]
      have hmul : b.msg ≤ b.cap * b.msg * b.msg % U32 := by
        have h2 : b.cap * b.msg * b.msg ≤ DATA * DATA := Nat.mul_le_mul (by omega) (by omega)
        rw [Nat.mod_eq_of_lt (by unfold DATA at h2; unfold U32; omega)]
        exact Nat.le_mul_of_pos_left _ (by omega)
      rw [if_neg (by rw [H.size, H.msgsize, hlen]; omega)]
      dsimp only
      rw [H.full]
      by_cases hf : b.q.length = b.cap
      · rw [if_pos (by simpa using hf), if_pos hf]
        by_cases ht : t = 0
        · rw [if_pos ht, if_pos ht]
          exact ⟨s, rfl, R, fun x => .inl rfl⟩
        · rw [if_neg ht, if_neg ht]
          exact ⟨s, rfl, R, fun x => .inl rfl⟩
      · rw [if_neg (by simpa using hf), if_neg hf, if_neg (by omega)]
        obtain ⟨d', hp, hout, hH⟩ := send_holds H (by omega) hlen hf
        rw [hp]
        dsimp only
        refine ⟨_, rfl, ?_, ?_⟩
        · rw [← H.full]
          refine ⟨R.room, ?_, ?_, ?_⟩
          · intro i hi
            have hin : i ≠ id := by rintro rfl; rw [upd_same] at hi; cases hi
            rw [upd_other _ _ hin] at hi
            dsimp only
            rw [upd_other _ _ hin]
            exact R.none_ i hi
          · intro i c hi
            by_cases hin : i = id
            · subst hin
              rw [upd_same] at hi
              cases hi
              dsimp only
              rw [upd_same]
              exact ⟨⟨h, hH⟩, hix⟩
            · rw [upd_other _ _ hin] at hi
              dsimp only
              rw [upd_other _ _ hin]
              obtain ⟨⟨g, G⟩, y⟩ := R.some_ i c hi
              refine ⟨⟨g, G.of_agree ?_⟩, y⟩
              intro x hx1 hx2
              refine hout x ?_
              rcases R.disj i id hin G.ready H.ready with hd | hd <;> omega
          · intro i j hij
            have key : ∀ i, ((upd s.B id { s.B id with offE := ((s.B id).offE + bs.length) % U32 % (s.B id).size, empty := false, full := if ((s.B id).offE + bs.length) % U32 % (s.B id).size = (s.B id).offB then true else (s.B id).full }) i).ready = (s.B i).ready ∧ ((upd s.B id { s.B id with offE := ((s.B id).offE + bs.length) % U32 % (s.B id).size, empty := false, full := if ((s.B id).offE + bs.length) % U32 % (s.B id).size = (s.B id).offB then true else (s.B id).full }) i).index = (s.B i).index ∧ ((upd s.B id { s.B id with offE := ((s.B id).offE + bs.length) % U32 % (s.B id).size, empty := false, full := if ((s.B id).offE + bs.length) % U32 % (s.B id).size = (s.B id).offB then true else (s.B id).full }) i).size = (s.B i).size := by
              intro i
              by_cases hin : i = id
              · subst hin; simp only [upd_same, and_self]
              · rw [upd_other _ _ hin]; exact ⟨rfl, rfl, rfl⟩
            dsimp only
            rw [(key i).1, (key i).2.1, (key i).2.2, (key j).1, (key j).2.1, (key j).2.2]
            exact R.disj i j hij
        · intro x
          by_cases hx : x < (s.B id).index ∨ (s.B id).index + (s.B id).size ≤ x
          · exact .inl (hout x hx)
          · exact .inr ⟨id, bs, t, rfl, H.ready, by omega, by omega⟩
  | receive id t =>
    have hid : id ≠ names.length := hs
    simp only [bufStep, bufReceive, qStep, cost, Nat.sub_zero]
    by_cases h1 : id > names.length
    · rw [if_pos h1, if_pos (by omega)]
      exact ⟨s, rfl, R, fun x => .inl rfl⟩
    rw [if_neg h1, if_neg hid, if_neg (show ¬id ≥ names.length by omega)]
    cases ha : a id with
    | none =>
      rw [if_pos (R.none_ id ha).1]
      exact ⟨s, rfl, R, fun x => .inl rfl⟩
    | some b =>
      obtain ⟨⟨h, H⟩, hix⟩ := R.some_ id b ha
      have hm := H.msg
      have hc := H.cap
      have hszle : b.msg ≤ b.cap * b.msg := Nat.le_mul_of_pos_left _ hc
      have hsz := H.size
      rw [if_neg (by simp [H.ready])]
      dsimp only
      rw [H.empty]
      cases hq : b.q with
      | nil =>
        rw [if_pos (by simp)]
        dsimp only
        by_cases ht : t = 0
        · rw [if_pos ht, if_pos ht]
          exact ⟨s, rfl, R, fun x => .inl rfl⟩
        · rw [if_neg ht, if_neg ht]
          exact ⟨s, rfl, R, fun x => .inl rfl⟩
      | cons m q =>
        rw [if_neg (by simp), if_neg (by omega)]
        obtain ⟨hg, h', hH⟩ := receive_holds H (by omega) hq
        rw [hg]
        dsimp only
        refine ⟨_, rfl, ?_, fun x => .inl rfl⟩
        have hdec : decide ((m :: q).length = 0) = (s.B id).empty := by rw [H.empty, hq]
        rw [hdec]
        refine ⟨R.room, ?_, ?_, ?_⟩
        · intro i hi
          have hin : i ≠ id := by rintro rfl; rw [upd_same] at hi; cases hi
          rw [upd_other _ _ hin] at hi
          dsimp only
          rw [upd_other _ _ hin]
          exact R.none_ i hi
        · intro i c hi
          by_cases hin : i = id
          · subst hin
            rw [upd_same] at hi
            cases hi
            dsimp only
            rw [upd_same]
            exact ⟨⟨h', hH⟩, hix⟩
          · rw [upd_other _ _ hin] at hi
            dsimp only
            rw [upd_other _ _ hin]
            exact R.some_ i c hi
        · intro i j hij
          have key : ∀ i, ((upd s.B id { s.B id with offB := ((s.B id).offB + (s.B id).msgsize) % U32 % (s.B id).size, full := false, empty := if ((s.B id).offB + (s.B id).msgsize) % U32 % (s.B id).size = (s.B id).offE then true else (s.B id).empty }) i).ready = (s.B i).ready ∧ ((upd s.B id { s.B id with offB := ((s.B id).offB + (s.B id).msgsize) % U32 % (s.B id).size, full := false, empty := if ((s.B id).offB + (s.B id).msgsize) % U32 % (s.B id).size = (s.B id).offE then true else (s.B id).empty }) i).index = (s.B i).index ∧ ((upd s.B id { s.B id with offB := ((s.B id).offB + (s.B id).msgsize) % U32 % (s.B id).size, full := false, empty := if ((s.B id).offB + (s.B id).msgsize) % U32 % (s.B id).size = (s.B id).offE then true else (s.B id).empty }) i).size = (s.B i).size := by
            intro i
            by_cases hin : i = id
            · subst hin; simp only [upd_same, and_self]
            · rw [upd_other _ _ hin]; exact ⟨rfl, rfl, rfl⟩
          dsimp only
          rw [(key i).1, (key i).2.1, (key i).2.2, (key j).1, (key j).2.1, (key j).2.2]
          exact R.disj i j hij

theorem rel_init (nb : Nat) : Rel nb {} (fun _ => none) DATA :=
  ⟨by simp, fun _ _ => ⟨rfl, rfl⟩, (fun _ _ h => by cases h), (fun _ _ _ h => by cases h)⟩

theorem run_rel (names : List (List Nat)) (ops : List BufOp) : ∀ (s : Bufs) (a : Queues) (left : Nat),
    Rel names.length s a left → AllSane names.length (lookup names) left a ops →
    ∃ s', bufRun names s ops = some (s', qRun names.length (lookup names) a ops) ∧ ∃ a' left', Rel names.length s' a' left' := by
  induction ops with
  | nil => intro s a left R _; exact ⟨s, rfl, a, left, R⟩
  | cons op ops ih =>
    intro s a left R h
    obtain ⟨s', h1, R', _⟩ := step_rel names R op h.1
    obtain ⟨s'', h2, r⟩ := ih s' _ _ R' h.2
    refine ⟨s'', ?_, r⟩
    simp only [bufRun, h1, h2, qRun]

/-- **C41** (part).  Any names, any history of creations, sends and receptions by the threads of a partition.  If
each creation asks for a whole number of messages and all of them fit in the storage of the partition, every
message has the message size of its buffer, and the number just after the last buffer is not used, then every
answer - codes, waits, messages - is the one of bounded first-in first-out queues: what is received is what was
sent, in the same order, each once.

Missing: messages shorter or longer than the message size, number `nb`, receiving from an empty buffer with a null
timeout (which hangs: `spins`); see the violations below. -/
theorem C41_fifo_partial (names : List (List Nat)) (ops : List BufOp)
    (h : AllSane names.length (lookup names) DATA (fun _ => none) ops) :
    ∃ s, bufRun names {} ops = some (s, qRun names.length (lookup names) (fun _ => none) ops) := by
  obtain ⟨s', h1, _⟩ := run_rel names ops _ _ _ (rel_init _) h
  exact ⟨s', h1⟩

/-- **C41** (part: storage).  In such a history, the storages of the buffers created do not overlap, and a further
call of the same kind changes no byte of storage except a send, which changes bytes of its own buffer only. -/
theorem C41_storage_partial (names : List (List Nat)) (ops : List BufOp) (op : BufOp)
    (h : AllSane names.length (lookup names) DATA (fun _ => none) (ops ++ [op])) :
    ∃ s s' outs o, bufRun names {} ops = some (s, outs) ∧ bufStep names s op = some (s', o) ∧
      (∀ i j, i ≠ j → (s.B i).ready = true → (s.B j).ready = true →
        (s.B i).index + (s.B i).size ≤ (s.B j).index ∨ (s.B j).index + (s.B j).size ≤ (s.B i).index) ∧
      (∀ x, s'.data x = s.data x ∨ ∃ id bs t, op = .send id bs t ∧ (s.B id).ready = true ∧ (s.B id).index ≤ x ∧
        x < (s.B id).index + (s.B id).size) := by
  suffices ∀ (ops : List BufOp) (s : Bufs) (a : Queues) (left : Nat), Rel names.length s a left →
      AllSane names.length (lookup names) left a (ops ++ [op]) →
      ∃ s1 a1 left1 outs, bufRun names s ops = some (s1, outs) ∧ Rel names.length s1 a1 left1 ∧ Sane names.length left1 a1 op by
    obtain ⟨s1, a1, l1, outs, h1, R, hs⟩ := this ops _ _ _ (rel_init _) h
    obtain ⟨s', h2, _, hd⟩ := step_rel names R op hs
    exact ⟨s1, s', outs, _, h1, h2, R.disj, hd⟩
  intro ops
  induction ops with
  | nil => intro s a left R h; exact ⟨s, a, left, [], rfl, R, h.1⟩
  | cons o ops ih =>
    intro s a left R h
    obtain ⟨s', h1, R', _⟩ := step_rel names R o h.1
    obtain ⟨s1, a1, l1, outs, h2, R2, hs⟩ := ih s' _ _ R' h.2
    exact ⟨s1, a1, l1, _, by simp only [bufRun, h1, h2]; rfl, R2, hs⟩

/-- A history with two buffers, wrap-around, a full buffer and an empty one. -/
def exOps : List BufOp :=
  [.create [1] 4 2 .ok, .create [2] 3 3 .ok, .send 0 [10, 11] 0, .send 0 [12, 13] 0, .send 0 [1, 2] 0, .receive 0 0,
    .send 0 [14, 15] 0, .send 1 [7, 8, 9] 5, .receive 0 0, .receive 0 0, .receive 0 3, .receive 1 0, .send 5 [1] 0]

theorem exSane : AllSane 2 (lookup [[1], [2]]) DATA (fun _ => none) exOps := by
  refine ⟨⟨by omega, ⟨2, by omega, by omega⟩, by decide⟩, ⟨by omega, ⟨1, by omega, by omega⟩, by decide⟩, ⟨by decide, ?_⟩,
    ⟨by decide, ?_⟩, ⟨by decide, ?_⟩, by simp [Sane], ⟨by decide, ?_⟩, ⟨by decide, ?_⟩, by simp [Sane], by simp [Sane],
    by simp [Sane], by simp [Sane], ⟨by decide, ?_⟩, trivial⟩ <;>
  · intro b hb
    cases hb <;> rfl

example : ∃ s, bufRun [[1], [2]] {} exOps = some (s, [⟨.done .ok, some 0, []⟩, ⟨.done .ok, some 1, []⟩,
    ⟨.done .ok, none, []⟩, ⟨.done .ok, none, []⟩, ⟨.done .full, none, []⟩, ⟨.done .ok, none, [10, 11]⟩,
    ⟨.done .ok, none, []⟩, ⟨.done .ok, none, []⟩, ⟨.done .ok, none, [12, 13]⟩, ⟨.done .ok, none, [14, 15]⟩,
    ⟨.waits, none, []⟩, ⟨.done .ok, none, [7, 8, 9]⟩, ⟨.done .einval, none, []⟩]) :=
  C41_fifo_partial [[1], [2]] exOps exSane

/-- **C41** fails for messages shorter than the message size: the code accepts them, and the receiver gets the
bytes of two messages in one, or bytes never sent. -/
theorem C41_short_violated :
    (bufRun [[1]] {} [.create [1] 4 2 .ok, .send 0 [10] 0, .send 0 [20] 0, .receive 0 0]).map (·.2.getD 3 ⟨.waits, none, []⟩) =
      some ⟨.done .ok, none, [10, 20]⟩ := by decide +kernel

/-- **C41** fails for messages longer than the message size: the code accepts them up to `size * msgsize` bytes, and
the message overwrites the storage of the next buffer, so that the receiver of that one gets a message nobody sent
to it. -/
theorem C41_long_violated :
    (bufRun [[1], [2]] {} [.create [1] 2 2 .ok, .create [2] 2 2 .ok, .send 1 [7, 8] 0, .send 0 [1, 2, 3, 4] 0, .receive 1 0]).map
      (·.2.getD 4 ⟨.waits, none, []⟩) = some ⟨.done .ok, none, [3, 4]⟩ := by decide +kernel

/-- **C41** fails for sizes that are not a multiple of the message size: a message that reaches the end of the
storage goes on in the storage of the next buffer. -/
theorem C41_geometry_violated :
    (bufRun [[1], [2]] {} [.create [1] 3 2 .ok, .create [2] 2 2 .ok, .send 1 [7, 8] 0, .send 0 [1, 2] 0, .send 0 [3, 4] 0, .receive 1 0]).map
      (·.2.getD 5 ⟨.waits, none, []⟩) = some ⟨.done .ok, none, [4, 8]⟩ := by decide +kernel

/-- **C41** fails when receiving from an empty buffer without waiting: the call never returns. -/
theorem C41_spin_violated (names : List (List Nat)) (s : Bufs) (id : Nat) (h : id < names.length)
    (hr : (s.B id).ready = true) (he : (s.B id).empty = true) :
    bufStep names s (.receive id 0) = some (s, ⟨.spins, none, []⟩) := by
  simp [bufStep, bufReceive, hr, he, Nat.not_lt.2 (Nat.le_of_lt h), Nat.ne_of_lt h]

example : ∃ s o, bufRun [[1]] {} [.create [1] 4 2 .ok] = some (s, o) ∧ (s.B 0).ready = true ∧ (s.B 0).empty = true :=
  ⟨_, _, rfl, rfl, rfl⟩

/-- **C41** fails for the number just after the last buffer: it passes the test of the code, which then accesses
beyond its table. -/
theorem C41_boundary_violated (names : List (List Nat)) (s : Bufs) (bs : List Nat) (t : Nat) :
    bufStep names s (.send names.length bs t) = none ∧ bufStep names s (.receive names.length t) = none := by
  simp [bufStep, bufSend, bufReceive]

end Pok.Mw
