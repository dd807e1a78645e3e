import Verif.Spec.Net
import Mathlib.Tactic.Common

/-!
Lemmas about the network driver.
-/

namespace Pok
namespace Net

open Spec.Net

/-! ### Queues -/

theorem copyOut_eq (data : Nat → Nat) : ∀ (n off : Nat), off < 20 →
    copyOut data off n = ((List.range n).map fun i => data ((off + i) % 20), (off + n) % 20) := by
  intro n
  induction n with
  | zero => intro off h; simp [copyOut, Nat.mod_eq_of_lt h]
  | succ n ih =>
    intro off h
    have h' : (off + 1) % QUEUE < 20 := Nat.mod_lt _ (by decide)
    simp only [copyOut]
    rw [ih _ h']
    simp only [QUEUE]
    rw [List.range_succ_eq_map, List.map_cons, List.map_map]
    congr 1
    · simp only [Nat.add_zero, Nat.mod_eq_of_lt h, List.cons.injEq, true_and]
      apply List.map_congr_left
      intro i _
      simp only [Function.comp]
      congr 1
      omega
    · omega

theorem copyIn_get (src : Nat → Nat) : ∀ (n : Nat) (data : Nat → Nat) (off i : Nat), off < 20 → n ≤ 20 →
    (∀ k, k < n → copyIn src data off i n ((off + k) % 20) = src (i + k)) ∧
    (∀ x, (∀ k, k < n → x ≠ (off + k) % 20) → copyIn src data off i n x = data x) := by
  intro n
  induction n with
  | zero => intro data off i _ _; exact ⟨by intro k hk; omega, by intro x _; rfl⟩
  | succ n ih =>
    intro data off i h hn
    have h' : (off + 1) % QUEUE < 20 := Nat.mod_lt _ (by decide)
    obtain ⟨h1, h2⟩ := ih (upd data off (src i)) ((off + 1) % QUEUE) (i + 1) h' (by omega)
    constructor
    · intro k hk
      simp only [copyIn]
      rcases Nat.eq_zero_or_pos k with hk0 | hk0
      · subst hk0
        rw [h2]
        · rw [Nat.add_zero, Nat.mod_eq_of_lt h, upd_same, Nat.add_zero]
        · intro k hk
          simp only [QUEUE]
          omega
      · obtain ⟨j, rfl⟩ : ∃ j, k = j + 1 := ⟨k - 1, by omega⟩
        have := h1 j (by omega)
        have e : ((off + 1) % QUEUE + j) % 20 = (off + (j + 1)) % 20 := by simp only [QUEUE]; omega
        rw [e] at this
        rw [this]
        congr 1
        omega
    · intro x hx
      simp only [copyIn]
      rw [h2, upd_other]
      · have := hx 0 (by omega)
        rw [Nat.add_zero, Nat.mod_eq_of_lt h] at this
        exact this
      · intro k hk
        have := hx (k + 1) (by omega)
        simp only [QUEUE]
        intro e
        apply this
        omega

theorem length_copyOut (data : Nat → Nat) : ∀ (n off : Nat), (copyOut data off n).1.length = n := by
  intro n
  induction n with
  | zero => intro off; rfl
  | succ n ih => intro off; simp only [copyOut, List.length_cons]; rw [ih]

theorem length_waiting (s : St) (p : Nat) : (waiting s p).length = (s.q p).len := length_copyOut _ _ _

/-- The queues are within their arrays. -/
def QOk (s : St) : Prop := ∀ p, (s.q p).len ≤ 20 ∧ (s.q p).off < 20

/-- Putting bytes behind those in a queue. -/
theorem copyIn_out (src data : Nat → Nat) (off len n : Nat) (ho : off < 20) (hl : len + n ≤ 20) :
    (copyOut (copyIn src data ((off + len) % QUEUE) 0 n) off (len + n)).1 =
      (copyOut data off len).1 ++ (List.range n).map src := by
  have hm : (off + len) % QUEUE < 20 := Nat.mod_lt _ (by decide)
  obtain ⟨h1, h2⟩ := copyIn_get src n data ((off + len) % QUEUE) 0 hm (by omega)
  rw [copyOut_eq _ _ _ ho, copyOut_eq _ _ _ ho]
  simp only
  rw [List.range_add, List.map_append, List.map_map]
  congr 1
  · apply List.map_congr_left
    intro i hi
    rw [List.mem_range] at hi
    apply h2
    intro k hk
    simp only [QUEUE]
    omega
  · apply List.map_congr_left
    intro i hi
    rw [List.mem_range] at hi
    have := h1 i hi
    simp only [Function.comp]
    rw [Nat.zero_add] at this
    rw [← this]
    congr 1
    simp only [QUEUE]
    omega

/-- Taking bytes from a queue. -/
theorem take_out (data : Nat → Nat) (off n m : Nat) (ho : off < 20) :
    (copyOut data off (n + m)).1 = (copyOut data off n).1 ++ (copyOut data (copyOut data off n).2 m).1 := by
  rw [copyOut_eq _ _ _ ho, copyOut_eq _ _ _ ho]
  simp only
  rw [copyOut_eq _ _ _ (Nat.mod_lt _ (by decide)), List.range_add, List.map_append, List.map_map]
  congr 1
  apply List.map_congr_left
  intro i _
  simp only [Function.comp]
  congr 1
  omega

theorem take_spec (s : St) (port len : Nat) (hq : QOk s) :
    QOk (take s port len) ∧ (take s port len).card = s.card ∧ (take s port len).mode = s.mode ∧
    ∀ p, (take s port len).out p ++ waiting (take s port len) p = s.out p ++ waiting s p := by
  obtain ⟨h1, h2⟩ := hq port
  refine ⟨?_, rfl, rfl, ?_⟩
  · intro p
    simp only [take]
    rw [upd_apply]
    split
    · constructor
      · show _ - _ ≤ 20; omega
      · show (copyOut _ _ _).2 < 20
        rw [copyOut_eq _ _ _ h2]
        exact Nat.mod_lt _ (by decide)
    · exact hq p
  · intro p
    by_cases e : p = port
    · subst e
      simp only [waiting, take, upd_same]
      have hs : (s.q p).len = (if len < (s.q p).len then len else (s.q p).len) +
          ((s.q p).len - if len < (s.q p).len then len else (s.q p).len) := by split <;> omega
      conv_rhs => rw [hs]
      rw [take_out _ _ _ _ h2, List.append_assoc]
    · simp only [waiting, take]
      rw [upd_other _ _ e, upd_other _ _ e]

/-! ### The ring -/

/-- Page `P` holds a short frame with message `m`. -/
def Page (k : Card) (P : Nat) (m : Msg) : Prop :=
  ∃ f, Carries f m ∧ f.length ≤ 252 ∧ k.mem (P * 256 + 1) = ringPage P 1 ∧
    k.mem (P * 256 + 2) + 256 * k.mem (P * 256 + 3) = f.length + 4 ∧ ∀ j, j < f.length → k.mem (P * 256 + 4 + j) = f.getD j 0

/-- The pages after the boundary hold `held`. -/
structure Ring (k : Card) (held : List Msg) : Prop where
  b1 : 71 ≤ k.bnry
  b2 : k.bnry ≤ 126
  len : held.length ≤ 55
  curr : k.curr = ringPage (k.bnry + 1) held.length
  page : ∀ i m, held[i]? = some m → Page k (ringPage (k.bnry + 1) i) m

theorem ringPage_eq (p k : Nat) : ringPage p k = if p + k < 128 then p + k else p + k - 56 := rfl

theorem store_eq (m : Nat → Nat) (p : Nat) (bs : List Nat) (x i : Nat)
    (hi : i = if p * 256 ≤ x then x - p * 256 else x + 14336 - p * 256) : Card.store m p bs x =
      if 18432 ≤ x ∧ x < 32768 ∧ i < bs.length then bs.getD i 0 else m x := by
  subst hi
  unfold Card.store
  rw [show (STOP - FIRST) * 256 = 14336 from rfl, show FIRST * 256 = 18432 from rfl, show STOP * 256 = 32768 from rfl]

theorem Ring.bounds {k : Card} {held : List Msg} (h : Ring k held) : 72 ≤ k.curr ∧ k.curr < 128 := by
  have h1 := h.curr; have h2 := h.b1; have h3 := h.b2; have h4 := h.len
  rw [h1]; unfold ringPage STOP FIRST
  split <;> omega

theorem Ring.free {k : Card} {held : List Msg} (h : Ring k held) : k.free = 55 - held.length := by
  have h1 := h.curr; have h2 := h.b1; have h3 := h.b2; have h4 := h.len
  unfold Card.free
  rw [h1]; unfold ringPage STOP FIRST
  split <;> split <;> omega

theorem Ring.last {k : Card} {held : List Msg} (h : Ring k held) (hc : k.curr ≠ 72) :
    last k = decide (held.length = 1) := by
  have h1 := h.curr; have h2 := h.b1; have h3 := h.b2; have h4 := h.len; have h5 := h.bounds
  unfold Net.last
  rw [Bool.eq_iff_iff]
  simp only [beq_iff_eq, decide_eq_true_eq]
  rw [ringPage_eq] at h1
  rw [show STOP = 128 from rfl]
  split at h1 <;> omega

/-- The loop does not end at the first page. -/
theorem Ring.last_first {k : Card} {held : List Msg} (h : Ring k held) (hc : k.curr = 72) : Net.last k = false := by
  have h1 := h.curr; have h2 := h.b1; have h3 := h.b2; have h4 := h.len; have h5 := h.bounds
  unfold Net.last
  rw [Bool.eq_false_iff]
  simp only [ne_eq, beq_iff_eq]
  rw [show STOP = 128 from rfl]
  omega

/-- Memory of other pages does not change when a short frame arrives. -/
theorem arrive_other (k : Card) (f : List Nat) (hf : f.length ≤ 252) (hc1 : 72 ≤ k.curr) (hc2 : k.curr < 128) (x : Nat)
    (hx : x < k.curr * 256 ∨ k.curr * 256 + 256 ≤ x) : (k.arrive f).mem x = k.mem x := by
  unfold Card.arrive
  split
  · show Card.store _ _ _ _ = _
    rw [store_eq _ _ _ _ _ rfl, if_neg]
    simp only [List.length_append, List.length_cons, List.length_nil]
    intro hh
    split at hh <;> omega
  · rfl

theorem Page.arrive {k : Card} {P : Nat} {m : Msg} (h : Page k P m) (f : List Nat) (hf : f.length ≤ 252)
    (hc1 : 72 ≤ k.curr) (hc2 : k.curr < 128) (hP : P ≠ k.curr) : Page (k.arrive f) P m := by
  obtain ⟨g, h1, h2, h3, h4, h5⟩ := h
  refine ⟨g, h1, h2, ?_, ?_, ?_⟩
  · rw [arrive_other k f hf hc1 hc2 _ (by omega)]; exact h3
  · rw [arrive_other k f hf hc1 hc2 _ (by omega), arrive_other k f hf hc1 hc2 _ (by omega)]; exact h4
  · intro j hj
    rw [arrive_other k f hf hc1 hc2 _ (by omega)]; exact h5 j hj

theorem pagesOf_one {n : Nat} (h : n ≤ 252) : pagesOf n = 1 := by unfold pagesOf; omega

/-- The page on which a short frame is stored. -/
theorem arrive_page (k : Card) (f : List Nat) (m : Msg) (hm : Carries f m) (hf : f.length ≤ 252) (hc1 : 72 ≤ k.curr)
    (hc2 : k.curr < 128) (hr : 1 ≤ k.free) : Page (k.arrive f) k.curr m := by
  have hst : ∀ j, j < f.length + 4 → (k.arrive f).mem (k.curr * 256 + j) =
      ([1, ringPage k.curr 1, (f.length + 4) % 256, (f.length + 4) / 256] ++ f).getD j 0 := by
    intro j hj
    unfold Card.arrive
    rw [pagesOf_one hf, if_pos hr]
    show Card.store _ _ _ _ = _
    rw [store_eq _ _ _ _ j (by rw [if_pos (by omega)]; omega), if_pos]
    simp only [List.length_append, List.length_cons, List.length_nil]
    omega
  refine ⟨f, hm, hf, ?_, ?_, ?_⟩
  · rw [hst 1 (by omega)]; rfl
  · rw [hst 2 (by omega), hst 3 (by omega)]
    show (f.length + 4) % 256 + 256 * ((f.length + 4) / 256) = _
    omega
  · intro j hj
    rw [Nat.add_assoc, hst (4 + j) (by omega), List.getD_eq_getElem?_getD, List.getD_eq_getElem?_getD,
      List.getElem?_append_right (by simp)]
    simp

theorem Ring.arrive {k : Card} {held : List Msg} (h : Ring k held) (f : List Nat) (m : Msg) (hm : Carries f m)
    (hf : f.length ≤ 252) : (held.length = 55 ∧ k.arrive f = k) ∨
      (held.length < 55 ∧ Ring (k.arrive f) (held ++ [m]) ∧ (k.arrive f).prx = true) := by
  have hb := h.bounds
  have hfr := h.free
  by_cases hh : held.length = 55
  · left
    refine ⟨hh, ?_⟩
    unfold Card.arrive
    rw [pagesOf_one hf, if_neg (by omega)]
  · right
    have hl : held.length < 55 := by have := h.len; omega
    have hbn : (k.arrive f).bnry = k.bnry := by unfold Card.arrive; split <;> rfl
    refine ⟨hl, ⟨?_, ?_, ?_, ?_, ?_⟩, ?_⟩
    · rw [hbn]; exact h.b1
    · rw [hbn]; exact h.b2
    · simp only [List.length_append, List.length_cons, List.length_nil]; omega
    · rw [hbn]
      have h1 := h.curr; have h2 := h.b1; have h3 := h.b2
      unfold Card.arrive
      rw [pagesOf_one hf, if_pos (by omega)]
      simp only [List.length_append, List.length_cons, List.length_nil]
      rw [h1]
      unfold ringPage STOP FIRST
      split <;> split <;> split <;> omega
    · intro i m' hi
      rw [hbn]
      by_cases hil : i < held.length
      · rw [List.getElem?_append_left hil] at hi
        apply (h.page i m' hi).arrive f hf hb.1 hb.2
        have h1 := h.curr; have h2 := h.b1; have h3 := h.b2
        rw [h1]
        unfold ringPage STOP FIRST
        split <;> split <;> omega
      · have hil' : held.length ≤ i := by omega
        rw [List.getElem?_append_right hil'] at hi
        have hi0 : i - held.length = 0 := by
          rcases Nat.eq_zero_or_pos (i - held.length) with e | e
          · exact e
          · rw [List.getElem?_eq_none (by simp; omega)] at hi; cases hi
        rw [hi0] at hi
        simp only [List.getElem?_cons_zero, Option.some.injEq] at hi
        subst hi
        have : i = held.length := by omega
        rw [this, ← h.curr]
        exact arrive_page k f m hm hf hb.1 hb.2 (by omega)
    · unfold Card.arrive
      rw [pagesOf_one hf, if_pos (by omega)]

/-! ### One round -/

theorem ringAddr_lt {a : Nat} (h : a < 128 * 256) : ringAddr a = a := by unfold ringAddr STOP; rw [if_pos h]

/-- What a packet in the buffer of the driver says. -/
structure Holds (p : Nat → Nat) (m : Msg) : Prop where
  dst : pktDst p = m.dst
  len : pktLen p = m.data.length
  data : (List.range m.data.length).map (pktData p) = m.data

theorem fetch_page {s : St} {m : Msg} (h1 : 71 ≤ s.card.bnry) (h2 : s.card.bnry ≤ 126)
    (h : Page s.card (s.card.bnry + 1) m) : ∃ p, fetch s = some { s with pkt := p } ∧ Holds p m ∧
      hdrNext s.card = ringPage (s.card.bnry + 1) 1 := by
  obtain ⟨f, hm, hf, hn, hs, hd⟩ := h
  have e1 : (s.card.bnry + 1) % 256 = s.card.bnry + 1 := Nat.mod_eq_of_lt (by omega)
  have d : ∀ i, i < 256 → s.card.dma ((s.card.bnry + 1) * 256) i = s.card.mem ((s.card.bnry + 1) * 256 + i) := by
    intro i hi
    unfold Card.dma
    rw [ringAddr_lt (by omega)]
  have d4 : ∀ i, i < 252 → s.card.dma ((s.card.bnry + 1) * 256 + 4) i = s.card.mem ((s.card.bnry + 1) * 256 + 4 + i) := by
    intro i hi
    unfold Card.dma
    rw [ringAddr_lt (by omega)]
  have hnx : hdrNext s.card = ringPage (s.card.bnry + 1) 1 := by
    unfold hdrNext
    rw [e1, d 1 (by omega), hn]
  have hcount : (s.card.dma ((s.card.bnry + 1) * 256) 2 + 256 * s.card.dma ((s.card.bnry + 1) * 256) 3 + 65532) % 65536 =
      f.length := by
    rw [d 2 (by omega), d 3 (by omega), hs]
    omega
  refine ⟨fun i => if i < f.length then f.getD i 0 else s.pkt i, ?_, ?_, hnx⟩
  · unfold fetch
    simp only [e1]
    rw [hcount, if_pos (by unfold PACKET; omega)]
    have : (fun i => if i < f.length then s.card.dma (((s.card.bnry + 1) * 256 + 4) % 65536) i else s.pkt i) =
        fun i => if i < f.length then f.getD i 0 else s.pkt i := ?_
    · rw [this]
    funext i
    by_cases hi : i < f.length
    · rw [if_pos hi, if_pos hi, Nat.mod_eq_of_lt (by omega), d4 i (by omega), hd i hi]
    · rw [if_neg hi, if_neg hi]
  · have hr := hm.room
    refine ⟨?_, ?_, ?_⟩
    · simp only [pktDst, u16]
      rw [if_pos (by omega), if_pos (by omega)]
      exact hm.dst
    · simp only [pktLen, u16]
      rw [if_pos (by omega), if_pos (by omega)]
      exact hm.len
    · have hdat := hm.data
      apply List.ext_getElem
      · simp
      · intro i h1 h2
        simp only [List.getElem_map, List.getElem_range, pktData]
        rw [if_pos (by omega)]
        have : m.data[i]? = ((f.drop 22).take m.data.length)[i]? := by rw [hdat]
        rw [List.getElem?_take_of_lt h2, List.getElem?_drop, List.getElem?_eq_getElem h2] at this
        rw [List.getD_eq_getElem?_getD, ← this]
        rfl

/-- A message for a port of this node is put in its queue if there is room. -/
theorem enqueue_spec (c : Cfg) (s : St) (m : Msg) (hp : Holds s.pkt m) (hu : ForUs c m) (hq : QOk s)
    (hl : m.data.length < 65536) :
    ∃ t, enqueue c s = some t ∧ QOk t ∧ t.card = s.card ∧ t.mode = s.mode ∧ t.out = s.out ∧
      waiting t = accept c (waiting s) m := by
  obtain ⟨hu1, hu2, hu3⟩ := hu
  have hqq := hq (c.toLocal m.dst)
  unfold enqueue
  rw [hp.dst, if_pos hu1]
  simp only
  rw [if_pos hu2, hp.len]
  have hmod : ((s.q (c.toLocal m.dst)).len + m.data.length) % 2 ^ 32 = (s.q (c.toLocal m.dst)).len + m.data.length :=
    Nat.mod_eq_of_lt (by omega)
  rw [hmod, show QUEUE = 20 from rfl]
  by_cases hr : (s.q (c.toLocal m.dst)).len + m.data.length > 20
  · rw [if_pos hr]
    refine ⟨s, rfl, hq, rfl, rfl, rfl, ?_⟩
    unfold accept
    rw [length_waiting, if_neg (by omega)]
  · rw [if_neg hr]
    refine ⟨_, rfl, ?_, rfl, rfl, rfl, ?_⟩
    · intro p
      show (upd s.q _ _ p).len ≤ 20 ∧ (upd s.q _ _ p).off < 20
      rw [upd_apply]
      split
      · exact ⟨by show _ + _ ≤ 20; omega, hqq.2⟩
      · exact hq p
    · unfold accept
      rw [length_waiting, if_pos (by omega)]
      funext p
      by_cases e : p = c.toLocal m.dst
      · subst e
        simp only [waiting, upd_same]
        have := copyIn_out (pktData s.pkt) (s.q (c.toLocal m.dst)).data (s.q (c.toLocal m.dst)).off
          (s.q (c.toLocal m.dst)).len m.data.length hqq.2 (by omega)
        simp only [QUEUE] at this
        rw [this, hp.data]
      · rw [upd_other _ _ e]
        simp only [waiting]
        rw [upd_other _ _ e]

/-- The boundary after a round. -/
theorem Ring.giveBack {k : Card} {m : Msg} {held : List Msg} (h : Ring k (m :: held)) :
    Ring (Net.giveBack k (ringPage (k.bnry + 1) 1)) held := by
  have h1 := h.curr; have h2 := h.b1; have h3 := h.b2; have h4 := h.len
  simp only [List.length_cons] at h1 h4
  have hb : (Net.giveBack k (ringPage (k.bnry + 1) 1)).bnry = if k.bnry = 126 then 71 else k.bnry + 1 := by
    show (if ringPage (k.bnry + 1) 1 > 128 then 71 else ringPage (k.bnry + 1) 1 - 1) % 256 = _
    rw [ringPage_eq]
    by_cases e : k.bnry = 126
    · rw [if_neg (by omega : ¬ k.bnry + 1 + 1 < 128), if_neg (by omega), if_pos e]; omega
    · rw [if_pos (by omega : k.bnry + 1 + 1 < 128), if_neg (by omega), if_neg e]; omega
  refine ⟨?_, ?_, by omega, ?_, ?_⟩
  · rw [hb]; split <;> omega
  · rw [hb]; split <;> omega
  · rw [hb]
    show k.curr = _
    rw [h1]
    unfold ringPage STOP FIRST
    split <;> split <;> split <;> omega
  · intro i m' hi
    have := h.page (i + 1) m' (by rw [List.getElem?_cons_succ]; exact hi)
    rw [hb]
    have hil : i < held.length := by
      rw [List.getElem?_eq_some_iff] at hi
      exact hi.1
    have e : ringPage ((if k.bnry = 126 then 71 else k.bnry + 1) + 1) i = ringPage (k.bnry + 1) (i + 1) := by
      unfold ringPage STOP FIRST
      split <;> split <;> split <;> omega
    rw [e]
    exact this

theorem carries_of_page {k : Card} {P : Nat} {m : Msg} (h : Page k P m) : m.data.length < 65536 := by
  obtain ⟨f, hm, hf, _⟩ := h
  have := hm.room
  omega

/-- The part of a round after the test, for a message of this node. -/
theorem body_spec (c : Cfg) (s : St) (m : Msg) (held : List Msg) (hr : Ring s.card (m :: held)) (hu : ForUs c m)
    (hq : QOk s) : ∃ p t, fetch s = some { s with pkt := p } ∧ pktDst p = m.dst ∧
      enqueue c { s with pkt := p } = some t ∧
      QOk t ∧ t.mode = s.mode ∧ t.out = s.out ∧ waiting t = accept c (waiting s) m ∧
      Ring (Net.giveBack t.card (hdrNext s.card)) held ∧ (Net.giveBack t.card (hdrNext s.card)).mem = s.card.mem ∧
      (Net.giveBack t.card (hdrNext s.card)).curr = s.card.curr ∧
      (Net.giveBack t.card (hdrNext s.card)).prx = s.card.prx := by
  have hpg : Page s.card (s.card.bnry + 1) m := by
    have := hr.page 0 m rfl
    have e : ringPage (s.card.bnry + 1) 0 = s.card.bnry + 1 := by
      have := hr.b2; unfold ringPage STOP; rw [if_pos (by omega), Nat.add_zero]
    rwa [e] at this
  obtain ⟨p, h1, h2, h3⟩ := fetch_page hr.b1 hr.b2 hpg
  obtain ⟨t, g1, g2, g3, g4, g5, g6⟩ := enqueue_spec c { s with pkt := p } m h2 hu hq (carries_of_page hpg)
  refine ⟨p, t, h1, h2.dst, g1, g2, g4, g5, g6, ?_, ?_, ?_, ?_⟩
  · rw [g3, h3]; exact hr.giveBack
  · rw [g3]; rfl
  · rw [g3]; rfl
  · rw [g3]; rfl

/-! ### Histories -/

/-- What holds between two events, with the messages still in the ring. -/
structure Inv (c : Cfg) (s : St) (held : List Msg) : Prop where
  ring : Ring s.card held
  q : QOk s
  us : ∀ m, m ∈ held → ForUs c m
  prx : s.card.prx = true → held ≠ []
  mode : s.mode ≠ .idle → held ≠ []

/-- Which messages the bytes given out and waiting come from. -/
def Acc (c : Cfg) (s : St) (handed accepted : List Msg) : Prop :=
  accepted.Sublist handed ∧ ∀ p, s.out p ++ waiting s p = bytesFor c p accepted

theorem inv_start (c : Cfg) (mem pkt : Nat → Nat) : Inv c (start mem pkt) [] ∧ Acc c (start mem pkt) [] [] := by
  refine ⟨⟨⟨(by decide : 71 ≤ 72), (by decide : 72 ≤ 126), by decide, rfl, ?_⟩, ?_, ?_, ?_, ?_⟩, List.Sublist.refl _, ?_⟩
  · intro i m h; simp at h
  · intro p; exact ⟨(by decide : 0 ≤ 20), (by decide : 0 < 20)⟩
  · intro m h; cases h
  · intro h; cases h
  · intro h; exact absurd rfl h
  · intro p; rfl

theorem ring_prx {k : Card} {held : List Msg} (h : Ring k held) (b : Bool) : Ring { k with prx := b } held :=
  ⟨h.b1, h.b2, h.len, h.curr, h.page⟩

/-- The end of `rtl8029_poll_and_read`. -/
theorem readPart_spec (c : Cfg) (s s' : St) (port len : Nat) (held handed accepted : List Msg) (hr : Ring s.card held)
    (hq : QOk s) (hu : ∀ m, m ∈ held → ForUs c m) (hp : s.card.prx = true → held ≠ []) (ha : Acc c s handed accepted)
    (h : readPart c s port len = some s') : Inv c s' held ∧ Acc c s' handed accepted := by
  unfold readPart at h
  split at h
  · split at h
    · simp only [Option.some.injEq] at h
      subst h
      exact ⟨⟨ring_prx hr _, hq, hu, (fun h => by cases h), fun h => absurd rfl h⟩, ha⟩
    · split at h
      · simp only [Option.some.injEq] at h
        subst h
        exact ⟨⟨hr, hq, hu, hp, by intro h; exact absurd rfl h⟩, ha⟩
      · simp only [Option.some.injEq] at h
        obtain ⟨t1, t2, t3, t4⟩ := take_spec s port len hq
        subst h
        refine ⟨⟨?_, t1, hu, ?_, by intro h; exact absurd rfl h⟩, ha.1, ?_⟩
        · have : Ring (take s port len).card held := by rw [t2]; exact hr
          exact ring_prx this _
        · intro h
          apply hp
          simp only at h
          split at h
          · cases h
          · rw [t2] at h; exact h
        · intro p
          rw [← ha.2 p]
          exact t4 p
  · cases h

theorem acc_accept {c : Cfg} {s t : St} {handed accepted : List Msg} {m : Msg} (ha : Acc c s handed accepted)
    (ho : t.out = s.out) (hw : waiting t = accept c (waiting s) m) :
    ∃ accepted', Acc c t (handed ++ [m]) accepted' := by
  unfold accept at hw
  split at hw
  · refine ⟨accepted ++ [m], ha.1.append (List.Sublist.refl _), ?_⟩
    intro p
    rw [ho, hw]
    unfold bytesFor
    rw [List.filter_append, List.flatMap_append]
    have := ha.2 p
    unfold bytesFor at this
    rw [← this, List.append_assoc]
    congr 1
    by_cases e : p = c.toLocal m.dst
    · subst e
      simp
    · rw [upd_other _ _ e]
      have e' : (c.toLocal m.dst == p) = false := by rw [beq_eq_false_iff_ne]; exact fun h => e h.symm
      simp [e']
  · refine ⟨accepted, ha.1.trans (List.sublist_append_left _ _), ?_⟩
    intro p
    rw [ho, hw]
    exact ha.2 p

/-- One event keeps the invariant. -/
theorem inv_step (c : Cfg) (s s' : St) (e : Ev) (held handed accepted new : List Msg) (hi : Inv c s held)
    (ha : Acc c s handed accepted) (hn : Arrivals c [e] new) (hs : step c s e = some s')
    (hc : e = .round → s.card.curr ≠ 72) :
    ∃ held' handed' accepted', Inv c s' held' ∧ Acc c s' handed' accepted' ∧
      (handed' ++ held').Sublist (handed ++ held ++ new) := by
  cases e with
  | arrive f =>
    cases hn with
    | arrive hm hf hu hr =>
      rename_i m ms
      cases hr
      simp only [step, Option.some.injEq] at hs
      subst hs
      rcases hi.ring.arrive f m hm hf with ⟨h1, h2⟩ | ⟨h1, h2, h3⟩
      · refine ⟨held, handed, accepted, ?_, ha, List.sublist_append_left _ _⟩
        rw [h2]; exact hi
      · refine ⟨held ++ [m], handed, accepted, ⟨h2, hi.q, ?_, ?_, ?_⟩, ha, ?_⟩
        · intro m' hm'
          rcases List.mem_append.1 hm' with h | h
          · exact hi.us m' h
          · rw [List.mem_singleton] at h; subst h; exact hu
        · intro _; simp
        · intro _; simp
        · rw [List.append_assoc]
  | poll =>
    cases hn with
    | poll hr =>
    cases hr
    simp only [step] at hs
    split at hs
    · split at hs
      · rename_i hp
        simp only [Option.some.injEq] at hs
        subst hs
        exact ⟨held, handed, accepted, ⟨hi.ring, hi.q, hi.us, hi.prx, fun _ => hi.prx hp⟩, ha, by simp⟩
      · simp only [Option.some.injEq] at hs
        subst hs
        exact ⟨held, handed, accepted, hi, ha, by simp⟩
    · cases hs
  | pollRead port len =>
    cases hn with
    | pollRead _ _ hr =>
    cases hr
    simp only [step] at hs
    split at hs
    · split at hs
      · rename_i hp
        simp only [Option.some.injEq] at hs
        subst hs
        exact ⟨held, handed, accepted, ⟨hi.ring, hi.q, hi.us, hi.prx, fun _ => hi.prx hp⟩, ha, by simp⟩
      · obtain ⟨h1, h2⟩ := readPart_spec c s s' port len held handed accepted hi.ring hi.q hi.us hi.prx ha hs
        exact ⟨held, handed, accepted, h1, h2, by simp⟩
    · cases hs
  | read port len =>
    cases hn with
    | read _ _ hr =>
    cases hr
    simp only [step] at hs
    split at hs
    · rename_i hm
      unfold read at hs
      split at hs
      · split at hs
        · simp only [Option.some.injEq] at hs
          subst hs
          exact ⟨held, handed, accepted, hi, ha, by simp⟩
        · simp only [Option.some.injEq] at hs
          obtain ⟨t1, t2, t3, t4⟩ := take_spec s port len hi.q
          subst hs
          refine ⟨held, handed, accepted, ⟨?_, t1, hi.us, ?_, ?_⟩, ⟨ha.1, ?_⟩, by simp⟩
          · rw [t2]; exact hi.ring
          · rw [t2]; exact hi.prx
          · rw [t3]; exact hi.mode
          · intro p; rw [← ha.2 p]; exact t4 p
      · cases hs
    · cases hs
  | round =>
    cases hn with
    | round hr =>
    cases hr
    have hc := hc rfl
    have hlast := hi.ring.last hc
    simp only [step] at hs
    split at hs
    · cases hs
    · rename_i hmode
      unfold roundPoll at hs
      by_cases h1 : held.length = 1
      · rw [hlast, decide_eq_true h1, if_pos rfl] at hs
        simp only [Option.some.injEq] at hs
        subst hs
        exact ⟨held, handed, accepted, ⟨ring_prx hi.ring _, hi.q, hi.us, (fun h => by cases h),
          fun h => absurd rfl h⟩, ha, by simp⟩
      · rw [hlast, decide_eq_false h1, if_neg (by simp)] at hs
        obtain ⟨m, rest, rfl⟩ : ∃ m rest, held = m :: rest := by
          cases held with
          | nil => exact absurd rfl (hi.mode (by rw [hmode]; intro h; cases h))
          | cons m rest => exact ⟨m, rest, rfl⟩
        obtain ⟨p, t, b1, b2, b3, b4, b5, b6, b7, b8, b9, b10, b11⟩ :=
          body_spec c s m rest hi.ring (hi.us m (by simp)) hi.q
        rw [b1] at hs
        simp only [Option.bind_some, b3, Option.map_some, Option.some.injEq] at hs
        subst hs
        have hne : rest ≠ [] := by intro h; subst h; exact h1 rfl
        obtain ⟨acc', ha'⟩ := acc_accept ha b6 b7
        exact ⟨rest, handed ++ [m], acc', ⟨b8, b4, fun m' h => hi.us m' (by simp [h]), fun _ => hne, fun _ => hne⟩, ha',
          by simp⟩
    · rename_i port len hmode
      unfold roundPollRead at hs
      by_cases h1 : held.length = 1
      · rw [hlast, decide_eq_true h1, if_pos rfl] at hs
        obtain ⟨g1, g2⟩ := readPart_spec c s s' port len held handed accepted hi.ring hi.q hi.us hi.prx ha hs
        exact ⟨held, handed, accepted, g1, g2, by simp⟩
      · rw [hlast, decide_eq_false h1, if_neg (by simp)] at hs
        obtain ⟨m, rest, rfl⟩ : ∃ m rest, held = m :: rest := by
          cases held with
          | nil => exact absurd rfl (hi.mode (by rw [hmode]; intro h; cases h))
          | cons m rest => exact ⟨m, rest, rfl⟩
        have hum := hi.us m (by simp)
        obtain ⟨p, t, b1, b2, b3, b4, b5, b6, b7, b8, b9, b10, b11⟩ := body_spec c s m rest hi.ring hum hi.q
        rw [b1] at hs
        simp only [Option.bind_some, b2] at hs
        rw [if_pos hum.1, if_pos hum.2.2, b3] at hs
        simp only [Option.map_some, Option.some.injEq] at hs
        subst hs
        have hne : rest ≠ [] := by intro h; subst h; exact h1 rfl
        obtain ⟨acc', ha'⟩ := acc_accept ha b6 b7
        exact ⟨rest, handed ++ [m], acc', ⟨b8, b4, fun m' h => hi.us m' (by simp [h]), fun _ => hne, fun _ => hne⟩, ha',
          by simp⟩

theorem arrivals_cons {c : Cfg} {e : Ev} {es : List Ev} {ms : List Msg} (h : Arrivals c (e :: es) ms) :
    ∃ new ms', ms = new ++ ms' ∧ Arrivals c [e] new ∧ Arrivals c es ms' := by
  cases h with
  | arrive a b d e => exact ⟨[_], _, rfl, .arrive a b d .nil, e⟩
  | poll a => exact ⟨[], _, rfl, .poll .nil, a⟩
  | pollRead _ _ a => exact ⟨[], _, rfl, .pollRead _ _ .nil, a⟩
  | read _ _ a => exact ⟨[], _, rfl, .read _ _ .nil, a⟩
  | round a => exact ⟨[], _, rfl, .round .nil, a⟩

theorem inv_run (c : Cfg) : ∀ (es : List Ev) (s s' : St) (held handed accepted ms : List Msg), Inv c s held →
    Acc c s handed accepted → Arrivals c es ms → run c s es = some s' → NeverAtFirst c s es →
    ∃ held' handed' accepted', Inv c s' held' ∧ Acc c s' handed' accepted' ∧
      (handed' ++ held').Sublist (handed ++ held ++ ms) := by
  intro es
  induction es with
  | nil =>
    intro s s' held handed accepted ms hi ha hm hs _
    simp only [run, Option.some.injEq] at hs
    subst hs
    exact ⟨held, handed, accepted, hi, ha, List.sublist_append_left _ _⟩
  | cons e es ih =>
    intro s s' held handed accepted ms hi ha hm hs hc
    simp only [run, Option.bind_eq_some_iff] at hs
    obtain ⟨t, ht, hs⟩ := hs
    obtain ⟨new, ms', rfl, hn, hm'⟩ := arrivals_cons hm
    obtain ⟨held1, handed1, acc1, i1, a1, l1⟩ := inv_step c s t e held handed accepted new hi ha hn ht
      (by rintro rfl; exact hc [] es s rfl rfl)
    obtain ⟨held2, handed2, acc2, i2, a2, l2⟩ := ih t s' held1 handed1 acc1 ms' i1 a1 hm' hs (by
      intro pre post u he hu
      exact hc (e :: pre) post u (by rw [he]; rfl) (by simp only [run, ht, Option.bind_some]; exact hu))
    refine ⟨held2, handed2, acc2, i2, a2, l2.trans ?_⟩
    rw [← List.append_assoc]
    exact l1.append (List.Sublist.refl _)

/-! ### A poll -/

/-- A short frame for this node is on page `P`. -/
def Some (c : Cfg) (k : Card) (P : Nat) : Prop := ∃ m, ForUs c m ∧ Page k P m

/-- `n` short frames for this node have been stored in the ring of `k`, which becomes that of `k'`. -/
def Grows (c : Cfg) (k k' : Card) (n : Nat) : Prop :=
  (∀ P, Some c k P → Some c k' P) ∧ (∀ i, i < n → Some c k' (ringPage k.curr i)) ∧
  (∀ x, k.curr + n ≤ 128 → x < k.curr * 256 → k'.mem x = k.mem x)

/-- Frames that all fit in the ring. -/
theorem run_arrive (c : Cfg) : ∀ (fs : List (List Nat)) (ms : List Msg) (s : St) (held : List Msg), ShortFrames c fs ms →
    Ring s.card held → held.length + fs.length ≤ 55 →
    ∃ k, run c s (fs.map .arrive) = some { s with card := k } ∧ Ring k (held ++ ms) ∧
      (s.card.prx = true ∨ fs ≠ [] → k.prx = true) ∧ k.curr = ringPage s.card.curr fs.length ∧ Grows c s.card k fs.length := by
  intro fs
  induction fs with
  | nil =>
    intro ms s held hf hr hl
    cases hf
    refine ⟨s.card, rfl, by rw [List.append_nil]; exact hr, by simp, ?_, fun _ h => h, (fun i h => absurd h (by simp)),
      fun _ _ _ => rfl⟩
    have := hr.bounds
    rw [ringPage_eq, List.length_nil, if_pos (by omega), Nat.add_zero]
  | cons f fs ih =>
    intro ms s held hf hr hl
    cases hf with
    | cons h1 h2 =>
    rename_i m ms
    simp only [List.length_cons] at hl
    rcases hr.arrive f m h1.1 h1.2.1 with ⟨g1, g2⟩ | ⟨g1, g2, g3⟩
    · omega
    · obtain ⟨k, k1, k2, k3, k4, k5, k6, k7⟩ := ih ms { s with card := s.card.arrive f } (held ++ [m]) h2 g2 (by simp; omega)
      have hb := hr.bounds
      have hfr := hr.free
      have e1 : (s.card.arrive f).curr = ringPage s.card.curr 1 := by
        unfold Card.arrive
        rw [pagesOf_one h1.2.1, if_pos (by omega)]
      have hnew : Some c (s.card.arrive f) s.card.curr :=
        ⟨m, h1.2.2, arrive_page s.card f m h1.1 h1.2.1 hb.1 hb.2 (by omega)⟩
      refine ⟨k, ?_, by rw [List.append_assoc] at k2; exact k2, fun _ => k3 (Or.inl g3), ?_, ?_, ?_, ?_⟩
      · simp only [List.map_cons, run, step, Option.bind_some]
        exact k1
      · rw [k4]
        show ringPage (s.card.arrive f).curr _ = _
        rw [e1]
        simp only [ringPage_eq, List.length_cons]
        split <;> split <;> split <;> omega
      · rintro P ⟨m', hu', hp'⟩
        apply k5
        by_cases e : P = s.card.curr
        · rw [e]; exact hnew
        · exact ⟨m', hu', hp'.arrive f h1.2.1 hb.1 hb.2 e⟩
      · intro i hi
        simp only [List.length_cons] at hi
        cases i with
        | zero =>
          rw [ringPage_eq, if_pos (by omega), Nat.add_zero]
          exact k5 _ hnew
        | succ i =>
          have := k6 i (by omega)
          have e : ringPage s.card.curr (i + 1) = ringPage (s.card.arrive f).curr i := by
            rw [e1]
            simp only [ringPage_eq]
            split <;> split <;> split <;> omega
          rw [e]; exact this
      · intro x h2 h3
        simp only [List.length_cons] at h2
        by_cases hz : fs = []
        · subst hz
          simp only [List.map_nil, run, Option.some.injEq] at k1
          have : k = s.card.arrive f := by
            have := congrArg St.card k1
            exact this.symm
          rw [this]
          exact arrive_other s.card f h1.2.1 hb.1 hb.2 x (Or.inl h3)
        · have hpos : 0 < fs.length := List.length_pos_iff.2 hz
          have e2 : (s.card.arrive f).curr = s.card.curr + 1 := by rw [e1, ringPage_eq, if_pos (by omega)]
          have e3 : ({ s with card := s.card.arrive f } : St).card.curr = s.card.curr + 1 := e2
          have := k7 x (by rw [e3]; omega) (by rw [e3]; exact Nat.lt_of_lt_of_le h3 (Nat.mul_le_mul_right _ (Nat.le_succ _)))
          rw [this]
          exact arrive_other s.card f h1.2.1 hb.1 hb.2 x (Or.inl h3)

theorem grows_mem {c : Cfg} {k k' k'' : Card} {n : Nat} (h : Grows c k k' n) (hm : k''.mem = k'.mem) : Grows c k k'' n := by
  have hp : ∀ P, Some c k' P → Some c k'' P := by
    rintro P ⟨m, hu, f, h1, h2, h3, h4, h5⟩
    exact ⟨m, hu, f, h1, h2, by rw [hm]; exact h3, by rw [hm]; exact h4, by rw [hm]; exact h5⟩
  exact ⟨fun P hP => hp P (h.1 P hP), fun i hi => hp _ (h.2.1 i hi), fun x h1 h2 => by rw [hm]; exact h.2.2 x h1 h2⟩

/-- The rounds hand over all but the last message. -/
theorem run_rounds (c : Cfg) : ∀ (hs : List Msg) (s : St), Ring s.card hs → QOk s → (∀ m, m ∈ hs → ForUs c m) →
    s.mode = .poll → s.card.curr ≠ 72 → hs ≠ [] → ∃ s', run c s (List.replicate hs.length .round) = some s' ∧
      s'.mode = .idle ∧ s'.out = s.out ∧ waiting s' = hs.dropLast.foldl (accept c) (waiting s) ∧ s'.card.prx = false ∧
      s'.card.curr = s.card.curr ∧ QOk s' ∧ s'.card.mem = s.card.mem ∧ ∃ m, hs.getLast? = some m ∧ Ring s'.card [m] := by
  intro hs
  induction hs with
  | nil => intro s _ _ _ _ _ h; exact absurd rfl h
  | cons m rest ih =>
    intro s hr hq hu hm hc _
    have hlast := hr.last hc
    cases rest with
    | nil =>
      refine ⟨{ s with card := { s.card with prx := false }, mode := .idle }, ?_, rfl, rfl, rfl, rfl, rfl, hq, rfl, m, rfl,
        ring_prx hr _⟩
      show run c s [.round] = _
      simp only [run, step, hm, roundPoll, hlast]
      rfl
    | cons m2 rest =>
      obtain ⟨p, t, b1, b2, b3, b4, b5, b6, b7, b8, b9, b10, b11⟩ := body_spec c s m _ hr (hu m (by simp)) hq
      obtain ⟨s', r1, r2, r3, r4, r5, r6, r7, r9, r8⟩ := ih { t with card := giveBack t.card (hdrNext s.card) } b8 b4
        (fun m' h => hu m' (by simp [h])) (by rw [← hm]; exact b5) (by rw [← b10] at hc; exact hc) (by simp)
      refine ⟨s', ?_, r2, r3.trans b6, ?_, r5, r6.trans b10, r7, r9.trans b9, ?_⟩
      · show run c s (.round :: List.replicate (rest.length + 1) .round) = _
        simp only [run, step, hm, roundPoll, hlast, List.length_cons]
        rw [if_neg (by simp), b1]
        simp only [Option.bind_some, b3, Option.map_some]
        exact r1
      · rw [r4]
        show _ = List.foldl (accept c) (waiting s) (m :: (m2 :: rest).dropLast)
        rw [List.foldl_cons, ← b7]
        rfl
      · exact r8

/-- At the first page the rounds hand over all messages, and do not end. -/
theorem run_rounds_first (c : Cfg) : ∀ (hs : List Msg) (s : St), Ring s.card hs → QOk s → (∀ m, m ∈ hs → ForUs c m) →
    s.mode = .poll → s.card.curr = 72 → ∃ s', run c s (List.replicate hs.length .round) = some s' ∧
      s'.mode = .poll ∧ s'.out = s.out ∧ waiting s' = hs.foldl (accept c) (waiting s) ∧ s'.card.mem = s.card.mem ∧
      s'.card.curr = 72 ∧ QOk s' ∧ Ring s'.card [] := by
  intro hs
  induction hs with
  | nil => intro s hr hq _ hm hc; exact ⟨s, rfl, hm, rfl, rfl, rfl, hc, hq, hr⟩
  | cons m rest ih =>
    intro s hr hq hu hm hc
    have hlast := hr.last_first hc
    obtain ⟨p, t, b1, b2, b3, b4, b5, b6, b7, b8, b9, b10, b11⟩ := body_spec c s m _ hr (hu m (by simp)) hq
    obtain ⟨s', r1, r2, r3, r4, r5, r6, r7, r8⟩ := ih { t with card := giveBack t.card (hdrNext s.card) } b8 b4
      (fun m' h => hu m' (by simp [h])) (by rw [← hm]; exact b5) (by rw [← hc]; exact b10)
    refine ⟨s', ?_, r2, r3.trans b6, ?_, r5.trans b9, r6, r7, r8⟩
    · simp only [List.length_cons, List.replicate_succ, run, step, hm, roundPoll, hlast]
      rw [if_neg (by simp), b1]
      simp only [Option.bind_some, b3, Option.map_some]
      exact r1
    · rw [r4, List.foldl_cons, ← b7]
      rfl

theorem run_append (c : Cfg) : ∀ (es fs : List Ev) (s : St), run c s (es ++ fs) = (run c s es).bind fun t => run c t fs := by
  intro es
  induction es with
  | nil => intro fs s; rfl
  | cons e es ih =>
    intro fs s
    simp only [List.cons_append, run]
    cases step c s e with
    | none => rfl
    | some t => exact ih fs t

/-- A poll after some arrivals. -/
theorem run_batch (c : Cfg) (s : St) (held : List Msg) (hi : Inv c s held) (hm : s.mode = .idle) (fs : List (List Nat))
    (ms : List Msg) (hf : ShortFrames c fs ms) (hne : fs ≠ []) (hl : held.length + fs.length ≤ 55)
    (hc : s.card.curr + fs.length ≠ 128) : ∃ s', run c s (batch fs (held.length + fs.length)) = some s' ∧
      s'.mode = .idle ∧ s'.out = s.out ∧ waiting s' = (held ++ ms).dropLast.foldl (accept c) (waiting s) ∧
      s'.card.curr = ringPage s.card.curr fs.length ∧ s'.card.prx = false ∧ Grows c s.card s'.card fs.length ∧
      ∃ m, (held ++ ms).getLast? = some m ∧ Inv c s' [m] := by
  obtain ⟨k, k1, k2, k3, k4, k5⟩ := run_arrive c fs ms s held hf hi.ring hl
  have hb := hi.ring.bounds
  have hlen : fs.length = ms.length := hf.length_eq
  have hpos : 0 < fs.length := List.length_pos_iff.2 hne
  have hus : ∀ m, m ∈ held ++ ms → ForUs c m := by
    intro m hm'
    rcases List.mem_append.1 hm' with h | h
    · exact hi.us m h
    · obtain ⟨i, hi', rfl⟩ := List.mem_iff_getElem.1 h
      exact (List.forall₂_iff_get.1 hf).2 i (by omega) hi' |>.2.2
  obtain ⟨s', r1, r2, r3, r4, r5, r6, r7, r0, m, r8, r9⟩ := run_rounds c (held ++ ms) { s with card := k, mode := .poll } k2 hi.q hus rfl
    (by intro h; have h : k.curr = 72 := h; rw [k4, ringPage_eq] at h; split at h <;> omega)
    (by intro h; rw [List.append_eq_nil_iff] at h; rw [h.2] at hlen; exact hne (List.eq_nil_of_length_eq_zero hlen))
  refine ⟨s', ?_, r2, r3, r4, r6.trans k4, r5, grows_mem k5 r0, m, r8, r9, r7, ?_, ?_, ?_⟩
  · unfold batch
    rw [run_append, k1, Option.bind_some]
    simp only [run, step, hm, k3 (Or.inr hne), if_true, Option.bind_some]
    rw [← r1]
    congr 2
    rw [List.length_append, hlen]
  · intro m' h
    rw [List.mem_singleton] at h
    subst h
    exact hus m' (List.mem_of_getLast? r8)
  · intro _; simp
  · intro _; simp

/-! ### The first page -/

/-- When every page holds a frame and the card is at the first page, a round is followed by another one. -/
theorem round_full (c : Cfg) (s : St) (h1 : 71 ≤ s.card.bnry) (h2 : s.card.bnry ≤ 126) (hc : s.card.curr = 72)
    (hq : QOk s) (hp : ∀ P, 72 ≤ P → P < 128 → Some c s.card P) (hm : s.mode = .poll) :
    ∃ s', step c s .round = some s' ∧ 71 ≤ s'.card.bnry ∧ s'.card.bnry ≤ 126 ∧ s'.card.curr = 72 ∧ QOk s' ∧
      (∀ P, 72 ≤ P → P < 128 → Some c s'.card P) ∧ s'.mode = .poll := by
  obtain ⟨m, hu, hpg⟩ := hp (s.card.bnry + 1) (by omega) (by omega)
  obtain ⟨p, f1, f2, f3⟩ := fetch_page h1 h2 hpg
  obtain ⟨t, g1, g2, g3, g4, g5, g6⟩ := enqueue_spec c { s with pkt := p } m f2 hu hq (carries_of_page hpg)
  have hl : last s.card = false := by
    unfold Net.last
    rw [Bool.eq_false_iff]
    simp only [ne_eq, beq_iff_eq]
    rw [show STOP = 128 from rfl]
    omega
  have hb : (giveBack t.card (hdrNext s.card)).bnry = if s.card.bnry = 126 then 71 else s.card.bnry + 1 := by
    rw [f3]
    show (if ringPage (s.card.bnry + 1) 1 > 128 then 71 else ringPage (s.card.bnry + 1) 1 - 1) % 256 = _
    rw [ringPage_eq]
    by_cases e : s.card.bnry = 126
    · rw [if_neg (by omega : ¬ s.card.bnry + 1 + 1 < 128), if_neg (by omega), if_pos e]; omega
    · rw [if_pos (by omega : s.card.bnry + 1 + 1 < 128), if_neg (by omega), if_neg e]; omega
  have hmem : (giveBack t.card (hdrNext s.card)).mem = s.card.mem := by rw [g3]; rfl
  refine ⟨{ t with card := giveBack t.card (hdrNext s.card) }, ?_, ?_, ?_, ?_, g2, ?_, by rw [← hm]; exact g4⟩
  · simp only [step, hm, roundPoll, hl]
    rw [if_neg (by simp), f1]
    simp only [Option.bind_some, g1, Option.map_some]
  · show _ ≤ (giveBack t.card (hdrNext s.card)).bnry; rw [hb]; split <;> omega
  · show (giveBack t.card (hdrNext s.card)).bnry ≤ _; rw [hb]; split <;> omega
  · rw [← hc]; show t.card.curr = _; rw [g3]
  · intro P hP1 hP2
    obtain ⟨m', hu', f, q1, q2, q3, q4, q5⟩ := hp P hP1 hP2
    exact ⟨m', hu', f, q1, q2, by show (giveBack _ _).mem _ = _; rw [hmem]; exact q3,
      by show (giveBack _ _).mem _ + 256 * (giveBack _ _).mem _ = _; rw [hmem]; exact q4,
      by intro j hj; show (giveBack _ _).mem _ = _; rw [hmem]; exact q5 j hj⟩

theorem rounds_full (c : Cfg) : ∀ (n : Nat) (s : St), 71 ≤ s.card.bnry → s.card.bnry ≤ 126 → s.card.curr = 72 →
    QOk s → (∀ P, 72 ≤ P → P < 128 → Some c s.card P) → s.mode = .poll →
    ∃ s', run c s (List.replicate n .round) = some s' ∧ s'.mode = .poll := by
  intro n
  induction n with
  | zero => intro s _ _ _ _ _ h; exact ⟨s, rfl, h⟩
  | succ n ih =>
    intro s h1 h2 h3 h4 h5 h6
    obtain ⟨t, t0, t1, t2, t3, t4, t5, t6⟩ := round_full c s h1 h2 h3 h4 h5 h6
    obtain ⟨s', r1, r2⟩ := ih t t1 t2 t3 t4 t5 t6
    refine ⟨s', ?_, r2⟩
    rw [List.replicate_succ]
    simp only [run, t0, Option.bind_some]
    exact r1

end Net
end Pok
