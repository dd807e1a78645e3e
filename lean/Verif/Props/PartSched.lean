import Verif.Model.PartSched
import Verif.Spec.Schedule
import Mathlib.Data.List.Induction

/-!
# C01–C03: partition scheduling
-/

namespace Pok
open Pok.Spec

/-- The number of partition switches in a list of observations. -/
def switches (os : List PObs) : Nat := (os.filter (·.switched)).length

/-- All flushes, in order. -/
def flushCount (os : List PObs) : Nat := (os.map (fun o => o.flushes.length)).sum

/-- The clock does not run past `B`, the switches of `k` more windows do not overflow 64 bits. -/
def NoWrap (c : SlotTable) (k : Nat) : Prop := windowEnd c.slots c.nbSlots k < U64

theorem switches_cons (o : PObs) (os : List PObs) :
    switches (o :: os) = (if o.switched then 1 else 0) + switches os := by
  unfold switches; cases h : o.switched <;> simp [h]; omega

theorem electFlush_keeps (c : SlotTable) (s : PSched) (now : Nat) :
    (electFlush c s now).1.slot = s.slot ∧ (electFlush c s now).1.nextDeadline = s.nextDeadline ∧
    (electFlush c s now).1.part = s.part := by
  unfold electFlush
  split <;> (try split) <;> exact ⟨rfl, rfl, rfl⟩

theorem elect_switch {c : SlotTable} {s : PSched} {now : Nat} (h1 : 1 < c.nbParts)
    (h2 : s.nextDeadline ≤ now) :
    (electPartition c s now).1.slot = (s.slot + 1) % c.nbSlots ∧
    (electPartition c s now).1.nextDeadline = (s.nextDeadline + c.slots ((s.slot + 1) % c.nbSlots)) % U64 ∧
    (electPartition c s now).1.part = c.alloc ((s.slot + 1) % c.nbSlots) := by
  obtain ⟨k1, k2, k3⟩ := electFlush_keeps c s now
  unfold electPartition
  rw [if_neg (by omega), if_pos h2]
  simp only
  rw [k1, k2]
  exact ⟨rfl, rfl, rfl⟩

theorem elect_stay {c : SlotTable} {s : PSched} {now : Nat} (h : ¬ (1 < c.nbParts ∧ s.nextDeadline ≤ now)) :
    electPartition c s now = (s, []) := by
  unfold electPartition
  split
  · rfl
  · rw [if_neg (fun h' => h ⟨by omega, h'⟩)]

/-- State after `k` switches. -/
structure AtWindow (c : SlotTable) (s : PSched) (k : Nat) : Prop where
  slot : s.slot = k % c.nbSlots
  part : s.part = c.alloc (k % c.nbSlots)
  deadline : NoWrap c k → s.nextDeadline = windowEnd c.slots c.nbSlots k

theorem windowEnd_mono (d : Nat → Nat) (n : Nat) {i j : Nat} (h : i ≤ j) :
    windowEnd d n i ≤ windowEnd d n j := by
  induction h with
  | refl => exact Nat.le_refl _
  | step _ ih => exact Nat.le_trans ih (by simp [windowEnd])

theorem NoWrap.pred {c : SlotTable} {i j : Nat} (h : NoWrap c j) (hij : i ≤ j) : NoWrap c i :=
  Nat.lt_of_le_of_lt (windowEnd_mono _ _ hij) h

theorem init_atWindow (c : SlotTable) : AtWindow c (schedInit c) 0 :=
  ⟨by simp [schedInit], by simp [schedInit], fun _ => rfl⟩

theorem atWindow_step {c : SlotTable} {s : PSched} {k now : Nat} (h : AtWindow c s k) :
    AtWindow c (electPartition c s now).1
      (k + if decide (c.nbParts > 1 ∧ s.nextDeadline ≤ now) then 1 else 0) := by
  by_cases hc : c.nbParts > 1 ∧ s.nextDeadline ≤ now
  · obtain ⟨e1, e2, e3⟩ := elect_switch hc.1 hc.2
    have hs : (s.slot + 1) % c.nbSlots = (k + 1) % c.nbSlots := by
      rw [h.slot]; simp
    simp only [hc, and_self, decide_true, if_true]
    refine ⟨by rw [e1, hs], by rw [e3, hs], fun hw => ?_⟩
    rw [e2, hs, h.deadline (hw.pred (by omega))]
    exact Nat.mod_eq_of_lt hw
  · rw [elect_stay hc]
    simpa [hc] using h

theorem points_atWindow {c : SlotTable} {ts : List Nat} {s : PSched} {k : Nat} (h : AtWindow c s k) :
    AtWindow c (schedPoints c s ts).1 (k + switches (schedPoints c s ts).2) := by
  induction ts generalizing s k with
  | nil => simpa [schedPoints, switches] using h
  | cons t ts ih =>
    simp only [schedPoints, obsAt, switches_cons]
    have := ih (atWindow_step (now := t) h)
    simp only [Nat.add_assoc] at this
    exact this

theorem schedPoints_append (c : SlotTable) (s : PSched) (a b : List Nat) :
    schedPoints c s (a ++ b) =
      ((schedPoints c (schedPoints c s a).1 b).1,
        (schedPoints c s a).2 ++ (schedPoints c (schedPoints c s a).1 b).2) := by
  induction a generalizing s with
  | nil => simp [schedPoints]
  | cons t a ih => simp [schedPoints, ih]

theorem schedPoints_snoc (c : SlotTable) (s : PSched) (ts : List Nat) (t : Nat) :
    (schedPoints c s (ts ++ [t])).2 = (schedPoints c s ts).2 ++ [obsAt c (schedPoints c s ts).1 t] := by
  rw [schedPoints_append]; rfl

/-- **C01**: after any history of scheduling points since boot, the running partition is the one the slot
table allocates to the current slot, and the current slot is the number of switches so far, cyclically. -/
theorem C01_slot_order (c : SlotTable) (ts : List Nat) :
    let r := schedPoints c (schedInit c) ts
    r.1.part = c.alloc (switches r.2 % c.nbSlots) := by
  have := (points_atWindow (ts := ts) (init_atWindow c)).part
  simpa using this

/-- **C01**: the selection at each scheduling point of a history: the point either is not a switch and keeps
the partition, or goes to the partition of the next slot (no slot skipped, repeated or reordered). -/
theorem C01_next_slot (c : SlotTable) (ts : List Nat) (t : Nat) :
    let k := switches (schedPoints c (schedInit c) ts).2
    ∃ o, (schedPoints c (schedInit c) (ts ++ [t])).2 = (schedPoints c (schedInit c) ts).2 ++ [o] ∧
      o.part = c.alloc ((if o.switched then k + 1 else k) % c.nbSlots) := by
  intro k
  have h := points_atWindow (ts := ts) (init_atWindow c)
  refine ⟨_, schedPoints_snoc _ _ _ _, ?_⟩
  unfold obsAt
  have h2 := (atWindow_step (now := t) h).part
  simp only [Nat.zero_add] at h2
  simp only
  rw [h2]
  congr 2
  split <;> simp_all [k]

/-- **C02, no drift and no early preemption**: at every scheduling point of a history, a switch happens
exactly when the clock has reached the end of the current window, which is the sum of the configured
durations of the windows so far, whatever the lateness of the previous points. -/
theorem C02_no_drift (c : SlotTable) (ts : List Nat) (t : Nat) (hp : 1 < c.nbParts)
    (hw : NoWrap c (switches (schedPoints c (schedInit c) ts).2)) :
    ∃ o, (schedPoints c (schedInit c) (ts ++ [t])).2 = (schedPoints c (schedInit c) ts).2 ++ [o] ∧
      (o.switched = true ↔
        windowEnd c.slots c.nbSlots (switches (schedPoints c (schedInit c) ts).2) ≤ t) := by
  have h := points_atWindow (ts := ts) (init_atWindow c)
  refine ⟨_, schedPoints_snoc _ _ _ _, ?_⟩
  unfold obsAt
  simp only [Nat.zero_add] at h
  simp [h.deadline hw, hp]

/-- Consecutive clock readings are at most `m` apart (the first one at most `m` after `t0`) and do not go
back. -/
def Spaced (m : Nat) : Nat → List Nat → Prop
  | _, [] => True
  | t0, t :: ts => t0 ≤ t ∧ t ≤ t0 + m ∧ Spaced m t ts

/-- The last clock reading. -/
def lastTime (t0 : Nat) : List Nat → Nat
  | [] => t0
  | t :: ts => lastTime t ts

theorem punctual_aux {c : SlotTable} {m : Nat} (hp : 1 < c.nbParts) (hn : 0 < c.nbSlots)
    (hm : ∀ i < c.nbSlots, m ≤ c.slots i) :
    ∀ (ts : List Nat) (s : PSched) (k t0 : Nat), AtWindow c s k → InWindow c.slots c.nbSlots k t0 →
      Spaced m t0 ts → NoWrap c (k + switches (schedPoints c s ts).2) →
      InWindow c.slots c.nbSlots (k + switches (schedPoints c s ts).2) (lastTime t0 ts) := by
  intro ts
  induction ts with
  | nil => intro s k t0 _ hin _ _; simpa [schedPoints, switches, lastTime] using hin
  | cons t ts ih =>
    intro s k t0 hs hin hsp hw
    obtain ⟨h1, h2, h3⟩ := hsp
    simp only [schedPoints, obsAt, switches_cons, ← Nat.add_assoc] at hw ⊢
    have hs' := atWindow_step (now := t) hs
    refine ih _ _ _ hs' ?_ h3 hw
    by_cases hd : s.nextDeadline ≤ t
    · have e : decide (c.nbParts > 1 ∧ s.nextDeadline ≤ t) = true := by simp [hp, hd]
      simp only [e, if_true] at hw ⊢
      have hwk : NoWrap c k := hw.pred (by omega)
      refine ⟨?_, ?_⟩
      · show windowEnd c.slots c.nbSlots k ≤ t
        rw [← hs.deadline hwk]; exact hd
      · have := hm ((k + 1) % c.nbSlots) (Nat.mod_lt _ hn)
        have := hin.2
        simp only [windowEnd]
        omega
    · have e : decide (c.nbParts > 1 ∧ s.nextDeadline ≤ t) = false := by simp [hd]
      have hwk : NoWrap c k := hw.pred (by omega)
      simp only [e]
      rw [hs.deadline hwk] at hd
      exact ⟨Nat.le_trans hin.1 h1, by simpa using hd⟩

/-- **C02, punctuality**: if the scheduling points are never further apart than the shortest slot, the
partition running after the scheduling point at clock `t` is the one the cyclic table prescribes for
`t`: the one of the window containing `t`. -/
theorem C02_punctual (c : SlotTable) (ts : List Nat) (m : Nat) (hp : 1 < c.nbParts) (hn : 0 < c.nbSlots)
    (hpos : 0 < m) (hm : ∀ i < c.nbSlots, m ≤ c.slots i) (hsp : Spaced m 0 ts)
    (hw : NoWrap c (switches (schedPoints c (schedInit c) ts).2)) :
    ∃ k, InWindow c.slots c.nbSlots k (lastTime 0 ts) ∧
      (schedPoints c (schedInit c) ts).1.part = c.alloc (k % c.nbSlots) := by
  refine ⟨_, punctual_aux hp hn hm ts (schedInit c) 0 0 (init_atWindow c) ?_ hsp (by simpa using hw), ?_⟩
  · have := hm 0 hn
    exact ⟨by simp [windowStart], by simp [windowEnd]; omega⟩
  · have := C01_slot_order c ts
    simpa using this

/-- Windows do not overlap: at most one window contains an instant, so `C02_punctual` determines the
partition. -/
theorem C02_window_unique (d : Nat → Nat) (n i j t : Nat) (h1 : InWindow d n i t) (h2 : InWindow d n j t) :
    i = j := by
  have key : ∀ a b, a < b → InWindow d n a t → InWindow d n b t → False := by
    intro a b hab ha hb
    obtain ⟨b, rfl⟩ : ∃ b', b = b' + 1 := ⟨b - 1, by omega⟩
    have := windowEnd_mono d n (show a ≤ b by omega)
    have h3 := ha.2
    have h4 : windowEnd d n b ≤ t := hb.1
    omega
  rcases Nat.lt_trichotomy i j with h | h | h
  · exact (key _ _ h h1 h2).elim
  · exact h
  · exact (key _ _ h h2 h1).elim

/-! ### Flushing -/

/-- **C03, no flush between switches**, all policies. -/
theorem C03_only_at_switches (c : SlotTable) (s : PSched) (ts : List Nat) :
    ∀ o ∈ (schedPoints c s ts).2, o.switched = false → o.flushes = [] := by
  induction ts generalizing s with
  | nil => simp [schedPoints]
  | cons t ts ih =>
    intro o ho hsw
    simp only [schedPoints, List.mem_cons] at ho
    rcases ho with rfl | ho
    · have : ¬ (c.nbParts > 1 ∧ s.nextDeadline ≤ t) := by simpa [obsAt] using hsw
      simp [obsAt, elect_stay this]
    · exact ih _ o ho hsw

/-- **C03, windows policy**: a switch flushes exactly the partition whose window ends; it is the one that
was running before the scheduling point. -/
theorem C03_windows (c : SlotTable) (ts : List Nat) (t : Nat) (hf : c.flush = .windows) :
    ∃ o, (schedPoints c (schedInit c) (ts ++ [t])).2 = (schedPoints c (schedInit c) ts).2 ++ [o] ∧
      o.flushes = if o.switched then [.partition (schedPoints c (schedInit c) ts).1.part] else [] := by
  refine ⟨_, schedPoints_snoc _ _ _ _, ?_⟩
  unfold obsAt
  simp only
  by_cases hc : c.nbParts > 1 ∧ (schedPoints c (schedInit c) ts).1.nextDeadline ≤ t
  · simp only [hc, and_self, decide_true, if_true]
    unfold electPartition
    rw [if_neg (by omega), if_pos hc.2]
    simp [electFlush, hf]
  · rw [elect_stay hc]; simp [hc]

theorem flushCount_cons (o : PObs) (os : List PObs) :
    flushCount (o :: os) = o.flushes.length + flushCount os := by simp [flushCount]

theorem flushCount_append (a b : List PObs) : flushCount (a ++ b) = flushCount a + flushCount b := by
  simp [flushCount]

theorem major_aux {c : SlotTable} (hf : c.flush = .majorFrame) :
    ∀ (ts : List Nat) (s : PSched) (j : Nat), s.nextMajor = (j + 1) * c.majorFrame →
      (j + flushCount (schedPoints c s ts).2 + 1) * c.majorFrame < U64 →
      (schedPoints c s ts).1.nextMajor = (j + flushCount (schedPoints c s ts).2 + 1) * c.majorFrame := by
  intro ts
  induction ts with
  | nil => intro s j h _; simpa [schedPoints, flushCount] using h
  | cons t ts ih =>
    intro s j h hw
    simp only [schedPoints, obsAt, flushCount_cons, ← Nat.add_assoc] at hw ⊢
    have key : (electPartition c s t).1.nextMajor
        = (j + (electPartition c s t).2.length + 1) * c.majorFrame := by
      by_cases hc : c.nbParts > 1 ∧ s.nextDeadline ≤ t
      · by_cases hm : s.nextMajor ≤ t
        · have e : electFlush c s t
              = ({ s with nextMajor := (s.nextMajor + c.majorFrame) % U64 }, [.all]) := by
            simp [electFlush, hf, hm]
          have e2 : (electPartition c s t).2 = [.all] := by
            unfold electPartition
            rw [if_neg (by omega), if_pos hc.2, e]
          have e3 : (electPartition c s t).1.nextMajor = (s.nextMajor + c.majorFrame) % U64 := by
            unfold electPartition
            rw [if_neg (by omega), if_pos hc.2, e]
          rw [e3, e2, h]
          have e4 : (j + 1) * c.majorFrame + c.majorFrame = (j + 1 + 1) * c.majorFrame := by
            rw [Nat.succ_mul (j + 1)]
          rw [e4]
          simp only [List.length_cons, List.length_nil, Nat.zero_add]
          apply Nat.mod_eq_of_lt
          refine Nat.lt_of_le_of_lt ?_ hw
          apply Nat.mul_le_mul_right
          rw [e2]; simp
        · have e : electFlush c s t = (s, []) := by simp [electFlush, hf, hm]
          have e2 : (electPartition c s t).2 = [] := by
            unfold electPartition
            rw [if_neg (by omega), if_pos hc.2, e]
          have e3 : (electPartition c s t).1.nextMajor = s.nextMajor := by
            unfold electPartition
            rw [if_neg (by omega), if_pos hc.2, e]
          rw [e2, e3, h]; simp
      · rw [elect_stay hc]; simpa using h
    exact ih _ _ key hw

/-- **C03, default policy**: in every history, the next scheduling point flushes all ports exactly if it is a
switch and the clock has reached the boundary of the next major frame not yet flushed: boundary
`j + 1` when `j` flushes have happened.  In particular each boundary triggers at most one flush and no
flush happens before its boundary. -/
theorem C03_major_frame (c : SlotTable) (ts : List Nat) (t : Nat) (hf : c.flush = .majorFrame)
    (hw : (flushCount (schedPoints c (schedInit c) ts).2 + 1) * c.majorFrame < U64) :
    ∃ o, (schedPoints c (schedInit c) (ts ++ [t])).2 = (schedPoints c (schedInit c) ts).2 ++ [o] ∧
      o.flushes = if o.switched ∧
          (flushCount (schedPoints c (schedInit c) ts).2 + 1) * c.majorFrame ≤ t then [.all] else [] := by
  have h := major_aux hf ts (schedInit c) 0 (by simp [schedInit]) (by simpa using hw)
  simp only [Nat.zero_add] at h
  refine ⟨_, schedPoints_snoc _ _ _ _, ?_⟩
  unfold obsAt
  simp only
  generalize (schedPoints c (schedInit c) ts).1 = s at h ⊢
  by_cases hc : c.nbParts > 1 ∧ s.nextDeadline ≤ t
  · simp only [hc, and_self, decide_true, true_and]
    unfold electPartition
    rw [if_neg (by omega), if_pos hc.2]
    simp only [electFlush, hf, h]
    split <;> simp_all
  · rw [elect_stay hc]; simp [hc]

/-- **C03, default policy**: at most one flush per elapsed major frame. -/
theorem C03_major_frame_count (c : SlotTable) (ts : List Nat) (t : Nat) (hf : c.flush = .majorFrame)
    (hmono : List.Pairwise (· ≤ ·) (ts ++ [t])) (hb : ∀ x ∈ ts ++ [t], x + c.majorFrame < U64) :
    flushCount (schedPoints c (schedInit c) (ts ++ [t])).2 * c.majorFrame ≤ t := by
  induction ts using List.reverseRecOn generalizing t with
  | nil =>
    obtain ⟨o, h1, h2⟩ := C03_major_frame c [] t hf (by
      have := hb t (by simp); simp [schedPoints, flushCount]; omega)
    have e : flushCount [o] = o.flushes.length := by simp [flushCount]
    rw [h1, flushCount_append, e, h2]
    split
    · rename_i h; simpa [schedPoints, flushCount] using h.2
    · simp [schedPoints, flushCount]
  | append_singleton ts x ih =>
    have hx : x ≤ t := by
      rw [List.pairwise_append] at hmono
      exact hmono.2.2 x (by simp) t (by simp)
    have hprev := ih x (List.pairwise_append.1 hmono).1 (fun y hy => hb y (by simp at hy ⊢; rcases hy with h | h <;> simp [h]))
    have hlt : (flushCount (schedPoints c (schedInit c) (ts ++ [x])).2 + 1) * c.majorFrame < U64 := by
      have := hb x (by simp)
      rw [Nat.succ_mul]; omega
    obtain ⟨o, h1, h2⟩ := C03_major_frame c (ts ++ [x]) t hf hlt
    have e : flushCount [o] = o.flushes.length := by simp [flushCount]
    rw [h1, flushCount_append, e, h2]
    split
    · rename_i h; simpa using h.2
    · simp; omega

theorem period_aux {c : SlotTable} {p : Nat} (hf : c.flush = .period p) :
    ∀ (ts : List Nat) (s : PSched) (j : Nat), s.nextFlush = j * p →
      (j + flushCount (schedPoints c s ts).2) * p < U64 →
      (schedPoints c s ts).1.nextFlush = (j + flushCount (schedPoints c s ts).2) * p := by
  intro ts
  induction ts with
  | nil => intro s j h _; simpa [schedPoints, flushCount] using h
  | cons t ts ih =>
    intro s j h hw
    simp only [schedPoints, obsAt, flushCount_cons, ← Nat.add_assoc] at hw ⊢
    have key : (electPartition c s t).1.nextFlush = (j + (electPartition c s t).2.length) * p := by
      by_cases hc : c.nbParts > 1 ∧ s.nextDeadline ≤ t
      · by_cases hm : s.nextFlush ≤ t
        · have e : electFlush c s t
              = ({ s with nextFlush := (s.nextFlush + p) % U64 }, [.all]) := by
            simp [electFlush, hf, hm]
          have e2 : (electPartition c s t).2 = [.all] := by
            unfold electPartition
            rw [if_neg (by omega), if_pos hc.2, e]
          have e3 : (electPartition c s t).1.nextFlush = (s.nextFlush + p) % U64 := by
            unfold electPartition
            rw [if_neg (by omega), if_pos hc.2, e]
          rw [e3, e2, h]
          have e4 : j * p + p = (j + 1) * p := by rw [Nat.succ_mul]
          rw [e4]
          simp only [List.length_cons, List.length_nil, Nat.zero_add]
          apply Nat.mod_eq_of_lt
          refine Nat.lt_of_le_of_lt ?_ hw
          apply Nat.mul_le_mul_right
          rw [e2]; simp
        · have e : electFlush c s t = (s, []) := by simp [electFlush, hf, hm]
          have e2 : (electPartition c s t).2 = [] := by
            unfold electPartition
            rw [if_neg (by omega), if_pos hc.2, e]
          have e3 : (electPartition c s t).1.nextFlush = s.nextFlush := by
            unfold electPartition
            rw [if_neg (by omega), if_pos hc.2, e]
          rw [e2, e3, h]; simp
      · rw [elect_stay hc]; simpa using h
    exact ih _ _ key hw

/-- **C03, periodic policy**: the next scheduling point flushes all ports exactly if it is a switch and the
clock has reached `j` flush periods, where `j` is the number of flushes so far: at most one flush per
configured period. -/
theorem C03_period (c : SlotTable) (ts : List Nat) (t p : Nat) (hf : c.flush = .period p)
    (hw : flushCount (schedPoints c (schedInit c) ts).2 * p < U64) :
    ∃ o, (schedPoints c (schedInit c) (ts ++ [t])).2 = (schedPoints c (schedInit c) ts).2 ++ [o] ∧
      o.flushes = if o.switched ∧ flushCount (schedPoints c (schedInit c) ts).2 * p ≤ t
        then [.all] else [] := by
  have h := period_aux hf ts (schedInit c) 0 (by simp [schedInit]) (by simpa using hw)
  simp only [Nat.zero_add] at h
  refine ⟨_, schedPoints_snoc _ _ _ _, ?_⟩
  unfold obsAt
  simp only
  generalize (schedPoints c (schedInit c) ts).1 = s at h ⊢
  by_cases hc : c.nbParts > 1 ∧ s.nextDeadline ≤ t
  · simp only [hc, and_self, decide_true, true_and]
    unfold electPartition
    rw [if_neg (by omega), if_pos hc.2]
    simp only [electFlush, hf, h]
    split <;> simp_all
  · rw [elect_stay hc]; simp [hc]

/-! ### A concrete schedule: 3 slots of 10, 20, 5 for partitions 0, 1, 0 -/

/-- Example table. -/
def exTable (f : FlushPolicy) : SlotTable :=
  { nbParts := 2, nbSlots := 3, slots := fun i => [10, 20, 5].getD i 0, alloc := fun i => [0, 1, 0].getD i 0,
    majorFrame := 35, flush := f }

/-- Late points (the window end 10 is noticed at 12, 30 at 31, 35 at 36): no drift. -/
example : ((schedPoints (exTable .majorFrame) (schedInit (exTable .majorFrame))
    [4, 8, 12, 16, 31, 36, 40, 46]).2.map (fun o => (o.part, o.flushes)))
    = [(0, []), (0, []), (1, []), (1, []), (0, []), (0, [.all]), (0, []), (1, [])] := by decide

example : Spaced 5 0 [4, 8, 12, 17, 22, 27, 31, 36] := by simp [Spaced]
example : NoWrap (exTable .windows) 6 := by unfold NoWrap; decide
example : ((schedPoints (exTable .windows) (schedInit (exTable .windows)) [4, 12, 31]).2.map
    (fun o => (o.switched, o.flushes)))
    = [(false, []), (true, [.partition 0]), (true, [.partition 1])] := by decide
example : ((schedPoints (exTable (.period 25)) (schedInit (exTable (.period 25))) [4, 12, 31, 36, 46, 70]).2.map
    (·.flushes)) = [[], [.all], [.all], [], [], [.all]] := by decide

end Pok
