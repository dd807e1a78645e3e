import Verif.Lemmas.PortIsoRun
import Verif.Props.Port

/-!
# C121: ports do not carry anything into a group of partitions that no channel leads to
-/

namespace Pok.Ports

variable {c : PortCfg} {A : Nat → Bool}

theorem Clean.init : Clean Ports.init := fun _ _ => rfl

/-- **C121** (partial): leave out of any history the calls of all partitions outside a group, and the flushes of their ports.  If no channel leads
into the group from outside, the history still runs; the calls of the group return the same results, messages and validities; and the ports of the
group hold the same.  Missing: the statement without the bound on the memory asked for and on where sampling buffers lie is false, see
`C121_room_violated` and `C121_buffer_violated`. -/
theorem C121_alone_partial (hc : c.Ok) (hw : NoWayIn c A) {h : List (Nat × PortOp)} {s : Ports} {os : List PortOut} (hr : asked h ≤ QUEUE_SIZE)
    (hu : RoomyBuffers c (own A h)) (hs : Ports.run c h Ports.init = some (s, os)) :
    ∃ t os', Ports.run c (own A h) Ports.init = some (t, os') ∧ seen A h os = seen A (own A h) os' ∧
      ∀ i, A (c.owner i) = true → (t.P i).ready = (s.P i).ready ∧ t.queueOf i = s.queueOf i ∧ t.messageOf i = s.messageOf i := by
  obtain ⟨t, os', h1, h2, h3, h4, h5⟩ := run_project hc hw h Ports.init Ports.init s os (fun i _ => Like.init i) (Inv.init c) (Inv.init c)
    Clean.init Clean.init hr (Nat.le_trans (asked_own A h) hr) hu hs
  refine ⟨t, os', h1, h2, ?_⟩
  intro i hi
  have L := h3 i hi
  have hh : held (t.P i) = held (s.P i) := by unfold held; rw [L.empty, L.offB, L.offE, L.size]
  refine ⟨L.ready, ?_, ?_⟩
  · unfold queueOf
    rw [hh, L.offB, L.size]
    apply List.map_congr_left
    intro k hk
    apply L.bytes
    have hk : k < held (s.P i) := List.mem_range.1 hk
    have : 0 < (s.P i).size := by
      cases hr : (s.P i).ready with
      | true =>
        have ok := h4.ok i hr
        rcases ok.kind with hq | hq
        · have := held_le ok hq
          omega
        · obtain ⟨o1, o2⟩ := ok.samp hq
          unfold held at hk
          rw [o1, o2] at hk
          split at hk
          · omega
          · simpa using Nat.lt_of_le_of_lt (Nat.zero_le k) hk
      | false => rw [h4.fresh i hr] at hk; simp [held] at hk
    exact Nat.mod_lt _ this
  · unfold messageOf
    rw [L.empty, L.size]
    split
    · rfl
    · congr 1
      apply List.map_congr_left
      intro k hk
      exact L.bytes k (List.mem_range.1 hk)

/-- **C121** (partial): two histories in which the group makes the same calls at the same times, and its ports are flushed alike, show the same to the
group, whatever the other partitions do in them.  Missing as in `C121_alone_partial`. -/
theorem C121_partial (hc : c.Ok) (hw : NoWayIn c A) {h1 h2 : List (Nat × PortOp)} {s1 s2 : Ports} {os1 os2 : List PortOut}
    (same : own A h1 = own A h2) (hr1 : asked h1 ≤ QUEUE_SIZE) (hr2 : asked h2 ≤ QUEUE_SIZE) (hu : RoomyBuffers c (own A h1))
    (hs1 : Ports.run c h1 Ports.init = some (s1, os1)) (hs2 : Ports.run c h2 Ports.init = some (s2, os2)) :
    seen A h1 os1 = seen A h2 os2 ∧
      ∀ i, A (c.owner i) = true → (s1.P i).ready = (s2.P i).ready ∧ s1.queueOf i = s2.queueOf i ∧ s1.messageOf i = s2.messageOf i := by
  obtain ⟨t, os, a1, a2, a3⟩ := C121_alone_partial hc hw hr1 hu hs1
  obtain ⟨t', os', b1, b2, b3⟩ := C121_alone_partial hc hw hr2 (by rw [← same]; exact hu) hs2
  rw [← same] at b1 b2
  rw [a1] at b1
  simp only [Option.some.injEq, Prod.mk.injEq] at b1
  obtain ⟨rfl, rfl⟩ := b1
  refine ⟨a2.trans b2.symm, fun i hi => ?_⟩
  obtain ⟨x1, x2, x3⟩ := a3 i hi
  obtain ⟨y1, y2, y3⟩ := b3 i hi
  exact ⟨x1.symm.trans y1, x2.symm.trans y2, x3.symm.trans y3⟩

/-! ### A configuration -/

/-- Five ports.  0 and 2 are queueing ports of partition 1.  1, 3 and 4 are sampling ports: what partition 0 writes to 3 goes to its own port 1 and
to port 4 of partition 2. -/
def isoCfg : PortCfg :=
  { nbParts := 3, nbPorts := 5
    owner := fun i => if i = 0 ∨ i = 2 then 1 else if i = 4 then 2 else 0
    kindOf := fun i => if i = 0 ∨ i = 2 then KIND_QUEUEING else KIND_SAMPLING
    name := fun i => [100 + i]
    portsOf := fun p => if p = 0 then [1, 3] else if p = 1 then [0, 2] else if p = 2 then [4] else []
    dests := fun i => if i = 3 then [1, 4] else []
    toLocal := fun g => g
    psize := fun _ => 4096 }

/-- Partition 0 by itself. -/
def isoGroup : Nat → Bool := fun p => p == 0

theorem isoCfg_ok : isoCfg.Ok where
  few := by decide
  owner := by decide
  portsOf := by
    intro p l hl
    simp only [isoCfg] at hl ⊢
    split at hl
    · next h => subst h; simp at hl; rcases hl with rfl | rfl <;> simp
    split at hl
    · next h => subst h; simp at hl; rcases hl with rfl | rfl <;> simp
    split at hl
    · next h => subst h; simp at hl; subst hl; simp
    · simp at hl
  nodup := by
    intro p
    simp only [isoCfg]
    split
    · decide
    split
    · decide
    split
    · decide
    · decide
  dests := by
    intro l g _ hg
    simp only [isoCfg] at hg ⊢
    split at hg
    · simp at hg; omega
    · simp at hg
  destKind := by
    intro l g _ hg
    simp only [isoCfg] at hg ⊢
    split at hg
    · next h => subst h; simp at hg; rcases hg with rfl | rfl <;> rfl
    · simp at hg

theorem isoCfg_noWayIn : NoWayIn isoCfg isoGroup := by
  intro l g _ hg _
  simp only [isoCfg] at hg
  split at hg
  · next h => subst h; rfl
  · simp at hg

/-- Partition 0 creates its ports, writes, is flushed and reads. -/
def isoOwn : List (Nat × PortOp) :=
  [(1, .samplingCreate 0 [103] 4 DIR_OUT 100), (2, .samplingCreate 0 [101] 4 DIR_IN 100), (3, .samplingWrite 0 3 [1, 2, 3, 4]),
   (4, .flushPartition 0), (5, .samplingRead 0 1 1000)]

/-- The same, with the others at work in between. -/
def isoBusy : List (Nat × PortOp) :=
  [(1, .queueingCreate 1 [100] 8 DIR_OUT true), (1, .samplingCreate 0 [103] 4 DIR_OUT 100), (1, .samplingCreate 2 [104] 4 DIR_IN 100),
   (2, .send 1 0 [9, 9] 0), (2, .samplingCreate 0 [101] 4 DIR_IN 100), (3, .samplingWrite 0 3 [1, 2, 3, 4]), (3, .samplingWrite 2 3 [7]),
   (4, .flushAll [1, 0, 2]), (4, .samplingRead 2 4 0), (5, .samplingRead 0 1 1000)]

/-- The premises of the theorems hold for the two, and what is seen is not nothing: the message comes back. -/
example : (Ports.run isoCfg isoBusy Ports.init).map (fun r => (seen isoGroup isoBusy r.2).map fun o => (o.res, o.bytes))
    = some [(.done .ok, []), (.done .ok, []), (.done .ok, []), (.done .ok, [1, 2, 3, 4])] := by decide +kernel

example : own isoGroup isoBusy = isoOwn := rfl

example : asked isoBusy ≤ QUEUE_SIZE ∧ RoomyBuffers isoCfg isoOwn := by
  refine ⟨by decide, ?_⟩
  intro now part id uptr h
  simp only [isoOwn, List.mem_cons, List.not_mem_nil, Prod.mk.injEq, or_false, reduceCtorEq, and_false, false_or] at h
  obtain ⟨_, h⟩ := h
  injection h with h1 h2 h3
  subst h1; subst h2; subst h3
  decide

/-! ### What is false -/

/-- **C121** violated: all partitions take the memory of their ports from one pool.  Two ports of another partition, to which no channel leads and from
which none comes, are enough to make every later creation fail, although the group itself asks for one byte. -/
theorem C121_room_violated : ∃ (c : PortCfg) (A : Nat → Bool) (h1 h2 : List (Nat × PortOp)) (s1 s2 : Ports) (os1 os2 : List PortOut),
    c.Ok ∧ NoWayIn c A ∧ own A h1 = own A h2 ∧ RoomyBuffers c (own A h1) ∧ asked h1 ≤ QUEUE_SIZE ∧
      Ports.run c h1 Ports.init = some (s1, os1) ∧ Ports.run c h2 Ports.init = some (s2, os2) ∧
      (seen A h1 os1).map (·.res) = [.done .ok] ∧ (seen A h2 os2).map (·.res) = [.done .port] := by
  let h1 : List (Nat × PortOp) := [(3, .samplingCreate 0 [101] 1 DIR_IN 100)]
  let h2 : List (Nat × PortOp) :=
    [(1, .queueingCreate 1 [100] 512 DIR_OUT true), (2, .queueingCreate 1 [102] 512 DIR_OUT true), (3, .samplingCreate 0 [101] 1 DIR_IN 100)]
  have e1 : (Ports.run isoCfg h1 Ports.init).map (fun r => (seen isoGroup h1 r.2).map (·.res)) = some [.done .ok] := by decide +kernel
  have e2 : (Ports.run isoCfg h2 Ports.init).map (fun r => (seen isoGroup h2 r.2).map (·.res)) = some [.done .port] := by decide +kernel
  simp only [Option.map_eq_some_iff] at e1 e2
  obtain ⟨⟨s1, os1⟩, r1, e1⟩ := e1
  obtain ⟨⟨s2, os2⟩, r2, e2⟩ := e2
  refine ⟨isoCfg, isoGroup, h1, h2, s1, s2, os1, os2, isoCfg_ok, isoCfg_noWayIn, rfl, ?_, by decide, r1, r2, e1, e2⟩
  intro now part id uptr h
  simp [h1, own, caller, isoGroup] at h

/-- **C121** violated: a read of a sampling port checks its buffer against the size of the port whose number is the number of the partition.  That port
may be of another partition.  When it has been created, with 512 bytes, a read of 4 bytes into the last 4 bytes of the partition is refused, and the port
stays locked: every later read waits for ever. -/
theorem C121_buffer_violated : ∃ (c : PortCfg) (A : Nat → Bool) (h1 h2 : List (Nat × PortOp)) (s1 s2 : Ports) (os1 os2 : List PortOut),
    c.Ok ∧ NoWayIn c A ∧ own A h1 = own A h2 ∧ asked h1 ≤ QUEUE_SIZE ∧ asked h2 ≤ QUEUE_SIZE ∧
      Ports.run c h1 Ports.init = some (s1, os1) ∧ Ports.run c h2 Ports.init = some (s2, os2) ∧
      (seen A h1 os1).map (·.res) = [.done .ok, .done .ok, .done .ok, .done .ok, .done .ok] ∧
      (seen A h2 os2).map (·.res) = [.done .ok, .done .ok, .done .ok, .done .einval, .blocked] := by
  let g : List (Nat × PortOp) := [(1, .samplingCreate 0 [103] 4 DIR_OUT 100), (2, .samplingCreate 0 [101] 4 DIR_IN 100),
    (3, .samplingWrite 0 3 [1, 2, 3, 4]), (4, .flushPartition 0), (5, .samplingRead 0 1 4092), (6, .samplingRead 0 1 0)]
  let h2 : List (Nat × PortOp) := (1, .queueingCreate 1 [100] 512 DIR_OUT true) :: g
  have e1 : (Ports.run isoCfg g Ports.init).map (fun r => (seen isoGroup g r.2).map (·.res))
      = some [.done .ok, .done .ok, .done .ok, .done .ok, .done .ok] := by decide +kernel
  have e2 : (Ports.run isoCfg h2 Ports.init).map (fun r => (seen isoGroup h2 r.2).map (·.res))
      = some [.done .ok, .done .ok, .done .ok, .done .einval, .blocked] := by decide +kernel
  simp only [Option.map_eq_some_iff] at e1 e2
  obtain ⟨⟨s1, os1⟩, r1, e1⟩ := e1
  obtain ⟨⟨s2, os2⟩, r2, e2⟩ := e2
  exact ⟨isoCfg, isoGroup, g, h2, s1, s2, os1, os2, isoCfg_ok, isoCfg_noWayIn, rfl, by decide, by decide, r1, r2, e1, e2⟩

end Pok.Ports
