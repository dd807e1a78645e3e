import Verif.Spec.Tss
import Verif.Spec.Stubs
import Verif.Props.Results
import Verif.Props.Segments

/-!
# C137: task state segments and the I/O instructions of partitions
-/

namespace Pok.Tss
open Pok.X86 Pok.TssSpec
open Pok.Stub (le)
open Pok.StubSpec (HoldsInt)
open Pok.Results (holds_same holds_other)

/-- The kernel stack that a processor must use for the next interrupt of a partition: the one set last since its start; `none` for a
processor that has not started. -/
def next (f : Nat → Option Nat) : Op → Nat → Option Nat
  | .start p => upd f p (some 0)
  | .esp0 p v => upd f p ((f p).map fun _ => v)
  | _ => f

def kernelStack (os : List Op) : Nat → Option Nat := os.foldl next (upd (fun _ => none) 0 (some 0))

/-- Requests that the kernel makes: other processors of the machine start, kernelStack are addresses of the machine's memory. -/
def Allowed (nproc : Nat) : Op → Prop
  | .start p => 0 < p ∧ p < nproc
  | .esp0 p v => p < nproc ∧ v < 2 ^ 32
  | _ => True

/-- The segment of processor `p` is described and filled as it should be, with the kernel stack `v`. -/
structure TssOk (tss : Nat) (s : Mach) (p v : Nat) : Prop where
  base : base (s.gdt (3 + p)) = tss + 104 * p
  limit : limit (s.gdt (3 + p)) = 104
  kind : (s.gdt (3 + p)).type = 9 ∧ (s.gdt (3 + p)).s = false ∧ (s.gdt (3 + p)).dpl = 0 ∧ (s.gdt (3 + p)).present = true
  esp0 : HoldsInt s.mem (tss + 104 * p + 4) 4 v
  ss0 : HoldsInt s.mem (tss + 104 * p + 8) 4 16
  zero : ∀ x, x < 104 → (x < 4 ∨ 12 ≤ x) → s.mem (tss + 104 * p + x) = 0

/-- A segment of the kernel: all of memory, privilege 0. -/
def Flat (d : Desc) (type : Nat) : Prop := base d = 0 ∧ limit d = 2 ^ 32 - 1 ∧ d.dpl = 0 ∧ d.s = true ∧ d.present = true ∧ d.type = type

structure Inv (tss nproc : Nat) (s : Mach) (f : Nat → Option Nat) : Prop where
  gran : ∀ p, p < nproc → (s.gdt (3 + p)).granularity = false
  ok : ∀ p, p < nproc → ∀ v, f p = some v → TssOk tss s p v
  code : Flat (s.gdt 1) 0xB
  data : Flat (s.gdt 2) 0x3

theorem TssOk.congr {tss p v : Nat} {s s' : Mach} (h : TssOk tss s p v) (hg : s'.gdt (3 + p) = s.gdt (3 + p)) (hm : ∀ x, x < 104 → s'.mem (tss + 104 * p + x) = s.mem (tss + 104 * p + x)) : TssOk tss s' p v := by
  refine ⟨by rw [hg]; exact h.base, by rw [hg]; exact h.limit, by rw [hg]; exact h.kind, ⟨h.esp0.1, fun i hi => ?_⟩, ⟨h.ss0.1, fun i hi => ?_⟩, fun x hx k => ?_⟩
  · rw [Nat.add_assoc, hm _ (by omega), ← Nat.add_assoc]; exact h.esp0.2 i hi
  · rw [Nat.add_assoc, hm _ (by omega), ← Nat.add_assoc]; exact h.ss0.2 i hi
  · rw [hm x hx]; exact h.zero x hx k

theorem tssInit_some {tss p : Nat} {s s' : Mach} (h : tssInit tss s p = some s') :
    (∀ i, i ≠ 3 + p → s'.gdt i = s.gdt i) ∧ (∀ x, (x < tss + 104 * p ∨ tss + 104 * p + 104 ≤ x) → s'.mem x = s.mem x) ∧
    (s'.gdt (3 + p)).granularity = (s.gdt (3 + p)).granularity ∧ (tss + 104 * p < U32 → (s.gdt (3 + p)).granularity = false → TssOk tss s' p 0) := by
  unfold tssInit at h
  simp only [tssSize, tssSeg, Option.map_eq_some_iff] at h
  obtain ⟨g, h1, h2⟩ := h
  unfold setSystem at h1
  obtain ⟨hi, hg⟩ := put_some h1
  subst h2
  subst hg
  refine ⟨fun i hn => upd_other _ _ hn, fun x hx => ?_, by simp, fun hb hgr => ⟨?_, ?_, ?_, ?_, ?_, ?_⟩⟩
  · show Stub.put (Stub.put s.mem _ _) _ _ x = s.mem x
    rw [Stub.put_out _ _ _ _ (by rw [Stub.le_length]; omega), Stub.put_out _ _ _ _ (by rw [List.length_replicate]; omega)]
  · have hb : tss + 104 * p < 4294967296 := hb
    simp only [upd_same, TssSpec.base]; omega
  · simp only [upd_same, TssSpec.limit, hgr]; rfl
  · simp only [upd_same]; exact ⟨by decide, by simp, by simp, by simp⟩
  · refine holds_other (by rw [Stub.le_length]; omega) ⟨by norm_num, fun i hi => ?_⟩
    rw [Nat.add_assoc, Stub.put_in _ _ _ _ (by rw [List.length_replicate]; omega), List.getElem_replicate]
    simp
  · exact holds_same _ _ _ _ (by norm_num)
  · intro x hx k
    show Stub.put (Stub.put s.mem _ _) _ _ _ = 0
    rw [Stub.put_out _ _ _ _ (by rw [Stub.le_length]; omega), Stub.put_in _ _ _ _ (by rw [List.length_replicate]; omega), List.getElem_replicate]

theorem flat_eq {g g' : Gdt} {i type : Nat} (h : setSegment g i 0 (U32 - 1) type 0 = some g') (ht : type < 16) : Flat (g' i) type := by
  unfold setSegment at h
  obtain ⟨hi, hg⟩ := put_some h
  subst hg
  simp only [upd_same, Flat, TssSpec.base, TssSpec.limit]
  norm_num
  omega

theorem setSegment_other {g g' : Gdt} {i base limit type dpl j : Nat} (h : setSegment g i base limit type dpl = some g') (hj : j ≠ i) : g' j = g j := by
  unfold setSegment at h
  obtain ⟨hi, hg⟩ := put_some h
  rw [hg, upd_other _ _ hj]

theorem setPresent_other {g g' : Gdt} {i j : Nat} {b : Bool} (h : setPresent g i b = some g') (hj : j ≠ i) : g' j = g j := by
  unfold setPresent at h
  obtain ⟨hi, hg⟩ := put_some h
  rw [hg, upd_other _ _ hj]

theorem inv_boot {tss nproc : Nat} {s s' : Mach} (h : gdtInit tss s 0 = some s') (hb : tss < U32) (hn : 3 + nproc ≤ 256) : Inv tss nproc s' (upd (fun _ => none) 0 (some 0)) := by
  unfold gdtInit at h
  simp only [if_true, Option.bind_eq_some_iff] at h
  obtain ⟨g, ⟨g1, e1, e2⟩, e3⟩ := h
  obtain ⟨t1, t2, t3, t4⟩ := tssInit_some e3
  have gr : ∀ p, p < nproc → (g (3 + p)).granularity = false := by
    intro p hp
    rw [setSegment_other e2 (by omega), setSegment_other e1 (by omega), if_pos (by unfold gdtSize; omega)]
  refine ⟨fun p hp => ?_, fun p hp v hv => ?_, ?_, ?_⟩
  · by_cases e : p = 0
    · subst e; rw [t3]; exact gr 0 hp
    · rw [t1 _ (by omega)]; exact gr p hp
  · by_cases e : p = 0
    · subst e
      rw [upd_same] at hv
      cases hv
      exact t4 (by omega) (gr 0 hp)
    · rw [upd_other _ _ e] at hv; cases hv
  · rw [t1 _ (by omega)]
    show Flat (g 1) _
    rw [setSegment_other e2 (by omega)]
    exact flat_eq e1 (by decide)
  · rw [t1 _ (by omega)]
    exact flat_eq e2 (by decide)

/-- The table changes at indices behind those of the processors only. -/
theorem Inv.spaces {tss nproc : Nat} {s : Mach} {f : Nat → Option Nat} (h : Inv tss nproc s f) {g : Gdt} (hg : ∀ i, i < 3 + nproc → g i = s.gdt i) : Inv tss nproc { s with gdt := g } f := by
  refine ⟨fun p hp => ?_, fun p hp v hv => ?_, ?_, ?_⟩
  · show (g (3 + p)).granularity = false
    rw [hg _ (by omega)]; exact h.gran p hp
  · exact (h.ok p hp v hv).congr (hg _ (by omega)) fun _ _ => rfl
  · show Flat (g 1) _
    rw [hg _ (by omega)]; exact h.code
  · show Flat (g 2) _
    rw [hg _ (by omega)]; exact h.data

theorem inv_op {tss nproc : Nat} {s s' : Mach} {f : Nat → Option Nat} {o : Op} (h : Inv tss nproc s f) (hb : tss + 104 * nproc ≤ U32) (a : Allowed nproc o) (e : s.op tss nproc o = some s') :
    Inv tss nproc s' (next f o) := by
  cases o with
  | start p =>
    obtain ⟨a0, a1⟩ := a
    have e : gdtInit tss s p = some s' := e
    unfold gdtInit at e
    rw [if_neg (by omega), Option.bind_some] at e
    obtain ⟨t1, t2, t3, t4⟩ := tssInit_some e
    refine ⟨fun q hq => ?_, fun q hq v hv => ?_, ?_, ?_⟩
    · by_cases k : q = p
      · subst k; rw [t3]; exact h.gran q hq
      · rw [t1 _ (by omega)]; exact h.gran q hq
    · by_cases k : q = p
      · subst k
        simp only [next, upd_same, Option.some.injEq] at hv
        subst hv
        exact t4 (by omega) (h.gran q hq)
      · simp only [next] at hv
        rw [upd_other _ _ k] at hv
        exact (h.ok q hq v hv).congr (t1 _ (by omega)) fun x hx => t2 _ (by omega)
    · rw [t1 _ (by omega)]; exact h.code
    · rw [t1 _ (by omega)]; exact h.data
  | esp0 p v =>
    obtain ⟨a0, a1⟩ := a
    have e : setEsp0 tss s p v = s' := Option.some.inj e
    subst e
    refine ⟨h.gran, fun q hq w hw => ?_, h.code, h.data⟩
    by_cases k : q = p
    · subst k
      simp only [next, upd_same, Option.map_eq_some_iff] at hw
      obtain ⟨u, hu, hw⟩ := hw
      subst hw
      have ok := h.ok q hq u hu
      refine ⟨ok.base, ok.limit, ok.kind, holds_same _ _ _ _ (by norm_num; omega), holds_other (by rw [Stub.le_length]; unfold tssSize; omega) ok.ss0, fun x hx hz => ?_⟩
      show Stub.put s.mem _ _ _ = 0
      rw [Stub.put_out _ _ _ _ (by rw [Stub.le_length]; unfold tssSize; omega)]
      exact ok.zero x hx hz
    · simp only [next] at hw
      rw [upd_other _ _ k] at hw
      refine (h.ok q hq w hw).congr rfl fun x hx => ?_
      show Stub.put s.mem _ _ _ = _
      rw [Stub.put_out _ _ _ _ (by rw [Stub.le_length]; unfold tssSize; omega)]
  | space pid addr size =>
    simp only [Mach.op, Option.map_eq_some_iff] at e
    obtain ⟨g, e, rfl⟩ := e
    refine h.spaces fun i hi => ?_
    unfold createSpace at e
    rw [Option.bind_eq_some_iff] at e
    obtain ⟨g1, e1, e2⟩ := e
    rw [setSegment_other e2 (by unfold dataSeg; omega), setSegment_other e1 (by unfold codeSeg; omega)]
  | switch old new =>
    simp only [Mach.op, Option.map_eq_some_iff] at e
    obtain ⟨g, e, rfl⟩ := e
    refine h.spaces fun i hi => ?_
    unfold spaceSwitch at e
    simp only [Option.bind_eq_some_iff] at e
    obtain ⟨g1, e1, g2, e2, g3, e3, e4⟩ := e
    rw [setPresent_other e4 (by unfold dataSeg; omega), setPresent_other e3 (by unfold codeSeg; omega), setPresent_other e2 (by unfold dataSeg; omega), setPresent_other e1 (by unfold codeSeg; omega)]

theorem inv_ops {tss nproc : Nat} (hb : tss + 104 * nproc ≤ U32) (os : List Op) (a : ∀ o ∈ os, Allowed nproc o) {s s' : Mach} {f : Nat → Option Nat} (h : Inv tss nproc s f) (e : s.ops tss nproc os = some s') :
    Inv tss nproc s' (os.foldl next f) := by
  induction os generalizing s f with
  | nil => cases e; exact h
  | cons o os ih =>
    rw [Mach.ops, Option.bind_eq_some_iff] at e
    obtain ⟨s1, e1, e2⟩ := e
    exact ih (fun o ho => a o (List.mem_cons_of_mem _ ho)) (inv_op h hb (a o List.mem_cons_self) e1) e2

theorem inv_run {tss nproc : Nat} (hn : 0 < nproc) (hn' : 3 + nproc ≤ 256) (hb : tss + 104 * nproc ≤ U32) (os : List Op) (a : ∀ o ∈ os, Allowed nproc o) {s s' : Mach} (e : run tss nproc s os = some s') :
    Inv tss nproc s' (kernelStack os) := by
  unfold run at e
  rw [Option.bind_eq_some_iff] at e
  obtain ⟨s1, e1, e2⟩ := e
  exact inv_ops hb os a (inv_boot e1 (by omega) hn') e2

/-- **C137** (part) After any history of starts of processors, returns to partitions, creations of spaces and switches between them, on a machine with any number of processors: the kernel's
segments are all of memory with privilege 0, and the descriptor of every processor that has started describes its task state segment, whose kernel stack is in the kernel's data segment at the
address that was set last. -/
theorem C137_stack_partial (tss nproc : Nat) (hn : 0 < nproc) (hn' : 3 + nproc ≤ 256) (hb : tss + 104 * nproc ≤ 2 ^ 32) (os : List Op) (a : ∀ o ∈ os, Allowed nproc o) (s s' : Mach)
    (e : run tss nproc s os = some s') :
    Flat (s'.gdt 1) 0xB ∧ Flat (s'.gdt 2) 0x3 ∧
    ∀ p v, p < nproc → kernelStack os p = some v → base (s'.gdt (3 + p)) = tss + 104 * p ∧ (s'.gdt (3 + p)).type = 9 ∧ (s'.gdt (3 + p)).s = false ∧ (s'.gdt (3 + p)).dpl = 0 ∧ (s'.gdt (3 + p)).present = true ∧
      HoldsInt s'.mem (tss + 104 * p + 4) 4 v ∧ HoldsInt s'.mem (tss + 104 * p + 8) 4 (2 * 8) := by
  have h := inv_run hn hn' hb os a e
  refine ⟨h.code, h.data, fun p v hp hv => ?_⟩
  have ok := h.ok p hp v hv
  exact ⟨ok.base, ok.kind.1, ok.kind.2.1, ok.kind.2.2.1, ok.kind.2.2.2, ok.esp0, ok.ss0⟩

theorem word2 (m : Nat → Nat) (a : Nat) : Sys.word m a 2 = m a % 256 + 256 * (m (a + 1) % 256) := by simp [Sys.word]

theorem map_zero {tss p v : Nat} {s : Mach} (ok : TssOk tss s p v) : Sys.word s.mem (base (s.gdt (3 + p)) + 102) 2 = 0 := by
  rw [word2, ok.base, ok.zero 102 (by omega) (by omega)]
  have := ok.zero 103 (by omega) (by omega)
  rw [show tss + 104 * p + 102 + 1 = tss + 104 * p + 103 by omega, this]

/-- The first port, in the byte at offset `x`. -/
theorem permitted {tss p v port b : Nat} {s : Mach} (ok : TssOk tss s p v) (hp : port < 832) (hb : s.mem (tss + 104 * p + port / 8) = b) (h : b % 256 / 2 ^ (port % 8) % 2 = 0) :
    IoPermitted s.mem (s.gdt (3 + p)) port 1 := by
  unfold IoPermitted
  rw [map_zero ok, ok.limit, ok.base]
  refine ⟨by omega, fun k hk => ?_⟩
  have : k = 0 := by omega
  subst this
  rw [Nat.add_zero, Nat.add_zero, word2, hb]
  have h8 : port % 8 < 8 := Nat.mod_lt _ (by decide)
  generalize port % 8 = j at h h8
  generalize s.mem _ % 256 = y
  interval_cases j <;> simp only [Nat.reducePow] at h ⊢ <;> omega

/-- **C137** violated: on every processor that has started, with every kernel stack, a program of a partition may access, with its own instructions and whatever ports its configuration
grants it, the ports 0x40 to 0x43 of the timer and every port from 0x60 to 0x33f (keyboard controller, clock, second interrupt controller, disks, second serial line): the offset of the permission map is
left zero, so that the segment itself serves as the map. -/
theorem C137_ports_violated (tss nproc : Nat) (hn : 0 < nproc) (hn' : 3 + nproc ≤ 256) (hb : tss + 104 * nproc ≤ 2 ^ 32) (os : List Op) (a : ∀ o ∈ os, Allowed nproc o) (s s' : Mach)
    (e : run tss nproc s os = some s') (p v : Nat) (hp : p < nproc) (hv : kernelStack os p = some v) (port : Nat) (h : (0x40 ≤ port ∧ port ≤ 0x43) ∨ (0x60 ≤ port ∧ port ≤ 0x33f)) :
    MayAccess s'.mem (s'.gdt (3 + p)) userLevel userFlags port 1 := by
  have ok := (inv_run hn hn' hb os a e).ok p hp v hv
  refine Or.inr ?_
  rcases h with ⟨h1, h2⟩ | ⟨h1, h2⟩
  · have hm : s'.mem (tss + 104 * p + port / 8) = 16 := by
      have := ok.ss0.2 0 (by omega)
      rw [show tss + 104 * p + port / 8 = tss + 104 * p + 8 + 0 by omega]; simpa using this
    refine permitted ok (by omega) hm ?_
    interval_cases port <;> decide
  · refine permitted ok (by omega) (ok.zero _ (by omega) (by omega)) ?_
    simp

/-- **C137** violated: the ports 0x20 to 0x3f, among them those of the first interrupt controller, are open or closed by the bits of the kernel stack's address: port 0x20 is open for every stack whose
address is even, port 0x21 for every one that is a multiple of 4. -/
theorem C137_pic_violated (tss nproc : Nat) (hn : 0 < nproc) (hn' : 3 + nproc ≤ 256) (hb : tss + 104 * nproc ≤ 2 ^ 32) (os : List Op) (a : ∀ o ∈ os, Allowed nproc o) (s s' : Mach)
    (e : run tss nproc s os = some s') (p v : Nat) (hp : p < nproc) (hv : kernelStack os p = some v) (h4 : v % 4 = 0) :
    MayAccess s'.mem (s'.gdt (3 + p)) userLevel userFlags 0x20 1 ∧ MayAccess s'.mem (s'.gdt (3 + p)) userLevel userFlags 0x21 1 := by
  have ok := (inv_run hn hn' hb os a e).ok p hp v hv
  have hm := ok.esp0.2 0 (by omega)
  simp only [Nat.add_zero, Nat.pow_zero, Nat.div_one] at hm
  exact ⟨Or.inr (permitted ok (by omega) hm (by simp only [Nat.reduceMod, Nat.pow_zero, Nat.div_one]; omega)), Or.inr (permitted ok (by omega) hm (by simp only [Nat.reduceMod, Nat.pow_one]; omega))⟩

/-- **C137** (part) Ports from 0x340 on, among them those of the bus configuration and the first serial line, can not be accessed by programs of partitions themselves, nor can port 0x44. -/
theorem C137_ports_partial (tss nproc : Nat) (hn : 0 < nproc) (hn' : 3 + nproc ≤ 256) (hb : tss + 104 * nproc ≤ 2 ^ 32) (os : List Op) (a : ∀ o ∈ os, Allowed nproc o) (s s' : Mach)
    (e : run tss nproc s os = some s') (p v : Nat) (hp : p < nproc) (hv : kernelStack os p = some v) (port width : Nat) (hw : 0 < width) (h : 0x340 ≤ port ∨ port = 0x44) :
    ¬MayAccess s'.mem (s'.gdt (3 + p)) userLevel userFlags port width := by
  have ok := (inv_run hn hn' hb os a e).ok p hp v hv
  rintro (h' | h')
  · revert h'; decide
  · unfold IoPermitted at h'
    rw [map_zero ok, ok.limit, ok.base] at h'
    rcases h with h | h
    · have := h'.1; omega
    · have := h'.2 0 hw
      have m8 := ok.ss0.2 0 (by omega)
      subst h
      rw [word2] at this
      simp only [Nat.add_zero, Nat.pow_zero, Nat.div_one, Nat.reduceDiv, Nat.reduceMod] at this m8
      rw [m8] at this
      simp only [Nat.reduceMod, Nat.reducePow] at this
      omega

/-- Two processors and two partitions: the second processor starts and returns to a partition with its stack at 0x9000. -/
example : (run 0x5000 2 ⟨fun _ => {}, fun _ => 255⟩ [.space 0 0x10000 0x8000, .space 1 0x20000 0x8000, .start 1, .esp0 1 0x9000, .switch 0 1, .esp0 0 0x7000]).isSome = true ∧
    kernelStack [.space 0 0x10000 0x8000, .space 1 0x20000 0x8000, .start 1, .esp0 1 0x9000, .switch 0 1, .esp0 0 0x7000] 1 = some 0x9000 ∧
    ∀ o ∈ [Op.space 0 0x10000 0x8000, .space 1 0x20000 0x8000, .start 1, .esp0 1 0x9000, .switch 0 1, .esp0 0 0x7000], Allowed 2 o := by
  refine ⟨by decide +kernel, by decide, ?_⟩
  simp only [List.forall_mem_cons, List.not_mem_nil, false_imp_iff, implies_true, and_true, Allowed]
  decide

end Pok.Tss
