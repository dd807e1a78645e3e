import Verif.Spec.Machine
import Verif.Model.X86
import Mathlib.Tactic.Common
import Mathlib.Tactic.IntervalCases

/-!
# C67-C72: interrupts and context switches on x86
-/

namespace Pok.Machine
open MachineSpec

theorem upd_ne' {α : Type} (f : Nat → α) {i j : Nat} (v : α) (h : j ≠ i) : upd f i v j = f j := upd_other _ _ h

/-! ## Interrupts -/

/-- The words of a frame, lowest address first. -/
def frame (m : Nat → Nat) (a : Nat) : List Nat := (List.range 16).map fun k => m (a + 4 * k)

theorem leave_user {u s : Cpu} {e : Nat} (he : u.esp = e) (hc : u.cs % 4 = 0) (h3 : s.cs % 4 = 3)
    (h : ∃ a b, frame u.mem (e + 4) = [s.es, s.ds, s.edi, s.esi, s.ebp, a, s.ebx, s.edx, s.ecx, s.eax, b, s.eip, s.cs, s.eflags, s.esp, s.ss]) :
    SameRegs u.leave s := by
  obtain ⟨a, b, h⟩ := h
  simp only [frame, List.range, List.range.loop, List.map_cons, List.map_nil, List.cons.injEq, and_true, Nat.add_assoc, Nat.reduceAdd, Nat.reduceMul] at h
  obtain ⟨h0, h1, h2, h3', h4, h5, h6, h7, h8, h9, h10, h11, h12, h13, h14, h15⟩ := h
  constructor <;>
    simp [Cpu.leave, Cpu.drop, Cpu.top, Cpu.popa, Cpu.iret, he, Nat.add_assoc, h0, h1, h2, h3', h4, h6, h7, h8, h9, h11, h12, h13, h14, h15, hc, h3]

theorem leave_kernel {u s : Cpu} {e : Nat} (he : u.esp = e) (hc : u.cs % 4 = 0) (h3 : s.cs % 4 = 0) (hss : u.ss = s.ss) (hesp : s.esp = e + 60)
    (h : ∃ a b c d, frame u.mem (e + 4) = [s.es, s.ds, s.edi, s.esi, s.ebp, a, s.ebx, s.edx, s.ecx, s.eax, b, s.eip, s.cs, s.eflags, c, d]) :
    SameRegs u.leave s := by
  obtain ⟨a, b, c, d, h⟩ := h
  simp only [frame, List.range, List.range.loop, List.map_cons, List.map_nil, List.cons.injEq, and_true, Nat.add_assoc, Nat.reduceAdd, Nat.reduceMul] at h
  obtain ⟨h0, h1, h2, h3', h4, h5, h6, h7, h8, h9, h10, h11, h12, h13, h14, h15⟩ := h
  constructor <;>
    simp [Cpu.leave, Cpu.drop, Cpu.top, Cpu.popa, Cpu.iret, he, Nat.add_assoc, h0, h1, h2, h3', h4, h6, h7, h8, h9, h11, h12, h13, hc, h3, hss, hesp]

/-- The frame an interrupt from a partition leaves on the kernel stack. -/
theorem enter_user (s : Cpu) (h b : Nat) (h3 : s.cs % 4 = 3) :
    (s.interrupt h (b + 68) none).enter.esp = b ∧ (s.interrupt h (b + 68) none).enter.cs = kernelCs ∧
    ∃ a c, frame (s.interrupt h (b + 68) none).enter.mem (b + 4) =
      [s.es, s.ds, s.edi, s.esi, s.ebp, a, s.ebx, s.edx, s.ecx, s.eax, c, s.eip, s.cs, s.eflags, s.esp, s.ss] := by
  refine ⟨?_, ?_, (s.interrupt h (b + 68) none).enter.mem (b + 24), (s.interrupt h (b + 68) none).enter.mem (b + 44), ?_⟩
  · simp [Cpu.interrupt, Cpu.enter, Cpu.push, Cpu.pusha, h3]
  · simp [Cpu.interrupt, Cpu.enter, Cpu.push, Cpu.pusha, h3]
  · simp [frame, List.range, List.range.loop, Cpu.interrupt, Cpu.enter, Cpu.push, Cpu.pusha, h3, upd, Nat.add_assoc]

theorem enter_kernel (s : Cpu) (h b esp0 : Nat) (h3 : s.cs % 4 = 0) (he : s.esp = b + 60) :
    (s.interrupt h esp0 none).enter.esp = b ∧ (s.interrupt h esp0 none).enter.cs = kernelCs ∧ (s.interrupt h esp0 none).enter.ss = s.ss ∧
    ∃ a c d e, frame (s.interrupt h esp0 none).enter.mem (b + 4) =
      [s.es, s.ds, s.edi, s.esi, s.ebp, a, s.ebx, s.edx, s.ecx, s.eax, c, s.eip, s.cs, s.eflags, d, e] := by
  refine ⟨?_, ?_, ?_, (s.interrupt h esp0 none).enter.mem (b + 24), (s.interrupt h esp0 none).enter.mem (b + 44), (s.interrupt h esp0 none).enter.mem (b + 60),
    (s.interrupt h esp0 none).enter.mem (b + 64), ?_⟩
  · simp [Cpu.interrupt, Cpu.enter, Cpu.push, Cpu.pusha, h3, he]
  · simp [Cpu.interrupt, Cpu.enter, Cpu.push, Cpu.pusha, h3]
  · simp [Cpu.interrupt, Cpu.enter, Cpu.push, Cpu.pusha, h3]
  · simp [frame, List.range, List.range.loop, Cpu.interrupt, Cpu.enter, Cpu.push, Cpu.pusha, h3, he, upd, Nat.add_assoc]

theorem frame_called {s s' : Cpu} (h : Called s s') : frame s'.mem (s.esp + 4) = frame s.mem (s.esp + 4) := by
  unfold frame
  apply List.map_congr_left
  intro k hk
  have := List.mem_range.1 hk
  exact h.frame _ (by omega) (by omega)

/-- **C68** An interrupt without error code (timer, device, processor-to-processor or exception) taken at any point of a partition's program
or of the kernel, whatever the handler does as long as it leaves the frame alone: when it returns, all the registers of the interrupted
program are as they were. -/
theorem C68_interrupt (s : Cpu) (h esp0 : Nat) (hc : s.cs % 4 = 3 ∨ s.cs % 4 = 0) (h1 : 68 ≤ esp0) (h2 : 60 ≤ s.esp) (u : Cpu)
    (hu : Called (s.interrupt h esp0 none).enter u) : SameRegs u.leave s := by
  rcases hc with hc | hc
  · obtain ⟨b, rfl⟩ : ∃ b, esp0 = b + 68 := ⟨esp0 - 68, by omega⟩
    obtain ⟨e1, e2, a, c, e3⟩ := enter_user s h b hc
    have hf := frame_called hu
    rw [e1] at hf
    exact leave_user (e := b) (by rw [hu.esp, e1]) (by rw [hu.cs, e2]; rfl) hc ⟨a, c, by rw [hf, e3]⟩
  · obtain ⟨b, hb⟩ : ∃ b, s.esp = b + 60 := ⟨s.esp - 60, by omega⟩
    obtain ⟨e1, e2, e4, a, c, d, e, e3⟩ := enter_kernel s h b esp0 hc hb
    have hf := frame_called hu
    rw [e1] at hf
    exact leave_kernel (e := b) (by rw [hu.esp, e1]) (by rw [hu.cs, e2]; rfl) hc (by rw [hu.ss, e4]) hb ⟨a, c, d, e, by rw [hf, e3]⟩

/-- **C68** The same for the exceptions for which the processor pushes an error code. -/
theorem C68_exception (s : Cpu) (h esp0 err : Nat) (hc : s.cs % 4 = 3 ∨ s.cs % 4 = 0) (h1 : 68 ≤ esp0) (h2 : 60 ≤ s.esp) (u : Cpu)
    (hu : Called (s.interrupt h esp0 (some err)).enterErr u) : SameRegs u.leave s := by
  have hf := frame_called hu
  rcases hc with hc | hc
  · obtain ⟨b, rfl⟩ : ∃ b, esp0 = b + 68 := ⟨esp0 - 68, by omega⟩
    have e1 : (s.interrupt h (b + 68) (some err)).enterErr.esp = b := by simp [Cpu.interrupt, Cpu.enterErr, Cpu.push, Cpu.pusha, hc]
    rw [e1] at hf
    refine leave_user (e := b) (by rw [hu.esp, e1]) (by rw [hu.cs]; simp [Cpu.interrupt, Cpu.enterErr, Cpu.push, Cpu.pusha, kernelCs]) hc
      ⟨(s.interrupt h (b + 68) (some err)).enterErr.mem (b + 24), err, ?_⟩
    rw [hf]
    simp [frame, List.range, List.range.loop, Cpu.interrupt, Cpu.enterErr, Cpu.push, Cpu.pusha, hc, upd, Nat.add_assoc]
  · obtain ⟨b, hb⟩ : ∃ b, s.esp = b + 60 := ⟨s.esp - 60, by omega⟩
    have e1 : (s.interrupt h esp0 (some err)).enterErr.esp = b := by simp [Cpu.interrupt, Cpu.enterErr, Cpu.push, Cpu.pusha, hc, hb]
    rw [e1] at hf
    refine leave_kernel (e := b) (by rw [hu.esp, e1]) (by rw [hu.cs]; simp [Cpu.interrupt, Cpu.enterErr, Cpu.push, Cpu.pusha, kernelCs]) hc
      (by rw [hu.ss]; simp [Cpu.interrupt, Cpu.enterErr, Cpu.push, Cpu.pusha, hc]) hb
      ⟨(s.interrupt h esp0 (some err)).enterErr.mem (b + 24), err, (s.interrupt h esp0 (some err)).enterErr.mem (b + 60),
        (s.interrupt h esp0 (some err)).enterErr.mem (b + 64), ?_⟩
    rw [hf]
    simp [frame, List.range, List.range.loop, Cpu.interrupt, Cpu.enterErr, Cpu.push, Cpu.pusha, hc, hb, upd, Nat.add_assoc]

/-- **C68** A system call: the caller finds the result in `eax`, and every other register as it was. -/
theorem C68_syscall (s : Cpu) (h esp0 : Nat) (hc : s.cs % 4 = 3) (h1 : 68 ≤ esp0) (u : Cpu)
    (hu : Called (s.interrupt h esp0 none).enter u) : SameRegs u.result.leave { s with eax := u.eax } := by
  obtain ⟨b, rfl⟩ : ∃ b, esp0 = b + 68 := ⟨esp0 - 68, by omega⟩
  obtain ⟨e1, e2, a, c, e3⟩ := enter_user s h b hc
  have hf := frame_called hu
  rw [e1, e3] at hf
  have hue : u.esp = b := by rw [hu.esp, e1]
  refine leave_user (e := b) (by simpa [Cpu.result] using hue) (by simp only [Cpu.result]; rw [hu.cs, e2]; rfl) hc ⟨a, c, ?_⟩
  simp only [frame, List.range, List.range.loop, List.map_cons, List.map_nil, List.cons.injEq, and_true, Nat.add_assoc, Nat.reduceAdd, Nat.reduceMul] at hf ⊢
  simp [Cpu.result, hue, upd, hf]

/-- **C68** The kernel stack does not move: after an interrupt from a partition the task state segment has again the stack pointer the
interrupt found there, and an interrupt of the kernel does not change it. -/
theorem C68_stack (s : Cpu) (h esp0 : Nat) (hc : s.cs % 4 = 3 ∨ s.cs = kernelCs) (hw : s.cs < 65536) (h1 : 68 ≤ esp0) (h2 : 60 ≤ s.esp) (u : Cpu)
    (hu : Called (s.interrupt h esp0 none).enter u) : updateTss u (u.esp + 4) esp0 = esp0 := by
  unfold updateTss
  rcases hc with hc | hc
  · obtain ⟨b, rfl⟩ : ∃ b, esp0 = b + 68 := ⟨esp0 - 68, by omega⟩
    obtain ⟨e1, e2, a, c, e3⟩ := enter_user s h b hc
    have hf := frame_called hu
    rw [e1, e3] at hf
    have hue : u.esp = b := by rw [hu.esp, e1]
    simp only [frame, List.range, List.range.loop, List.map_cons, List.map_nil, List.cons.injEq, and_true, Nat.add_assoc, Nat.reduceAdd, Nat.reduceMul] at hf
    rw [hue, Nat.add_assoc, hf.2.2.2.2.2.2.2.2.2.2.2.2.1, if_pos (by rw [Nat.mod_eq_of_lt hw]; intro hx; rw [hx] at hc; simp [kernelCs] at hc)]
  · have hc0 : s.cs % 4 = 0 := by rw [hc]; rfl
    obtain ⟨b, hb⟩ : ∃ b, s.esp = b + 60 := ⟨s.esp - 60, by omega⟩
    obtain ⟨e1, e2, e4, a, c, d, e, e3⟩ := enter_kernel s h b esp0 hc0 hb
    have hf := frame_called hu
    rw [e1, e3] at hf
    have hue : u.esp = b := by rw [hu.esp, e1]
    simp only [frame, List.range, List.range.loop, List.map_cons, List.map_nil, List.cons.injEq, and_true, Nat.add_assoc, Nat.reduceAdd, Nat.reduceMul] at hf
    rw [hue, Nat.add_assoc, hf.2.2.2.2.2.2.2.2.2.2.2.2.1, if_neg (by rw [hc]; simp [kernelCs])]

/-- **C68** violated: a partition that executes the instruction `int n` for a vector whose handler expects an error code (8, 10 to 14, 17: the
gates can be entered from privilege 3, see C67) does not push one: the handler's exit takes the saved code segment for the instruction pointer
and the flags for the code segment, whatever the handler does. -/
theorem C68_soft_exception_violated (s : Cpu) (h esp0 : Nat) (hc : s.cs % 4 = 3) (h1 : 68 ≤ esp0) (u : Cpu)
    (hu : Called (s.interrupt h esp0 none).enterErr u) : u.leave.eip = s.cs ∧ u.leave.cs = s.eflags := by
  obtain ⟨b, rfl⟩ : ∃ b, esp0 = b + 64 := ⟨esp0 - 64, by omega⟩
  have hf := frame_called hu
  have e1 : (s.interrupt h (b + 64) none).enterErr.esp = b := by simp [Cpu.interrupt, Cpu.enterErr, Cpu.push, Cpu.pusha, hc]
  have hue : u.esp = b := by rw [hu.esp, e1]
  rw [e1] at hf
  have hm : ∀ k < 16, u.mem (b + 4 + 4 * k) = (s.interrupt h (b + 64) none).enterErr.mem (b + 4 + 4 * k) := fun k hk => by
    refine hu.frame _ ?_ ?_ <;> rw [e1] <;> omega
  have m11 := hm 11 (by omega)
  have m12 := hm 12 (by omega)
  simp [Cpu.interrupt, Cpu.enterErr, Cpu.push, Cpu.pusha, hc, upd, Nat.add_assoc] at m11 m12
  constructor
  · simp only [Cpu.leave, Cpu.drop, Cpu.top, Cpu.popa, Cpu.iret, hue, Nat.add_assoc, Nat.reduceAdd, m11]
    split <;> rfl
  · simp only [Cpu.leave, Cpu.drop, Cpu.top, Cpu.popa, Cpu.iret, hue, Nat.add_assoc, Nat.reduceAdd, m12]
    split <;> rfl

theorem iret_eax (s : Cpu) : s.iret.eax = s.eax := by
  unfold Cpu.iret
  simp only
  split <;> rfl

/-- **C68** violated: the handler of the test inter-processor interrupt calls a C function after it has restored the registers; the program
interrupted on the other processor finds another value in `eax`. -/
theorem C68_ipi_violated (s : Cpu) (lapic : Nat) (u : Cpu) (hl : s.eax ≠ lapic) : ¬SameRegs (u.leaveIpi (endIpi lapic)) s := by
  intro hc
  apply hl
  rw [← hc.eax]
  simp only [Cpu.leaveIpi, iret_eax]
  rfl

/-- A partition's program, interrupted. -/
def sample : Cpu := ⟨1, 2, 3, 4, 5000, 6, 7, 8, 0x400, 0x23, 0x202, 0x2b, 0x2b, 0x2b, fun _ => 0⟩

example : sample.cs % 4 = 3 := rfl

/-- A handler that changes registers and memory. -/
example : Called (sample.interrupt 0x100000 9000 none).enter { (sample.interrupt 0x100000 9000 none).enter with eax := 77, ebx := 5, esi := 3, mem := upd (sample.interrupt 0x100000 9000 none).enter.mem 100 9 } := by
  refine ⟨rfl, rfl, rfl, fun a h1 h2 => ?_⟩
  simp [sample, Cpu.interrupt, Cpu.enter, Cpu.push, Cpu.pusha] at h1 h2 ⊢
  rw [upd_ne' _ _ (by omega)]

/-! ## System calls are attributed to the caller -/

/-- **C72** For every number of processors and partitions that the descriptor table can hold, the identifier computed from the code segment
saved in the frame is that of the partition whose code segment it is. -/
theorem C72_caller (nproc pid : Nat) (h : nproc + 2 * pid < 65536) : partitionId nproc (partCs nproc pid) = pid := by
  unfold partitionId partCs
  omega

/-- **C72** So a system call made by partition `pid`, at any point and with any registers, is attributed to `pid`. -/
theorem C72_frame (s : Cpu) (h esp0 nproc pid : Nat) (hn : nproc + 2 * pid < 65536) (hs : s.cs = partCs nproc pid) (h1 : 68 ≤ esp0) :
    partitionId nproc ((s.interrupt h esp0 none).enter.mem ((s.interrupt h esp0 none).enter.esp + 4 + 48)) = pid := by
  have hc : s.cs % 4 = 3 := by rw [hs]; unfold partCs; omega
  obtain ⟨b, rfl⟩ : ∃ b, esp0 = b + 68 := ⟨esp0 - 68, by omega⟩
  obtain ⟨e1, e2, a, c, e3⟩ := enter_user s h b hc
  simp only [frame, List.range, List.range.loop, List.map_cons, List.map_nil, List.cons.injEq, and_true, Nat.add_assoc, Nat.reduceAdd, Nat.reduceMul] at e3
  rw [e1, Nat.add_assoc, e3.2.2.2.2.2.2.2.2.2.2.2.2.1, hs, C72_caller nproc pid hn]

example : partitionId 2 (partCs 2 7) = 7 := by decide

/-! ## Context switches -/

theorem writeWords_other {ws : List Nat} : ∀ {m : Nat → Nat} {a x : Nat}, (∀ k < ws.length, x ≠ a + 4 * k) → writeWords m a ws x = m x := by
  induction ws with
  | nil => intros; rfl
  | cons w ws ih =>
    intro m a x h
    simp only [List.length_cons] at h
    unfold writeWords
    rw [ih (fun k hk => by have := h (k + 1) (by omega); omega), upd_ne' _ _ (by have := h 0 (by omega); omega)]

theorem writeWords_get {ws : List Nat} : ∀ {m : Nat → Nat} {a k : Nat} (h : k < ws.length), writeWords m a ws (a + 4 * k) = ws[k] := by
  induction ws with
  | nil => intro m a k h; simp at h
  | cons w ws ih =>
    intro m a k h
    unfold writeWords
    cases k with
    | zero => rw [writeWords_other (fun k _ => by omega)]; simp [upd]
    | succ k =>
      have := ih (m := upd m a w) (a := a + 4) (k := k) (by simpa using h)
      rw [show a + 4 * (k + 1) = a + 4 + 4 * k by omega, this]
      simp

/-- The context saved on the stack of a thread that calls the context switch with stack pointer `b + 44`: 11 words, and above them the
return address. -/
def saved (s : Cpu) (label b : Nat) : List Nat := [s.edi, s.esi, s.ebp, b + 32, s.ebx, s.edx, s.ecx, s.eax, label, s.cs, s.eflags]

theorem switch_mem (s : Cpu) (label b : Nat) (hb : s.esp = b + 44) :
    (((s.push s.eflags).push s.cs).push label).pusha.mem = writeWords s.mem b (saved s label b) := by
  funext x
  by_cases hx : ∃ k < 11, x = b + 4 * k
  · obtain ⟨k, hk, rfl⟩ := hx
    rw [writeWords_get (by simpa [saved] using hk)]
    simp only [Cpu.push, Cpu.pusha, hb, saved]
    interval_cases k <;> simp [upd]
  · have hn : ∀ k < 11, x ≠ b + 4 * k := fun k hk hc => hx ⟨k, hk, hc⟩
    rw [writeWords_other (by simpa [saved] using hn)]
    have h0 := hn 0; have h1 := hn 1; have h2 := hn 2; have h3 := hn 3; have h4 := hn 4; have h5 := hn 5; have h6 := hn 6; have h7 := hn 7
    have h8 := hn 8; have h9 := hn 9; have h10 := hn 10
    simp only [Cpu.push, Cpu.pusha, hb]
    repeat rw [upd_ne' _ _ (by omega)]

/-- The context at address `sp` in memory: eight registers, then where to go on, code segment and flags. -/
def ctxAt (m : Nat → Nat) (sp : Nat) : List Nat := (List.range 11).map fun k => m (sp + 4 * k)

theorem switchTo_spec (u : Cpu) (label sp : Nat) (m : Nat → Nat) (hcs : u.cs = kernelCs) (hm : upd u.mem (u.mem (u.esp + 48)) u.esp = m)
    (hsp : m (u.esp + 52) = sp) {edi esi ebp x ebx edx ecx eax eip eflags : Nat}
    (h : ctxAt m sp = [edi, esi, ebp, x, ebx, edx, ecx, eax, eip, kernelCs, eflags]) :
    u.switchTo label =
      if eip = label then ⟨eax, ecx, edx, ebx, sp + 48, ebp, esi, edi, m (sp + 44), kernelCs, eflags, u.ds, u.es, u.ss, m⟩
      else ⟨eax, ecx, edx, ebx, sp + 44, ebp, esi, edi, eip, kernelCs, eflags, u.ds, u.es, u.ss, m⟩ := by
  simp only [ctxAt, List.range, List.range.loop, List.map_cons, List.map_nil, List.cons.injEq, and_true, Nat.reduceMul, Nat.add_zero] at h
  obtain ⟨m0, m1, m2, m3, m4, m5, m6, m7, m8, m9, m10⟩ := h
  unfold Cpu.switchTo
  simp only [hm, hsp, Cpu.popa, Cpu.iret, Nat.add_assoc, Nat.reduceAdd, m0, m1, m2, m4, m5, m6, m7, m8, m9, m10, hcs, Nat.lt_irrefl, gt_iff_lt,
    if_false, Cpu.ret]

theorem push_seg (s : Cpu) (w : Nat) : (s.push w).cs = s.cs ∧ (s.push w).ds = s.ds ∧ (s.push w).es = s.es ∧ (s.push w).ss = s.ss :=
  ⟨rfl, rfl, rfl, rfl⟩

theorem pusha_seg (s : Cpu) : s.pusha.cs = s.cs ∧ s.pusha.ds = s.ds ∧ s.pusha.es = s.es ∧ s.pusha.ss = s.ss := by
  unfold Cpu.pusha
  simp only [push_seg, and_self]

/-- What a context switch does, in terms of the context at the new stack pointer (in memory once the caller's context is saved). -/
theorem switch_spec (t : Cpu) (label c sp : Nat) (hc : t.esp = c + 44) (hcs : t.cs = kernelCs) (hsp : t.mem (t.esp + 8) = sp)
    (hl2 : t.mem (t.esp + 4) ≠ t.esp + 8) (m : Nat → Nat)
    (hm : upd (writeWords t.mem c (saved t label c)) (t.mem (t.esp + 4)) c = m) {edi esi ebp x ebx edx ecx eax eip eflags : Nat}
    (h : ctxAt m sp = [edi, esi, ebp, x, ebx, edx, ecx, eax, eip, kernelCs, eflags]) :
    t.contextSwitch label =
      if eip = label then ⟨eax, ecx, edx, ebx, sp + 48, ebp, esi, edi, m (sp + 44), kernelCs, eflags, t.ds, t.es, t.ss, m⟩
      else ⟨eax, ecx, edx, ebx, sp + 44, ebp, esi, edi, eip, kernelCs, eflags, t.ds, t.es, t.ss, m⟩ := by
  have e0 := switch_mem t label c hc
  have esp : (((t.push t.eflags).push t.cs).push label).pusha.esp = c := by simp [Cpu.push, Cpu.pusha, hc]
  have r1 : writeWords t.mem c (saved t label c) (c + 48) = t.mem (t.esp + 4) := by
    rw [writeWords_other (by intro k hk; simp [saved] at hk; omega), hc]
  have r2 : writeWords t.mem c (saved t label c) (c + 52) = sp := by
    rw [writeWords_other (by intro k hk; simp [saved] at hk; omega), ← hsp, hc]
  have hl3 : c + 52 ≠ t.mem (t.esp + 4) := by omega
  have r3 : m (c + 52) = sp := by rw [← hm, upd_ne' _ _ hl3, r2]
  unfold Cpu.contextSwitch
  have k := fun u hu a b => @switchTo_spec u label sp m hu a b _ _ _ _ _ _ _ _ _ _ h
  have hcs' : (((t.push t.eflags).push t.cs).push label).pusha.cs = kernelCs := by simp only [pusha_seg, push_seg, hcs]
  have hd : (((t.push t.eflags).push t.cs).push label).pusha.ds = t.ds := by simp only [pusha_seg, push_seg]
  have he : (((t.push t.eflags).push t.cs).push label).pusha.es = t.es := by simp only [pusha_seg, push_seg]
  have hss : (((t.push t.eflags).push t.cs).push label).pusha.ss = t.ss := by simp only [pusha_seg, push_seg]
  generalize (((t.push t.eflags).push t.cs).push label).pusha = u at *
  rw [k u hcs' (by rw [esp, e0, r1, hm]) (by rw [esp]; exact r3), hd, he, hss]

theorem iret_mem (s : Cpu) : s.iret.mem = s.mem := by
  unfold Cpu.iret
  simp only
  split <;> rfl

/-- The memory after a context switch. -/
theorem switch_leaves (s : Cpu) (label b : Nat) (hs : s.esp = b + 44) :
    (s.contextSwitch label).mem = upd (writeWords s.mem b (saved s label b)) (s.mem (s.esp + 4)) b := by
  have esp : (((s.push s.eflags).push s.cs).push label).pusha.esp = b := by simp [Cpu.push, Cpu.pusha, hs]
  have r1 : writeWords s.mem b (saved s label b) (b + 48) = s.mem (s.esp + 4) := by
    rw [writeWords_other (by intro k hk; simp [saved] at hk; omega), hs]
  unfold Cpu.contextSwitch Cpu.switchTo
  simp only [switch_mem s label b hs, esp, r1]
  split <;> simp only [Cpu.ret, iret_mem, Cpu.popa]

/-- **C70** A thread that calls the context switch is resumed exactly as it was: whatever ran in between, as long as the twelve words on its
stack are left alone, a context switch to the stack pointer saved for it brings back all its registers and flags and returns to its caller;
the stack pointer saved is in the place it gave. -/
theorem C70_resume (s t : Cpu) (label b c : Nat) (hs : s.esp = b + 44) (hcs : s.cs = kernelCs)
    (hloc : ∀ k < 12, s.mem (s.esp + 4) ≠ b + 4 * k)
    (ht : t.esp = c + 44) (htcs : t.cs = kernelCs) (hsp : t.mem (t.esp + 8) = b)
    (hkeep : ∀ k < 12, t.mem (b + 4 * k) = (s.contextSwitch label).mem (b + 4 * k))
    (hsep : ∀ k < 11, ∀ j < 12, c + 4 * k ≠ b + 4 * j) (htl2 : t.mem (t.esp + 4) ≠ t.esp + 8)
    (htl3 : ∀ k < 12, t.mem (t.esp + 4) ≠ b + 4 * k) :
    let r := t.contextSwitch label
    (s.contextSwitch label).mem (s.mem (s.esp + 4)) = b ∧
    r.eax = s.eax ∧ r.ecx = s.ecx ∧ r.edx = s.edx ∧ r.ebx = s.ebx ∧ r.ebp = s.ebp ∧ r.esi = s.esi ∧ r.edi = s.edi ∧ r.eflags = s.eflags ∧
    r.cs = s.cs ∧ r.eip = s.mem s.esp ∧ r.esp = s.esp + 4 := by
  rw [switch_leaves s label b hs] at hkeep ⊢
  have key : ∀ k < 12, upd (writeWords t.mem c (saved t label c)) (t.mem (t.esp + 4)) c (b + 4 * k) = writeWords s.mem b (saved s label b) (b + 4 * k) := by
    intro k hk
    rw [upd_ne' _ _ (Ne.symm (htl3 k hk)), writeWords_other (by intro j hj; simp [saved] at hj; have := hsep j (by omega) k hk; omega), hkeep k hk,
      upd_ne' _ _ (Ne.symm (hloc k hk))]
  have hctx : ctxAt (upd (writeWords t.mem c (saved t label c)) (t.mem (t.esp + 4)) c) b =
      [s.edi, s.esi, s.ebp, b + 32, s.ebx, s.edx, s.ecx, s.eax, label, kernelCs, s.eflags] := by
    have : ctxAt (upd (writeWords t.mem c (saved t label c)) (t.mem (t.esp + 4)) c) b = (List.range 11).map fun k => (saved s label b).getD k 0 := by
      unfold ctxAt
      apply List.map_congr_left
      intro k hk
      have hk := List.mem_range.1 hk
      rw [key k (by omega), writeWords_get (by simpa [saved] using hk), List.getD_eq_getElem?_getD, List.getElem?_eq_getElem (by simpa [saved] using hk)]
      rfl
    rw [this]
    simp [saved, List.range, List.range.loop, hcs]
  have h := switch_spec t label c b ht htcs hsp htl2 _ rfl hctx
  rw [h]
  have hret := key 11 (by omega)
  rw [writeWords_other (by intro j hj; simp [saved] at hj; omega)] at hret
  simp only [if_true]
  refine ⟨by simp [upd], trivial, trivial, trivial, trivial, trivial, trivial, trivial, trivial, hcs.symm, ?_, ?_⟩
  · rw [hs]; exact hret
  · rw [hs]

/-- A new context at `sp`, of which the memory seen by the switch has all the words. -/
theorem fresh_switch (t : Cpu) (label c sp start : Nat) (extra : List Nat) (ht : t.esp = c + 44) (htcs : t.cs = kernelCs) (hsp : t.mem (t.esp + 8) = sp)
    (hkeep : ∀ k (h : k < 11 + extra.length), t.mem (sp + 4 * k) = ([0, 0, 0, sp + 32, 0, 0, 0, 0, start, kernelCs, 512] ++ extra)[k]'(by simp; omega))
    (hsep : ∀ k < 11, ∀ j < 11 + extra.length, c + 4 * k ≠ sp + 4 * j) (htl2 : t.mem (t.esp + 4) ≠ t.esp + 8)
    (htl3 : ∀ k < 11 + extra.length, t.mem (t.esp + 4) ≠ sp + 4 * k) (hst : start ≠ label) :
    ∃ m, t.contextSwitch label = ⟨0, 0, 0, 0, sp + 44, 0, 0, 0, start, kernelCs, 512, t.ds, t.es, t.ss, m⟩ ∧
      ∀ k (h : k < extra.length), m (sp + 44 + 4 * k) = extra[k] := by
  have key : ∀ k < 11 + extra.length, upd (writeWords t.mem c (saved t label c)) (t.mem (t.esp + 4)) c (sp + 4 * k) = t.mem (sp + 4 * k) := by
    intro k hk
    rw [upd_ne' _ _ (Ne.symm (htl3 k hk)), writeWords_other (by intro j hj; simp [saved] at hj; have := hsep j (by omega) k hk; omega)]
  refine ⟨upd (writeWords t.mem c (saved t label c)) (t.mem (t.esp + 4)) c, ?_, ?_⟩
  · have hctx : ctxAt (upd (writeWords t.mem c (saved t label c)) (t.mem (t.esp + 4)) c) sp = [0, 0, 0, sp + 32, 0, 0, 0, 0, start, kernelCs, 512] := by
      have : ctxAt (upd (writeWords t.mem c (saved t label c)) (t.mem (t.esp + 4)) c) sp =
          (List.range 11).map fun k => ([0, 0, 0, sp + 32, 0, 0, 0, 0, start, kernelCs, 512] : List Nat).getD k 0 := by
        unfold ctxAt
        apply List.map_congr_left
        intro k hk
        have hk := List.mem_range.1 hk
        rw [key k (by omega), hkeep k (by omega), List.getElem_append_left (by simpa using hk), List.getD_eq_getElem?_getD,
          List.getElem?_eq_getElem (by simpa using hk)]
        rfl
      rw [this]
      simp [List.range, List.range.loop]
    rw [switch_spec t label c sp ht htcs hsp htl2 _ rfl hctx, if_neg hst]
  · intro k hk
    rw [show sp + 44 + 4 * k = sp + 4 * (11 + k) by omega, key (11 + k) (by omega), hkeep (11 + k) (by omega),
      List.getElem_append_right (by simp)]
    simp

/-- **C70** The first time a thread created in the kernel is given the processor it starts at the address given, with interrupts enabled, as
if `pok_thread_start` had been called with its entry point and identifier. -/
theorem C70_first_run (t : Cpu) (m : Nat → Nat) (label c stack size start id entry : Nat) (hsz : 60 ≤ size)
    (ht : t.esp = c + 44) (htcs : t.cs = kernelCs) (hsp : t.mem (t.esp + 8) = stack + size - 60)
    (hkeep : ∀ k < 14, t.mem (stack + size - 60 + 4 * k) = (contextCreate m stack size start id entry).2 (stack + size - 60 + 4 * k))
    (hsep : ∀ k < 11, ∀ j < 14, c + 4 * k ≠ stack + size - 60 + 4 * j) (htl2 : t.mem (t.esp + 4) ≠ t.esp + 8)
    (htl3 : ∀ k < 14, t.mem (t.esp + 4) ≠ stack + size - 60 + 4 * k) (hst : start ≠ label) :
    let r := t.contextSwitch label
    (contextCreate m stack size start id entry).1 = stack + size - 60 ∧
    r.eip = start ∧ r.cs = kernelCs ∧ r.eflags = 512 ∧ stack ≤ r.esp ∧ r.esp + 12 ≤ stack + size ∧ r.mem (r.esp + 4) = entry ∧ r.mem (r.esp + 8) = id := by
  have hk' : ∀ k (h : k < 11 + [0, entry, id].length), t.mem (stack + size - 60 + 4 * k) =
      ([0, 0, 0, stack + size - 60 + 32, 0, 0, 0, 0, start, kernelCs, 512] ++ [0, entry, id])[k]'(by simp at *; omega) := by
    intro k hk
    rw [hkeep k (by simpa using hk)]
    unfold contextCreate
    rw [show stack + size - 4 - 56 = stack + size - 60 by omega]
    exact writeWords_get (by simp at *; omega)
  obtain ⟨m', h1, h2⟩ := fresh_switch t label c _ start [0, entry, id] ht htcs hsp hk' (by simpa using hsep) htl2 (by simpa using htl3) hst
  have e1 := h2 1 (by simp)
  have e2 := h2 2 (by simp)
  rw [h1]
  refine ⟨by unfold contextCreate; simp only; omega, rfl, rfl, rfl, by simp only; omega, by simp only; omega, ?_, ?_⟩
  · simpa using e1
  · simpa using e2

/-- **C70** The first time a partition's thread is given the processor it starts in the partition: at its entry point, on its own stack, in
user mode with the partition's segments and interrupts enabled, its two arguments in registers; and the kernel stack the processor will use
when it is interrupted is its own. -/
theorem C70_user_start (t : Cpu) (m : Nat → Nat) (label c stack dispatch pid entry aff userSp arg1 arg2 nproc frame : Nat)
    (hp : pid < 256) (ha : aff < 256) (ht : t.esp = c + 44) (htcs : t.cs = kernelCs) (hsp : t.mem (t.esp + 8) = stack + 8112)
    (hkeep : ∀ k < 19, t.mem (stack + 8112 + 4 * k) = (spaceContextCreate m stack dispatch pid entry aff userSp arg1 arg2).2 (stack + 8112 + 4 * k))
    (hsep : ∀ k < 11, ∀ j < 19, c + 4 * k ≠ stack + 8112 + 4 * j) (htl2 : t.mem (t.esp + 4) ≠ t.esp + 8)
    (htl3 : ∀ k < 19, t.mem (t.esp + 4) ≠ stack + 8112 + 4 * k) (hst : dispatch ≠ label) :
    (spaceContextCreate m stack dispatch pid entry aff userSp arg1 arg2).1 = stack + 8112 ∧
    (t.contextSwitch label).eip = dispatch ∧
    let (r, esp0, proc) := (t.contextSwitch label).dispatchSpace nproc frame
    r.eip = entry ∧ r.esp = userSp ∧ r.cs = userSelector (X86.codeSeg nproc pid) ∧ r.ds = userSelector (X86.dataSeg nproc pid) ∧
    r.es = userSelector (X86.dataSeg nproc pid) ∧ r.ss = userSelector (X86.dataSeg nproc pid) ∧
    r.eflags = 512 ∧ r.eax = arg1 ∧ r.ebx = arg2 ∧ r.cs % 4 = 3 ∧ proc = aff ∧ stack ≤ esp0 ∧ esp0 < stack + 8192 := by
  have hk' : ∀ k (h : k < 11 + [0, pid, entry, userSp, aff, stack + 8112, arg1, arg2].length), t.mem (stack + 8112 + 4 * k) =
      ([0, 0, 0, stack + 8112 + 32, 0, 0, 0, 0, dispatch, kernelCs, 512] ++ [0, pid, entry, userSp, aff, stack + 8112, arg1, arg2])[k]'(by simp at *; omega) := by
    intro k hk
    rw [hkeep k (by simpa using hk)]
    unfold spaceContextCreate
    rw [show stack + 8192 - 4 - 76 = stack + 8112 by omega]
    exact writeWords_get (by simp at *; omega)
  obtain ⟨m', h1, h2⟩ := fresh_switch t label c _ dispatch _ ht htcs hsp hk' (by simpa using hsep) htl2 (by simpa using htl3) hst
  have e1 := h2 1 (by simp)
  have e2 := h2 2 (by simp)
  have e3 := h2 3 (by simp)
  have e4 := h2 4 (by simp)
  have e5 := h2 5 (by simp)
  have e6 := h2 6 (by simp)
  have e7 := h2 7 (by simp)
  simp only [List.getElem_cons_succ, List.getElem_cons_zero, Nat.reduceMul, Nat.add_assoc, Nat.reduceAdd] at e1 e2 e3 e4 e5 e6 e7
  rw [h1]
  refine ⟨by unfold spaceContextCreate; simp only; omega, rfl, ?_⟩
  simp only [Cpu.dispatchSpace, Nat.add_assoc, Nat.reduceAdd, Nat.reduceMul, e1, e2, e3, e4, e5, e6, e7, Nat.mod_eq_of_lt hp, Nat.mod_eq_of_lt ha]
  have hw := fun k h => @writeWords_get [partDs nproc pid, partDs nproc pid, 0, 0, 0, frame + 40, arg2, 0, 0, arg1, 0, entry, partCs nproc pid, 512, userSp, partDs nproc pid] m' frame k h
  generalize writeWords m' frame _ = w at *
  have w0 := hw 0 (by simp)
  have w1 := hw 1 (by simp)
  have w6 := hw 6 (by simp)
  have w9 := hw 9 (by simp)
  have w11 := hw 11 (by simp)
  have w12 := hw 12 (by simp)
  have w13 := hw 13 (by simp)
  have w14 := hw 14 (by simp)
  have w15 := hw 15 (by simp)
  simp only [List.getElem_cons_succ, List.getElem_cons_zero, Nat.reduceMul, Nat.add_zero] at w0 w1 w6 w9 w11 w12 w13 w14 w15
  have hpc : partCs nproc pid % 4 = 3 := by unfold partCs; omega
  have hk0 : kernelCs % 4 = 0 := rfl
  have hsc : userSelector (X86.codeSeg nproc pid) = partCs nproc pid := by unfold userSelector X86.codeSeg partCs; omega
  have hsd : userSelector (X86.dataSeg nproc pid) = partDs nproc pid := by unfold userSelector X86.dataSeg partDs; omega
  rw [hsc, hsd]
  simp only [Cpu.top, Cpu.popa, Cpu.drop, Cpu.iret, Nat.add_assoc, Nat.reduceAdd, w0, w1, w6, w9, w11, w12, w13, w14, w15, hpc, hk0]
  simp [hpc]

/-- A thread that calls the context switch. -/
def caller : Cpu := ⟨1, 2, 3, 4, 1044, 6, 7, 8, 0x100800, 8, 0x246, 16, 16, 16, fun a => if a = 1044 then 0x777 else if a = 1048 then 5000 else 3000⟩

/-- Another thread, that switches back to it. -/
def callee : Cpu := ⟨11, 12, 13, 14, 2044, 16, 17, 18, 0x100800, 8, 0x202, 16, 16, 16, fun a => if a = 2048 then 5004 else if a = 2052 then 1000 else (caller.contextSwitch 0x1000).mem a⟩

/-- They meet the hypotheses of `C70_resume`: the first goes on after its call, with its registers. -/
example : (callee.contextSwitch 0x1000).eip = 0x777 ∧ (callee.contextSwitch 0x1000).edx = 3 := by
  have := C70_resume caller callee 0x1000 1000 2000 rfl rfl (by intro k hk; interval_cases k <;> decide) rfl rfl rfl
    (by intro k hk; simp only [callee]; rw [if_neg (by omega), if_neg (by omega)])
    (by intro k hk j hj; omega) (by decide) (by intro k hk; interval_cases k <;> decide)
  exact ⟨this.2.2.2.2.2.2.2.2.2.2.1, this.2.2.2.1⟩

/-- A thread that switches to the context of a new thread of a partition, whose kernel stack is at 0x8000. -/
def starter : Cpu := ⟨11, 12, 13, 14, 2044, 16, 17, 18, 0x100800, 8, 0x202, 16, 16, 16, fun a => if a = 2048 then 5004 else if a = 2052 then 0x8000 + 8112 else (spaceContextCreate (fun _ => 0) 0x8000 0x2000 1 0x40 0 0xff0 5 6).2 a⟩

example : ((starter.contextSwitch 0x1000).dispatchSpace 1 0x9000).1.eip = 0x40 := by
  have := C70_user_start starter (fun _ => 0) 0x1000 2000 0x8000 0x2000 1 0x40 0 0xff0 5 6 1 0x9000 (by decide) (by decide) rfl rfl rfl
    (by intro k hk; simp only [starter]; rw [if_neg (by omega), if_neg (by omega)])
    (by intro k hk j hj; omega) (by decide) (by intro k hk; have : starter.mem (starter.esp + 4) = 5004 := rfl; omega) (by decide)
  exact this.2.2.1

/-! ## Restarting a thread with a delay -/

/-- **C71** (part) Given the stack in which a context was created, and if its entry point and identifier are still there, the reset makes it
as new: the same fourteen words.  What is missing: the kernel does not give it that stack, see the next theorem. -/
theorem C71_reset_partial (m m' : Nat → Nat) (stack size start id entry : Nat) (hsz : 60 ≤ size)
    (he : m' (stack + size - 60 + 48) = entry) (hi : m' (stack + size - 60 + 52) = id) :
    ∀ k < 14, contextReset m' size stack start (stack + size - 60 + 4 * k) = (contextCreate m stack size start id entry).2 (stack + size - 60 + 4 * k) := by
  intro k hk
  unfold contextReset contextCreate
  rw [show stack + size - 4 - 56 = stack + size - 60 by omega]
  simp only [he, hi]
  rw [writeWords_get (by simpa using hk), writeWords_get (by simpa using hk)]

/-- **C71** violated: starting thread `i` of a partition with a delay resets a context at an address that is not in the thread's kernel stack
nor in its partition: the stack address is relative to the partition and used as if it were absolute.  Whatever the memory contains there is
lost, and the thread's own context stays as it was. -/
theorem C71_violated (m : Nat → Nat) (base size i start kstack : Nat) (hs : size < 2 ^ 31) (hi : i * 8192 + 4 ≤ size) (hb : size + 8192 ≤ base)
    (hk : size + 8192 ≤ kstack) :
    let m' := contextReset m 8192 (X86.stackAddr size 8192 i) start
    (∀ a, base ≤ a → a < base + size → m' a = m a) ∧ (∀ a, kstack ≤ a → a < kstack + 8192 → m' a = m a) ∧
    m' (size + 8128 - i * 8192 + 32) = start ∧ m' (size + 8128 - i * 8192 + 36) = kernelCs ∧ m' (size + 8128 - i * 8192) = 0 := by
  have e : X86.stackAddr size 8192 i = size - 4 - i * 8192 := by
    unfold X86.stackAddr
    rw [Nat.mod_eq_of_lt (b := X86.U32) (a := i * 8192) (by simp only [X86.U32]; omega)]
    simp only [X86.U32]
    omega
  have e2 : X86.stackAddr size 8192 i + 8192 - 4 - 56 = size + 8128 - i * 8192 := by omega
  unfold contextReset
  simp only [e2]
  refine ⟨fun a h1 h2 => ?_, fun a h1 h2 => ?_, ?_, ?_, ?_⟩
  · exact writeWords_other (by intro k hk; simp at hk; omega)
  · exact writeWords_other (by intro k hk; simp at hk; omega)
  · exact writeWords_get (k := 8) (by simp)
  · exact writeWords_get (k := 9) (by simp)
  · exact writeWords_get (k := 0) (by simp)

/-- In particular the first thread of a partition of one megabyte: the 56 bytes at 0x101fc0 are overwritten, in the kernel's own image, which
is loaded at one megabyte. -/
theorem C71_kernel_image_violated (m : Nat → Nat) (start : Nat) :
    contextReset m 8192 (X86.stackAddr 0x100000 8192 0) start 0x101fc0 = 0 ∧ contextReset m 8192 (X86.stackAddr 0x100000 8192 0) start 0x101fe0 = start := by
  have := C71_violated m 0x200000 0x100000 0 start 0x200000 (by decide) (by decide) (by decide) (by decide)
  exact ⟨this.2.2.2.2, this.2.2.1⟩

/-! ## Interrupt gates -/

/-- What happens when interrupt `v` is raised: where the processor goes on. -/
def Idt.raise (t : Idt) (v : Nat) (software : Option Nat) : Option Nat :=
  deliver (t v).present (t v).dpl (t v).segsel ((t v).offsetHigh * 65536 + (t v).offsetLow) software

/-- **C67** Before anything is registered no interrupt is delivered. -/
theorem C67_init (v : Nat) (sw : Option Nat) : Idt.init.raise v sw = none := by
  simp [Idt.raise, Idt.init, deliver]

/-- **C67** After a handler is registered for a vector, that interrupt goes on at the handler, and nothing changes for the others. -/
theorem C67_register (t : Idt) (vector handler : Nat) (hv : vector < 256) (hh : handler < 2 ^ 32) :
    ∃ t', t.eventRegister vector handler = some t' ∧ t'.raise vector none = some handler ∧ ∀ v, v ≠ vector → ∀ sw, t'.raise v sw = t.raise v sw := by
  unfold Idt.eventRegister Idt.setGate
  rw [Nat.mod_eq_of_lt hv, if_pos hv]
  refine ⟨_, rfl, ?_, ?_⟩
  · simp only [Idt.raise, upd_same, deliver, kernelCs]
    simp
    omega
  · intro v hne sw
    simp only [Idt.raise, upd_other _ _ hne]

/-- The same for the handlers installed at boot. -/
theorem exceptionInit_get (l : List Nat) (hl : ∀ v ∈ l, v < 256) (handler : Nat → Nat) : ∀ (t t' : Idt),
    l.foldlM (fun t v => Idt.setGate t v kernelCs (handler v) idteInterrupt 3) t = some t' →
    ∀ v, t' v = if v ∈ l then ⟨handler v % 65536, handler v / 65536 % 65536, kernelCs, idteInterrupt, 3, true⟩ else t v := by
  induction l with
  | nil => intro t t' h v; simp at h; simp [h]
  | cons x l ih =>
    intro t t' h v
    have hx : x < 256 := hl x (by simp)
    rw [List.foldlM_cons] at h
    simp only [Idt.setGate, if_pos hx] at h
    have := ih (fun v hv => hl v (by simp [hv])) _ t' h v
    rw [this]
    by_cases h1 : v ∈ l
    · simp [h1]
    · by_cases h2 : v = x
      · subst h2; simp [h1, upd_same, kernelCs, idteInterrupt]
      · simp [h1, h2, upd_other _ _ h2]

theorem syscallInit_eq (t : Idt) (h : Nat) : t.syscallInit h = some (upd t 42 ⟨h % 65536, h / 65536 % 65536, kernelCs, idteInterrupt, 3, true⟩) := rfl

theorem isException_iff (v : Nat) : IsException v ↔ v ∈ exceptionVectors := by
  simp only [IsException, exceptionVectors, List.mem_cons, List.not_mem_nil, or_false]
  omega

theorem hasErrorCode_iff (v : Nat) : HasErrorCode v ↔ v ∈ errorCodeVectors := by
  simp only [HasErrorCode, errorCodeVectors, List.mem_cons, List.not_mem_nil, or_false]
  omega

/-- **C68** So each of the exceptions that the processor can raise, with the error code that it pushes or does not push for it, leaves the
program as it was when its handler returns. -/
theorem C68_every_exception (s : Cpu) (v h esp0 err : Nat) (hc : s.cs % 4 = 3 ∨ s.cs % 4 = 0) (h1 : 68 ≤ esp0) (h2 : 60 ≤ s.esp) (u : Cpu)
    (hu : Called ((s.interrupt h esp0 (if HasErrorCode v then some err else none)).enterException v) u) : SameRegs u.leave s := by
  unfold Cpu.enterException at hu
  by_cases hv : HasErrorCode v
  · rw [if_pos hv, if_pos ((hasErrorCode_iff v).1 hv)] at hu
    exact C68_exception s h esp0 err hc h1 h2 u hu
  · rw [if_neg hv, if_neg (fun hm => hv ((hasErrorCode_iff v).2 hm))] at hu
    exact C68_interrupt s h esp0 hc h1 h2 u hu

/-- Two exceptions, with and without an error code. -/
example : HasErrorCode 14 ∧ ¬HasErrorCode 0 ∧ IsException 14 ∧ IsException 0 := by decide

/-- **C67** After boot every exception of the processor, and the system call interrupt, goes on at its own handler; no other interrupt is
delivered. -/
theorem C67_boot (handler : Nat → Nat) (hh : ∀ v, handler v < 2 ^ 32) :
    ∃ t, Idt.eventInit handler = some t ∧
      ∀ v, t.raise v none = if IsException v ∨ v = 42 then some (handler v) else none := by
  simp only [isException_iff]
  have h1 : ∃ t, Idt.init.exceptionInit handler = some t := by
    unfold Idt.exceptionInit
    simp [exceptionVectors, Idt.setGate]
  obtain ⟨t, ht⟩ := h1
  have hg := exceptionInit_get exceptionVectors (by decide) handler Idt.init t ht
  unfold Idt.eventInit
  rw [ht]
  refine ⟨_, by rw [Option.bind_some]; exact syscallInit_eq t _, ?_⟩
  intro v
  have := hh v
  by_cases h42 : v = 42
  · subst h42
    simp only [Idt.raise, upd_same, deliver, kernelCs, syscallVector]
    simp
    omega
  · simp only [Idt.raise, upd_other _ _ h42, hg v, h42, or_false]
    by_cases hm : v ∈ exceptionVectors
    · simp only [hm, if_true, deliver, kernelCs]
      simp
      omega
    · simp [hm, Idt.init, deliver]

/-- **C67** violated: every gate installed at boot or registered later can be used by a program of a partition (privilege 3) with the `int`
instruction.  So it can for instance make the timer advance (vector 32), or raise a processor exception that did not happen. -/
theorem C67_forged_violated (t : Idt) (vector handler : Nat) (hv : vector < 256) (hh : handler < 2 ^ 32) :
    ∃ t', t.eventRegister vector handler = some t' ∧ t'.raise vector (some 3) = some handler := by
  unfold Idt.eventRegister Idt.setGate
  rw [Nat.mod_eq_of_lt hv, if_pos hv]
  refine ⟨_, rfl, ?_⟩
  simp only [Idt.raise, upd_same, deliver, kernelCs]
  simp
  omega

/-- Likewise the exceptions. -/
theorem C67_exceptions_forged_violated (handler : Nat → Nat) (hh : ∀ v, handler v < 2 ^ 32) :
    ∃ t, Idt.eventInit handler = some t ∧ ∀ v, IsException v → t.raise v (some 3) = some (handler v) := by
  simp only [isException_iff]
  have h1 : ∃ t, Idt.init.exceptionInit handler = some t := by
    unfold Idt.exceptionInit
    simp [exceptionVectors, Idt.setGate]
  obtain ⟨t, ht⟩ := h1
  have hg := exceptionInit_get exceptionVectors (by decide) handler Idt.init t ht
  unfold Idt.eventInit
  rw [ht]
  refine ⟨_, by rw [Option.bind_some]; exact syscallInit_eq t _, ?_⟩
  intro v hv
  have := hh v
  have h42 : v ≠ 42 := by rintro rfl; revert hv; decide
  simp only [Idt.raise, upd_other _ _ h42, hg v, hv, if_true, deliver, kernelCs]
  simp
  omega

/-- **C67** violated: the gate of a network card names the null segment, so that its interrupt is never delivered to its handler. -/
theorem C67_pci_violated (t : Idt) (line handler : Nat) (hl : line < 224) :
    ∃ t', t.pciGate line handler = some t' ∧ t'.raise (32 + line) none = none := by
  unfold Idt.pciGate Idt.setGate
  rw [if_pos (by omega)]
  refine ⟨_, rfl, ?_⟩
  simp [Idt.raise, upd_same, deliver]

/-- **C67** violated: a card on interrupt line 10 takes the system call gate: from then on no partition can make a system call. -/
theorem C67_syscall_lost_violated (t : Idt) (handler : Nat) : ∃ t', t.pciGate 10 handler = some t' ∧ t'.raise syscallVector (some 3) = none := by
  refine ⟨_, rfl, ?_⟩
  simp [Idt.raise, upd, deliver, syscallVector]

/-- **C67** violated: the vector is computed on eight bits, so registering interrupt line 224 replaces the handler of the division error. -/
theorem C67_wrap_violated (s : Pic) (t : Idt) (handler : Nat) (hh : handler < 2 ^ 32) :
    ∃ s' t', irqRegister s t 224 handler = some (s', t') ∧ s' = s ∧ t'.raise 0 none = some handler := by
  refine ⟨_, _, rfl, rfl, ?_⟩
  simp only [Idt.raise, upd, deliver, kernelCs]
  simp
  omega

/-! ## Interrupts in the kernel -/

theorem cli_bit (f : Nat) : (cli f).testBit 9 = false := by
  rw [Nat.testBit_eq_decide_div_mod_eq, cli]
  simp
  omega

theorem cli_other (f : Nat) {i : Nat} (hi : i ≠ 9) : (cli f).testBit i = f.testBit i := by
  have e : f = 2 ^ 10 * (f / 1024) + (f / 512 % 2 * 512 + f % 512) := by omega
  have c : cli f = 2 ^ 10 * (f / 1024) + f % 512 := by unfold cli; omega
  have d : (f / 512 % 2 * 512 + f % 512) = 2 ^ 9 * (f / 512 % 2) + f % 512 := by omega
  rw [c]
  conv_rhs => rw [e]
  rw [Nat.testBit_two_pow_mul_add _ (by omega), Nat.testBit_two_pow_mul_add _ (by omega)]
  split
  · rw [d, Nat.testBit_two_pow_mul_add _ (by omega), if_pos (by omega)]
  · rfl

theorem push_flags (s : Cpu) (v : Nat) : (s.push v).eflags = s.eflags := rfl

theorem pusha_flags (s : Cpu) : s.pusha.eflags = s.eflags := by
  simp only [Cpu.pusha, push_flags]

/-- **C74** (part) The body of every handler, however it was entered (exception, interrupt or system call; interrupt or trap gate; from a
partition or from the kernel), runs with interrupts masked, the other flags as they were, and the kernel's data segments; its frame is on the stack.  What is missing: see
`C74_start_violated`. -/
theorem C74_handler_partial (s : Cpu) : Masked s.enter ∧ s.enter.ds = 16 ∧ s.enter.es = 16 ∧ Masked s.enterErr ∧ s.enterErr.ds = 16 ∧ s.enterErr.es = 16 ∧
    ∀ i, i ≠ 9 → s.enter.eflags.testBit i = s.eflags.testBit i ∧ s.enterErr.eflags.testBit i = s.eflags.testBit i := by
  refine ⟨?_, rfl, rfl, ?_, rfl, rfl, fun i hi => ⟨?_, ?_⟩⟩
  · simp only [Masked, Cpu.enter, push_flags, pusha_flags, cli_bit]
  · simp only [Masked, Cpu.enterErr, push_flags, pusha_flags, cli_bit]
  · simp only [Cpu.enter, push_flags, pusha_flags, cli_other _ hi]
  · simp only [Cpu.enterErr, push_flags, pusha_flags, cli_other _ hi]

/-- **C74** (part) After boot the gates of exceptions and of the system call mask interrupts from the first instruction on (type 6); the gates
registered later do not (type 7), and their handlers do it with their first instruction. -/
theorem C74_gates_partial (handler : Nat → Nat) :
    ∃ t, Idt.eventInit handler = some t ∧ (∀ v, IsException v ∨ v = 42 → (t v).type = 6) ∧
      ∀ vector h, vector < 256 → ∃ t', t.eventRegister vector h = some t' ∧ (t' vector).type = 7 := by
  simp only [isException_iff]
  have h1 : ∃ t, Idt.init.exceptionInit handler = some t := by
    unfold Idt.exceptionInit
    simp [exceptionVectors, Idt.setGate]
  obtain ⟨t, ht⟩ := h1
  have hg := exceptionInit_get exceptionVectors (by decide) handler Idt.init t ht
  unfold Idt.eventInit
  rw [ht]
  refine ⟨_, by rw [Option.bind_some]; exact syscallInit_eq t _, ?_, ?_⟩
  · intro v hv
    by_cases h42 : v = 42
    · subst h42; simp [upd_same, idteInterrupt]
    · rw [upd_other _ _ h42, hg v, if_pos (by tauto)]; rfl
  · intro vector h hv
    unfold Idt.eventRegister Idt.setGate
    rw [Nat.mod_eq_of_lt hv, if_pos hv]
    exact ⟨_, rfl, by simp [upd_same, idteTrap]⟩

/-- **C74** violated: the kernel code that runs first in a new thread, at `pok_dispatch_space`, is entered with interrupts enabled: another
interrupt can come before the thread's kernel stack is recorded. -/
theorem C74_start_violated (t : Cpu) (m : Nat → Nat) (label c stack dispatch pid entry aff userSp arg1 arg2 : Nat)
    (ht : t.esp = c + 44) (htcs : t.cs = kernelCs) (hsp : t.mem (t.esp + 8) = stack + 8112)
    (hkeep : ∀ k < 19, t.mem (stack + 8112 + 4 * k) = (spaceContextCreate m stack dispatch pid entry aff userSp arg1 arg2).2 (stack + 8112 + 4 * k))
    (hsep : ∀ k < 11, ∀ j < 19, c + 4 * k ≠ stack + 8112 + 4 * j) (htl2 : t.mem (t.esp + 4) ≠ t.esp + 8)
    (htl3 : ∀ k < 19, t.mem (t.esp + 4) ≠ stack + 8112 + 4 * k) (hst : dispatch ≠ label) :
    (t.contextSwitch label).eip = dispatch ∧ (t.contextSwitch label).cs = kernelCs ∧ ¬Masked (t.contextSwitch label) := by
  have hk' : ∀ k (h : k < 11 + [0, pid, entry, userSp, aff, stack + 8112, arg1, arg2].length), t.mem (stack + 8112 + 4 * k) =
      ([0, 0, 0, stack + 8112 + 32, 0, 0, 0, 0, dispatch, kernelCs, 512] ++ [0, pid, entry, userSp, aff, stack + 8112, arg1, arg2])[k]'(by simp at *; omega) := by
    intro k hk
    rw [hkeep k (by simpa using hk)]
    unfold spaceContextCreate
    rw [show stack + 8192 - 4 - 76 = stack + 8112 by omega]
    exact writeWords_get (by simp at *; omega)
  obtain ⟨m', h1, -⟩ := fresh_switch t label c _ dispatch _ ht htcs hsp hk' (by simpa using hsep) htl2 (by simpa using htl3) hst
  rw [h1]
  refine ⟨rfl, rfl, ?_⟩
  simp only [Masked]
  decide

example : (starter.contextSwitch 0x1000).eip = 0x2000 := by
  have := C74_start_violated starter (fun _ => 0) 0x1000 2000 0x8000 0x2000 1 0x40 0 0xff0 5 6 rfl rfl rfl
    (by intro k hk; simp only [starter]; rw [if_neg (by omega), if_neg (by omega)])
    (by intro k hk j hj; omega) (by decide) (by intro k hk; have : starter.mem (starter.esp + 4) = 5004 := rfl; omega) (by decide)
  exact this.1

/-! ## Interrupt controller -/

/-- The controllers after these requests (the last one is the head of the list). -/
def Pic.run : List IrqOp → Pic
  | [] => Pic.init
  | .mask i :: ops => ((Pic.run ops).mask i).2
  | .unmask i :: ops => ((Pic.run ops).unmask i).2

/-- Is line `irq` let through?  Each controller has one mask bit per line. -/
def Pic.isOpen (s : Pic) (irq : Nat) : Bool := if irq < 8 then !s.master.testBit irq else !s.slave.testBit (irq - 8)

theorem shift_bit (i j : Nat) : (1 <<< i).testBit j = decide (i = j) := by
  rw [Nat.one_shiftLeft, Nat.testBit_two_pow]

/-- **C69** After any requests, a line is open exactly if the last request about it was to unmask it. -/
theorem C69_lines (line : Nat) (hl : line < 16) : ∀ ops, (Pic.run ops).isOpen line = openAfter line ops := by
  have b255 : ∀ j < 8, (255 : Nat).testBit j = true := by decide
  intro ops
  induction ops with
  | nil => revert hl; revert line; decide
  | cons op ops ih =>
    have ih' := ih
    unfold Pic.isOpen at ih
    cases op with
    | mask i =>
      simp only [Pic.run, openAfter, Pic.mask]
      split
      · rw [if_neg (by omega), ih']
      · split
        · unfold Pic.isOpen
          simp only
          by_cases h8 : line < 8
          · rw [if_pos h8] at ih ⊢
            rw [show (256 : Nat) = 2 ^ 8 from rfl, Nat.testBit_mod_two_pow, Nat.testBit_or, shift_bit]
            by_cases he : i = line
            · simp [he, h8]
            · simp [he, h8]; rw [← ih]; simp
          · rw [if_neg h8] at ih ⊢
            rw [if_neg (by omega), ih]
        · unfold Pic.isOpen
          simp only
          by_cases h8 : line < 8
          · rw [if_pos h8] at ih ⊢
            rw [if_neg (by omega), ih]
          · rw [if_neg h8] at ih ⊢
            rw [show (256 : Nat) = 2 ^ 8 from rfl, Nat.testBit_mod_two_pow, Nat.testBit_or, shift_bit]
            have hlt : line - 8 < 8 := by omega
            by_cases he : i = line
            · simp [he, hlt]
            · have : ¬(i - 8 = line - 8) := by omega
              simp [he, this, hlt]; rw [← ih]; simp
    | unmask i =>
      simp only [Pic.run, openAfter, Pic.unmask]
      split
      · rw [if_neg (by omega), ih']
      · split
        · unfold Pic.isOpen
          simp only
          by_cases h8 : line < 8
          · rw [if_pos h8] at ih ⊢
            rw [Nat.testBit_and, Nat.testBit_xor, shift_bit, b255 _ h8]
            by_cases he : i = line
            · simp [he]
            · simp [he]; rw [← ih]; simp
          · rw [if_neg h8] at ih ⊢
            rw [if_neg (by omega), ih]
        · unfold Pic.isOpen
          simp only
          by_cases h8 : line < 8
          · rw [if_pos h8] at ih ⊢
            rw [if_neg (by omega), ih]
          · rw [if_neg h8] at ih ⊢
            have hlt : line - 8 < 8 := by omega
            rw [Nat.testBit_and, Nat.testBit_xor, shift_bit, b255 _ hlt]
            by_cases he : i = line
            · simp [he]
            · have : ¬(i - 8 = line - 8) := by omega
              simp [he, this]; rw [← ih]; simp

/-- **C69** A line that does not exist is refused, without effect; the others are accepted. -/
theorem C69_refused (s : Pic) (irq : Nat) :
    ((s.mask irq).1 = true ↔ irq < 16) ∧ ((s.unmask irq).1 = true ↔ irq < 16) ∧ (16 ≤ irq → (s.mask irq).2 = s ∧ (s.unmask irq).2 = s) := by
  unfold Pic.mask Pic.unmask
  by_cases h : irq > 15
  · simp [h]; omega
  · simp only [h, if_false]
    split <;> simp <;> omega

example : (Pic.run [.mask 3, .unmask 12, .unmask 3]).isOpen 12 = true ∧ (Pic.run [.mask 3, .unmask 12, .unmask 3]).isOpen 3 = false := by decide

/-- Registering a handler opens the line and installs the handler. -/
theorem C69_register (s : Pic) (t : Idt) (irq handler : Nat) (hi : irq < 16) (hh : handler < 2 ^ 32) :
    ∃ s' t', irqRegister s t irq handler = some (s', t') ∧ s'.isOpen irq = true ∧ t'.raise (32 + irq) none = some handler := by
  obtain ⟨t', h1, h2, -⟩ := C67_register t (32 + irq) handler (by omega) hh
  refine ⟨_, t', by unfold irqRegister; rw [h1]; rfl, ?_, h2⟩
  have b255 : ∀ j < 8, (255 : Nat).testBit j = true := by decide
  have h15 : ¬irq > 15 := by omega
  unfold Pic.unmask Pic.isOpen
  simp only [h15, if_false]
  by_cases h : irq < 8
  · simp only [h, if_true, Nat.testBit_and, Nat.testBit_xor, shift_bit, b255 _ h]
    simp
  · simp only [h, if_false, Nat.testBit_and, Nat.testBit_xor, shift_bit, b255 (irq - 8) (by omega)]
    simp

/-- **C68** What the C function behind a handler finds when a partition's program is interrupted: the processor goes on at the address in the
gate, in the kernel's segments; the argument on the stack is the address of the frame, and in the frame the registers of the program, at the
places of `interrupt_frame` (es, ds, edi, esi, ebp, ebx, edx, ecx, eax, eip, cs, eflags, esp, ss). -/
theorem C68_frame (s : Cpu) (h esp0 : Nat) (hc : s.cs % 4 = 3) (h1 : 68 ≤ esp0) :
    let t := s.interrupt h esp0 none
    let f := t.enter.mem t.enter.esp
    t.eip = h ∧ t.enter.cs = 8 ∧ t.enter.ss = 16 ∧ t.enter.ds = 16 ∧ t.enter.es = 16 ∧ f = t.enter.esp + 4 ∧
      t.enter.mem f = s.es ∧ t.enter.mem (f + 4) = s.ds ∧ t.enter.mem (f + 8) = s.edi ∧ t.enter.mem (f + 12) = s.esi ∧ t.enter.mem (f + 16) = s.ebp ∧
      t.enter.mem (f + 24) = s.ebx ∧ t.enter.mem (f + 28) = s.edx ∧ t.enter.mem (f + 32) = s.ecx ∧ t.enter.mem (f + 36) = s.eax ∧
      t.enter.mem (f + 44) = s.eip ∧ t.enter.mem (f + 48) = s.cs ∧ t.enter.mem (f + 52) = s.eflags ∧ t.enter.mem (f + 56) = s.esp ∧ t.enter.mem (f + 60) = s.ss := by
  obtain ⟨b, rfl⟩ : ∃ b, esp0 = b + 68 := ⟨esp0 - 68, by omega⟩
  intro t f
  have hf : f = b + 4 := by simp [f, t, Cpu.interrupt, Cpu.enter, Cpu.push, Cpu.pusha, hc]
  rw [hf]
  refine ⟨rfl, ?_⟩
  simp [t, Cpu.interrupt, Cpu.enter, Cpu.push, Cpu.pusha, hc, upd, Nat.add_assoc, kernelCs, kernelDs]

/-- **C68**, part: the handler of the test inter-processor interrupt tells the interrupt controller that it is done and leaves every register
but `eax` as it was.

Missing from the full claim: `eax` (`C68_ipi_violated`). -/
theorem C68_ipi_partial (s : Cpu) (h esp0 lapic : Nat) (hc : s.cs % 4 = 3 ∨ s.cs % 4 = 0) (h1 : 68 ≤ esp0) (h2 : 60 ≤ s.esp) (u : Cpu)
    (hu : Called (s.interrupt h esp0 none).enter u) (hl : ∀ a, u.esp ≤ a → a < u.esp + 68 → a ≠ lapic + 0xB0) :
    SameRegs (u.leaveIpi (endIpi lapic)) { s with eax := lapic } ∧ (u.leaveIpi (endIpi lapic)).mem (lapic + 0xB0) = 1 := by
  have hf := frame_called hu
  have hm : (u.leaveIpi (endIpi lapic)).mem (lapic + 0xB0) = 1 := by
    unfold Cpu.leaveIpi
    simp only [iret_mem]
    exact upd_same _ _ _
  refine ⟨?_, hm⟩
  rcases hc with hc | hc
  · obtain ⟨b, rfl⟩ : ∃ b, esp0 = b + 68 := ⟨esp0 - 68, by omega⟩
    obtain ⟨e1, e2, a, c, e3⟩ := enter_user s h b hc
    rw [e1, e3] at hf
    have he : u.esp = b := by rw [hu.esp, e1]
    have hcs : u.cs % 4 = 0 := by rw [hu.cs, e2]; rfl
    rw [he] at hl
    simp only [frame, List.range, List.range.loop, List.map_cons, List.map_nil, List.cons.injEq, and_true, Nat.add_assoc, Nat.reduceAdd, Nat.reduceMul] at hf
    obtain ⟨g0, g1, g2, g3, g4, g5, g6, g7, g8, g9, g10, g11, g12, g13, g14, g15⟩ := hf
    have k : ∀ i, i < 68 → upd u.mem (lapic + 176) 1 (b + i) = u.mem (b + i) := fun i hi => upd_other _ _ (hl _ (by omega) (by omega))
    have k11 := k 48 (by omega)
    have k12 := k 52 (by omega)
    have k13 := k 56 (by omega)
    have k14 := k 60 (by omega)
    have k15 := k 64 (by omega)
    constructor <;>
      simp [Cpu.leaveIpi, endIpi, Cpu.drop, Cpu.top, Cpu.popa, Cpu.iret, he, Nat.add_assoc, k11, k12, k13, k14, k15, g0, g1, g2, g3, g4, g6, g7, g8, g11, g12, g13, g14, g15, hcs, hc]
  · obtain ⟨b, hb⟩ : ∃ b, s.esp = b + 60 := ⟨s.esp - 60, by omega⟩
    obtain ⟨e1, e2, e4, a, c, d, e, e3⟩ := enter_kernel s h b esp0 hc hb
    rw [e1, e3] at hf
    have he : u.esp = b := by rw [hu.esp, e1]
    have hcs : u.cs % 4 = 0 := by rw [hu.cs, e2]; rfl
    have hss : u.ss = s.ss := by rw [hu.ss, e4]
    rw [he] at hl
    simp only [frame, List.range, List.range.loop, List.map_cons, List.map_nil, List.cons.injEq, and_true, Nat.add_assoc, Nat.reduceAdd, Nat.reduceMul] at hf
    obtain ⟨g0, g1, g2, g3, g4, g5, g6, g7, g8, g9, g10, g11, g12, g13, g14, g15⟩ := hf
    have k : ∀ i, i < 68 → upd u.mem (lapic + 176) 1 (b + i) = u.mem (b + i) := fun i hi => upd_other _ _ (hl _ (by omega) (by omega))
    have k11 := k 48 (by omega)
    have k12 := k 52 (by omega)
    have k13 := k 56 (by omega)
    constructor <;>
      simp [Cpu.leaveIpi, endIpi, Cpu.drop, Cpu.top, Cpu.popa, Cpu.iret, he, Nat.add_assoc, k11, k12, k13, g0, g1, g2, g3, g4, g6, g7, g8, g11, g12, g13, hcs, hc, hss, hb]

/-- The controller's registers are away from the stack. -/
example : ∀ a, (sample.interrupt 0x100000 9000 none).enter.esp ≤ a → a < (sample.interrupt 0x100000 9000 none).enter.esp + 68 → a ≠ 0xFEE00000 + 0xB0 := by
  intro a h1 h2
  simp [sample, Cpu.interrupt, Cpu.enter, Cpu.push, Cpu.pusha] at h1 h2
  omega

end Pok.Machine
