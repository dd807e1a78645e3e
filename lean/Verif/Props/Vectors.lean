import Verif.Model.Vectors
import Verif.Props.PpcCpu
import Mathlib.Tactic.SplitIfs
import Mathlib.Logic.Basic
/-!
# C127: traps of the SPARC and PowerPC kernels reach their handlers, and an error of one partition stays there

Also the stacks of threads on these machines (C54), the result of a system call on PowerPC (C102), and the interrupt mask.
-/
namespace Pok.Vectors
open PpcCpu

/-! ## Registration and delivery on SPARC -/

theorem register_at (isr : Nat → Option Handler) (v : Nat) (h : Handler) (n : Nat) (hn : n < 256) :
    (register isr v h).1 n = (isr n).or (if v % 256 = n then some h else none) := by
  unfold register
  by_cases e : v % 256 = n
  · subst e
    by_cases c : isr (v % 256) = none
    · simp [c]
    · rw [if_neg c]
      obtain ⟨x, hx⟩ := Option.ne_none_iff_exists'.1 c
      simp [hx]
  · by_cases c : isr (v % 256) = none
    · rw [if_pos c]; simp only [if_neg e, Option.or_none]; exact upd_other _ _ (Ne.symm e)
    · rw [if_neg c]; simp [e]

theorem registers_at (l : List (Nat × Handler)) : ∀ (isr : Nat → Option Handler) (n : Nat), n < 256 →
    (registers isr l).1 n = (isr n).or ((l.find? fun p => p.1 % 256 = n).map (·.2)) := by
  induction l with
  | nil => intro isr n _; simp [registers]
  | cons p l ih =>
    intro isr n hn
    obtain ⟨v, h⟩ := p
    show (registers (register isr v h).1 l).1 n = _
    rw [ih _ n hn, register_at _ _ _ _ hn]
    by_cases e : v % 256 = n
    · simp [e]
    · simp [e]

/-- **C127** (part) The first handler registered for a trap is the one that runs: after any sequence of registrations from start-up, the handler of trap `n` is
that of the first registration for `n`. -/
theorem C127_first_partial (l : List (Nat × Handler)) (n : Nat) (hn : n < 256) :
    (registers noHandlers l).1 n = (l.find? fun p => p.1 % 256 = n).map (·.2) := by
  rw [registers_at l _ n hn]; simp [noHandlers]

theorem answers_at (l : List (Nat × Handler)) : ∀ (isr : Nat → Option Handler) (k : Nat) (hk : k < l.length),
    (registers isr l).2[k]? = some (if isr (l[k].1 % 256) = none ∧ ∀ j (hj : j < k), (l[j]'(by omega)).1 % 256 ≠ l[k].1 % 256 then .ok else .unavailable) := by
  induction l with
  | nil => intro isr k hk; simp at hk
  | cons p l ih =>
    intro isr k hk
    obtain ⟨v, h⟩ := p
    cases k with
    | zero =>
      show some (register isr v h).2 = _
      congr 1
      simp only [List.getElem_cons_zero]
      unfold register
      by_cases c : isr (v % 256) = none
      · rw [if_pos c, if_pos ⟨c, fun j hj => by omega⟩]
      · rw [if_neg c, if_neg (fun x => c x.1)]
    | succ k =>
      show (registers (register isr v h).1 l).2[k]? = _
      have hk' : k < l.length := by simpa using hk
      rw [ih _ k hk']
      congr 1
      simp only [List.getElem_cons_succ]
      rw [register_at _ _ _ _ (Nat.mod_lt _ (by omega))]
      apply if_congr _ rfl rfl
      constructor
      · rintro ⟨a, b⟩
        have a1 : isr (l[k].1 % 256) = none := by
          cases q : isr (l[k].1 % 256) with
          | none => rfl
          | some x => rw [q] at a; simp at a
        have a2 : v % 256 ≠ l[k].1 % 256 := by
          intro q
          rw [a1, if_pos q] at a
          simp at a
        refine ⟨a1, fun j hj => ?_⟩
        cases j with
        | zero => exact a2
        | succ j => exact b j (by omega)
      · rintro ⟨a, b⟩
        have a2 : v % 256 ≠ l[k].1 % 256 := b 0 (by omega)
        refine ⟨by rw [a, if_neg a2]; rfl, fun j hj => b (j + 1) (by omega)⟩

/-- **C127** (part) A registration is answered `POK_ERRNO_OK` exactly if it is the first for its trap. -/
theorem C127_answer_partial (l : List (Nat × Handler)) (k : Nat) (hk : k < l.length) :
    (registers noHandlers l).2[k]? = some (if ∀ j (hj : j < k), (l[j]'(by omega)).1 % 256 ≠ l[k].1 % 256 then .ok else .unavailable) := by
  rw [answers_at l _ k hk]; simp [noHandlers]

/-- **C127** (part) After start-up, whatever is registered later, a system call runs the system call handler and a timer interrupt the handler of the timer. -/
theorem C127_delivered_partial (debug : Bool) (l : List (Nat × Handler)) :
    trap debug (registers noHandlers (startUp ++ l)).1 0x82 = .runs .syscall ∧ trap debug (registers noHandlers (startUp ++ l)).1 0x18 = .runs .timer := by
  have a : (registers noHandlers (startUp ++ l)).1 0x82 = some .syscall := by rw [C127_first_partial _ _ (by omega)]; rfl
  have b : (registers noHandlers (startUp ++ l)).1 0x18 = some .timer := by rw [C127_first_partial _ _ (by omega)]; rfl
  have v1 : vector 0x82 = .handle 0x82 := by decide
  have v2 : vector 0x18 = .handle 0x18 := by decide
  unfold trap
  rw [v1, v2]
  simp only [trapHandler, a, b]
  exact ⟨trivial, trivial⟩

/-- The traps of the SPARC V8 architecture other than reset, the two of the register windows and the interrupt of the highest level, by their numbers in the manual:
the exceptions 1 to 4 and 7 to 11, the interrupts of the levels 1 to 14 (16 + level), 32, 33, 36, 37, 40 to 44 and 60. -/
def manual : List Nat := [1, 2, 3, 4, 7, 8, 9, 10, 11, 17, 18, 19, 20, 21, 22, 23, 24, 25, 26, 27, 28, 29, 30, 32, 33, 36, 37, 40, 41, 42, 43, 44, 60]

/-- **C127** (part) The table of the traps leads every exception and every interrupt below the highest level to the handler registered for its number, and the overflow
and the underflow of the register windows (5 and 6) to the code that stores and loads the windows, whatever is registered. -/
theorem C127_table_partial (debug : Bool) (isr : Nat → Option Handler) :
    (∀ n ∈ manual, ∀ h, isr n = some h → trap debug isr n = .runs h) ∧ trap debug isr 5 = .window ∧ trap debug isr 6 = .window := by
  refine ⟨fun n hn h e => ?_, rfl, rfl⟩
  have v : ∀ n ∈ manual, vector n = .handle n := by decide
  unfold trap trapHandler
  rw [v n hn]
  simp only [e]

example : trap true (registers noHandlers [(11, .other 3), (44, .other 4)]).1 11 = .runs (.other 3) ∧ trap true (registers noHandlers [(11, .other 3), (44, .other 4)]).1 44 = .runs (.other 4) := by
  have k := fun n h hn => (C127_table_partial true (registers noHandlers [(11, .other 3), (44, .other 4)]).1).1 n hn h
  exact ⟨k 11 _ (by decide) (by decide), k 44 _ (by decide) (by decide)⟩

/-! ## Errors of a partition on SPARC -/

/-- **C127** violated: on SPARC one instruction of any partition starts the whole kernel anew.  The instruction `ta n`, which every program may execute, makes trap
128 + n; the entries of the trap table lead to the start of the kernel for every n but 2. -/
theorem C127_software_trap_violated (debug : Bool) (isr : Nat → Option Handler) (n : Nat) (hn : n < 128) (h2 : n ≠ 2) : trap debug isr (0x80 + n) = .restart := by
  have : vector (0x80 + n) = .reset := by unfold vector; split_ifs <;> first | rfl | omega
  unfold trap
  rw [this]

/-- **C127** violated: on SPARC the interrupt of the highest level (trap 31), which cannot be masked, starts the whole kernel anew, although a handler can be registered for
it and the registration is answered `POK_ERRNO_OK`. -/
theorem C127_highest_violated (debug : Bool) (l : List (Nat × Handler)) (h : Handler) (hl : ∀ p ∈ l, p.1 % 256 ≠ 31) :
    (register (registers noHandlers l).1 31 h).2 = .ok ∧ (register (registers noHandlers l).1 31 h).1 31 = some h ∧
      trap debug (register (registers noHandlers l).1 31 h).1 31 = .restart := by
  have e : (registers noHandlers l).1 31 = none := by
    rw [C127_first_partial _ _ (by omega), Option.map_eq_none_iff, List.find?_eq_none]
    intro p hp; simpa using hl p hp
  refine ⟨by simp [register, e], by simp [register, e], rfl⟩

example : ∀ p ∈ startUp, p.1 % 256 ≠ 31 := by decide

/-- The traps by which the processor reports an error of the running program: instruction access, illegal and privileged instruction, floating point disabled,
alignment, data access, tag overflow, coprocessor disabled, division by zero. -/
def programErrors : List Nat := [0x01, 0x02, 0x03, 0x04, 0x07, 0x09, 0x0A, 0x24, 0x2A]

/-- **C127** violated: on SPARC no error of a program reaches the error handling of its partition.  With the handlers that the kernel registers, an access outside the
partition's memory, an illegal instruction and so on stop the processor for all partitions in a kernel with debugging, and in a kernel without it are answered by
executing the same instruction again. -/
theorem C127_error_violated (debug : Bool) (n : Nat) (hn : n ∈ programErrors) :
    trap debug (registers noHandlers startUp).1 n = if debug then .halt else .again := by
  have h : ∀ n ∈ programErrors, vector n = .handle n ∧ n < 256 ∧ (startUp.find? fun p => p.1 % 256 = n) = none := by decide
  obtain ⟨a, b, d⟩ := h n hn
  unfold trap trapHandler
  rw [a]
  simp only [C127_first_partial _ _ b, d]
  rfl

/-! ## PowerPC -/

/-- **C127** violated: on PowerPC every registration is answered `POK_ERRNO_OK`, and no handler is ever kept. -/
theorem C127_ppc_register_violated (l : List (Nat × Handler)) :
    (ppcRegisters noHandlers l).1 = noHandlers ∧ (ppcRegisters noHandlers l).2 = l.map fun _ => .ok := by
  induction l with
  | nil => exact ⟨rfl, rfl⟩
  | cons p l ih =>
    obtain ⟨v, h⟩ := p
    refine ⟨ih.1, ?_⟩
    show (ppcRegister noHandlers v h).2 :: (ppcRegisters noHandlers l).2 = _
    rw [ih.2]; rfl

/-- **C127** (part) On PowerPC page faults, timer interrupts and system calls lead to the code that handles them. -/
theorem C127_ppc_partial : ppcVector 0x300 = .dsi ∧ ppcVector 0x400 = .isi ∧ ppcVector 0x900 = .decr ∧ ppcVector 0xc00 = .sc := by decide

/-- **C127** violated: on PowerPC an error of a program stops the machine: alignment (0x600), illegal or privileged instruction or trap instruction (0x700), floating
point (0x800), which every program can cause, lead to an endless loop, with interrupts switched off. -/
theorem C127_ppc_error_violated (c : Cpu) (off : Nat) (h : off ∈ [0x600, 0x700, 0x800]) :
    ppcVector off = .stop ∧ (exception c (BitVec.ofNat 32 (0xfff00000 + off))).msr &&& MSR_EE = 0 := by
  constructor
  · revert off; decide
  · show c.msr &&& MSR_IP &&& MSR_EE = 0
    rw [BitVec.and_assoc, show MSR_IP &&& MSR_EE = 0 by decide]
    simp

/-- **C102** violated: on PowerPC the result of a system call is lost.  The handler in C, `pok_arch_sc_int`, returns nothing (kernel/arch/ppc/syscalls.c 23-52), so
the compiler leaves any value in the register that is stored as the result: for every value there is a run, within the rules of the compiler, in which
the program gets it. -/
theorem C102_result_violated (c : Cpu) (vector : W) (hu : c.msr &&& MSR_PR ≠ 0) (v : W) :
    ∃ e h g f, run scEntry (exception c vector) = some e ∧ Callee (e.gpr 1) e h ∧ h.mem = e.mem ∧ run scExit h = some g ∧ run archRfi g = some f ∧ f.gpr 3 = v ∧
      f.pc = c.pc := by
  obtain ⟨e, he, -⟩ := C102_syscall_partial c c vector hu
  obtain ⟨e', he', -, -, -, k⟩ := C102_syscall_partial c { e with gpr := upd e.gpr 3 v } vector hu
  rw [he] at he'
  cases he'
  have ce : Callee (e.gpr 1) e { e with gpr := upd e.gpr 3 v } := by
    refine ⟨fun r hr => upd_other _ _ ?_, fun _ _ => rfl, fun _ => rfl⟩
    unfold Kept at hr; omega
  obtain ⟨g, f, hg, hf, hr, -⟩ := k ce
  refine ⟨e, _, g, f, he, ce, rfl, hg, hf, ?_, hr.2.2.2.2.2.1⟩
  have := hr.1 3 (by omega)
  simpa using this

/-! ## Stacks -/

/-- **C54** (part) On SPARC and on PowerPC, when the memory of the partition is large enough for the stacks of its threads, they lie inside it and do not meet: the stack of
thread `i` is the `stack` bytes below its initial stack pointer. -/
theorem C54_boards_partial (size stack n i j : Nat) (hs : size < U32) (hfit : n * stack + 16 ≤ size) (hi : i < n) (hj : j < n) (f : Nat → Nat → Nat → Nat)
    (hf : f = sparcStack ∨ f = ppcStack) :
    stack ≤ f size stack i ∧ f size stack i ≤ size ∧ (i ≠ j → f size stack i + stack ≤ f size stack j ∨ f size stack j + stack ≤ f size stack i) := by
  have a : ∀ k, k < n → k * stack + stack ≤ n * stack := by
    intro k hk
    have := Nat.mul_le_mul_right stack (show k + 1 ≤ n by omega)
    rw [Nat.add_mul, Nat.one_mul] at this
    exact this
  have b : ∃ d ≤ 16, ∀ k, k < n → f size stack k = size - d - k * stack := by
    rcases hf with rfl | rfl
    · refine ⟨0, by omega, fun k hk => ?_⟩
      have := a k hk
      unfold sparcStack
      rw [Nat.mod_eq_of_lt (b := U32) (a := k * stack) (by omega),
        show size + U32 - k * stack = (size - 0 - k * stack) + U32 by omega, Nat.add_mod_right]
      exact Nat.mod_eq_of_lt (by omega)
    · refine ⟨16, by omega, fun k hk => ?_⟩
      have := a k hk
      unfold ppcStack
      rw [Nat.mod_eq_of_lt (b := U32) (a := k * stack) (by omega),
        show size + 2 * U32 - 16 - k * stack = (size - 16 - k * stack) + U32 + U32 by omega, Nat.add_mod_right, Nat.add_mod_right]
      exact Nat.mod_eq_of_lt (by omega)
  obtain ⟨d, hd, e⟩ := b
  have ai := a i hi
  have aj := a j hj
  rw [e i hi, e j hj]
  refine ⟨by omega, by omega, fun hne => ?_⟩
  rcases Nat.lt_or_gt_of_ne hne with h | h
  · have := Nat.mul_le_mul_right stack (show i + 1 ≤ j by omega)
    rw [Nat.add_mul, Nat.one_mul] at this
    omega
  · have := Nat.mul_le_mul_right stack (show j + 1 ≤ i by omega)
    rw [Nat.add_mul, Nat.one_mul] at this
    omega

/-! ## Interrupt mask -/

/-- **C127** (part) Switching interrupts off and on changes the mask and nothing else: bits 8 to 11 of the PSR are the interrupt level, bit 15 of the MSR enables
interrupts. -/
theorem C127_mask_partial (w : BitVec 32) (i : Nat) (hi : i < 32) :
    (disablePsr w).getLsbD i = (if 8 ≤ i ∧ i ≤ 11 then true else w.getLsbD i) ∧
    (enablePsr w).getLsbD i = (if 8 ≤ i ∧ i ≤ 11 then false else w.getLsbD i) ∧
    (disableMsr w).getLsbD i = (if i = 15 then false else w.getLsbD i) ∧
    (enableMsr w).getLsbD i = (if i = 15 then true else w.getLsbD i) := by
  have h : ∀ i < 32, (0xF00#32).getLsbD i = decide (8 ≤ i ∧ i ≤ 11) ∧ MSR_EE.getLsbD i = decide (i = 15) := by decide
  obtain ⟨a, b⟩ := h i hi
  unfold disablePsr enablePsr disableMsr enableMsr
  simp only [BitVec.getLsbD_or, BitVec.getLsbD_and, BitVec.getLsbD_not, a, b, hi, BitVec.getLsbD_zero]
  refine ⟨?_, ?_, ?_, ?_⟩ <;> split <;> rename_i c <;> simp [c]

/-! ## The hypotheses are met -/

/-- Two handlers for the same trap: the second is refused and never runs. -/
example : (registers noHandlers [(0x18, .timer), (0x18, .other 7)]).2 = [.ok, .unavailable] := by decide
example : (registers noHandlers [(0x18, .timer), (0x18, .other 7), (0x19, .other 8)]).1 0x18 = some .timer ∧
    (registers noHandlers [(0x18, .timer), (0x18, .other 7), (0x19, .other 8)]).1 0x19 = some (.other 8) := by decide
example : trap true (registers noHandlers startUp).1 0x83 = .restart ∧ trap true (registers noHandlers startUp).1 0x09 = .halt := by decide
example : sparcStack 131072 8192 3 = 131072 - 3 * 8192 ∧ ppcStack 131072 8192 3 = 131072 - 16 - 3 * 8192 ∧ 8 * 8192 + 16 ≤ 131072 := by decide

end Pok.Vectors
