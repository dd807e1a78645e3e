import Verif.Model.BoardCall
import Verif.Props.PpcCpu
import Verif.Props.SparcTrap
import Verif.Props.Syscall
/-!
# C144: system calls on PowerPC and SPARC reach the kernel with what the program passed

The decision of the kernel on a call is `coreSyscall` (C22); the program's registers are `gpr 3` to `gpr 8` on PowerPC and the first six outs on SPARC.
-/
namespace Pok.BoardCall
open Pok.Sys

/-- Two lists of arguments agree in the first `n` places. -/
def Agree (n : Nat) (a b : SysArgs) : Prop :=
  (1 ≤ n → a.a1 = b.a1) ∧ (2 ≤ n → a.a2 = b.a2) ∧ (3 ≤ n → a.a3 = b.a3) ∧ (4 ≤ n → a.a4 = b.a4) ∧ (5 ≤ n → a.a5 = b.a5)

/-- **C144** (part) On PowerPC the kernel gets the number and the five words that the program put in `%r3` to `%r8` before the instruction `sc`, whatever else the
registers and the memory hold. -/
theorem C144_ppc_partial (c : PpcCpu.Cpu) (vector : PpcCpu.W) (hu : c.msr &&& PpcCpu.MSR_PR ≠ 0) :
    ∃ e, PpcCpu.run PpcCpu.scEntry (PpcCpu.exception c vector) = some e ∧
      ppcScInt e = ((c.gpr 3).toNat, ⟨5, (c.gpr 4).toNat, (c.gpr 5).toNat, (c.gpr 6).toNat, (c.gpr 7).toNat, (c.gpr 8).toNat⟩) := by
  obtain ⟨e, he, hr, -⟩ := PpcCpu.C102_syscall_partial c c vector hu
  refine ⟨e, he, ?_⟩
  unfold ppcScInt
  rw [hr 3 (by omega) (by omega), hr 4 (by omega) (by omega), hr 5 (by omega) (by omega), hr 6 (by omega) (by omega), hr 7 (by omega) (by omega),
    hr 8 (by omega) (by omega)]

/-- **C144** (part) On SPARC the kernel gets the number and the five words that the program put in its first six outs before the trap.  Missing, as for C93: the
case of seven windows in use. -/
theorem C144_sparc_partial {cf : Sparc.Conf} {c : Sparc.Cpu} {p : SparcSpec.Prog} (h : Sparc.Runs cf c p) (hne : p.frames ≠ [])
    (h6 : ∀ v, SparcSpec.Windows c v → SparcSpec.inUse c v ≤ 6) (hnp : c.npc = c.pc + 4) (hW : c.pc + 8 < Sparc.W) :
    ∃ c1 sp, Sparc.trapIn cf c 0x82 = some (c1, sp) ∧ sparcScInt c1.mem sp = (c.outs 0, ⟨5, c.outs 1, c.outs 2, c.outs 3, c.outs 4, c.outs 5⟩) := by
  obtain ⟨c1, h1, h2, -⟩ := Sparc.C95_syscall_result_partial h hne h6 hnp hW
  refine ⟨c1, _, h1, ?_⟩
  unfold sparcScInt
  simp only [h2]
  rfl

/-- **C144** (part) **Arguments that are not passed.** What the kernel decides on a call, on every board, depends on no argument beyond those that the library passes with
that service: what was left in the other registers does not matter. -/
theorem C144_leftover_partial (cfg : SysCfg) (s : Sys) (part now num : Nat) {a b : SysArgs} (hn : a.nargs = b.nargs) (h : Agree (passed num) a b) :
    coreSyscall cfg s part now num a = coreSyscall cfg s part now num b := by
  obtain ⟨h1, h2, h3, h4, h5⟩ := h
  obtain ⟨an, a1, a2, a3, a4, a5⟩ := a
  obtain ⟨bn, b1, b2, b3, b4, b5⟩ := b
  simp only at h1 h2 h3 h4 h5 hn
  subst hn
  unfold coreSyscall
  simp only []
  split <;> (
    first | (have q := h1 (by decide); subst q) | skip
    first | (have q := h2 (by decide); subst q) | skip
    first | (have q := h3 (by decide); subst q) | skip
    first | (have q := h4 (by decide); subst q) | skip
    first | (have q := h5 (by decide); subst q) | skip
    rfl)

/-- **C144** (part) So on PowerPC two programs whose registers agree in the number and in the arguments that the library passes get the same decision. -/
theorem C144_ppc_registers_partial (cfg : SysCfg) (s : Sys) (part now : Nat) (c d : PpcCpu.Cpu) (vector : PpcCpu.W) (hc : c.msr &&& PpcCpu.MSR_PR ≠ 0)
    (hd : d.msr &&& PpcCpu.MSR_PR ≠ 0) (hr : ∀ r, 3 ≤ r → r ≤ 3 + passed (c.gpr 3).toNat → c.gpr r = d.gpr r) :
    ∃ e f, PpcCpu.run PpcCpu.scEntry (PpcCpu.exception c vector) = some e ∧ PpcCpu.run PpcCpu.scEntry (PpcCpu.exception d vector) = some f ∧
      coreSyscall cfg s part now (ppcScInt e).1 (ppcScInt e).2 = coreSyscall cfg s part now (ppcScInt f).1 (ppcScInt f).2 := by
  obtain ⟨e, he, ke⟩ := C144_ppc_partial c vector hc
  obtain ⟨f, hf, kf⟩ := C144_ppc_partial d vector hd
  refine ⟨e, f, he, hf, ?_⟩
  rw [ke, kf, ← hr 3 (by omega) (by omega)]
  have t : ∀ r, r ≤ 5 → r ≤ passed (c.gpr 3).toNat → (c.gpr (3 + r)).toNat = (d.gpr (3 + r)).toNat := fun r _ h => congrArg BitVec.toNat (hr _ (by omega) (by omega))
  exact C144_leftover_partial cfg s part now _ rfl ⟨t 1 (by omega), t 2 (by omega), t 3 (by omega), t 4 (by omega), t 5 (by omega)⟩

/-- **C144** violated: on PowerPC and on SPARC the service SHUTDOWN is always refused, whatever the program passes: the kernel demands a call without arguments, and the
handlers there always say five. -/
theorem C144_shutdown_violated (cfg : SysCfg) (hf : cfg.feat.shutdown = true) (s : Sys) (part now : Nat) :
    (∀ e : PpcCpu.Cpu, e.gpr 3 = 707 → coreSyscall cfg s part now (ppcScInt e).1 (ppcScInt e).2 = .reject .einval) ∧
    (∀ (mem : Nat → Nat) sp, (sparcScInt mem sp).1 = 707 → coreSyscall cfg s part now (sparcScInt mem sp).1 (sparcScInt mem sp).2 = .reject .einval) := by
  constructor
  · intro e h
    have : (ppcScInt e).1 = 707 := by unfold ppcScInt; rw [h]; rfl
    rw [this]
    exact C22_count_partial cfg s part now _ hf (by unfold ppcScInt; exact Nat.succ_ne_zero 4)
  · intro mem sp h
    rw [h]
    exact C22_count_partial cfg s part now _ hf (by unfold sparcScInt; exact Nat.succ_ne_zero 4)

/-- On x86 the same call of the library stops the system. -/
example (cfg : SysCfg) (hf : cfg.feat.shutdown = true) (s : Sys) (part now : Nat) : coreSyscall cfg s part now 707 {} = .call .shutdown [] := by
  show feature cfg.feat.shutdown (if (0 : Nat) ≠ 0 then .reject .einval else .call .shutdown []) = _
  rw [hf]; rfl

/-- A call on PowerPC: an operation on a lock object; the words left in `%r6` to `%r8` differ. -/
example : ∃ c d : PpcCpu.Cpu, c.msr &&& PpcCpu.MSR_PR ≠ 0 ∧ d.msr &&& PpcCpu.MSR_PR ≠ 0 ∧ c.gpr 6 ≠ d.gpr 6 ∧ (c.gpr 3).toNat = 202 ∧
    ∀ r, 3 ≤ r → r ≤ 3 + passed (c.gpr 3).toNat → c.gpr r = d.gpr r := by
  refine ⟨{ PpcCpu.exCpu with msr := 0xc070, gpr := fun _ => 202 }, { PpcCpu.exCpu with msr := 0xc070, gpr := fun r => if r = 6 then 1 else 202 }, ?_⟩
  refine ⟨by decide, by decide, by decide, by decide, ?_⟩
  intro r _ h
  have : passed ((202 : PpcCpu.W).toNat) = 2 := by decide
  simp only [this] at h
  show (202 : PpcCpu.W) = if r = 6 then 1 else 202
  rw [if_neg (by omega)]

/-- A call on SPARC with a first argument of 77. -/
example : (Sparc.trapIn Sparc.conf0 (Sparc.cpu0.setO 1 77) 0x82).map (fun r => sparcScInt r.1.mem r.2) = some (0, ⟨5, 77, 0, 0, 0, 0⟩) := by decide +kernel

/-- The service SHUTDOWN on PowerPC. -/
example (cfg : SysCfg) (hf : cfg.feat.shutdown = true) (s : Sys) :
    coreSyscall cfg s 0 0 (ppcScInt { PpcCpu.exCpu with gpr := fun _ => 707 }).1 (ppcScInt { PpcCpu.exCpu with gpr := fun _ => 707 }).2 = .reject .einval :=
  (C144_shutdown_violated cfg hf s 0 0).1 _ rfl

end Pok.BoardCall
