import Verif.Props.SparcCalls

/-!
# C93, C94, C95: traps, system calls and the start of a thread on SPARC
-/

namespace Pok.Sparc
open Pok.SparcSpec

/-- The state of the kernel when it leaves a trap: supervisor, some window.  Everything else it may have changed. -/
def KernelReady (c : Cpu) : Prop := c.psr.cwp < 8 ∧ c.psr.s = true

theorem ptr_split {ok : Nat → Bool} {c : Cpu} {n : Nat} (hs : StackOk ok c n) : ∃ b, stackPtr c 0 = b + 0x54 := ⟨stackPtr c 0 - 0x54, by have := hs.below; omega⟩

theorem runs_of_unchanged {cf : Conf} {c c' : Cpu} {p : Prog} {v v' : Nat} (_hw : Windows c v) (hs : StackOk cf.ok c p.frames.length) (hh : Holds c p)
    (hw' : Windows c' v') (hu' : inUse c' v' ≤ p.frames.length) (het : c'.psr.et = true) (hpc : c'.pc % 4 = 0) (hnpc : c'.npc % 4 = 0)
    (hn : 0 < p.frames.length) (h : Unchanged c c' p.frames.length) : Runs cf c' p := by
  obtain ⟨u1, u2, u3⟩ := h
  have hsp : ∀ k < p.frames.length, stackPtr c' k = stackPtr c k := fun k hk => by
    cases k with
    | zero => exact u2 6 (by decide)
    | succ k => exact (u3 k (by omega) 6 (by decide)).2
  refine ⟨v', hw', het, hpc, hnpc, hu', ?_, fun r hr h1 v hv => (u1 r hr h1).trans (hh.1 r hr h1 v hv), fun r hr v hv => (u2 r hr).trans (hh.2.1 r hr v hv),
    fun k f hf r hr => ?_⟩
  · exact ⟨fun k hk => by rw [hsp k hk]; exact hs.aligned k hk, fun k hk => by rw [hsp k (by omega), hsp (k + 1) hk]; exact hs.apart k hk,
      fun k hk => by rw [hsp k hk]; exact hs.fits k hk, by rw [hsp 0 hn]; exact hs.below, fun k hk => by rw [hsp k hk]; exact hs.reach k hk,
      fun k hk => by rw [hsp k hk]; exact hs.reachBelow k hk⟩
  · have h1 := u3 k (List.getElem?_eq_some_iff.1 hf).1 r hr
    have h2 := hh.2.2 k f hf r hr
    exact ⟨fun v hv => h1.1.trans (h2.1 v hv), fun v hv => h1.2.trans (h2.2 v hv)⟩

/-- All that is known about a trap that finds at most six windows in use. -/
theorem trap_all {cf : Conf} {c : Cpu} {p : Prog} (nbr : Nat) (h : Runs cf c p) (hne : p.frames ≠ [])
    (h6 : ∀ v, Windows c v → inUse c v ≤ 6) :
    ∃ c1, trapIn cf c nbr = some (c1, stackPtr c 0) ∧ c1.psr.s = true ∧ c1.psr.ps = true ∧ c1.psr.cwp < 8 ∧
      scArgs c1.mem (stackPtr c 0) = [c.outs 0, c.outs 1, c.outs 2, c.outs 3, c.outs 4, c.outs 5] ∧
      (∀ a, ¬ StackArea c p.frames.length a → c1.mem a = c.mem a) ∧
      ∀ c2, KernelReady c2 → (∀ a, StackArea c p.frames.length a → c2.mem a = c1.mem a) →
        ∃ c', trapOut cf c2 (stackPtr c 0) = some c' ∧ c'.pc = c.pc ∧ c'.npc = c.npc ∧ Unchanged c c' p.frames.length ∧ c'.mem = c2.mem ∧ Runs cf c' p ∧
          c'.psr.icc = c2.psr.icc ∧ c'.y = c2.y ∧ c'.psr.s = c2.psr.ps := by
  obtain ⟨v, hw, het, hpc, hnpc, hu, hs, hh⟩ := h
  have hn : 0 < p.frames.length := List.length_pos_iff.2 hne
  have hr6 := h6 v hw
  obtain ⟨r1, r2, _⟩ := inUse_pos hw
  obtain ⟨b, hb⟩ := ptr_split hs
  obtain ⟨c1, t1, t2, t3, t4, _, _, t7, _, _, t10, _, t12⟩ := trapIn_spec nbr hw het hs hu hb
  have hfit := hs.fits 0 hn
  refine ⟨c1, by rw [t1, hb], t3, t4, by rw [t2]; exact below_lt, ?_, fun a ha => t12 a ?_ fun k hk => ?_, fun c2 hk2 hm2 => ?_⟩
  · unfold scArgs
    rw [hb, sub32_b (by decide) (by omega), sub32_b (by decide) (by omega), sub32_b (by decide) (by omega), sub32_b (by decide) (by omega),
      sub32_b (by decide) (by omega), sub32_b (by decide) (by omega)]
    rw [← t7.outs 0 (by decide) (by decide), ← t7.outs 1 (by decide) (by decide), ← t7.outs 2 (by decide) (by decide), ← t7.outs 3 (by decide) (by decide),
      ← t7.outs 4 (by decide) (by decide), ← t7.outs 5 (by decide) (by decide)]
  · unfold StackArea at ha
    by_contra hc
    exact ha (Or.inl (by omega))
  · unfold StackArea at ha
    by_contra hc
    exact ha (Or.inr ⟨k, by omega, by omega, by omega⟩)
  · have hbelow : ∀ a, b ≤ a → a < b + 0x54 → c2.mem a = c1.mem a := fun a h1 h2 => hm2 a (Or.inl (by omega))
    have hfr : ∀ k < p.frames.length, ∀ a, stackPtr c k ≤ a → a < stackPtr c k + 64 → c2.mem a = c1.mem a := fun k hk a h1 h2 => hm2 a (Or.inr ⟨k, hk, h1, h2⟩)
    have sv : Saved c2.mem b c.g c.outs c.pc c.npc (inUse c v) :=
      ⟨fun k hk hk1 => by rw [hbelow _ (by omega) (by omega)]; exact t7.globals k hk hk1,
       fun k hk h6 => by rw [hbelow _ (by omega) (by omega)]; exact t7.outs k hk h6,
       by rw [hbelow _ (by omega) (by omega)]; exact t7.pc, by rw [hbelow _ (by omega) (by omega)]; exact t7.npc,
       by rw [hbelow _ (by omega) (by omega)]; exact t7.cnt⟩
    obtain ⟨c', k1, k2, k3, k4, k5, k6, k7, k8, k9, k10, k11, k12, k13⟩ := resume_spec hw hs hu hb sv hb hpc hnpc hk2.1 hk2.2
      (fun k hk => Same.trans (frameIn_congr (hfr k (by omega))) (t10 k hk (by omega)))
      (fun k hk hkn a h1 h2 => by
        rw [hfr k hkn a h1 h2]
        have h0 := stackOk_mono hs k 0 (by omega) hkn
        refine t12 a (by omega) fun j hj => ?_
        have := stackOk_mono hs k j (by omega) hkn
        omega)
    have hun : Unchanged c c' p.frames.length := ⟨k11, k12, k13⟩
    exact ⟨c', by rw [hb, k1], k6, k7, hun, k4, runs_of_unchanged hw hs hh k2 (by omega) k9 (by rw [k6]; exact hpc) (by rw [k7]; exact hnpc) hn hun, k10, k5, k8⟩

/-- **C93**, part: a trap (an interrupt, say) taken anywhere in a program is invisible to it.  The kernel writes no memory but the register
areas of the program's stack and 84 bytes below it.  Whatever the kernel then does - it may run other threads for as long as it likes, in all
windows and with all registers - if it leaves those words alone, the program is resumed at the same instruction with the same globals and outs
and with the same locals and ins in every function down the call stack.

Missing from the full claim: with all seven windows in use the registers of one function are lost (`C93_seven_windows_violated`); the
condition codes and the Y register are not resumed (`C93_flags_violated`). -/
theorem C93_trap_invisible_partial {cf : Conf} {c : Cpu} {p : Prog} (nbr : Nat) (h : Runs cf c p) (hne : p.frames ≠ [])
    (h6 : ∀ v, Windows c v → inUse c v ≤ 6) :
    ∃ c1, trapIn cf c nbr = some (c1, stackPtr c 0) ∧ (∀ a, ¬ StackArea c p.frames.length a → c1.mem a = c.mem a) ∧
      ∀ c2, KernelReady c2 → (∀ a, StackArea c p.frames.length a → c2.mem a = c1.mem a) →
        ∃ c', trapOut cf c2 (stackPtr c 0) = some c' ∧ c'.pc = c.pc ∧ c'.npc = c.npc ∧ Unchanged c c' p.frames.length ∧ c'.mem = c2.mem ∧ Runs cf c' p := by
  obtain ⟨c1, t1, _, _, _, _, t2, t3⟩ := trap_all nbr h hne h6
  refine ⟨c1, t1, t2, fun c2 hk hm => ?_⟩
  obtain ⟨c', k1, k2, k3, k4, k5, k6, _⟩ := t3 c2 hk hm
  exact ⟨c', k1, k2, k3, k4, k5, k6⟩

example : ∃ c1, trapIn conf0 cpu0 0x11 = some (c1, 0x3ff00) ∧ ∃ c', trapOut conf0 c1 0x3ff00 = some c' ∧ c'.pc = 0x1000 ∧ Runs conf0 c' prog0 := by
  obtain ⟨c1, h1, hs, _, hc, _, _, h2⟩ := trap_all (cf := conf0) 0x11 runs0 (List.cons_ne_nil _ _) (fun v hv => by
    have h0 : cpu0.cwp = 0 := rfl
    have : v = 1 := by
      have hv3 := hv.2.2.1
      have : (2 : Nat) ^ 1 = 2 ^ v := hv3
      exact (Nat.pow_right_injective (by decide) this).symm
    subst this
    show (1 + 8 - cpu0.cwp) % 8 ≤ 6
    rw [h0]
    decide)
  obtain ⟨c', k1, k2, _, _, _, k6, _⟩ := h2 c1 ⟨hc, hs⟩ (fun _ _ => rfl)
  exact ⟨c1, h1, c', k1, k2, k6⟩

/-- **C93** violated: when a program that uses all seven windows is interrupted, the trap handler's own window is the one below the oldest
function in the windows, whose ins it overwrites before they are saved.  Whatever the kernel does next, that function (the sixth caller of the
interrupted one) is resumed with the address of the kernel's `call context_save` as its return address and with a frame pointer 64 bytes
below the stack pointer of the interrupted function. -/
theorem C93_seven_windows_violated {cf : Conf} {c : Cpu} {p : Prog} {v : Nat} (nbr : Nat) (h : Runs cf c p) (hw : Windows c v) (h7 : inUse c v = 7)
    (hn : 7 ≤ p.frames.length) :
    ∃ c1, trapIn cf c nbr = some (c1, stackPtr c 0) ∧
      ∀ c2, KernelReady c2 → (∀ a, StackArea c p.frames.length a → c2.mem a = c1.mem a) →
        ∃ c', trapOut cf c2 (stackPtr c 0) = some c' ∧ c'.pc = c.pc ∧ (frame c' 6).i 7 = cf.callAddr ∧ (frame c' 6).i 6 = sub32 (stackPtr c 0) 0x40 := by
  obtain ⟨_, _, het, hpc, hnpc, _, hs, _⟩ := h
  obtain ⟨b, hb⟩ := ptr_split hs
  obtain ⟨c1, t1, _, _, _, _, _, t7, _, _, t10, t11, t12⟩ := trapIn_spec nbr hw het hs (by omega) hb
  refine ⟨c1, by rw [t1, hb], fun c2 hk2 hm2 => ?_⟩
  have hbelow : ∀ a, b ≤ a → a < b + 0x54 → c2.mem a = c1.mem a := fun a h1 h2 => hm2 a (Or.inl (by omega))
  have hfr : ∀ k < p.frames.length, ∀ a, stackPtr c k ≤ a → a < stackPtr c k + 64 → c2.mem a = c1.mem a := fun k hk a h1 h2 => hm2 a (Or.inr ⟨k, hk, h1, h2⟩)
  rw [h7] at t7 t10
  have sv : Saved c2.mem b c.g c.outs c.pc c.npc 7 :=
    ⟨fun k hk hk1 => by rw [hbelow _ (by omega) (by omega)]; exact t7.globals k hk hk1,
     fun k hk h6 => by rw [hbelow _ (by omega) (by omega)]; exact t7.outs k hk h6,
     by rw [hbelow _ (by omega) (by omega)]; exact t7.pc, by rw [hbelow _ (by omega) (by omega)]; exact t7.npc,
     by rw [hbelow _ (by omega) (by omega)]; exact t7.cnt⟩
  have hchain : ∀ k < 7, chainPtr c2.mem (b + 0x54) k = stackPtr c k := by
    intro k
    induction k with
    | zero => intro _; exact hb.symm
    | succ k ih =>
      intro hk
      show c2.mem (chainPtr c2.mem (b + 0x54) k + 0x38) = (frame c k).i 6
      rw [ih (by omega), hfr k (by omega) _ (by omega) (by omega)]
      exact (t10 k (by omega) (by omega) 6 (by decide)).2
  have hal0 := hs.aligned 0 (by omega)
  have hfit := hs.fits 0 (by omega)
  obtain ⟨c', k1, k2, k3, k4, k5, k6, k7, k8, k9, k10, k11, k12, k13⟩ := trapOut_spec cf c2 b 7 c.pc c.npc c.g c.outs hk2.1 (by decide) (by decide) (by omega) (by omega)
    sv hb hk2.2 hpc hnpc (fun k hk => by rw [hchain k hk]; exact hs.aligned k (by omega)) (fun k hk => by rw [hchain k hk]; exact hs.reach k (by omega))
    (fun a ha ha' => hs.reachBelow 0 (by omega) a (by omega) (by omega))
  have hw' : Windows c' 7 := ⟨by decide, by rw [k7]; decide, k3, by rw [k7]; decide⟩
  have hu' : inUse c' 7 = 7 := by unfold inUse; rw [k7]
  refine ⟨c', by rw [hb, k1], k5, ?_⟩
  have h6 := k13 6 (by decide)
  rw [hchain 6 (by decide)] at h6
  obtain ⟨e1, e2⟩ := t11 h7
  rw [frame_win hw' (by omega), k7]
  refine ⟨?_, ?_⟩
  · rw [← e2]
    refine ((h6 7 (by decide)).2).trans ?_
    exact (frameIn_congr (hfr 6 (by omega)) 7 (by decide)).2
  · rw [← e1]
    refine ((h6 6 (by decide)).2).trans ?_
    exact (frameIn_congr (hfr 6 (by omega)) 6 (by decide)).2

/-- A program seven functions deep, with its return addresses. -/
def deepOps : List POp := [.setO 7 0x2000] ++ nested 0x3ff00 7

example : ((execOps conf0 cpu0 deepOps).bind fun c => (trapIn conf0 c 0x11).bind fun r => (trapOut conf0 r.1 r.2).map fun c' =>
    (inUse c 0, c.invalid 0, (frame c 6).i 7, (frame c' 6).i 7, (frame c 6).i 6, (frame c' 6).i 6)) =
    some (7, true, 0x2000, 0x40001000, 0x3ff00, 0x3fc20) := by decide +kernel

/-- **C93** violated: the condition codes and the Y register of an interrupted program are saved but not loaded again; the program goes on
with those that the kernel left. -/
theorem C93_flags_violated {cf : Conf} {c : Cpu} {p : Prog} (nbr : Nat) (h : Runs cf c p) (hne : p.frames ≠ []) (h6 : ∀ v, Windows c v → inUse c v ≤ 6) :
    ∃ c1, trapIn cf c nbr = some (c1, stackPtr c 0) ∧
      ∀ c2, KernelReady c2 → (∀ a, StackArea c p.frames.length a → c2.mem a = c1.mem a) →
        ∃ c', trapOut cf c2 (stackPtr c 0) = some c' ∧ c'.pc = c.pc ∧ c'.psr.icc = c2.psr.icc ∧ c'.y = c2.y := by
  obtain ⟨c1, t1, _, _, _, _, t2, t3⟩ := trap_all nbr h hne h6
  refine ⟨c1, t1, fun c2 hk hm => ?_⟩
  obtain ⟨c', k1, k2, k3, k4, k5, k6, k7, k8, k9⟩ := t3 c2 hk hm
  exact ⟨c', k1, k2, k7, k8⟩

/-- **C94** violated: no program runs in user mode after its first trap.  The handler sets the PS bit together with the ones that enable
traps (mask 0xFE0) and clears only the interrupt level and the trap bit when it leaves (mask 0xF20), so `rett` takes every program to
supervisor mode, from where it may reach the kernel's memory, the MMU and every device. -/
theorem C94_supervisor_violated {cf : Conf} {c : Cpu} {p : Prog} (nbr : Nat) (h : Runs cf c p) (hne : p.frames ≠ []) (h6 : ∀ v, Windows c v → inUse c v ≤ 6) :
    ∃ c1, trapIn cf c nbr = some (c1, stackPtr c 0) ∧
      ∀ c2, KernelReady c2 → c2.psr.ps = c1.psr.ps → (∀ a, StackArea c p.frames.length a → c2.mem a = c1.mem a) →
        ∃ c', trapOut cf c2 (stackPtr c 0) = some c' ∧ c'.pc = c.pc ∧ c'.psr.s = true := by
  obtain ⟨c1, t1, _, tp, _, _, t2, t3⟩ := trap_all nbr h hne h6
  refine ⟨c1, t1, fun c2 hk hp hm => ?_⟩
  obtain ⟨c', k1, k2, k3, k4, k5, k6, k7, k8, k9⟩ := t3 c2 hk hm
  exact ⟨c', k1, k2, by rw [k9, hp, tp]⟩

example : cpu0.psr.s = false ∧ ((trapIn conf0 cpu0 0x11).bind fun r => (trapOut conf0 r.1 r.2).map fun c' => (c'.pc, c'.psr.s)) = some (0x1000, true) := by
  decide +kernel

theorem scDone_facts (mem : Nat → Nat) (b ret : Nat) (hb : b + 0x54 < W) : scDone mem (b + 0x54) ret (b + 0x34) = ret ∧
    scDone mem (b + 0x54) ret (b + 8) = (mem (b + 8) + 4) % W ∧ scDone mem (b + 0x54) ret (b + 4) = (mem (b + 4) + 4) % W ∧
    ∀ a, a ≠ b + 0x34 → a ≠ b + 8 → a ≠ b + 4 → scDone mem (b + 0x54) ret a = mem a := by
  have e1 : sub32 (b + 0x54) 0x20 = b + 0x34 := sub32_b (by decide) hb
  have e2 : sub32 (b + 0x54) 0x4c = b + 8 := sub32_b (by decide) hb
  have e3 : sub32 (b + 0x54) 0x50 = b + 4 := sub32_b (by decide) hb
  unfold scDone
  rw [e1, e2, e3]
  refine ⟨?_, ?_, ?_, fun a h1 h2 h3 => ?_⟩
  · rw [upd_other _ _ (by omega), upd_other _ _ (by omega), upd_same]
  · rw [upd_other _ _ (by omega), upd_same, upd_other _ _ (by omega)]
  · rw [upd_same, upd_other _ _ (by omega), upd_other _ _ (by omega)]
  · rw [upd_other _ _ h3, upd_other _ _ h2, upd_other _ _ h1]

/-- A system call, with what becomes of Y and the condition codes. -/
theorem syscall_all {cf : Conf} {c : Cpu} {p : Prog} (h : Runs cf c p) (hne : p.frames ≠ []) (h6 : ∀ v, Windows c v → inUse c v ≤ 6)
    (hnp : c.npc = c.pc + 4) (hW : c.pc + 8 < W) :
    ∃ c1, trapIn cf c 0x82 = some (c1, stackPtr c 0) ∧ scArgs c1.mem (stackPtr c 0) = [c.outs 0, c.outs 1, c.outs 2, c.outs 3, c.outs 4, c.outs 5] ∧
      ∀ ret c2, KernelReady c2 → (∀ a, StackArea c p.frames.length a → c2.mem a = scDone c1.mem (stackPtr c 0) ret a) →
        ∃ c', trapOut cf c2 (stackPtr c 0) = some c' ∧ (c'.y = c2.y ∧ c'.psr.icc = c2.psr.icc) ∧ c'.pc = c.npc ∧ c'.npc = c.npc + 4 ∧ c'.outs 0 = ret ∧ (∀ r < 8, 1 ≤ r → c'.outs r = c.outs r) ∧
          (∀ r < 8, 1 ≤ r → c'.g r = c.g r) ∧ (∀ k < p.frames.length, (frame c' k).Same (frame c k)) ∧
          Runs cf c' { p with outs := upd p.outs 0 (some ret) } := by
  obtain ⟨c1, t1, _, _, _, ta, _, _⟩ := trap_all 0x82 h hne h6
  obtain ⟨v, hw, het, hpc, hnpc, hu, hs, hh⟩ := h
  have hn : 0 < p.frames.length := List.length_pos_iff.2 hne
  have hr6 := h6 v hw
  obtain ⟨r1, r2, _⟩ := inUse_pos hw
  obtain ⟨b, hb⟩ := ptr_split hs
  obtain ⟨c1', t1', _, _, _, _, _, t7, _, _, t10, _, t12⟩ := trapIn_spec 0x82 hw het hs hu hb
  have hc1 : c1' = c1 := by
    rw [t1', hb] at t1
    exact (Prod.ext_iff.1 (Option.some.inj t1)).1
  subst hc1
  have hfit := hs.fits 0 hn
  have hal0 := hs.aligned 0 hn
  refine ⟨c1', t1, ta, fun ret c2 hk2 hm2 => ?_⟩
  rw [hb] at hm2
  obtain ⟨d1, d2, d3, d4⟩ := scDone_facts c1'.mem b ret (by omega)
  have hbelow : ∀ a, b ≤ a → a < b + 0x54 → c2.mem a = scDone c1'.mem (b + 0x54) ret a := fun a h1 h2 => hm2 a (Or.inl (by omega))
  have hfr : ∀ k < p.frames.length, ∀ a, stackPtr c k ≤ a → a < stackPtr c k + 64 → c2.mem a = c1'.mem a := fun k hk a h1 h2 => by
    rw [hm2 a (Or.inr ⟨k, hk, h1, h2⟩)]
    have : b + 0x54 ≤ a := by
      by_cases e : k = 0
      · subst e; omega
      · have := stackOk_mono hs k 0 (by omega) hk
        omega
    exact d4 a (by omega) (by omega) (by omega)
  have sv : Saved c2.mem b c.g (upd c.outs 0 ret) (c.pc + 4) (c.npc + 4) (inUse c v) :=
    ⟨fun k hk hk1 => by rw [hbelow _ (by omega) (by omega), d4 _ (by omega) (by omega) (by omega)]; exact t7.globals k hk hk1,
     fun k hk h6 => by
       by_cases e : k = 0
       · subst e
         rw [upd_same, hbelow _ (by omega) (by omega)]
         exact d1
       · rw [upd_other _ _ e, hbelow _ (by omega) (by omega), d4 _ (by omega) (by omega) (by omega)]
         exact t7.outs k hk h6,
     by rw [hbelow _ (by omega) (by omega), d2, t7.pc, Nat.mod_eq_of_lt (by omega)], by rw [hbelow _ (by omega) (by omega), d3, t7.npc, Nat.mod_eq_of_lt (by omega)],
     by rw [hbelow _ (by omega) (by omega), d4 _ (by omega) (by omega) (by omega)]; exact t7.cnt⟩
  obtain ⟨c', k1, k2, k3, k4, k5, k6, k7, k8, k9, k10, k11, k12, k13⟩ := resume_spec hw hs hu hb sv (by rw [upd_other _ _ (by decide)]; exact hb) (by omega) (by omega)
    hk2.1 hk2.2 (fun k hk => Same.trans (frameIn_congr (hfr k (by omega))) (t10 k hk (by omega)))
    (fun k hk hkn a h1 h2 => by
      rw [hfr k hkn a h1 h2]
      have h0 := stackOk_mono hs k 0 (by omega) hkn
      refine t12 a (by omega) fun j hj => ?_
      have := stackOk_mono hs k j (by omega) hkn
      omega)
  have ho0 : c'.outs 0 = ret := by rw [k12 0 (by decide), upd_same]
  have ho : ∀ r < 8, 1 ≤ r → c'.outs r = c.outs r := fun r hr h1 => by rw [k12 r hr, upd_other _ _ (by omega)]
  have hsp : ∀ k < p.frames.length, stackPtr c' k = stackPtr c k := fun k hk => by
    cases k with
    | zero => exact ho 6 (by decide) (by decide)
    | succ k => exact (k13 k (by omega) 6 (by decide)).2
  refine ⟨c', by rw [hb, k1], ⟨k5, k10⟩, by rw [k6, hnp], k7, ho0, ho, k11, k13, _, k2, k9, by rw [k6]; omega, by rw [k7]; omega, by rw [k3]; exact hu, ?_, ?_, ?_, ?_⟩
  · show StackOk cf.ok c' p.frames.length
    exact ⟨fun k hk => by rw [hsp k hk]; exact hs.aligned k hk, fun k hk => by rw [hsp k (by omega), hsp (k + 1) hk]; exact hs.apart k hk,
      fun k hk => by rw [hsp k hk]; exact hs.fits k hk, by rw [hsp 0 hn]; exact hs.below, fun k hk => by rw [hsp k hk]; exact hs.reach k hk,
      fun k hk => by rw [hsp k hk]; exact hs.reachBelow k hk⟩
  · exact fun r hr h1 x hx => (k11 r hr h1).trans (hh.1 r hr h1 x hx)
  · intro r hr x hx
    by_cases e : r = 0
    · subst e
      have hx' : some ret = some x := by rw [← hx]; exact (upd_same p.outs 0 (some ret)).symm
      rw [ho0]
      exact Option.some.inj hx'
    · have hx' : p.outs r = some x := by rw [← hx]; exact (upd_other p.outs (some ret) e).symm
      rw [ho r hr (by omega)]
      exact hh.2.1 r hr x hx'
  · intro k f hf r hr
    have h1 := k13 k (List.getElem?_eq_some_iff.1 hf).1 r hr
    have h2 := hh.2.2 k f hf r hr
    exact ⟨fun v hv => h1.1.trans (h2.1 v hv), fun v hv => h1.2.trans (h2.2 v hv)⟩

/-- **C95**, part: a system call hands the kernel its number and five arguments from the first six outs of the caller, and its result comes back
in the first out, at the instruction after the trap; every other register of the caller and of its callers is unchanged, whatever the kernel
ran in between.

Missing from the full claim: as for C93, the case of seven windows in use, the condition codes and Y. -/
theorem C95_syscall_result_partial {cf : Conf} {c : Cpu} {p : Prog} (h : Runs cf c p) (hne : p.frames ≠ []) (h6 : ∀ v, Windows c v → inUse c v ≤ 6)
    (hnp : c.npc = c.pc + 4) (hW : c.pc + 8 < W) :
    ∃ c1, trapIn cf c 0x82 = some (c1, stackPtr c 0) ∧ scArgs c1.mem (stackPtr c 0) = [c.outs 0, c.outs 1, c.outs 2, c.outs 3, c.outs 4, c.outs 5] ∧
      ∀ ret c2, KernelReady c2 → (∀ a, StackArea c p.frames.length a → c2.mem a = scDone c1.mem (stackPtr c 0) ret a) →
        ∃ c', trapOut cf c2 (stackPtr c 0) = some c' ∧ c'.pc = c.npc ∧ c'.npc = c.npc + 4 ∧ c'.outs 0 = ret ∧ (∀ r < 8, 1 ≤ r → c'.outs r = c.outs r) ∧
          (∀ r < 8, 1 ≤ r → c'.g r = c.g r) ∧ (∀ k < p.frames.length, (frame c' k).Same (frame c k)) ∧
          Runs cf c' { p with outs := upd p.outs 0 (some ret) } := by
  obtain ⟨c1, h1, h2, h3⟩ := syscall_all h hne h6 hnp hW
  refine ⟨c1, h1, h2, fun ret c2 hk hm => ?_⟩
  obtain ⟨c', k1, _, k2⟩ := h3 ret c2 hk hm
  exact ⟨c', k1, k2⟩

/-- **C95** violated: after a system call the program goes on with the condition codes and the Y register that the kernel left: if these differ
from those at the call, they have changed. -/
theorem C95_flags_violated {cf : Conf} {c : Cpu} {p : Prog} (h : Runs cf c p) (hne : p.frames ≠ []) (h6 : ∀ v, Windows c v → inUse c v ≤ 6)
    (hnp : c.npc = c.pc + 4) (hW : c.pc + 8 < W) :
    ∃ c1, trapIn cf c 0x82 = some (c1, stackPtr c 0) ∧
      ∀ ret c2, KernelReady c2 → (∀ a, StackArea c p.frames.length a → c2.mem a = scDone c1.mem (stackPtr c 0) ret a) →
        (c2.y ≠ c.y ∨ c2.psr.icc ≠ c.psr.icc) →
        ∃ c', trapOut cf c2 (stackPtr c 0) = some c' ∧ c'.pc = c.npc ∧ (c'.y ≠ c.y ∨ c'.psr.icc ≠ c.psr.icc) := by
  obtain ⟨c1, h1, h2, h3⟩ := syscall_all h hne h6 hnp hW
  refine ⟨c1, h1, fun ret c2 hk hm hd => ?_⟩
  obtain ⟨c', k1, ⟨ky, ki⟩, k2, _⟩ := h3 ret c2 hk hm
  exact ⟨c', k1, k2, by rw [ky, ki]; exact hd⟩

example : ((trapIn conf0 (cpu0.setO 1 77) 0x82).bind fun r => (trapOut conf0 (r.1.setMem (scDone r.1.mem r.2 5)) r.2).map fun c' =>
    (scArgs r.1.mem r.2, c'.outs 0, c'.outs 1, c'.pc, c'.npc)) = some ([0, 77, 0, 0, 0, 0], 5, 77, 0x1004, 0x1008) := by decide +kernel

/-- **C96**: a new thread starts at its entry point with its two arguments in the first two outs and its stack pointer 64 bytes below the top of
its stack, ready to call and return to any depth (C92): the context that the kernel builds is one that `trapOut` resumes, whatever else the
memory of the stack holds. -/
theorem C96_thread_starts {cf : Conf} {c2 : Cpu} {mem : Nat → Nat} {entry stack arg1 arg2 : Nat} (hk : KernelReady c2) (hal : stack % 8 = 0) (hlow : 0x94 ≤ stack)
    (hW : stack ≤ W) (hent : entry % 4 = 0) (he4 : entry + 4 < W) (hreach : ∀ a, stack ≤ a + 0x94 → a < stack → cf.ok a = true)
    (hm : ∀ a, stack ≤ a + 0x94 → a < stack → c2.mem a = (contextCreate mem entry stack arg1 arg2).1 a) :
    (contextCreate mem entry stack arg1 arg2).2 = stack - 0x40 ∧
    ∃ c', trapOut cf c2 (stack - 0x40) = some c' ∧ c'.pc = entry ∧ c'.npc = entry + 4 ∧ c'.outs 0 = arg1 ∧ c'.outs 1 = arg2 ∧ c'.outs 6 = stack - 0x40 ∧
      Runs cf c' ⟨fun _ => none, upd (upd (upd (fun _ => none) 0 (some arg1)) 1 (some arg2)) 6 (some (stack - 0x40)), [⟨fun _ => none, fun _ => none⟩]⟩ := by
  obtain ⟨b, hb⟩ : ∃ b, stack = b + 0x94 := ⟨stack - 0x94, by omega⟩
  subst hb
  have e0 : sub32 (b + 0x94) 0x40 = b + 0x54 ∨ b + 0x94 = W := by
    by_cases e : b + 0x94 = W
    · exact Or.inr e
    · left
      rw [sub32_eq (by omega) (by omega)]
      omega
  have e0' : sub32 (b + 0x94) 0x40 = b + 0x54 := by
    rcases e0 with e | e
    · exact e
    · rw [show b + 0x54 = W - 0x40 by omega, e]
      unfold sub32
      decide
  have e1 : sub32 (b + 0x54) 0x54 = b := by rw [sub32_b (by decide) (by omega)]; rfl
  have e2 : sub32 (b + 0x54) 0x4c = b + 8 := sub32_b (by decide) (by omega)
  have e3 : sub32 (b + 0x54) 0x50 = b + 4 := sub32_b (by decide) (by omega)
  have e4 : sub32 (b + 0x54) 0x20 = b + 0x34 := sub32_b (by decide) (by omega)
  have e5 : sub32 (b + 0x54) 0x24 = b + 0x30 := sub32_b (by decide) (by omega)
  have hcc : contextCreate mem entry (b + 0x94) arg1 arg2 =
      (upd (upd (upd (upd (upd mem b 1) (b + 8) entry) (b + 4) ((entry + 4) % W)) (b + 0x34) arg1) (b + 0x30) arg2, b + 0x54) := by
    unfold contextCreate
    simp only
    rw [e0', e1, e2, e3, e4, e5]
  rw [hcc] at hm ⊢
  rw [show b + 0x94 - 0x40 = b + 0x54 by omega]
  refine ⟨rfl, ?_⟩
  simp only at hm
  have m0 : c2.mem b = 1 := by
    rw [hm b (by omega) (by omega), upd_other _ _ (by omega), upd_other _ _ (by omega), upd_other _ _ (by omega), upd_other _ _ (by omega), upd_same]
  have m1 : c2.mem (b + 8) = entry := by
    rw [hm _ (by omega) (by omega), upd_other _ _ (by omega), upd_other _ _ (by omega), upd_other _ _ (by omega), upd_same]
  have m2 : c2.mem (b + 4) = entry + 4 := by
    rw [hm _ (by omega) (by omega), upd_other _ _ (by omega), upd_other _ _ (by omega), upd_same, Nat.mod_eq_of_lt he4]
  have m3 : c2.mem (b + 0x34) = arg1 := by
    rw [hm _ (by omega) (by omega), upd_other _ _ (by omega), upd_same]
  have m4 : c2.mem (b + 0x30) = arg2 := by
    rw [hm _ (by omega) (by omega), upd_same]
  have sv : Saved c2.mem b (fun k => c2.mem (b + 0x34 + 4 * k)) (fun k => if k = 6 then b + 0x54 else c2.mem (b + (0x34 - 4 * k))) entry (entry + 4) 1 :=
    ⟨fun k _ _ => rfl, fun k _ h6 => (if_neg h6).symm, m1, m2, m0⟩
  have hcp : ∀ k < 1, chainPtr c2.mem (b + 0x54) k = b + 0x54 := fun k hk => by
    have : k = 0 := by omega
    subst this
    rfl
  obtain ⟨c', k1, k2, k3, k4, k5, k6, k7, k8, k9, k10, k11, k12, k13⟩ := trapOut_spec cf c2 b 1 entry (entry + 4) _ _ hk.1 (by decide) (by decide) (by omega) (by omega) sv
    (if_pos rfl) hk.2 hent (by omega) (fun k hk => by rw [hcp k hk]; omega) (fun k hk a h1 h2 => hreach a (by rw [hcp k hk] at h1; omega) (by rw [hcp k hk] at h2; omega))
    (fun a h1 h2 => hreach a (by omega) (by omega))
  have o0 : c'.outs 0 = arg1 := (k12 0 (by decide)).trans m3
  have o1 : c'.outs 1 = arg2 := (k12 1 (by decide)).trans m4
  have o6 : c'.outs 6 = b + 0x54 := k12 6 (by decide)
  have hs0 : ∀ k < 1, stackPtr c' k = b + 0x54 := fun k hk => by
    have : k = 0 := by omega
    subst this
    exact o6
  have hw : Windows c' 1 := ⟨by decide, by rw [k7]; decide, k3, by rw [k7]; decide⟩
  refine ⟨c', k1, k5, k6, o0, o1, o6, 1, hw, k9, by rw [k5]; exact hent, by rw [k6]; omega, ?_, ?_, fun r _ _ v hv => absurd hv (by simp), fun r _ v hv => ?_, fun k f hf r _ => ?_⟩
  · show inUse c' 1 ≤ 1
    unfold inUse
    rw [k7]
  · show StackOk cf.ok c' 1
    exact ⟨fun k hk => by rw [hs0 k hk]; omega, fun k hk => by omega, fun k hk => by rw [hs0 k hk]; omega, by rw [hs0 0 (by decide)]; omega,
      fun k hk a h1 h2 => hreach a (by rw [hs0 k hk] at h1; omega) (by rw [hs0 k hk] at h2; omega),
      fun k hk a h1 h2 => hreach a (by rw [hs0 k hk] at h1; omega) (by rw [hs0 k hk] at h2; omega)⟩
  · have hv' : upd (upd (upd (fun _ => (none : Option Nat)) 0 (some arg1)) 1 (some arg2)) 6 (some (b + 0x54)) r = some v := hv
    by_cases r6 : r = 6
    · subst r6
      rw [upd_same] at hv'
      rw [o6]
      exact Option.some.inj hv'
    · rw [upd_other _ _ r6] at hv'
      by_cases r1 : r = 1
      · subst r1
        rw [upd_same] at hv'
        rw [o1]
        exact Option.some.inj hv'
      · rw [upd_other _ _ r1] at hv'
        by_cases r0 : r = 0
        · subst r0
          rw [upd_same] at hv'
          rw [o0]
          exact Option.some.inj hv'
        · rw [upd_other _ _ r0] at hv'
          exact absurd hv' (by simp)
  · cases k with
    | zero =>
      have : f = ⟨fun _ => none, fun _ => none⟩ := (Option.some.inj hf).symm
      subst this
      exact ⟨fun v hv => absurd hv (by simp), fun v hv => absurd hv (by simp)⟩
    | succ k => exact absurd hf (by simp)

example : ((trapOut conf0 (cpu0.setPsr ⟨0, 0, true, true, true, 3⟩ |>.setMem (contextCreate (fun _ => 9) 0x1230 0x40000 0xdead 0xbeaf).1) 0x3ffc0).map fun c' =>
    (c'.pc, c'.outs 0, c'.outs 1, c'.outs 6)) = some (0x1230, 0xdead, 0xbeaf, 0x3ffc0) := by decide +kernel

/-- **C97** violated: resetting a context, which the core asks for to restart a thread, ignores the stack it is given; it changes the context
of the idle thread, whose program counter becomes the thread's number and whose second argument becomes its entry point. -/
theorem C97_reset_violated (mem : Nat → Nat) (idle id entry size addr : Nat) (h : 0x94 ≤ idle) (hW : idle < W) :
    let made := (idleCreate mem idle id entry).1
    made (idle - 0x8c) = entry ∧ contextReset made idle size addr (idle - 0x8c) = id ∧ contextReset made idle size addr (idle - 0x64) = entry ∧
      ∀ a, a < idle - 0x94 ∨ idle ≤ a → contextReset made idle size addr a = mem a := by
  obtain ⟨b, rfl⟩ : ∃ b, idle = b + 0x94 := ⟨idle - 0x94, by omega⟩
  have e0 : sub32 (b + 0x94) 0x40 = b + 0x54 := by rw [sub32_eq (by omega) (by omega)]; omega
  have e1 : sub32 (b + 0x54) 0x54 = b := by rw [sub32_b (by decide) (by omega)]; rfl
  have e2 : sub32 (b + 0x54) 0x4c = b + 8 := sub32_b (by decide) (by omega)
  have e3 : sub32 (b + 0x54) 0x50 = b + 4 := sub32_b (by decide) (by omega)
  have e5 : sub32 (b + 0x54) 0x24 = b + 0x30 := sub32_b (by decide) (by omega)
  have q1 : b + 0x94 - 0x8c = b + 8 := by omega
  have q2 : b + 0x94 - 0x64 = b + 0x30 := by omega
  have hm : (idleCreate mem (b + 0x94) id entry).1 = upd (upd (upd (upd mem b 1) (b + 8) entry) (b + 4) ((entry + 4) % W)) (b + 0x30) id := by
    unfold idleCreate
    simp only
    rw [e0, e1, e2, e3, e5]
  intro made
  have hmade : made = upd (upd (upd (upd mem b 1) (b + 8) entry) (b + 4) ((entry + 4) % W)) (b + 0x30) id := hm
  have g1 : made (b + 8) = entry := by rw [hmade, upd_other _ _ (by omega), upd_other _ _ (by omega), upd_same]
  have g2 : made (b + 0x30) = id := by rw [hmade, upd_same]
  have hr : contextReset made (b + 0x94) size addr = upd (upd (upd (upd made b 1) (b + 8) id) (b + 4) ((id + 4) % W)) (b + 0x30) entry := by
    unfold contextReset
    simp only
    rw [e0, e1, e2, e3, e5, g1, g2]
  rw [hr, q1, q2]
  refine ⟨g1, ?_, ?_, fun a ha => ?_⟩
  · rw [upd_other _ _ (by omega), upd_other _ _ (by omega), upd_same]
  · rw [upd_same]
  · rw [upd_other _ _ (by omega), upd_other _ _ (by omega), upd_other _ _ (by omega), upd_other _ _ (by omega), hmade,
      upd_other _ _ (by omega), upd_other _ _ (by omega), upd_other _ _ (by omega), upd_other _ _ (by omega)]

end Pok.Sparc
