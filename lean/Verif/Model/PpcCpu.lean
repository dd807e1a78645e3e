import Verif.Model.Basic

/-!
# PowerPC: context switch and exceptions

Model of kernel/arch/ppc/cswitch.S and entry.S, instruction by instruction, and of the frames that thread.c and space.c build.  The programs
are lists of instructions transcribed line by line; `run` executes a list, `none` is the endless loop at `failed`.

Simplifications: memory is a function from addresses to words, of which only multiples of four are used; address translation is left out (the
kernel stack is not paged); the floating point registers are not used by the code; of the processor's flags only those of the MSR that the
code names are used.
-/

namespace Pok.PpcCpu

/-- Machine words. -/
abbrev W := BitVec 32

/-- Registers and memory.  `gpr n` is `%rn`, `sprg n` is the special register n for the operating system. -/
structure Cpu where
  gpr : Nat → W
  pc : W
  lr : W
  ctr : W
  xer : W
  cr : W
  msr : W
  srr0 : W
  srr1 : W
  dar : W
  dsisr : W
  sprg : Nat → W
  mem : W → W

/-- Memory with one word changed. -/
def put (m : W → W) (a v : W) : W → W := fun x => if x = a then v else m x

/-- `MSR_IP`, `MSR_PR`, `MSR_EE`, `MSR_DR`, `MSR_IR`, kernel/arch/ppc/msr.h 18-23. -/
def MSR_DR : W := 1 <<< 4
def MSR_IR : W := 1 <<< 5
def MSR_IP : W := 1 <<< 6
def MSR_PR : W := 1 <<< 14
def MSR_EE : W := 1 <<< 15

/-- The condition register after an instruction that records its result in field 0: LT, GT, EQ and a copy of the overflow bit. -/
def record (cr xer v : W) : W :=
  (cr &&& 0x0fffffff) ||| (if v = 0 then 0x20000000 else if v.msb then 0x80000000 else 0x40000000) ||| ((xer >>> 31) <<< 28)

/-- Field 0 says "equal". -/
def eqBit (cr : W) : Bool := cr.getLsbD 29

/-- The instructions used. -/
inductive Ins
  | stw (rs : Nat) (off : W) (ra : Nat)
  | lwz (rd : Nat) (off : W) (ra : Nat)
  | stwu (rs : Nat) (off : W) (ra : Nat)
  | mr (rd ra : Nat)
  | addi (rd ra : Nat) (imm : W)
  | ori (rd ra : Nat) (imm : W)
  | andiRec (rd ra : Nat) (imm : W)
  | zero (rd : Nat)                     -- xor %r,%r,%r
  | mflr (rd : Nat) | mtlr (rs : Nat)
  | mfctr (rd : Nat) | mtctr (rs : Nat)
  | mfxer (rd : Nat) | mtxer (rs : Nat)
  | mfcr (rd : Nat) | mtcr (rs : Nat)
  | mfmsr (rd : Nat) | mtmsr (rs : Nat)
  | mfsrr0 (rd : Nat) | mtsrr0 (rs : Nat)
  | mfsrr1 (rd : Nat) | mtsrr1 (rs : Nat)
  | mfdar (rd : Nat) | mfdsisr (rd : Nat)
  | mfsprg (rd n : Nat) | mtsprg (n rs : Nat)
  | beqFailed | bneFailed               -- to `failed`, entry.S 77
  | onNe (l : Ins)                      -- an instruction jumped over by `beq` when field 0 says "equal"
  | blr
  | rfi

/-- Effect of an instruction. -/
def step (c : Cpu) : Ins → Option Cpu
  | .stw rs off ra => some { c with mem := put c.mem (c.gpr ra + off) (c.gpr rs) }
  | .lwz rd off ra => some { c with gpr := upd c.gpr rd (c.mem (c.gpr ra + off)) }
  | .stwu rs off ra => some { c with mem := put c.mem (c.gpr ra + off) (c.gpr rs), gpr := upd c.gpr ra (c.gpr ra + off) }
  | .mr rd ra => some { c with gpr := upd c.gpr rd (c.gpr ra) }
  | .addi rd ra imm => some { c with gpr := upd c.gpr rd (c.gpr ra + imm) }
  | .ori rd ra imm => some { c with gpr := upd c.gpr rd (c.gpr ra ||| imm) }
  | .andiRec rd ra imm =>
    some { c with gpr := upd c.gpr rd (c.gpr ra &&& imm), cr := record c.cr c.xer (c.gpr ra &&& imm) }
  | .zero rd => some { c with gpr := upd c.gpr rd 0 }
  | .mflr rd => some { c with gpr := upd c.gpr rd c.lr }
  | .mtlr rs => some { c with lr := c.gpr rs }
  | .mfctr rd => some { c with gpr := upd c.gpr rd c.ctr }
  | .mtctr rs => some { c with ctr := c.gpr rs }
  | .mfxer rd => some { c with gpr := upd c.gpr rd c.xer }
  | .mtxer rs => some { c with xer := c.gpr rs }
  | .mfcr rd => some { c with gpr := upd c.gpr rd c.cr }
  | .mtcr rs => some { c with cr := c.gpr rs }
  | .mfmsr rd => some { c with gpr := upd c.gpr rd c.msr }
  | .mtmsr rs => some { c with msr := c.gpr rs }
  | .mfsrr0 rd => some { c with gpr := upd c.gpr rd c.srr0 }
  | .mtsrr0 rs => some { c with srr0 := c.gpr rs }
  | .mfsrr1 rd => some { c with gpr := upd c.gpr rd c.srr1 }
  | .mtsrr1 rs => some { c with srr1 := c.gpr rs }
  | .mfdar rd => some { c with gpr := upd c.gpr rd c.dar }
  | .mfdsisr rd => some { c with gpr := upd c.gpr rd c.dsisr }
  | .mfsprg rd n => some { c with gpr := upd c.gpr rd (c.sprg n) }
  | .mtsprg n rs => some { c with sprg := upd c.sprg n (c.gpr rs) }
  | .beqFailed => if eqBit c.cr then none else some c
  | .bneFailed => if eqBit c.cr then some c else none
  | .onNe i => if eqBit c.cr then some c else step c i
  | .blr => some { c with pc := c.lr }
  | .rfi => some { c with pc := c.srr0, msr := c.srr1 }

/-- Execution of a list of instructions. -/
def run : List Ins → Cpu → Option Cpu
  | [], c => some c
  | i :: is, c => (step c i).bind (run is)

/-- Store and load sequences `stw %rn,off(%r1)`, `lwz %rn,off(%r1)`. -/
def stores (l : List (Nat × W)) : List Ins := l.map fun p => .stw p.1 p.2 1
def loads (l : List (Nat × W)) : List Ins := l.map fun p => .lwz p.1 p.2 1

/-! ### Context switch -/

/-- The registers saved at cswitch.S 12-31. -/
def switchRegs : List (Nat × W) :=
  [(2, 12), (13, 16), (14, 20), (15, 24), (16, 28), (17, 32), (18, 36), (19, 40), (20, 44), (21, 48), (22, 52), (23, 56), (24, 60),
   (25, 64), (26, 68), (27, 72), (28, 76), (29, 80), (30, 84), (31, 88)]

/-- The loads of cswitch.S 38-57. -/
def switchLoads : List (Nat × W) :=
  [(31, 88), (30, 84), (29, 80), (28, 76), (27, 72), (26, 68), (25, 64), (24, 60), (23, 56), (22, 52), (21, 48), (20, 44), (19, 40),
   (18, 36), (17, 32), (16, 28), (15, 24), (14, 20), (13, 16), (2, 12)]

/-- `pok_context_switch` up to the change of stack, kernel/arch/ppc/cswitch.S 7-31. -/
def switchSave : List Ins := [.mflr 0, .stw 0 4 1, .stwu 1 (-96) 1, .mfcr 0, .stw 0 8 1] ++ stores switchRegs

/-- The change of stack, cswitch.S 34-35. -/
def switchStack : List Ins := [.stw 1 0 3, .mr 1 4]

/-- The rest, cswitch.S 38-63. -/
def switchRestore : List Ins := loads switchLoads ++ [.lwz 0 8 1, .mtcr 0, .lwz 1 0 1, .lwz 0 4 1, .mtlr 0, .blr]

/-- `pok_context_switch`, kernel/arch/ppc/cswitch.S 3-63: `%r3` points to the place for the old stack pointer, `%r4` is the new one. -/
def contextSwitch : List Ins := switchSave ++ (switchStack ++ switchRestore)

/-- `pok_arch_thread_start` up to the call of `pok_thread_start`, cswitch.S 69-73. -/
def threadStart : List Ins := [.mr 3 14, .mr 4 15, .zero 0, .stw 0 4 1]

/-- A block of `n` zero words (`memset`). -/
def clear (m : W → W) (a : W) : Nat → W → W
  | 0 => m
  | n + 1 => clear (put m a 0) (a + 4) n

/-- Size of `context_t`, kernel/arch/ppc/thread.h 20-51: 26 words. -/
def CTX : W := 104
/-- Size of `volatile_context_t`, thread.h 53-82: 24 words. -/
def VCTX : W := 96

/-- `pok_context_create`, kernel/arch/ppc/thread.c 24-46, on the memory `[stack, stack + size)` that the allocator gave; `start` is the address
of `pok_arch_thread_start`.  The new stack pointer and the memory. -/
def contextCreate (m : W → W) (stack size id entry start : W) : W × (W → W) :=
  let sp := stack + size - CTX
  let m := clear m sp 26
  let m := put m (sp + 20) entry
  let m := put m (sp + 24) id
  let m := put m (sp + 100) start
  let m := put m sp (sp + 96)
  (sp, m)

/-- `pok_space_context_create`, kernel/arch/ppc/space.c 62-92: a kernel stack of 8192 bytes at `stack` with the frame of `pok_arch_rfi` (at
address `rfiAddr`) on top.  The new stack pointer and the memory. -/
def spaceContextCreate (m : W → W) (stack entry ustack arg1 arg2 rfiAddr : W) : W × (W → W) :=
  let vctx := stack + 8192 - VCTX
  let ctx := vctx - CTX + 8
  let m := clear m ctx 26
  let m := clear m vctx 24
  let m := put m (vctx + 20) arg1
  let m := put m (vctx + 24) arg2
  let m := put m vctx (ustack - 12)
  let m := put m (vctx + 72) entry
  let m := put m (vctx + 76) (MSR_EE ||| MSR_IP ||| MSR_DR ||| MSR_IR ||| MSR_PR)
  let m := put m (ctx + 100) rfiAddr
  let m := put m ctx vctx
  (ctx, m)

/-! ### Exceptions -/

/-- `FRAME_SIZE`, kernel/arch/ppc/entry.S 4. -/
def FRAME_SIZE : W := 80

/-- The general registers saved by `SAVE_REGS`, entry.S 22-30. -/
def trapRegs : List (Nat × W) :=
  [(5, 28), (6, 32), (7, 36), (8, 40), (9, 44), (10, 48), (11, 52), (12, 56), (13, 60)]

/-- `SAVE_REGS`, entry.S 7-34. -/
def saveRegs : List Ins :=
  [.mflr 4, .stw 4 (FRAME_SIZE + 4) 1, .mfctr 4, .stw 4 64 1, .mfxer 4, .stw 4 68 1, .stw 3 8 1, .stw 0 12 1, .stw 2 16 1,
   .mfsprg 0 3, .stw 0 20 1, .mfsprg 0 2, .stw 0 24 1] ++ (stores trapRegs ++ [.mfsrr0 3, .stw 3 72 1, .mfsrr1 4, .stw 4 76 1])

/-- Beginning of the handlers that must be entered from user mode, entry.S 126-136, 147-157, 209-219: `%r3` and `%r4` are put aside, the mode is
tested, the stack becomes the kernel's, in `sprg1`. -/
def userEntry : List Ins :=
  [.mtsprg 3 3, .mtsprg 2 4, .mfcr 3, .mfsrr1 4, .andiRec 4 4 MSR_PR, .beqFailed, .mr 4 1, .mfsprg 1 1, .stwu 4 (-FRAME_SIZE) 1]

/-- `dsi_0300` up to the call of `pok_arch_dsi_int`, entry.S 125-140. -/
def dsiEntry : List Ins := userEntry ++ (saveRegs ++ [.mfdar 3, .mfdsisr 4])

/-- `isi_0400` up to the call of `pok_arch_isi_int`, entry.S 146-159. -/
def isiEntry : List Ins := userEntry ++ saveRegs

/-- `system_call_0C00` up to the call of `pok_arch_sc_int`, entry.S 208-232. -/
def scEntry : List Ins :=
  userEntry ++ (saveRegs ++ [.lwz 3 20 1, .lwz 4 24 1, .lwz 5 28 1, .lwz 6 32 1, .lwz 7 36 1, .lwz 8 40 1,
    .mfmsr 0, .ori 0 0 MSR_EE, .mtmsr 0])

/-- What follows that call, entry.S 235: the result is put in the frame. -/
def scExit : List Ins := [.stw 3 20 1]

/-- `decrementer_0900` up to the call of `pok_arch_decr_int`, entry.S 181-194. -/
def decrEntry : List Ins :=
  [.mtsprg 3 3, .mtsprg 2 4, .mfcr 3, .mfsrr1 4, .andiRec 4 4 MSR_PR, .bneFailed, .stwu 1 (-FRAME_SIZE) 1] ++ saveRegs

/-- The loads of `pok_arch_rfi`, entry.S 45-56. -/
def rfiRegs : List (Nat × W) :=
  [(13, 60), (12, 56), (11, 52), (10, 48), (9, 44), (8, 40), (7, 36), (6, 32), (5, 28), (4, 24), (3, 20), (2, 16)]

/-- `pok_arch_rfi`, entry.S 44-75. -/
def archRfi : List Ins :=
  loads rfiRegs ++ [.lwz 0 84 1, .mtlr 0, .lwz 0 64 1, .mtctr 0, .lwz 0 68 1, .mtxer 0, .lwz 0 72 1, .mtsrr0 0, .lwz 0 76 1, .mtsrr1 0,
    .andiRec 0 0 MSR_PR, .onNe (.addi 0 1 FRAME_SIZE), .onNe (.mtsprg 1 1), .lwz 0 8 1, .mtcr 0, .lwz 0 12 1, .lwz 1 0 1, .rfi]

/-- What the processor does on an exception: the program counter and the MSR are saved, translation, interrupts and user mode are switched off
(the machine's rule; the exception prefix bit stays). -/
def exception (c : Cpu) (vector : W) : Cpu :=
  { c with srr0 := c.pc, srr1 := c.msr, msr := c.msr &&& MSR_IP, pc := vector }

end Pok.PpcCpu
