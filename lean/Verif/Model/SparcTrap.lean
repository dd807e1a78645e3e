import Verif.Model.Basic

/-!
# SPARC: register windows and traps

Model of kernel/arch/sparc/entry.S, regwin.S, thread.c, syscalls.c and traps.c, instruction by instruction where registers are concerned.
The processor is a SPARC V8 with eight register windows (leon3): `save` and traps go to the window below, `restore` and `rett` to the window
above, the outs of a window are the ins of the window below.  A trap while traps are disabled stops the processor (the manual's error mode);
this and any other way not to reach the next instruction is `none`.

Simplifications: the fields of the PSR that the kernel does not touch (implementation, version, EC, EF) are left out, `nop`s and pipeline
delays too; the floating point registers are not saved by the kernel and not modelled; memory is a function from addresses to words, of which
only multiples of four are used.
-/

namespace Pok.Sparc

/-- Machine words. -/
abbrev W : Nat := 4294967296

/-- 32-bit subtraction. -/
@[irreducible] def sub32 (a b : Nat) : Nat := (a + (W - b)) % W

/-- `WINDOWS_NBR`, kernel/arch/sparc/leon3/sparc_conf.h 31. -/
def NW : Nat := 8

/-- The processor state register: condition codes, interrupt level, supervisor, previous supervisor, traps enabled, current window. -/
structure Psr where
  icc : Nat
  pil : Nat
  s : Bool
  ps : Bool
  et : Bool
  cwp : Nat
deriving DecidableEq, Repr

/-- `PSR_CWP_MASK`, kernel/arch/sparc/entry.S 7. -/
def PSR_CWP_MASK : Nat := 0x1F
/-- `PSR_ET`, kernel/arch/sparc/entry.S 4. -/
def PSR_ET : Nat := 0x20

/-- The register as a word: CWP bits 0-4, ET bit 5, PS bit 6, S bit 7, PIL bits 8-11, icc bits 20-23. -/
@[irreducible] def Psr.word (p : Psr) : Nat :=
  p.cwp + 32 * p.et.toNat + 64 * p.ps.toNat + 128 * p.s.toNat + 256 * p.pil + 1048576 * p.icc

/-- The register after `or %psr, m` (masks below 0x1000). -/
@[irreducible] def Psr.or (p : Psr) (m : Nat) : Psr :=
  { p with pil := p.pil ||| (m / 256 % 16), s := p.s || m.testBit 7, ps := p.ps || m.testBit 6, et := p.et || m.testBit 5, cwp := p.cwp ||| (m % 32) }

/-- The register after `andn %psr, m` (masks below 0x1000). -/
@[irreducible] def Psr.andn (p : Psr) (m : Nat) : Psr :=
  { p with pil := p.pil - (p.pil &&& (m / 256 % 16)), s := p.s && !m.testBit 7, ps := p.ps && !m.testBit 6, et := p.et && !m.testBit 5,
           cwp := p.cwp - (p.cwp &&& (m % 32)) }

/-- Registers and memory.  `l w` and `i w` are the locals and the ins of window `w`. -/
structure Cpu where
  psr : Psr
  wim : Nat
  y : Nat
  pc : Nat
  npc : Nat
  g : Nat → Nat
  l : Nat → Nat → Nat
  i : Nat → Nat → Nat
  mem : Nat → Nat

/-- What surrounds the code: which addresses the kernel can reach in the current address space, and where `call context_save`
(kernel/arch/sparc/entry.S 197) is. -/
structure Conf where
  ok : Nat → Bool
  callAddr : Nat

def Cpu.cwp (c : Cpu) : Nat := c.psr.cwp

/-- The window below, entered by `save` and by traps. -/
def below (w : Nat) : Nat := (w + 7) % NW
/-- The window above, entered by `restore` and `rett`. -/
def above (w : Nat) : Nat := (w + 1) % NW

/-- The outs of a window are the ins of the window below. -/
def Cpu.outs (c : Cpu) : Nat → Nat := c.i (below c.cwp)

def Cpu.setL (c : Cpu) (r v : Nat) : Cpu := { c with l := upd c.l c.cwp (upd (c.l c.cwp) r v) }
def Cpu.setI (c : Cpu) (r v : Nat) : Cpu := { c with i := upd c.i c.cwp (upd (c.i c.cwp) r v) }
def Cpu.setO (c : Cpu) (r v : Nat) : Cpu := { c with i := upd c.i (below c.cwp) (upd (c.i (below c.cwp)) r v) }
def Cpu.setG (c : Cpu) (r v : Nat) : Cpu := { c with g := upd c.g r v }
def Cpu.setCwp (c : Cpu) (w : Nat) : Cpu := { c with psr := { c.psr with cwp := w } }

def Cpu.setPsr (c : Cpu) (p : Psr) : Cpu := { c with psr := p }
def Cpu.setMem (c : Cpu) (m : Nat → Nat) : Cpu := { c with mem := m }

/-- The window invalid mask holds a bit of window `w`. -/
def Cpu.invalid (c : Cpu) (w : Nat) : Bool := c.wim.testBit w

/-- Writing the window invalid mask: it has one bit for each window. -/
def Cpu.setWim (c : Cpu) (v : Nat) : Cpu := { c with wim := v % 256 }

/-! ## Memory -/

/-- Stores of words, each with the alignment that the instruction demands (`st`: 4; the first word of `std`: 8). -/
def storeAll (ok : Nat → Bool) (mem : Nat → Nat) : List (Nat × Nat × Nat) → Option (Nat → Nat)
  | [] => some mem
  | (al, a, v) :: rest => if a % al = 0 ∧ ok a then storeAll ok (upd mem a v) rest else none

/-- The words can be loaded (alignments as for stores). -/
def loadable (ok : Nat → Bool) (as : List (Nat × Nat)) : Bool := as.all fun p => decide (p.2 % p.1 = 0) && ok p.2

/-! ## Traps -/

/-- A trap is taken: traps off, supervisor, next window, `%l1` and `%l2` take `pc` and `npc`.  With traps disabled the processor stops. -/
def enterTrap (c : Cpu) : Option Cpu :=
  if c.psr.et then
    some ((({ c with psr := { c.psr with et := false, ps := c.psr.s, s := true, cwp := below c.cwp } }).setL 1 c.pc).setL 2 c.npc)
  else none

/-- `rett` after `jmpl`: to the window above, privilege from PS, traps on.  It traps, with traps disabled, if the window above is invalid or
the addresses are not aligned. -/
def rett (c : Cpu) (pc npc : Nat) : Option Cpu :=
  if c.psr.et ∨ ¬ c.psr.s ∨ c.invalid (above c.cwp) ∨ pc % 4 ≠ 0 ∨ npc % 4 ≠ 0 then none
  else some { c with psr := { c.psr with et := true, s := c.psr.ps, cwp := above c.cwp }, pc := pc, npc := npc }

/-- Macro `trap_handle`, kernel/arch/sparc/entry.S 9-13. -/
def trapHandle (c : Cpu) (nbr : Nat) : Option Cpu :=
  (enterTrap c).map fun c => ((c.setL 0 c.wim).setL 3 c.psr.word).setL 4 nbr

/-! ## `context_save` -/

/-- The sixteen words of a window, kernel/arch/sparc/entry.S 331-341: locals and ins from the stack pointer of the window upwards
(context_offset.h 25-40). -/
def windowWords (sp : Nat) (l i : Nat → Nat) : List (Nat × Nat × Nat) :=
  [(8, sp + 0x00, l 0), (4, sp + 0x04, l 1), (8, sp + 0x08, l 2), (4, sp + 0x0c, l 3), (8, sp + 0x10, l 4), (4, sp + 0x14, l 5),
   (8, sp + 0x18, l 6), (4, sp + 0x1c, l 7), (8, sp + 0x20, i 0), (4, sp + 0x24, i 1), (8, sp + 0x28, i 2), (4, sp + 0x2c, i 3),
   (8, sp + 0x30, i 4), (4, sp + 0x34, i 5), (8, sp + 0x38, i 6), (4, sp + 0x3c, i 7)]

/-- `save_loop`, kernel/arch/sparc/entry.S 309-341: rotate the mask `%g2`, stop at the invalid window, otherwise go one window up with
`restore`, count it and store it at its own stack pointer.  `none` when the loop does not end. -/
def saveLoop (cf : Conf) (c : Cpu) : Nat → Nat → Nat → Nat → (Nat → Nat) → Option (Nat × (Nat → Nat))
  | 0, _, _, _, _ => none
  | fuel + 1, g2, cwp, g6, mem =>
    let g2 := (g2 >>> (NW - 1)) ||| (g2 <<< 1) % W
    if g2 &&& c.wim ≠ 0 then some (g6, mem)
    else
      let w := above cwp
      if c.invalid w then none
      else
        (storeAll cf.ok mem (windowWords (c.i (below w) 6) (c.l w) (c.i w))).bind fun mem => saveLoop cf c fuel g2 w (g6 + 1) mem

/-- The globals and the ins of the trap window, kernel/arch/sparc/entry.S 287-301, at the offsets of context_offset.h 33-40 and 46-52 below
the frame pointer. -/
def underWords (fp : Nat) (g i : Nat → Nat) : List (Nat × Nat × Nat) :=
  [(4, sub32 fp 0x1c, g 1), (4, sub32 fp 0x18, g 2), (4, sub32 fp 0x14, g 3), (4, sub32 fp 0x10, g 4), (4, sub32 fp 0x0c, g 5),
   (4, sub32 fp 0x08, g 6), (4, sub32 fp 0x04, g 7), (4, sub32 fp 0x20, i 0), (4, sub32 fp 0x24, i 1), (4, sub32 fp 0x28, i 2),
   (4, sub32 fp 0x2c, i 3), (4, sub32 fp 0x30, i 4), (4, sub32 fp 0x34, i 5), (4, sub32 fp 0x38, i 6), (4, sub32 fp 0x3c, i 7)]

/-- The other registers, kernel/arch/sparc/entry.S 365-371, at the offsets of context_offset.h 58-63. -/
def otherWords (fp wim psr y pc npc cnt : Nat) : List (Nat × Nat × Nat) :=
  [(4, sub32 fp 0x40, wim), (4, sub32 fp 0x44, psr), (4, sub32 fp 0x48, y), (4, sub32 fp 0x4c, pc), (4, sub32 fp 0x50, npc), (4, sub32 fp 0x54, cnt)]

/-- Rotation by one of the bit of window `w`, kernel/arch/sparc/entry.S 356-361. -/
@[irreducible] def bitAbove (w : Nat) : Nat :=
  let g5 := 1 <<< w
  (g5 >>> (NW - 1)) ||| g5 <<< 1

/-- The end of `context_save`, kernel/arch/sparc/entry.S 343-374: back in the trap window with traps on, the window above becomes the invalid
one, and the rest is stored; `g6` is the number of windows saved. -/
def saveRest (cf : Conf) (c : Cpu) (g6 : Nat) : Option Cpu :=
  -- 346-353
  let c := c.setPsr (c.psr.or PSR_ET)
  -- 356-362
  let c := c.setWim (bitAbove c.cwp)
  -- 365-371
  let c := c.setO 3 c.y
  (storeAll cf.ok c.mem (otherWords (c.i c.cwp 6) (c.l c.cwp 0) (c.l c.cwp 3) c.y (c.l c.cwp 1) (c.l c.cwp 2) g6)).map c.setMem

/-- `context_save`, kernel/arch/sparc/entry.S 246-374.  The globals it uses as scratch registers (`%g1` to `%g7`) are left as they were in the
model: `context_restore` loads them all. -/
def contextSave (cf : Conf) (c : Cpu) : Option Cpu :=
  -- 279-284
  let c := c.setPsr (c.psr.andn PSR_ET)
  let c := c.setO 0 c.psr.word
  -- 287-301
  (storeAll cf.ok c.mem (underWords (c.i c.cwp 6) c.g (c.i c.cwp))).bind fun mem =>
    let c := c.setMem mem
    -- 303-341
    (saveLoop cf c (NW + 1) (1 <<< c.cwp) c.cwp 0 c.mem).bind fun p => saveRest cf (c.setMem p.2) p.1

/-- `trap_prehandler` up to the call of `trap_handler`, kernel/arch/sparc/entry.S 180-198: the stack pointer of the trap window, the PSR, and
`call context_save`, which leaves its own address in `%o7`. -/
def prehandler (cf : Conf) (c : Cpu) : Option Cpu :=
  let c := c.setO 6 (sub32 (c.i c.cwp 6) 0x40)
  let c := c.setPsr (c.psr.or 0xFE0)
  let c := c.setO 7 cf.callAddr
  contextSave cf c

/-- A trap with number `nbr` up to the call of `trap_handler`; the context is known by the frame pointer of the trap window (the stack
pointer of the interrupted program, kernel/arch/sparc/entry.S 200, 217, traps.c 54). -/
def trapIn (cf : Conf) (c : Cpu) (nbr : Nat) : Option (Cpu × Nat) :=
  match trapHandle c nbr with
  | none => none
  | some c1 => (prehandler cf c1).map fun c2 => (c2, c1.i c1.cwp 6)

/-! ## `context_restore` -/

/-- The addresses of the words of a window. -/
def windowAddrs (sp : Nat) : List (Nat × Nat) := (windowWords sp (fun _ => 0) (fun _ => 0)).map fun p => (p.1, p.2.1)

/-- Loads of kernel/arch/sparc/entry.S 432-440 in window `w`. -/
def loadWindow (c : Cpu) (w sp : Nat) : Cpu :=
  { c with
    l := upd c.l w fun r => if r = 0 then c.mem (sp + 0x00) else if r = 1 then c.mem (sp + 0x04) else if r = 2 then c.mem (sp + 0x08)
      else if r = 3 then c.mem (sp + 0x0c) else if r = 4 then c.mem (sp + 0x10) else if r = 5 then c.mem (sp + 0x14)
      else if r = 6 then c.mem (sp + 0x18) else if r = 7 then c.mem (sp + 0x1c) else c.l w r
    i := upd c.i w fun r => if r = 0 then c.mem (sp + 0x20) else if r = 1 then c.mem (sp + 0x24) else if r = 2 then c.mem (sp + 0x28)
      else if r = 3 then c.mem (sp + 0x2c) else if r = 4 then c.mem (sp + 0x30) else if r = 5 then c.mem (sp + 0x34)
      else if r = 6 then c.mem (sp + 0x38) else if r = 7 then c.mem (sp + 0x3c) else c.i w r }

/-- `restore_loop`, kernel/arch/sparc/entry.S 427-444, `left` times.  A `restore` into the invalid window would trap inside the kernel; this
is `none`. -/
def restoreLoop (cf : Conf) (c : Cpu) : Nat → Option Cpu
  | 0 => some c
  | left + 1 =>
    let w := above c.cwp
    if c.invalid w then none
    else
      let c := c.setCwp w
      let sp := c.outs 6
      if loadable cf.ok (windowAddrs sp) then restoreLoop cf (loadWindow c w sp) left else none

/-- Loads of kernel/arch/sparc/entry.S 462-478: the globals and the ins of window 7. -/
def loadUnder (c : Cpu) (sp : Nat) : Cpu :=
  { c with
    g := fun r => if r = 1 then c.mem (sub32 sp 0x1c) else if r = 2 then c.mem (sub32 sp 0x18) else if r = 3 then c.mem (sub32 sp 0x14)
      else if r = 4 then c.mem (sub32 sp 0x10) else if r = 5 then c.mem (sub32 sp 0x0c) else if r = 6 then c.mem (sub32 sp 0x08)
      else if r = 7 then c.mem (sub32 sp 0x04) else c.g r
    i := upd c.i c.cwp fun r => if r = 0 then c.mem (sub32 sp 0x20) else if r = 1 then c.mem (sub32 sp 0x24)
      else if r = 2 then c.mem (sub32 sp 0x28) else if r = 3 then c.mem (sub32 sp 0x2c) else if r = 4 then c.mem (sub32 sp 0x30)
      else if r = 5 then c.mem (sub32 sp 0x34) else if r = 6 then sp else if r = 7 then c.mem (sub32 sp 0x3c) else c.i c.cwp r }

/-- `context_restore`, kernel/arch/sparc/entry.S 376-480, from the context pointer `sp` (`%g2`); also the `pc` and `npc` left in `%l3`, `%l4`.
`sll` uses the low five bits of the count. -/
def contextRestore (cf : Conf) (c : Cpu) (sp : Nat) : Option (Cpu × Nat × Nat) :=
  -- 403-409
  let c := c.setPsr ((c.psr.andn 0xF).or (NW - 1))
  let c := c.setI 6 sp
  if loadable cf.ok [(4, sub32 sp 0x54), (4, sub32 sp 0x4c), (4, sub32 sp 0x50)] then
    let cnt := c.mem (sub32 sp 0x54)
    let pc := c.mem (sub32 sp 0x4c)
    let npc := c.mem (sub32 sp 0x50)
    let c := c.setWim (1 <<< (cnt % 32))
    match restoreLoop cf c cnt with
    | none => none
    | some c =>
      -- 448-460
      let c := c.setPsr ((c.psr.andn PSR_CWP_MASK).or (NW - 1))
      let c := ((c.setL 2 sp).setL 3 pc).setL 4 npc
      if loadable cf.ok ((underWords sp (fun _ => 0) (fun _ => 0)).map fun p => (p.1, p.2.1)) then some (loadUnder c sp, pc, npc) else none
  else none

/-- The end of `trap_prehandler`, kernel/arch/sparc/entry.S 219-242: the context in `pok_arch_sp` is restored, interrupts are enabled, traps
disabled, and `rett` resumes the program. -/
def trapOut (cf : Conf) (c : Cpu) (sp : Nat) : Option Cpu :=
  (contextRestore cf c sp).bind fun r =>
    let c := r.1.setPsr (r.1.psr.andn 0xF20)
    let c := c.setL 0 c.psr.word
    rett c r.2.1 r.2.2

/-! ## Window overflow and underflow -/

/-- The new mask of the overflow handler, kernel/arch/sparc/regwin.S 30-36: rotated right by one, in `%g1`; `%g1` is kept in `%l7`. -/
def overflowMask (c : Cpu) : Cpu :=
  let c := c.setL 3 c.wim
  let c := c.setL 7 (c.g 1)
  let g1 := c.l c.cwp 3 >>> 1
  let c := c.setL 4 ((c.l c.cwp 3 <<< (NW - 1)) % W)
  c.setG 1 (c.l c.cwp 4 ||| g1)

/-- `window_overflow_trap_handler`, kernel/arch/sparc/regwin.S 14-51.  The `save` and the `restore` of the handler trap, with traps disabled,
if their window is invalid. -/
def overflow (cf : Conf) (c : Cpu) : Option Cpu :=
  let c := overflowMask c
  if c.invalid (below c.cwp) then none
  else
    let c := c.setCwp (below c.cwp)
    let c := c.setWim (c.g 1)
    (storeAll cf.ok c.mem (windowWords (c.outs 6) (c.l c.cwp) (c.i c.cwp))).bind fun mem =>
      let c := c.setMem mem
      if c.invalid (above c.cwp) then none
      else
        let c := c.setCwp (above c.cwp)
        let c := c.setG 1 (c.l c.cwp 7)
        rett c (c.l c.cwp 1) (c.l c.cwp 2)

/-- The new mask of the underflow handler, kernel/arch/sparc/regwin.S 79-85: rotated left by one. -/
def underflowMask (c : Cpu) : Cpu :=
  let c := c.setL 3 c.wim
  let c := c.setL 4 ((c.l c.cwp 3 <<< 1) % W)
  let c := c.setL 5 (c.l c.cwp 3 >>> (NW - 1))
  let c := c.setL 5 (c.l c.cwp 5 ||| c.l c.cwp 4)
  c.setWim (c.l c.cwp 5)

/-- `window_underflow_trap_handler`, kernel/arch/sparc/regwin.S 63-99: two windows up, load the registers, two windows down. -/
def underflow (cf : Conf) (c : Cpu) : Option Cpu :=
  let c := underflowMask c
  if c.invalid (above c.cwp) || c.invalid (above (above c.cwp)) then none
  else
    let c := c.setCwp (above (above c.cwp))
    if loadable cf.ok (windowAddrs (c.outs 6)) then
      let c := loadWindow c c.cwp (c.outs 6)
      if c.invalid (below c.cwp) || c.invalid (below (below c.cwp)) then none
      else
        let c := c.setCwp (below (below c.cwp))
        rett c (c.l c.cwp 1) (c.l c.cwp 2)
    else none

/-- The instruction `save rs1, rs2, %sp` with sum `sp`, without a trap. -/
def saveNow (c : Cpu) (sp : Nat) : Option Cpu := if c.invalid (below c.cwp) then none else some ((c.setCwp (below c.cwp)).setO 6 sp)

/-- The instruction `save rs1, rs2, %sp` with sum `sp`: the window below, after the overflow handler (trap 5, kernel/arch/sparc/entry.S 34) if
that window is invalid.  The advance of the program counter is left out here and below. -/
def save (cf : Conf) (c : Cpu) (sp : Nat) : Option Cpu :=
  if c.invalid (below c.cwp) then ((enterTrap c).bind (overflow cf)).bind (saveNow · sp) else saveNow c sp

/-- The instruction `restore` without a trap. -/
def restoreNow (c : Cpu) : Option Cpu := if c.invalid (above c.cwp) then none else some (c.setCwp (above c.cwp))

/-- The instruction `restore`: the window above, after the underflow handler (trap 6, kernel/arch/sparc/entry.S 35) if that window is
invalid. -/
def restore (cf : Conf) (c : Cpu) : Option Cpu :=
  if c.invalid (above c.cwp) then ((enterTrap c).bind (underflow cf)).bind restoreNow else restoreNow c

/-! ## System calls and new contexts -/

/-- The number and the arguments of a system call in the context at `sp`, kernel/arch/sparc/syscalls.c 37-38, 53-57. -/
def scArgs (mem : Nat → Nat) (sp : Nat) : List Nat :=
  [mem (sub32 sp 0x20), mem (sub32 sp 0x24), mem (sub32 sp 0x28), mem (sub32 sp 0x2c), mem (sub32 sp 0x30), mem (sub32 sp 0x34)]

/-- The end of `pok_arch_sc_int`, kernel/arch/sparc/syscalls.c 69-71: the result, and the instruction after the trap. -/
def scDone (mem : Nat → Nat) (sp ret : Nat) : Nat → Nat :=
  let mem := upd mem (sub32 sp 0x20) ret
  let mem := upd mem (sub32 sp 0x4c) ((mem (sub32 sp 0x4c) + 4) % W)
  upd mem (sub32 sp 0x50) ((mem (sub32 sp 0x50) + 4) % W)

/-- `pok_space_context_create`, kernel/arch/sparc/space.c 127-144, on the memory of the partition (addresses relative to its base), with
five parameters as defined there; also the stack pointer it returns. -/
def contextCreate (mem : Nat → Nat) (entry stack arg1 arg2 : Nat) : (Nat → Nat) × Nat :=
  let ctx := sub32 stack 0x40
  let mem := upd mem (sub32 ctx 0x54) 1
  let mem := upd mem (sub32 ctx 0x4c) entry
  let mem := upd mem (sub32 ctx 0x50) ((entry + 4) % W)
  let mem := upd mem (sub32 ctx 0x20) arg1
  let mem := upd mem (sub32 ctx 0x24) arg2
  (mem, ctx)

/-- `pok_context_create`, kernel/arch/sparc/thread.c 34-50: the context of the idle thread, whose stack ends at `idle`. -/
def idleCreate (mem : Nat → Nat) (idle id entry : Nat) : (Nat → Nat) × Nat :=
  let ctx := sub32 idle 0x40
  let mem := upd mem (sub32 ctx 0x54) 1
  let mem := upd mem (sub32 ctx 0x4c) entry
  let mem := upd mem (sub32 ctx 0x50) ((entry + 4) % W)
  let mem := upd mem (sub32 ctx 0x24) id
  (mem, ctx)

/-- `pok_context_reset`, kernel/arch/sparc/thread.c 66-82.  The size and the address of the stack are not used. -/
def contextReset (mem : Nat → Nat) (idle _stackSize _stackAddr : Nat) : Nat → Nat :=
  let ctx := sub32 idle 0x40
  let id := mem (sub32 ctx 0x4c)
  let entry := mem (sub32 ctx 0x24)
  let mem := upd mem (sub32 ctx 0x54) 1
  let mem := upd mem (sub32 ctx 0x4c) entry
  let mem := upd mem (sub32 ctx 0x50) ((entry + 4) % W)
  upd mem (sub32 ctx 0x24) id

end Pok.Sparc
