import Verif.Lemmas.SparcTrap

/-!
# `context_save` and `context_restore`
-/

namespace Pok.Sparc
open Pok.SparcSpec

/-- What is kept of a context: `r` windows at their stack pointers, and the rest below the stack pointer `b + 0x54`. -/
structure Saved (mem : Nat → Nat) (b : Nat) (g o : Nat → Nat) (pc npc r : Nat) : Prop where
  globals : ∀ k < 8, 1 ≤ k → mem (b + 0x34 + 4 * k) = g k
  outs : ∀ k < 8, k ≠ 6 → mem (b + (0x34 - 4 * k)) = o k
  pc : mem (b + 0x8) = pc
  npc : mem (b + 0x4) = npc
  cnt : mem b = r

theorem andn_et_cwp (p : Psr) : (p.andn PSR_ET).cwp = p.cwp := by simp [Psr.andn, PSR_ET]
theorem or_et_cwp (p : Psr) : (p.or PSR_ET).cwp = p.cwp := by simp [Psr.or, PSR_ET]

theorem psr_or_fields (p : Psr) (m : Nat) : (p.or m).s = (p.s || m.testBit 7) ∧ (p.or m).ps = (p.ps || m.testBit 6) ∧ (p.or m).et = (p.et || m.testBit 5) ∧
    (p.or m).icc = p.icc ∧ (p.or m).pil = p.pil ||| (m / 256 % 16) ∧ (p.or m).cwp = p.cwp ||| (m % 32) := by
  unfold Psr.or
  exact ⟨rfl, rfl, rfl, rfl, rfl, rfl⟩
theorem psr_andn_fields (p : Psr) (m : Nat) : (p.andn m).s = (p.s && !m.testBit 7) ∧ (p.andn m).ps = (p.ps && !m.testBit 6) ∧
    (p.andn m).et = (p.et && !m.testBit 5) ∧ (p.andn m).icc = p.icc ∧ (p.andn m).pil = p.pil - (p.pil &&& (m / 256 % 16)) ∧
    (p.andn m).cwp = p.cwp - (p.cwp &&& (m % 32)) := by
  unfold Psr.andn
  exact ⟨rfl, rfl, rfl, rfl, rfl, rfl⟩

theorem below_ne {t : Nat} (ht : t < 8) : t ≠ below t := by unfold below NW; omega

theorem saveRest_spec (cf : Conf) (c : Cpu) (t r b : Nat) (hc : c.cwp = t) (ht : t < 8) (hfp : c.i t 6 = b + 0x54) (hb : b + 0x54 < W)
    (hb4 : b % 4 = 0) (hok' : ∀ a, b ≤ a → a < b + 0x54 → cf.ok a = true) :
    ∃ c', saveRest cf c r = some c' ∧ c'.mem (b + 0x8) = c.l t 1 ∧ c'.mem (b + 0x4) = c.l t 2 ∧ c'.mem b = r ∧
      c'.mem (b + 0x10) = c.l t 3 ∧ c'.mem (b + 0xc) = c.y ∧ ∀ a, a < b ∨ b + 0x18 ≤ a → c'.mem a = c.mem a := by
  obtain ⟨m3, o1, o2⟩ := store_other cf.ok c.mem b (c.l t 0) (c.l t 3) c.y (c.l t 1) (c.l t 2) r hb hb4 hok'
  unfold saveRest
  have e1 : (c.setPsr (c.psr.or PSR_ET)).cwp = t := by
    show (c.psr.or PSR_ET).cwp = t
    rw [or_et_cwp]
    exact hc
  generalize hX : (c.setPsr (c.psr.or PSR_ET)) = X at e1
  have hXl : X.l = c.l := by rw [← hX]; rfl
  have hXi : X.i = c.i := by rw [← hX]; rfl
  have hXy : X.y = c.y := by rw [← hX]; rfl
  have hXm : X.mem = c.mem := by rw [← hX]; rfl
  simp only
  generalize bitAbove X.cwp = w
  have f1 : (X.setWim w).y = X.y := rfl
  rw [f1]
  have f2 : ((X.setWim w).setO 3 X.y).cwp = t := e1
  have f3 : ((X.setWim w).setO 3 X.y).i t = X.i t := by
    show upd X.i (below X.cwp) _ t = _
    exact upd_other _ _ (by rw [e1]; exact below_ne ht)
  have f4 : ((X.setWim w).setO 3 X.y).mem = X.mem := rfl
  have f5 : ((X.setWim w).setO 3 X.y).l = X.l := rfl
  have f6 : ((X.setWim w).setO 3 X.y).y = X.y := rfl
  rw [f2, f3, f4, f5, f6, hXl, hXi, hXy, hXm, hfp, o1]
  exact ⟨_, rfl, o2⟩

theorem contextSave_spec (cf : Conf) (c : Cpu) (t r b : Nat) (hc : c.psr.cwp = t) (ht : t < 8) (h1 : 1 ≤ r) (hr : r < 8)
    (hw : c.wim = 2 ^ ((t + 1 + r) % 8)) (hfp : c.i t 6 = b + 0x54) (hb : b + 0x54 < W)
    (hal : ∀ k < r, c.i ((t + k) % 8) 6 % 8 = 0) (hap : ∀ j k, j < k → k < r → c.i ((t + j) % 8) 6 + 64 ≤ c.i ((t + k) % 8) 6)
    (hok : ∀ k < r, ∀ a, c.i ((t + k) % 8) 6 ≤ a → a < c.i ((t + k) % 8) 6 + 64 → cf.ok a = true)
    (hok' : ∀ a, b ≤ a → a < b + 0x54 → cf.ok a = true) :
    ∃ c', contextSave cf c = some c' ∧ Saved c'.mem b c.g (c.i t) (c.l t 1) (c.l t 2) r ∧ c'.mem (b + 0x10) = c.l t 3 ∧ c'.mem (b + 0xc) = c.y ∧
      (∀ k < r, (frameIn c'.mem (c.i ((t + k) % 8) 6)).Same ⟨c.l ((t + 1 + k) % 8), (c.setO 0 (c.psr.andn PSR_ET).word).i ((t + 1 + k) % 8)⟩) ∧
      ∀ a, a < b ∨ b + 0x54 ≤ a → (∀ k < r, a < c.i ((t + k) % 8) 6 ∨ c.i ((t + k) % 8) 6 + 64 ≤ a) → c'.mem a = c.mem a := by
  have hsp0 : c.i ((t + 0) % 8) 6 = b + 0x54 := by rw [Nat.add_zero, Nat.mod_eq_of_lt ht, hfp]
  have hb4 : b % 4 = 0 := by
    have := hal 0 (by omega)
    rw [hsp0] at this
    omega
  have hge : ∀ k < r, b + 0x54 ≤ c.i ((t + k) % 8) 6 := fun k hk => by
    by_cases e : k = 0
    · subst e; omega
    · have := hap 0 k (by omega) hk
      omega
  -- the state in which the windows are saved
  let cl : Cpu := (c.setPsr (c.psr.andn PSR_ET)).setO 0 (c.psr.andn PSR_ET).word
  have hci : ∀ k, cl.i k 6 = c.i k 6 := fun k => by
    show upd c.i (below (c.psr.andn PSR_ET).cwp) (upd (c.i (below (c.psr.andn PSR_ET).cwp)) 0 _) k 6 = _
    by_cases e : k = below (c.psr.andn PSR_ET).cwp
    · subst e; rw [upd_same, upd_other _ _ (by decide)]
    · rw [upd_other _ _ e]
  have hct : cl.i t = c.i t := by
    show upd c.i (below (c.psr.andn PSR_ET).cwp) (upd (c.i (below (c.psr.andn PSR_ET).cwp)) 0 _) t = _
    refine upd_other _ _ ?_
    rw [andn_et_cwp, hc]
    exact below_ne ht
  obtain ⟨m1, s1, s2, s3, s4⟩ := store_under cf.ok c.mem b c.g (c.i t) hb hb4 hok'
  obtain ⟨m2, l1, l2, l3⟩ := saveLoop_spec cf (cl.setMem m1) t r ht hr hw
    (fun k hk => by show cl.i _ 6 % 8 = 0; rw [hci]; exact hal k hk)
    (fun j k h1 h2 => by show cl.i _ 6 + 64 ≤ cl.i _ 6; rw [hci, hci]; exact hap j k h1 h2)
    (fun k hk a => by show cl.i _ 6 ≤ a → a < cl.i _ 6 + 64 → _; rw [hci]; exact hok k hk a) r 0 m1 (by omega)
  obtain ⟨c', o1, o2, o3, o4, o5, o6, o7⟩ := saveRest_spec cf ((cl.setMem m1).setMem m2) t r b
    (by show (c.psr.andn PSR_ET).cwp = t; rw [andn_et_cwp, hc]) ht (by show cl.i t 6 = _; rw [hct, hfp]) hb hb4 hok'
  -- what each step keeps of the memory
  have keep2 : ∀ a, a < b + 0x54 → m2 a = m1 a := fun a ha => l3 a fun k _ hk => Or.inl (by
    show a < cl.i _ 6
    rw [hci]
    have := hge k hk
    omega)
  refine ⟨c', ?_, ⟨?_, ?_, o2, o3, o4⟩, o5, o6, ?_, ?_⟩
  · unfold contextSave
    simp only
    have e3 : cl.cwp = t := by
      show (c.psr.andn PSR_ET).cwp = t
      rw [andn_et_cwp, hc]
    have e2 : (c.setPsr (c.psr.andn PSR_ET)).setO 0 (c.setPsr (c.psr.andn PSR_ET)).psr.word = cl := rfl
    rw [e2, e3, hct, hfp, show cl.mem = c.mem from rfl, show cl.g = c.g from rfl, s1]
    simp only [Option.bind_some]
    have e4 : (cl.setMem m1).cwp = t := e3
    rw [e4]
    have l1' : saveLoop cf (cl.setMem m1) (NW + 1) (1 <<< t) t 0 m1 = some (r, m2) := by
      have := l1
      rw [Nat.add_zero, Nat.mod_eq_of_lt ht] at this
      exact this
    rw [show (cl.setMem m1).mem = m1 from rfl, l1', Option.bind_some]
    exact o1
  · intro k hk hk1
    rw [o7 _ (Or.inr (by omega))]
    show m2 _ = _
    rw [keep2 _ (by omega), s2 k hk hk1]
  · intro k hk
    rw [o7 _ (Or.inr (by omega))]
    intro _
    show m2 _ = _
    rw [keep2 _ (by omega), s3 k hk]
  · intro k hk
    have := l2 k (Nat.zero_le _) hk
    rw [show (cl.setMem m1).i = cl.i from rfl, hci] at this
    have hcl : cl.i = (c.setO 0 (c.psr.andn PSR_ET).word).i := by
      show upd c.i (below (c.psr.andn PSR_ET).cwp) (upd (c.i (below (c.psr.andn PSR_ET).cwp)) 0 _) =
        upd c.i (below c.psr.cwp) (upd (c.i (below c.psr.cwp)) 0 _)
      rw [andn_et_cwp]
    rw [hcl] at this
    refine Same.trans (frameIn_congr fun a ha1 ha2 => ?_) this
    have := hge k hk
    exact o7 a (Or.inr (by omega))
  · intro a h1 h2
    rw [o7 a (by omega)]
    show m2 a = _
    rw [l3 a (fun k _ hk => by show a < cl.i _ 6 ∨ cl.i _ 6 + 64 ≤ a; rw [hci]; exact h2 k hk), s4 a (by omega)]

/-! ## Restoring -/

theorem set_cwp : ∀ w < 8, (w - (w &&& 0xF)) ||| 7 = 7 ∧ (w - (w &&& 0x1F)) ||| 7 = 7 := by decide
theorem set_wim : ∀ r < 8, (1 <<< (r % 32)) % 256 = 2 ^ r := by decide

theorem loadable_under (ok : Nat → Bool) (b : Nat) (hb : b + 0x54 < W) (hb4 : b % 4 = 0) (hok' : ∀ a, b ≤ a → a < b + 0x54 → ok a = true) :
    loadable ok ((underWords (b + 0x54) (fun _ => 0) (fun _ => 0)).map fun p => (p.1, p.2.1)) = true := by
  rw [underWords_b hb]
  unfold loadable
  rw [List.all_eq_true]
  intro p hp
  simp only [List.map_cons, List.map_nil, List.mem_cons, List.not_mem_nil, or_false] at hp
  rcases hp with e | e | e | e | e | e | e | e | e | e | e | e | e | e | e <;> subst e <;>
    (simp only [Bool.and_eq_true, decide_eq_true_eq]; exact ⟨by omega, hok' _ (by omega) (by omega)⟩)

theorem contextRestore_spec (cf : Conf) (c : Cpu) (b r pc npc : Nat) (g o : Nat → Nat) (hc : c.psr.cwp < 8) (hr : r < 8) (hb : b + 0x54 < W) (hb4 : b % 4 = 0)
    (hs : Saved c.mem b g o pc npc r) (ho : o 6 = b + 0x54)
    (hal : ∀ k < r, chainPtr c.mem (b + 0x54) k % 8 = 0)
    (hok : ∀ k < r, ∀ a, chainPtr c.mem (b + 0x54) k ≤ a → a < chainPtr c.mem (b + 0x54) k + 64 → cf.ok a = true)
    (hok' : ∀ a, b ≤ a → a < b + 0x54 → cf.ok a = true) :
    ∃ c', contextRestore cf c (b + 0x54) = some (c', pc, npc) ∧ c'.mem = c.mem ∧ c'.wim = 2 ^ r ∧ c'.y = c.y ∧
      c'.psr = { c.psr with cwp := 7 } ∧ (∀ k < 8, 1 ≤ k → c'.g k = g k) ∧ (∀ k < 8, c'.i 7 k = o k) ∧
      ∀ k < r, (Frame.mk (c'.l k) (c'.i k)).Same (frameIn c.mem (chainPtr c.mem (b + 0x54) k)) := by
  have hp1 : (c.psr.andn 0xF).or (NW - 1) = { c.psr with cwp := 7 } := by
    unfold Psr.or Psr.andn NW
    have := (set_cwp c.psr.cwp hc).1
    have e : (15 : Nat) % 32 = 15 := rfl
    have e' : (8 - 1 : Nat) % 32 = 7 := rfl
    simp only [e, e', this]
    simp [Nat.testBit, Nat.shiftRight, HShiftRight.hShiftRight, ShiftRight.shiftRight]
  have hp2 : ((({ c.psr with cwp := (7 + r) % 8 } : Psr).andn PSR_CWP_MASK).or (NW - 1)) = { c.psr with cwp := 7 } := by
    unfold Psr.or Psr.andn NW PSR_CWP_MASK
    have := (set_cwp ((7 + r) % 8) (Nat.mod_lt _ (by decide))).2
    have e : (31 : Nat) % 32 = 31 := rfl
    have e' : (8 - 1 : Nat) % 32 = 7 := rfl
    simp only [e, e', this]
    simp [Nat.testBit, Nat.shiftRight, HShiftRight.hShiftRight, ShiftRight.shiftRight]
  have a54 : sub32 (b + 0x54) 0x54 = b := by rw [sub32_b (by decide) hb]; rfl
  have a4c : sub32 (b + 0x54) 0x4c = b + 8 := sub32_b (by decide) hb
  have a50 : sub32 (b + 0x54) 0x50 = b + 4 := sub32_b (by decide) hb
  have hl3 : loadable cf.ok [(4, b), (4, b + 8), (4, b + 4)] = true := by
    unfold loadable
    rw [List.all_eq_true]
    intro p hp
    simp only [List.mem_cons, List.not_mem_nil, or_false] at hp
    rcases hp with e | e | e <;> subst e <;>
      (simp only [Bool.and_eq_true, decide_eq_true_eq]; exact ⟨by omega, hok' _ (by omega) (by omega)⟩)
  unfold contextRestore
  rw [hp1, a54, a4c, a50, if_pos hl3]
  generalize hX : ((c.setPsr { c.psr with cwp := 7 }).setI 6 (b + 0x54)) = X
  have xm : X.mem = c.mem := by rw [← hX]; rfl
  have xp : X.psr = { c.psr with cwp := 7 } := by rw [← hX]; rfl
  have xi : X.i 7 6 = b + 0x54 := by
    rw [← hX]
    show upd c.i 7 (upd (c.i 7) 6 (b + 0x54)) 7 6 = _
    rw [upd_same, upd_same]
  have xy : X.y = c.y := by rw [← hX]; rfl
  simp only
  rw [xm, hs.pc, hs.npc, hs.cnt]
  have xw : (X.setWim (1 <<< (r % 32))).wim = 2 ^ r := set_wim r hr
  obtain ⟨Y, h1, h2, h3, h4, h5, h6, h7, h8, h9, h10⟩ := restoreLoop_spec cf (b + 0x54) r hr c.mem hal hok r 0 (X.setWim (1 <<< (r % 32))) (by omega) xm
    (by show X.psr.cwp = _; rw [xp]) xw xi
  rw [h1]
  simp only
  have h8' : Y.psr = { c.psr with cwp := (7 + r) % 8 } := by
    rw [h8]
    show ({ X.psr with cwp := (7 + r) % 8 } : Psr) = _
    rw [xp]
  rw [h8', hp2, if_pos (loadable_under cf.ok b hb hb4 hok')]
  refine ⟨_, rfl, h2, h3.trans xw, h4.trans xy, rfl, fun k hk k1 => ?_, fun k hk => ?_, fun k hk => ?_⟩
  · have := hs.globals k hk k1
    show (loadUnder _ (b + 0x54)).g k = _
    unfold loadUnder
    simp only
    have hm : ((((Y.setPsr { c.psr with cwp := 7 }).setL 2 (b + 0x54)).setL 3 pc).setL 4 npc).mem = c.mem := h2
    rw [hm]
    rw [← this]
    interval_cases k <;> simp only [if_true, if_false, Nat.reduceEqDiff, Nat.reduceMul]
    · rw [sub32_b (by decide) hb]
    · rw [sub32_b (by decide) hb]
    · rw [sub32_b (by decide) hb]
    · rw [sub32_b (by decide) hb]
    · rw [sub32_b (by decide) hb]
    · rw [sub32_b (by decide) hb]
    · rw [sub32_b (by decide) hb]
  · show (loadUnder _ (b + 0x54)).i 7 k = _
    unfold loadUnder
    simp only
    have hm : ((((Y.setPsr { c.psr with cwp := 7 }).setL 2 (b + 0x54)).setL 3 pc).setL 4 npc).mem = c.mem := h2
    have hw : ((((Y.setPsr { c.psr with cwp := 7 }).setL 2 (b + 0x54)).setL 3 pc).setL 4 npc).cwp = 7 := rfl
    rw [hm, hw, upd_same]
    by_cases e6 : k = 6
    · subst e6
      simp only [Nat.reduceEqDiff, if_true, if_false]
      exact ho.symm
    · have := hs.outs k hk e6
      rw [← this]
      interval_cases k <;> simp only [if_true, if_false, Nat.reduceEqDiff, Nat.reduceMul]
      · rw [sub32_b (by decide) hb]
      · rw [sub32_b (by decide) hb]
      · rw [sub32_b (by decide) hb]
      · rw [sub32_b (by decide) hb]
      · rw [sub32_b (by decide) hb]
      · rw [sub32_b (by decide) hb]
      · exact absurd rfl e6
      · rw [sub32_b (by decide) hb]
  · have := h9 k (Nat.zero_le _) hk
    have e1 : (loadUnder ((((Y.setPsr { c.psr with cwp := 7 }).setL 2 (b + 0x54)).setL 3 pc).setL 4 npc) (b + 0x54)).l k = Y.l k := by
      show upd (upd (upd Y.l 7 _) 7 _) 7 _ k = _
      rw [upd_other _ _ (by omega), upd_other _ _ (by omega), upd_other _ _ (by omega)]
    have e2 : (loadUnder ((((Y.setPsr { c.psr with cwp := 7 }).setL 2 (b + 0x54)).setL 3 pc).setL 4 npc) (b + 0x54)).i k = Y.i k := by
      show upd Y.i 7 _ k = _
      rw [upd_other _ _ (by omega)]
    rw [e1, e2]
    exact this

theorem bits_F20 : (0xF20 : Nat).testBit 5 = true ∧ (0xF20 : Nat).testBit 6 = false ∧ (0xF20 : Nat).testBit 7 = false := by decide

theorem andn_out (p : Psr) : (p.andn 0xF20).cwp = p.cwp ∧ (p.andn 0xF20).et = false ∧ (p.andn 0xF20).s = p.s ∧ (p.andn 0xF20).ps = p.ps ∧
    (p.andn 0xF20).icc = p.icc := by
  obtain ⟨f1, f2, f3, f4, _, f6⟩ := psr_andn_fields p 0xF20
  obtain ⟨g1, g2, g3⟩ := bits_F20
  rw [g3] at f1
  rw [g2] at f2
  rw [g1] at f3
  rw [show (0xF20 : Nat) % 32 = 0 from rfl, Nat.and_zero, Nat.sub_zero] at f6
  exact ⟨f6, f3.trans (by simp), f1.trans (by simp), f2.trans (by simp), f4⟩

/-- The trap is left: the context is resumed in window 0. -/
theorem trapOut_spec (cf : Conf) (c : Cpu) (b r pc npc : Nat) (g o : Nat → Nat) (hc : c.psr.cwp < 8) (h1 : 1 ≤ r) (hr : r < 8) (hb : b + 0x54 < W)
    (hb4 : b % 4 = 0) (hs : Saved c.mem b g o pc npc r) (ho : o 6 = b + 0x54) (hsup : c.psr.s = true) (hpc : pc % 4 = 0) (hnpc : npc % 4 = 0)
    (hal : ∀ k < r, chainPtr c.mem (b + 0x54) k % 8 = 0)
    (hok : ∀ k < r, ∀ a, chainPtr c.mem (b + 0x54) k ≤ a → a < chainPtr c.mem (b + 0x54) k + 64 → cf.ok a = true)
    (hok' : ∀ a, b ≤ a → a < b + 0x54 → cf.ok a = true) :
    ∃ c', trapOut cf c (b + 0x54) = some c' ∧ c'.mem = c.mem ∧ c'.wim = 2 ^ r ∧ c'.y = c.y ∧ c'.pc = pc ∧ c'.npc = npc ∧ c'.cwp = 0 ∧
      c'.psr.s = c.psr.ps ∧ c'.psr.et = true ∧ c'.psr.icc = c.psr.icc ∧ (∀ k < 8, 1 ≤ k → c'.g k = g k) ∧ (∀ k < 8, c'.outs k = o k) ∧
      ∀ k < r, (Frame.mk (c'.l k) (c'.i k)).Same (frameIn c.mem (chainPtr c.mem (b + 0x54) k)) := by
  obtain ⟨X, h1', h2, h3, h4, h5, h6, h7, h8⟩ := contextRestore_spec cf c b r pc npc g o hc hr hb hb4 hs ho hal hok hok'
  unfold trapOut
  rw [h1', Option.bind_some]
  simp only
  obtain ⟨f6, f3, f1, f2, f4⟩ := andn_out X.psr
  have hx7 : X.psr.cwp = 7 := by rw [h5]
  have hxs : X.psr.s = true := by rw [h5]; exact hsup
  have hxp : X.psr.ps = c.psr.ps := by rw [h5]
  have hxi : X.psr.icc = c.psr.icc := by rw [h5]
  rw [hx7] at f6
  rw [hxs] at f1
  rw [hxp] at f2
  rw [hxi] at f4
  generalize X.psr.andn 0xF20 = P at f1 f2 f3 f4 f6
  have hinv : ((X.setPsr P).setL 0 (X.setPsr P).psr.word).invalid (above ((X.setPsr P).setL 0 (X.setPsr P).psr.word).cwp) = false := by
    show X.wim.testBit (above P.cwp) = false
    rw [h3, f6, Nat.testBit_two_pow]
    exact decide_eq_false (by show r ≠ 0; omega)
  unfold rett
  rw [if_neg]
  · refine ⟨_, rfl, h2, h3, h4, rfl, rfl, ?_, f2, rfl, f4, h6, fun k hk => ?_, fun k hk => ?_⟩
    · show above P.cwp = 0
      rw [f6]
      rfl
    · show X.i (below (above P.cwp)) k = _
      rw [f6]
      exact h7 k hk
    · have := h8 k hk
      show (Frame.mk (upd X.l P.cwp _ k) (X.i k)).Same _
      rw [f6, upd_other _ _ (by omega)]
      exact this
  · rw [hinv]
    show ¬ (P.et = true ∨ ¬ P.s = true ∨ false = true ∨ pc % 4 ≠ 0 ∨ npc % 4 ≠ 0)
    rw [f3, f1]
    simp [hpc, hnpc]

end Pok.Sparc
