import Verif.Lemmas.SparcProg

/-!
# `save` and `restore` with the window handlers
-/

namespace Pok.Sparc
open Pok.SparcSpec

theorem mask_right : ∀ t < 8, ((2 ^ t <<< (NW - 1)) % W ||| 2 ^ t >>> 1) % 256 = 2 ^ below t := by decide
theorem mask_left : ∀ t < 8, (2 ^ t >>> (NW - 1) ||| (2 ^ t <<< 1) % W) % 256 = 2 ^ above t := by decide

theorem overflowMask_facts (c : Cpu) : (overflowMask c).psr = c.psr ∧ (overflowMask c).wim = c.wim ∧ (overflowMask c).i = c.i ∧ (overflowMask c).mem = c.mem ∧
    (overflowMask c).y = c.y ∧
    (∀ w, w ≠ c.cwp → (overflowMask c).l w = c.l w) ∧ (overflowMask c).l c.cwp 1 = c.l c.cwp 1 ∧ (overflowMask c).l c.cwp 2 = c.l c.cwp 2 ∧
    (overflowMask c).l c.cwp 7 = c.g 1 ∧ (overflowMask c).g = upd c.g 1 ((c.wim <<< (NW - 1)) % W ||| c.wim >>> 1) := by
  refine ⟨rfl, rfl, rfl, rfl, rfl, fun w hw => ?_, ?_, ?_, ?_, ?_⟩
  · show upd (upd (upd c.l c.cwp _) c.cwp _) c.cwp _ w = _
    rw [upd_other _ _ hw, upd_other _ _ hw, upd_other _ _ hw]
  all_goals simp [overflowMask, Cpu.setL, Cpu.setG, Cpu.cwp, upd_same, upd_other]

theorem underflowMask_facts (c : Cpu) : (underflowMask c).psr = c.psr ∧ (underflowMask c).i = c.i ∧ (underflowMask c).mem = c.mem ∧ (underflowMask c).g = c.g ∧
    (underflowMask c).y = c.y ∧
    (∀ w, w ≠ c.cwp → (underflowMask c).l w = c.l w) ∧ (underflowMask c).l c.cwp 1 = c.l c.cwp 1 ∧ (underflowMask c).l c.cwp 2 = c.l c.cwp 2 ∧
    (underflowMask c).wim = (c.wim >>> (NW - 1) ||| (c.wim <<< 1) % W) % 256 := by
  refine ⟨rfl, rfl, rfl, rfl, rfl, fun w hw => ?_, ?_, ?_, ?_⟩
  · show upd (upd (upd (upd c.l c.cwp _) c.cwp _) c.cwp _) c.cwp _ w = _
    rw [upd_other _ _ hw, upd_other _ _ hw, upd_other _ _ hw, upd_other _ _ hw]
  all_goals simp [underflowMask, Cpu.setL, Cpu.setWim, Cpu.cwp, upd_same, upd_other]

/-- The overflow handler, entered in the invalid window `t`, stores the window below it. -/
theorem overflow_spec (cf : Conf) (c : Cpu) (t : Nat) (ht : t < 8) (hc : c.psr.cwp = t) (hw : c.wim = 2 ^ t) (het : c.psr.et = false) (hs : c.psr.s = true)
    (h1 : c.l t 1 % 4 = 0) (h2 : c.l t 2 % 4 = 0) (hal : c.i (below (below t)) 6 % 8 = 0)
    (hok : ∀ a, c.i (below (below t)) 6 ≤ a → a < c.i (below (below t)) 6 + 64 → cf.ok a = true) :
    ∃ c', overflow cf c = some c' ∧ c'.psr = { c.psr with et := true, s := c.psr.ps, cwp := above t } ∧ c'.wim = 2 ^ below t ∧ c'.y = c.y ∧
      c'.pc = c.l t 1 ∧ c'.npc = c.l t 2 ∧ (∀ r, c'.g r = c.g r) ∧ (∀ w, w ≠ t → c'.l w = c.l w) ∧ c'.i = c.i ∧
      (frameIn c'.mem (c.i (below (below t)) 6)).Same ⟨c.l (below t), c.i (below t)⟩ ∧
      ∀ a, a < c.i (below (below t)) 6 ∨ c.i (below (below t)) 6 + 64 ≤ a → c'.mem a = c.mem a := by
  obtain ⟨m1, m2, m3, m4, m5, m6, m7, m8, m9, m10⟩ := overflowMask_facts c
  have hcw : c.cwp = t := hc
  rw [hcw] at m6 m7 m8 m9
  unfold overflow
  generalize hX : overflowMask c = X at *
  have xc : X.cwp = t := by show X.psr.cwp = t; rw [m1, hc]
  have hbt : below t ≠ t := by unfold below NW; omega
  have hat : above t ≠ below t := by unfold below above NW; omega
  have hab : above (below t) = t := by unfold below above NW; omega
  have hinv : X.invalid (below t) = false := by
    unfold Cpu.invalid
    rw [m2, hw, Nat.testBit_two_pow]
    exact decide_eq_false (Ne.symm hbt)
  simp only
  rw [xc, hinv, if_neg (by decide)]
  have hg : (X.setCwp (below t)).g 1 = (c.wim <<< (NW - 1)) % W ||| c.wim >>> 1 := by
    show X.g 1 = _
    rw [m10, upd_same]
  rw [hg, hw]
  generalize hY : (X.setCwp (below t)).setWim ((2 ^ t <<< (NW - 1)) % W ||| 2 ^ t >>> 1) = Y
  have yc : Y.cwp = below t := by rw [← hY]; rfl
  have yw : Y.wim = 2 ^ below t := by rw [← hY]; exact mask_right t ht
  have yi : Y.i = c.i := by rw [← hY]; exact m3
  have ym : Y.mem = c.mem := by rw [← hY]; exact m4
  have yl : Y.l = X.l := by rw [← hY]; rfl
  have yp : Y.psr = { c.psr with cwp := below t } := by rw [← hY, ← m1]; rfl
  have yg : Y.g = X.g := by rw [← hY]; rfl
  have yy : Y.y = c.y := by rw [← hY]; exact m5
  have yo : Y.outs 6 = c.i (below (below t)) 6 := by
    unfold Cpu.outs
    rw [yc, yi]
  obtain ⟨mem, o1, o2, o3⟩ := store_window cf.ok c.mem (c.i (below (below t)) 6) (c.l (below t)) (c.i (below t)) hal hok
  rw [yo, yc, yl, yi, ym, m6 _ hbt, o1, Option.bind_some]
  have zinv : (Y.setMem mem).invalid (above (Y.setMem mem).cwp) = false := by
    show Y.wim.testBit (above Y.cwp) = false
    rw [yw, yc, hab, Nat.testBit_two_pow]
    exact decide_eq_false hbt
  have zc : (Y.setMem mem).cwp = below t := yc
  rw [zinv, if_neg (by decide), zc, hab]
  have vc : ((Y.setMem mem).setCwp t).cwp = t := rfl
  have vl : ((Y.setMem mem).setCwp t).l = X.l := yl
  rw [vc, vl, m9]
  have uc : (((Y.setMem mem).setCwp t).setG 1 (c.g 1)).cwp = t := rfl
  have ul : (((Y.setMem mem).setCwp t).setG 1 (c.g 1)).l = X.l := yl
  rw [uc, ul, m7, m8]
  generalize hZ : ((Y.setMem mem).setCwp t).setG 1 (c.g 1) = Z at *
  have zp : Z.psr = { c.psr with cwp := t } := by
    rw [← hZ]
    show ({ Y.psr with cwp := t } : Psr) = _
    rw [yp]
  have zw : Z.wim = 2 ^ below t := by rw [← hZ]; exact yw
  have zc' : Z.cwp = t := uc
  have hr : ¬ (Z.psr.et = true ∨ ¬ Z.psr.s = true ∨ Z.invalid (above Z.cwp) = true ∨ c.l t 1 % 4 ≠ 0 ∨ c.l t 2 % 4 ≠ 0) := by
    have e : Z.invalid (above Z.cwp) = false := by
      unfold Cpu.invalid
      rw [zw, zc', Nat.testBit_two_pow]
      exact decide_eq_false (Ne.symm hat)
    rw [e, zp]
    simp [het, hs, h1, h2]
  unfold rett
  rw [if_neg hr]
  refine ⟨_, rfl, ?_, zw, ?_, rfl, rfl, fun r => ?_, fun w hw' => ?_, ?_, ?_, fun a ha => ?_⟩
  · show ({ Z.psr with et := true, s := Z.psr.ps, cwp := above Z.cwp } : Psr) = _
    rw [zp, zc']
  · show Z.y = _
    rw [← hZ]
    exact yy
  · show Z.g r = _
    rw [← hZ]
    show upd Y.g 1 (c.g 1) r = _
    rw [yg, m10]
    by_cases e : r = 1
    · rw [e, upd_same]
    · rw [upd_other _ _ e, upd_other _ _ e]
  · show Z.l w = _
    rw [ul]
    exact m6 w hw'
  · show Z.i = _
    rw [← hZ]
    exact yi
  · show (frameIn Z.mem _).Same _
    rw [← hZ]
    exact o2
  · show Z.mem a = _
    rw [← hZ]
    exact o3 a ha

/-- The underflow handler, entered in the window `t` with the window two above it invalid, loads that window. -/
theorem underflow_spec (cf : Conf) (c : Cpu) (t : Nat) (ht : t < 8) (hc : c.psr.cwp = t) (hw : c.wim = 2 ^ above (above t)) (het : c.psr.et = false)
    (hs : c.psr.s = true) (h1 : c.l t 1 % 4 = 0) (h2 : c.l t 2 % 4 = 0) (hal : c.i (above t) 6 % 8 = 0)
    (hok : ∀ a, c.i (above t) 6 ≤ a → a < c.i (above t) 6 + 64 → cf.ok a = true) :
    ∃ c', underflow cf c = some c' ∧ c'.psr = { c.psr with et := true, s := c.psr.ps, cwp := above t } ∧ c'.wim = 2 ^ above (above (above t)) ∧ c'.y = c.y ∧
      c'.pc = c.l t 1 ∧ c'.npc = c.l t 2 ∧ c'.g = c.g ∧ (∀ w, w ≠ t → w ≠ above (above t) → c'.l w = c.l w) ∧ (∀ w, w ≠ above (above t) → c'.i w = c.i w) ∧
      (Frame.mk (c'.l (above (above t))) (c'.i (above (above t)))).Same (frameIn c.mem (c.i (above t) 6)) ∧ c'.mem = c.mem := by
  obtain ⟨m1, m3, m4, m5, m6, m7, m8, m9, m10⟩ := underflowMask_facts c
  have hcw : c.cwp = t := hc
  rw [hcw] at m7 m8 m9
  have ha1 : above t ≠ above (above (above t)) := by unfold above NW; omega
  have ha2 : above (above t) ≠ above (above (above t)) := by unfold above NW; omega
  have ha3 : t ≠ above (above (above t)) := by unfold above NW; omega
  have ha4 : t ≠ above (above t) := by unfold above NW; omega
  have hb1 : below (above (above t)) = above t := by unfold above below NW; omega
  have hb2 : below (above t) = t := by unfold above below NW; omega
  rw [hw, mask_left _ (by unfold above NW; omega)] at m10
  unfold underflow
  generalize hX : underflowMask c = X at *
  have xc : X.cwp = t := by show X.psr.cwp = t; rw [m1, hc]
  have inv : ∀ Z : Cpu, Z.wim = X.wim → ∀ w, w ≠ above (above (above t)) → Z.invalid w = false := fun Z hZ w h => by
    unfold Cpu.invalid
    rw [hZ, m10, Nat.testBit_two_pow]
    exact decide_eq_false (Ne.symm h)
  simp only
  rw [xc, inv X rfl _ ha1, inv X rfl _ ha2, if_neg (by decide)]
  have yc : (X.setCwp (above (above t))).cwp = above (above t) := rfl
  have yo : (X.setCwp (above (above t))).outs 6 = c.i (above t) 6 := by
    show X.i (below (above (above t))) 6 = _
    rw [hb1, m3]
  rw [yo, yc, if_pos (loadable_window cf.ok _ hal hok)]
  have hsame := loadWindow_same (X.setCwp (above (above t))) (above (above t)) (c.i (above t) 6)
  have hother := loadWindow_other (X.setCwp (above (above t))) (above (above t)) (c.i (above t) 6)
  have ym : (X.setCwp (above (above t))).mem = c.mem := m4
  rw [ym] at hsame
  have zc : (loadWindow (X.setCwp (above (above t))) (above (above t)) (c.i (above t) 6)).cwp = above (above t) := rfl
  have zw : (loadWindow (X.setCwp (above (above t))) (above (above t)) (c.i (above t) 6)).wim = X.wim := rfl
  have zp : (loadWindow (X.setCwp (above (above t))) (above (above t)) (c.i (above t) 6)).psr = { X.psr with cwp := above (above t) } := rfl
  have zy : (loadWindow (X.setCwp (above (above t))) (above (above t)) (c.i (above t) 6)).y = X.y := rfl
  have zg : (loadWindow (X.setCwp (above (above t))) (above (above t)) (c.i (above t) 6)).g = X.g := rfl
  have zm : (loadWindow (X.setCwp (above (above t))) (above (above t)) (c.i (above t) 6)).mem = X.mem := rfl
  generalize loadWindow (X.setCwp (above (above t))) (above (above t)) (c.i (above t) 6) = Z at *
  rw [zc, hb1, hb2, inv Z zw _ ha1, inv Z zw _ ha3, if_neg (by decide)]
  have uc : (Z.setCwp t).cwp = t := rfl
  have ul : (Z.setCwp t).l t = X.l t := (hother t ha4).1
  have up : (Z.setCwp t).psr = { c.psr with cwp := t } := by
    show ({ Z.psr with cwp := t } : Psr) = _
    rw [zp, m1]
  have uw : (Z.setCwp t).wim = X.wim := zw
  rw [uc, ul, m8, m9]
  have hr : ¬ ((Z.setCwp t).psr.et = true ∨ ¬ (Z.setCwp t).psr.s = true ∨ (Z.setCwp t).invalid (above (Z.setCwp t).cwp) = true ∨ c.l t 1 % 4 ≠ 0 ∨ c.l t 2 % 4 ≠ 0) := by
    rw [uc, inv _ uw _ ha1, up]
    simp [het, hs, h1, h2]
  unfold rett
  rw [if_neg hr]
  refine ⟨_, rfl, ?_, zw.trans m10, zy.trans m6, rfl, rfl, zg.trans m5, fun w hw1 hw2 => ?_, fun w hw1 => ?_, hsame, zm.trans m4⟩
  · show ({ (Z.setCwp t).psr with et := true, s := (Z.setCwp t).psr.ps, cwp := above (Z.setCwp t).cwp } : Psr) = _
    rw [up, uc]
  · exact (hother w hw2).1.trans (m7 w hw1)
  · exact (hother w hw1).2.trans (congrFun m3 w)

theorem above_below {w : Nat} (h : w < 8) : above (below w) = w := by unfold below above NW; omega
theorem below_above {w : Nat} (h : w < 8) : below (above w) = w := by unfold below above NW; omega

/-- The state in which a window handler starts. -/
def handlerState (c : Cpu) : Cpu :=
  (({ c with psr := { c.psr with et := false, ps := c.psr.s, s := true, cwp := below c.cwp } }).setL 1 c.pc).setL 2 c.npc

theorem handlerState_facts (c : Cpu) : (handlerState c).psr = { c.psr with et := false, ps := c.psr.s, s := true, cwp := below c.cwp } ∧ (handlerState c).i = c.i ∧
    (handlerState c).g = c.g ∧ (handlerState c).y = c.y ∧ (handlerState c).mem = c.mem ∧ (handlerState c).wim = c.wim ∧
    (handlerState c).l (below c.cwp) 1 = c.pc ∧ (handlerState c).l (below c.cwp) 2 = c.npc ∧ ∀ w, w ≠ below c.cwp → (handlerState c).l w = c.l w := by
  refine ⟨rfl, rfl, rfl, rfl, rfl, rfl, ?_, ?_, fun w hw => ?_⟩
  · simp [handlerState, Cpu.setL, Cpu.cwp, upd_same, upd_other]
  · simp [handlerState, Cpu.setL, Cpu.cwp, upd_same, upd_other]
  · show upd (upd c.l (below c.cwp) _) (below c.cwp) _ w = _
    rw [upd_other _ _ hw, upd_other _ _ hw]

/-- A call: the new function gets the outs of its caller as ins, and each frame moves one place up. -/
theorem save_spec {cf : Conf} {c : Cpu} {v n : Nat} (sp : Nat) (h : Windows c v) (het : c.psr.et = true) (hpc : c.pc % 4 = 0) (hnpc : c.npc % 4 = 0)
    (hs : StackOk cf.ok c n) (hn : inUse c v ≤ n) :
    ∃ c' v', save cf c sp = some c' ∧ Windows c' v' ∧ inUse c' v' ≤ inUse c v + 1 ∧ c'.psr.et = true ∧ c'.psr.s = c.psr.s ∧ c'.psr.icc = c.psr.icc ∧ c'.y = c.y ∧
      c'.pc = c.pc ∧ c'.npc = c.npc ∧ (∀ r, c'.g r = c.g r) ∧ c'.outs 6 = sp ∧ (∀ r, (frame c' 0).i r = c.outs r) ∧
      (∀ k < n, (frame c' (k + 1)).Same (frame c k)) ∧
      ∀ a, (∀ k < n, a < stackPtr c k ∨ stackPtr c k + 64 ≤ a) → c'.mem a = c.mem a := by
  obtain ⟨r1, r2, r3⟩ := inUse_pos h
  have hcw := h.2.1
  have hv := h.1
  have hbc : below c.cwp = (c.cwp + 7) % 8 := rfl
  have hbb : below (below c.cwp) = (c.cwp + 6) % 8 := by unfold below NW; omega
  unfold save
  by_cases hr : inUse c v = 7
  · -- the window below is the invalid one
    have hvb : v = below c.cwp := by rw [hbc, ← r3, hr]
    have hinv : c.invalid (below c.cwp) = true := by rw [invalid_iff h, hvb]; exact decide_eq_true rfl
    have hent : enterTrap c = some (handlerState c) := by unfold enterTrap; rw [if_pos het]; rfl
    rw [if_pos hinv, hent, Option.bind_some]
    obtain ⟨f1, f2, f3, f4, f5, f6, f7, f8, f9⟩ := handlerState_facts c
    have hsp6 : (handlerState c).i (below (below (below c.cwp))) 6 = stackPtr c 6 := by
      rw [f2, stackPtr_win h (by omega), show below (below (below c.cwp)) = (below c.cwp + 6) % 8 by unfold below NW; omega]
    obtain ⟨X, x1, x2, x3, x4, x5, x6, x7, x8, x9, x10, x11⟩ := overflow_spec cf (handlerState c) (below c.cwp) below_lt (by rw [f1]) (by rw [f6, h.2.2.1, hvb])
      (by rw [f1]) (by rw [f1]) (by rw [f7]; exact hpc) (by rw [f8]; exact hnpc) (by rw [hsp6]; exact hs.aligned 6 (by omega))
      (by rw [hsp6]; exact hs.reach 6 (by omega))
    rw [x1, Option.bind_some]
    rw [hsp6] at x10 x11
    rw [f1, above_below hcw] at x2
    rw [f7] at x5
    rw [f8] at x6
    rw [f5] at x11
    rw [f2] at x9 x10
    have xc : X.cwp = c.cwp := by show X.psr.cwp = _; rw [x2]
    have xinv : X.invalid (below X.cwp) = false := by
      unfold Cpu.invalid
      rw [x3, xc, Nat.testBit_two_pow]
      exact decide_eq_false (by rw [hbb, hbc]; omega)
    unfold saveNow
    rw [xinv, if_neg (by decide), xc]
    generalize hY : (X.setCwp (below c.cwp)).setO 6 sp = Y
    have yc : Y.cwp = below c.cwp := by rw [← hY]; rfl
    have yw : Y.wim = 2 ^ below (below c.cwp) := by rw [← hY]; exact x3
    have ym : Y.mem = X.mem := by rw [← hY]; rfl
    have yl : Y.l = X.l := by rw [← hY]; rfl
    have yi : ∀ w, w ≠ below (below c.cwp) → Y.i w = c.i w := fun w hw => by
      rw [← hY, ← x9]
      show upd X.i (below (below c.cwp)) _ w = _
      exact upd_other _ _ hw
    have yW : Windows Y (below (below c.cwp)) := ⟨below_lt, by rw [yc]; exact below_lt, yw, by rw [yc, hbb, hbc]; omega⟩
    have yU : inUse Y (below (below c.cwp)) = 7 := by unfold inUse; rw [yc, hbb, hbc]; omega
    have hfr : ∀ k < n, (frame Y (k + 1)).Same (frame c k) := by
      intro k
      induction k with
      | zero =>
        intro _
        rw [frame_win yW (by omega), frame_win h (by omega), yc, show (below c.cwp + (0 + 1)) % 8 = (c.cwp + 0) % 8 by omega, yl,
          x8 _ (by omega), f9 _ (by omega), yi _ (by omega)]
        exact Same.refl _
      | succ k ih =>
        intro hk
        by_cases hk6 : k + 1 < 6
        · rw [frame_win yW (by omega), frame_win h (by omega), yc, show (below c.cwp + (k + 1 + 1)) % 8 = (c.cwp + (k + 1)) % 8 by omega, yl,
            x8 _ (by omega), f9 _ (by omega), yi _ (by omega)]
          exact Same.refl _
        · rw [frame_mem yW (by omega), ym, (ih (by omega) 6 (by decide)).2]
          by_cases hk7 : k + 1 = 6
          · have e : k = 5 := by omega
            subst e
            refine Same.trans x10 ?_
            rw [frame_win h (by omega), f9 _ (by rw [hbb, hbc]; omega), hbb]
            exact Same.refl _
          · rw [frame_mem h (by omega)]
            refine frameIn_congr fun a ha ha' => x11 a ?_
            have : stackPtr c 6 + 64 ≤ stackPtr c (k + 1) := stackOk_mono hs (k + 1) 6 (by omega) hk
            have e : stackPtr c (k + 1) = (frame c k).i 6 := rfl
            omega
    refine ⟨Y, below (below c.cwp), rfl, yW, by omega, ?_, ?_, ?_, ?_, ?_, ?_, fun r => ?_, ?_, fun r => ?_, hfr, fun a ha => ?_⟩
    · rw [← hY]
      show X.psr.et = true
      rw [x2]
    · rw [← hY]
      show X.psr.s = _
      rw [x2]
    · rw [← hY]
      show X.psr.icc = _
      rw [x2]
    · rw [← hY]
      exact x4.trans f4
    · rw [← hY]
      exact x5
    · rw [← hY]
      exact x6
    · rw [← hY]
      exact (x7 r).trans (congrFun f3 r)
    · rw [← hY]
      show upd X.i (below (below c.cwp)) (upd (X.i (below (below c.cwp))) 6 sp) (below (below c.cwp)) 6 = _
      rw [upd_same, upd_same]
    · show Y.i Y.cwp r = c.i (below c.cwp) r
      rw [yc, yi _ (by rw [hbb, hbc]; omega)]
    · rw [ym]
      exact x11 a (ha 6 (by omega))
  · have hinv : c.invalid (below c.cwp) = false := by
      rw [invalid_iff h]
      exact decide_eq_false (by rw [hbc, ← r3]; omega)
    rw [hinv, if_neg (by decide)]
    unfold saveNow
    rw [hinv, if_neg (by decide)]
    generalize hY : (c.setCwp (below c.cwp)).setO 6 sp = Y
    have yc : Y.cwp = below c.cwp := by rw [← hY]; rfl
    have yw : Y.wim = 2 ^ v := by rw [← hY]; exact h.2.2.1
    have ym : Y.mem = c.mem := by rw [← hY]; rfl
    have yl : Y.l = c.l := by rw [← hY]; rfl
    have yi : ∀ w, w ≠ below (below c.cwp) → Y.i w = c.i w := fun w hw => by
      rw [← hY]
      show upd c.i (below (below c.cwp)) _ w = _
      exact upd_other _ _ hw
    have yW : Windows Y v := ⟨hv, by rw [yc]; exact below_lt, yw, by rw [yc, hbc, ← r3]; omega⟩
    have yU : inUse Y v = inUse c v + 1 := by
      have e : inUse Y v = (v + 8 - below c.cwp) % 8 := by unfold inUse; rw [yc]
      rw [e, hbc]
      unfold inUse
      unfold inUse at hr
      omega
    have hfr : ∀ k < n, (frame Y (k + 1)).Same (frame c k) := by
      intro k
      induction k with
      | zero =>
        intro _
        rw [frame_win yW (by omega), frame_win h (by omega), yc, show (below c.cwp + (0 + 1)) % 8 = (c.cwp + 0) % 8 by omega, yl, yi _ (by omega)]
        exact Same.refl _
      | succ k ih =>
        intro hk
        by_cases hkr : k + 1 < inUse c v
        · rw [frame_win yW (by omega), frame_win h (by omega), yc, show (below c.cwp + (k + 1 + 1)) % 8 = (c.cwp + (k + 1)) % 8 by omega, yl, yi _ (by omega)]
          exact Same.refl _
        · rw [frame_mem yW (by omega), ym, (ih (by omega) 6 (by decide)).2, frame_mem h (by omega)]
          exact Same.refl _
    refine ⟨Y, v, rfl, yW, by omega, ?_, ?_, ?_, ?_, ?_, ?_, fun r => ?_, ?_, fun r => ?_, hfr, fun a ha => by rw [ym]⟩
    · rw [← hY]; exact het
    · rw [← hY]; rfl
    · rw [← hY]; rfl
    · rw [← hY]; rfl
    · rw [← hY]; rfl
    · rw [← hY]; rfl
    · rw [← hY]; rfl
    · rw [← hY]
      show upd c.i (below (below c.cwp)) (upd (c.i (below (below c.cwp))) 6 sp) (below (below c.cwp)) 6 = _
      rw [upd_same, upd_same]
    · show Y.i Y.cwp r = c.i (below c.cwp) r
      rw [yc, yi _ (by rw [hbb, hbc]; omega)]

/-- A return: the caller finds its own frame, with the ins of the callee as outs. -/
theorem restore_spec {cf : Conf} {c : Cpu} {v : Nat} (h : Windows c v) (het : c.psr.et = true) (hpc : c.pc % 4 = 0) (hnpc : c.npc % 4 = 0)
    (hal : stackPtr c 1 % 8 = 0) (hok : ∀ a, stackPtr c 1 ≤ a → a < stackPtr c 1 + 64 → cf.ok a = true) :
    ∃ c' v', restore cf c = some c' ∧ Windows c' v' ∧ (inUse c' v' + 1 = inUse c v ∨ inUse c' v' = 1) ∧ c'.psr.et = true ∧ c'.psr.s = c.psr.s ∧
      c'.psr.icc = c.psr.icc ∧ c'.y = c.y ∧ c'.pc = c.pc ∧ c'.npc = c.npc ∧ (∀ r, c'.g r = c.g r) ∧ (∀ r, c'.outs r = (frame c 0).i r) ∧
      (∀ k, (frame c' k).Same (frame c (k + 1))) ∧ c'.mem = c.mem := by
  obtain ⟨r1, r2, r3⟩ := inUse_pos h
  have hcw := h.2.1
  have hv := h.1
  have hac : above c.cwp = (c.cwp + 1) % 8 := rfl
  have hbc : below c.cwp = (c.cwp + 7) % 8 := rfl
  have ho : ∀ Y : Cpu, Y.cwp = above c.cwp → Y.i c.cwp = c.i c.cwp → ∀ r, Y.outs r = (frame c 0).i r := fun Y hy hi r => by
    show Y.i (below Y.cwp) r = c.i c.cwp r
    rw [hy, below_above hcw, hi]
  unfold restore
  by_cases hr : inUse c v = 1
  · have hva : v = above c.cwp := by rw [hac, ← r3, hr]
    have hinv : c.invalid (above c.cwp) = true := by rw [invalid_iff h, hva]; exact decide_eq_true rfl
    have hent : enterTrap c = some (handlerState c) := by unfold enterTrap; rw [if_pos het]; rfl
    rw [if_pos hinv, hent, Option.bind_some]
    obtain ⟨f1, f2, f3, f4, f5, f6, f7, f8, f9⟩ := handlerState_facts c
    have hsp1 : (handlerState c).i (above (below c.cwp)) 6 = stackPtr c 1 := by
      rw [f2, above_below hcw]
      rfl
    obtain ⟨X, x1, x2, x3, x4, x5, x6, x7, x8, x9, x10, x11⟩ := underflow_spec cf (handlerState c) (below c.cwp) below_lt (by rw [f1])
      (by rw [f6, h.2.2.1, hva, above_below hcw]) (by rw [f1]) (by rw [f1]) (by rw [f7]; exact hpc) (by rw [f8]; exact hnpc) (by rw [hsp1]; exact hal)
      (by rw [hsp1]; exact hok)
    rw [x1, Option.bind_some]
    rw [hsp1, above_below hcw, f5] at x10
    rw [f1, above_below hcw] at x2
    rw [above_below hcw] at x3 x8 x9
    have xc : X.cwp = c.cwp := by show X.psr.cwp = _; rw [x2]
    have xinv : X.invalid (above X.cwp) = false := by
      unfold Cpu.invalid
      rw [x3, xc, Nat.testBit_two_pow]
      exact decide_eq_false (by unfold above NW; omega)
    unfold restoreNow
    rw [xinv, if_neg (by decide), xc]
    generalize hY : X.setCwp (above c.cwp) = Y
    have yc : Y.cwp = above c.cwp := by rw [← hY]; rfl
    have ym : Y.mem = c.mem := by rw [← hY]; exact x11.trans f5
    have yl : Y.l = X.l := by rw [← hY]; rfl
    have yi : Y.i = X.i := by rw [← hY]; rfl
    have yw : Y.wim = 2 ^ above (above c.cwp) := by rw [← hY]; exact x3
    have yW : Windows Y (above (above c.cwp)) := ⟨by unfold above NW; omega, by rw [yc, hac]; omega, yw, by rw [yc]; unfold above NW; omega⟩
    have yU : inUse Y (above (above c.cwp)) = 1 := by
      unfold inUse
      rw [yc]
      unfold above NW
      omega
    have hfr : ∀ k, (frame Y k).Same (frame c (k + 1)) := by
      intro k
      induction k with
      | zero =>
        rw [frame_mem h (by omega)]
        show (Frame.mk (Y.l Y.cwp) (Y.i Y.cwp)).Same _
        rw [yc, yl, yi]
        exact x10
      | succ k ih =>
        rw [frame_mem yW (by omega), frame_mem h (by omega), ym, (ih 6 (by decide)).2]
        exact Same.refl _
    refine ⟨Y, _, rfl, yW, Or.inr yU, ?_, ?_, ?_, ?_, ?_, ?_, fun r => ?_, ho Y yc ?_, hfr, ym⟩
    · rw [← hY]
      show X.psr.et = true
      rw [x2]
    · rw [← hY]
      show X.psr.s = _
      rw [x2]
    · rw [← hY]
      show X.psr.icc = _
      rw [x2]
    · rw [← hY]; exact x4.trans f4
    · rw [← hY]; exact x5.trans f7
    · rw [← hY]; exact x6.trans f8
    · rw [← hY]; exact (congrFun x7 r).trans (congrFun f3 r)
    · rw [yi, x9 _ (by rw [hac]; omega), f2]
  · have hinv : c.invalid (above c.cwp) = false := by
      rw [invalid_iff h]
      exact decide_eq_false (by rw [hac, ← r3]; omega)
    rw [hinv, if_neg (by decide)]
    unfold restoreNow
    rw [hinv, if_neg (by decide)]
    generalize hY : c.setCwp (above c.cwp) = Y
    have yc : Y.cwp = above c.cwp := by rw [← hY]; rfl
    have ym : Y.mem = c.mem := by rw [← hY]; rfl
    have yl : Y.l = c.l := by rw [← hY]; rfl
    have yi : Y.i = c.i := by rw [← hY]; rfl
    have yW : Windows Y v := ⟨hv, by rw [yc, hac]; omega, by rw [← hY]; exact h.2.2.1, by rw [yc, hac, ← r3]; omega⟩
    have yU : inUse Y v + 1 = inUse c v := by
      have e : inUse Y v = (v + 8 - above c.cwp) % 8 := by unfold inUse; rw [yc]
      rw [e, hac]
      unfold inUse
      unfold inUse at hr r1
      omega
    have hfr : ∀ k, (frame Y k).Same (frame c (k + 1)) := by
      intro k
      induction k with
      | zero =>
        rw [frame_win yW (by omega), frame_win h (by omega), yc, hac, yl, yi, show ((c.cwp + 1) % 8 + 0) % 8 = (c.cwp + (0 + 1)) % 8 by omega]
        exact Same.refl _
      | succ k ih =>
        by_cases hk : k + 1 < inUse Y v
        · rw [frame_win yW hk, frame_win h (by omega), yc, hac, yl, yi, show ((c.cwp + 1) % 8 + (k + 1)) % 8 = (c.cwp + (k + 1 + 1)) % 8 by omega]
          exact Same.refl _
        · rw [frame_mem yW (by omega), frame_mem h (by omega), ym, (ih 6 (by decide)).2]
          exact Same.refl _
    refine ⟨Y, v, rfl, yW, Or.inl yU, ?_, ?_, ?_, ?_, ?_, ?_, fun r => ?_, ho Y yc (by rw [yi]), hfr, ym⟩
    · rw [← hY]; exact het
    all_goals (rw [← hY]; rfl)

end Pok.Sparc
