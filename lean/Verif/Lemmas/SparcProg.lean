import Verif.Lemmas.SparcContext

/-!
# Frames of a program across a trap
-/

namespace Pok.Sparc
open Pok.SparcSpec

theorem inUse_pos {c : Cpu} {v : Nat} (h : Windows c v) : 1 ≤ inUse c v ∧ inUse c v < 8 ∧ (c.cwp + inUse c v) % 8 = v := by
  obtain ⟨h1, h2, _, h4⟩ := h
  unfold inUse
  omega

theorem invalid_iff {c : Cpu} {v : Nat} (h : Windows c v) (w : Nat) : c.invalid w = decide (w = v) := by
  unfold Cpu.invalid
  rw [h.2.2.1, Nat.testBit_two_pow]
  exact decide_eq_decide.2 eq_comm

theorem inWindow_iff {c : Cpu} {v : Nat} (h : Windows c v) (k : Nat) : InWindow c k ↔ k < inUse c v := by
  obtain ⟨h1, h2, h3⟩ := inUse_pos h
  have hc := h.2.1
  constructor
  · intro hi
    by_contra hk
    have := hi (inUse c v) (by omega)
    rw [h3, invalid_iff h] at this
    simp at this
  · intro hk j hj
    rw [invalid_iff h]
    exact decide_eq_false (by rw [← h3]; omega)

theorem frame_win {c : Cpu} {v k : Nat} (h : Windows c v) (hk : k < inUse c v) : frame c k = ⟨c.l ((c.cwp + k) % 8), c.i ((c.cwp + k) % 8)⟩ := by
  cases k with
  | zero =>
    show Frame.mk (c.l c.cwp) (c.i c.cwp) = _
    rw [Nat.add_zero, Nat.mod_eq_of_lt h.2.1]
  | succ k =>
    unfold frame
    rw [if_pos ((inWindow_iff h _).2 hk)]

theorem frame_mem {c : Cpu} {v k : Nat} (h : Windows c v) (hk : inUse c v ≤ k + 1) : frame c (k + 1) = frameIn c.mem ((frame c k).i 6) := by
  rw [frame, if_neg (fun hi => absurd ((inWindow_iff h _).1 hi) (by omega))]

theorem below_lt {w : Nat} : below w < 8 := Nat.mod_lt _ (by decide)

theorem stackPtr_win {c : Cpu} {v k : Nat} (h : Windows c v) (hk : k ≤ inUse c v) : stackPtr c k = c.i ((below c.cwp + k) % 8) 6 := by
  have hc := h.2.1
  cases k with
  | zero =>
    show c.i (below c.cwp) 6 = _
    rw [Nat.add_zero, Nat.mod_eq_of_lt below_lt]
  | succ k =>
    show (frame c k).i 6 = _
    rw [frame_win h (by omega), show (below c.cwp + (k + 1)) % 8 = (c.cwp + k) % 8 by unfold below NW; omega]

theorem stackOk_mono {ok : Nat → Bool} {c : Cpu} {n : Nat} (h : StackOk ok c n) : ∀ k j, j < k → k < n → stackPtr c j + 64 ≤ stackPtr c k := by
  intro k
  induction k with
  | zero => intro j hj; omega
  | succ k ih =>
    intro j hj hk
    have := h.apart k hk
    by_cases e : j = k
    · rw [e]; exact this
    · have := ih j (by omega) (by omega)
      omega

/-- A context in memory, with the frames of the program where they belong, is resumed with all frames of the program. -/
theorem resume_spec {cf : Conf} {c c2 : Cpu} {v n b pc npc : Nat} {g o : Nat → Nat} (h : Windows c v) (hs : StackOk cf.ok c n) (hn : inUse c v ≤ n)
    (hb : stackPtr c 0 = b + 0x54) (sv : Saved c2.mem b g o pc npc (inUse c v)) (ho : o 6 = b + 0x54) (hpc : pc % 4 = 0) (hnpc : npc % 4 = 0)
    (hc2 : c2.psr.cwp < 8) (hsup : c2.psr.s = true) (hf : ∀ k < inUse c v, (frameIn c2.mem (stackPtr c k)).Same (frame c k))
    (hm : ∀ k, inUse c v ≤ k → k < n → ∀ a, stackPtr c k ≤ a → a < stackPtr c k + 64 → c2.mem a = c.mem a) :
    ∃ c', trapOut cf c2 (b + 0x54) = some c' ∧ Windows c' (inUse c v) ∧ inUse c' (inUse c v) = inUse c v ∧ c'.mem = c2.mem ∧ c'.y = c2.y ∧
      c'.pc = pc ∧ c'.npc = npc ∧ c'.psr.s = c2.psr.ps ∧ c'.psr.et = true ∧ c'.psr.icc = c2.psr.icc ∧ (∀ k < 8, 1 ≤ k → c'.g k = g k) ∧
      (∀ k < 8, c'.outs k = o k) ∧ ∀ k < n, (frame c' k).Same (frame c k) := by
  obtain ⟨r1, r2, _⟩ := inUse_pos h
  generalize hr : inUse c v = r at *
  have hchain : ∀ k < r, chainPtr c2.mem (b + 0x54) k = stackPtr c k := by
    intro k
    induction k with
    | zero => intro _; exact hb.symm
    | succ k ih =>
      intro hk
      show c2.mem (chainPtr c2.mem (b + 0x54) k + 0x38) = (frame c k).i 6
      rw [ih (by omega)]
      exact (hf k (by omega) 6 (by decide)).2
  have hfit := hs.fits 0 (by omega)
  have hal0 := hs.aligned 0 (by omega)
  obtain ⟨c', k1, k2, k3, k4, k5, k6, k7, k8, k9, k10, k11, k12, k13⟩ := trapOut_spec cf c2 b r pc npc g o hc2 r1 r2 (by omega) (by omega) sv ho hsup hpc hnpc
    (fun k hk => by rw [hchain k hk]; exact hs.aligned k (by omega))
    (fun k hk => by rw [hchain k hk]; exact hs.reach k (by omega))
    (fun a ha ha' => hs.reachBelow 0 (by omega) a (by omega) (by omega))
  have hw : Windows c' r := ⟨r2, by rw [k7]; decide, k3, by rw [k7]; omega⟩
  have hu : inUse c' r = r := by unfold inUse; rw [k7]; omega
  refine ⟨c', k1, hw, hu, k2, k4, k5, k6, k8, k9, k10, k11, k12, fun k => ?_⟩
  induction k with
  | zero =>
    intro _
    rw [frame_win hw (by omega), k7]
    have := k13 0 (by omega)
    rw [hchain 0 (by omega)] at this
    exact Same.trans this (hf 0 (by omega))
  | succ k ih =>
    intro hk
    by_cases hkr : k + 1 < r
    · rw [frame_win hw (by omega), k7, Nat.zero_add, Nat.mod_eq_of_lt (by omega)]
      have := k13 (k + 1) hkr
      rw [hchain (k + 1) hkr] at this
      exact Same.trans this (hf (k + 1) hkr)
    · rw [frame_mem hw (by omega), frame_mem h (by omega), k2, (ih (by omega) 6 (by decide)).2]
      exact frameIn_congr (hm (k + 1) (by omega) hk)

theorem or_FE0 (p : Psr) : (p.or 0xFE0).s = true ∧ (p.or 0xFE0).ps = true ∧ (p.or 0xFE0).cwp = p.cwp ∧ (p.or 0xFE0).icc = p.icc := by
  obtain ⟨f1, f2, _, f4, _, f6⟩ := psr_or_fields p 0xFE0
  refine ⟨f1.trans ?_, f2.trans ?_, f6.trans ?_, f4⟩
  · rw [show (0xFE0 : Nat).testBit 7 = true by decide, Bool.or_true]
  · rw [show (0xFE0 : Nat).testBit 6 = true by decide, Bool.or_true]
  · rw [show (0xFE0 : Nat) % 32 = 0 from rfl, Nat.or_zero]

theorem contextSave_psr {cf : Conf} {c c' : Cpu} (h : contextSave cf c = some c') : c'.psr = (c.psr.andn PSR_ET).or PSR_ET ∧ c'.y = c.y := by
  unfold contextSave at h
  simp only at h
  obtain ⟨m, _, h⟩ := Option.bind_eq_some_iff.1 h
  obtain ⟨p, _, h⟩ := Option.bind_eq_some_iff.1 h
  unfold saveRest at h
  simp only at h
  obtain ⟨m', _, h⟩ := Option.map_eq_some_iff.1 h
  subst h
  exact ⟨rfl, rfl⟩

/-- The state in which `context_save` is called. -/
def trapState (cf : Conf) (c : Cpu) (nbr : Nat) : Cpu :=
  let e : Cpu := (({ c with psr := { c.psr with et := false, ps := c.psr.s, s := true, cwp := below c.cwp } }).setL 1 c.pc).setL 2 c.npc
  let e := ((e.setL 0 e.wim).setL 3 e.psr.word).setL 4 nbr
  let e := e.setO 6 (sub32 (e.i e.cwp 6) 0x40)
  let e := e.setPsr (e.psr.or 0xFE0)
  e.setO 7 cf.callAddr

theorem trapIn_eq (cf : Conf) (c : Cpu) (nbr : Nat) (het : c.psr.et = true) :
    trapIn cf c nbr = (contextSave cf (trapState cf c nbr)).map fun c2 => (c2, c.outs 6) := by
  unfold trapIn trapHandle enterTrap
  rw [if_pos het, Option.map_some]
  simp only
  unfold prehandler
  rfl

theorem trapState_cwp (cf : Conf) (c : Cpu) (nbr : Nat) : (trapState cf c nbr).psr.cwp = below c.cwp := by
  unfold trapState
  simp only
  show (Psr.or _ 0xFE0).cwp = _
  rw [(or_FE0 _).2.2.1]
  rfl

theorem trapState_facts (cf : Conf) (c : Cpu) (nbr : Nat) : (trapState cf c nbr).wim = c.wim ∧ (trapState cf c nbr).y = c.y ∧
    (trapState cf c nbr).g = c.g ∧ (trapState cf c nbr).mem = c.mem ∧ (trapState cf c nbr).l (below c.cwp) 1 = c.pc ∧
    (trapState cf c nbr).l (below c.cwp) 2 = c.npc ∧ (∀ w, w ≠ below c.cwp → (trapState cf c nbr).l w = c.l w) ∧
    (∀ w, w ≠ below (below c.cwp) → (trapState cf c nbr).i w = c.i w) ∧
    (trapState cf c nbr).i (below (below c.cwp)) 7 = cf.callAddr ∧
    (trapState cf c nbr).i (below (below c.cwp)) 6 = sub32 (c.outs 6) 0x40 ∧
    (trapState cf c nbr).l (below c.cwp) 3 = (Psr.mk c.psr.icc c.psr.pil true c.psr.s false (below c.cwp)).word := by
  have hcw : ∀ P : Psr, P.cwp = below c.cwp → below P.cwp = below (below c.cwp) := fun P h => by rw [h]
  have hor := fun P : Psr => (or_FE0 P).2.2.1
  refine ⟨rfl, rfl, rfl, rfl, ?_, ?_, fun w hw => ?_, fun w hw => ?_, ?_, ?_, ?_⟩
  · show upd (upd (upd (upd (upd c.l (below c.cwp) _) (below c.cwp) _) (below c.cwp) _) (below c.cwp) _) (below c.cwp) _ (below c.cwp) 1 = _
    simp [upd_same, upd_other, Cpu.setL, Cpu.cwp]
  · show upd (upd (upd (upd (upd c.l (below c.cwp) _) (below c.cwp) _) (below c.cwp) _) (below c.cwp) _) (below c.cwp) _ (below c.cwp) 2 = _
    simp [upd_same, upd_other, Cpu.setL, Cpu.cwp]
  · show upd (upd (upd (upd (upd c.l (below c.cwp) _) (below c.cwp) _) (below c.cwp) _) (below c.cwp) _) (below c.cwp) _ w = _
    rw [upd_other _ _ hw, upd_other _ _ hw, upd_other _ _ hw, upd_other _ _ hw, upd_other _ _ hw]
  · show upd (upd c.i (below (below c.cwp)) _) (below (Psr.or _ 0xFE0).cwp) _ w = _
    rw [hor]
    exact (upd_other _ _ hw).trans (upd_other _ _ hw)
  · show upd (upd c.i (below (below c.cwp)) _) (below (Psr.or _ 0xFE0).cwp) _ _ 7 = _
    rw [hor]
    exact (congrFun (upd_same _ _ _) 7).trans (upd_same _ _ _)
  · show upd (upd c.i (below (below c.cwp)) _) (below (Psr.or _ 0xFE0).cwp) (upd (upd c.i (below (below c.cwp)) _ (below (Psr.or _ 0xFE0).cwp)) 7 _) _ 6 = _
    rw [hor]
    refine (congrFun (upd_same _ _ _) 6).trans ?_
    rw [upd_other _ _ (by decide)]
    refine (congrFun (upd_same _ _ _) 6).trans ?_
    rw [upd_same]
    rfl
  · show upd (upd (upd (upd (upd c.l (below c.cwp) _) (below c.cwp) _) (below c.cwp) _) (below c.cwp) _) (below c.cwp) _ (below c.cwp) 3 = _
    simp [upd_same, upd_other, Cpu.setL, Cpu.cwp]

/-- The context of the interrupted program, `r` windows deep, after a trap. -/
theorem trapIn_spec {cf : Conf} {c : Cpu} {v n b : Nat} (nbr : Nat) (h : Windows c v) (het : c.psr.et = true) (hs : StackOk cf.ok c n) (hn : inUse c v ≤ n)
    (hb : stackPtr c 0 = b + 0x54) :
    ∃ c1, trapIn cf c nbr = some (c1, b + 0x54) ∧ c1.psr.cwp = below c.cwp ∧ c1.psr.s = true ∧ c1.psr.ps = true ∧ c1.y = c.y ∧ c1.psr.icc = c.psr.icc ∧
      Saved c1.mem b c.g c.outs c.pc c.npc (inUse c v) ∧ c1.mem (b + 0xc) = c.y ∧
      c1.mem (b + 0x10) = (Psr.mk c.psr.icc c.psr.pil true c.psr.s false (below c.cwp)).word ∧
      (∀ k < inUse c v, k < 6 → (frameIn c1.mem (stackPtr c k)).Same (frame c k)) ∧
      (inUse c v = 7 → (frameIn c1.mem (stackPtr c 6)).i 6 = sub32 (stackPtr c 0) 0x40 ∧ (frameIn c1.mem (stackPtr c 6)).i 7 = cf.callAddr) ∧
      ∀ a, a < b ∨ b + 0x54 ≤ a → (∀ k < inUse c v, a < stackPtr c k ∨ stackPtr c k + 64 ≤ a) → c1.mem a = c.mem a := by
  obtain ⟨r1, r2, r3⟩ := inUse_pos h
  have hcw := h.2.1
  obtain ⟨t1, t2, t3, t4, t5, t6, t7, t8, t9, t10, t11⟩ := trapState_facts cf c nbr
  have hT := trapState_cwp cf c nbr
  have hbl : below c.cwp < 8 := below_lt
  have hbc : (below c.cwp + 1) % 8 = c.cwp := by unfold below NW; omega
  have hbb : below (below c.cwp) = (below c.cwp + 7) % 8 := rfl
  have hsp : ∀ k ≤ inUse c v, stackPtr c k = (trapState cf c nbr).i ((below c.cwp + k) % 8) 6 ∨ k = 7 := fun k hk => by
    by_cases e : k = 7
    · exact Or.inr e
    · left
      rw [stackPtr_win h hk, t8 _ (by rw [hbb]; omega)]
  have hsp' : ∀ k < inUse c v, (trapState cf c nbr).i ((below c.cwp + k) % 8) 6 = stackPtr c k := fun k hk => by
    rcases hsp k (by omega) with e | e
    · exact e.symm
    · omega
  have hi0 : (trapState cf c nbr).i (below c.cwp) = c.outs := by
    rw [t8 _ (by rw [hbb]; omega)]
    rfl
  have hfit := hs.fits 0 (by omega)
  obtain ⟨c1, k1, k2, k3, k4, k5, k6⟩ := contextSave_spec cf (trapState cf c nbr) (below c.cwp) (inUse c v) b hT hbl r1 r2
    (by rw [t1, h.2.2.1]; exact congrArg (2 ^ ·) (by omega))
    (by rw [hi0]; exact hb) (by omega)
    (fun k hk => by rw [hsp' k hk]; exact hs.aligned k (by omega))
    (fun j k hj hk => by rw [hsp' k hk, hsp' j (by omega)]; exact stackOk_mono hs k j hj (by omega))
    (fun k hk => by rw [hsp' k hk]; exact hs.reach k (by omega))
    (fun a ha ha' => hs.reachBelow 0 (by omega) a (by omega) (by omega))
  obtain ⟨p1, p2⟩ := contextSave_psr k1
  have hps := or_FE0 (Psr.mk c.psr.icc c.psr.pil true c.psr.s false (below c.cwp))
  have hpt : (trapState cf c nbr).psr = (Psr.mk c.psr.icc c.psr.pil true c.psr.s false (below c.cwp)).or 0xFE0 := rfl
  rw [← hpt] at hps
  rw [hi0, t5, t6, t3] at k2
  rw [t11] at k3
  rw [t2] at k4
  have e5 : ∀ k < inUse c v, (below c.cwp + 1 + k) % 8 = (c.cwp + k) % 8 := fun k _ => by omega
  have hout : below (trapState cf c nbr).cwp = below (below c.cwp) := by rw [← hT]; rfl
  refine ⟨c1, ?_, ?_, ?_, ?_, p2.trans t2, ?_, k2, k4, k3, fun k hk hk6 => ?_, fun hr => ?_, fun a ha ha' => ?_⟩
  · rw [trapIn_eq cf c nbr het, k1, Option.map_some, ← hb]
    rfl
  · rw [p1, or_et_cwp, andn_et_cwp, hT]
  · rw [p1, (psr_or_fields _ _).1, (psr_andn_fields _ _).1, hps.1]; rfl
  · rw [p1, (psr_or_fields _ _).2.1, (psr_andn_fields _ _).2.1, hps.2.1]; rfl
  · rw [p1, (psr_or_fields _ _).2.2.2.1, (psr_andn_fields _ _).2.2.2.1, hps.2.2.2]
  · have := k5 k hk
    rw [hsp' k hk, e5 k hk] at this
    rw [frame_win h hk]
    rw [t7 _ (by omega)] at this
    have e : ((trapState cf c nbr).setO 0 ((trapState cf c nbr).psr.andn PSR_ET).word).i ((c.cwp + k) % 8) = c.i ((c.cwp + k) % 8) := by
      show upd (trapState cf c nbr).i (below (trapState cf c nbr).cwp) _ _ = _
      rw [hout, upd_other _ _ (by rw [hbb]; omega), t8 _ (by rw [hbb]; omega)]
    rw [e] at this
    exact this
  · have := k5 6 (by omega)
    rw [hsp' 6 (by omega), e5 6 (by omega), show (c.cwp + 6) % 8 = below (below c.cwp) by rw [hbb]; omega] at this
    have e : ∀ j, j ≠ 0 → ((trapState cf c nbr).setO 0 ((trapState cf c nbr).psr.andn PSR_ET).word).i (below (below c.cwp)) j =
        (trapState cf c nbr).i (below (below c.cwp)) j := fun j hj => by
      show upd (trapState cf c nbr).i (below (trapState cf c nbr).cwp) (upd _ 0 _) _ j = _
      rw [hout, upd_same, upd_other _ _ hj]
    exact ⟨((this 6 (by decide)).2.trans (e 6 (by decide))).trans t10, ((this 7 (by decide)).2.trans (e 7 (by decide))).trans t9⟩
  · rw [← t4]
    exact k6 a ha (fun k hk => by rw [hsp' k hk]; exact ha' k hk)

end Pok.Sparc
