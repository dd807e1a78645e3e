import Verif.Lemmas.SparcCall

/-!
# C92: calls and returns of a program on SPARC, to any depth

The processor has eight windows; the handlers of regwin.S store and load the others.
-/

namespace Pok.Sparc
open Pok.SparcSpec

/-- The instruction, or instructions, of one step of a program. -/
def execOp (cf : Conf) (c : Cpu) : POp → Option Cpu
  | .call sp => save cf c sp
  | .ret => restore cf c
  | .setL r v => some (c.setL r v)
  | .setI r v => some (c.setI r v)
  | .setO r v => some (c.setO r v)
  | .setG r v => some (c.setG r v)
  | .store a v => some (c.setMem (upd c.mem a v))

/-- A list of steps. -/
def execOps (cf : Conf) (c : Cpu) : List POp → Option Cpu
  | [] => some c
  | op :: ops => (execOp cf c op).bind fun c => execOps cf c ops

/-- The processor runs a program: windows in order, traps on, aligned program counters, the stack in order, and the registers as the program
knows them. -/
def Runs (cf : Conf) (c : Cpu) (p : Prog) : Prop :=
  ∃ v, Windows c v ∧ c.psr.et = true ∧ c.pc % 4 = 0 ∧ c.npc % 4 = 0 ∧ inUse c v ≤ p.frames.length ∧ StackOk cf.ok c p.frames.length ∧ Holds c p

theorem holds_sp {c : Cpu} {p : Prog} (h : Holds c p) {k s : Nat} (hk : p.sp k = some s) : stackPtr c k = s := by
  cases k with
  | zero => exact h.2.1 6 (by decide) s hk
  | succ k =>
    unfold Prog.sp at hk
    obtain ⟨f, hf, hi⟩ := Option.bind_eq_some_iff.1 hk
    exact (h.2.2 k f hf 6 (by decide)).2 s hi

/-- Writing a register other than the stack and frame pointer, or a word outside the register areas, keeps windows and stack. -/
theorem keep {cf : Conf} {c c' : Cpu} {v n : Nat} (hw : Windows c v) (hs : StackOk cf.ok c n) (e1 : c'.cwp = c.cwp) (e2 : c'.wim = c.wim)
    (hsp : ∀ k < n, stackPtr c' k = stackPtr c k) (hn : 0 < n) : Windows c' v ∧ inUse c' v = inUse c v ∧ StackOk cf.ok c' n := by
  refine ⟨⟨hw.1, by rw [e1]; exact hw.2.1, by rw [e2]; exact hw.2.2.1, by rw [e1]; exact hw.2.2.2⟩, by unfold inUse; rw [e1], ?_⟩
  exact ⟨fun k hk => by rw [hsp k hk]; exact hs.aligned k hk, fun k hk => by rw [hsp k (by omega), hsp (k + 1) hk]; exact hs.apart k hk,
    fun k hk => by rw [hsp k hk]; exact hs.fits k hk, by rw [hsp 0 hn]; exact hs.below, fun k hk => by rw [hsp k hk]; exact hs.reach k hk,
    fun k hk => by rw [hsp k hk]; exact hs.reachBelow k hk⟩

/-- Two states with the same windows and memory have the same frames but for what differs in the current window. -/
theorem frame_congr {c c' : Cpu} {v : Nat} (hw : Windows c v) (e1 : c'.cwp = c.cwp) (e2 : c'.wim = c.wim)
    (h0 : (frame c' 0).i 6 = (frame c 0).i 6) (hl : ∀ w, w ≠ c.cwp → w ≠ below c.cwp → c'.l w = c.l w) (hi : ∀ w, w ≠ c.cwp → w ≠ below c.cwp → c'.i w = c.i w)
    (n : Nat) (hm : ∀ k, inUse c v ≤ k → k < n → ∀ a, stackPtr c k ≤ a → a < stackPtr c k + 64 → c'.mem a = c.mem a) :
    ∀ k < n, 1 ≤ k → (frame c' k).Same (frame c k) := by
  have hw' : Windows c' v := ⟨hw.1, by rw [e1]; exact hw.2.1, by rw [e2]; exact hw.2.2.1, by rw [e1]; exact hw.2.2.2⟩
  have hu : inUse c' v = inUse c v := by unfold inUse; rw [e1]
  obtain ⟨r1, r2, _⟩ := inUse_pos hw
  have hcw := hw.2.1
  intro k
  induction k with
  | zero => intro _ h; omega
  | succ k ih =>
    intro hk _
    by_cases hkr : k + 1 < inUse c v
    · rw [frame_win hw' (by omega), frame_win hw hkr, e1, hl _ (by omega) (by unfold below NW; omega), hi _ (by omega) (by unfold below NW; omega)]
      exact Same.refl _
    · have e : (frame c' k).i 6 = (frame c k).i 6 := by
        cases k with
        | zero => exact h0
        | succ k => exact (ih (by omega) (by omega) 6 (by decide)).2
      rw [frame_mem hw' (by omega), frame_mem hw (by omega), e]
      exact frameIn_congr (hm (k + 1) (by omega) hk)

theorem step_ok {cf : Conf} {c : Cpu} {p p' : Prog} {op : POp} (h : Runs cf c p) (hne : p.frames ≠ []) (hst : p.Step cf.ok op p') :
    (∃ c', execOp cf c op = some c' ∧ Runs cf c' p') ∧ p'.frames ≠ [] := by
  obtain ⟨v', hw, het, hpc, hnpc, hu, hs, hh⟩ := h
  have hn : 0 < p.frames.length := List.length_pos_iff.2 hne
  obtain ⟨r1, r2, _⟩ := inUse_pos hw
  have hcw := hw.2.1
  have hbc : below c.cwp ≠ c.cwp := by unfold below NW; omega
  cases op with
  | call sp =>
    obtain ⟨⟨s, hs1, hs2⟩, hal, hlow, hok, rfl⟩ := hst
    obtain ⟨c', v'', k1, k2, k3, k4, k5, k6, k7, k8, k9, k10, k11, k12, k13, _⟩ := save_spec sp hw het hpc hnpc hs hu
    have hs0 := holds_sp hh hs1
    have hsp : ∀ k < p.frames.length, stackPtr c' (k + 1) = stackPtr c k := fun k hk => by
      cases k with
      | zero => exact k12 6
      | succ k => exact (k13 k (by omega) 6 (by decide)).2
    refine ⟨⟨c', k1, v'', k2, k4, by rw [k8]; exact hpc, by rw [k9]; exact hnpc, ?_, ?_, ?_⟩, List.cons_ne_nil _ _⟩
    · show inUse c' v'' ≤ p.frames.length + 1
      omega
    · show StackOk cf.ok c' (p.frames.length + 1)
      have e0 : stackPtr c' 0 = sp := k11
      have hf0 := hs.fits 0 hn
      refine ⟨fun k hk => ?_, fun k hk => ?_, fun k hk => ?_, by rw [e0]; exact hlow, fun k hk => ?_, fun k hk => ?_⟩
      · cases k with
        | zero => rw [e0]; exact hal
        | succ k => rw [hsp k (by omega)]; exact hs.aligned k (by omega)
      · cases k with
        | zero => rw [e0, hsp 0 (by omega)]; omega
        | succ k => rw [hsp k (by omega), hsp (k + 1) (by omega)]; exact hs.apart k (by omega)
      · cases k with
        | zero => rw [e0]; omega
        | succ k => rw [hsp k (by omega)]; exact hs.fits k (by omega)
      · cases k with
        | zero => rw [e0]; exact fun a ha ha' => hok a (by omega) ha'
        | succ k => rw [hsp k (by omega)]; exact hs.reach k (by omega)
      · cases k with
        | zero => rw [e0]; exact fun a ha ha' => hok a ha (by omega)
        | succ k => rw [hsp k (by omega)]; exact hs.reachBelow k (by omega)
    · refine ⟨fun r hr hr1 v hv => (k10 r).trans (hh.1 r hr hr1 v hv), fun r hr v hv => ?_, fun k f hf r hr => ?_⟩
      · by_cases e : r = 6
        · subst e
          have hv' : some sp = some v := by rw [← hv]; exact (upd_same (fun _ => (none : Option Nat)) 6 (some sp)).symm
          rw [k11]
          exact Option.some.inj hv'
        · have hv' : (none : Option Nat) = some v := by rw [← hv]; exact (upd_other (fun _ => (none : Option Nat)) (some sp) e).symm
          exact absurd hv' (by simp)
      · cases k with
        | zero =>
          have : f = ⟨fun _ => none, p.outs⟩ := (Option.some.inj hf).symm
          subst this
          exact ⟨fun v hv => absurd hv (by simp), fun v hv => (k12 r).trans (hh.2.1 r hr v hv)⟩
        | succ k =>
          have hf' : p.frames[k]? = some f := by simpa using hf
          have hk : k < p.frames.length := (List.getElem?_eq_some_iff.1 hf').1
          have h1 := k13 k hk r hr
          have h2 := hh.2.2 k f hf' r hr
          exact ⟨fun v hv => h1.1.trans (h2.1 v hv), fun v hv => h1.2.trans (h2.2 v hv)⟩
  | ret =>
    obtain ⟨f, rest, hf, hrest, rfl⟩ := hst
    have hlen : p.frames.length = rest.length + 1 := by rw [hf]; rfl
    have hrl : 0 < rest.length := List.length_pos_iff.2 hrest
    obtain ⟨c', v'', k1, k2, k3, k4, k5, k6, k7, k8, k9, k10, k11, k12, k13⟩ := restore_spec hw het hpc hnpc (hs.aligned 1 (by omega)) (hs.reach 1 (by omega))
    have hsp : ∀ k, stackPtr c' k = stackPtr c (k + 1) := fun k => by
      cases k with
      | zero => exact k11 6
      | succ k => exact (k12 k 6 (by decide)).2
    refine ⟨⟨c', k1, v'', k2, k4, by rw [k8]; exact hpc, by rw [k9]; exact hnpc, ?_, ?_, ?_⟩, hrest⟩
    · show inUse c' v'' ≤ rest.length
      omega
    · show StackOk cf.ok c' rest.length
      have hap := hs.apart 0 (by omega)
      have hb := hs.below
      exact ⟨fun k hk => by rw [hsp]; exact hs.aligned _ (by omega), fun k hk => by rw [hsp, hsp]; exact hs.apart _ (by omega),
        fun k hk => by rw [hsp]; exact hs.fits _ (by omega), by rw [hsp]; omega, fun k hk => by rw [hsp]; exact hs.reach _ (by omega),
        fun k hk => by rw [hsp]; exact hs.reachBelow _ (by omega)⟩
    · refine ⟨fun r hr hr1 v hv => (k10 r).trans (hh.1 r hr hr1 v hv), fun r hr v hv => ?_, fun k f' hf' r hr => ?_⟩
      · rw [k11]
        exact (hh.2.2 0 f (by rw [hf]; rfl) r hr).2 v hv
      · have h1 := k12 k r hr
        have h2 := hh.2.2 (k + 1) f' (by rw [hf]; simpa using hf') r hr
        exact ⟨fun v hv => h1.1.trans (h2.1 v hv), fun v hv => h1.2.trans (h2.2 v hv)⟩
  | setL r v =>
    obtain ⟨hr, f, rest, hf, rfl⟩ := hst
    have hlen : p.frames.length = rest.length + 1 := by rw [hf]; rfl
    have hfr : ∀ k < p.frames.length, 1 ≤ k → (frame (c.setL r v) k).Same (frame c k) := frame_congr (c' := c.setL r v) hw rfl rfl rfl
      (fun w h1 _ => upd_other _ _ h1) (fun w _ _ => rfl) _ (fun _ _ _ _ _ _ => rfl)
    have h0l : ∀ j, (frame (c.setL r v) 0).l j = upd (c.l c.cwp) r v j := fun j => congrFun (upd_same c.l c.cwp (upd (c.l c.cwp) r v)) j
    obtain ⟨g1, g2, g3⟩ := keep (c' := c.setL r v) hw hs rfl rfl (fun k hk => by
      cases k with
      | zero => rfl
      | succ k =>
        cases k with
        | zero => rfl
        | succ k => exact (hfr (k + 1) (by omega) (by omega) 6 (by decide)).2) hn
    refine ⟨⟨_, rfl, v', g1, het, hpc, hnpc, by rw [g2]; show _ ≤ rest.length + 1; omega, by rw [hlen] at g3; exact g3, hh.1, hh.2.1, fun k f' hf' j hj => ?_⟩,
      List.cons_ne_nil _ _⟩
    cases k with
    | zero =>
      have : f' = ⟨upd f.l r (some v), f.i⟩ := (Option.some.inj hf').symm
      subst this
      have h2 := hh.2.2 0 f (by rw [hf]; rfl) j hj
      refine ⟨fun x hx => ?_, h2.2⟩
      rw [h0l]
      by_cases e : j = r
      · subst e
        simp only at hx
        rw [upd_same] at hx ⊢
        exact Option.some.inj hx
      · have hx' : f.l j = some x := by rw [← hx]; exact (upd_other _ _ e).symm
        rw [upd_other _ _ e]
        exact h2.1 x hx'
    | succ k =>
      have hf2 : p.frames[k + 1]? = some f' := by rw [hf]; simpa using hf'
      have h1 := hfr (k + 1) (List.getElem?_eq_some_iff.1 hf2).1 (by omega) j hj
      have h2 := hh.2.2 (k + 1) f' hf2 j hj
      exact ⟨fun v hv => h1.1.trans (h2.1 v hv), fun v hv => h1.2.trans (h2.2 v hv)⟩
  | setI r v =>
    obtain ⟨hr, hr6, f, rest, hf, rfl⟩ := hst
    have hlen : p.frames.length = rest.length + 1 := by rw [hf]; rfl
    have h0i : ∀ j, (frame (c.setI r v) 0).i j = upd (c.i c.cwp) r v j := fun j => congrFun (upd_same c.i c.cwp (upd (c.i c.cwp) r v)) j
    have h06 : (frame (c.setI r v) 0).i 6 = (frame c 0).i 6 := by rw [h0i, upd_other _ _ (Ne.symm hr6)]; rfl
    have hfr : ∀ k < p.frames.length, 1 ≤ k → (frame (c.setI r v) k).Same (frame c k) := frame_congr (c' := c.setI r v) hw rfl rfl h06
      (fun w _ _ => rfl) (fun w h1 _ => upd_other _ _ h1) _ (fun _ _ _ _ _ _ => rfl)
    have hout : (c.setI r v).outs = c.outs := upd_other c.i _ hbc
    obtain ⟨g1, g2, g3⟩ := keep (c' := c.setI r v) hw hs rfl rfl (fun k hk => by
      cases k with
      | zero => exact congrFun hout 6
      | succ k =>
        cases k with
        | zero => exact h06
        | succ k => exact (hfr (k + 1) (by omega) (by omega) 6 (by decide)).2) hn
    refine ⟨⟨_, rfl, v', g1, het, hpc, hnpc, by rw [g2]; show _ ≤ rest.length + 1; omega, by rw [hlen] at g3; exact g3, hh.1,
      fun j hj x hx => by rw [hout]; exact hh.2.1 j hj x hx, fun k f' hf' j hj => ?_⟩, List.cons_ne_nil _ _⟩
    cases k with
    | zero =>
      have : f' = ⟨f.l, upd f.i r (some v)⟩ := (Option.some.inj hf').symm
      subst this
      have h2 := hh.2.2 0 f (by rw [hf]; rfl) j hj
      refine ⟨h2.1, fun x hx => ?_⟩
      rw [h0i]
      by_cases e : j = r
      · subst e
        simp only at hx
        rw [upd_same] at hx ⊢
        exact Option.some.inj hx
      · have hx' : f.i j = some x := by rw [← hx]; exact (upd_other _ _ e).symm
        rw [upd_other _ _ e]
        exact h2.2 x hx'
    | succ k =>
      have hf2 : p.frames[k + 1]? = some f' := by rw [hf]; simpa using hf'
      have h1 := hfr (k + 1) (List.getElem?_eq_some_iff.1 hf2).1 (by omega) j hj
      have h2 := hh.2.2 (k + 1) f' hf2 j hj
      exact ⟨fun v hv => h1.1.trans (h2.1 v hv), fun v hv => h1.2.trans (h2.2 v hv)⟩
  | setO r v =>
    obtain ⟨hr, hr6, rfl⟩ := hst
    have hout : ∀ j, (c.setO r v).outs j = upd c.outs r v j := fun j => congrFun (upd_same c.i (below c.cwp) (upd (c.i (below c.cwp)) r v)) j
    have h0 : frame (c.setO r v) 0 = frame c 0 := by
      show Frame.mk (c.l c.cwp) (upd c.i (below c.cwp) _ c.cwp) = _
      rw [upd_other _ _ (Ne.symm hbc)]
      rfl
    have hfr : ∀ k < p.frames.length, (frame (c.setO r v) k).Same (frame c k) := fun k hk => by
      by_cases e : k = 0
      · rw [e, h0]; exact Same.refl _
      · exact frame_congr (c' := c.setO r v) hw rfl rfl (by rw [h0]) (fun w _ _ => rfl) (fun w _ h1 => upd_other _ _ h1) _ (fun _ _ _ _ _ _ => rfl) k hk (by omega)
    obtain ⟨g1, g2, g3⟩ := keep (c' := c.setO r v) hw hs rfl rfl (fun k hk => by
      cases k with
      | zero => exact (hout 6).trans (upd_other _ _ (Ne.symm hr6))
      | succ k => exact (hfr k (by omega) 6 (by decide)).2) hn
    refine ⟨⟨_, rfl, v', g1, het, hpc, hnpc, by rw [g2]; exact hu, g3, hh.1, fun j hj x hx => ?_, fun k f hf j hj => ?_⟩, hne⟩
    · rw [hout]
      by_cases e : j = r
      · subst e
        have hx' : some v = some x := by rw [← hx]; exact (upd_same _ _ _).symm
        rw [upd_same]
        exact Option.some.inj hx'
      · have hx' : p.outs j = some x := by rw [← hx]; exact (upd_other _ _ e).symm
        rw [upd_other _ _ e]
        exact hh.2.1 j hj x hx'
    · have h1 := hfr k (List.getElem?_eq_some_iff.1 hf).1 j hj
      have h2 := hh.2.2 k f hf j hj
      exact ⟨fun v hv => h1.1.trans (h2.1 v hv), fun v hv => h1.2.trans (h2.2 v hv)⟩
  | setG r v =>
    obtain ⟨hr, hr1, rfl⟩ := hst
    have hfr : ∀ k, frame (c.setG r v) k = frame c k := fun k => by
      induction k with
      | zero => rfl
      | succ k ih =>
        unfold frame
        rw [ih]
        rfl
    obtain ⟨g1, g2, g3⟩ := keep (c' := c.setG r v) hw hs rfl rfl (fun k hk => by
      cases k with
      | zero => rfl
      | succ k => exact congrArg (fun f => f.i 6) (hfr k)) hn
    refine ⟨⟨_, rfl, v', g1, het, hpc, hnpc, by rw [g2]; exact hu, g3, fun j hj hj1 x hx => ?_, hh.2.1, fun k f hf j hj => by rw [hfr]; exact hh.2.2 k f hf j hj⟩, hne⟩
    show upd c.g r v j = x
    by_cases e : j = r
    · subst e
      have hx' : some v = some x := by rw [← hx]; exact (upd_same _ _ _).symm
      rw [upd_same]
      exact Option.some.inj hx'
    · have hx' : p.g j = some x := by rw [← hx]; exact (upd_other _ _ e).symm
      rw [upd_other _ _ e]
      exact hh.1 j hj hj1 x hx'
  | store a v =>
    obtain ⟨hap, hpe⟩ := hst
    have hpe' := hpe.symm
    subst hpe'
    have hfr : ∀ k < p.frames.length, (frame (c.setMem (upd c.mem a v)) k).Same (frame c k) := fun k hk => by
      by_cases e : k = 0
      · rw [e]; exact Same.refl _
      · refine frame_congr (c' := c.setMem (upd c.mem a v)) hw rfl rfl rfl (fun w _ _ => rfl) (fun w _ _ => rfl) _ (fun j _ hj b hb hb' => ?_) k hk (by omega)
        obtain ⟨s, h1, h2⟩ := hap j hj
        rw [← holds_sp hh h1] at h2
        exact upd_other _ _ (by omega)
    obtain ⟨g1, g2, g3⟩ := keep (c' := c.setMem (upd c.mem a v)) hw hs rfl rfl (fun k hk => by
      cases k with
      | zero => rfl
      | succ k => exact (hfr k (by omega) 6 (by decide)).2) hn
    refine ⟨⟨_, rfl, v', g1, het, hpc, hnpc, by rw [g2]; exact hu, g3, hh.1, hh.2.1, fun k f hf j hj => ?_⟩, hne⟩
    have h1 := hfr k (List.getElem?_eq_some_iff.1 hf).1 j hj
    have h2 := hh.2.2 k f hf j hj
    exact ⟨fun v hv => h1.1.trans (h2.1 v hv), fun v hv => h1.2.trans (h2.2 v hv)⟩

/-- **C92**: a program's calls and returns, in any order and to any depth, find every register where the calling convention says: the
processor's eight windows and the two window handlers together behave as an unbounded stack of frames.  The processor never stops, and after
any run every register has the value the program left in it. -/
theorem C92_calls_refine_stack {cf : Conf} {c : Cpu} {p p' : Prog} {ops : List POp} (h : Runs cf c p) (hne : p.frames ≠ []) (hr : Prog.Run cf.ok p ops p') :
    ∃ c', execOps cf c ops = some c' ∧ Runs cf c' p' := by
  induction hr generalizing c with
  | nil p => exact ⟨c, rfl, h⟩
  | cons hst _ ih =>
    obtain ⟨⟨c1, e1, h1⟩, hne1⟩ := step_ok h hne hst
    obtain ⟨c2, e2, h2⟩ := ih h1 hne1
    exact ⟨c2, by unfold execOps; rw [e1]; exact e2, h2⟩

/-! A thread at its start, and a hundred nested calls that return again. -/

/-- A processor that runs a thread with its stack below 0x3ff00, in window 0, window 1 being invalid. -/
def cpu0 : Cpu :=
  { psr := ⟨0, 0, false, false, true, 0⟩, wim := 2, y := 0, pc := 0x1000, npc := 0x1004, g := fun _ => 0, l := fun _ _ => 0,
    i := fun w r => if w = 7 ∧ r = 6 then 0x3ff00 else 0, mem := fun _ => 0 }
def conf0 : Conf := ⟨fun a => decide (a < 0x40000), 0x40001000⟩
def prog0 : Prog := ⟨fun _ => none, upd (fun _ => none) 6 (some 0x3ff00), [⟨fun _ => none, fun _ => none⟩]⟩

theorem runs0 : Runs conf0 cpu0 prog0 := by
  refine ⟨1, ⟨by decide, by decide, rfl, by decide⟩, rfl, rfl, rfl, by decide, ?_, ?_⟩
  · have e : ∀ k < prog0.frames.length, stackPtr cpu0 k = 0x3ff00 := fun k hk => by
      have : k = 0 := by have : k < 1 := hk; omega
      subst this
      rfl
    refine ⟨fun k hk => by rw [e k hk], fun k hk => absurd hk (by show ¬ k + 1 < 1; omega), fun k hk => by rw [e k hk]; decide, by rw [e 0 (by decide)]; decide,
      fun k hk a h1 h2 => ?_, fun k hk a h1 h2 => ?_⟩
    · rw [e k hk] at h1 h2
      exact decide_eq_true (by omega)
    · rw [e k hk] at h1 h2
      exact decide_eq_true (by omega)
  · refine ⟨fun r _ _ v hv => absurd hv (by simp [prog0]), fun r _ v hv => ?_, fun k f hf r _ => ?_⟩
    · by_cases e : r = 6
      · subst e
        have hv' : some 0x3ff00 = some v := by rw [← hv]; rfl
        rw [← Option.some.inj hv']
        rfl
      · have hv' : (none : Option Nat) = some v := by rw [← hv]; exact (upd_other (fun _ => (none : Option Nat)) (some 0x3ff00) e).symm
        exact absurd hv' (by simp)
    · cases k with
      | zero =>
        have : f = ⟨fun _ => none, fun _ => none⟩ := (Option.some.inj hf).symm
        subst this
        exact ⟨fun v hv => absurd hv (by simp), fun v hv => absurd hv (by simp)⟩
      | succ k => exact absurd hf (by simp [prog0])

/-- `n` nested calls, each with a stack frame of 96 bytes. -/
def nested (s : Nat) : Nat → List POp
  | 0 => []
  | n + 1 => .call (s - 96) :: .setL 3 n :: nested (s - 96) n

theorem run_nested : ∀ n s (p : Prog), p.sp 0 = some s → s % 8 = 0 → 96 * n + 84 ≤ s → s < 0x40000 - 64 → ∃ p', Prog.Run conf0.ok p (nested s n) p' ∧
    p'.frames.length = p.frames.length + n := by
  intro n
  induction n with
  | zero => intro s p _ _ _ _; exact ⟨p, .nil p, rfl⟩
  | succ n ih =>
    intro s p hs hal h1 h2
    obtain ⟨p', h3, h4⟩ := ih (s - 96) ⟨p.g, upd (fun _ => none) 6 (some (s - 96)), ⟨upd (fun _ => none) 3 (some n), p.outs⟩ :: p.frames⟩ rfl (by omega) (by omega)
      (by omega)
    refine ⟨p', .cons (p1 := ⟨p.g, upd (fun _ => none) 6 (some (s - 96)), ⟨fun _ => none, p.outs⟩ :: p.frames⟩)
      ⟨⟨s, hs, by omega⟩, by omega, by omega, fun a _ ha => decide_eq_true (by omega), rfl⟩ (.cons ⟨by decide, _, _, rfl, rfl⟩ h3), ?_⟩
    rw [h4]
    show p.frames.length + 1 + n = _
    omega

example : ∃ p' c', Prog.Run conf0.ok prog0 (nested 0x3ff00 2000) p' ∧ p'.frames.length = 2001 ∧ execOps conf0 cpu0 (nested 0x3ff00 2000) = some c' ∧ Runs conf0 c' p' := by
  obtain ⟨p', h1, h2⟩ := run_nested 2000 0x3ff00 prog0 rfl (by decide) (by decide) (by decide)
  obtain ⟨c', h3, h4⟩ := C92_calls_refine_stack runs0 (List.cons_ne_nil _ _) h1
  exact ⟨p', c', h1, h2.trans rfl, h3, h4⟩

end Pok.Sparc
