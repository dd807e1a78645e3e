import Verif.Spec.Sparc
import Mathlib.Tactic.IntervalCases
import Mathlib.Data.Nat.Bitwise

/-!
# Lemmas about register windows in memory
-/

namespace Pok.Sparc
open Pok.SparcSpec

theorem sub32_eq {a b : Nat} (h : b ≤ a) (ha : a < W) : sub32 a b = a - b := by
  unfold sub32
  rw [show a + (W - b) = (a - b) + W by omega, Nat.add_mod_right, Nat.mod_eq_of_lt (by omega)]

/-! ## Stores -/

theorem storeAll_some (ok : Nat → Bool) (ws : List (Nat × Nat × Nat)) (mem : Nat → Nat) (h : ∀ p ∈ ws, p.2.1 % p.1 = 0 ∧ ok p.2.1 = true) :
    storeAll ok mem ws = some (ws.foldl (fun m p => upd m p.2.1 p.2.2) mem) := by
  induction ws generalizing mem with
  | nil => rfl
  | cons p ws ih =>
    obtain ⟨al, a, v⟩ := p
    unfold storeAll
    rw [if_pos (h _ List.mem_cons_self), ih _ fun q hq => h q (List.mem_cons_of_mem _ hq)]
    rfl

theorem foldl_upd_other (ws : List (Nat × Nat × Nat)) (mem : Nat → Nat) (a : Nat) (h : ∀ p ∈ ws, p.2.1 ≠ a) :
    ws.foldl (fun m p => upd m p.2.1 p.2.2) mem a = mem a := by
  induction ws generalizing mem with
  | nil => rfl
  | cons p ws ih =>
    rw [List.foldl_cons, ih _ fun q hq => h q (List.mem_cons_of_mem _ hq), upd_other _ _ (Ne.symm (h p List.mem_cons_self))]

theorem foldl_upd_mem (ws : List (Nat × Nat × Nat)) (mem : Nat → Nat) (hn : (ws.map fun p => p.2.1).Nodup) (p : Nat × Nat × Nat) (h : p ∈ ws) :
    ws.foldl (fun m p => upd m p.2.1 p.2.2) mem p.2.1 = p.2.2 := by
  induction ws generalizing mem with
  | nil => simp at h
  | cons q ws ih =>
    rw [List.map_cons, List.nodup_cons] at hn
    rw [List.foldl_cons]
    rcases List.mem_cons.1 h with e | e
    · subst e
      rw [foldl_upd_other _ _ _ fun q hq he => hn.1 (List.mem_map.2 ⟨q, hq, he⟩), upd_same]
    · exact ih _ hn.2 e

/-- A window is stored: its words are in memory, and nothing else has changed. -/
theorem store_window (ok : Nat → Bool) (mem : Nat → Nat) (sp : Nat) (l i : Nat → Nat) (ha : sp % 8 = 0)
    (hok : ∀ a, sp ≤ a → a < sp + 64 → ok a = true) :
    ∃ mem', storeAll ok mem (windowWords sp l i) = some mem' ∧ (frameIn mem' sp).Same ⟨l, i⟩ ∧ ∀ a, a < sp ∨ sp + 64 ≤ a → mem' a = mem a := by
  refine ⟨_, storeAll_some ok _ mem ?_, ?_, ?_⟩
  · intro p hp
    simp only [windowWords, List.mem_cons, List.not_mem_nil, or_false] at hp
    rcases hp with e | e | e | e | e | e | e | e | e | e | e | e | e | e | e | e <;> subst e <;>
      exact ⟨by simp only; omega, hok _ (by simp only; omega) (by simp only; omega)⟩
  · intro r hr
    have hn : ((windowWords sp l i).map fun p => p.2.1).Nodup := by
      simp [windowWords]
    have key := foldl_upd_mem (windowWords sp l i) mem hn
    constructor
    · show List.foldl _ mem _ (sp + 4 * r) = l r
      interval_cases r
      · exact key (8, sp + 0x00, l 0) (by simp [windowWords])
      · exact key (4, sp + 0x04, l 1) (by simp [windowWords])
      · exact key (8, sp + 0x08, l 2) (by simp [windowWords])
      · exact key (4, sp + 0x0c, l 3) (by simp [windowWords])
      · exact key (8, sp + 0x10, l 4) (by simp [windowWords])
      · exact key (4, sp + 0x14, l 5) (by simp [windowWords])
      · exact key (8, sp + 0x18, l 6) (by simp [windowWords])
      · exact key (4, sp + 0x1c, l 7) (by simp [windowWords])
    · show List.foldl _ mem _ (sp + 0x20 + 4 * r) = i r
      interval_cases r
      · exact key (8, sp + 0x20, i 0) (by simp [windowWords])
      · exact key (4, sp + 0x24, i 1) (by simp [windowWords])
      · exact key (8, sp + 0x28, i 2) (by simp [windowWords])
      · exact key (4, sp + 0x2c, i 3) (by simp [windowWords])
      · exact key (8, sp + 0x30, i 4) (by simp [windowWords])
      · exact key (4, sp + 0x34, i 5) (by simp [windowWords])
      · exact key (8, sp + 0x38, i 6) (by simp [windowWords])
      · exact key (4, sp + 0x3c, i 7) (by simp [windowWords])
  · intro a h
    refine foldl_upd_other _ _ _ fun p hp => ?_
    simp only [windowWords, List.mem_cons, List.not_mem_nil, or_false] at hp
    rcases hp with e | e | e | e | e | e | e | e | e | e | e | e | e | e | e | e <;> subst e <;> simp only <;> omega

/-- The words of a window can be loaded. -/
theorem loadable_window (ok : Nat → Bool) (sp : Nat) (ha : sp % 8 = 0) (hok : ∀ a, sp ≤ a → a < sp + 64 → ok a = true) :
    loadable ok (windowAddrs sp) = true := by
  unfold loadable windowAddrs
  rw [List.all_eq_true]
  intro p hp
  simp only [windowWords, List.map_cons, List.map_nil, List.mem_cons, List.not_mem_nil, or_false] at hp
  rcases hp with e | e | e | e | e | e | e | e | e | e | e | e | e | e | e | e <;> subst e <;>
    (simp only [Bool.and_eq_true, decide_eq_true_eq]; exact ⟨by omega, hok _ (by omega) (by omega)⟩)

/-- Loading a window. -/
theorem loadWindow_same (c : Cpu) (w sp : Nat) : (Frame.mk ((loadWindow c w sp).l w) ((loadWindow c w sp).i w)).Same (frameIn c.mem sp) := by
  intro r hr
  unfold loadWindow frameIn
  simp only [upd_same]
  interval_cases r <;> exact ⟨rfl, rfl⟩

theorem loadWindow_other (c : Cpu) (w sp u : Nat) (h : u ≠ w) : (loadWindow c w sp).l u = c.l u ∧ (loadWindow c w sp).i u = c.i u :=
  ⟨upd_other _ _ h, upd_other _ _ h⟩

theorem frameIn_congr {m m' : Nat → Nat} {sp : Nat} (h : ∀ a, sp ≤ a → a < sp + 64 → m' a = m a) : (frameIn m' sp).Same (frameIn m sp) := by
  intro r hr
  exact ⟨h _ (by omega) (by omega), h _ (by omega) (by omega)⟩

theorem Same.trans {f g h : Frame} (h1 : f.Same g) (h2 : g.Same h) : f.Same h := fun r hr => ⟨(h1 r hr).1.trans (h2 r hr).1, (h1 r hr).2.trans (h2 r hr).2⟩
theorem Same.symm {f g : Frame} (h1 : f.Same g) : g.Same f := fun r hr => ⟨(h1 r hr).1.symm, (h1 r hr).2.symm⟩
theorem Same.refl (f : Frame) : f.Same f := fun _ _ => ⟨rfl, rfl⟩

/-! ## Below the stack pointer -/

theorem sub32_b {b k : Nat} (hk : k ≤ 0x54) (hb : b + 0x54 < W) : sub32 (b + 0x54) k = b + (0x54 - k) := by
  rw [sub32_eq (by omega) hb]
  omega

theorem underWords_b {b : Nat} (hb : b + 0x54 < W) (g i : Nat → Nat) : underWords (b + 0x54) g i =
    [(4, b + 0x38, g 1), (4, b + 0x3c, g 2), (4, b + 0x40, g 3), (4, b + 0x44, g 4), (4, b + 0x48, g 5), (4, b + 0x4c, g 6), (4, b + 0x50, g 7),
     (4, b + 0x34, i 0), (4, b + 0x30, i 1), (4, b + 0x2c, i 2), (4, b + 0x28, i 3), (4, b + 0x24, i 4), (4, b + 0x20, i 5), (4, b + 0x1c, i 6),
     (4, b + 0x18, i 7)] := by
  unfold underWords
  rw [sub32_b (k := 0x1c) (by decide) hb, sub32_b (k := 0x18) (by decide) hb, sub32_b (k := 0x14) (by decide) hb,
    sub32_b (k := 0x10) (by decide) hb, sub32_b (k := 0x0c) (by decide) hb, sub32_b (k := 0x08) (by decide) hb, sub32_b (k := 0x04) (by decide) hb,
    sub32_b (k := 0x20) (by decide) hb, sub32_b (k := 0x24) (by decide) hb, sub32_b (k := 0x28) (by decide) hb, sub32_b (k := 0x2c) (by decide) hb,
    sub32_b (k := 0x30) (by decide) hb, sub32_b (k := 0x34) (by decide) hb, sub32_b (k := 0x38) (by decide) hb, sub32_b (k := 0x3c) (by decide) hb]

theorem otherWords_b {b : Nat} (hb : b + 0x54 < W) (wim psr y pc npc cnt : Nat) : otherWords (b + 0x54) wim psr y pc npc cnt =
    [(4, b + 0x14, wim), (4, b + 0x10, psr), (4, b + 0xc, y), (4, b + 0x8, pc), (4, b + 0x4, npc), (4, b + 0, cnt)] := by
  unfold otherWords
  rw [sub32_b (k := 0x40) (by decide) hb, sub32_b (k := 0x44) (by decide) hb, sub32_b (k := 0x48) (by decide) hb,
    sub32_b (k := 0x4c) (by decide) hb, sub32_b (k := 0x50) (by decide) hb, sub32_b (k := 0x54) (by decide) hb]

/-- The globals and the ins of the trap window are stored. -/
theorem store_under (ok : Nat → Bool) (mem : Nat → Nat) (b : Nat) (g i : Nat → Nat) (hb : b + 0x54 < W) (ha : b % 4 = 0)
    (hok : ∀ a, b ≤ a → a < b + 0x54 → ok a = true) :
    ∃ mem', storeAll ok mem (underWords (b + 0x54) g i) = some mem' ∧ (∀ r < 8, 1 ≤ r → mem' (b + 0x34 + 4 * r) = g r) ∧
      (∀ r < 8, mem' (b + (0x34 - 4 * r)) = i r) ∧ ∀ a, a < b + 0x18 ∨ b + 0x54 ≤ a → mem' a = mem a := by
  rw [underWords_b hb]
  refine ⟨_, storeAll_some ok _ mem ?_, ?_, ?_, ?_⟩
  · intro p hp
    simp only [List.mem_cons, List.not_mem_nil, or_false] at hp
    rcases hp with e | e | e | e | e | e | e | e | e | e | e | e | e | e | e <;> subst e <;>
      exact ⟨by simp only; omega, hok _ (by simp only; omega) (by simp only; omega)⟩
  · intro r hr h1
    refine foldl_upd_mem _ mem (by simp) (4, b + 0x34 + 4 * r, g r) ?_
    interval_cases r <;> simp
  · intro r hr
    refine foldl_upd_mem _ mem (by simp) (4, b + (0x34 - 4 * r), i r) ?_
    interval_cases r <;> simp
  · intro a h
    refine foldl_upd_other _ _ _ fun p hp => ?_
    simp only [List.mem_cons, List.not_mem_nil, or_false] at hp
    rcases hp with e | e | e | e | e | e | e | e | e | e | e | e | e | e | e <;> subst e <;> simp only <;> omega

/-- The other registers are stored. -/
theorem store_other (ok : Nat → Bool) (mem : Nat → Nat) (b wim psr y pc npc cnt : Nat) (hb : b + 0x54 < W) (ha : b % 4 = 0)
    (hok : ∀ a, b ≤ a → a < b + 0x54 → ok a = true) :
    ∃ mem', storeAll ok mem (otherWords (b + 0x54) wim psr y pc npc cnt) = some mem' ∧ mem' (b + 0x8) = pc ∧ mem' (b + 0x4) = npc ∧ mem' b = cnt ∧
      mem' (b + 0x10) = psr ∧ mem' (b + 0xc) = y ∧ ∀ a, a < b ∨ b + 0x18 ≤ a → mem' a = mem a := by
  rw [otherWords_b hb]
  have key := fun p => foldl_upd_mem [(4, b + 0x14, wim), (4, b + 0x10, psr), (4, b + 0xc, y), (4, b + 0x8, pc), (4, b + 0x4, npc), (4, b + 0, cnt)]
    mem (by simp) p
  refine ⟨_, storeAll_some ok _ mem ?_, key (4, b + 0x8, pc) (by simp), key (4, b + 0x4, npc) (by simp), key (4, b + 0, cnt) (by simp),
    key (4, b + 0x10, psr) (by simp), key (4, b + 0xc, y) (by simp), ?_⟩
  · intro p hp
    simp only [List.mem_cons, List.not_mem_nil, or_false] at hp
    rcases hp with e | e | e | e | e | e <;> subst e <;> exact ⟨by simp only; omega, hok _ (by simp only; omega) (by simp only; omega)⟩
  · intro a h
    refine foldl_upd_other _ _ _ fun p hp => ?_
    simp only [List.mem_cons, List.not_mem_nil, or_false] at hp
    rcases hp with e | e | e | e | e | e <;> subst e <;> simp only <;> omega

/-! ## The mask of `save_loop` -/

/-- One step of the mask. -/
def rot (g : Nat) : Nat := (g >>> (NW - 1)) ||| (g <<< 1) % W

/-- The mask after `j` steps. -/
def mask (t : Nat) : Nat → Nat
  | 0 => 1 <<< t
  | j + 1 => rot (mask t j)

theorem mask_bit : ∀ t < 8, ∀ j < 9, ∀ v < 8, (mask t j).testBit v = decide (v = (t + j) % 8) := by decide +kernel

theorem and_pow (g v : Nat) : (g &&& 2 ^ v ≠ 0) ↔ g.testBit v = true := by
  rw [Nat.and_two_pow]
  cases g.testBit v <;> simp

/-! ## The saved windows -/

/-- The save loop stores every window from the one above the trap window up to the invalid one. -/
theorem saveLoop_spec (cf : Conf) (c : Cpu) (t r : Nat) (ht : t < 8) (hr : r < 8) (hv : c.wim = 2 ^ ((t + 1 + r) % 8))
    (hal : ∀ k < r, c.i ((t + k) % 8) 6 % 8 = 0) (hap : ∀ j k, j < k → k < r → c.i ((t + j) % 8) 6 + 64 ≤ c.i ((t + k) % 8) 6)
    (hok : ∀ k < r, ∀ a, c.i ((t + k) % 8) 6 ≤ a → a < c.i ((t + k) % 8) 6 + 64 → cf.ok a = true) :
    ∀ d j mem, j + d = r → ∃ mem', saveLoop cf c (9 - j) (mask t j) ((t + j) % 8) j mem = some (r, mem') ∧
      (∀ k, j ≤ k → k < r → (frameIn mem' (c.i ((t + k) % 8) 6)).Same ⟨c.l ((t + 1 + k) % 8), c.i ((t + 1 + k) % 8)⟩) ∧
      ∀ a, (∀ k, j ≤ k → k < r → a < c.i ((t + k) % 8) 6 ∨ c.i ((t + k) % 8) 6 + 64 ≤ a) → mem' a = mem a := by
  intro d
  induction d with
  | zero =>
    intro j mem hj
    refine ⟨mem, ?_, fun k h1 h2 => by omega, fun a _ => rfl⟩
    rw [show 9 - j = (8 - j) + 1 by omega]
    unfold saveLoop
    have hb := mask_bit t ht (j + 1) (by omega) ((t + 1 + r) % 8) (Nat.mod_lt _ (by decide))
    rw [decide_eq_true (by omega)] at hb
    have : rot (mask t j) &&& c.wim ≠ 0 := by
      rw [hv, and_pow]
      exact hb
    show (if rot (mask t j) &&& c.wim ≠ 0 then _ else _) = _
    rw [if_pos this, show j = r by omega]
  | succ d ih =>
    intro j mem hj
    rw [show 9 - j = (8 - j) + 1 by omega]
    have hb := mask_bit t ht (j + 1) (by omega) ((t + 1 + r) % 8) (Nat.mod_lt _ (by decide))
    rw [decide_eq_false (by omega)] at hb
    have hz : ¬ rot (mask t j) &&& c.wim ≠ 0 := by
      rw [hv, and_pow]
      intro h
      have : (mask t (j + 1)).testBit ((t + 1 + r) % 8) = true := h
      rw [hb] at this
      cases this
    have hw : above ((t + j) % 8) = (t + 1 + j) % 8 := by unfold above NW; omega
    have hbw : below ((t + 1 + j) % 8) = (t + j) % 8 := by unfold below NW; omega
    have hinv : c.invalid ((t + 1 + j) % 8) = false := by
      unfold Cpu.invalid
      rw [hv, Nat.testBit_two_pow]
      exact decide_eq_false (by omega)
    obtain ⟨m1, h1, h2, h3⟩ := store_window cf.ok mem (c.i ((t + j) % 8) 6) (c.l ((t + 1 + j) % 8)) (c.i ((t + 1 + j) % 8))
      (hal j (by omega)) (hok j (by omega))
    obtain ⟨m2, g1, g2, g3⟩ := ih (j + 1) m1 (by omega)
    refine ⟨m2, ?_, ?_, ?_⟩
    · unfold saveLoop
      show (if rot (mask t j) &&& c.wim ≠ 0 then _ else _) = _
      rw [if_neg hz]
      simp only
      rw [hw, hinv, hbw, h1]
      simp only [Bool.false_eq_true, if_false, Option.bind_some]
      have : 9 - (j + 1) = 8 - j := by omega
      rw [this, show (t + (j + 1)) % 8 = (t + 1 + j) % 8 by congr 1; omega] at g1
      exact g1
    · intro k hk1 hk2
      by_cases e : k = j
      · subst e
        refine Same.trans (frameIn_congr fun a ha1 ha2 => g3 a fun k' h1 h2 => Or.inl ?_) h2
        have := hap k k' (by omega) h2
        omega
      · exact g2 k (by omega) hk2
    · intro a ha
      rw [g3 a fun k h1 h2 => ha k (by omega) h2, h3 a (ha j (Nat.le_refl _) (by omega))]

/-! ## The restored windows -/

/-- The stack pointer of frame `k` of a stack in memory. -/
def chainPtr (mem : Nat → Nat) (sp : Nat) : Nat → Nat
  | 0 => sp
  | k + 1 => mem (chainPtr mem sp k + 0x38)

/-- The restore loop loads the frames of a stack in memory. -/
theorem restoreLoop_spec (cf : Conf) (sp n : Nat) (hn : n < 8) (mem : Nat → Nat) (hal : ∀ k < n, chainPtr mem sp k % 8 = 0)
    (hok : ∀ k < n, ∀ a, chainPtr mem sp k ≤ a → a < chainPtr mem sp k + 64 → cf.ok a = true) :
    ∀ left j (c : Cpu), j + left = n → c.mem = mem → c.cwp = (7 + j) % 8 → c.wim = 2 ^ n → c.i ((7 + j) % 8) 6 = chainPtr mem sp j →
    ∃ c', restoreLoop cf c left = some c' ∧ c'.mem = mem ∧ c'.wim = c.wim ∧ c'.y = c.y ∧ c'.g = c.g ∧ c'.pc = c.pc ∧ c'.npc = c.npc ∧
      c'.psr = { c.psr with cwp := (7 + n) % 8 } ∧
      (∀ k, j ≤ k → k < n → (Frame.mk (c'.l k) (c'.i k)).Same (frameIn mem (chainPtr mem sp k))) ∧
      ∀ k, k < j ∨ n ≤ k → c'.l k = c.l k ∧ c'.i k = c.i k := by
  intro left
  induction left with
  | zero =>
    intro j c hj hm hc hw hi
    refine ⟨c, rfl, hm, rfl, rfl, rfl, rfl, rfl, ?_, fun k h1 h2 => by omega, fun k _ => ⟨rfl, rfl⟩⟩
    have : c.psr.cwp = (7 + n) % 8 := by rw [← show j = n by omega]; exact hc
    rw [← this]
  | succ left ih =>
    intro j c hj hm hc hw hi
    have ha : above c.cwp = j := by rw [hc]; unfold above NW; omega
    have hb : below j = (7 + j) % 8 := by unfold below NW; omega
    have hinv : c.invalid j = false := by
      unfold Cpu.invalid
      rw [hw, Nat.testBit_two_pow]
      exact decide_eq_false (by omega)
    have hout : (c.setCwp j).outs 6 = chainPtr mem sp j := by
      show c.i (below j) 6 = _
      rw [hb, hi]
    have hl := loadable_window cf.ok _ (hal j (by omega)) (hok j (by omega))
    have hsame := loadWindow_same (c.setCwp j) j (chainPtr mem sp j)
    have hmem : (c.setCwp j).mem = mem := hm
    rw [hmem] at hsame
    obtain ⟨c', h1, h2, h3, h4, h5, h6, h7, h8, h9, h10⟩ := ih (j + 1) (loadWindow (c.setCwp j) j (chainPtr mem sp j)) (by omega) hm
      (by show j = _; omega) hw (by
        rw [show (7 + (j + 1)) % 8 = j by omega]
        exact (hsame 6 (by decide)).2)
    refine ⟨c', ?_, h2, h3, h4, h5, h6, h7, h8, fun k hk1 hk2 => ?_, fun k hk => ?_⟩
    · unfold restoreLoop
      simp only
      rw [ha, hinv, hout, hl]
      simp only [Bool.false_eq_true, if_false, if_true]
      exact h1
    · by_cases e : k = j
      · subst e
        obtain ⟨e1, e2⟩ := h10 k (Or.inl (by omega))
        rw [e1, e2]
        exact hsame
      · exact h9 k (by omega) hk2
    · obtain ⟨e1, e2⟩ := h10 k (by omega)
      obtain ⟨e3, e4⟩ := loadWindow_other (c.setCwp j) j (chainPtr mem sp j) k (by omega)
      exact ⟨e1.trans e3, e2.trans e4⟩

end Pok.Sparc
