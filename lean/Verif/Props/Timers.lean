import Verif.Model.Timers
import Mathlib.Tactic.Common

/-!
# C103: the clock of the PowerPC and SPARC boards; C104: kernel memory on PowerPC
-/

namespace Pok.Timers

/-! ### Specification -/

/-- The length of an interval between two ticks, in cycles of the time base: 400 microseconds at 100 MHz. -/
def INTERVAL : Nat := 40000

/-- The clock is right at time `tb` after it was started at `t0`: `k` intervals are over, the next one is not, and the clock has counted 40 for
each of the `k`. -/
def Right (t0 tb : Nat) (t : Ppc) : Prop := ∃ k, t.ticks = 40 * k ∧ t0 + INTERVAL * k ≤ tb ∧ tb ≤ t0 + INTERVAL * (k + 1) ∧
  t.last = t0 + INTERVAL * (k + 1)

/-- The readings of the time base during an interrupt: they do not decrease, the first is not before the end of the interval that the
decrementer was set for, and none is more than 20 seconds after it. -/
def Readings (e : Nat) : List Nat → Prop
  | [] => True
  | tb :: l => e ≤ tb ∧ tb < e + 2 ^ 31 ∧ Readings' e tb l
where
  /-- The later readings. -/
  Readings' (e prev : Nat) : List Nat → Prop
  | [] => True
  | tb :: l => prev ≤ tb ∧ tb < e + 2 ^ 31 ∧ Readings' e tb l

/-- How the board counts: the counter goes down once per tick of the scaler and takes a cycle more than its reload value, and so does the scaler
(the device's rule). -/
def sparcCycles (n : Nat) : Nat := n * ((sparcScaler + 1) * (sparcReload + 1))

/-! ### Proofs -/

theorem inter_eq : timeInter = INTERVAL := by decide +kernel

theorem toInt_future {a b : Nat} (_ha : a < 2 ^ 64) (hba : b ≤ a) (h : a < b + 2 ^ 31) : toInt ((a + 2 ^ 64 - b) % 2 ^ 64) = ((a - b : Nat) : Int) := by
  have e : (a + 2 ^ 64 - b) % 2 ^ 64 = a - b := by omega
  have : (a - b) % 2 ^ 32 = a - b := by omega
  rw [toInt, e, this, if_pos (by omega)]

theorem toInt_past {a b : Nat} (_ha : a < 2 ^ 64) (_hb : b < 2 ^ 64) (hba : a < b) (h : b ≤ a + 2 ^ 31) : toInt ((a + 2 ^ 64 - b) % 2 ^ 64) < 0 := by
  have e : (a + 2 ^ 64 - b) % 2 ^ 64 = 2 ^ 64 - (b - a) := by omega
  have : (2 ^ 64 - (b - a)) % 2 ^ 32 = 2 ^ 32 - (b - a) := by omega
  rw [toInt, e, this, if_neg (by omega)]
  omega

/-- The loop, started with `k` intervals counted and the next one over. -/
theorem loop_right (t0 : Nat) (l : List Nat) : ∀ (t : Ppc) (k e prev : Nat), t.inter = INTERVAL → t.ticks = 40 * k →
    t.last = t0 + INTERVAL * (k + 1) → t.last ≤ prev → e ≤ t.last → e + 2 ^ 32 < 2 ^ 64 → Readings.Readings' e prev l →
    ∀ t', decrInt t l = some t' → ∃ tb ∈ l, Right t0 tb t' ∧ t'.inter = INTERVAL ∧ tb + t'.decr = t'.last ∧ e ≤ tb ∧ tb < e + 2 ^ 31 := by
  induction l with
  | nil => intro t k e prev _ _ _ _ _ _ _ t' h; simp [decrInt] at h
  | cons tb l ih =>
    intro t k e prev hi ht hl hp he hw hr t' h
    obtain ⟨r1, r2, r3⟩ := hr
    obtain ⟨last, inter, ticks, decr, ok⟩ := t
    simp only at hi ht hl hp he
    subst hi
    have hk : (ticks + FREQ_DIV) % 2 ^ 64 = (40 * (k + 1)) % 2 ^ 64 := by rw [ht]; rfl
    have hn : last + INTERVAL = t0 + INTERVAL * (k + 1 + 1) := by rw [hl, Nat.mul_succ INTERVAL (k + 1), Nat.add_assoc]
    have hI : INTERVAL = 40000 := rfl
    have hkb : 40 * (k + 1) ≤ last := by rw [hl, hI]; clear * -; omega
    clear ht hl
    have hnew : (last + INTERVAL) % 2 ^ 64 = last + INTERVAL := Nat.mod_eq_of_lt (by rw [hI]; omega)
    have hk2 : (40 * (k + 1)) % 2 ^ 64 = 40 * (k + 1) := Nat.mod_eq_of_lt (by omega)
    rw [hk2] at hk
    rw [decrInt] at h
    by_cases hc : last + INTERVAL < tb
    · have hneg := toInt_past (a := last + INTERVAL) (b := tb) (by omega) (by omega) hc (by omega)
      have hs : setDecr ⟨last, INTERVAL, ticks, decr, ok⟩ tb = ⟨last + INTERVAL, INTERVAL, ticks, decr, false⟩ := by
        rw [setDecr]
        simp only [hnew, hneg, if_true]
      rw [hs, tick] at h
      simp only [Bool.false_eq_true, if_false, hk] at h
      obtain ⟨x, hx, rest⟩ := ih _ (k + 1) e tb rfl rfl hn (by simp only; omega) (by simp only; omega) hw r3 t' h
      exact ⟨x, List.mem_cons_of_mem _ hx, rest⟩
    · have hpos := toInt_future (a := last + INTERVAL) (b := tb) (by omega) (by omega) (by omega)
      have hge : ¬ (((last + INTERVAL - tb : Nat) : Int) < 0) := by omega
      have hs : setDecr ⟨last, INTERVAL, ticks, decr, ok⟩ tb = ⟨last + INTERVAL, INTERVAL, ticks, last + INTERVAL - tb, true⟩ := by
        rw [setDecr]
        simp only [hnew, hpos, hge, if_false, Int.toNat_natCast]
      rw [hs, tick] at h
      simp only [if_true, hk] at h
      injection h with h
      subst h
      refine ⟨tb, by simp, ⟨k + 1, rfl, ?_, ?_, hn⟩, rfl, ?_, by omega, r2⟩
      · have : t0 + INTERVAL * (k + 1) + INTERVAL = last + INTERVAL := by rw [hn, Nat.mul_succ INTERVAL (k + 1), Nat.add_assoc]
        omega
      · rw [← hn]; omega
      · show tb + (last + INTERVAL - tb) = last + INTERVAL
        omega

/-- Interrupts one after the other; each has its readings of the time base. -/
def interrupts (t : Ppc) : List (List Nat) → Option Ppc
  | [] => some t
  | l :: ls => (decrInt t l).bind fun t => interrupts t ls

/-- The readings of a sequence of interrupts: each interrupt comes when the decrementer has run out, at the latest 20 seconds after. -/
def Timely (t : Ppc) : List (List Nat) → Prop
  | [] => True
  | l :: ls => Readings t.last l ∧ ∀ t', decrInt t l = some t' → Timely t' ls

theorem setDecr_keeps (t : Ppc) (tb : Nat) : (setDecr t tb).inter = t.inter ∧ (setDecr t tb).ticks = t.ticks ∧
    (setDecr t tb).last = (t.last + t.inter) % 2 ^ 64 := by
  rw [setDecr]
  by_cases h : toInt (((t.last + t.inter) % 2 ^ 64 + 2 ^ 64 - tb) % 2 ^ 64) < 0
  · simp only [h, if_true, and_self]
  · simp only [h, if_false, and_self]

theorem timeInit_eq (t0 t0' : Nat) (hw0 : t0 + 2 ^ 34 < 2 ^ 64) : (timeInit t0 t0').inter = INTERVAL ∧ (timeInit t0 t0').ticks = 40 * 0 ∧
    (timeInit t0 t0').last = t0 + INTERVAL * (0 + 1) := by
  rw [timeInit]
  obtain ⟨a, b, c⟩ := setDecr_keeps { last := t0, inter := timeInter, ticks := 0, decr := 0, ok := true } t0'
  simp only [inter_eq] at a b c ⊢
  refine ⟨a, b, c.trans ?_⟩
  simp only [INTERVAL]
  omega

theorem right_always (t0 : Nat) (t : Ppc) (ls : List (List Nat)) : ∀ (s : Ppc) (k : Nat), s.inter = INTERVAL → s.ticks = 40 * k → s.last = t0 + INTERVAL * (k + 1) →
    s.last + 2 ^ 33 < 2 ^ 64 → Timely s ls → (∀ l ∈ ls, ∀ tb ∈ l, tb + 2 ^ 34 < 2 ^ 64) → ls ≠ [] → interrupts s ls = some t →
    ∃ l ∈ ls, ∃ tb ∈ l, Right t0 tb t ∧ tb + t.decr = t.last := by
  induction ls with
  | nil => intro s k _ _ _ _ _ _ hne; exact absurd rfl hne
  | cons l ls ih =>
    intro s k hi ht hl hb hT hwl _ hint
    obtain ⟨hR, hT'⟩ := hT
    rw [interrupts] at hint
    cases hd : decrInt s l with
    | none => rw [hd] at hint; simp at hint
    | some s' =>
      rw [hd, Option.bind_some] at hint
      have hR' : Readings.Readings' s.last s.last l := by
        cases l with
        | nil => trivial
        | cons a l => exact hR
      obtain ⟨tb, htb, hright, hi', hdec, _, _⟩ := loop_right t0 l s k s.last s.last hi ht hl (Nat.le_refl _) (Nat.le_refl _) (by omega) hR' s' hd
      by_cases hls : ls = []
      · subst hls
        simp only [interrupts, Option.some.injEq] at hint
        subst hint
        exact ⟨l, by simp, tb, htb, hright, hdec⟩
      · obtain ⟨k', e1, e2, e3, e4⟩ := hright
        have hwt := hwl l (by simp) tb htb
        obtain ⟨l', hl', rest⟩ := ih s' k' hi' e1 e4 (by simp only [INTERVAL] at *; omega) (hT' s' hd)
          (fun l hl => hwl l (List.mem_cons_of_mem _ hl)) hls hint
        exact ⟨l', List.mem_cons_of_mem _ hl', rest⟩

/-- **C103** (part) The clock of the PowerPC board does not drift: after any number of timer interrupts, however late they are served (up to 20
seconds), it has counted exactly the intervals of 400 microseconds that are over since the start, and the decrementer is set for the end of
the running one. -/
theorem C103_drift_partial (t0 t0' : Nat) (h0 : t0 ≤ t0') (h1 : t0' ≤ t0 + INTERVAL) (ls : List (List Nat)) (t : Ppc)
    (hr : Timely (timeInit t0 t0') ls) (hw : ∀ l ∈ ls, ∀ tb ∈ l, tb + 2 ^ 34 < 2 ^ 64) (hw0 : t0 + 2 ^ 34 < 2 ^ 64) (hne : ls ≠ [])
    (h : interrupts (timeInit t0 t0') ls = some t) :
    ∃ l ∈ ls, ∃ tb ∈ l, Right t0 tb t ∧ tb + t.decr = t.last := by
  obtain ⟨i1, i2, i3⟩ := timeInit_eq t0 t0' hw0
  refine right_always t0 t ls _ 0 i1 i2 i3 ?_ hr hw hne h
  rw [i3]
  simp only [INTERVAL]
  clear * - hw0
  omega

/-- **C103** violated: if the timer interrupt is served more than 2^31 cycles (21 seconds) late, but less than 2^32, the handler takes the delay for
time to come: it sets the decrementer for up to 21 seconds later and the clock stands still until then, behind by the whole delay. -/
theorem C103_late_violated (t : Ppc) (tb : Nat) (l : List Nat) (hi : t.inter = INTERVAL) (ht : t.ticks + 40 < 2 ^ 64) (hw : tb < 2 ^ 64)
    (h1 : t.last + INTERVAL + 2 ^ 31 < tb) (h2 : tb ≤ t.last + INTERVAL + 2 ^ 32) :
    ∃ t', decrInt t (tb :: l) = some t' ∧ t'.ticks = t.ticks + 40 ∧ t'.last + 2 ^ 31 < tb ∧ t'.decr = t.last + INTERVAL + 2 ^ 32 - tb := by
  simp only [INTERVAL] at *
  have hnew : (t.last + t.inter) % 2 ^ 64 = t.last + 40000 := by rw [hi]; omega
  have hd : toInt ((t.last + 40000 + 2 ^ 64 - tb) % 2 ^ 64) = ((t.last + 40000 + 2 ^ 32 - tb : Nat) : Int) := by
    have e : (t.last + 40000 + 2 ^ 64 - tb) % 2 ^ 64 = 2 ^ 64 - (tb - (t.last + 40000)) := by omega
    have e2 : (2 ^ 64 - (tb - (t.last + 40000))) % 2 ^ 32 = t.last + 40000 + 2 ^ 32 - tb := by omega
    rw [toInt, e, e2, if_pos (by omega)]
  have hge : ¬ (((t.last + 40000 + 2 ^ 32 - tb : Nat) : Int) < 0) := by omega
  have hs : setDecr t tb = { t with last := t.last + 40000, decr := t.last + 40000 + 2 ^ 32 - tb, ok := true } := by
    rw [setDecr]
    simp only [hnew, hd, hge, if_false, Int.toNat_natCast]
  rw [decrInt, hs, tick]
  refine ⟨_, if_pos rfl, ?_, ?_, rfl⟩
  · show (t.ticks + FREQ_DIV) % 2 ^ 64 = t.ticks + 40
    simp only [FREQ_DIV]
    omega
  · show t.last + 40000 + 2 ^ 31 < tb
    omega

/-- **C103** violated: the clock of the PowerPC board is not in nanoseconds, as on the other boards and in every delay and period that programs
give: when it is right, it is ten thousand times too slow (one cycle of the time base is ten nanoseconds). -/
theorem C103_unit_violated (t0 tb : Nat) (t : Ppc) (h : Right t0 tb t) :
    t.ticks * 10000 ≤ 10 * (tb - t0) ∧ 10 * (tb - t0) ≤ t.ticks * 10000 + 400000 := by
  obtain ⟨k, e, h1, h2, _⟩ := h
  simp only [INTERVAL] at *
  omega

theorem sparcClock_eq (n : Nat) (h : n * 10000 < 2 ^ 64) : sparcClock n = n * 10000 := by
  induction n with
  | zero => rfl
  | succ n ih =>
    rw [Nat.succ_mul] at h ⊢
    rw [sparcClock, ih (Nat.lt_of_le_of_lt (Nat.le_add_right _ _) h), Nat.mod_eq_of_lt h]

/-- **C103** violated: the clock of the SPARC board runs at half speed.  The timer is set so that an interrupt comes every 1002 cycles of 20
nanoseconds, and each adds 10000 nanoseconds: after any time the clock shows less than half of it. -/
theorem C103_sparc_violated (n : Nat) (h : n * 10000 < 2 ^ 64) : sparcClock n = n * 10000 ∧ sparcCycles n * 20 = n * 20040 ∧
    2 * sparcClock n + 40 * n = sparcCycles n * 20 := by
  have e := sparcClock_eq n h
  have e2 : sparcCycles n = n * 1002 := by
    rw [sparcCycles, show (sparcScaler + 1) * (sparcReload + 1) = 1002 by decide +kernel]
  rw [e, e2]
  omega

/-- Two interrupts, the second one served late, and one with a lost second: the readings and the clocks. -/
example : interrupts (timeInit 1000 1010) [[41010], [200000, 200010, 200020, 200025]] =
      some { last := 201000, inter := 40000, ticks := 160, decr := 980, ok := true } ∧
    Timely (timeInit 1000 1010) [[41010], [200000, 200010, 200020, 200025]] := by
  refine ⟨by decide +kernel, ?_⟩
  refine ⟨⟨by decide +kernel, by decide +kernel, trivial⟩, ?_⟩
  intro t' h
  have : t' = { last := 81000, inter := 40000, ticks := 40, decr := 39990, ok := true } := by
    have e : decrInt (timeInit 1000 1010) [41010] = some { last := 81000, inter := 40000, ticks := 40, decr := 39990, ok := true } := by decide +kernel
    rw [e] at h
    exact (Option.some.inj h).symm
  subst this
  exact ⟨⟨by decide +kernel, by decide +kernel, by decide +kernel, by decide +kernel, by decide +kernel, by decide +kernel, by decide +kernel, by decide +kernel, trivial⟩, fun _ _ => trivial⟩

/-- An interrupt 30 seconds late: the decrementer is set for 12.9 seconds later, the clock has counted one interval. -/
example : decrInt { last := 81000, inter := 40000, ticks := 40, decr := 0, ok := true } [3000121000] =
    some { last := 121000, inter := 40000, ticks := 80, decr := 1294967296, ok := true } := by decide +kernel

/-! ### Kernel memory on PowerPC -/

/-- The areas come one after the other, each on a page boundary. -/
def Disjoint : Nat → List (Nat × Nat) → Prop
  | _, [] => True
  | b, (a, sz) :: l => b ≤ a ∧ a % 4096 = 0 ∧ Disjoint (a + sz) l

/-- **C104** (part) The areas that the kernel of the PowerPC board gives out (stacks, partitions) do not overlap, are after the kernel and begin on a
page boundary, as long as their sum, rounded up to pages, fits in the 32-bit address space. -/
theorem C104_disjoint_partial (sizes : List Nat) : ∀ heapEnd, heapEnd + (sizes.map (· + 4095)).sum < 2 ^ 32 →
    Disjoint heapEnd (allocs heapEnd sizes) ∧ (allocs heapEnd sizes).map (·.2) = sizes := by
  induction sizes with
  | nil => intro heapEnd _; exact ⟨trivial, rfl⟩
  | cons sz l ih =>
    intro heapEnd h
    simp only [List.map_cons, List.sum_cons] at h
    have e : (memAlloc heapEnd sz).1 = (heapEnd + 4095) / 4096 * 4096 := by
      simp only [memAlloc]
      rw [Nat.mod_eq_of_lt (by omega)]
    have e2 : (memAlloc heapEnd sz).2 = (memAlloc heapEnd sz).1 + sz := by
      simp only [memAlloc]
      rw [Nat.mod_eq_of_lt (show heapEnd + 4095 < 2 ^ 32 by omega)]
      apply Nat.mod_eq_of_lt
      omega
    have hi := ih (memAlloc heapEnd sz).2 (by rw [e2, e]; omega)
    refine ⟨⟨?_, ?_, ?_⟩, ?_⟩
    · rw [e]; omega
    · rw [e]; omega
    · rw [← e2]; exact hi.1
    · show sz :: (allocs _ l).map (·.2) = sz :: l
      rw [hi.2]

/-- **C104** violated: the kernel never refuses an allocation, so a partition too large for the address space gets one and the next area lies on
memory that is in use: after a request of 4 GB less `heap_end`, the next one begins at address 0, on the kernel's own code. -/
theorem C104_wrap_violated (heapEnd sz : Nat) (h : heapEnd < 2 ^ 32 - 4096) (ha : heapEnd % 4096 = 0) :
    allocs heapEnd [2 ^ 32 - heapEnd, sz] = [(heapEnd, 2 ^ 32 - heapEnd), (0, sz)] := by
  have e : (heapEnd + 4095) % 2 ^ 32 / 4096 * 4096 = heapEnd := by omega
  simp only [allocs, memAlloc, e, show (heapEnd + (2 ^ 32 - heapEnd)) % 2 ^ 32 = 0 by omega]

example : allocs 0x12345 [8192, 100, 4096] = [(0x13000, 8192), (0x15000, 100), (0x16000, 4096)] := by decide +kernel

end Pok.Timers
