import Verif.Lemmas.ThreadSched
import Verif.Spec.Dispatch

/-!
# Properties of the three thread schedulers (C04-C07, C08 dispatch part)

Here the schedulers are considered for an arbitrary thread table and arbitrary recorded current and
previous threads; `Verif.Props.Election` lifts the results to `pok_elect_thread` and to histories.
-/

namespace Pok
open Pok.Spec

theorem ready_iff {T : Threads} {proc low high i : Nat} (h1 : low ≤ i) (h2 : i < high) :
    ready T proc i = true ↔ Eligible T proc low high i := by
  unfold ready Eligible
  simp [h1, h2]

theorem not_ready_iff {T : Threads} {proc low high i : Nat} (h1 : low ≤ i) (h2 : i < high) :
    ready T proc i = false ↔ ¬ Eligible T proc low high i := by
  rw [← ready_iff h1 h2]; simp

theorem rrFrom_range {idle low high prev cur : Nat} (h : low < high)
    (hp : Recorded idle low high prev) (hc : Recorded idle low high cur) :
    low ≤ rrFrom idle low prev cur ∧ rrFrom idle low prev cur < high := by
  unfold rrFrom
  unfold Recorded at *
  split
  · split <;> omega
  · omega

theorem staticFrom_range {idle low high prev cur : Nat} (h : low < high)
    (hp : Recorded idle low high prev) (hc : Recorded idle low high cur) :
    low ≤ staticFrom idle low prev cur ∧ staticFrom idle low prev cur < high := by
  unfold staticFrom
  unfold Recorded at *
  split
  · omega
  · split <;> omega

/-- A scan from `f` finds the next eligible thread, or comes back to `f` if there is none. -/
theorem scan_result {T : Threads} {proc low high f : Nat} (h1 : low ≤ f) (h2 : f < high) :
    ∃ e, scanReady T proc low high f (high - low + 1) f = some e ∧
      (NextEligible T proc low high f e ∨
        (e = f ∧ ready T proc f = false ∧ ∀ i, ¬ Eligible T proc low high i)) := by
  have hlt : low < high := by omega
  obtain ⟨m, hm1, hm2, hm3, hm4, hm5⟩ := scanReady_spec (T := T) (proc := proc) h1 h2 (high - low + 1) 0
    (by omega) (by omega)
  rw [cyc_zero h1 h2] at hm3
  refine ⟨_, hm3, ?_⟩
  have hr := cyc_range (f := f) (k := m) hlt
  have hno : ∀ j, 1 ≤ j → j < m → ¬ Eligible T proc low high (cyc low high f j) := by
    intro j hj1 hj2
    have hj := cyc_range (f := f) (k := j) hlt
    exact (not_ready_iff hj.1 hj.2).1 (hm4 j (by omega) hj2)
  by_cases hre : ready T proc (cyc low high f m) = true
  · left
    exact ⟨m, by omega, hm2, rfl, (ready_iff hr.1 hr.2).1 hre, hno⟩
  · right
    have hmn : m = high - low := by
      by_contra hne
      exact hre (hm5 (by omega))
    have hf : cyc low high f m = f := by rw [hmn]; exact cyc_full h1 h2
    refine ⟨hf, by rw [hf] at hre; simpa using hre, ?_⟩
    intro i hi
    obtain ⟨k, hk1, hk2, rfl⟩ := cyc_surj' h1 h2 hi.1.1 hi.1.2
    by_cases hkm : k < m
    · exact hno k hk1 hkm hi
    · have : k = m := by omega
      subst this
      exact hre ((ready_iff hr.1 hr.2).2 hi)

theorem next_eligible {T : Threads} {proc low high f e : Nat} (h : NextEligible T proc low high f e) :
    Eligible T proc low high e := h.choose_spec.2.2.2.1

/-! ### Round robin -/

/-- **C07**, first half: a runnable current thread with remaining (or infinite) budget keeps the
processor. -/
theorem C07_keeps {T : Threads} {proc idle low high prev cur : Nat}
    (h : Entitled T proc idle low high cur) :
    schedRr T proc idle low high prev cur = some cur := by
  obtain ⟨he, hidle, hb⟩ := h
  have : rrKeeps T proc idle cur = true := by
    unfold rrKeeps
    simp [(ready_iff he.1.1 he.1.2).2 he, hidle]
    exact hb
  unfold schedRr
  simp [this]

/-- **C07**, second half: otherwise the next eligible thread in cyclic order after the current one is
dispatched (after the previous one if the processor is idle), or the idle thread if there is none. -/
theorem C07_next {T : Threads} {proc idle low high prev cur : Nat} (h : low < high)
    (hp : Recorded idle low high prev) (hc : Recorded idle low high cur)
    (hk : ¬ Entitled T proc idle low high cur) :
    ∃ e, schedRr T proc idle low high prev cur = some e ∧
      (NextEligible T proc low high (rrFrom idle low prev cur) e ∨
        (e = idle ∧ ∀ i, ¬ Eligible T proc low high i)) := by
  have hf := rrFrom_range h hp hc
  have hkeep : rrKeeps T proc idle cur = false := by
    by_contra hne
    apply hk
    unfold rrKeeps at hne
    simp at hne
    rcases hc with hc | hc
    · exact absurd hc hne.2.2
    · exact ⟨(ready_iff hc.1 hc.2).1 hne.2.1, hne.2.2, hne.1⟩
  obtain ⟨e, he, hres⟩ := scan_result (T := T) (proc := proc) hf.1 hf.2
  unfold schedRr
  simp only [hkeep, he]
  rcases hres with hn | ⟨rfl, hr, hno⟩
  · refine ⟨e, ?_, Or.inl hn⟩
    have hel := (next_eligible hn)
    have : ready T proc e = true := (ready_iff hel.1.1 hel.1.2).2 hel
    simp [this]
  · refine ⟨idle, ?_, Or.inr ⟨rfl, hno⟩⟩
    simp [hr]

theorem rr_good {T : Threads} {proc idle low high prev cur : Nat} (h : low < high)
    (hp : Recorded idle low high prev) (hc : Recorded idle low high cur) :
    ∃ e, schedRr T proc idle low high prev cur = some e ∧ GoodChoice T proc idle low high e := by
  by_cases hk : Entitled T proc idle low high cur
  · exact ⟨cur, C07_keeps hk, Or.inl hk.1⟩
  · obtain ⟨e, he, hn | hi⟩ := C07_next h hp hc hk
    · exact ⟨e, he, Or.inl (next_eligible hn)⟩
    · exact ⟨e, he, Or.inr hi⟩

/-! ### Rate monotonic -/

theorem rms_result {T : Threads} {proc idle low high prev cur : Nat} (h : low < high) :
    ∃ e, schedRms T proc idle low high prev cur = some e ∧
      (NextEligible T proc low high low e ∨ (e = idle ∧ ∀ i, ¬ Eligible T proc low high i)) := by
  obtain ⟨e, he, hres⟩ := scan_result (T := T) (proc := proc) (Nat.le_refl low) h
  unfold schedRms
  simp only [he]
  rcases hres with hn | ⟨rfl, hr, hno⟩
  · refine ⟨e, ?_, Or.inl hn⟩
    have hel := (next_eligible hn)
    have : ready T proc e = true := (ready_iff hel.1.1 hel.1.2).2 hel
    simp [this]
  · refine ⟨idle, ?_, Or.inr ⟨rfl, hno⟩⟩
    simp [hr]

theorem rms_good {T : Threads} {proc idle low high prev cur : Nat} (h : low < high) :
    ∃ e, schedRms T proc idle low high prev cur = some e ∧ GoodChoice T proc idle low high e := by
  obtain ⟨e, he, hn | hi⟩ := rms_result (T := T) (proc := proc) (idle := idle) (prev := prev) (cur := cur) h
  · exact ⟨e, he, Or.inl (next_eligible hn)⟩
  · exact ⟨e, he, Or.inr hi⟩

/-- **C08**, dispatch half: if the table without its first entry (the main thread) is sorted by period,
the dispatched thread has the smallest period among the eligible threads other than the main thread;
the main thread is dispatched only if no other thread is eligible. -/
theorem C08_dispatch {T : Threads} {proc idle low high prev cur e : Nat} (h : low < high)
    (hsorted : ∀ i j, low < i → i < j → j < high → (T i).period ≤ (T j).period)
    (he : schedRms T proc idle low high prev cur = some e) :
    ∀ i, low < i → Eligible T proc low high i →
      (low < e ∧ e < high ∧ (T e).state = .runnable ∧ (T e).period ≤ (T i).period) := by
  intro i hi hel
  obtain ⟨e', he', hn | ⟨_, hno⟩⟩ :=
    rms_result (T := T) (proc := proc) (idle := idle) (prev := prev) (cur := cur) h
  · rw [he] at he'
    injection he' with he'
    subst he'
    obtain ⟨k, hk1, hk2, hk3, hk4, hk5⟩ := hn
    have hcyc : ∀ m, m < high - low → cyc low high low m = low + m := by
      intro m hm
      unfold cyc
      rw [Nat.sub_self, Nat.zero_add, Nat.mod_eq_of_lt hm]
    have hki : k ≤ i - low := by
      by_contra hlt
      refine hk5 (i - low) (by omega) (by omega) ?_
      rw [hcyc _ (by have := hel.1.2; omega)]
      have : low + (i - low) = i := by omega
      rw [this]; exact hel
    have hel2 := hel.1.2
    rw [hcyc k (by omega)] at hk3
    subst hk3
    refine ⟨by omega, by omega, hk4.2.1, ?_⟩
    rcases Nat.lt_or_ge (low + k) i with hlt | hge
    · exact hsorted _ _ (by omega) hlt hel2
    · have : low + k = i := by omega
      rw [this]
      exact Int.le_refl _
  · exact absurd hel (hno i)

/-! ### Static priorities -/

theorem static_result {T : Threads} {proc idle low high prev cur : Nat} (h : low < high)
    (hp : Recorded idle low high prev) (hc : Recorded idle low high cur) :
    ∃ e, schedStatic T proc idle low high prev cur = some e ∧
      (FirstMaxPriority T proc low high (staticFrom idle low prev cur) e ∨
        (e = idle ∧ ∀ i, ¬ Eligible T proc low high i)) := by
  have hf := staticFrom_range h hp hc
  generalize hfr : staticFrom idle low prev cur = f at *
  have h0 : StaticInv T proc low high f 0 (-1) cur := Or.inl ⟨rfl, fun j hj => by omega⟩
  obtain ⟨mp, mt, hl, hinv⟩ := staticLoop_spec (T := T) (proc := proc) hf.1 hf.2 (high - low + 1) 0 (-1) cur
    (by omega) (by omega) h0
  rw [cyc_zero hf.1 hf.2] at hl
  unfold schedStatic
  simp only [hfr, hl]
  rcases hinv with ⟨rfl, hno⟩ | ⟨m, hm, e1, e2, e3, e4, e5⟩
  · refine ⟨idle, by simp, Or.inr ⟨rfl, ?_⟩⟩
    intro i hi
    obtain ⟨k, hk, rfl⟩ := cyc_surj hf.1 hf.2 hi.1.1 hi.1.2
    have := hno k hk
    rw [(ready_iff hi.1.1 hi.1.2).2 hi] at this
    simp at this
  · refine ⟨mt, ?_, Or.inl ⟨?_, ?_, m, hm, e1, ?_⟩⟩
    · rw [e3]; simp
    · have hr := cyc_range (f := f) (k := m) h
      rw [← e1] at hr
      exact (ready_iff hr.1 hr.2).1 e2
    · intro i hi
      obtain ⟨k, hk, rfl⟩ := cyc_surj hf.1 hf.2 hi.1.1 hi.1.2
      exact e4 k hk ((ready_iff hi.1.1 hi.1.2).2 hi)
    · intro j hj hi
      exact e5 j hj ((ready_iff hi.1.1 hi.1.2).2 hi)

theorem static_good {T : Threads} {proc idle low high prev cur : Nat} (h : low < high)
    (hp : Recorded idle low high prev) (hc : Recorded idle low high cur) :
    ∃ e, schedStatic T proc idle low high prev cur = some e ∧ GoodChoice T proc idle low high e := by
  obtain ⟨e, he, hn | hi⟩ := static_result (T := T) (proc := proc) h hp hc
  · exact ⟨e, he, Or.inl hn.1⟩
  · exact ⟨e, he, Or.inr hi⟩

/-- **C06** (priority part): the dispatched thread has maximal priority among the eligible threads. -/
theorem C06_max_priority {T : Threads} {proc idle low high prev cur i : Nat} (h : low < high)
    (hp : Recorded idle low high prev) (hc : Recorded idle low high cur)
    (hi : Eligible T proc low high i) :
    ∃ e, schedStatic T proc idle low high prev cur = some e ∧ Eligible T proc low high e ∧
      ∀ j, Eligible T proc low high j → (T j).priority ≤ (T e).priority := by
  obtain ⟨e, he, hn | hno⟩ := static_result (T := T) (proc := proc) h hp hc
  · exact ⟨e, he, hn.1, hn.2.1⟩
  · exact absurd hi (hno.2 i)

/-- **C06** (ties): among the threads of maximal priority the first one in the cyclic order starting at
the current thread is dispatched.  *Partial*: this needs a previous thread other than the idle thread
to be recorded; see `C06_ties_violated`. -/
theorem C06_ties_partial {T : Threads} {proc idle low high prev cur i : Nat} (h : low < high)
    (hp : low ≤ prev ∧ prev < high) (hpi : prev ≠ idle) (hc : low ≤ cur ∧ cur < high) (hci : cur ≠ idle)
    (hi : Eligible T proc low high i) :
    ∃ e, schedStatic T proc idle low high prev cur = some e ∧ FirstMaxPriority T proc low high cur e := by
  obtain ⟨e, he, hn | hno⟩ := static_result (T := T) (proc := proc) (prev := prev) (cur := cur) (idle := idle) h
    (Or.inr hp) (Or.inr hc)
  · have : staticFrom idle low prev cur = cur := by simp [staticFrom, hpi, hci]
    rw [this] at hn
    exact ⟨e, he, hn⟩
  · exact absurd hi (hno.2 i)

/-- Two runnable threads of equal priority on processor 0. -/
def exTies : Threads := fun i => { priority := 5, state := if i = 1 ∨ i = 2 then .runnable else .stopped }

/-- The tie rule does not hold when no previous thread is recorded (the first thread dispatched from
idle on a processor): the current thread 2 loses the processor to thread 1 of the same priority. -/
theorem C06_ties_violated :
    ∃ (T : Threads) (proc idle low high prev cur : Nat), low < high ∧ Recorded idle low high prev ∧
      Recorded idle low high cur ∧ cur ≠ idle ∧ Eligible T proc low high cur ∧
      ∀ e, schedStatic T proc idle low high prev cur = some e → ¬ FirstMaxPriority T proc low high cur e := by
  refine ⟨exTies, 0, 5, 0, 4, 5, 2, by decide, Or.inl rfl, Or.inr (by decide), by decide,
    ⟨by decide, by decide, by decide⟩, ?_⟩
  intro e he
  have : schedStatic exTies 0 5 0 4 5 2 = some 1 := by decide
  rw [this] at he
  injection he with he
  subst he
  rintro ⟨_, _, k, hk, hk1, hk2⟩
  have hk0 : 0 < k := by
    rcases Nat.eq_zero_or_pos k with h | h
    · subst h; revert hk1; decide
    · exact h
  have h0 := hk2 0 hk0 ⟨by decide, by decide, by decide⟩
  exact absurd h0 (by decide)

example : ∃ e, schedStatic exTies 0 5 0 4 3 2 = some e ∧ FirstMaxPriority exTies 0 0 4 2 e :=
  C06_ties_partial (i := 1) (by decide) (by decide) (by decide) (by decide) (by decide)
    ⟨by decide, by decide, by decide⟩

/-! ### All policies -/

/-- **C04**, **C05** for the schedulers: for every policy, table, processor and recorded threads, the
choice is an eligible thread of the partition, or the idle thread while none is eligible. -/
theorem C04_policies (pol : Policy) {T : Threads} {proc idle low high prev cur : Nat} (h : low < high)
    (hp : Recorded idle low high prev) (hc : Recorded idle low high cur) :
    ∃ e, schedFunc pol T proc idle low high prev cur = some e ∧ GoodChoice T proc idle low high e := by
  cases pol
  · exact rr_good h hp hc
  · exact rms_good (prev := prev) (cur := cur) h
  · exact static_good h hp hc

/-- **C05** for the schedulers: with an eligible thread the idle thread is not chosen. -/
theorem C05_policies (pol : Policy) {T : Threads} {proc idle low high prev cur i : Nat}
    (h : low < high) (hidle : idle < low ∨ high ≤ idle)
    (hp : Recorded idle low high prev) (hc : Recorded idle low high cur)
    (hi : Eligible T proc low high i) :
    schedFunc pol T proc idle low high prev cur ≠ some idle := by
  obtain ⟨e, he, hg⟩ := C04_policies pol (T := T) (proc := proc) h hp hc
  rw [he]
  intro heq
  injection heq with heq
  subst heq
  rcases hg with hg | ⟨_, hno⟩
  · have := hg.1; omega
  · exact hno i hi

example : schedFunc .rr exTies 0 5 0 4 5 5 = some 1 ∧ schedFunc .rms exTies 0 5 0 4 2 5 = some 1 := by decide

/-! ### Round robin: bounded waiting -/

/-- A sequence of round-robin elections of one partition on one processor: for each one the thread
table at that moment, giving the threads elected.  The recorded previous and current threads change as
in `record`. -/
def rrRun (proc idle low high : Nat) : Nat → Nat → List Threads → List (Option Nat)
  | _, _, [] => []
  | prev, cur, T :: Ts =>
    match schedRr T proc idle low high prev cur with
    | none => [none]
    | some e =>
      let prev' := if cur ≠ e ∧ cur ≠ idle then cur else prev
      some e :: rrRun proc idle low high prev' e Ts

/-- The number of elections in the sequence at which the thread then current is *not* entitled to keep
the processor: it is the idle thread, or not eligible, or its finite budget is exhausted. -/
def rrExhausted (proc idle low high : Nat) : Nat → Nat → List Threads → Nat
  | _, _, [] => 0
  | prev, cur, T :: Ts =>
    (if Entitled T proc idle low high cur then 0 else 1) +
    match schedRr T proc idle low high prev cur with
    | none => 0
    | some e =>
      let prev' := if cur ≠ e ∧ cur ≠ idle then cur else prev
      rrExhausted proc idle low high prev' e Ts

/-- Distance from `f` to `t` going round, between 1 and `n`. -/
theorem rr_wait {proc idle low high t : Nat} (hlt : low < high) (ht : low ≤ t ∧ t < high)
    (hidle : idle < low ∨ high ≤ idle) :
    ∀ (Ts : List Threads) (prev cur d : Nat),
      (∀ T ∈ Ts, Eligible T proc low high t) →
      Recorded idle low high prev → Recorded idle low high cur →
      1 ≤ d → d ≤ high - low → cyc low high (rrFrom idle low prev cur) d = t →
      d ≤ rrExhausted proc idle low high prev cur Ts →
      some t ∈ rrRun proc idle low high prev cur Ts := by
  intro Ts
  induction Ts with
  | nil => intro prev cur d _ _ _ hd _ _ hle; simp [rrExhausted] at hle; omega
  | cons T Ts ih =>
    intro prev cur d hel hp hc hd1 hd2 hcyc hle
    have helT := hel T (by simp)
    have hel' : ∀ T' ∈ Ts, Eligible T' proc low high t := fun T' h => hel T' (by simp [h])
    by_cases hk : Entitled T proc idle low high cur
    · -- the current thread is kept: nothing changes
      have hs : schedRr T proc idle low high prev cur = some cur := C07_keeps hk
      unfold rrRun
      unfold rrExhausted at hle
      simp only [hs, hk] at *
      simp only [ne_eq, not_true_eq_false, false_and, if_false, if_true, Nat.zero_add] at *
      apply List.mem_cons_of_mem
      exact ih prev cur d hel' hp hc hd1 hd2 hcyc hle
    · obtain ⟨e, he, hn | ⟨_, hno⟩⟩ := C07_next hlt hp hc hk
      · obtain ⟨m, hm1, hm2, hm3, hm4, hm5⟩ := hn
        unfold rrRun
        unfold rrExhausted at hle
        simp only [he] at *
        rw [if_neg hk] at hle
        by_cases het : e = t
        · rw [het]; simp
        · apply List.mem_cons_of_mem
          have hmd : m < d := by
            by_contra hge
            have : d < m ∨ d = m := by omega
            rcases this with h | h
            · exact hm5 d hd1 h (hcyc ▸ helT)
            · subst h; exact het (hm3.trans hcyc)
          have hei : e ≠ idle := by have := hm4.1; omega
          have hfrom : rrFrom idle low (if cur ≠ e ∧ cur ≠ idle then cur else prev) e = e := by
            simp [rrFrom, hei]
          refine ih _ e (d - m) hel' ?_ (Or.inr hm4.1) (by omega) (by omega) ?_ ?_
          · split
            · exact hc
            · exact hp
          · rw [hfrom, ← hcyc, hm3]
            unfold cyc
            have hpos : 0 < high - low := by omega
            generalize rrFrom idle low prev cur - low = a
            have : low + (a + m) % (high - low) - low = (a + m) % (high - low) := by omega
            rw [this, Nat.mod_add_mod]
            congr 2
            omega
          · omega
      · exact absurd helT (hno t)

/-- **C07** (bounded waiting): take any sequence of elections of a partition on a processor, with
arbitrary thread tables in which thread `t` is always eligible.  If at `n` or more of these elections
(`n` the number of threads of the partition) the current thread is not entitled to keep the processor,
then `t` is dispatched in the sequence. -/
theorem C07_bounded_waiting {proc idle low high t : Nat} (hlt : low < high) (ht : low ≤ t ∧ t < high)
    (hidle : idle < low ∨ high ≤ idle) {prev cur : Nat} (Ts : List Threads)
    (hel : ∀ T ∈ Ts, Eligible T proc low high t)
    (hp : Recorded idle low high prev) (hc : Recorded idle low high cur)
    (hn : high - low ≤ rrExhausted proc idle low high prev cur Ts) :
    some t ∈ rrRun proc idle low high prev cur Ts := by
  have hf := rrFrom_range hlt hp hc
  obtain ⟨d, hd1, hd2, hd3⟩ := cyc_surj' hf.1 hf.2 ht.1 ht.2
  exact rr_wait hlt ht hidle Ts prev cur d hel hp hc hd1 hd2 hd3 (by omega)

/-- Four runnable threads with an exhausted budget. -/
def exRr : Threads := fun _ => { state := .runnable, timeCapacity := 3, remaining := 0 }

example : rrRun 0 9 0 4 9 9 [exRr, exRr, exRr, exRr] = [some 1, some 2, some 3, some 0] := by decide
example : some 0 ∈ rrRun 0 9 0 4 9 9 [exRr, exRr, exRr, exRr] :=
  C07_bounded_waiting (by decide) (by decide) (by decide) _
    (by intro T hT; simp at hT; subst hT; exact ⟨by decide, rfl, rfl⟩) (Or.inl rfl) (Or.inl rfl) (by decide)

end Pok
