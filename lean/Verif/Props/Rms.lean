import Verif.Props.Election
import Mathlib.Data.List.InsertIdx

/-!
# Rate monotonic tables (C08)
-/

namespace Pok
namespace Kernel
open Pok.Spec

/-- The `n` threads of the table from index `lo` on. -/
def seg (T : Threads) (lo n : Nat) : List Thread := (List.range n).map fun i => T (lo + i)

/-- Sorted by period, as a list property. -/
def SortedByPeriod (l : List Thread) : Prop := l.Pairwise fun a b => a.period ≤ b.period

theorem seg_sorted_iff (T : Threads) (lo n : Nat) :
    SortedByPeriod (seg T lo n) ↔ ∀ i j, i < j → j < n → (T (lo + i)).period ≤ (T (lo + j)).period := by
  unfold SortedByPeriod seg
  rw [List.pairwise_map, List.pairwise_iff_getElem]
  simp only [List.length_range, List.getElem_range]
  constructor
  · intro h i j hij hj; exact h i j (by omega) hj hij
  · intro h i j _ hj hij; exact h i j hij hj

/-- The insertion sort step on lists. -/
theorem seg_insertSort (T : Threads) {lo n : Nat} (hlo : 1 ≤ lo) (hs : SortedByPeriod (seg T lo n)) :
    ∃ m ≤ n, seg (insertSort T lo (lo + n)) lo (n + 1) = (seg T lo n).insertIdx m (T (lo + n)) ∧
      SortedByPeriod (seg (insertSort T lo (lo + n)) lo (n + 1)) := by
  obtain ⟨m, h1, h2, h3, h4, h5⟩ := insertSort_spec T (lo := lo) (hi := lo + n) hlo (by omega)
  refine ⟨m - lo, by omega, ?_, ?_⟩
  · apply List.ext_getElem
    · rw [List.length_insertIdx_of_le_length (by simp [seg]; omega)]
      simp [seg]
    · intro i hi1 hi2
      simp only [seg, List.length_map, List.length_range] at hi1
      rw [List.getElem_insertIdx]
      simp only [seg, List.getElem_map, List.getElem_range, h3]
      by_cases a : i < m - lo
      · rw [if_pos (by omega), dif_pos a]
      · rw [if_neg (by omega), dif_neg a]
        by_cases b : i = m - lo
        · rw [if_pos (by omega), dif_pos b]
        · rw [if_neg (by omega), dif_neg b, if_pos (by omega)]
          congr 1; omega
  · rw [seg_sorted_iff] at hs ⊢
    intro i j hij hj
    rw [h3, h3]
    have hle : ∀ a, lo ≤ a → a < m → (T a).period ≤ (T (lo + n)).period := by
      intro a ha1 ha2
      have hm := h5 (by omega)
      rcases Nat.lt_or_ge a (m - 1) with h | h
      · have := hs (a - lo) (m - 1 - lo) (by omega) (by omega)
        rw [show lo + (a - lo) = a by omega, show lo + (m - 1 - lo) = m - 1 by omega] at this
        omega
      · rw [show a = m - 1 by omega]; exact hm
    have hs' : ∀ a b, lo ≤ a → a < b → b < lo + n → (T a).period ≤ (T b).period := by
      intro a b ha hab hb
      have := hs (a - lo) (b - lo) (by omega) (by omega)
      rwa [show lo + (a - lo) = a by omega, show lo + (b - lo) = b by omega] at this
    by_cases a : lo + i < m
    · rw [if_pos a]
      by_cases b : lo + j < m
      · rw [if_pos b]; exact hs' _ _ (by omega) (by omega) (by omega)
      · rw [if_neg b]
        by_cases d : lo + j = m
        · rw [if_pos d]; exact hle _ (by omega) a
        · rw [if_neg d, if_pos (by omega)]
          exact hs' _ _ (by omega) (by omega) (by omega)
    · rw [if_neg a]
      by_cases b : lo + i = m
      · rw [if_pos b, if_neg (by omega), if_neg (by omega), if_pos (by omega)]
        have := h4 (lo + j - 1) (by omega) (by omega)
        omega
      · rw [if_neg b, if_pos (by omega), if_neg (by omega), if_neg (by omega), if_pos (by omega)]
        exact hs' _ _ (by omega) (by omega) (by omega)

/-- The threads of a partition other than its first (main) thread. -/
def others (k : Kernel) (pid : Nat) : List Thread := seg k.T ((k.P pid).low + 1) ((k.P pid).index - 1)

theorem created_P {c k a pid aff} : (created c k a pid aff).P pid = { k.P pid with index := (k.P pid).index + 1 } := by
  simp [created]

/-- **C08**, one creation: under RMS, creating a thread in a partition whose main thread exists keeps the
table of the other threads sorted, and adds exactly the new thread to it.  The new thread carries the
attributes of the call. -/
theorem C08_create {c : Config} {k k1 : Kernel} {a : ThreadAttr} {pid id : Nat}
    (hpol : (k.P pid).sched = .rms) (hmain : 1 ≤ (k.P pid).index)
    (hs : SortedByPeriod (others k pid)) (h : threadCreate c k a pid = some (k1, .ok, some id)) :
    ∃ t : Thread, t.entry = a.entry ∧ t.state = .runnable ∧ (a.period % U64 > 0 → t.period = toI64 a.period) ∧
      (others k1 pid).Perm (t :: others k pid) ∧ SortedByPeriod (others k1 pid) ∧
      (k1.P pid).index = (k.P pid).index + 1 ∧ (k1.P pid).sched = .rms ∧ (k1.P pid).low = (k.P pid).low := by
  obtain ⟨hid, hlt, _, aff, _, _, rfl⟩ := create_ok h
  refine ⟨newThread (k.T ((k.P pid).low + (k.P pid).index)) a pid aff (c.stackAddr pid ((k.P pid).index + 1)),
    rfl, rfl, ?_, ?_⟩
  · intro hp
    simp only [newThread]
    split <;> split <;> (try split) <;> simp_all
  · generalize hnt : newThread (k.T ((k.P pid).low + (k.P pid).index)) a pid aff
      (c.stackAddr pid ((k.P pid).index + 1)) = t
    have hT : (created c k a pid aff).T =
        insertSort (upd k.T ((k.P pid).low + (k.P pid).index) t) ((k.P pid).low + 1)
          ((k.P pid).low + (k.P pid).index) := by
      unfold created
      simp only [hnt]
      rw [if_pos ⟨hpol, by omega⟩]
    obtain ⟨n, hn⟩ : ∃ n, (k.P pid).index = n + 1 := ⟨(k.P pid).index - 1, by omega⟩
    have hseg : seg (upd k.T ((k.P pid).low + (k.P pid).index) t) ((k.P pid).low + 1) n = others k pid := by
      unfold others seg
      rw [hn, Nat.add_sub_cancel]
      apply List.map_congr_left
      intro i hi
      simp at hi
      exact upd_other _ _ (by omega)
    have hidx : (k.P pid).low + (k.P pid).index = (k.P pid).low + 1 + n := by omega
    rw [hidx] at hT hseg
    obtain ⟨m, hm, e1, e2⟩ := seg_insertSort (upd k.T ((k.P pid).low + 1 + n) t) (lo := (k.P pid).low + 1) (n := n)
      (by omega) (by rw [hseg]; exact hs)
    have ho : others (created c k a pid aff) pid =
        seg (insertSort (upd k.T ((k.P pid).low + 1 + n) t) ((k.P pid).low + 1) ((k.P pid).low + 1 + n))
          ((k.P pid).low + 1) (n + 1) := by
      unfold others
      rw [created_P, hT]
      simp [hn]
    rw [ho]
    refine ⟨?_, e2, by rw [created_P], by rw [created_P]; exact hpol, by rw [created_P]⟩
    rw [e1, hseg, upd_same]
    apply List.perm_insertIdx
    rw [← hseg]; simp [seg]; exact hm

/-- A sequence of successful creations in a partition. -/
def createAll (c : Config) (pid : Nat) : Kernel → List ThreadAttr → Option Kernel
  | k, [] => some k
  | k, a :: as =>
    match threadCreate c k a pid with
    | some (k1, .ok, some _) => createAll c pid k1 as
    | _ => none

/-- **C08**, any sequence of creations: the table without the main thread is sorted by period and is a
permutation of the threads there before and the created threads, which carry the entry points and the
periods passed by the calls, in any order. -/
theorem C08_sorted {c : Config} {pid : Nat} (as : List ThreadAttr) : ∀ {k k' : Kernel},
    (k.P pid).sched = .rms → 1 ≤ (k.P pid).index → SortedByPeriod (others k pid) →
    createAll c pid k as = some k' →
    ∃ ts : List Thread, ts.map (·.entry) = as.map (·.entry) ∧
      List.Forall₂ (fun a t => a.period % U64 > 0 → t.period = toI64 a.period) as ts ∧
      (others k' pid).Perm (ts ++ others k pid) ∧ SortedByPeriod (others k' pid) := by
  induction as with
  | nil =>
    intro k k' _ _ hs h
    simp [createAll] at h
    subst h
    exact ⟨[], rfl, .nil, by simp, hs⟩
  | cons a as ih =>
    intro k k' hpol hmain hs h
    unfold createAll at h
    split at h
    · rename_i k1 id h1
      obtain ⟨t, ht1, _, ht2, hp, hs1, hi, hpol1, _⟩ := C08_create hpol hmain hs h1
      obtain ⟨ts, g1, g2, g3, g4⟩ := ih hpol1 (by omega) hs1 h
      refine ⟨t :: ts, by simp [ht1, g1], .cons ht2 g2, ?_, g4⟩
      refine g3.trans ?_
      refine (List.Perm.append_left ts hp).trans ?_
      simp only [List.cons_append]
      exact List.perm_middle
    · simp at h

/-- **C08**, dispatching in the resulting table: the thread with the smallest period runs. -/
theorem C08_smallest_period {c : Config} {k : Kernel} {pid proc prev cur e : Nat}
    (hlt : (k.P pid).low < (k.P pid).high) (hfull : (k.P pid).low + (k.P pid).index = (k.P pid).high)
    (hs : SortedByPeriod (others k pid))
    (he : schedRms k.T proc (idle c proc) (k.P pid).low (k.P pid).high prev cur = some e) :
    ∀ i, (k.P pid).low < i → Eligible k.T proc (k.P pid).low (k.P pid).high i →
      ((k.P pid).low < e ∧ e < (k.P pid).high ∧ (k.T e).state = .runnable ∧ (k.T e).period ≤ (k.T i).period) := by
  refine C08_dispatch hlt ?_ he
  intro i j hi hij hj
  unfold others at hs
  rw [seg_sorted_iff] at hs
  have := hs (i - ((k.P pid).low + 1)) (j - ((k.P pid).low + 1)) (by omega) (by omega)
  rwa [show (k.P pid).low + 1 + (i - ((k.P pid).low + 1)) = i by omega,
    show (k.P pid).low + 1 + (j - ((k.P pid).low + 1)) = j by omega] at this

/-- **C08** (identifiers): the identifier returned by a creation designates the created thread right after
the call.  *Partial*: only if no thread of the partition has a longer period; see `C08_ids_violated`. -/
theorem C08_ids_partial {c : Config} {k k1 : Kernel} {a : ThreadAttr} {pid id : Nat}
    (h : threadCreate c k a pid = some (k1, .ok, some id))
    (hmax : ∀ i, (k.P pid).low < i → i < id → (k.T i).period ≤ toI64 a.period) (hp : a.period % U64 > 0) :
    (k1.T id).entry = a.entry ∧ (∀ i, i ≠ id → k1.T i = k.T i) := by
  obtain ⟨hid, hlt, _, aff, _, _, rfl⟩ := create_ok h
  have hper : (newThread (k.T id) a pid aff (c.stackAddr pid ((k.P pid).index + 1))).period = toI64 a.period := by
    simp only [newThread]
    split <;> split <;> (try split) <;> simp_all
  have hent : (newThread (k.T id) a pid aff (c.stackAddr pid ((k.P pid).index + 1))).entry = a.entry := rfl
  unfold created
  simp only
  rw [← hid]
  generalize newThread (k.T id) a pid aff (c.stackAddr pid ((k.P pid).index + 1)) = t at *
  split
  · rename_i hr
    obtain ⟨m, h1, h2, h3, h4, _⟩ := insertSort_spec (upd k.T id t) (lo := (k.P pid).low + 1) (hi := id)
      (by omega) (by omega)
    have hmid : m = id := by
      by_contra hne
      have := h4 m (Nat.le_refl _) (by omega)
      rw [upd_same, upd_other _ _ hne, hper] at this
      have := hmax m (by omega) (by omega)
      omega
    subst hmid
    refine ⟨by rw [h3]; simp [hent], ?_⟩
    intro i hi
    rw [h3]
    by_cases a : i < m
    · rw [if_pos a]; exact upd_other _ _ hi
    · rw [if_neg a, if_neg hi, if_neg (by omega)]; exact upd_other _ _ hi
  · exact ⟨by rw [upd_same]; exact hent, fun i hi => upd_other _ _ hi⟩

/-- Partition 0 of the example scheduled by RMS. -/
def exRms : Config := { exCfg with policy := fun _ => .rms }

/-- The main thread creates a thread of period 200 (entry point 1), then one of period 100 (entry 2). -/
def exRmsHist : List KEv :=
  [⟨0, 0, .tick⟩, ⟨0, 1, .create { priority := 3, entry := 1, period := 200, timeCapacity := 5 }⟩]

/-- **C08** is violated for identifiers: in a reachable state the second creation succeeds, and the
identifier it returns designates the thread created first. -/
theorem C08_ids_violated :
    ∃ (k k1 : Kernel) (id : Nat) (a : ThreadAttr), Reachable exRms k ∧
      threadCreate exRms k a 0 = some (k1, .ok, some id) ∧ a.entry = 2 ∧ (k1.T id).entry = 1 := by
  have hd : ((runFromBoot exRms exRmsHist).bind fun k =>
      (threadCreate exRms k { priority := 3, entry := 2, period := 100, timeCapacity := 5 } 0).map
        fun r => (r.2.1, r.2.2, (r.1.T 2).entry)) = some (.ok, some 2, 1) := by decide +kernel
  cases hk : runFromBoot exRms exRmsHist with
  | none => rw [hk] at hd; simp at hd
  | some k =>
    rw [hk] at hd
    obtain ⟨k1, h1, h3⟩ : ∃ k1, threadCreate exRms k { priority := 3, entry := 2, period := 100, timeCapacity := 5 } 0 =
        some (k1, .ok, some 2) ∧ (k1.T 2).entry = 1 := by simpa using hd
    exact ⟨k, k1, 2, _, runFromBoot_reachable (by decide) hk, h1, rfl, h3⟩

/-- The hypotheses of `C08_sorted` are met, and the result is sorted: periods 100, 200. -/
example : ((runFromBoot exRms exRmsHist).bind fun k =>
      (createAll exRms 0 k [{ priority := 3, entry := 2, period := 100, timeCapacity := 5 }]).map
        fun k1 => ((others k1 0).map (·.period), (others k 0).map (·.period), (k.P 0).index)) =
    some ([100, 200], [200], 2) := by decide +kernel

end Kernel
end Pok
