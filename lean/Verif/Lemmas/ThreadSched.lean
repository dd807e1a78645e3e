import Verif.Model.ThreadSched
import Verif.Spec.Cyclic
import Mathlib.Tactic.Common

/-! Helper lemmas: the scans of the thread schedulers. -/

namespace Pok
open Pok.Spec

theorem cyc_zero {low high f : Nat} (h1 : low ≤ f) (h2 : f < high) : cyc low high f 0 = f := by
  unfold cyc
  rw [Nat.add_zero, Nat.mod_eq_of_lt (by omega)]
  omega

theorem cyc_range {low high f k : Nat} (h : low < high) : low ≤ cyc low high f k ∧ cyc low high f k < high := by
  unfold cyc
  have := Nat.mod_lt (f - low + k) (show 0 < high - low by omega)
  omega

theorem next_cyc {low high f k : Nat} (h : low < high) :
    nextIdx low high (cyc low high f k) = cyc low high f (k + 1) := by
  unfold nextIdx cyc
  have hl := Nat.mod_lt (f - low + k) (show 0 < high - low by omega)
  rw [← Nat.add_assoc (f - low) k 1, Nat.add_mod (f - low + k) 1]
  generalize (f - low + k) % (high - low) = r at *
  by_cases h1 : high - low = 1
  · have : r = 0 := by omega
    subst this; simp [h1]; omega
  · rw [Nat.mod_eq_of_lt (show 1 < high - low by omega)]
    split
    · have : r + 1 = high - low := by omega
      rw [this, Nat.mod_self]; rfl
    · rw [Nat.mod_eq_of_lt (by omega)]; omega

theorem cyc_inj {low high f j k : Nat} (h : low < high) (hj : j < high - low) (hk : k < high - low)
    (e : cyc low high f j = cyc low high f k) : j = k := by
  unfold cyc at e
  have e' : (f - low + j) % (high - low) = (f - low + k) % (high - low) := by omega
  generalize high - low = n at *
  have h1 := Nat.mod_add_div (f - low + j) n
  have h2 := Nat.mod_add_div (f - low + k) n
  rw [e'] at h1
  generalize (f - low + j) / n = a at *
  generalize (f - low + k) / n = b at *
  have : n * a + k = n * b + j := by omega
  rcases Nat.lt_trichotomy a b with hab | hab | hab
  · have : n * a + n ≤ n * b := by
      have := Nat.mul_le_mul_left n (show a + 1 ≤ b by omega)
      rw [Nat.mul_add, Nat.mul_one] at this; exact this
    omega
  · subst hab; omega
  · have : n * b + n ≤ n * a := by
      have := Nat.mul_le_mul_left n (show b + 1 ≤ a by omega)
      rw [Nat.mul_add, Nat.mul_one] at this; exact this
    omega

theorem cyc_full {low high f : Nat} (h1 : low ≤ f) (h2 : f < high) : cyc low high f (high - low) = f := by
  unfold cyc
  rw [Nat.add_mod_right, Nat.mod_eq_of_lt (by omega)]
  omega

theorem cyc_surj {low high f i : Nat} (h1 : low ≤ f) (h2 : f < high) (hi1 : low ≤ i) (hi2 : i < high) :
    ∃ k, k < high - low ∧ cyc low high f k = i := by
  refine ⟨if f ≤ i then i - f else i + (high - low) - f, ?_, ?_⟩
  · split <;> omega
  · unfold cyc
    split
    · have : f - low + (i - f) = i - low := by omega
      rw [this, Nat.mod_eq_of_lt (by omega)]; omega
    · have : f - low + (i + (high - low) - f) = i - low + (high - low) := by omega
      rw [this, Nat.add_mod_right, Nat.mod_eq_of_lt (by omega)]; omega

/-- Same, with `1 ≤ k ≤ n`. -/
theorem cyc_surj' {low high f i : Nat} (h1 : low ≤ f) (h2 : f < high) (hi1 : low ≤ i) (hi2 : i < high) :
    ∃ k, 1 ≤ k ∧ k ≤ high - low ∧ cyc low high f k = i := by
  obtain ⟨k, hk, e⟩ := cyc_surj h1 h2 hi1 hi2
  by_cases h0 : k = 0
  · subst h0
    rw [cyc_zero h1 h2] at e; subst e
    exact ⟨high - low, by omega, by omega, cyc_full h1 h2⟩
  · exact ⟨k, by omega, by omega, e⟩

theorem cyc_ne_from {low high f k : Nat} (h1 : low ≤ f) (h2 : f < high) (hk0 : 0 < k) (hk : k < high - low) :
    cyc low high f k ≠ f := by
  intro e
  have := cyc_inj (f := f) (show low < high by omega) hk (show 0 < high - low by omega)
    (e.trans (cyc_zero h1 h2).symm)
  omega

/-- The scan stops at the first ready thread among `cyc 1, …, cyc n`, else at `from`. -/
theorem scanReady_spec {T : Threads} {proc low high f : Nat} (h1 : low ≤ f) (h2 : f < high) :
    ∀ (fuel k : Nat), high - low ≤ k + fuel → k < high - low →
      ∃ m, k < m ∧ m ≤ high - low ∧ scanReady T proc low high f fuel (cyc low high f k) = some (cyc low high f m) ∧
        (∀ j, k < j → j < m → ready T proc (cyc low high f j) = false) ∧
        (m < high - low → ready T proc (cyc low high f m) = true) := by
  intro fuel
  induction fuel with
  | zero => intro k h hk; omega
  | succ n ih =>
    intro k h hk
    have hlt : low < high := by omega
    unfold scanReady
    rw [next_cyc hlt]
    by_cases hr : ready T proc (cyc low high f (k + 1)) = true
    · exact ⟨k + 1, by omega, by omega, by simp [hr], fun j hj1 hj2 => by omega, fun _ => hr⟩
    · have hr' : ready T proc (cyc low high f (k + 1)) = false := by simpa using hr
      by_cases hend : k + 1 = high - low
      · refine ⟨k + 1, by omega, by omega, ?_, fun j hj1 hj2 => by omega, fun h => by omega⟩
        have : cyc low high f (k + 1) = f := by rw [hend]; exact cyc_full h1 h2
        rw [if_neg (by rw [this]; simp)]
      · obtain ⟨m, hm1, hm2, hm3, hm4, hm5⟩ := ih (k + 1) (by omega) (by omega)
        refine ⟨m, by omega, hm2, ?_, ?_, hm5⟩
        · rw [if_pos ⟨cyc_ne_from h1 h2 (by omega) (by omega), hr'⟩]; exact hm3
        · intro j hj1 hj2
          by_cases hj : j = k + 1
          · rw [hj]; exact hr'
          · exact hm4 j (by omega) hj2

/-- Invariant of the static priority scan after the positions `0 … k-1`. -/
def StaticInv (T : Threads) (proc low high f k : Nat) (mp : Int) (mt : Nat) : Prop :=
  (mp = -1 ∧ ∀ j < k, ready T proc (cyc low high f j) = false) ∨
  (∃ m < k, mt = cyc low high f m ∧ ready T proc mt = true ∧ mp = (T mt).priority ∧
    (∀ j < k, ready T proc (cyc low high f j) = true → (T (cyc low high f j)).priority ≤ (T mt).priority) ∧
    (∀ j < m, ready T proc (cyc low high f j) = true → (T (cyc low high f j)).priority < (T mt).priority))

theorem staticLoop_spec {T : Threads} {proc low high f : Nat} (h1 : low ≤ f) (h2 : f < high) :
    ∀ (fuel k : Nat) (mp : Int) (mt : Nat), high - low ≤ k + fuel → k < high - low →
      StaticInv T proc low high f k mp mt →
      ∃ mp' mt', staticLoop T proc low high f fuel (cyc low high f k) mp mt = some (mp', mt') ∧
        StaticInv T proc low high f (high - low) mp' mt' := by
  intro fuel
  induction fuel with
  | zero => intro k mp mt h hk; omega
  | succ n ih =>
    intro k mp mt h hk hinv
    have hlt : low < high := by omega
    unfold staticLoop
    simp only [next_cyc hlt]
    generalize hb : (ready T proc (cyc low high f k) && decide (((T (cyc low high f k)).priority : Int) > mp))
      = b
    have hinv' : StaticInv T proc low high f (k + 1) (if b then ((T (cyc low high f k)).priority : Int) else mp)
        (if b then cyc low high f k else mt) := by
      cases b with
      | true =>
        simp at hb
        right
        refine ⟨k, by omega, by simp, by simpa using hb.1, by simp, ?_, ?_⟩
        · intro j hj hr
          simp only [if_true]
          by_cases hjk : j = k
          · subst hjk; exact Nat.le_refl _
          · rcases hinv with ⟨_, hno⟩ | ⟨m, hm, e1, e2, e3, e4, e5⟩
            · rw [hno j (by omega)] at hr; simp at hr
            · have := e4 j (by omega) hr
              rw [e3] at hb
              omega
        · intro j hj hr
          simp only [if_true]
          rcases hinv with ⟨_, hno⟩ | ⟨m, hm, e1, e2, e3, e4, e5⟩
          · rw [hno j hj] at hr; simp at hr
          · have := e4 j (by omega) hr
            rw [e3] at hb
            omega
      | false =>
        simp at hb
        rcases hinv with ⟨e0, hno⟩ | ⟨m, hm, e1, e2, e3, e4, e5⟩
        · left
          refine ⟨by simpa using e0, ?_⟩
          intro j hj
          by_cases hjk : j = k
          · subst hjk
            by_contra hr
            have := hb (by simpa using hr)
            omega
          · exact hno j (by omega)
        · right
          refine ⟨m, by omega, by simpa using e1, by simpa using e2, by simpa using e3, ?_, by simpa using e5⟩
          intro j hj hr
          by_cases hjk : j = k
          · subst hjk
            have := hb hr
            simp; omega
          · simpa using e4 j (by omega) hr
    by_cases hend : k + 1 = high - low
    · have : cyc low high f (k + 1) = f := by rw [hend]; exact cyc_full h1 h2
      rw [if_neg (by rw [this]; simp)]
      rw [hend] at hinv'
      exact ⟨_, _, rfl, hinv'⟩
    · rw [if_pos (cyc_ne_from h1 h2 (by omega) (by omega))]
      exact ih (k + 1) _ _ (by omega) (by omega) hinv'

end Pok
