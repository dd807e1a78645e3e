import Verif.Model.Affinity
import Mathlib.Tactic.Common

/-!
# Virtual processor numbering (C50)

`popcount mask` is the number of processors in a 64-bit mask; `InMask mask r` says that processor `r` is in
it.
-/

namespace Pok

/-- Processor `r` is in the mask: bit `r` is set. -/
def InMask (mask r : Nat) : Prop := r < 64 ∧ mask.testBit r = true

/-- Number of set bits among the low 64 bits. -/
def popcount (mask : Nat) : Nat := ((List.range 64).filter fun i => mask.testBit i).length

theorem affBit_eq (mask i : Nat) : affBit mask i = if mask.testBit i then 1 else 0 := by
  unfold affBit Nat.testBit
  rw [Nat.and_comm, Nat.and_one_is_mod]
  rcases Nat.mod_two_eq_zero_or_one (mask >>> i) with h | h <;> rw [h] <;> simp

theorem countBits_eq (mask n : Nat) : countBits mask n = ((List.range n).filter fun i => mask.testBit i).length := by
  induction n with
  | zero => rfl
  | succ n ih =>
    rw [countBits, ih, List.range_succ, List.filter_append, List.length_append, affBit_eq]
    congr 1
    by_cases h : mask.testBit n <;> simp [h]

theorem countBits_mono (mask : Nat) {a b : Nat} (h : a ≤ b) : countBits mask a ≤ countBits mask b := by
  induction h with
  | refl => exact Nat.le_refl _
  | step _ ih => exact Nat.le_trans ih (by simp [countBits])

theorem procRealLoop_spec (mask want : Nat) : ∀ (fuel k : Nat), countBits mask k ≤ want →
    (∀ r, procRealLoop mask want fuel k (countBits mask k) = some r →
      k ≤ r ∧ r < k + fuel ∧ affBit mask r = 1 ∧ countBits mask r = want) ∧
    (want < countBits mask (k + fuel) → ∃ r, procRealLoop mask want fuel k (countBits mask k) = some r) := by
  intro fuel
  induction fuel with
  | zero =>
    intro k hk
    exact ⟨fun r h => by simp [procRealLoop] at h, fun h => by simp at h; omega⟩
  | succ fuel ih =>
    intro k hk
    have hb : affBit mask k ≤ 1 := by rw [affBit_eq]; split <;> omega
    unfold procRealLoop
    simp only
    have hs : countBits mask k + affBit mask k = countBits mask (k + 1) := rfl
    rw [hs]
    by_cases h : countBits mask (k + 1) ≤ want
    · rw [if_pos h]
      obtain ⟨i1, i2⟩ := ih (k + 1) h
      constructor
      · intro r hr
        obtain ⟨a, b, d, e⟩ := i1 r hr
        exact ⟨by omega, by omega, d, e⟩
      · intro hw; exact i2 (by rw [show k + 1 + fuel = k + (fuel + 1) by omega]; exact hw)
    · rw [if_neg h]
      constructor
      · intro r hr
        injection hr with hr
        subst hr
        refine ⟨Nat.le_refl _, by omega, by omega, by omega⟩
      · intro _; exact ⟨k, rfl⟩

/-- **C50**: every virtual processor number below the population count of the mask translates to a real
processor of the mask, and translating back gives the number. -/
theorem C50_round_trip (mask v : Nat) (h : v < popcount mask) :
    ∃ r, procRealId mask v = some r ∧ InMask mask r ∧ procPartitionId mask r = some v := by
  have hp : popcount mask = countBits mask 64 := (countBits_eq mask 64).symm
  obtain ⟨s1, s2⟩ := procRealLoop_spec mask v 64 0 (Nat.zero_le _)
  obtain ⟨r, hr⟩ := s2 (by simpa [← hp] using h)
  obtain ⟨_, h2, h3, h4⟩ := s1 r hr
  refine ⟨r, hr, ⟨by omega, ?_⟩, ?_⟩
  · rw [affBit_eq] at h3
    by_contra hn
    simp [hn] at h3
  · unfold procPartitionId
    rw [if_pos ⟨by omega, h3⟩, h4]

/-- **C50**, the other way: every processor of the mask has a virtual number below the population count that
translates to it. -/
theorem C50_onto (mask r : Nat) (h : InMask mask r) :
    ∃ v, v < popcount mask ∧ procPartitionId mask r = some v ∧ procRealId mask v = some r := by
  have hb : affBit mask r = 1 := by rw [affBit_eq, h.2]; rfl
  have h1 : countBits mask (r + 1) = countBits mask r + 1 := by rw [countBits, hb]
  have hlt : countBits mask r < popcount mask := by
    rw [show popcount mask = countBits mask 64 from (countBits_eq mask 64).symm]
    have := countBits_mono mask (a := r + 1) (b := 64) (by have := h.1; omega)
    omega
  refine ⟨countBits mask r, hlt, ?_, ?_⟩
  · unfold procPartitionId; rw [if_pos ⟨h.1, hb⟩]
  · obtain ⟨r', hr', hin, hback⟩ := C50_round_trip mask _ hlt
    have : countBits mask r' = countBits mask r := by
      unfold procPartitionId at hback
      split at hback
      · simpa using hback
      · simp at hback
    have hb' : affBit mask r' = 1 := by rw [affBit_eq, hin.2]; rfl
    have h1' : countBits mask (r' + 1) = countBits mask r' + 1 := by rw [countBits, hb']
    rcases Nat.lt_trichotomy r r' with hlt | rfl | hlt
    · have := countBits_mono mask (a := r + 1) (b := r') hlt; omega
    · exact hr'
    · have := countBits_mono mask (a := r' + 1) (b := r) hlt; omega

/-- Numbers at or above the population count, and processors outside the mask, are not translated. -/
theorem C50_outside (mask : Nat) :
    (∀ v, popcount mask ≤ v → procRealId mask v = none) ∧
    (∀ r, ¬ InMask mask r → procPartitionId mask r = none) := by
  constructor
  · intro v hv
    cases h : procRealId mask v with
    | none => rfl
    | some r =>
      obtain ⟨s1, _⟩ := procRealLoop_spec mask v 64 0 (Nat.zero_le _)
      obtain ⟨_, h2, h3, h4⟩ := s1 r h
      rw [show popcount mask = countBits mask 64 from (countBits_eq mask 64).symm] at hv
      have := countBits_mono mask (a := r + 1) (b := 64) (by omega)
      have h1 : countBits mask (r + 1) = countBits mask r + 1 := by rw [countBits, h3]
      omega
  · intro r hr
    unfold procPartitionId
    rw [if_neg]
    rintro ⟨h1, h2⟩
    apply hr
    refine ⟨h1, ?_⟩
    rw [affBit_eq] at h2
    by_contra hn
    simp [hn] at h2

/-- Mask with processors 1, 3, 4. -/
example : popcount 0b11010 = 3 ∧ procRealId 0b11010 0 = some 1 ∧ procRealId 0b11010 2 = some 4 ∧
    procPartitionId 0b11010 4 = some 2 := by decide

end Pok
