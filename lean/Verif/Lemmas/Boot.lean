import Verif.Lemmas.KernelWf

/-! Helper lemmas: the state after boot. -/

namespace Pok
namespace Kernel
open Pok.Spec

/-- The partition record `pok_partition_init` leaves. -/
theorem partitionInit_spec {c : Config} (hth : ∀ p < c.nbParts, 0 < c.nthreads p) :
    ∀ (n : Nat) (k k' : Kernel), n ≤ c.nbParts → partitionInit c k n = some k' →
      (∀ p < n, ∃ P, initPart c p = some P ∧ k'.P p = { P with index := 1, threadMain := prefixSum c.nthreads p }) ∧
      k'.ps = k.ps ∧ k'.flushes = k.flushes := by
  intro n
  induction n with
  | zero =>
    intro k k' _ h
    simp [partitionInit] at h; subst h
    exact ⟨fun p hp => by omega, rfl, rfl⟩
  | succ n ih =>
    intro k k' hn h
    unfold partitionInit at h
    split at h
    · simp at h
    · rename_i k1 hk1
      obtain ⟨i1, i2, i3⟩ := ih k k1 (by omega) hk1
      split at h
      · simp at h
      · rename_i P hP
        obtain ⟨k2, id, a, hcr, _, _, _, _, _, _, rfl⟩ := setup_parts h
        obtain ⟨hid, hlt, hm, aff, ha, hmu, rfl⟩ := create_ok hcr
        have hPi : P.low = prefixSum c.nthreads n ∧ P.index = 0 := by
          unfold initPart at hP
          split at hP
          · simp at hP
          · injection hP with hP; subst hP; exact ⟨rfl, rfl⟩
        refine ⟨?_, i2, i3⟩
        intro p hp
        by_cases e : p = n
        · subst e
          refine ⟨P, hP, ?_⟩
          rw [hid]
          simp [created, setP, hPi.1, hPi.2]
        · obtain ⟨Q, hQ1, hQ2⟩ := i1 p (by omega)
          refine ⟨Q, hQ1, ?_⟩
          rw [← hQ2]
          simp [created, setP, upd_other _ _ e]

/-- What boot leaves, for every configuration in which it succeeds. -/
theorem boot_spec {c : Config} {k : Kernel} (hth : ∀ p < c.nbParts, 0 < c.nthreads p) (h : boot c = some k) :
    (∀ p < c.nbParts, ∃ P, initPart c p = some P ∧
      k.P p = { P with index := 1, threadMain := prefixSum c.nthreads p }) ∧
    k.ps = schedInit c.toSlotTable ∧
    (∀ i < c.nbThreads, (k.T i).timeCapacity = -1 ∧ (k.T i).period = -1 ∧
      (i + c.nbProcs + 1 < c.nbThreads → (k.T i).state = .stopped ∧ (k.T i).affinity = 0)) := by
  unfold boot at h
  simp only at h
  split at h
  · simp at h
  · rename_i k1 hk1
    injection h with h
    subst h
    obtain ⟨p1, p2, p3⟩ := partitionInit_spec hth _ _ _ (Nat.le_refl _) hk1
    refine ⟨p1, rfl, ?_⟩
    intro i hi
    simp only [threadInit, hi, if_true]
    split
    · rename_i hr
      exact ⟨rfl, rfl, fun h => by omega⟩
    · exact ⟨rfl, rfl, fun _ => ⟨rfl, rfl⟩⟩

theorem boot_wf {c : Config} {k : Kernel} (hc : CfgOk c) (h : boot c = some k) : Wf c k := by
  obtain ⟨h1, h2, h3⟩ := boot_spec hc.threads h
  refine ⟨?_, ?_, ?_, ?_⟩
  · intro p hp
    obtain ⟨P, hP, he⟩ := h1 p hp
    have := hc.threads p hp
    unfold initPart at hP
    split at hP
    · simp at hP
    · rename_i mp hmp
      injection hP with hP
      subst hP
      rw [he]
      exact ⟨rfl, rfl, rfl, rfl, hmp, ⟨Nat.le_refl _, by simp only; omega⟩, Or.inl rfl, fun q _ => Or.inl rfl,
        fun q _ => Or.inl rfl, rfl⟩
  · unfold curPart; rw [h2]; exact hc.alloc 0 hc.nslots
  · intro i hi
    have := hc.room
    rw [(h3 i (by omega)).1]; decide
  · intro _ i hi
    have := hc.room
    exact ((h3 i (by omega)).2.2 (by omega)).2

/-- Boot succeeds when every partition has a processor of the system and its name of entry point is
consistent. -/
theorem boot_total {c : Config} (hth : ∀ p < c.nbParts, 0 < c.nthreads p)
    (haff : ∀ p < c.nbParts, ∃ a, procRealId (c.affinity p) 0 = some a ∧
      (if c.multi ≠ 0 then a < c.multi else a = 0)) : ∃ k, boot c = some k := by
  have key : ∀ (n : Nat) (k : Kernel), n ≤ c.nbParts → ∃ k', partitionInit c k n = some k' := by
    intro n
    induction n with
    | zero => intro k _; exact ⟨k, rfl⟩
    | succ n ih =>
      intro k hn
      obtain ⟨k1, hk1⟩ := ih k (by omega)
      obtain ⟨a, ha1, ha2⟩ := haff n (by omega)
      have := hth n (by omega)
      unfold partitionInit
      rw [hk1]
      simp only [initPart, ha1, setupMainThread, threadCreate, setP, upd_same]
      rw [if_neg (by simp), if_neg (by simp; omega)]
      rw [if_neg (not_not.2 ha2), if_neg (by simp)]
      exact ⟨_, rfl⟩
  obtain ⟨k1, hk1⟩ := key c.nbParts
    { T := fun _ => zeroThread, P := fun _ => {}, curThread := fun _ => 0, ps := ⟨0, 0, 0, 0, 0⟩ } (Nat.le_refl _)
  refine ⟨{ threadInit c k1 with ps := schedInit c.toSlotTable }, ?_⟩
  unfold boot
  simp only [hk1]

/-- A state reachable from boot by kernel entries on existing processors. -/
def Reachable (c : Config) (k : Kernel) : Prop :=
  ∃ k0 es, boot c = some k0 ∧ (∀ e ∈ es, e.proc < c.nbProcs) ∧ execAll c k0 es = some k

theorem Reachable.wf {c k} (hc : CfgOk c) (h : Reachable c k) : Wf c k := by
  obtain ⟨k0, es, hb, hq, he⟩ := h
  exact wf_execAll hc es k0 k hq (boot_wf hc hb) he

end Kernel
end Pok
