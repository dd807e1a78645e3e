import Verif.Lemmas.ErrGrid
import Verif.Lemmas.LogKernel
/-!
# The logarithm: the last steps
-/
namespace Pok.Log
open Pok.Err Pok.Float Pok.Fpu Pok.Poly Pok.Exp

/-- `F` less `D` is the logarithm of `1 + F`, nearly; `F` lies in the range of the reduced argument. -/
structure Shape (F L D : ℝ) : Prop where
  eq : L = F - D
  d0 : 0 ≤ D
  pos : 0 ≤ F → 8284 / 10 ^ 4 * F ≤ L
  neg : F ≤ 0 → -L ≤ 11834 / 10 ^ 4 * (-F)
  near : |Real.log (1 + F) - L| ≤ |F| * (4 / 100 / 2 ^ 53)
  lo : -(2929 / 10 ^ 4) ≤ F
  hi : F ≤ 41422 / 10 ^ 5

theorem finish0 {f q : Nat} {F L D : ℝ} (hf : Near f F 0) (h : Shape F L D)
    (hq : Near q D (D * (4003 / 1000 / 2 ^ 53) + |F| * (97 / 1000 / 2 ^ 53))) :
    sub f q < 2 ^ 64 ∧ IsFinite (sub f q) ∧ |(value (sub f q) : ℝ) - Real.log (1 + F)| ≤ |Real.log (1 + F)| / 2 ^ 52 := by
  obtain ⟨e, d0, pos, neg, near, lo, hi⟩ := h
  have n := abs_le.1 near
  rcases le_total 0 F with c | c
  · have pos := pos c
    rw [abs_of_nonneg c] at hq near n
    have s := hf.sub hq (m := L) (g := L * (100001 / 10 ^ 5 / 2 ^ 53) + D * (4004 / 1000 / 2 ^ 53) + F * (98 / 1000 / 2 ^ 53))
      (by rw [← e, abs_of_nonneg (by linarith)]) (by norm_num at *; linarith) (by norm_num at *; linarith)
    refine ⟨s.1, s.2.1, ?_⟩
    have a := abs_le.1 s.2.2
    rw [abs_of_nonneg (show 0 ≤ Real.log (1 + F) by norm_num at *; linarith)]
    generalize Real.log (1 + F) = Λ at *
    rw [abs_le]; constructor <;> norm_num at * <;> linarith
  · have neg := neg c
    rw [abs_of_nonpos c] at hq near n
    have s := hf.sub hq (m := -L) (g := -L * (100001 / 10 ^ 5 / 2 ^ 53) + D * (4004 / 1000 / 2 ^ 53) + -F * (98 / 1000 / 2 ^ 53))
      (by rw [← e, abs_of_nonpos (by linarith)]) (by norm_num at *; linarith) (by norm_num at *; linarith)
    refine ⟨s.1, s.2.1, ?_⟩
    have a := abs_le.1 s.2.2
    rw [abs_of_nonpos (show Real.log (1 + F) ≤ 0 by norm_num at *; linarith)]
    generalize Real.log (1 + F) = Λ at *
    rw [abs_le]; constructor <;> norm_num at * <;> linarith

/-! ## Multiples of the logarithm of 2 -/

theorem times_hi {k : Int} (kn : k.natAbs ≤ 1080) :
    mul (Libm.ofInt k) ln2_hi < 2 ^ 64 ∧ IsFinite (mul (Libm.ofInt k) ln2_hi) ∧ value (mul (Libm.ofInt k) ln2_hi) = k * ln2hq := by
  have kb : |(k : ℝ)| ≤ 1080 := by
    have : |k| ≤ 1080 := by rw [Int.abs_eq_natAbs]; exact_mod_cast kn
    exact_mod_cast this
  obtain ⟨o1, o2, o3⟩ := Libm.ofInt_value (i := k) (by omega)
  have o3' : (value (Libm.ofInt k) : ℝ) = k := by rw [o3]; norm_num
  have hq : (ln2hq : ℝ) = 2977044471 / 2 ^ 32 := by unfold ln2hq; norm_num
  have pq : ln2hq = 2977044471 / 2 ^ 32 := rfl
  have vh : ln2_hi < 2 ^ 64 ∧ IsFinite ln2_hi ∧ value ln2_hi = ln2hq := v_ln2HI
  obtain ⟨d, hd, fd, vd⟩ : ∃ d, d < 2 ^ 64 ∧ IsFinite d ∧ value d = value (Libm.ofInt k) * value ln2_hi := by
    obtain ⟨d, hd, fd, vd⟩ := double_of (a := k.natAbs * 2977044471) (b := 1042) (s := if k < 0 then 1 else 0) (by omega) (by split <;> omega) (by
      have : ((k.natAbs * 2977044471 : ℕ) : ℚ) ≤ 2 ^ 53 := by exact_mod_cast (by omega : k.natAbs * 2977044471 ≤ 2 ^ 53)
      refine le_trans (mul_le_mul_of_nonneg_right this (by positivity)) ?_
      rw [← pow_add]
      exact (fun n m (h : n ≤ m) => pow_le_pow_right₀ (by norm_num) h : ∀ n m : ℕ, n ≤ m → (2 : ℚ) ^ n ≤ 2 ^ m) _ _ (by omega))
    refine ⟨d, hd, fd, ?_⟩
    rw [vd, o3, vh.2.2, pq, show (1074 : ℕ) = 32 + 1042 by rfl, pow_add, mul_div_mul_right _ _ (by positivity)]
    have a : ((k.natAbs : ℕ) : ℚ) = |(k : ℚ)| := by rw [← Int.cast_abs, Int.abs_eq_natAbs]; rfl
    rw [Nat.cast_mul, a]
    split
    · rename_i c
      rw [abs_of_neg (by exact_mod_cast c)]; push_cast; ring
    · rename_i c
      rw [abs_of_nonneg (by exact_mod_cast not_lt.1 c)]; push_cast; ring
  obtain ⟨m1, m2, m3⟩ := mul_exact o1 vh.1 o2 vh.2.1 (by
    rw [o3', vh.2.2, abs_mul]
    refine le_trans (mul_le_mul kb (d := 1) (by rw [hq]; norm_num [abs_le]) (abs_nonneg _) (by positivity)) (by norm_num)) hd fd vd
  rw [o3, vh.2.2] at m3
  exact ⟨m1, m2, m3⟩

theorem times_lo {k : Int} (kn : k.natAbs ≤ 1080) : Nb (mul (Libm.ofInt k) ln2_lo) (k * ln2lq) (26 / 10 ^ 8 / 2 ^ 53) (25 / 10 ^ 8) ∧
    |(k : ℝ) * ln2hq + k * ln2lq - k * Real.log 2| ≤ 11 / 10 ^ 23 := by
  have kb : |(k : ℝ)| ≤ 1080 := by
    have : |k| ≤ 1080 := by rw [Int.abs_eq_natAbs]; exact_mod_cast kn
    exact_mod_cast this
  obtain ⟨o1, o2, o3⟩ := Libm.ofInt_value (i := k) (by omega)
  have o3' : (value (Libm.ofInt k) : ℝ) = k := by rw [o3]; norm_num
  have lq : (ln2lq : ℝ) = 3691024475790907 / 2 ^ 84 := by unfold ln2lq; norm_num
  have vl : ln2_lo < 2 ^ 64 ∧ IsFinite ln2_lo ∧ value ln2_lo = ln2lq := v_ln2LO
  have kl : |(k : ℝ) * ln2lq| ≤ 25 / 10 ^ 8 := by
    rw [abs_mul]; refine le_trans (mul_le_mul kb (d := 2 / 10 ^ 10) (by rw [lq]; norm_num [abs_le]) (abs_nonneg _) (by positivity)) (by norm_num)
  have p := mul_err o1 vl.1 o2 vl.2.1 (by rw [o3', vl.2.2]; refine le_trans kl (by norm_num))
  rw [o3', vl.2.2] at p
  refine ⟨⟨p.weaken (by norm_num at *; linarith), kl⟩, ?_⟩
  rw [show (k : ℝ) * ln2hq + k * ln2lq - k * Real.log 2 = k * (((ln2hq : ℝ) + ln2lq) - Real.log 2) by ring, abs_mul]
  refine le_trans (mul_le_mul kb ln2_split (abs_nonneg _) (by positivity)) (by norm_num)

/-- A multiple of the first part of the logarithm of 2, less a double. -/
theorem give_away {x m : Nat} {k : Int} (hx : x < 2 ^ 64) (fx : IsFinite x) (x0 : 1 / 4 ≤ |value x|) (hm : m < 2 ^ 64) (fm : IsFinite m)
    (vm : value m = k * ln2hq) (hs : |(k : ℝ) * ln2hq - value x| ≤ 1 / 2) :
    sub m x < 2 ^ 64 ∧ IsFinite (sub m x) ∧ (value (sub m x) : ℝ) = k * ln2hq - value x := by
  obtain ⟨A, hA⟩ := grid54 hx x0
  have pq : ln2hq = 2977044471 / 2 ^ 32 := rfl
  have hs' : |k * ln2hq - value x| ≤ 1 / 2 := by
    have : ((|k * ln2hq - value x| : ℚ) : ℝ) ≤ ((1 / 2 : ℚ) : ℝ) := by push_cast; exact hs
    exact_mod_cast this
  obtain ⟨e, he, fe, ve⟩ := grid54_exact (D := k * 2977044471 * 2 ^ 22 - A) (by
    rw [hA, pq] at hs'
    have : |((k * 2977044471 * 2 ^ 22 - A : ℤ) : ℚ)| ≤ 2 ^ 53 := by
      rw [show k * (2977044471 / 2 ^ 32) - (A : ℚ) / 2 ^ 54 = ((k * 2977044471 * 2 ^ 22 - A : ℤ) : ℚ) / 2 ^ 54 by push_cast; ring, abs_div,
        div_le_iff₀ (by positivity)] at hs'
      rw [abs_of_pos (show (0 : ℚ) < 2 ^ 54 by positivity)] at hs'
      refine le_trans hs' (by norm_num)
    exact_mod_cast this)
  obtain ⟨r1, r2, r3⟩ := Trig.sub_exact hm hx fm fx (by
    rw [vm]; push_cast; refine le_trans hs (by norm_num)) he fe (by rw [ve, vm, hA, pq]; push_cast; ring)
  refine ⟨r1, r2, ?_⟩
  rw [r3, vm]; push_cast; rfl

/-! ## The logarithm with a multiple of the logarithm of 2 -/

set_option maxHeartbeats 1000000 in
/-- Everything but the cases where most of the logarithm of 2 is taken away again. -/
theorem finish_far {f t : Nat} {F L D : ℝ} {k : Int} (kn : k.natAbs ≤ 1080) (hf : Near f F 0) (h : Shape F L D)
    (ht : Near t (D - k * ln2lq) (D * (5004 / 1000 / 2 ^ 53) + |F| * (97 / 1000 / 2 ^ 53) + 1 / 10 ^ 6 / 2 ^ 53))
    (hk : (2 ≤ k ∨ k ≤ -2) ∨ (k = 1 ∧ 0 ≤ F) ∨ (k = -1 ∧ F ≤ 0)) :
    sub (mul (Libm.ofInt k) ln2_hi) (sub t f) < 2 ^ 64 ∧ IsFinite (sub (mul (Libm.ofInt k) ln2_hi) (sub t f)) ∧
    |(value (sub (mul (Libm.ofInt k) ln2_hi) (sub t f)) : ℝ) - (k * Real.log 2 + Real.log (1 + F))| ≤ |k * Real.log 2 + Real.log (1 + F)| / 2 ^ 52 := by
  obtain ⟨e, d0, pos, neg, near, lo, hi⟩ := h
  obtain ⟨m1, m2, m3⟩ := times_hi kn
  obtain ⟨⟨l1, l2⟩, l3⟩ := times_lo kn
  have hm : Near (mul (Libm.ofInt k) ln2_hi) (k * ln2hq) 0 := ⟨m1, m2, by rw [m3]; push_cast; simp⟩
  clear l1 m1 m2 m3
  have l2 := abs_le.1 l2
  have l3 := abs_le.1 l3
  have n := abs_le.1 near
  have b := ln2_b
  generalize Real.log (1 + F) = Λ at *
  generalize (k : ℝ) * ln2lq = K at *
  generalize (k : ℝ) * ln2hq = H at *
  obtain ⟨κ, hκ⟩ : ∃ κ, κ = (k : ℝ) * Real.log 2 := ⟨_, rfl⟩
  have hs : (1386 / 1000 ≤ κ ∨ κ ≤ -(1386 / 1000)) ∨ (693 / 1000 ≤ κ ∧ 0 ≤ F) ∨ (κ ≤ -(693 / 1000) ∧ F ≤ 0) := by
    rcases hk with (c | c) | ⟨c, c'⟩ | ⟨c, c'⟩
    · left; left; rw [hκ]
      have c : (2 : ℝ) ≤ k := by exact_mod_cast c
      have := mul_le_mul_of_nonneg_right c (show 0 ≤ Real.log 2 by norm_num at *; linarith)
      norm_num at *; linarith
    · left; right; rw [hκ]
      have c : (k : ℝ) ≤ -2 := by exact_mod_cast c
      have := mul_le_mul_of_nonneg_right c (show 0 ≤ Real.log 2 by norm_num at *; linarith)
      norm_num at *; linarith
    · right; left; rw [hκ, c]; refine ⟨?_, c'⟩; push_cast; norm_num at *; linarith
    · right; right; rw [hκ, c]; refine ⟨?_, c'⟩; push_cast; norm_num at *; linarith
  rw [← hκ] at l3 ⊢
  have kB : |κ| ≤ 750 := by
    have : |(k : ℝ)| ≤ 1080 := by
      have : |k| ≤ 1080 := by rw [Int.abs_eq_natAbs]; exact_mod_cast kn
      exact_mod_cast this
    rw [hκ, abs_mul]
    refine le_trans (mul_le_mul this (d := 69315 / 100000) (by rw [abs_of_nonneg (by norm_num at *; linarith)]; norm_num at *; linarith) (abs_nonneg _) (by norm_num)) (by norm_num)
  have kB := abs_le.1 kB
  clear hκ hk b
  rcases le_total 0 F with c | c
  · have pos := pos c
    rw [abs_of_nonneg c] at ht near n
    have y := ht.sub hf (m := L + 25 / 10 ^ 8) (g := L * (100001 / 10 ^ 5 / 2 ^ 53) + D * (5005 / 1000 / 2 ^ 53) + F * (98 / 1000 / 2 ^ 53) + 2 / 10 ^ 6 / 2 ^ 53)
      (by rw [abs_le]; constructor <;> norm_num at * <;> linarith) (by norm_num at *; linarith) (by norm_num at *; linarith)
    rcases le_total 0 κ with c' | c'
    · have r := hm.sub y (m := κ + L + 1 / 10 ^ 20)
        (g := (κ + L) * (100001 / 10 ^ 5 / 2 ^ 53) + L * (100002 / 10 ^ 5 / 2 ^ 53) + D * (5006 / 1000 / 2 ^ 53) + F * (99 / 1000 / 2 ^ 53) + 3 / 10 ^ 6 / 2 ^ 53)
        (by rw [abs_le]; constructor <;> norm_num at * <;> linarith) (by norm_num at *; linarith) (by norm_num at *; linarith)
      refine ⟨r.1, r.2.1, ?_⟩
      have a := abs_le.1 r.2.2
      have hκ : 693 / 1000 ≤ κ := by norm_num at *; rcases hs with (s | s) | s | s <;> linarith
      clear hs
      rw [abs_of_nonneg (show 0 ≤ κ + Λ by norm_num at *; linarith)]
      rw [abs_le]; constructor <;> norm_num at * <;> linarith
    · have hκ : κ ≤ -(1386 / 1000) ∨ F = 0 := by
        rcases hs with (s | s) | s | s
        · norm_num at *; linarith
        · left; exact s
        · norm_num at *; linarith
        · right; linarith [s.2]
      have hκ' : κ ≤ -(693 / 1000) := by norm_num at *; rcases hs with (s | s) | s | s <;> linarith
      clear hs
      have r := hm.sub y (m := -κ - L + 1 / 10 ^ 20)
        (g := (-κ - L) * (100001 / 10 ^ 5 / 2 ^ 53) + L * (100002 / 10 ^ 5 / 2 ^ 53) + D * (5006 / 1000 / 2 ^ 53) + F * (99 / 1000 / 2 ^ 53) + 3 / 10 ^ 6 / 2 ^ 53)
        (by rw [abs_le]; constructor <;> norm_num at * <;> linarith) (by norm_num at *; linarith) (by norm_num at *; linarith)
      refine ⟨r.1, r.2.1, ?_⟩
      have a := abs_le.1 r.2.2
      rw [abs_of_nonpos (show κ + Λ ≤ 0 by norm_num at *; linarith)]
      rcases hκ with hκ | hκ
      · rw [abs_le]; constructor <;> norm_num at * <;> linarith
      · rw [abs_le]; constructor <;> norm_num at * <;> linarith
  · have neg := neg c
    rw [abs_of_nonpos c] at ht near n
    have y := ht.sub hf (m := -L + 25 / 10 ^ 8) (g := -L * (100001 / 10 ^ 5 / 2 ^ 53) + D * (5005 / 1000 / 2 ^ 53) + -F * (98 / 1000 / 2 ^ 53) + 2 / 10 ^ 6 / 2 ^ 53)
      (by rw [abs_le]; constructor <;> norm_num at * <;> linarith) (by norm_num at *; linarith) (by norm_num at *; linarith)
    rcases le_total 0 κ with c' | c'
    · have hκ : 1386 / 1000 ≤ κ ∨ F = 0 := by
        rcases hs with (s | s) | s | s
        · left; exact s
        · norm_num at *; linarith
        · right; linarith [s.2]
        · norm_num at *; linarith
      have hκ' : 693 / 1000 ≤ κ := by norm_num at *; rcases hs with (s | s) | s | s <;> linarith
      clear hs
      have r := hm.sub y (m := κ + L + 1 / 10 ^ 20)
        (g := (κ + L) * (100001 / 10 ^ 5 / 2 ^ 53) + -L * (100002 / 10 ^ 5 / 2 ^ 53) + D * (5006 / 1000 / 2 ^ 53) + -F * (99 / 1000 / 2 ^ 53) + 3 / 10 ^ 6 / 2 ^ 53)
        (by rw [abs_le]; constructor <;> norm_num at * <;> linarith) (by norm_num at *; linarith) (by norm_num at *; linarith)
      refine ⟨r.1, r.2.1, ?_⟩
      have a := abs_le.1 r.2.2
      rw [abs_of_nonneg (show 0 ≤ κ + Λ by norm_num at *; linarith)]
      rcases hκ with hκ | hκ
      · rw [abs_le]; constructor <;> norm_num at * <;> linarith
      · rw [abs_le]; constructor <;> norm_num at * <;> linarith
    · have hκ' : κ ≤ -(693 / 1000) := by norm_num at *; rcases hs with (s | s) | s | s <;> linarith
      clear hs
      have r := hm.sub y (m := -κ - L + 1 / 10 ^ 20)
        (g := (-κ - L) * (100001 / 10 ^ 5 / 2 ^ 53) + -L * (100002 / 10 ^ 5 / 2 ^ 53) + D * (5006 / 1000 / 2 ^ 53) + -F * (99 / 1000 / 2 ^ 53) + 3 / 10 ^ 6 / 2 ^ 53)
        (by rw [abs_le]; constructor <;> norm_num at * <;> linarith) (by norm_num at *; linarith) (by norm_num at *; linarith)
      refine ⟨r.1, r.2.1, ?_⟩
      have a := abs_le.1 r.2.2
      rw [abs_of_nonpos (show κ + Λ ≤ 0 by norm_num at *; linarith)]
      rw [abs_le]; constructor <;> norm_num at * <;> linarith

set_option maxHeartbeats 1000000 in
/-- One half or two. -/
theorem finish_close {f t : Nat} {F L D : ℝ} {k : Int} (hf : Near f F 0) (h : Shape F L D)
    (ht : Near t (D - k * ln2lq) (D * (5004 / 1000 / 2 ^ 53) + |F| * (97 / 1000 / 2 ^ 53) + 1 / 10 ^ 6 / 2 ^ 53))
    (hk : (k = 1 ∧ F ≤ 0) ∨ (k = -1 ∧ 0 ≤ F)) :
    sub (mul (Libm.ofInt k) ln2_hi) (sub t f) < 2 ^ 64 ∧ IsFinite (sub (mul (Libm.ofInt k) ln2_hi) (sub t f)) ∧
    |(value (sub (mul (Libm.ofInt k) ln2_hi) (sub t f)) : ℝ) - (k * Real.log 2 + Real.log (1 + F))| ≤ |k * Real.log 2 + Real.log (1 + F)| / 2 ^ 52 := by
  have kn : k.natAbs ≤ 1080 := by omega
  obtain ⟨e, d0, pos, neg, near, lo, hi⟩ := h
  obtain ⟨m1, m2, m3⟩ := times_hi kn
  obtain ⟨⟨l1, l2⟩, l3⟩ := times_lo kn
  have hm : Near (mul (Libm.ofInt k) ln2_hi) (k * ln2hq) 0 := ⟨m1, m2, by rw [m3]; push_cast; simp⟩
  have away := fun (x : Nat) hx fx x0 => give_away (x := x) hx fx x0 m1 m2 m3
  clear l1 m1 m2 m3
  have l2 := abs_le.1 l2
  have l3 := abs_le.1 l3
  have n := abs_le.1 near
  have b := ln2_b
  generalize Real.log (1 + F) = Λ at *
  generalize (k : ℝ) * ln2lq = K at *
  have t1 := abs_le.1 ht.2.2
  have f1 := abs_le.1 hf.2.2
  have fv : (value f : ℝ) = F := by linarith [f1.1, f1.2]
  rcases hk with ⟨k1, c⟩ | ⟨k1, c⟩
  · have neg := neg c
    rw [abs_of_nonpos c] at t1 near n ht
    have g := sub_grid ht.1 hf.1 ht.2.1 hf.2.1 (by rw [fv, abs_le]; constructor <;> norm_num at * <;> linarith)
    generalize sub t f = y at *
    obtain ⟨g1, g2, g3, g4, g5⟩ := g
    rw [k1] at l3 hm away ⊢
    push_cast at l3 hm away ⊢
    simp only [one_mul] at l3 hm away ⊢
    generalize Real.log 2 = κ at *
    generalize (ln2hq : ℝ) = H at *
    rw [fv] at g3 g4 g5
    rcases le_total |(value t : ℝ) - F| (1 / 4) with q | q
    · have g3 := abs_le.1 (g3 q)
      have q := abs_le.1 q
      have hy : Near y (D - K - F) (D * (5004 / 1000 / 2 ^ 53) + -F * (97 / 1000 / 2 ^ 53) + 1 / 10 ^ 6 / 2 ^ 53 + 1 / 8 / 2 ^ 53) :=
        ⟨g1, g2, by rw [abs_le]; constructor <;> norm_num at * <;> linarith⟩
      have r := hm.sub hy (m := κ + L + 1 / 10 ^ 20)
        (g := (κ + L) * (100001 / 10 ^ 5 / 2 ^ 53) + D * (5005 / 1000 / 2 ^ 53) + -F * (99 / 1000 / 2 ^ 53) + 2 / 10 ^ 6 / 2 ^ 53 + 1 / 8 / 2 ^ 53)
        (by rw [abs_le]; constructor <;> norm_num at * <;> linarith) (by norm_num at *; linarith) (by norm_num at *; linarith)
      refine ⟨r.1, r.2.1, ?_⟩
      have a := abs_le.1 r.2.2
      rw [abs_of_nonneg (show 0 ≤ κ + Λ by norm_num at *; linarith)]
      clear away hm hf hy ht r
      rw [abs_le]; constructor <;> norm_num at * <;> linarith
    · have g5 := g5 q
      have g4 := abs_le.1 (g4 (by rw [abs_le]; constructor <;> norm_num at * <;> linarith))
      have q' : 1 / 4 ≤ (value t : ℝ) - F := by
        rcases le_abs.1 q with q | q
        · exact q
        · norm_num at *; linarith
      obtain ⟨r1, r2, r3⟩ := away y g1 g2 g5 (by rw [abs_le]; constructor <;> norm_num at * <;> linarith)
      refine ⟨r1, r2, ?_⟩
      rw [r3, abs_of_nonneg (show 0 ≤ κ + Λ by norm_num at *; linarith)]
      clear away hm hf ht q
      rw [abs_le]; constructor <;> norm_num at * <;> linarith
  · have pos := pos c
    rw [abs_of_nonneg c] at t1 near n ht
    have g := sub_grid ht.1 hf.1 ht.2.1 hf.2.1 (by rw [fv, abs_le]; constructor <;> norm_num at * <;> linarith)
    generalize sub t f = y at *
    obtain ⟨g1, g2, g3, g4, g5⟩ := g
    rw [k1] at l3 hm away ⊢
    push_cast at l3 hm away ⊢
    simp only [neg_one_mul] at l3 hm away ⊢
    generalize Real.log 2 = κ at *
    generalize (ln2hq : ℝ) = H at *
    rw [fv] at g3 g4 g5
    rcases le_total |(value t : ℝ) - F| (1 / 4) with q | q
    · have g3 := abs_le.1 (g3 q)
      have q := abs_le.1 q
      have hy : Near y (D - K - F) (D * (5004 / 1000 / 2 ^ 53) + F * (97 / 1000 / 2 ^ 53) + 1 / 10 ^ 6 / 2 ^ 53 + 1 / 8 / 2 ^ 53) :=
        ⟨g1, g2, by rw [abs_le]; constructor <;> norm_num at * <;> linarith⟩
      have r := hm.sub hy (m := κ - L + 1 / 10 ^ 20)
        (g := (κ - L) * (100001 / 10 ^ 5 / 2 ^ 53) + D * (5005 / 1000 / 2 ^ 53) + F * (99 / 1000 / 2 ^ 53) + 2 / 10 ^ 6 / 2 ^ 53 + 1 / 8 / 2 ^ 53)
        (by rw [abs_le]; constructor <;> norm_num at * <;> linarith) (by norm_num at *; linarith) (by norm_num at *; linarith)
      refine ⟨r.1, r.2.1, ?_⟩
      have a := abs_le.1 r.2.2
      rw [abs_of_nonpos (show -κ + Λ ≤ 0 by norm_num at *; linarith)]
      clear away hm hf hy ht r
      rw [abs_le]; constructor <;> norm_num at * <;> linarith
    · have g5 := g5 q
      have g4 := abs_le.1 (g4 (by rw [abs_le]; constructor <;> norm_num at * <;> linarith))
      have q' : (value t : ℝ) - F ≤ -(1 / 4) := by
        rcases le_abs.1 q with q | q
        · norm_num at *; linarith
        · linarith
      obtain ⟨r1, r2, r3⟩ := away y g1 g2 g5 (by rw [abs_le]; constructor <;> norm_num at * <;> linarith)
      refine ⟨r1, r2, ?_⟩
      rw [r3, abs_of_nonpos (show -κ + Λ ≤ 0 by norm_num at *; linarith)]
      clear away hm hf ht q
      rw [abs_le]; constructor <;> norm_num at * <;> linarith

end Pok.Log
