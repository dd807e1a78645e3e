import Verif.Lemmas.LogFinish
/-!
# The logarithm of a reduced argument
-/
namespace Pok.Log
open Pok.Err Pok.Float Pok.Fpu Pok.Poly Pok.Exp

theorem pol_nonneg {Z : ℝ} (h : 0 ≤ Z) : 0 ≤ pol Z := by
  unfold pol Lg1q Lg2q Lg3q Lg4q Lg5q Lg6q Lg7q
  push_cast
  positivity

/-- What is known of the quotient and the polynomial. -/
theorem shape {F S P : ℝ} (lo : -(2929 / 10 ^ 4) ≤ F) (hi : F ≤ 41422 / 10 ^ 5) (hS : S = F / (2 + F)) (hP : P = pol (S * S)) (p1 : P ≤ S * S * (6788 / 10 ^ 4)) :
    Shape F (F - S * (F - P)) (S * (F - P)) ∧ |S| ≤ 17158 / 100000 ∧ |S| ≤ |F| * (58582 / 100000) ∧ |F| * (4142 / 10000) ≤ |S| ∧
    |S| * |F - P| = S * (F - P) ∧ 0 ≤ P := by
  have d : 0 < 2 + F := by norm_num at *; linarith
  have e : S * (2 + F) = F := by rw [hS]; field_simp
  have a1 : |S| ≤ 17158 / 100000 := by
    rw [hS, abs_div, abs_of_pos d, div_le_iff₀ d, abs_le]; constructor <;> norm_num at * <;> linarith
  have z0 := mul_self_nonneg S
  have p0 : 0 ≤ P := by rw [hP]; exact pol_nonneg z0
  have pn := pol_near a1
  rw [← hP] at pn
  have lg : Real.log (1 + S) - Real.log (1 - S) = Real.log (1 + F) := by
    have s1 := abs_le.1 a1
    rw [← Real.log_div (by norm_num at *; linarith) (by norm_num at *; linarith)]
    congr 1
    rw [div_eq_iff (by norm_num at *; linarith)]
    linarith
  rw [lg] at pn
  have eL : F - S * (F - P) = S * (2 + P) := by linarith
  have zz : S * S ≤ 2945 / 100000 := by
    rw [← abs_mul_abs_self S]
    exact le_trans (mul_le_mul a1 a1 (abs_nonneg _) (by norm_num)) (by norm_num)
  rcases le_total 0 F with c | c
  · have s0 : 0 ≤ S := by rw [hS]; positivity
    rw [abs_of_nonneg s0] at a1 pn ⊢
    rw [abs_of_nonneg c]
    have q1 := mul_le_mul_of_nonneg_left hi c
    have a2 : S ≤ F * (1 / 2) := by
      have := mul_nonneg s0 c; linarith
    have a3 : F * (4142111 / 10000000) ≤ S := by
      rw [hS, le_div_iff₀ d]; norm_num at *; linarith
    have q2 := mul_le_mul_of_nonneg_left a1 s0
    have fp : 0 ≤ F - P := by norm_num at *; linarith
    refine ⟨⟨rfl, mul_nonneg s0 fp, fun _ => ?_, fun c' => ?_, ?_, lo, hi⟩, a1, by norm_num at *; linarith, by norm_num at *; linarith, by rw [abs_of_nonneg fp], p0⟩
    · rw [eL]
      have := mul_nonneg s0 p0
      norm_num at *; linarith
    · have : F = 0 := le_antisymm c' c
      rw [this] at a2
      have : S = 0 := by linarith
      rw [eL, this]; norm_num at *; linarith
    · rw [eL, abs_of_nonneg c]; norm_num at *; linarith
  · have s0 : S ≤ 0 := by rw [hS]; exact div_nonpos_of_nonpos_of_nonneg c d.le
    rw [abs_of_nonpos s0] at a1 pn ⊢
    rw [abs_of_nonpos c]
    have q1 := mul_le_mul_of_nonneg_left lo (neg_nonneg.2 c)
    have a2 : -S ≤ -F * (58580 / 100000) := by
      rw [hS, ← neg_div, div_le_iff₀ d]; norm_num at *; linarith
    have a3 : -F * (1 / 2) ≤ -S := by
      have := mul_nonneg_of_nonpos_of_nonpos s0 c; linarith
    have fp : F - P ≤ 0 := by linarith
    refine ⟨⟨rfl, mul_nonneg_of_nonpos_of_nonpos s0 fp, fun c' => ?_, fun _ => ?_, ?_, lo, hi⟩, a1, by norm_num at *; linarith, by norm_num at *; linarith, by rw [abs_of_nonpos fp]; ring, p0⟩
    · have : F = 0 := le_antisymm c c'
      rw [this] at a2
      have : S = 0 := by linarith
      rw [eL, this]; norm_num at *; linarith
    · rw [eL]
      have q3 : P ≤ 2 / 100 := by norm_num at *; linarith
      have q4 := mul_le_mul_of_nonneg_left q3 (neg_nonneg.2 s0)
      norm_num at *; linarith
    · rw [eL, abs_of_nonpos c]; norm_num at *; linarith

/-- The quotient. -/
theorem quot {f : Nat} {F S : ℝ} (hf : Near f F 0) (h0 : 1 / 2 ^ 20 ≤ |F|) (lo : -(2929 / 10 ^ 4) ≤ F) (hi : F ≤ 41422 / 10 ^ 5) (hS : S = F / (2 + F)) :
    Near (div f (add two f)) S (|S| * (2002 / 1000 / 2 ^ 53)) ∧ 1 / 2 ^ 22 ≤ |S| ∧ |S| ≤ 17158 / 100000 := by
  have d : 0 < 2 + F := by norm_num at *; linarith
  have a1 : |S| ≤ 17158 / 100000 := by
    rw [hS, abs_div, abs_of_pos d, div_le_iff₀ d, abs_le]; constructor <;> norm_num at * <;> linarith
  have a0 : 1 / 2 ^ 22 ≤ |S| := by
    rw [hS, abs_div, abs_of_pos d, le_div_iff₀ d]; norm_num at *; linarith
  have tw : (twoq : ℝ) = 2 := by unfold twoq; norm_num
  have n2 := n_two.1
  rw [tw] at n2
  have hd := n2.add hf (m := 2 + F) (g := (2 + F) * (1 / 2 ^ 53)) (by rw [abs_of_pos d]) (by norm_num at *; linarith) (by norm_num at *; linarith)
  refine ⟨?_, a0, a1⟩
  have q := hf.div hd (l := 2 + F) (q := |S|) (d := |S| * (10001 / 10000 / 2 ^ 53)) (g := |S| * (2002 / 1000 / 2 ^ 53)) (by rw [abs_of_pos d])
    (by norm_num at *; linarith) (by rw [hS]) (by
      have := mul_nonneg (abs_nonneg S) d.le
      rw [zero_add, show |S| * ((2 + F) * (1 / 2 ^ 53)) = |S| * (2 + F) * (1 / 2 ^ 53) by ring,
        show |S| * (10001 / 10000 / 2 ^ 53) * (2 + F - (2 + F) * (1 / 2 ^ 53)) = |S| * (2 + F) * (10001 / 10000 / 2 ^ 53 * (1 - 1 / 2 ^ 53)) by ring]
      exact mul_le_mul_of_nonneg_left (by norm_num) this) (by
      generalize |S| = A at *
      norm_num at a0 ⊢; linarith) (by
      generalize |S| = A at *
      norm_num at a1 ⊢; linarith)
  rw [← hS] at q
  exact q

/-- With the product of the quotient. -/
theorem branch1 {f : Nat} {F : ℝ} (hf : Near f F 0) (h0 : 1 / 2 ^ 20 ≤ |F|) (lo : -(2929 / 10 ^ 4) ≤ F) (hi : F ≤ 41422 / 10 ^ 5) :
    ∃ D L, Shape F L D ∧ Near (mul (div f (add two f)) (sub f (tail (div f (add two f))))) D (D * (4003 / 1000 / 2 ^ 53) + |F| * (965 / 10000 / 2 ^ 53)) := by
  obtain ⟨S, hS⟩ : ∃ S, S = F / (2 + F) := ⟨_, rfl⟩
  obtain ⟨q, a0, a1⟩ := quot hf h0 lo hi hS
  generalize div f (add two f) = s at *
  have t := tail_near q rfl a0 a1
  obtain ⟨P, hP⟩ : ∃ P, P = pol (S * S) := ⟨_, rfl⟩
  rw [← hP] at t
  have ss : |S| * |S| = S * S := abs_mul_abs_self S
  obtain ⟨sh, -, a2, a3, ad, p0⟩ := shape lo hi hS hP (by
    have := le_trans (le_abs_self _) t.2
    rw [ss] at this
    linarith)
  refine ⟨S * (F - P), _, sh, ?_⟩
  have d0 := sh.d0
  generalize hD : S * (F - P) = D at *
  generalize hA : |S| = A at *
  obtain ⟨B, hB⟩ : ∃ B, B = A * A := ⟨_, rfl⟩
  rw [← hB] at t
  have B1 : B ≤ A * (17158 / 100000) := by rw [hB]; exact mul_le_mul_of_nonneg_left a1 (by norm_num at *; linarith)
  have B0 : 0 ≤ B := by rw [hB]; exact mul_self_nonneg A
  obtain ⟨G, hG⟩ : ∃ G, G = |F - P| := ⟨_, rfl⟩
  rw [← hG] at ad
  have g0 : 0 ≤ G := by rw [hG]; exact abs_nonneg _
  have r := hf.sub t.1 (m := G) (g := G * (100001 / 10 ^ 5 / 2 ^ 53) + B * (5519 / 1000 / 2 ^ 53)) hG.ge (by norm_num at *; linarith) (by
    have : G ≤ 1 := by
      rw [hG]
      have := abs_le.1 t.2
      rw [abs_le]; constructor <;> norm_num at * <;> linarith
    norm_num at *; linarith)
  have m := q.mul r (m := A) (n := G) (g := D * (4003 / 1000 / 2 ^ 53) + |F| * (965 / 10000 / 2 ^ 53)) hA.le hG.ge (by
    have AB : A * B ≤ A * (2945 / 100000) := mul_le_mul_of_nonneg_left (by norm_num at *; linarith) (by norm_num at *; linarith)
    have AB0 : 0 ≤ A * B := mul_nonneg (by norm_num at *; linarith) B0
    have e : A * (2002 / 1000 / 2 ^ 53) * G + (G * (100001 / 10 ^ 5 / 2 ^ 53) + B * (5519 / 1000 / 2 ^ 53)) * A + A * (2002 / 1000 / 2 ^ 53) * (G * (100001 / 10 ^ 5 / 2 ^ 53) + B * (5519 / 1000 / 2 ^ 53))
      = D * (2002 / 1000 / 2 ^ 53 + (1 + 2002 / 1000 / 2 ^ 53) * (100001 / 10 ^ 5 / 2 ^ 53)) + A * B * ((1 + 2002 / 1000 / 2 ^ 53) * (5519 / 1000 / 2 ^ 53)) := by
        rw [← ad]; ring
    rw [e, ad]
    clear e hf q t r sh
    norm_num at *; linarith) (by
    have AB : A * B ≤ A * (2945 / 100000) := mul_le_mul_of_nonneg_left (by norm_num at *; linarith) (by norm_num at *; linarith)
    have g1 : G ≤ 1 := by
      rw [hG]
      have := abs_le.1 t.2
      rw [abs_le]; constructor <;> norm_num at * <;> linarith
    have AG : A * G ≤ A * 1 := mul_le_mul_of_nonneg_left g1 (by norm_num at *; linarith)
    have AB0 : 0 ≤ A * B := mul_nonneg (by norm_num at *; linarith) B0
    have e : A * (2002 / 1000 / 2 ^ 53) * G + (G * (100001 / 10 ^ 5 / 2 ^ 53) + B * (5519 / 1000 / 2 ^ 53)) * A + A * (2002 / 1000 / 2 ^ 53) * (G * (100001 / 10 ^ 5 / 2 ^ 53) + B * (5519 / 1000 / 2 ^ 53))
      = A * G * (2002 / 1000 / 2 ^ 53 + (1 + 2002 / 1000 / 2 ^ 53) * (100001 / 10 ^ 5 / 2 ^ 53)) + A * B * ((1 + 2002 / 1000 / 2 ^ 53) * (5519 / 1000 / 2 ^ 53)) := by
        ring
    rw [e]
    clear e hf q t r sh ad
    norm_num at *; linarith)
  rw [hD] at m
  exact m


/-- With half of the square, positive. -/
theorem branch2 {f : Nat} {F : ℝ} (hf : Near f F 0) (lo : -(2929 / 10 ^ 4) ≤ F) (hi : F ≤ 41422 / 10 ^ 5) (hc : 3799 / 10 ^ 4 ≤ F) :
    ∃ D L, Shape F L D ∧
      Near (sub (mul (mul half f) f) (mul (div f (add two f)) (add (mul (mul half f) f) (tail (div f (add two f)))))) D
        (D * (4003 / 1000 / 2 ^ 53) + |F| * (965 / 10000 / 2 ^ 53)) ∧
      ∀ (k : Int), k.natAbs ≤ 1080 → Near (sub (mul (mul half f) f) (add (mul (div f (add two f)) (add (mul (mul half f) f) (tail (div f (add two f))))) (mul (Libm.ofInt k) ln2_lo)))
        (D - k * ln2lq) (D * (5004 / 1000 / 2 ^ 53) + |F| * (97 / 1000 / 2 ^ 53) + 1 / 10 ^ 6 / 2 ^ 53) := by
  obtain ⟨S, hS⟩ : ∃ S, S = F / (2 + F) := ⟨_, rfl⟩
  have F0 : (3799 / 10 ^ 4) ≤ |F| := by rw [abs_of_nonneg (by norm_num at *; linarith)]; exact hc
  have F1 : |F| ≤ (41422 / 10 ^ 5) := by rw [abs_le]; constructor <;> norm_num at * <;> linarith
  obtain ⟨q, a0, a1⟩ := quot hf (le_trans (by norm_num) F0) lo hi hS
  generalize div f (add two f) = s at *
  have t := tail_near q rfl a0 a1
  obtain ⟨P, hP⟩ : ∃ P, P = pol (S * S) := ⟨_, rfl⟩
  rw [← hP] at t
  have ss : |S| * |S| = S * S := abs_mul_abs_self S
  have p1 : P ≤ S * S * (6788 / 10 ^ 4) := by
    have := le_trans (le_abs_self _) t.2
    rw [ss] at this
    linarith
  obtain ⟨sh, -, a2, a3, ad, p0⟩ := shape lo hi hS hP p1
  have d : 0 < 2 + F := by norm_num at *; linarith
  have eF : S * (2 + F) = F := by rw [hS]; field_simp
  -- the quotient and its square, compared with the number
  have b1 : |S| * |S| ≤ |F| * (7210 / 10 ^ 5) := by
    have : |S| ≤ |F| * (42019 / 10 ^ 5) := by
      rw [hS, abs_div, abs_of_pos d, div_le_iff₀ d]
      have := mul_le_mul_of_nonneg_left hc (abs_nonneg F)
      norm_num at *; linarith
    have := mul_le_mul this a1 (abs_nonneg _) (by positivity)
    refine le_trans this ?_
    have := abs_nonneg F
    generalize |F| = M at *
    norm_num at *; linarith
  have dl : |F| * (15110 / 10 ^ 5) ≤ S * (F - P) := by
    rw [← ad]
    have s1 : (15962 / 10 ^ 5) ≤ |S| := by
      rw [hS, abs_div, abs_of_pos d, le_div_iff₀ d]
      rw [abs_of_nonneg (by norm_num at *; linarith)]
      norm_num at *; linarith
    have s2 : |F| * (94700 / 10 ^ 5) ≤ |F - P| := by
      rw [ss] at b1
      rw [abs_of_nonneg (show 0 ≤ F by norm_num at *; linarith)] at *
      refine le_trans ?_ (le_abs_self _)
      have zz : S * S ≤ 2945 / 100000 := by rw [← ss]; exact le_trans (mul_le_mul a1 a1 (abs_nonneg _) (by norm_num)) (by norm_num)
      norm_num at *; linarith
    have := mul_le_mul s1 s2 (by positivity) (abs_nonneg _)
    refine le_trans ?_ this
    have := abs_nonneg F
    generalize |F| = M at *
    norm_num at *; linarith
  have eD : 1 / 2 * F * F - S * (1 / 2 * F * F + P) = S * (F - P) := by
    have : S * (F * F) = F * F - 2 * (S * F) := by
      have : S * (2 + F) * F = F * F := by rw [eF]
      linarith
    linarith
  refine ⟨S * (F - P), _, sh, ?_⟩
  have d0 := sh.d0
  have d1 : S * (F - P) ≤ 1 := by
    have := abs_le.1 a1
    rw [← ad]
    have : |F - P| ≤ 1 := by
      have := abs_le.1 t.2
      have := le_trans (mul_le_mul a1 a1 (abs_nonneg _) (by norm_num)) (show (17158 / 100000 : ℝ) * (17158 / 100000) ≤ 3 / 100 by norm_num)
      rw [abs_le]; constructor <;> norm_num at * <;> linarith
    exact le_trans (mul_le_mul a1 this (abs_nonneg _) (by norm_num)) (by norm_num)
  have n1 := Nb.half (⟨hf, le_rfl⟩ : Nb f F 0 |F|) (by generalize |F| = M at *; norm_num at F1 ⊢; linarith)
  have n1 : Nb (mul half f) (1 / 2 * F) (0 / 2 + 1 / 2 ^ 199) (|F| / 2) := n1
  have hs : Nb s S (34351 / 10 ^ 5 / 2 ^ 53) (17158 / 100000) := by
    refine ⟨q.weaken ?_, a1⟩
    generalize |S| = A at *
    norm_num at a1 ⊢; linarith
  have ht : Nb (tail s) P (|F| * (39792 / 10 ^ 5 / 2 ^ 53)) (|F| * (4895 / 10 ^ 5)) := by
    refine t.weaken ?_ ?_
    · generalize |S| * |S| = B at *
      generalize |F| = M at *
      norm_num at b1 ⊢; linarith
    · generalize |S| * |S| = B at *
      generalize |F| = M at *
      norm_num at b1 ⊢; linarith
  have hf2 : Nb f F 0 (41422 / 10 ^ 5) := ⟨hf, F1⟩
  clear t q
  generalize |F| = M at *
  generalize S * (F - P) = D at *
  clear ss ad b1 eF d p1 a2 a3 hP hS sh
  have h2 := Nb.mul (M * (20732 / 10 ^ 5 / 2 ^ 53)) (M * (20711 / 10 ^ 5)) n1 hf2 (by norm_num at F0 F1 ⊢; linarith) (by norm_num at F0 F1 ⊢; linarith) (by norm_num at F0 F1 ⊢; linarith)
  have h3 := Nb.add (M * (86155 / 10 ^ 5 / 2 ^ 53)) (M * (25607 / 10 ^ 5)) h2 ht (by norm_num at F0 F1 ⊢; linarith) (by norm_num at F0 F1 ⊢; linarith) (by norm_num at F0 F1 ⊢; linarith)
  have h4 := Nb.mul (M * (28005 / 10 ^ 5 / 2 ^ 53)) (M * (4395 / 10 ^ 5)) hs h3 (by norm_num at F0 F1 ⊢; linarith) (by norm_num at F0 F1 ⊢; linarith) (by norm_num at F0 F1 ⊢; linarith)
  constructor
  · have h5 := h2.1.sub h4.1 (m := D) (g := D * (4003 / 1000 / 2 ^ 53) + M * (965 / 10000 / 2 ^ 53)) (by rw [eD, abs_of_nonneg d0]) (by norm_num at F0 F1 dl ⊢; linarith) (by norm_num at F0 F1 d1 ⊢; linarith)
    rw [eD] at h5
    exact h5
  · intro k kn
    have l := (times_lo kn).1
    have h5 := Nb.add (M * (32403 / 10 ^ 5 / 2 ^ 53) + 1 / 10 ^ 6 / 2 / 2 ^ 53) (M * (4395 / 10 ^ 5) + 25 / 10 ^ 8) h4 l (by norm_num at F0 F1 ⊢; linarith) le_rfl (by norm_num at F0 F1 ⊢; linarith)
    have eD' : 1 / 2 * F * F - (S * (1 / 2 * F * F + P) + k * ln2lq) = D - k * ln2lq := by rw [← eD]; ring
    have h6 := h2.1.sub h5.1 (m := D + 25 / 10 ^ 8) (g := D * (5004 / 1000 / 2 ^ 53) + M * (97 / 1000 / 2 ^ 53) + 1 / 10 ^ 6 / 2 ^ 53) (by
      rw [eD']
      refine le_trans (abs_sub _ _) ?_
      rw [abs_of_nonneg d0]
      exact add_le_add le_rfl l.2) (by norm_num at F0 F1 dl ⊢; linarith) (by norm_num at F0 F1 d1 ⊢; linarith)
    rw [eD'] at h6
    exact h6

/-- With half of the square, negative. -/
theorem branch3 {f : Nat} {F : ℝ} (hf : Near f F 0) (lo : -(2929 / 10 ^ 4) ≤ F) (hi : F ≤ 41422 / 10 ^ 5) (hc : F ≤ -(2899 / 10 ^ 4)) :
    ∃ D L, Shape F L D ∧
      Near (sub (mul (mul half f) f) (mul (div f (add two f)) (add (mul (mul half f) f) (tail (div f (add two f)))))) D
        (D * (4003 / 1000 / 2 ^ 53) + |F| * (965 / 10000 / 2 ^ 53)) ∧
      ∀ (k : Int), k.natAbs ≤ 1080 → Near (sub (mul (mul half f) f) (add (mul (div f (add two f)) (add (mul (mul half f) f) (tail (div f (add two f))))) (mul (Libm.ofInt k) ln2_lo)))
        (D - k * ln2lq) (D * (5004 / 1000 / 2 ^ 53) + |F| * (97 / 1000 / 2 ^ 53) + 1 / 10 ^ 6 / 2 ^ 53) := by
  obtain ⟨S, hS⟩ : ∃ S, S = F / (2 + F) := ⟨_, rfl⟩
  have F0 : (2899 / 10 ^ 4) ≤ |F| := by rw [abs_of_nonpos (by norm_num at *; linarith)]; linarith
  have F1 : |F| ≤ (2929 / 10 ^ 4) := by rw [abs_le]; constructor <;> norm_num at * <;> linarith
  obtain ⟨q, a0, a1⟩ := quot hf (le_trans (by norm_num) F0) lo hi hS
  generalize div f (add two f) = s at *
  have t := tail_near q rfl a0 a1
  obtain ⟨P, hP⟩ : ∃ P, P = pol (S * S) := ⟨_, rfl⟩
  rw [← hP] at t
  have ss : |S| * |S| = S * S := abs_mul_abs_self S
  have p1 : P ≤ S * S * (6788 / 10 ^ 4) := by
    have := le_trans (le_abs_self _) t.2
    rw [ss] at this
    linarith
  obtain ⟨sh, -, a2, a3, ad, p0⟩ := shape lo hi hS hP p1
  have d : 0 < 2 + F := by norm_num at *; linarith
  have eF : S * (2 + F) = F := by rw [hS]; field_simp
  -- the quotient and its square, compared with the number
  have b1 : |S| * |S| ≤ |F| * (10052 / 10 ^ 5) := by
    have : |S| ≤ |F| * (58582 / 10 ^ 5) := by
      exact a2.trans_eq (by norm_num)
      
      
    have := mul_le_mul this a1 (abs_nonneg _) (by positivity)
    refine le_trans this ?_
    have := abs_nonneg F
    generalize |F| = M at *
    norm_num at *; linarith
  have dl : |F| * (16950 / 10 ^ 5) ≤ S * (F - P) := by
    rw [← ad]
    have s1 : (16952 / 10 ^ 5) ≤ |S| := by
      rw [hS, abs_div, abs_of_pos d, le_div_iff₀ d]
      rw [abs_of_nonpos (by norm_num at *; linarith)]
      norm_num at *; linarith
    have s2 : |F| * 1 ≤ |F - P| := by
      rw [ss] at b1
      rw [abs_of_nonpos (show F ≤ 0 by norm_num at *; linarith)] at *
      refine le_trans ?_ (neg_le_abs _)
      
      norm_num at *; linarith
    have := mul_le_mul s1 s2 (by positivity) (abs_nonneg _)
    refine le_trans ?_ this
    have := abs_nonneg F
    generalize |F| = M at *
    norm_num at *; linarith
  have eD : 1 / 2 * F * F - S * (1 / 2 * F * F + P) = S * (F - P) := by
    have : S * (F * F) = F * F - 2 * (S * F) := by
      have : S * (2 + F) * F = F * F := by rw [eF]
      linarith
    linarith
  refine ⟨S * (F - P), _, sh, ?_⟩
  have d0 := sh.d0
  have d1 : S * (F - P) ≤ 1 := by
    have := abs_le.1 a1
    rw [← ad]
    have : |F - P| ≤ 1 := by
      have := abs_le.1 t.2
      have := le_trans (mul_le_mul a1 a1 (abs_nonneg _) (by norm_num)) (show (17158 / 100000 : ℝ) * (17158 / 100000) ≤ 3 / 100 by norm_num)
      rw [abs_le]; constructor <;> norm_num at * <;> linarith
    exact le_trans (mul_le_mul a1 this (abs_nonneg _) (by norm_num)) (by norm_num)
  have n1 := Nb.half (⟨hf, le_rfl⟩ : Nb f F 0 |F|) (by generalize |F| = M at *; norm_num at F1 ⊢; linarith)
  have n1 : Nb (mul half f) (1 / 2 * F) (0 / 2 + 1 / 2 ^ 199) (|F| / 2) := n1
  have hs : Nb s S (34351 / 10 ^ 5 / 2 ^ 53) (17158 / 100000) := by
    refine ⟨q.weaken ?_, a1⟩
    generalize |S| = A at *
    norm_num at a1 ⊢; linarith
  have ht : Nb (tail s) P (|F| * (55477 / 10 ^ 5 / 2 ^ 53)) (|F| * (6824 / 10 ^ 5)) := by
    refine t.weaken ?_ ?_
    · generalize |S| * |S| = B at *
      generalize |F| = M at *
      norm_num at b1 ⊢; linarith
    · generalize |S| * |S| = B at *
      generalize |F| = M at *
      norm_num at b1 ⊢; linarith
  have hf2 : Nb f F 0 (2929 / 10 ^ 4) := ⟨hf, F1⟩
  clear t q
  generalize |F| = M at *
  generalize S * (F - P) = D at *
  clear ss ad b1 eF d p1 a2 a3 hP hS sh
  have h2 := Nb.mul (M * (14660 / 10 ^ 5 / 2 ^ 53)) (M * (14645 / 10 ^ 5)) n1 hf2 (by norm_num at F0 F1 ⊢; linarith) (by norm_num at F0 F1 ⊢; linarith) (by norm_num at F0 F1 ⊢; linarith)
  have h3 := Nb.add (M * (91627 / 10 ^ 5 / 2 ^ 53)) (M * (21470 / 10 ^ 5)) h2 ht (by norm_num at F0 F1 ⊢; linarith) (by norm_num at F0 F1 ⊢; linarith) (by norm_num at F0 F1 ⊢; linarith)
  have h4 := Nb.mul (M * (26811 / 10 ^ 5 / 2 ^ 53)) (M * (3685 / 10 ^ 5)) hs h3 (by norm_num at F0 F1 ⊢; linarith) (by norm_num at F0 F1 ⊢; linarith) (by norm_num at F0 F1 ⊢; linarith)
  constructor
  · have h5 := h2.1.sub h4.1 (m := D) (g := D * (4003 / 1000 / 2 ^ 53) + M * (965 / 10000 / 2 ^ 53)) (by rw [eD, abs_of_nonneg d0]) (by norm_num at F0 F1 dl ⊢; linarith) (by norm_num at F0 F1 d1 ⊢; linarith)
    rw [eD] at h5
    exact h5
  · intro k kn
    have l := (times_lo kn).1
    have h5 := Nb.add (M * (30500 / 10 ^ 5 / 2 ^ 53) + 1 / 10 ^ 6 / 2 / 2 ^ 53) (M * (3685 / 10 ^ 5) + 25 / 10 ^ 8) h4 l (by norm_num at F0 F1 ⊢; linarith) le_rfl (by norm_num at F0 F1 ⊢; linarith)
    have eD' : 1 / 2 * F * F - (S * (1 / 2 * F * F + P) + k * ln2lq) = D - k * ln2lq := by rw [← eD]; ring
    have h6 := h2.1.sub h5.1 (m := D + 25 / 10 ^ 8) (g := D * (5004 / 1000 / 2 ^ 53) + M * (97 / 1000 / 2 ^ 53) + 1 / 10 ^ 6 / 2 ^ 53) (by
      rw [eD']
      refine le_trans (abs_sub _ _) ?_
      rw [abs_of_nonneg d0]
      exact add_le_add le_rfl l.2) (by norm_num at F0 F1 dl ⊢; linarith) (by norm_num at F0 F1 d1 ⊢; linarith)
    rw [eD'] at h6
    exact h6

/-- With a product and the second part of a multiple of the logarithm of 2. -/
theorem less_lo {p : Nat} {F D : ℝ} {k : Int} (kn : k.natAbs ≤ 1080) (d0 : 0 ≤ D) (d1 : D ≤ 1) (m1 : |F| ≤ 1)
    (h : Near p D (D * (4003 / 1000 / 2 ^ 53) + |F| * (965 / 10000 / 2 ^ 53))) :
    Near (sub p (mul (Libm.ofInt k) ln2_lo)) (D - k * ln2lq) (D * (5004 / 1000 / 2 ^ 53) + |F| * (97 / 1000 / 2 ^ 53) + 1 / 10 ^ 6 / 2 ^ 53) := by
  have l := (times_lo kn).1
  have m0 := abs_nonneg F
  generalize |F| = M at *
  refine h.sub l.1 (m := D + 25 / 10 ^ 8) ?_ (by norm_num at *; linarith) (by norm_num at *; linarith)
  refine le_trans (abs_sub _ _) ?_
  rw [abs_of_nonneg d0]
  exact add_le_add le_rfl l.2

/-- Next to 1. -/
theorem branch0 {f : Nat} {F : ℝ} (hf : Near f F 0) (h0 : 1 / 2 ^ 53 ≤ |F|) (h1 : |F| ≤ 1 / 2 ^ 20) :
    ∃ D L, Shape F L D ∧ Near (mul (mul f f) (sub half (mul third f))) D (D * (4003 / 1000 / 2 ^ 53) + |F| * (965 / 10000 / 2 ^ 53)) := by
  have ht : (thirdq : ℝ) = 6004799503160661 / 2 ^ 54 := by unfold thirdq; norm_num
  have hh : (halfq : ℝ) = 1 / 2 := by unfold halfq; norm_num
  have x := abs_le.1 h1
  have B0 : 1 / 2 ^ 106 ≤ |F| * |F| := le_trans (by norm_num) (mul_le_mul h0 h0 (by norm_num) (abs_nonneg _))
  have B1 : |F| * |F| ≤ |F| * (1 / 2 ^ 20) := mul_le_mul_of_nonneg_left h1 (abs_nonneg _)
  have ss : |F| * |F| = F * F := abs_mul_abs_self F
  have g : |(thirdq : ℝ) * F| ≤ 1 / 2 ^ 20 := by
    rw [abs_mul]
    exact le_trans (mul_le_mul (b := 1) (by rw [ht]; norm_num [abs_le]) h1 (abs_nonneg _) (by norm_num)) (by norm_num)
  have g' := abs_le.1 g
  have w : 49 / 100 ≤ 1 / 2 - (thirdq : ℝ) * F ∧ 1 / 2 - (thirdq : ℝ) * F ≤ 51 / 100 := by constructor <;> norm_num at g' ⊢ <;> linarith
  have n1 : Nb (mul f f) (F * F) (|F| * |F| * (1001 / 1000 / 2 ^ 53)) (|F| * |F|) := by
    refine Nb.mul _ _ ⟨hf, le_rfl⟩ ⟨hf, le_rfl⟩ ?_ le_rfl ?_
    · generalize |F| * |F| = B at *
      norm_num at B0 ⊢; linarith
    · norm_num at h1 B1 ⊢; linarith
  have n2 := Nb.mul (1 / 2 ^ 70) (1 / 2 ^ 20) n_third (⟨hf, h1⟩ : Nb f F 0 (1 / 2 ^ 20)) (by norm_num) (by norm_num) (by norm_num)
  have n3 := Nb.sub' (511 / 1000 / 2 ^ 53) (51 / 100) n_half n2 (by rw [hh, abs_of_nonneg (by linarith)]; exact w.2) (by norm_num) (by norm_num)
  rw [hh] at n3
  have n4 := Nb.mul (|F| * |F| * (155 / 100 / 2 ^ 53)) (|F| * |F| * (51 / 100)) n1 n3 (by
    generalize |F| * |F| = B at *
    norm_num at B0 ⊢; linarith) le_rfl (by
    norm_num at h1 B1 ⊢; linarith)
  have dl : |F| * |F| * (49 / 100) ≤ F * F * (1 / 2 - thirdq * F) := by
    rw [ss]; exact mul_le_mul_of_nonneg_left w.1 (mul_self_nonneg F)
  have du : F * F * (1 / 2 - thirdq * F) ≤ |F| * (1 / 2 ^ 20) := by
    refine le_trans (le_trans (le_abs_self _) n4.2) ?_
    have := abs_nonneg F
    generalize |F| * |F| = B at *
    norm_num at B1 B0 ⊢; linarith
  have lg : |Real.log (1 + F) - (F - F * F * (1 / 2 - thirdq * F))| ≤ |F| * (4 / 100 / 2 ^ 53) := by
    have a := Real.abs_log_sub_add_sum_range_le (x := -F) (by rw [abs_neg]; norm_num at *; linarith) 3
    rw [abs_neg, sub_neg_eq_add] at a
    have e : ∑ i ∈ Finset.range 3, (-F) ^ (i + 1) / ((i : ℝ) + 1) = -F + F * F / 2 - F * F * F / 3 := by
      simp only [Finset.sum_range_succ, Finset.sum_range_zero]; push_cast; ring
    rw [e] at a
    have c3 : |F * F * F| ≤ |F| * (1 / 2 ^ 40) := by
      rw [mul_assoc, abs_mul, abs_mul]
      exact mul_le_mul_of_nonneg_left (le_trans (mul_le_mul h1 h1 (abs_nonneg _) (by norm_num)) (by norm_num)) (abs_nonneg _)
    have c4 : |F| ^ (3 + 1) / (1 - |F|) ≤ |F| * (1 / 2 ^ 59) := by
      rw [div_le_iff₀ (by norm_num at h1 ⊢; linarith), pow_succ, mul_comm (|F| ^ 3), mul_assoc]
      refine mul_le_mul_of_nonneg_left ?_ (abs_nonneg _)
      refine le_trans (pow_le_pow_left₀ (abs_nonneg _) h1 3) ?_
      norm_num at h1 ⊢; linarith
    have a := abs_le.1 (le_trans a c4)
    have c3 := abs_le.1 c3
    have m0 := abs_nonneg F
    generalize Real.log (1 + F) = Λ at *
    rw [ht, show F - F * F * (1 / 2 - 6004799503160661 / 2 ^ 54 * F) = F - F * F / 2 + F * F * F * (6004799503160661 / 2 ^ 54) by ring]
    generalize F * F * F = C at *
    generalize |F| = M at *
    generalize F * F / 2 = Q at *
    rw [abs_le]; constructor <;> norm_num at a c3 m0 ⊢ <;> linarith
  have d0 : 0 ≤ F * F * (1 / 2 - thirdq * F) := mul_nonneg (mul_self_nonneg F) (by linarith)
  refine ⟨F * F * (1 / 2 - thirdq * F), _, ⟨rfl, d0, fun c => ?_, fun c => ?_, lg, by norm_num at *; linarith, by norm_num at *; linarith⟩, n4.1.weaken ?_⟩
  · rw [abs_of_nonneg c] at du
    norm_num at du ⊢; linarith
  · rw [abs_of_nonpos c] at du
    norm_num at du ⊢; linarith
  · have := abs_nonneg F
    generalize |F| * |F| = B at *
    generalize F * F * (1 / 2 - thirdq * F) = D at *
    generalize |F| = M at *
    norm_num at dl B0 this ⊢; linarith

end Pok.Log

