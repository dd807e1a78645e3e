/-!
# Specification of the cyclic partition schedule

Only the configured durations `d : Nat → Nat` and number of slots `n` are mentioned.
-/

namespace Pok.Spec

/-- End of the `k`-th window (windows are numbered from 0): the durations of windows `0 … k`. -/
def windowEnd (d : Nat → Nat) (n : Nat) : Nat → Nat
  | 0 => d 0
  | k + 1 => windowEnd d n k + d ((k + 1) % n)

/-- Start of the `k`-th window. -/
def windowStart (d : Nat → Nat) (n : Nat) : Nat → Nat
  | 0 => 0
  | k + 1 => windowEnd d n k

/-- Instant `t` lies in window `k` of the cyclic schedule. -/
def InWindow (d : Nat → Nat) (n k t : Nat) : Prop := windowStart d n k ≤ t ∧ t < windowEnd d n k

end Pok.Spec
