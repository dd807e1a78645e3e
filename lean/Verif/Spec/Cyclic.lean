/-!
# Cyclic order of a range of indices

`cyc low high from k` is the index reached from `from` after `k` steps in the cyclic order of
`[low, high)`.
-/

namespace Pok.Spec

/-- `k`-th index after `from` in the cyclic order of `[low, high)`. -/
def cyc (low high from_ k : Nat) : Nat := low + (from_ - low + k) % (high - low)

end Pok.Spec
