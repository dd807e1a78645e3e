import Verif.Spec.Results

/-!
# Specification of the identifiers and status of ports for ARINC 653
-/

namespace Pok.ApexStatusSpec
open Pok.StubSpec Pok.ResultSpec

/-- Two variables, of `n` bytes at `a` and of `k` bytes at `b`, do not overlap. -/
def Apart (a n b k : Nat) : Prop := a + n ≤ b ∨ b + k ≤ a

/-- Nothing but these variables, each given by its address and size, changed. -/
def OnlyVars (m m' : Nat → Nat) (vars : List (Nat × Nat)) : Prop := ∀ x, (∀ v ∈ vars, x < v.1 ∨ v.1 + v.2 ≤ x) → m' x = m x

/-- `PORT_DIRECTION_TYPE`: `SOURCE` is 0, `DESTINATION` is 1. -/
inductive Direction
  | source | destination

def Direction.num : Direction → Nat
  | .source => 0
  | .destination => 1

/-- The direction of a port that was created with this kernel direction: a source sends (2), a destination receives (1). -/
def Direction.kernel : Direction → Nat
  | .source => 2
  | .destination => 1

/-- A `SAMPLING_PORT_STATUS_TYPE` at address `a`: refresh period, maximal size, direction, validity of the last message. -/
def HoldsSampling (m : Nat → Nat) (a refresh size : Nat) (d : Direction) (valid : Nat) : Prop :=
  HoldsInt m a 8 refresh ∧ HoldsInt m (a + 8) 4 size ∧ HoldsInt m (a + 12) 4 d.num ∧ HoldsInt m (a + 16) 4 valid

/-- Port `i` is the first of the configuration with this name and kind, and belongs to the partition. -/
def Named (c : PortCfg) (part kind : Nat) (name : List Nat) (i : Nat) : Prop :=
  i < c.nbPorts ∧ c.name i = name ∧ c.kindOf i = kind ∧ c.owner i = part ∧ ∀ j, j < i → ¬(c.name j = name ∧ c.kindOf j = kind)

end Pok.ApexStatusSpec
