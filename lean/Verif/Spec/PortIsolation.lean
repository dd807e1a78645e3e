import Verif.Spec.Port

/-!
# What a group of partitions does with its ports, and what it sees

A group of partitions is a set `A`.  No data should reach it from outside: `NoWayIn`.  Of a history, `own` keeps the calls of the group and the
flushes of its ports; `seen` keeps what its calls returned.
-/

namespace Pok.Ports

/-- Every port whose messages are forwarded to a port of the group belongs to the group. -/
def NoWayIn (c : PortCfg) (A : Nat → Bool) : Prop :=
  ∀ l g, l < c.nbPorts → g ∈ c.dests l → A (c.owner (c.toLocal g)) = true → A (c.owner l) = true

/-- The partition that makes a call; flushes are made by the kernel. -/
def caller : PortOp → Option Nat
  | .queueingCreate part _ _ _ _ => some part
  | .samplingCreate part _ _ _ _ => some part
  | .samplingWrite part _ _ => some part
  | .samplingRead part _ _ => some part
  | .send part _ _ _ => some part
  | .receive part _ _ _ => some part
  | .sendResume part _ _ _ => some part
  | .receiveResume part _ _ _ => some part
  | .flushPartition _ => none
  | .flushAll _ => none

/-- The calls of the group in a history, with their times, and the flushes of the ports of its members. -/
def own (A : Nat → Bool) : List (Nat × PortOp) → List (Nat × PortOp)
  | [] => []
  | (now, .flushPartition p) :: h => if A p then (now, .flushPartition p) :: own A h else own A h
  | (now, .flushAll ps) :: h => (ps.filter A).map (fun p => (now, .flushPartition p)) ++ own A h
  | (now, op) :: h => if (caller op).any A then (now, op) :: own A h else own A h

/-- What the calls of the group returned. -/
def seen (A : Nat → Bool) : List (Nat × PortOp) → List PortOut → List PortOut
  | (_, op) :: h, o :: os => if (caller op).any A then o :: seen A h os else seen A h os
  | _, _ => []

/-- The memory asked for by all calls that create ports. -/
def asked : List (Nat × PortOp) → Nat
  | [] => 0
  | (_, .queueingCreate _ _ size _ _) :: h => size + asked h
  | (_, .samplingCreate _ _ size _ _) :: h => size + asked h
  | _ :: h => asked h

/-- Sampling messages are read into buffers that are not within the last `PORT_MAX_SIZE` bytes of the partition. -/
def RoomyBuffers (c : PortCfg) (h : List (Nat × PortOp)) : Prop :=
  ∀ now part id uptr, (now, PortOp.samplingRead part id uptr) ∈ h → uptr + PORT_MAX_SIZE ≤ c.psize part

end Pok.Ports
