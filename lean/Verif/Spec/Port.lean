import Verif.Model.Port

/-!
# What ports should do

* the memory of a port is an interval of the port memory;
* a queueing port holds a sequence of bytes (`queueOf`), a sampling port holds at most one message
  (`messageOf`);
* `PortCfg.Ok` says what the generated configuration guarantees.
-/

namespace Pok

/-- Consistent generated tables. -/
structure PortCfg.Ok (c : PortCfg) : Prop where
  few : c.nbPorts ≤ 255
  owner : ∀ i, i < c.nbPorts → c.owner i < c.nbParts
  portsOf : ∀ p l, l ∈ c.portsOf p → l < c.nbPorts ∧ c.owner l = p
  nodup : ∀ p, (c.portsOf p).Nodup
  dests : ∀ l g, l < c.nbPorts → g ∈ c.dests l → c.toLocal g < c.nbPorts
  destKind : ∀ l g, l < c.nbPorts → g ∈ c.dests l → c.kindOf (c.toLocal g) = c.kindOf l

namespace Ports

/-- Byte `j` of the port memory belongs to port `i`. -/
def Owns (s : Ports) (i j : Nat) : Prop := (s.P i).index ≤ j ∧ j < (s.P i).index + (s.P i).size

/-- Number of bytes waiting in a queueing port. -/
def held (p : Port) : Nat :=
  if p.empty then 0 else if p.offB < p.offE then p.offE - p.offB else p.size - p.offB + p.offE

/-- The bytes waiting in a queueing port, oldest first: the ring that starts at `offB`. -/
def queueOf (s : Ports) (i : Nat) : List Nat :=
  (List.range (held (s.P i))).map fun k => s.data ((s.P i).index + ((s.P i).offB + k) % (s.P i).size)

/-- The message of a sampling port. -/
def messageOf (s : Ports) (i : Nat) : Option (List Nat) :=
  if (s.P i).empty then none
  else some ((List.range (s.P i).size).map fun k => s.data ((s.P i).index + k))

/-- `new` written over the beginning of `old`. -/
def overlay (new old : List Nat) : List Nat := new ++ old.drop new.length

/-- Port `j` may change when partition `p` is flushed: an OUT port of `p`, or a created IN port that the
configuration gives as a destination of one. -/
def FlushTouches (c : PortCfg) (s : Ports) (p j : Nat) : Prop :=
  (j ∈ c.portsOf p ∧ (s.P j).direction = DIR_OUT) ∨
  (∃ l ∈ c.portsOf p, (s.P l).direction = DIR_OUT ∧ j ∈ (c.dests l).map c.toLocal ∧
    (s.P j).ready = true ∧ (s.P j).direction = DIR_IN)

/-- The ports a call may change. -/
def Touches (c : PortCfg) (s : Ports) : PortOp → Nat → Prop
  | .queueingCreate part name _ _ _, j => findPort c KIND_QUEUEING name = some j ∧ c.owner j = part ∧ (s.P j).ready = false
  | .samplingCreate part name _ _ _, j => findPort c KIND_SAMPLING name = some j ∧ c.owner j = part ∧ (s.P j).ready = false
  | .samplingWrite _ id _, j => j = id
  | .samplingRead _ id _, j => j = id
  | .send _ id _ _, j => j = id
  | .receive _ id _ _, j => j = id
  | .sendResume _ id _ _, j => j = id
  | .receiveResume _ id _ _, j => j = id
  | .flushPartition p, j => FlushTouches c s p j
  | .flushAll ps, j => ∃ p ∈ ps, FlushTouches c s p j

/-- A call by a partition that the rules of ports allow: the port exists, belongs to the caller, has been
created, and has the direction and the kind of the call. -/
def Allowed (c : PortCfg) (s : Ports) : PortOp → Prop
  | .samplingWrite part id _ => id < c.nbPorts ∧ c.owner id = part ∧ (s.P id).ready = true ∧
      (s.P id).direction = DIR_OUT ∧ (s.P id).kind = KIND_SAMPLING
  | .samplingRead part id _ => id < c.nbPorts ∧ c.owner id = part ∧ (s.P id).ready = true ∧
      (s.P id).direction = DIR_IN ∧ (s.P id).kind = KIND_SAMPLING
  | .send part id _ _ => id < c.nbPorts ∧ c.owner id = part ∧ (s.P id).ready = true ∧
      (s.P id).direction = DIR_OUT ∧ (s.P id).kind = KIND_QUEUEING
  | .receive part id _ _ => id < c.nbPorts ∧ c.owner id = part ∧ (s.P id).ready = true ∧
      (s.P id).direction = DIR_IN ∧ (s.P id).kind = KIND_QUEUEING
  | .sendResume part id _ _ => id < c.nbPorts ∧ c.owner id = part ∧ (s.P id).ready = true ∧
      (s.P id).direction = DIR_OUT ∧ (s.P id).kind = KIND_QUEUEING
  | .receiveResume part id _ _ => id < c.nbPorts ∧ c.owner id = part ∧ (s.P id).ready = true ∧
      (s.P id).direction = DIR_IN ∧ (s.P id).kind = KIND_QUEUEING
  | _ => True

/-- The port a data call names. -/
def portOf : PortOp → Option Nat
  | .samplingWrite _ id _ => some id
  | .samplingRead _ id _ => some id
  | .send _ id _ _ => some id
  | .receive _ id _ _ => some id
  | .sendResume _ id _ _ => some id
  | .receiveResume _ id _ _ => some id
  | _ => none

/-- Bytes accepted from the senders of port `i` in a history with its results, in order. -/
def sentTo (i : Nat) : List (Nat × PortOp) → List PortOut → List Nat
  | (_, .send _ id bs _) :: h, o :: os => (if id = i ∧ o.res = .done .ok then bs else []) ++ sentTo i h os
  | (_, .sendResume _ id bs _) :: h, o :: os => (if id = i ∧ o.res = .done .ok then bs else []) ++ sentTo i h os
  | _ :: h, _ :: os => sentTo i h os
  | _, _ => []

/-- Bytes handed to the receivers of port `i`, in order. -/
def receivedFrom (i : Nat) : List (Nat × PortOp) → List PortOut → List Nat
  | (_, .receive _ id _ _) :: h, o :: os => (if id = i then o.bytes else []) ++ receivedFrom i h os
  | (_, .receiveResume _ id _ _) :: h, o :: os => (if id = i then o.bytes else []) ++ receivedFrom i h os
  | _ :: h, _ :: os => receivedFrom i h os
  | _, _ => []

/-- What a sampling channel should do: the message written at the source and not yet forwarded, and the message
that the destination shows, with the time at which it arrived. -/
structure Channel where
  pending : Option (List Nat) := none
  shown : Option (List Nat × Nat) := none
  deriving DecidableEq, Repr

/-- Forwarding at time `now`: a pending message replaces what the destination shows. -/
def Channel.forward (now : Nat) (k : Channel) : Channel :=
  match k.pending with
  | none => k
  | some bs => { pending := none, shown := some (bs, now) }

/-- Effect of one call on the channel that starts at port `src`, owned by partition `p`. -/
def Channel.step (p src : Nat) (k : Channel) (now : Nat) (op : PortOp) (o : PortOut) : Channel :=
  match op with
  | .samplingWrite _ id bs => if id = src ∧ o.res = .done .ok then { k with pending := some bs } else k
  | .flushPartition q => if q = p then k.forward now else k
  | .flushAll qs => if p ∈ qs then k.forward now else k
  | _ => k

/-- Effect of a history. -/
def Channel.run (p src : Nat) : Channel → List (Nat × PortOp) → List PortOut → Channel
  | k, (now, op) :: h, o :: os => Channel.run p src (k.step p src now op o) h os
  | k, _, _ => k

end Ports
end Pok
