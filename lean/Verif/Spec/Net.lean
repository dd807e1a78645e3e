import Verif.Model.Net
import Mathlib.Data.List.Forall2

/-!
What a user expects of the network, independently of the driver.
-/

namespace Pok
namespace Spec
namespace Net

open Pok.Net (St Ev Cfg)

/-- A message for a global port. -/
structure Msg where
  dst : Nat
  data : List Nat
deriving DecidableEq

/-- A frame carries a message: the destination port in bytes 16 and 17, the length in bytes 18 and 19, the bytes of the
message from byte 22 on; a frame has at most 1514 bytes. -/
structure Carries (f : List Nat) (m : Msg) : Prop where
  dst : f.getD 16 0 + 256 * f.getD 17 0 = m.dst
  len : f.getD 18 0 + 256 * f.getD 19 0 = m.data.length
  data : (f.drop 22).take m.data.length = m.data
  room : 22 + m.data.length ≤ f.length
  size : f.length ≤ 1514

/-- The frame is for a port of this node. -/
def ForUs (c : Cfg) (m : Msg) : Prop :=
  m.dst < c.nGlobal ∧ c.toLocal m.dst < c.nIn ∧ c.toLocal m.dst ≠ c.invalid

/-- `ms` are the messages of the frames that arrive in a history, in this order; each one is short (with its header it
fills at most one page of 256 bytes) and for a port of this node. -/
inductive Arrivals (c : Cfg) : List Ev → List Msg → Prop where
  | nil : Arrivals c [] []
  | arrive {f m es ms} : Carries f m → f.length ≤ 252 → ForUs c m → Arrivals c es ms → Arrivals c (.arrive f :: es) (m :: ms)
  | poll {es ms} : Arrivals c es ms → Arrivals c (.poll :: es) ms
  | pollRead {es ms} (port len : Nat) : Arrivals c es ms → Arrivals c (.pollRead port len :: es) ms
  | read {es ms} (port len : Nat) : Arrivals c es ms → Arrivals c (.read port len :: es) ms
  | round {es ms} : Arrivals c es ms → Arrivals c (.round :: es) ms

/-- The driver never looks for frames while the page that the card fills next is the first one of its ring, page 72. -/
def NeverAtFirst (c : Cfg) (s : St) (es : List Ev) : Prop :=
  ∀ pre post t, es = pre ++ .round :: post → Pok.Net.run c s pre = some t → t.card.curr ≠ 72

/-- The bytes that wait for the readers of a port: what `rtl8029_read` of as many bytes as there are would give. -/
def waiting (s : St) (p : Nat) : List Nat := (Pok.Net.copyOut (s.q p).data (s.q p).off (s.q p).len).1

/-- The bytes of the messages for a local port. -/
def bytesFor (c : Cfg) (p : Nat) (ms : List Msg) : List Nat :=
  (ms.filter fun m => c.toLocal m.dst == p).flatMap Msg.data

/-- A message joins the bytes that wait on its port if there is room for all of it: a port has 20 bytes. -/
def accept (c : Cfg) (w : Nat → List Nat) (m : Msg) : Nat → List Nat :=
  if (w (c.toLocal m.dst)).length + m.data.length ≤ 20 then upd w (c.toLocal m.dst) (w (c.toLocal m.dst) ++ m.data) else w

/-- Frames arrive one after the other, then the driver polls and goes through `k` rounds. -/
def batch (fs : List (List Nat)) (k : Nat) : List Ev := fs.map .arrive ++ .poll :: List.replicate k .round

/-- The frames are short and carry the messages, which are for ports of this node. -/
def ShortFrames (c : Cfg) (fs : List (List Nat)) (ms : List Msg) : Prop :=
  List.Forall₂ (fun f m => Carries f m ∧ f.length ≤ 252 ∧ ForUs c m) fs ms

end Net
end Spec
end Pok
