import Verif.Spec.Net

/-!
What a user expects of a write to a virtual port, and of the search for a device.
-/

namespace Pok
namespace Spec
namespace Net

/-- The frames carry, one after the other, the pieces of the data for one destination; no piece is empty and none is
longer than what fits in a frame (1492 bytes); no frame is shorter than the shortest one of Ethernet (60 bytes); every
frame goes to all stations and names the address of the sender, the protocol (0x4242) and the port of the sender. -/
def Pieces (mac : List Nat) (port : Nat) (fs : List (List Nat)) (dst : Nat) (d : List Nat) : Prop :=
  ∃ ms : List Msg, List.Forall₂ Carries fs ms ∧ (∀ m, m ∈ ms → m.dst = dst ∧ m.data ≠ [] ∧ m.data.length ≤ 1492) ∧
    ms.flatMap Msg.data = d ∧ ∀ f, f ∈ fs → 60 ≤ f.length ∧
      f.take 16 = [255, 255, 255, 255, 255, 255] ++ mac ++ [0x42, 0x42] ++ [port % 256, port / 256 % 256]

/-- A partition may write to a port: the port exists, is its own and is virtual. -/
def MayWrite (c : NetCfg) (part port : Nat) : Prop :=
  port < c.nbPorts ∧ Ports.ownPort c.toPortCfg part port = some true ∧ c.kindOf port = 2

/-- At a place of the bus there is a device with these numbers and the ordinary layout of registers: vendor and device
in the first word, zero in the upper half of the word at 12. -/
def DeviceAt (p : Pok.Net.Pci) (vendor device b d f : Nat) : Prop :=
  b < 8 ∧ d < 32 ∧ f < 8 ∧ p b d f 0 % 65536 = vendor ∧ p b d f 0 / 65536 % 65536 = device ∧ p b d f 12 / 65536 = 0

end Net
end Spec
end Pok
