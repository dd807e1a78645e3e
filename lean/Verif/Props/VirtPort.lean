import Verif.Model.VirtPort

/-!
# Services on virtual ports (C105)
-/

namespace Pok
namespace VirtPort

/-- Specification: port `id` is a virtual port that the configuration gives to the partition. -/
def Mine (c : NetCfg) (part id : Nat) : Prop := id < c.nbPorts ∧ c.owner id = part ∧ c.kindOf id = Sys.KIND_VIRTUAL

/-- The tests of the services decide the specification. -/
theorem allowed_eq (c : NetCfg) (part id : Nat) : (allowed c part id = some true ↔ Mine c part id) ∧
    (allowed c part id = some false ↔ ¬ Mine c part id) := by
  unfold allowed Ports.ownPort Mine
  by_cases h : id ≥ c.nbPorts
  · simp [h, show ¬ id < c.nbPorts by omega]
  · have h1 : ¬ id > c.nbPorts := by omega
    have h2 : ¬ id = c.nbPorts := by omega
    have h3 : id < c.nbPorts := by omega
    simp only [h, h1, h2, h3, if_false, Option.map_some, Option.some.injEq, Bool.and_eq_true, decide_eq_true_eq,
      Bool.and_eq_false_iff, decide_eq_false_iff_not, true_and]
    by_cases h4 : c.owner id = part <;> simp [h4]

/-- **C105** (part).  The owner of a virtual port learns from the services what the configuration says: the number of
destinations, each destination in order, and the global number of the port.

Missing: the destination just past the last one, `C105_index_violated`. -/
theorem C105_answers_partial (c : NetCfg) (part id : Nat) (h : Mine c part id) :
    nbDestinations c part id = some (.ok, [(c.dests id).length]) ∧
    (∀ n d, (c.dests id)[n]? = some d → destination c part id n = some (.ok, [d])) ∧
    getGlobal c part id = some (.ok, [c.toGlobal id]) := by
  have ha := (allowed_eq c part id).1.2 h
  refine ⟨by simp [nbDestinations, ha], ?_, by simp [getGlobal, ha]⟩
  intro n d hd
  have hn : n < (c.dests id).length := (List.getElem?_eq_some_iff.1 hd).1
  simp [destination, ha, hd, show ¬ (c.dests id).length < n by omega]

/-- **C105** (part).  A program that asks for the destinations `0`, `1`, … below the number that it was told gets the
configured list, whole and in order. -/
theorem C105_enumerate_partial (c : NetCfg) (part id : Nat) (h : Mine c part id) :
    (List.range (c.dests id).length).map (destination c part id) =
      (c.dests id).map fun d => some (.ok, [d]) := by
  apply List.ext_getElem
  · simp
  · intro n h1 h2
    have h3 : n < (c.dests id).length := by simpa using h1
    rw [List.getElem_map, List.getElem_map, List.getElem_range]
    exact (C105_answers_partial c part id h).2.1 n _ (List.getElem?_eq_getElem h3)

/-- **C105** (part).  Every other port number, of another partition, of another kind or outside the table, is refused
with `POK_ERRNO_PORT` and nothing is stored; so is a destination beyond the number of destinations. -/
theorem C105_refused_partial (c : NetCfg) (part id : Nat) :
    (¬ Mine c part id → nbDestinations c part id = some (.port, []) ∧
      (∀ n, destination c part id n = some (.port, [])) ∧ getGlobal c part id = some (.port, [])) ∧
    (Mine c part id → ∀ n, n > (c.dests id).length → destination c part id n = some (.port, [])) := by
  refine ⟨fun h => ?_, fun h n hn => ?_⟩
  · have ha := (allowed_eq c part id).2.2 h
    exact ⟨by simp [nbDestinations, ha], fun n => by simp [destination, ha], by simp [getGlobal, ha]⟩
  · have ha := (allowed_eq c part id).1.2 h
    simp [destination, ha, show (c.dests id).length < n by omega]

/-- **C105** violated: the destination numbered with the number of destinations is not refused; the kernel reads past
the end of the list of destinations.  True of every virtual port of every configuration. -/
theorem C105_index_violated (c : NetCfg) (part id : Nat) (h : Mine c part id) :
    destination c part id (c.dests id).length = none := by
  have ha := (allowed_eq c part id).1.2 h
  simp [destination, ha]

/-- **C105** violated: the node of a port is told to every partition, whoever owns the port and whatever its kind; and
a port number outside the table, or the address of a node outside the table, makes the kernel read past its tables. -/
theorem C105_node_violated (c : NetCfg) :
    (∀ part port, port < c.nbPorts → node c part port = some (.ok, [c.nodeOf port])) ∧
    (∀ part port, port ≥ c.nbPorts → node c part port = none) ∧
    (∀ n, n ≥ c.nbNodes → macAddr c n = none) := by
  refine ⟨fun part port h => by simp [node, h], fun part port h => ?_, fun n h => ?_⟩
  · simp [node, show ¬ port < c.nbPorts by omega]
  · simp [macAddr, show ¬ n < c.nbNodes by omega]

/-- **C105** (part).  The address of a node of the configuration is stored in full. -/
theorem C105_mac_partial (c : NetCfg) (n : Nat) (h : n < c.nbNodes) (hl : (c.macOf n).length = 6) :
    macAddr c n = some (.ok, c.macOf n) := by
  simp [macAddr, h, ← hl]

/-- Specification: port `i` is the only port of the given kind with its name. -/
def Alone (c : PortCfg) (kind i : Nat) : Prop :=
  ∀ j, j < c.nbPorts → c.kindOf j = kind → c.name j = c.name i → j = i

/-- **C105** (part).  If no two ports of a kind have the same name, the name of a port gives its number to its owner
and is refused to the others; a name that no port of this kind has is reported as not found.  For every kind: sampling,
queueing, virtual. -/
theorem C105_name_partial (c : PortCfg) (part kind : Nat) (name : List Nat)
    (hu : ∀ i, i < c.nbPorts → c.kindOf i = kind → Alone c kind i) :
    (∀ i, i < c.nbPorts → c.kindOf i = kind → c.name i = name → c.owner i = part →
      Ports.portId c part kind name = (.ok, some i)) ∧
    (∀ i, i < c.nbPorts → c.kindOf i = kind → c.name i = name → c.owner i ≠ part →
      Ports.portId c part kind name = (.port, none)) ∧
    ((∀ i, i < c.nbPorts → c.kindOf i = kind → c.name i ≠ name) → Ports.portId c part kind name = (.notfound, none)) := by
  have find : ∀ i, i < c.nbPorts → c.kindOf i = kind → c.name i = name → Ports.findPort c kind name = some i := by
    intro i hi hk hn
    cases hf : Ports.findPort c kind name with
    | none =>
      have := List.find?_eq_none.1 hf i (by simpa using hi)
      simp [hk, hn] at this
    | some j =>
      have h1 := List.find?_some hf
      have h2 : j < c.nbPorts := by simpa using List.mem_of_find?_eq_some hf
      simp only [Bool.and_eq_true, decide_eq_true_eq] at h1
      rw [hu i hi hk j h2 h1.2 (h1.1.trans hn.symm)]
  refine ⟨fun i hi hk hn ho => ?_, fun i hi hk hn ho => ?_, fun h => ?_⟩
  · simp [Ports.portId, find i hi hk hn, ho]
  · simp [Ports.portId, find i hi hk hn, ho]
  · have : Ports.findPort c kind name = none := by
      apply List.find?_eq_none.2
      intro i hi
      have hi' : i < c.nbPorts := by simpa using hi
      simp only [Bool.and_eq_true, decide_eq_true_eq, not_and]
      exact fun hn hk => h i hi' hk hn
    simp [Ports.portId, this]

/-- **C105** violated: names of ports are local to a partition in the standard, but if another partition has a port of
the same kind and name with a smaller number, the owner is refused its own port. -/
theorem C105_name_violated (c : PortCfg) (part kind i j : Nat) (hj : j < c.nbPorts) (hij : i < j)
    (hk : c.kindOf i = kind) (hn : c.name i = c.name j) (ho : c.owner i ≠ part) (_hm : c.owner j = part)
    (hf : ∀ m, m < i → c.kindOf m = kind → c.name m ≠ c.name j) :
    Ports.portId c part kind (c.name j) = (.port, none) := by
  have h : Ports.findPort c kind (c.name j) = some i := by
    unfold Ports.findPort
    rw [List.find?_range_eq_some]
    refine ⟨by simp [hk, hn], by simpa using (by omega : i < c.nbPorts), fun m hm => ?_⟩
    have := hf m hm
    by_cases hkm : c.kindOf m = kind <;> simp_all
  simp [Ports.portId, h, ho]

/-- **C105** violated: virtual ports and sampling ports have the same kind number, so that every virtual port is also a
sampling port: its owner can create it as such, and it is then flushed like one. -/
theorem C105_kind_violated (c : NetCfg) (part : Nat) (name : List Nat) :
    Sys.KIND_VIRTUAL = KIND_SAMPLING ∧ create c part name = Ports.portId c.toPortCfg part KIND_SAMPLING name :=
  ⟨rfl, rfl⟩

/-! ## A concrete network -/

/-- Two partitions; ports 0 and 1 are virtual ports of partition 0 and 1 with the same name, port 2 is a queueing port
of partition 1. -/
def net : NetCfg where
  nbParts := 2
  nbPorts := 3
  owner := fun i => if i = 0 then 0 else 1
  kindOf := fun i => if i = 2 then 1 else 2
  name := fun i => if i = 2 then [113] else [112]
  portsOf := fun p => if p = 0 then [0] else [1, 2]
  dests := fun i => if i = 1 then [4, 5] else []
  toLocal := fun g => g
  psize := fun _ => 4096
  toGlobal := fun i => i + 10
  nodeOf := fun i => i % 2
  nbNodes := 2
  macOf := fun n => [0, 1, 2, 3, 4, n]

example : Mine net 1 1 ∧ ¬ Mine net 1 0 ∧ ¬ Mine net 1 2 ∧ destination net 1 1 1 = some (.ok, [5]) := by
  unfold Mine; decide
example : (net.macOf 1).length = 6 ∧ macAddr net 1 = some (.ok, [0, 1, 2, 3, 4, 1]) := by decide
example : ∀ i, i < net.nbPorts → net.kindOf i = KIND_QUEUEING → Alone net.toPortCfg KIND_QUEUEING i := by
  unfold Alone; decide
example : Ports.portId net.toPortCfg 1 KIND_QUEUEING [113] = (.ok, some 2) := by decide
example : Ports.portId net.toPortCfg 1 Sys.KIND_VIRTUAL (net.name 1) = (.port, none) := by
  exact C105_name_violated net.toPortCfg 1 2 0 1 (by decide) (by decide) (by decide) (by decide) (by decide) (by decide)
    (by intro m hm; omega)

end VirtPort
end Pok
