import Verif.Model.Syscall

/-!
# Services on virtual ports

Model of kernel/middleware/portvirtualid.c, portvirtualnbdestinations.c, portvirtualdestination.c,
portvirtualgetglobal.c and portvirtualutils.c, reached by the library functions of libpok/middleware/portvirtual*.c
with one system call each.

A call is described by its return code and by the numbers that it stores for the caller.  `none` is undefined
behaviour: a read outside a table of the configuration.
-/

namespace Pok

/-- The generated tables (deployment.c) that only virtual ports use, declared in
kernel/middleware/portvirtualgetglobal.c 33, portvirtualutils.c 26-27. -/
structure NetCfg extends PortCfg where
  /-- `pok_local_ports_to_global_ports` -/
  toGlobal : Nat → Nat
  /-- `pok_ports_nodes` -/
  nodeOf : Nat → Nat
  /-- `POK_CONFIG_NB_NODES` -/
  nbNodes : Nat
  /-- `pok_nodes_addr` -/
  macOf : Nat → List Nat

namespace VirtPort

/-- The three tests with which the services begin, kernel/middleware/portvirtualdestination.c 42-52,
portvirtualgetglobal.c 37-47, portvirtualnbdestinations.c 35-45: `true` if the service goes on.  `pok_own_port` is
modelled by `Ports.ownPort`. -/
def allowed (c : NetCfg) (part id : Nat) : Option Bool :=
  if id ≥ c.nbPorts then some false
  else (Ports.ownPort c.toPortCfg part id).map fun own => own && decide (c.kindOf id = Sys.KIND_VIRTUAL)

/-- `pok_port_virtual_nb_destinations`, kernel/middleware/portvirtualnbdestinations.c 33-50. -/
def nbDestinations (c : NetCfg) (part id : Nat) : Option (Errno × List Nat) :=
  (allowed c part id).map fun ok => if ok then (.ok, [(c.dests id).length]) else (.port, [])

/-- `pok_port_virtual_destination`, kernel/middleware/portvirtualdestination.c 38-60.  The test of line 54 lets the
number of destinations itself pass. -/
def destination (c : NetCfg) (part id n : Nat) : Option (Errno × List Nat) :=
  (allowed c part id).bind fun ok =>
    if ok then
      if n > (c.dests id).length then some (.port, [])
      else (c.dests id)[n]?.map fun d => (.ok, [d])
    else some (.port, [])

/-- `pok_port_virtual_get_global`, kernel/middleware/portvirtualgetglobal.c 35-54. -/
def getGlobal (c : NetCfg) (part id : Nat) : Option (Errno × List Nat) :=
  (allowed c part id).map fun ok => if ok then (.ok, [c.toGlobal id]) else (.port, [])

/-- `pok_port_virtual_node`, kernel/middleware/portvirtualutils.c 29-32: no test at all. -/
def node (c : NetCfg) (_part port : Nat) : Option (Errno × List Nat) :=
  if port < c.nbPorts then some (.ok, [c.nodeOf port]) else none

/-- `pok_node_mac_addr`, kernel/middleware/portvirtualutils.c 35-42: six bytes of the address of a node, no test. -/
def macAddr (c : NetCfg) (node : Nat) : Option (Errno × List Nat) :=
  if node < c.nbNodes then some (.ok, (c.macOf node).take 6) else none

/-- `pok_port_virtual_id`, kernel/middleware/portvirtualid.c 29-46: as for the other kinds. -/
def create (c : NetCfg) (part : Nat) (name : List Nat) : Errno × Option Nat :=
  Ports.portId c.toPortCfg part Sys.KIND_VIRTUAL name

end VirtPort
end Pok
