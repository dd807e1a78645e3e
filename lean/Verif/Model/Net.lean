import Verif.Model.VirtPort

/-!
# The network card

Model of kernel/drivers/rtl8029.c and of the search of kernel/arch/x86/pci.c.

The driver works on a card of the NE2000 family.  The card is not code of the project: `Card` and `Card.arrive` say what
is assumed about it (a ring of pages of 256 bytes; a frame is stored behind a header of four bytes; the card stores
nothing on a page the driver has not given back; remote DMA goes on at the first page of the ring after the last one).
A byte is a number.  Little endian, as on x86.

Simplifications: the registers of the card are fields, the selection of a register page is left out; the other
interrupt flags, the transmit status and the debug output are left out; the receive status that the driver reads and
ignores (lines 149-151, 407-409) too.  `none` is undefined behaviour: an access outside an array.
-/

namespace Pok
namespace Net

/-- `NE2000_RXBUF`, first page of the ring, kernel/include/drivers/rtl8029.h 236-238; set as `PSTART`, kernel/drivers/rtl8029.c 533. -/
def FIRST : Nat := 72
/-- `NE2000_MEMSZ`, first page after the ring, rtl8029.h 233; set as `PSTOP`, rtl8029.c 536. -/
def STOP : Nat := 128
/-- `RECV_BUF_SZ`, rtl8029.h 29-31: bytes in the queue of a port. -/
def QUEUE : Nat := 20
/-- `sizeof(pok_packet_t)`, rtl8029.h 65-69. -/
def PACKET : Nat := 1514
/-- `ETH_DATA_MINLEN`, `ETH_DATA_MAXLEN`, rtl8029.h 25-26. -/
def ETH_MIN : Nat := 46
@[inherit_doc ETH_MIN] def ETH_MAX : Nat := 1500
/-- `sizeof(eth_hdr_t)`, `sizeof(udp_hdr_t)`, rtl8029.h 49-60. -/
def ETH_HDR : Nat := 14
@[inherit_doc ETH_HDR] def UDP_HDR : Nat := 8

/-! ### The card (assumed) -/

/-- The receiving side of the card: its memory, the registers `BNRY` and `CURR`, the flag `PRX` of `ISR`. -/
structure Card where
  mem : Nat → Nat
  bnry : Nat
  curr : Nat
  prx : Bool

/-- The address that follows from counting `a` upwards in the ring. -/
def ringAddr (a : Nat) : Nat := if a < STOP * 256 then a else a - (STOP - FIRST) * 256

/-- The page `k` pages after page `p`. -/
def ringPage (p k : Nat) : Nat := if p + k < STOP then p + k else p + k - (STOP - FIRST)

/-- `bs` is stored in the ring from page `p` on. -/
def Card.store (m : Nat → Nat) (p : Nat) (bs : List Nat) : Nat → Nat := fun x =>
  let i := if p * 256 ≤ x then x - p * 256 else x + (STOP - FIRST) * 256 - p * 256
  if FIRST * 256 ≤ x ∧ x < STOP * 256 ∧ i < bs.length then bs.getD i 0 else m x

/-- The number of pages for a frame of `n` bytes. -/
def pagesOf (n : Nat) : Nat := (n + 4 + 255) / 256

/-- Pages that the card may still use. -/
def Card.free (k : Card) : Nat := if k.curr ≤ k.bnry then k.bnry - k.curr else k.bnry + (STOP - FIRST) - k.curr

/-- A frame arrives: a header (status, next page, size) and the frame are stored from `CURR` on, if the pages are free;
the datasheet, as the comments of kernel/include/drivers/rtl8029.h tell it. -/
def Card.arrive (k : Card) (f : List Nat) : Card :=
  if pagesOf f.length ≤ k.free then
    let next := ringPage k.curr (pagesOf f.length)
    { mem := Card.store k.mem k.curr ([1, next, (f.length + 4) % 256, (f.length + 4) / 256] ++ f)
      bnry := k.bnry, curr := next, prx := true }
  else k

/-- `ne2000_read`, rtl8029.c 72-100: the bytes got by `count` reads of the DMA port, from `offset` on. -/
def Card.dma (k : Card) (offset i : Nat) : Nat := k.mem (ringAddr (offset + i))

/-! ### The driver -/

/-- `pok_queue_t`, rtl8029.h 71-75. -/
structure Queue where
  len : Nat
  off : Nat
  data : Nat → Nat

/-- What the driver is configured with: `POK_CONFIG_NB_INPUT_VIRTUALPORT`, `POK_CONFIG_NB_GLOBAL_PORTS`,
`pok_global_ports_to_local_ports` and `invalid_local_port`. -/
structure Cfg where
  nIn : Nat
  nGlobal : Nat
  toLocal : Nat → Nat
  invalid : Nat

/-- What the processor is doing in the driver: nothing, the loop of `rtl8029_poll`, the loop of
`rtl8029_poll_and_read` for a port and a length. -/
inductive Mode where
  | idle
  | poll
  | pollRead (port len : Nat)

/-- `s_ne2000_dev`, rtl8029.h 77-83, the card, the packet on the stack of the polling function (`recv_packet`) and, to
observe the driver, the bytes given to the callers of the read functions so far, by port. -/
structure St where
  card : Card
  q : Nat → Queue
  msgs : Nat
  pkt : Nat → Nat
  mode : Mode
  out : Nat → List Nat

/-- A 16-bit field of a packet. -/
def u16 (p : Nat → Nat) (i : Nat) : Nat := p i + 256 * p (i + 1)

/-- `packet->udp.dst` and `packet->udp.len`, at bytes 16 and 18; `packet->data` starts at byte 22. -/
def pktDst (p : Nat → Nat) : Nat := u16 p 16
@[inherit_doc pktDst] def pktLen (p : Nat → Nat) : Nat := u16 p 18
@[inherit_doc pktDst] def pktData (p : Nat → Nat) (i : Nat) : Nat := p (22 + i)

/-- The copy of `rtl8029_enqueue`, rtl8029.c 127-131: `n` bytes left, the next one number `i`. -/
def copyIn (src : Nat → Nat) (data : Nat → Nat) (off i : Nat) : Nat → (Nat → Nat)
  | 0 => data
  | n + 1 => copyIn src (upd data off (src i)) ((off + 1) % QUEUE) (i + 1) n

/-- `rtl8029_enqueue`, rtl8029.c 108-137.  `none`: a global port or a local port outside the tables. -/
def enqueue (c : Cfg) (s : St) : Option St :=
  if pktDst s.pkt < c.nGlobal then
    let port := c.toLocal (pktDst s.pkt)
    if port < c.nIn then
      let q := s.q port
      if (q.len + pktLen s.pkt) % 2 ^ 32 > QUEUE then some s
      else
        let q' : Queue := { len := q.len + pktLen s.pkt, off := q.off
                            data := copyIn (pktData s.pkt) q.data ((q.off + q.len) % QUEUE) 0 (pktLen s.pkt) }
        some { s with q := upd s.q port q', msgs := (s.msgs + 1) % 2 ^ 32 }
    else none
  else none

/-- The copy out of a queue, rtl8029.c 240-243, 281-284: the bytes and the next offset. -/
def copyOut (data : Nat → Nat) (off : Nat) : Nat → List Nat × Nat
  | 0 => ([], off)
  | n + 1 => let r := copyOut data ((off + 1) % QUEUE) n; (data off :: r.1, r.2)

/-- The bytes leave the queue, rtl8029.c 239-246, 280-287.  The destination is written modulo `RECV_BUF_SZ`, line 241;
a queue never holds more. -/
def take (s : St) (port len : Nat) : St :=
  let q := s.q port
  let size := if len < q.len then len else q.len
  let r := copyOut q.data q.off size
  { s with q := upd s.q port { q with off := r.2, len := q.len - size }, out := upd s.out port (s.out port ++ r.1) }

/-- `rtl8029_read`, rtl8029.c 260-288.  The port is not checked: `none` if there is no such queue. -/
def read (c : Cfg) (s : St) (port len : Nat) : Option St :=
  if port < c.nIn then
    if (s.q port).len = 0 then some s else some (take s port len)
  else none

/-- The end of `rtl8029_poll_and_read`, rtl8029.c 212-254. -/
def readPart (c : Cfg) (s : St) (port len : Nat) : Option St :=
  if port < c.nIn then
    if s.msgs = 0 then some { s with card := { s.card with prx := false }, mode := .idle }
    else if (s.q port).len = 0 then some { s with mode := .idle }
    else
      let s := take s port len
      let m := s.msgs - 1
      some { s with msgs := m, mode := .idle, card := { s.card with prx := if m = 0 then false else s.card.prx } }
  else none

/-- The test with which a round begins, rtl8029.c 165-173, 425-433: `start` and `end` are bytes. -/
def last (k : Card) : Bool := k.curr % 256 % STOP == (k.bnry + 1) % 256 % STOP + 1

/-- A round reads the header and the packet, rtl8029.c 178-183, 439-444.  `none`: more bytes than `recv_packet` has;
the count is an `unsigned short`. -/
def fetch (s : St) : Option St :=
  let offset := ((s.card.bnry + 1) % 256) * 256
  let size := s.card.dma offset 2 + 256 * s.card.dma offset 3
  let count := (size + 65532) % 65536
  if count ≤ PACKET then
    some { s with pkt := fun i => if i < count then s.card.dma ((offset + 4) % 65536) i else s.pkt i }
  else none

/-- The next page named by the header of the packet at the boundary (`ne2000_hdr.next`). -/
def hdrNext (k : Card) : Nat := k.dma (((k.bnry + 1) % 256) * 256) 1

/-- The new boundary, rtl8029.c 199-201, 206-208, 448-450, `next` from the header read before. -/
def giveBack (k : Card) (next : Nat) : Card := { k with bnry := (if next > STOP then FIRST - 1 else next - 1) % 256 }

/-- One round of the loop of `rtl8029_poll`, rtl8029.c 420-453; frames arrive between two rounds
(simplified: not within one). -/
def roundPoll (c : Cfg) (s : St) : Option St :=
  if last s.card then some { s with card := { s.card with prx := false }, mode := .idle }
  else (fetch s).bind fun s1 => (enqueue c s1).map fun s2 => { s2 with card := giveBack s2.card (hdrNext s.card) }

/-- One round of the loop of `rtl8029_poll_and_read`, rtl8029.c 161-209: a packet for a global port without local port
is thrown away and ends the loop. -/
def roundPollRead (c : Cfg) (s : St) (port len : Nat) : Option St :=
  if last s.card then readPart c s port len
  else (fetch s).bind fun s1 =>
    if pktDst s1.pkt < c.nGlobal then
      if c.toLocal (pktDst s1.pkt) ≠ c.invalid then
        (enqueue c s1).map fun s2 => { s2 with card := giveBack s2.card (hdrNext s.card) }
      else readPart c { s1 with card := giveBack s1.card (hdrNext s.card) } port len
    else none

/-- What can happen: a frame arrives at the card, a call of a function of the driver begins, the processor goes through
one more round of the loop it is in. -/
inductive Ev where
  | arrive (f : List Nat)
  | poll
  | pollRead (port len : Nat)
  | read (port len : Nat)
  | round

/-- One event.  A call that begins while another one is in its loop, or a round outside a loop, cannot happen: `none`. -/
def step (c : Cfg) (s : St) : Ev → Option St
  | .arrive f => some { s with card := s.card.arrive f }
  | .poll =>
    match s.mode with
    | .idle => if s.card.prx then some { s with mode := .poll } else some s
    | _ => none
  | .pollRead port len =>
    match s.mode with
    | .idle => if s.card.prx then some { s with mode := .pollRead port len } else readPart c s port len
    | _ => none
  | .read port len =>
    match s.mode with
    | .idle => read c s port len
    | _ => none
  | .round =>
    match s.mode with
    | .idle => none
    | .poll => roundPoll c s
    | .pollRead port len => roundPollRead c s port len

/-- A history. -/
def run (c : Cfg) (s : St) : List Ev → Option St
  | [] => some s
  | e :: es => (step c s e).bind fun s => run c s es

/-- After `rtl8029_init`, rtl8029.c 497-598: the registers of lines 540 and 550, empty queues (591-594), no message (503).
Memory of the card and the stack hold anything. -/
def start (mem pkt : Nat → Nat) : St :=
  { card := { mem := mem, bnry := FIRST, curr := FIRST + 1, prx := false }
    q := fun _ => { len := 0, off := 0, data := fun _ => 0 }, msgs := 0, pkt := pkt, mode := .idle, out := fun _ => [] }

/-! ### Sending -/

/-- `NET_DATA_MAXLEN`, `NET_DATA_MINLEN`, rtl8029.h 62-63. -/
def NET_MAX : Nat := ETH_MAX - UDP_HDR
@[inherit_doc NET_MAX] def NET_MIN : Nat := ETH_MIN - UDP_HDR

/-- How much of a message goes into the next frame, rtl8029.c 348-362. -/
def cpyLen (n : Nat) : Nat := if n ≤ NET_MIN then n else if n ≥ NET_MAX then NET_MAX else n

/-- The length of that frame, same lines.  The variable `sndlen` has no declaration: the driver does not compile; a local
variable of at least 16 bits is assumed. -/
def sndLen (n : Nat) : Nat :=
  if n ≤ NET_MIN then ETH_MIN + ETH_HDR else if n ≥ NET_MAX then ETH_MAX + ETH_HDR else ETH_HDR + UDP_HDR + cpyLen n

/-- A 16-bit value, lowest byte first. -/
def bytes16 (v : Nat) : List Nat := [v % 256, v / 256 % 256]

/-- The packet as it is sent, rtl8029.c 312, 326, 341-344, 364-367: the header is filled in, the field `chk` and the bytes
after the data hold what was on the stack (`junk`). -/
def frame (junk : Nat → Nat) (mac dstMac : List Nat) (port dest : Nat) (d : List Nat) (n : Nat) : List Nat :=
  let filled := dstMac ++ mac ++ bytes16 0x4242 ++ bytes16 port ++ bytes16 dest ++ bytes16 d.length
  let pkt : Nat → Nat := fun i => if i < 20 then filled.getD i 0 else
    if 22 ≤ i ∧ i < 22 + d.length then d.getD (i - 22) 0 else junk i
  (List.range n).map pkt

/-- The packet on the stack after a fragment, for the next one. -/
def leave (junk : Nat → Nat) (d : List Nat) : Nat → Nat :=
  fun i => if 22 ≤ i ∧ i < 22 + d.length then d.getD (i - 22) 0 else junk i

/-- The loop over the fragments for one destination, rtl8029.c 346-387: the frames given to the card, and the stack after
them.  The loop ends since a fragment is not empty. -/
def sendTo (junk : Nat → Nat) (mac dstMac : List Nat) (port dest : Nat) (d : List Nat) : List (List Nat) × (Nat → Nat) :=
  if h : d.length = 0 then ([], junk)
  else
    let part := d.take (cpyLen d.length)
    let r := sendTo (leave junk part) mac dstMac port dest (d.drop (cpyLen d.length))
    (frame junk mac dstMac port dest part (sndLen d.length) :: r.1, r.2)
termination_by d.length
decreasing_by
  simp only [List.length_drop]
  have : 0 < cpyLen d.length := by
    unfold cpyLen NET_MIN NET_MAX ETH_MIN ETH_MAX UDP_HDR
    split
    · omega
    · split <;> omega
  omega

/-- The loop over the destinations, rtl8029.c 322-389: `n` destinations left, the next one number `i`.  Without
`POK_NEEDS_MAC_ADDR` the frames are sent to the broadcast address (line 311). -/
def sendLoop (c : NetCfg) (part : Nat) (mac : List Nat) (port : Nat) (d : List Nat) (junk : Nat → Nat) (i : Nat) :
    Nat → Option (List (List Nat))
  | 0 => some []
  | n + 1 =>
    (VirtPort.destination c part port i).bind fun r =>
      match r with
      | (.ok, dest :: _) =>
        let t := sendTo junk mac (List.replicate 6 255) port dest d
        (sendLoop c part mac port d t.2 (i + 1) n).map (t.1 ++ ·)
      | _ => sendLoop c part mac port d junk (i + 1) n

/-- `rtl8029_write`, rtl8029.c 306-390, for partition `part` with the message `d`: the frames given to the card. -/
def write (c : NetCfg) (part : Nat) (mac : List Nat) (junk : Nat → Nat) (port : Nat) (d : List Nat) :
    Option (List (List Nat)) :=
  (VirtPort.nbDestinations c part port).bind fun r =>
    match r with
    | (.ok, n :: _) => sendLoop c part mac port d junk 0 n
    | _ => some []

/-! ### The search for the card -/

/-- The configuration space of the bus: the 32-bit word of a bus, a device, a function and a register (a multiple of 4). -/
abbrev Pci := Nat → Nat → Nat → Nat → Nat

/-- `pci_read`, kernel/arch/x86/pci.c 23-33: the word that contains the register, shifted. -/
def pciRead (p : Pci) (bus dev fn reg : Nat) : Nat := p bus dev fn (reg - reg % 4) / 2 ^ (reg % 4 * 8)

/-- The test of pci.c 46-53. -/
def pciMatch (p : Pci) (vendor device : Nat) (a : Nat × Nat × Nat) : Bool :=
  pciRead p a.1 a.2.1 a.2.2 0x00 % 65536 == vendor && pciRead p a.1 a.2.1 a.2.2 0x02 % 65536 == device
    && pciRead p a.1 a.2.1 a.2.2 0x0E == 0

/-- The order of the three loops of `pci_open`, pci.c 44-46. -/
def pciOrder : List (Nat × Nat × Nat) :=
  (List.range 8).flatMap fun b => (List.range 32).flatMap fun d => (List.range 8).map fun f => (b, d, f)

/-- What `pci_open` stores, pci.c 55-59: place, first base register, interrupt line. -/
structure PciDev where
  bus : Nat
  dev : Nat
  fn : Nat
  bar : Nat
  irq : Nat
deriving DecidableEq

/-- `pci_open`, pci.c 39-65; `none`: no such device. -/
def pciOpen (p : Pci) (vendor device : Nat) : Option PciDev :=
  (pciOrder.find? (pciMatch p vendor device)).map fun a =>
    { bus := a.1, dev := a.2.1, fn := a.2.2, bar := pciRead p a.1 a.2.1 a.2.2 0x10
      irq := pciRead p a.1 a.2.1 a.2.2 0x3C % 256 }

end Net
end Pok
