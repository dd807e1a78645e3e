import Verif.Spec.NetSend
import Verif.Props.Net
import Verif.Props.VirtPort

/-!
# C112, C113, C114: sending to the network, from node to node, the search for the card
-/

namespace Pok
namespace Net

open Spec.Net

/-! ### Frames -/

theorem getD_map_range (g : Nat → Nat) (n i : Nat) (h : i < n) : ((List.range n).map g).getD i 0 = g i := by
  rw [List.getD_eq_getElem?_getD, List.getElem?_map, List.getElem?_range h]
  rfl

theorem filled_getD (a b : List Nat) (ha : a.length = 6) (hb : b.length = 6) (rest : List Nat) (i : Nat) :
    (a ++ b ++ rest).getD (12 + i) 0 = rest.getD i 0 := by
  rw [List.getD_eq_getElem?_getD, List.getD_eq_getElem?_getD, List.getElem?_append_right (by simp [ha, hb])]
  congr 2
  simp [ha, hb]

theorem frame_length (junk : Nat → Nat) (mac dm : List Nat) (port dest : Nat) (d : List Nat) (n : Nat) :
    (frame junk mac dm port dest d n).length = n := by simp [frame]

theorem frame_carries (junk : Nat → Nat) (mac dm : List Nat) (port dest : Nat) (d : List Nat) (n : Nat) (h1 : mac.length = 6)
    (h2 : dm.length = 6) (hd : dest < 65536) (hl : d.length ≤ 1492) (hn : 22 + d.length ≤ n) (hn2 : n ≤ 1514) :
    Carries (frame junk mac dm port dest d n) ⟨dest, d⟩ := by
  have hf : ∀ i, i < 8 → (dm ++ mac ++ bytes16 0x4242 ++ bytes16 port ++ bytes16 dest ++ bytes16 d.length).getD (12 + i) 0 =
      (bytes16 0x4242 ++ bytes16 port ++ bytes16 dest ++ bytes16 d.length).getD i 0 := by
    intro i _
    have := filled_getD dm mac h2 h1 (bytes16 0x4242 ++ bytes16 port ++ bytes16 dest ++ bytes16 d.length) i
    simpa only [List.append_assoc] using this
  refine ⟨?_, ?_, ?_, by rw [frame_length]; exact hn, by rw [frame_length]; exact hn2⟩
  · unfold frame
    simp only
    rw [getD_map_range _ _ _ (by omega), getD_map_range _ _ _ (by omega)]
    rw [if_pos (by omega), if_pos (by omega), hf 4 (by omega), hf 5 (by omega)]
    show dest % 256 + 256 * (dest / 256 % 256) = dest
    omega
  · unfold frame
    simp only
    rw [getD_map_range _ _ _ (by omega), getD_map_range _ _ _ (by omega)]
    rw [if_pos (by omega), if_pos (by omega), hf 6 (by omega), hf 7 (by omega)]
    show d.length % 256 + 256 * (d.length / 256 % 256) = d.length
    omega
  · show List.take d.length _ = d
    apply List.ext_getElem?
    intro i
    by_cases hi : i < d.length
    · rw [List.getElem?_take_of_lt hi, List.getElem?_drop]
      unfold frame
      rw [List.getElem?_map, List.getElem?_range (by omega)]
      simp only [Option.map_some]
      rw [if_neg (by omega), if_pos (by omega), show 22 + i - 22 = i by omega, List.getElem?_eq_getElem hi]
      rw [List.getD_eq_getElem?_getD, List.getElem?_eq_getElem hi]
      rfl
    · rw [List.getElem?_eq_none (by rw [List.length_take]; omega), List.getElem?_eq_none (by omega)]

theorem frame_header (junk : Nat → Nat) (mac : List Nat) (port dest : Nat) (d : List Nat) (n : Nat) (h1 : mac.length = 6)
    (hn : 22 ≤ n) : (frame junk mac (List.replicate 6 255) port dest d n).take 16 =
      [255, 255, 255, 255, 255, 255] ++ mac ++ [0x42, 0x42] ++ [port % 256, port / 256 % 256] := by
  apply List.ext_getElem?
  intro i
  by_cases hi : i < 16
  · rw [List.getElem?_take_of_lt hi]
    unfold frame
    rw [List.getElem?_map, List.getElem?_range (by omega)]
    simp only [Option.map_some]
    rw [if_pos (by omega), List.getD_eq_getElem?_getD]
    rw [List.append_assoc (List.replicate 6 255 ++ mac ++ bytes16 16962 ++ bytes16 port)]
    rw [List.getElem?_append_left (by simp [h1, bytes16]; omega)]
    rw [List.getElem?_eq_getElem (by simp [h1, bytes16]; omega)]
    symm
    exact List.getElem?_eq_getElem (by simp [h1]; omega)
  · rw [List.getElem?_eq_none (by rw [List.length_take]; omega), List.getElem?_eq_none (by simp [h1]; omega)]

theorem cpyLen_eq (n : Nat) : cpyLen n = if n ≤ 38 then n else if n ≥ 1492 then 1492 else n := rfl
theorem sndLen_eq (n : Nat) : sndLen n = if n ≤ 38 then 60 else if n ≥ 1492 then 1514 else 22 + cpyLen n := rfl

theorem len_facts (n : Nat) (h : n ≠ 0) : 0 < cpyLen n ∧ cpyLen n ≤ n ∧ cpyLen n ≤ 1492 ∧ 22 + cpyLen n ≤ sndLen n ∧
    sndLen n ≤ 1514 ∧ 60 ≤ sndLen n := by
  rw [sndLen_eq, cpyLen_eq]
  by_cases h1 : n ≤ 38
  · rw [if_pos h1, if_pos h1]; omega
  · rw [if_neg h1, if_neg h1]
    by_cases h2 : n ≥ 1492
    · rw [if_pos h2, if_pos h2]; omega
    · rw [if_neg h2, if_neg h2]; omega

theorem sendTo_pieces (mac : List Nat) (port dest : Nat) (h1 : mac.length = 6) (hd : dest < 65536) :
    ∀ (n : Nat) (d : List Nat) (junk : Nat → Nat), d.length ≤ n → 
      Pieces mac port (sendTo junk mac (List.replicate 6 255) port dest d).1 dest d := by
  intro n
  induction n with
  | zero =>
    intro d junk hn
    have : d = [] := List.eq_nil_of_length_eq_zero (by omega)
    subst this
    unfold sendTo
    exact ⟨[], .nil, by simp, rfl, by simp⟩
  | succ n ih =>
    intro d junk hn
    unfold sendTo
    by_cases h0 : d.length = 0
    · rw [dif_pos h0]
      have : d = [] := List.eq_nil_of_length_eq_zero h0
      subst this
      exact ⟨[], .nil, by simp, rfl, by simp⟩
    · rw [dif_neg h0]
      obtain ⟨f1, f2, f3, f4, f5, f6⟩ := len_facts d.length h0
      obtain ⟨ms, m1, m2, m3, m4⟩ := ih (d.drop (cpyLen d.length)) (leave junk (d.take (cpyLen d.length)))
        (by rw [List.length_drop]; omega)
      have hlen : (d.take (cpyLen d.length)).length = cpyLen d.length := by rw [List.length_take]; omega
      refine ⟨⟨dest, d.take (cpyLen d.length)⟩ :: ms, .cons ?_ m1, ?_, ?_, ?_⟩
      · exact frame_carries junk mac _ port dest _ _ h1 (by simp) hd (by rw [hlen]; exact f3) (by rw [hlen]; exact f4) f5
      · intro m hm
        rcases List.mem_cons.1 hm with rfl | hm
        · refine ⟨rfl, ?_, by rw [hlen]; exact f3⟩
          intro e
          have : (d.take (cpyLen d.length)).length = 0 := by
            have e' : d.take (cpyLen d.length) = [] := e
            rw [e']; rfl
          omega
        · exact m2 m hm
      · rw [List.flatMap_cons, m3]
        exact List.take_append_drop _ _
      · intro f hf
        rcases List.mem_cons.1 hf with rfl | hf
        · exact ⟨by rw [frame_length]; exact f6, frame_header junk mac port dest _ _ h1 (by omega)⟩
        · exact m4 f hf

theorem allowed_may {c : NetCfg} {part port : Nat} (h : MayWrite c part port) : VirtPort.allowed c part port = some true := by
  obtain ⟨h1, h2, h3⟩ := h
  unfold VirtPort.allowed
  rw [if_neg (by omega), h2]
  simp [h3, Sys.KIND_VIRTUAL]

theorem destination_ok {c : NetCfg} {part port i g : Nat} (h : MayWrite c part port) (hg : (c.dests port)[i]? = some g) :
    VirtPort.destination c part port i = some (.ok, [g]) := by
  have hl : i < (c.dests port).length := (List.getElem?_eq_some_iff.1 hg).1
  unfold VirtPort.destination
  rw [allowed_may h]
  simp only [Option.bind_some, if_true]
  rw [if_neg (by omega), hg]
  rfl

theorem sendLoop_spec {c : NetCfg} {part port : Nat} (h : MayWrite c part port) (mac : List Nat) (d : List Nat)
    (hm : mac.length = 6) (hd : ∀ g, g ∈ c.dests port → g < 65536) : ∀ (n i : Nat) (junk : Nat → Nat),
    i + n = (c.dests port).length → ∃ groups, sendLoop c part mac port d junk i n = some groups.flatten ∧
      List.Forall₂ (fun fs g => Pieces mac port fs g d) groups ((c.dests port).drop i) := by
  intro n
  induction n with
  | zero =>
    intro i junk hi
    refine ⟨[], rfl, ?_⟩
    rw [List.drop_eq_nil_of_le (by omega)]
    exact .nil
  | succ n ih =>
    intro i junk hi
    have hl : i < (c.dests port).length := by omega
    have hg : (c.dests port)[i]? = some ((c.dests port)[i]) := List.getElem?_eq_getElem hl
    simp only [sendLoop]
    rw [destination_ok h hg, Option.bind_some]
    simp only
    obtain ⟨groups, g1, g2⟩ := ih (i + 1)
      (sendTo junk mac (List.replicate 6 255) port (c.dests port)[i] d).2 (by omega)
    refine ⟨(sendTo junk mac (List.replicate 6 255) port (c.dests port)[i] d).1 :: groups, ?_, ?_⟩
    · rw [g1]; rfl
    · rw [List.drop_eq_getElem_cons hl]
      exact .cons (sendTo_pieces mac port _ hm (hd _ (List.getElem_mem hl)) d.length d junk (Nat.le_refl _)) g2

/-- **C112** (sending).  A partition writes data of any length to a virtual port of its own: the card gets, for every
destination of the port in the order of the configuration, frames that carry the data in pieces, complete and in order.
The stack may hold anything before.  Partial: nothing is said about the other bytes of the frames (see the violation),
and the card is assumed to send each frame before the next one is put in its buffer. -/
theorem C112_partial (c : NetCfg) (part port : Nat) (mac d : List Nat) (junk : Nat → Nat) (h : MayWrite c part port)
    (hm : mac.length = 6) (hd : ∀ g, g ∈ c.dests port → g < 65536) :
    ∃ groups, write c part mac junk port d = some groups.flatten ∧
      List.Forall₂ (fun fs g => Pieces mac port fs g d) groups (c.dests port) := by
  unfold write VirtPort.nbDestinations
  rw [allowed_may h]
  simp only [Option.map_some, if_true, Option.bind_some]
  obtain ⟨groups, g1, g2⟩ := sendLoop_spec h mac d hm hd (c.dests port).length 0 junk (by omega)
  exact ⟨groups, g1, by simpa using g2⟩

/-- **C112** (refusal).  A partition writes to a port that does not exist, that another partition has or that is not
virtual: nothing is sent. -/
theorem C112_refused_partial (c : NetCfg) (part port : Nat) (mac d : List Nat) (junk : Nat → Nat)
    (h : c.nbPorts ≤ port ∨ (∃ b, Ports.ownPort c.toPortCfg part port = some b ∧ (b = false ∨ c.kindOf port ≠ 2))) :
    write c part mac junk port d = some [] := by
  have ha : VirtPort.allowed c part port = some false := by
    unfold VirtPort.allowed
    rcases h with h | ⟨b, h1, h2⟩
    · rw [if_pos h]
    · split
      · rfl
      · rw [h1]
        rcases h2 with rfl | h2
        · rfl
        · simp only [Option.map_some]
          rw [decide_eq_false (show ¬ c.kindOf port = Sys.KIND_VIRTUAL from h2), Bool.and_false]
  unfold write VirtPort.nbDestinations
  rw [ha]
  rfl

theorem sendTo_head (junk : Nat → Nat) (mac dm : List Nat) (port dest : Nat) (d : List Nat) (h : d ≠ []) :
    ∃ rest, (sendTo junk mac dm port dest d).1 =
      frame junk mac dm port dest (d.take (cpyLen d.length)) (sndLen d.length) :: rest := by
  unfold sendTo
  rw [dif_neg (by intro e; exact h (List.eq_nil_of_length_eq_zero e))]
  exact ⟨_, rfl⟩

theorem write_head (c : NetCfg) (part port : Nat) (mac d : List Nat) (junk : Nat → Nat) (h : MayWrite c part port)
    (g : Nat) (gs : List Nat) (hg : c.dests port = g :: gs) (hd : d ≠ []) (fs : List (List Nat))
    (hw : write c part mac junk port d = some fs) : ∃ rest,
      fs = frame junk mac (List.replicate 6 255) port g (d.take (cpyLen d.length)) (sndLen d.length) :: rest := by
  unfold write VirtPort.nbDestinations at hw
  rw [allowed_may h, hg] at hw
  simp only [Option.map_some, if_true, Option.bind_some, List.length_cons, sendLoop] at hw
  rw [destination_ok h (i := 0) (g := g) (by rw [hg]; rfl), Option.bind_some] at hw
  simp only at hw
  rw [Option.map_eq_some_iff] at hw
  obtain ⟨rest, _, hr⟩ := hw
  obtain ⟨r2, h2⟩ := sendTo_head junk mac (List.replicate 6 255) port g d hd
  rw [h2] at hr
  exact ⟨r2 ++ rest, by rw [← hr]; rfl⟩

/-- **C112** violated: what the kernel had on its stack goes out on the network: two writes of the same data that only
differ in what the stack held (bytes 20 and 21 of the packet, and in a frame for a short message everything after the
data) give different frames. -/
theorem C112_stack_violated (c : NetCfg) (part port : Nat) (mac d : List Nat) (junk junk' : Nat → Nat)
    (h : MayWrite c part port) (hne : c.dests port ≠ []) (hd : d ≠ []) (hj : junk 20 ≠ junk' 20) (fs : List (List Nat))
    (hw : write c part mac junk port d = some fs) : write c part mac junk' port d ≠ some fs := by
  intro hw'
  cases hg : c.dests port with
  | nil => exact hne hg
  | cons g gs =>
    obtain ⟨r1, e1⟩ := write_head c part port mac d junk h g gs hg hd fs hw
    obtain ⟨r2, e2⟩ := write_head c part port mac d junk' h g gs hg hd fs hw'
    rw [e1] at e2
    have hh := (List.cons.inj e2).1
    have hl : 22 ≤ sndLen d.length := by
      have := len_facts d.length (by intro e; exact hd (List.eq_nil_of_length_eq_zero e))
      omega
    have := congrArg (fun l => l.getD 20 0) hh
    unfold frame at this
    simp only at this
    rw [getD_map_range _ _ _ (by omega), getD_map_range _ _ _ (by omega)] at this
    rw [if_neg (by omega), if_neg (by omega), if_neg (by omega), if_neg (by omega)] at this
    exact hj this

/-! ### From node to node -/

/-- One write of a short message to a port with one destination gives one frame. -/
theorem write_short (c : NetCfg) (part port : Nat) (mac d : List Nat) (junk : Nat → Nat) (h : MayWrite c part port)
    (hm : mac.length = 6) (g : Nat) (hg : c.dests port = [g]) (hg2 : g < 65536) (hd : d ≠ []) (hl : d.length ≤ 38) :
    ∃ f, write c part mac junk port d = some [f] ∧ Carries f ⟨g, d⟩ ∧ f.length ≤ 252 := by
  have hc : cpyLen d.length = d.length := by rw [cpyLen_eq, if_pos hl]
  have hs : sndLen d.length = 60 := by rw [sndLen_eq, if_pos hl]
  have hw : write c part mac junk port d =
      some [frame junk mac (List.replicate 6 255) port g (d.take (cpyLen d.length)) (sndLen d.length)] := by
    unfold write VirtPort.nbDestinations
    rw [allowed_may h, hg]
    simp only [Option.map_some, if_true, Option.bind_some, List.length_cons, List.length_nil, sendLoop]
    rw [destination_ok h (i := 0) (g := g) (by rw [hg]; rfl), Option.bind_some]
    simp only [List.append_nil]
    unfold sendTo
    rw [dif_neg (by intro e; exact hd (List.eq_nil_of_length_eq_zero e))]
    simp only
    have : d.drop (cpyLen d.length) = [] := by rw [hc]; exact List.drop_eq_nil_of_le (Nat.le_refl _)
    rw [this]
    unfold sendTo
    rfl
  refine ⟨_, hw, ?_, by rw [frame_length, hs]; omega⟩
  rw [hc, List.take_of_length_le (Nat.le_refl _), hs]
  exact frame_carries junk mac _ port g d 60 hm (by simp) hg2 (by omega) (by omega) (by omega)

theorem foldl_accept_sum (r : Cfg) (g : Nat) : ∀ (ds : List (List Nat)) (w : Nat → List Nat),
    (w (r.toLocal g)).length + ds.flatten.length ≤ 20 →
    ((ds.map fun d => (⟨g, d⟩ : Msg)).foldl (accept r) w) (r.toLocal g) = w (r.toLocal g) ++ ds.flatten := by
  intro ds
  induction ds with
  | nil => intro w _; simp
  | cons d ds ih =>
    intro w h
    simp only [List.flatten_cons, List.length_append] at h
    simp only [List.map_cons, List.foldl_cons, List.flatten_cons]
    have ha : accept r w ⟨g, d⟩ = upd w (r.toLocal g) (w (r.toLocal g) ++ d) := by
      unfold accept
      rw [if_pos (by show (w (r.toLocal g)).length + d.length ≤ 20; omega)]
    rw [ha, ih _ (by rw [upd_same, List.length_append]; omega), upd_same, List.append_assoc]

/-- **C113** (node to node).  A partition writes messages one after the other to a virtual port that has one destination,
each of 1 to 20 bytes; each write gives one frame.  The frames arrive at the node of the destination, whose driver has
just been initialised; it polls, and a partition there reads 20 bytes from the port.  If all messages but the last have
at most 20 bytes together, it gets these messages, whole and in order.  Partial: the last message stays in the card
(`C111_alone_violated`), longer ones are lost (`C111_long_violated`). -/
theorem C113_partial (c : NetCfg) (part port : Nat) (mac : List Nat) (h : MayWrite c part port) (hm : mac.length = 6)
    (g : Nat) (hg : c.dests port = [g]) (hg2 : g < 65536) (ds : List (List Nat)) (junks : List (Nat → Nat))
    (hj : junks.length = ds.length) (hds : ∀ d, d ∈ ds → d ≠ [] ∧ d.length ≤ 20) (hn : ds ≠ []) (hn2 : ds.length ≤ 54)
    (hsum : ds.dropLast.flatten.length ≤ 20) (r : Cfg) (hr : g < r.nGlobal ∧ r.toLocal g < r.nIn ∧ r.toLocal g ≠ r.invalid)
    (mem pkt : Nat → Nat) :
    ∃ fs : List (List Nat), List.Forall₂ (fun (x : (Nat → Nat) × List Nat) f => write c part mac x.1 port x.2 = some [f])
        (junks.zip ds) fs ∧
      ∃ s, run r (start mem pkt) (batch fs fs.length ++ [.read (r.toLocal g) 20]) = some s ∧
        s.out (r.toLocal g) = ds.dropLast.flatten := by
  have hfr : ∀ (ds : List (List Nat)) (junks : List (Nat → Nat)), junks.length = ds.length →
      (∀ d, d ∈ ds → d ≠ [] ∧ d.length ≤ 20) →
      ∃ fs : List (List Nat), List.Forall₂ (fun (x : (Nat → Nat) × List Nat) f => write c part mac x.1 port x.2 = some [f])
        (junks.zip ds) fs ∧ ShortFrames r fs (ds.map fun d => ⟨g, d⟩) := by
    intro ds
    induction ds with
    | nil =>
      intro junks hj _
      have : junks = [] := List.eq_nil_of_length_eq_zero hj
      subst this
      exact ⟨[], .nil, .nil⟩
    | cons d ds ih =>
      intro junks hj hds
      cases junks with
      | nil => cases hj
      | cons j js =>
        obtain ⟨fs, f1, f2⟩ := ih js (by simpa using hj) (fun d' h' => hds d' (by simp [h']))
        obtain ⟨hd1, hd2⟩ := hds d (by simp)
        obtain ⟨f, w1, w2, w3⟩ := write_short c part port mac d j h hm g hg hg2 hd1 (by omega)
        exact ⟨f :: fs, .cons w1 f1, .cons ⟨w2, w3, hr⟩ f2⟩
  obtain ⟨fs, f1, f2⟩ := hfr ds junks hj hds
  have hlen : fs.length = ds.length := by have := f2.length_eq; simpa using this
  have hne : fs ≠ [] := by
    intro e
    rw [e] at hlen
    exact hn (List.eq_nil_of_length_eq_zero hlen.symm)
  refine ⟨fs, f1, ?_⟩
  obtain ⟨i, a⟩ := inv_start r mem pkt
  obtain ⟨s, r1, r2, r3, r4, r5, r6, r7, m, r8, r9⟩ := run_batch r (start mem pkt) [] i rfl fs _ f2 hne
    (by simp only [List.length_nil]; omega) (by show 73 + fs.length ≠ 128; omega)
  have hw : waiting s (r.toLocal g) = ds.dropLast.flatten := by
    rw [r4, List.nil_append, ← List.map_dropLast, foldl_accept_sum]
    · rfl
    · show 0 + _ ≤ 20; omega
  rw [run_append]
  simp only [List.length_nil, Nat.zero_add] at r1
  rw [r1, Option.bind_some]
  simp only [run, step, r2, read]
  rw [if_pos hr.2.1]
  have hlw := length_waiting s (r.toLocal g)
  have hso : s.out (r.toLocal g) = [] := by rw [r3]; rfl
  split
  · rename_i h0
    refine ⟨s, rfl, ?_⟩
    rw [hso, ← hw]
    exact (List.eq_nil_of_length_eq_zero (by omega)).symm
  · refine ⟨_, rfl, ?_⟩
    simp only [take, upd_same]
    rw [hso, List.nil_append, ← hw, waiting]
    have : (if 20 < (s.q (r.toLocal g)).len then 20 else (s.q (r.toLocal g)).len) = (s.q (r.toLocal g)).len := by
      have := (r9.q (r.toLocal g)).1
      rw [if_neg (by omega)]
    rw [this]

/-- **C113** violated: a partition writes one message of 1 to 20 bytes; its frame arrives at the other node, which polls as
often as it likes: no reader gets anything. -/
theorem C113_one_violated (c : NetCfg) (part port : Nat) (mac : List Nat) (h : MayWrite c part port) (hm : mac.length = 6)
    (g : Nat) (hg : c.dests port = [g]) (hg2 : g < 65536) (d : List Nat) (junk : Nat → Nat) (hd : d ≠ []) (hl : d.length ≤ 20)
    (r : Cfg) (hr : g < r.nGlobal ∧ r.toLocal g < r.nIn ∧ r.toLocal g ≠ r.invalid) (mem pkt : Nat → Nat) (n : Nat) :
    ∃ f, write c part mac junk port d = some [f] ∧
      ∃ s, run r (start mem pkt) ([.arrive f, .poll, .round] ++ List.replicate n .poll) = some s ∧ s.mode = .idle ∧
        ∀ p, s.out p = [] ∧ waiting s p = [] := by
  obtain ⟨f, w1, w2, w3⟩ := write_short c part port mac d junk h hm g hg hg2 hd (by omega)
  exact ⟨f, w1, C111_alone_violated r mem pkt f ⟨g, d⟩ (.cons ⟨w2, w3, hr⟩ .nil) n⟩

/-- **C113** violated: a message of 21 to 38 bytes is lost, also if another one follows it: both are written, their frames
arrive, the other node polls, and nothing waits for the readers. -/
theorem C113_long_violated (c : NetCfg) (part port : Nat) (mac : List Nat) (h : MayWrite c part port) (hm : mac.length = 6)
    (g : Nat) (hg : c.dests port = [g]) (hg2 : g < 65536) (d d' : List Nat) (junk junk' : Nat → Nat) (hd : 20 < d.length)
    (hl : d.length ≤ 38) (hd' : d' ≠ []) (hl' : d'.length ≤ 38)
    (r : Cfg) (hr : g < r.nGlobal ∧ r.toLocal g < r.nIn ∧ r.toLocal g ≠ r.invalid) (mem pkt : Nat → Nat) :
    ∃ f f', write c part mac junk port d = some [f] ∧ write c part mac junk' port d' = some [f'] ∧
      ∃ s, run r (start mem pkt) (batch [f, f'] 2) = some s ∧ s.mode = .idle ∧ ∀ p, s.out p = [] ∧ waiting s p = [] := by
  obtain ⟨f, w1, w2, w3⟩ := write_short c part port mac d junk h hm g hg hg2 (by intro e; rw [e] at hd; cases hd) hl
  obtain ⟨f', w1', w2', w3'⟩ := write_short c part port mac d' junk' h hm g hg hg2 hd' hl'
  exact ⟨f, f', w1, w1', C111_long_violated r mem pkt f f' ⟨g, d⟩ ⟨g, d'⟩ (.cons ⟨w2, w3, hr⟩ (.cons ⟨w2', w3', hr⟩ .nil)) hd⟩

/-! ### The search for a device -/

def place (b d f : Nat) : Nat := (b * 32 + d) * 8 + f

theorem pciOrder_eq : pciOrder = (List.range 2048).map fun n => (n / 256, n / 8 % 32, n % 8) := by decide +kernel

theorem pciMatch_iff (p : Pci) (vendor device b d f : Nat) (hb : b < 8) (hd : d < 32) (hf : f < 8) :
    pciMatch p vendor device (b, d, f) = true ↔ DeviceAt p vendor device b d f := by
  unfold pciMatch DeviceAt pciRead
  simp only [Nat.reduceMod, Nat.reduceSub, Nat.reduceMul, Nat.reducePow, Nat.div_one, Bool.and_eq_true, beq_iff_eq, hb, hd,
    hf, true_and, and_assoc]

theorem find_range (q : Nat → Bool) (n : Nat) : ∀ k, (List.range n).find? q = some k ↔ k < n ∧ q k = true ∧ ∀ j, j < k → q j = false := by
  intro k
  rw [List.find?_range_eq_some]
  simp only [List.mem_range, Bool.not_eq_true']
  constructor
  · rintro ⟨a, b, c⟩; exact ⟨b, a, c⟩
  · rintro ⟨a, b, c⟩; exact ⟨b, a, c⟩

/-- **C114** (the search for a device).  The search finds a device exactly if there is one with these numbers and the
ordinary layout at a place of the first eight buses, and then the one with the lowest bus, device and function number;
it reports its place, its base register and its interrupt line.  Partial: see the violation. -/
theorem C114_partial (p : Pci) (vendor device : Nat) (r : PciDev) :
    pciOpen p vendor device = some r ↔ DeviceAt p vendor device r.bus r.dev r.fn ∧
      (∀ b d f, DeviceAt p vendor device b d f → place r.bus r.dev r.fn ≤ place b d f) ∧
      r.bar = p r.bus r.dev r.fn 16 ∧ r.irq = p r.bus r.dev r.fn 60 % 256 := by
  have hq : ∀ n, n < 2048 → (pciMatch p vendor device (n / 256, n / 8 % 32, n % 8) = true ↔
      DeviceAt p vendor device (n / 256) (n / 8 % 32) (n % 8)) := by
    intro n hn
    exact pciMatch_iff p vendor device _ _ _ (by omega) (by omega) (by omega)
  unfold pciOpen
  rw [pciOrder_eq, List.find?_map, Option.map_map, Option.map_eq_some_iff]
  constructor
  · rintro ⟨k, hk, rfl⟩
    rw [find_range] at hk
    obtain ⟨h1, h2, h3⟩ := hk
    refine ⟨(hq k h1).1 h2, ?_, ?_, ?_⟩
    · intro b d f hd
      show (k / 256 * 32 + k / 8 % 32) * 8 + k % 8 ≤ place b d f
      apply Nat.le_of_not_lt
      intro hlt
      have hk : (k / 256 * 32 + k / 8 % 32) * 8 + k % 8 = k := by omega
      rw [hk] at hlt
      have := h3 _ hlt
      have hb := hd.1
      have hd' := hd.2.1
      have hf := hd.2.2.1
      have e1 : place b d f / 256 = b := by unfold place; omega
      have e2 : place b d f / 8 % 32 = d := by unfold place; omega
      have e3 : place b d f % 8 = f := by unfold place; omega
      simp only [Function.comp, e1, e2, e3] at this
      rw [(pciMatch_iff p vendor device b d f hb hd' hf).2 hd] at this
      cases this
    · simp [pciRead]
    · simp [pciRead]
  · rintro ⟨h1, h2, h3, h4⟩
    have hb := h1.1
    have hd := h1.2.1
    have hf := h1.2.2.1
    have e1 : place r.bus r.dev r.fn / 256 = r.bus := by unfold place; omega
    have e2 : place r.bus r.dev r.fn / 8 % 32 = r.dev := by unfold place; omega
    have e3 : place r.bus r.dev r.fn % 8 = r.fn := by unfold place; omega
    refine ⟨place r.bus r.dev r.fn, ?_, ?_⟩
    · rw [find_range]
      refine ⟨by unfold place; omega, ?_, ?_⟩
      · simp only [Function.comp, e1, e2, e3]
        exact (pciMatch_iff p vendor device _ _ _ hb hd hf).2 h1
      · intro j hj
        have hj2 : j < 2048 := by unfold place at hj; omega
        cases hm : pciMatch p vendor device (j / 256, j / 8 % 32, j % 8) with
        | false => exact hm
        | true =>
          have := h2 _ _ _ ((hq j hj2).1 hm)
          have e : place (j / 256) (j / 8 % 32) (j % 8) = j := by unfold place; omega
          omega
    · simp only [Function.comp, e1, e2, e3]
      cases r
      simp only [pciRead] at *
      simp_all

/-- **C114** (no device).  The search fails exactly if there is no such device. -/
theorem C114_none_partial (p : Pci) (vendor device : Nat) :
    pciOpen p vendor device = none ↔ ∀ b d f, ¬ DeviceAt p vendor device b d f := by
  constructor
  · intro h b d f hd
    unfold pciOpen at h
    rw [pciOrder_eq, Option.map_eq_none_iff, List.find?_eq_none] at h
    have hb := hd.1
    have hd' := hd.2.1
    have hf := hd.2.2.1
    refine h (b, d, f) ?_ ((pciMatch_iff p vendor device b d f hb hd' hf).2 hd)
    rw [List.mem_map]
    refine ⟨place b d f, by rw [List.mem_range]; unfold place; omega, ?_⟩
    have e1 : place b d f / 256 = b := by unfold place; omega
    have e2 : place b d f / 8 % 32 = d := by unfold place; omega
    have e3 : place b d f % 8 = f := by unfold place; omega
    rw [e1, e2, e3]
  · intro h
    cases hp : pciOpen p vendor device with
    | none => rfl
    | some r => exact absurd ((C114_partial p vendor device r).1 hp).1 (h _ _ _)

/-- **C114** violated: the driver compares the header type together with the byte of the self-test and the flag for
several functions: a card with the right numbers and the ordinary layout (header type 0) is not found if it says that
it has several functions or that it can test itself. -/
theorem C114_multi_violated (vendor device w : Nat) (hv : vendor < 65536) (hd : device < 65536) (b d f : Nat)
    (hw : 65536 ≤ w) (p : Pci)
    (hp : p = fun b' d' f' r => if b' = b ∧ d' = d ∧ f' = f then
      if r = 0 then device * 65536 + vendor else if r = 12 then w else 0 else 4294967295)
    (hne : vendor ≠ 65535) :
    p b d f 0 % 65536 = vendor ∧ p b d f 0 / 65536 = device ∧ pciOpen p vendor device = none := by
  subst hp
  refine ⟨?_, ?_, ?_⟩
  · simp only [and_self, if_true]; omega
  · simp only [and_self, if_true]; omega
  · rw [C114_none_partial]
    rintro b' d' f' ⟨_, _, _, h1, _, h3⟩
    by_cases e : b' = b ∧ d' = d ∧ f' = f
    · simp only at h3
      rw [if_pos e, if_neg (by omega), if_pos trivial] at h3
      omega
    · simp only at h1
      rw [if_neg e] at h1
      omega

/-! ### The hypotheses can be met -/

example : MayWrite VirtPort.net 1 1 ∧ VirtPort.net.dests 1 ≠ [] ∧ (VirtPort.net.macOf 1).length = 6 ∧
    ∀ g, g ∈ VirtPort.net.dests 1 → g < 65536 := by
  unfold MayWrite; decide
example : (write VirtPort.net 1 [0, 1, 2, 3, 4, 5] (fun i => i) 1 (List.replicate 1500 7)).map (fun l => l.map List.length) =
    some [1514, 60, 1514, 60] := by decide +kernel
example : (write VirtPort.net 1 [0, 1, 2, 3, 4, 5] (fun i => i) 1 [7, 8]).map
      (fun l => l.map (fun f => (f.drop 12).take 14)) =
    some [[66, 66, 1, 0, 4, 0, 2, 0, 20, 21, 7, 8, 24, 25], [66, 66, 1, 0, 5, 0, 2, 0, 20, 21, 7, 8, 24, 25]] := by
  decide +kernel

/-- A network in which port 1 of partition 1 has the one destination 0. -/
def exNet : NetCfg := { VirtPort.net with dests := fun i => if i = 1 then [0] else [] }

example : MayWrite exNet 1 1 ∧ exNet.dests 1 = [0] ∧ 0 < exNode.nGlobal ∧ exNode.toLocal 0 < exNode.nIn ∧
    exNode.toLocal 0 ≠ exNode.invalid := by
  unfold MayWrite; decide
example : ∃ s, run exNode (start (fun _ => 0) (fun _ => 0))
    (batch ((write exNet 1 [0, 1, 2, 3, 4, 5] (fun i => i) 1 [7, 8]).getD [] ++
      (write exNet 1 [0, 1, 2, 3, 4, 5] (fun i => i) 1 [9]).getD []) 2 ++ [.read 0 20]) = some s ∧ s.out 0 = [7, 8] := by
  have h : (run exNode (start (fun _ => 0) (fun _ => 0))
    (batch ((write exNet 1 [0, 1, 2, 3, 4, 5] (fun i => i) 1 [7, 8]).getD [] ++
      (write exNet 1 [0, 1, 2, 3, 4, 5] (fun i => i) 1 [9]).getD []) 2 ++ [.read 0 20])).map (fun s => s.out 0) =
      some [7, 8] := by decide +kernel
  rw [Option.map_eq_some_iff] at h
  exact h

/-- A bus with the card (vendor 0x10EC, device 0x8029) at device 3 of bus 0. -/
def exBus : Pci := fun b d f r => if b = 0 ∧ d = 3 ∧ f = 0 then
  if r = 0 then 0x8029 * 65536 + 0x10EC else if r = 16 then 0xC101 else if r = 60 then 11 else 0 else 4294967295

example : pciOpen exBus 0x10EC 0x8029 = some ⟨0, 3, 0, 0xC101, 11⟩ ∧ DeviceAt exBus 0x10EC 0x8029 0 3 0 := by
  refine ⟨by decide +kernel, ?_⟩
  unfold DeviceAt; decide
example : pciOpen exBus 0x10EC 0x8139 = none := by decide +kernel
example : Ports.ownPort VirtPort.net.toPortCfg 1 0 = some false ∧ write VirtPort.net 1 [] (fun i => i) 0 [7] = some [] := by
  decide +kernel

end Net
end Pok
