import Verif.Lemmas.PortFlow

/-!
# Ports (C32–C36)
-/

namespace Pok.Ports

/-- A state of the port service reached from boot by some history of calls. -/
def Reached (c : PortCfg) (s : Ports) : Prop := ∃ h os, Ports.run c h Ports.init = some (s, os)

theorem Reached.inv {c : PortCfg} (hc : c.Ok) {s : Ports} (h : Reached c s) : Inv c s := by
  obtain ⟨h, os, hr⟩ := h; exact run_inv hc h _ _ _ (Inv.init c) hr

/-! ## C32 -/

/-- **C32**: after any history, the buffers of two created ports share no byte, and every buffer lies inside
the port memory. -/
theorem C32_disjoint {c : PortCfg} (hc : c.Ok) {s : Ports} (h : Reached c s) :
    (∀ i j b, i ≠ j → (s.P i).ready = true → (s.P j).ready = true → ¬ (s.Owns i b ∧ s.Owns j b)) ∧
    (∀ i b, (s.P i).ready = true → s.Owns i b → b < QUEUE_SIZE) := by
  have hI := h.inv hc
  constructor
  · rintro i j b hij hi hj ⟨h1, h2⟩
    have := hI.disj i j hij hi hj
    unfold Owns at h1 h2
    omega
  · intro i b hi hb
    have := inside_queue (hI.ok i hi)
    unfold Owns at hb
    omega

/-- **C32**: a successful creation makes a port of the requested size and direction out of free memory, or
(for a queueing port) finds it already created; a failed creation changes nothing.  A request larger than what
is left, or than the maximal port size, fails. -/
theorem C32_create {c : PortCfg} (hc : c.Ok) {s s' : Ports} (h : Reached c s) {now : Nat} {o : PortOut} {part size dir : Nat}
    {name : List Nat} {op : PortOp}
    (hop : (∃ fifo, op = .queueingCreate part name size dir fifo) ∨ (∃ refresh, op = .samplingCreate part name size dir refresh))
    (hs : s.step c now op = some (s', o)) :
    ((o.res ≠ .done .ok → s' = s) ∧
     (o.res = .done .ok → ∃ g, o.id = some g ∧ c.owner g = part ∧ (s'.P g).ready = true ∧
       ((s.P g).ready = true ∧ s' = s ∨
        (s.P g).ready = false ∧ (s'.P g).size = size ∧ (s'.P g).direction = dir ∧ size ≤ s.avail ∧
          (∀ i b, (s.P i).ready = true → s.Owns i b → ¬ s'.Owns g b)))) ∧
    (size > s.avail ∨ size > PORT_MAX_SIZE → s' = s ∧ o.res ≠ .done .ok) := by
  have hI := h.inv hc
  have big : ∀ kind, (size > s.avail ∨ size > PORT_MAX_SIZE) →
      create c s part kind name size dir = some (s, .port, none) := by
    intro kind hb
    unfold create
    by_cases h1 : size > PORT_MAX_SIZE
    · rw [if_pos h1]
    · rw [if_neg h1, if_pos (by rcases hb with h | h; exact h; exact absurd h h1)]
  have news : ∀ {g : Nat} {p : Port}, p.index = QUEUE_SIZE - s.avail → s'.P g = p →
      ∀ i b, (s.P i).ready = true → s.Owns i b → ¬ s'.Owns g b := by
    intro g p hp hg i b hi h1 h2
    have := (hI.ok i hi).inside
    unfold Owns at h1 h2
    rw [hg, hp] at h2
    omega
  rcases hop with ⟨fifo, rfl⟩ | ⟨refresh, rfl⟩
  · unfold Ports.step at hs
    simp only [Option.map_eq_some_iff] at hs
    obtain ⟨⟨s1, e, r⟩, hq, hs⟩ := hs
    injection hs with h1 h2
    subst h1
    subst h2
    refine ⟨⟨?_, ?_⟩, ?_⟩
    · intro hne
      rcases queueingCreate_cases hI hq with ⟨h, _⟩ | ⟨g, _, _, _, _, _, _, he, _⟩
      · exact h
      · exact absurd (by simp [he]) hne
    · intro hok
      have he : e = .ok := by simpa using hok
      rcases queueingCreate_cases hI hq with ⟨h, hh⟩ | ⟨g, h1, h2, h3, h4, h5, h6, _, h8, h9, h10, h11, h12⟩
      · obtain ⟨g, rfl, hr, ho⟩ := hh he
        exact ⟨g, rfl, ho, by rw [h]; exact hr, Or.inl ⟨hr, h⟩⟩
      · subst h8
        exact ⟨g, rfl, h2, by rw [h12], Or.inr ⟨h3, by rw [h12], by rw [h12], h5, news rfl h12⟩⟩
    · intro hb
      unfold queueingCreate at hq
      cases fifo with
      | false => simp at hq; exact ⟨hq.1.symm, by simp [← hq.2.1]⟩
      | true =>
        simp only [Bool.not_true, Bool.false_eq_true, if_false, big _ hb] at hq
        simp at hq
        exact ⟨hq.1.symm, by simp [← hq.2.1]⟩
  · unfold Ports.step at hs
    simp only [Option.map_eq_some_iff] at hs
    obtain ⟨⟨s1, e, r⟩, hq, hs⟩ := hs
    injection hs with h1 h2
    subst h1
    subst h2
    refine ⟨⟨?_, ?_⟩, ?_⟩
    · intro hne
      rcases samplingCreate_cases hI hq with ⟨h, _⟩ | ⟨g, _, _, _, _, _, _, he, _⟩
      · exact h
      · exact absurd (by simp [he]) hne
    · intro hok
      have he : e = .ok := by simpa using hok
      rcases samplingCreate_cases hI hq with ⟨h, hh⟩ | ⟨g, h1, h2, h3, h4, h5, h6, _, h8, h9, h10, h11, h12⟩
      · exact absurd he hh
      · subst h8
        exact ⟨g, rfl, h2, by rw [h12], Or.inr ⟨h3, by rw [h12], by rw [h12], h5, news rfl h12⟩⟩
    · intro hb
      unfold samplingCreate at hq
      simp only [big _ hb] at hq
      simp at hq
      exact ⟨hq.1.symm, by simp [← hq.2.1]⟩

/-- **C32**, use of the buffers: a call changes only bytes of the ports it may touch, and a created port keeps
its place, size, direction and kind for ever. -/
theorem C32_stays {c : PortCfg} (hc : c.Ok) {s s' : Ports} (h : Reached c s) {now : Nat} {op : PortOp} {o : PortOut}
    (hs : s.step c now op = some (s', o)) :
    (∀ b, (∀ i, Touches c s op i → (s.P i).ready = true → ¬ s.Owns i b) → s'.data b = s.data b) ∧
    (∀ i, (s.P i).ready = true → (s'.P i).ready = true ∧ (s'.P i).index = (s.P i).index ∧
      (s'.P i).size = (s.P i).size ∧ (s'.P i).direction = (s.P i).direction ∧ (s'.P i).kind = (s.P i).kind) := by
  obtain ⟨_, w⟩ := step_effect hc (h.inv hc) hs
  exact ⟨w.data, fun i hi => ⟨w.ready i hi, w.index i hi, w.size i hi, w.dir i hi, w.kind i hi⟩⟩

/-! ## C35 -/

/-- **C35** (partial): a data call that the rules do not allow returns an error and changes nothing.
Missing: the identifier one past the end of the table, and a sampling write to a queueing port (see
`C35_boundary_violated` and `C35_kind_violated`). -/
theorem C35_refused_partial (c : PortCfg) (s : Ports) (now : Nat) (op : PortOp) (hno : ¬ Allowed c s op)
    (hb : portOf op ≠ some c.nbPorts)
    (hw : ∀ part id bs, op = .samplingWrite part id bs → (s.P id).kind = KIND_SAMPLING) :
    ∃ o e, s.step c now op = some (s, o) ∧ o.res = .done e ∧ e ≠ .ok ∧ o.bytes = [] := by
  have own : ∀ part id, id ≠ c.nbPorts → ¬ (id < c.nbPorts ∧ c.owner id = part) → ownPort c part id = some false := by
    intro part id hne hn
    unfold ownPort
    by_cases h1 : id > c.nbPorts
    · rw [if_pos h1]
    · rw [if_neg h1, if_neg hne]
      congr 1
      apply decide_eq_false
      intro ho; exact hn ⟨by omega, ho⟩
  have own' : ∀ part id, id < c.nbPorts → c.owner id = part → ownPort c part id = some true := by
    intro part id h1 h2
    unfold ownPort
    rw [if_neg (by omega), if_neg (by omega)]
    simp [h2]
  have send : ∀ part id (bs : List Nat) abs, id ≠ c.nbPorts →
      ¬ (id < c.nbPorts ∧ c.owner id = part ∧ (s.P id).ready = true ∧ (s.P id).direction = DIR_OUT ∧
        (s.P id).kind = KIND_QUEUEING) → ∃ e, sendAt c s now part id bs abs = some (s, .done e) ∧ e ≠ .ok := by
    intro part id bs abs hne hn
    unfold sendAt
    by_cases h1 : id > c.nbPorts
    · rw [if_pos h1]; exact ⟨_, rfl, by simp⟩
    rw [if_neg h1]
    by_cases h2 : bs.length = 0
    · rw [if_pos h2]; exact ⟨_, rfl, by simp⟩
    rw [if_neg h2]
    by_cases ho : id < c.nbPorts ∧ c.owner id = part
    · rw [own' part id ho.1 ho.2]
      simp only
      by_cases h3 : (s.P id).ready = false
      · rw [if_pos h3]; exact ⟨_, rfl, by simp⟩
      rw [if_neg h3]
      by_cases h4 : bs.length > (s.P id).size
      · rw [if_pos h4]; exact ⟨_, rfl, by simp⟩
      rw [if_neg h4]
      by_cases h5 : (s.P id).direction ≠ DIR_OUT
      · rw [if_pos h5]; exact ⟨_, rfl, by simp⟩
      rw [if_neg h5]
      by_cases h6 : (s.P id).partition ≠ part
      · rw [if_pos h6]; exact ⟨_, rfl, by simp⟩
      rw [if_neg h6]
      by_cases h7 : (s.P id).kind ≠ KIND_QUEUEING
      · rw [if_pos h7]; exact ⟨_, rfl, by simp⟩
      exact absurd ⟨ho.1, ho.2, by simpa using h3, by simpa using h5, by simpa using h7⟩ hn
    · rw [own part id hne ho]; exact ⟨_, rfl, by simp⟩
  have recv : ∀ part id maxlen abs, id ≠ c.nbPorts →
      ¬ (id < c.nbPorts ∧ c.owner id = part ∧ (s.P id).ready = true ∧ (s.P id).direction = DIR_IN ∧
        (s.P id).kind = KIND_QUEUEING) → ∃ e, receiveAt c s now part id maxlen abs = some (s, .done e, []) ∧ e ≠ .ok := by
    intro part id maxlen abs hne hn
    unfold receiveAt
    by_cases h2 : maxlen = 0
    · rw [if_pos h2]; exact ⟨_, rfl, by simp⟩
    rw [if_neg h2]
    by_cases h1 : id > c.nbPorts
    · rw [if_pos h1]; exact ⟨_, rfl, by simp⟩
    rw [if_neg h1]
    by_cases ho : id < c.nbPorts ∧ c.owner id = part
    · rw [own' part id ho.1 ho.2]
      simp only
      by_cases h3 : (s.P id).ready = false
      · rw [if_pos h3]; exact ⟨_, rfl, by simp⟩
      rw [if_neg h3]
      by_cases h7 : (s.P id).kind ≠ KIND_QUEUEING
      · rw [if_pos h7]; exact ⟨_, rfl, by simp⟩
      rw [if_neg h7]
      by_cases h5 : (s.P id).direction ≠ DIR_IN
      · rw [if_pos h5]; exact ⟨_, rfl, by simp⟩
      exact absurd ⟨ho.1, ho.2, by simpa using h3, by simpa using h5, by simpa using h7⟩ hn
    · rw [own part id hne ho]; exact ⟨_, rfl, by simp⟩
  cases op with
  | queueingCreate => exact absurd trivial hno
  | samplingCreate => exact absurd trivial hno
  | flushPartition => exact absurd trivial hno
  | flushAll => exact absurd trivial hno
  | samplingWrite part id bs =>
    have hne : id ≠ c.nbPorts := by simpa [portOf] using hb
    have hk := hw part id bs rfl
    unfold Allowed at hno
    have : ∃ e, samplingWrite c s now part id (bs.take (bs.length % 256)) = some (s, .done e) ∧ e ≠ .ok := by
      unfold samplingWrite
      by_cases h1 : id > c.nbPorts
      · rw [if_pos h1]; exact ⟨_, rfl, by simp⟩
      rw [if_neg h1]
      by_cases ho : id < c.nbPorts ∧ c.owner id = part
      · rw [own' part id ho.1 ho.2]
        simp only
        by_cases h3 : (s.P id).ready = false
        · rw [if_pos h3]; exact ⟨_, rfl, by simp⟩
        rw [if_neg h3]
        by_cases h4 : (bs.take (bs.length % 256)).length > (s.P id).size
        · rw [if_pos h4]; exact ⟨_, rfl, by simp⟩
        rw [if_neg h4]
        by_cases h5 : (s.P id).direction ≠ DIR_OUT
        · rw [if_pos h5]; exact ⟨_, rfl, by simp⟩
        exact absurd ⟨ho.1, ho.2, by simpa using h3, by simpa using h5, hk⟩ hno
      · rw [own part id hne ho]; exact ⟨_, rfl, by simp⟩
    obtain ⟨e, h1, h2⟩ := this
    exact ⟨_, e, by simp only [Ports.step, h1]; rfl, rfl, h2, rfl⟩
  | samplingRead part id uptr =>
    have hne : id ≠ c.nbPorts := by simpa [portOf] using hb
    unfold Allowed at hno
    have : ∃ e, samplingRead c s now part id uptr = some (s, .done e, {}) ∧ e ≠ .ok := by
      unfold samplingRead
      by_cases h1 : id > c.nbPorts
      · rw [if_pos h1]; exact ⟨_, rfl, by simp⟩
      rw [if_neg h1]
      by_cases ho : id < c.nbPorts ∧ c.owner id = part
      · rw [own' part id ho.1 ho.2]
        simp only
        by_cases h3 : (s.P id).ready = false
        · rw [if_pos h3]; exact ⟨_, rfl, by simp⟩
        rw [if_neg h3]
        by_cases h7 : (s.P id).kind ≠ KIND_SAMPLING
        · rw [if_pos h7]; exact ⟨_, rfl, by simp⟩
        rw [if_neg h7]
        by_cases h5 : (s.P id).direction ≠ DIR_IN
        · rw [if_pos h5]; exact ⟨_, rfl, by simp⟩
        exact absurd ⟨ho.1, ho.2, by simpa using h3, by simpa using h5, by simpa using h7⟩ hno
      · rw [own part id hne ho]; exact ⟨_, rfl, by simp⟩
    obtain ⟨e, h1, h2⟩ := this
    exact ⟨_, e, by simp only [Ports.step, h1]; rfl, rfl, h2, rfl⟩
  | send part id bs timeout =>
    obtain ⟨e, h1, h2⟩ := send part id (bs.take (bs.length % 256)) (LockObj.mkDeadline timeout now) (by simpa [portOf] using hb) hno
    exact ⟨_, e, by simp only [Ports.step, queueingSend, h1]; rfl, rfl, h2, rfl⟩
  | sendResume part id bs abs =>
    obtain ⟨e, h1, h2⟩ := send part id (bs.take (bs.length % 256)) abs (by simpa [portOf] using hb) hno
    exact ⟨_, e, by simp only [Ports.step, h1]; rfl, rfl, h2, rfl⟩
  | receive part id maxlen timeout =>
    obtain ⟨e, h1, h2⟩ := recv part id maxlen (LockObj.mkDeadline timeout now) (by simpa [portOf] using hb) hno
    exact ⟨_, e, by simp only [Ports.step, queueingReceive, h1]; rfl, rfl, h2, rfl⟩
  | receiveResume part id maxlen abs =>
    obtain ⟨e, h1, h2⟩ := recv part id maxlen abs (by simpa [portOf] using hb) hno
    exact ⟨_, e, by simp only [Ports.step, h1]; rfl, rfl, h2, rfl⟩

/-- **C35** is false for the identifier equal to the number of ports: every data call with it reads outside the
table of owners (whatever the state, the configuration and the other arguments, lengths zero excepted). -/
theorem C35_boundary_violated (c : PortCfg) (s : Ports) (now part uptr : Nat) (bs : List Nat) (timeout maxlen : Nat)
    (hm : maxlen ≠ 0) (hbs : bs.length % 256 ≠ 0) :
    s.step c now (.samplingWrite part c.nbPorts bs) = none ∧ s.step c now (.samplingRead part c.nbPorts uptr) = none ∧
    s.step c now (.send part c.nbPorts bs timeout) = none ∧ s.step c now (.receive part c.nbPorts maxlen timeout) = none := by
  have own : ownPort c part c.nbPorts = none := by unfold ownPort; simp
  have hl : ¬ (min (bs.length % 256) bs.length = 0) := by
    have := Nat.mod_le bs.length 256
    omega
  refine ⟨?_, ?_, ?_, ?_⟩
  · simp [Ports.step, samplingWrite, own]
  · simp [Ports.step, samplingRead, own]
  · simp only [Ports.step, queueingSend, sendAt, own, List.length_take]
    rw [if_neg (Nat.lt_irrefl _), if_neg hl]; rfl
  · simp [Ports.step, queueingReceive, receiveAt, own, hm]

/-! ## C36 -/

/-- **C36**: a flush changes only the OUT ports of the flushed partition and their configured, created IN
destinations: every other port keeps its state, and the bytes and the contents of every other created port
are unchanged. -/
theorem C36_flush {c : PortCfg} (hc : c.Ok) {s s' : Ports} (h : Reached c s) {now p : Nat} {o : PortOut}
    (hs : s.step c now (.flushPartition p) = some (s', o)) :
    ∀ j, ¬ FlushTouches c s p j →
      s'.P j = s.P j ∧ s'.messageOf j = s.messageOf j ∧
      ((s.P j).ready = true → ∀ b, s.Owns j b → s'.data b = s.data b) := by
  have hI := h.inv hc
  obtain ⟨_, w⟩ := step_effect hc hI hs
  intro j hj
  refine ⟨w.other j hj, w.messageOf hI hj, ?_⟩
  intro hr b hb
  apply w.data
  intro i hi hir hib
  have hij : i ≠ j := fun e => hj (e ▸ hi)
  have := hI.disj i j hij hir hr
  unfold Owns at hb hib
  omega

/-- **C36** for the flush of several partitions (each major frame). -/
theorem C36_flushAll {c : PortCfg} (hc : c.Ok) {s s' : Ports} (h : Reached c s) {now : Nat} {ps : List Nat} {o : PortOut}
    (hs : s.step c now (.flushAll ps) = some (s', o)) :
    ∀ j, (∀ p ∈ ps, ¬ FlushTouches c s p j) →
      s'.P j = s.P j ∧ s'.messageOf j = s.messageOf j ∧
      ((s.P j).ready = true → ∀ b, s.Owns j b → s'.data b = s.data b) := by
  have hI := h.inv hc
  obtain ⟨_, w⟩ := step_effect hc hI hs
  intro j hj
  have hj' : ¬ Touches c s (.flushAll ps) j := by rintro ⟨p, hp, ht⟩; exact hj p hp ht
  refine ⟨w.other j hj', w.messageOf hI hj', ?_⟩
  intro hr b hb
  apply w.data
  intro i hi hir hib
  have hij : i ≠ j := fun e => hj' (e ▸ hi)
  have := hI.disj i j hij hir hr
  unfold Owns at hb hib
  omega

/-- A flush never fails (no access outside the port memory or the tables), in any reachable state. -/
theorem C36_total {c : PortCfg} (hc : c.Ok) {s : Ports} (h : Reached c s) (now p : Nat) :
    ∃ s' o, s.step c now (.flushPartition p) = some (s', o) := by
  obtain ⟨s', h1, _⟩ := flushPartition_within hc (now := now) (p := p) (h.inv hc)
  exact ⟨s', {}, by simp [Ports.step, h1]⟩

/-! ## C34 -/

/-- What keeps one call from losing bytes between `src` and `d`: a send to `src` has less than 256 bytes and
fits in what is left, nobody uses a sampling write on `src`, the two ports are created with their directions,
and when `src` may be flushed `d` has room (see `RoomFor`). -/
def StepFits (c : PortCfg) (src d : Nat) (s : Ports) : PortOp → Prop
  | .send _ id bs _ => id = src → bs.length < 256 ∧ (s.queueOf src).length + bs.length ≤ (s.P src).size
  | .sendResume _ id bs _ => id = src → bs.length < 256 ∧ (s.queueOf src).length + bs.length ≤ (s.P src).size
  | .samplingWrite _ id _ => id ≠ src
  | .queueingCreate _ name _ dir _ => (findPort c KIND_QUEUEING name = some src → dir = DIR_OUT) ∧
      (findPort c KIND_QUEUEING name = some d → dir = DIR_IN)
  | .flushPartition p => src ∈ c.portsOf p → RoomFor s src d
  | .flushAll ps => (∃ p ∈ ps, src ∈ c.portsOf p) → RoomFor s src d
  | _ => True

/-- No call of the history loses bytes. -/
def Lossless (c : PortCfg) (src d : Nat) : List (Nat × PortOp) → Ports → Prop
  | [], _ => True
  | (now, op) :: rest, s => StepFits c src d s op ∧
      ∀ s' o, s.step c now op = some (s', o) → Lossless c src d rest s'

theorem send_flow {c : PortCfg} {src d : Nat} (rt : Route c KIND_QUEUEING src d) {s s' : Ports} (hI : Inv c s)
    (he : Ends s src d) {now part id abs : Nat} {bs : List Nat} {r : PRes}
    (hfit : id = src → bs.length < 256 ∧ (s.queueOf src).length + bs.length ≤ (s.P src).size)
    (h : sendAt c s now part id (bs.take (bs.length % 256)) abs = some (s', r)) :
    s'.queueOf d = s.queueOf d ∧ s'.queueOf src = s.queueOf src ++ (if id = src ∧ r = .done .ok then bs else []) := by
  rcases sendAt_cases h with ⟨rfl, hne⟩ | ⟨_, _, hr, h0, hl, hd, hk, _, hok, hav, s1, e, hw, rfl⟩
  · rw [if_neg (fun hh => hne hh.2)]; simp
  · obtain ⟨g4, _⟩ := dataWrite_effect hI hr hl hw
    have hid : id ≠ d := by
      rintro rfl; rw [he.2 hr] at hd; simp [DIR_IN, DIR_OUT] at hd
    refine ⟨(g4.within hr).queueOf hI (Ne.symm hid) rt.dKind, ?_⟩
    by_cases hs : id = src
    · subst hs
      obtain ⟨hlt, hroom⟩ := hfit rfl
      rw [if_pos ⟨rfl, hok⟩]
      have htake : bs.take (bs.length % 256) = bs := by rw [Nat.mod_eq_of_lt hlt, List.take_length]
      rw [htake] at hw hl h0 hav
      have hf : (s.P id).full = false := by
        cases hf : (s.P id).full with
        | false => rfl
        | true => unfold availableSize at hav; rw [hf] at hav; simp at hav; rw [hav] at h0; simp at h0
      rw [queue_length] at hroom
      obtain ⟨s2, w1, _, _, w4, _⟩ := portWrite_queue (now := now) hI hr hk hf hl (by omega)
      rw [hw] at w1
      injection w1 with w1; injection w1 with w1 _
      subst w1
      rw [← w4 h0 hroom]
      unfold Ports.queueOf; simp [setPort, held]
    · rw [if_neg (fun hh => hs hh.1), List.append_nil]
      exact (g4.within hr).queueOf hI (fun hh => hs hh.symm) rt.srcKind

theorem receive_flow {c : PortCfg} {src d : Nat} (rt : Route c KIND_QUEUEING src d) {s s' : Ports} (hI : Inv c s)
    (he : Ends s src d) {now part id maxlen abs : Nat} {bs : List Nat} {r : PRes}
    (h : receiveAt c s now part id maxlen abs = some (s', r, bs)) :
    s'.queueOf src = s.queueOf src ∧ (if id = d then bs else []) ++ s'.queueOf d = s.queueOf d := by
  rcases receiveAt_cases h with ⟨rfl, _, rfl⟩ | ⟨_, _, hr, hm, hd, hk, _, _, hem, e, b, hg, hbs⟩
  · simp
  · obtain ⟨g1, g2, g3, g4, g5⟩ := receive_effect hI hr hk hem hm hg
    have hid : id ≠ src := by
      rintro rfl; rw [he.1 hr] at hd; simp [DIR_IN, DIR_OUT] at hd
    refine ⟨(g4.within hr).queueOf hI (Ne.symm hid) rt.srcKind, ?_⟩
    by_cases hs : id = d
    · subst hs
      rw [if_pos rfl, hbs, if_pos g1, g2, g3, List.take_append_drop]
    · rw [if_neg hs, List.nil_append]
      exact (g4.within hr).queueOf hI (fun hh => hs hh.symm) rt.dKind

/-- Bytes sent to `src` by one call. -/
def stepSent (src : Nat) (op : PortOp) (o : PortOut) : List Nat := sentTo src [(0, op)] [o]
/-- Bytes received from `d` by one call. -/
def stepReceived (d : Nat) (op : PortOp) (o : PortOut) : List Nat := receivedFrom d [(0, op)] [o]

theorem sentTo_cons (i now : Nat) (op : PortOp) (o : PortOut) (h : List (Nat × PortOp)) (os : List PortOut) :
    sentTo i ((now, op) :: h) (o :: os) = stepSent i op o ++ sentTo i h os := by
  unfold stepSent; cases op <;> simp [sentTo]

theorem receivedFrom_cons (i now : Nat) (op : PortOp) (o : PortOut) (h : List (Nat × PortOp)) (os : List PortOut) :
    receivedFrom i ((now, op) :: h) (o :: os) = stepReceived i op o ++ receivedFrom i h os := by
  unfold stepReceived; cases op <;> simp [receivedFrom]

theorem step_flow {c : PortCfg} (hc : c.Ok) {src d : Nat} (rt : Route c KIND_QUEUEING src d) {s s' : Ports}
    (hI : Inv c s) (he : Ends s src d) {now : Nat} {op : PortOp} {o : PortOut} (hfit : StepFits c src d s op)
    (h : s.step c now op = some (s', o)) :
    Ends s' src d ∧
      stepReceived d op o ++ s'.queueOf d ++ s'.queueOf src = s.queueOf d ++ s.queueOf src ++ stepSent src op o := by
  obtain ⟨hI', w⟩ := step_effect hc hI h
  -- directions of ports that were already created
  have ends_of : (∀ j, (s'.P j).ready = true → (s.P j).ready = true) → Ends s' src d := by
    intro hready
    exact ⟨fun hr => by rw [w.dir src (hready src hr)]; exact he.1 (hready src hr),
      fun hr => by rw [w.dir d (hready d hr)]; exact he.2 (hready d hr)⟩
  have ready_one : ∀ id, (∀ j, Touches c s op j → j = id) → ((s'.P id).ready = true → (s.P id).ready = true) →
      ∀ j, (s'.P j).ready = true → (s.P j).ready = true := by
    intro id ht hid j hj
    by_cases e : j = id
    · subst e; exact hid hj
    · rw [w.other j (fun hh => e (ht j hh))] at hj; exact hj
  have fresh_q : ∀ g, (s.P g).ready = false → (s'.P g).empty = true → s'.queueOf g = s.queueOf g := by
    intro g h1 h2
    rw [queue_fresh hI h1]
    unfold Ports.queueOf; simp [held, h2]
  cases op with
  | queueingCreate part name size dir fifo =>
    unfold Ports.step at h
    simp only [Option.map_eq_some_iff] at h
    obtain ⟨⟨s1, e, r⟩, hq, h⟩ := h
    injection h with h h'
    subst h
    subst h'
    have hs : stepSent src (.queueingCreate part name size dir fifo) { res := .done e, id := r } = [] := rfl
    have hr' : stepReceived d (.queueingCreate part name size dir fifo) { res := .done e, id := r } = [] := rfl
    rw [hs, hr', List.append_nil, List.nil_append]
    rcases queueingCreate_cases hI hq with ⟨h, _⟩ | ⟨g, h1, h2, h3, h4, h5, h6, _, _, h9, h10, h11, h12⟩
    · subst h; exact ⟨he, rfl⟩
    · have q : ∀ j, c.kindOf j = KIND_QUEUEING → s1.queueOf j = s.queueOf j := by
        intro j hk
        by_cases e : j = g
        · subst e; exact fresh_q j h3 (by rw [h12])
        · exact w.queueOf hI (fun hh => e (by have := hh.1; rw [h1] at this; exact (Option.some.inj this).symm)) hk
      refine ⟨⟨?_, ?_⟩, by rw [q src rt.srcKind, q d rt.dKind]⟩
      · intro hr
        by_cases e : src = g
        · subst e; rw [h12]; exact hfit.1 h1
        · rw [h11 src e] at hr ⊢; exact he.1 hr
      · intro hr
        by_cases e : d = g
        · subst e; rw [h12]; exact hfit.2 h1
        · rw [h11 d e] at hr ⊢; exact he.2 hr
  | samplingCreate part name size dir refresh =>
    unfold Ports.step at h
    simp only [Option.map_eq_some_iff] at h
    obtain ⟨⟨s1, e, r⟩, hq, h⟩ := h
    injection h with h h'
    subst h
    subst h'
    have hs : stepSent src (.samplingCreate part name size dir refresh) { res := .done e, id := r } = [] := rfl
    have hr' : stepReceived d (.samplingCreate part name size dir refresh) { res := .done e, id := r } = [] := rfl
    rw [hs, hr', List.append_nil, List.nil_append]
    rcases samplingCreate_cases hI hq with ⟨h, _⟩ | ⟨g, h1, h2, h3, h4, h5, h6, _, _, h9, h10, h11, h12⟩
    · subst h; exact ⟨he, rfl⟩
    · obtain ⟨_, _, f3⟩ := findPort_spec h1
      have hsg : src ≠ g := by rintro rfl; have := rt.srcKind; rw [f3] at this; simp [KIND_QUEUEING, KIND_SAMPLING] at this
      have hdg : d ≠ g := by rintro rfl; have := rt.dKind; rw [f3] at this; simp [KIND_QUEUEING, KIND_SAMPLING] at this
      have q : ∀ j, j ≠ g → c.kindOf j = KIND_QUEUEING → s1.queueOf j = s.queueOf j := by
        intro j e hk
        exact w.queueOf hI (fun hh => e (by have := hh.1; rw [h1] at this; exact (Option.some.inj this).symm)) hk
      refine ⟨⟨?_, ?_⟩, by rw [q src hsg rt.srcKind, q d hdg rt.dKind]⟩
      · intro hr; rw [h11 src hsg] at hr ⊢; exact he.1 hr
      · intro hr; rw [h11 d hdg] at hr ⊢; exact he.2 hr
  | samplingWrite part id bs =>
    have h0 := h
    unfold Ports.step at h
    simp only [Option.map_eq_some_iff] at h
    obtain ⟨⟨s1, r⟩, hq, h⟩ := h
    injection h with h h'
    subst h
    subst h'
    have hs : stepSent src (.samplingWrite part id bs) { res := r } = [] := rfl
    have hr' : stepReceived d (.samplingWrite part id bs) { res := r } = [] := rfl
    rw [hs, hr', List.append_nil, List.nil_append]
    rcases samplingWrite_cases hq with ⟨h, _⟩ | ⟨_, _, hr, hl, hd, _, _, s2, e, hw, h⟩
    · subst h; exact ⟨he, rfl⟩
    · have hid : id ≠ d := by
        rintro rfl; rw [he.2 hr] at hd; simp [DIR_IN, DIR_OUT] at hd
      exact ⟨ends_of (ready_one id (fun j hj => hj) (fun _ => hr)),
        by rw [w.queueOf hI (fun hh => hid hh.symm) rt.dKind, w.queueOf hI (fun hh => hfit hh.symm) rt.srcKind]⟩
  | samplingRead part id uptr =>
    unfold Ports.step at h
    simp only [Option.map_eq_some_iff] at h
    obtain ⟨⟨s1, r, out⟩, hq, h⟩ := h
    injection h with h h'
    subst h
    subst h'
    have hs : stepSent src (.samplingRead part id uptr) { res := r, bytes := out.bytes, valid := out.valid } = [] := rfl
    have hr' : stepReceived d (.samplingRead part id uptr) { res := r, bytes := out.bytes, valid := out.valid } = [] := rfl
    rw [hs, hr', List.append_nil, List.nil_append]
    rcases samplingRead_cases hq with ⟨h, _⟩ | ⟨_, _, hr, hk, _⟩
    · subst h; exact ⟨he, rfl⟩
    · have hkk := (hI.ok id hr).kindOf
      have hid : d ≠ id := by rintro rfl; rw [hk, rt.dKind] at hkk; simp [KIND_QUEUEING, KIND_SAMPLING] at hkk
      have hid2 : src ≠ id := by rintro rfl; rw [hk, rt.srcKind] at hkk; simp [KIND_QUEUEING, KIND_SAMPLING] at hkk
      exact ⟨ends_of (ready_one id (fun j hj => hj) (fun _ => hr)),
        by rw [w.queueOf hI hid rt.dKind, w.queueOf hI hid2 rt.srcKind]⟩
  | send part id bs timeout =>
    unfold Ports.step at h
    simp only [Option.map_eq_some_iff] at h
    obtain ⟨⟨s1, r⟩, hq, h⟩ := h
    injection h with h h'
    subst h
    subst h'
    have hs : stepSent src (.send part id bs timeout) { res := r } = if id = src ∧ r = .done .ok then bs else [] := by
      simp [stepSent, sentTo]
    have hr' : stepReceived d (.send part id bs timeout) { res := r } = [] := rfl
    obtain ⟨a, b⟩ := send_flow rt hI he hfit hq
    refine ⟨ends_of (ready_one id (fun j hj => hj) ?_), by rw [hs, hr', a, b]; simp⟩
    rcases sendAt_cases hq with ⟨h, _⟩ | ⟨_, _, hr, _⟩
    · rw [h]; exact fun hh => hh
    · exact fun _ => hr
  | sendResume part id bs abs =>
    unfold Ports.step at h
    simp only [Option.map_eq_some_iff] at h
    obtain ⟨⟨s1, r⟩, hq, h⟩ := h
    injection h with h h'
    subst h
    subst h'
    have hs : stepSent src (.sendResume part id bs abs) { res := r } = if id = src ∧ r = .done .ok then bs else [] := by
      simp [stepSent, sentTo]
    have hr' : stepReceived d (.sendResume part id bs abs) { res := r } = [] := rfl
    obtain ⟨a, b⟩ := send_flow rt hI he hfit hq
    refine ⟨ends_of (ready_one id (fun j hj => hj) ?_), by rw [hs, hr', a, b]; simp⟩
    rcases sendAt_cases hq with ⟨h, _⟩ | ⟨_, _, hr, _⟩
    · rw [h]; exact fun hh => hh
    · exact fun _ => hr
  | receive part id maxlen timeout =>
    unfold Ports.step at h
    simp only [Option.map_eq_some_iff] at h
    obtain ⟨⟨s1, r, bs⟩, hq, h⟩ := h
    injection h with h h'
    subst h
    subst h'
    have hs : stepSent src (.receive part id maxlen timeout) { res := r, bytes := bs } = [] := rfl
    have hr' : stepReceived d (.receive part id maxlen timeout) { res := r, bytes := bs } = if id = d then bs else [] := by
      simp [stepReceived, receivedFrom]
    obtain ⟨a, b⟩ := receive_flow rt hI he hq
    refine ⟨ends_of (ready_one id (fun j hj => hj) ?_), by rw [hs, hr', a, b]; simp⟩
    rcases receiveAt_cases hq with ⟨h, _⟩ | ⟨_, _, hr, _⟩
    · rw [h]; exact fun hh => hh
    · exact fun _ => hr
  | receiveResume part id maxlen abs =>
    unfold Ports.step at h
    simp only [Option.map_eq_some_iff] at h
    obtain ⟨⟨s1, r, bs⟩, hq, h⟩ := h
    injection h with h h'
    subst h
    subst h'
    have hs : stepSent src (.receiveResume part id maxlen abs) { res := r, bytes := bs } = [] := rfl
    have hr' : stepReceived d (.receiveResume part id maxlen abs) { res := r, bytes := bs } = if id = d then bs else [] := by
      simp [stepReceived, receivedFrom]
    obtain ⟨a, b⟩ := receive_flow rt hI he hq
    refine ⟨ends_of (ready_one id (fun j hj => hj) ?_), by rw [hs, hr', a, b]; simp⟩
    rcases receiveAt_cases hq with ⟨h, _⟩ | ⟨_, _, hr, _⟩
    · rw [h]; exact fun hh => hh
    · exact fun _ => hr
  | flushPartition p =>
    have hs : stepSent src (.flushPartition p) o = [] := rfl
    have hr' : stepReceived d (.flushPartition p) o = [] := rfl
    rw [hs, hr', List.append_nil, List.nil_append]
    unfold Ports.step at h
    simp only [Option.map_eq_some_iff] at h
    obtain ⟨s1, hq, h⟩ := h
    injection h with h h'
    subst h
    by_cases hsrc : src ∈ c.portsOf p
    · obtain ⟨a, b, _⟩ := flushList_flow hc rt (c.portsOf p) s s1 hI he (hfit hsrc) (fun l hl => (hc.portsOf p l hl).1) hq
      exact ⟨b, a⟩
    · obtain ⟨s2, g1, _, _, g4, _⟩ := flushPartition_within hc (now := now) (p := p) hI
      rw [hq] at g1; injection g1 with g1; subst g1
      refine ⟨ends_of (fun j hj => by rw [← g4]; exact hj), ?_⟩
      rw [w.queueOf hI ?_ rt.dKind, w.queueOf hI ?_ rt.srcKind]
      · rintro (⟨h1, _⟩ | ⟨l, hl, _, h3, _⟩)
        · exact hsrc h1
        · exact rt.notDest l (hc.portsOf p l hl).1 h3
      · rintro (⟨h1, ho⟩ | ⟨l, hl, _, h3, _⟩)
        · cases hr : (s.P d).ready with
          | true => rw [he.2 hr] at ho; simp [DIR_IN, DIR_OUT] at ho
          | false => rw [hI.fresh d hr] at ho; simp [DIR_OUT] at ho
        · exact rt.only l (hc.portsOf p l hl).1 (fun e => hsrc (e ▸ hl)) h3
  | flushAll ps =>
    have hs : stepSent src (.flushAll ps) o = [] := rfl
    have hr' : stepReceived d (.flushAll ps) o = [] := rfl
    rw [hs, hr', List.append_nil, List.nil_append]
    unfold Ports.step at h
    simp only [Option.map_eq_some_iff] at h
    obtain ⟨s1, hq, h⟩ := h
    injection h with h h'
    subst h
    by_cases hsrc : ∃ p ∈ ps, src ∈ c.portsOf p
    · obtain ⟨a, b, _⟩ := flushAll_flow hc rt ps s s1 hI he (hfit hsrc) hq
      exact ⟨b, a⟩
    · obtain ⟨s2, g1, _, _, g4, _⟩ := flushAll_within hc (now := now) ps s hI
      rw [hq] at g1; injection g1 with g1; subst g1
      refine ⟨ends_of (fun j hj => by rw [← g4]; exact hj), ?_⟩
      rw [w.queueOf hI ?_ rt.dKind, w.queueOf hI ?_ rt.srcKind]
      · rintro ⟨p, hp, ⟨h1, _⟩ | ⟨l, hl, _, h3, _⟩⟩
        · exact hsrc ⟨p, hp, h1⟩
        · exact rt.notDest l (hc.portsOf p l hl).1 h3
      · rintro ⟨p, hp, ⟨h1, ho⟩ | ⟨l, hl, _, h3, _⟩⟩
        · cases hr : (s.P d).ready with
          | true => rw [he.2 hr] at ho; simp [DIR_IN, DIR_OUT] at ho
          | false => rw [hI.fresh d hr] at ho; simp [DIR_OUT] at ho
        · exact rt.only l (hc.portsOf p l hl).1 (fun e => hsrc ⟨p, hp, e ▸ hl⟩) h3

theorem run_flow {c : PortCfg} (hc : c.Ok) {src d : Nat} (rt : Route c KIND_QUEUEING src d) :
    ∀ (h : List (Nat × PortOp)) (s s' : Ports) (os : List PortOut), Inv c s → Ends s src d → Lossless c src d h s →
      Ports.run c h s = some (s', os) →
      receivedFrom d h os ++ s'.queueOf d ++ s'.queueOf src = s.queueOf d ++ s.queueOf src ++ sentTo src h os := by
  intro h
  induction h with
  | nil =>
    intro s s' os _ _ _ hr
    simp [Ports.run] at hr
    rw [← hr.1]; simp [receivedFrom, sentTo]
  | cons x rest ih =>
    intro s s' os hI he hl hr
    obtain ⟨now, op⟩ := x
    obtain ⟨s1, o, os1, h1, h2, rfl⟩ := run_cons hr
    obtain ⟨hfit, hrest⟩ := hl
    obtain ⟨he1, hf⟩ := step_flow hc rt hI he hfit h1
    have := ih s1 s' os1 (step_effect hc hI h1).1 he1 (hrest s1 o h1) h2
    rw [receivedFrom_cons, sentTo_cons]
    calc stepReceived d op o ++ receivedFrom d rest os1 ++ s'.queueOf d ++ s'.queueOf src
        = stepReceived d op o ++ (receivedFrom d rest os1 ++ s'.queueOf d ++ s'.queueOf src) := by simp
      _ = (stepReceived d op o ++ s1.queueOf d ++ s1.queueOf src) ++ sentTo src rest os1 := by rw [this]; simp
      _ = s.queueOf d ++ s.queueOf src ++ (stepSent src op o ++ sentTo src rest os1) := by rw [hf]; simp

/-- **C34** (partial): from boot, along any history that stays within the capacities of the ports, the bytes
accepted by the source are, in order: the bytes that the receivers of the destination got, then the bytes
waiting at the destination, then the bytes waiting at the source.  Nothing is lost, duplicated or reordered.
Missing: the code does not enforce the capacities (`Lossless`); see the `C34_…_violated` theorems. -/
theorem C34_fifo_partial {c : PortCfg} (hc : c.Ok) {src d : Nat} (rt : Route c KIND_QUEUEING src d)
    {h : List (Nat × PortOp)} {s : Ports} {os : List PortOut} (hr : Ports.run c h Ports.init = some (s, os))
    (hl : Lossless c src d h Ports.init) :
    sentTo src h os = receivedFrom d h os ++ s.queueOf d ++ s.queueOf src := by
  have := run_flow hc rt h Ports.init s os (Inv.init c) (by constructor <;> (intro h; simp [Ports.init] at h)) hl hr
  rw [this]
  simp [Ports.queueOf, Ports.init, held]

/-- **C34**, one receive: from a created IN port that holds bytes it returns at once the oldest bytes, as many
as asked for or as there are, and removes exactly these; from an empty port it returns nothing and reports
EMPTY when the caller does not want to wait. -/
theorem C34_receive {c : PortCfg} (hc : c.Ok) {s : Ports} (h : Reached c s) {now part id maxlen timeout : Nat}
    (hal : Allowed c s (.receive part id maxlen timeout)) (hm : 0 < maxlen) (hlk : (s.P id).locked = false) :
    (s.queueOf id ≠ [] → ∃ s' o, s.step c now (.receive part id maxlen timeout) = some (s', o) ∧ o.res = .done .ok ∧
      o.bytes = (s.queueOf id).take maxlen ∧ s'.queueOf id = (s.queueOf id).drop maxlen) ∧
    (s.queueOf id = [] → timeout = 0 → ∃ o, s.step c now (.receive part id maxlen timeout) = some (s, o) ∧
      o.res = .done .empty) := by
  have hI := h.inv hc
  obtain ⟨h1, h2, h3, h4, h5⟩ := hal
  have own : ownPort c part id = some true := by
    unfold ownPort; rw [if_neg (by omega), if_neg (by omega)]; simp [h2]
  have e0 : ∀ abs, receiveAt c s now part id maxlen abs = recvLoop s now id maxlen abs := by
    intro abs
    unfold receiveAt
    rw [if_neg (by omega), if_neg (by omega), own]
    simp only
    rw [if_neg (by rw [h3]; simp), if_neg (by rw [h5]; simp), if_neg (by rw [h4]; simp), if_neg (by rw [hlk]; simp)]
  constructor
  · intro hq
    have hem : (s.P id).empty = false := by
      cases hem : (s.P id).empty with
      | false => rfl
      | true => exact absurd (by unfold Ports.queueOf; simp [held, hem]) hq
    have ok := hI.ok id h3
    have hp := held_pos ok h5 hem
    have hle : (if maxlen > consumedSize (s.P id) then consumedSize (s.P id) else maxlen) ≤ held (s.P id) := by
      rw [consumed_eq ok h5]; split <;> omega
    have hpos : 0 < (if maxlen > consumedSize (s.P id) then consumedSize (s.P id) else maxlen) := by
      rw [consumed_eq ok h5]; split <;> omega
    obtain ⟨s', g1, g2, g3, g4, _⟩ := portGet_queue hI h3 h5 hem hle hpos
    obtain ⟨_, r2, r3, _⟩ := receive_effect hI h3 h5 hem hm g1
    refine ⟨s', { res := .done .ok, bytes := (s.queueOf id).take maxlen }, ?_, rfl, rfl, r3⟩
    simp only [Ports.step, queueingReceive, e0, recvLoop, hem, Bool.false_eq_true, if_false, g1, if_true]
    rw [← r2]; rfl
  · intro hq ht
    have hem : (s.P id).empty = true := by
      cases hem : (s.P id).empty with
      | true => rfl
      | false =>
        have := held_pos (hI.ok id h3) h5 hem
        rw [← queue_length, hq] at this; simp at this
    refine ⟨{ res := .done .empty }, ?_, rfl⟩
    simp [Ports.step, queueingReceive, e0, recvLoop, hem, ht, LockObj.mkDeadline]

/-- The capacity test of a send never refuses anything unless the port is marked full: whatever the port holds,
the value it compares with is at least the size of the port. -/
theorem C34_no_capacity_test {c : PortCfg} (hc : c.Ok) {s : Ports} (h : Reached c s) (i : Nat)
    (hr : (s.P i).ready = true) (hk : (s.P i).kind = KIND_QUEUEING) (hf : (s.P i).full = false) :
    (s.P i).size ≤ availableSize (s.P i) := by
  have ok := (h.inv hc).ok i hr
  have hs := ok.small
  have : PORT_MAX_SIZE = 512 := rfl
  have : U32 = 4294967296 := rfl
  unfold availableSize
  rw [hf]
  simp only [Bool.false_eq_true, if_false]
  rcases Nat.eq_zero_or_pos (s.P i).size with h0 | h0
  · omega
  have hb := ok.qb hk h0
  have hE := ok.qe hk h0
  split
  · rw [Nat.mod_eq_of_lt (by omega)]; omega
  · rw [Nat.mod_eq_of_lt (by omega)]; omega

end Pok.Ports
