import Verif.Lemmas.PortSample
import Verif.Props.Port
import Mathlib.Tactic.IntervalCases

/-!
# Sampling ports (C33), and examples and counterexamples for the ports
-/

namespace Pok.Ports

/-! ## C33 -/

/-- What keeps one call from spoiling a message on its way from `src` to `d`: a message written to `src` fills the
port and has less than 256 bytes, the two ports are created with their directions, and when a message of `src`
is forwarded, `d` has been created and has the size of `src`. -/
def Orderly (c : PortCfg) (src d : Nat) (s : Ports) : PortOp → Prop
  | .samplingWrite _ id bs => id = src → bs.length < 256 ∧ bs.length = (s.P src).size
  | .samplingCreate _ name _ dir _ => (findPort c KIND_SAMPLING name = some src → dir = DIR_OUT) ∧
      (findPort c KIND_SAMPLING name = some d → dir = DIR_IN)
  | .flushPartition p => p = c.owner src → Matching s src d
  | .flushAll ps => c.owner src ∈ ps → Matching s src d
  | _ => True

/-- Every call of the history is orderly. -/
def AllOrderly (c : PortCfg) (src d : Nat) : List (Nat × PortOp) → Ports → Prop
  | [], _ => True
  | (now, op) :: rest, s => Orderly c src d s op ∧ ∀ s' o, s.step c now op = some (s', o) → AllOrderly c src d rest s'

theorem step_samp {c : PortCfg} (hc : c.Ok) {src d : Nat} (rt : Route c KIND_SAMPLING src d)
    (hp : src ∈ c.portsOf (c.owner src)) {s s' : Ports} {k : Channel}
    (hI : Inv c s) (hS : Samp s src d k) {now : Nat} {op : PortOp} {o : PortOut} (hfit : Orderly c src d s op)
    (h : s.step c now op = some (s', o)) : Samp s' src d (k.step (c.owner src) src now op o) := by
  obtain ⟨hI', w⟩ := step_effect hc hI h
  -- a call on a port other than the two ends
  have away : ∀ id, (∀ j, Touches c s op j → j = id) → src ≠ id → d ≠ id → Samp s' src d k := by
    intro id ht h1 h2
    have n1 : ¬ Touches c s op src := fun hh => h1 (ht _ hh)
    have n2 : ¬ Touches c s op d := fun hh => h2 (ht _ hh)
    exact hS.keep (w.other _ n1) (w.other _ n2) (w.messageOf hI n1) (w.messageOf hI n2)
  have kq : ∀ id, (s.P id).ready = true → (s.P id).kind = KIND_QUEUEING → src ≠ id ∧ d ≠ id := by
    intro id hr hk
    have := (hI.ok id hr).kindOf
    rw [hk] at this
    constructor
    · rintro rfl; rw [rt.srcKind] at this; simp [KIND_QUEUEING, KIND_SAMPLING] at this
    · rintro rfl; rw [rt.dKind] at this; simp [KIND_QUEUEING, KIND_SAMPLING] at this
  cases op with
  | queueingCreate part name size dir fifo =>
    change Samp s' src d k
    by_cases ht : ∃ g, findPort c KIND_QUEUEING name = some g
    · obtain ⟨g, hg⟩ := ht
      have hk := (findPort_spec hg).2.2
      refine away g (fun j hj => ?_) ?_ ?_
      · have := hj.1; rw [hg] at this; exact (Option.some.inj this).symm
      · rintro rfl; rw [rt.srcKind] at hk; simp [KIND_QUEUEING, KIND_SAMPLING] at hk
      · rintro rfl; rw [rt.dKind] at hk; simp [KIND_QUEUEING, KIND_SAMPLING] at hk
    · have n : ∀ j, ¬ Touches c s (.queueingCreate part name size dir fifo) j := fun j hj => ht ⟨j, hj.1⟩
      exact hS.keep (w.other _ (n _)) (w.other _ (n _)) (w.messageOf hI (n _)) (w.messageOf hI (n _))
  | samplingCreate part name size dir refresh =>
    change Samp s' src d k
    unfold Ports.step at h
    simp only [Option.map_eq_some_iff] at h
    obtain ⟨⟨s1, e, r⟩, hq, h⟩ := h
    injection h with h h'
    subst h
    rcases samplingCreate_cases hI hq with ⟨h, _⟩ | ⟨g, h1, h2, h3, h4, h5, h6, _, _, h9, h10, h11, h12⟩
    · subst h; exact hS
    · have hfr := hI.fresh g h3
      have mm : ∀ j, s1.messageOf j = s.messageOf j := by
        intro j
        by_cases e : j = g
        · subst e
          rw [message_empty.2 (by rw [h12]), message_empty.2 (by rw [hfr])]
        · unfold Ports.messageOf; rw [h11 j e, h10]
      refine ⟨⟨?_, ?_⟩, ?_, ?_, by rw [mm]; exact hS.shown, ?_⟩
      · intro hr
        by_cases e : src = g
        · subst e; rw [h12]; exact hfit.1 h1
        · rw [h11 src e] at hr ⊢; exact hS.ends.1 hr
      · intro hr
        by_cases e : d = g
        · subst e; rw [h12]; exact hfit.2 h1
        · rw [h11 d e] at hr ⊢; exact hS.ends.2 hr
      · intro bs hb
        obtain ⟨a, b⟩ := hS.some_ bs hb
        by_cases e : src = g
        · subst e; rw [hfr] at b; simp at b
        · rw [mm, h11 src e]; exact ⟨a, b⟩
      · intro hb
        by_cases e : src = g
        · subst e; rw [h12]; exact Or.inl rfl
        · rw [h11 src e]; exact hS.none_ hb
      · intro bs t hb
        by_cases e : d = g
        · subst e
          have := hS.shown
          rw [hb, message_empty.2 (by rw [hfr])] at this
          simp at this
        · rw [h11 d e]; exact hS.time bs t hb
  | samplingWrite part id bs =>
    unfold Ports.step at h
    simp only [Option.map_eq_some_iff] at h
    obtain ⟨⟨s1, r⟩, hq, h⟩ := h
    injection h with h h'
    subst h
    subst h'
    simp only [Channel.step]
    rcases samplingWrite_cases hq with ⟨h, hne⟩ | ⟨_, _, hr, hl, hd, _, hok, s2, e, hw, h⟩
    · rw [if_neg (fun hh => hne hh.2)]; subst h; exact hS
    · have hid : id ≠ d := by
        rintro rfl; rw [hS.ends.2 hr] at hd; simp [DIR_IN, DIR_OUT] at hd
      by_cases e1 : id = src
      · subst e1
        rw [if_pos ⟨rfl, hok⟩]
        obtain ⟨hlt, hsz⟩ := hfit rfl
        rw [Nat.mod_eq_of_lt hlt, List.take_length] at hw
        have hk : (s.P id).kind = KIND_SAMPLING := (hI.ok id hr).kindOf.trans rt.srcKind
        obtain ⟨s3, w1, w2, w3, w4, w5⟩ := portWrite_full (now := now) hI hr hk hsz
        rw [hw] at w1
        injection w1 with w1; injection w1 with w1 _
        subst w1
        have n2 : ¬ Touches c s (.samplingWrite part id bs) d := fun hh => hid hh.symm
        have hPs : s1.P id = { s2.P id with mustFlush := true } := by
          have := congrArg (fun x : Ports => x.P id) h; simpa [setPort] using this
        have hms : s1.messageOf id = s2.messageOf id := by
          have : s1 = s2.setPort id { s2.P id with mustFlush := true } := h
          rw [this]; unfold Ports.messageOf; simp [setPort]
        refine ⟨⟨?_, ?_⟩, ?_, by simp, ?_, ?_⟩
        · intro _; exact (w.dir id hr).trans hd
        · intro hrd
          have := w.other d n2
          rw [this] at hrd ⊢; exact hS.ends.2 hrd
        · intro b hb
          have hb' : bs = b := by simpa using hb
          subst hb'
          exact ⟨hms.trans w5, by rw [hPs]⟩
        · exact (w.messageOf hI n2).trans hS.shown
        · intro b t hbt
          rw [w.other d n2]; exact hS.time b t hbt
      · rw [if_neg (fun hh => e1 hh.1)]
        exact away id (fun j hj => hj) (Ne.symm e1) (Ne.symm hid)
  | samplingRead part id uptr =>
    change Samp s' src d k
    unfold Ports.step at h
    simp only [Option.map_eq_some_iff] at h
    obtain ⟨⟨s1, r, out⟩, hq, h⟩ := h
    injection h with h h'
    subst h
    rcases samplingRead_cases hq with ⟨h, _⟩ | ⟨_, _, hr, hk, hd, _, ⟨_, _, h⟩ | ⟨_, e, bs, hg, _⟩⟩
    · subst h; exact hS
    · -- the leaked lock changes neither message nor flags
      have hP : ∀ j, (s1.P j).mustFlush = (s.P j).mustFlush ∧ (s1.P j).empty = (s.P j).empty ∧
          (s1.P j).ready = (s.P j).ready ∧ (s1.P j).direction = (s.P j).direction ∧
          (s1.P j).lastReceive = (s.P j).lastReceive ∧ (s1.P j).size = (s.P j).size ∧ (s1.P j).index = (s.P j).index := by
        intro j
        have hj : s1.P j = upd s.P id { s.P id with locked := true } j := congrArg (fun x : Ports => x.P j) h
        by_cases e : j = id
        · subst e; rw [hj, upd_same]; simp
        · rw [hj, upd_other _ _ e]; simp
      have hdata : s1.data = s.data := by
        have := congrArg (fun x : Ports => x.data) h; exact this
      have mm : ∀ j, s1.messageOf j = s.messageOf j := by
        intro j; obtain ⟨a, b, _, _, _, f, g⟩ := hP j
        unfold Ports.messageOf; rw [b, f, g, hdata]
      refine ⟨⟨?_, ?_⟩, ?_, ?_, ?_, ?_⟩
      · rw [(hP src).2.2.1, (hP src).2.2.2.1]; exact hS.ends.1
      · rw [(hP d).2.2.1, (hP d).2.2.2.1]; exact hS.ends.2
      · rw [mm, (hP src).1]; exact hS.some_
      · rw [(hP src).1, (hP src).2.1]; exact hS.none_
      · rw [mm]; exact hS.shown
      · rw [(hP d).2.2.2.2.1]; exact hS.time
    · obtain ⟨rfl, _⟩ := read_effect hI hr hk hg
      exact hS
  | send part id bs timeout =>
    change Samp s' src d k
    unfold Ports.step at h
    simp only [Option.map_eq_some_iff] at h
    obtain ⟨⟨s1, r⟩, hq, h⟩ := h
    injection h with h h'
    subst h
    rcases sendAt_cases hq with ⟨h, _⟩ | ⟨_, _, hr, _, _, _, hk, _⟩
    · subst h; exact hS
    · exact away id (fun j hj => hj) (kq id hr hk).1 (kq id hr hk).2
  | sendResume part id bs abs =>
    change Samp s' src d k
    unfold Ports.step at h
    simp only [Option.map_eq_some_iff] at h
    obtain ⟨⟨s1, r⟩, hq, h⟩ := h
    injection h with h h'
    subst h
    rcases sendAt_cases hq with ⟨h, _⟩ | ⟨_, _, hr, _, _, _, hk, _⟩
    · subst h; exact hS
    · exact away id (fun j hj => hj) (kq id hr hk).1 (kq id hr hk).2
  | receive part id maxlen timeout =>
    change Samp s' src d k
    unfold Ports.step at h
    simp only [Option.map_eq_some_iff] at h
    obtain ⟨⟨s1, r, bs⟩, hq, h⟩ := h
    injection h with h h'
    subst h
    rcases receiveAt_cases hq with ⟨h, _⟩ | ⟨_, _, hr, _, _, hk, _⟩
    · subst h; exact hS
    · exact away id (fun j hj => hj) (kq id hr hk).1 (kq id hr hk).2
  | receiveResume part id maxlen abs =>
    change Samp s' src d k
    unfold Ports.step at h
    simp only [Option.map_eq_some_iff] at h
    obtain ⟨⟨s1, r, bs⟩, hq, h⟩ := h
    injection h with h h'
    subst h
    rcases receiveAt_cases hq with ⟨h, _⟩ | ⟨_, _, hr, _, _, hk, _⟩
    · subst h; exact hS
    · exact away id (fun j hj => hj) (kq id hr hk).1 (kq id hr hk).2
  | flushPartition p =>
    have h0 := h
    unfold Ports.step at h
    simp only [Option.map_eq_some_iff] at h
    obtain ⟨s1, hq, h⟩ := h
    injection h with h h'
    subst h
    simp only [Channel.step]
    by_cases e : p = c.owner src
    · rw [if_pos e]
      obtain ⟨a, _⟩ := flushList_samp hc rt (c.portsOf p) s s1 k hI hS (hfit e) (fun l hl => (hc.portsOf p l hl).1) hq
      rw [if_pos (by rw [e]; exact hp)] at a
      exact a
    · rw [if_neg e]
      have n1 : ¬ Touches c s (.flushPartition p) src := by
        rintro (⟨h1, _⟩ | ⟨l, hl, _, h3, _⟩)
        · exact e (hc.portsOf p src h1).2.symm
        · exact rt.notDest l (hc.portsOf p l hl).1 h3
      have n2 : ¬ Touches c s (.flushPartition p) d := by
        rintro (⟨h1, ho⟩ | ⟨l, hl, _, h3, _⟩)
        · cases hr : (s.P d).ready with
          | true => rw [hS.ends.2 hr] at ho; simp [DIR_IN, DIR_OUT] at ho
          | false => rw [hI.fresh d hr] at ho; simp [DIR_OUT] at ho
        · exact rt.only l (hc.portsOf p l hl).1 (fun hh => e (by rw [← (hc.portsOf p l hl).2, hh])) h3
      exact hS.keep (w.other _ n1) (w.other _ n2) (w.messageOf hI n1) (w.messageOf hI n2)
  | flushAll ps =>
    unfold Ports.step at h
    simp only [Option.map_eq_some_iff] at h
    obtain ⟨s1, hq, h⟩ := h
    injection h with h h'
    subst h
    simp only [Channel.step]
    by_cases e : c.owner src ∈ ps
    · obtain ⟨a, _⟩ := flushAll_samp hc rt hp ps s s1 k hI hS (hfit e) hq
      exact a
    · rw [if_neg e]
      have n1 : ¬ Touches c s (.flushAll ps) src := by
        rintro ⟨p, hpp, ⟨h1, _⟩ | ⟨l, hl, _, h3, _⟩⟩
        · exact e ((hc.portsOf p src h1).2 ▸ hpp)
        · exact rt.notDest l (hc.portsOf p l hl).1 h3
      have n2 : ¬ Touches c s (.flushAll ps) d := by
        rintro ⟨p, hpp, ⟨h1, ho⟩ | ⟨l, hl, _, h3, _⟩⟩
        · cases hr : (s.P d).ready with
          | true => rw [hS.ends.2 hr] at ho; simp [DIR_IN, DIR_OUT] at ho
          | false => rw [hI.fresh d hr] at ho; simp [DIR_OUT] at ho
        · exact rt.only l (hc.portsOf p l hl).1 (fun hh => e (by rw [← hh, (hc.portsOf p l hl).2]; exact hpp)) h3
      exact hS.keep (w.other _ n1) (w.other _ n2) (w.messageOf hI n1) (w.messageOf hI n2)

theorem run_samp {c : PortCfg} (hc : c.Ok) {src d : Nat} (rt : Route c KIND_SAMPLING src d)
    (hp : src ∈ c.portsOf (c.owner src)) :
    ∀ (h : List (Nat × PortOp)) (s s' : Ports) (os : List PortOut) (k : Channel), Inv c s → Samp s src d k →
      AllOrderly c src d h s → Ports.run c h s = some (s', os) →
      Samp s' src d (k.run (c.owner src) src h os) := by
  intro h
  induction h with
  | nil =>
    intro s s' os k _ hS _ hr
    simp [Ports.run] at hr
    obtain ⟨rfl, rfl⟩ := hr
    exact hS
  | cons x rest ih =>
    intro s s' os k hI hS hl hr
    obtain ⟨now, op⟩ := x
    obtain ⟨s1, o, os1, h1, h2, rfl⟩ := run_cons hr
    exact ih s1 s' os1 _ (step_effect hc hI h1).1 (step_samp hc rt hp hI hS hl.1 h1) (hl.2 s1 o h1) h2

/-- A read that is let through: the port is allowed to the caller, is not locked, and the pointer passes the
test. -/
structure ReadOk (c : PortCfg) (s : Ports) (part id uptr : Nat) : Prop where
  allowed : Allowed c s (.samplingRead part id uptr)
  unlocked : (s.P id).locked = false
  partLt : part < c.nbPorts
  ptr : checkPtr c part uptr (s.P part).size = true

/-- **C33**, one read: in any reachable state a read that is let through changes nothing (the message is not
consumed); it reports EMPTY when the port holds no message, and otherwise returns the message, with the
validity given by its arrival time and the refresh period of the port. -/
theorem C33_read {c : PortCfg} (hc : c.Ok) {s : Ports} (h : Reached c s) {now part id uptr : Nat}
    (ok : ReadOk c s part id uptr) :
    (s.messageOf id = none → ∃ o, s.step c now (.samplingRead part id uptr) = some (s, o) ∧ o.res = .done .empty) ∧
    (∀ bs, s.messageOf id = some bs → ∃ o, s.step c now (.samplingRead part id uptr) = some (s, o) ∧
      o.res = .done .ok ∧ o.bytes = bs ∧
      (o.valid = true ↔ now ≤ ((s.P id).lastReceive + (s.P id).refresh) % U64)) := by
  have hI := h.inv hc
  obtain ⟨⟨h1, h2, h3, h4, h5⟩, hlk, hpt, hptr⟩ := ok
  have own : ownPort c part id = some true := by
    unfold ownPort; rw [if_neg (by omega), if_neg (by omega)]; simp [h2]
  have e0 : samplingRead c s now part id uptr =
      (match portGet s id (s.P id).size with
        | none => none
        | some (s1, e, bs) =>
          if e = .empty then some (s1, .done .empty, {})
          else some (s1, .done .ok,
              ({ bytes := bs, valid := decide (¬ ((s.P id).lastReceive + (s.P id).refresh) % U64 < now) } : ReadOut))) := by
    unfold samplingRead
    rw [if_neg (by omega), own]
    simp only
    rw [if_neg (by rw [h3]; simp), if_neg (by rw [h5]; simp), if_neg (by rw [h4]; simp), if_neg (by rw [hlk]; simp),
      if_neg (by omega), if_neg (by rw [hptr]; simp)]
    rfl
  rw [portGet_sampling hI h3 h5] at e0
  constructor
  · intro hm
    rw [hm] at e0
    exact ⟨{ res := .done .empty }, by simp [Ports.step, e0], rfl⟩
  · intro bs hm
    rw [hm] at e0
    refine ⟨{ res := .done .ok, bytes := bs, valid := decide (¬ ((s.P id).lastReceive + (s.P id).refresh) % U64 < now) },
      ?_, rfl, rfl, ?_⟩
    · simp [Ports.step, e0]
    · simp

/-- **C33** (partial): along any orderly history from boot, a read at the destination of a channel returns the
message that the channel shows: the last one written before the last forwarding; it does not consume it, reports
EMPTY when nothing arrived yet, and is valid exactly while the time since the arrival is within the refresh
period.  Missing: the code does not enforce `Orderly` (`C33_short_violated`, `C33_long_violated`,
`C33_late_destination_violated`), and a refused read leaves the port locked (`C33_lock_violated`). -/
theorem C33_last_partial {c : PortCfg} (hc : c.Ok) {src d : Nat} (rt : Route c KIND_SAMPLING src d)
    (hp : src ∈ c.portsOf (c.owner src)) {h : List (Nat × PortOp)} {s : Ports} {os : List PortOut}
    (hr : Ports.run c h Ports.init = some (s, os)) (hl : AllOrderly c src d h Ports.init)
    {now part uptr : Nat} (ok : ReadOk c s part d uptr) :
    ∃ o, s.step c now (.samplingRead part d uptr) = some (s, o) ∧
      match (Channel.run (c.owner src) src {} h os).shown with
      | none => o.res = .done .empty
      | some (bs, t) => o.res = .done .ok ∧ o.bytes = bs ∧ (o.valid = true ↔ now ≤ (t + (s.P d).refresh) % U64) := by
  have hS0 : Samp Ports.init src d {} :=
    ⟨by constructor <;> (intro h; simp [Ports.init] at h), by simp, fun _ => Or.inl rfl,
      by simp [Ports.messageOf, Ports.init], by simp⟩
  have hS := run_samp hc rt hp h Ports.init s os {} (Inv.init c) hS0 hl hr
  obtain ⟨a, b⟩ := C33_read hc ⟨h, os, hr⟩ (now := now) ok
  cases hk : (Channel.run (c.owner src) src {} h os).shown with
  | none =>
    obtain ⟨o, h1, h2⟩ := a (by rw [hS.shown, hk]; rfl)
    exact ⟨o, h1, h2⟩
  | some x =>
    obtain ⟨bs, t⟩ := x
    obtain ⟨o, h1, h2, h3, h4⟩ := b bs (by rw [hS.shown, hk]; rfl)
    exact ⟨o, h1, h2, h3, by rw [← hS.time bs t hk]; exact h4⟩

/-! ## An example configuration

Partition 0 sends through port 0 (queueing) and port 2 (sampling) to ports 1 and 3 of partition 1. -/

/-- Two partitions, two channels. -/
def exPorts : PortCfg where
  nbParts := 2
  nbPorts := 4
  owner := fun i => i % 2
  kindOf := fun i => if i < 2 then KIND_QUEUEING else KIND_SAMPLING
  name := fun i => [i]
  portsOf := fun p => if p = 0 then [0, 2] else if p = 1 then [1, 3] else []
  dests := fun i => if i = 0 then [1] else if i = 2 then [3] else []
  toLocal := fun g => g
  psize := fun _ => 4096

theorem exPorts_ok : exPorts.Ok where
  few := by decide
  owner := fun i _ => Nat.mod_lt i (by decide)
  portsOf := by
    intro p l h
    simp only [exPorts] at h
    split at h
    · subst p; simp at h; rcases h with rfl | rfl <;> decide
    · split at h
      · subst p; simp at h; rcases h with rfl | rfl <;> decide
      · simp at h
  nodup := by
    intro p; simp only [exPorts]; split
    · decide
    · split <;> decide
  dests := by
    intro l g _ h
    simp only [exPorts] at h
    split at h
    · simp at h; subst h; decide
    · split at h
      · simp at h; subst h; decide
      · simp at h
  destKind := by
    intro l g _ h
    simp only [exPorts] at h
    split at h
    · subst l; simp at h; subst h; decide
    · split at h
      · subst l; simp at h; subst h; decide
      · simp at h

theorem exPorts_queue : Route exPorts KIND_QUEUEING 0 1 where
  srcLt := by decide
  ne := by decide
  srcKind := by decide
  dKind := by decide
  once := by decide
  only := by intro l hl hne; have : l < 4 := hl; interval_cases l <;> first | omega | decide
  notDest := by intro l hl; have : l < 4 := hl; interval_cases l <;> decide

theorem exPorts_sample : Route exPorts KIND_SAMPLING 2 3 where
  srcLt := by decide
  ne := by decide
  srcKind := by decide
  dKind := by decide
  once := by decide
  only := by intro l hl hne; have : l < 4 := hl; interval_cases l <;> first | omega | decide
  notDest := by intro l hl; have : l < 4 := hl; interval_cases l <;> decide

/-- Creation of the four ports. -/
def exCreate : List (Nat × PortOp) :=
  [(1, .queueingCreate 0 [0] 4 DIR_OUT true), (2, .queueingCreate 1 [1] 6 DIR_IN true),
   (3, .samplingCreate 0 [2] 3 DIR_OUT 50), (4, .samplingCreate 1 [3] 3 DIR_IN 50)]

/-- The outputs of a history from boot. -/
def outputs (h : List (Nat × PortOp)) : Option (List PortOut) := (Ports.run exPorts h Ports.init).map Prod.snd

/-- Sends that wrap around the source and the destination, a sampling message, reads and receives. -/
def exHist : List (Nat × PortOp) := exCreate ++
  [(10, .send 0 0 [1, 2, 3] 0), (11, .samplingWrite 0 2 [7, 8, 9]), (12, .flushPartition 0),
   (13, .receive 1 1 2 0), (14, .send 0 0 [4, 5, 6] 0), (20, .flushPartition 0), (21, .receive 1 1 10 0),
   (22, .samplingRead 1 3 0)]

/-- The premises of `C32_disjoint`, `C32_create`, `C32_stays`, `C36_flush` hold for the example: it runs, from
boot, through every kind of call. -/
example : (outputs exHist).map (List.map fun o => (o.res, o.bytes)) =
    some [(.done .ok, []), (.done .ok, []), (.done .ok, []), (.done .ok, []), (.done .ok, []), (.done .ok, []),
      (.done .ok, []), (.done .ok, [1, 2]), (.done .ok, []), (.done .ok, []), (.done .ok, [3, 4, 5, 6]),
      (.done .ok, [7, 8, 9])] := by decide +kernel

/-- A message sent twice before the forwarding: the second replaces the first, and it becomes stale. -/
example : (outputs (exCreate ++ [(5, .samplingRead 1 3 0), (10, .samplingWrite 0 2 [1, 2, 3]), (11, .samplingWrite 0 2 [4, 5, 6]),
      (20, .flushPartition 0), (30, .samplingRead 1 3 0), (70, .samplingRead 1 3 0), (71, .samplingRead 1 3 0)])).map
      (fun os => (os.drop 4).map fun o => (o.res, o.bytes, o.valid)) =
    some [(.done .empty, [], false), (.done .ok, [], false), (.done .ok, [], false), (.done .ok, [], false),
      (.done .ok, [4, 5, 6], true), (.done .ok, [4, 5, 6], true), (.done .ok, [4, 5, 6], false)] := by decide +kernel

/-- Decidable forms of `Lossless` and `AllOrderly` for a concrete history. -/
def losslessB (c : PortCfg) (src d : Nat) : List (Nat × PortOp) → Ports → Bool
  | [], _ => true
  | (now, op) :: rest, s =>
    (match op with
    | .send _ id bs _ => decide (id = src → bs.length < 256 ∧ (s.queueOf src).length + bs.length ≤ (s.P src).size)
    | .sendResume _ id bs _ => decide (id = src → bs.length < 256 ∧ (s.queueOf src).length + bs.length ≤ (s.P src).size)
    | .samplingWrite _ id _ => decide (id ≠ src)
    | .queueingCreate _ name _ dir _ => decide ((findPort c KIND_QUEUEING name = some src → dir = DIR_OUT) ∧
        (findPort c KIND_QUEUEING name = some d → dir = DIR_IN))
    | .flushPartition p => decide (src ∈ c.portsOf p → s.queueOf src ≠ [] → (s.P d).ready = true ∧ (s.P d).direction = DIR_IN ∧
        (s.P d).full = false ∧ (s.queueOf d).length + (s.queueOf src).length ≤ (s.P d).size)
    | .flushAll _ => false
    | _ => true) &&
    match s.step c now op with
    | none => true
    | some (s', _) => losslessB c src d rest s'

theorem losslessB_sound {c : PortCfg} {src d : Nat} : ∀ (h : List (Nat × PortOp)) (s : Ports),
    losslessB c src d h s = true → Lossless c src d h s := by
  intro h
  induction h with
  | nil => intro s _; trivial
  | cons x rest ih =>
    intro s hb
    obtain ⟨now, op⟩ := x
    simp only [losslessB, Bool.and_eq_true] at hb
    refine ⟨?_, ?_⟩
    · have h1 := hb.1
      cases op <;> simp only [decide_eq_true_eq, Bool.false_eq_true] at h1 <;> first | exact h1 | trivial
    · intro s' o hs
      have h2 := hb.2
      rw [hs] at h2
      exact ih s' h2

/-- The premises of `C34_fifo_partial` hold for the example history. -/
example : Lossless exPorts 0 1 exHist Ports.init := losslessB_sound _ _ (by decide +kernel)

/-- Decidable form of `AllOrderly`. -/
def orderlyB (c : PortCfg) (src d : Nat) : List (Nat × PortOp) → Ports → Bool
  | [], _ => true
  | (now, op) :: rest, s =>
    (match op with
    | .samplingWrite _ id bs => decide (id = src → bs.length < 256 ∧ bs.length = (s.P src).size)
    | .samplingCreate _ name _ dir _ => decide ((findPort c KIND_SAMPLING name = some src → dir = DIR_OUT) ∧
        (findPort c KIND_SAMPLING name = some d → dir = DIR_IN))
    | .flushPartition p => decide (p = c.owner src → (s.P src).mustFlush = true → (s.P src).empty = false →
        (s.P d).ready = true ∧ (s.P d).size = (s.P src).size)
    | .flushAll _ => false
    | _ => true) &&
    match s.step c now op with
    | none => true
    | some (s', _) => orderlyB c src d rest s'

theorem orderlyB_sound {c : PortCfg} {src d : Nat} : ∀ (h : List (Nat × PortOp)) (s : Ports),
    orderlyB c src d h s = true → AllOrderly c src d h s := by
  intro h
  induction h with
  | nil => intro s _; trivial
  | cons x rest ih =>
    intro s hb
    obtain ⟨now, op⟩ := x
    simp only [orderlyB, Bool.and_eq_true] at hb
    refine ⟨?_, ?_⟩
    · have h1 := hb.1
      cases op <;> simp only [decide_eq_true_eq, Bool.false_eq_true] at h1 <;> first | exact h1 | trivial
    · intro s' o hs
      have h2 := hb.2
      rw [hs] at h2
      exact ih s' h2

/-- The premises of `C33_last_partial` hold for the example history. -/
example : AllOrderly exPorts 2 3 exHist Ports.init := orderlyB_sound _ _ (by decide +kernel)

example : 2 ∈ exPorts.portsOf (exPorts.owner 2) := by decide

/-! ## Where the code departs from the properties -/

/-- **C33** fails for a message shorter than the port: the reader gets the old tail behind it. -/
theorem C33_short_violated : (outputs (exCreate ++ [(10, .samplingWrite 0 2 [1, 2, 3]), (11, .samplingWrite 0 2 [9]),
      (20, .flushPartition 0), (21, .samplingRead 1 3 0)])).map (fun os => os.getLast?.map fun o => (o.res, o.bytes)) =
    some (some (.done .ok, [9, 2, 3])) := by decide +kernel

/-- **C33** fails for messages of 256 bytes or more: the length passes through eight bits.  A message of 300
bytes fills its port, the write reports success, and the reader gets 44 of its bytes followed by zeros. -/
theorem C33_long_violated : (outputs [(1, .samplingCreate 0 [2] 300 DIR_OUT 50), (2, .samplingCreate 1 [3] 300 DIR_IN 50),
      (10, .samplingWrite 0 2 (List.replicate 300 7)), (20, .flushPartition 0), (21, .samplingRead 1 3 0)]).map
      (fun os => (os.drop 2).map fun o => (o.res, o.bytes)) =
    some [(.done .ok, []), (.done .ok, []), (.done .ok, List.replicate 44 7 ++ List.replicate 256 0)] := by
  decide +kernel

/-- **C33** fails when the message is forwarded before the destination has been created: it is lost, although the
source still holds it. -/
theorem C33_late_destination_violated : (outputs (exCreate.take 3 ++ [(10, .samplingWrite 0 2 [1, 2, 3]), (20, .flushPartition 0),
      (21, .samplingCreate 1 [3] 3 DIR_IN 50), (30, .flushPartition 0), (31, .samplingRead 1 3 0)])).map
      (fun os => os.getLast?.map fun o => o.res) = some (some (.done .empty)) := by decide +kernel

/-- **C33** fails after a read refused for its pointer: the port stays locked and the next read, although it is
correct, does not return. -/
theorem C33_lock_violated : (outputs (exCreate ++ [(10, .samplingWrite 0 2 [1, 2, 3]), (20, .flushPartition 0),
      (21, .samplingRead 1 3 5000), (22, .samplingRead 1 3 0)])).map
      (fun os => (os.drop 6).map fun o => o.res) = some [.done .einval, .blocked] := by decide +kernel

/-- **C34** fails: an accepted send overwrites unread bytes.  The port has 4 bytes, 3 are waiting, 3 more are
accepted, and the receiver gets the last two bytes only. -/
theorem C34_overwrite_violated : (outputs (exCreate ++ [(10, .send 0 0 [1, 2, 3] 0), (11, .send 0 0 [4, 5, 6] 0),
      (20, .flushPartition 0), (21, .receive 1 1 10 0)])).map (fun os => (os.drop 4).map fun o => (o.res, o.bytes)) =
    some [(.done .ok, []), (.done .ok, []), (.done .ok, []), (.done .ok, [5, 6])] := by decide +kernel

/-- **C34** fails when the destination has not been created: the bytes are lost. -/
theorem C34_no_destination_violated : (outputs (exCreate.take 1 ++ [(10, .send 0 0 [1, 2, 3] 0), (11, .flushPartition 0),
      (12, .queueingCreate 1 [1] 6 DIR_IN true), (20, .flushPartition 0), (21, .receive 1 1 10 0)])).map
      (fun os => (os.drop 1).map fun o => (o.res, o.bytes)) =
    some [(.done .ok, []), (.done .ok, []), (.done .ok, []), (.done .ok, []), (.done .empty, [])] := by decide +kernel

/-- **C34** fails when the destination has not enough room: the transfer overwrites unread bytes. -/
theorem C34_destination_full_violated : (outputs (exCreate ++ [(10, .send 0 0 [1, 2, 3, 4] 0), (11, .flushPartition 0),
      (12, .send 0 0 [5, 6, 7, 8] 0), (13, .flushPartition 0), (20, .receive 1 1 10 0)])).map
      (fun os => os.getLast?.map fun o => (o.res, o.bytes)) =
    some (some (.done .ok, [7, 8])) := by decide +kernel

/-- **C34** fails after a partial receive from a full port: the port stays marked full and the next transfer
loses its bytes although there is room. -/
theorem C34_stale_full_violated : (outputs (exCreate ++ [(10, .send 0 0 [1, 2, 3, 4] 0), (11, .flushPartition 0),
      (12, .send 0 0 [5, 6] 0), (13, .flushPartition 0), (14, .receive 1 1 5 0), (15, .send 0 0 [7, 8] 0), (16, .flushPartition 0),
      (17, .receive 1 1 10 0), (18, .receive 1 1 10 0)])).map
      (fun os => (os.drop 8).map fun o => (o.res, o.bytes)) =
    some [(.done .ok, [1, 2, 3, 4, 5]), (.done .ok, []), (.done .ok, []), (.done .ok, [6]), (.done .empty, [])] := by
  decide +kernel

/-- **C35** fails for the kind: a sampling write is accepted on a queueing port, and its receiver gets it. -/
theorem C35_kind_violated : (outputs (exCreate ++ [(10, .samplingWrite 0 0 [1, 2, 3]), (11, .flushPartition 0),
      (12, .receive 1 1 10 0)])).map (fun os => (os.drop 4).map fun o => (o.res, o.bytes)) =
    some [(.done .ok, []), (.done .ok, []), (.done .ok, [1, 2, 3])] := by decide +kernel

/-- and on a queueing port of size 0 it divides by zero. -/
theorem C35_zero_violated : outputs [(1, .queueingCreate 0 [0] 0 DIR_OUT true), (2, .samplingWrite 0 0 [])] = none := by
  decide +kernel

/-- Premises of `C35_refused_partial`: partition 1 sends on the port of partition 0. -/
example : ∃ s os, Ports.run exPorts exCreate Ports.init = some (s, os) ∧ ¬ Allowed exPorts s (.send 1 0 [1] 0) := by
  refine ⟨_, _, rfl, ?_⟩
  rintro ⟨_, h, _⟩
  simp [exPorts] at h

/-- Premises of `C34_receive`. -/
example : (Ports.run exPorts (exHist.take 7) Ports.init).map (fun r => (r.1.queueOf 1, (r.1.P 1).locked, (r.1.P 1).direction,
    (r.1.P 1).kind, (r.1.P 1).ready)) = some ([1, 2, 3], false, DIR_IN, KIND_QUEUEING, true) := by decide +kernel

/-- Premises of `C33_read`: a message is there, and the pointer is accepted. -/
example : (Ports.run exPorts (exHist.take 7) Ports.init).map (fun r => (r.1.messageOf 3, (r.1.P 3).locked,
    checkPtr exPorts 1 0 (r.1.P 1).size)) = some (some [7, 8, 9], false, true) := by decide +kernel

/-- Premise of `C34_no_capacity_test`: port 0 holds 3 of 4 bytes and is not marked full. -/
example : (Ports.run exPorts (exHist.take 5) Ports.init).map (fun r => ((r.1.P 0).full, held (r.1.P 0), (r.1.P 0).size,
    availableSize (r.1.P 0))) = some (false, 3, 4, 4294967293) := by decide +kernel

end Pok.Ports
