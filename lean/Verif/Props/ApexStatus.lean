import Verif.Model.ApexStatus
import Verif.Spec.ApexStatus
import Verif.Props.Results

/-!
# C136: identifiers and status of ports and objects
-/

namespace Pok.ApexStatus
open Pok.Results Pok.Stub Pok.Sys Pok.ResultSpec Pok.ApexStatusSpec
open Pok.StubSpec (HoldsInt HoldsString)

theorem word_holds {m : Nat → Nat} {a n v : Nat} (h : HoldsInt m a n v) : word m a n = v := by
  rw [word_int m a n v h.2, Nat.mod_eq_of_lt h.1]

theorem word_lt (m : Nat → Nat) (a n : Nat) : word m a n < 256 ^ n := by
  induction n generalizing a with
  | zero => simp [word]
  | succ n ih =>
    rw [word, Nat.pow_succ]
    have := ih (a + 1)
    omega

/-- Words of memory that a store leaves alone. -/
theorem word_other {m : Nat → Nat} {a : Nat} {bs : List Nat} {b k : Nat} (h : b + k ≤ a ∨ a + bs.length ≤ b) : word (put m a bs) b k = word m b k :=
  word_congr _ _ _ _ _ fun i hi => put_out _ _ _ _ (by omega)

theorem only_put {m m' : Nat → Nat} {vs : List (Nat × Nat)} {a : Nat} {bs : List Nat} (h : OnlyVars m m' vs) {p n : Nat} (hv : (p, n) ∈ vs) (h1 : p ≤ a) (h2 : a + bs.length ≤ p + n) :
    OnlyVars m (put m' a bs) vs := fun x hx => by
  have := hx _ hv
  simp only at this
  rw [put_out _ _ _ _ (by omega), h x hx]

theorem portId_named {c : PortCfg} {part kind i : Nat} {name : List Nat} (h : Named c part kind name i) : Ports.portId c part kind name = (.ok, some i) := by
  obtain ⟨h1, h2, h3, h4, h5⟩ := h
  have : Ports.findPort c kind name = some i := by
    unfold Ports.findPort
    rw [List.find?_range_eq_some]
    refine ⟨by simp [h2, h3], by simpa using h1, fun j hj => ?_⟩
    have := h5 j hj
    rw [not_and_or] at this
    simpa using this
  unfold Ports.portId
  rw [this]
  simp [h4]

/-- What the call for an identifier stores. -/
theorem idCall {c : PortCfg} {maxName part kind i : Nat} {m : Nat → Nat} {name id : Nat} {str : List Nat} (h : Named c part kind str i) (hs : HoldsString m name str) (hl : str.length ≤ maxName)
    (h1 : Ports.checkPtr c part name (maxName + 1) = true) (h2 : Ports.checkPtr c part id 1 = true) :
    portIdCall c maxName part kind m name id = (.ok, put m id (le 1 i)) := by
  unfold portIdCall
  rw [h1, h2, cString_eq m m name name str (maxName + 1) hs (by omega) (fun _ _ => rfl), portId_named h]
  rfl

/-- **C136** (part) `GET_SAMPLING_PORT_ID`: for every configuration of at most 256 ports, every name of a sampling port of the calling partition and every memory, the caller's variable
holds the number of the port, the return code is NO_ERROR, and nothing else changes but the library's local variable. -/
theorem C136_sampling_id_partial (c : PortCfg) (maxName part i : Nat) (m : Nat → Nat) (name out rc loc : Nat) (str : List Nat) (h : Named c part 2 str i) (hc : c.nbPorts ≤ 256)
    (hs : HoldsString m name str) (hl : str.length ≤ maxName) (h1 : Ports.checkPtr c part name (maxName + 1) = true) (h2 : Ports.checkPtr c part loc 1 = true)
    (a1 : Apart out 4 rc 4) :
    HoldsInt (getSamplingPortId c maxName part m name out rc loc) out 4 i ∧ HoldsInt (getSamplingPortId c maxName part m name out rc loc) rc 4 0 ∧
    OnlyVars m (getSamplingPortId c maxName part m name out rc loc) [(out, 4), (rc, 4), (loc, 1)] := by
  have hi := h.1
  unfold getSamplingPortId
  rw [show KIND_SAMPLING = 2 from rfl, idCall h hs hl h1 h2]
  simp only [word_put_same, Errno.code]
  rw [Nat.mod_eq_of_lt (show i < 256 ^ 1 by omega)]
  refine ⟨?_, holds_same _ _ _ _ (by norm_num), ?_⟩
  · refine holds_other ?_ (holds_same _ _ _ _ (by norm_num; omega))
    rw [le_length]; exact a1
  · refine only_put (only_put (only_put (fun _ _ => rfl) (p := loc) (n := 1) (by simp) le_rfl (by rw [le_length])) (p := out) (n := 4) (by simp) le_rfl (by rw [le_length]))
      (p := rc) (n := 4) (by simp) le_rfl (by rw [le_length])

/-- What `GET_SAMPLING_PORT_STATUS` stores, with the direction as the kernel has it. -/
theorem sampling_status {c : PortCfg} {s : Ports} {now part : Nat} {m : Nat → Nat} {id out rc loc : Nat} {v : SamplingInfo} (h : samplingStatus c s now part id = some (.ok, some v)) (hid : id < 256)
    (hf : Fits (.sampling v)) (hp : Ports.checkPtr c part loc 20 = true) (a1 : Apart out 20 rc 4) (a2 : Apart out 20 loc 20) (_a3 : Apart rc 4 loc 20) :
    ∃ m', getSamplingPortStatus c s now part m id out rc loc = some m' ∧ HoldsInt m' out 8 v.refresh ∧ HoldsInt m' (out + 8) 4 v.size ∧ HoldsInt m' (out + 12) 4 v.direction ∧
      HoldsInt m' (out + 16) 4 v.validity ∧ HoldsInt m' rc 4 0 ∧ OnlyVars m m' [(out, 20), (rc, 4), (loc, 20)] := by
  have hcall : samplingStatusCall c s now part m id loc = some (.ok, store m loc (.sampling v)) := by
    unfold samplingStatusCall
    rw [if_pos hp, Nat.mod_eq_of_lt hid, h]; rfl
  obtain ⟨hs, ho⟩ := C77_shown_partial m loc (.sampling v) hf (fun _ e => by cases e) (fun _ e => by cases e)
  unfold getSamplingPortStatus
  rw [hcall]
  simp only [Option.map_some, Option.some.injEq, exists_eq_left', Errno.code]
  generalize store m loc (.sampling v) = m1 at hs ho
  unfold Shown at hs
  unfold Fits at hf
  simp only [fields, List.forall_mem_cons, List.not_mem_nil, false_imp_iff, implies_true, and_true, Nat.add_zero] at hs hf
  obtain ⟨s1, s2, s3, s4⟩ := hs
  obtain ⟨f1, f2, f3, f4⟩ := hf
  unfold Apart at a1 a2
  rw [word_other (b := loc + 16) (by rw [le_length]; omega), word_other (b := loc + 16) (by rw [le_length]; omega), word_other (b := loc + 16) (by rw [le_length]; omega),
    word_other (b := loc + 4) (by rw [le_length]; omega), word_other (b := loc + 4) (by rw [le_length]; omega), word_other (b := loc) (by rw [le_length]; omega),
    word_holds s1, word_holds s2, word_holds s3, word_holds s4]
  refine ⟨?_, ?_, ?_, ?_, holds_same _ _ _ _ (by norm_num), ?_⟩
  · iterate 4 refine holds_other (by rw [le_length]; omega) ?_
    exact holds_same _ _ _ _ f3
  · iterate 3 refine holds_other (by rw [le_length]; omega) ?_
    exact holds_same _ _ _ _ f1
  · iterate 2 refine holds_other (by rw [le_length]; omega) ?_
    exact holds_same _ _ _ _ (lt_of_lt_of_le f2 (by norm_num))
  · iterate 1 refine holds_other (by rw [le_length]; omega) ?_
    exact holds_same _ _ _ _ f4
  · have h0 : OnlyVars m m1 [(out, 20), (rc, 4), (loc, 20)] := fun x hx => ho x (hx (loc, 20) (by simp))
    refine only_put (p := rc) (n := 4) ?_ (by simp) le_rfl (by rw [le_length])
    iterate 4 refine only_put (p := out) (n := 20) ?_ (by simp) (by omega) (by simp only [le_length]; omega)
    exact h0

/-- **C136** (part) `GET_SAMPLING_PORT_STATUS` of a destination port: whenever the kernel gives its status, the caller's variable holds the refresh period, the maximal size, the direction and the
validity of the last message, the return code is NO_ERROR and nothing else changes but the library's local variable.  What is missing: a source port, see below. -/
theorem C136_sampling_status_partial (c : PortCfg) (s : Ports) (now part : Nat) (m : Nat → Nat) (id out rc loc : Nat) (v : SamplingInfo) (h : samplingStatus c s now part id = some (.ok, some v)) (hid : id < 256)
    (hf : Fits (.sampling v)) (hd : v.direction = Direction.destination.kernel) (hp : Ports.checkPtr c part loc 20 = true) (a1 : Apart out 20 rc 4) (a2 : Apart out 20 loc 20) (a3 : Apart rc 4 loc 20) :
    ∃ m', getSamplingPortStatus c s now part m id out rc loc = some m' ∧ HoldsSampling m' out v.refresh v.size .destination v.validity ∧ HoldsInt m' rc 4 0 ∧
      OnlyVars m m' [(out, 20), (rc, 4), (loc, 20)] := by
  obtain ⟨m', e, h1, h2, h3, h4, h5, h6⟩ := sampling_status (m := m) h hid hf hp a1 a2 a3
  rw [hd] at h3
  exact ⟨m', e, ⟨h1, h2, h3, h4⟩, h5, h6⟩

/-- **C136** (part) `GET_SAMPLING_PORT_STATUS` for a number that is none of the partition's created sampling ports: whenever the kernel refuses, the return code says so, and only the caller's
variables and the library's local variable change. -/
theorem C136_sampling_refused_partial (c : PortCfg) (s : Ports) (now part : Nat) (m : Nat → Nat) (id out rc loc : Nat) (e : Errno) (h : samplingStatus c s now part id = some (e, none)) (hid : id < 256)
    (he : e ≠ .ok) (hp : Ports.checkPtr c part loc 20 = true) :
    ∃ m' n, getSamplingPortStatus c s now part m id out rc loc = some m' ∧ HoldsInt m' rc 4 n ∧ n ≠ 0 ∧ OnlyVars m m' [(out, 20), (rc, 4), (loc, 20)] := by
  have hcall : samplingStatusCall c s now part m id loc = some (e, m) := by
    unfold samplingStatusCall
    rw [if_pos hp, Nat.mod_eq_of_lt hid, h]; rfl
  unfold getSamplingPortStatus
  rw [hcall]
  refine ⟨_, e.code, rfl, holds_same _ _ _ _ (by show e.code < 256 ^ 4; cases e <;> simp [Errno.code]), by cases e <;> first | exact absurd rfl he | decide, ?_⟩
  refine only_put (p := rc) (n := 4) ?_ (by simp) le_rfl (by rw [le_length])
  iterate 4 refine only_put (p := out) (n := 20) ?_ (by simp) (by omega) (by simp only [le_length]; omega)
  exact fun _ _ => rfl

theorem holds_unique {m : Nat → Nat} {a n v w : Nat} (h : HoldsInt m a n v) (k : HoldsInt m a n w) : v = w := by rw [← word_holds h, word_holds k]

/-- **C136** violated: `GET_SAMPLING_PORT_STATUS` of a source port reports success and the direction 2, which is neither SOURCE nor DESTINATION: the numbers of the kernel are stored without
conversion. -/
theorem C136_source_violated (c : PortCfg) (s : Ports) (now part : Nat) (m : Nat → Nat) (id out rc loc : Nat) (v : SamplingInfo) (h : samplingStatus c s now part id = some (.ok, some v)) (hid : id < 256)
    (hf : Fits (.sampling v)) (hd : v.direction = Direction.source.kernel) (hp : Ports.checkPtr c part loc 20 = true) (a1 : Apart out 20 rc 4) (a2 : Apart out 20 loc 20) (a3 : Apart rc 4 loc 20) :
    ∃ m', getSamplingPortStatus c s now part m id out rc loc = some m' ∧ HoldsInt m' rc 4 0 ∧ ∀ d : Direction, ¬HoldsInt m' (out + 12) 4 d.num := by
  obtain ⟨m', e, h1, h2, h3, h4, h5, h6⟩ := sampling_status (m := m) h hid hf hp a1 a2 a3
  refine ⟨m', e, h5, fun d hh => ?_⟩
  have := holds_unique h3 hh
  rw [hd] at this
  cases d <;> simp [Direction.kernel, Direction.num] at this

/-- A configuration: port 0 ("A", sampling) and port 1 ("B", queueing) of partition 0, which has 1000 bytes. -/
def cfg : PortCfg :=
  { nbParts := 1, nbPorts := 2, owner := fun _ => 0, kindOf := fun i => if i = 0 then 2 else 1, name := fun i => if i = 0 then [65] else [66], portsOf := fun _ => [0, 1], dests := fun _ => [],
    toLocal := fun i => i, psize := fun _ => 1000 }

/-- Memory with "A" at 100 and "B" at 110. -/
def mem : Nat → Nat := fun x => if x = 100 then 65 else if x = 110 then 66 else 0

/-- The hypotheses on names hold, and a created port shows its status, as destination and as source. -/
example : Named cfg 0 2 [65] 0 ∧ Named cfg 0 1 [66] 1 ∧ HoldsString mem 100 [65] ∧ HoldsString mem 110 [66] ∧ Ports.checkPtr cfg 0 110 3 = true ∧
    ((Ports.samplingCreate cfg Ports.init 0 [65] 20 1 500).bind fun r => samplingStatus cfg r.1 300 0 0) = some (.ok, some ⟨20, 1, 500, 1⟩) ∧
    ((Ports.samplingCreate cfg Ports.init 0 [65] 20 2 500).bind fun r => samplingStatus cfg r.1 501 0 0) = some (.ok, some ⟨20, 2, 500, 0⟩) ∧ Fits (.sampling ⟨20, 2, 500, 0⟩) := by
  refine ⟨⟨by decide, rfl, rfl, rfl, by omega⟩, ⟨by decide, rfl, rfl, rfl, ?_⟩, ⟨?_, rfl⟩, ⟨?_, rfl⟩, by decide, by decide, by decide, by unfold Fits; decide⟩
  · intro j hj; interval_cases j; decide
  · intro i hi; simp only [List.length_singleton] at hi; interval_cases i; exact ⟨rfl, by simp⟩
  · intro i hi; simp only [List.length_singleton] at hi; interval_cases i; exact ⟨rfl, by simp⟩

/-- **C136** violated: `GET_QUEUING_PORT_ID` takes what the caller's variable contained as an address.  For every name of a queueing port of the partition, it reports success, leaves the variable
as it was, and overwrites the byte at that address with the number of the port. -/
theorem C136_queuing_id_violated (c : PortCfg) (maxName part i : Nat) (m : Nat → Nat) (name out rc : Nat) (str : List Nat) (h : Named c part 1 str i) (hc : c.nbPorts ≤ 256)
    (hs : HoldsString m name str) (hl : str.length ≤ maxName) (h1 : Ports.checkPtr c part name (maxName + 1) = true) (a : Nat) (ha : HoldsInt m out 4 a) (h2 : Ports.checkPtr c part a 1 = true)
    (a1 : Apart out 4 rc 4) (a2 : Apart a 1 out 4) (a3 : Apart a 1 rc 4) :
    HoldsInt (getQueuingPortId c maxName part m name out rc) out 4 a ∧ HoldsInt (getQueuingPortId c maxName part m name out rc) rc 4 0 ∧
    HoldsInt (getQueuingPortId c maxName part m name out rc) a 1 i := by
  have hi := h.1
  unfold getQueuingPortId
  rw [show KIND_QUEUEING = 1 from rfl, word_holds ha, idCall h hs hl h1 h2]
  unfold Apart at a1 a2 a3
  refine ⟨?_, holds_same _ _ _ _ (by norm_num [Errno.code]), ?_⟩
  · refine holds_other (by rw [le_length]; omega) (holds_other (by rw [le_length]; omega) ha)
  · refine holds_other (by rw [le_length]; omega) (holds_same _ _ _ _ (by norm_num; omega))

/-- The variable contained 200: this byte is overwritten, for port 1 of the configuration above. -/
example : getQueuingPortId cfg 2 0 (put mem 300 (le 4 200)) 110 300 304 200 = 1 ∧ getQueuingPortId cfg 2 0 (put mem 300 (le 4 200)) 110 300 304 300 = 200 := by decide +kernel

/-- **C136** violated: `GET_QUEUING_PORT_STATUS` never asks the kernel for a status.  For every port and every memory, the number of messages, the direction and the number of waiting processes that
it shows are what the local variable happened to contain, the maximal number of messages is left as it was, and the return code is that of a search for a port whose name is at the
address equal to the port's number: not NO_ERROR unless a queueing port has this name. -/
theorem C136_queuing_status_violated (c : PortCfg) (maxName part : Nat) (m : Nat → Nat) (id out rc loc : Nat) (a1 : Apart out 20 rc 4) (a2 : Apart out 20 loc 8) (a3 : Apart rc 4 loc 8) :
    HoldsInt (getQueuingPortStatus c maxName part m id out rc loc) out 4 (word m (loc + 5) 1) ∧ HoldsInt (getQueuingPortStatus c maxName part m id out rc loc) (out + 12) 4 (word m (loc + 4) 1) ∧
    HoldsInt (getQueuingPortStatus c maxName part m id out rc loc) (out + 16) 4 (word m (loc + 6) 1) ∧
    (∀ k, k < 4 → getQueuingPortStatus c maxName part m id out rc loc (out + 4 + k) = m (out + 4 + k)) ∧
    ((∀ i, i < c.nbPorts → ¬(c.name i = cString m id (maxName + 1) ∧ c.kindOf i = 1)) → ¬HoldsInt (getQueuingPortStatus c maxName part m id out rc loc) rc 4 0) := by
  unfold Apart at a1 a2 a3
  have hr : ∃ bs : List Nat, bs.length ≤ 1 ∧ (portIdCall c maxName part KIND_QUEUEING m id loc).2 = put m loc bs := by
    unfold portIdCall
    split
    · split
      · exact ⟨le 1 _, by rw [le_length], rfl⟩
      · exact ⟨[], by simp, rfl⟩
    · exact ⟨[], by simp, rfl⟩
  obtain ⟨bs, hb, hr⟩ := hr
  have small : ∀ x, word m x 1 < 256 ^ 4 := fun x => lt_of_lt_of_le (word_lt m x 1) (by norm_num)
  unfold getQueuingPortStatus
  simp only [hr]
  rw [word_other (b := loc + 6) (by rw [le_length]; omega), word_other (b := loc + 6) (by rw [le_length]; omega), word_other (b := loc + 6) (by rw [le_length]; omega), word_other (b := loc + 6) (by omega),
    word_other (b := loc + 4) (by rw [le_length]; omega), word_other (b := loc + 4) (by rw [le_length]; omega), word_other (b := loc + 4) (by omega),
    word_other (b := loc + 5) (by omega)]
  refine ⟨?_, ?_, ?_, fun k hk => ?_, fun hn hh => ?_⟩
  · iterate 4 refine holds_other (by rw [le_length]; omega) ?_
    exact holds_same _ _ _ _ (small _)
  · iterate 2 refine holds_other (by rw [le_length]; omega) ?_
    exact holds_same _ _ _ _ (small _)
  · iterate 1 refine holds_other (by rw [le_length]; omega) ?_
    exact holds_same _ _ _ _ (small _)
  · rw [put_out _ _ _ _ (by rw [le_length]; omega), put_out _ _ _ _ (by rw [le_length]; omega), put_out _ _ _ _ (by rw [le_length]; omega), put_out _ _ _ _ (by rw [le_length]; omega),
      put_out _ _ _ _ (by rw [le_length]; omega), put_out _ _ _ _ (by omega)]
  · have e : (portIdCall c maxName part KIND_QUEUEING m id loc).1.code ≠ 0 ∧ (portIdCall c maxName part KIND_QUEUEING m id loc).1.code < 256 ^ 4 := by
      unfold portIdCall
      split
      · have : Ports.findPort c KIND_QUEUEING (cString m id (maxName + 1)) = none := by
          unfold Ports.findPort
          rw [List.find?_eq_none]
          intro i hi
          have := hn i (by simpa using hi)
          rw [Bool.and_eq_true, decide_eq_true_eq, decide_eq_true_eq]
          exact this
        unfold Ports.portId
        rw [this]
        exact ⟨by simp [Errno.code], by simp [Errno.code]⟩
      · exact ⟨by simp [Errno.code], by simp [Errno.code]⟩
    have := holds_unique hh (holds_same _ _ _ _ e.2)
    exact e.1 this.symm

/-- **C136** violated: `GET_EVENT_STATUS` stores neither a status nor a return code: whatever the caller's variables contained is still there. -/
theorem C136_event_status_violated (m : Nat → Nat) (id out rc a n v : Nat) (h : HoldsInt m a n v) : HoldsInt (getEventStatus m id out rc) a n v := h

/-- **C136** violated: `GET_SEMAPHORE_STATUS` reports NO_ERROR for every number, even if there is no such semaphore, and stores no status. -/
theorem C136_semaphore_status_violated (nb : Nat) (ready : Nat → Nat) (init : Bool) (m : Nat → Nat) (id out rc : Nat) :
    HoldsInt (getSemaphoreStatus nb ready init m id out rc).2.2 rc 4 0 ∧ OnlyIn m (getSemaphoreStatus nb ready init m id out rc).2.2 rc 4 :=
  ⟨holds_same _ _ _ _ (by norm_num), onlyIn_put (onlyIn_refl _ _ _) le_rfl (by rw [le_length])⟩

/-- **C136** (part) `GET_SEMAPHORE_STATUS` leaves the semaphores as they are once the table is initialised; the first call of all marks the `nb` entries as free and no other
memory behind them. -/
theorem C136_semaphore_marks_partial (nb : Nat) (ready : Nat → Nat) (init : Bool) (m : Nat → Nat) (id out rc : Nat) :
    (getSemaphoreStatus nb ready init m id out rc).2.1 = true ∧ (∀ i, init = true ∨ nb ≤ i → (getSemaphoreStatus nb ready init m id out rc).1 i = ready i) ∧
      (init = false → ∀ i, i < nb → (getSemaphoreStatus nb ready init m id out rc).1 i = 0) := by
  refine ⟨rfl, fun i h => ?_, fun h i hi => ?_⟩
  · unfold getSemaphoreStatus
    rcases h with rfl | h
    · rfl
    · split
      · rfl
      · exact if_neg (by omega)
  · subst h; exact if_pos hi

example : (getSemaphoreStatus 2 (fun _ => 7) false (fun _ => 0) 0 0 0).1 1 = 0 ∧ (getSemaphoreStatus 2 (fun _ => 7) false (fun _ => 0) 0 0 0).1 2 = 7 ∧
    (getSemaphoreStatus 2 (fun _ => 7) true (fun _ => 0) 0 0 0).1 1 = 7 := ⟨rfl, rfl, rfl⟩

/-- **C136** (part) Each of the ten services that are not provided stores the return code NOT_AVAILABLE and nothing else. -/
theorem C136_missing_partial (sv : Missing) (m : Nat → Nat) (rc : Nat) : HoldsInt (missing m rc sv) rc 4 2 ∧ OnlyIn m (missing m rc sv) rc 4 := by
  cases sv <;> exact ⟨holds_same _ _ _ _ (by norm_num [NOT_AVAILABLE]), onlyIn_put (onlyIn_refl _ _ _) le_rfl (by rw [le_length])⟩

end Pok.ApexStatus
