import Verif.Spec.Results
import Verif.Props.Stubs
import Verif.Props.ErrorMgmt

/-!
# Results of library calls (C77), the log of errors (C78), computed deadlines (C79)
-/

namespace Pok.Results
open Pok.Stub Pok.Sys Pok.ResultSpec
open Pok.StubSpec (HoldsInt message)

theorem holds_same (m : Nat → Nat) (a n v : Nat) (h : v < 256 ^ n) : HoldsInt (put m a (le n v)) a n v := by
  refine ⟨h, fun i hi => ?_⟩
  have hl : i < (le n v).length := by rw [le_length]; exact hi
  rw [put_in _ _ _ _ hl]
  have := le_get n v i hi
  rw [List.getElem?_eq_getElem hl] at this
  exact Option.some.inj this

theorem holds_other {m : Nat → Nat} {a : Nat} {bs : List Nat} {b k v : Nat} (h : b + k ≤ a ∨ a + bs.length ≤ b) (hm : HoldsInt m b k v) :
    HoldsInt (put m a bs) b k v :=
  ⟨hm.1, fun i hi => by rw [put_out _ _ _ _ (by omega)]; exact hm.2 i hi⟩

theorem onlyIn_put {m m' : Nat → Nat} {p n a : Nat} {bs : List Nat} (h : OnlyIn m m' p n) (h1 : p ≤ a) (h2 : a + bs.length ≤ p + n) :
    OnlyIn m (put m' a bs) p n := fun x hx => by rw [put_out _ _ _ _ (by omega), h x hx]

theorem onlyIn_refl (m : Nat → Nat) (p n : Nat) : OnlyIn m m p n := fun _ _ => rfl

/-- **C77** (part) Every answer of the kernel but the status of a queueing port, the status of an error and the identifier of an event (which
the library declares otherwise) arrives in the variable that the library's headers declare, whatever memory held before, and nothing else in
memory changes.  What is missing: see the violations below. -/
theorem C77_shown_partial (m : Nat → Nat) (p : Nat) (a : Answer) (hf : Fits a) (hq : ∀ v, a ≠ .queueing v) (he : ∀ st, a ≠ .error st) :
    Shown (store m p a) p a ∧ OnlyIn m (store m p a) p (size a) := by
  unfold Fits at hf
  unfold Shown
  cases a
  case queueing v => exact absurd rfl (hq v)
  case error st => exact absurd rfl (he st)
  case thread v =>
    simp only [fields, List.forall_mem_cons, List.not_mem_nil, false_imp_iff, implies_true, and_true] at hf ⊢
    obtain ⟨h1, h2, h3, h4, h5, h6, h7, h8⟩ := hf
    simp only [store, size, Nat.add_zero]
    refine ⟨⟨?_, ?_, ?_, ?_, ?_, ?_, ?_, ?_⟩, ?_⟩
    · iterate 5 refine holds_other (by simp only [le_length]; omega) ?_
      exact holds_same _ _ _ _ h1
    · exact holds_same _ _ _ _ h2
    · iterate 4 refine holds_other (by simp only [le_length]; omega) ?_
      exact holds_same _ _ _ _ h3
    · iterate 3 refine holds_other (by simp only [le_length]; omega) ?_
      exact holds_same _ _ _ _ h4
    · iterate 7 refine holds_other (by simp only [le_length]; omega) ?_
      exact holds_same _ _ _ _ h5
    · iterate 2 refine holds_other (by simp only [le_length]; omega) ?_
      exact holds_same _ _ _ _ h6
    · iterate 1 refine holds_other (by simp only [le_length]; omega) ?_
      exact holds_same _ _ _ _ h7
    · iterate 6 refine holds_other (by simp only [le_length]; omega) ?_
      exact holds_same _ _ _ _ h8
    · iterate 8 refine onlyIn_put ?_ (by omega) (by simp only [le_length]; omega)
      exact onlyIn_refl _ _ _
  case sampling v =>
    simp only [fields, List.forall_mem_cons, List.not_mem_nil, false_imp_iff, implies_true, and_true] at hf ⊢
    obtain ⟨h1, h2, h3, h4⟩ := hf
    simp only [store, size, Nat.add_zero]
    refine ⟨⟨?_, ?_, ?_, ?_⟩, ?_⟩
    · iterate 3 refine holds_other (by simp only [le_length]; omega) ?_
      exact holds_same _ _ _ _ h1
    · iterate 2 refine holds_other (by simp only [le_length]; omega) ?_
      exact holds_same _ _ _ _ h2
    · iterate 1 refine holds_other (by simp only [le_length]; omega) ?_
      exact holds_same _ _ _ _ h3
    · exact holds_same _ _ _ _ h4
    · iterate 4 refine onlyIn_put ?_ (by omega) (by simp only [le_length]; omega)
      exact onlyIn_refl _ _ _
  all_goals
    simp only [fields, List.forall_mem_cons, List.not_mem_nil, false_imp_iff, implies_true, and_true] at hf ⊢
    simp only [store, size, Nat.add_zero]
    exact ⟨holds_same _ _ _ _ hf, onlyIn_put (onlyIn_refl _ _ _) (by omega) (by simp only [le_length]; omega)⟩

/-- The status of a periodic thread arrives. -/
example : Fits (.thread ⟨42, 0, 4096, 100000, 7, 2 ^ 64 - 1, 8192, 4⟩) ∧ Fits (.tick (2 ^ 64 - 1)) ∧ Fits (.lockId 255) := by
  refine ⟨?_, ?_, ?_⟩ <;> (unfold Fits; decide)

/-- **C77** (part) Of an error, the kind, the thread and the address arrive. -/
theorem C77_error_partial (m : Nat → Nat) (p : Nat) (st : ErrorStatus) (hk : st.kind < 256) (ht : st.failedThread < U32)
    (ha : st.failedAddr < U32) (hm : st.msgSize ≤ 250) :
    HoldsInt (store m p (.error st)) p 1 st.kind ∧ HoldsInt (store m p (.error st)) (p + 4) 4 st.failedThread ∧
      HoldsInt (store m p (.error st)) (p + 8) 4 st.failedAddr := by
  have hl : (st.msg.take st.msgSize).length ≤ 250 := by rw [List.length_take]; omega
  simp only [store]
  refine ⟨?_, ?_, ?_⟩
  · iterate 4 refine holds_other (by first | omega | (simp only [le_length]; omega)) ?_
    exact holds_same _ _ _ _ (by simpa using hk)
  · iterate 3 refine holds_other (by first | omega | (simp only [le_length]; omega)) ?_
    exact holds_same _ _ _ _ ht
  · iterate 2 refine holds_other (by first | omega | (simp only [le_length]; omega)) ?_
    exact holds_same _ _ _ _ ha

theorem word4 (m : Nat → Nat) (a : Nat) (h : ∀ x, m x < 256) :
    word m a 4 = m a + 256 * m (a + 1) + 65536 * m (a + 2) + 16777216 * m (a + 3) := by
  have h0 := h a; have h1 := h (a + 1); have h2 := h (a + 2); have h3 := h (a + 3)
  simp only [word, Nat.add_assoc, Nat.reduceAdd]
  omega

/-- **C77** violated: what the library takes for the address of the message are the first four characters of the message, and what it takes
for its length the next four: with any message of at least eight characters. -/
theorem C77_message_violated (m : Nat → Nat) (p : Nat) (st : ErrorStatus) (c0 c1 c2 c3 c4 c5 c6 c7 : Nat) (rest : List Nat)
    (hb : ∀ b ∈ [c0, c1, c2, c3, c4, c5, c6, c7], b < 256)
    (hmsg : st.msg = c0 :: c1 :: c2 :: c3 :: c4 :: c5 :: c6 :: c7 :: rest) (hs : st.msgSize = st.msg.length) :
    (libError (store m p (.error st)) p).msg = c0 + 256 * c1 + 65536 * c2 + 16777216 * c3 ∧
    (libError (store m p (.error st)) p).msgSize = c4 + 256 * c5 + 65536 * c6 + 16777216 * c7 := by
  have hg : ∀ i (h : i < st.msg.length), store m p (.error st) (p + 12 + i) = st.msg[i] := by
    intro i h
    simp only [store, hs, List.take_length]
    exact put_in _ _ _ _ h
  simp only [List.forall_mem_cons, List.not_mem_nil, false_imp_iff, implies_true, and_true] at hb
  obtain ⟨b0, b1, b2, b3, b4, b5, b6, b7⟩ := hb
  have hl : 8 ≤ st.msg.length := by rw [hmsg]; simp
  have g0 := hg 0 (by omega); have g1 := hg 1 (by omega); have g2 := hg 2 (by omega); have g3 := hg 3 (by omega)
  have g4 := hg 4 (by omega); have g5 := hg 5 (by omega); have g6 := hg 6 (by omega); have g7 := hg 7 (by omega)
  simp only [hmsg, List.getElem_cons_zero, List.getElem_cons_succ, Nat.add_zero] at g0 g1 g2 g3 g4 g5 g6 g7
  generalize store m p (.error st) = m' at *
  simp only [libError, word, Nat.add_assoc, Nat.reduceAdd, Nat.mul_zero, Nat.add_zero] at *
  rw [g0, g1, g2, g3, g4, g5, g6, g7]
  omega

/-- A message of an application. -/
example : (libError (store (fun _ => 0) 1000 (.error { kind := 11, failedThread := 2, msg := [65, 66, 67, 68, 69, 70, 71, 72], msgSize := 8 })) 1000) =
    ⟨11, 2, 0, 0x44434241, 0x48474645⟩ := by decide +kernel

/-- **C77** violated: the kernel stores the length of the message 264 bytes after the start of the library's variable, which has 20 bytes, and
a message of more than 8 characters beyond its end: other variables of the partition's stack are overwritten. -/
theorem C77_overwrite_violated (m : Nat → Nat) (p : Nat) (st : ErrorStatus) (hm : st.msgSize = st.msg.length) (hl : st.msg.length ≤ 250) :
    (∀ i, 8 ≤ i → (h : i < st.msg.length) → size (.error st) ≤ 12 + i ∧ store m p (.error st) (p + (12 + i)) = st.msg[i]) ∧
    size (.error st) < 264 ∧ HoldsInt (store m p (.error st)) (p + 264) 4 st.msg.length ∧
    (m (p + 264) ≠ st.msg.length → ¬OnlyIn m (store m p (.error st)) p (size (.error st))) := by
  have h4 : HoldsInt (store m p (.error st)) (p + 264) 4 st.msg.length := by
    simp only [store]
    rw [hm]
    refine holds_other (by rw [List.take_length]; omega) ?_
    exact holds_same _ _ _ _ (by norm_num; omega)
  refine ⟨?_, by simp [size], h4, ?_⟩
  · intro i hi h
    refine ⟨by simp only [size]; omega, ?_⟩
    simp only [store, hm, List.take_length]
    rw [← Nat.add_assoc]
    exact put_in _ _ _ _ h
  · intro hne ho
    have := ho (p + 264) (by simp only [size]; omega)
    have h0 := h4.2 0 (by omega)
    simp only [Nat.add_zero, Nat.pow_zero, Nat.div_one] at h0
    omega

/-- **C77** violated: so `GET_ERROR_STATUS` reports a length made of four characters of the message and copies 64 bytes from an address made of
four others. -/
theorem C77_apex_violated (m : Nat → Nat) (p : Nat) (st : ErrorStatus) (c0 c1 c2 c3 c4 c5 c6 c7 : Nat) (rest : List Nat)
    (hb : ∀ b ∈ [c0, c1, c2, c3, c4, c5, c6, c7], b < 256)
    (hmsg : st.msg = c0 :: c1 :: c2 :: c3 :: c4 :: c5 :: c6 :: c7 :: rest) (hs : st.msgSize = st.msg.length) :
    (apexError (store m p (.error st)) p).1 = c4 + 256 * c5 + 65536 * c6 + 16777216 * c7 ∧
    (apexError (store m p (.error st)) p).2.2.2 = message (store m p (.error st)) (c0 + 256 * c1 + 65536 * c2 + 16777216 * c3) 64 := by
  obtain ⟨h1, h2⟩ := C77_message_violated m p st c0 c1 c2 c3 c4 c5 c6 c7 rest hb hmsg hs
  simp only [apexError, h1, h2]
  exact ⟨trivial, rfl⟩

/-- **C77** violated: in the status of a queueing port the number of waiting processes arrives in the field for the number of messages, and
the field for waiting processes keeps whatever was there. -/
theorem C77_queueing_violated (m : Nat → Nat) (p : Nat) (v : QueueingInfo) (hv : v.waiting < 256) :
    store m p (.queueing v) (p + 5) = v.waiting ∧ store m p (.queueing v) (p + 6) = m (p + 6) ∧
      (m (p + 6) ≠ v.waiting → ¬Shown (store m p (.queueing v)) p (.queueing v)) := by
  have h5 : store m p (.queueing v) (p + 5) = v.waiting := by
    simp only [store]
    have := put_in (put (put m p (le 4 v.size)) (p + 4) (le 1 v.direction)) (p + 5) (le 1 v.waiting) 0 (by rw [le_length]; omega)
    rw [Nat.add_zero] at this
    rw [this]
    simp only [le, List.getElem_cons_zero]
    omega
  have h6 : store m p (.queueing v) (p + 6) = m (p + 6) := by
    simp only [store]
    rw [put_out _ _ _ _ (by rw [le_length]; omega), put_out _ _ _ _ (by rw [le_length]; omega), put_out _ _ _ _ (by rw [le_length]; omega)]
  refine ⟨h5, h6, fun hne hs => ?_⟩
  have := (hs (6, 1, v.waiting) (by simp [fields])).2 0 (by simp)
  simp only [Nat.add_zero, Nat.pow_zero, Nat.div_one, h6] at this
  omega

/-- **C77** violated: moreover the status of a queueing port says that no process waits, whatever the state of the port. -/
theorem C77_waiting_violated {c : PortCfg} {s : Ports} {part id : Nat} {v : QueueingInfo} (h : queueingStatus c s part id = some (.ok, some v)) :
    v.waiting = 0 := by
  unfold queueingStatus at h
  split at h
  · simp at h
  · split at h
    · simp at h
    · simp at h
    · simp only at h
      split at h
      · simp at h
      · split at h
        · simp at h
        · split at h
          · simp at h
          · simp only [Option.some.injEq, Prod.mk.injEq, true_and] at h
            rw [← h]

/-- **C77** violated: the library declares 16 bits for the identifier of an event, the kernel stores 8: the identifier that the program sees is
wrong unless the other byte was zero. -/
theorem C77_event_violated (m : Nat → Nat) (p id : Nat) (hm : m (p + 1) ≠ 0) : ¬∃ i < 256, i = id ∧ HoldsInt (store m p (.lockId i)) p 2 i := by
  rintro ⟨i, hi, rfl, h⟩
  have := h.2 1 (by omega)
  simp only [store] at this
  rw [put_out _ _ _ _ (by rw [le_length]; omega)] at this
  simp only [Nat.pow_one] at this
  omega

/-- **C77** (part) The status of a sampling port: given to its owner, it tells the size, direction and refresh period with which the port was
created, and the validity that a read at the same time would report. -/
theorem C77_sampling_status {c : PortCfg} {s : Ports} {now part id : Nat} {v : SamplingInfo}
    (h : samplingStatus c s now part id = some (.ok, some v)) :
    c.owner id = part ∧ (s.P id).kind = 2 ∧ v.size = (s.P id).size ∧ v.direction = (s.P id).direction ∧ v.refresh = (s.P id).refresh ∧
      (v.validity = 1 ↔ now ≤ ((s.P id).lastReceive + (s.P id).refresh) % U64) ∧ (v.validity = 0 ∨ v.validity = 1) := by
  unfold samplingStatus at h
  split at h
  · simp at h
  · split at h
    · simp at h
    · simp at h
    · rename_i hown
      simp only at h
      split at h
      · simp at h
      · split at h
        · simp at h
        · split at h
          · simp at h
          · rename_i hk _
            simp only [Option.some.injEq, Prod.mk.injEq, true_and] at h
            subst h
            refine ⟨?_, by simpa [KIND_SAMPLING] using hk, rfl, rfl, rfl, ?_, ?_⟩
            · unfold Ports.ownPort at hown
              split at hown
              · simp at hown
              · split at hown
                · simp at hown
                · simpa using hown
            · simp only
              split <;> simp <;> omega
            · simp only
              split <;> simp

/-- **C77** (part) Who gets the status of a port: the partition that created it, for a port of that kind; every other request is refused, and
nothing is stored. -/
theorem C77_status_exact {c : PortCfg} {s : Ports} {now part id : Nat} (hid : id < c.nbPorts) :
    (((∃ v, samplingStatus c s now part id = some (.ok, some v)) ↔ c.owner id = part ∧ (s.P id).ready = true ∧ (s.P id).kind = 2 ∧ (s.P id).partition = part) ∧
      ((∃ v, samplingStatus c s now part id = some (.ok, some v)) ∨ samplingStatus c s now part id = some (.einval, none) ∨
        samplingStatus c s now part id = some (.port, none))) ∧
    ((∃ v, queueingStatus c s part id = some (.ok, some v)) ↔ c.owner id = part ∧ (s.P id).ready = true ∧ (s.P id).kind = 1 ∧ (s.P id).partition = part) ∧
      ((∃ v, queueingStatus c s part id = some (.ok, some v)) ∨ queueingStatus c s part id = some (.einval, none) ∨
        queueingStatus c s part id = some (.port, none)) := by
  have ho : Ports.ownPort c part id = some (decide (c.owner id = part)) := by
    unfold Ports.ownPort
    rw [if_neg (by omega), if_neg (by omega)]
  have hn : ¬ id > c.nbPorts := by omega
  unfold samplingStatus queueingStatus
  simp only [if_neg hn, ho, KIND_SAMPLING, KIND_QUEUEING]
  by_cases h1 : c.owner id = part
  · simp only [h1, decide_true]
    by_cases h2 : (s.P id).ready = false <;> by_cases h4 : (s.P id).partition = part <;> by_cases h3 : (s.P id).kind = 2 <;> by_cases h5 : (s.P id).kind = 1 <;>
      simp [h2, h3, h4, h5]
  · simp [h1]

/-- **C77** violated: the test of the identifier lets the number of ports pass; the kernel then reads the owner of a port that is not there. -/
theorem C77_bound_violated (c : PortCfg) (s : Ports) (now part id : Nat) :
    (samplingStatus c s now part id = none ↔ id = c.nbPorts) ∧ (queueingStatus c s part id = none ↔ id = c.nbPorts) := by
  unfold samplingStatus queueingStatus Ports.ownPort
  by_cases h : id > c.nbPorts
  · simp only [if_pos h]
    simp; omega
  · simp only [if_neg h]
    by_cases he : id = c.nbPorts
    · simp [he]
    · simp only [if_neg he]
      by_cases h1 : c.owner id = part
      · simp only [h1, decide_true]
        constructor <;> (repeat' split) <;> simp [he]
      · simp [h1, he]

/-- The hypotheses are met: port 2 of the example is a sampling port of partition 0, once it has been created. -/
example : ((Ports.run Ports.exPorts Ports.exCreate Ports.init).bind fun r => samplingStatus Ports.exPorts r.1 10 0 2) = some (.ok, some ⟨3, DIR_OUT, 50, 1⟩) ∧
    ((Ports.run Ports.exPorts Ports.exCreate Ports.init).bind fun r => queueingStatus Ports.exPorts r.1 1 1) = some (.ok, some ⟨6, DIR_IN, 0⟩) ∧
    ((Ports.run Ports.exPorts Ports.exCreate Ports.init).bind fun r => samplingStatus Ports.exPorts r.1 10 1 2) = some (.port, none) := by
  refine ⟨by decide +kernel, by decide +kernel, by decide +kernel⟩

/-! ## Log of errors -/

/-- Logging a list of errors (time, error, thread), oldest first. -/
def logAll : List (Nat × Nat × Nat) → Log → Option Log
  | [], l => some l
  | e :: es, l => (l.confirm e.1 e.2.1 e.2.2).bind (logAll es)

theorem logAll_spec (es : List (Nat × Nat × Nat)) (l : Log) (h : l.nb + es.length ≤ 100) :
    ∃ l', logAll es l = some l' ∧ l'.nb = l.nb + es.length ∧ (∀ i < l.nb, l'.entry i = l.entry i) ∧
      ∀ i (hi : i < es.length), l'.entry (l.nb + i) = ⟨es[i].2.2, es[i].2.1, es[i].1⟩ := by
  induction es generalizing l with
  | nil => exact ⟨l, rfl, rfl, fun _ _ => rfl, fun i hi => by simp at hi⟩
  | cons e es ih =>
    simp only [List.length_cons] at h
    have hadd : l.confirm e.1 e.2.1 e.2.2 = some ⟨upd l.entry l.nb ⟨e.2.2, e.2.1, e.1⟩, (l.nb + 1) % 65536⟩ := by
      unfold Log.confirm Log.add
      rw [if_pos (by simp only [MAX_LOGGED]; omega)]
    have hm : (l.nb + 1) % 65536 = l.nb + 1 := by omega
    obtain ⟨l', h1, h2, h3, h4⟩ := ih ⟨upd l.entry l.nb ⟨e.2.2, e.2.1, e.1⟩, l.nb + 1⟩ (by simp only; omega)
    refine ⟨l', ?_, by simp only [List.length_cons] at h2 ⊢; omega, ?_, ?_⟩
    · rw [logAll, hadd, hm]; exact h1
    · intro i hi
      rw [h3 i (by simp only; omega)]
      exact upd_other _ _ (by omega)
    · intro i hi
      cases i with
      | zero =>
        rw [h3 (l.nb + 0) (by simp only; omega)]
        simp only [Nat.add_zero]
        rw [upd_same]; rfl
      | succ i =>
        have := h4 i (by simpa using hi)
        simp only at this
        rw [show l.nb + (i + 1) = l.nb + 1 + i by omega, this]
        simp

/-- **C78** (part) Up to 100 errors, confirmed or ignored, are all kept in the log, in order, with thread, error and time.  What is missing:
see `C78_full_violated`. -/
theorem C78_log_partial (es : List (Nat × Nat × Nat)) (e0 : Nat → Report) (h : es.length ≤ 100) :
    ∃ l, logAll es ⟨e0, 0⟩ = some l ∧ l.nb = es.length ∧ ∀ i (hi : i < es.length), l.entry i = ⟨es[i].2.2, es[i].2.1, es[i].1⟩ := by
  obtain ⟨l, h1, h2, _, h4⟩ := logAll_spec es ⟨e0, 0⟩ (by simpa using h)
  refine ⟨l, h1, by simpa using h2, fun i hi => ?_⟩
  have := h4 i hi
  simpa using this

/-- `pok_error_ignore` keeps the error as `pok_error_confirm` does. -/
theorem C78_ignored (l : Log) (now error thread : Nat) : l.ignore now error thread = l.confirm now error thread := rfl

/-- **C78** violated: the error after the hundredth is stored past the end of the table. -/
theorem C78_full_violated (es : List (Nat × Nat × Nat)) (e0 : Nat → Report) (h : 100 < es.length) : logAll es ⟨e0, 0⟩ = none := by
  have happ : ∀ (xs ys : List (Nat × Nat × Nat)) l, logAll (xs ++ ys) l = (logAll xs l).bind (logAll ys) := by
    intro xs
    induction xs with
    | nil => intro ys l; rfl
    | cons x xs ih =>
      intro ys l
      simp only [List.cons_append, logAll]
      cases l.confirm x.1 x.2.1 x.2.2 with
      | none => rfl
      | some l => simp only [Option.bind_some]; exact ih ys l
  obtain ⟨l, h1, h2, _⟩ := logAll_spec (es.take 100) ⟨e0, 0⟩ (by simp)
  rw [← List.take_append_drop 100 es, happ, h1, Option.bind_some]
  have hd : (es.drop 100) ≠ [] := by
    intro hc
    have := congrArg List.length hc
    simp at this
    omega
  cases hes : es.drop 100 with
  | nil => exact absurd hes hd
  | cons x xs =>
    have hlen : l.nb = 100 := by
      rw [h2, List.length_take]
      simp only [Nat.zero_add]
      omega
    simp only [logAll, Log.confirm, Log.add, hlen, MAX_LOGGED, Nat.lt_irrefl, if_false, Option.bind_none]

example : ((logAll [(5, 10, 2), (9, 12, 3)] ⟨fun _ => ⟨0, 0, 0⟩, 0⟩).map fun l => (l.nb, l.entry 0, l.entry 1)) =
    some (2, ⟨2, 10, 5⟩, ⟨3, 12, 9⟩) := by decide

/-! ## Defaults and deadlines -/

/-- **C79** (part) The default attributes do not depend on what memory held before, but for the processor; and a thread with these attributes
is aperiodic. -/
theorem C79_defaults_partial (x y : ThreadAttr) (h : x.affinity = y.affinity) : attrInit x = attrInit y ∧ (attrInit x).period = 0 ∧
    (attrInit x).priority = 42 := by
  simp [attrInit, h]

/-- **C79** violated: the processor of a thread with default attributes is whatever memory held. -/
theorem C79_affinity_violated (a : Nat) : ∃ x, (attrInit x).affinity = a := ⟨{ affinity := a }, rfl⟩

/-- **C79** (part) A computed deadline is the clock plus the delay. -/
theorem C79_deadline (now relative : Nat) (h : now + relative < 2 ^ 64) : computeDeadline now relative = now + relative := by
  unfold computeDeadline
  exact Nat.mod_eq_of_lt h

/-- **C79** violated: a deadline is in nanoseconds, the time given to `pok_thread_sleep_until` in microseconds: a thread that sleeps until the
deadline that it computed with delay `relative` asks the kernel for a time a thousand times later. -/
theorem C79_until_violated {c : Config} {k k1 : Kernel} {proc now relative : Nat} (h : now + relative < 2 ^ 32)
    (hs : k.sleepUntil c proc now (computeDeadline now relative) = some k1) :
    ∃ k0 : Kernel, (k0.T (k.curThread proc)).wakeup = 1000 * (now + relative) ∧ (k0.T (k.curThread proc)).state = .waiting ∧
      Kernel.schedThread c proc now k0 = some k1 := by
  rw [C79_deadline now relative (by omega)] at hs
  refine ⟨_, ?_, ?_, hs⟩
  · simp only [lockCurrentTimed, upd_same]
    rw [Nat.mul_comm, Nat.mod_eq_of_lt (by simp only [U64]; omega)]
  · simp only [lockCurrentTimed, upd_same]

end Pok.Results
