import Verif.Model.DefaultHandler
import Verif.Props.Results
import Verif.Props.ErrorMgmt
import Verif.Props.Total

/-!
# The default error handler (C130)
-/

namespace Pok.DefaultHandler
open Pok.Results Pok.Stub Kernel

/-- The last call of the handler. -/
theorem stops {c : Config} {act : Actions} {k : Kernel} {proc now : Nat} (hc : CfgOk c) (hr : ReachableE c act k) (hq : proc < c.nbProcs)
    (h0 : (k.P k.curPart).threadError ≠ 0) (h1 : k.curThread proc = (k.P k.curPart).threadError) :
    ∃ k', setModeCurrent c proc now k .stopped = some (k', .ok) ∧ (k'.P k.curPart).mode = .stopped ∧ ∀ q, q ≠ k.curPart → (k'.P q).mode = (k.P q).mode := by
  have hw := hr.wf hc
  have hs : setModeCurrent c proc now k .stopped = setMode c proc now k k.curPart .stopped := by
    unfold setModeCurrent
    simp only
    rw [if_neg (fun q => q.2 h1)]
  obtain ⟨k', hk⟩ : ∃ k', setModeCurrent c proc now k .stopped = some (k', .ok) := by
    rw [hs]
    unfold setMode
    simp only
    rw [if_neg (by rintro (q | q); exact h0 q; exact q h1)]
    obtain ⟨k', hk'⟩ := global_total proc now hc (wf_setP (P := { k.P k.curPart with mode := .stopped }) hw (fun hp => by
      obtain ⟨a1, a2, a3, a4, a5, a6, a7⟩ := hw.part _ hp
      constructor <;> assumption)) hq
    rw [hk']
    exact ⟨k', rfl⟩
  refine ⟨k', hk, (C17_success hk).2, ?_⟩
  intro q hq'
  have hx : exec c proc now k (.setMode .stopped) = some k' := by simp [exec, hk]
  rcases C17_only hx q with h | ⟨h, _⟩
  · exact h
  · exact absurd h hq'

/-- **C130** (part: the build without messages): in every reachable state in which the handler is the running thread, the default handler ends, and
then the partition is stopped; no other partition changes its mode, whatever error was pending, or none. -/
theorem C130_stops_partial {c : Config} {act : Actions} {k : Kernel} {proc now : Nat} (hc : CfgOk c) (hr : ReachableE c act k) (hq : proc < c.nbProcs)
    (h0 : (k.P k.curPart).threadError ≠ 0) (h1 : k.curThread proc = (k.P k.curPart).threadError) (m : Nat → Nat) (size p : Nat) :
    ∃ k', worker false c proc now k m size p = .ended none (some (k', .ok)) ∧ (k'.P k.curPart).mode = .stopped ∧
      ∀ q, q ≠ k.curPart → (k'.P q).mode = (k.P q).mode := by
  obtain ⟨k', hk, r⟩ := stops (now := now) hc hr hq h0 h1
  exact ⟨k', by simp [worker, hk], r⟩

theorem bytes_append (m : Nat → Nat) (a n r : Nat) : Sys.bytes m a (n + r) = Sys.bytes m a n ++ Sys.bytes m (a + n) r := by
  simp [Sys.bytes, List.range_add, Nat.add_assoc]

theorem text_all {m : Nat → Nat} {a n : Nat} (hz : ∀ i, i < n → m (a + i) ≠ 0) (l : List Nat) : text (Sys.bytes m a n ++ l) = Sys.bytes m a n ++ text l := by
  unfold text
  refine List.takeWhile_append_of_pos fun x hx => ?_
  simp only [Sys.bytes, List.mem_map, List.mem_range] at hx
  obtain ⟨i, hi, rfl⟩ := hx
  simpa using hz i hi

/-- **C130** (part: the build with messages): if the status that the handler has lies within the partition and its message contains no null byte, whether or not one follows it, the
handler prints the bytes of the message and no others, and then the partition is stopped and no other one. -/
theorem C130_message_partial {c : Config} {act : Actions} {k : Kernel} {proc now : Nat} (hc : CfgOk c) (hr : ReachableE c act k) (hq : proc < c.nbProcs)
    (h0 : (k.P k.curPart).threadError ≠ 0) (h1 : k.curThread proc = (k.P k.curPart).threadError) (m : Nat → Nat) (size p : Nat) (hs : size ≤ 2 ^ 32)
    (he : (libError (afterGet k m p) p).msg + (libError (afterGet k m p) p).msgSize < size)
    (hz : ∀ i, i < (libError (afterGet k m p) p).msgSize → afterGet k m p ((libError (afterGet k m p) p).msg + i) ≠ 0) :
    ∃ k', worker true c proc now k m size p = .ended (some (Sys.bytes (afterGet k m p) (libError (afterGet k m p) p).msg (libError (afterGet k m p) p).msgSize)) (some (k', .ok)) ∧
      (k'.P k.curPart).mode = .stopped ∧ ∀ q, q ≠ k.curPart → (k'.P q).mode = (k.P q).mode := by
  obtain ⟨k', hk, r⟩ := stops (now := now) hc hr hq h0 h1
  refine ⟨k', ?_, r⟩
  unfold worker
  simp only
  generalize libError (afterGet k m p) p = e at he hz ⊢
  generalize afterGet k m p = m1 at hz ⊢
  rw [if_neg (by decide), Nat.mod_eq_of_lt (by omega), if_neg (by omega), if_neg (by omega), hk]
  congr 2
  split
  · next h =>
    rw [show size - e.msg = e.msgSize + (1 + (size - e.msg - e.msgSize - 1)) by omega, bytes_append, text_all hz, bytes_append m1 (e.msg + e.msgSize) 1]
    have : Sys.bytes m1 (e.msg + e.msgSize) 1 = [0] := by simp [Sys.bytes, h]
    rw [this]
    simp [text]
  · have := text_all hz []
    simpa [text] using this

/-- The kernel has an application error of the running partition with this message. -/
def Pending (k : Kernel) (msg : List Nat) : Prop :=
  (k.P k.curPart).error.kind = KIND_APPLICATION ∧ (k.P k.curPart).error.msg = msg ∧ (k.P k.curPart).error.msgSize = msg.length

/-- **C130** violated: in the build with messages, after an application error whose message has at least eight characters, all printable, the default
handler never stops a partition of at most 1 GiB: it reads an address made of the first four characters plus the next four, which lies outside the
partition, and so is stopped by a memory violation itself. -/
theorem C130_fault_violated (c : Config) (proc now : Nat) (k : Kernel) (m : Nat → Nat) (size p : Nat) (c0 c1 c2 c3 c4 c5 c6 c7 : Nat) (rest : List Nat)
    (hp : Pending k (c0 :: c1 :: c2 :: c3 :: c4 :: c5 :: c6 :: c7 :: rest)) (hs : size ≤ 2 ^ 30)
    (hb : ∀ b ∈ [c0, c1, c2, c3, c4, c5, c6, c7], 32 ≤ b ∧ b ≤ 126) :
    ∃ a, size ≤ a ∧ worker true c proc now k m size p = .fault a := by
  obtain ⟨h1, h2, h3⟩ := hp
  have hg : afterGet k m p = store m p (.error (k.P k.curPart).error) := by
    unfold afterGet errorGet
    rw [if_pos (by rw [h1]; decide)]
  obtain ⟨e1, e2⟩ := C77_message_violated m p (k.P k.curPart).error c0 c1 c2 c3 c4 c5 c6 c7 rest (fun b h => by have := hb b h; omega) h2 (by rw [h3, h2])
  simp only [List.forall_mem_cons, List.not_mem_nil, false_imp_iff, implies_true, and_true] at hb
  obtain ⟨b0, b1, b2, b3, b4, b5, b6, b7⟩ := hb
  refine ⟨_, ?_, by unfold worker; simp only; rw [if_neg (by decide), if_pos]; rw [hg, e1, e2]; omega⟩
  rw [hg, e1, e2]; omega

/-- **C130** violated: an error that the kernel found itself comes without a message, and then the build with messages reads an address that is left over
on the stack: for every address outside the partition there are contents of the stack for which the handler faults there. -/
theorem C130_leftover_violated (c : Config) (proc now : Nat) (k : Kernel) (size p a : Nat) (h1 : (k.P k.curPart).error.kind ≠ KIND_NONE)
    (h2 : (k.P k.curPart).error.msgSize = 0) (ha : a < 2 ^ 32) (hs : size ≤ a) :
    ∃ m, worker true c proc now k m size p = .fault a := by
  let m : Nat → Nat := put (fun _ => 0) (p + 12) (le 4 a)
  refine ⟨m, ?_⟩
  have hg : afterGet k m p = store m p (.error (k.P k.curPart).error) := by
    unfold afterGet errorGet
    rw [if_pos h1]
  have out : ∀ i, i < 8 → store m p (.error (k.P k.curPart).error) (p + 12 + i) = m (p + 12 + i) := by
    intro i hi
    simp only [store, h2, List.take_zero]
    rw [put_out _ _ _ _ (by simp only [List.length_nil]; omega), put_out _ _ _ _ (by simp only [le_length]; omega), put_out _ _ _ _ (by simp only [le_length]; omega),
      put_out _ _ _ _ (by simp only [le_length]; omega), put_out _ _ _ _ (by simp only [le_length]; omega)]
  have inn : ∀ i, i < 4 → m (p + 12 + i) = a / 256 ^ i % 256 := by
    intro i hi
    have := (holds_same (fun _ => 0) (p + 12) 4 a (by norm_num; omega)).2 i hi
    exact this
  have zz : ∀ i, 4 ≤ i → m (p + 12 + i) = 0 := fun i hi => by
    show put _ _ _ _ = 0
    rw [put_out _ _ _ _ (by simp only [le_length]; omega)]
  have e1 : (libError (afterGet k m p) p).msg = a := by
    rw [hg]
    simp only [libError, Sys.word]
    have o0 := out 0 (by omega); have o1 := out 1 (by omega); have o2 := out 2 (by omega); have o3 := out 3 (by omega)
    rw [inn _ (by omega)] at o0 o1 o2 o3
    simp only [Nat.add_assoc, Nat.add_zero, Nat.reduceAdd] at o0 o1 o2 o3 ⊢
    rw [o0, o1, o2, o3]
    norm_num
    omega
  have e2 : (libError (afterGet k m p) p).msgSize = 0 := by
    rw [hg]
    simp only [libError, Sys.word]
    have o0 := out 4 (by omega); have o1 := out 5 (by omega); have o2 := out 6 (by omega); have o3 := out 7 (by omega)
    rw [zz _ (by omega)] at o0 o1 o2 o3
    simp only [Nat.add_assoc, Nat.add_zero, Nat.reduceAdd] at o0 o1 o2 o3 ⊢
    rw [o0, o1, o2, o3]
  unfold worker
  simp only
  rw [if_neg (by decide), if_pos, e1, e2]
  · congr 1; omega
  · rw [e1, e2]; omega

/-! ## The hypotheses are met -/

/-- Partition 0, whose thread 1 is the handler, has had the application error "no input" of thread 2: the handler runs and the error is pending. -/
example : (runE exCfg noAction (exHandler ++ [.raise 0 [110, 111, 32, 105, 110, 112, 117, 116] 8])).map
    (fun k => (k.curPart, k.curThread 0, (k.P 0).threadError, (k.P 0).error.kind, (k.P 0).error.msg, (k.P 0).error.msgSize)) =
    some (0, 1, 1, KIND_APPLICATION, [110, 111, 32, 105, 110, 112, 117, 116], 8) := by decide +kernel

/-- What the two builds of the handler then do, in a partition of 4096 bytes. -/
example : (runE exCfg noAction (exHandler ++ [.raise 0 [110, 111, 32, 105, 110, 112, 117, 116] 8])).map (fun k =>
      (match worker true exCfg 0 9 k (fun _ => 0) 4096 100 with | .fault a => some a | _ => none,
       match worker false exCfg 0 9 k (fun _ => 0) 4096 100 with | .ended _ (some (k', e)) => some ((k'.P 0).mode, e) | _ => none)) =
    some (some 0xdd95dfdc, some (.stopped, .ok)) := by decide +kernel

/-- A deadline is missed, which comes without a message, and the stack happened to hold a pointer to "late" and its length: both kinds of end of the message. -/
example : ((runE exCfg noAction (exHandler ++ [.raise 0 [] 0])).map fun k =>
      ((libError (afterGet k (put (put (put (fun _ => 1) 112 (le 4 200)) 116 (le 4 4)) 200 [108, 97, 116, 101]) 100) 100).msg,
       (libError (afterGet k (put (put (put (fun _ => 1) 112 (le 4 200)) 116 (le 4 4)) 200 [108, 97, 116, 101]) 100) 100).msgSize,
       match worker true exCfg 0 9 k (put (put (put (fun _ => 1) 112 (le 4 200)) 116 (le 4 4)) 200 [108, 97, 116, 101]) 4096 100 with
        | .ended (some s) (some (k', e)) => if (k'.P 0).mode = .stopped ∧ e = .ok then s else [] | _ => [])) =
    some (200, 4, [108, 97, 116, 101]) := by decide +kernel

end Pok.DefaultHandler
