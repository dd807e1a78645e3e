import Verif.Props.Port
import Verif.Props.Sampling

/-!
# C99: waiting on queueing ports

A caller of `pok_port_queueing_send` or `pok_port_queueing_receive` says how long it is ready to wait.  The
result `waiting d` means that the caller is suspended until the port is flushed or the clock shows `d`.
-/

namespace Pok.Ports

open LockObj (mkDeadline)

/-- A legal send on an unlocked port goes to the loop. -/
private theorem send_loop {c : PortCfg} {s : Ports} {now part id : Nat} {bs : List Nat} {t : Nat}
    (hal : Allowed c s (.send part id bs t)) (hlk : (s.P id).locked = false) (hpart : (s.P id).partition = part)
    (hb : 0 < bs.length) (hs : bs.length ≤ (s.P id).size) (abs : Nat) :
    sendAt c s now part id bs abs = sendLoop s now id bs abs := by
  obtain ⟨h1, h2, h3, h4, h5⟩ := hal
  have own : ownPort c part id = some true := by
    unfold ownPort; rw [if_neg (by omega), if_neg (by omega)]; simp [h2]
  unfold sendAt
  rw [if_neg (by omega), if_neg (by omega), own]
  simp only
  rw [if_neg (by rw [h3]; simp), if_neg (by omega), if_neg (by rw [h4]; simp), if_neg (by rw [hpart]; simp),
    if_neg (by rw [h5]; simp), if_neg (by rw [hlk]; simp)]

private theorem receive_loop {c : PortCfg} {s : Ports} {now part id maxlen t : Nat}
    (hal : Allowed c s (.receive part id maxlen t)) (hlk : (s.P id).locked = false) (hm : 0 < maxlen) (abs : Nat) :
    receiveAt c s now part id maxlen abs = recvLoop s now id maxlen abs := by
  obtain ⟨h1, h2, h3, h4, h5⟩ := hal
  have own : ownPort c part id = some true := by
    unfold ownPort; rw [if_neg (by omega), if_neg (by omega)]; simp [h2]
  unfold receiveAt
  rw [if_neg (by omega), if_neg (by omega), own]
  simp only
  rw [if_neg (by rw [h3]; simp), if_neg (by rw [h5]; simp), if_neg (by rw [h4]; simp), if_neg (by rw [hlk]; simp)]

private theorem empty_of_queue {c : PortCfg} (hc : c.Ok) {s : Ports} (h : Reached c s) {id : Nat}
    (hr : (s.P id).ready = true) (hk : (s.P id).kind = KIND_QUEUEING) (hq : s.queueOf id = []) : (s.P id).empty = true := by
  cases hem : (s.P id).empty with
  | true => rfl
  | false =>
    have := held_pos ((h.inv hc).ok id hr) hk hem
    rw [← queue_length, hq] at this; simp at this

/-- **C99** (part), a send that finds the port full: with no time to wait the caller is told FULL at once and
nothing changes; otherwise it is suspended and nothing changes either.  Missing: the date until which it is
suspended is not the one asked for, see `C99_deadline_violated`. -/
theorem C99_send_partial {c : PortCfg} {s : Ports} {now part id : Nat} {bs : List Nat} {t : Nat}
    (hal : Allowed c s (.send part id bs t)) (hlk : (s.P id).locked = false) (hpart : (s.P id).partition = part)
    (hb : 0 < bs.length) (hs : bs.length ≤ (s.P id).size) (h256 : bs.length < 256) (hf : (s.P id).full = true)
    (hw : t + now < U64) :
    (t = 0 → s.step c now (.send part id bs t) = some (s, { res := .done .full })) ∧
    (0 < t → ∃ d, s.step c now (.send part id bs t) = some (s, { res := .waiting d })) := by
  have hm : bs.length % 256 = bs.length := Nat.mod_eq_of_lt h256
  have hav : availableSize (s.P id) = 0 := by simp [availableSize, hf]
  constructor
  · intro ht
    subst ht
    simp only [Ports.step, queueingSend, hm, List.take_length, send_loop hal hlk hpart hb hs, sendLoop, hav]
    rw [if_pos (by omega)]
    simp [mkDeadline]
  · intro ht
    refine ⟨mkDeadline (mkDeadline t now) now, ?_⟩
    simp only [Ports.step, queueingSend, hm, List.take_length, send_loop hal hlk hpart hb hs, sendLoop, hav]
    rw [if_pos (by omega), if_neg (by unfold mkDeadline; rw [if_neg (by omega), Nat.mod_eq_of_lt hw]; omega)]
    rfl

/-- **C99** (part), a send that finds room: it never waits, whatever the time it is ready to wait. -/
theorem C99_send_room {c : PortCfg} (hc : c.Ok) {s : Ports} (h : Reached c s) {now part id : Nat} {bs : List Nat} {t : Nat}
    (hal : Allowed c s (.send part id bs t)) (hlk : (s.P id).locked = false) (hpart : (s.P id).partition = part)
    (hb : 0 < bs.length) (hs : bs.length ≤ (s.P id).size) (h256 : bs.length < 256) (hf : (s.P id).full = false)
    {s' : Ports} {o : PortOut} (hr : s.step c now (.send part id bs t) = some (s', o)) : o.res = .done .ok := by
  have hm : bs.length % 256 = bs.length := Nat.mod_eq_of_lt h256
  have hcap := C34_no_capacity_test hc h id hal.2.2.1 hal.2.2.2.2 hf
  simp only [Ports.step, queueingSend, hm, List.take_length, send_loop hal hlk hpart hb hs, sendLoop] at hr
  rw [if_neg (by omega)] at hr
  cases hp : portWrite s now id bs with
  | none => rw [hp] at hr; simp at hr
  | some r =>
    obtain ⟨s1, e⟩ := r
    rw [hp] at hr
    simp only [Option.map_some, Option.some.injEq, Prod.mk.injEq] at hr
    rw [← hr.2]

/-- **C99** (part), a receive that finds nothing: with no time to wait the caller is told EMPTY at once;
otherwise it is suspended.  A receive that finds bytes never waits (`C34_receive`).  Missing: as for the send. -/
theorem C99_receive_partial {c : PortCfg} (hc : c.Ok) {s : Ports} (h : Reached c s) {now part id maxlen t : Nat}
    (hal : Allowed c s (.receive part id maxlen t)) (hlk : (s.P id).locked = false) (hm : 0 < maxlen)
    (hq : s.queueOf id = []) (hw : t + now < U64) :
    (t = 0 → s.step c now (.receive part id maxlen t) = some (s, { res := .done .empty })) ∧
    (0 < t → ∃ d, s.step c now (.receive part id maxlen t) = some (s, { res := .waiting d })) := by
  have hem := empty_of_queue hc h hal.2.2.1 hal.2.2.2.2 hq
  constructor
  · intro ht
    subst ht
    simp only [Ports.step, queueingReceive, receive_loop hal hlk hm, recvLoop, hem]
    simp [mkDeadline]
  · intro ht
    refine ⟨mkDeadline (mkDeadline t now) now, ?_⟩
    simp only [Ports.step, queueingReceive, receive_loop hal hlk hm, recvLoop, hem]
    rw [if_pos trivial, if_neg (by unfold mkDeadline; rw [if_neg (by omega), Nat.mod_eq_of_lt hw]; omega)]
    rfl

/-- **C99** (part) A receiver that was suspended and is woken because bytes have arrived gets the oldest of them,
as many as it asked for or as there are, and they are removed; it does not wait again. -/
theorem C99_woken {c : PortCfg} (hc : c.Ok) {s : Ports} (h : Reached c s) {now part id maxlen abs : Nat}
    (hal : Allowed c s (.receiveResume part id maxlen abs)) (hm : 0 < maxlen) (hlk : (s.P id).locked = false)
    (hq : s.queueOf id ≠ []) :
    ∃ s', s.step c now (.receiveResume part id maxlen abs) =
        some (s', { res := .done .ok, bytes := (s.queueOf id).take maxlen }) ∧
      s'.queueOf id = (s.queueOf id).drop maxlen := by
  have hal' : Allowed c s (.receive part id maxlen 0) := hal
  obtain ⟨s', o, h1, h2, h3, h4⟩ := (C34_receive hc h (now := now) hal' hm hlk).1 hq
  refine ⟨s', ?_, h4⟩
  have hem : (s.P id).empty = false := by
    cases hem : (s.P id).empty with
    | false => rfl
    | true => exact absurd (by unfold Ports.queueOf; simp [held, hem]) hq
  simp only [Ports.step, queueingReceive, receive_loop hal' hlk hm] at h1 ⊢
  have e : recvLoop s now id maxlen abs = recvLoop s now id maxlen (mkDeadline 0 now) := by
    unfold recvLoop; simp [hem]
  rw [e]
  rw [h1]
  congr 2
  cases hr : recvLoop s now id maxlen (mkDeadline 0 now) with
  | none => rw [hr] at h1; simp at h1
  | some r =>
    rw [hr] at h1
    simp only [Option.map_some, Option.some.injEq, Prod.mk.injEq] at h1
    rw [← h1.2] at h2 h3 ⊢
    simp only at h2 h3 ⊢
    rw [h2, h3]

/-- **C99** violated: the time is added to the clock twice.  A receiver (a sender likewise) that is ready to wait
for `t` is suspended until the date `t + 2 * now`, which is `now` later than it asked for: the longer the system
has been running, the longer the delay. -/
theorem C99_deadline_violated {c : PortCfg} (hc : c.Ok) {s : Ports} (h : Reached c s) {now part id maxlen t : Nat}
    (hal : Allowed c s (.receive part id maxlen t)) (hlk : (s.P id).locked = false) (hm : 0 < maxlen)
    (hq : s.queueOf id = []) (ht : 0 < t) (hn : 0 < now) (hw : t + 2 * now < U64) :
    s.step c now (.receive part id maxlen t) = some (s, { res := .waiting (t + 2 * now) }) ∧ now + t < t + 2 * now := by
  have hem := empty_of_queue hc h hal.2.2.1 hal.2.2.2.2 hq
  refine ⟨?_, by omega⟩
  have e1 : mkDeadline t now = t + now := by
    unfold mkDeadline; rw [if_neg (by omega), Nat.mod_eq_of_lt (by omega)]
  have e2 : mkDeadline (t + now) now = t + 2 * now := by
    unfold mkDeadline; rw [if_neg (by omega), Nat.mod_eq_of_lt (by omega)]; omega
  simp only [Ports.step, queueingReceive, receive_loop hal hlk hm, recvLoop, hem, e1]
  rw [if_pos trivial, if_neg (by omega), e2]
  rfl

/-- **C99** violated, for a sender on a full port: the same delay. -/
theorem C99_send_deadline_violated {c : PortCfg} {s : Ports} {now part id : Nat} {bs : List Nat} {t : Nat}
    (hal : Allowed c s (.send part id bs t)) (hlk : (s.P id).locked = false) (hpart : (s.P id).partition = part)
    (hb : 0 < bs.length) (hs : bs.length ≤ (s.P id).size) (h256 : bs.length < 256) (hf : (s.P id).full = true)
    (ht : 0 < t) (hn : 0 < now) (hw : t + 2 * now < U64) :
    s.step c now (.send part id bs t) = some (s, { res := .waiting (t + 2 * now) }) ∧ now + t < t + 2 * now := by
  have hm : bs.length % 256 = bs.length := Nat.mod_eq_of_lt h256
  have hav : availableSize (s.P id) = 0 := by simp [availableSize, hf]
  refine ⟨?_, by omega⟩
  have e1 : mkDeadline t now = t + now := by
    unfold mkDeadline; rw [if_neg (by omega), Nat.mod_eq_of_lt (by omega)]
  have e2 : mkDeadline (t + now) now = t + 2 * now := by
    unfold mkDeadline; rw [if_neg (by omega), Nat.mod_eq_of_lt (by omega)]; omega
  simp only [Ports.step, queueingSend, hm, List.take_length, send_loop hal hlk hpart hb hs, sendLoop, hav, e1]
  rw [if_pos (by omega), if_neg (by omega), e2]
  rfl

/-- **C99** violated: a receiver that is woken and finds the port empty again, because another receiver took the
bytes, is suspended until a date that depends on when it was woken: its deadline moves on each time. -/
theorem C99_moves_violated {c : PortCfg} (hc : c.Ok) {s : Ports} (h : Reached c s) {now part id maxlen abs : Nat}
    (hal : Allowed c s (.receiveResume part id maxlen abs)) (hlk : (s.P id).locked = false) (hm : 0 < maxlen)
    (hq : s.queueOf id = []) (ha : 0 < abs) (hw : abs + now < U64) :
    s.step c now (.receiveResume part id maxlen abs) = some (s, { res := .waiting (abs + now) }) := by
  have hal' : Allowed c s (.receive part id maxlen 0) := hal
  have hem := empty_of_queue hc h hal.2.2.1 hal.2.2.2.2 hq
  simp only [Ports.step, receive_loop hal' hlk hm, recvLoop, hem]
  rw [if_pos trivial, if_neg (by omega)]
  simp only [mkDeadline]
  rw [if_neg (by omega), Nat.mod_eq_of_lt hw]
  rfl

/-- **C99** violated: a caller ready to wait until the clock wraps is not suspended at all, it is told EMPTY. -/
theorem C99_wrap_violated {c : PortCfg} (hc : c.Ok) {s : Ports} (h : Reached c s) {now part id maxlen t : Nat}
    (hal : Allowed c s (.receive part id maxlen t)) (hlk : (s.P id).locked = false) (hm : 0 < maxlen)
    (hq : s.queueOf id = []) (_ht : 0 < t) (hw : t + now = U64) :
    s.step c now (.receive part id maxlen t) = some (s, { res := .done .empty }) := by
  have hem := empty_of_queue hc h hal.2.2.1 hal.2.2.2.2 hq
  have e1 : mkDeadline t now = 0 := by
    unfold mkDeadline; split
    · rfl
    · rw [hw, Nat.mod_self]
  simp only [Ports.step, queueingReceive, receive_loop hal hlk hm, recvLoop, hem, e1]
  rfl

/-- Premises of `C99_receive_partial`, `C99_deadline_violated`, `C99_moves_violated` and `C99_wrap_violated`: port 1 of the
example is created, unlocked and empty. -/
example : (Ports.run exPorts exCreate Ports.init).map (fun r => (r.1.queueOf 1, (r.1.P 1).locked, (r.1.P 1).direction,
    (r.1.P 1).kind, (r.1.P 1).ready)) = some ([], false, DIR_IN, KIND_QUEUEING, true) := by decide +kernel

/-- Premises of `C99_send_partial` and `C99_send_deadline_violated`: port 0 holds 4 bytes, its size. -/
example : (Ports.run exPorts (exCreate ++ [(10, .send 0 0 [1, 2, 3, 4] 0)]) Ports.init).map (fun r => ((r.1.P 0).full, (r.1.P 0).locked,
    (r.1.P 0).direction, (r.1.P 0).kind)) = some (true, false, DIR_OUT, KIND_QUEUEING) ∧
    (Ports.run exPorts (exCreate ++ [(10, .send 0 0 [1, 2, 3, 4] 0)]) Ports.init).map (fun r => ((r.1.P 0).ready, (r.1.P 0).partition,
    (r.1.P 0).size)) = some (true, 0, 4) := by decide +kernel

/-- What these callers see at the date 1000: one ready to wait 50 is suspended until 2050. -/
example : (outputs (exCreate ++ [(10, .send 0 0 [1, 2, 3, 4] 0), (1000, .send 0 0 [5] 0), (1000, .send 0 0 [5] 50), (1000, .receive 1 1 10 50)])).map
    (fun os => (os.drop 5).map fun o => o.res) = some [.done .full, .waiting 2050, .waiting 2050] := by decide +kernel

/-- A receiver that waited gets what a flush brings (`C99_woken`). -/
example : (outputs (exCreate ++ [(10, .receive 1 1 2 50), (20, .send 0 0 [1, 2, 3] 0), (30, .flushPartition 0), (30, .receiveResume 1 1 2 60)])).map
    (fun os => os.getLast?.map fun o => (o.res, o.bytes)) = some (some (.done .ok, [1, 2])) := by decide +kernel

end Pok.Ports
