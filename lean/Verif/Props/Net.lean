import Verif.Lemmas.Net

/-!
# C111: receiving from the network
-/

namespace Pok
namespace Net

open Spec.Net

/-- **C111** (receiving).  Take any history of frames that arrive at the card, of calls of `rtl8029_poll`,
`rtl8029_poll_and_read` and `rtl8029_read` and of rounds of their loops, from the end of `rtl8029_init` on.  On every
port, the bytes given to the readers so far, followed by those that wait for them, are the bytes of whole messages that
arrived for this port, in the order of arrival, each at most once; and a frame that is still in the card arrived after
those.  Partial: frames of at most 252 bytes for ports of this node, and the driver never looks for frames while the
card is about to fill the first page of its ring (see the violations). -/
theorem C111_partial (c : Cfg) (mem pkt : Nat → Nat) (es : List Ev) (ms : List Msg) (s : St)
    (h : run c (start mem pkt) es = some s) (hm : Arrivals c es ms) (hc : NeverAtFirst c (start mem pkt) es) :
    ∃ held handed accepted : List Msg, (handed ++ held).Sublist ms ∧ accepted.Sublist handed ∧
      ∀ p, s.out p ++ waiting s p = bytesFor c p accepted := by
  obtain ⟨i, a⟩ := inv_start c mem pkt
  obtain ⟨held, handed, acc, _, ha, hl⟩ := inv_run c es _ s [] [] [] ms i a hm h hc
  exact ⟨held, handed, acc, by simpa using hl, ha.1, ha.2⟩

/-- **C111** (polling).  After any such history that ends outside the driver there are messages in the card, `held`, such
that: when further short frames arrive (together at most 55, not up to the end of the ring) and the driver polls, the
poll ends after as many rounds as there are messages, and it has handed to the queues of the ports, in order, all of
them but the last one; a message is left out only if its port has no room for it.  Nothing is given to readers. -/
theorem C111_poll_partial (c : Cfg) (mem pkt : Nat → Nat) (es : List Ev) (ms : List Msg) (s : St)
    (h : run c (start mem pkt) es = some s) (hm : Arrivals c es ms) (hc : NeverAtFirst c (start mem pkt) es)
    (hidle : s.mode = .idle) : ∃ held : List Msg, held.Sublist ms ∧
      ∀ (fs : List (List Nat)) (new : List Msg), ShortFrames c fs new → fs ≠ [] → held.length + fs.length ≤ 55 →
        s.card.curr + fs.length ≠ 128 → ∃ s', run c s (batch fs (held.length + fs.length)) = some s' ∧
          s'.mode = .idle ∧ s'.out = s.out ∧ waiting s' = (held ++ new).dropLast.foldl (accept c) (waiting s) := by
  obtain ⟨i, a⟩ := inv_start c mem pkt
  obtain ⟨held, handed, acc, hi, ha, hl⟩ := inv_run c es _ s [] [] [] ms i a hm h hc
  refine ⟨held, (List.sublist_append_right _ _).trans (by simpa using hl), ?_⟩
  intro fs new h1 h2 h3 h4
  obtain ⟨s', r1, r2, r3, r4, _⟩ := run_batch c s held hi hidle fs new h1 h2 h3 h4
  exact ⟨s', r1, r2, r3, r4⟩

/-- **C111** (reading).  `rtl8029_read` gives the first bytes that wait on the port, at most as many as asked for, and
changes no other port. -/
theorem C111_read_partial (c : Cfg) (mem pkt : Nat → Nat) (es : List Ev) (ms : List Msg) (s : St)
    (h : run c (start mem pkt) es = some s) (hm : Arrivals c es ms) (hc : NeverAtFirst c (start mem pkt) es)
    (hidle : s.mode = .idle) (port len : Nat) (hp : port < c.nIn) :
    ∃ s', step c s (.read port len) = some s' ∧ s'.out port = s.out port ++ (waiting s port).take len ∧
      waiting s' port = (waiting s port).drop len ∧ ∀ p, p ≠ port → s'.out p = s.out p ∧ waiting s' p = waiting s p := by
  obtain ⟨i, a⟩ := inv_start c mem pkt
  obtain ⟨held, handed, acc, hi, ha, hl⟩ := inv_run c es _ s [] [] [] ms i a hm h hc
  have hlen := length_waiting s port
  simp only [step, hidle, read, if_pos hp]
  split
  · rename_i h0
    rw [h0] at hlen
    have hn := List.eq_nil_of_length_eq_zero hlen
    exact ⟨s, rfl, by rw [hn]; simp, by rw [hn]; simp, fun _ _ => ⟨rfl, rfl⟩⟩
  · obtain ⟨_, _, _, t4⟩ := take_spec s port len hi.q
    have hout : (take s port len).out port = s.out port ++ (waiting s port).take len := by
      have hsz : (if len < (s.q port).len then len else (s.q port).len) + ((s.q port).len - len) = (s.q port).len := by
        split <;> omega
      have e := take_out (s.q port).data (s.q port).off (if len < (s.q port).len then len else (s.q port).len)
        ((s.q port).len - len) (hi.q port).2
      rw [hsz] at e
      simp only [take, upd_same]
      congr 1
      have hl2 := length_copyOut (s.q port).data (if len < (s.q port).len then len else (s.q port).len) (s.q port).off
      have : (waiting s port).take len = (waiting s port).take (if len < (s.q port).len then len else (s.q port).len) := by
        split
        · rfl
        · rw [List.take_of_length_le (by omega), List.take_of_length_le (by omega)]
      rw [this]
      unfold waiting
      rw [e, List.take_append_of_le_length (by omega), List.take_of_length_le (by omega)]
    refine ⟨_, rfl, hout, ?_, ?_⟩
    · have := t4 port
      rw [hout, List.append_assoc] at this
      have := List.append_cancel_left this
      conv_rhs at this => rw [← List.take_append_drop len (waiting s port)]
      exact List.append_cancel_left this
    · intro p hne
      simp only [take, waiting]
      rw [upd_other _ _ hne, upd_other _ _ hne]
      exact ⟨rfl, rfl⟩

/-! ### Violations -/

/-- The flag is down: polls do nothing. -/
theorem polls_idle (c : Cfg) (s : St) (h1 : s.mode = .idle) (h2 : s.card.prx = false) : ∀ n,
    run c s (List.replicate n .poll) = some s := by
  intro n
  induction n with
  | zero => rfl
  | succ n ih =>
    rw [List.replicate_succ]
    simp only [run, step, h1, h2]
    simpa using ih

theorem poll_up (c : Cfg) (s : St) (h1 : s.mode = .idle) (h2 : s.card.prx = true) :
    step c s .poll = some { s with mode := .poll } := by
  simp only [step, h1, h2, if_true]

/-- **C111** violated: a frame that arrives alone is not handed over, however often the driver polls after it: it waits
for the next frame. -/
theorem C111_alone_violated (c : Cfg) (mem pkt : Nat → Nat) (f : List Nat) (m : Msg) (hf : ShortFrames c [f] [m]) (n : Nat) :
    ∃ s, run c (start mem pkt) ([.arrive f, .poll, .round] ++ List.replicate n .poll) = some s ∧ s.mode = .idle ∧
      ∀ p, s.out p = [] ∧ waiting s p = [] := by
  obtain ⟨i, a⟩ := inv_start c mem pkt
  obtain ⟨s, r1, r2, r3, r4, _, r6, _⟩ := run_batch c (start mem pkt) [] i rfl [f] [m] hf (by simp) (by simp)
    (by show 73 + 1 ≠ 128; decide)
  refine ⟨s, ?_, r2, fun p => ⟨by rw [r3]; rfl, by rw [r4]; rfl⟩⟩
  rw [run_append]
  have e : batch [f] (([] : List Msg).length + [f].length) = [.arrive f, .poll, .round] := rfl
  rw [e] at r1
  rw [r1, Option.bind_some]
  exact polls_idle c s r2 r6 n

theorem accept_long (c : Cfg) (w : Nat → List Nat) (m : Msg) (h : 20 < m.data.length) : accept c w m = w := by
  unfold accept
  rw [if_neg (by omega)]

/-- **C111** violated: a message of more than 20 bytes is never handed over, although frames carry up to 1492 bytes: it
arrives, others follow, the driver polls, and nothing of it waits for the readers. -/
theorem C111_long_violated (c : Cfg) (mem pkt : Nat → Nat) (f g : List Nat) (m m' : Msg) (hf : ShortFrames c [f, g] [m, m'])
    (hl : 20 < m.data.length) : ∃ s, run c (start mem pkt) (batch [f, g] 2) = some s ∧ s.mode = .idle ∧
      ∀ p, s.out p = [] ∧ waiting s p = [] := by
  obtain ⟨i, a⟩ := inv_start c mem pkt
  obtain ⟨s, r1, r2, r3, r4, _⟩ := run_batch c (start mem pkt) [] i rfl [f, g] [m, m'] hf (by simp) (by simp)
    (by show 73 + 2 ≠ 128; decide)
  refine ⟨s, r1, r2, fun p => ⟨by rw [r3]; rfl, ?_⟩⟩
  rw [r4]
  show (accept c (waiting (start mem pkt)) m) p = _
  rw [accept_long _ _ _ hl]
  rfl

/-- **C111** violated: when 55 short frames arrive before the driver polls, the poll goes on at the first page of the ring,
where no frame is; if the memory of the card holds zeros there, it copies 65532 bytes to a packet of 1514 on its stack. -/
theorem C111_first_page_violated (c : Cfg) (mem pkt : Nat → Nat) (fs : List (List Nat)) (ms : List Msg)
    (hf : ShortFrames c fs ms) (hl : fs.length = 55) (hz : mem 18434 = 0 ∧ mem 18435 = 0) :
    run c (start mem pkt) (batch fs 56) = none := by
  obtain ⟨i, a⟩ := inv_start c mem pkt
  obtain ⟨k, k1, k2, k3, k4, k5, k6, k7⟩ := run_arrive c fs ms (start mem pkt) [] hf i.ring (by simp [hl])
  have hlen : fs.length = ms.length := hf.length_eq
  have hne : fs ≠ [] := by intro h; rw [h] at hl; cases hl
  have hus : ∀ m, m ∈ ms → ForUs c m := by
    intro m h
    obtain ⟨j, hj, rfl⟩ := List.mem_iff_getElem.1 h
    exact (List.forall₂_iff_get.1 hf).2 j (by omega) hj |>.2.2
  have hcur : k.curr = 72 := by rw [k4, hl]; rfl
  obtain ⟨s', r1, r2, r3, r4, r5, r6, r7, r8⟩ :=
    run_rounds_first c ms { start mem pkt with card := k, mode := .poll } k2 i.q hus rfl hcur
  have hb : s'.card.bnry = 71 := by
    have h1 := r8.curr; have h2 := r8.b1; have h3 := r8.b2
    rw [r6, ringPage_eq, List.length_nil] at h1
    split at h1 <;> omega
  have hm1 : s'.card.mem 18434 = 0 := by
    rw [r5]
    show k.mem _ = 0
    rw [k7 18434 (by show 73 + fs.length ≤ 128; omega) (by show 18434 < 73 * 256; decide)]; exact hz.1
  have hm2 : s'.card.mem 18435 = 0 := by
    rw [r5]
    show k.mem _ = 0
    rw [k7 18435 (by show 73 + fs.length ≤ 128; omega) (by show 18435 < 73 * 256; decide)]; exact hz.2
  unfold batch
  rw [run_append, k1, Option.bind_some, show 56 = ms.length + 1 by omega, List.replicate_succ']
  have hst : step c { start mem pkt with card := k } .poll = some { start mem pkt with card := k, mode := .poll } := by
    simp only [step, start, k3 (Or.inr hne), if_true]
  show (step c { start mem pkt with card := k } .poll).bind _ = none
  rw [hst, Option.bind_some, run_append, r1, Option.bind_some]
  simp only [run, step, r2, roundPoll, r8.last_first r6]
  have hfe : fetch s' = none := by
    unfold fetch
    simp only [hb, Card.dma]
    rw [show ringAddr ((71 + 1) % 256 * 256 + 2) = 18434 from rfl, show ringAddr ((71 + 1) % 256 * 256 + 3) = 18435 from rfl,
      hm1, hm2]
    rfl
  rw [hfe]
  rfl

/-- **C111** violated: a poll never ends.  Whatever 111 short frames arrive, 54 before a first poll, two before a second,
54 before a third and one before a fourth, the first three polls end and the fourth one goes on for ever, handing over
the same frames again and again. -/
theorem C111_endless_violated (c : Cfg) (mem pkt : Nat → Nat) (fs1 fs2 fs3 fs4 : List (List Nat)) (ms1 ms2 ms3 ms4 : List Msg)
    (h1 : ShortFrames c fs1 ms1) (h2 : ShortFrames c fs2 ms2) (h3 : ShortFrames c fs3 ms3) (h4 : ShortFrames c fs4 ms4)
    (l1 : fs1.length = 54) (l2 : fs2.length = 2) (l3 : fs3.length = 54) (l4 : fs4.length = 1) :
    ∃ s, run c (start mem pkt) (batch fs1 54 ++ batch fs2 3 ++ batch fs3 55) = some s ∧ s.mode = .idle ∧
      ∀ n, ∃ s', run c s (batch fs4 n) = some s' ∧ s'.mode = .poll := by
  obtain ⟨i, a⟩ := inv_start c mem pkt
  have n1 : fs1 ≠ [] := by intro h; rw [h] at l1; cases l1
  have n2 : fs2 ≠ [] := by intro h; rw [h] at l2; cases l2
  have n3 : fs3 ≠ [] := by intro h; rw [h] at l3; cases l3
  have n4 : fs4 ≠ [] := by intro h; rw [h] at l4; cases l4
  obtain ⟨s1, a1, a2, a3, a4, a5, a6, a7, m1, a8, a9⟩ := run_batch c (start mem pkt) [] i rfl fs1 ms1 h1 n1 (by simp [l1])
    (by show 73 + fs1.length ≠ 128; omega)
  have c1 : s1.card.curr = 127 := by rw [a5, l1]; rfl
  obtain ⟨s2, b1, b2, b3, b4, b5, b6, b7, m2, b8, b9⟩ := run_batch c s1 [m1] a9 a2 fs2 ms2 h2 n2 (by simp [l2]) (by omega)
  have c2 : s2.card.curr = 73 := by rw [b5, l2, c1]; rfl
  obtain ⟨s3, d1, d2, d3, d4, d5, d6, d7, m3, d8, d9⟩ := run_batch c s2 [m2] b9 b2 fs3 ms3 h3 n3 (by simp [l3]) (by omega)
  have c3 : s3.card.curr = 127 := by rw [d5, l3, c2]; rfl
  have hall : ∀ P, 72 ≤ P → P < 128 → Some c s3.card P := by
    intro P p1 p2
    apply d7.1
    by_cases hP : P < 73
    · have := b7.2.1 1 (by omega)
      rw [c1] at this
      have e : ringPage 127 1 = P := by rw [ringPage_eq]; simp; omega
      rwa [e] at this
    · by_cases hP2 : P = 127
      · have := b7.2.1 0 (by omega)
        rw [c1] at this
        have e : ringPage 127 0 = P := by rw [ringPage_eq]; simp; omega
        rwa [e] at this
      · apply b7.1
        have := a7.2.1 (P - 73) (by omega)
        have e : ringPage (start mem pkt).card.curr (P - 73) = P := by
          rw [show (start mem pkt).card.curr = 73 from rfl, ringPage_eq, if_pos (by omega)]; omega
        rwa [e] at this
  obtain ⟨k, k1, k2, k3, k4, k5, k6, k7⟩ := run_arrive c fs4 ms4 s3 [m3] h4 d9.ring (by simp [l4])
  refine ⟨s3, ?_, d2, ?_⟩
  · rw [run_append, run_append]
    rw [l1] at a1
    rw [l2] at b1
    rw [l3] at d1
    simp only [List.length_nil, List.length_cons] at a1 b1 d1
    rw [show 0 + 54 = 54 from rfl] at a1
    rw [a1, Option.bind_some, b1, Option.bind_some]
    exact d1
  · intro n
    obtain ⟨s', r1, r2⟩ := rounds_full c n { s3 with card := k, mode := .poll } k2.b1 k2.b2
      (by show k.curr = 72; rw [k4, l4, c3]; rfl) d9.q (fun P p1 p2 => k5 P (hall P p1 p2)) rfl
    refine ⟨s', ?_, r2⟩
    unfold batch
    rw [run_append, k1, Option.bind_some]
    have hst : step c { s3 with card := k } .poll = some { s3 with card := k, mode := .poll } := by
      simp only [step, d2, k3 (Or.inr n4), if_true]
    show (step c { s3 with card := k } .poll).bind _ = _
    rw [hst, Option.bind_some]
    exact r1

theorem store_in (m : Nat → Nat) (p : Nat) (bs : List Nat) (x j : Nat) (hp : 72 ≤ p) (hx : x = p * 256 + j) (h : x < 32768)
    (hj : j < bs.length) : Card.store m p bs x = bs.getD j 0 := by
  rw [store_eq m p bs x j (by split <;> omega), if_pos]
  omega

theorem store_after (m : Nat → Nat) (p : Nat) (bs : List Nat) (x : Nat) (hp : p * 256 + bs.length ≤ x) :
    Card.store m p bs x = m x := by
  rw [store_eq m p bs x (x - p * 256) (by split <;> omega), if_neg]
  omega

/-- **C111** violated: after a frame that fills two pages the driver reads the page after it as if there were another
frame; if the memory of the card holds zeros there, the packet on its stack is overrun. -/
theorem C111_two_pages_violated (c : Cfg) (mem pkt : Nat → Nat) (f : List Nat) (h1 : 253 ≤ f.length) (h2 : f.length ≤ 508)
    (hz : mem 19202 = 0 ∧ mem 19203 = 0) : run c (start mem pkt) (batch [f] 2) = none := by
  have hp : pagesOf f.length = 2 := by unfold pagesOf; omega
  have harr : (start mem pkt).card.arrive f = { mem := Card.store mem 73 ([1, 75, (f.length + 4) % 256, (f.length + 4) / 256] ++ f)
                                                bnry := 72, curr := 75, prx := true } := by
    unfold Card.arrive
    rw [hp]
    rfl
  have hst : ∀ j, j < f.length + 4 → Card.store mem 73 ([1, 75, (f.length + 4) % 256, (f.length + 4) / 256] ++ f) (18688 + j) =
      ([1, 75, (f.length + 4) % 256, (f.length + 4) / 256] ++ f).getD j 0 := by
    intro j hj
    exact store_in _ 73 _ (18688 + j) j (by omega) (by omega) (by omega) (by simp; omega)
  have hother : ∀ x, 19200 ≤ x → x < 32768 → Card.store mem 73 ([1, 75, (f.length + 4) % 256, (f.length + 4) / 256] ++ f) x =
      mem x := by
    intro x hx hx2
    exact store_after _ 73 _ x (by simp; omega)
  generalize hM : Card.store mem 73 ([1, 75, (f.length + 4) % 256, (f.length + 4) / 256] ++ f) = M at harr hst hother
  have hrun : run c (start mem pkt) (batch [f] 2) =
      run c { start mem pkt with card := { mem := M, bnry := 72, curr := 75, prx := true }, mode := .poll } [.round, .round] := by
    unfold batch
    show (step c (start mem pkt) (.arrive f)).bind _ = _
    have e : step c (start mem pkt) (.arrive f) =
        some { start mem pkt with card := { mem := M, bnry := 72, curr := 75, prx := true } } := by
      simp only [step]
      rw [harr]
    rw [e, Option.bind_some]
    show run c _ (.poll :: List.replicate 2 .round) = _
    simp only [run]
    rw [poll_up c { start mem pkt with card := { mem := M, bnry := 72, curr := 75, prx := true } } rfl rfl, Option.bind_some, show List.replicate 2 Ev.round = [.round, .round] from rfl]
    simp only [run]
  rw [hrun]
  simp only [run, step, roundPoll]
  rw [if_neg (by simp [last, STOP])]
  have hn : hdrNext { mem := M, bnry := 72, curr := 75, prx := true } = 75 := by
    unfold hdrNext Card.dma
    have e : ringAddr ((72 + 1) % 256 * 256 + 1) = 18688 + 1 := by decide
    simp only [e]
    rw [hst 1 (by omega)]
    rfl
  rw [hn]
  generalize hS : ({ start mem pkt with card := { mem := M, bnry := 72, curr := 75, prx := true }, mode := .poll } : St) = S
  have hSc : S.card = { mem := M, bnry := 72, curr := 75, prx := true } := by rw [← hS]
  have hSm : S.mode = .poll := by rw [← hS]
  cases hfe : fetch S with
  | none => rfl
  | some S1 =>
    have hS1 : S1.card = S.card ∧ S1.mode = S.mode := by
      unfold fetch at hfe
      simp only at hfe
      split at hfe
      · simp only [Option.some.injEq] at hfe
        rw [← hfe]
        exact ⟨rfl, rfl⟩
      · cases hfe
    cases hen : enqueue c S1 with
    | none => simp [hen]
    | some S2 =>
      have hS2 : S2.card = S1.card ∧ S2.mode = S1.mode := by
        unfold enqueue at hen
        split at hen
        · simp only at hen
          split at hen
          · split at hen
            · simp only [Option.some.injEq] at hen
              rw [← hen]
              exact ⟨rfl, rfl⟩
            · simp only [Option.some.injEq] at hen
              rw [← hen]
              exact ⟨rfl, rfl⟩
          · cases hen
        · cases hen
      have hgb : giveBack S2.card 75 = { mem := M, bnry := 74, curr := 75, prx := true } := by
        rw [hS2.1, hS1.1, hSc]
        rfl
      have hmode : S2.mode = .poll := by rw [hS2.2, hS1.2, hSm]
      simp only [Option.bind_some, hen, Option.map_some, hgb, hmode]
      rw [if_neg (by simp [last, STOP])]
      have hfe2 : fetch { S2 with card := { mem := M, bnry := 74, curr := 75, prx := true }, mode := .poll } = none := by
        unfold fetch
        simp only [Card.dma]
        have e2 : ringAddr ((74 + 1) % 256 * 256 + 2) = 19202 := by decide
        have e3 : ringAddr ((74 + 1) % 256 * 256 + 3) = 19203 := by decide
        simp only [e2, e3]
        rw [hother 19202 (by omega) (by omega), hother 19203 (by omega) (by omega), hz.1, hz.2]
        rfl
      rw [hfe2]
      rfl

/-- **C111** violated: a frame for a port that does not exist makes the kernel read or write outside its tables; whoever
can send frames chooses the place. -/
theorem C111_forged_violated (c : Cfg) (mem pkt : Nat → Nat) (f g : List Nat) (m m' : Msg) (hf : Carries f m) (hg : Carries g m')
    (l1 : f.length ≤ 252) (l2 : g.length ≤ 252) (hm : c.nGlobal ≤ m.dst ∨ c.nIn ≤ c.toLocal m.dst) :
    run c (start mem pkt) (batch [f, g] 1) = none := by
  obtain ⟨i, a⟩ := inv_start c mem pkt
  rcases i.ring.arrive f m hf l1 with ⟨g1, _⟩ | ⟨_, g2, g3⟩
  · simp at g1
  rcases g2.arrive g m' hg l2 with ⟨q1, _⟩ | ⟨_, q2, q3⟩
  · simp at q1
  have hrun : run c (start mem pkt) (batch [f, g] 1) =
      run c { start mem pkt with card := ((start mem pkt).card.arrive f).arrive g, mode := .poll } [.round] := by
    unfold batch
    show (step c { start mem pkt with card := ((start mem pkt).card.arrive f).arrive g } .poll).bind _ = _
    rw [poll_up c _ rfl q3]
    rfl
  rw [hrun]
  generalize hk : ((start mem pkt).card.arrive f).arrive g = k at q2 q3
  have hb : k.bnry = 72 := by
    rw [← hk]
    unfold Card.arrive
    split <;> split <;> rfl
  have hcur : k.curr = 75 := by
    rw [q2.curr, hb]
    rfl
  have hlast := q2.last (by omega)
  simp only [run, step, roundPoll, hlast]
  rw [if_neg (by simp)]
  have hpg := q2.page 0 m rfl
  rw [hb] at hpg
  obtain ⟨p, p1, p2, p3⟩ := fetch_page (s := { start mem pkt with card := k, mode := .poll }) (m := m)
    (by show 71 ≤ k.bnry; omega) (by show k.bnry ≤ 126; omega) (by show Page k (k.bnry + 1) m; rw [hb]; exact hpg)
  rw [p1]
  simp only [Option.bind_some]
  have : enqueue c { start mem pkt with card := k, mode := .poll, pkt := p } = none := by
    unfold enqueue
    rw [p2.dst]
    rcases hm with h | h
    · rw [if_neg (by omega)]
    · split
      · simp only
        rw [if_neg (by omega)]
      · rfl
  rw [this]
  rfl

/-! ### A node, its frames, and what the theorems say about it -/

/-- A node with two ports for messages from the network, among three global ports. -/
def exNode : Cfg := { nIn := 2, nGlobal := 3, toLocal := fun g => g, invalid := 2 }

/-- A frame for a message. -/
def exFrame (m : Msg) : List Nat := List.replicate 16 0 ++ [m.dst, 0, m.data.length, 0, 0, 0] ++ m.data

/-- Three messages. -/
def exA : Msg := ⟨0, [1, 2, 3, 4]⟩
@[inherit_doc exA] def exB : Msg := ⟨1, [5, 6]⟩
@[inherit_doc exA] def exC : Msg := ⟨0, [7, 8, 9]⟩

theorem exFrame_short : ShortFrames exNode [exFrame exA, exFrame exB, exFrame exC] [exA, exB, exC] := by
  refine .cons ⟨⟨by decide, by decide, by decide, by decide, by decide⟩, by decide, by decide, by decide, by decide⟩
    (.cons ⟨⟨by decide, by decide, by decide, by decide, by decide⟩, by decide, by decide, by decide, by decide⟩
    (.cons ⟨⟨by decide, by decide, by decide, by decide, by decide⟩, by decide, by decide, by decide, by decide⟩ .nil))

/-- A history with all kinds of events. -/
def exHist : List Ev := [.arrive (exFrame exA), .arrive (exFrame exB), .poll, .round, .round, .arrive (exFrame exC),
  .read 0 3, .pollRead 1 20, .round, .round]

/-- A test for `NeverAtFirst`. -/
def clear (c : Cfg) (s : St) : List Ev → Bool
  | [] => true
  | e :: es => (match e with | .round => s.card.curr != 72 | _ => true) && match step c s e with
    | some t => clear c t es
    | none => true

theorem clear_spec (c : Cfg) : ∀ (es : List Ev) (s : St), clear c s es = true → NeverAtFirst c s es := by
  intro es
  induction es with
  | nil => intro s _ pre post t h; simp at h
  | cons e es ih =>
    intro s h pre post t he hr
    simp only [clear, Bool.and_eq_true] at h
    cases pre with
    | nil =>
      simp only [List.nil_append, List.cons.injEq] at he
      simp only [run, Option.some.injEq] at hr
      subst hr
      have := h.1
      rw [he.1] at this
      simpa using this
    | cons e' pre =>
      simp only [List.cons_append, List.cons.injEq] at he
      obtain ⟨rfl, he⟩ := he
      simp only [run, Option.bind_eq_some_iff] at hr
      obtain ⟨u, hu, hr⟩ := hr
      have h2 := h.2
      rw [hu] at h2
      exact ih u h2 pre post t he hr

/-- The hypotheses of `C111_partial` hold, and bytes of the first two messages have been read. -/
example : (run exNode (start (fun _ => 0) (fun _ => 0)) exHist).map (fun s => (s.out 0, s.out 1, waiting s 0)) =
      some ([1, 2, 3], [5, 6], [4]) ∧
    Arrivals exNode exHist [exA, exB, exC] ∧ NeverAtFirst exNode (start (fun _ => 0) (fun _ => 0)) exHist := by
  refine ⟨by decide +kernel, ?_, clear_spec _ _ _ (by decide +kernel)⟩
  obtain ⟨⟨a1, a2, a3⟩, ⟨b1, b2, b3⟩, ⟨c1, c2, c3⟩, _⟩ : _ ∧ _ ∧ _ ∧ True := by
    have h := exFrame_short
    cases h with
    | cons h1 h => cases h with
      | cons h2 h => cases h with
        | cons h3 h => exact ⟨h1, h2, h3, trivial⟩
  exact .arrive a1 a2 a3 (.arrive b1 b2 b3 (.poll (.round (.round (.arrive c1 c2 c3 (.read _ _ (.pollRead _ _
    (.round (.round .nil)))))))))

/-- The driver is idle at the end of this history, as `C111_poll_partial` and `C111_read_partial` ask for. -/
example : (run exNode (start (fun _ => 0) (fun _ => 0)) exHist).map (fun s => match s.mode with | .idle => true | _ => false) =
    some true := by decide +kernel

/-- Three frames, as in `C111_poll_partial` and the violations; a frame alone; a long message; a forged frame; a frame of
two pages. -/
example : ShortFrames exNode [exFrame exA] [exA] := by
  have h := exFrame_short
  cases h with
  | cons h1 h => exact .cons h1 .nil

example : Carries (exFrame ⟨7, [1]⟩) ⟨7, [1]⟩ ∧ exNode.nGlobal ≤ 7 ∧ Carries (exFrame exA) exA :=
  ⟨⟨by decide, by decide, by decide, by decide, by decide⟩, by decide,
    ⟨by decide, by decide, by decide, by decide, by decide⟩⟩

example : ShortFrames exNode [exFrame ⟨0, List.replicate 21 1⟩, exFrame exA] [⟨0, List.replicate 21 1⟩, exA] := by
  have h := exFrame_short
  have hl : Carries (exFrame ⟨0, List.replicate 21 1⟩) ⟨0, List.replicate 21 1⟩ ∧
      (exFrame ⟨0, List.replicate 21 1⟩).length ≤ 252 ∧ ForUs exNode ⟨0, List.replicate 21 1⟩ :=
    ⟨⟨by decide, by decide, by decide, by decide, by decide⟩, by decide, by decide, by decide, by decide⟩
  cases h with
  | cons h1 h => exact .cons hl (.cons h1 .nil)

/-- As many short frames as one likes. -/
theorem exFrame_many (n : Nat) : ShortFrames exNode (List.replicate n (exFrame exA)) (List.replicate n exA) := by
  have h := exFrame_short
  cases h with
  | cons h1 h =>
    induction n with
    | zero => exact .nil
    | succ n ih => rw [List.replicate_succ, List.replicate_succ]; exact .cons h1 ih

/-- **C111** violated: `rtl8029_poll_and_read` counts messages, not bytes: after a message of four bytes has been read by
half, the rest waits on the port and no further call of `rtl8029_poll_and_read` gives it, whatever it asks for. -/
theorem C111_count_violated : ∃ s, run exNode (start (fun _ => 0) (fun _ => 0))
      [.arrive (exFrame exA), .arrive (exFrame exB), .pollRead 0 2, .round, .round] = some s ∧
    s.out 0 = [1, 2] ∧ waiting s 0 = [3, 4] ∧
    ∀ lens : List Nat, ∃ s', run exNode s (lens.map fun l => .pollRead 0 l) = some s' ∧ s'.out 0 = [1, 2] := by
  have hb : (run exNode (start (fun _ => 0) (fun _ => 0))
      [.arrive (exFrame exA), .arrive (exFrame exB), .pollRead 0 2, .round, .round]).map
      (fun s => (s.out 0, waiting s 0, s.msgs, s.card.prx, match s.mode with | .idle => true | _ => false)) =
      some ([1, 2], [3, 4], 0, false, true) := by decide +kernel
  rw [Option.map_eq_some_iff] at hb
  obtain ⟨s, h1, h2⟩ := hb
  simp only [Prod.mk.injEq] at h2
  obtain ⟨h2, h3, h4, h5, h6⟩ := h2
  have h6 : s.mode = .idle := by
    cases hm : s.mode with
    | idle => rfl
    | poll => rw [hm] at h6; cases h6
    | pollRead _ _ => rw [hm] at h6; cases h6
  refine ⟨s, h1, h2, h3, ?_⟩
  clear h1 h3
  intro lens
  induction lens generalizing s with
  | nil => exact ⟨s, rfl, h2⟩
  | cons l lens ih =>
    have hst : step exNode s (.pollRead 0 l) = some { s with card := { s.card with prx := false }, mode := .idle } := by
      simp only [step, h6, h5, readPart, h4]
      rfl
    obtain ⟨s', r1, r2⟩ := ih { s with card := { s.card with prx := false }, mode := .idle } h2 h4 rfl rfl rfl
    exact ⟨s', by simp only [List.map_cons, run, hst, Option.bind_some]; exact r1, r2⟩

end Net
end Pok
