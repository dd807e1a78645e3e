import Verif.Lemmas.PortFlow

/-!
# Sampling channels: a source, a destination, and what the destination shows
-/

namespace Pok.Ports

theorem overlay_all {bs old : List Nat} (h : bs.length = old.length) : overlay bs old = bs := by
  unfold overlay; rw [h, List.drop_length, List.append_nil]

/-- A full-size write replaces the message. -/
theorem portWrite_full {c : PortCfg} {s : Ports} {i now : Nat} {bs : List Nat} (hI : Inv c s)
    (hr : (s.P i).ready = true) (hk : (s.P i).kind = KIND_SAMPLING) (hl : bs.length = (s.P i).size) :
    ∃ s', portWrite s now i bs = some (s', .ok) ∧ Only s s' i ∧ Inv c s' ∧
      (s'.P i) = afterSample (s.P i) now ∧ s'.messageOf i = some bs := by
  obtain ⟨s', h1, h2, h3, h4, h5⟩ := portWrite_sampling (now := now) hI hr hk (Nat.le_of_eq hl)
  exact ⟨s', h1, h2, h3, h4, by rw [h5, overlay_all (by simp [hl])]⟩

theorem flushDests_sample {c : PortCfg} {now d : Nat} {bs : List Nat}
    (hkd : c.kindOf d = KIND_SAMPLING) :
    ∀ (gs : List Nat) (s s' : Ports), Inv c s → (∀ g ∈ gs, c.toLocal g < c.nbPorts) →
      (∀ g ∈ gs, c.kindOf (c.toLocal g) = KIND_SAMPLING) →
      d ∈ gs.map c.toLocal → (s.P d).ready = true → (s.P d).direction = DIR_IN →
      bs.length = (s.P d).size → flushDests c now bs gs s = some s' →
      s'.messageOf d = some bs ∧ (s'.P d).lastReceive = now := by
  intro gs
  induction gs with
  | nil => intro s s' _ _ _ h; simp at h
  | cons g gs ih =>
    intro s s' hI hlt hks hm hr hd hfit hfl
    have hlt' : ∀ g' ∈ gs, c.toLocal g' < c.nbPorts := fun g' h => hlt g' (List.mem_cons_of_mem _ h)
    have hks' : ∀ g' ∈ gs, c.kindOf (c.toLocal g') = KIND_SAMPLING := fun g' h => hks g' (List.mem_cons_of_mem _ h)
    have hk0 : ∀ g' ∈ gs, c.kindOf (c.toLocal g') = KIND_QUEUEING → 0 < bs.length := by
      intro g' h h2; rw [hks' g' h] at h2; simp [KIND_QUEUEING, KIND_SAMPLING] at h2
    unfold flushDests at hfl
    simp only at hfl
    rw [if_neg (by have := hlt g (List.mem_cons_self); omega)] at hfl
    by_cases hg : c.toLocal g = d
    · rw [hg, if_neg (by rw [hr]; simp), if_neg (by rw [hd]; simp)] at hfl
      have hk : (s.P d).kind = KIND_SAMPLING := (hI.ok d hr).kindOf.trans hkd
      obtain ⟨s1, w1, w2, w3, w4, w5⟩ := portWrite_full (now := now) (bs := bs) hI hr hk hfit
      rw [w1] at hfl
      simp only at hfl
      by_cases hagain : d ∈ gs.map c.toLocal
      · exact ih s1 s' w3 hlt' hks' hagain (by rw [w2.ready]; exact hr) (by rw [w2.dir]; exact hd)
          (by rw [w2.size]; exact hfit) hfl
      · obtain ⟨s2, f1, _, f3, _⟩ := flushDests_within (now := now) (bs := bs) gs s1 w3 hlt' hk0
        rw [hfl] at f1; injection f1 with f1; subst f1
        rw [f3.messageOf w3 (fun h => hagain h.1), f3.other d (fun h => hagain h.1), w4, w5]
        exact ⟨rfl, rfl⟩
    · have hm' : d ∈ gs.map c.toLocal := by
        rw [List.map_cons, List.mem_cons] at hm
        rcases hm with h | h
        · exact absurd h.symm hg
        · exact h
      by_cases h1 : (s.P (c.toLocal g)).ready = false
      · rw [if_pos h1] at hfl; exact ih s s' hI hlt' hks' hm' hr hd hfit hfl
      rw [if_neg h1] at hfl
      by_cases h2 : (s.P (c.toLocal g)).direction ≠ DIR_IN
      · rw [if_pos h2] at hfl; exact ih s s' hI hlt' hks' hm' hr hd hfit hfl
      rw [if_neg h2] at hfl
      have hrg : (s.P (c.toLocal g)).ready = true := by simpa using h1
      have hkg : (s.P (c.toLocal g)).kind = KIND_SAMPLING :=
        (hI.ok _ hrg).kindOf.trans (hks g List.mem_cons_self)
      obtain ⟨s1, e, w1, w2, w3, _⟩ := portWrite_any (now := now) (bs := bs) hI hrg
        (fun h => by rw [hkg] at h; simp [KIND_QUEUEING, KIND_SAMPLING] at h)
      rw [w1] at hfl
      simp only at hfl
      have hP : s1.P d = s.P d := w2.other d (Ne.symm hg)
      exact ih s1 s' w3 hlt' hks' hm' (by rw [hP]; exact hr) (by rw [hP]; exact hd) (by rw [hP]; exact hfit) hfl

/-- The ports show the state of the channel. -/
structure Samp (s : Ports) (src d : Nat) (k : Channel) : Prop where
  ends : Ends s src d
  some_ : ∀ bs, k.pending = some bs → s.messageOf src = some bs ∧ (s.P src).mustFlush = true
  none_ : k.pending = none → (s.P src).mustFlush = false ∨ (s.P src).empty = true
  shown : s.messageOf d = k.shown.map Prod.fst
  time : ∀ bs t, k.shown = some (bs, t) → (s.P d).lastReceive = t

/-- When a message is pending, the destination is ready for it. -/
def Matching (s : Ports) (src d : Nat) : Prop :=
  (s.P src).mustFlush = true → (s.P src).empty = false → (s.P d).ready = true ∧ (s.P d).size = (s.P src).size

theorem Samp.keep {s s' : Ports} {src d : Nat} {k : Channel} (h : Samp s src d k) (h1 : s'.P src = s.P src)
    (h2 : s'.P d = s.P d) (h3 : s'.messageOf src = s.messageOf src) (h4 : s'.messageOf d = s.messageOf d) :
    Samp s' src d k := by
  refine ⟨?_, ?_, ?_, ?_, ?_⟩
  · unfold Ends; rw [h1, h2]; exact h.ends
  · rw [h1, h3]; exact h.some_
  · rw [h1]; exact h.none_
  · rw [h4]; exact h.shown
  · rw [h2]; exact h.time

theorem message_empty {s : Ports} {i : Nat} : s.messageOf i = none ↔ (s.P i).empty = true := by
  unfold Ports.messageOf; split <;> simp_all

theorem flushPort_samp {c : PortCfg} (hc : c.Ok) {now src d l : Nat} (rt : Route c KIND_SAMPLING src d)
    {s s' : Ports} {k : Channel} (hI : Inv c s) (hS : Samp s src d k) (hM : Matching s src d) (hl : l < c.nbPorts)
    (h : flushPort c now s l = some s') :
    Samp s' src d (if l = src then k.forward now else k) ∧ Matching s' src d := by
  obtain ⟨s2, f1, f2, f3, f4, f5⟩ := flushPort_within hc (now := now) hI hl
  rw [h] at f1; injection f1 with f1; subst f1
  have hends : Ends s' src d := by
    constructor
    · intro hr; rw [f3.dir src (by rw [← f4]; exact hr)]; exact hS.ends.1 (by rw [← f4]; exact hr)
    · intro hr; rw [f3.dir d (by rw [← f4]; exact hr)]; exact hS.ends.2 (by rw [← f4]; exact hr)
  by_cases hls : l = src
  · subst hls
    rw [if_pos rfl]
    cases hp : k.pending with
    | none =>
      have hk : k.forward now = k := by unfold Channel.forward; rw [hp]
      rw [hk]
      have : s' = s := by
        unfold flushPort at h
        rw [if_neg (by omega)] at h
        by_cases h1 : (s.P l).direction ≠ DIR_OUT
        · rw [if_pos h1] at h; injection h with h; exact h.symm
        rw [if_neg h1] at h
        by_cases h2 : (s.P l).empty = true
        · rw [if_pos h2] at h; injection h with h; exact h.symm
        rw [if_neg h2] at h
        rcases hS.none_ hp with h3 | h3
        · rw [if_pos h3] at h; injection h with h; exact h.symm
        · exact absurd h3 h2
      subst this; exact ⟨hS, hM⟩
    | some bs =>
      have hk : k.forward now = { pending := none, shown := some (bs, now) } := by unfold Channel.forward; rw [hp]
      rw [hk]
      obtain ⟨hm, hfl⟩ := hS.some_ bs hp
      have h2' : (s.P l).empty = false := by
        cases he : (s.P l).empty with
        | false => rfl
        | true => rw [message_empty.2 he] at hm; simp at hm
      have hr : (s.P l).ready = true := by
        cases h : (s.P l).ready with
        | true => rfl
        | false => rw [hI.fresh l h] at h2'; simp at h2'
      obtain ⟨hdr, hsz⟩ := hM hfl h2'
      unfold flushPort at h
      rw [if_neg (by omega), if_neg (by rw [hS.ends.1 hr]; simp), if_neg (by rw [h2']; simp), if_neg (by rw [hfl]; simp)] at h
      have hkl : (s.P l).kind = KIND_SAMPLING := (hI.ok l hr).kindOf.trans rt.srcKind
      obtain ⟨s1, bs', g1, _, _, _, _, _, g7⟩ := portGet_all hI hr h2'
      obtain ⟨hbs, rfl⟩ := g7 hkl
      rw [hm] at hbs
      injection hbs with hbs
      subst hbs
      rw [g1] at h
      simp only [ne_eq, not_true_eq_false, if_false] at h
      have hlen : bs'.length = (s1.P l).size := by
        unfold Ports.messageOf at hm; rw [h2'] at hm; simp at hm; rw [← hm]; simp
      have hks : ∀ g ∈ c.dests l, c.kindOf (c.toLocal g) = KIND_SAMPLING :=
        fun g hg => (hc.destKind l g hl hg).trans rt.srcKind
      obtain ⟨s2, d1, d2, d3, d4, d5⟩ := flushDests_within (now := now) (bs := bs') (c.dests l) s1 hI
        (fun g hg => hc.dests l g hl hg)
        (fun g hg h => by rw [hks g hg] at h; simp [KIND_QUEUEING, KIND_SAMPLING] at h)
      rw [d1] at h
      simp only at h
      injection h with h
      have hmem : d ∈ (c.dests l).map c.toLocal := List.count_pos_iff.1 (by rw [rt.once]; omega)
      obtain ⟨e1, e2⟩ := flushDests_sample rt.dKind (c.dests l) s1 s2 hI (fun g hg => hc.dests l g hl hg) hks hmem hdr
        (hS.ends.2 hdr) (by rw [hlen, hsz]) d1
      have hr2 : (s2.P l).ready = true := by rw [d4]; exact hr
      have hbits : Only s2 (s2.setPort l { s2.P l with mustFlush := false }) l := only_bits (by simp)
      have hflag : (s'.P l).mustFlush = false := by rw [← h]; simp [setPort]
      have hmd : s'.messageOf d = s2.messageOf d := by
        rw [← h]; exact (hbits.within hr2).messageOf d2 (Ne.symm rt.ne)
      have hPd : s'.P d = s2.P d := by rw [← h]; exact hbits.other d (Ne.symm rt.ne)
      refine ⟨⟨hends, by simp, fun _ => Or.inl hflag, ?_, ?_⟩, fun hh => by rw [hflag] at hh; simp at hh⟩
      · rw [hmd, e1]; rfl
      · intro b t hbt
        simp only [Option.some.injEq, Prod.mk.injEq] at hbt
        rw [hPd, e2]; exact hbt.2
  · rw [if_neg hls]
    have hnS : ¬ ((s.P l).direction = DIR_OUT ∧ (src = l ∨
        (src ∈ (c.dests l).map c.toLocal ∧ (s.P src).ready = true ∧ (s.P src).direction = DIR_IN))) := by
      rintro ⟨_, rfl | h⟩
      · exact hls rfl
      · exact rt.notDest l hl h.1
    have hnD : ¬ ((s.P l).direction = DIR_OUT ∧ (d = l ∨
        (d ∈ (c.dests l).map c.toLocal ∧ (s.P d).ready = true ∧ (s.P d).direction = DIR_IN))) := by
      rintro ⟨ho, rfl | h⟩
      · cases hr : (s.P d).ready with
        | true => rw [hS.ends.2 hr] at ho; simp [DIR_IN, DIR_OUT] at ho
        | false => rw [hI.fresh d hr] at ho; simp [DIR_OUT] at ho
      · exact rt.only l hl hls h.1
    refine ⟨hS.keep (f3.other _ hnS) (f3.other _ hnD) (f3.messageOf hI hnS) (f3.messageOf hI hnD), ?_⟩
    unfold Matching; rw [f3.other _ hnS, f3.other _ hnD]; exact hM

theorem forward_forward (now : Nat) (k : Channel) : (k.forward now).forward now = k.forward now := by
  unfold Channel.forward; cases h : k.pending <;> simp [h]

theorem flushList_samp {c : PortCfg} (hc : c.Ok) {now src d : Nat} (rt : Route c KIND_SAMPLING src d) :
    ∀ (ls : List Nat) (s s' : Ports) (k : Channel), Inv c s → Samp s src d k → Matching s src d →
      (∀ l ∈ ls, l < c.nbPorts) → flushList c now ls s = some s' →
      Samp s' src d (if src ∈ ls then k.forward now else k) ∧ Matching s' src d := by
  intro ls
  induction ls with
  | nil => intro s s' k _ hS hM _ h; simp [flushList] at h; subst h; simpa using ⟨hS, hM⟩
  | cons l ls ih =>
    intro s s' k hI hS hM hlt h
    unfold flushList at h
    cases h1 : flushPort c now s l with
    | none => rw [h1] at h; simp at h
    | some s1 =>
      rw [h1] at h
      simp only at h
      have hl := hlt l List.mem_cons_self
      obtain ⟨a, b⟩ := flushPort_samp hc rt hI hS hM hl h1
      obtain ⟨s2, f1, f2, _⟩ := flushPort_within hc (now := now) hI hl
      rw [h1] at f1; injection f1 with f1; subst f1
      obtain ⟨a2, b2⟩ := ih s1 s' _ f2 a b (fun l' h => hlt l' (List.mem_cons_of_mem _ h)) h
      refine ⟨?_, b2⟩
      by_cases e : l = src
      · rw [if_pos e, forward_forward] at a2
        rw [if_pos (by rw [e]; exact List.mem_cons_self)]
        simpa using a2
      · rw [if_neg e] at a2
        have : (src ∈ l :: ls) ↔ src ∈ ls := by simp [Ne.symm e]
        simp only [this]; exact a2

theorem flushAll_samp {c : PortCfg} (hc : c.Ok) {now src d : Nat} (rt : Route c KIND_SAMPLING src d)
    (hp : src ∈ c.portsOf (c.owner src)) :
    ∀ (ps : List Nat) (s s' : Ports) (k : Channel), Inv c s → Samp s src d k → Matching s src d →
      flushAll c now ps s = some s' →
      Samp s' src d (if c.owner src ∈ ps then k.forward now else k) ∧ Matching s' src d := by
  intro ps
  induction ps with
  | nil => intro s s' k _ hS hM h; simp [flushAll] at h; subst h; simpa using ⟨hS, hM⟩
  | cons p ps ih =>
    intro s s' k hI hS hM h
    unfold flushAll at h
    cases h1 : flushPartition c now p s with
    | none => rw [h1] at h; simp at h
    | some s1 =>
      rw [h1] at h
      simp only at h
      obtain ⟨a, b⟩ := flushList_samp hc rt (c.portsOf p) s s1 k hI hS hM (fun l hl => (hc.portsOf p l hl).1) h1
      obtain ⟨s2, f1, f2, _⟩ := flushPartition_within hc (now := now) (p := p) hI
      rw [h1] at f1; injection f1 with f1; subst f1
      obtain ⟨a2, b2⟩ := ih s1 s' _ f2 a b h
      refine ⟨?_, b2⟩
      by_cases e : src ∈ c.portsOf p
      · rw [if_pos e, forward_forward] at a2
        rw [if_pos (by rw [(hc.portsOf p src e).2]; exact List.mem_cons_self)]
        simpa using a2
      · rw [if_neg e] at a2
        have hne : c.owner src ≠ p := fun hh => e (hh ▸ hp)
        have : (c.owner src ∈ p :: ps) ↔ c.owner src ∈ ps := by simp [hne]
        simp only [this]; exact a2

end Pok.Ports
