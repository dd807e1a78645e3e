import Verif.Lemmas.PortStep

/-!
# Flow of bytes from a source port to a destination port
-/

namespace Pok.Ports

theorem Within.queueOf {c : PortCfg} {s s' : Ports} {S : Nat → Prop} {j : Nat} (h : Within s s' S) (hI : Inv c s)
    (hj : ¬ S j) (hk : c.kindOf j = KIND_QUEUEING) : s'.queueOf j = s.queueOf j := by
  unfold Ports.queueOf
  rw [h.other j hj]
  cases hr : (s.P j).ready with
  | false => rw [hI.fresh j hr]; simp [held]
  | true =>
    have ok := hI.ok j hr
    have hk' : (s.P j).kind = KIND_QUEUEING := ok.kindOf.trans hk
    apply List.map_congr_left
    intro k hk1
    have hlen := List.mem_range.1 hk1
    apply h.data
    intro i hi hir
    have hij : i ≠ j := fun e => hj (e ▸ hi)
    have hs : 0 < (s.P j).size := by
      by_contra h0
      have := ok.q0 hk' (by omega)
      simp [held, this] at hlen
    have := Nat.mod_lt ((s.P j).offB + k) hs
    have := hI.disj i j hij hir hr
    unfold Owns; omega

theorem Within.messageOf {c : PortCfg} {s s' : Ports} {S : Nat → Prop} {j : Nat} (h : Within s s' S) (hI : Inv c s)
    (hj : ¬ S j) : s'.messageOf j = s.messageOf j := by
  unfold Ports.messageOf
  rw [h.other j hj]
  cases hr : (s.P j).ready with
  | false => rw [hI.fresh j hr]; simp
  | true =>
    split
    · rfl
    congr 1
    apply List.map_congr_left
    intro k hk1
    have hlen := List.mem_range.1 hk1
    apply h.data
    intro i hi hir
    have hij : i ≠ j := fun e => hj (e ▸ hi)
    have := hI.disj i j hij hir hr
    unfold Owns; omega

theorem queue_length (s : Ports) (i : Nat) : (s.queueOf i).length = held (s.P i) := by simp [Ports.queueOf]

theorem queue_fresh {c : PortCfg} {s : Ports} {i : Nat} (hI : Inv c s) (h : (s.P i).ready = false) : s.queueOf i = [] := by
  unfold Ports.queueOf; rw [hI.fresh i h]; simp [held]

theorem flushDests_append {c : PortCfg} {now d : Nat} {bs : List Nat} (hlen : 0 < bs.length)
    (hkd : c.kindOf d = KIND_QUEUEING) :
    ∀ (gs : List Nat) (s s' : Ports), Inv c s → (∀ g ∈ gs, c.toLocal g < c.nbPorts) →
      (gs.map c.toLocal).count d = 1 → (s.P d).ready = true → (s.P d).direction = DIR_IN → (s.P d).full = false →
      (s.queueOf d).length + bs.length ≤ (s.P d).size → flushDests c now bs gs s = some s' →
      s'.queueOf d = s.queueOf d ++ bs := by
  intro gs
  induction gs with
  | nil => intro s s' _ _ h; simp at h
  | cons g gs ih =>
    intro s s' hI hlt hcount hr hd hf hfit hfl
    have hlt' : ∀ g' ∈ gs, c.toLocal g' < c.nbPorts := fun g' h => hlt g' (List.mem_cons_of_mem _ h)
    unfold flushDests at hfl
    simp only at hfl
    rw [if_neg (by have := hlt g (List.mem_cons_self); omega)] at hfl
    by_cases hg : c.toLocal g = d
    · rw [hg, if_neg (by rw [hr]; simp), if_neg (by rw [hd]; simp)] at hfl
      have hk : (s.P d).kind = KIND_QUEUEING := (hI.ok d hr).kindOf.trans hkd
      rw [queue_length] at hfit
      obtain ⟨s1, w1, w2, w3, w4, _⟩ := portWrite_queue (now := now) (bs := bs) hI hr hk hf (by omega) (by omega)
      rw [w1] at hfl
      simp only at hfl
      have hnot : d ∉ gs.map c.toLocal := by
        intro hm
        have := List.count_pos_iff.2 hm
        rw [List.map_cons, hg, List.count_cons_self] at hcount
        omega
      obtain ⟨s2, f1, _, f3, _⟩ := flushDests_within (now := now) (bs := bs) gs s1 w3 hlt' (fun _ _ _ => hlen)
      rw [hfl] at f1; injection f1 with f1; subst f1
      rw [f3.queueOf w3 (fun h => hnot h.1) hkd, w4 hlen hfit]
    · have hcount' : (gs.map c.toLocal).count d = 1 := by
        rw [List.map_cons, List.count_cons_of_ne hg] at hcount; exact hcount
      by_cases h1 : (s.P (c.toLocal g)).ready = false
      · rw [if_pos h1] at hfl; exact ih s s' hI hlt' hcount' hr hd hf hfit hfl
      rw [if_neg h1] at hfl
      by_cases h2 : (s.P (c.toLocal g)).direction ≠ DIR_IN
      · rw [if_pos h2] at hfl; exact ih s s' hI hlt' hcount' hr hd hf hfit hfl
      rw [if_neg h2] at hfl
      have hrg : (s.P (c.toLocal g)).ready = true := by simpa using h1
      obtain ⟨s1, e, w1, w2, w3, _⟩ := portWrite_any (now := now) (bs := bs) hI hrg (fun _ _ => hlen)
      rw [w1] at hfl
      simp only at hfl
      have hP : s1.P d = s.P d := w2.other d (Ne.symm hg)
      have hq : s1.queueOf d = s.queueOf d := (w2.within hrg).queueOf hI (Ne.symm hg) hkd
      rw [← hq]
      exact ih s1 s' w3 hlt' hcount' (by rw [hP]; exact hr) (by rw [hP]; exact hd) (by rw [hP]; exact hf)
        (by rw [hq, hP]; exact hfit) hfl

end Pok.Ports

namespace Pok

/-- Port `d` is a destination of port `src`, of no other port, and `src` is not itself a destination. -/
structure Route (c : PortCfg) (kind src d : Nat) : Prop where
  srcLt : src < c.nbPorts
  ne : src ≠ d
  srcKind : c.kindOf src = kind
  dKind : c.kindOf d = kind
  once : ((c.dests src).map c.toLocal).count d = 1
  only : ∀ l, l < c.nbPorts → l ≠ src → d ∉ (c.dests l).map c.toLocal
  notDest : ∀ l, l < c.nbPorts → src ∉ (c.dests l).map c.toLocal

namespace Ports

/-- Moving what waits at `src` to `d` cannot lose anything: `d` has been created as an IN port, is not marked
full and has room for everything. -/
def RoomFor (s : Ports) (src d : Nat) : Prop :=
  s.queueOf src ≠ [] → (s.P d).ready = true ∧ (s.P d).direction = DIR_IN ∧ (s.P d).full = false ∧
    (s.queueOf d).length + (s.queueOf src).length ≤ (s.P d).size

/-- The two ends have their directions. -/
def Ends (s : Ports) (src d : Nat) : Prop :=
  ((s.P src).ready = true → (s.P src).direction = DIR_OUT) ∧ ((s.P d).ready = true → (s.P d).direction = DIR_IN)

theorem flushPort_flow {c : PortCfg} (hc : c.Ok) {now src d l : Nat} (rt : Route c KIND_QUEUEING src d)
    {s s' : Ports} (hI : Inv c s) (he : Ends s src d) (hroom : RoomFor s src d) (hl : l < c.nbPorts)
    (h : flushPort c now s l = some s') :
    s'.queueOf d ++ s'.queueOf src = s.queueOf d ++ s.queueOf src ∧ Ends s' src d ∧ RoomFor s' src d := by
  obtain ⟨s2, f1, f2, f3, f4, f5⟩ := flushPort_within hc (now := now) hI hl
  rw [h] at f1; injection f1 with f1; subst f1
  have hends : Ends s' src d := by
    constructor
    · intro hr; rw [f3.dir src (by rw [← f4]; exact hr)]; exact he.1 (by rw [← f4]; exact hr)
    · intro hr; rw [f3.dir d (by rw [← f4]; exact hr)]; exact he.2 (by rw [← f4]; exact hr)
  by_cases hls : l = src
  · subst hls
    -- the source itself
    unfold flushPort at h
    rw [if_neg (by omega)] at h
    by_cases h1 : (s.P l).direction ≠ DIR_OUT
    · rw [if_pos h1] at h; injection h with h; subst h; exact ⟨rfl, he, hroom⟩
    rw [if_neg h1] at h
    by_cases h2 : (s.P l).empty = true
    · rw [if_pos h2] at h; injection h with h; subst h; exact ⟨rfl, he, hroom⟩
    rw [if_neg h2] at h
    have h2' : (s.P l).empty = false := by simpa using h2
    by_cases h3 : (s.P l).mustFlush = false
    · rw [if_pos h3] at h; injection h with h; subst h; exact ⟨rfl, he, hroom⟩
    rw [if_neg h3] at h
    have hr : (s.P l).ready = true := by
      cases h : (s.P l).ready with
      | true => rfl
      | false => rw [hI.fresh l h] at h2'; simp at h2'
    have hkl : (s.P l).kind = KIND_QUEUEING := (hI.ok l hr).kindOf.trans rt.srcKind
    obtain ⟨s1, bs, g1, g2, g3, _, _, g6, _⟩ := portGet_all hI hr h2'
    obtain ⟨hbs, hq1, hlen⟩ := g6 hkl
    rw [g1] at h
    simp only [ne_eq, not_true_eq_false, if_false] at h
    have hne : s.queueOf l ≠ [] := by intro h0; rw [hbs, h0] at hlen; simp at hlen
    obtain ⟨r1, r2, r3, r4⟩ := hroom hne
    have hPd : s1.P d = s.P d := g2.other d (Ne.symm rt.ne)
    have hqd : s1.queueOf d = s.queueOf d := (g2.within hr).queueOf hI (Ne.symm rt.ne) rt.dKind
    obtain ⟨s2, d1, d2, d3, d4, d5⟩ := flushDests_within (now := now) (bs := bs) (c.dests l) s1 g3
      (fun g hg => hc.dests l g hl hg) (fun _ _ _ => hlen)
    rw [d1] at h
    simp only at h
    injection h with h
    have happ := flushDests_append hlen rt.dKind (c.dests l) s1 s2 g3 (fun g hg => hc.dests l g hl hg) rt.once
      (by rw [hPd]; exact r1) (by rw [hPd]; exact r2) (by rw [hPd]; exact r3)
      (by rw [hqd, hPd, hbs]; exact r4) d1
    have hsrc2 : s2.queueOf l = [] := by
      rw [d3.queueOf g3 (fun hh => rt.notDest l hl hh.1) rt.srcKind]; exact hq1
    have hr2 : (s2.P l).ready = true := by rw [d4, g2.ready]; exact hr
    have hbits : Only s2 (s2.setPort l { s2.P l with mustFlush := false }) l := only_bits (by simp)
    have hq3 : s'.queueOf d = s2.queueOf d := by
      rw [← h]; exact (hbits.within hr2).queueOf d2 (Ne.symm rt.ne) rt.dKind
    have hq4 : s'.queueOf l = s2.queueOf l := by
      rw [← h]; unfold Ports.queueOf; simp [setPort, held]
    refine ⟨by rw [hq3, hq4, hsrc2, happ, hqd, hbs]; simp, hends, ?_⟩
    intro hn; exact absurd (hq4.trans hsrc2) hn
  · have hnS : ¬ ((s.P l).direction = DIR_OUT ∧ (src = l ∨
        (src ∈ (c.dests l).map c.toLocal ∧ (s.P src).ready = true ∧ (s.P src).direction = DIR_IN))) := by
      rintro ⟨_, rfl | h⟩
      · exact hls rfl
      · exact rt.notDest l hl h.1
    have hnD : ¬ ((s.P l).direction = DIR_OUT ∧ (d = l ∨
        (d ∈ (c.dests l).map c.toLocal ∧ (s.P d).ready = true ∧ (s.P d).direction = DIR_IN))) := by
      rintro ⟨ho, rfl | h⟩
      · cases hr : (s.P d).ready with
        | true => rw [he.2 hr] at ho; simp [DIR_IN, DIR_OUT] at ho
        | false => rw [hI.fresh d hr] at ho; simp [DIR_OUT] at ho
      · exact rt.only l hl hls h.1
    have hqs := f3.queueOf hI hnS rt.srcKind
    have hqd := f3.queueOf hI hnD rt.dKind
    refine ⟨by rw [hqs, hqd], hends, ?_⟩
    intro hn
    rw [hqs] at hn
    rw [hqs, hqd, f3.other d hnD]
    exact hroom hn

theorem flushList_flow {c : PortCfg} (hc : c.Ok) {now src d : Nat} (rt : Route c KIND_QUEUEING src d) :
    ∀ (ls : List Nat) (s s' : Ports), Inv c s → Ends s src d → RoomFor s src d → (∀ l ∈ ls, l < c.nbPorts) →
      flushList c now ls s = some s' →
      s'.queueOf d ++ s'.queueOf src = s.queueOf d ++ s.queueOf src ∧ Ends s' src d ∧ RoomFor s' src d := by
  intro ls
  induction ls with
  | nil => intro s s' _ he hr _ h; simp [flushList] at h; subst h; exact ⟨rfl, he, hr⟩
  | cons l ls ih =>
    intro s s' hI he hroom hlt h
    unfold flushList at h
    cases h1 : flushPort c now s l with
    | none => rw [h1] at h; simp at h
    | some s1 =>
      rw [h1] at h
      simp only at h
      have hl := hlt l List.mem_cons_self
      obtain ⟨a, b, d'⟩ := flushPort_flow hc rt hI he hroom hl h1
      obtain ⟨s2, f1, f2, _⟩ := flushPort_within hc (now := now) hI hl
      rw [h1] at f1; injection f1 with f1; subst f1
      obtain ⟨a2, b2, d2⟩ := ih s1 s' f2 b d' (fun l' h => hlt l' (List.mem_cons_of_mem _ h)) h
      exact ⟨a2.trans a, b2, d2⟩

theorem flushAll_flow {c : PortCfg} (hc : c.Ok) {now src d : Nat} (rt : Route c KIND_QUEUEING src d) :
    ∀ (ps : List Nat) (s s' : Ports), Inv c s → Ends s src d → RoomFor s src d →
      flushAll c now ps s = some s' →
      s'.queueOf d ++ s'.queueOf src = s.queueOf d ++ s.queueOf src ∧ Ends s' src d ∧ RoomFor s' src d := by
  intro ps
  induction ps with
  | nil => intro s s' _ he hr h; simp [flushAll] at h; subst h; exact ⟨rfl, he, hr⟩
  | cons p ps ih =>
    intro s s' hI he hroom h
    unfold flushAll at h
    cases h1 : flushPartition c now p s with
    | none => rw [h1] at h; simp at h
    | some s1 =>
      rw [h1] at h
      simp only at h
      obtain ⟨a, b, d'⟩ := flushList_flow hc rt (c.portsOf p) s s1 hI he hroom (fun l hl => (hc.portsOf p l hl).1) h1
      obtain ⟨s2, f1, f2, _⟩ := flushPartition_within hc (now := now) (p := p) hI
      rw [h1] at f1; injection f1 with f1; subst f1
      obtain ⟨a2, b2, d2⟩ := ih s1 s' f2 b d' h
      exact ⟨a2.trans a, b2, d2⟩

end Ports
end Pok
