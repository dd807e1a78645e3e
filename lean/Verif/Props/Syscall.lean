import Mathlib.Tactic.Common
import Verif.Spec.Syscall
import Verif.Props.ErrorMgmt
import Verif.Props.Sampling

/-!
# System calls: pointers, memory, numbers and I/O ports (C20–C23)
-/

namespace Pok
namespace Sys
open SysSpec

/-! ## C20: the pointer check -/

theorem checkPtr_iff (c : PortCfg) (p ptr size : Nat) :
    Ports.checkPtr c p ptr size = true ↔ p < c.nbParts ∧ ptr + size ≤ c.psize p := by
  unfold Ports.checkPtr
  by_cases h1 : p ≥ c.nbParts
  · rw [if_pos h1]; simp; omega
  · rw [if_neg h1]
    by_cases h2 : size > c.psize p
    · rw [if_pos h2]; simp; omega
    · rw [if_neg h2]; simp; omega

/-- C20: for every partition, pointer and positive size, the check accepts exactly when the partition exists and
every addressed byte is in its memory. -/
theorem C20_exact (c : SysCfg) (p ptr size : Nat) (hs : 0 < size) :
    chk c p ptr size = true ↔ Inside c p ptr size := by
  rw [chk, checkPtr_iff, Inside]
  constructor
  · rintro ⟨h1, h2⟩; exact ⟨h1, fun i hi => by omega⟩
  · rintro ⟨h1, h2⟩; have := h2 (size - 1) (by omega); exact ⟨h1, by omega⟩

/-- C20, size 0: nothing is addressed; the check accepts the pointers up to the end of the memory. -/
theorem C20_empty (c : SysCfg) (p ptr : Nat) :
    chk c p ptr 0 = true ↔ p < c.p.nbParts ∧ ptr ≤ c.p.psize p := by
  rw [chk, checkPtr_iff]; simp

/-- C20, no wrap-around: for a pointer that is accepted, adding the base of the partition in 32-bit arithmetic
gives, byte after byte, the physical addresses of the caller's memory. -/
theorem C20_no_wrap {c : SysCfg} (hc : CfgOk c) {p ptr size : Nat} (h : chk c p ptr size = true) :
    ∀ i, i < size →
      phys c p (ptr + i) = c.base p + ptr + i ∧ c.base p ≤ phys c p (ptr + i) ∧
        phys c p (ptr + i) < c.base p + c.p.psize p := by
  rw [chk, checkPtr_iff] at h
  intro i hi
  have := hc.room p h.1
  have e : phys c p (ptr + i) = c.base p + ptr + i := by
    unfold phys; rw [Nat.mod_eq_of_lt (by omega)]; omega
  rw [e]; omega

/-! ## C21: memory touched by the system calls -/

theorem portGet_length {s s' : Ports} {pid size : Nat} {e : Errno} {bs : List Nat}
    (h : Ports.portGet s pid size = some (s', e, bs)) : bs.length ≤ size := by
  have hr : ∀ {d i n l}, Ports.readBytes d i n = some l → l.length = n := by
    intro d i n l h; unfold Ports.readBytes at h; split at h
    · cases h; simp
    · cases h
  unfold Ports.portGet at h
  dsimp only at h
  split at h
  · split at h
    · cases h; simp
    split at h
    · cases h; simp
    split at h
    · cases h
    split at h
    · cases h
    · rename_i l hl
      cases h
      unfold Ports.ringRead at hl
      split at hl
      · split at hl
        · rename_i a b ha hb
          cases hl
          have := hr ha; have := hr hb
          simp; omega
        · cases hl
      · exact (hr hl).le
  · split at h
    · split at h
      · cases h; simp
      split at h
      · cases h; simp
      split at h
      · cases h
      · rename_i l hl
        cases h; exact (hr hl).le
    · cases h; simp

theorem receive_length {c : PortCfg} {s s' : Ports} {now part id maxlen timeout : Nat} {r : PRes} {bs : List Nat}
    (h : Ports.queueingReceive c s now part id maxlen timeout = some (s', r, bs)) : bs.length ≤ maxlen := by
  unfold Ports.queueingReceive Ports.receiveAt at h
  repeat' split at h
  all_goals first
    | (cases h; simp; done)
    | (cases h; done)
    | skip
  unfold Ports.recvLoop at h
  dsimp only at h
  split at h
  · split at h <;> (cases h; simp)
  · split at h
    · cases h
    · rename_i hg
      have hl := portGet_length hg
      split at h
      · cases h
        split at hl <;> omega
      · cases h; simp

theorem read_length {c : PortCfg} {s s' : Ports} {now part id uptr : Nat} {r : PRes} {out : Ports.ReadOut}
    (h : Ports.samplingRead c s now part id uptr = some (s', r, out)) :
    out.bytes.length = 0 ∨
      (Ports.checkPtr c part uptr (s.P part).size = true ∧ out.bytes.length ≤ (s.P id).size) := by
  unfold Ports.samplingRead at h
  split at h
  · cases h; exact Or.inl rfl
  split at h
  · cases h
  · cases h; exact Or.inl rfl
  split at h
  · cases h; exact Or.inl rfl
  split at h
  · cases h; exact Or.inl rfl
  split at h
  · cases h; exact Or.inl rfl
  split at h
  · cases h; exact Or.inl rfl
  split at h
  · cases h
  split at h
  · cases h; exact Or.inl rfl
  rename_i hchk
  split at h
  · cases h
  · rename_i hg
    split at h
    · cases h; exact Or.inl rfl
    · cases h
      exact Or.inr ⟨by simpa using hchk, portGet_length hg⟩

theorem strcmpReads_le (mem : Nat → Nat) (a : Nat) (l : List Nat) : strcmpReads mem a l ≤ l.length + 1 := by
  induction l generalizing a with
  | nil => simp [strcmpReads]
  | cons x xs ih =>
    unfold strcmpReads
    have := ih (a + 1)
    split <;> simp <;> omega

/-- The text ends with an escape sequence that may be incomplete: one of its last two bytes is the escape
character. -/
def EscAtEnd (mem : Nat → Nat) (a n : Nat) : Prop := ∃ i, i < n ∧ n ≤ i + 2 ∧ mem (a + i) = ESC

theorem consReads_le (mem : Nat → Nat) : ∀ n a, ¬ EscAtEnd mem a n → consReads mem a n ≤ n := by
  intro n
  induction n using Nat.strongRecOn with
  | ind n ih =>
    intro a h
    unfold EscAtEnd at h
    push Not at h
    match n, ih, h with
    | 0, _, _ => simp [consReads]
    | 1, _, h =>
      have := h 0 (by omega) (by omega)
      simp only [Nat.add_zero] at this
      unfold consReads; rw [if_neg this]
    | 2, ih, h =>
      have h0 := h 0 (by omega) (by omega)
      have h1 := h 1 (by omega) (by omega)
      simp only [Nat.add_zero] at h0
      unfold consReads; rw [if_neg h0]
      unfold consReads; rw [if_neg h1]
    | m + 3, ih, h =>
      have sh : ∀ k, k ≤ m + 3 → consReads mem (a + k) (m + 3 - k) ≤ m + 3 - k ∨ k = 0 := by
        intro k hk
        by_cases h0 : k = 0
        · exact Or.inr h0
        · refine Or.inl (ih _ (by omega) _ ?_)
          rintro ⟨i, h1, h2, h3⟩
          refine h (k + i) (by omega) (by omega) ?_
          rw [← h3]; congr 1; omega
      have s1 := sh 1 (by omega); have s2 := sh 2 (by omega); have s3 := sh 3 (by omega)
      simp only [Nat.add_sub_cancel, show m + 3 - 1 = m + 2 from rfl, show m + 3 - 2 = m + 1 from rfl] at s1 s2 s3
      unfold consReads
      split
      · split <;> omega
      · omega

/-- The calls whose check does not cover what they touch, and the arguments for which that matters.  For each of
them `C21_…_violated` below shows a call that leaves the memory of the caller. -/
def Uncovered (c : SysCfg) (s : Sys) (p num : Nat) (a : SysArgs) : Prop :=
  (num = 10 ∧ EscAtEnd s.mem (phys c p a.a1) a.a2) ∨
  (num = 11 ∧ ¬ Inside c p a.a1 1) ∨
  (num = 102 ∧ (s.ports.P p).size < (s.ports.P (a.a1 % 256)).size) ∨
  (num = 120 ∧ ¬ Inside c p a.a2 6) ∨
  (num = 202 ∧ (a.a2 = 0 ∨ ¬ Inside c p a.a2 20)) ∨
  ((num = 701 ∨ num = 702) ∧ ¬ Inside c p a.a2 (min a.a3 RECV_BUF_SZ)) ∨
  (num = 703 ∧ ¬ Inside c p a.a2 a.a3)

theorem feature_contained {c : SysCfg} {p : Nat} {b : Bool} {o : SysOut} (h : Contained c p o) :
    Contained c p (feature b o) := by
  unfold feature; split
  · exact h
  · trivial

theorem guard_contained {c : SysCfg} {p : Nat} {b : Bool} {o : SysOut} (h : b = true → Contained c p o) :
    Contained c p (guard b o) := by
  unfold guard; split
  · rename_i hb; exact h hb
  · trivial

/-- An access at an offset `d` from an accepted pointer, within the size checked. -/
theorem own_of_chk {c : SysCfg} (hc : CfgOk c) {p ptr size : Nat} (h : chk c p ptr size = true) (w : Bool)
    (d n : Nat) (hn : d + n ≤ size) : Own c p ⟨w, phys c p ptr + d, n⟩ := by
  intro i hi
  rw [chk, checkPtr_iff] at h
  have := hc.room p h.1
  dsimp only at hi ⊢
  have e : phys c p ptr = ptr + c.base p ∨ size = 0 := by
    by_cases h0 : size = 0
    · exact Or.inr h0
    · exact Or.inl (by unfold phys; rw [Nat.mod_eq_of_lt (by omega)])
  omega

theorem own0 {c : SysCfg} (hc : CfgOk c) {p ptr size : Nat} (h : chk c p ptr size = true) (w : Bool)
    (n : Nat) (hn : n ≤ size) : Own c p ⟨w, phys c p ptr, n⟩ := own_of_chk hc h w 0 n (by omega)

theorem nil_contained {c : SysCfg} {p : Nat} {v : Service} : Contained c p (.call v []) := by
  intro x hx; cases hx

theorem one_contained {c : SysCfg} {p : Nat} {v : Service} {x : Access} (h : Own c p x) :
    Contained c p (.call v [x]) := by
  intro y hy; rw [List.mem_singleton] at hy; rw [hy]; exact h

theorem cons_contained {c : SysCfg} {p : Nat} {v : Service} {x : Access} {l : List Access} (h : Own c p x)
    (hl : Contained c p (.call v l)) : Contained c p (.call v (x :: l)) := by
  intro y hy
  rcases List.mem_cons.mp hy with rfl | hy
  · exact h
  · exact hl y hy

theorem name_contained {c : SysCfg} (hc : CfgOk c) {s : Sys} {p ptr : Nat} {v : Service}
    (h : chk c p ptr (c.maxName + 1) = true) : Contained c p (.call v (nameAcc c s (phys c p ptr))) := by
  intro x hx
  unfold nameAcc at hx
  rw [List.mem_map] at hx
  obtain ⟨i, hi, rfl⟩ := hx
  rw [List.mem_range] at hi
  have h1 := strcmpReads_le s.mem (phys c p ptr) (c.p.name i)
  have h2 := hc.names i hi
  exact own0 hc h _ _ (by omega)

theorem inside_chk {c : SysCfg} {p ptr size : Nat} (hs : 0 < size) (h : Inside c p ptr size) :
    chk c p ptr size = true := (C20_exact c p ptr size hs).2 h

theorem lockOp_contained {c : SysCfg} (hc : CfgOk c) {s : Sys} {p ptr id : Nat} {v : Service}
    (h : chk c p ptr 20 = true) : Contained c p (.call v (lockOpAcc s p id (phys c p ptr))) := by
  unfold lockOpAcc
  have o4 := fun w => own_of_chk hc h w 4 4 (by omega)
  have o0 := fun w => own_of_chk hc h w 0 4 (by omega)
  have o8 := fun w => own_of_chk hc h w 8 4 (by omega)
  have o12 := fun w => own_of_chk hc h w 12 8 (by omega)
  split
  · exact nil_contained
  split
  · exact one_contained (o4 _)
  split
  · exact cons_contained (o4 _) (cons_contained (o0 _) (cons_contained (o8 _) (one_contained (o12 _))))
  · exact cons_contained (o4 _) (cons_contained (o0 _) (one_contained (o12 _)))
  · exact cons_contained (o4 _) (one_contained (o0 _))

theorem rtl_contained {c : SysCfg} (hc : CfgOk c) {p ptr n m : Nat} {v : Service} {w : Bool}
    (h : chk c p ptr 4 = true) (hi : Inside c p ptr n) (hm : m ≤ n) :
    Contained c p (.call v [⟨w, phys c p ptr, m⟩]) := by
  refine one_contained ?_
  by_cases h0 : n = 0
  · exact own0 hc h _ _ (by omega)
  · exact own0 hc (inside_chk (by omega) hi) _ _ hm

/-- C21: whatever the call, its arguments and the state of the kernel, every byte touched through the pointers of
the caller is in the memory of the caller, except for the calls and arguments listed in `Uncovered`. -/
theorem C21_partial {c : SysCfg} (hc : CfgOk c) (s : Sys) (p now num : Nat) (a : SysArgs)
    (hu : ¬ Uncovered c s p num a) : Contained c p (coreSyscall c s p now num a) := by
  unfold coreSyscall
  dsimp only
  split
  all_goals try apply feature_contained
  all_goals try exact trivial
  all_goals try exact nil_contained
  -- one pointer
  all_goals try (apply guard_contained; intro h1)
  all_goals try (apply guard_contained; intro h2)
  all_goals try exact one_contained (own0 hc h1 _ _ (Nat.le_refl _))
  all_goals try exact cons_contained (own0 hc h1 _ _ (Nat.le_refl _)) (one_contained (own0 hc h2 _ _ (Nat.le_refl _)))
  all_goals try exact cons_contained (own0 hc h2 _ _ (Nat.le_refl _)) (name_contained hc h1)
  all_goals try exact one_contained (own0 hc h1 _ _ (Nat.mod_le _ _))
  all_goals try exact one_contained (own0 hc h1 _ _ (Nat.min_le_left _ _))
  -- CONSWRITE
  · refine one_contained (own0 hc h1 _ _ (consReads_le _ _ _ fun h => hu (Or.inl ⟨rfl, h⟩)))
  -- GETCHAR
  · have : Inside c p a.a1 1 := by
      by_contra h; exact hu (Or.inr (Or.inl ⟨rfl, h⟩))
    exact one_contained (own0 hc (inside_chk (by omega) this) _ _ (Nat.le_refl _))
  -- SAMPLING_READ
  · have hle : (s.ports.P (a.a1 % 256)).size ≤ (s.ports.P p).size := by
      by_contra h; exact hu (Or.inr (Or.inr (Or.inl ⟨rfl, by omega⟩)))
    refine cons_contained (own0 hc h1 _ _ (Nat.le_refl _)) (cons_contained (own0 hc h2 _ _ (Nat.le_refl _)) ?_)
    split
    · rename_i hr
      refine one_contained ?_
      rcases read_length hr with h0 | ⟨hk, hl⟩
      · rw [h0]; intro i hi; exact absurd hi (Nat.not_lt_zero _)
      · exact own0 hc (show chk c p a.a2 (s.ports.P p).size = true from hk) _ _ (by omega)
    · exact nil_contained
  -- QUEUEING_RECEIVE
  · unfold recvAcc
    dsimp only
    refine cons_contained (own0 hc h2 _ _ (Nat.le_refl _)) ?_
    intro x hx
    rcases List.mem_append.mp hx with hx | hx
    · split at hx
      · rw [List.mem_singleton] at hx; subst hx
        exact own0 hc h1 _ _ (Nat.min_le_left _ _)
      · cases hx
    · split at hx
      · rename_i hr
        rw [List.mem_singleton] at hx; subst hx
        exact own0 hc h1 _ _ (receive_length hr)
      · cases hx
  -- NODE_MAC_ADDR
  · have : Inside c p a.a2 6 := by
      by_contra h; exact hu (by unfold Uncovered; simp [h])
    exact cons_contained (own0 hc h1 _ _ (by omega))
      (one_contained (own0 hc (inside_chk (by omega) this) _ _ (Nat.le_refl _)))
  -- VIRTUAL_NB_DESTINATIONS
  · exact one_contained (own0 hc h1 _ _ (by omega))
  -- LOCKOBJ_OPERATION
  · have h0 : a.a2 ≠ 0 := by
      intro h; exact hu (by unfold Uncovered; simp [h])
    have : Inside c p a.a2 20 := by
      by_contra h; exact hu (by unfold Uncovered; simp [h])
    rw [if_neg h0]
    exact guard_contained fun _ => lockOp_contained hc (inside_chk (by omega) this)
  -- INB, OUTB
  · split <;> trivial
  · split <;> trivial
  -- RTL
  · have : Inside c p a.a2 (min a.a3 RECV_BUF_SZ) := by
      by_contra h; exact hu (by unfold Uncovered; simp [h])
    exact rtl_contained hc h1 this (by unfold rtlReadLen; split <;> omega)
  · have : Inside c p a.a2 (min a.a3 RECV_BUF_SZ) := by
      by_contra h; exact hu (by unfold Uncovered; simp [h])
    exact rtl_contained hc h1 this (by unfold rtlReadLen; split <;> omega)
  · have : Inside c p a.a2 a.a3 := by
      by_contra h; exact hu (by unfold Uncovered; simp [h])
    exact rtl_contained hc h1 this (by unfold rtlWriteLen; split <;> omega)
  -- SHUTDOWN
  · split
    · trivial
    · exact nil_contained

/-- C21 at the gate: the block of arguments lies inside the memory of the caller, or the call is refused with
`EINVAL`; in the first case its 24 bytes are the caller's. -/
theorem C21_gate {c : SysCfg} (hc : CfgOk c) (s : Sys) (p now num ebx : Nat) :
    (Inside c p ebx 24 ∧ (∀ w, Own c p ⟨w, phys c p ebx, 24⟩) ∧
      gate c s p now num ebx = coreSyscall c s p now num (argsAt s.mem (phys c p ebx))) ∨
    (¬ Inside c p ebx 24 ∧ gate c s p now num ebx = .reject .einval) := by
  by_cases h : chk c p ebx 24 = true
  · refine Or.inl ⟨(C20_exact c p ebx 24 (by omega)).1 h, fun w => own0 hc h w _ (Nat.le_refl _), ?_⟩
    unfold gate; exact if_pos h
  · refine Or.inr ⟨fun hi => h (inside_chk (by omega) hi), ?_⟩
    unfold gate; exact if_neg h

/-! ## C22: numbers and argument counts -/

theorem feature_unknown {b : Bool} {o : SysOut} (h : o ≠ .unknown) : feature b o = .unknown ↔ b = false := by
  cases b <;> simp [feature, h]

theorem guard_ne {b : Bool} {o : SysOut} (h : o ≠ .unknown) : guard b o ≠ .unknown := by
  cases b <;> simp [guard, h]

/-- The dispatcher falls to its default case exactly for the numbers that the kernel does not offer. -/
theorem C22_numbers (c : SysCfg) (s : Sys) (p now num : Nat) (a : SysArgs) :
    coreSyscall c s p now num a = .unknown ↔ offered c.feat num = false := by
  unfold coreSyscall
  dsimp only
  split
  all_goals first
    | (refine (feature_unknown ?_).trans ?_
       · first
           | (apply guard_ne; apply guard_ne; simp; done)
           | (apply guard_ne; simp; done)
           | (simp; done)
           | (split <;> simp; done)
           | (split
              · split <;> simp
              · exact guard_ne (by simp))
       · simp [offered])
    | (simp only [offered, guard]; (repeat' split) <;> simp; done)
    | skip
  simp only [offered]
  simp
  simp_all

/-- C22, unknown numbers: a call with a number that the kernel does not offer returns `EINVAL`.  If the block of
arguments is not in the caller's memory nothing happens; otherwise the only effect is the one that an illegal
instruction of the caller would have (`C38_handler_partial`, `C38_contained` say what that is): ports, lock
objects, memory and I/O intervals are as before. -/
theorem C22_unknown {c : SysCfg} {s : Sys} {p now num ebx proc : Nat} (h : offered c.feat num = false) :
    retCode (gate c s p now num ebx) = some .einval ∧
    perform c s proc now p (gate c s p now num ebx) =
      if chk c p ebx 24 then (Kernel.fault c.k c.act proc now s.k .invalidOpcode).map fun k => { s with k := k }
      else some s := by
  by_cases hk : chk c p ebx 24 = true
  · have : gate c s p now num ebx = .unknown := by
      unfold gate; exact (if_pos hk).trans ((C22_numbers _ _ _ _ _ _).2 h)
    rw [this, if_pos hk]
    exact ⟨rfl, rfl⟩
  · have : gate c s p now num ebx = .reject .einval := by unfold gate; exact if_neg hk
    rw [this, if_neg hk]
    exact ⟨rfl, rfl⟩

/-- C22, a refused call has no effect at all. -/
theorem C22_refused (c : SysCfg) (s : Sys) (proc now p : Nat) (o : SysOut) (e : Errno) (h : o = .reject e) :
    retCode o = some e ∧ perform c s proc now p o = some s := by
  subst h; exact ⟨rfl, rfl⟩

/-- C22, argument count: only SHUTDOWN looks at it. -/
theorem C22_count_partial (c : SysCfg) (s : Sys) (p now : Nat) (a : SysArgs) (hf : c.feat.shutdown = true)
    (hn : a.nargs ≠ 0) : coreSyscall c s p now 707 a = .reject .einval := by
  show feature c.feat.shutdown (if a.nargs ≠ 0 then .reject .einval else .call .shutdown []) = _
  rw [hf, if_pos hn]; rfl

/-! ## C23: I/O ports -/

/-- The I/O access of a call, if it makes one. -/
def ioOf : SysOut → Option Nat
  | .inb q => some q
  | .outb q _ => some q
  | _ => none

theorem feature_io {b : Bool} {o : SysOut} {q : Nat} (h : ioOf (feature b o) = some q) : ioOf o = some q := by
  cases b
  · cases h
  · exact h

theorem guard_io {b : Bool} {o : SysOut} {q : Nat} (h : ioOf (guard b o) = some q) : ioOf o = some q := by
  cases b
  · cases h
  · exact h

/-- C23: a call makes an access to an I/O port only if it is one of the two I/O calls, the port is the one named by
the first argument (all 32 bits of it), and it lies in the interval of the caller. -/
theorem C23_access {c : SysCfg} {s : Sys} {p now num q : Nat} {a : SysArgs} (h16 : s.ioMax p < 65536)
    (h : ioOf (coreSyscall c s p now num a) = some q) :
    (num = 501 ∨ num = 502) ∧ q = a.a1 ∧ s.ioMin p ≤ q ∧ q ≤ s.ioMax p := by
  unfold coreSyscall at h
  dsimp only at h
  split at h
  all_goals first
    | (replace h := feature_io h; cases h; done)
    | (replace h := feature_io h; replace h := guard_io h; cases h; done)
    | (replace h := feature_io h; replace h := guard_io h; replace h := guard_io h; cases h; done)
    | (replace h := guard_io h; cases h; done)
    | (replace h := guard_io h; replace h := guard_io h; cases h; done)
    | (cases h; done)
    | replace h := feature_io h
  · split at h
    · split at h <;> cases h
    · replace h := guard_io h; cases h
  · split at h
    · cases h
    · cases h; refine ⟨Or.inl rfl, ?_⟩; omega
  · split at h
    · cases h
    · cases h; refine ⟨Or.inr rfl, ?_⟩; omega
  · split at h <;> cases h

/-- C23, refusal: outside the interval the call returns `EPERM`; inside it the access is made. -/
theorem C23_refused (c : SysCfg) (s : Sys) (p now num : Nat) (a : SysArgs) (hf : c.feat.io = true)
    (hn : num = 501 ∨ num = 502) (h16 : s.ioMax p < 65536) :
    (¬ (s.ioMin p ≤ a.a1 ∧ a.a1 ≤ s.ioMax p) → coreSyscall c s p now num a = .reject .eperm) ∧
    (s.ioMin p ≤ a.a1 ∧ a.a1 ≤ s.ioMax p → ioOf (coreSyscall c s p now num a) = some a.a1) := by
  rcases hn with rfl | rfl
  · have e : coreSyscall c s p now 501 a = feature c.feat.io
        (if a.a1 < s.ioMin p ∨ a.a1 > s.ioMax p then .reject .eperm else .inb (a.a1 % 65536)) := rfl
    rw [e, hf]
    constructor
    · intro h; rw [if_pos (by omega)]; rfl
    · intro h; rw [if_neg (by omega), Nat.mod_eq_of_lt (by omega)]; rfl
  · have e : coreSyscall c s p now 502 a = feature c.feat.io
        (if a.a1 < s.ioMin p ∨ a.a1 > s.ioMax p then .reject .eperm
         else .outb (a.a1 % 65536) (a.a2 % 256)) := rfl
    rw [e, hf]
    constructor
    · intro h; rw [if_pos (by omega)]; rfl
    · intro h; rw [if_neg (by omega), Nat.mod_eq_of_lt (by omega)]; rfl

/-- A call of the service that changes I/O intervals. -/
def IsPci : SysOut → Prop
  | .call (.pciRegister ..) _ => True
  | _ => False

theorem feature_pci {b : Bool} {o : SysOut} (h : IsPci (feature b o)) : IsPci o := by
  cases b
  · cases h
  · exact h

theorem guard_pci {b : Bool} {o : SysOut} (h : IsPci (guard b o)) : IsPci o := by
  cases b
  · cases h
  · exact h

theorem pci_only {c : SysCfg} {s : Sys} {p now num : Nat} {a : SysArgs} (hp : c.feat.pci = false) :
    ¬ IsPci (coreSyscall c s p now num a) := by
  intro h
  unfold coreSyscall at h
  dsimp only at h
  split at h
  all_goals first
    | (rw [hp] at h; cases h; done)
    | (replace h := feature_pci h; cases h; done)
    | (replace h := feature_pci h; replace h := guard_pci h; cases h; done)
    | (replace h := feature_pci h; replace h := guard_pci h; replace h := guard_pci h; cases h; done)
    | (replace h := guard_pci h; cases h; done)
    | (replace h := guard_pci h; replace h := guard_pci h; cases h; done)
    | (cases h; done)
    | replace h := feature_pci h
  · split at h
    · split at h <;> cases h
    · replace h := guard_pci h; cases h
  · split at h <;> cases h
  · split at h <;> cases h
  · split at h <;> cases h

theorem perform_io {c : SysCfg} {s s' : Sys} {proc now p : Nat} {o : SysOut} (ho : ¬ IsPci o)
    (h : perform c s proc now p o = some s') : s'.ioMin = s.ioMin ∧ s'.ioMax = s.ioMax := by
  unfold perform at h
  split at h
  all_goals first
    | (cases h; done)
    | (cases h; exact ⟨rfl, rfl⟩)
    | (rw [Option.map_eq_some_iff] at h; obtain ⟨_, _, rfl⟩ := h; exact ⟨rfl, rfl⟩)
    | (exact absurd trivial ho)

/-- C23 over histories: in a kernel without PCI_REGISTER, through every history of system calls of all
partitions, each access to an I/O port is in the interval configured for the partition that made the call. -/
theorem C23_history_partial {c : SysCfg} (hp : c.feat.pci = false) : ∀ (es : List SysEv) (s0 s : Sys)
    (os : List SysOut), (∀ p, s0.ioMax p < 65536) → runCalls c s0 es = some (s, os) →
    List.Forall₂ (fun e o => ∀ q, ioOf o = some q → s0.ioMin e.part ≤ q ∧ q ≤ s0.ioMax e.part) es os := by
  intro es
  induction es with
  | nil => intro s0 s os _ h; cases h; exact .nil
  | cons e es ih =>
    intro s0 s os h16 h
    unfold runCalls at h
    dsimp only at h
    split at h
    · cases h
    rename_i s1 h1
    split at h
    · cases h
    rename_i os2 h2
    cases h
    have hnp : ¬ IsPci (gate c { s0 with mem := e.mem } e.part e.now e.num e.ebx) := by
      unfold gate; split
      · exact pci_only hp
      · exact fun h => h
    have hio := perform_io hnp h1
    refine .cons ?_ ?_
    · intro q hq
      unfold gate at hq
      split at hq
      · exact (C23_access (s := { s0 with mem := e.mem }) (h16 e.part) hq).2.2
      · cases hq
    · have := ih s1 s os2 (fun p => by rw [hio.2]; exact h16 p) h2
      rw [hio.1, hio.2] at this
      exact this

/-! ## Concrete calls -/

section Examples

/-- Two partitions of 4096 bytes at 0x10000 and 0x20000; a PCI device with its ports at 0xC000. -/
def exSysCfg : SysCfg where
  k := exCfg
  p := Ports.exPorts
  base := fun p => 65536 * (p + 1)
  maxName := 1
  feat := {}
  act := noAction
  pciBar := fun v d => if v = 0x10ec ∧ d = 0x8029 then some 0xC001 else none

theorem exSysCfg_ok : CfgOk exSysCfg where
  room := by intro p hp; have : p < 2 := hp; simp [exSysCfg, Ports.exPorts, U32]; omega
  names := by intro i _; simp [exSysCfg, Ports.exPorts]

/-- The state after boot, the creation of the ports of `ops`, and messages of `rtl` bytes waiting in the card.
Partition 0 may use the I/O ports 0x60 to 0x64, partition 1 none. -/
def exSys (ops : List (Nat × PortOp)) (rtl : Nat) : Option Sys :=
  match Kernel.boot exCfg, Ports.run Ports.exPorts ops Ports.init with
  | some k, some (ps, _) =>
    some { k := k, ports := ps, mem := fun _ => 0, rtlLen := fun _ => rtl
           locks := fun _ => ⟨⟨0, 0, true, fun _ => 0⟩, ⟨0, 0, true, fun _ => 0⟩, .standard, .fifo, .other 0, false, 0, 0⟩
           ioMin := fun p => if p = 0 then 0x60 else 1
           ioMax := fun p => if p = 0 then 0x64 else 0 }
  | _, _ => none

/-- The bytes of words placed at addresses relative to the base of partition `p`. -/
def exMem (p : Nat) (l : List (Nat × Nat)) : Nat → Nat := fun a =>
  match l.find? fun x => 65536 * (p + 1) + x.1 ≤ a && a < 65536 * (p + 1) + x.1 + 4 with
  | some x => x.2 / 256 ^ (a - (65536 * (p + 1) + x.1)) % 256
  | none => 0

/-- A call of partition `p` with its argument block at the address 64; `l` is the rest of its memory. -/
def exCall (p num : Nat) (a1 a2 a3 a4 a5 : Nat) (l : List (Nat × Nat) := []) (nargs : Nat := 5) : SysEv :=
  { proc := 0, now := 10, part := p, num := num, ebx := 64,
    mem := exMem p ([(64, nargs), (68, a1), (72, a2), (76, a3), (80, a4), (84, a5)] ++ l) }

/-- What the calls of a history do. -/
def exOuts (ops : List (Nat × PortOp)) (rtl : Nat) (es : List SysEv) : Option (List SysOut) :=
  (exSys ops rtl).bind fun s => (runCalls exSysCfg s es).map Prod.snd

/-- Decidable form of `Contained`. -/
def containedB (c : SysCfg) (p : Nat) : SysOut → Bool
  | .call _ acc => acc.all fun x =>
      decide (x.len = 0 ∨ c.base p ≤ x.addr ∧ x.addr + x.len ≤ c.base p + c.p.psize p)
  | .nullDeref => false
  | _ => true

theorem containedB_iff {c : SysCfg} {p : Nat} {o : SysOut} : containedB c p o = true ↔ Contained c p o := by
  cases o with
  | call v acc =>
    simp only [containedB, Contained, List.all_eq_true, decide_eq_true_eq, Own]
    constructor
    · intro h x hx i hi; have := h x hx; omega
    · intro h x hx
      by_cases h0 : x.len = 0
      · exact Or.inl h0
      · have h1 := h x hx 0 (by omega); have h2 := h x hx (x.len - 1) (by omega); omega
  | _ => simp [containedB, Contained]

/-- The history runs from boot, and its last call leaves the memory of partition `p`. -/
def Escapes (p : Nat) (ops : List (Nat × PortOp)) (rtl : Nat) (es : List SysEv) : Prop :=
  ∃ os o, exOuts ops rtl es = some (os ++ [o]) ∧ ¬ Contained exSysCfg p o

theorem escapes_of {p : Nat} {ops : List (Nat × PortOp)} {rtl : Nat} {es : List SysEv}
    (h : ((exOuts ops rtl es).bind (fun os => os.getLast?.map (containedB exSysCfg p))) = some false) :
    Escapes p ops rtl es := by
  rw [Option.bind_eq_some_iff] at h
  obtain ⟨os, h1, h2⟩ := h
  rw [Option.map_eq_some_iff] at h2
  obtain ⟨o, h3, h4⟩ := h2
  rw [List.getLast?_eq_some_iff] at h3
  obtain ⟨ys, rfl⟩ := h3
  exact ⟨ys, o, h1, fun hc => by rw [← containedB_iff, h4] at hc; cases hc⟩

/-- C21 is false of the code: GETCHAR at the end of the memory writes the first byte behind it. -/
theorem C21_getchar_violated : Escapes 0 [] 0 [exCall 0 11 4096 0 0 0 0] := escapes_of (by decide +kernel)

/-- C21 is false of the code: a text that ends with the escape character (at the end of the memory) makes the
console read the bytes behind it. -/
theorem C21_conswrite_violated : Escapes 0 [] 0 [exCall 0 10 4092 4 0 0 0 [(4092, 0xFF414141)]] :=
  escapes_of (by decide +kernel)

/-- How far the console reads for a text whose only escape character is its last byte: one byte beyond the text, two if that byte asks for a
colour or a position. -/
theorem C21_conswrite_exact (mem : Nat → Nat) : ∀ (n a : Nat), (∀ i, i < n → mem (a + i) ≠ 255) → mem (a + n) = 255 →
    consReads mem a (n + 1) = (n + 1) + (if mem (a + n + 1) = 2 ∨ mem (a + n + 1) = 3 ∨ mem (a + n + 1) = 4 then 2 else 1) := by
  intro n
  induction n with
  | zero =>
    intro a _ h
    have h' : mem a = ESC := h
    unfold consReads
    rw [if_pos h']
    simp only [Nat.add_zero]
    split <;> rfl
  | succ n ih =>
    intro a hn h
    have h0 : ¬ mem a = ESC := hn 0 (by omega)
    have step : consReads mem a (n + 2) = 1 + consReads mem (a + 1) (n + 1) := by
      cases n with
      | zero => rw [consReads.eq_3, if_neg h0]
      | succ m => rw [consReads.eq_4, if_neg h0]
    have e1 : ∀ i, a + 1 + i = a + (i + 1) := by intro i; omega
    rw [step, ih (a + 1) (fun i hi => by rw [e1]; exact hn (i + 1) (by omega)) (by rw [e1]; exact h)]
    rw [show a + 1 + n + 1 = a + (n + 1) + 1 by omega]
    split <;> omega

/-- Such a text of four bytes. -/
example : consReads (fun i => if i = 13 then 255 else if i = 14 then 3 else 65) 10 4 = 6 := by decide

/-- C21 is false of the code: NODE_MAC_ADDR checks four bytes and writes six. -/
theorem C21_mac_violated : Escapes 0 [] 0 [exCall 0 120 128 4092 0 0 0] := escapes_of (by decide +kernel)

/-- C21 is false of the code: partition 1 creates a sampling port of 3 bytes; the check of SAMPLING_READ takes the
size of port 1 (never created: 0), so that the message is written behind its memory. -/
theorem C21_sampling_violated :
    Escapes 1 [(3, .samplingCreate 0 [2] 3 DIR_OUT 50), (4, .samplingCreate 1 [3] 3 DIR_IN 50),
        (5, .samplingWrite 0 2 [7, 8, 9]), (6, .flushPartition 0)] 0
      [exCall 1 102 3 4096 128 132 0] := escapes_of (by decide +kernel)

/-- C21 is false of the code: a lock operation at 16 bytes from the end of the memory reads its timeout behind it.
The lock object is created first (a mutex). -/
theorem C21_lock_violated :
    Escapes 0 [] 0 [exCall 0 201 128 256 0 0 0 [(256, 1), (260, 0), (264, 0)],
      exCall 0 202 0 4080 0 0 0 [(4080, 1), (4084, 1), (4088, 1)]] := escapes_of (by decide +kernel)

/-- C21 is false of the code: a lock operation with a null pointer is passed to the service, which reads at
address 0 of the kernel (nothing else runs then: `nullDeref` has no successor). -/
theorem C21_null_violated :
    (exSys [] 0).map (fun s =>
      let e := exCall 0 202 0 0 0 0 0
      match gate exSysCfg { s with mem := e.mem } 0 10 202 64 with | .nullDeref => true | _ => false) = some true := by
  decide +kernel

/-- C21 is false of the code: the network card calls check four bytes, and copy up to the length given. -/
theorem C21_rtl_violated : Escapes 0 [] 20 [exCall 0 701 0 4092 20 0 0] ∧ Escapes 0 [] 0 [exCall 0 703 0 4092 20 0 0] :=
  ⟨escapes_of (by decide +kernel), escapes_of (by decide +kernel)⟩

/-- `C21_partial` applies to calls that touch memory: a write to a queueing port. -/
example : ¬ Uncovered exSysCfg ((exSys Ports.exCreate 0).get (by decide +kernel)) 0 111 { a1 := 0, a2 := 128, a3 := 3 } := by
  simp [Uncovered]

/-- Its accesses are not empty, and inside. -/
example : (exOuts Ports.exCreate 0 [exCall 0 111 0 128 3 0 0]).map (List.map fun o =>
    match o with | .call _ acc => acc | _ => []) = some [[⟨false, 65664, 3⟩]] := by decide +kernel

/-- C22 is false of the code for argument counts: RESUME with a count of 0, and of 77, runs like with 1. -/
theorem C22_count_violated :
    (exOuts [] 0 [exCall 0 55 1 0 0 0 0 [] 0, exCall 0 55 1 0 0 0 0 [] 77]).map (List.map fun o =>
      match o with | .call (.kcall (.stopThread i)) _ => some i | _ => none) = some [some 1, some 1] := by
  decide +kernel

/-- `C22_unknown` applies: number 9999 is not offered, and the call raises an illegal-request error. -/
example : offered exSysCfg.feat 9999 = false ∧
    ((exSys [] 0).bind fun s => (runCalls exSysCfg s [exCall 0 9999 0 0 0 0 0])).map (fun r => r.2.map retCode) =
      some [some .einval] := by decide +kernel

/-- I/O: partition 0 reaches port 0x60, not 0x3F8 nor 0x10060 (which is 0x60 in its low 16 bits). -/
example : (exOuts [] 0 [exCall 0 501 0x60 0 0 0 0, exCall 0 501 0x3F8 0 0 0 0, exCall 0 502 0x10060 1 0 0 0]).map
    (List.map fun o => (ioOf o, retCode o)) =
      some [(some 0x60, none), (none, some .eperm), (none, some .eperm)] := by decide +kernel

/-- C23 is false of the code with PCI_REGISTER: partition 1, which has no I/O port, names a device on the bus and a
range of its choice (0x3FFF), and then reads a port far behind those of the device. -/
theorem C23_pci_violated :
    (exOuts [] 0 [exCall 1 501 0xF000 0 0 0 0, exCall 1 601 128 0 0 0 0 [(132, 0x10ec0000), (136, 0x8029), (140, 0x3FFF)],
      exCall 1 501 0xF000 0 0 0 0]).map (List.map fun o => (ioOf o, retCode o)) =
      some [(none, some .eperm), (none, none), (some 0xF000, none)] := by decide +kernel

/-- The three hold of calls that are made: a send, and a lock operation without attributes, in range and out of range. -/
example : (exOuts Ports.exCreate 0 [exCall 0 111 0 128 3 0 0, exCall 1 102 2 256 128 132 0, exCall 0 202 200 0 0 0 0]).map (List.map fun o =>
    match o with | .call _ acc => (acc.map Access.write, true) | .reject e => ([], decide (e = Errno.einval)) | _ => ([], false)) =
      some [([false], true), ([true, true, true], true), ([], true)] := by decide +kernel

end Examples
/-- C21, exactly when a null pointer is followed: a lock operation without attributes is refused if the lock object is not one of the
caller's, and otherwise read through address 0. -/
theorem C21_null_exact (c : SysCfg) (s : Sys) (p now : Nat) (a : SysArgs) (hf : c.feat.lockobj = true) (h0 : a.a2 = 0) :
    coreSyscall c s p now 202 a =
      if (s.k.P p).lockLow ≤ a.a1 % 256 ∧ a.a1 % 256 < (s.k.P p).lockHigh then .nullDeref else .reject .einval := by
  show feature c.feat.lockobj (if a.a2 = 0 then _ else _) = _
  rw [hf, if_pos h0]
  unfold feature
  rw [if_pos rfl]
  split
  · rw [if_neg (by omega)]
  · rw [if_pos (by omega)]

/-- The calls by which the kernel only reads the memory of the caller. -/
def reading : List Nat := [10, 104, 111, 202, 303, 703]

theorem guard_reads {b : Bool} {o : SysOut} (h : ∀ sv acc, o = .call sv acc → ∀ x ∈ acc, x.write = false) :
    ∀ sv acc, guard b o = .call sv acc → ∀ x ∈ acc, x.write = false := by
  intro sv acc e
  unfold guard at e
  split at e
  · exact h sv acc e
  · exact absurd e (by simp)

theorem feature_reads {b : Bool} {o : SysOut} (h : ∀ sv acc, o = .call sv acc → ∀ x ∈ acc, x.write = false) :
    ∀ sv acc, feature b o = .call sv acc → ∀ x ∈ acc, x.write = false := by
  intro sv acc e
  unfold feature at e
  split at e
  · exact h sv acc e
  · exact absurd e (by simp)

/-- C21, calls that send: writing to the console or to a port, raising an error, and operations on locks do not change the caller's memory. -/
theorem C21_reading {c : SysCfg} {s : Sys} {p now num : Nat} {a : SysArgs} (hn : num ∈ reading) {sv : Service} {acc : List Access}
    (h : coreSyscall c s p now num a = .call sv acc) : ∀ x ∈ acc, x.write = false := by
  have one : ∀ (sv : Service) (y : Access), y.write = false → ∀ sv' acc, SysOut.call sv [y] = .call sv' acc → ∀ x ∈ acc, x.write = false := by
    intro sv y hy sv' acc e x hx
    cases e
    rw [List.mem_singleton.1 hx]; exact hy
  simp only [reading, List.mem_cons, List.not_mem_nil, or_false] at hn
  rcases hn with rfl | rfl | rfl | rfl | rfl | rfl
  · exact feature_reads (guard_reads (one _ _ rfl)) sv acc h
  · exact feature_reads (guard_reads (one _ _ rfl)) sv acc h
  · exact feature_reads (guard_reads (one _ _ rfl)) sv acc h
  · refine feature_reads ?_ sv acc h
    intro sv acc e
    split at e
    · split at e <;> exact absurd e (by simp)
    · refine guard_reads ?_ sv acc e
      intro sv acc e
      cases e
      unfold lockOpAcc
      intro x hx
      split at hx
      · exact absurd hx (by simp)
      · split at hx
        · rw [List.mem_singleton.1 hx]
        · split at hx <;> simp only [List.mem_cons, List.not_mem_nil, or_false] at hx <;> rcases hx with rfl | rfl | rfl | rfl <;> rfl
  · exact guard_reads (one _ _ rfl) sv acc h
  · exact feature_reads (guard_reads (one _ _ rfl)) sv acc h

/-- C21, calls that receive: what a receive call hands over is written to the caller's buffer, in full, and so is its length. -/
theorem C21_receive_writes {c : SysCfg} {s : Sys} {p now : Nat} {a : SysArgs} {sv : Service} {acc : List Access}
    (h : coreSyscall c s p now 112 a = .call sv acc) {s' : Ports} {e : PRes} {bs : List Nat}
    (hr : Ports.queueingReceive c.p s.ports now p (a.a1 % 256) a.a3 a.a2 = some (s', e, bs)) :
    ⟨true, phys c p a.a4, bs.length⟩ ∈ acc ∧ ⟨true, phys c p a.a5, 4⟩ ∈ acc ∧ ∀ x ∈ acc, x.write = true := by
  have e : ∀ (o : SysOut), feature c.feat.queueing (guard (chk c p a.a4 a.a3) (guard (chk c p a.a5 4) o)) = .call sv acc → o = .call sv acc := by
    intro o h
    unfold feature guard at h
    split at h
    · split at h
      · split at h
        · exact h
        · exact absurd h (by simp)
      · exact absurd h (by simp)
    · exact absurd h (by simp)
  have h2 := e _ h
  cases h2
  unfold recvAcc
  simp only [hr]
  refine ⟨by simp, by simp, fun x hx => ?_⟩
  split at hx <;> simp only [List.mem_cons, List.mem_append, List.not_mem_nil, or_false] at hx
  · rcases hx with (rfl | rfl) | rfl <;> rfl
  · rcases hx with rfl | rfl <;> rfl

/-- C21, as for receiving: what is read from a sampling port is written to the buffer of the caller, and the length and the validity to theirs. -/
theorem C21_read_writes {c : SysCfg} {s : Sys} {p now : Nat} {a : SysArgs} {sv : Service} {acc : List Access}
    (h : coreSyscall c s p now 102 a = .call sv acc) {s' : Ports} {e : PRes} {out : Ports.ReadOut}
    (hr : Ports.samplingRead c.p s.ports now p (a.a1 % 256) a.a2 = some (s', e, out)) :
    ⟨true, phys c p a.a2, out.bytes.length⟩ ∈ acc ∧ ⟨true, phys c p a.a3, 4⟩ ∈ acc ∧ ⟨true, phys c p a.a4, 4⟩ ∈ acc ∧ ∀ x ∈ acc, x.write = true := by
  have e : ∀ (o : SysOut), feature c.feat.sampling (guard (chk c p a.a3 4) (guard (chk c p a.a4 4) o)) = .call sv acc → o = .call sv acc := by
    intro o h
    unfold feature guard at h
    split at h
    · split at h
      · split at h
        · exact h
        · exact absurd h (by simp)
      · exact absurd h (by simp)
    · exact absurd h (by simp)
  have h2 := e _ h
  cases h2
  unfold readAcc
  simp only [hr]
  refine ⟨by simp, by simp, by simp, fun x hx => ?_⟩
  simp only [List.mem_cons, List.not_mem_nil, or_false] at hx
  rcases hx with rfl | rfl | rfl <;> rfl

end Sys
end Pok
