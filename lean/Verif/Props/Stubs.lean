import Mathlib.Tactic.Common
import Verif.Spec.Stubs
import Verif.Props.Syscall
import Verif.Props.Timing

/-!
# The library calls reach the kernel service that they ask for (C75)
-/

namespace Pok
namespace Stub
open StubSpec SysSpec Sys

theorem le_length (n v : Nat) : (le n v).length = n := by
  induction n generalizing v with
  | zero => rfl
  | succ n ih => simp [le, ih]

theorem le_get (n v i : Nat) (h : i < n) : (le n v)[i]? = some (v / 256 ^ i % 256) := by
  induction n generalizing v i with
  | zero => omega
  | succ n ih =>
    cases i with
    | zero => simp [le]
    | succ i =>
      simp only [le, List.getElem?_cons_succ]
      rw [ih _ _ (by omega), Nat.div_div_eq_div_mul, Nat.pow_succ, Nat.mul_comm]

theorem put_append (m : Nat → Nat) (a : Nat) (xs ys : List Nat) : put m a (xs ++ ys) = put (put m a xs) (a + xs.length) ys := by
  induction xs generalizing m a with
  | nil => simp [put]
  | cons x xs ih => simp only [List.cons_append, put, ih, List.length_cons]; congr 1; omega

theorem put_out (m : Nat → Nat) (a : Nat) (bs : List Nat) (x : Nat) (h : x < a ∨ a + bs.length ≤ x) : put m a bs x = m x := by
  induction bs generalizing m a with
  | nil => rfl
  | cons b bs ih =>
    simp only [List.length_cons] at h
    rw [put, ih _ _ (by omega), upd_other _ _ (by omega)]

theorem put_in (m : Nat → Nat) (a : Nat) (bs : List Nat) (i : Nat) (h : i < bs.length) : put m a bs (a + i) = bs[i] := by
  induction bs generalizing m a i with
  | nil => simp at h
  | cons b bs ih =>
    cases i with
    | zero => rw [put, put_out _ _ _ _ (by omega)]; simp
    | succ i =>
      simp only [List.length_cons] at h
      rw [put, show a + (i + 1) = (a + 1) + i by omega, ih _ _ _ (by omega)]; simp

theorem word_int (m : Nat → Nat) (a n v : Nat) (h : ∀ i, i < n → m (a + i) = v / 256 ^ i % 256) : word m a n = v % 256 ^ n := by
  induction n generalizing a v with
  | zero => simp [word, Nat.mod_one]
  | succ n ih =>
    have h0 := h 0 (by omega)
    simp only [Nat.pow_zero, Nat.div_one, Nat.add_zero] at h0
    have h1 : word m (a + 1) n = v / 256 % 256 ^ n := by
      apply ih
      intro i hi
      have := h (i + 1) (by omega)
      rw [show a + 1 + i = a + (i + 1) by omega, this, Nat.div_div_eq_div_mul, Nat.pow_succ, Nat.mul_comm]
    rw [word, h0, h1, Nat.mod_mod, Nat.pow_succ, Nat.mul_comm (256 ^ n), Nat.mod_mul]

theorem word_congr (f g : Nat → Nat) (a b n : Nat) (h : ∀ i, i < n → f (a + i) = g (b + i)) : word f a n = word g b n := by
  induction n generalizing a b with
  | zero => rfl
  | succ n ih =>
    have h0 := h 0 (by omega)
    simp only [Nat.add_zero] at h0
    rw [word, word, h0, ih (a + 1) (b + 1)]
    intro i hi
    have := h (i + 1) (by omega)
    rw [show a + 1 + i = a + (i + 1) by omega, show b + 1 + i = b + (i + 1) by omega, this]

theorem word_put_same (m : Nat → Nat) (a n v : Nat) : word (put m a (le n v)) a n = v % 256 ^ n := by
  apply word_int
  intro i hi
  have hl : i < (le n v).length := by rw [le_length]; exact hi
  rw [put_in _ _ _ _ hl]
  have := le_get n v i hi
  rw [List.getElem?_eq_getElem hl] at this
  exact Option.some.inj this

theorem word_put_other (m : Nat → Nat) (a n v b k : Nat) (h : b + k ≤ a ∨ a + n ≤ b) : word (put m a (le n v)) b k = word m b k := by
  apply word_congr
  intro i hi
  exact put_out _ _ _ _ (by rw [le_length]; omega)

/-- The memory at the call, field by field. -/
theorem doSyscall_mem (m : Nat → Nat) (blk sid n a1 a2 a3 a4 a5 : Nat) :
    (doSyscall m blk sid n a1 a2 a3 a4 a5).mem =
      put (put (put (put (put (put m blk (le 4 n)) (blk + 4) (le 4 a1)) (blk + 8) (le 4 a2)) (blk + 12) (le 4 a3)) (blk + 16) (le 4 a4))
        (blk + 20) (le 4 a5) := by
  simp only [doSyscall, put_append, List.length_append, le_length]

theorem doSyscall_args (m : Nat → Nat) (blk sid n a1 a2 a3 a4 a5 : Nat) :
    argsAt (doSyscall m blk sid n a1 a2 a3 a4 a5).mem blk = ⟨n % U32, a1 % U32, a2 % U32, a3 % U32, a4 % U32, a5 % U32⟩ := by
  rw [doSyscall_mem, argsAt]
  have h4 : (256 : Nat) ^ 4 = U32 := rfl
  congr 1
  · rw [word_put_other _ _ _ _ _ _ (by omega), word_put_other _ _ _ _ _ _ (by omega), word_put_other _ _ _ _ _ _ (by omega),
      word_put_other _ _ _ _ _ _ (by omega), word_put_other _ _ _ _ _ _ (by omega), word_put_same, h4]
  · rw [word_put_other _ _ _ _ _ _ (by omega), word_put_other _ _ _ _ _ _ (by omega), word_put_other _ _ _ _ _ _ (by omega),
      word_put_other _ _ _ _ _ _ (by omega), word_put_same, h4]
  · rw [word_put_other _ _ _ _ _ _ (by omega), word_put_other _ _ _ _ _ _ (by omega), word_put_other _ _ _ _ _ _ (by omega),
      word_put_same, h4]
  · rw [word_put_other _ _ _ _ _ _ (by omega), word_put_other _ _ _ _ _ _ (by omega), word_put_same, h4]
  · rw [word_put_other _ _ _ _ _ _ (by omega), word_put_same, h4]
  · rw [word_put_same, h4]

/-- Outside the block, memory is as before the call. -/
theorem doSyscall_out (m : Nat → Nat) (blk sid n a1 a2 a3 a4 a5 x : Nat) (h : x < blk ∨ blk + 24 ≤ x) :
    (doSyscall m blk sid n a1 a2 a3 a4 a5).mem x = m x := by
  unfold doSyscall
  exact put_out _ _ _ _ (by simp only [List.length_append, le_length]; omega)

/-- The physical memory of the machine shows the memory `m` of the partition. -/
def Shows (c : SysCfg) (s : Sys) (part : Nat) (m : Nat → Nat) : Prop := ∀ x, x < c.p.psize part → s.mem (c.base part + x) = m x

theorem phys_eq {c : SysCfg} (hc : CfgOk c) {part a : Nat} (hp : part < c.p.nbParts) (h : a < c.p.psize part) :
    phys c part a = c.base part + a := by
  have := hc.room part hp
  unfold phys; rw [Nat.mod_eq_of_lt (by omega)]; omega

theorem word_shows {c : SysCfg} {s : Sys} {part : Nat} {m : Nat → Nat} (hs : Shows c s part m) (a n : Nat) (h : a + n ≤ c.p.psize part) :
    word s.mem (c.base part + a) n = word m a n := by
  apply word_congr
  intro i hi
  rw [Nat.add_assoc, hs _ (by omega)]

theorem chk_true {c : SysCfg} {part a n : Nat} (hp : part < c.p.nbParts) (h : a + n ≤ c.p.psize part) : chk c part a n = true := by
  rw [chk, checkPtr_iff]; exact ⟨hp, h⟩

theorem gate_doSyscall {c : SysCfg} (hc : CfgOk c) {s : Sys} {part blk : Nat} (now sid n a1 a2 a3 a4 a5 : Nat) (m : Nat → Nat)
    (hp : part < c.p.nbParts) (hb : blk + 24 ≤ c.p.psize part) (hsid : sid < U32)
    (hs : Shows c s part (doSyscall m blk sid n a1 a2 a3 a4 a5).mem) :
    gate c s part now (doSyscall m blk sid n a1 a2 a3 a4 a5).eax (doSyscall m blk sid n a1 a2 a3 a4 a5).ebx =
      coreSyscall c s part now sid ⟨n % U32, a1 % U32, a2 % U32, a3 % U32, a4 % U32, a5 % U32⟩ := by
  have hroom := hc.room part hp
  have e1 : (doSyscall m blk sid n a1 a2 a3 a4 a5).eax = sid := Nat.mod_eq_of_lt hsid
  have e2 : (doSyscall m blk sid n a1 a2 a3 a4 a5).ebx = blk := Nat.mod_eq_of_lt (by omega)
  rw [e1, e2]
  unfold gate
  have hch : Ports.checkPtr c.p part blk 24 = true := (checkPtr_iff _ _ _ _).2 ⟨hp, hb⟩
  rw [if_pos hch, phys_eq hc hp (by omega)]
  have : argsAt s.mem (c.base part + blk) = argsAt (doSyscall m blk sid n a1 a2 a3 a4 a5).mem blk := by
    unfold argsAt
    simp only [Nat.add_assoc]
    rw [word_shows hs blk 4 (by omega), word_shows hs (blk + 4) 4 (by omega), word_shows hs (blk + 8) 4 (by omega),
      word_shows hs (blk + 12) 4 (by omega), word_shows hs (blk + 16) 4 (by omega), word_shows hs (blk + 20) 4 (by omega)]
  rw [this, doSyscall_args]

theorem word_after {c : SysCfg} {s : Sys} {part : Nat} {m : Nat → Nat} {blk sid n a1 a2 a3 a4 a5 : Nat}
    (hs : Shows c s part (doSyscall m blk sid n a1 a2 a3 a4 a5).mem) (a k : Nat) (h : a + k ≤ c.p.psize part) (hd : Apart a k blk 24) :
    word s.mem (c.base part + a) k = word m a k := by
  rw [word_shows hs a k h]
  apply word_congr
  intro i hi
  exact doSyscall_out _ _ _ _ _ _ _ _ _ _ (by unfold Apart at hd; omega)

theorem bytes_after {c : SysCfg} {s : Sys} {part : Nat} {m : Nat → Nat} {blk sid n a1 a2 a3 a4 a5 : Nat}
    (hs : Shows c s part (doSyscall m blk sid n a1 a2 a3 a4 a5).mem) (a k : Nat) (h : a + k ≤ c.p.psize part) (hd : Apart a k blk 24) :
    bytes s.mem (c.base part + a) k = message m a k := by
  unfold bytes message
  apply List.map_congr_left
  intro i hi
  have hi := List.mem_range.1 hi
  rw [Nat.add_assoc, hs _ (by omega)]
  exact doSyscall_out _ _ _ _ _ _ _ _ _ _ (by unfold Apart at hd; omega)

theorem cString_eq (f m : Nat → Nat) (b a : Nat) (str : List Nat) (n : Nat) (h : HoldsString m a str) (hn : str.length < n)
    (hf : ∀ i, i < n → f (b + i) = m (a + i)) : cString f b n = str := by
  induction str generalizing b a n with
  | nil =>
    cases n with
    | zero => simp at hn
    | succ n =>
      have h0 := h.2
      simp only [List.length_nil, Nat.add_zero] at h0
      have := hf 0 (by omega)
      simp only [Nat.add_zero] at this
      rw [cString, if_pos (by rw [this, h0])]
  | cons x xs ih =>
    simp only [List.length_cons] at hn
    cases n with
    | zero => omega
    | succ n =>
      have hx := h.1 0 (by simp)
      simp only [Nat.add_zero, List.getElem_cons_zero] at hx
      have h0 := hf 0 (by omega)
      simp only [Nat.add_zero] at h0
      rw [cString, if_neg (by rw [h0, hx.1]; exact hx.2), h0, hx.1]
      rw [ih (b + 1) (a + 1) n ⟨?_, ?_⟩ (by omega) ?_]
      · intro i hi
        have := h.1 (i + 1) (by simp; omega)
        rw [show a + 1 + i = a + (i + 1) by omega]
        simpa using this
      · have := h.2
        simp only [List.length_cons] at this
        rw [← this]; congr 1; omega
      · intro i hi
        have := hf (i + 1) (by omega)
        rw [show a + 1 + i = a + (i + 1) by omega, show b + 1 + i = b + (i + 1) by omega, this]

theorem cString_after {c : SysCfg} {s : Sys} {part : Nat} {m : Nat → Nat} {blk sid n a1 a2 a3 a4 a5 : Nat}
    (hs : Shows c s part (doSyscall m blk sid n a1 a2 a3 a4 a5).mem) (a k : Nat) (str : List Nat) (hstr : HoldsString m a str)
    (hl : str.length < k) (h : a + k ≤ c.p.psize part) (hd : Apart a k blk 24) :
    cString s.mem (c.base part + a) k = str := by
  refine cString_eq _ m _ a _ _ hstr hl ?_
  intro i hi
  rw [Nat.add_assoc, hs _ (by omega)]
  exact doSyscall_out _ _ _ _ _ _ _ _ _ _ (by unfold Apart at hd; omega)

theorem int_word {m : Nat → Nat} {a n v : Nat} (h : HoldsInt m a n v) : word m a n = v := by
  rw [word_int m a n v h.2, Nat.mod_eq_of_lt h.1]

theorem guard_true (o : SysOut) : Sys.guard true o = o := rfl

theorem gate_lockOp {c : SysCfg} (hc : CfgOk c) {s : Sys} {part blk l : Nat} (now id : Nat) (m : Nat → Nat) (op kind t : Nat)
    (hp : part < c.p.nbParts) (hb : blk + 24 ≤ c.p.psize part) (hl : l + 20 ≤ c.p.psize part) (h0 : 0 < l) (hd : Apart blk 24 l 20)
    (hf : c.feat.lockobj = true) (hs : Shows c s part (syscall2 m blk 202 id l).mem)
    (ho : word m l 4 = op) (hk : word m (l + 4) 4 = kind) (ht : word m (l + 12) 8 = t) :
    ∃ acc, gate c s part now (syscall2 m blk 202 id l).eax (syscall2 m blk 202 id l).ebx =
      .call (.lockOp (id % 256) (lockKind kind) (lockOpOf op) t) acc := by
  have hroom := hc.room part hp
  unfold syscall2 at *
  rw [gate_doSyscall hc _ _ _ _ _ _ _ _ _ hp hb (by decide) hs]
  have hlu : l % U32 = l := Nat.mod_eq_of_lt (by omega)
  have hidu : id % U32 % 256 = id % 256 := Nat.mod_mod_of_dvd _ (by decide)
  simp only [coreSyscall, hf, feature, if_true, hlu, hidu]
  rw [if_neg (by omega), chk_true hp (by omega), guard_true, phys_eq hc hp (by omega)]
  unfold Apart at hd
  rw [Nat.add_assoc, Nat.add_assoc, word_after hs l 4 (by omega) (by unfold Apart; omega), word_after hs (l + 4) 4 (by omega) (by unfold Apart; omega),
    word_after hs (l + 12) 8 (by omega) (by unfold Apart; omega), ho, hk, ht]
  exact ⟨_, rfl⟩

theorem gate_lockCreate {c : SysCfg} (hc : CfgOk c) {s : Sys} {part blk l : Nat} (now idp : Nat) (m : Nat → Nat)
    (hp : part < c.p.nbParts) (hb : blk + 24 ≤ c.p.psize part) (hl : l + 20 ≤ c.p.psize part) (hd : Apart blk 24 l 20)
    (hi : idp + 1 ≤ c.p.psize part) (hf : c.feat.lockobj = true) (hs : Shows c s part (syscall2 m blk 201 idp l).mem) :
    ∃ acc, gate c s part now (syscall2 m blk 201 idp l).eax (syscall2 m blk 201 idp l).ebx = .call (.lockCreate (lockAttr m l)) acc := by
  have hroom := hc.room part hp
  unfold syscall2 at *
  rw [gate_doSyscall hc _ _ _ _ _ _ _ _ _ hp hb (by decide) hs]
  have hlu : l % U32 = l := Nat.mod_eq_of_lt (by omega)
  have hiu : idp % U32 = idp := Nat.mod_eq_of_lt (by omega)
  simp only [coreSyscall, hf, feature, if_true, hlu, hiu]
  rw [chk_true hp hi, chk_true hp (by omega), guard_true, guard_true, phys_eq hc hp (by omega : l < _)]
  unfold Apart at hd
  have : lockAttr s.mem (c.base part + l) = lockAttr m l := by
    unfold lockAttr
    rw [Nat.add_assoc, Nat.add_assoc, Nat.add_assoc, Nat.add_assoc, word_after hs l 4 (by omega) (by unfold Apart; omega),
      word_after hs (l + 4) 4 (by omega) (by unfold Apart; omega), word_after hs (l + 8) 4 (by omega) (by unfold Apart; omega),
      word_after hs (l + 12) 2 (by omega) (by unfold Apart; omega), word_after hs (l + 14) 2 (by omega) (by unfold Apart; omega)]
  rw [this]
  exact ⟨_, rfl⟩

theorem off_lock {f : Features} : (offered f 201 = true → f.lockobj = true) ∧ (offered f 202 = true → f.lockobj = true) := by
  constructor <;> intro h <;> simpa [offered] using h
theorem off_time {f : Features} : (offered f 51 = true → f.sleepUntil = true) ∧ (offered f 52 = true → f.sleep = true) ∧
    (offered f 20 = true → f.gettick = true) ∧ (offered f 58 = true → f.threadId = true) := by
  refine ⟨?_, ?_, ?_, ?_⟩ <;> intro h <;> simpa [offered] using h
theorem off_port {f : Features} : (offered f 102 = true → f.sampling = true) ∧ (offered f 104 = true → f.sampling = true) ∧
    (offered f 105 = true → f.sampling = true) ∧ (offered f 110 = true → f.queueing = true) ∧ (offered f 111 = true → f.queueing = true) ∧
    (offered f 112 = true → f.queueing = true) ∧ (offered f 150 = true → f.virt = true) := by
  refine ⟨?_, ?_, ?_, ?_, ?_, ?_, ?_⟩ <;> intro h <;> simpa [offered] using h
theorem off_misc {f : Features} : (offered f 10 = true → (f.console || f.debug) = true) ∧ (offered f 707 = true → f.shutdown = true) := by
  refine ⟨?_, ?_⟩ <;> intro h <;> simpa [offered] using h

theorem lockOpOf_nums : lockOpOf (1 % 256 ^ 4) = .lock ∧ lockOpOf (2 % 256 ^ 4) = .unlock ∧ lockOpOf (3 % 256 ^ 4) = .wait ∧
    lockOpOf (4 % 256 ^ 4) = .signal ∧ lockOpOf (5 % 256 ^ 4) = .broadcast := by decide

theorem lockKind_nums : lockKind (1 % 256 ^ 4) = .mutex ∧ lockKind (2 % 256 ^ 4) = .semaphore ∧ lockKind (3 % 256 ^ 4) = .event := by decide

/-- **C75** (part) Every call of the library, with arguments that the interface keeps, makes the kernel call the service that it
asks for with the arguments that it was given.  What is missing: the calls whose arguments are cut (`C75_*_violated`) -/
theorem C75_arrives_partial {c : SysCfg} (hc : CfgOk c) {s : Sys} {part now blk l : Nat} {m : Nat → Nat} {call : LibCall}
    (hfr : Frame c part blk l call) (hty : Typed call) (hfit : Fits call) (ho : offered c.feat (stub m blk l call).eax = true)
    (hs : Shows c s part (stub m blk l call).mem) :
    ∃ sv acc, gate c s part now (stub m blk l call).eax (stub m blk l call).ebx = .call sv acc ∧ Asked c m part call sv := by
  have hroom := hc.room part hfr.exist
  have hA := hfr.inAreas
  cases call
  case semWait id us =>
    have hf : c.feat.lockobj = true := off_lock.2 ho
    have he : id % 256 = id := Nat.mod_eq_of_lt hty.1
    obtain ⟨acc, h⟩ := gate_lockOp hc now id _ _ _ _ hfr.exist hfr.inBlk hfr.inLoc hfr.pos hfr.apart hf hs rfl rfl rfl
    refine ⟨_, acc, h, ?_⟩
    simp (disch := omega) only [setOp, setObjKind, setTimeout, word_put_same, word_put_other, he, Asked]
    rw [Nat.mod_eq_of_lt (show us * 1000 < 256 ^ 8 from hfit)]; rfl
  case semSignal id =>
    have hf : c.feat.lockobj = true := off_lock.2 ho
    have he : id % 256 = id := Nat.mod_eq_of_lt hty
    obtain ⟨acc, h⟩ := gate_lockOp hc now id _ _ _ _ hfr.exist hfr.inBlk hfr.inLoc hfr.pos hfr.apart hf hs rfl rfl rfl
    refine ⟨_, acc, h, ?_⟩
    simp (disch := omega) only [setOp, setObjKind, word_put_same, word_put_other, he, Asked]
    exact ⟨_, rfl⟩
  case eventLock id =>
    have hf : c.feat.lockobj = true := off_lock.2 ho
    have he : id % 256 = id := Nat.mod_eq_of_lt hfit
    obtain ⟨acc, h⟩ := gate_lockOp hc now id _ _ _ _ hfr.exist hfr.inBlk hfr.inLoc hfr.pos hfr.apart hf hs rfl rfl rfl
    refine ⟨_, acc, h, ?_⟩
    simp (disch := omega) only [setOp, setObjKind, setTimeout, word_put_same, word_put_other, he, Asked]
    rfl
  case eventUnlock id =>
    have hf : c.feat.lockobj = true := off_lock.2 ho
    have he : id % 256 = id := Nat.mod_eq_of_lt hfit
    obtain ⟨acc, h⟩ := gate_lockOp hc now id _ _ _ _ hfr.exist hfr.inBlk hfr.inLoc hfr.pos hfr.apart hf hs rfl rfl rfl
    refine ⟨_, acc, h, ?_⟩
    simp (disch := omega) only [setOp, setObjKind, word_put_same, word_put_other, he, Asked]
    exact ⟨_, rfl⟩
  case eventWait id us =>
    have hf : c.feat.lockobj = true := off_lock.2 ho
    have he : id % 256 = id := Nat.mod_eq_of_lt hfit.1
    obtain ⟨acc, h⟩ := gate_lockOp hc now id _ _ _ _ hfr.exist hfr.inBlk hfr.inLoc hfr.pos hfr.apart hf hs rfl rfl rfl
    refine ⟨_, acc, h, ?_⟩
    simp (disch := omega) only [setOp, setObjKind, setTimeout, word_put_same, word_put_other, he, Asked]
    rw [Nat.mod_eq_of_lt (show us * 1000 < 256 ^ 8 from hfit.2)]; rfl
  case eventSignal id =>
    have hf : c.feat.lockobj = true := off_lock.2 ho
    have he : id % 256 = id := Nat.mod_eq_of_lt hfit
    obtain ⟨acc, h⟩ := gate_lockOp hc now id _ _ _ _ hfr.exist hfr.inBlk hfr.inLoc hfr.pos hfr.apart hf hs rfl rfl rfl
    refine ⟨_, acc, h, ?_⟩
    simp (disch := omega) only [setOp, setObjKind, word_put_same, word_put_other, he, Asked]
    exact ⟨_, rfl⟩
  case eventBroadcast id =>
    have hf : c.feat.lockobj = true := off_lock.2 ho
    have he : id % 256 = id := Nat.mod_eq_of_lt hfit
    obtain ⟨acc, h⟩ := gate_lockOp hc now id _ _ _ _ hfr.exist hfr.inBlk hfr.inLoc hfr.pos hfr.apart hf hs rfl rfl rfl
    refine ⟨_, acc, h, ?_⟩
    simp (disch := omega) only [setOp, setObjKind, word_put_same, word_put_other, he, Asked]
    exact ⟨_, rfl⟩
  case mutexLock id =>
    have hf : c.feat.lockobj = true := off_lock.2 ho
    have he : id % 256 = id := Nat.mod_eq_of_lt hty
    obtain ⟨acc, h⟩ := gate_lockOp hc now id _ _ _ _ hfr.exist hfr.inBlk hfr.inLoc hfr.pos hfr.apart hf hs rfl rfl rfl
    refine ⟨_, acc, h, ?_⟩
    simp (disch := omega) only [setOp, setObjKind, setTimeout, word_put_same, word_put_other, he, Asked]
    rfl
  case mutexTrylock id us =>
    have hf : c.feat.lockobj = true := off_lock.2 ho
    have he : id % 256 = id := Nat.mod_eq_of_lt hty.1
    obtain ⟨acc, h⟩ := gate_lockOp hc now id _ _ _ _ hfr.exist hfr.inBlk hfr.inLoc hfr.pos hfr.apart hf hs rfl rfl rfl
    refine ⟨_, acc, h, ?_⟩
    simp (disch := omega) only [setOp, setObjKind, setTimeout, word_put_same, word_put_other, he, Asked]
    rw [Nat.mod_eq_of_lt (show us * 1000 < 256 ^ 8 from hfit)]; rfl
  case mutexUnlock id =>
    have hf : c.feat.lockobj = true := off_lock.2 ho
    have he : id % 256 = id := Nat.mod_eq_of_lt hty
    obtain ⟨acc, h⟩ := gate_lockOp hc now id _ _ _ _ hfr.exist hfr.inBlk hfr.inLoc hfr.pos hfr.apart hf hs rfl rfl rfl
    refine ⟨_, acc, h, ?_⟩
    simp (disch := omega) only [setOp, setObjKind, word_put_same, word_put_other, he, Asked]
    exact ⟨_, rfl⟩
  case semCreate idp cur max d =>
    have hf : c.feat.lockobj = true := off_lock.1 ho
    have hi := hA _ (List.mem_singleton.2 rfl)
    obtain ⟨acc, h⟩ := gate_lockCreate hc now idp _ hfr.exist hfr.inBlk hfr.inLoc hfr.apart hi.1 hf hs
    refine ⟨_, acc, h, ?_⟩
    simp (disch := omega) only [lockAttr, setKind, setPolicy, setQueueing, setInitial, setMax, word_put_same, word_put_other, Asked]
    obtain ⟨-, h1, h2, h3⟩ := hty
    rw [Nat.mod_eq_of_lt (show cur < 256 ^ 2 from h1), Nat.mod_eq_of_lt (show max < 256 ^ 2 from h2)]
    cases d <;> first | rfl | exact absurd rfl h3
  case eventCreate idp =>
    have hf : c.feat.lockobj = true := off_lock.1 ho
    have hi := hA _ (List.mem_singleton.2 rfl)
    obtain ⟨acc, h⟩ := gate_lockCreate hc now idp _ hfr.exist hfr.inBlk hfr.inLoc hfr.apart hi.1 hf hs
    refine ⟨_, acc, h, ?_⟩
    simp (disch := omega) only [lockAttr, setKind, setPolicy, word_put_same, word_put_other, Asked]
    exact ⟨_, rfl, rfl, rfl⟩
  case mutexCreate idp d p =>
    have hf : c.feat.lockobj = true := off_lock.1 ho
    have hi := hA _ (List.mem_singleton.2 rfl)
    obtain ⟨acc, h⟩ := gate_lockCreate hc now idp _ hfr.exist hfr.inBlk hfr.inLoc hfr.apart hi.1 hf hs
    refine ⟨_, acc, h, ?_⟩
    simp (disch := omega) only [lockAttr, setKind, setPolicy, setQueueing, word_put_same, word_put_other, Asked]
    obtain ⟨-, h1, h2⟩ := hty
    refine ⟨_, rfl, rfl, ?_, ?_⟩
    · cases p <;> first | rfl | exact absurd rfl h2
    · cases d <;> first | rfl | exact absurd rfl h1
  case threadSleep us =>
    have hf : c.feat.sleep = true := off_time.2.1 ho
    have e0 : us % U32 = us := Nat.mod_eq_of_lt hfit
    have hg := gate_doSyscall hc now _ _ _ _ _ _ _ _ hfr.exist hfr.inBlk (by decide) hs
    simp only [coreSyscall, feature, hf, if_true, e0] at hg
    exact ⟨_, _, hg, rfl⟩
  case threadSleepUntil us =>
    have hf : c.feat.sleepUntil = true := off_time.1 ho
    have e0 : us % U32 = us := Nat.mod_eq_of_lt hfit
    have hg := gate_doSyscall hc now _ _ _ _ _ _ _ _ hfr.exist hfr.inBlk (by decide) hs
    simp only [coreSyscall, feature, hf, if_true, e0] at hg
    exact ⟨_, _, hg, rfl⟩
  case threadSuspend =>
    have hg := gate_doSyscall hc now _ _ _ _ _ _ _ _ hfr.exist hfr.inBlk (by decide) hs
    simp only [coreSyscall] at hg
    exact ⟨_, _, hg, rfl⟩
  case threadSuspendTarget id =>
    have e0 : id % U32 = id := Nat.mod_eq_of_lt hty
    have hg := gate_doSyscall hc now _ _ _ _ _ _ _ _ hfr.exist hfr.inBlk (by decide) hs
    simp only [coreSyscall, e0] at hg
    exact ⟨_, _, hg, rfl⟩
  case threadRestart id =>
    have e0 : id % U32 = id := Nat.mod_eq_of_lt hty
    have hg := gate_doSyscall hc now _ _ _ _ _ _ _ _ hfr.exist hfr.inBlk (by decide) hs
    simp only [coreSyscall, e0] at hg
    exact ⟨_, _, hg, rfl⟩
  case threadStopSelf =>
    have hg := gate_doSyscall hc now _ _ _ _ _ _ _ _ hfr.exist hfr.inBlk (by decide) hs
    simp only [coreSyscall] at hg
    exact ⟨_, _, hg, rfl⟩
  case threadStop id =>
    have e0 : id % U32 = id := Nat.mod_eq_of_lt hty
    have hg := gate_doSyscall hc now _ _ _ _ _ _ _ _ hfr.exist hfr.inBlk (by decide) hs
    simp only [coreSyscall, e0] at hg
    exact ⟨_, _, hg, rfl⟩
  case threadPeriod =>
    have hg := gate_doSyscall hc now _ _ _ _ _ _ _ _ hfr.exist hfr.inBlk (by decide) hs
    simp only [coreSyscall] at hg
    exact ⟨_, _, hg, rfl⟩
  case threadResume id =>
    have e0 : id % U32 = id := Nat.mod_eq_of_lt hty
    have hg := gate_doSyscall hc now _ _ _ _ _ _ _ _ hfr.exist hfr.inBlk (by decide) hs
    simp only [coreSyscall, e0] at hg
    exact ⟨_, _, hg, rfl⟩
  case threadSetPriority id prio =>
    have e0 : id % U32 = id := Nat.mod_eq_of_lt hty.1
    have e1 : prio % U32 = prio := Nat.mod_eq_of_lt hty.2
    have hg := gate_doSyscall hc now _ _ _ _ _ _ _ _ hfr.exist hfr.inBlk (by decide) hs
    simp only [coreSyscall, e0, e1] at hg
    exact ⟨_, _, hg, rfl⟩
  case threadDelayedStart id us =>
    have e0 : id % U32 = id := Nat.mod_eq_of_lt hty.1
    have e1 : us % U32 = us := Nat.mod_eq_of_lt hfit
    have hg := gate_doSyscall hc now _ _ _ _ _ _ _ _ hfr.exist hfr.inBlk (by decide) hs
    simp only [coreSyscall, e0, e1] at hg
    exact ⟨_, _, hg, rfl⟩
  case errorHandlerCreate worker =>
    have e0 : worker % U32 = worker := Nat.mod_eq_of_lt hty
    have hg := gate_doSyscall hc now _ _ _ _ _ _ _ _ hfr.exist hfr.inBlk (by decide) hs
    simp only [coreSyscall, e0] at hg
    exact ⟨_, _, hg, rfl⟩
  case threadId p =>
    have hf : c.feat.threadId = true := off_time.2.2.2 ho
    have e0 : p % U32 = p := Nat.mod_eq_of_lt hty
    have g0 := hA (p, 4) (by simp [areas])
    have k0 := chk_true hfr.exist g0.1
    have hg := gate_doSyscall hc now _ _ _ _ _ _ _ _ hfr.exist hfr.inBlk (by decide) hs
    simp only [coreSyscall, feature, hf, if_true, e0, k0, guard_true] at hg
    exact ⟨_, _, hg, rfl⟩
  case timeGet p =>
    have hf : c.feat.gettick = true := off_time.2.2.1 ho
    have e0 : p % U32 = p := Nat.mod_eq_of_lt hty
    have g0 := hA (p, 8) (by simp [areas])
    have k0 := chk_true hfr.exist g0.1
    have hg := gate_doSyscall hc now _ _ _ _ _ _ _ _ hfr.exist hfr.inBlk (by decide) hs
    simp only [coreSyscall, feature, hf, if_true, e0, k0, guard_true] at hg
    exact ⟨_, _, hg, rfl⟩
  case threadStatus id p =>
    have e0 : id % U32 = id := Nat.mod_eq_of_lt hty.1
    have e1 : p % U32 = p := Nat.mod_eq_of_lt hty.2
    have g0 := hA (p, 40) (by simp [areas])
    have k0 := chk_true hfr.exist g0.1
    have hg := gate_doSyscall hc now _ _ _ _ _ _ _ _ hfr.exist hfr.inBlk (by decide) hs
    simp only [coreSyscall, e0, e1, k0, guard_true] at hg
    exact ⟨_, _, hg, rfl⟩
  case partitionId p =>
    have e0 : p % U32 = p := Nat.mod_eq_of_lt hty
    have g0 := hA (p, 1) (by simp [areas])
    have k0 := chk_true hfr.exist g0.1
    have hg := gate_doSyscall hc now _ _ _ _ _ _ _ _ hfr.exist hfr.inBlk (by decide) hs
    simp only [coreSyscall, e0, k0, guard_true] at hg
    exact ⟨_, _, hg, rfl⟩
  case partitionPeriod p =>
    have e0 : p % U32 = p := Nat.mod_eq_of_lt hty
    have g0 := hA (p, 8) (by simp [areas])
    have k0 := chk_true hfr.exist g0.1
    have hg := gate_doSyscall hc now _ _ _ _ _ _ _ _ hfr.exist hfr.inBlk (by decide) hs
    simp only [coreSyscall, e0, k0, guard_true] at hg
    exact ⟨_, _, hg, rfl⟩
  case partitionDuration p =>
    have e0 : p % U32 = p := Nat.mod_eq_of_lt hty
    have g0 := hA (p, 8) (by simp [areas])
    have k0 := chk_true hfr.exist g0.1
    have hg := gate_doSyscall hc now _ _ _ _ _ _ _ _ hfr.exist hfr.inBlk (by decide) hs
    simp only [coreSyscall, e0, k0, guard_true] at hg
    exact ⟨_, _, hg, rfl⟩
  case partitionLockLevel p =>
    have e0 : p % U32 = p := Nat.mod_eq_of_lt hty
    have g0 := hA (p, 4) (by simp [areas])
    have k0 := chk_true hfr.exist g0.1
    have hg := gate_doSyscall hc now _ _ _ _ _ _ _ _ hfr.exist hfr.inBlk (by decide) hs
    simp only [coreSyscall, e0, k0, guard_true] at hg
    exact ⟨_, _, hg, rfl⟩
  case partitionMode p =>
    have e0 : p % U32 = p := Nat.mod_eq_of_lt hty
    have g0 := hA (p, 4) (by simp [areas])
    have k0 := chk_true hfr.exist g0.1
    have hg := gate_doSyscall hc now _ _ _ _ _ _ _ _ hfr.exist hfr.inBlk (by decide) hs
    simp only [coreSyscall, e0, k0, guard_true] at hg
    exact ⟨_, _, hg, rfl⟩
  case partitionStart p =>
    have e0 : p % U32 = p := Nat.mod_eq_of_lt hty
    have g0 := hA (p, 4) (by simp [areas])
    have k0 := chk_true hfr.exist g0.1
    have hg := gate_doSyscall hc now _ _ _ _ _ _ _ _ hfr.exist hfr.inBlk (by decide) hs
    simp only [coreSyscall, e0, k0, guard_true] at hg
    exact ⟨_, _, hg, rfl⟩
  case errorGet p =>
    have e0 : p % U32 = p := Nat.mod_eq_of_lt hty
    have g0 := hA (p, 268) (by simp [areas])
    have k0 := chk_true hfr.exist g0.1
    have hg := gate_doSyscall hc now _ _ _ _ _ _ _ _ hfr.exist hfr.inBlk (by decide) hs
    simp only [coreSyscall, e0, k0, guard_true] at hg
    exact ⟨_, _, hg, rfl⟩
  case threadCreate idp attr =>
    have e0 : idp % U32 = idp := Nat.mod_eq_of_lt hty.1
    have e1 : attr % U32 = attr := Nat.mod_eq_of_lt hty.2
    have g0 := hA (idp, 4) (by simp [areas])
    have k0 := chk_true hfr.exist g0.1
    have g1 := hA (attr, 40) (by simp [areas])
    have k1 := chk_true hfr.exist g1.1
    have hg := gate_doSyscall hc now _ _ _ _ _ _ _ _ hfr.exist hfr.inBlk (by decide) hs
    simp only [coreSyscall, e0, e1, k0, k1, guard_true] at hg
    refine ⟨_, _, hg, ?_⟩
    rintro x ⟨h1, h2, h3, h4, h5, h6⟩
    have hd := g1.2.1
    unfold Apart at hd
    have w1 : ∀ k, k < 40 → s.mem (c.base part + attr + k) = m (attr + k) := by
      intro k hk
      rw [Nat.add_assoc, hs _ (by have := g1.1; omega)]
      exact doSyscall_out _ _ _ _ _ _ _ _ _ _ (by omega)
    have p1 := h1.2 0 (by omega)
    have p2 := h2.2 0 (by omega)
    have p3 := h1.1
    have p4 := h2.1
    have w0 := w1 0 (by omega)
    simp only [Nat.pow_zero, Nat.div_one, Nat.add_zero, Nat.pow_one] at p1 p2 p3 p4 w0
    rw [phys_eq hc hfr.exist (by have := g1.1; omega)]
    have ww : ∀ o k, o + k ≤ 40 → word s.mem (c.base part + attr + o) k = word m (attr + o) k := by
      intro o k hk
      apply word_congr
      intro i hi
      rw [Nat.add_assoc, w1 _ (by omega), Nat.add_assoc]
    have : threadAttr s.mem (c.base part + attr) = x := by
      unfold threadAttr
      rw [ww 4 4 (by omega), ww 8 8 (by omega), ww 16 8 (by omega), ww 24 8 (by omega), int_word h3, int_word h4, int_word h5,
        int_word h6, w1 1 (by omega), w0, p1, p2, Nat.mod_mod, Nat.mod_mod, Nat.mod_eq_of_lt p3, Nat.mod_eq_of_lt p4]
    rw [this]
  case setMode md =>
    have hg := gate_doSyscall hc now _ _ _ _ _ _ _ _ hfr.exist hfr.inBlk (by decide) hs
    simp only [coreSyscall] at hg
    refine ⟨_, _, hg, ?_⟩
    cases md with
    | other n =>
      obtain ⟨h1, h2⟩ := hty n rfl
      have e : modeNum (.other n) % U32 = n := Nat.mod_eq_of_lt h2
      rw [e]
      have : modeOf n = .other n := by
        unfold modeOf
        split <;> first | omega | rfl
      rw [this]; rfl
    | _ => rfl
  case errorRaise msg size =>
    have e0 : msg % U32 = msg := Nat.mod_eq_of_lt hty.1
    have e1 : size % U32 = size := Nat.mod_eq_of_lt hty.2
    have g0 := hA (msg, size) (by simp [areas])
    have k0 := chk_true hfr.exist g0.1
    have hg := gate_doSyscall hc now _ _ _ _ _ _ _ _ hfr.exist hfr.inBlk (by decide) hs
    simp only [coreSyscall, e0, e1, k0, guard_true] at hg
    have hb : bytes s.mem (phys c part msg) size = message m msg size := by
      cases size with
      | zero => rfl
      | succ n =>
        rw [phys_eq hc hfr.exist (by have := g0.1; omega)]
        exact bytes_after hs _ _ g0.1 g0.2.1
    rw [hb] at hg
    exact ⟨_, _, hg, rfl⟩
  case queueingSend id data len timeout =>
    have hf : c.feat.queueing = true := off_port.2.2.2.2.1 ho
    have e0 : id % U32 = id := Nat.mod_eq_of_lt (Nat.lt_trans hty.1 (by decide))
    have e1 : data % U32 = data := Nat.mod_eq_of_lt hty.2.1
    have e2 : len % U32 = len := Nat.mod_eq_of_lt hty.2.2.1
    have e3 : timeout % U32 = timeout := Nat.mod_eq_of_lt hfit.2
    have g0 := hA (data, len) (by simp [areas])
    have k0 := chk_true hfr.exist g0.1
    have hg := gate_doSyscall hc now _ _ _ _ _ _ _ _ hfr.exist hfr.inBlk (by decide) hs
    simp only [coreSyscall, feature, hf, if_true, e0, e1, e2, e3, k0, guard_true, Nat.mod_eq_of_lt hty.1, Nat.mod_eq_of_lt hfit.1] at hg
    have hb : bytes s.mem (phys c part data) len = message m data len := by
      cases len with
      | zero => rfl
      | succ n =>
        rw [phys_eq hc hfr.exist (by have := g0.1; omega)]
        exact bytes_after hs _ _ g0.1 g0.2.1
    rw [hb] at hg
    exact ⟨_, _, hg, rfl⟩
  case samplingWrite id data len =>
    have hf : c.feat.sampling = true := off_port.2.1 ho
    have e0 : id % U32 = id := Nat.mod_eq_of_lt (Nat.lt_trans hty.1 (by decide))
    have e1 : data % U32 = data := Nat.mod_eq_of_lt hty.2.1
    have e2 : len % U32 = len := Nat.mod_eq_of_lt hty.2.2
    have g0 := hA (data, len) (by simp [areas])
    have k0 := chk_true hfr.exist g0.1
    have hg := gate_doSyscall hc now _ _ _ _ _ _ _ _ hfr.exist hfr.inBlk (by decide) hs
    simp only [coreSyscall, feature, hf, if_true, e0, e1, e2, k0, guard_true, Nat.mod_eq_of_lt hty.1, Nat.mod_eq_of_lt (show len < 256 from hfit)] at hg
    have hb : bytes s.mem (phys c part data) len = message m data len := by
      cases len with
      | zero => rfl
      | succ n =>
        rw [phys_eq hc hfr.exist (by have := g0.1; omega)]
        exact bytes_after hs _ _ g0.1 g0.2.1
    rw [hb] at hg
    exact ⟨_, _, hg, rfl⟩
  case samplingRead id data lenp validp =>
    have hf : c.feat.sampling = true := off_port.1 ho
    have e0 : id % U32 = id := Nat.mod_eq_of_lt (Nat.lt_trans hty.1 (by decide))
    have e1 : data % U32 = data := Nat.mod_eq_of_lt hty.2.1
    have e2 : lenp % U32 = lenp := Nat.mod_eq_of_lt hty.2.2.1
    have e3 : validp % U32 = validp := Nat.mod_eq_of_lt hty.2.2.2
    have g0 := hA (lenp, 4) (by simp [areas])
    have k0 := chk_true hfr.exist g0.1
    have g1 := hA (validp, 4) (by simp [areas])
    have k1 := chk_true hfr.exist g1.1
    have hg := gate_doSyscall hc now _ _ _ _ _ _ _ _ hfr.exist hfr.inBlk (by decide) hs
    simp only [coreSyscall, feature, hf, if_true, e0, e1, e2, e3, k0, k1, guard_true, Nat.mod_eq_of_lt hty.1] at hg
    exact ⟨_, _, hg, rfl⟩
  case queueingReceive id timeout maxlen data lenp =>
    have hf : c.feat.queueing = true := off_port.2.2.2.2.2.1 ho
    have e0 : id % U32 = id := Nat.mod_eq_of_lt (Nat.lt_trans hty.1 (by decide))
    have e1 : timeout % U32 = timeout := Nat.mod_eq_of_lt hfit
    have e2 : maxlen % U32 = maxlen := Nat.mod_eq_of_lt hty.2.2.1
    have e3 : data % U32 = data := Nat.mod_eq_of_lt hty.2.2.2.1
    have e4 : lenp % U32 = lenp := Nat.mod_eq_of_lt hty.2.2.2.2
    have g0 := hA (data, maxlen) (by simp [areas])
    have k0 := chk_true hfr.exist g0.1
    have g1 := hA (lenp, 4) (by simp [areas])
    have k1 := chk_true hfr.exist g1.1
    have hg := gate_doSyscall hc now _ _ _ _ _ _ _ _ hfr.exist hfr.inBlk (by decide) hs
    simp only [coreSyscall, feature, hf, if_true, e0, e1, e2, e3, e4, k0, k1, guard_true, Nat.mod_eq_of_lt hty.1] at hg
    exact ⟨_, _, hg, rfl⟩
  case consWrite a len =>
    have hf : (c.feat.console || c.feat.debug) = true := off_misc.1 ho
    have e0 : a % U32 = a := Nat.mod_eq_of_lt hty.1
    have e1 : len % U32 = len := Nat.mod_eq_of_lt hty.2
    have g0 := hA (a, len) (by simp [areas])
    have k0 := chk_true hfr.exist g0.1
    have hg := gate_doSyscall hc now _ _ _ _ _ _ _ _ hfr.exist hfr.inBlk (by decide) hs
    simp only [coreSyscall, feature, hf, if_true, e0, e1, k0, guard_true] at hg
    exact ⟨_, _, hg, _, rfl, fun h => phys_eq hc hfr.exist (by have := g0.1; omega)⟩
  case shutdown =>
    have hf : c.feat.shutdown = true := off_misc.2 ho
    have hg := gate_doSyscall hc now _ _ _ _ _ _ _ _ hfr.exist hfr.inBlk (by decide) hs
    simp only [coreSyscall, feature, hf, if_true] at hg
    exact ⟨_, _, hg, rfl⟩
  case samplingCreate name size dir refresh idp =>
    have hf : c.feat.sampling = true := off_port.2.2.1 ho
    have e0 : name % U32 = name := Nat.mod_eq_of_lt hty.1
    have e1 : size % U32 = size := Nat.mod_eq_of_lt hty.2.1
    have e2 : dir % U32 = dir := Nat.mod_eq_of_lt (Nat.lt_trans hty.2.2.1 (by decide))
    have e3 : refresh % U32 = refresh := Nat.mod_eq_of_lt hfit
    have e4 : idp % U32 = idp := Nat.mod_eq_of_lt hty.2.2.2.2
    have g0 := hA (name, c.maxName + 1) (by simp [areas])
    have k0 := chk_true hfr.exist g0.1
    have g1 := hA (idp, 1) (by simp [areas])
    have k1 := chk_true hfr.exist g1.1
    have hg := gate_doSyscall hc now _ _ _ _ _ _ _ _ hfr.exist hfr.inBlk (by decide) hs
    simp only [coreSyscall, feature, hf, if_true, e0, e1, e2, e3, e4, k0, k1, guard_true, Nat.mod_eq_of_lt hty.2.2.1] at hg
    refine ⟨_, _, hg, ?_⟩
    intro str hstr hlen
    rw [phys_eq hc hfr.exist (by have := g0.1; omega), cString_after hs _ _ str hstr (by omega) g0.1 g0.2.1]
  case virtualCreate name idp =>
    have hf : c.feat.virt = true := off_port.2.2.2.2.2.2 ho
    have e0 : name % U32 = name := Nat.mod_eq_of_lt hty.1
    have e1 : idp % U32 = idp := Nat.mod_eq_of_lt hty.2
    have g0 := hA (name, c.maxName + 1) (by simp [areas])
    have k0 := chk_true hfr.exist g0.1
    have g1 := hA (idp, 1) (by simp [areas])
    have k1 := chk_true hfr.exist g1.1
    have hg := gate_doSyscall hc now _ _ _ _ _ _ _ _ hfr.exist hfr.inBlk (by decide) hs
    simp only [coreSyscall, feature, hf, if_true, e0, e1, k0, k1, guard_true] at hg
    refine ⟨_, _, hg, ?_⟩
    intro str hstr hlen
    rw [phys_eq hc hfr.exist (by have := g0.1; omega), cString_after hs _ _ str hstr (by omega) g0.1 g0.2.1]
  case queueingCreate name size dir d idp =>
    have hf : c.feat.queueing = true := off_port.2.2.2.1 ho
    have e0 : name % U32 = name := Nat.mod_eq_of_lt hty.1
    have e1 : size % U32 = size := Nat.mod_eq_of_lt hty.2.1
    have e2 : dir % U32 = dir := Nat.mod_eq_of_lt (Nat.lt_trans hty.2.2.1 (by decide))
    have e3 : idp % U32 = idp := Nat.mod_eq_of_lt hty.2.2.2.2
    have g0 := hA (name, c.maxName + 1) (by simp [areas])
    have k0 := chk_true hfr.exist g0.1
    have g1 := hA (idp, 1) (by simp [areas])
    have k1 := chk_true hfr.exist g1.1
    have hg := gate_doSyscall hc now _ _ _ _ _ _ _ _ hfr.exist hfr.inBlk (by decide) hs
    simp only [coreSyscall, feature, hf, if_true, e0, e1, e2, e3, k0, k1, guard_true, Nat.mod_eq_of_lt hty.2.2.1] at hg
    refine ⟨_, _, hg, ?_⟩
    intro str hstr hlen
    rw [phys_eq hc hfr.exist (by have := g0.1; omega), cString_after hs _ _ str hstr (by omega) g0.1 g0.2.1]
    cases d with
    | other => exact absurd rfl hty.2.2.2.1
    | _ => rfl

theorem sys_ext {a b : Sys} (h1 : a.k = b.k) (h2 : a.ports = b.ports) (h3 : a.locks = b.locks) (h4 : a.mem = b.mem) (h5 : a.rtlLen = b.rtlLen)
    (h6 : ∀ q, a.ioMin q = b.ioMin q) (h7 : ∀ q, a.ioMax q = b.ioMax q) : a = b := by
  cases a; cases b; simp only at *; rw [h1, h2, h3, h4, h5, funext h6, funext h7]

/-- **C75** (effect) What the service does to the kernel is all that the call does: a kernel call is executed on behalf of the calling processor at
the present time, a port operation changes the ports, a lock operation the lock objects and the states of threads, and so on; nothing else
changes. -/
theorem C75_effect (c : SysCfg) (s s' : Sys) (proc now part : Nat) (sv : Service) (acc : List Access) :
    perform c s proc now part (.call sv acc) = some s' ↔ Effect c s proc now part s' sv := by
  obtain ⟨k, ports, locks, mem, ioMin, ioMax, rtl⟩ := s
  obtain ⟨k', ports', locks', mem', ioMin', ioMax', rtl'⟩ := s'
  have same : ∀ {a b : Sys}, SameRest a b ↔ b.mem = a.mem ∧ b.ioMin = a.ioMin ∧ b.ioMax = a.ioMax ∧ b.rtlLen = a.rtlLen :=
    ⟨fun h => ⟨h.1, h.2, h.3, h.4⟩, fun h => ⟨h.1, h.2.1, h.2.2.1, h.2.2.2⟩⟩
  cases sv with
  | kcall call =>
    simp only [perform, Effect, same, Option.map_eq_some_iff, Sys.mk.injEq]
    constructor
    · rintro ⟨k1, h, rfl, rfl, rfl, rfl, rfl, rfl, rfl⟩; exact ⟨h, rfl, rfl, rfl, rfl, rfl, rfl⟩
    · rintro ⟨h, rfl, rfl, rfl, rfl, rfl, rfl⟩; exact ⟨_, h, rfl, rfl, rfl, rfl, rfl, rfl, rfl⟩
  | raise msg size =>
    simp only [perform, Effect, same, Option.some.injEq, Sys.mk.injEq]
    constructor
    · rintro ⟨rfl, rfl, rfl, rfl, rfl, rfl, rfl⟩; exact ⟨rfl, rfl, rfl, rfl, rfl, rfl, rfl⟩
    · rintro ⟨rfl, rfl, rfl, rfl, rfl, rfl, rfl⟩; exact ⟨rfl, rfl, rfl, rfl, rfl, rfl, rfl⟩
  | port op =>
    simp only [perform, Effect, same, Option.map_eq_some_iff, Sys.mk.injEq]
    constructor
    · rintro ⟨⟨p1, r⟩, h, rfl, rfl, rfl, rfl, rfl, rfl, rfl⟩; exact ⟨⟨r, h⟩, rfl, rfl, rfl, rfl, rfl, rfl⟩
    · rintro ⟨⟨r, h⟩, rfl, rfl, rfl, rfl, rfl, rfl⟩; exact ⟨_, h, rfl, rfl, rfl, rfl, rfl, rfl, rfl⟩
  | lockCreate a =>
    simp only [perform, Effect, same, Option.some.injEq, Sys.mk.injEq]
    constructor
    · rintro ⟨rfl, rfl, rfl, rfl, rfl, rfl, rfl⟩; exact ⟨⟨_, rfl⟩, rfl, rfl, rfl, rfl, rfl, rfl⟩
    · rintro ⟨⟨r, h⟩, rfl, rfl, rfl, rfl, rfl, rfl⟩; exact ⟨rfl, rfl, by rw [h], rfl, rfl, rfl, rfl⟩
  | lockOp id kind op timeout =>
    simp only [perform, Effect, same, Option.map_eq_some_iff, Sys.mk.injEq]
    constructor
    · rintro ⟨⟨T1, l1, r⟩, h, rfl, rfl, rfl, rfl, rfl, rfl, rfl⟩; exact ⟨⟨r, h⟩, rfl, rfl, rfl, rfl, rfl, rfl⟩
    · rintro ⟨⟨r, h⟩, h1, rfl, rfl, rfl, rfl, rfl⟩; exact ⟨_, h, h1.symm, rfl, rfl, rfl, rfl, rfl, rfl⟩
  | pciRegister v d r =>
    simp only [perform, Effect, Option.some.injEq, pciRegister]
    cases hb : c.pciBar v d with
    | none =>
      dsimp only
      constructor
      · intro h; cases h; exact ⟨rfl, rfl, rfl, rfl, rfl, fun _ _ => ⟨rfl, rfl⟩, rfl, rfl⟩
      · rintro ⟨h1, h2, h3, h4, h5, h6, h7, h8⟩
        refine (sys_ext h1 h2 h3 h4 h5 (fun q => ?_) (fun q => ?_)).symm
        · by_cases hq : q = part
          · rw [hq]; exact h7
          · exact (h6 q hq).1
        · by_cases hq : q = part
          · rw [hq]; exact h8
          · exact (h6 q hq).2
    | some bar =>
      have hd : bar - bar % 32 = bar / 32 * 32 := by omega
      simp only [hd]
      constructor
      · intro h; cases h
        exact ⟨rfl, rfl, rfl, rfl, rfl, fun q hq => ⟨by simp [upd, hq], by simp [upd, hq]⟩, by simp [upd], by simp [upd]⟩
      · rintro ⟨h1, h2, h3, h4, h5, h6, h7, h8⟩
        refine (sys_ext h1 h2 h3 h4 h5 (fun q => ?_) (fun q => ?_)).symm
        · by_cases hq : q = part
          · simp [hq, h7, upd]
          · simp [upd, hq, (h6 q hq).1]
        · by_cases hq : q = part
          · simp [hq, h8, upd]
          · simp [upd, hq, (h6 q hq).2]
  | shutdown => simp [perform, Effect]
  | _ => simp only [perform, Effect, Option.some.injEq]; exact eq_comm

/-- **C75** (from the library to the scheduler) A thread that calls `pok_thread_sleep` in its partition waits until the time it asked for has
passed, through any history of kernel entries before that time that are not operations on it, whatever partitions do in between; the
hypotheses on the thread are those of `C10_sleep_partial`. -/
theorem C75_sleep_partial {c : SysCfg} (hc : CfgOk c) (hk : Kernel.CfgOk c.k) {s s1 : Sys} {k2 : Kernel} {part proc now blk l us t : Nat} {m : Nat → Nat}
    {es : List Kernel.KEv} (hfr : Frame c part blk l (.threadSleep us)) (hus : 0 < us ∧ us < U32) (hf : c.feat.sleep = true)
    (hs : Shows c s part (stub m blk l (.threadSleep us)).mem) (hr : Kernel.Reachable c.k s.k) (hq : proc < c.k.nbProcs)
    (hcur : s.k.curThread proc = t) (ht : t < Kernel.prefixSum c.k.nthreads c.k.nbParts) (hother : ∀ q < c.k.nbProcs, q ≠ proc → s.k.curThread q ≠ t)
    (hb : (s.k.T t).remaining > 0 ∨ (s.k.T t).timeCapacity ≤ 0) (hm : Kernel.NotInitMain c.k s.k t) (hov : us * 1000 + now < U64)
    (h : perform c s proc now part (gate c s part now (stub m blk l (.threadSleep us)).eax (stub m blk l (.threadSleep us)).ebx) = some s1)
    (hes : ∀ e ∈ es, e.proc < c.k.nbProcs ∧ e.now < now + us * 1000) (hqu : Spec.Quiet c.k t s1.k es) (hrun : Kernel.execAll c.k s1.k es = some k2) :
    (∀ q < c.k.nbProcs, k2.curThread q ≠ t) ∧ (k2.T t).state = .waiting := by
  have ho : offered c.feat (stub m blk l (.threadSleep us)).eax = true := by
    show offered c.feat 52 = true
    simp [offered, hf]
  have hlt : us < U64 := Nat.lt_trans hus.2 (by decide)
  obtain ⟨sv, acc, hg, ha⟩ := C75_arrives_partial (now := now) (call := .threadSleep us) hc hfr hlt hus.2 ho hs
  rw [hg, C75_effect] at h
  have ha' : sv = .kcall (.sleep us) := ha
  rw [ha'] at h
  have h' := Kernel.C10_sleep_partial hk hr hq hcur ht hother hb hm hus.1 hov h.1 hes hqu hrun
  exact ⟨h'.1, h'.2.1⟩

/-- **C75** violated: the length of a message is cut to eight bits on the way (kernel/core/syscall.c 276, 326): for every message of
256 bytes or more, written to a sampling port or sent to a queueing port, the kernel is asked to send `len % 256` bytes only, and
the caller is not told. -/
theorem C75_long_message_violated {c : SysCfg} (hc : CfgOk c) {s : Sys} {part now blk l : Nat} {m : Nat → Nat} {id data len t : Nat}
    (hlen : 256 ≤ len) (ht : t < U32) :
    (∀ _ : Frame c part blk l (.samplingWrite id data len), Typed (.samplingWrite id data len) → c.feat.sampling = true →
      Shows c s part (stub m blk l (.samplingWrite id data len)).mem →
      (∃ acc, gate c s part now (stub m blk l (.samplingWrite id data len)).eax (stub m blk l (.samplingWrite id data len)).ebx =
        .call (.port (.samplingWrite part id (message m data (len % 256)))) acc)) ∧
    (∀ _ : Frame c part blk l (.queueingSend id data len t), Typed (.queueingSend id data len t) → c.feat.queueing = true →
      Shows c s part (stub m blk l (.queueingSend id data len t)).mem →
      (∃ acc, gate c s part now (stub m blk l (.queueingSend id data len t)).eax (stub m blk l (.queueingSend id data len t)).ebx =
        .call (.port (.send part id (message m data (len % 256)) t)) acc)) := by
  have hb : ∀ {sid n a1 a2 a3 a4 a5}, data + len ≤ c.p.psize part → part < c.p.nbParts → Apart data len blk 24 →
      Shows c s part (doSyscall m blk sid n a1 a2 a3 a4 a5).mem →
      bytes s.mem (phys c part data) (len % 256) = message m data (len % 256) := by
    intro sid n a1 a2 a3 a4 a5 h1 h2 h3 h4
    have : len % 256 < 256 := Nat.mod_lt _ (by decide)
    rw [phys_eq hc h2 (by omega)]
    exact bytes_after h4 _ _ (by omega) (by unfold Apart at *; omega)
  constructor
  · intro hfr hty hf hs
    have g0 := hfr.inAreas (data, len) (by simp [areas])
    have k0 := chk_true hfr.exist g0.1
    have hg := gate_doSyscall hc now _ _ _ _ _ _ _ _ hfr.exist hfr.inBlk (by decide) hs
    simp only [coreSyscall, feature, hf, if_true, Nat.mod_eq_of_lt hty.2.1, Nat.mod_eq_of_lt hty.2.2,
      Nat.mod_eq_of_lt (Nat.lt_trans hty.1 (show 256 < U32 by decide)), k0, guard_true, Nat.mod_eq_of_lt hty.1, hb g0.1 hfr.exist g0.2.1 hs] at hg
    exact ⟨_, hg⟩
  · intro hfr hty hf hs
    have g0 := hfr.inAreas (data, len) (by simp [areas])
    have k0 := chk_true hfr.exist g0.1
    have hg := gate_doSyscall hc now _ _ _ _ _ _ _ _ hfr.exist hfr.inBlk (by decide) hs
    simp only [coreSyscall, feature, hf, if_true, Nat.mod_eq_of_lt hty.2.1, Nat.mod_eq_of_lt hty.2.2.1, Nat.mod_eq_of_lt ht,
      Nat.mod_eq_of_lt (Nat.lt_trans hty.1 (show 256 < U32 by decide)), k0, guard_true, Nat.mod_eq_of_lt hty.1, hb g0.1 hfr.exist g0.2.1 hs] at hg
    exact ⟨_, hg⟩

/-- **C75** violated: a time given to a thread or port call is cut to 32 bits by the library: a sleep of 2^32 microseconds (71 minutes)
asks the kernel for a sleep of 0; a receive with that timeout does not wait. -/
theorem C75_long_time_violated {c : SysCfg} (hc : CfgOk c) {s : Sys} {part now blk : Nat} {m : Nat → Nat} (us l : Nat)
    (hp : part < c.p.nbParts) (hb : blk + 24 ≤ c.p.psize part) :
    (c.feat.sleep = true → Shows c s part (stub m blk l (.threadSleep us)).mem →
      gate c s part now (stub m blk l (.threadSleep us)).eax (stub m blk l (.threadSleep us)).ebx = .call (.kcall (.sleep (us % U32))) []) ∧
    (c.feat.sleepUntil = true → Shows c s part (stub m blk l (.threadSleepUntil us)).mem →
      gate c s part now (stub m blk l (.threadSleepUntil us)).eax (stub m blk l (.threadSleepUntil us)).ebx = .call (.kcall (.sleepUntil (us % U32))) []) ∧
    (∀ id, id < U32 → Shows c s part (stub m blk l (.threadDelayedStart id us)).mem →
      gate c s part now (stub m blk l (.threadDelayedStart id us)).eax (stub m blk l (.threadDelayedStart id us)).ebx =
        .call (.kcall (.delayedStart id (us % U32))) []) := by
  refine ⟨?_, ?_, ?_⟩
  · intro hf hs
    have hg := gate_doSyscall hc now _ _ _ _ _ _ _ _ hp hb (by decide) hs
    simp only [coreSyscall, feature, hf, if_true] at hg
    exact hg
  · intro hf hs
    have hg := gate_doSyscall hc now _ _ _ _ _ _ _ _ hp hb (by decide) hs
    simp only [coreSyscall, feature, hf, if_true] at hg
    exact hg
  · intro id hid hs
    have hg := gate_doSyscall hc now _ _ _ _ _ _ _ _ hp hb (by decide) hs
    simp only [coreSyscall, Nat.mod_eq_of_lt hid] at hg
    exact hg

/-- **C75** violated: `pok_mutex_trylock` with timeout 0 asks for the same service as `pok_mutex_lock`: it waits for ever instead of
returning at once.  The two calls are in memories that differ in no other way. -/
theorem C75_trylock_violated {c : SysCfg} (hc : CfgOk c) {s s' : Sys} {part now blk l id : Nat} {m : Nat → Nat}
    (hfr : Frame c part blk l (.mutexLock id)) (hid : id < 256) (hf : c.feat.lockobj = true)
    (hs : Shows c s part (stub m blk l (.mutexTrylock id 0)).mem) (hs' : Shows c s' part (stub m blk l (.mutexLock id)).mem) :
    ∃ acc acc', gate c s part now (stub m blk l (.mutexTrylock id 0)).eax (stub m blk l (.mutexTrylock id 0)).ebx =
        .call (.lockOp id .mutex .lock 0) acc ∧
      gate c s' part now (stub m blk l (.mutexLock id)).eax (stub m blk l (.mutexLock id)).ebx = .call (.lockOp id .mutex .lock 0) acc' := by
  have ho : ∀ call, (stub m blk l call).eax = 202 → offered c.feat (stub m blk l call).eax = true := by
    intro call h; rw [h]; simp [offered, hf]
  obtain ⟨sv, acc, h1, h2⟩ := C75_arrives_partial (now := now) (call := .mutexTrylock id 0) hc
    ⟨hfr.exist, hfr.inBlk, hfr.inLoc, hfr.pos, hfr.apart, hfr.inAreas⟩ ⟨hid, by decide⟩ (show 0 * 1000 < U64 by decide) (ho _ rfl) hs
  obtain ⟨sv', acc', h3, h4⟩ := C75_arrives_partial (now := now) (call := .mutexLock id) hc hfr hid trivial (ho _ rfl) hs'
  cases h2
  cases h4
  exact ⟨acc, acc', h1, h3⟩

/-- **C75** violated: `pok_event_create` leaves the queueing discipline to whatever the stack contains: the same call creates an event
whose waiters are served first-in first-out, by priority, or neither, depending on old stack contents. -/
theorem C75_event_create_violated {c : SysCfg} (hc : CfgOk c) {part now blk l idp : Nat} (s : Sys)
    (hfr : Frame c part blk l (.eventCreate idp)) (hf : c.feat.lockobj = true) (d : Discipline) :
    ∃ m s', Shows c s' part (stub m blk l (.eventCreate idp)).mem ∧ ∃ a acc,
      gate c s' part now (stub m blk l (.eventCreate idp)).eax (stub m blk l (.eventCreate idp)).ebx = .call (.lockCreate a) acc ∧
        a.queueing = d := by
  let m : Nat → Nat := put (fun _ => 0) (l + 8) (le 4 (discNum d))
  let s' : Sys := { s with mem := fun x => (stub m blk l (.eventCreate idp)).mem (x - c.base part) }
  have hs : Shows c s' part (stub m blk l (.eventCreate idp)).mem := by
    intro x hx
    show (stub m blk l (.eventCreate idp)).mem (c.base part + x - c.base part) = _
    rw [Nat.add_sub_cancel_left]
  have hi := hfr.inAreas _ (List.mem_singleton.2 rfl)
  obtain ⟨acc, h⟩ := gate_lockCreate hc now idp _ hfr.exist hfr.inBlk hfr.inLoc hfr.apart hi.1 hf hs
  refine ⟨m, s', hs, _, acc, h, ?_⟩
  simp (disch := omega) only [lockAttr, setKind, setPolicy, word_put_same, word_put_other, m]
  cases d <;> rfl

/-- **C75** violated: an event identifier has 16 bits in the library and 8 in the kernel: an operation on event `256 + id` is an
operation on event `id`. -/
theorem C75_event_id_violated {c : SysCfg} (hc : CfgOk c) {s : Sys} {part now blk l id : Nat} {m : Nat → Nat}
    (hfr : Frame c part blk l (.eventSignal (256 + id))) (hid : id < 256) (hf : c.feat.lockobj = true)
    (hs : Shows c s part (stub m blk l (.eventSignal (256 + id))).mem) :
    ∃ t acc, gate c s part now (stub m blk l (.eventSignal (256 + id))).eax (stub m blk l (.eventSignal (256 + id))).ebx =
      .call (.lockOp id .event .signal t) acc := by
  obtain ⟨acc, h⟩ := gate_lockOp hc now (256 + id) _ _ _ _ hfr.exist hfr.inBlk hfr.inLoc hfr.pos hfr.apart hf hs rfl rfl rfl
  have he : (256 + id) % 256 = id := by omega
  simp (disch := omega) only [setOp, setObjKind, word_put_same, word_put_other, he] at h
  exact ⟨_, acc, h⟩

/-! Concrete calls of partition 1 in the example configuration, from any state of the machine: a semaphore wait of 5 ms, a thread
creation with attributes at address 512, a 300-byte message. -/

/-- The machine whose memory shows a library call of partition 1. -/
def exStub (s : Sys) (m : Nat → Nat) (call : LibCall) : Sys :=
  { s with mem := fun x => (stub m 64 128 call).mem (x - exSysCfg.base 1) }

theorem exStub_k (s : Sys) (m : Nat → Nat) (call : LibCall) : (exStub s m call).k = s.k := rfl

theorem exStub_shows (s : Sys) (m : Nat → Nat) (call : LibCall) : Shows exSysCfg (exStub s m call) 1 (stub m 64 128 call).mem := by
  intro x _
  show (stub m 64 128 call).mem (exSysCfg.base 1 + x - exSysCfg.base 1) = _
  rw [Nat.add_sub_cancel_left]

theorem exFrame (call : LibCall) (h : ∀ x ∈ areas exSysCfg call, 148 ≤ x.1 ∧ x.1 + x.2 ≤ 4096) : Frame exSysCfg 1 64 128 call where
  exist := by decide
  inBlk := by decide
  inLoc := by decide
  pos := by decide
  apart := Or.inl (by decide)
  inAreas := fun x hx => ⟨(h x hx).2, Or.inr (by have := h x hx; omega), Or.inr (h x hx).1⟩

example (s : Sys) (m : Nat → Nat) :
    (Frame exSysCfg 1 64 128 (.semWait 3 5000) ∧ Typed (.semWait 3 5000) ∧ Fits (.semWait 3 5000) ∧
      Shows exSysCfg (exStub s m (.semWait 3 5000)) 1 (stub m 64 128 (.semWait 3 5000)).mem) ∧
    Frame exSysCfg 1 64 128 (.threadCreate 1024 512) ∧ Frame exSysCfg 1 64 128 (.samplingWrite 1 512 300) ∧
    Frame exSysCfg 1 64 128 (.eventCreate 256) :=
  ⟨⟨exFrame _ (by simp [areas]), ⟨by decide, by decide⟩, by show 5000 * 1000 < U64; decide, exStub_shows s m _⟩,
    exFrame _ (by simp [areas]), exFrame _ (by simp [areas]), exFrame _ (by simp [areas])⟩

/-- The wait asks for semaphore 3 with a timeout of 5 000 000 ns. -/
example (s : Sys) (m : Nat → Nat) : ∃ acc, gate exSysCfg (exStub s m (.semWait 3 5000)) 1 10 202 64 = .call (.lockOp 3 .semaphore .lock 5000000) acc := by
  obtain ⟨sv, acc, h1, h2⟩ := C75_arrives_partial (now := 10) (call := .semWait 3 5000) exSysCfg_ok (exFrame _ (by simp [areas]))
    ⟨by decide, by decide⟩ (show 5000 * 1000 < U64 by decide) rfl (exStub_shows s m _)
  cases h2
  exact ⟨acc, h1⟩

/-- A sleep of 5 microseconds asked for in partition 1, in any state of the kernel: the effect on the system is that of the kernel call (for
`C75_sleep_partial`, whose hypotheses about the thread are those of `C10_sleep_partial`, with its example). -/
example (s : Sys) (m : Nat → Nat) (k' : Kernel) (h : Kernel.exec exCfg 0 10 s.k (.sleep 5) = some k') :
    ∃ s', perform exSysCfg (exStub s m (.threadSleep 5)) 0 10 1 (gate exSysCfg (exStub s m (.threadSleep 5)) 1 10 52 64) = some s' ∧ s'.k = k' := by
  obtain ⟨sv, acc, h1, h2⟩ := C75_arrives_partial (now := 10) (call := .threadSleep 5) exSysCfg_ok (exFrame _ (by simp [areas]))
    (show 5 < U64 by decide) (show 5 < U32 by decide) rfl (exStub_shows s m _)
  have h2' : sv = .kcall (.sleep 5) := h2
  subst h2'
  have h1' : gate exSysCfg (exStub s m (.threadSleep 5)) 1 10 52 64 = .call (.kcall (.sleep 5)) acc := h1
  have hk : (exStub s m (.threadSleep 5)).k = s.k := exStub_k _ _ _
  rw [h1']
  clear h1 h1'
  generalize exStub s m (.threadSleep 5) = S at *
  refine ⟨{ S with k := k' }, (C75_effect _ _ _ _ _ _ _ _).2 ⟨?_, rfl, rfl, ⟨rfl, rfl, rfl, rfl⟩⟩, rfl⟩
  rw [hk]
  exact h

/-- Of 300 bytes, 44 are sent. -/
example (s : Sys) (m : Nat → Nat) :
    ∃ acc, gate exSysCfg (exStub s m (.samplingWrite 1 512 300)) 1 10 104 64 = .call (.port (.samplingWrite 1 1 (message m 512 44))) acc := by
  obtain ⟨acc, h⟩ := (C75_long_message_violated (now := 10) (t := 0) (len := 300) exSysCfg_ok (by decide) (by decide)).1
    (exFrame _ (by simp [areas])) ⟨by decide, by decide, by decide⟩ rfl (exStub_shows s m (.samplingWrite 1 512 300))
  rw [show 300 % 256 = 44 from rfl] at h
  exact ⟨acc, h⟩

end Stub
end Pok
