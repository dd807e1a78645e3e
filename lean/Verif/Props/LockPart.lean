import Verif.Model.LockPart
import Verif.Lemmas.LockRun

/-!
# C31: lock objects are private to their partition and created at most once
-/

namespace Pok
open Pok.Spec Pok.Fifo

theorem findFree_spec (O : LockTable) : ∀ n mid i, findFreeLock O mid n = some i →
    mid ≤ i ∧ i < mid + n ∧ (O i).initialized = false := by
  intro n
  induction n with
  | zero => intro mid i h; simp [findFreeLock] at h
  | succ n ih =>
    intro mid i h
    unfold findFreeLock at h
    split at h
    · injection h with h; subst h; rename_i h; exact ⟨by omega, by omega, h⟩
    · have := ih _ _ h; exact ⟨by omega, by omega, this.2.2⟩

theorem findFree_none (O : LockTable) : ∀ n mid, findFreeLock O mid n = none →
    ∀ i, mid ≤ i → i < mid + n → (O i).initialized = true := by
  intro n
  induction n with
  | zero => intro mid _ i h1 h2; omega
  | succ n ih =>
    intro mid h i h1 h2
    unfold findFreeLock at h
    split at h
    · simp at h
    · rename_i hh
      by_cases hi : i = mid
      · subst hi; simpa using hh
      · exact ih _ h i (by omega) (by omega)

theorem create_err {o o' : LockObj} {a e} (h : o.create a = (o', e)) (he : e ≠ .ok) : o' = o := by
  unfold LockObj.create at h
  split at h
  · exact (Prod.mk.inj h).1.symm
  · split at h
    · exact (Prod.mk.inj h).1.symm
    · simp only at h; split at h <;> exact absurd (Prod.mk.inj h).2.symm he

theorem create_ok {o o' : LockObj} {a} (h : o.create a = (o', .ok)) :
    o'.initialized = true ∧ o'.kind = a.kind ∧ a.policy ≠ .other ∧ ∀ n, a.kind ≠ .other n := by
  unfold LockObj.create at h
  split at h
  · simp at h
  · rename_i hp
    split at h
    · simp at h
    · rename_i hk
      have e1 : a.policy ≠ .other := by
        intro h'; simp [h'] at hp
      have e2 : ∀ n, a.kind ≠ .other n := by
        intro n h'; simp [h'] at hk
      simp only at h
      split at h
      · have := (Prod.mk.inj h).1; subst this; exact ⟨rfl, rfl, e1, e2⟩
      · have := (Prod.mk.inj h).1; subst this; exact ⟨rfl, rfl, e1, e2⟩

/-- **C31, creation**: it succeeds only in COLD/WARM start mode with a valid kind and policy, and then
gives an object of the calling partition that was unused, now in use and of the requested kind;
no other object changes. -/
theorem C31_create_ok {lo hi mode O a O' id} (h : lockPartitionCreate lo hi mode O a = (O', .ok, id)) :
    (mode = .initCold ∨ mode = .initWarm) ∧ (∀ n, a.kind ≠ .other n) ∧ a.policy ≠ .other ∧
    ∃ i, id = some i ∧ lo ≤ i ∧ i < hi ∧ (O i).initialized = false ∧ (O' i).initialized = true ∧
      (O' i).kind = a.kind ∧ ∀ j, j ≠ i → O' j = O j := by
  unfold lockPartitionCreate at h
  split at h
  · simp at h
  · rename_i hm
    split at h
    · simp at h
    · rename_i mid hf
      obtain ⟨h1, h2, h3⟩ := findFree_spec O _ _ _ hf
      cases hc : (O mid).create a with
      | mk o e =>
        rw [hc] at h
        simp at h
        obtain ⟨rfl, rfl, rfl⟩ := h
        obtain ⟨k1, k2, k3, k4⟩ := create_ok hc
        refine ⟨?_, k4, k3, mid, rfl, h1, by omega, h3, by simpa using k1, by simpa using k2,
          fun j hj => by simp [upd_other _ _ hj]⟩
        by_cases hcold : mode = .initCold
        · exact Or.inl hcold
        · right; by_contra hw; exact hm ⟨hcold, hw⟩

/-- **C31, creation**: a refused creation changes no object. -/
theorem C31_create_refused {lo hi mode O a O' e id} (h : lockPartitionCreate lo hi mode O a = (O', e, id))
    (he : e ≠ .ok) : O' = O := by
  unfold lockPartitionCreate at h
  split at h
  · exact (Prod.mk.inj h).1.symm
  · split at h
    · exact (Prod.mk.inj h).1.symm
    · rename_i mid hf
      cases hc : (O mid).create a with
      | mk o e' =>
        rw [hc] at h
        simp at h
        obtain ⟨rfl, rfl, rfl⟩ := h
        rw [create_err hc he]
        funext j
        by_cases hj : j = mid
        · subst hj; simp
        · exact upd_other _ _ hj

/-- **C31, creation**: in start mode with valid attributes it is refused only if all objects of the
partition are in use. -/
theorem C31_create_unavailable {lo hi mode O a} (hm : mode = .initCold ∨ mode = .initWarm)
    (hk : ∀ n, a.kind ≠ .other n) (hp : a.policy ≠ .other)
    (he : (lockPartitionCreate lo hi mode O a).2.1 ≠ .ok) :
    ∀ i, lo ≤ i → i < hi → (O i).initialized = true := by
  unfold lockPartitionCreate at he
  have hm' : ¬ (mode ≠ .initCold ∧ mode ≠ .initWarm) := by
    rintro ⟨h1, h2⟩; rcases hm with h | h
    · exact h1 h
    · exact h2 h
  rw [if_neg hm'] at he
  split at he
  · rename_i hf
    intro i h1 h2
    exact findFree_none O _ _ hf i h1 (by omega)
  · rename_i mid hf
    exfalso
    apply he
    simp only
    unfold LockObj.create
    cases hpol : a.policy <;> simp [hpol] at hp <;> cases hkind : a.kind <;> simp [hkind] at hk ⊢

/-- **C31, operations**: an identifier outside the partition's range, an object of another kind or an
unknown operation is rejected with EINVAL and changes nothing. -/
theorem C31_operation_rejected {N lo hi T now O cur id kind op timeout}
    (h : id < lo ∨ hi ≤ id ∨ (O id).kind ≠ kind ∨ op = .other) :
    lockPartitionWrapper N lo hi T now O cur id kind op timeout = some (T, O, .done .einval) := by
  unfold lockPartitionWrapper
  by_cases h1 : id < lo
  · simp [h1]
  · by_cases h2 : hi ≤ id
    · simp [h1, h2]
    · by_cases h3 : (O id).kind ≠ kind
      · simp [h1, h2, h3]
      · have : op = .other := by
          rcases h with h | h | h | h
          · exact absurd h h1
          · exact absurd h h2
          · exact absurd h h3
          · exact h
        simp [this]

/-- **C31, operations**: no operation changes a lock object outside the calling partition's range, nor any
other object than the one named. -/
theorem C31_operation_frame {N lo hi T now O cur id kind op timeout T' O' r}
    (h : lockPartitionWrapper N lo hi T now O cur id kind op timeout = some (T', O', r)) (j : Nat)
    (hj : j ≠ id ∨ j < lo ∨ hi ≤ j) : O' j = O j := by
  unfold lockPartitionWrapper at h
  split at h
  · simp at h; rw [h.2.1]
  · split at h
    · simp at h; rw [h.2.1]
    · have hne : j ≠ id := by
        rcases hj with h | h | h
        · exact h
        · intro h'; omega
        · intro h'; omega
      split at h
      · simp at h; rw [h.2.1]
      · repeat' split at h
        all_goals simp at h
        all_goals rw [← h.2.1]
        all_goals first
          | rfl
          | exact upd_other _ _ hne

/-- Operations do not create or destroy objects. -/
theorem wrapper_initialized {N lo hi T now O cur id kind op timeout T' O' r}
    (h : lockPartitionWrapper N lo hi T now O cur id kind op timeout = some (T', O', r)) (j : Nat) :
    (O' j).initialized = (O j).initialized := by
  have hun : ∀ {o : LockObj} {T T' o' e w}, o.unlock N T = some (T', o', e, w) →
      o'.initialized = o.initialized := by
    intro o T T' o' e w h
    unfold LockObj.unlock at h
    repeat' split at h
    all_goals simp at h
    all_goals
      obtain ⟨_, rfl, _⟩ := h
      rfl
  have hl : ∀ {o : LockObj} {T T' o' r}, o.lockBegin N T now cur timeout = some (T', o', r) →
      o'.initialized = o.initialized := by
    intro o T T' o' r h
    unfold LockObj.lockBegin at h
    simp only at h
    repeat' split at h
    all_goals simp at h
    all_goals
      obtain ⟨_, rfl, _⟩ := h
      rfl
  have hw : ∀ {o : LockObj} {T T' o' r}, o.waitBegin N T now cur timeout = some (T', o', r) →
      o'.initialized = o.initialized := by
    intro o T T' o' r h
    unfold LockObj.waitBegin at h
    split at h
    · simp at h; rw [h.2.1]
    · split at h
      · simp at h; rw [h.2.1]
      · split at h
        · simp at h
        · rename_i hu
          split at h
          · simp at h; rw [← h.2.1]; exact hun hu
          · split at h
            · simp at h
            · split at h
              · simp at h
              · simp at h; rw [← h.2.1]; have := hun hu; simpa using this
  have hs : ∀ {o : LockObj} {T T' o' e w}, o.signal N T = some (T', o', e, w) →
      o'.initialized = o.initialized := by
    intro o T T' o' e w h
    unfold LockObj.signal at h
    repeat' split at h
    all_goals simp at h
    all_goals
      obtain ⟨_, rfl, _⟩ := h
      rfl
  have hb : ∀ {o : LockObj} {T T' o' e}, o.broadcast N T = some (T', o', e) →
      o'.initialized = o.initialized := by
    intro o T T' o' e h
    unfold LockObj.broadcast at h
    repeat' split at h
    all_goals simp at h
    all_goals
      obtain ⟨_, rfl, _⟩ := h
      rfl
  by_cases hj : j = id
  · subst hj
    unfold lockPartitionWrapper at h
    repeat' split at h
    all_goals simp at h
    all_goals rw [← h.2.1]
    all_goals simp only [upd_same]
    all_goals
      rename_i h1
      first
        | exact hl h1
        | exact hun h1
        | exact hw h1
        | exact hs h1
        | exact hb h1
  · rw [C31_operation_frame h j (Or.inl hj)]

/-- Calls on the lock objects of any partitions. -/
inductive LCall
  | create (lo hi : Nat) (mode : Mode) (a : LockAttr)
  | op (lo hi cur id : Nat) (kind : LockKind) (op : LockOp) (timeout now : Nat)
  | threads (T : Threads)   -- anything else that happens to threads

/-- A history of calls; the result lists the identifiers returned by successful creations. -/
def lockHistory (N : Nat) : Threads → LockTable → List LCall → Option (LockTable × List Nat)
  | _, O, [] => some (O, [])
  | T, O, .create lo hi mode a :: cs =>
    let (O1, e, id) := lockPartitionCreate lo hi mode O a
    match lockHistory N T O1 cs with
    | none => none
    | some (O2, ids) => some (O2, if e = .ok then id.toList ++ ids else ids)
  | T, O, .op lo hi cur id kind op timeout now :: cs =>
    match lockPartitionWrapper N lo hi T now O cur id kind op timeout with
    | none => none
    | some (T1, O1, _) => lockHistory N T1 O1 cs
  | _, O, .threads T :: cs => lockHistory N T O cs

/-- **C31, created at most once**: in every history of creations and operations by all partitions, the
identifiers returned by successful creations are pairwise different. -/
theorem C31_created_once (N : Nat) (T : Threads) (O O' : LockTable) (cs : List LCall) (ids : List Nat)
    (h : lockHistory N T O cs = some (O', ids)) :
    ids.Nodup ∧ ∀ i ∈ ids, (O i).initialized = false := by
  induction cs generalizing T O O' ids with
  | nil => simp [lockHistory] at h; obtain ⟨_, rfl⟩ := h; simp
  | cons c cs ih =>
    cases c with
    | create lo hi mode a =>
      simp only [lockHistory] at h
      cases hc : lockPartitionCreate lo hi mode O a with
      | mk O1 p =>
        obtain ⟨e, id⟩ := p
        rw [hc] at h
        simp only at h
        split at h
        · simp at h
        · rename_i O2 ids2 h2
          obtain ⟨n1, n2⟩ := ih _ _ _ _ h2
          simp at h
          obtain ⟨_, rfl⟩ := h
          split
          · rename_i he
            subst he
            obtain ⟨_, _, _, i, rfl, _, _, k1, k2, _, k3⟩ := C31_create_ok hc
            have hi : i ∉ ids2 := fun hi => by have := n2 i hi; rw [k2] at this; simp at this
            refine ⟨by simp [hi, n1], ?_⟩
            intro j hj
            simp at hj
            rcases hj with rfl | hj
            · exact k1
            · have := n2 j hj
              rw [k3 j (fun h => hi (h ▸ hj))] at this; exact this
          · rename_i he
            rw [C31_create_refused hc he] at n2
            exact ⟨n1, n2⟩
    | op lo hi cur id kind op timeout now =>
      simp only [lockHistory] at h
      split at h
      · simp at h
      · rename_i hw
        obtain ⟨n1, n2⟩ := ih _ _ _ _ h
        exact ⟨n1, fun i hi => by rw [← wrapper_initialized hw]; exact n2 i hi⟩
    | threads T1 =>
      exact ih _ _ _ _ h

/-- **C31, isolation, fails for an object that was never created**: any partition that owns an object it has
not created can pass kind 0 and the SIGNAL operation; the zero-initialised event queue does not look
empty, and thread 0 — of another partition — becomes runnable. -/
theorem C31_isolation_violated :
    ∃ (lo hi id : Nat) (T : Threads), (T 0).state = .stopped ∧
      ∃ T' O' r, lockPartitionWrapper 8 lo hi T 0 (fun _ => LockObj.boot) 5 id (.other 0) .signal 0
          = some (T', O', r) ∧ r = .done .ok ∧ (T' 0).state = .runnable := by
  refine ⟨3, 4, 3, fun _ => {}, rfl, ?_⟩
  refine ⟨_, _, _, rfl, ?_, ?_⟩ <;> decide

/-- **C31, isolation for created objects**: an operation changes no thread outside a set containing the
caller and the threads queued on the object. -/
theorem C31_isolation_partial {N lo hi T now O cur id kind op timeout T' O' r} {q e : List Nat}
    (hq : Rep N (O id).fifo q) (he : Rep N (O id).eventFifo e)
    (h : lockPartitionWrapper N lo hi T now O cur id kind op timeout = some (T', O', r)) (u : Nat)
    (hu : u ≠ cur) (huq : u ∉ q) (hue : u ∉ e) : T' u = T u := by
  have hgh : ∀ {f l t}, Rep N f l → f.empty = false → f.getHead N = some t → t ∈ l := by
    intro f l t hr hne hh
    cases l with
    | nil => rw [LSys.empty_of_nil hr] at hne; simp at hne
    | cons x l => rw [rep_getHead hr] at hh; simp at hh; simp [hh]
  have hun : ∀ {T' o' e w}, (O id).unlock N T = some (T', o', e, w) →
      T' u = T u ∧ o'.eventFifo = (O id).eventFifo := by
    intro T' o' e w h
    unfold LockObj.unlock at h
    repeat' split at h
    all_goals simp at h
    case h_2 =>
      rename_i hne _ t hh
      obtain ⟨rfl, rfl, _⟩ := h
      have hne' : u ≠ t := by
        intro h'; subst h'; exact huq (hgh hq (by simpa using hne) hh)
      exact ⟨by simp [unlockThread, LSys.setState_other hne'], rfl⟩
    all_goals
      obtain ⟨rfl, rfl, _⟩ := h
      exact ⟨rfl, rfl⟩
  unfold lockPartitionWrapper at h
  split at h
  · simp at h; rw [h.1]
  · split at h
    · simp at h; rw [h.1]
    · split at h
      · simp at h; rw [h.1]
      · cases op with
        | lock =>
          simp only at h
          split at h
          · simp at h
          · rename_i hl
            simp at h
            unfold LockObj.lockBegin at hl
            simp only at hl
            repeat' split at hl
            all_goals simp at hl
            all_goals (rw [← h.1, ← hl.1])
            exact LSys.suspendCaller_other hu
        | unlock =>
          simp only at h
          split at h
          · simp at h
          · rename_i hl; simp at h; rw [← h.1]; exact (hun hl).1
        | wait =>
          simp only at h
          split at h
          · simp at h
          · rename_i hl
            simp at h
            rw [← h.1]
            unfold LockObj.waitBegin at hl
            split at hl
            · simp at hl; rw [← hl.1]
            · split at hl
              · simp at hl; rw [← hl.1]
              · split at hl
                · simp at hl
                · rename_i hu2
                  split at hl
                  · simp at hl; rw [← hl.1]; exact (hun hu2).1
                  · split at hl
                    · simp at hl
                    · split at hl
                      · simp at hl
                      · simp at hl; rw [← hl.1, LSys.suspendCaller_other hu]; exact (hun hu2).1
        | signal =>
          simp only at h
          split at h
          · simp at h
          · rename_i hl
            simp at h
            rw [← h.1]
            unfold LockObj.signal at hl
            split at hl
            · simp at hl; rw [← hl.1]
            · rename_i hne
              split at hl
              · simp at hl
              · rename_i t hh
                simp at hl
                have hne' : u ≠ t := by
                  intro h'; subst h'; exact hue (hgh he (by simpa using hne) hh)
                rw [← hl.1]; simp [unlockThread, LSys.setState_other hne']
        | broadcast =>
          simp only at h
          split at h
          · simp at h
          · rename_i hl
            simp at h
            rw [← h.1]
            unfold LockObj.broadcast at hl
            split at hl
            · simp at hl
            · rename_i hb
              simp at hl
              rw [← hl.1]
              have gen : ∀ (fuel : Nat) (e : List Nat) (f f' : Fifo) (T T' : Threads), Rep N f e → u ∉ e →
                  LockObj.broadcastLoop N fuel T f = some (T', f') → T' u = T u := by
                intro fuel
                induction fuel with
                | zero => intro e f f' T T' _ _ h; simp [LockObj.broadcastLoop] at h
                | succ n ih =>
                  intro e f f' T T' hr hne h
                  unfold LockObj.broadcastLoop at h
                  cases e with
                  | nil => simp [LSys.empty_of_nil hr] at h; rw [h.1]
                  | cons x e =>
                    simp only [LSys.empty_of_cons hr, rep_getHead hr] at h
                    obtain ⟨f1, h1, h2⟩ := rep_dequeue hr
                    simp [h1] at h
                    simp at hne
                    rw [ih e _ _ _ _ h2 hne.2 h]
                    simp [unlockThread, LSys.setState_other hne.1]
              exact gen _ _ _ _ _ _ he hue hb
        | other => simp at h; rw [h.1]

/-- A history with creations by two partitions and operations. -/
example : ((lockHistory 8 (fun _ => { state := .runnable }) (fun _ => LockObj.boot)
    [.create 0 2 .initCold { kind := .mutex }, .create 2 4 .initWarm { kind := .event },
     .create 0 2 .initCold { kind := .semaphore, initial := 1, max := 3 },
     .op 0 2 1 0 .mutex .lock 0 0, .create 0 2 .initCold { kind := .mutex },
     .create 2 4 .normal { kind := .mutex }]).map (·.2)) = some [0, 2, 1] := by decide

end Pok
