/-!
# Shared constants: error codes, thread states, partition modes

Everything here transcribes enumerations of `/repo/kernel/include`.
-/

namespace Pok

/-- Return codes of kernel calls: `pok_ret_t`, kernel/include/errno.h (whole enumeration that the
modelled functions can return). -/
inductive Errno
  | ok | einval | unavailable | param | toomany | eperm | exists_
  | thread | threadattr | timeout | mode
  | port | notfound | direction | size | discipline | empty | kind | ready | full
  | lockobjUnavailable | lockobjNotready | lockobjKind | lockobjPolicy | partitionMode
  deriving DecidableEq, Repr, Inhabited

/-- Numeric values of the return codes, kernel/include/errno.h 17-61. -/
def Errno.code : Errno → Nat
  | .ok => 0 | .einval => 1 | .unavailable => 2 | .param => 3 | .toomany => 5 | .eperm => 6
  | .exists_ => 7 | .thread => 49 | .threadattr => 50 | .timeout => 250 | .mode => 251
  | .port => 301 | .notfound => 302 | .direction => 303 | .size => 304 | .discipline => 305
  | .empty => 308 | .kind => 309 | .ready => 310 | .full => 311
  | .lockobjUnavailable => 500 | .lockobjNotready => 501 | .lockobjKind => 502
  | .lockobjPolicy => 503 | .partitionMode => 601

/-- Thread states: `pok_state_t`, kernel/include/core/sched.h 29-36. -/
inductive TState
  | stopped | runnable | waiting | lock | waitNextActivation | delayedStart
  deriving DecidableEq, Repr, Inhabited

/-- Partition modes: `pok_partition_mode_t`, kernel/include/core/partition.h 35-48.
`other n` stands for any value outside the enumeration (the C type is an `int`). -/
inductive Mode
  | initCold | initWarm | normal | idle | restart | stopped | other (n : Nat)
  deriving DecidableEq, Repr, Inhabited

/-- Update of a total table at one index (an array store). -/
def upd {α : Type} (f : Nat → α) (i : Nat) (v : α) : Nat → α := fun j => if j = i then v else f j

@[simp] theorem upd_same {α} (f : Nat → α) (i : Nat) (v : α) : upd f i v i = v := by simp [upd]
theorem upd_other {α} (f : Nat → α) {i j : Nat} (v : α) (h : j ≠ i) : upd f i v j = f j := by
  simp [upd, h]
theorem upd_apply {α} (f : Nat → α) (i j : Nat) (v : α) :
    upd f i v j = if j = i then v else f j := rfl

end Pok
