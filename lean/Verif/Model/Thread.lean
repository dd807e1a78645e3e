import Verif.Model.Basic

/-! # Thread control blocks -/

namespace Pok

/-- `2^64`, the range of `uint64_t`. -/
abbrev U64 : Nat := 18446744073709551616
/-- `2^32`, the range of `uint32_t`. -/
abbrev U32 : Nat := 4294967296

/-- `uint64_t + int64_t` in C: the signed operand is converted, the sum wraps. -/
def addU64 (a : Nat) (p : Int) : Nat := (((a : Int) + p) % (U64 : Int)).toNat

/-- `pok_thread_t`, kernel/include/core/thread.h 48-66.  `period`, `time_capacity` and
`remaining_time_capacity` are `int64_t`, hence `Int`; the `uint64_t` fields are naturals and every
computation of them is reduced modulo `2^64`.  `entry` and stack addresses are plain numbers. -/
structure Thread where
  priority : Nat := 0
  basePriority : Nat := 0
  period : Int := -1
  deadline : Nat := 0
  timeCapacity : Int := -1
  remaining : Int := -1
  nextActivation : Nat := 0
  state : TState := .stopped
  endTime : Nat := 0
  wakeup : Nat := 0
  entry : Nat := 0
  partition : Nat := 0
  sp : Nat := 0
  initStackAddr : Nat := 0
  affinity : Nat := 0
  deriving DecidableEq, Repr, Inhabited

/-- The thread table `pok_threads[POK_CONFIG_NB_THREADS]`, kernel/include/core/thread.h 100. -/
abbrev Threads := Nat → Thread

/-- Change of one thread's state field. -/
def Threads.setState (T : Threads) (i : Nat) (s : TState) : Threads :=
  upd T i { T i with state := s }

/-- `pok_sched_unlock_thread`, kernel/core/sched.c 677-679: the thread becomes RUNNABLE. -/
def unlockThread (T : Threads) (i : Nat) : Threads := T.setState i .runnable

/-- `pok_sched_lock_current_thread`, kernel/core/sched.c 685-687. -/
def lockCurrent (T : Threads) (cur : Nat) : Threads := T.setState cur .lock

/-- `pok_sched_lock_current_thread_timed`, kernel/core/sched.c 689-693. -/
def lockCurrentTimed (T : Threads) (cur time : Nat) : Threads :=
  upd T cur { T cur with state := .waiting, wakeup := time }

end Pok
