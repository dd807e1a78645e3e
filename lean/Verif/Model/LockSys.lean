import Verif.Model.LockObj

/-!
# All interleavings of operations on one lock object

Transition system around the functions of `Verif.Model.LockObj`: any number of threads (identifiers
below `N - 1`, see `IDLE_THREAD`/`KERNEL_THREAD` in kernel/include/core/thread.h 29-30), arbitrary
scheduling.  A step is one atomic kernel section: a call up to its scheduling point, or the part of a
blocked call that runs when its thread is dispatched again.  The scheduler is over-approximated: *any*
RUNNABLE thread may move next (kernel/core/sched.c dispatches only RUNNABLE threads, see property C04).
The log of observations is ghost state: it records what callers see.
-/

namespace Pok

/-- Where a thread is: in user code, suspended inside `pok_lockobj_lock` (line 275), inside
`pok_lockobj_eventwait` (line 193), or in the `pok_lockobj_lock` that ends `pok_lockobj_eventwait`
(line 206) with `ret_wait = r`. -/
inductive PC
  | user
  | inLock (deadline : Nat)
  | inWait (deadline : Nat)
  | inRelock (r : Errno)
  deriving DecidableEq, Repr

/-- Suspended in a `pok_lockobj_lock`. -/
def PC.locking : PC → Bool
  | .inLock _ => true
  | .inRelock _ => true
  | _ => false

/-- Suspended in the event queue part of `pok_lockobj_eventwait`. -/
def PC.waiting : PC → Bool
  | .inWait _ => true
  | _ => false

/-- The local variable `deadline` of the suspended call. -/
def PC.deadline : PC → Nat
  | .inLock d => d
  | .inWait d => d
  | _ => 0

/-- What threads observe. -/
inductive Obs
  | acquired (t : Nat)               -- a lock call (or the end of an event wait) got the resource
  | lockFailed (t : Nat) (e : Errno) -- a lock call returned the error `e`
  | released (t : Nat)               -- `t` called unlock (or began an event wait)
  | waitReturned (t : Nat) (e : Errno) -- an event wait returned `e`
  | signalled (t : Nat) (e : Errno)  -- `t` called signal, which returned `e`
  deriving DecidableEq, Repr

/-- State of the system. -/
structure LSys where
  now : Nat
  T : Threads
  o : LockObj
  pc : Nat → PC
  log : List Obs

/-- Steps. -/
inductive LEvent
  | lock (t timeout : Nat)
  | unlock (t : Nat)
  | wait (t timeout : Nat)
  | signal (t : Nat)
  | broadcast (t : Nat)
  | resume (t : Nat)
  | advance (δ : Nat)
  | wake (t : Nat)
  | env (t : Nat) (th : Thread)
  | setPrio (t p : Nat)
  | overrun (t : Nat)
  | activate (t : Nat)
  | resumeOther (t : Nat)
  deriving Repr

/-- The steps in which a thread suspended inside a lock call is not made runnable by anything but an
unlock, a signal or its own timer.  The other three are real kernel steps that ignore the reason why
the thread is suspended; they are kept apart because they break the lock protocol (see
`C26_mutual_exclusion_violated`). -/
def LEvent.ordinary : LEvent → Bool
  | .overrun _ => false
  | .activate _ => false
  | .resumeOther _ => false
  | _ => true

namespace LSys

/-- Effect of `pok_lockobj_lock` called by `t`, first part. -/
def doLock (N : Nat) (s : LSys) (t timeout : Nat) (pcOf : Nat → PC) (onOk : List Obs) : Option LSys :=
  match s.o.lockBegin N s.T s.now t timeout with
  | none => none
  | some (T, o, .done .ok) => some { s with T := T, o := o, pc := upd s.pc t .user, log := onOk ++ s.log }
  | some (T, o, .done e) =>
    some { s with T := T, o := o, pc := upd s.pc t .user, log := .lockFailed t e :: s.log }
  | some (T, o, .blocked d) => some { s with T := T, o := o, pc := upd s.pc t (pcOf d) }

/-- Effect of a step; `none` is undefined behaviour or a failed assertion.
`wake` is the wake-up test of the election loop (kernel/core/sched.c 205-212), `env` stands for
whatever a thread that is not inside a lock call does to itself or suffers (sleeping, stopping,
ending its period, …), `setPrio` for a priority change of any thread (kernel/core/thread.c 345-353),
`overrun` for the budget test of the election (kernel/core/sched.c 251-262: it overwrites the state of
the thread that was running, whatever it is), `activate` for the periodic release
(kernel/core/sched.c 214-220), `resumeOther` for `pok_thread_resume` (kernel/core/thread.c 355-364). -/
def exec (N : Nat) (s : LSys) : LEvent → Option LSys
  | .lock t timeout => doLock N s t timeout (fun d => .inLock d) [.acquired t]
  | .unlock t =>
    match s.o.unlock N s.T with
    | none => none
    | some (T, o, _, _) => some { s with T := T, o := o, log := .released t :: s.log }
  | .wait t timeout =>
    match s.o.waitBegin N s.T s.now t timeout with
    | none => none
    | some (T, o, .done e) => some { s with T := T, o := o, log := .waitReturned t e :: s.log }
    | some (T, o, .blocked d) =>
      some { s with T := T, o := o, pc := upd s.pc t (.inWait d), log := .released t :: s.log }
  | .signal t =>
    match s.o.signal N s.T with
    | none => none
    | some (T, o, e, _) => some { s with T := T, o := o, log := .signalled t e :: s.log }
  | .broadcast t =>
    match s.o.broadcast N s.T with
    | none => none
    | some (T, o, e) => some { s with T := T, o := o, log := .signalled t e :: s.log }
  | .resume t =>
    match s.pc t with
    | .user => some s
    | .inLock d =>
      match s.o.lockResume N s.now t d with
      | none => none
      | some (o, e) =>
        some { s with o := o, pc := upd s.pc t .user,
                      log := (if e = .ok then Obs.acquired t else .lockFailed t e) :: s.log }
    | .inWait d =>
      match s.o.waitResume N s.now t d with
      | none => none
      | some (o, r) =>
        doLock N { s with o := o } t 0 (fun _ => .inRelock r) [.waitReturned t r, .acquired t]
    | .inRelock r =>
      match s.o.lockResume N s.now t 0 with
      | none => none
      | some (o, e) =>
        some { s with o := o, pc := upd s.pc t .user,
                      log := if e = .ok then Obs.waitReturned t (LockObj.waitFinal e r) :: .acquired t :: s.log
                             else Obs.waitReturned t (LockObj.waitFinal e r) :: s.log }
  | .advance δ => some { s with now := s.now + δ }
  | .wake t => some { s with T := s.T.setState t .runnable }
  | .env t th => some { s with T := upd s.T t th }
  | .setPrio t p => some { s with T := upd s.T t { s.T t with priority := p } }
  | .overrun t => some { s with T := s.T.setState t .waitNextActivation }
  | .activate t =>
    some { s with T := upd s.T t { s.T t with state := .runnable, remaining := (s.T t).timeCapacity,
                                              nextActivation := addU64 (s.T t).nextActivation (s.T t).period } }
  | .resumeOther t =>
    some { s with T := upd s.T t { s.T t with state := .runnable, wakeup := s.now } }

/-- Thread `t` is between a successful lock and the matching unlock. -/
def Holding (log : List Obs) (t : Nat) : Prop := log.count (.released t) < log.count (.acquired t)

instance (log : List Obs) (t : Nat) : Decidable (Holding log t) :=
  inferInstanceAs (Decidable (_ < _))

/-- Which steps can happen.  A thread moves only if it is RUNNABLE; a call is made from user code;
a mutex (or an event's lock) is unlocked only by a thread that holds it; the timer wakes a WAITING
thread at or after its wake-up time; the environment changes only threads outside lock calls. -/
def enabled (N : Nat) (s : LSys) : LEvent → Prop
  | .lock t timeout => t < N - 1 ∧ (s.T t).state = .runnable ∧ s.pc t = .user ∧ timeout < U64
  | .unlock t => t < N - 1 ∧ (s.T t).state = .runnable ∧ s.pc t = .user ∧
      (s.o.kind ≠ .semaphore → Holding s.log t)
  | .wait t timeout => t < N - 1 ∧ (s.T t).state = .runnable ∧ s.pc t = .user ∧ timeout < U64 ∧
      s.o.kind = .event ∧ Holding s.log t
  | .signal t => t < N - 1 ∧ (s.T t).state = .runnable ∧ s.pc t = .user
  | .broadcast t => t < N - 1 ∧ (s.T t).state = .runnable ∧ s.pc t = .user
  | .resume t => (s.T t).state = .runnable ∧ s.pc t ≠ .user
  | .advance δ => s.now + δ < U64
  | .wake t => (s.T t).state = .waiting ∧ (s.T t).wakeup ≤ s.now
  | .env t _ => s.pc t = .user
  | .setPrio _ _ => True
  | .overrun t => (s.T t).remaining ≤ 0 ∧ 0 < (s.T t).timeCapacity
  | .activate t => (s.T t).state = .waitNextActivation ∧ (s.T t).nextActivation ≤ s.now
  | .resumeOther _ => True

instance (N : Nat) (s : LSys) (e : LEvent) : Decidable (enabled N s e) := by
  cases e <;> simp only [enabled, Holding] <;> infer_instance

/-- Executions. -/
inductive Run (N : Nat) : LSys → List LEvent → LSys → Prop
  | nil (s) : Run N s [] s
  | snoc {s s' s'' es} (e) : Run N s es s' → enabled N s' e → exec N s' e = some s'' →
      Run N s (es ++ [e]) s''

/-- Executable form of `Run`, for concrete runs. -/
def run? (N : Nat) : LSys → List LEvent → Option LSys
  | s, [] => some s
  | s, e :: es => if enabled N s e then (exec N s e).bind (fun s' => run? N s' es) else none

theorem Run.cons {N s s1 s2 e es} (he : enabled N s e) (hx : exec N s e = some s1)
    (h : Run N s1 es s2) : Run N s (e :: es) s2 := by
  induction h with
  | nil => exact Run.snoc (es := []) e (Run.nil s) he hx
  | snoc e' _ he' hx' ih => exact Run.snoc e' ih he' hx'

theorem run?_sound {N} : ∀ {es s s'}, run? N s es = some s' → Run N s es s' := by
  intro es
  induction es with
  | nil => intro s s' h; simp [run?] at h; subst h; exact Run.nil _
  | cons e es ih =>
    intro s s' h
    simp only [run?] at h
    split at h
    · rename_i he
      cases hx : exec N s e with
      | none => simp [hx] at h
      | some s1 => rw [hx] at h; exact Run.cons he hx (ih h)
    · simp at h

/-- The object has just been created with attributes `a`, and all threads are in user code. -/
def Initial (a : LockAttr) (s : LSys) : Prop :=
  ∃ o0 : LockObj, o0.create a = (s.o, .ok) ∧ (∀ t, s.pc t = .user) ∧ s.log = []

end LSys
end Pok
