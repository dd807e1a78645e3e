/-!
# The trace for the scheduling analysis

Model of kernel/core/instrumentation.c (`POK_NEEDS_INSTRUMENTATION`).  The output is the sequence of marks of the document that the lines prefixed with
`[INSTRUMENTATION][CHEDDAR][ARCHI]` make up; the texts between the marks that are not numbers are left out.
-/

namespace Pok.Trace

/-- A mark of the document: start of an element, end of an element, a number in between. -/
inductive Mark where
  | enter (tag : String)
  | leave (tag : String)
  | num (v : Int)
deriving DecidableEq, Repr

/-- What the functions read of `pok_threads[id]` and of the partition's record, kernel/include/core/thread.h 47-66 and
kernel/include/core/partition.h 75-86. -/
structure ThreadRec where
  partition : Nat
  capacity : Int
  deadline : Int
  period : Int
deriving DecidableEq, Repr

/-- The number that `printf ("%d")` shows of an argument: the lower 32 bits as a signed number. -/
def shown (v : Int) : Int := (v + 2 ^ 31) % 2 ^ 32 - 2 ^ 31

/-- `<tag>text</tag>` and `<tag>%d</tag>`. -/
def leaf (tag : String) : List Mark := [.enter tag, .leave tag]
def leafNum (tag : String) (v : Int) : List Mark := [.enter tag, .num (shown v), .leave tag]

/-- One `task` element, kernel/core/instrumentation.c 41-74. -/
def task (id : Nat) (t : ThreadRec) : List Mark :=
  [.enter "task"] ++ leaf "cpu_name" ++ leafNum "address_space_name" t.partition ++ leafNum "address_space_name" t.partition ++ leafNum "name" id ++
  leafNum "capacity" t.capacity ++ leafNum "start_time" 0 ++ leaf "policy" ++ leafNum "deadline" t.deadline ++ leafNum "criticality" 0 ++
  leafNum "context_switch_overhead" 0 ++ leafNum "blocking_time" 0 ++ leafNum "priority" 1 ++ leafNum "text_memory_size" 0 ++
  leafNum "stack_memory_size" 0 ++ leafNum "period" t.period ++ leafNum "jitter" 0 ++ [.leave "task"]

/-- One `address_space` element, kernel/core/instrumentation.c 84-99; the quantum is an attribute of the start of `scheduler`. -/
def space (id : Nat) (period : Int) : List Mark :=
  [.enter "address_space"] ++ leafNum "name" id ++ leaf "cpu_name" ++ leafNum "text_memory_size" 0 ++ leafNum "stack_memory_size" 0 ++
  leafNum "data_memory_size" 0 ++ leafNum "heap_memory_size" 0 ++ [.enter "scheduler", .num (shown period), .leave "scheduler"] ++ [.leave "address_space"]

/-- `pok_instrumentation_partition_is_init` and `pok_instrumentation_task_is_init`, kernel/core/instrumentation.c 22-23. -/
structure Flags where
  part : Bool := false
  task : Bool := false
deriving DecidableEq, Repr

/-- A call of the two functions: `pok_instrumentation_partition_archi (id)`, called for each partition by kernel/core/partition.c 240-242, and
`pok_instrumentation_task_archi (id)`, called at the creation of each thread by kernel/core/thread.c 219-221; `first` says that `id` is the
`thread_index_low` of its partition. -/
inductive Call where
  | partition (id : Nat) (period : Int)
  | thread (id : Nat) (first : Bool) (t : ThreadRec)
deriving DecidableEq, Repr

/-- The two functions, kernel/core/instrumentation.c 25-75 and 77-100: new flags and what is printed. -/
def call (f : Flags) : Call → Flags × List Mark
  | .thread id first t =>
    if first then (f, [])
    else ({ f with task := true }, (if f.task then [] else [.leave "address_spaces", .enter "tasks"]) ++ task id t)
  | .partition id period =>
    ({ f with part := true }, (if f.part then [] else [.enter "address_spaces"]) ++ space id period)

/-- A history of calls from the start of the system. -/
def trace (f : Flags) : List Call → List Mark
  | [] => []
  | x :: xs => (call f x).2 ++ trace (call f x).1 xs

/-- `pok_instrumentation_running_task`, kernel/core/instrumentation.c 102-107: the time and the thread of one line of the event trace. -/
def running (tick : Int) (id : Nat) : Int × Int := (shown tick, shown id)

end Pok.Trace
