{"id": "C01", "title": "Partitions run in the configured slot order", "statement": "At every scheduling point the running partition is the one that the configured slot table allocates to the current slot, and successive partition switches walk the slot table cyclically: no slot is skipped, repeated or reordered.", "quantifier": "every slot table, every boot, every finite sequence of scheduling points with arbitrary clock values", "why_tests_cant": "The order must hold after any number of switches and for any clock readings; a test sees a finite prefix of one table.", "anchors": ["kernel/core/sched.c: pok_sched_init, pok_elect_partition"]}
{"id": "C02", "title": "Slot boundaries never drift and a partition is never preempted before its window ends", "statement": "A partition is switched out only at a scheduling point whose clock has reached the end of its window; the end of the k-th window is exactly the sum of the first k configured slot durations, whatever the jitter of the scheduling points. If scheduling points are never further apart than the shortest slot, the partition running at clock t after a scheduling point is exactly the one the cyclic table prescribes for t.", "quantifier": "every slot table with positive durations, every history of scheduling points, every clock value", "why_tests_cant": "Drift accumulates over unbounded time and depends on interrupt jitter; no finite run excludes it.", "anchors": ["kernel/core/sched.c: pok_elect_partition, pok_sched_init"]}
{"id": "C03", "title": "Inter-partition ports are flushed only at the configured instants", "statement": "With the default policy ports are flushed at a partition switch exactly when the clock has reached the next major frame boundary, each boundary triggers at most one flush, and no flush happens between partition switches. With the windows policy, exactly the partition whose window ends is flushed; with the periodic policy at most one flush per configured period.", "quantifier": "every slot table, every history of scheduling points, all three flush policies", "why_tests_cant": "A flush at a wrong instant leaks data across partitions only for particular alignments of clock and frame.", "anchors": ["kernel/core/sched.c: pok_elect_partition", "kernel/middleware/portflushall.c"]}
{"id": "C04", "title": "Only an eligible thread of the running partition is dispatched", "statement": "When a partition is in NORMAL mode, the thread chosen to run on a processor is either that processor's idle thread or a runnable thread of this partition that is bound to this processor. It is never a thread of another partition, a blocked or stopped thread, or one bound to another processor.", "quantifier": "every thread table, every partition range, every policy (RR, static priority, RMS), every processor, every previous/current thread the kernel can record", "why_tests_cant": "Choice loops with wrap-around must be right for every table content and starting point.", "anchors": ["kernel/core/sched.c: pok_elect_thread, pok_sched_part_rr, pok_sched_part_static, pok_sched_part_rms"]}
{"id": "C05", "title": "Thread scheduling is work conserving", "statement": "If any thread of the running NORMAL partition bound to the processor is runnable, the idle thread is not dispatched.", "quantifier": "every thread table, every policy, every processor, every recorded previous/current thread", "why_tests_cant": "A search loop that misses one index fails only for particular starting points.", "anchors": ["kernel/core/sched.c: pok_sched_part_rr, pok_sched_part_static, pok_sched_part_rms"]}
{"id": "C06", "title": "Static priority: the highest-priority runnable thread runs", "statement": "Under the static policy the dispatched thread has the maximal priority among the runnable threads of the partition bound to the processor; among equals the first one in cyclic order starting at the current thread wins.", "quantifier": "every thread table and recorded current/previous thread", "why_tests_cant": "Needs all permutations of priorities and states.", "anchors": ["kernel/core/sched.c: pok_sched_part_static"]}
{"id": "C07", "title": "Round robin: bounded waiting", "statement": "Under round robin, a runnable current thread with remaining budget keeps the processor; otherwise the next runnable thread in cyclic order is dispatched, so that a thread that stays runnable is dispatched after at most n elections in which the current budget is exhausted, where n is the number of threads of the partition.", "quantifier": "every thread table, every runnable thread, every history of elections", "why_tests_cant": "Starvation freedom is a statement about all infinite schedules.", "anchors": ["kernel/core/sched.c: pok_sched_part_rr"]}
{"id": "C08", "title": "Rate monotonic: the shortest period runs first and thread identifiers stay meaningful", "statement": "Under RMS, after any sequence of thread creations the partition's table (excluding the main thread) is sorted by period and is a permutation of the created threads, and the dispatched thread has the smallest period among runnable non-main threads. The identifier returned by creation keeps designating the created thread.", "quantifier": "every sequence of creations with any periods, every set of runnable threads", "why_tests_cant": "Sorting must be right for every permutation and every insertion history.", "anchors": ["kernel/core/thread.c: pok_thread_insert_sort, pok_partition_thread_create", "kernel/core/sched.c: pok_sched_part_rms"]}
{"id": "C09", "title": "During initialisation only the main thread runs; other modes run nothing", "statement": "In COLD or WARM start mode the only thread dispatched in a partition is its main thread, on its processor, and every other processor idles; in IDLE or STOPPED mode no thread of the partition is dispatched.", "quantifier": "every kernel state and processor", "why_tests_cant": "Depends on every combination of mode, thread state and processor.", "anchors": ["kernel/core/sched.c: pok_elect_thread"]}
{"id": "C10", "title": "A sleeping thread does not run before its wake-up time, and is eligible from it on", "statement": "A thread that sleeps for d (or until t) is not dispatched at any scheduling point whose clock is before the wake-up time unless another thread explicitly resumes, restarts or unlocks it, and it becomes runnable at the first election of its partition at or after the wake-up time.", "quantifier": "every duration, clock and history of elections", "why_tests_cant": "Timing properties over all clock histories.", "anchors": ["kernel/core/thread.c: pok_thread_sleep, pok_thread_sleep_until", "kernel/core/sched.c: pok_sched_lock_current_thread_timed, pok_elect_thread"]}
{"id": "C11", "title": "Periodic releases do not drift", "statement": "A periodic thread that has finished its period is released at the first election at or after its next activation time, with a fresh budget, and its next activation time then moves by exactly its period: the k-th activation time is the first plus k periods, whatever the lateness of elections.", "quantifier": "every period, every history of elections", "why_tests_cant": "Drift shows only after unboundedly many periods.", "anchors": ["kernel/core/sched.c: pok_elect_thread, pok_sched_end_period"]}
{"id": "C12", "title": "A thread with a finite budget is stopped when the budget is used up", "statement": "A thread with a positive time capacity c can be the current thread at no more than c+1 consecutive elections of its partition before it is forced to wait for its next activation; a thread with infinite capacity is never stopped for its budget.", "quantifier": "every capacity, every history of elections", "why_tests_cant": "Quantifies over every history and budget.", "anchors": ["kernel/core/sched.c: pok_elect_thread"]}
{"id": "C13", "title": "A blocked thread stays blocked until the event it waits for", "statement": "A thread that blocks without timeout (on a lock, an event, or by suspending or stopping itself) does not become runnable through the passage of time or through elections.", "quantifier": "every thread, every history of elections and clock values", "why_tests_cant": "Requires every combination of blocking reason, budget and clock.", "anchors": ["kernel/core/sched.c: pok_elect_thread, pok_sched_lock_current_thread, pok_sched_stop_self"]}
{"id": "C14", "title": "Thread creation is bounded, fresh and confined to the creating partition", "statement": "Creating a thread succeeds only in COLD/WARM start mode and only while fewer than the configured number of threads exist; the returned identifier lies in the partition's own range and was not returned before since the partition last (re)started; no thread of another partition is changed; otherwise an error is returned and nothing is created.", "quantifier": "every partition, every history of creations with any attributes", "why_tests_cant": "Freshness ranges over all histories.", "anchors": ["kernel/core/thread.c: pok_partition_thread_create"]}
{"id": "C15", "title": "Thread and lock-object ranges of partitions are disjoint", "statement": "After boot the thread ranges given to the partitions are pairwise disjoint, contiguous from 0, of the configured size, and lie below the idle and kernel threads whenever the configuration leaves room for these; likewise for the lock-object ranges.", "quantifier": "every number of partitions and every configured thread and lock-object count", "why_tests_cant": "Configuration space is unbounded.", "anchors": ["kernel/core/partition.c: pok_partition_init", "kernel/include/core/thread.h: KERNEL_THREAD, IDLE_THREAD"]}
{"id": "C16", "title": "Thread management calls cannot touch another partition's threads", "statement": "No call by a partition to set a priority, resume, suspend, start, delay-start, restart or stop a thread, whatever the thread identifier passed, changes a thread outside the calling partition; identifiers outside its range are rejected with an error.", "quantifier": "every caller, every identifier (full 32-bit range), every state", "why_tests_cant": "A boundary error is visible for exactly one identifier per partition.", "anchors": ["kernel/core/thread.c: pok_thread_set_priority, pok_thread_resume, pok_thread_suspend_target, pok_thread_delayed_start, pok_thread_get_status, pok_thread_restart", "kernel/core/partition.c: pok_partition_stop_thread, pok_partition_restart_thread"]}
{"id": "C17", "title": "Partition mode changes follow the documented automaton", "statement": "A mode change request succeeds only as follows: NORMAL by the main thread, from any mode but IDLE; STOPPED, COLD or WARM start only by the registered error handler thread, and never WARM from COLD. Every other request fails and leaves the mode unchanged. A successful request puts the partition in the requested mode.", "quantifier": "every current mode, requested mode (any value) and calling thread", "why_tests_cant": "All combinations of mode, caller and registration.", "anchors": ["kernel/core/partition.c: pok_partition_set_mode, pok_partition_set_mode_current"]}
{"id": "C18", "title": "Entering NORMAL mode releases delayed threads at the right time and stops the main thread", "statement": "When a partition enters NORMAL mode, each thread waiting for a delayed start becomes runnable at once if its delay is zero and otherwise becomes eligible at the requested delay after the start (aperiodic) or after the next major frame (periodic); all other threads of the partition keep their state, the main thread is stopped, and no thread of another partition changes.", "quantifier": "every thread table, every delay", "why_tests_cant": "All thread tables.", "anchors": ["kernel/core/partition.c: pok_partition_set_mode"]}
{"id": "C19", "title": "Restarting a partition resets its threads and only them", "statement": "A restart returns the partition to its initial thread count (only the main thread exists and is reset), keeps its memory range, and does not change any thread or partition outside it.", "quantifier": "every kernel state", "why_tests_cant": "Every prior state.", "anchors": ["kernel/core/partition.c: pok_partition_reinit, pok_partition_setup_main_thread"]}
{"id": "C20", "title": "Pointer arguments accepted by the kernel lie inside the caller's memory", "statement": "The pointer check accepts a pointer and size exactly when all addressed bytes lie inside the calling partition's memory; in particular no arithmetic wrap-around lets a range escape.", "quantifier": "every partition, every 32-bit pointer and size", "why_tests_cant": "2^64 pointer/size pairs.", "anchors": ["kernel/include/core/partition.h: pok_check_ptr_in_partition"]}
{"id": "C21", "title": "Every system call touches only checked memory of the caller", "statement": "For every system call number and arguments, every user address the kernel reads or writes on behalf of the caller lies inside the caller's memory, or the call is rejected with EINVAL.", "quantifier": "every system call and every argument vector", "why_tests_cant": "A missing or wrongly sized check is visible only for arguments at the edge of the partition.", "anchors": ["kernel/core/syscall.c: pok_core_syscall, CHECK_PTR", "kernel/arch/x86/syscalls.c: syscall_gate"]}
{"id": "C22", "title": "Unknown or malformed system calls are rejected", "statement": "A system call whose number is not implemented, or whose argument count differs from the expected count, returns EINVAL and has no effect other than raising an illegal-request error for unknown numbers.", "quantifier": "every system call number and argument count", "why_tests_cant": "The whole number space.", "anchors": ["kernel/core/syscall.c: pok_core_syscall"]}
{"id": "C23", "title": "A partition can reach only its own hardware I/O ports", "statement": "An I/O port read or write is performed only if the port lies in the partition's configured interval; otherwise the call fails with EPERM and no access is made.", "quantifier": "every partition, every port number (32 bits)", "why_tests_cant": "All port numbers and intervals.", "anchors": ["kernel/core/syscall.c: POK_SYSCALL_INB, POK_SYSCALL_OUTB"]}
{"id": "C24", "title": "Waiting threads are queued in FIFO order without loss or duplication", "statement": "The wait queue of a FIFO lock object behaves as a bounded list: threads leave in the order they arrived, removing a thread removes exactly that thread and keeps the order of the others, and a full queue rejects an arrival without change.", "quantifier": "every capacity, every sequence of enqueue, dequeue and remove operations", "why_tests_cant": "Ring-buffer index errors show up only for particular wrap positions.", "anchors": ["kernel/core/lockobj.c: pok_lockobj_enqueue, pok_lockobj_dequeue, pok_lockobj_remove_thread, pok_lockobj_get_head"]}
{"id": "C25", "title": "Priority queues serve the highest priority first, FIFO among equals", "statement": "With the PRIORITY discipline the wait queue is always sorted by decreasing priority, threads of equal priority stay in arrival order, and no thread is lost or duplicated.", "quantifier": "every capacity, every priority assignment, every sequence of operations", "why_tests_cant": "All priority permutations and wrap positions.", "anchors": ["kernel/core/lockobj.c: pok_lockobj_enqueue"]}
{"id": "C26", "title": "Mutual exclusion", "statement": "At any time at most one thread is between a successful lock and the matching unlock of a mutex.", "quantifier": "every number of threads, every interleaving of lock, unlock, timeout and dispatch", "why_tests_cant": "All interleavings.", "anchors": ["kernel/core/lockobj.c: pok_lockobj_lock, pok_lockobj_unlock"]}
{"id": "C27", "title": "Counting semaphores conserve tokens", "statement": "The number of successful waits never exceeds the initial value plus the number of signals, the value never exceeds the configured maximum, and no signal below the maximum is lost.", "quantifier": "every initial and maximum value, every interleaving of waits, signals, timeouts and dispatches", "why_tests_cant": "All interleavings.", "anchors": ["kernel/core/lockobj.c: pok_lockobj_lock, pok_lockobj_unlock, pok_lockobj_create"]}
{"id": "C28", "title": "No thread waits for a resource that is available", "statement": "Whenever a thread is queued on a lock object, no unit of the resource is available; an unlock with waiters wakes exactly the first waiter, which then owns the unit.", "quantifier": "every interleaving", "why_tests_cant": "Lost wake-ups depend on interleavings.", "anchors": ["kernel/core/lockobj.c: pok_lockobj_lock, pok_lockobj_unlock"]}
{"id": "C29", "title": "Timed lock: the return code tells whether the resource was obtained", "statement": "A timed lock returns OK exactly when the caller obtained the unit, and TIMEOUT exactly when it did not; TIMEOUT is never returned before the deadline, and after TIMEOUT the thread is no longer queued.", "quantifier": "every deadline, every interleaving of unlocks, elections and clock ticks", "why_tests_cant": "A race between grant and expiry exists for one alignment of ticks.", "anchors": ["kernel/core/lockobj.c: pok_lockobj_lock"]}
{"id": "C30", "title": "Events: signal wakes the first waiter, broadcast wakes all", "statement": "Signalling an event wakes exactly the highest-priority longest-waiting thread and no other; with no waiter it reports NOTFOUND and changes nothing (the signal is not remembered); a broadcast wakes every waiter. Waiting releases the event's lock and holds it again when it returns.", "quantifier": "every set of waiters, every interleaving", "why_tests_cant": "All waiter sets and interleavings.", "anchors": ["kernel/core/lockobj.c: pok_lockobj_eventwait, pok_lockobj_eventsignal, pok_lockobj_eventbroadcast"]}
{"id": "C31", "title": "Lock objects are private to their partition and created at most once", "statement": "Creating a lock object succeeds only in COLD/WARM start mode, with a valid kind and policy, and returns an unused object of the calling partition; operations on an identifier outside the partition's range or of another kind are rejected with EINVAL, and no operation changes a lock object of another partition.", "quantifier": "every partition, identifier, attribute and history", "why_tests_cant": "All identifiers and histories.", "anchors": ["kernel/core/lockobj.c: pok_lockobj_partition_create, pok_lockobj_partition_wrapper, pok_lockobj_create"]}
{"id": "C32", "title": "Port buffers are disjoint", "statement": "The buffers of all created ports are pairwise disjoint and lie inside the kernel's port memory; creation fails without effect when the memory is exhausted.", "quantifier": "every sequence of port creations", "why_tests_cant": "All histories of creations with all sizes.", "anchors": ["kernel/middleware/portcreate.c", "kernel/middleware/queueinit.c"]}
{"id": "C33", "title": "Sampling ports deliver the last written message", "statement": "A read of a sampling port returns the most recently written message, does not consume it, reports EMPTY when nothing was written, and reports validity according to the refresh period and the age of the data.", "quantifier": "every history of writes, flushes and reads, every message", "why_tests_cant": "All message contents and histories.", "anchors": ["kernel/middleware/portsamplingread.c", "kernel/middleware/portsamplingwrite.c", "kernel/middleware/portutils.c: pok_port_get, pok_port_write"]}
{"id": "C34", "title": "Queueing ports are loss-free FIFO byte streams", "statement": "The bytes received from a queueing port are exactly the bytes sent, in order: a send that is accepted never overwrites unread bytes, a receive removes exactly the bytes it returns, and transferring a port to its destinations loses nothing.", "quantifier": "every port size, every history of sends, receives and flushes", "why_tests_cant": "Wrap-around and fullness errors appear only for particular offsets.", "anchors": ["kernel/middleware/portutils.c", "kernel/middleware/portqueueingsend.c", "kernel/middleware/portqueueingreceive.c", "kernel/middleware/portflushall.c"]}
{"id": "C35", "title": "Only the owner uses a port, in its configured direction", "statement": "A port operation succeeds only if the calling partition owns the port, the port has been created, is of the right kind and direction; every other call returns an error and changes no port.", "quantifier": "every partition, every port identifier, every state", "why_tests_cant": "All identifiers including the boundary one.", "anchors": ["kernel/middleware/portutils.c: pok_own_port", "kernel/middleware/portqueueingsend.c", "kernel/middleware/portsamplingwrite.c"]}
{"id": "C36", "title": "Flushing moves data only along configured routes", "statement": "A flush changes only the flushed partition's OUT ports and their configured, created IN destinations; every other port and its stored data are unchanged.", "quantifier": "every routing table, every port state", "why_tests_cant": "All routing tables.", "anchors": ["kernel/middleware/portflushall.c: pok_port_flush_partition"]}
{"id": "C37", "title": "Application error messages reach the error handler unchanged", "statement": "An error raised with a message of n bytes is delivered to the error handler with the raising thread's identifier and exactly the first min(n, 250) bytes; the status can be read once per error and is then gone.", "quantifier": "every message and length", "why_tests_cant": "All messages and lengths.", "anchors": ["kernel/core/error.c: pok_error_raise_application_error, pok_error_get"]}
{"id": "C38", "title": "Faults are routed to the faulty partition's handler, or contained", "statement": "A fault raised by a thread starts the error handler of its own partition if one is registered; otherwise the configured partition- or kernel-level action applies, and no other partition's threads change state.", "quantifier": "every fault kind, thread and registration state", "why_tests_cant": "All combinations.", "anchors": ["kernel/core/error.c: pok_error_declare, pok_partition_error", "kernel/core/sched.c: pok_sched_activate_error_thread"]}
{"id": "C39", "title": "Heap blocks never overlap and stay inside the heap", "statement": "At any time the live blocks returned by the allocator are pairwise disjoint and lie inside the heap, whatever the sequence of allocations and frees.", "quantifier": "every sequence of allocations and frees, every size", "why_tests_cant": "Fragmentation histories are unbounded.", "anchors": ["libpok/core/allocator.c: pok_allocator_allocate, pok_allocator_free, pok_allocator_merge_space"]}
{"id": "C40", "title": "Allocation fails only when it must", "statement": "Allocation returns a block of at least the requested size whenever a large enough free block and a table entry exist, and NULL otherwise; freeing everything makes the whole heap available again.", "quantifier": "every heap state reachable by allocations and frees", "why_tests_cant": "All histories.", "anchors": ["libpok/core/allocator.c"]}
{"id": "C41", "title": "Buffers deliver messages in order without corruption", "statement": "Messages received from a buffer are exactly those sent, in order, and sending never writes outside the buffer's own storage.", "quantifier": "every buffer geometry and history of sends and receives", "why_tests_cant": "Wrap-around for particular sizes only.", "anchors": ["libpok/middleware/buffersend.c", "libpok/middleware/bufferreceive.c", "libpok/middleware/buffercreate.c"]}
{"id": "C42", "title": "Blackboards show the last displayed message or report emptiness", "statement": "Reading a blackboard returns the most recently displayed message; a blackboard that was never written or was cleared is reported empty.", "quantifier": "every history of create, display, clear and read", "why_tests_cant": "All histories and messages.", "anchors": ["libpok/middleware/blackboarddisplay.c", "libpok/middleware/blackboardread.c", "libpok/middleware/blackboardclear.c"]}
{"id": "C43", "title": "64-bit division is exact", "statement": "The library's 64-bit unsigned division and remainder return the mathematical quotient and remainder for every dividend and non-zero divisor.", "quantifier": "all 2^128 operand pairs", "why_tests_cant": "2^128 inputs.", "anchors": ["kernel/libc/__udivdi3.c: __udivdi3", "kernel/libc/__umoddi3.c: __umoddi3", "libpok/libc/misc/__udivdi3.c", "libpok/libc/misc/__umoddi3.c"]}
{"id": "C44", "title": "Integer/text conversions round-trip", "statement": "Converting any integer to decimal text and back yields the same integer, and the text is the canonical decimal representation.", "quantifier": "every 32-bit integer", "why_tests_cant": "Every integer and every radix.", "anchors": ["libpok/libc/string/itoa.c: itoa", "libpok/libc/string/atoi.c: atoi"]}
{"id": "C45", "title": "String and memory routines meet their C specification", "statement": "strlen, strcmp, strncmp, strcpy, memcpy, memset and memcmp behave as specified by ISO C on all valid arguments, and access only the bytes the standard allows.", "quantifier": "every string and buffer content and length", "why_tests_cant": "Unbounded inputs.", "anchors": ["libpok/libc/string/memcpy.c", "libpok/libc/string/memset.c", "libpok/libc/string/memcmp.c", "libpok/libc/string/strcmp.c", "libpok/libc/string/strcpy.c", "libpok/libc/string/strlen.c", "kernel/libc/memcpy.c", "kernel/libc/memset.c", "kernel/libc/strcmp.c", "kernel/libc/strlen.c"]}
{"id": "C46", "title": "Name comparison used for object lookup is equality", "statement": "Looking up a buffer, blackboard, event or semaphore by name finds an object only if its configured name equals the requested name.", "quantifier": "every pair of names", "why_tests_cant": "All pairs of strings.", "anchors": ["libpok/libc/string/streq.c", "libpok/arinc653/semaphore.c", "libpok/arinc653/event.c"]}
{"id": "C47", "title": "Caesar protocol round trip", "statement": "Unmarshalling a marshalled message yields the original message.", "quantifier": "every byte string", "why_tests_cant": "Fails for some byte values only.", "anchors": ["libpok/protocols/ceasar/ceasar.c"]}
{"id": "C48", "title": "DES protocol round trip", "statement": "Decrypting an encrypted block yields the original block, for every key schedule and every block, and decrypting a CBC-encrypted message yields the message.", "quantifier": "every key schedule, block and message of any length", "why_tests_cant": "2^64 blocks and 2^56 keys, any message length.", "anchors": ["libpok/protocols/des/des_enc.c", "libpok/protocols/des/ncbc_enc.c"]}
{"id": "C49", "title": "Blowfish protocol round trip", "statement": "Decrypting an encrypted block yields the original block for every key schedule.", "quantifier": "every key and block", "why_tests_cant": "Unbounded key and block space.", "anchors": ["libpok/protocols/blowfish/bf_enc.c"]}
{"id": "C50", "title": "Virtual processor numbering is a bijection", "statement": "For every affinity mask and every virtual processor number below its population count, translating to a real processor and back is the identity, and translation hits only processors in the mask.", "quantifier": "every affinity mask, every virtual number", "why_tests_cant": "All masks.", "anchors": ["kernel/core/multiprocessing.c"]}
{"id": "C51", "title": "Processor rendezvous is a barrier", "statement": "No processor leaves a rendezvous before the initiator releases it, and the initiator releases it only after every other processor has arrived; the barrier can be reused.", "quantifier": "every number of processors, every interleaving of their steps", "why_tests_cant": "All interleavings.", "anchors": ["kernel/include/arch/x86/rendezvous.h", "kernel/core/sched.c: pok_sched_synchro"]}
{"id": "C52", "title": "Spinlocks give mutual exclusion between processors", "statement": "At most one processor is between acquiring and releasing a spinlock.", "quantifier": "every number of processors and interleaving", "why_tests_cant": "All interleavings.", "anchors": ["kernel/include/arch/x86/spinlock.h"]}
{"id": "C53", "title": "x86 segments cover exactly the partition's memory", "statement": "A partition's code and data segments give access to exactly the bytes of its memory area, and when a partition is running no other partition's segment is enabled.", "quantifier": "every base address, size and switch history", "why_tests_cant": "All bases and sizes; limit granularity matters only for some sizes.", "anchors": ["kernel/arch/x86/gdt.c", "kernel/arch/x86/space.c"]}
{"id": "C54", "title": "Thread stacks are disjoint and inside the partition", "statement": "The stacks of distinct threads of a partition do not overlap and lie inside the partition's memory.", "quantifier": "every partition size, stack size and thread number", "why_tests_cant": "All sizes and thread counts.", "anchors": ["kernel/arch/x86/arch.c: pok_thread_stack_addr", "kernel/core/thread.c"]}
{"id": "C55", "title": "Boot memory regions are disjoint", "statement": "Regions returned by the physical memory allocator are pairwise disjoint and aligned as requested.", "quantifier": "every sequence of requests", "why_tests_cant": "All sequences.", "anchors": ["kernel/arch/x86/x86-qemu/pm.c"]}
{"id": "C56", "title": "Console output stays on the screen", "statement": "Whatever is printed, the cursor stays inside the 80x25 screen and video memory writes stay inside its 4000 bytes.", "quantifier": "every byte sequence and starting cursor", "why_tests_cant": "All byte sequences.", "anchors": ["kernel/arch/x86/x86-qemu/cons.c"]}
{"id": "C57", "title": "Timer accounting: one scheduling round per quantum", "statement": "After n timer interrupts the clock has advanced by exactly n increments, the number of scheduling rounds is exactly the number of whole quanta elapsed, and the accumulator stays below one quantum.", "quantifier": "every number of interrupts", "why_tests_cant": "Drift shows only after unboundedly many ticks.", "anchors": ["kernel/arch/x86/x86-qemu/pit.c"]}
{"id": "C58", "title": "ELF loading reproduces the image", "statement": "After loading a partition, every loadable segment's file bytes are at its configured address, the remainder of its memory size is zero, and bytes outside the segments are unchanged; segments outside the partition are rejected.", "quantifier": "every ELF image", "why_tests_cant": "All images.", "anchors": ["kernel/core/loader.c"]}
{"id": "C59", "title": "Page faults map only the partition's own memory", "statement": "On PowerPC a page fault installs a translation only for an address inside the faulting partition, and the translation points into the partition's physical area.", "quantifier": "every address and partition layout", "why_tests_cant": "All addresses.", "anchors": ["kernel/arch/ppc/space.c"]}
{"id": "C60", "title": "ARINC return codes are those of the standard", "statement": "Every ARINC-653 service reports success as NO_ERROR and failures with codes of the ARINC-653 RETURN_CODE set, matching the outcome of the underlying kernel call.", "quantifier": "every service, every kernel return code", "why_tests_cant": "All combinations of services and kernel codes.", "anchors": ["libpok/arinc653/"]}
{"id": "C61", "title": "ARINC timeouts are converted faithfully", "statement": "An infinite ARINC timeout never expires, a zero timeout never blocks, and a finite timeout expires after that duration.", "quantifier": "every timeout value (64-bit)", "why_tests_cant": "All 64-bit values.", "anchors": ["libpok/arinc653/semaphore.c", "libpok/arinc653/queueing.c", "libpok/core/semwait.c"]}
{"id": "C62", "title": "Process identifiers and names are consistent", "statement": "After creating ARINC processes with distinct names, looking up a created process's name returns its identifier, and looking up any other name reports INVALID_CONFIG.", "quantifier": "every sequence of creations and lookups", "why_tests_cant": "All histories and names.", "anchors": ["libpok/arinc653/process.c", "libpok/arinc653/arincutils.c"]}
{"id": "C63", "title": "An array allocation is as large as asked for", "statement": "calloc(count, size) either fails or returns a block of at least count * size bytes (mathematical product), all zero.", "quantifier": "every count and size (32 bits), every heap state", "why_tests_cant": "Overflow of the product happens only for huge arguments.", "anchors": ["libpok/libc/stdlib/calloc.c: calloc", "libpok/core/allocator.c: pok_allocator_allocate"]}
{"id": "C65", "title": "rand stays in range", "statement": "Every number returned by rand is between 0 and RAND_MAX, whatever the state of the generator.", "quantifier": "every generator state", "why_tests_cant": "2^32 states.", "anchors": ["libpok/libc/stdlib/rand.c: rand"]}
{"id": "C66", "title": "Ciphered messages arrive whole", "statement": "A message passed through pok_protocols_des_marshall and pok_protocols_des_unmarshall (or the Blowfish pair) comes back with the same bytes and the same size.", "quantifier": "every configured key, initial vector and message of any length", "why_tests_cant": "Holds for every key and message length; tests use the default key and one block.", "anchors": ["libpok/protocols/des/des.c: pok_protocols_des_marshall, pok_protocols_des_unmarshall", "libpok/protocols/des/set_key.c: DES_set_key_checked", "libpok/protocols/blowfish/blowfish.c"]}
{"id": "C67", "title": "Interrupts reach their own handler and only the processor can raise them", "statement": "After boot each processor exception and the system call interrupt goes to its handler, and no other interrupt is delivered. Registering a handler for a vector makes that interrupt go to it and changes no other. A program in a partition can raise only the system call interrupt. Registering a device leaves the system call working.", "quantifier": "every handler address, vector, interrupt table and program privilege", "why_tests_cant": "256 vectors, every handler address and every order of registrations.", "anchors": ["kernel/arch/x86/event.c: pok_idt_init, pok_idt_set_gate, pok_event_init", "kernel/arch/x86/exceptions.c: pok_exception_init", "kernel/arch/x86/syscalls.c: pok_syscall_init", "kernel/arch/x86/arch.c: pok_arch_event_register", "kernel/arch/x86/pci.c: pci_register", "kernel/arch/x86/x86-qemu/bsp.c: pok_bsp_irq_register"]}
{"id": "C68", "title": "An interrupted program goes on unchanged", "statement": "A program interrupted at any instruction, by a device, an exception or a system call, goes on with all its registers, flags and segments as they were (except the result of a system call, in eax), whatever the handler does outside the saved frame; and the kernel stack used by the next interrupt is again the same.", "quantifier": "every machine state, handler and handler behaviour", "why_tests_cant": "Interrupts come between any two instructions, with any register contents.", "anchors": ["kernel/arch/x86/interrupt.h: INTERRUPT_HANDLER, INTERRUPT_HANDLER_errorcode, INTERRUPT_HANDLER_syscall", "kernel/arch/x86/interrupt.c: update_tss", "kernel/arch/x86/ipi.c", "kernel/arch/x86/exceptions.c"]}
{"id": "C69", "title": "An interrupt line is open exactly when last unmasked", "statement": "After any sequence of requests an interrupt line is let through exactly if the last request about it was to unmask it (at first only the cascade line); a line that does not exist is refused without effect; registering a handler for a line opens it.", "quantifier": "every sequence of mask and unmask requests, every line", "why_tests_cant": "Histories of any length over 16 lines.", "anchors": ["kernel/arch/x86/x86-qemu/pic.c: pok_pic_init, pok_pic_mask, pok_pic_unmask", "kernel/arch/x86/x86-qemu/bsp.c: pok_bsp_irq_register"]}
{"id": "C70", "title": "A suspended thread is resumed as it was", "statement": "A thread that gives up the processor is later resumed with its registers and flags, right after its call, whatever ran in between outside its stack. A thread run for the first time starts at its entry point, on its own stack, with its arguments; a partition's thread starts in user mode with the partition's segments and interrupts enabled.", "quantifier": "every register contents, stack address, entry point and number of switches in between", "why_tests_cant": "Switches happen at any point with any register contents.", "anchors": ["kernel/arch/x86/thread.c: pok_context_create, pok_context_switch", "kernel/arch/x86/space.c: pok_space_context_create, pok_dispatch_space"]}
{"id": "C71", "title": "Starting a thread with a delay resets that thread only", "statement": "pok_thread_delayed_start gives the thread the context of a new thread and touches no memory but the thread's own.", "quantifier": "every partition address and size, thread and memory contents", "why_tests_cant": "The memory damaged depends on the partition's size and the thread's rank.", "anchors": ["kernel/arch/x86/thread.c: pok_context_reset", "kernel/core/thread.c: pok_thread_delayed_start", "kernel/arch/x86/arch.c: pok_thread_stack_addr"]}
{"id": "C72", "title": "A system call is attributed to the partition that made it", "statement": "A system call made by a partition, at any point and with any registers, is executed on behalf of that partition.", "quantifier": "every number of processors and partitions the segment table can hold, every machine state", "why_tests_cant": "Every partition number and register contents.", "anchors": ["kernel/arch/x86/syscalls.c: PARTITION_ID, INTERRUPT_HANDLER_syscall", "kernel/arch/x86/gdt.h"]}
{"id": "C73", "title": "Processes can be started, suspended, resumed and stopped", "statement": "START makes a dormant process ready, SUSPEND makes an aperiodic process wait until RESUME makes it ready again, and STOP makes a process dormant; each service that cannot do so answers with an error and changes nothing.", "quantifier": "every reachable kernel state, every process and caller", "why_tests_cant": "All process states, partition modes and callers.", "anchors": ["libpok/arinc653/process.c: START, DELAYED_START, SUSPEND, RESUME, STOP, SET_PRIORITY", "kernel/core/thread.c: pok_thread_delayed_start, pok_thread_suspend_target, pok_thread_resume"]}
{"id": "C74", "title": "The kernel is not interrupted while it runs", "statement": "While kernel code runs on behalf of an interrupt, a fault, a system call or the start of a partition, interrupts are masked and the kernel's own code and data segments are in use; the caller's own interrupt flag comes back when the kernel returns.", "quantifier": "every processor state at entry, every vector, every gate the kernel installs, and the start of every partition", "why_tests_cant": "A re-entrant interrupt corrupts the scheduler only for some instants of arrival; no test run exercises every instant.", "anchors": ["kernel/include/arch/x86/interrupt.h", "kernel/arch/x86/event.c: pok_idt_init, pok_idt_set_gate", "kernel/arch/x86/arch.c", "kernel/arch/x86/space.c: pok_dispatch_space", "kernel/arch/x86/thread.c"]}
{"id": "C75", "title": "Library calls reach the kernel service with their arguments", "statement": "Each call of the partition library (semaphores, events, mutexes, threads, time, partition mode and status, errors, ports, console) makes the kernel perform the service that the call names, with exactly the arguments that the partition gave: identifiers, times, disciplines, names and message bytes arrive unchanged.", "quantifier": "every library call, every value of its arguments allowed by its prototype, every content of the caller's memory and stack, every partition", "why_tests_cant": "The arguments pass through casts, stack structures and an argument block laid out separately in the library and in the kernel; only values beyond a hidden width, or particular stack contents, show a disagreement.", "anchors": ["libpok/core/*.c", "libpok/middleware/port*.c", "libpok/include/core/syscall.h: pok_syscall0..5", "libpok/arch/x86/syscall.c: pok_do_syscall", "kernel/arch/x86/syscalls.c: syscall_gate", "kernel/core/syscall.c: pok_core_syscall"]}
{"id": "C76", "title": "A thread that is started, resumed or suspended obeys the request", "statement": "A thread started in NORMAL mode with a delay stays off the processor until the delay has passed and is ready to run from the first scheduling point after it; one started without delay, or resumed, is ready to run at once; a thread that is suspended does not run until it is resumed.", "quantifier": "every reachable kernel state, every thread of the caller's partition, every delay and clock value, every later sequence of scheduling points and system calls", "why_tests_cant": "Whether the delay is honoured depends on every interleaving of ticks and other calls between the start and the expiry.", "anchors": ["kernel/core/thread.c: pok_thread_delayed_start", "kernel/core/thread.c: pok_thread_resume", "kernel/core/thread.c: pok_thread_suspend_target", "kernel/core/sched.c: pok_elect_thread"]}
{"id": "C77", "title": "Results that the kernel stores arrive in the caller's variables", "statement": "When a call that returns information (thread, port, processor and error status, identifiers, times) succeeds, each field of the result, as the library declares it, holds the value that the kernel has for it, and no other memory of the partition changes.", "quantifier": "every kind of result, every value of every field, every previous content of memory, every address of the variable", "why_tests_cant": "The structures are declared twice, in the kernel's and in the library's headers; a disagreement shows only in particular fields, with particular earlier contents of memory, or in the variables next to the result.", "anchors": ["kernel/include/core/error.h: pok_error_status_t", "libpok/include/core/error.h: pok_error_status_t", "kernel/core/error.c: pok_error_get", "libpok/arinc653/error.c: GET_ERROR_STATUS", "kernel/include/middleware/port.h", "libpok/include/middleware/port.h: pok_port_queueing_status_t", "kernel/middleware/portsamplingstatus.c", "kernel/middleware/portqueueingstatus.c", "kernel/core/syscall.c"]}
{"id": "C78", "title": "The log of errors keeps every error reported", "statement": "Every error that a partition's handler confirms or ignores is kept in the partition's log, in order, with its thread, its kind and its time.", "quantifier": "every sequence of errors, of any length", "why_tests_cant": "The log is a fixed table; only a sequence longer than the table shows what happens at its end.", "anchors": ["libpok/core/errorlog.c", "libpok/core/errorconfirm.c", "libpok/core/errorignore.c"]}
{"id": "C79", "title": "Default attributes and computed deadlines are usable as given", "statement": "Attributes filled in by the default initialiser make a valid aperiodic thread whatever the memory held before, and a deadline computed from the clock can be passed to the absolute sleep to wake at that instant.", "quantifier": "every previous content of the attribute variable, every clock value and delay", "why_tests_cant": "An uninitialised field depends on earlier stack contents, and the units of two calls agree or disagree for every value at once.", "anchors": ["libpok/core/threadattrinit.c: pok_thread_attr_init", "libpok/core/timecomputedeadline.c: pok_time_compute_deadline", "libpok/include/core/thread.h: pok_thread_sleep_until"]}
{"id": "C80", "title": "A created thread has, and keeps, the attributes it was created with", "statement": "After a successful creation the status of the new thread tells exactly the priority, processor, entry point, period, deadline and time capacity that the creation gave, no other thread changes, and the attributes stay the same until the partition is restarted.", "quantifier": "every reachable state of the kernel, every value of the attributes, every later history of calls and scheduling points of all partitions", "why_tests_cant": "The kernel keeps the attributes in a slot of a shared table that later creations, elections, errors and restarts of any partition write; only particular histories leave old values behind.", "anchors": ["kernel/core/thread.c: pok_partition_thread_create", "kernel/core/thread.c: pok_thread_get_status", "kernel/core/sched.c: pok_elect_thread", "kernel/core/partition.c: pok_partition_reinit"]}
{"id": "C64", "title": "Formatted output prints the format with its arguments", "statement": "printf prints exactly its format with every conversion replaced by its argument in canonical form (decimal with sign, octal, hexadecimal, character, string, converted to the size announced by hh, h, l, ll), whatever the length of the text, and returns the number of characters printed.", "quantifier": "every format made of ordinary characters and conversions, every value of the arguments, every length of output, with and without assertions", "why_tests_cant": "The output passes through a 128-character buffer that is flushed on the way and digits are computed by repeated division; boundary values and long outputs cannot be enumerated.", "anchors": ["kernel/libc/printf.c: vprintf, special_char, my_printnbr_base, print_int", "libpok/libc/stdio/printf.c: vprintf"]}
{"id": "C81", "title": "The Blowfish protocol computes the published cipher", "statement": "BF_set_key and BF_encrypt, and the message that pok_protocols_blowfish_marshall sends, are those of the Blowfish cipher as published, so a peer with another implementation and the same key understands it.", "quantifier": "every key of 1 to 72 bytes and every message of at least eight bytes", "why_tests_cant": "Test vectors settle a few keys and blocks; the claim ranges over all 2^576 keys and 2^64 blocks.", "anchors": ["libpok/protocols/blowfish/bf_skey.c BF_set_key", "libpok/protocols/blowfish/bf_enc.c BF_encrypt", "libpok/protocols/blowfish/blowfish.c"]}
{"id": "C82", "title": "ARINC 653 services refuse bad parameters and pass good ones on", "statement": "A service called with parameters of the standard asks the kernel for exactly the object, size, direction, discipline, priority or mode that the caller gave; with other parameters it answers with an error code of the standard and changes nothing.", "quantifier": "every service and every value of its parameters, every state of the layer's tables and of the kernel", "why_tests_cant": "The parameters range over 32- and 64-bit integers; boundaries and overflows hide between the tested values.", "anchors": ["libpok/arinc653/sampling.c CREATE_SAMPLING_PORT WRITE_SAMPLING_MESSAGE", "libpok/arinc653/queueing.c CREATE_QUEUING_PORT", "libpok/arinc653/buffer.c CREATE_BUFFER", "libpok/arinc653/process.c SET_PRIORITY", "libpok/arinc653/partition.c SET_PARTITION_MODE", "libpok/arinc653/error.c RAISE_APPLICATION_ERROR"]}
{"id": "C83", "title": "A partition and its threads can learn who and what they are", "statement": "GET_PARTITION_STATUS shows the calling partition's identifier, period, processor time per period, operating mode, lock level and start condition; a thread that asks for its identifier gets its own, and never one of another partition; when the values cannot be given, an error is reported and nothing is stored.", "quantifier": "every configuration, every reachable state of the kernel, every calling partition and thread, every previous content of the variables", "why_tests_cant": "Tests run with one slot per partition in order, zeroed variables and an installed error handler; the values must be right for every configuration, every slot order and every history of restarts.", "anchors": ["kernel/core/partition.c pok_current_partition_get_id pok_current_partition_get_duration", "kernel/core/sched.c pok_sched_get_current", "libpok/arinc653/partition.c GET_PARTITION_STATUS", "libpok/arinc653/process.c GET_MY_ID"]}
{"id": "C84", "title": "The DES protocol computes the Data Encryption Standard", "statement": "The bytes that the DES protocol produces are those of FIPS 46-3 (single and triple DES) in the cipher block chaining mode of FIPS 81, so that any conforming implementation can decipher them; keys are refused exactly when a byte has even parity or when the key is weak or semi-weak.", "quantifier": "every key of eight bytes, every initial vector, every message of every length", "why_tests_cant": "Published vectors cover a few hundred of the 2^120 pairs of key and block; a wrong entry of a substitution table or a wrong bit of the key schedule shows only for inputs that reach it.", "anchors": ["libpok/protocols/des/des_enc.c DES_encrypt1 DES_encrypt3", "libpok/protocols/des/set_key.c DES_set_key_unchecked DES_check_key_parity DES_is_weak_key", "libpok/protocols/des/spr.h DES_SPtrans", "libpok/protocols/des/ncbc_enc.c DES_ncbc_encrypt", "libpok/protocols/des/des.c pok_protocols_des_marshall"]}
{"id": "C85", "title": "The error handler stops and restarts threads", "statement": "Only the error handler of a partition may stop or restart a thread of the partition; a request from another thread or for a number outside the partition is refused and changes nothing. A granted stop leaves the thread stopped, whatever it was doing. A granted restart puts the thread at its entry point with its full time capacity and no pending wake-up, whatever it was doing: it runs again from its next release, or at once if that time has come. Other threads are not touched. The same can be done any number of times, and only with threads that were created.", "quantifier": "every reachable state, calling thread, thread number, clock value and state of the target thread", "why_tests_cant": "the target may be in any scheduling state, with any release time, period and capacity, and the request may come at any clock value and repeatedly", "anchors": ["kernel/core/partition.c: pok_partition_stop_thread, pok_partition_restart_thread", "kernel/core/thread.c: pok_thread_restart", "kernel/core/syscall.c: POK_SYSCALL_THREAD_RESTART, POK_SYSCALL_THREAD_STOP"]}
{"id": "C87", "title": "Rounding a double to an integer is exact", "statement": "floor, ceil, trunc, modf and round return, for every finite double, exactly the integer that their names promise (greatest not above, least not below, integer part, integer and fraction, nearest with halves away from zero), as a double with the sign of the argument; infinite arguments come back unchanged and arguments that are not numbers give results that are not numbers.", "quantifier": "every one of the 2^64 doubles", "why_tests_cant": "2^64 arguments, handled in five ranges of exponents by masks on two halves of the number and with a carry between them; a mask that is wrong by one bit shows for a few numbers only", "anchors": ["libpok/libm/floor.c floor", "libpok/libm/ceil.c ceil", "libpok/libm/trunc.c trunc", "libpok/libm/modf.c modf", "libpok/libm/round.c round"]}
{"id": "C86", "title": "Classes and signs of doubles", "statement": "isnan, isinf, finite and fpclassify tell exactly what kind of number a double is (not a number, infinite, normal, subnormal, zero); fabs and copysign change the sign and nothing else. This holds on every architecture the library is built for.", "quantifier": "every one of the 2^64 doubles (pairs of them for copysign), every architecture", "why_tests_cant": "2^64 arguments; the tests are done on the two halves of the number with carries between them, and the layout of the halves depends on the machine", "anchors": ["libpok/libm/isnan.c isnan", "libpok/libm/isinf.c isinf", "libpok/libm/finite.c finite", "libpok/libm/fpclassify.c __fpclassifyd", "libpok/libm/fabs.c fabs", "libpok/libm/copysign.c copysign", "libpok/libm/math_private.h ieee_double_shape_type"]}
{"id": "C88", "title": "Exponents, scaling and neighbours of doubles", "statement": "ilogb and logb return the exponent of a number; frexp splits it without error into a fraction from one half to one and a power of two; scalbn and ldexp multiply by a power of two and round correctly (nearest, ties to even, infinite on overflow); nextafter returns the very next double in the direction of the second argument.", "quantifier": "every double, every int, every pair of doubles", "why_tests_cant": "2^96 pairs for scalbn and 2^128 for nextafter; subnormal results, overflow of the exponent and the borrow between the halves are reached by few of them", "anchors": ["libpok/libm/ilogb.c ilogb", "libpok/libm/logb.c logb", "libpok/libm/frexp.c frexp", "libpok/libm/scalbn.c scalbn", "libpok/libm/ldexp.c ldexp", "libpok/libm/nextafter.c nextafter"]}
{"id": "C90", "title": "Remainders of doubles are exact", "statement": "fmod(x, y) is exactly what is left of the magnitude of x after the whole number of times the magnitude of y fits in it, with the sign of x. remainder(x, y) is exactly x minus the multiple of y nearest to x, the even multiple if two are as near, and a remainder of zero has the sign of x. With an infinite divisor both return x; with an infinite x, a zero divisor or a NaN argument both return NaN.", "quantifier": "all pairs of 64-bit patterns, subnormal numbers and both signs included", "why_tests_cant": "there are 2^128 pairs; the shift-and-subtract loop runs up to 2046 times on pairs of 32-bit words, and packing a subnormal result has three shift cases", "anchors": ["libpok/libm/e_fmod.c: __ieee754_fmod", "libpok/libm/fmod.c: fmod", "libpok/libm/e_remainder.c: __ieee754_remainder", "libpok/libm/remainder.c: remainder"]}
{"id": "C91", "title": "sqrt of a double is correctly rounded", "statement": "sqrt of a positive double returns a non-negative finite double that is nearer to the real square root of the argument than every double of another value. sqrt of a zero or of +infinity is its argument; sqrt of a negative number, of -infinity or of a NaN is a NaN.", "quantifier": "every double: every 64-bit pattern, normal, subnormal, zero, infinite or NaN; and every candidate double it is compared with", "why_tests_cant": "There are 2^64 arguments, and the result is computed bit by bit in integer arithmetic with a carry between two 32-bit halves and a rounding decided by two floating-point operations; a wrong carry or a wrong rounding shows up on isolated arguments only.", "anchors": ["libpok/libm/e_sqrt.c:__ieee754_sqrt", "libpok/libm/sqrt.c:sqrt"]}
{"id": "C89", "title": "rint rounds to the nearest integer, ties to even", "statement": "rint of a finite double returns, with the sign of the argument, the integer nearest to it; of two integers equally near, the even one. rint of an infinity is its argument and of a NaN a NaN.", "quantifier": "every double: every 64-bit pattern", "why_tests_cant": "The code treats each exponent differently and replaces the bits of the fraction before it adds and subtracts 2^52; one exponent out of 2048 with one fraction pattern is wrong, which no sample of arguments can be relied on to hit.", "anchors": ["libpok/libm/rint.c:rint"]}
{"id": "C92", "title": "SPARC: calls and returns to any depth preserve every register", "statement": "On SPARC, a program that calls and returns in any order and to any depth finds every register where the calling convention says, as if the processor had an unbounded stack of register windows; the processor never stops in a window trap.", "quantifier": "every program of moves, calls and returns, of any length and call depth, from every processor state in which a thread runs, with stack pointers that are aligned and in mapped memory", "why_tests_cant": "Which window is spilled depends on the depth and on where in the ring of eight windows the thread started; a wrong mask or a wrong word order corrupts one register of one caller at one depth.", "anchors": ["kernel/arch/sparc/regwin.S:window_overflow", "kernel/arch/sparc/regwin.S:window_underflow"]}
{"id": "C93", "title": "SPARC: a trap is invisible to the interrupted thread", "statement": "On SPARC, a thread interrupted by a trap is resumed at the same instruction with the same registers, in the interrupted function and in all its callers, whatever other threads ran in between.", "quantifier": "every interrupted processor state, every trap, every state in which the kernel leaves, every call depth", "why_tests_cant": "The trap can come at any instruction, with any number of windows in use; the failure with all seven windows in use needs an interrupt at that depth.", "anchors": ["kernel/arch/sparc/entry.S:trap_handler", "kernel/arch/sparc/context_offset.h", "kernel/arch/sparc/regwin.S"]}
{"id": "C94", "title": "SPARC: threads of partitions run in user mode", "statement": "On SPARC, a thread of a partition runs in user mode: after any trap it is resumed in the mode in which it was interrupted.", "quantifier": "every trap of every thread", "why_tests_cant": "A thread that runs in supervisor mode behaves the same as one in user mode until it touches what it must not reach.", "anchors": ["kernel/arch/sparc/entry.S:trap_handler", "kernel/arch/sparc/psr.h"]}
{"id": "C95", "title": "SPARC: a system call carries its arguments and its result and nothing else", "statement": "On SPARC, the kernel receives the number and the five arguments of a system call in the order in which the program gave them; the program goes on after the call with the result, and every other register is unchanged.", "quantifier": "every processor state of the caller, all arguments, every result and every state in which the kernel leaves", "why_tests_cant": "As C93; the arguments travel through the saved context on the caller's stack, at offsets shared by C and assembly.", "anchors": ["kernel/arch/sparc/syscalls.c:pok_arch_sc_int", "kernel/arch/sparc/entry.S:trap_handler"]}
{"id": "C96", "title": "SPARC: a new thread starts at its entry with its arguments", "statement": "On SPARC, a thread made by the kernel starts at its entry point with its two arguments and with its stack pointer inside its own stack, and can call and return from there.", "quantifier": "every entry point, stack and pair of arguments, every earlier contents of the stack, every state in which the kernel switches to the thread", "why_tests_cant": "The context is built in C at offsets that the assembly restores; every value and every stack address must fit.", "anchors": ["kernel/arch/sparc/thread.c:pok_context_create", "kernel/arch/sparc/space.c:pok_space_context_create", "kernel/arch/sparc/entry.S"]}
{"id": "C97", "title": "SPARC: restarting a thread puts its context back to its start", "statement": "On SPARC, when the kernel resets the context of a thread, the thread goes on at its entry point and no other thread is changed.", "quantifier": "every thread, stack and memory", "why_tests_cant": "Whether another context was changed shows only when that other thread runs.", "anchors": ["kernel/arch/sparc/thread.c:pok_context_reset"]}
{"id": "C98", "title": "SPARC: the address spaces of the partitions are isolated", "statement": "On SPARC, code of a partition reaches the memory given to that partition and nothing else: not the kernel, not another partition. Every partition gets the memory it asked for, and no two partitions share a byte.", "quantifier": "any number of partitions, of any sizes, any end of the kernel, any place of the translation tables, every virtual address and every kind of access", "why_tests_cant": "It is about all 2^32 addresses of every partition, and about places of tables and sizes of partitions that the linker and the user choose.", "anchors": ["kernel/arch/sparc/space.c:pok_create_space", "kernel/arch/sparc/space.c:pok_arch_space_init", "kernel/arch/sparc/leon3/bsp.c:pok_bsp_mem_alloc", "kernel/core/partition.c:pok_partition_init"]}
{"id": "C99", "title": "Waiting on queueing ports ends when asked", "statement": "A send that finds a queueing port full, or a receive that finds it empty, returns FULL or EMPTY at once when its timeout is 0; with a timeout t it is suspended, gets its bytes when they arrive, and is suspended until t after the call at the latest. A call that can be served at once never waits.", "quantifier": "every port, timeout, clock value and history of port calls", "why_tests_cant": "The date depends on the clock value at the call; an error in it grows with the time since boot.", "anchors": ["kernel/middleware/portqueueingsend.c: pok_port_queueing_send", "kernel/middleware/portqueueingreceive.c: pok_port_queueing_receive", "kernel/core/lockobj.c: pok_lockobj_eventwait"]}
{"id": "C100", "title": "The kernel always answers", "statement": "In every state the system can reach, every entry into the kernel comes to an end whatever its arguments: a timer interrupt, a rescheduling request of another processor or a system call of a partition does not make an assertion fail, loop for ever or use a variable that was not set. A partition cannot stop the other partitions by a system call.", "quantifier": "every configuration, reachable state, processor, clock value and call with its arguments; every history of calls", "why_tests_cant": "The states and arguments are unbounded; an endless loop or failed assertion shows only for particular ones.", "anchors": ["kernel/core/sched.c: pok_sched_thread, pok_global_sched_thread", "kernel/core/thread.c: pok_partition_thread_create", "kernel/core/partition.c: pok_partition_set_mode, pok_partition_reinit", "kernel/core/error.c: pok_error_thread_create"]}
{"id": "C101", "title": "PowerPC context switch gives every thread its registers back", "statement": "On PowerPC a thread that gives up the processor and gets it back later continues after its call with the same stack pointer, condition register and callee-saved registers; a thread that runs for the first time starts at its entry point with its arguments, in the right mode, on its own stacks, and a new user thread sees only zero in every other register.", "quantifier": "every register content and memory, every other thread and any history between the two switches that leaves the thread's frame alone", "why_tests_cant": "depends on all register values and on whatever runs between the two switches", "anchors": ["kernel/arch/ppc/cswitch.S pok_context_switch", "kernel/arch/ppc/thread.c pok_context_create", "kernel/arch/ppc/space.c pok_space_context_create", "kernel/arch/ppc/entry.S pok_arch_rfi"]}
{"id": "C102", "title": "PowerPC exceptions do not disturb the interrupted program", "statement": "On PowerPC a program interrupted by a page fault, a timer interrupt or a system call continues where it was with the same mode and registers (a system call changes only the result register), the kernel handler gets the program's arguments, and the kernel stack is the same after as before, however many exceptions occur.", "quantifier": "every processor state, every conforming C handler, every number of exceptions", "why_tests_cant": "an interrupt can come between any two instructions, and stack leaks show only after many exceptions", "anchors": ["kernel/arch/ppc/entry.S SAVE_REGS pok_arch_rfi system_call_0C00 decrementer_0900 dsi_0300 isi_0400", "kernel/arch/ppc/cswitch.S"]}
{"id": "C103", "title": "The clock of the PowerPC and SPARC boards shows the time", "statement": "The system clock is in nanoseconds and after any number of timer interrupts, served early or late, it differs from the real time by less than one tick.", "quantifier": "every sequence of timer interrupts and delays in serving them", "why_tests_cant": "drift accumulates over unbounded time and depends on interrupt latencies", "anchors": ["kernel/arch/ppc/timer.c pok_arch_set_decr pok_arch_decr_int pok_bsp_time_init", "kernel/arch/sparc/leon3/timer.c timer_isr pok_bsp_time_init"]}
{"id": "C104", "title": "Kernel memory areas on PowerPC do not overlap", "statement": "Every area that the PowerPC kernel allocates (thread stacks, partitions) starts on a page boundary, after the kernel, and overlaps no other; a request that does not fit is refused.", "quantifier": "every sequence of allocation sizes", "why_tests_cant": "any sequence of sizes, including ones that exhaust the address space", "anchors": ["kernel/arch/ppc/prep/bsp.c pok_bsp_mem_alloc"]}
{"id": "C105", "title": "Virtual port services answer from the configuration, for one's own ports only", "statement": "A partition that asks for the destinations, the global number or the number of destinations of a virtual port, or for the number of a port by its name, gets what the configuration says if it owns the port; every other request is refused and nothing is stored.", "quantifier": "every configuration of ports, every partition, every port number, destination number and name", "why_tests_cant": "the configuration is generated and the arguments come from untrusted partitions, so every table and every argument matters, including the ones just outside the tables", "anchors": ["kernel/middleware/portvirtualdestination.c", "kernel/middleware/portvirtualnbdestinations.c", "kernel/middleware/portvirtualgetglobal.c", "kernel/middleware/portvirtualid.c"]}
{"id": "C106", "title": "The status of a buffer or blackboard describes its contents", "statement": "The status of a created buffer gives its capacity, its message size, the number of messages in it and the number of waiting processes; the status of a created blackboard says whether a message is displayed; an object that was not created gives an error; the name of an object gives the identifier that its creation returned.", "quantifier": "every history of creations, sends, receives, displays, reads and clears, and every name", "why_tests_cant": "the status must agree with the contents after any history", "anchors": ["libpok/middleware/bufferstatus.c", "libpok/middleware/blackboardstatus.c", "libpok/middleware/bufferid.c", "libpok/middleware/blackboardid.c"]}
{"id": "C107", "title": "A thread never runs on two processors at once", "statement": "At any time two different processors run different threads, and a processor runs only threads that are bound to it, or the main thread of a partition that is starting on its first processor.", "quantifier": "every configuration, every number of processors, every history of kernel entries on any processors in any order", "why_tests_cant": "it depends on every interleaving of the entries of all processors", "anchors": ["kernel/core/sched.c: pok_elect_thread, pok_sched_activate_error_thread, pok_global_sched_thread", "kernel/core/thread.c: pok_partition_thread_create"]}
{"id": "C108", "title": "Every processor gets its own number and stack, and requests between processors arrive where they should", "statement": "After start-up every processor has a number of its own between 0 and the number of processors minus one, holds no kernel lock, and started on a stack that no other processor uses. A request to schedule that is sent to a processor interrupts that processor and no other; one that is sent to the others interrupts all but the sender.", "quantifier": "every number of processors up to 255, every numbering of their interrupt controllers, every order in which they start, every sender and destination", "why_tests_cant": "the order in which processors start and the numbers of their interrupt controllers depend on the machine", "anchors": ["kernel/arch/x86/multiprocessing.c: pok_start_ap, pok_get_proc_id, proc_index, pok_send_schedule_thread, pok_send_schedule_thread_other_processors, pok_send_global_schedule_thread", "kernel/arch/x86/ap.c", "kernel/arch/x86/x86-qemu/entry.S", "kernel/arch/x86/start_ap.S", "kernel/arch/x86/ipi.c: pok_send_ipi", "kernel/core/sched.c: pok_global_sched_thread"]}
{"id": "C109", "title": "Boot goes on only with the configured number of processors", "statement": "At boot the kernel finds the firmware's table of processors wherever the standard allows it to be, counts the processors that are usable, and goes on exactly if there are as many as were configured; it leaves the table as it was.", "quantifier": "every contents of memory, every table of any length with entries of all types in any order, every configured number of processors", "why_tests_cant": "the table comes from the firmware: any number and order of entries, at any place", "anchors": ["kernel/arch/x86/multiprocessing.c: pok_multiprocessing_init, search_mp_ebda, search_mp_bios, io_apic_entry_handler"]}
{"id": "C110", "title": "What the other partitions do does not change what a partition does and sees", "statement": "On one processor, take two runs of the same system with the same timer interrupts in which one partition makes the same calls in its windows, while the other partitions make different calls. Then in both runs the partition sees the same: after every timer interrupt of its windows and after every one of its calls the same thread runs, its calls return the same codes and identifiers, and its mode, its threads, their budgets, releases and states are the same.", "quantifier": "every configuration with one processor, every pair of histories of any length that differ only in the calls of the other partitions (thread management, modes, errors, blocking and waking, periods, delays)", "why_tests_cant": "it compares all pairs of runs; interference shows only when particular calls of one partition meet particular states of another", "anchors": ["kernel/core/sched.c: pok_elect_partition, pok_elect_thread, pok_global_sched, pok_sched_thread", "kernel/core/thread.c: pok_partition_thread_create, pok_thread_delayed_start, pok_thread_get_status", "kernel/core/partition.c: pok_partition_set_mode_current", "kernel/core/error.c: pok_error_thread_create"]}
{"id": "C111", "title": "A node delivers the network messages for its ports, once and in order", "statement": "Messages that arrive from the network for a port of the node become readable from that port: what has been read from a port, followed by what waits there, is exactly the data of the messages that arrived for the port and fit, each once and in the order of arrival, whatever the order of arrivals, polls and reads.", "quantifier": "every configuration of ports, every content of the memory of the card, every history of arrivals, polls and reads of any length", "why_tests_cant": "the ring of the card, the twenty-byte queues and the interleaving of arrivals with the polling loop give unboundedly many histories; the losses are at the wrap of the ring and for the newest message", "anchors": ["kernel/drivers/rtl8029.c: rtl8029_enqueue, rtl8029_read, rtl8029_poll, rtl8029_poll_and_read, ne2000_read"]}
{"id": "C112", "title": "Writing to a virtual port sends the data to all its destinations, and nothing else", "statement": "A write to a virtual port of the partition sends, for every destination of the port in configuration order, frames of legal size that carry the data completely and in order, and these frames depend on nothing but the data and the configuration; a write to a port the partition may not use sends nothing.", "quantifier": "every configuration, partition, port, length and content of the data, content of the kernel stack", "why_tests_cant": "the data may have any length, so the fragmentation has infinitely many cases; the frames depend on uninitialised memory, which a test sees as one arbitrary value", "anchors": ["kernel/drivers/rtl8029.c: rtl8029_write", "kernel/middleware/portvirtualdestination.c: pok_port_virtual_destination, pok_port_virtual_nb_destinations", "kernel/include/drivers/rtl8029.h: pok_packet_t"]}
{"id": "C113", "title": "Messages travel from a port of one node to a port of another", "statement": "Messages a partition writes to a virtual port with one destination are read from that port on the other node, whole and in the order in which they were written.", "quantifier": "every configuration of the two nodes, every list of messages, every content of both stacks and of the memory of the card", "why_tests_cant": "it composes two machines; sender and receiver must agree on every header field for every message", "anchors": ["kernel/drivers/rtl8029.c: rtl8029_write, rtl8029_poll, rtl8029_enqueue, rtl8029_read"]}
{"id": "C114", "title": "The search for a network card finds the first one there is", "statement": "The search on the bus succeeds exactly if a device with the vendor and device number is present, reports the one with the lowest place, and reports its place, base register and interrupt line.", "quantifier": "every content of the configuration space of the bus, every vendor and device number", "why_tests_cant": "the configuration space is an arbitrary function of place and register", "anchors": ["kernel/arch/x86/pci.c: pci_open, pci_read"]}
{"id": "C115", "title": "Classes and signs of floats", "statement": "isnanf, isinff, finitef and the classification of a float tell exactly what kind of number it is (not a number, infinite, normal, subnormal, zero); fabsf and copysignf change the sign and nothing else.", "quantifier": "every one of the 2^32 floats (pairs of them for copysignf)", "why_tests_cant": "the tests are made by arithmetic on the bits whose carries decide; pairs for copysignf are 2^64", "anchors": ["libpok/libm/isnanf.c isnanf", "libpok/libm/isinff.c isinff", "libpok/libm/finitef.c finitef", "libpok/libm/fpclassify.c __fpclassifyf", "libpok/libm/fabsf.c fabsf", "libpok/libm/copysignf.c copysignf"]}
{"id": "C116", "title": "Rounding a float to an integer is exact", "statement": "floorf, ceilf, truncf, modff and roundf return, for every finite float, exactly the integer that their names promise, as a float with the sign of the argument; infinite arguments come back unchanged and arguments that are not numbers give results that are not numbers.", "quantifier": "every float: every 32-bit pattern", "why_tests_cant": "each exponent has its own mask, and the carry of a rounding up may reach the exponent; a mask wrong by one bit shows for isolated numbers", "anchors": ["libpok/libm/floorf.c floorf", "libpok/libm/ceilf.c ceilf", "libpok/libm/truncf.c truncf", "libpok/libm/modff.c modff", "libpok/libm/roundf.c roundf"]}
{"id": "C117", "title": "Exponents, scaling and neighbours of floats", "statement": "ilogbf and logbf return the exponent of a number; frexpf splits it without error into a fraction from one half to one and a power of two; scalbnf and ldexpf multiply by a power of two and round correctly; nextafterf returns the very next float in the direction of the second argument.", "quantifier": "every float, every int, every pair of floats", "why_tests_cant": "2^64 pairs for scalbnf and nextafterf; subnormal results and overflow of the exponent are reached by few of them", "anchors": ["libpok/libm/ilogbf.c ilogbf", "libpok/libm/logbf.c logbf", "libpok/libm/frexpf.c frexpf", "libpok/libm/scalbnf.c scalbnf", "libpok/libm/ldexpf.c ldexpf", "libpok/libm/nextafterf.c nextafterf"]}
{"id": "C118", "title": "rintf rounds to the nearest integer, ties to even", "statement": "rintf of a finite float returns, with the sign of the argument, the integer nearest to it; of two integers equally near, the even one. rintf of an infinity is its argument and of a NaN a NaN.", "quantifier": "every float: every 32-bit pattern", "why_tests_cant": "one exponent out of 256 with one pattern of the last three bits is wrong, which no sample of arguments can be relied on to hit", "anchors": ["libpok/libm/rintf.c rintf"]}
{"id": "C119", "title": "Remainders of floats are exact", "statement": "fmodf(x, y) is exactly what is left of the magnitude of x after the whole number of times the magnitude of y fits in it, with the sign of x. remainderf(x, y) is exactly x minus the multiple of y nearest to x, the even multiple if two are as near, and a remainder of zero has the sign of x. With an infinite divisor both return x; with an infinite x, a zero divisor or a NaN argument both return NaN.", "quantifier": "all pairs of 32-bit patterns, subnormal numbers and both signs included", "why_tests_cant": "there are 2^64 pairs, and the shift-and-subtract loop runs up to 276 times", "anchors": ["libpok/libm/e_fmodf.c __ieee754_fmodf", "libpok/libm/fmodf.c fmodf", "libpok/libm/e_remainderf.c __ieee754_remainderf", "libpok/libm/remainderf.c remainderf"]}
{"id": "C120", "title": "sqrtf of a float is correctly rounded", "statement": "sqrtf of a positive float returns a non-negative finite float that is nearer to the real square root of the argument than every float of another value. sqrtf of a zero or of +infinity is its argument; sqrtf of a negative number, of -infinity or of a NaN is a NaN.", "quantifier": "every float, and every candidate float it is compared with", "why_tests_cant": "the root is computed bit by bit and the rounding is decided by two floating-point operations; to be nearest among all floats is a claim about 2^64 pairs against a real number that no machine holds", "anchors": ["libpok/libm/e_sqrtf.c __ieee754_sqrtf", "libpok/libm/sqrtf.c sqrtf"]}
{"id": "C121", "title": "Ports carry nothing into a group of partitions that no channel leads to", "statement": "If the configuration has no channel from outside into a group of partitions, what the port calls of the group return (results, identifiers, messages, validity) and what its ports hold depend only on the calls of the group itself and on when its ports are flushed, whatever calls the other partitions make and whenever theirs are flushed.", "quantifier": "every consistent configuration, every group without a channel into it, every pair of histories of any length in which the group makes the same calls at the same times", "why_tests_cant": "a statement about pairs of histories of any length: the absence of a flow cannot be seen in any number of runs", "anchors": ["kernel/middleware/portcreate.c pok_port_create", "kernel/middleware/portutils.c pok_port_get pok_port_write", "kernel/middleware/portflushall.c pok_port_flush_partition", "kernel/middleware/portsamplingread.c pok_port_sampling_read", "kernel/middleware/portqueueingsend.c pok_port_queueing_send", "kernel/middleware/portqueueingreceive.c pok_port_queueing_receive"]}
{"id": "C122", "title": "Powers where the answer is known", "statement": "pow(x, y) returns 1 for a zero exponent; no number for arguments that are none and for negative bases with exponents that are not whole; the documented zeros and infinities, with the documented signs, for infinite exponents and for zero and infinite bases; the base itself for the exponent 1, and the correctly rounded reciprocal, square and square root for -1, 2 and 1/2; changing the sign of the base changes the sign of the result exactly for odd exponents; and with very large exponents it returns infinity or zero only if the true power is outside the range of doubles.", "quantifier": "all doubles x and y, and whatever the approximation used for the remaining arguments returns", "why_tests_cant": "2^128 pairs of arguments, decided by bit patterns of two words each; a wrong boundary is met by few of them", "anchors": ["libpok/libm/e_pow.c __ieee754_pow", "libpok/libm/pow.c pow"]}
{"id": "C123", "title": "Doubles in formatted output", "statement": "printf with %f prints the double in decimal: its sign, its integer part, a point and its first six decimal places, and counts the characters it prints.", "quantifier": "every double, with double arithmetic and with the extended arithmetic of the x87", "why_tests_cant": "There are 2^64 doubles; each digit is computed by a product that is rounded on its own, so that wrong digits appear only for scattered values, and the conversions to integers on the way are undefined outside of ranges.", "anchors": ["libpok/libc/stdio/printf.c: print_float, special_char, vprintf"]}
{"id": "C124", "title": "Accuracy of sine and cosine", "statement": "sin and cos return the sine and cosine of their argument in radians, as a double within one unit in the last place of 1 (2^-52); up to pi/4 the error of the sine is at most 2^-52 of the sine itself. The sine and cosine of an infinity or a NaN are NaN.", "quantifier": "every double below 2^20 times pi/2 in magnitude (the range of the reduction in working precision), and every infinity and NaN", "why_tests_cant": "There are about 10^19 doubles in the range and the results are real numbers nobody has a table of; the error comes from about forty roundings, the truncation of a series and the digits of pi, and cancellation near multiples of pi/2 makes it depend on single arguments.", "anchors": ["libpok/libm/sin.c: sin", "libpok/libm/cos.c: cos", "libpok/libm/k_sin.c: __kernel_sin", "libpok/libm/k_cos.c: __kernel_cos", "libpok/libm/e_rem_pio2.c: __ieee754_rem_pio2"]}
{"id": "C125", "title": "Accuracy of the exponential function", "statement": "exp returns e to the power of its argument with a relative error of at most 2^-52 (one unit in the last place) wherever the result is a normal double of 2^-1021 or more, with at most half of the least positive double more below that, plus infinity exactly where e to the argument is 2^1024 or more among finite arguments, NaN for NaN, plus infinity for plus infinity and zero for minus infinity.", "quantifier": "every double", "why_tests_cant": "There are about 10^19 doubles and the results are real numbers nobody has a table of; the error comes from about twenty roundings, a division, a rational approximation and the digits of the logarithm of two, and the boundaries of overflow and underflow are single doubles.", "anchors": ["libpok/libm/exp.c: exp", "libpok/libm/e_exp.c: __ieee754_exp"]}
{"id": "C126", "title": "Accuracy of the natural logarithm", "statement": "log returns the natural logarithm of every finite positive argument, normal or subnormal, with an error of at most 2^-52 relative to the logarithm itself (one unit in the last place), so it is zero exactly for one; it returns minus infinity for zero of either sign, NaN for every negative number, minus infinity and NaN, and plus infinity for plus infinity.", "quantifier": "every double", "why_tests_cant": "There are about 10^19 doubles, and near one the logarithm is close to zero, so that any cancelled digit is a large relative error; the code takes one of seven paths by the upper bits of the fraction and the exponent, and the error is the sum of some twenty roundings, a division and a truncated series.", "anchors": ["libpok/libm/log.c: log", "libpok/libm/e_log.c: __ieee754_log"]}
{"id": "C127", "title": "Traps on SPARC and PowerPC", "statement": "On the SPARC and PowerPC machines the handler registered for a trap is the one that runs: the first registration for a trap number is accepted and stays in force whatever is registered later, a further one is refused; a system call and a timer interrupt reach their handlers; switching interrupts off and on changes only the interrupt mask; and a trap caused by one partition, by an error or by a trap instruction, affects that partition only.", "quantifier": "every sequence of handler registrations, every trap number, every value of the status register", "why_tests_cant": "A test raises a few traps on one machine; a partition may execute any trap instruction and make any error, and the order of registrations depends on the configuration.", "anchors": ["kernel/arch/sparc/entry.S: trapvector", "kernel/arch/sparc/traps.c: trap_handler", "kernel/arch/sparc/arch.c: pok_arch_event_register", "kernel/arch/ppc/entry.S: reserved_2F00", "kernel/arch/ppc/arch.c: pok_arch_event_register"]}
{"id": "C128", "title": "Serial lines and console calls", "statement": "Text written to the console reaches the serial line whole, in order and once, however long the device makes the kernel wait, and the call is answered with success; reading a character gives the byte that arrived or says that none has; reading an I/O port gives its byte or an error code that cannot be mistaken for one.", "quantifier": "every text, every sequence of answers of the device's status register, every byte", "why_tests_cant": "The timing of the device is arbitrary and an emulated one is always ready; a wrong answer code shows only on boards and texts that no example prints.", "anchors": ["kernel/arch/ppc/prep/cons.c: pok_cons_write", "kernel/arch/sparc/leon3/cons.c: pok_cons_write", "kernel/arch/x86/x86-qemu/cons.c: read_serial", "kernel/core/syscall.c: pok_core_syscall", "libpok/libc/stdio/getchar.c: getChar", "libpok/arch/x86/ioports.c: pok_inb"]}
{"id": "C129", "title": "Accuracy of the logarithms to the bases 10 and 2", "statement": "log10 and log2 return the logarithm to their base of every finite positive argument, normal or subnormal, with a relative error of at most 6 * 2^-53 and 5 * 2^-53; log2 of every power of two is exactly its exponent, and log10 of 10^0 to 10^22 is exactly the exponent; both return minus infinity for zero of either sign, NaN for every negative number, minus infinity and NaN, and plus infinity for plus infinity.", "quantifier": "every double", "why_tests_cant": "There are about 10^19 doubles; near one both logarithms are close to zero, so that a cancelled digit is a large relative error, and the exponent and the fraction may have logarithms of opposite signs.", "anchors": ["libpok/libm/e_log10.c: __ieee754_log10", "libpok/libm/log10.c: log10", "libpok/libm/e_log2.c: __ieee754_log2", "libpok/libm/log2.c: log2"]}
{"id": "C130", "title": "The default error handler stops the partition", "statement": "When a partition without an error handler of its own has registered the default one and an error is reported, the handler stops the partition, changes no other partition, and in a build with messages shows the kind of error and the message.", "quantifier": "every reachable state in which the handler is the running thread, every pending error with every message, every content of the stack", "why_tests_cant": "What the handler reads depends on the bytes of the message and on what the stack held before, and the states in which an error can strike are unbounded.", "anchors": ["libpok/core/errorhandlerworker.c: pok_error_handler_worker", "libpok/core/errorget.c: pok_error_get", "kernel/core/error.c: pok_error_get", "kernel/core/partition.c: pok_partition_set_mode"]}
{"id": "C131", "title": "The trace for the scheduling analysis is a document", "statement": "With instrumentation the kernel prints a document with one element for each partition and one for each thread that a partition makes, with its capacity, deadline and period, in which every element is closed, and a line for each thread that begins to run.", "quantifier": "every history of creations of partitions and threads, every time value", "why_tests_cant": "The document depends on the order of creations in all partitions, and the values on times of 64 bits.", "anchors": ["kernel/core/instrumentation.c: pok_instrumentation_task_archi, pok_instrumentation_partition_archi, pok_instrumentation_running_task"]}
{"id": "C132", "title": "Accuracy of the arc tangent", "statement": "atan returns the arc tangent of every finite double, of either sign and from the subnormal to the largest, with a relative error of at most 3 * 2^-53; arguments below 2^-29 in magnitude, zero of either sign included, are returned unchanged; for an infinite argument the result is the double nearest to pi/2 with the sign of the argument; for NaN it is NaN.", "quantifier": "every double", "why_tests_cant": "There are about 10^19 doubles; the argument is reduced by one of four breakpoints, and an error at the border between two of them, or in the lower part of a constant, shows only for few arguments.", "anchors": ["libpok/libm/atan.c: atan"]}
{"id": "C133", "title": "The angle of a point", "statement": "atan2(y, x) returns the angle of the point (x, y) between -pi and pi: for finite coordinates with y not zero the relative error is at most 7 * 2^-53, with half of the least positive double more where the angle is subnormal; on the horizontal axis it returns the zero y itself to the right and the double nearest to pi, with the sign of y, to the left; with an infinite coordinate it returns the double nearest to the angle of the direction, with the sign of y; if a coordinate is NaN the result is NaN. No integer operation overflows.", "quantifier": "every pair of doubles", "why_tests_cant": "There are about 10^38 pairs of doubles; the quotient is rounded, may be subnormal or overflow, and the four quadrants, the axes and the infinite coordinates are separate cases of the code; overflow in the test for x = 1 leaves no trace on the processors at hand.", "anchors": ["libpok/libm/e_atan2.c: __ieee754_atan2", "libpok/libm/atan2.c: atan2"]}
{"id": "C134", "title": "The distance from the origin", "statement": "hypot(x, y) returns the square root of x^2 + y^2 with a relative error of at most 5 * 2^-53 and half of the least positive double for all finite x and y whose distance is below 2^1024 by a part in 2^50, whatever their size: the squares neither overflow nor underflow; beyond 2^1024 by a part in 2^50 it returns +infinity. If one coordinate is zero the result is exactly the magnitude of the other. If a coordinate is infinite the result is +infinity, even if the other is NaN; otherwise it is NaN if a coordinate is NaN. No operation is undefined in C.", "quantifier": "every pair of doubles", "why_tests_cant": "There are about 10^38 pairs of doubles; the code scales large, small and subnormal pairs by different factors and orders them by half of their bits only, and the shift of a negative number leaves no trace on the processors at hand.", "anchors": ["libpok/libm/e_hypot.c: __ieee754_hypot", "libpok/libm/hypot.c: hypot"]}
{"id": "C135", "title": "Spinlocks of PowerPC and SPARC", "statement": "Between SPIN_LOCK and SPIN_UNLOCK of the same lock at most one processor is executing at a time: every instruction of the section guarded by the lock is executed by the processor that owns it. The lock variable is non-zero exactly while a processor holds it, SPIN_UNLOCK by a holder never fails its assertion, and a free lock is taken by a processor that tries it undisturbed.", "quantifier": "every number of processors and locks, every guarded section, every interleaving of their instructions, every loss of reservations", "why_tests_cant": "Interleavings of machine instructions of several processors cannot be enumerated, and the effect of a missing instruction behind a branch depends on what the compiler puts there.", "anchors": ["kernel/include/arch/ppc/spinlock.h: SPIN_LOCK, SPIN_UNLOCK", "kernel/include/arch/sparc/spinlock.h: SPIN_LOCK, SPIN_UNLOCK"]}
{"id": "C136", "title": "Identifiers and status of ports and objects by ARINC 653 services", "statement": "GET_SAMPLING_PORT_ID and GET_QUEUING_PORT_ID give the number of the partition's port with that name; GET_SAMPLING_PORT_STATUS, GET_QUEUING_PORT_STATUS, GET_EVENT_STATUS and GET_SEMAPHORE_STATUS store the current status of the object in the caller's variable, with the direction of a port as SOURCE or DESTINATION, and report NO_ERROR only if they did; a service that is not provided stores NOT_AVAILABLE as its return code; no service changes other memory of the partition than its results.", "quantifier": "every configuration of ports, every state of the ports, every name and number, every previous content of memory, every placement of the variables", "why_tests_cant": "What is wrong shows only with particular earlier contents of the caller's variables or of the stack, which tests leave zero; a stray store hits an address that depends on them.", "anchors": ["libpok/arinc653/sampling.c: GET_SAMPLING_PORT_ID, GET_SAMPLING_PORT_STATUS", "libpok/arinc653/queueing.c: GET_QUEUING_PORT_ID, GET_QUEUING_PORT_STATUS, CLEAR_QUEUING_PORT", "libpok/arinc653/event.c: GET_EVENT_STATUS", "libpok/arinc653/semaphore.c: GET_SEMAPHORE_STATUS", "libpok/arinc653/buffer.c: GET_BUFFER_ID, GET_BUFFER_STATUS", "libpok/arinc653/blackboard.c: CLEAR_BLACKBOARD, GET_BLACKBOARD_ID, GET_BLACKBOARD_STATUS", "libpok/arinc653/process.c: SUSPEND_SELF, LOCK_PREEMPTION, UNLOCK_PREEMPTION", "libpok/arinc653/time.c: REPLENISH"]}
{"id": "C137", "title": "A partition reaches I/O ports only through the kernel, and interrupts find the kernel's stack (x86)", "statement": "Whatever has happened since the start of the machine, a program of a partition cannot execute an input or output instruction itself: it reaches ports only through the system calls, which check the range of its configuration. The kernel's segments cover all memory and have the kernel's privilege, and the task state segment of each processor that has started is described by its descriptor and names the kernel's data segment and the kernel stack that was set last.", "quantifier": "every number of processors, every history of starts of processors, creations of spaces, switches and returns to partitions, every port", "why_tests_cant": "A test checks the ports it tries; that some are open depends on the bytes of the task state segment at that moment, including the address of the stack.", "anchors": ["kernel/arch/x86/gdt.c: pok_gdt_init, pok_tss_init, tss_set_esp0, gdt_set_system, gdt_set_segment", "kernel/arch/x86/tss.h: tss_t", "kernel/arch/x86/space.c: pok_create_space, pok_space_switch"]}
{"id": "C138", "title": "Registration of an error handler and report of messages (ARINC 653)", "statement": "CREATE_ERROR_HANDLER, called while the partition starts, makes a new thread of the partition its error handler, which runs only when an error has occurred; a second registration is refused; a registration that is refused changes nothing. REPORT_APPLICATION_MESSAGE hands over a message of at most 64 bytes and does not raise an error, and answers NO_ERROR only if the message was handed over. No other partition is affected.", "quantifier": "every reachable state, every entry point and attribute, every earlier content of the kernel's stack, every message and length", "why_tests_cant": "What a refused registration does depends on what was left on the kernel's stack, which tests do not control; the other claims range over all states of the partition.", "anchors": ["libpok/arinc653/error.c: CREATE_ERROR_HANDLER, REPORT_APPLICATION_MESSAGE", "kernel/core/error.c: pok_error_thread_create, pok_error_raise_application_error", "kernel/core/sched.c: pok_sched_activate_error_thread", "kernel/core/thread.c: pok_partition_thread_create"]}
{"id": "C139", "title": "The cube root", "statement": "cbrt(x) returns, for every finite double x, normal or subnormal, of either sign, a finite double that differs from the real cube root of x by a relative error of at most 1.4 * 2^-53. If x is the cube of a double the result is exactly that double. cbrt(-x) is -cbrt(x), bit for bit. Zeros and infinities of either sign are returned as they are, and NaN gives NaN.", "quantifier": "every double", "why_tests_cant": "There are 2^64 doubles; the code starts from a third of the bits of the number, which behaves differently for the three remainders of the exponent, for the carry of the mantissa into the exponent and for subnormal numbers, and the claimed accuracy leaves no room for one more rounding.", "anchors": ["libpok/libm/cbrt.c: cbrt"]}
{"id": "C140", "title": "Adjusting the parity of a DES key", "statement": "DES_set_odd_parity turns any eight bytes into the one key whose bytes all have an odd number of ones and agree with the bytes given in their seven upper bits; it touches no memory after the key and leaves a key of odd parity as it is. Enciphering and deciphering with the new key is enciphering and deciphering with the key given, and the key is refused by the checked key schedule only if it is weak or semi-weak.", "quantifier": "every key of eight bytes, any memory after it, every block, both directions", "why_tests_cant": "there are 2^64 keys, and that the parity bits have no effect on the cipher is a claim about all pairs of keys and blocks", "anchors": ["libpok/protocols/des/set_key.c: DES_set_odd_parity, odd_parity, DES_check_key_parity, DES_is_weak_key, DES_set_key_checked, DES_set_key_unchecked"]}
{"id": "C141", "title": "Accuracy of the hyperbolic cosine", "statement": "For every finite double whose hyperbolic cosine is below 2^1024, cosh returns a finite number within 5.1·2^-53 of it, relative to it. For every finite double whose hyperbolic cosine is 2^1024 or more it returns the positive infinite. The result does not depend on the sign of the argument; the cosine of either zero is 1, that of either infinite the positive infinite, and that of a NaN a NaN.", "quantifier": "every double", "why_tests_cant": "there are 2^64 arguments, and the error is against a real number that no test can compute exactly", "anchors": ["libpok/libm/cosh.c: cosh", "libpok/libm/e_cosh.c: __ieee754_cosh", "libpok/libm/expm1.c: expm1", "libpok/libm/e_exp.c: __ieee754_exp"]}
{"id": "C142", "title": "Accuracy of the hyperbolic sine", "statement": "For every finite double whose hyperbolic sine is below 2^1024 in magnitude, sinh returns a finite number close to it, relative to it; a double below 2^-28 in magnitude is returned as it is. For every finite double whose hyperbolic sine is 2^1024 or more in magnitude it returns the infinite of its sign. The result for the opposite is the opposite; either zero and either infinite is returned as it is, and a NaN gives a NaN.", "quantifier": "every double", "why_tests_cant": "there are 2^64 arguments, and the error is against a real number that no test can compute exactly", "anchors": ["libpok/libm/sinh.c: sinh", "libpok/libm/e_sinh.c: __ieee754_sinh", "libpok/libm/expm1.c: expm1", "libpok/libm/e_exp.c: __ieee754_exp"]}
{"id": "C143", "title": "Accuracy of the hyperbolic tangent", "statement": "For every finite double, tanh returns a finite number close to its hyperbolic tangent, and exactly 1 or -1, with the sign of the argument, from magnitude 22. The result for the opposite is the opposite; either zero is returned as it is, the infinites give 1 and -1, and a NaN gives a NaN.", "quantifier": "every double", "why_tests_cant": "there are 2^64 arguments, and the error is against a real number that no test can compute exactly", "anchors": ["libpok/libm/tanh.c: tanh", "libpok/libm/expm1.c: expm1"]}
{"id": "C144", "title": "System calls on PowerPC and SPARC reach the kernel with what the program passed", "statement": "On PowerPC and SPARC the kernel gets the service number and the arguments that the program put in its argument registers. What it decides does not depend on registers beyond the arguments that the library passes with that service. Every service of the library can be used on these boards.", "quantifier": "every state of registers and memory at the call, every service number, every state of the kernel", "why_tests_cant": "the registers that are not passed hold anything, so a dependence on them shows only for some histories of the program", "anchors": ["kernel/arch/ppc/syscalls.c: pok_arch_sc_int", "kernel/arch/sparc/syscalls.c: pok_arch_sc_int", "kernel/core/syscall.c: pok_core_syscall", "libpok/arch/ppc/syscall.S: pok_syscall2", "libpok/arch/sparc/syscall.S: pok_syscall2", "libpok/core/shutdown.c: pok_shutdown"]}
{"id": "C145", "title": "Accuracy of the exponential minus one", "statement": "For every finite double whose exponential is below 2^1024, expm1 returns a finite number close to its exponential minus one, relative to that difference, however small it is. A double below 2^-54 in magnitude is returned as it is, one of -39 or less gives -1, and one whose exponential is 2^1024 or more gives the positive infinite. The positive infinite is returned as it is, the negative one gives -1, and a NaN gives a NaN.", "quantifier": "every double", "why_tests_cant": "there are 2^64 arguments, the error is against a real number that no test can compute exactly, and relative to a difference in which the leading digits cancel", "anchors": ["libpok/libm/expm1.c: expm1"]}
{"id": "C146", "title": "Scaling by a double and the significand", "statement": "For every finite double and every double that is an integer n, however large, scalb returns the first times 2^n rounded once, with its sign. A finite second argument with a fraction gives a NaN. A NaN gives a NaN, an infinite is returned when it is scaled by a finite integer, scaling by the positive infinite gives the infinite of the number's sign (a NaN for a zero) and by the negative one the zero of the number's sign (a NaN for an infinite). significand returns, for every finite nonzero double, the number of its sign from 1 to 2 in magnitude that gives it exactly when multiplied by two to the power of what ilogb returns; zeros and infinites are returned as they are.", "quantifier": "every pair of doubles", "why_tests_cant": "there are 2^128 pairs, and the products lie far outside the range of doubles for most of them", "anchors": ["libpok/libm/scalb.c: scalb", "libpok/libm/e_scalb.c: __ieee754_scalb", "libpok/libm/significand.c: significand"]}
{"id": "C147", "title": "Scaling by a float and the significand of floats", "statement": "For every finite float and every float that is an integer n, however large, scalbf returns the first times 2^n rounded once, with its sign. A finite second argument with a fraction gives a NaN. A NaN gives a NaN, an infinite is returned when it is scaled by a finite integer, scaling by the positive infinite gives the infinite of the number's sign (a NaN for a zero) and by the negative one the zero of the number's sign (a NaN for an infinite). significandf returns, for every finite nonzero float, the number of its sign from 1 to 2 in magnitude that gives it exactly when multiplied by two to the power of what ilogbf returns; zeros and infinites are returned as they are.", "quantifier": "every pair of floats", "why_tests_cant": "there are 2^64 pairs, and the products lie far outside the range of floats for most of them", "anchors": ["libpok/libm/scalbf.c: scalbf", "libpok/libm/e_scalbf.c: __ieee754_scalbf", "libpok/libm/significandf.c: significandf"]}
{"id": "C148", "title": "Domain, symmetry and ends of the arc sine and the arc cosine", "statement": "For every double that is a NaN, infinite or above 1 in magnitude, asin and acos return a NaN. For every double from 0 to 1, the arc sine of its opposite is the opposite of its arc sine, bit by bit. A finite double below 2^-27 in magnitude is its own arc sine. The arc sine of 1, and the arc cosine of every double below 2^-57 in magnitude, are within 2^-53 of half of pi, the arc cosine of 1 is zero and that of -1 within 2^-52 of pi.", "quantifier": "every double", "why_tests_cant": "there are 2^64 arguments, and the symmetry depends on no intermediate result being a NaN or cancelling to zero for any of them", "anchors": ["libpok/libm/asin.c: asin", "libpok/libm/e_asin.c: __ieee754_asin", "libpok/libm/acos.c: acos", "libpok/libm/e_acos.c: __ieee754_acos"]}
{"id": "C149", "title": "Inverses of the hyperbolic sine and cosine: symmetry, domain and large arguments", "statement": "For every double that is not a NaN, asinh of its opposite is the opposite of asinh of it, bit by bit. asinh returns doubles below 2^-28 in magnitude and infinites as they are, and for every finite double from 2^29 on a finite number within 2^-51, relative, of its inverse hyperbolic sine. acosh returns a NaN for every number below 1, the negative infinite and a NaN, zero for 1, the positive infinite for itself, and for every finite double from 2^28 on a finite number within 2^-51, relative, of its inverse hyperbolic cosine.", "quantifier": "every double", "why_tests_cant": "there are 2^64 arguments, and the error is against a real number that no test can compute exactly", "anchors": ["libpok/libm/asinh.c: asinh", "libpok/libm/e_acosh.c: __ieee754_acosh", "libpok/libm/log1p.c: log1p"]}
