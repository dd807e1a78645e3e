# Formal model of pok-kernel/pok in Lean 4 — design

## 1. Layout

| Directory / module | Contents |
|---|---|
| `lean/Verif/Model/…` | the model: one Lean definition per C function (or per straight-line fragment between two scheduling points), each with a comment citing file and lines in `/repo` |
| `lean/Verif/Spec/…`  | small specifications that do not mention the model's helpers (lists, sets of bytes, arithmetic) |
| `lean/Verif/Lemmas/…` | helper lemmas |
| `lean/Verif/Props/…` | the property theorems (named `Cnn_…`), each followed by `example`s showing a concrete non-trivial case that meets the hypotheses |

## 2. Modelling conventions

* C integers are `Nat` (or `Int` where the C type is signed) and every place where the C type can wrap
  is written with an explicit `% 2^w`; bit-level code (GDT descriptors, DES, Blowfish, CRC-like code) uses `BitVec`.
* Undefined behaviour (out-of-bounds index, null dereference, division by zero, failed assertion, endless loop)
  is a distinct outcome: such functions return `Option _` and `none` means "undefined / hangs".
* A kernel entry runs with interrupts disabled on x86, so a call is atomic between scheduling points.
  A blocking call is split in two definitions: the part before `pok_sched()` and the part after it.
  Concurrency properties quantify over all interleavings of these atomic parts: between them *any* thread
  whose state is RUNNABLE may run and the clock may advance by any amount.
* Loops are structural recursion on the number of remaining iterations, or recursion with an explicit measure.
* Not modelled: register save/restore, the actual context switch, interrupt controller latency, the C compiler,
  hardware. Drivers are not modelled. Of `libm` the functions that need no
  approximation are modelled (rounding to integers, classes, exponents, remainder, square root), over
  the bits of IEEE doubles; the arithmetic of the processor is `Model/Fpu`, round to nearest, ties to
  even, in double precision (the extended precision of the x87 is not modelled). The approximations
  (`sin`, `exp`, `log`, ...) are not modelled.

## 3. Where the code does not satisfy the property

If the code as written violates a property, the property stays in `properties.jsonl` as a user would state it;
a theorem `Cnn_…_violated` proves the negation with a concrete reachable witness, and `Cnn_…_partial` proves the
strongest version found that does hold, with the missing part in its comment.  §6 lists all of these.

## 4. Plan per property

| Property | Modelled | Proof |
|---|---|---|
| C01–C03 | `pok_sched_init`, `pok_elect_partition` with the three flush policies over an arbitrary slot table | invariant by induction on the list of scheduling points; closed form of deadline as prefix sums |
| C04–C07 | the three thread schedulers as index scans over an arbitrary thread table, `pok_elect_thread` | scan lemmas by induction on the number of indices left |
| C08 | `pok_thread_insert_sort` in place | permutation + sortedness, stale identifier witness |
| C09 | `pok_elect_thread` mode switch | case analysis |
| C10–C13 | wake-up pass and budget accounting of `pok_elect_thread` | invariants over sequences of elections |
| C14–C19 | thread creation, partition init, mode automaton, reinit, thread management calls | frame lemmas on the thread table; invariant over creation histories |
| C20–C23 | pointer check on 32-bit values, system call dispatcher as a table of checks and accesses | arithmetic; case analysis over all numbers |
| C24–C25 | ring buffer functions on an array of `NB_THREADS` entries | refinement to `List` |
| C26–C30 | lock, unlock, wait, signal, broadcast split at scheduling points, in a transition system with arbitrary interleaving | invariants with ghost ownership |
| C31 | partition-level creation and dispatch | invariant, frame lemmas |
| C32–C36 | port table, port memory, flush | layout invariant; ring refinement; frame lemmas |
| C37–C38 | error declaration, message copy, error thread activation | case analysis |
| C39–C40 | allocator table | tiling invariant |
| C41–C42 | libpok buffers, blackboards | ring refinement; witnesses |
| C43–C46 | libc routines | loop invariants |
| C47–C49 | Caesar, DES, Blowfish | Feistel argument for arbitrary round functions |
| C50 | affinity translation | induction on bit index |
| C51–C52 | x86 rendezvous and spinlock as small-step systems | inductive invariants |
| C53–C57 | GDT descriptors, stacks, bump allocator, console, PIT | arithmetic, invariants |
| C58–C59 | ELF loader, PowerPC PTE insertion | memory function equations |
| C60–C62, C73 | ARINC-653 layer (`Model/Arinc`) over the kernel model | case analysis over services and kernel answers, invariant of the name table over creation histories, witnesses |
| C74 | handler entry, IDT contents, first context of a thread (`Model/Machine`) | reduction of the entry sequence for every machine state, induction over the vector list, violation witness for `pok_dispatch_space` |
| C75 | library stubs down to `int $42` (`Model/Stubs`) composed with the system call gate (`Model/Syscall`) | round trip through bytes of memory, case analysis over all library calls; general violation theorems for cut arguments |
| C76 | thread start, resume and suspend over the kernel model (`Model/ThreadMgmt`, `Model/Kernel`) | invariant by induction over later events (`Props/Start`); violation theorem for periodic threads |
| C77 | the structures that the kernel stores and the library reads, as bytes of memory (`Model/Results`, `Spec/Results`) | byte-level round trip per field; violation theorems where the two declarations differ |
| C78 | the partition's error log (`Model/Results`) | induction over the list of errors; violation past 100 entries |
| C79 | attribute initialiser and deadline computation (`Model/Results`) | equality for all old memory contents, arithmetic; violations for affinity and units |
| C63, C65 | calloc, rand | arithmetic |
| C66 | DES and Blowfish marshalling | round trip, witnesses |
| C67–C72 | x86 interrupt entry and exit, context switch and creation, IDT, PIC as functions on a register file and a word memory | equations on memory, induction over requests, witnesses |
| C80 | thread creation and status over the kernel model (`Model/ThreadMgmt`, `Model/KernelSys`, `Model/Results`) | field-by-field equality, then invariant over every later history without a restart (`Props/Create`); violations for the deadline and for a zero period in a used slot |
| C64 | `printf` of the kernel and of the library (`Model/Printf`), formats as lists of items (`Spec/Printf`) | induction over items, digits against `Nat.toDigits`; violations for the returned count, the most negative `long long` and unknown conversions |
| C81 | `setKey`, `bfEnc`, `encrypt` against Spec/Blowfish (Schneier's description: rounds, F, cyclic key mixing, 521 chained encryptions) for any initial tables | simulation: the code's half-block after round 2n is the specification's xor P(2n); induction over the chain of table replacements |
| C82 | the services of Model/Arinc with the calls that they make, `setPriority` on the kernel model | case analysis on the parameters against `Direction`, `Discipline`, `Size`, `operatingMode` of Spec/Arinc; priorities by `elect_static` |
| C83 | the partition getters, `pok_sched_get_current`, `GET_PARTITION_STATUS`, `GET_MY_ID` (Model/Info) with their stores in memory | the status variable of Spec/Info byte by byte (as C77), `C04_dispatch` for the thread; wrong values by concrete configurations and for every configuration |
| C84 | Model/Des (all functions of the DES protocol, tables copied) | Spec/Des: FIPS 46-3 on lists of bits with the tables of the standard; `IP`, `FP` and the key rearrangements as moves of bits, composed and compared with the standard's tables; each combined S/P table entry compared for all 64 inputs; induction over the key loop and the chain of blocks; weak keys from the equations between the round keys of dual keys |
| C85 | kernel model: `restartThread`, `stopThread`, `threadRestart` | refusal, effect on the target for every state (by the wake-up pass lemma), others equal to a plain election; violations: second restart of an aperiodic thread waits for ever, missed periods are replayed, uncreated threads run, the main thread of partition 0 passes for the handler |
| C87 | `Model/Libm`: floor, ceil, trunc, modf, round over the two 32-bit words; `Model/Fpu` for processor arithmetic | value of the result, as a rational (`Spec/Float`), is the floor, ceiling, ... of the value of the argument, for every finite double; infinite and not-a-number cases apart |
| C86 | `Model/Libm`: isnan, isinf, finite, fpclassify, fabs, copysign | result against the IEEE classes of `Spec/Float` for every bit pattern; violation: on big-endian machines the halves are exchanged |
| C88 | `Model/Libm`: ilogb, logb, frexp, scalbn, ldexp, nextafter | rational values; `Rounded` of `Spec/Float` for scalbn, proved through a lemma that the rounding of `Model/Fpu` is nearest-even; places of doubles in their order for nextafter; violation: logb of subnormal numbers |
| C90 | `Libm.fmod`, `Libm.remainder` on the bits, `Fpu` arithmetic | the loop keeps the residue modulo the divisor by induction; the packing inverts the unpacking; Sterbenz's lemma makes the two subtractions of `remainder` exact; statement on rational values |
| C91 | `sqrt` of `Model/Libm.lean`: normalisation, the two bit-by-bit loops over `(s0, t, ix0, ix1)`, the rounding and the assembly, with IEEE addition and subtraction of `Model/Fpu.lean` | Loop invariant (root so far, remainder) by induction over the bits; then real arithmetic: no double is as near to the real square root |
| C89 | `rint` of `Model/Libm.lean`, bit manipulation as in the source and IEEE addition and subtraction of 2^52 | The replaced bits keep integer part, first bit and stickiness; adding and subtracting 2^52 rounds to nearest even. Proved outside, refuted on, the arguments with exponent 18, even integer part and fraction 3/4 |
| C92 | Model/SparcTrap: eight windows, WIM, `save`/`restore`, the two window handlers instruction by instruction; Spec/Sparc: a program with an unbounded stack of frames | Forward simulation: every step of the program is matched; induction over the run |
| C93 | Model/SparcTrap: `trapIn` (entry.S up to the handler, with the context and windows stored) and `trapOut`; between them an arbitrary kernel | Every stored word is found again; windows refilled from the stack; negations for seven windows and for the flags |
| C94 | As C93, with the S and PS bits | Negation, for every state |
| C95 | As C93 with `scArgs`/`scDone` (syscalls.c) | As C93, with one word changed |
| C96 | `contextCreate` (thread.c, space.c), then `trapOut` | Direct, word by word; the result is a state from which C92 runs. The port's `pok_space_context_create` has five parameters where kernel/include/arch.h and its callers have six: the port does not compile at this commit, the theorem is about its own function |
| C97 | `contextReset`, `idleCreate` (thread.c) | Negation |
| C98 | Model/SparcMmu: the three tables, their construction, placement of partitions, and the MMU's walk over words of memory | Invariant of the tables over the loop that loads the partitions; the walk computed from it; negations for supervisor mode, oversize partitions and alignment |
| C99 | `Ports.sendAt`, `Ports.receiveAt`, `LockObj.mkDeadline` | outcome of every legal call by case; the deadline shown to be `t + 2 now` (violated) |
| C100 | `Kernel.exec`, all kernel entries of `KCall` | an entry has no result exactly for the calls of `Fatal`; induction over histories; the fatal calls are violations |
| C101 | PowerPC registers and memory as 32-bit words, cswitch.S instruction by instruction, the frames built by thread.c and space.c | symbolic execution of the two halves; frames disjoint |
| C102 | entry.S instruction by instruction, C handlers as arbitrary functions that keep the ABI's registers and the frame | symbolic execution; induction on the number of system calls |
| C103 | the decrementer loop over any readings of the time base; the timer settings of the SPARC board | invariant: the clock counts the finished intervals; induction on interrupts |
| C104 | the bump allocator of the PReP board | induction on the list of sizes |
| C105 | the virtual port services and the lookup of a port by name, over an arbitrary configuration | decision logic: the tests of the code decide ownership as specified; list lemmas for the enumeration and the first match |
| C106 | status and identification of buffers and blackboards, on the models of C41 and C42 | the refinement of C41 after every history; an invariant on the empty mark of blackboards |
| C107 | all processors of the kernel model, entries interleaved in any order | invariant over histories: what each processor runs is bound to it or is the main thread of a starting partition; ranges of partitions are disjoint |
| C108 | numbering, lock counts, start stacks and the two words written for an interrupt between processors; the interrupt controller decodes them in a specification | induction over the processors that start; decoding of the words |
| C109 | memory as bytes; search for the structure, loop over the table, checks | induction over the entries of the table, whose bytes a specification lays out |
| C110 | pairs of histories (rounds of a timer interrupt and calls) of the transition system of the kernel, and what one partition observes of them; specification in Spec/Isolation | noninterference by a relation between the two states: steps of the others leave the part of the partition alone, steps of the partition keep the parts equal |
| C111 | the network driver with the card as an assumed environment (ring of pages, remote DMA): arrivals, polls one loop round at a time, reads; specification in Spec/Net | invariant over histories: the pages between boundary and current page are the stored frames not yet handed over; refinement of the queues to lists of bytes |
| C112 | `rtl8029_write` over the destinations of the configuration, with the stack as an arbitrary function; specification `Pieces` in Spec/NetSend | induction on the length of the data and on the destinations; two stacks compared for the violation |
| C113 | the sender of C112 and the receiver of C111 composed | composition: frames of the sender satisfy the hypotheses of the receiver |
| C114 | `pci_open` over an arbitrary configuration space; specification `DeviceAt` in Spec/NetSend | first match in an ordered enumeration |
| C115 | `Model/Libmf`: isnan, isinf, finite, fpclassify, fabs, copysign over one 32-bit word | result against the IEEE classes of `Spec/Single` for every bit pattern |
| C116 | `Model/Libmf`: floor, ceil, trunc, modf, round; `Model/Fpu32` for processor arithmetic | value of the result as a rational (`Spec/Single`), as for C87 |
| C117 | `Model/Libmf`: ilogb, logb, frexp, scalbn, ldexp, nextafter | rational values and `Rounded` of `Spec/Single`, as for C88; violation: logbf of subnormal numbers |
| C118 | `Model/Libmf`: rint | as for C89; proved outside, refuted on, the arguments with exponent 21, even integer part and fraction 3/4 |
| C119 | `Model/Libmf`: fmod, remainder | the loop keeps the residue modulo the divisor by induction; Sterbenz's lemma for the subtractions of `remainderf` |
| C120 | `Model/Libmf`: sqrt, its loop over the bits of the root | loop invariant by induction; then real arithmetic: no float is as near to the real square root |
| C121 | `Model/Port` (all calls and flushes, as for C32-C36); `Spec/PortIsolation`: `own`, `seen`, `NoWayIn` | two services that are alike for the group up to the place of its buffers stay alike: relation, induction over the history; violations: shared pool, buffer checked against the size of another port |
| C122 | `Model/Pow`: decision part of `__ieee754_pow`, the approximation a parameter; `Spec/Pow`: whole, odd, above and below one | `pow` as a function of sign and magnitude (bit arithmetic), then each documented case; `div` is the exact quotient rounded; powers out of range by the logarithm |
| C123 | `print_float` (`Model/Printf`), with the number of bits the processor keeps of a product a parameter; decimal places of a rational (`Spec/Printf`) | a product with few significant bits is exact, any other moves by at most one unit, so a digit by at most one; violations for digits, the count, negative and large numbers |
| C124 | `sin`, `cos`, their kernels and the reduction by multiples of pi/2 (`Model/Trig`) over the floating-point unit; specification: Mathlib's `Real.sin`, `Real.cos` | a calculus of rounding errors (`Lemmas/Err`: each operation moves the result by at most half a unit); the polynomials against the Taylor series by interval subdivision checked in the kernel; pi/2 to 30 digits from the series of the cosine; exactness of the first step of the reduction; quadrants |
| C125 | `exp` with its reduction by multiples of ln 2, the rational kernel and the scaling (`Model/Exp`) over the floating-point unit; specification: Mathlib's `Real.exp` | the calculus of rounding errors extended by division and by results below the normal doubles; the polynomial against the series of the exponential by interval subdivision checked in the kernel; ln 2 to 30 digits; exactness of the first step of the reduction; the thresholds compared with 1024 ln 2 and 1075 ln 2 |
| C126 | `log` with the splitting into exponent and fraction, the series and its three summation orders (`Model/Log`) over the floating-point unit; specification: Mathlib's `Real.log` | the calculus of rounding errors with the error kept relative to the logarithm; the series of the logarithm bounded by interval subdivision checked in the kernel; exactness of the product with the upper part of ln 2; cancellation between k ln 2 and the fraction treated for k = 1 and -1 on the grid of doubles |
| C127 | The trap tables, registration, default handling and interrupt masks of both ports (`Model/Vectors`) | Induction over the sequence of registrations; tables read entry by entry; bit by bit for the masks. Refuted: errors and trap instructions of a partition restart or stop the machine, PowerPC registration does nothing |
| C128 | The waiting loop and the output loop against any sequence of device answers, the console calls, `getChar`, `pok_inb` (`Model/Serial`) | Induction over the text and the answers. Refuted: PowerPC and SPARC answer every write with an error, x86 does so for control sequences; `getChar` confuses byte 255 with no byte |
| C129 | `log10` and `log2` (`Model/LogBase`) over the model of `log` (`Model/Log`) and the floating-point unit; specification: Mathlib's `Real.logb` | the error of `log` carried through the product with 1/ln 10 and the sum, whose terms never have opposite signs; exactness of the product with the upper part of log10 2; bounds of ln 10 by the series; for `log2` the summation of `log` with the opposite sign, the division by ln 2, and half of ln 2 as bound of the reduced logarithm |
| C130 | the default handler (`Model/DefaultHandler`) over the kernel's `pok_error_get` and `pok_partition_set_mode` (`Model/ErrorMgmt`, `Model/PartMgmt`) and the bytes stored in its variable (`Model/Results`) | totality of the election in reachable states (as C100) and C17 for the modes; violation for every printable message by the bytes read as an address |
| C131 | the two printing functions as a sequence of marks with their two flags (`Model/Trace`); reading with a stack of open elements (`Spec/Trace`) | invariant over histories: which elements are open for which flags; counting of the elements; `%d` as the lower 32 bits |
| C132 | `atan` (`Model/Atan`) over the model of the floating-point unit; specification: Mathlib's `Real.arctan` | the alternating series with its remainder by the mean value theorem; the polynomial against the series on twelve intervals; the addition theorem for the four breakpoints; the constants by the series and by pi; rounding errors with `Near`, `Nb` |
| C133 | `atan2` (`Model/Atan2`) over the model of the floating-point unit; specification: Mathlib's `Complex.arg`, `Closest` and `farAngle` (`Spec/Angle`) | the quotient by the error of the division, the arc tangent by C132 and its Lipschitz bound, the half planes by `Complex.arg` in terms of `arctan`, the constants by their neighbours; overflow of `hx - 0x3ff00000` refuted |
| C134 | `hypot` (`Model/Hypot`) over the model of the floating-point unit; specification: Mathlib's `Real.sqrt` | relative errors of sums, products and square roots up to `2^1020` (`Lemmas/Rel`), sums of terms of one sign in both formulas of the code, exactness of the scaling by powers of two, one lemma per branch; the left shift of a negative number refuted |
| C135 | the spinlocks of PowerPC (load and reserve, conditional store) and SPARC (swap, branch with delay slot) instruction by instruction (`Model/Spin`) | invariant over all interleavings by induction; the delay slot of the SPARC branch refutes exclusion for the first instruction of the section |
| C136 | the look-up and status services of libpok/arinc653 on the memory of the partition, byte by byte (`Model/ApexStatus`), over the kernel's calls (`Model/Results`, `Model/Port`) | stores traced through the layouts of both headers; five services refuted for all inputs |
| C137 | the descriptor table and the bytes of the task state segments (`Model/Tss`); the processor's check of an I/O instruction (`Spec/Tss`) | invariant over all histories, from the start of the first processor; the permission map that results is computed, with ports open and ports closed |
| C138 | `CREATE_ERROR_HANDLER` and `REPORT_APPLICATION_MESSAGE` over the kernel's creation of threads and its activation of the handler, with the uninitialised variable of the kernel as an argument (`Model/ErrorApex`) | case analysis over reachable states, with the well-formedness of `Lemmas/KernelWf` |
| C139 | `cbrt` over the operations of doubles (`Model/Cbrt`) | the rough cube root within five percent by the convexity of the cube in each case of the exponent; the factorisation of the error of the rational function; the last step as Halley's iteration with every rounding; that the product `t*t` is exact; nearest doubles for cubes |
| C140 | `DES_set_odd_parity` over the table of the code, with the memory after the key | tables checked in the kernel for the 256 bytes and lifted to all keys; that no parity bit matters follows from the equivalence of the key schedule with FIPS 46-3 (C84): permuted choice 1 selects none |
| C141 | `cosh`, with `expm1` and `exp`, as in e_cosh.c and expm1.c, over doubles as bit patterns with operations rounded to nearest | error analysis of each range against Mathlib's `Real.cosh`: the rational function of `expm1` against the series of the exponential, the exponential by C125, a lemma on rounding just below `2^1024` for the last range; the threshold by bounds of the logarithm of two |
| C142 | `sinh`, with `expm1` and `exp`, as in e_sinh.c, over doubles as bit patterns with operations rounded to nearest | error analysis against Mathlib's `Real.sinh`: from 22 by the bounds of C141, where the sine and the cosine agree; from half of the logarithm of two to 22 by the argument reduction of `expm1`, branch by branch; below half of the logarithm of two by the rational function of `expm1`; below `2^-28` by the series; negative arguments by the symmetry of the operations |
| C143 | `tanh`, with `expm1`, as in tanh.c, over doubles as bit patterns with operations rounded to nearest | error analysis against Mathlib's `Real.tanh`: from 22 by a bound of the exponential; from a quarter of the logarithm of two to 22 by the argument reduction of `expm1`; below that by its rational function; below `2^-55` by the series, where `1+x` is rounded to 1; negative arguments by the symmetry of the operations |
| C144 | how `pok_arch_sc_int` of both boards builds the arguments of the dispatcher of C22, after the entry code of C102 and C95; the number of arguments that the library passes with each service | composition with the theorems on the entry code; every case of the dispatcher against the table |
| C145 | `expm1` as in expm1.c, over doubles as bit patterns with operations rounded to nearest | error analysis against Mathlib's `Real.exp`: the rational function of the primary range relative to the result, the five branches of the last steps for reduced arguments, and for large arguments the exponent of the scaled result |
| C146 | `scalb`, `__ieee754_scalb` and `significand` over doubles as bit patterns | the theorems on `scalbn`, `rint`, `ilogb` and `frexp`; clamping the power at 65000 does not change the rounded product, as every product there is beyond the doubles or below half of the least |
| C147 | `scalbf`, `__ieee754_scalbf` and `significandf` over floats as bit patterns | the theorems on `scalbnf`, `rintf`, `ilogbf` and `frexpf`; clamping the power at 65000 does not change the rounded product, as every product there is beyond the floats or below half of the least |
| C148 | `asin` and `acos` with `__ieee754_asin` and `__ieee754_acos`, over doubles as bit patterns with operations rounded to nearest | the branches by the bits; bounds on the rational function show that its quotient is a number below 4/5, so that the last sum does not cancel and changes sign with its terms; the accuracy between the ends is not claimed |
| C149 | `asinh`, `__ieee754_acosh` and `log1p`, over doubles as bit patterns with operations rounded to nearest | the branches by the bits; for large arguments the theorem on `log`, the error of the last addition, and `log (x + sqrt (x^2 ± 1))` against `log (2 x)`; the accuracy in the middle is not claimed |

## 5. Trusted base

* Lean 4.33.0's kernel. The theorems of `MANIFEST.json` depend on no axioms but the standard `propext`, `Classical.choice` and
  `Quot.sound`; `AXIOMS.txt` lists them theorem by theorem (output of `#print axioms`). No `sorry`, no own axioms, no
  `native_decide`, no `bv_decide`.
* The correspondence between the C and assembly code and the Lean definitions, made by reading; each definition cites its lines and
  says where it simplifies. Compiler, linker, boot loader and hardware behave as the definitions say (`Model/Fpu` for floating point,
  the segment and gate checks of `Model/X86`, the ports of `Model/Machine`).
* The specifications in `Verif/Spec`, which are short and meant to be read.

### Modelled, by model module

| module | files of /repo it cites |
|---|---|
| `Affinity` | `kernel/core/multiprocessing.c` |
| `Alloc` | `libpok/core/allocator.c`, `libpok/libc/stdlib/calloc.c`, `libpok/libc/stdlib/malloc.c` |
| `ApexStatus` | `kernel/core/syscall.c`, `libpok/arinc653/blackboard.c`, `libpok/arinc653/buffer.c`, `libpok/arinc653/event.c`, `libpok/arinc653/process.c`, `libpok/arinc653/queueing.c`, `libpok/arinc653/sampling.c`, `libpok/arinc653/semaphore.c`, `libpok/arinc653/time.c`, `libpok/include/arinc653/queueing.h`, `libpok/include/arinc653/sampling.h`, `libpok/include/arinc653/types.h`, `libpok/include/middleware/port.h` |
| `Arinc` | `kernel/include/core/sched.h`, `libpok/arinc653/arincutils.c`, `libpok/arinc653/blackboard.c`, `libpok/arinc653/buffer.c`, `libpok/arinc653/error.c`, `libpok/arinc653/event.c`, `libpok/arinc653/partition.c`, `libpok/arinc653/process.c`, `libpok/arinc653/queueing.c`, `libpok/arinc653/sampling.c`, `libpok/arinc653/semaphore.c`, `libpok/arinc653/time.c`, `libpok/core/threaddelayedstart.c`, `libpok/core/threadsleep.c`, `libpok/include/arinc653/arincutils.h`, `libpok/include/arinc653/process.h`, `libpok/include/arinc653/types.h`, `libpok/middleware/portqueueingreceive.c`, `libpok/middleware/portqueueingsend.c` |
| `Asin` | `libpok/libm/acos.c`, `libpok/libm/asin.c`, `libpok/libm/e_acos.c`, `libpok/libm/e_asin.c` |
| `Asinh` | `libpok/libm/asinh.c`, `libpok/libm/e_acosh.c`, `libpok/libm/log1p.c` |
| `Atan` | `libpok/libm/atan.c` |
| `Atan2` | `libpok/libm/atan2.c`, `libpok/libm/e_atan2.c` |
| `Basic` | `kernel/include/core/partition.h`, `kernel/include/core/sched.h`, `kernel/include/errno.h` |
| `BoardCall` | `kernel/arch/ppc/syscalls.c`, `kernel/arch/sparc/syscalls.c`, `libpok/arch/ppc/syscall.S`, `libpok/arch/sparc/syscall.S`, `libpok/arch/x86/ioports.c`, `libpok/arch/x86/pci.c`, `libpok/core/shutdown.c`, `libpok/drivers/rtl8029.c`, `libpok/include/core/partition.h`, `libpok/include/core/thread.h`, `libpok/include/middleware/port.h`, `libpok/libc/stdio/getchar.c`, `libpok/libc/stdio/printf.c` |
| `Caesar` | `libpok/protocols/ceasar/ceasar.c` |
| `Cbrt` | `libpok/libm/cbrt.c` |
| `Cosh` | `libpok/libm/cosh.c`, `libpok/libm/e_cosh.c`, `libpok/libm/expm1.c` |
| `DefaultHandler` | `kernel/core/error.c`, `libpok/core/errorhandlerworker.c` |
| `Des` | `libpok/libc/string/memcmp.c`, `libpok/protocols/blowfish/bf_enc.c`, `libpok/protocols/blowfish/bf_locl.h`, `libpok/protocols/blowfish/bf_pi.h`, `libpok/protocols/blowfish/bf_skey.c`, `libpok/protocols/blowfish/blowfish.c`, `libpok/protocols/des/des.c`, `libpok/protocols/des/des_enc.c`, `libpok/protocols/des/des_locl.h`, `libpok/protocols/des/ncbc_enc.c`, `libpok/protocols/des/set_key.c` |
| `DesKey` | `libpok/protocols/des/des.h`, `libpok/protocols/des/set_key.c` |
| `DesTables` | `libpok/protocols/des/set_key.c`, `libpok/protocols/des/spr.h` |
| `ErrorApex` | `kernel/core/error.c`, `kernel/core/syscall.c`, `libpok/arinc653/error.c`, `libpok/core/errorraise.c`, `libpok/include/arinc653/types.h` |
| `ErrorMgmt` | `kernel/arch/x86/exceptions.c`, `kernel/core/error.c`, `kernel/include/core/error.h` |
| `Exp` | `libpok/libm/e_exp.c`, `libpok/libm/exp.c` |
| `Hypot` | `libpok/libm/e_hypot.c`, `libpok/libm/hypot.c` |
| `Info` | `kernel/core/partition.c`, `kernel/core/syscall.c`, `libpok/arinc653/partition.c`, `libpok/arinc653/process.c`, `libpok/core/threadid.c`, `libpok/include/arinc653/partition.h` |
| `Kernel` | `kernel/core/sched.c`, `kernel/include/core/error.h`, `kernel/include/core/partition.h`, `kernel/include/core/thread.h` |
| `KernelSys` | `kernel/core/lockobj.c`, `kernel/core/syscall.c` |
| `Libc` | `kernel/arch/x86/divisionbyzeroerror.c`, `kernel/libc/__udivdi3.c`, `kernel/libc/__umoddi3.c`, `kernel/libc/memcpy.c`, `kernel/libc/memset.c`, `kernel/libc/strcmp.c`, `kernel/libc/strlen.c`, `libpok/arinc653/event.c`, `libpok/arinc653/semaphore.c`, `libpok/include/libc/stdlib.h`, `libpok/libc/misc/__udivdi3.c`, `libpok/libc/misc/__umoddi3.c`, `libpok/libc/stdlib/rand.c`, `libpok/libc/string/atoi.c`, `libpok/libc/string/itoa.c`, `libpok/libc/string/memcmp.c`, `libpok/libc/string/memcpy.c`, `libpok/libc/string/memset.c`, `libpok/libc/string/strcmp.c`, `libpok/libc/string/strcpy.c`, `libpok/libc/string/streq.c`, `libpok/libc/string/strlen.c`, `libpok/libc/string/x86/memcpy.c`, `libpok/libc/string/x86/strlen.c` |
| `Libm` | `libpok/include/libm.h`, `libpok/libm/ceil.c`, `libpok/libm/copysign.c`, `libpok/libm/e_fmod.c`, `libpok/libm/e_remainder.c`, `libpok/libm/e_sqrt.c`, `libpok/libm/fabs.c`, `libpok/libm/finite.c`, `libpok/libm/floor.c`, `libpok/libm/fmod.c`, `libpok/libm/fpclassify.c`, `libpok/libm/frexp.c`, `libpok/libm/ilogb.c`, `libpok/libm/isinf.c`, `libpok/libm/isnan.c`, `libpok/libm/ldexp.c`, `libpok/libm/logb.c`, `libpok/libm/math_private.h`, `libpok/libm/modf.c`, `libpok/libm/nextafter.c`, `libpok/libm/remainder.c`, `libpok/libm/rint.c`, `libpok/libm/round.c`, `libpok/libm/scalbn.c`, `libpok/libm/sqrt.c`, `libpok/libm/trunc.c` |
| `Libmf` | `libpok/libm/ceilf.c`, `libpok/libm/copysignf.c`, `libpok/libm/e_fmodf.c`, `libpok/libm/e_remainderf.c`, `libpok/libm/e_sqrtf.c`, `libpok/libm/fabsf.c`, `libpok/libm/finitef.c`, `libpok/libm/floorf.c`, `libpok/libm/fmodf.c`, `libpok/libm/fpclassify.c`, `libpok/libm/frexpf.c`, `libpok/libm/ilogbf.c`, `libpok/libm/isinff.c`, `libpok/libm/isnanf.c`, `libpok/libm/ldexpf.c`, `libpok/libm/logbf.c`, `libpok/libm/math_private.h`, `libpok/libm/modff.c`, `libpok/libm/nextafterf.c`, `libpok/libm/remainderf.c`, `libpok/libm/rintf.c`, `libpok/libm/roundf.c`, `libpok/libm/scalbnf.c`, `libpok/libm/sqrtf.c`, `libpok/libm/truncf.c` |
| `Loader` | `kernel/core/loader.c`, `kernel/include/elf.h` |
| `LockFifo` | `kernel/core/lockobj.c`, `kernel/include/core/lockobj.h` |
| `LockObj` | `kernel/core/lockobj.c`, `kernel/include/core/lockobj.h` |
| `LockPart` | `kernel/core/lockobj.c`, `kernel/include/core/lockobj.h`, `kernel/include/core/partition.h` |
| `LockSys` | `kernel/core/sched.c`, `kernel/core/thread.c`, `kernel/include/core/thread.h` |
| `Log` | `libpok/libm/e_log.c`, `libpok/libm/log.c` |
| `LogBase` | `libpok/libm/e_log.c`, `libpok/libm/e_log10.c`, `libpok/libm/e_log2.c`, `libpok/libm/log10.c`, `libpok/libm/log2.c` |
| `Machine` | `kernel/arch/x86/arch.c`, `kernel/arch/x86/event.c`, `kernel/arch/x86/event.h`, `kernel/arch/x86/exceptions.c`, `kernel/arch/x86/gdt.h`, `kernel/arch/x86/interrupt.c`, `kernel/arch/x86/ipi.c`, `kernel/arch/x86/pci.c`, `kernel/arch/x86/space.c`, `kernel/arch/x86/syscalls.c`, `kernel/arch/x86/thread.c`, `kernel/arch/x86/x86-qemu/bsp.c`, `kernel/arch/x86/x86-qemu/pic.c`, `kernel/include/arch/x86/interrupt.h`, `kernel/include/arch/x86/ipi.h`, `kernel/include/core/syscall.h` |
| `Middleware` | `libpok/include/middleware/blackboard.h`, `libpok/include/middleware/buffer.h`, `libpok/middleware/blackboardclear.c`, `libpok/middleware/blackboardcreate.c`, `libpok/middleware/blackboarddisplay.c`, `libpok/middleware/blackboardinit.c`, `libpok/middleware/blackboardread.c`, `libpok/middleware/buffercreate.c`, `libpok/middleware/bufferinit.c`, `libpok/middleware/bufferreceive.c`, `libpok/middleware/buffersend.c`, `libpok/middleware/ressources.c` |
| `Mp` | `kernel/arch/x86/ap.c`, `kernel/arch/x86/ipi.c`, `kernel/arch/x86/multiprocessing.c`, `kernel/arch/x86/start_ap.S`, `kernel/arch/x86/x86-qemu/entry.S`, `kernel/core/sched.c`, `kernel/include/arch/x86/ipi.h`, `kernel/include/arch/x86/multiprocessing.h`, `kernel/include/arch/x86/spinlock.h` |
| `MwStatus` | `libpok/include/middleware/blackboard.h`, `libpok/include/middleware/buffer.h`, `libpok/middleware/blackboardstatus.c`, `libpok/middleware/bufferid.c`, `libpok/middleware/bufferstatus.c` |
| `Net` | `kernel/arch/x86/pci.c`, `kernel/drivers/rtl8029.c`, `kernel/include/drivers/rtl8029.h` |
| `PartMgmt` | `kernel/core/boot.c`, `kernel/core/error.c`, `kernel/core/partition.c`, `kernel/core/thread.c` |
| `PartSched` | `kernel/core/error.c`, `kernel/core/sched.c` |
| `Port` | `kernel/core/syscall.c`, `kernel/include/core/partition.h`, `kernel/include/middleware/port.h`, `kernel/middleware/portcreate.c`, `kernel/middleware/portflushall.c`, `kernel/middleware/portinit.c`, `kernel/middleware/portqueueingcreate.c`, `kernel/middleware/portqueueingreceive.c`, `kernel/middleware/portqueueingsend.c`, `kernel/middleware/portsamplingcreate.c`, `kernel/middleware/portsamplingid.c`, `kernel/middleware/portsamplingread.c`, `kernel/middleware/portsamplingwrite.c`, `kernel/middleware/portutils.c`, `kernel/middleware/queueinit.c` |
| `Pow` | `libpok/libm/e_pow.c`, `libpok/libm/pow.c` |
| `Ppc` | `kernel/arch/ppc/space.c` |
| `PpcCpu` | `kernel/arch/ppc/cswitch.S`, `kernel/arch/ppc/entry.S`, `kernel/arch/ppc/msr.h`, `kernel/arch/ppc/space.c`, `kernel/arch/ppc/thread.c`, `kernel/arch/ppc/thread.h` |
| `Printf` | `kernel/libc/printf.c`, `libpok/libc/stdio/printf.c` |
| `Results` | `kernel/core/syscall.c`, `kernel/core/thread.c`, `kernel/include/core/thread.h`, `kernel/include/middleware/port.h`, `kernel/middleware/portqueueingstatus.c`, `kernel/middleware/portsamplingstatus.c`, `libpok/arinc653/error.c`, `libpok/core/errorconfirm.c`, `libpok/core/errorlog.c`, `libpok/core/threadattrinit.c`, `libpok/core/timecomputedeadline.c`, `libpok/include/arinc653/error.h`, `libpok/include/core/error.h` |
| `Scalb` | `libpok/libm/e_scalb.c`, `libpok/libm/scalb.c`, `libpok/libm/significand.c` |
| `Scalbf` | `libpok/libm/e_scalbf.c`, `libpok/libm/scalbf.c`, `libpok/libm/significandf.c` |
| `Serial` | `kernel/arch/ppc/prep/cons.c`, `kernel/arch/sparc/leon3/cons.c`, `kernel/arch/x86/x86-qemu/cons.c`, `kernel/core/cons.c`, `kernel/core/syscall.c`, `libpok/arch/x86/ioports.c`, `libpok/libc/stdio/getchar.c` |
| `Sinh` | `libpok/libm/e_sinh.c`, `libpok/libm/sinh.c`, `libpok/libm/tanh.c` |
| `Smp` | `kernel/core/sched.c`, `kernel/include/arch/x86/rendezvous.h`, `kernel/include/arch/x86/spinlock.h` |
| `SparcMmu` | `kernel/arch/sparc/leon3/bsp.c`, `kernel/arch/sparc/leon3/sparc_conf.h`, `kernel/arch/sparc/space.c`, `kernel/arch/sparc/space.h`, `kernel/core/partition.c` |
| `SparcTrap` | `kernel/arch/sparc/entry.S`, `kernel/arch/sparc/leon3/sparc_conf.h`, `kernel/arch/sparc/regwin.S`, `kernel/arch/sparc/space.c`, `kernel/arch/sparc/syscalls.c`, `kernel/arch/sparc/thread.c` |
| `Spin` | `kernel/include/arch/ppc/spinlock.h`, `kernel/include/arch/sparc/spinlock.h` |
| `Stubs` | `libpok/arch/x86/syscall.c`, `libpok/core/errorget.c`, `libpok/core/errorhandlercreate.c`, `libpok/core/errorraise.c`, `libpok/core/eventbroadcast.c`, `libpok/core/eventcreate.c`, `libpok/core/eventlock.c`, `libpok/core/eventsignal.c`, `libpok/core/eventunlock.c`, `libpok/core/eventwait.c`, `libpok/core/mutexcreate.c`, `libpok/core/mutexlock.c`, `libpok/core/mutextrylock.c`, `libpok/core/mutexunlock.c`, `libpok/core/semcreate.c`, `libpok/core/semsignal.c`, `libpok/core/semwait.c`, `libpok/core/shutdown.c`, `libpok/core/threadcreate.c`, `libpok/core/threaddelayedstart.c`, `libpok/core/threadid.c`, `libpok/core/threadperiod.c`, `libpok/core/threadpriority.c`, `libpok/core/threadresume.c`, `libpok/core/threadsleep.c`, `libpok/core/threadstatus.c`, `libpok/core/timeget.c`, `libpok/include/core/lockobj.h`, `libpok/include/core/partition.h`, `libpok/include/core/syscall.h`, `libpok/include/core/thread.h`, `libpok/libc/stdio/printf.c`, `libpok/middleware/portqueueingcreate.c`, `libpok/middleware/portqueueingreceive.c`, `libpok/middleware/portqueueingsend.c`, `libpok/middleware/portsamplingcreate.c`, `libpok/middleware/portsamplingread.c`, `libpok/middleware/portsamplingwrite.c`, `libpok/middleware/portvirtualcreate.c` |
| `Syscall` | `kernel/arch/x86/pci.c`, `kernel/arch/x86/syscalls.c`, `kernel/arch/x86/x86-qemu/cons.c`, `kernel/arch/x86/x86-qemu/cons.h`, `kernel/core/lockobj.c`, `kernel/core/syscall.c`, `kernel/core/thread.c`, `kernel/drivers/rtl8029.c`, `kernel/include/core/lockobj.h`, `kernel/include/core/partition.h`, `kernel/include/core/syscall.h`, `kernel/include/core/thread.h`, `kernel/include/drivers/rtl8029.h`, `kernel/include/middleware/port.h`, `kernel/libc/strcmp.c`, `kernel/middleware/portqueueingreceive.c`, `kernel/middleware/portsamplingread.c`, `kernel/middleware/portvirtualid.c` |
| `Thread` | `kernel/core/sched.c`, `kernel/include/core/thread.h` |
| `ThreadMgmt` | `kernel/core/thread.c`, `kernel/include/core/thread.h` |
| `ThreadSched` | `kernel/core/partition.c`, `kernel/core/sched.c`, `kernel/include/core/thread.h` |
| `Timers` | `kernel/arch/ppc/prep/bsp.c`, `kernel/arch/ppc/timer.c`, `kernel/arch/sparc/leon3/sparc_conf.h`, `kernel/arch/sparc/leon3/timer.c`, `kernel/core/time.c`, `kernel/include/core/time.h` |
| `Trace` | `kernel/core/instrumentation.c`, `kernel/core/partition.c`, `kernel/core/thread.c`, `kernel/include/core/partition.h`, `kernel/include/core/thread.h` |
| `Trig` | `libpok/libm/cos.c`, `libpok/libm/e_rem_pio2.c`, `libpok/libm/k_cos.c`, `libpok/libm/k_rem_pio2.c`, `libpok/libm/k_sin.c`, `libpok/libm/sin.c` |
| `Tss` | `kernel/arch/x86/ap.c`, `kernel/arch/x86/arch.c`, `kernel/arch/x86/gdt.c`, `kernel/arch/x86/gdt.h`, `kernel/arch/x86/space.c`, `kernel/arch/x86/tss.h` |
| `Vectors` | `kernel/arch/ppc/arch.c`, `kernel/arch/ppc/entry.S`, `kernel/arch/sparc/arch.c`, `kernel/arch/sparc/entry.S`, `kernel/arch/sparc/leon3/timer.c`, `kernel/arch/sparc/leon3/timer.h`, `kernel/arch/sparc/psr.h`, `kernel/arch/sparc/regwin.S`, `kernel/arch/sparc/syscalls.c`, `kernel/arch/sparc/traps.c`, `kernel/arch/sparc/traps.h`, `kernel/core/debug.c`, `kernel/include/core/debug.h` |
| `VirtPort` | `kernel/middleware/portvirtualdestination.c`, `kernel/middleware/portvirtualgetglobal.c`, `kernel/middleware/portvirtualid.c`, `kernel/middleware/portvirtualnbdestinations.c`, `kernel/middleware/portvirtualutils.c` |
| `X86` | `kernel/arch/x86/arch.c`, `kernel/arch/x86/gdt.c`, `kernel/arch/x86/gdt.h`, `kernel/arch/x86/space.c`, `kernel/arch/x86/x86-qemu/cons.c`, `kernel/arch/x86/x86-qemu/cons.h`, `kernel/arch/x86/x86-qemu/pit.c`, `kernel/arch/x86/x86-qemu/pm.c`, `kernel/core/partition.c`, `kernel/core/sched.c`, `kernel/core/thread.c`, `kernel/libc/memcpy.c` |

Cited files are not always modelled whole: a function not named in the module is not modelled.

### Files with no model

* `kernel/arch/x86/x86-qemu`: debug.c, shutdown.c
* `kernel/core`: assert.c, kernel.c
* `kernel/middleware`: portqueueingid.c, ressources.c
* `libpok/arch/ppc`: arch.c
* `libpok/arch/sparc`: arch.c
* `libpok/arch/x86`: arch.c, divisionbyzeroerror.c
* `libpok/core`: assert.c, errno.c, errorignore.c, main.c, semstatus.c
* `libpok/libc/stdlib`: free.c
* `libpok/middleware`: blackboardid.c, portvirtualdestination.c, portvirtualgetglobal.c, portvirtualnbdestinations.c, portvirtualutils.c, queueinit.c
* `libpok/libm`: acosf.c, acosh.c, acoshf.c, asinf.c, asinhf.c, atan2f.c, atanf.c, atanh.c, atanhf.c, cbrtf.c, cosf.c, coshf.c, drem.c, dremf.c, e_acosf.c, e_acoshf.c, e_asinf.c, e_atan2f.c, e_atanh.c, e_atanhf.c, e_coshf.c, e_expf.c, e_hypotf.c, e_j0.c, e_j0f.c, e_j1.c, e_j1f.c, e_jn.c, e_jnf.c, e_lgamma_r.c, e_lgammaf_r.c, e_log10f.c, e_log2f.c, e_logf.c, e_powf.c, e_rem_pio2f.c, e_sinhf.c, erf.c, erff.c, expf.c, expm1f.c, gamma.c, gamma_r.c, gammaf.c, gammaf_r.c, hypotf.c, infinity.c, j0.c, j0f.c, j1.c, j1f.c, jn.c, jnf.c, k_cosf.c, k_rem_pio2f.c, k_sinf.c, k_standard.c, k_tan.c, k_tanf.c, lgamma.c, lgamma_r.c, lgammaf.c, lgammaf_r.c, log10f.c, log1pf.c, log2f.c, logf.c, matherr.c, powf.c, signgam.c, sinf.c, sinhf.c, tan.c, tanf.c, tanhf.c

Most are start-up code, output to a console, table constants, or wrappers of one system call; most approximating functions of `libm` are left (sine, cosine, exponential and logarithm are C124 to C126). Data of the generated configuration (`deployment.c`) is a parameter of the model.

## 6. Disagreements found

Each line is a theorem that proves the property, or a part of it, false of the code. What does hold is in the `_partial` theorems of the same property.

* `C04_handler_violated`: the handler that an error starts need not be bound to the processor that runs it: in the history above, processor 1 runs thread 3, which is bound to processor 0.
* `C06_ties_violated`: The tie rule does not hold when no previous thread is recorded (the first thread dispatched from idle on a processor): the current thread 2 loses the processor to thread 1 of the same priority.
* `C08_ids_violated`: for identifiers: in a reachable state the second creation succeeds, and the identifier it returns designates the thread created first.
* `C10_no_wakeup_violated`: when neither lock objects nor ports are compiled in: a sleeping thread is never woken, whatever the clock.
* `C10_budget_violated`: thread 2 exhausts its budget of 1, sleeps for 1 ms at clock 5, and runs again at clock 6.
* `C10_init_violated`: the main thread sleeps during initialisation and goes on at once.
* `C11_fresh_budget_violated`: "with a fresh budget", is false when the thread ends its period late: thread 1 (capacity 5, next activation 10) ends its period at clock 14; it is released by the same election with 4 units.
* `C12_rms_violated`: under the rate monotonic policy: a thread A (capacity 1) is moved by the creation of the error handler to the identifier registered for the handler, gets the handler's budget, and is moved again by the next creation. In NORMAL mode A, now thread 3, neither main thread nor error handler, is still running after five consecutive elections.
* `C13_budget_violated`: thread 2 exhausts its budget, blocks on a lock object without timeout, and runs again although nothing unlocked it.
* `C13_init_violated`: the main thread blocks during initialisation and goes on at once.
* `C15_locks_violated`: for 256 or more lock objects: with 200 and 100, the second partition gets the range 200..44, which is empty.
* `C16_one_past_violated`: for the identifier one past the range: partition 0 (threads 0..2) resumes thread 3, the main thread of partition 1, which was stopped; and stops it again.
* `C16_handler_past_violated`: in the same way for the error handler's calls: the handler of partition 0 (thread 1) stops thread 3, the main thread of partition 1.
* `C18_periodic_violated`: after the first major frame: NORMAL mode entered at clock 100005, in frame 500; the periodic thread should be released at 100200 + 2000, but the election that follows finds its release time 2200 in the past and dispatches it at once.
* `C19_threads_violated`: partition 0 creates a thread (2) with priority 4 and enters NORMAL mode; an error makes the handler (thread 1) restart it; in the new life only the main thread has been created (count 1), it enters NORMAL mode without creating any thread — and thread 2 of the previous life runs.
* `C21_getchar_violated`: GETCHAR at the end of the memory writes the first byte behind it.
* `C21_conswrite_violated`: a text that ends with the escape character (at the end of the memory) makes the console read the bytes behind it.
* `C21_mac_violated`: NODE_MAC_ADDR checks four bytes and writes six.
* `C21_sampling_violated`: partition 1 creates a sampling port of 3 bytes; the check of SAMPLING_READ takes the size of port 1 (never created: 0), so that the message is written behind its memory.
* `C21_lock_violated`: a lock operation at 16 bytes from the end of the memory reads its timeout behind it. The lock object is created first (a mutex).
* `C21_null_violated`: a lock operation with a null pointer is passed to the service, which reads at address 0 of the kernel (nothing else runs then: `nullDeref` has no successor).
* `C21_rtl_violated`: the network card calls check four bytes, and copy up to the length given.
* `C22_count_violated`: for argument counts: RESUME with a count of 0, and of 77, runs like with 1.
* `C23_pci_violated`: with PCI_REGISTER: partition 1, which has no I/O port, names a device on the bus and a range of its choice (0x3FFF), and then reads a port far behind those of the device.
* `C26_mutual_exclusion_violated`: when a thread blocks on a mutex in the very election that finds its time budget used up: its state is overwritten (kernel/core/sched.c 251-262), the next release makes it runnable (214-220) and its lock call returns OK although thread 0 still holds the mutex.
* `C26_mutual_exclusion_violated_by_resume`: The same through `pok_thread_resume` (kernel/core/thread.c 355-364) on a thread that is blocked.
* `C27_value_bounded_violated`: The value can exceed the maximum: it is not checked at creation.
* `C27_signal_lost_violated`: A signal below the maximum can be lost: the waiter that receives the unit runs again only after its deadline, reports TIMEOUT and the unit is nowhere (value 0, nobody has it, one signal was made).
* `C29_return_code_violated`: a mutex is handed to the waiter (which is removed from the queue), but the waiter runs only at its deadline, returns TIMEOUT, and the mutex stays unavailable although nobody holds it.
* `C29_deadline_violated`: A very long timeout is an immediate one: the deadline wraps around 2^64.
* `C31_isolation_violated`: any partition that owns an object it has not created can pass kind 0 and the SIGNAL operation; the zero-initialised event queue does not look empty, and thread 0 — of another partition — becomes runnable.
* `C33_short_violated`: for a message shorter than the port: the reader gets the old tail behind it.
* `C33_long_violated`: for messages of 256 bytes or more: the length passes through eight bits. A message of 300 bytes fills its port, the write reports success, and the reader gets 44 of its bytes followed by zeros.
* `C33_late_destination_violated`: when the message is forwarded before the destination has been created: it is lost, although the source still holds it.
* `C33_lock_violated`: after a read refused for its pointer: the port stays locked and the next read, although it is correct, does not return.
* `C34_overwrite_violated`: an accepted send overwrites unread bytes. The port has 4 bytes, 3 are waiting, 3 more are accepted, and the receiver gets the last two bytes only.
* `C34_no_destination_violated`: when the destination has not been created: the bytes are lost.
* `C34_destination_full_violated`: when the destination has not enough room: the transfer overwrites unread bytes.
* `C34_stale_full_violated`: after a partial receive from a full port: the port stays marked full and the next transfer loses its bytes although there is room.
* `C35_boundary_violated`: for the identifier equal to the number of ports: every data call with it reads outside the table of owners (whatever the state, the configuration and the other arguments, lengths zero excepted).
* `C35_kind_violated`: for the kind: a sampling write is accepted on a queueing port, and its receiver gets it.
* `C35_zero_violated`: and on a queueing port of size 0 it divides by zero.
* `C37_once_violated`: in its last part: the status is still there after it has been read.
* `C38_double_fault_violated`: for a double fault: the registered handler is not started, the faulty thread goes on.
* `C38_action_violated`: for the configured action: partition 0 has no handler, the deployment asks for a cold restart on every error; after a page fault in NORMAL mode the mode is still NORMAL and the faulty thread goes on.
* `C38_resumed_violated`: under round robin: the handler (thread 4 of partition 1) is started, but the next clock tick gives the processor back to the faulty thread 5, which never left the ready state.
* `C39_violated`: a correct program holds three blocks, frees the second and the first; the third, still held, is merged into the free space, and the next allocation overlaps it.
* `C39_zero_violated`: for empty blocks: an allocation of 0 bytes and the next one give the same address.
* `C40_lost_violated`: a correct program frees everything and then cannot allocate the whole heap, nor more than a part of it.
* `C40_entry_violated`: at the end of the table: with `nb = 4` and two blocks held, a third allocation that fits exactly needs no new entry, and one entry is left besides; it is refused.
* `C41_short_violated`: for messages shorter than the message size: the code accepts them, and the receiver gets the bytes of two messages in one, or bytes never sent.
* `C41_long_violated`: for messages longer than the message size: the code accepts them up to `size * msgsize` bytes, and the message overwrites the storage of the next buffer, so that the receiver of that one gets a message nobody sent to it.
* `C41_geometry_violated`: for sizes that are not a multiple of the message size: a message that reaches the end of the storage goes on in the storage of the next buffer.
* `C41_spin_violated`: when receiving from an empty buffer without waiting: the call never returns.
* `C41_boundary_violated`: for the number just after the last buffer: it passes the test of the code, which then accesses beyond its table.
* `C42_empty_violated`: for blackboards that were never written or that were cleared: reading them succeeds.
* `C42_short_violated`: for messages shorter than the blackboard: the reader gets the end of an older message.
* `C42_boundary_violated`: for the number just after the last blackboard: the code accesses beyond its table.
* `C44_radix_violated`: for radix 2: the routine overflows its local array of 16 characters.
* `C44_least_violated`: for the least integer: its negation overflows.
* `C44_negative_violated`: for every negative integer: `atoi` does not know the minus sign and gives 0.
* `C44_great_violated`: for the greatest integers: `atoi` overflows, because it adds the character before it takes 48 away.
* `C45_strcmp_violated`: `strcmp` fails on bytes from 128 on x86: "\x80" is said to be before "\x01".
* `C45_memcmp_violated`: `memcmp` fails: it reads outside objects of `n` bytes; it says that equal objects differ, because of the bytes after them; and it takes the bytes of a word in the wrong order.
* `C45_strncpy_violated`: `strncpy` fails: it does not fill the destination with null bytes after the end of the string.
* `C46_prefix_violated`: when one name is the beginning of the other: any name finds an object with a longer name that it begins, also the empty name; buffers and blackboards are also found by a longer name.
* `C46_long_violated`: for long names: two names of 256 bytes always match.
* `C46_lookup_violated`: The wrong object is found: "ab" gives the object called "abc", although "ab" exists.
* `C47_roundtrip_violated`: fails, and not only because of the decoder: two messages are marshalled alike, so that no decoder can exist.
* `C53_beyond_violated`: the byte after the memory of a partition is reached too, whatever the size.
* `C53_megabyte_violated`: a partition of exactly one megabyte reaches its first byte only.
* `C53_boot_violated`: after the creation of the partitions all their segments are enabled, so that the first partition to run can use those of all the others.
* `C53_idle_leak_violated`: partition 1 runs, its window ends with the idle thread, and partition 2 gets the next window: the segments of partition 1 stay enabled while partition 2 runs (from any table).
* `C53_idle_start_violated`: the window of partition 2 starts with the idle thread and a thread of partition 2 is elected later in the window: it runs with its segments disabled.
* `C54_fit_violated`: nothing checks that the stacks fit. With 8 kilobytes each, the third thread of a partition of 16 kilobytes starts with a stack pointer outside the partition.
* `C55_memory_violated`: the amount of memory of the machine is never looked at; a machine with 16 megabytes gives a region that ends at 32.
* `C55_wrap_violated`: after four gigabytes the addresses start again, and the regions overlap the kernel.
* `C58_outside_violated`: a segment outside the partition (here the 16 bytes at 96, the segment being at 20) is written all the same, over what follows the partition; nothing is reported, since only the size of the file is compared with the size of the partition (86 bytes in the file, so that a partition of 100 bytes is large enough, while the segment reaches beyond any size).
* `C58_not_elf_violated`: a file that is not an ELF image is not loaded, and the partition is started at address 0 with nothing reported.
* `C58_sizes_violated`: when a segment's size in memory is less than its size in the file (here 1 and 2), the number of bytes to clear wraps to 4294967295, and the loader clears memory from the end of the segment on until it goes out of memory.
* `C59_size_violated`: a partition whose size is not a multiple of the page size reaches memory after its end (here the byte at 0x1fff of a partition of 0x1800 bytes, once it has used one at 0x1000).
* `C59_base_violated`: a base that is not a multiple of the page size is rounded down: the partition reaches memory before its area, and its own bytes are found at the wrong place.
* `C59_full_violated`: nine partitions, partition `p` using page `p`, all in group 0 of the table: at the ninth the kernel finds no free entry and loops for ever, although every access is inside its partition.
* `C59_stride_violated`: so does one partition that uses nine pages at intervals of 4 MB.
* `C60_raw_violated`: these services store the kernel's error numbers, which are not codes of the standard: a timeout is reported as 250, a full queue as 311; and the number for a forbidden operation is that of `TIMED_OUT`.
* `C60_unset_violated`: `RESET_EVENT` stores no return code, and `GET_ERROR_STATUS` stores none when it succeeds.
* `C60_uncreated_violated`: waiting on a semaphore that was never created acts on the lock object 0, whichever it is.
* `C60_bound_violated`: the identifier one past the last semaphore is accepted and reads outside the table; likewise negative identifiers of events.
* `C60_blackboard_violated`: a blackboard is created but its identifier is never given to the caller.
* `C61_zero_violated`: a zero timeout, which should not wait, waits for ever, and so does any timeout below a microsecond.
* `C61_event_violated`: a timeout on an event is taken as microseconds: the wait lasts a thousand times longer than asked.
* `C61_event_forever_violated`: waiting for ever for an event ends at once: the date computed is in the past.
* `C61_queueing_violated`: receiving from a queueing port with an infinite timeout asks the kernel not to wait at all, and timeouts of 2^32 nanoseconds (about four seconds) or more are cut to 32 bits.
* `C61_timed_wait_violated`: longer delays wrap; a delay of 2^32 microseconds does not wait.
* `C62_empty_violated`: a process created with an empty name is not found under it, and the name can be given again.
* `C62_thread_ids_violated`: in a partition whose threads do not start at 0, a process asks for its own identifier and gets another number: the identifier of the thread. And the status of a process has another process's name, or reads outside the table.
* `C63_overflow_violated`: when the product does not fit: `calloc (2^31 + 1, 2)` succeeds in a heap of 16384 bytes and gives a block of 2 bytes.
* `C64_count_violated`: the number returned is not the number of characters printed: every conversion of an integer that is not zero counts one character too few, and `%f` loses the point and every part that is not zero.
* `C64_min_violated`: the most negative `long long` is negated, which overflows.
* `C64_unknown_violated`: a conversion that is not known takes no argument, so that the arguments after it are printed in the wrong places: with `%p` and `%d`, the pointer is printed as the number and the number is not printed. With assertions enabled the system stops instead.
* `C66_des_size_violated`: whatever the length of the message, the protocol announces eight bytes. The receiver of a message of sixteen bytes that decrypts the announced size gets the first half only.
* `C66_des_short_violated`: a short message comes back with null bytes added and size eight.
* `C66_des_key_violated`: with a key that has a byte of even parity, or a weak key, the schedule used is uninitialised memory.
* `C66_blowfish_size_violated`: of every longer message only the first eight bytes are sent.
* `C66_blowfish_short_violated`: for a shorter message, memory after it is read.
* `C67_forged_violated`: every gate installed at boot or registered later can be used by a program of a partition (privilege 3) with the `int` instruction. So it can for instance make the timer advance (vector 32), or raise a processor exception that did not happen.
* `C67_exceptions_forged_violated`: Likewise the exceptions.
* `C67_pci_violated`: the gate of a network card names the null segment, so that its interrupt is never delivered to its handler.
* `C67_syscall_lost_violated`: a card on interrupt line 10 takes the system call gate: from then on no partition can make a system call.
* `C67_wrap_violated`: the vector is computed on eight bits, so registering interrupt line 224 replaces the handler of the division error.
* `C68_soft_exception_violated`: a partition that executes the instruction `int n` for a vector whose handler expects an error code (8, 10 to 14, 17: the gates can be entered from privilege 3, see C67) does not push one: the handler's exit takes the saved code segment for the instruction pointer and the flags for the code segment, whatever the handler does.
* `C68_ipi_violated`: the handler of the test inter-processor interrupt calls a C function after it has restored the registers; the program interrupted on the other processor finds another value in `eax`.
* `C71_violated`: starting thread `i` of a partition with a delay resets a context at an address that is not in the thread's kernel stack nor in its partition: the stack address is relative to the partition and used as if it were absolute. Whatever the memory contains there is lost, and the thread's own context stays as it was.
* `C71_kernel_image_violated`: In particular the first thread of a partition of one megabyte: the 56 bytes at 0x101fc0 are overwritten, in the kernel's own image, which is loaded at one megabyte.
* `C73_resume_violated`: a process that was suspended cannot be resumed: its state is that of a dormant process, and `RESUME` answers `INVALID_MODE`, whatever the process.
* `C73_resume_lock_violated`: the number that the library takes for a suspended process is, in the kernel, that of a thread that waits for a lock. `RESUME` of a periodic process that waits for a semaphore, a mutex or an event makes it ready, although nothing was released, and answers `NO_ERROR`.
* `C73_aperiodic_violated`: an aperiodic process, the only kind that the standard allows to suspend, cannot be: `SUSPEND` answers `INVALID_MODE` and does nothing.
* `C73_stop_violated`: only the error handler may stop a process; any other process gets error 49, which is no code of the standard.
* `C73_start_periodic_violated`: a periodic process started when its partition is in normal mode stays dormant, although the answer is `NO_ERROR`.
* `C74_start_violated`: the kernel code that runs first in a new thread, at `pok_dispatch_space`, is entered with interrupts enabled: another interrupt can come before the thread's kernel stack is recorded.
* `C75_long_message_violated`: the length of a message is cut to eight bits on the way (kernel/core/syscall.c 276, 326): for every message of 256 bytes or more, written to a sampling port or sent to a queueing port, the kernel is asked to send `len % 256` bytes only, and the caller is not told.
* `C75_long_time_violated`: a time given to a thread or port call is cut to 32 bits by the library: a sleep of 2^32 microseconds (71 minutes) asks the kernel for a sleep of 0; a receive with that timeout does not wait.
* `C75_trylock_violated`: `pok_mutex_trylock` with timeout 0 asks for the same service as `pok_mutex_lock`: it waits for ever instead of returning at once. The two calls are in memories that differ in no other way.
* `C75_event_create_violated`: `pok_event_create` leaves the queueing discipline to whatever the stack contains: the same call creates an event whose waiters are served first-in first-out, by priority, or neither, depending on old stack contents.
* `C75_event_id_violated`: an event identifier has 16 bits in the library and 8 in the kernel: an operation on event `256 + id` is an operation on event `id`.
* `C76_periodic_violated`: for periodic threads: a start in NORMAL mode of a stopped periodic thread succeeds, sets its next activation to the clock plus the delay and its deadline from it, but leaves the thread stopped: it is never dispatched, whatever the clock.
* `C77_message_violated`: what the library takes for the address of the message are the first four characters of the message, and what it takes for its length the next four: with any message of at least eight characters.
* `C77_overwrite_violated`: the kernel stores the length of the message 264 bytes after the start of the library's variable, which has 20 bytes, and a message of more than 8 characters beyond its end: other variables of the partition's stack are overwritten.
* `C77_apex_violated`: so `GET_ERROR_STATUS` reports a length made of four characters of the message and copies 64 bytes from an address made of four others.
* `C77_queueing_violated`: in the status of a queueing port the number of waiting processes arrives in the field for the number of messages, and the field for waiting processes keeps whatever was there.
* `C77_waiting_violated`: moreover the status of a queueing port says that no process waits, whatever the state of the port.
* `C77_event_violated`: the library declares 16 bits for the identifier of an event, the kernel stores 8: the identifier that the program sees is wrong unless the other byte was zero.
* `C77_bound_violated`: the test of the identifier lets the number of ports pass; the kernel then reads the owner of a port that is not there.
* `C78_full_violated`: the error after the hundredth is stored past the end of the table.
* `C79_affinity_violated`: the processor of a thread with default attributes is whatever memory held.
* `C79_until_violated`: a deadline is in nanoseconds, the time given to `pok_thread_sleep_until` in microseconds: a thread that sleeps until the deadline that it computed with delay `relative` asks the kernel for a time a thousand times later.
* `C80_deadline_violated`: the deadline that the status tells does not depend on the deadline given: two creations that differ only in the deadline are reported alike.
* `C80_period_violated`: a thread created without a period in a slot that held a periodic thread before (after a restart of the partition) has the period of the old thread.
* `C82_size_violated`: the total size is computed on 32 bits: 65536 messages of 65536 bytes make a port, and a buffer, of 0 bytes.
* `C82_mode_violated`: the service checks for normal mode with the state of the calling thread; a running thread is runnable, so that the service is never refused for the mode of the partition.
* `C82_cold_violated`: a cold start is refused in every mode.
* `C83_no_handler_violated`: (own identifier without a handler): in a partition that has no error handler, no thread can learn its identifier, and GET_MY_ID nevertheless reports success, with a value that was never written.
* `C83_period_violated`: (period): whatever the configuration, the period shown is 0, which no partition of a module with a major frame has.
* `C83_start_violated`: (start condition): NORMAL_START (0) is shown in every state, also after a restart by the health monitor.
* `C83_identifier_violated`: (identifier): one byte of the four of the field is stored; with other contents of the variable before the call, the identifier shown is wrong, whatever the partition.
* `C83_duration_violated`: (duration): the partition with the slot of 150 ticks is told 50.
* `C83_outside_violated`: (duration): with fewer slots than partitions, the table is read outside its bounds.
* `C85_one_past_violated`: the handler's request is also granted for the thread one past those of its partition, which is the first thread of the next one (or an idle thread): it is restarted, or stopped.
* `C85_twice_violated`: a thread without a period that was never delayed can be restarted once. The first restart makes it ready and sets its next release to the largest time there is; after a second restart it waits for that time, with its release still in the same place.
* `C85_missed_violated`: a periodic thread that is restarted after missing a whole period is released for the times it missed, not from now on: its next release, after the one granted now, is already past.
* `C85_uncreated_violated`: a thread that was never created can be restarted; it is dispatched at the next occasion, from the entry point zero.
* `C85_no_handler_violated`: before an error handler exists, the main thread of the first partition passes for one: it can stop and restart the partition's threads.
* `C86_big_endian_violated`: On big-endian machines (the PowerPC and SPARC ports) the library takes the low half of a double for the high one: `fabs(-1.0)` is -1.0, and the positive infinite is not infinite for `isinf`.
* `C88_logb_violated`: Subnormal numbers are all below `2^-1022`, but `logb` returns -1022 for them: `scalbn(x, -logb(x))` is not between one and two.
* `C89_rint_violated`: The full claim of `C89_rint_partial` is false: for every double between 2^18 and 2^19 in magnitude whose integer part is even and whose fraction is 3/4, `rint` returns the integer part, which is 3/4 away, although the next integer is 1/4 away. libpok/libm/rint.c lacks the case that its origin has for the exponent 18, so that `0x20000 >> 18` clears the last bit of the fraction.
* `C93_seven_windows_violated`: when a program that uses all seven windows is interrupted, the trap handler's own window is the one below the oldest function in the windows, whose ins it overwrites before they are saved. Whatever the kernel does next, that function (the sixth caller of the interrupted one) is resumed with the address of the kernel's `call context_save` as its return address and with a frame pointer 64 bytes below the stack pointer of the interrupted function.
* `C93_flags_violated`: the condition codes and the Y register of an interrupted program are saved but not loaded again; the program goes on with those that the kernel left.
* `C94_supervisor_violated`: no program runs in user mode after its first trap. The handler sets the PS bit together with the ones that enable traps (mask 0xFE0) and clears only the interrupt level and the trap bit when it leaves (mask 0xF20), so `rett` takes every program to supervisor mode, from where it may reach the kernel's memory, the MMU and every device.
* `C95_flags_violated`: after a system call the program goes on with the condition codes and the Y register that the kernel left: if these differ from those at the call, they have changed.
* `C97_reset_violated`: resetting a context, which the core asks for to restart a thread, ignores the stack it is given; it changes the context of the idle thread, whose program counter becomes the thread's number and whose second argument becomes its entry point.
* `C98_supervisor_violated`: in supervisor mode, in which the programs run (C94), every partition reaches the memory of the kernel and of every other partition in the first 16 MB of memory, to read, write and execute.
* `C98_big_partition_violated`: a partition larger than 256 K is refused by `pok_create_space`, but the kernel goes on; the partition then has no memory at all, and its first instruction faults.
* `C98_alignment_violated`: the context table is aligned on its own size only, and the MMU ignores the low six bits of its address; two partitions and a table at an odd multiple of eight give a walk that starts from the words before the table: no context is mapped at all (here the memory before the table holds zeros).
* `C99_deadline_violated`: the time is added to the clock twice. A receiver (a sender likewise) that is ready to wait for `t` is suspended until the date `t + 2 * now`, which is `now` later than it asked for: the longer the system has been running, the longer the delay.
* `C99_send_deadline_violated`: violated, for a sender on a full port: the same delay.
* `C99_moves_violated`: a receiver that is woken and finds the port empty again, because another receiver took the bytes, is suspended until a date that depends on when it was woken: its deadline moves on each time.
* `C99_wrap_violated`: a caller ready to wait until the clock wraps is not suspended at all, it is told EMPTY.
* `C100_processor_violated`: a partition stops the whole system by asking for a thread on a processor that it does not have.
* `C100_handler_violated`: asking for an error handler once the partition is in NORMAL mode, or when it has no thread left, uses an identifier that was never set.
* `C102_timer_violated`: a timer interrupt while a partition runs stops the machine. The handler of the decrementer goes to `failed`, an endless loop, when the interrupted program was in user mode, and user programs run with interrupts on.
* `C102_switch_violated`: a timer interrupt at the end of a context switch sends the thread to the wrong place. After `lwz %r1,0(%r1)` (cswitch.S 60) the stack pointer is the one of the thread that gets the processor, and its return address is in the word above; an interrupt there overwrites this word with the return address of the thread that gave up the processor, and that is where the new thread goes.
* `C102_stack_violated`: every system call makes the kernel stack of the thread 80 bytes smaller, for `pok_arch_rfi` puts the stack pointer in `sprg1` before it has taken the frame off (entry.S 70: `%r1` for `%r0`). After 101 calls the next one, whatever the thread did, stores the program's stack pointer 64 bytes below the 8192 bytes of the stack, in memory that belongs to something else.
* `C102_result_violated`: on PowerPC the result of a system call is lost. The handler in C, `pok_arch_sc_int`, returns nothing (kernel/arch/ppc/syscalls.c 23-52), so the compiler leaves any value in the register that is stored as the result: for every value there is a run, within the rules of the compiler, in which the program gets it.
* `C103_late_violated`: if the timer interrupt is served more than 2^31 cycles (21 seconds) late, but less than 2^32, the handler takes the delay for time to come: it sets the decrementer for up to 21 seconds later and the clock stands still until then, behind by the whole delay.
* `C103_unit_violated`: the clock of the PowerPC board is not in nanoseconds, as on the other boards and in every delay and period that programs give: when it is right, it is ten thousand times too slow (one cycle of the time base is ten nanoseconds).
* `C103_sparc_violated`: the clock of the SPARC board runs at half speed. The timer is set so that an interrupt comes every 1002 cycles of 20 nanoseconds, and each adds 10000 nanoseconds: after any time the clock shows less than half of it.
* `C104_wrap_violated`: the kernel never refuses an allocation, so a partition too large for the address space gets one and the next area lies on memory that is in use: after a request of 4 GB less `heap_end`, the next one begins at address 0, on the kernel's own code.
* `C105_index_violated`: the destination numbered with the number of destinations is not refused; the kernel reads past the end of the list of destinations. True of every virtual port of every configuration.
* `C105_node_violated`: the node of a port is told to every partition, whoever owns the port and whatever its kind; and a port number outside the table, or the address of a node outside the table, makes the kernel read past its tables.
* `C105_name_violated`: names of ports are local to a partition in the standard, but if another partition has a port of the same kind and name with a smaller number, the owner is refused its own port.
* `C105_kind_violated`: virtual ports and sampling ports have the same kind number, so that every virtual port is also a sampling port: its owner can create it as such, and it is then flushed like one.
* `C106_count_violated`: the status never counts messages. After every such history, if the buffer holds a message, the status that is reported is wrong, however many processes wait.
* `C106_uncreated_violated`: asking for the status of a buffer that was not created divides by zero, instead of returning an error; and the number just after the last buffer is read outside the table.
* `C106_empty_violated`: after every history of creations, displays, reads and clears, the status of a created blackboard says that it is empty, also just after a display.
* `C107_handler_violated`: an error on one processor starts the error handler there at once, also if another processor is running it: then both run the same thread, on the same stack. So in every state in which a handler is running; and such states are reached: here with a handler bound to processor 0, which runs it when a thread on processor 1 fails.
* `C108_number_violated`: numbers of interrupt controllers need not be consecutive, but if a processor that starts has a number as large as the number of processors or larger, the kernel stores outside its table of processors.
* `C108_stack_violated`: the first processor starts on the stack of the processor with interrupt controller 0, whatever its own number is: on a machine whose first processor has another number, a second processor starts on its stack.
* `C108_request_violated`: a request goes to the interrupt controller with the number of the processor, not to the processor. On every machine with three processors or more, if the other processors do not start in the order of their interrupt controllers — here 2 before 1 — a request for processor 1 interrupts processor 2, and processor 1 goes on.
* `C109_ebda_violated`: for a structure that is found in the EBDA, the kernel takes the offset for the address: a structure at offset `i` is read at address `i`, in the table of interrupt vectors; and one at the beginning of the EBDA counts as not found.
* `C109_missing_violated`: on a machine without a structure the kernel goes on with one processor, however many were configured; nothing is reported.
* `C109_table_violated`: the table is not left as it was. The entry of every I/O interrupt controller in use is overwritten with the number 20, which is no type of entry: the table that is left, if memory can be written there, cannot be read a second time.
* `C110_budget_violated`: the budget of a thread is charged for the last tick of a window only if the partition that comes next is in NORMAL mode (kernel/core/sched.c 227-264 look at the mode and the handler of the new partition, but charge the thread of the old one). If partition 0 has started, the thread of partition 1 runs out of budget at 390; if partition 0 is still starting, it runs on.
* `C110_deadline_violated`: the time by which a thread is to end, which the thread status reports, is set at the start of the window only if the last thread of the partition before had a budget (kernel/core/sched.c 281-285 look at the thread that ran before, of whatever partition).
* `C110_neighbour_violated`: a partition can resume the thread one past its last (C16), the first of the next partition: the main thread of partition 1, which had ended with the change to NORMAL mode, runs again.
* `C110_uncreated_violated`: a delayed start of a thread that was never created looks at the mode of partition 0, to which such a thread seems to belong (kernel/core/thread.c 296-325): in partition 1 the thread is started if partition 0 is in NORMAL mode, otherwise it is not.
* `C111_alone_violated`: a frame that arrives alone is not handed over, however often the driver polls after it: it waits for the next frame.
* `C111_long_violated`: a message of more than 20 bytes is never handed over, although frames carry up to 1492 bytes: it arrives, others follow, the driver polls, and nothing of it waits for the readers.
* `C111_first_page_violated`: when 55 short frames arrive before the driver polls, the poll goes on at the first page of the ring, where no frame is; if the memory of the card holds zeros there, it copies 65532 bytes to a packet of 1514 on its stack.
* `C111_endless_violated`: a poll never ends. Whatever 111 short frames arrive, 54 before a first poll, two before a second, 54 before a third and one before a fourth, the first three polls end and the fourth one goes on for ever, handing over the same frames again and again.
* `C111_two_pages_violated`: after a frame that fills two pages the driver reads the page after it as if there were another frame; if the memory of the card holds zeros there, the packet on its stack is overrun.
* `C111_forged_violated`: a frame for a port that does not exist makes the kernel read or write outside its tables; whoever can send frames chooses the place.
* `C111_count_violated`: `rtl8029_poll_and_read` counts messages, not bytes: after a message of four bytes has been read by half, the rest waits on the port and no further call of `rtl8029_poll_and_read` gives it, whatever it asks for.
* `C112_stack_violated`: what the kernel had on its stack goes out on the network: two writes of the same data that only differ in what the stack held (bytes 20 and 21 of the packet, and in a frame for a short message everything after the data) give different frames.
* `C113_one_violated`: a partition writes one message of 1 to 20 bytes; its frame arrives at the other node, which polls as often as it likes: no reader gets anything.
* `C113_long_violated`: a message of 21 to 38 bytes is lost, also if another one follows it: both are written, their frames arrive, the other node polls, and nothing waits for the readers.
* `C114_multi_violated`: the driver compares the header type together with the byte of the self-test and the flag for several functions: a card with the right numbers and the ordinary layout (header type 0) is not found if it says that it has several functions or that it can test itself.
* `C117_logb_violated`: Subnormal numbers are all below `2^-126`, but `logbf` returns -126 for them: `scalbnf(x, -logb(x))` is not between one and two.
* `C118_rint_violated`: The full claim of `C118_rint_partial` is false: for every float between 2^21 and 2^22 in magnitude whose integer part is even and whose fraction is 3/4, `rintf` returns the integer part, which is 3/4 away, although the next integer is 1/4 away. libpok/libm/rintf.c lacks the case that its origin has for the exponent 21, so that `0x100000 >> 21` clears the last bit of the fraction.
* `C121_room_violated`: all partitions take the memory of their ports from one pool. Two ports of another partition, to which no channel leads and from which none comes, are enough to make every later creation fail, although the group itself asks for one byte.
* `C121_buffer_violated`: a read of a sampling port checks its buffer against the size of the port whose number is the number of the partition. That port may be of another partition. When it has been created, with 512 bytes, a read of 4 bytes into the last 4 bytes of the partition is refused, and the port stays locked: every later read waits for ever.
* `C123_digits_violated`: the digits are computed one by one, each with its own rounding, so that what is printed can be far from the number: `printf("%f", 0.009)` prints `0.009090` with double arithmetic, and `printf("%f", 0.70121)` prints `0.701219` on an x87.
* `C123_count_violated`: the number returned is never the number of characters printed, which is larger.
* `C123_negative_violated`: a negative whole number is printed as a number near `2^64`: -3 as `18446744073709551613.000000`.
* `C123_negative_fraction_violated`: a negative double with a fraction of at least a millionth cannot be printed: a negative number is converted to an unsigned one, which is undefined.
* `C123_large_violated`: doubles of `2^31` and more, infinities and what is not a number cannot be printed: they are converted to an `int`, which is undefined.
* `C127_software_trap_violated`: on SPARC one instruction of any partition starts the whole kernel anew. The instruction `ta n`, which every program may execute, makes trap 128 + n; the entries of the trap table lead to the start of the kernel for every n but 2.
* `C127_highest_violated`: on SPARC the interrupt of the highest level (trap 31), which cannot be masked, starts the whole kernel anew, although a handler can be registered for it and the registration is answered `POK_ERRNO_OK`.
* `C127_error_violated`: on SPARC no error of a program reaches the error handling of its partition. With the handlers that the kernel registers, an access outside the partition's memory, an illegal instruction and so on stop the processor for all partitions in a kernel with debugging, and in a kernel without it are answered by executing the same instruction again.
* `C127_ppc_register_violated`: on PowerPC every registration is answered `POK_ERRNO_OK`, and no handler is ever kept.
* `C127_ppc_error_violated`: on PowerPC an error of a program stops the machine: alignment (0x600), illegal or privileged instruction or trap instruction (0x700), floating point (0x800), which every program can cause, lead to an endless loop, with interrupts switched off.
* `C128_answer_violated`: on PowerPC and SPARC every write to the console is answered `POK_ERRNO_EINVAL`, though the text has been written.
* `C128_control_violated`: on x86 a text of control sequences only (clear the screen, colours, positions) is obeyed and answered `POK_ERRNO_EINVAL`, and so is the empty text.
* `C128_getchar_violated`: `getChar` gives a negative number for every byte from 128 on, and does not tell the byte 255 from no byte.
* `C130_fault_violated`: in the build with messages, after an application error whose message has at least eight characters, all printable, the default handler never stops a partition of at most 1 GiB: it reads an address made of the first four characters plus the next four, which lies outside the partition, and so is stopped by a memory violation itself.
* `C130_leftover_violated`: an error that the kernel found itself comes without a message, and then the build with messages reads an address that is left over on the stack: for every address outside the partition there are contents of the stack for which the handler faults there.
* `C131_twice_violated`: the partition of a thread is given twice in its element.
* `C131_time_violated`: times are in nanoseconds and have 64 bits, but only 32 are printed: no time of 2147483648 or more, which is about 2.15 seconds, is printed as it is, neither in the element of a thread nor in the trace of the threads that run.
* `C131_document_violated`: the document is never well-formed. Whatever partitions and threads there are and in whatever order they are made, as soon as anything has been printed at least one element is open that nothing will close.
* `C133_overflow_violated`: false: that no integer operation overflows. The test for `x = 1` takes the difference of two signed words, `hx - 0x3ff00000`, before it has looked at the sign: for every negative `x` of a magnitude below one, minus zero among them, it is below the least signed word, which is undefined.
* `C134_shift_violated`: The computation shifts a negative number to the left, which C does not define, whenever the smaller number is not zero, is below `2^-500` and is not smaller than the larger one by a factor of more than `2^59`.
* `C135_sparc_violated`: on SPARC `SPIN_LOCK` does not keep a processor out of the section. A branch of SPARC takes effect after the instruction behind it, and the macro has no instruction there: each time a processor finds the lock taken it executes the first instruction of the section, whatever it is, before it tries again. Here processor `q` takes the lock, and another processor `p` then tries it: for every `k` the first instruction of the section of `p` has been executed `k` times without the lock after `k` rounds.
* `C136_source_violated`: `GET_SAMPLING_PORT_STATUS` of a source port reports success and the direction 2, which is neither SOURCE nor DESTINATION: the numbers of the kernel are stored without conversion.
* `C136_queuing_id_violated`: `GET_QUEUING_PORT_ID` takes what the caller's variable contained as an address. For every name of a queueing port of the partition, it reports success, leaves the variable as it was, and overwrites the byte at that address with the number of the port.
* `C136_queuing_status_violated`: `GET_QUEUING_PORT_STATUS` never asks the kernel for a status. For every port and every memory, the number of messages, the direction and the number of waiting processes that it shows are what the local variable happened to contain, the maximal number of messages is left as it was, and the return code is that of a search for a port whose name is at the address equal to the port's number: not NO_ERROR unless a queueing port has this name.
* `C136_event_status_violated`: `GET_EVENT_STATUS` stores neither a status nor a return code: whatever the caller's variables contained is still there.
* `C136_semaphore_status_violated`: `GET_SEMAPHORE_STATUS` reports NO_ERROR for every number, even if there is no such semaphore, and stores no status.
* `C137_ports_violated`: on every processor that has started, with every kernel stack, a program of a partition may access, with its own instructions and whatever ports its configuration grants it, the ports 0x40 to 0x43 of the timer and every port from 0x60 to 0x33f (keyboard controller, clock, second interrupt controller, disks, second serial line): the offset of the permission map is left zero, so that the segment itself serves as the map.
* `C137_pic_violated`: the ports 0x20 to 0x3f, among them those of the first interrupt controller, are open or closed by the bits of the kernel stack's address: port 0x20 is open for every stack whose address is even, port 0x21 for every one that is a multiple of 4.
* `C138_runs_violated`: the registered handler gets the processor at once, in the middle of the call that registers it, although no error has occurred: it runs and finds no error.
* `C138_second_violated`: a second registration does not fail: it answers NO_ERROR and the first handler is no longer one.
* `C138_failed_violated`: a registration in NORMAL mode, or without a thread left, answers INVALID_CONFIG, yet whatever number was on the kernel's stack is now the partition's error handler: that thread is made runnable with the highest priority and gets the processor, be it a thread of another partition.
* `C138_lost_violated`: with a zero on the stack the failed call removes the handler that the partition had.
* `C138_report_raises_violated`: to report a message is to raise an error: the message takes the place of an error that is pending, and the handler gets the processor.
* `C138_report_silent_violated`: a message that lies outside the partition, or has a negative length, is not reported, and the answer is NO_ERROR.
* `C144_shutdown_violated`: on PowerPC and on SPARC the service SHUTDOWN is always refused, whatever the program passes: the kernel demands a call without arguments, and the handlers there always say five.
