import Verif.Model.ErrorMgmt
import Verif.Model.Arinc

/-!
# The numbers that programs see

Written from the library's headers, which are what programs are compiled with: libpok/include/errno.h 22-66 and
libpok/include/core/error.h 38-51.
-/

namespace Pok.CodeSpec

/-- Return codes, libpok/include/errno.h. -/
def errnoNumbers : List (Errno × Nat) :=
  [(.ok, 0), (.einval, 1), (.unavailable, 2), (.param, 3), (.toomany, 5), (.eperm, 6), (.exists_, 7), (.thread, 49), (.threadattr, 50),
   (.port, 301), (.notfound, 302), (.direction, 303), (.size, 304), (.discipline, 305), (.empty, 308), (.kind, 309), (.full, 311),
   (.ready, 310), (.timeout, 250), (.mode, 251), (.lockobjUnavailable, 500), (.lockobjNotready, 501), (.lockobjKind, 502),
   (.lockobjPolicy, 503), (.partitionMode, 601)]

/-- Kinds of errors that a handler can be told. -/
inductive Kind
  | deadlineMissed | applicationError | numericError | illegalRequest | stackOverflow | memoryViolation | hardwareFault
deriving DecidableEq, Repr

/-- Their numbers, libpok/include/core/error.h. -/
def Kind.num : Kind → Nat
  | .deadlineMissed => 10 | .applicationError => 11 | .numericError => 12 | .illegalRequest => 13 | .stackOverflow => 14
  | .memoryViolation => 15 | .hardwareFault => 16

/-- What a fault of the processor is for the program: divisions are numeric errors; faults on addresses, segments and stacks are memory
violations; the floating point unit, alignment and the machine itself are hardware faults; arithmetic overflow traps and bound checks are
reported as stack overflow; other exceptions are illegal requests.  A double fault is not reported to the program. -/
def kindOf : Exc → Option Kind
  | .divide => some .numericError
  | .pageFault | .segNotPresent | .stackSeg | .invalidTss | .copSeg => some .memoryViolation
  | .fpu | .simd | .alignment | .machineCheck => some .hardwareFault
  | .overflow | .boundRange => some .stackOverflow
  | .invalidOpcode | .generalProtection | .debug | .breakpoint | .nmi | .noMath => some .illegalRequest
  | .doubleFault => none

/-- Return codes of the ARINC 653 services, part 1 of the standard and libpok/include/arinc653/types.h 44-52. -/
def apexNumbers : List (Arinc.Code × Nat) :=
  [(.noError, 0), (.noAction, 1), (.notAvailable, 2), (.invalidParam, 3), (.invalidConfig, 4), (.invalidMode, 5), (.timedOut, 6)]

end Pok.CodeSpec
