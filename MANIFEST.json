{
 "claims": [
  {
   "property": "C01",
   "status": "proved",
   "theorems": [
    "Pok.C01_slot_order",
    "Pok.C01_next_slot"
   ],
   "note": ""
  },
  {
   "property": "C02",
   "status": "proved",
   "theorems": [
    "Pok.C02_no_drift",
    "Pok.C02_punctual",
    "Pok.C02_window_unique"
   ],
   "note": "As long as the 64-bit window ends do not overflow."
  },
  {
   "property": "C03",
   "status": "proved",
   "theorems": [
    "Pok.C03_only_at_switches",
    "Pok.C03_windows",
    "Pok.C03_major_frame",
    "Pok.C03_major_frame_count",
    "Pok.C03_period"
   ],
   "note": "As long as the 64-bit boundaries do not overflow."
  },
  {
   "property": "C04",
   "status": "partial",
   "theorems": [
    "Pok.C04_policies",
    "Pok.Kernel.C04_uniprocessor",
    "Pok.Kernel.C04_dispatch",
    "Pok.Kernel.C04_handler_violated"
   ],
   "note": "Proved for every policy and table, and for every reachable state on one processor. On several processors the error handler that a processor already executes is exempt from the processor-binding clause; an error does start it on a processor that it is not bound to. Without error handlers see C107_bound_partial."
  },
  {
   "property": "C05",
   "status": "proved",
   "theorems": [
    "Pok.C05_policies",
    "Pok.Kernel.C05_work_conserving",
    "Pok.Kernel.C05_total",
    "Pok.Kernel.C05_idle_boot"
   ],
   "note": "For every policy and table, and for elections in every reachable state; elections never get stuck."
  },
  {
   "property": "C06",
   "status": "partial",
   "theorems": [
    "Pok.C06_max_priority",
    "Pok.C06_ties_partial",
    "Pok.C06_ties_violated",
    "Pok.Kernel.C06_election"
   ],
   "note": "Maximal priority proved in full. The tie rule fails while no previous thread is recorded (witness proved)."
  },
  {
   "property": "C07",
   "status": "proved",
   "theorems": [
    "Pok.C07_keeps",
    "Pok.C07_next",
    "Pok.C07_bounded_waiting"
   ],
   "note": "Any sequence of elections with arbitrary thread tables in between."
  },
  {
   "property": "C08",
   "status": "partial",
   "theorems": [
    "Pok.Kernel.C08_create",
    "Pok.Kernel.C08_sorted",
    "Pok.Kernel.C08_smallest_period",
    "Pok.C08_dispatch",
    "Pok.Kernel.C08_ids_partial",
    "Pok.Kernel.C08_ids_violated"
   ],
   "note": "Proved: after any sequence of creations the table is sorted by period, and the RMS election takes the runnable thread with the smallest period. Missing: identifiers stay valid; the code moves thread records, so this is refuted (C08_ids_violated) and holds only for creations in non-decreasing period order (C08_ids_partial)."
  },
  {
   "property": "C09",
   "status": "proved",
   "theorems": [
    "Pok.Kernel.C09_init",
    "Pok.Kernel.C09_stopped"
   ],
   "note": "Every reachable state, every processor."
  },
  {
   "property": "C10",
   "status": "partial",
   "theorems": [
    "Pok.Kernel.C10_sleep_partial",
    "Pok.Kernel.C10_sleep_until_partial",
    "Pok.Kernel.C10_wakes_partial",
    "Pok.Kernel.C10_no_wakeup_violated",
    "Pok.C10_budget_violated",
    "Pok.C10_init_violated"
   ],
   "note": "Proved for every history that is not an operation on the thread, if the sleeper has budget left (or no finite budget) and is not the main thread during initialisation; woken at the first election at or after the wake-up time if lock objects or ports are compiled in. The three exceptions are genuine and refuted by concrete reachable histories."
  },
  {
   "property": "C100",
   "status": "partial",
   "theorems": [
    "Pok.Kernel.C100_answers_partial",
    "Pok.Kernel.C100_history_partial",
    "Pok.Kernel.C100_processor_violated",
    "Pok.Kernel.C100_handler_violated"
   ],
   "note": "The calls that stop the kernel are characterised exactly: a thread on a processor the partition does not have, an error handler that cannot be created. Without POK_NEEDS_ASSERT the first one runs on with the bad processor number."
  },
  {
   "property": "C101",
   "status": "proved",
   "theorems": [
    "Pok.PpcCpu.C101_switch",
    "Pok.PpcCpu.C101_start",
    "Pok.PpcCpu.C101_user"
   ],
   "note": "PowerPC context switch and first start of kernel and user threads."
  },
  {
   "property": "C102",
   "status": "partial",
   "theorems": [
    "Pok.PpcCpu.C102_fault_partial",
    "Pok.PpcCpu.C102_syscall_partial",
    "Pok.PpcCpu.C102_kernel_partial",
    "Pok.PpcCpu.C102_timer_violated",
    "Pok.PpcCpu.C102_switch_violated",
    "Pok.PpcCpu.C102_stack_violated",
    "Pok.Vectors.C102_result_violated"
   ],
   "note": "Registers are restored; but the result of a system call is lost, the kernel stack sinks by 80 bytes at each system call, a timer interrupt in user mode stops the machine, and one at the end of a context switch redirects the thread."
  },
  {
   "property": "C103",
   "status": "partial",
   "theorems": [
    "Pok.Timers.C103_drift_partial",
    "Pok.Timers.C103_late_violated",
    "Pok.Timers.C103_unit_violated",
    "Pok.Timers.C103_sparc_violated"
   ],
   "note": "No drift on PowerPC for delays up to 20 s; wrong unit on PowerPC, half speed on SPARC, loss after a delay of 21 s."
  },
  {
   "property": "C104",
   "status": "partial",
   "theorems": [
    "Pok.Timers.C104_disjoint_partial",
    "Pok.Timers.C104_wrap_violated"
   ],
   "note": "Disjoint while the address space suffices; nothing is ever refused."
  },
  {
   "property": "C105",
   "status": "partial",
   "theorems": [
    "Pok.VirtPort.C105_answers_partial",
    "Pok.VirtPort.C105_enumerate_partial",
    "Pok.VirtPort.C105_refused_partial",
    "Pok.VirtPort.C105_mac_partial",
    "Pok.VirtPort.C105_name_partial",
    "Pok.VirtPort.C105_index_violated",
    "Pok.VirtPort.C105_node_violated",
    "Pok.VirtPort.C105_name_violated",
    "Pok.VirtPort.C105_kind_violated"
   ],
   "note": "Proved for owned ports and for refusals; violated by the destination just past the list, by the node and address services, which test nothing, by equal names in two partitions and by the equal numbers of the virtual and sampling kinds."
  },
  {
   "property": "C106",
   "status": "partial",
   "theorems": [
    "Pok.Mw.C106_buffer_partial",
    "Pok.Mw.C106_id_partial",
    "Pok.Mw.C106_count_violated",
    "Pok.Mw.C106_uncreated_violated",
    "Pok.Mw.C106_empty_violated"
   ],
   "note": "Capacity, message size and identifiers proved; message counts, the empty mark and uncreated objects are wrong in the code."
  },
  {
   "property": "C107",
   "status": "partial",
   "theorems": [
    "Pok.Kernel.C107_distinct_partial",
    "Pok.Kernel.C107_bound_partial",
    "Pok.Kernel.C107_handler_violated"
   ],
   "note": "Proved for every history without error handler in systems whose partition 0 may use processor 0; violated by error handlers, which a fault starts on the faulting processor whatever their binding and even if they already run elsewhere."
  },
  {
   "property": "C108",
   "status": "partial",
   "theorems": [
    "Pok.Mp.C108_numbers_partial",
    "Pok.Mp.C108_request_partial",
    "Pok.Mp.C108_others_partial",
    "Pok.Mp.C108_stacks_partial",
    "Pok.Mp.C108_number_violated",
    "Pok.Mp.C108_request_violated",
    "Pok.Mp.C108_stack_violated"
   ],
   "note": "Numbers and stacks: proved for machines whose interrupt controllers are numbered from 0 without gaps; violated for others. A request for one processor arrives exactly if the processors started in the order of their interrupt controllers."
  },
  {
   "property": "C109",
   "status": "partial",
   "theorems": [
    "Pok.Mp.C109_count_partial",
    "Pok.Mp.C109_ebda_violated",
    "Pok.Mp.C109_missing_violated",
    "Pok.Mp.C109_table_violated"
   ],
   "note": "Proved for structures in the BIOS area; a structure in the EBDA is read at the wrong address, a missing one is not reported, and entries of I/O interrupt controllers are overwritten."
  },
  {
   "property": "C11",
   "status": "partial",
   "theorems": [
    "Pok.Kernel.C11_release_partial",
    "Pok.Kernel.C11_not_before",
    "Pok.Kernel.C11_step",
    "Pok.Kernel.C11_no_drift",
    "Pok.C11_fresh_budget_violated"
   ],
   "note": "Proved: releases, no early release, k-th activation = first + k periods (modulo 2^64) over every history. 'Fresh budget' fails when the release happens in the election that ends the late period: one unit is already charged (refuted)."
  },
  {
   "property": "C110",
   "status": "partial",
   "theorems": [
    "Pok.Isolation.C110_partial",
    "Pok.Isolation.C110_status_partial",
    "Pok.Isolation.C110_budget_violated",
    "Pok.Isolation.C110_deadline_violated",
    "Pok.Isolation.C110_neighbour_violated",
    "Pok.Isolation.C110_uncreated_violated"
   ],
   "note": "Noninterference proved for all pairs of histories on one processor in which, when a window of the partition ends, the other partitions are in NORMAL mode and not in their error handlers (or the partition has no budgets), calls name no thread one past the partition, and only created threads are started; the reported end times are excluded. The four violated theorems show that these restrictions are needed. Memory, ports and several processors are outside this theorem."
  },
  {
   "property": "C111",
   "status": "partial",
   "theorems": [
    "Pok.Net.C111_partial",
    "Pok.Net.C111_poll_partial",
    "Pok.Net.C111_read_partial",
    "Pok.Net.C111_alone_violated",
    "Pok.Net.C111_long_violated",
    "Pok.Net.C111_first_page_violated",
    "Pok.Net.C111_endless_violated",
    "Pok.Net.C111_two_pages_violated",
    "Pok.Net.C111_forged_violated",
    "Pok.Net.C111_count_violated"
   ],
   "note": "Proved for well-formed frames of at most 252 bytes for configured ports and histories that do not poll when the newest frame was stored on the first page of the ring; the newest frame stays in the card. The violated theorems show what happens otherwise."
  },
  {
   "property": "C112",
   "status": "partial",
   "theorems": [
    "Pok.Net.C112_partial",
    "Pok.Net.C112_refused_partial",
    "Pok.Net.C112_stack_violated"
   ],
   "note": "The frames carry the data completely and in order to every destination; but they also contain bytes of the kernel stack. The variable sndlen is not declared in the source, it is taken as a local one. Completion of a transmission by the card is assumed."
  },
  {
   "property": "C113",
   "status": "partial",
   "theorems": [
    "Pok.Net.C113_partial",
    "Pok.Net.C113_one_violated",
    "Pok.Net.C113_long_violated"
   ],
   "note": "For messages of 1 to 20 bytes, at most 54, a receiver that has just been initialised, and without the last message, which the receiver does not take from the card."
  },
  {
   "property": "C114",
   "status": "partial",
   "theorems": [
    "Pok.Net.C114_partial",
    "Pok.Net.C114_none_partial",
    "Pok.Net.C114_multi_violated"
   ],
   "note": "Exact for devices whose header type, several-functions flag and self-test byte are zero; others are not found."
  },
  {
   "property": "C115",
   "status": "proved",
   "theorems": [
    "Pok.Libmf.C115_kinds",
    "Pok.Libmf.C115_sign"
   ],
   "note": "Every 32-bit pattern. One word only, so the order of words of C86 does not matter."
  },
  {
   "property": "C116",
   "status": "proved",
   "theorems": [
    "Pok.Libmf.C116_floor",
    "Pok.Libmf.C116_ceil",
    "Pok.Libmf.C116_trunc",
    "Pok.Libmf.C116_modf",
    "Pok.Libmf.C116_round",
    "Pok.Libmf.C116_special"
   ],
   "note": "Every float, on processors that round to single precision."
  },
  {
   "property": "C117",
   "status": "partial",
   "theorems": [
    "Pok.Libmf.C117_ilogb",
    "Pok.Libmf.C117_ilogb_special",
    "Pok.Libmf.C117_logb",
    "Pok.Libmf.C117_logb_violated",
    "Pok.Libmf.C117_frexp",
    "Pok.Libmf.C117_frexp_special",
    "Pok.Libmf.C117_scalbn",
    "Pok.Libmf.C117_scalbn_special",
    "Pok.Libmf.C117_ldexp",
    "Pok.Libmf.C117_rank",
    "Pok.Libmf.C117_nextafter",
    "Pok.Libmf.fpu_mul",
    "Pok.Libmf.fpu_add"
   ],
   "note": "Everything proved except logbf of subnormal numbers, which is wrong (-126 for all of them). fpu_mul and fpu_add show that the model of the processor is that of IEEE 754."
  },
  {
   "property": "C118",
   "status": "partial",
   "theorems": [
    "Pok.Libmf.C118_rint_partial",
    "Pok.Libmf.C118_rint_violated",
    "Pok.Libmf.C118_rint_special"
   ],
   "note": "Proved for every float except those between 2^21 and 2^22 in magnitude with even integer part and fraction 3/4; for all of those it is proved false (the result is 3/4 away): the source lacks the case for exponent 21."
  },
  {
   "property": "C119",
   "status": "proved",
   "theorems": [
    "Pok.Libmf.C119_fmod",
    "Pok.Libmf.C119_fmod_special",
    "Pok.Libmf.C119_remainder",
    "Pok.Libmf.C119_remainder_special"
   ],
   "note": "Every pair of floats, with arithmetic rounded to single precision."
  },
  {
   "property": "C12",
   "status": "partial",
   "theorems": [
    "Pok.Kernel.C12_budget_partial",
    "Pok.Kernel.C12_remaining",
    "Pok.Kernel.C12_charge",
    "Pok.Kernel.C12_infinite",
    "Pok.Kernel.Reachable.budget",
    "Pok.C12_rms_violated"
   ],
   "note": "Proved for every history and every policy in terms of the budget left, and as c+1 for all policies but RMS; refuted for RMS (the table sort moves a thread under the error handler's identifier). Main thread and error handler are exempt by the code."
  },
  {
   "property": "C120",
   "status": "proved",
   "theorems": [
    "Pok.Libmf.C120_sqrt",
    "Pok.Libmf.C120_sqrt_special"
   ],
   "note": "For every positive finite float the result is nearer to the real square root than every float of another value."
  },
  {
   "property": "C121",
   "status": "partial",
   "theorems": [
    "Pok.Ports.C121_alone_partial",
    "Pok.Ports.C121_partial",
    "Pok.Ports.C121_room_violated",
    "Pok.Ports.C121_buffer_violated"
   ],
   "note": "Proved for every history in which the ports asked for fit in the port memory together and sampling buffers keep 512 bytes away from the end of the partition. Without these two conditions it is proved false: ports of other partitions use up the common memory, and a read is checked against the size of a port of another partition."
  },
  {
   "property": "C122",
   "status": "proved",
   "theorems": [
    "Pok.Libm.C122_zero_exponent",
    "Pok.Libm.C122_nan",
    "Pok.Libm.C122_infinite_exponent",
    "Pok.Libm.C122_zero_base",
    "Pok.Libm.C122_infinite_base",
    "Pok.Libm.C122_domain",
    "Pok.Libm.C122_sign",
    "Pok.Libm.C122_exact",
    "Pok.Libm.C122_root",
    "Pok.Libm.C122_one",
    "Pok.Libm.C122_far",
    "Pok.Libm.fpu_div"
   ],
   "note": "The approximation of lines 228 to 350 is an arbitrary function: what is proved holds whatever it returns, and nothing is proved about the accuracy of its results. As documented in the source (and unlike later C standards), (+-1)**(+-infinity) and 1**NaN give no number."
  },
  {
   "property": "C123",
   "status": "partial",
   "theorems": [
    "Pok.Printf.C123_partial",
    "Pok.Printf.C123_near_partial",
    "Pok.Printf.C123_extended_partial",
    "Pok.Printf.C123_digits_violated",
    "Pok.Printf.C123_count_violated",
    "Pok.Printf.C123_negative_violated",
    "Pok.Printf.C123_negative_fraction_violated",
    "Pok.Printf.C123_large_violated",
    "Pok.Printf.keep_double"
   ],
   "note": "Exact for doubles from 0 to 2^31 with at most 33 binary places (44 on an x87); for the others in this range the integer part is exact and each digit is the true one or the next. Negative and large doubles are printed wrongly or convert out of range, and the count returned is always too small."
  },
  {
   "property": "C124",
   "status": "proved",
   "theorems": [
    "Pok.Trig.C124_sin",
    "Pok.Trig.C124_sin_small",
    "Pok.Trig.C124_cos",
    "Pok.Trig.C124_not_finite"
   ],
   "note": "Doubles with correctly rounded operations; arguments from 1647100 (2^20 pi/2) on go through __kernel_rem_pio2, which is a parameter about which nothing is assumed, so nothing is claimed for them."
  },
  {
   "property": "C125",
   "status": "proved",
   "theorems": [
    "Pok.Exp.C125_exp",
    "Pok.Exp.C125_exp_tiny",
    "Pok.Exp.C125_overflow",
    "Pok.Exp.C125_special"
   ],
   "note": "Doubles with correctly rounded operations. C125_exp also says that the result is finite where e to the argument is below 2^1024, so the overflow boundary is exact in both directions."
  },
  {
   "property": "C126",
   "status": "proved",
   "theorems": [
    "Pok.Log.C126_log",
    "Pok.Log.C126_one",
    "Pok.Log.C126_special"
   ],
   "note": "Doubles with correctly rounded operations; the build with _IEEE_LIBM, where log is __ieee754_log."
  },
  {
   "property": "C127",
   "status": "partial",
   "theorems": [
    "Pok.Vectors.C127_first_partial",
    "Pok.Vectors.C127_answer_partial",
    "Pok.Vectors.C127_delivered_partial",
    "Pok.Vectors.C127_table_partial",
    "Pok.Vectors.C127_mask_partial",
    "Pok.Vectors.C127_ppc_partial",
    "Pok.Vectors.C127_software_trap_violated",
    "Pok.Vectors.C127_error_violated",
    "Pok.Vectors.C127_ppc_register_violated",
    "Pok.Vectors.C127_ppc_error_violated",
    "Pok.Vectors.C127_highest_violated"
   ],
   "note": "Registration and delivery hold on SPARC. A trap instruction of any partition restarts the SPARC kernel, errors of a program stop the machine on both ports (or repeat for ever without debugging), and PowerPC accepts registrations and ignores them."
  },
  {
   "property": "C128",
   "status": "partial",
   "theorems": [
    "Pok.Serial.C128_line_partial",
    "Pok.Serial.C128_sequence_partial",
    "Pok.Serial.C128_getchar_partial",
    "Pok.Serial.C128_inb_partial",
    "Pok.Serial.C128_answer_violated",
    "Pok.Serial.C128_control_violated",
    "Pok.Serial.C128_getchar_violated",
    "Pok.Serial.C128_getchar_refused_partial"
   ],
   "note": "The line carries the text; the answers of the console calls are wrong on PowerPC and SPARC and for control sequences on x86, and getChar is ambiguous."
  },
  {
   "property": "C129",
   "status": "proved",
   "theorems": [
    "Pok.Log.C129_log10",
    "Pok.Log.C129_log10_powers",
    "Pok.Log.C129_log2",
    "Pok.Log.C129_log2_exact",
    "Pok.Log.C129_special"
   ],
   "note": "Doubles with correctly rounded operations; the build with _IEEE_LIBM, where log10 and log2 are __ieee754_log10 and __ieee754_log2."
  },
  {
   "property": "C13",
   "status": "partial",
   "theorems": [
    "Pok.Kernel.C13_blocked_partial",
    "Pok.Kernel.C13_stays",
    "Pok.C13_budget_violated",
    "Pok.C13_init_violated"
   ],
   "note": "Proved for every history without an operation on the thread, with the same two exceptions as C10, both refuted."
  },
  {
   "property": "C130",
   "status": "partial",
   "theorems": [
    "Pok.DefaultHandler.C130_stops_partial",
    "Pok.DefaultHandler.C130_message_partial",
    "Pok.DefaultHandler.C130_fault_violated",
    "Pok.DefaultHandler.C130_leftover_violated"
   ],
   "note": "Proved for the build without messages, and for the one with messages when the message and its length are within the partition; the handler reads an address made of the message itself otherwise."
  },
  {
   "property": "C131",
   "status": "partial",
   "theorems": [
    "Pok.Trace.C131_elements_partial",
    "Pok.Trace.C131_values_partial",
    "Pok.Trace.C131_partition_partial",
    "Pok.Trace.C131_count_partial",
    "Pok.Trace.C131_time_violated",
    "Pok.Trace.C131_twice_violated",
    "Pok.Trace.C131_document_violated"
   ],
   "note": "The document as a whole is never closed, times above 2^31 are cut, and the partition of a thread is given twice."
  },
  {
   "property": "C132",
   "status": "proved",
   "theorems": [
    "Pok.Atan.C132_atan",
    "Pok.Atan.C132_special"
   ],
   "note": "Doubles with correctly rounded operations (Verif/Model/Fpu)."
  },
  {
   "property": "C133",
   "status": "partial",
   "theorems": [
    "Pok.Atan2.C133_atan2_partial",
    "Pok.Atan2.C133_zero_partial",
    "Pok.Atan2.C133_far_partial",
    "Pok.Atan2.C133_nan_partial",
    "Pok.Atan2.C133_no_overflow_partial",
    "Pok.Atan2.C133_overflow_violated"
   ],
   "note": "The results are as stated, with the difference taken modulo 2^32; that no integer operation overflows is false: hx - 0x3ff00000 overflows for every negative x with |x| < 1 (C133_overflow_violated)."
  },
  {
   "property": "C134",
   "status": "partial",
   "theorems": [
    "Pok.Hypot.C134_hypot_partial",
    "Pok.Hypot.C134_overflow_partial",
    "Pok.Hypot.C134_axis_partial",
    "Pok.Hypot.C134_infinite_partial",
    "Pok.Hypot.C134_nan_partial",
    "Pok.Hypot.C134_shift_violated"
   ],
   "note": "The results are as stated, with k << 20 taken as k * 2^20; that no operation is undefined is false: a negative k is shifted to the left whenever the smaller number is nonzero and below 2^-500 and within a factor 2^59 of the larger (C134_shift_violated). Exactness on the axis is proved for hypot(x, 0) with every finite x and for hypot(0, y) with |y| >= 2^-1042; below that the general bound holds."
  },
  {
   "property": "C135",
   "status": "partial",
   "theorems": [
    "Pok.Spin.C135_ppc_partial",
    "Pok.Spin.C135_ppc_enter_partial",
    "Pok.Spin.C135_sparc_partial",
    "Pok.Spin.C135_sparc_violated"
   ],
   "note": "PowerPC as stated; on SPARC the first instruction of the section is executed without the lock each time round the loop, since the macro leaves the delay slot of its branch empty (C135_sparc_violated); the other instructions are executed by the owner only (C135_sparc_partial)."
  },
  {
   "property": "C136",
   "status": "partial",
   "theorems": [
    "Pok.ApexStatus.C136_sampling_id_partial",
    "Pok.ApexStatus.C136_sampling_status_partial",
    "Pok.ApexStatus.C136_sampling_refused_partial",
    "Pok.ApexStatus.C136_missing_partial",
    "Pok.ApexStatus.C136_source_violated",
    "Pok.ApexStatus.C136_queuing_id_violated",
    "Pok.ApexStatus.C136_queuing_status_violated",
    "Pok.ApexStatus.C136_event_status_violated",
    "Pok.ApexStatus.C136_semaphore_status_violated",
    "Pok.ApexStatus.C136_semaphore_marks_partial"
   ],
   "note": "Proved for the identifier of a sampling port, the status of a destination sampling port and the ten services that are not provided. False for a source port (direction 2), GET_QUEUING_PORT_ID (stores at the address that the variable contained), GET_QUEUING_PORT_STATUS (never asks for a status), GET_EVENT_STATUS (stores nothing) and GET_SEMAPHORE_STATUS (NO_ERROR for any number, no status)."
  },
  {
   "property": "C137",
   "status": "partial",
   "theorems": [
    "Pok.Tss.C137_stack_partial",
    "Pok.Tss.C137_ports_partial",
    "Pok.Tss.C137_ports_violated",
    "Pok.Tss.C137_pic_violated"
   ],
   "note": "Proved: segments, descriptors and kernel stacks over all histories; ports from 0x340 on are closed. False for the ports: the offset of the I/O permission map is left zero, so the task state segment itself is read as the map, and its zero bytes open the timer and all ports from 0x60 to 0x33f to every partition."
  },
  {
   "property": "C138",
   "status": "partial",
   "theorems": [
    "Pok.ErrorApex.C138_register_partial",
    "Pok.ErrorApex.C138_report_partial",
    "Pok.ErrorApex.C138_report_long_partial",
    "Pok.ErrorApex.C138_runs_violated",
    "Pok.ErrorApex.C138_second_violated",
    "Pok.ErrorApex.C138_failed_violated",
    "Pok.ErrorApex.C138_lost_violated",
    "Pok.ErrorApex.C138_report_raises_violated",
    "Pok.ErrorApex.C138_report_silent_violated"
   ],
   "note": "Proved: a registration in the start phase succeeds with a new thread of the partition and touches no other partition; messages are kept whole. False: the handler runs at once; a second registration replaces the first; a refused registration stores an uninitialised number and gives that thread the processor; a report raises an error; a refused report answers NO_ERROR."
  },
  {
   "property": "C139",
   "status": "proved",
   "theorems": [
    "Pok.Cbrt.C139_cbrt",
    "Pok.Cbrt.C139_cube",
    "Pok.Cbrt.C139_odd",
    "Pok.Cbrt.C139_special"
   ],
   "note": "Accuracy for every finite double, exactness for cubes, symmetry bit for bit, zeros, infinities and NaN. The specification is c^3 = x in the real numbers."
  },
  {
   "property": "C14",
   "status": "proved",
   "theorems": [
    "Pok.Kernel.C14_create",
    "Pok.Kernel.C14_refused",
    "Pok.Kernel.C14_fresh"
   ],
   "note": "Freshness is per life of the partition: a restart starts a new sequence."
  },
  {
   "property": "C140",
   "status": "proved",
   "theorems": [
    "Pok.Des.C140_parity",
    "Pok.Des.C140_unique",
    "Pok.Des.C140_same",
    "Pok.Des.C140_accepted"
   ],
   "note": "Full statement for every key."
  },
  {
   "property": "C141",
   "status": "proved",
   "theorems": [
    "Pok.Cosh.C141_cosh",
    "Pok.Cosh.C141_overflow",
    "Pok.Cosh.C141_even",
    "Pok.Cosh.C141_special",
    "Pok.Cosh.C141_nan"
   ],
   "note": "Full statement for every double. Of expm1 only the range that cosh uses, up to half of the logarithm of two, has a proof of accuracy."
  },
  {
   "property": "C142",
   "status": "proved",
   "theorems": [
    "Pok.Sinh.C142_sinh",
    "Pok.Sinh.C142_large",
    "Pok.Sinh.C142_overflow",
    "Pok.Sinh.C142_tiny",
    "Pok.Sinh.C142_small",
    "Pok.Sinh.C142_special",
    "Pok.Sinh.C142_odd",
    "Pok.Sinh.C142_nan"
   ],
   "note": "Oddness is stated for what is not a NaN."
  },
  {
   "property": "C143",
   "status": "proved",
   "theorems": [
    "Pok.Sinh.C143_tanh",
    "Pok.Sinh.C143_large",
    "Pok.Sinh.C143_tiny",
    "Pok.Sinh.C143_small",
    "Pok.Sinh.C143_special",
    "Pok.Sinh.C143_odd",
    "Pok.Sinh.C143_nan"
   ],
   "note": "Oddness is stated for what is not a NaN."
  },
  {
   "property": "C144",
   "status": "partial",
   "theorems": [
    "Pok.BoardCall.C144_ppc_partial",
    "Pok.BoardCall.C144_sparc_partial",
    "Pok.BoardCall.C144_leftover_partial",
    "Pok.BoardCall.C144_ppc_registers_partial",
    "Pok.BoardCall.C144_shutdown_violated"
   ],
   "note": "False for SHUTDOWN, which the kernel always refuses there. On SPARC for at most six windows in use, as for C95. The result of a call on PowerPC is C102."
  },
  {
   "property": "C145",
   "status": "proved",
   "theorems": [
    "Pok.Cosh.C145_expm1",
    "Pok.Cosh.C145_overflow",
    "Pok.Cosh.C145_tiny",
    "Pok.Cosh.C145_minus",
    "Pok.Cosh.C145_special"
   ],
   "note": "k << 20 is taken as k * 2^20, also for negative k, where C leaves it undefined."
  },
  {
   "property": "C146",
   "status": "proved",
   "theorems": [
    "Pok.Libm.C146_scalb",
    "Pok.Libm.C146_fraction",
    "Pok.Libm.C146_special",
    "Pok.Libm.C146_significand",
    "Pok.Libm.C146_significand_special"
   ],
   "note": "Without _SCALB_INT and with _IEEE_LIBM."
  },
  {
   "property": "C147",
   "status": "proved",
   "theorems": [
    "Pok.Libmf.C147_scalb",
    "Pok.Libmf.C147_fraction",
    "Pok.Libmf.C147_special",
    "Pok.Libmf.C147_significand",
    "Pok.Libmf.C147_significand_special"
   ],
   "note": "Without _SCALB_INT and with _IEEE_LIBM."
  },
  {
   "property": "C148",
   "status": "proved",
   "theorems": [
    "Pok.Asin.C148_tiny",
    "Pok.Asin.C148_domain",
    "Pok.Asin.C148_odd",
    "Pok.Asin.C148_ends"
   ],
   "note": "The accuracy of asin and acos between the ends is not part of this property and is not proved."
  },
  {
   "property": "C149",
   "status": "proved",
   "theorems": [
    "Pok.Asinh.C149_odd",
    "Pok.Asinh.C149_asinh_special",
    "Pok.Asinh.C149_asinh_large",
    "Pok.Asinh.C149_acosh"
   ],
   "note": "The accuracy of asinh between 2^-28 and 2^29, of acosh between 1 and 2^28 and of log1p is not part of this property and is not proved."
  },
  {
   "property": "C15",
   "status": "partial",
   "theorems": [
    "Pok.Kernel.C15_threads",
    "Pok.Kernel.C15_locks_partial",
    "Pok.C15_locks_violated"
   ],
   "note": "Thread ranges: proved for every reachable state. Lock-object ranges: proved when they add up to less than 256; refuted above (8-bit bounds)."
  },
  {
   "property": "C16",
   "status": "partial",
   "theorems": [
    "Pok.Kernel.C16_confined_partial",
    "Pok.Kernel.C16_rejected_partial",
    "Pok.C16_one_past_violated",
    "Pok.C16_handler_past_violated"
   ],
   "note": "Every identifier but the one just past the range, which the off-by-one bounds check accepts (refuted)."
  },
  {
   "property": "C17",
   "status": "proved",
   "theorems": [
    "Pok.Kernel.C17_success",
    "Pok.Kernel.C17_failure",
    "Pok.Kernel.C17_only"
   ],
   "note": ""
  },
  {
   "property": "C18",
   "status": "partial",
   "theorems": [
    "Pok.Kernel.C18_entry_partial",
    "Pok.Kernel.C18_first_frame_partial",
    "Pok.C18_periodic_violated"
   ],
   "note": "Everything but the release time of periodic delayed threads after the first major frame, which is refuted."
  },
  {
   "property": "C19",
   "status": "partial",
   "theorems": [
    "Pok.Kernel.C19_restart_partial",
    "Pok.C19_threads_violated"
   ],
   "note": "Confinement, main thread, counters: proved. 'Only the main thread exists': refuted, threads of the previous life stay runnable."
  },
  {
   "property": "C20",
   "status": "proved",
   "theorems": [
    "Pok.Sys.C20_exact",
    "Pok.Sys.C20_empty",
    "Pok.Sys.C20_no_wrap"
   ],
   "note": "Exact for every partition, pointer and positive size; size 0 addresses nothing. No wrap-around when the base is added, for partitions below 4 GB."
  },
  {
   "property": "C21",
   "status": "partial",
   "theorems": [
    "Pok.Sys.C21_partial",
    "Pok.Sys.C21_gate",
    "Pok.Sys.C21_getchar_violated",
    "Pok.Sys.C21_conswrite_violated",
    "Pok.Sys.C21_mac_violated",
    "Pok.Sys.C21_sampling_violated",
    "Pok.Sys.C21_lock_violated",
    "Pok.Sys.C21_null_violated",
    "Pok.Sys.C21_rtl_violated",
    "Pok.Sys.C21_conswrite_exact",
    "Pok.Sys.C21_null_exact",
    "Pok.Sys.C21_reading",
    "Pok.Sys.C21_receive_writes",
    "Pok.Sys.C21_read_writes"
   ],
   "note": "Proved for every call, argument vector and state outside the list `Uncovered`; for each entry of that list a call that leaves the caller's memory is shown (the code violates the property there)."
  },
  {
   "property": "C22",
   "status": "partial",
   "theorems": [
    "Pok.Sys.C22_numbers",
    "Pok.Sys.C22_unknown",
    "Pok.Sys.C22_refused",
    "Pok.Sys.C22_count_partial",
    "Pok.Sys.C22_count_violated"
   ],
   "note": "Unknown numbers: proved for the whole number space. Argument counts: the code checks them only for SHUTDOWN, so that part is false (C22_count_violated)."
  },
  {
   "property": "C23",
   "status": "partial",
   "theorems": [
    "Pok.Sys.C23_access",
    "Pok.Sys.C23_refused",
    "Pok.Sys.C23_history_partial",
    "Pok.Sys.C23_pci_violated"
   ],
   "note": "Decision proved for every port number and interval; over histories for kernels without PCI_REGISTER, which lets a partition choose its own interval (C23_pci_violated)."
  },
  {
   "property": "C24",
   "status": "proved",
   "theorems": [
    "Pok.C24_fifo_queue"
   ],
   "note": ""
  },
  {
   "property": "C25",
   "status": "proved",
   "theorems": [
    "Pok.C25_priority_queue",
    "Pok.C25_sorted",
    "Pok.C25_serves_highest",
    "Pok.C25_fifo_among_equals"
   ],
   "note": ""
  },
  {
   "property": "C26",
   "status": "partial",
   "theorems": [
    "Pok.C26_calls_defined",
    "Pok.C26_mutual_exclusion_partial",
    "Pok.C26_not_reentrant_partial",
    "Pok.C26_mutual_exclusion_violated",
    "Pok.C26_mutual_exclusion_violated_by_resume"
   ],
   "note": "Holds for every run without the three steps that make a suspended thread runnable unconditionally (budget overrun then re-activation, resume); with them the code violates it, proved by witness."
  },
  {
   "property": "C27",
   "status": "partial",
   "theorems": [
    "Pok.C27_no_excess_partial",
    "Pok.C27_value_bounded_partial",
    "Pok.C27_no_signal_lost_partial",
    "Pok.C27_value_bounded_violated",
    "Pok.C27_signal_lost_violated"
   ],
   "note": "Initial value above the maximum is accepted; a unit handed to a waiter that times out is lost. Both proved as violations; the rest holds."
  },
  {
   "property": "C28",
   "status": "proved",
   "theorems": [
    "Pok.C28_no_wait_when_available",
    "Pok.C28_unlock_wakes_next"
   ],
   "note": "For every run of ordinary steps; priorities fixed while threads wait for the discipline part."
  },
  {
   "property": "C29",
   "status": "partial",
   "theorems": [
    "Pok.C29_return_code_partial",
    "Pok.C29_deadline_partial",
    "Pok.C29_return_code_violated",
    "Pok.C29_deadline_violated"
   ],
   "note": "TIMEOUT never early and leaves no queue entry; a unit granted before the deadline can be reported as TIMEOUT, and timeouts near 2^64 wrap."
  },
  {
   "property": "C30",
   "status": "proved",
   "theorems": [
    "Pok.C30_signal",
    "Pok.C30_broadcast",
    "Pok.C30_wait_releases",
    "Pok.C30_wait_reacquires",
    "Pok.C30_wait_result",
    "Pok.C30_wait_end",
    "Pok.C30_wait_deadline"
   ],
   "note": ""
  },
  {
   "property": "C31",
   "status": "partial",
   "theorems": [
    "Pok.C31_create_ok",
    "Pok.C31_create_refused",
    "Pok.C31_create_unavailable",
    "Pok.C31_operation_rejected",
    "Pok.C31_operation_frame",
    "Pok.C31_created_once",
    "Pok.C31_isolation_partial",
    "Pok.C31_isolation_violated"
   ],
   "note": "SIGNAL/BROADCAST with kind 0 on an object never created wakes thread 0 of another partition."
  },
  {
   "property": "C32",
   "status": "proved",
   "theorems": [
    "Pok.Ports.C32_disjoint",
    "Pok.Ports.C32_create",
    "Pok.Ports.C32_stays"
   ],
   "note": "all histories from boot; every call changes only bytes of the ports it may touch"
  },
  {
   "property": "C33",
   "status": "partial",
   "theorems": [
    "Pok.Ports.C33_read",
    "Pok.Ports.C33_last_partial",
    "Pok.Ports.C33_short_violated",
    "Pok.Ports.C33_long_violated",
    "Pok.Ports.C33_late_destination_violated",
    "Pok.Ports.C33_lock_violated"
   ],
   "note": "proved for full-size messages under 256 bytes and created destinations; the code fails for short and long messages, late destinations and after a refused read"
  },
  {
   "property": "C34",
   "status": "partial",
   "theorems": [
    "Pok.Ports.C34_fifo_partial",
    "Pok.Ports.C34_receive",
    "Pok.Ports.C34_no_capacity_test",
    "Pok.Ports.C34_overwrite_violated",
    "Pok.Ports.C34_no_destination_violated",
    "Pok.Ports.C34_destination_full_violated",
    "Pok.Ports.C34_stale_full_violated"
   ],
   "note": "FIFO without loss for every history that respects the capacities; the code does not enforce them and loses bytes otherwise (four counterexamples)"
  },
  {
   "property": "C35",
   "status": "partial",
   "theorems": [
    "Pok.Ports.C35_refused_partial",
    "Pok.Ports.C35_boundary_violated",
    "Pok.Ports.C35_kind_violated",
    "Pok.Ports.C35_zero_violated"
   ],
   "note": "proved except for identifier nbPorts (out of bounds read) and sampling writes to queueing ports (accepted)"
  },
  {
   "property": "C36",
   "status": "proved",
   "theorems": [
    "Pok.Ports.C36_flush",
    "Pok.Ports.C36_flushAll",
    "Pok.Ports.C36_total"
   ],
   "note": "flush of one partition or of all running ones, any reachable state"
  },
  {
   "property": "C37",
   "status": "partial",
   "theorems": [
    "Pok.Kernel.C37_delivery_partial",
    "Pok.C37_once_violated",
    "Pok.Kernel.C37_none",
    "Pok.Kernel.C37_restart"
   ],
   "note": "Delivery of the first 250 bytes with the faulty thread proved in every reachable state; 'read once' is false of the code."
  },
  {
   "property": "C38",
   "status": "partial",
   "theorems": [
    "Pok.Kernel.C38_handler_partial",
    "Pok.Kernel.C38_contained",
    "Pok.Kernel.C38_modes",
    "Pok.Kernel.C38_action_refused",
    "Pok.C38_double_fault_violated",
    "Pok.C38_action_violated",
    "Pok.C38_resumed_violated",
    "Pok.Kernel.C38_kinds"
   ],
   "note": "Handler activation and containment proved in every reachable state; three parts are false of the code and shown by witnesses."
  },
  {
   "property": "C39",
   "status": "partial",
   "theorems": [
    "Pok.Heap.C39_clean_partial",
    "Pok.Heap.C39_isolated_partial",
    "Pok.Heap.C39_lifo_partial",
    "Pok.Heap.C39_violated",
    "Pok.Heap.C39_zero_violated"
   ],
   "note": "False of the code (merging through a stale index swallows live blocks). Proved for every heap size and every correct program whose frees merge only free spaces, in particular for frees between two held blocks and for frees in reverse order."
  },
  {
   "property": "C40",
   "status": "partial",
   "theorems": [
    "Pok.Heap.C40_decision_partial",
    "Pok.Heap.C40_lifo_partial",
    "Pok.Heap.C40_lost_violated",
    "Pok.Heap.C40_entry_violated"
   ],
   "note": "The decision of an allocation is proved in every state; restoration of the whole heap for frees in reverse order. False of the code in general and for the last table entry (witnesses)."
  },
  {
   "property": "C41",
   "status": "partial",
   "theorems": [
    "Pok.Mw.C41_fifo_partial",
    "Pok.Mw.C41_storage_partial",
    "Pok.Mw.C41_short_violated",
    "Pok.Mw.C41_long_violated",
    "Pok.Mw.C41_geometry_violated",
    "Pok.Mw.C41_spin_violated",
    "Pok.Mw.C41_boundary_violated"
   ],
   "note": "Bounded FIFO and storage separation for histories where every message has exactly the message size and creations fit; the code breaks the claim for shorter or longer messages, ragged geometries, an empty buffer with null timeout, and id = number of buffers (each proved)."
  },
  {
   "property": "C42",
   "status": "partial",
   "theorems": [
    "Pok.Mw.C42_panels_partial",
    "Pok.Mw.C42_last_partial",
    "Pok.Mw.C42_empty_violated",
    "Pok.Mw.C42_short_violated",
    "Pok.Mw.C42_boundary_violated"
   ],
   "note": "Read returns the last displayed message as prefix, boards independent; emptiness is never reported and the length is lost (proved as violations)."
  },
  {
   "property": "C43",
   "status": "proved",
   "theorems": [
    "Pok.Libc.C43_division",
    "Pok.Libc.C43_remainder"
   ],
   "note": "All 64-bit operands, divisor non-null."
  },
  {
   "property": "C44",
   "status": "partial",
   "theorems": [
    "Pok.Libc.C44_text_partial",
    "Pok.Libc.C44_radix",
    "Pok.Libc.C44_roundtrip_partial",
    "Pok.Libc.C44_negative_violated",
    "Pok.Libc.C44_great_violated",
    "Pok.Libc.C44_least_violated",
    "Pok.Libc.C44_radix_violated"
   ],
   "note": "Canonical text for all integers but the least; round trip for 0..2147483599; the code breaks it elsewhere (proved)."
  },
  {
   "property": "C45",
   "status": "partial",
   "theorems": [
    "Pok.Libc.C45_memcpy",
    "Pok.Libc.C45_memcpy_x86",
    "Pok.Libc.C45_memset",
    "Pok.Libc.C45_strlen",
    "Pok.Libc.C45_strlen_x86",
    "Pok.Libc.C45_strcmp_order_partial",
    "Pok.Libc.C45_strcmp_eq",
    "Pok.Libc.C45_strncmp_order_partial",
    "Pok.Libc.C45_strncmp_eq",
    "Pok.Libc.C45_strcpy",
    "Pok.Libc.C45_memcmp_partial",
    "Pok.Libc.C45_strcmp_violated",
    "Pok.Libc.C45_memcmp_violated",
    "Pok.Libc.C45_strncpy_violated"
   ],
   "note": "Complete for memcpy, memset, strlen, strcpy; the order of strcmp/strncmp is wrong for bytes from 128 where char is signed; memcmp compares 4n bytes."
  },
  {
   "property": "C46",
   "status": "partial",
   "theorems": [
    "Pok.Libc.C46_same_length_partial",
    "Pok.Libc.C46_prefix_free_partial",
    "Pok.Libc.C46_prefix_violated",
    "Pok.Libc.C46_long_violated",
    "Pok.Libc.C46_lookup_violated"
   ],
   "note": "Holds for names of equal length or prefix-free configurations; a name that begins another one matches it."
  },
  {
   "property": "C47",
   "status": "partial",
   "theorems": [
    "Pok.Caesar.C47_roundtrip_partial",
    "Pok.Caesar.C47_length",
    "Pok.Caesar.C47_roundtrip_violated"
   ],
   "note": "Exact characterisation: round trip iff all bytes are at most 250."
  },
  {
   "property": "C48",
   "status": "proved",
   "theorems": [
    "Pok.Des.C48_block",
    "Pok.Des.C48_triple",
    "Pok.Des.C48_chain"
   ],
   "note": "Every schedule, block and message length; single and triple DES. The model reproduces the published test vector."
  },
  {
   "property": "C49",
   "status": "proved",
   "theorems": [
    "Pok.Blowfish.C49_block",
    "Pok.Blowfish.C49_chain"
   ],
   "note": "Every key structure (18 + 1024 words), block and message length."
  },
  {
   "property": "C50",
   "status": "proved",
   "theorems": [
    "Pok.C50_round_trip",
    "Pok.C50_onto",
    "Pok.C50_outside"
   ],
   "note": "Bijection between virtual processor numbers and the processors of a 64-bit mask, for every mask."
  },
  {
   "property": "C51",
   "status": "proved",
   "theorems": [
    "Pok.Smp.C51_barrier",
    "Pok.Smp.C51_progress",
    "Pok.Smp.C51_completes"
   ],
   "note": "Every number of processors up to 255, every interleaving, any number of rounds; sequentially consistent memory. Assertions of rendezvous.h never fail; the two barriers separate rounds; every reachable state can finish its round."
  },
  {
   "property": "C52",
   "status": "proved",
   "theorems": [
    "Pok.Smp.C52_mutex",
    "Pok.Smp.C52_enter",
    "Pok.Smp.C52_undisciplined"
   ],
   "note": "Every number of processors and locks and every interleaving of processors that release only locks they hold and do not take one twice; C52_undisciplined shows the assertion firing otherwise."
  },
  {
   "property": "C53",
   "status": "partial",
   "theorems": [
    "Pok.X86.C53_cover_partial",
    "Pok.X86.C53_beyond_violated",
    "Pok.X86.C53_megabyte_violated",
    "Pok.X86.C53_switch_partial",
    "Pok.X86.C53_boot_violated",
    "Pok.X86.C53_idle_leak_violated",
    "Pok.X86.C53_idle_start_violated"
   ],
   "note": "The segments reach all the memory of the partition and less than a page more; the byte after is always reachable; a partition of exactly 1 MB gets one byte. Segments follow the windows when no idle thread is elected; otherwise a former partition's segments stay enabled, or the running partition's stay disabled; at boot all are enabled."
  },
  {
   "property": "C54",
   "status": "partial",
   "theorems": [
    "Pok.X86.C54_stacks_partial",
    "Pok.X86.C54_fit_violated",
    "Pok.Vectors.C54_boards_partial"
   ],
   "note": "Holds when size >= n*stack+4 (x86), n*stack+16 (SPARC, PowerPC); the kernel does not check it."
  },
  {
   "property": "C55",
   "status": "partial",
   "theorems": [
    "Pok.X86.C55_regions_partial",
    "Pok.X86.C55_memory_violated",
    "Pok.X86.C55_wrap_violated"
   ],
   "note": "Disjoint and ordered while the total stays below 4 GB; the amount of memory of the machine is never checked."
  },
  {
   "property": "C56",
   "status": "proved",
   "theorems": [
    "Pok.X86.C56_console"
   ],
   "note": "Refinement to a terminal of 25x80 cells with scrolling, for every byte stream and start cursor; an escape sequence cut by the end of the buffer is the out-of-bounds read reported under C21."
  },
  {
   "property": "C57",
   "status": "proved",
   "theorems": [
    "Pok.X86.C57_timer",
    "Pok.X86.C57_increment",
    "Pok.X86.C57_drift",
    "Pok.X86.C57_accepts"
   ],
   "note": "Every accepted pair of frequencies with a quantum of at least 1 ns; also the drift of the clock."
  },
  {
   "property": "C58",
   "status": "partial",
   "theorems": [
    "Pok.Loader.C58_load_partial",
    "Pok.Loader.C58_segments_partial",
    "Pok.Loader.C58_archive_partial",
    "Pok.Loader.C58_outside_violated",
    "Pok.Loader.C58_not_elf_violated",
    "Pok.Loader.C58_sizes_violated"
   ],
   "note": "Proved for every well-formed image whose segments fit in memory; images with segments outside the partition, non-ELF files and memsz < filesz are not rejected by the code (violations proved)."
  },
  {
   "property": "C59",
   "status": "partial",
   "theorems": [
    "Pok.Ppc.C59_confined_partial",
    "Pok.Ppc.C59_isolation_partial",
    "Pok.Ppc.C59_served_partial",
    "Pok.Ppc.C59_never_full_partial",
    "Pok.Ppc.C59_outside",
    "Pok.Ppc.C59_size_violated",
    "Pok.Ppc.C59_base_violated",
    "Pok.Ppc.C59_full_violated",
    "Pok.Ppc.C59_stride_violated"
   ],
   "note": "Proved for every history of accesses and every layout in whole pages; unaligned bases and sizes leak neighbouring memory and a full group of the page table hangs the kernel (violations proved)."
  },
  {
   "property": "C60",
   "status": "partial",
   "theorems": [
    "Pok.Arinc.C60_success",
    "Pok.Arinc.C60_standard_partial",
    "Pok.Arinc.C60_timeout_partial",
    "Pok.Arinc.C60_create_semaphore",
    "Pok.Arinc.C60_create_event",
    "Pok.Arinc.C60_raw_violated",
    "Pok.Arinc.C60_unset_violated",
    "Pok.Arinc.C60_uncreated_violated",
    "Pok.Arinc.C60_bound_violated",
    "Pok.Arinc.C60_blackboard_violated",
    "Pok.Arinc.C60_codes"
   ],
   "note": "Success is reported exactly when the kernel agreed, for the twenty services that make one kernel call; semaphores and events use only standard codes. False of the code for the others: kernel numbers are stored as they are, some services store none, never-created and out-of-range semaphores are accepted."
  },
  {
   "property": "C61",
   "status": "partial",
   "theorems": [
    "Pok.Arinc.C61_semaphore_partial",
    "Pok.Arinc.C61_zero_violated",
    "Pok.Arinc.C61_event_violated",
    "Pok.Arinc.C61_event_forever_violated",
    "Pok.Arinc.C61_queueing_violated",
    "Pok.Arinc.C61_timed_wait_partial",
    "Pok.Arinc.C61_timed_wait_violated"
   ],
   "note": "Semaphore waits and sleeps are right to the microsecond from 1 microsecond on; zero timeouts wait for ever, event timeouts are a thousand times too long, an infinite one expires at once, queueing timeouts are cut to 32 bits."
  },
  {
   "property": "C62",
   "status": "partial",
   "theorems": [
    "Pok.Arinc.C62_names_partial",
    "Pok.Arinc.C62_duplicate",
    "Pok.Arinc.C62_empty_violated",
    "Pok.Arinc.C62_thread_ids_violated",
    "Pok.Arinc.C62_create_exact"
   ],
   "note": "Proved for every history of creations and every non-empty name; false for the empty name, and GET_MY_ID and GET_PROCESS_STATUS mix up process and thread identifiers."
  },
  {
   "property": "C63",
   "status": "partial",
   "theorems": [
    "Pok.Heap.C63_size_partial",
    "Pok.Heap.C63_overflow_violated"
   ],
   "note": "Size proved when the product fits in 32 bits; false otherwise. The block is not cleared (memory contents are not modelled here)."
  },
  {
   "property": "C64",
   "status": "partial",
   "theorems": [
    "Pok.Printf.C64_text_partial",
    "Pok.Printf.C64_count_violated",
    "Pok.Printf.C64_min_violated",
    "Pok.Printf.C64_unknown_violated"
   ],
   "note": "The text is proved for every format and argument; the returned count is one too small for every nonzero integer, negating the most negative long long overflows, and unknown conversions shift the arguments. %f is included for doubles with few binary places; the others are C123."
  },
  {
   "property": "C65",
   "status": "proved",
   "theorems": [
    "Pok.Libc.C65_range",
    "Pok.Libc.C65_states"
   ],
   "note": ""
  },
  {
   "property": "C66",
   "status": "partial",
   "theorems": [
    "Pok.Des.C66_des_partial",
    "Pok.Des.C66_des_size_violated",
    "Pok.Des.C66_des_short_violated",
    "Pok.Des.C66_des_key_violated",
    "Pok.Blowfish.C66_blowfish_partial",
    "Pok.Blowfish.C66_blowfish_size_violated",
    "Pok.Blowfish.C66_blowfish_short_violated"
   ],
   "note": "Holds for messages of exactly eight bytes (DES: odd parity, non-weak key). False otherwise: the announced size is always 8, Blowfish sends only the first 8 bytes, a refused DES key leaves the schedule uninitialised."
  },
  {
   "property": "C67",
   "status": "partial",
   "theorems": [
    "Pok.Machine.C67_init",
    "Pok.Machine.C67_register",
    "Pok.Machine.C67_boot",
    "Pok.Machine.C67_forged_violated",
    "Pok.Machine.C67_exceptions_forged_violated",
    "Pok.Machine.C67_pci_violated",
    "Pok.Machine.C67_syscall_lost_violated",
    "Pok.Machine.C67_wrap_violated"
   ],
   "note": "Delivery to the registered handler is proved; the code violates the protection part: every gate is open to programs, the network card's gate is undeliverable and can replace the system call gate, vectors wrap."
  },
  {
   "property": "C68",
   "status": "partial",
   "theorems": [
    "Pok.Machine.C68_interrupt",
    "Pok.Machine.C68_exception",
    "Pok.Machine.C68_syscall",
    "Pok.Machine.C68_stack",
    "Pok.Machine.C68_soft_exception_violated",
    "Pok.Machine.C68_ipi_violated",
    "Pok.Machine.C68_every_exception",
    "Pok.Machine.C68_frame",
    "Pok.Machine.C68_ipi_partial"
   ],
   "note": "Proved for hardware interrupts, exceptions and system calls; violated by the int instruction on exception vectors with an error code and by the test inter-processor interrupt."
  },
  {
   "property": "C69",
   "status": "proved",
   "theorems": [
    "Pok.Machine.C69_lines",
    "Pok.Machine.C69_refused",
    "Pok.Machine.C69_register"
   ],
   "note": ""
  },
  {
   "property": "C70",
   "status": "proved",
   "theorems": [
    "Pok.Machine.C70_resume",
    "Pok.Machine.C70_first_run",
    "Pok.Machine.C70_user_start"
   ],
   "note": ""
  },
  {
   "property": "C71",
   "status": "partial",
   "theorems": [
    "Pok.Machine.C71_reset_partial",
    "Pok.Machine.C71_violated",
    "Pok.Machine.C71_kernel_image_violated"
   ],
   "note": "The reset is right for the kernel stack, but it is applied to a partition-relative address taken as absolute: violated."
  },
  {
   "property": "C72",
   "status": "proved",
   "theorems": [
    "Pok.Machine.C72_caller",
    "Pok.Machine.C72_frame"
   ],
   "note": ""
  },
  {
   "property": "C73",
   "status": "partial",
   "theorems": [
    "Pok.Arinc.C73_start_partial",
    "Pok.Arinc.C73_start_now_partial",
    "Pok.Arinc.C73_resume_violated",
    "Pok.Arinc.C73_aperiodic_violated",
    "Pok.Arinc.C73_stop_violated",
    "Pok.Arinc.C73_start_periodic_violated",
    "Pok.Arinc.C73_resume_lock_violated",
    "Pok.Arinc.C73_resume_refused"
   ],
   "note": "START during initialisation is right; a suspended process can never be resumed, aperiodic processes cannot be suspended, STOP is refused to ordinary processes, a periodic process started in normal mode stays dormant."
  },
  {
   "property": "C74",
   "status": "partial",
   "theorems": [
    "Pok.Machine.C74_handler_partial",
    "Pok.Machine.C74_gates_partial",
    "Pok.Machine.C74_start_violated"
   ],
   "note": "Handlers run masked with the kernel's segments and the gates have the stated types; the first kernel code of a new thread (pok_dispatch_space) runs with interrupts enabled (violation proved)."
  },
  {
   "property": "C75",
   "status": "partial",
   "theorems": [
    "Pok.Stub.C75_arrives_partial",
    "Pok.Stub.C75_long_message_violated",
    "Pok.Stub.C75_long_time_violated",
    "Pok.Stub.C75_trylock_violated",
    "Pok.Stub.C75_event_create_violated",
    "Pok.Stub.C75_event_id_violated",
    "Pok.C75_codes",
    "Pok.Stub.C75_effect",
    "Pok.Stub.C75_sleep_partial"
   ],
   "note": "Proved for every call whose arguments fit the widths the interface keeps; message lengths are cut to 8 bits, thread and port times to 32 bits, event identifiers to 8 bits, trylock with timeout 0 is a plain lock and a new event's discipline is stack garbage (violations proved)."
  },
  {
   "property": "C76",
   "status": "partial",
   "theorems": [
    "Pok.Kernel.C76_delayed_partial",
    "Pok.Kernel.C76_start",
    "Pok.Kernel.C76_resume",
    "Pok.Kernel.C76_suspend",
    "Pok.Kernel.C76_periodic_violated"
   ],
   "note": "Aperiodic threads: proved for every reachable state and every later sequence of events up to the delay. Periodic threads started in NORMAL mode never become runnable: proved as a violation."
  },
  {
   "property": "C77",
   "status": "partial",
   "theorems": [
    "Pok.Results.C77_shown_partial",
    "Pok.Results.C77_error_partial",
    "Pok.Results.C77_sampling_status",
    "Pok.Results.C77_message_violated",
    "Pok.Results.C77_overwrite_violated",
    "Pok.Results.C77_apex_violated",
    "Pok.Results.C77_queueing_violated",
    "Pok.Results.C77_waiting_violated",
    "Pok.Results.C77_event_violated",
    "Pok.Results.C77_status_exact",
    "Pok.Results.C77_bound_violated"
   ],
   "note": "Holds for thread, sampling port, clock, processor and lock identifier results. Does not hold for the error message (inline array in the kernel, pointer in the library; 268 bytes stored in a 20-byte variable), the queueing port status (fields in another order; waiting always 0) and event identifiers (high byte not stored): the violation theorems prove this."
  },
  {
   "property": "C78",
   "status": "partial",
   "theorems": [
    "Pok.Results.C78_log_partial",
    "Pok.Results.C78_ignored",
    "Pok.Results.C78_full_violated"
   ],
   "note": "Holds for up to 100 errors; the next one is stored past the end of the table (C78_full_violated)."
  },
  {
   "property": "C79",
   "status": "partial",
   "theorems": [
    "Pok.Results.C79_defaults_partial",
    "Pok.Results.C79_affinity_violated",
    "Pok.Results.C79_deadline",
    "Pok.Results.C79_until_violated"
   ],
   "note": "Defaults do not depend on old memory except for the processor affinity, which is left uninitialised; the computed deadline is in nanoseconds while the absolute sleep takes microseconds."
  },
  {
   "property": "C80",
   "status": "partial",
   "theorems": [
    "Pok.Kernel.C80_status_partial",
    "Pok.Kernel.C80_history_partial",
    "Pok.Kernel.C80_deadline_violated",
    "Pok.Kernel.C80_period_violated",
    "Pok.Kernel.C80_kept"
   ],
   "note": "Proved for priority, processor, entry, period and capacity outside rate-monotonic partitions (there, identifiers move: C08). The status reports the end time of the current activation instead of the deadline, and a creation without a period keeps the period of the thread that used the slot before a restart."
  },
  {
   "property": "C81",
   "status": "proved",
   "theorems": [
    "Pok.Blowfish.C81_blowfish",
    "Pok.Blowfish.C81_protocol"
   ],
   "note": "For any initial tables; the contents of bf_pi.h are a parameter."
  },
  {
   "property": "C82",
   "status": "partial",
   "theorems": [
    "Pok.Arinc.C82_sampling_partial",
    "Pok.Arinc.C82_write",
    "Pok.Arinc.C82_queueing_partial",
    "Pok.Arinc.C82_buffer_partial",
    "Pok.Arinc.C82_pass",
    "Pok.Arinc.C82_timeouts",
    "Pok.Arinc.C82_semaphore",
    "Pok.Arinc.C82_event",
    "Pok.Arinc.C82_unknown",
    "Pok.Arinc.C82_mode_partial",
    "Pok.Arinc.C82_raise",
    "Pok.Arinc.C82_priority",
    "Pok.Arinc.C82_size_violated",
    "Pok.Arinc.C82_mode_violated",
    "Pok.Arinc.C82_cold_violated"
   ],
   "note": "Missing: total sizes of 4 GB and more wrap (C82_size_violated), normal mode is not refused (C82_mode_violated), COLD_START is never available (C82_cold_violated)."
  },
  {
   "property": "C83",
   "status": "partial",
   "theorems": [
    "Pok.Info.C83_partition_partial",
    "Pok.Info.C83_duration_partial",
    "Pok.Info.C83_thread",
    "Pok.Info.C83_nobody",
    "Pok.Info.C83_no_handler_violated",
    "Pok.Info.C83_no_handler_reached",
    "Pok.Info.C83_period_violated",
    "Pok.Info.C83_start_violated",
    "Pok.Info.C83_identifier_violated",
    "Pok.Info.C83_duration_violated",
    "Pok.Info.C83_outside_violated"
   ],
   "note": "Proved: identifier (low byte), mode, lock level, thread identifier with a handler. Violated by the code: period always 0, duration is the slot numbered as the partition (or read outside the table), start condition never changes, only one byte of the identifier is stored, without an error handler no thread learns its identifier while GET_MY_ID reports success."
  },
  {
   "property": "C84",
   "status": "proved",
   "theorems": [
    "Pok.Des.C84_keys",
    "Pok.Des.C84_des",
    "Pok.Des.C84_triple",
    "Pok.Des.C84_chain",
    "Pok.Des.C84_protocol",
    "Pok.Des.C84_parity",
    "Pok.Des.C84_weak"
   ],
   "note": "The message size announced by the protocol and messages other than eight bytes are the subject of C66."
  },
  {
   "property": "C85",
   "status": "partial",
   "theorems": [
    "Pok.Kernel.C85_refused",
    "Pok.Kernel.C85_restart_partial",
    "Pok.Kernel.C85_stop",
    "Pok.Kernel.C85_granted",
    "Pok.Kernel.C85_twice_violated",
    "Pok.Kernel.C85_missed_violated",
    "Pok.Kernel.C85_uncreated_violated",
    "Pok.Kernel.C85_no_handler_violated",
    "Pok.Kernel.C85_one_past_violated"
   ],
   "note": "Refusals, stop and restart are proved for every state; the code violates the rest: an aperiodic thread can be restarted once only, a periodic one replays missed releases, a thread that was never created can be restarted, and without a handler the main thread of partition 0 is taken for one."
  },
  {
   "property": "C86",
   "status": "partial",
   "theorems": [
    "Pok.Libm.C86_kinds",
    "Pok.Libm.C86_sign",
    "Pok.Libm.C86_big_endian_violated"
   ],
   "note": "Proved for little-endian machines (x86); violated on the big-endian ports, where the library takes the low word for the high one."
  },
  {
   "property": "C87",
   "status": "proved",
   "theorems": [
    "Pok.Libm.C87_floor",
    "Pok.Libm.C87_ceil",
    "Pok.Libm.C87_trunc",
    "Pok.Libm.C87_modf",
    "Pok.Libm.C87_round",
    "Pok.Libm.C87_special"
   ],
   "note": "Every double; on processors that round doubles to double precision (SSE; x87 extended precision is not modelled) and little-endian words (C86 for the others)."
  },
  {
   "property": "C88",
   "status": "partial",
   "theorems": [
    "Pok.Libm.C88_ilogb",
    "Pok.Libm.C88_ilogb_special",
    "Pok.Libm.C88_logb",
    "Pok.Libm.C88_logb_violated",
    "Pok.Libm.C88_frexp",
    "Pok.Libm.C88_frexp_special",
    "Pok.Libm.C88_scalbn",
    "Pok.Libm.C88_scalbn_special",
    "Pok.Libm.C88_ldexp",
    "Pok.Libm.C88_rank",
    "Pok.Libm.C88_nextafter",
    "Pok.Libm.fpu_mul",
    "Pok.Libm.fpu_add"
   ],
   "note": "Everything proved except logb of subnormal numbers, which is wrong (-1022 for all of them). fpu_mul and fpu_add show that the model of the processor is that of IEEE 754."
  },
  {
   "property": "C89",
   "status": "partial",
   "theorems": [
    "Pok.Libm.C89_rint_partial",
    "Pok.Libm.C89_rint_violated",
    "Pok.Libm.C89_rint_special"
   ],
   "note": "Proved for every double except those between 2^18 and 2^19 in magnitude with even integer part and fraction 3/4; for all of those it is proved false (the result is 3/4 away): the source lacks the case for exponent 18."
  },
  {
   "property": "C90",
   "status": "proved",
   "theorems": [
    "Pok.Libm.C90_fmod",
    "Pok.Libm.C90_fmod_special",
    "Pok.Libm.C90_remainder",
    "Pok.Libm.C90_remainder_special"
   ],
   "note": "On little-endian machines and with double arithmetic rounded to nearest (see C86_big_endian_violated)."
  },
  {
   "property": "C91",
   "status": "proved",
   "theorems": [
    "Pok.Libm.C91_sqrt",
    "Pok.Libm.C91_sqrt_special"
   ],
   "note": "For every positive finite double, the result is nearer to the real square root than every double of another value (so it is the correctly rounded one, and ties do not occur). Special values as stated."
  },
  {
   "property": "C92",
   "status": "proved",
   "theorems": [
    "Pok.Sparc.C92_calls_refine_stack"
   ],
   "note": "For programs of register moves, calls (save) and returns (restore); hypotheses on stack pointers are those of the calling convention."
  },
  {
   "property": "C93",
   "status": "partial",
   "theorems": [
    "Pok.Sparc.C93_trap_invisible_partial",
    "Pok.Sparc.C93_seven_windows_violated",
    "Pok.Sparc.C93_flags_violated"
   ],
   "note": "Proved with at most six windows in use; false with seven, and false of the condition codes and the Y register."
  },
  {
   "property": "C94",
   "status": "partial",
   "theorems": [
    "Pok.Sparc.C94_supervisor_violated"
   ],
   "note": "False: after the first trap every thread runs in supervisor mode."
  },
  {
   "property": "C95",
   "status": "partial",
   "theorems": [
    "Pok.Sparc.C95_syscall_result_partial",
    "Pok.Sparc.C95_flags_violated"
   ],
   "note": "Proved with at most six windows in use; the condition codes and Y are not resumed."
  },
  {
   "property": "C96",
   "status": "proved",
   "theorems": [
    "Pok.Sparc.C96_thread_starts"
   ],
   "note": "About the port's own function; its signature does not fit kernel/include/arch.h at this commit (five parameters for six), so the port does not compile as it is."
  },
  {
   "property": "C97",
   "status": "partial",
   "theorems": [
    "Pok.Sparc.C97_reset_violated"
   ],
   "note": "False: the context of the idle thread is changed instead."
  },
  {
   "property": "C98",
   "status": "partial",
   "theorems": [
    "Pok.SparcMmu.C98_user_isolation_partial",
    "Pok.SparcMmu.C98_supervisor_violated",
    "Pok.SparcMmu.C98_big_partition_violated",
    "Pok.SparcMmu.C98_alignment_violated"
   ],
   "note": "Proved for code in user mode, partitions of at most 256 K and a context table on a multiple of 64; false otherwise."
  },
  {
   "property": "C99",
   "status": "partial",
   "theorems": [
    "Pok.Ports.C99_send_partial",
    "Pok.Ports.C99_send_room",
    "Pok.Ports.C99_receive_partial",
    "Pok.Ports.C99_woken",
    "Pok.Ports.C99_deadline_violated",
    "Pok.Ports.C99_send_deadline_violated",
    "Pok.Ports.C99_moves_violated",
    "Pok.Ports.C99_wrap_violated"
   ],
   "note": "The clock is added to the timeout twice, and again each time the caller is woken without being served."
  }
 ]
}
