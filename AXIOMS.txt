'Pok.ApexStatus.C136_event_status_violated' does not depend on any axioms
'Pok.ApexStatus.C136_missing_partial' depends on axioms: [propext, Classical.choice, Quot.sound]
'Pok.ApexStatus.C136_queuing_id_violated' depends on axioms: [propext, Classical.choice, Quot.sound]
'Pok.ApexStatus.C136_queuing_status_violated' depends on axioms: [propext, Classical.choice, Quot.sound]
'Pok.ApexStatus.C136_sampling_id_partial' depends on axioms: [propext, Classical.choice, Quot.sound]
'Pok.ApexStatus.C136_sampling_refused_partial' depends on axioms: [propext, Classical.choice, Quot.sound]
'Pok.ApexStatus.C136_sampling_status_partial' depends on axioms: [propext, Classical.choice, Quot.sound]
'Pok.ApexStatus.C136_semaphore_marks_partial' depends on axioms: [propext, Quot.sound]
'Pok.ApexStatus.C136_semaphore_status_violated' depends on axioms: [propext, Classical.choice, Quot.sound]
'Pok.ApexStatus.C136_source_violated' depends on axioms: [propext, Classical.choice, Quot.sound]
'Pok.Arinc.C60_blackboard_violated' does not depend on any axioms
'Pok.Arinc.C60_bound_violated' depends on axioms: [propext, Quot.sound]
'Pok.Arinc.C60_codes' depends on axioms: [propext, Quot.sound]
'Pok.Arinc.C60_create_event' depends on axioms: [propext, Classical.choice, Quot.sound]
'Pok.Arinc.C60_create_semaphore' depends on axioms: [propext, Classical.choice, Quot.sound]
'Pok.Arinc.C60_raw_violated' depends on axioms: [propext]
'Pok.Arinc.C60_standard_partial' depends on axioms: [propext]
'Pok.Arinc.C60_success' depends on axioms: [propext]
'Pok.Arinc.C60_timeout_partial' depends on axioms: [propext]
'Pok.Arinc.C60_uncreated_violated' depends on axioms: [propext, Quot.sound]
'Pok.Arinc.C60_unset_violated' does not depend on any axioms
'Pok.Arinc.C61_event_forever_violated' depends on axioms: [propext, Quot.sound]
'Pok.Arinc.C61_event_violated' depends on axioms: [propext, Quot.sound]
'Pok.Arinc.C61_queueing_violated' does not depend on any axioms
'Pok.Arinc.C61_semaphore_partial' depends on axioms: [propext, Quot.sound]
'Pok.Arinc.C61_timed_wait_partial' depends on axioms: [propext, Quot.sound]
'Pok.Arinc.C61_timed_wait_violated' does not depend on any axioms
'Pok.Arinc.C61_zero_violated' depends on axioms: [propext, Quot.sound]
'Pok.Arinc.C62_create_exact' depends on axioms: [propext, Classical.choice, Quot.sound]
'Pok.Arinc.C62_duplicate' depends on axioms: [propext, Classical.choice, Quot.sound]
'Pok.Arinc.C62_empty_violated' depends on axioms: [propext, Quot.sound]
'Pok.Arinc.C62_names_partial' depends on axioms: [propext, Classical.choice, Quot.sound]
'Pok.Arinc.C62_thread_ids_violated' does not depend on any axioms
'Pok.Arinc.C73_aperiodic_violated' depends on axioms: [propext]
'Pok.Arinc.C73_resume_lock_violated' depends on axioms: [propext, Quot.sound]
'Pok.Arinc.C73_resume_refused' depends on axioms: [propext, Quot.sound]
'Pok.Arinc.C73_resume_violated' depends on axioms: [propext, Quot.sound]
'Pok.Arinc.C73_start_now_partial' depends on axioms: [propext, Classical.choice, Quot.sound]
'Pok.Arinc.C73_start_partial' depends on axioms: [propext, Quot.sound]
'Pok.Arinc.C73_start_periodic_violated' depends on axioms: [propext, Quot.sound]
'Pok.Arinc.C73_stop_violated' depends on axioms: [propext]
'Pok.Arinc.C82_buffer_partial' depends on axioms: [propext, Classical.choice, Quot.sound]
'Pok.Arinc.C82_cold_violated' does not depend on any axioms
'Pok.Arinc.C82_event' depends on axioms: [propext, Classical.choice, Quot.sound]
'Pok.Arinc.C82_mode_partial' depends on axioms: [propext]
'Pok.Arinc.C82_mode_violated' depends on axioms: [propext, Quot.sound]
'Pok.Arinc.C82_pass' depends on axioms: [propext, Classical.choice, Quot.sound]
'Pok.Arinc.C82_priority' depends on axioms: [propext, Classical.choice, Quot.sound]
'Pok.Arinc.C82_queueing_partial' depends on axioms: [propext, Classical.choice, Quot.sound]
'Pok.Arinc.C82_raise' depends on axioms: [propext, Classical.choice, Quot.sound]
'Pok.Arinc.C82_sampling_partial' depends on axioms: [propext, Classical.choice, Quot.sound]
'Pok.Arinc.C82_semaphore' depends on axioms: [propext, Classical.choice, Quot.sound]
'Pok.Arinc.C82_size_violated' does not depend on any axioms
'Pok.Arinc.C82_timeouts' depends on axioms: [propext, Quot.sound]
'Pok.Arinc.C82_unknown' depends on axioms: [propext, Quot.sound]
'Pok.Arinc.C82_write' depends on axioms: [propext, Classical.choice, Quot.sound]
'Pok.Asin.C148_domain' depends on axioms: [propext, Classical.choice, Quot.sound]
'Pok.Asin.C148_ends' depends on axioms: [propext, Classical.choice, Quot.sound]
'Pok.Asin.C148_odd' depends on axioms: [propext, Classical.choice, Quot.sound]
'Pok.Asin.C148_tiny' depends on axioms: [propext, Classical.choice, Quot.sound]
'Pok.Asinh.C149_acosh' depends on axioms: [propext, Classical.choice, Quot.sound]
'Pok.Asinh.C149_asinh_large' depends on axioms: [propext, Classical.choice, Quot.sound]
'Pok.Asinh.C149_asinh_special' depends on axioms: [propext, Classical.choice, Quot.sound]
'Pok.Asinh.C149_odd' depends on axioms: [propext, Classical.choice, Quot.sound]
'Pok.Atan.C132_atan' depends on axioms: [propext, Classical.choice, Quot.sound]
'Pok.Atan.C132_special' depends on axioms: [propext, Classical.choice, Quot.sound]
'Pok.Atan2.C133_atan2_partial' depends on axioms: [propext, Classical.choice, Quot.sound]
'Pok.Atan2.C133_far_partial' depends on axioms: [propext, Classical.choice, Quot.sound]
'Pok.Atan2.C133_nan_partial' depends on axioms: [propext, Classical.choice, Quot.sound]
'Pok.Atan2.C133_no_overflow_partial' depends on axioms: [propext, Classical.choice, Quot.sound]
'Pok.Atan2.C133_overflow_violated' depends on axioms: [propext, Classical.choice, Quot.sound]
'Pok.Atan2.C133_zero_partial' depends on axioms: [propext, Classical.choice, Quot.sound]
'Pok.Blowfish.C49_block' depends on axioms: [propext, Quot.sound]
'Pok.Blowfish.C49_chain' depends on axioms: [propext, Classical.choice, Quot.sound]
'Pok.Blowfish.C66_blowfish_partial' depends on axioms: [propext, Classical.choice, Quot.sound]
'Pok.Blowfish.C66_blowfish_short_violated' depends on axioms: [propext, Quot.sound]
'Pok.Blowfish.C66_blowfish_size_violated' depends on axioms: [propext, Classical.choice, Quot.sound]
'Pok.Blowfish.C81_blowfish' depends on axioms: [propext, Classical.choice, Quot.sound]
'Pok.Blowfish.C81_protocol' depends on axioms: [propext, Classical.choice, Quot.sound]
'Pok.BoardCall.C144_leftover_partial' depends on axioms: [propext, Quot.sound]
'Pok.BoardCall.C144_ppc_partial' depends on axioms: [propext, Classical.choice, Quot.sound]
'Pok.BoardCall.C144_ppc_registers_partial' depends on axioms: [propext, Classical.choice, Quot.sound]
'Pok.BoardCall.C144_shutdown_violated' depends on axioms: [propext]
'Pok.BoardCall.C144_sparc_partial' depends on axioms: [propext, Classical.choice, Quot.sound]
'Pok.C01_next_slot' depends on axioms: [propext, Quot.sound]
'Pok.C01_slot_order' depends on axioms: [propext, Quot.sound]
'Pok.C02_no_drift' depends on axioms: [propext, Quot.sound]
'Pok.C02_punctual' depends on axioms: [propext, Quot.sound]
'Pok.C02_window_unique' depends on axioms: [propext, Quot.sound]
'Pok.C03_major_frame' depends on axioms: [propext, Quot.sound]
'Pok.C03_major_frame_count' depends on axioms: [propext, Quot.sound]
'Pok.C03_only_at_switches' depends on axioms: [propext, Quot.sound]
'Pok.C03_period' depends on axioms: [propext, Quot.sound]
'Pok.C03_windows' depends on axioms: [propext, Quot.sound]
'Pok.C04_policies' depends on axioms: [propext, Classical.choice, Quot.sound]
'Pok.C05_policies' depends on axioms: [propext, Classical.choice, Quot.sound]
'Pok.C06_max_priority' depends on axioms: [propext, Classical.choice, Quot.sound]
'Pok.C06_ties_partial' depends on axioms: [propext, Classical.choice, Quot.sound]
'Pok.C06_ties_violated' does not depend on any axioms
'Pok.C07_bounded_waiting' depends on axioms: [propext, Classical.choice, Quot.sound]
'Pok.C07_keeps' depends on axioms: [propext]
'Pok.C07_next' depends on axioms: [propext, Classical.choice, Quot.sound]
'Pok.C08_dispatch' depends on axioms: [propext, Classical.choice, Quot.sound]
'Pok.C10_budget_violated' depends on axioms: [propext]
'Pok.C10_init_violated' depends on axioms: [propext]
'Pok.C11_fresh_budget_violated' depends on axioms: [propext]
'Pok.C12_rms_violated' depends on axioms: [propext]
'Pok.C13_budget_violated' depends on axioms: [propext]
'Pok.C13_init_violated' depends on axioms: [propext]
'Pok.C15_locks_violated' depends on axioms: [propext]
'Pok.C16_handler_past_violated' depends on axioms: [propext]
'Pok.C16_one_past_violated' depends on axioms: [propext]
'Pok.C18_periodic_violated' depends on axioms: [propext]
'Pok.C19_threads_violated' depends on axioms: [propext]
'Pok.C24_fifo_queue' depends on axioms: [propext, Classical.choice, Quot.sound]
'Pok.C25_fifo_among_equals' depends on axioms: [propext, Classical.choice, Quot.sound]
'Pok.C25_priority_queue' depends on axioms: [propext, Classical.choice, Quot.sound]
'Pok.C25_serves_highest' depends on axioms: [propext, Quot.sound]
'Pok.C25_sorted' depends on axioms: [propext, Quot.sound]
'Pok.C26_calls_defined' depends on axioms: [propext, Classical.choice, Quot.sound]
'Pok.C26_mutual_exclusion_partial' depends on axioms: [propext, Classical.choice, Quot.sound]
'Pok.C26_mutual_exclusion_violated' depends on axioms: [propext]
'Pok.C26_mutual_exclusion_violated_by_resume' depends on axioms: [propext]
'Pok.C26_not_reentrant_partial' depends on axioms: [propext, Classical.choice, Quot.sound]
'Pok.C27_no_excess_partial' depends on axioms: [propext, Classical.choice, Quot.sound]
'Pok.C27_no_signal_lost_partial' depends on axioms: [propext, Classical.choice, Quot.sound]
'Pok.C27_signal_lost_violated' depends on axioms: [propext, Quot.sound]
'Pok.C27_value_bounded_partial' depends on axioms: [propext, Classical.choice, Quot.sound]
'Pok.C27_value_bounded_violated' depends on axioms: [propext]
'Pok.C28_no_wait_when_available' depends on axioms: [propext, Classical.choice, Quot.sound]
'Pok.C28_unlock_wakes_next' depends on axioms: [propext, Classical.choice, Quot.sound]
'Pok.C29_deadline_partial' depends on axioms: [propext, Classical.choice, Quot.sound]
'Pok.C29_deadline_violated' depends on axioms: [propext, Quot.sound]
'Pok.C29_return_code_partial' depends on axioms: [propext, Classical.choice, Quot.sound]
'Pok.C29_return_code_violated' depends on axioms: [propext, Quot.sound]
'Pok.C30_broadcast' depends on axioms: [propext, Classical.choice, Quot.sound]
'Pok.C30_signal' depends on axioms: [propext, Classical.choice, Quot.sound]
'Pok.C30_wait_deadline' depends on axioms: [propext, Classical.choice, Quot.sound]
'Pok.C30_wait_end' depends on axioms: [propext]
'Pok.C30_wait_reacquires' depends on axioms: [propext, Classical.choice, Quot.sound]
'Pok.C30_wait_releases' depends on axioms: [propext, Classical.choice, Quot.sound]
'Pok.C30_wait_result' depends on axioms: [propext, Classical.choice, Quot.sound]
'Pok.C31_create_ok' depends on axioms: [propext, Quot.sound]
'Pok.C31_create_refused' depends on axioms: [propext, Quot.sound]
'Pok.C31_create_unavailable' depends on axioms: [propext, Quot.sound]
'Pok.C31_created_once' depends on axioms: [propext, Quot.sound]
'Pok.C31_isolation_partial' depends on axioms: [propext, Quot.sound]
'Pok.C31_isolation_violated' does not depend on any axioms
'Pok.C31_operation_frame' depends on axioms: [propext, Quot.sound]
'Pok.C31_operation_rejected' depends on axioms: [propext]
'Pok.C37_once_violated' depends on axioms: [propext]
'Pok.C38_action_violated' depends on axioms: [propext]
'Pok.C38_double_fault_violated' depends on axioms: [propext]
'Pok.C38_resumed_violated' depends on axioms: [propext]
'Pok.C50_onto' depends on axioms: [propext, Classical.choice, Quot.sound]
'Pok.C50_outside' depends on axioms: [propext, Classical.choice, Quot.sound]
'Pok.C50_round_trip' depends on axioms: [propext, Classical.choice, Quot.sound]
'Pok.C75_codes' depends on axioms: [propext, Quot.sound]
'Pok.Caesar.C47_length' depends on axioms: [propext]
'Pok.Caesar.C47_roundtrip_partial' depends on axioms: [propext, Quot.sound]
'Pok.Caesar.C47_roundtrip_violated' does not depend on any axioms
'Pok.Cbrt.C139_cbrt' depends on axioms: [propext, Classical.choice, Quot.sound]
'Pok.Cbrt.C139_cube' depends on axioms: [propext, Classical.choice, Quot.sound]
'Pok.Cbrt.C139_odd' depends on axioms: [propext, Classical.choice, Quot.sound]
'Pok.Cbrt.C139_special' depends on axioms: [propext, Classical.choice, Quot.sound]
'Pok.Cosh.C141_cosh' depends on axioms: [propext, Classical.choice, Quot.sound]
'Pok.Cosh.C141_even' depends on axioms: [propext, Classical.choice, Quot.sound]
'Pok.Cosh.C141_nan' depends on axioms: [propext, Classical.choice, Quot.sound]
'Pok.Cosh.C141_overflow' depends on axioms: [propext, Classical.choice, Quot.sound]
'Pok.Cosh.C141_special' depends on axioms: [propext]
'Pok.Cosh.C145_expm1' depends on axioms: [propext, Classical.choice, Quot.sound]
'Pok.Cosh.C145_minus' depends on axioms: [propext, Classical.choice, Quot.sound]
'Pok.Cosh.C145_overflow' depends on axioms: [propext, Classical.choice, Quot.sound]
'Pok.Cosh.C145_special' depends on axioms: [propext, Classical.choice, Quot.sound]
'Pok.Cosh.C145_tiny' depends on axioms: [propext, Classical.choice, Quot.sound]
'Pok.DefaultHandler.C130_fault_violated' depends on axioms: [propext, Classical.choice, Quot.sound]
'Pok.DefaultHandler.C130_leftover_violated' depends on axioms: [propext, Classical.choice, Quot.sound]
'Pok.DefaultHandler.C130_message_partial' depends on axioms: [propext, Classical.choice, Quot.sound]
'Pok.DefaultHandler.C130_stops_partial' depends on axioms: [propext, Classical.choice, Quot.sound]
'Pok.Des.C140_accepted' depends on axioms: [propext, Classical.choice, Quot.sound]
'Pok.Des.C140_parity' depends on axioms: [propext, Classical.choice, Quot.sound]
'Pok.Des.C140_same' depends on axioms: [propext, Classical.choice, Quot.sound]
'Pok.Des.C140_unique' depends on axioms: [propext, Classical.choice, Quot.sound]
'Pok.Des.C48_block' depends on axioms: [propext, Classical.choice, Quot.sound]
'Pok.Des.C48_chain' depends on axioms: [propext, Classical.choice, Quot.sound]
'Pok.Des.C48_triple' depends on axioms: [propext, Classical.choice, Quot.sound]
'Pok.Des.C66_des_key_violated' depends on axioms: [propext, Quot.sound]
'Pok.Des.C66_des_partial' depends on axioms: [propext, Classical.choice, Quot.sound]
'Pok.Des.C66_des_short_violated' depends on axioms: [propext, Quot.sound]
'Pok.Des.C66_des_size_violated' depends on axioms: [propext, Quot.sound]
'Pok.Des.C84_chain' depends on axioms: [propext, Classical.choice, Quot.sound]
'Pok.Des.C84_des' depends on axioms: [propext, Classical.choice, Quot.sound]
'Pok.Des.C84_keys' depends on axioms: [propext, Classical.choice, Quot.sound]
'Pok.Des.C84_parity' depends on axioms: [propext, Quot.sound]
'Pok.Des.C84_protocol' depends on axioms: [propext, Classical.choice, Quot.sound]
'Pok.Des.C84_triple' depends on axioms: [propext, Classical.choice, Quot.sound]
'Pok.Des.C84_weak' depends on axioms: [propext, Classical.choice, Quot.sound]
'Pok.ErrorApex.C138_failed_violated' depends on axioms: [propext, Quot.sound]
'Pok.ErrorApex.C138_lost_violated' depends on axioms: [propext, Quot.sound]
'Pok.ErrorApex.C138_register_partial' depends on axioms: [propext, Classical.choice, Quot.sound]
'Pok.ErrorApex.C138_report_long_partial' does not depend on any axioms
'Pok.ErrorApex.C138_report_partial' depends on axioms: [propext, Quot.sound]
'Pok.ErrorApex.C138_report_raises_violated' depends on axioms: [propext, Quot.sound]
'Pok.ErrorApex.C138_report_silent_violated' depends on axioms: [propext, Quot.sound]
'Pok.ErrorApex.C138_runs_violated' depends on axioms: [propext, Classical.choice, Quot.sound]
'Pok.ErrorApex.C138_second_violated' depends on axioms: [propext, Classical.choice, Quot.sound]
'Pok.Exp.C125_exp' depends on axioms: [propext, Classical.choice, Quot.sound]
'Pok.Exp.C125_exp_tiny' depends on axioms: [propext, Classical.choice, Quot.sound]
'Pok.Exp.C125_overflow' depends on axioms: [propext, Classical.choice, Quot.sound]
'Pok.Exp.C125_special' depends on axioms: [propext, Classical.choice, Quot.sound]
'Pok.Heap.C39_clean_partial' depends on axioms: [propext, Classical.choice, Quot.sound]
'Pok.Heap.C39_isolated_partial' depends on axioms: [propext, Classical.choice, Quot.sound]
'Pok.Heap.C39_lifo_partial' depends on axioms: [propext, Classical.choice, Quot.sound]
'Pok.Heap.C39_violated' depends on axioms: [propext]
'Pok.Heap.C39_zero_violated' does not depend on any axioms
'Pok.Heap.C40_decision_partial' depends on axioms: [propext, Quot.sound]
'Pok.Heap.C40_entry_violated' does not depend on any axioms
'Pok.Heap.C40_lifo_partial' depends on axioms: [propext, Classical.choice, Quot.sound]
'Pok.Heap.C40_lost_violated' depends on axioms: [propext]
'Pok.Heap.C63_overflow_violated' does not depend on any axioms
'Pok.Heap.C63_size_partial' depends on axioms: [propext]
'Pok.Hypot.C134_axis_partial' depends on axioms: [propext, Classical.choice, Quot.sound]
'Pok.Hypot.C134_hypot_partial' depends on axioms: [propext, Classical.choice, Quot.sound]
'Pok.Hypot.C134_infinite_partial' depends on axioms: [propext, Classical.choice, Quot.sound]
'Pok.Hypot.C134_nan_partial' depends on axioms: [propext, Classical.choice, Quot.sound]
'Pok.Hypot.C134_overflow_partial' depends on axioms: [propext, Classical.choice, Quot.sound]
'Pok.Hypot.C134_shift_violated' depends on axioms: [propext, Classical.choice, Quot.sound]
'Pok.Info.C83_duration_partial' depends on axioms: [propext, Classical.choice, Quot.sound]
'Pok.Info.C83_duration_violated' depends on axioms: [propext, Classical.choice, Quot.sound]
'Pok.Info.C83_identifier_violated' depends on axioms: [propext, Quot.sound]
'Pok.Info.C83_no_handler_reached' depends on axioms: [propext]
'Pok.Info.C83_no_handler_violated' depends on axioms: [propext]
'Pok.Info.C83_nobody' depends on axioms: [propext]
'Pok.Info.C83_outside_violated' depends on axioms: [propext, Quot.sound]
'Pok.Info.C83_partition_partial' depends on axioms: [propext, Classical.choice, Quot.sound]
'Pok.Info.C83_period_violated' depends on axioms: [propext, Classical.choice, Quot.sound]
'Pok.Info.C83_start_violated' depends on axioms: [propext, Classical.choice, Quot.sound]
'Pok.Info.C83_thread' depends on axioms: [propext, Classical.choice, Quot.sound]
'Pok.Isolation.C110_budget_violated' depends on axioms: [propext, Quot.sound]
'Pok.Isolation.C110_deadline_violated' depends on axioms: [propext, Quot.sound]
'Pok.Isolation.C110_neighbour_violated' depends on axioms: [propext, Quot.sound]
'Pok.Isolation.C110_partial' depends on axioms: [propext, Classical.choice, Quot.sound]
'Pok.Isolation.C110_status_partial' depends on axioms: [propext, Classical.choice, Quot.sound]
'Pok.Isolation.C110_uncreated_violated' depends on axioms: [propext, Quot.sound]
'Pok.Kernel.C04_dispatch' depends on axioms: [propext, Classical.choice, Quot.sound]
'Pok.Kernel.C04_handler_violated' depends on axioms: [propext]
'Pok.Kernel.C04_uniprocessor' depends on axioms: [propext, Classical.choice, Quot.sound]
'Pok.Kernel.C05_idle_boot' depends on axioms: [propext, Classical.choice, Quot.sound]
'Pok.Kernel.C05_total' depends on axioms: [propext, Classical.choice, Quot.sound]
'Pok.Kernel.C05_work_conserving' depends on axioms: [propext, Classical.choice, Quot.sound]
'Pok.Kernel.C06_election' depends on axioms: [propext, Classical.choice, Quot.sound]
'Pok.Kernel.C08_create' depends on axioms: [propext, Classical.choice, Quot.sound]
'Pok.Kernel.C08_ids_partial' depends on axioms: [propext, Classical.choice, Quot.sound]
'Pok.Kernel.C08_ids_violated' depends on axioms: [propext, Quot.sound]
'Pok.Kernel.C08_smallest_period' depends on axioms: [propext, Classical.choice, Quot.sound]
'Pok.Kernel.C08_sorted' depends on axioms: [propext, Classical.choice, Quot.sound]
'Pok.Kernel.C09_init' depends on axioms: [propext, Classical.choice, Quot.sound]
'Pok.Kernel.C09_stopped' depends on axioms: [propext, Classical.choice, Quot.sound]
'Pok.Kernel.C100_answers_partial' depends on axioms: [propext, Classical.choice, Quot.sound]
'Pok.Kernel.C100_handler_violated' depends on axioms: [propext, Classical.choice, Quot.sound]
'Pok.Kernel.C100_history_partial' depends on axioms: [propext, Classical.choice, Quot.sound]
'Pok.Kernel.C100_processor_violated' depends on axioms: [propext, Classical.choice, Quot.sound]
'Pok.Kernel.C107_bound_partial' depends on axioms: [propext, Classical.choice, Quot.sound]
'Pok.Kernel.C107_distinct_partial' depends on axioms: [propext, Classical.choice, Quot.sound]
'Pok.Kernel.C107_handler_violated' depends on axioms: [propext]
'Pok.Kernel.C10_no_wakeup_violated' depends on axioms: [propext, Classical.choice, Quot.sound]
'Pok.Kernel.C10_sleep_partial' depends on axioms: [propext, Classical.choice, Quot.sound]
'Pok.Kernel.C10_sleep_until_partial' depends on axioms: [propext, Classical.choice, Quot.sound]
'Pok.Kernel.C10_wakes_partial' depends on axioms: [propext, Classical.choice, Quot.sound]
'Pok.Kernel.C11_no_drift' depends on axioms: [propext, Classical.choice, Quot.sound]
'Pok.Kernel.C11_not_before' depends on axioms: [propext, Classical.choice, Quot.sound]
'Pok.Kernel.C11_release_partial' depends on axioms: [propext, Classical.choice, Quot.sound]
'Pok.Kernel.C11_step' depends on axioms: [propext, Classical.choice, Quot.sound]
'Pok.Kernel.C12_budget_partial' depends on axioms: [propext, Classical.choice, Quot.sound]
'Pok.Kernel.C12_charge' depends on axioms: [propext, Classical.choice, Quot.sound]
'Pok.Kernel.C12_infinite' depends on axioms: [propext, Classical.choice, Quot.sound]
'Pok.Kernel.C12_remaining' depends on axioms: [propext, Classical.choice, Quot.sound]
'Pok.Kernel.C13_blocked_partial' depends on axioms: [propext, Classical.choice, Quot.sound]
'Pok.Kernel.C13_stays' depends on axioms: [propext, Classical.choice, Quot.sound]
'Pok.Kernel.C14_create' depends on axioms: [propext, Classical.choice, Quot.sound]
'Pok.Kernel.C14_fresh' depends on axioms: [propext, Classical.choice, Quot.sound]
'Pok.Kernel.C14_refused' depends on axioms: [propext, Quot.sound]
'Pok.Kernel.C15_locks_partial' depends on axioms: [propext, Classical.choice, Quot.sound]
'Pok.Kernel.C15_threads' depends on axioms: [propext, Classical.choice, Quot.sound]
'Pok.Kernel.C16_confined_partial' depends on axioms: [propext, Classical.choice, Quot.sound]
'Pok.Kernel.C16_rejected_partial' depends on axioms: [propext, Quot.sound]
'Pok.Kernel.C17_failure' depends on axioms: [propext, Quot.sound]
'Pok.Kernel.C17_only' depends on axioms: [propext, Classical.choice, Quot.sound]
'Pok.Kernel.C17_success' depends on axioms: [propext, Classical.choice, Quot.sound]
'Pok.Kernel.C18_entry_partial' depends on axioms: [propext, Classical.choice, Quot.sound]
'Pok.Kernel.C18_first_frame_partial' depends on axioms: [propext, Quot.sound]
'Pok.Kernel.C19_restart_partial' depends on axioms: [propext, Classical.choice, Quot.sound]
'Pok.Kernel.C37_delivery_partial' depends on axioms: [propext, Classical.choice, Quot.sound]
'Pok.Kernel.C37_none' depends on axioms: [propext, Classical.choice, Quot.sound]
'Pok.Kernel.C37_restart' depends on axioms: [propext, Classical.choice, Quot.sound]
'Pok.Kernel.C38_action_refused' depends on axioms: [propext]
'Pok.Kernel.C38_contained' depends on axioms: [propext, Classical.choice, Quot.sound]
'Pok.Kernel.C38_handler_partial' depends on axioms: [propext, Classical.choice, Quot.sound]
'Pok.Kernel.C38_kinds' depends on axioms: [propext, Quot.sound]
'Pok.Kernel.C38_modes' depends on axioms: [propext, Classical.choice, Quot.sound]
'Pok.Kernel.C76_delayed_partial' depends on axioms: [propext, Classical.choice, Quot.sound]
'Pok.Kernel.C76_periodic_violated' depends on axioms: [propext, Classical.choice, Quot.sound]
'Pok.Kernel.C76_resume' depends on axioms: [propext, Classical.choice, Quot.sound]
'Pok.Kernel.C76_start' depends on axioms: [propext, Classical.choice, Quot.sound]
'Pok.Kernel.C76_suspend' depends on axioms: [propext, Classical.choice, Quot.sound]
'Pok.Kernel.C80_deadline_violated' depends on axioms: [propext, Classical.choice, Quot.sound]
'Pok.Kernel.C80_history_partial' depends on axioms: [propext, Classical.choice, Quot.sound]
'Pok.Kernel.C80_kept' depends on axioms: [propext, Classical.choice, Quot.sound]
'Pok.Kernel.C80_period_violated' depends on axioms: [propext, Classical.choice, Quot.sound]
'Pok.Kernel.C80_status_partial' depends on axioms: [propext, Classical.choice, Quot.sound]
'Pok.Kernel.C85_granted' depends on axioms: [propext, Quot.sound]
'Pok.Kernel.C85_missed_violated' depends on axioms: [propext, Classical.choice, Quot.sound]
'Pok.Kernel.C85_no_handler_violated' depends on axioms: [propext]
'Pok.Kernel.C85_one_past_violated' depends on axioms: [propext, Quot.sound]
'Pok.Kernel.C85_refused' depends on axioms: [propext, Quot.sound]
'Pok.Kernel.C85_restart_partial' depends on axioms: [propext, Classical.choice, Quot.sound]
'Pok.Kernel.C85_stop' depends on axioms: [propext, Classical.choice, Quot.sound]
'Pok.Kernel.C85_twice_violated' depends on axioms: [propext, Classical.choice, Quot.sound]
'Pok.Kernel.C85_uncreated_violated' depends on axioms: [propext]
'Pok.Kernel.Reachable.budget' depends on axioms: [propext, Classical.choice, Quot.sound]
'Pok.Libc.C43_division' depends on axioms: [propext, Classical.choice, Quot.sound]
'Pok.Libc.C43_remainder' depends on axioms: [propext, Classical.choice, Quot.sound]
'Pok.Libc.C44_great_violated' depends on axioms: [propext, Classical.choice, Quot.sound]
'Pok.Libc.C44_least_violated' depends on axioms: [propext, Classical.choice, Quot.sound]
'Pok.Libc.C44_negative_violated' depends on axioms: [propext, Classical.choice, Quot.sound]
'Pok.Libc.C44_radix' depends on axioms: [propext, Classical.choice, Quot.sound]
'Pok.Libc.C44_radix_violated' depends on axioms: [propext, Classical.choice, Quot.sound]
'Pok.Libc.C44_roundtrip_partial' depends on axioms: [propext, Classical.choice, Quot.sound]
'Pok.Libc.C44_text_partial' depends on axioms: [propext, Classical.choice, Quot.sound]
'Pok.Libc.C45_memcmp_partial' depends on axioms: [propext, Classical.choice, Quot.sound]
'Pok.Libc.C45_memcmp_violated' depends on axioms: [propext]
'Pok.Libc.C45_memcpy' depends on axioms: [propext, Classical.choice, Quot.sound]
'Pok.Libc.C45_memcpy_x86' depends on axioms: [propext, Classical.choice, Quot.sound]
'Pok.Libc.C45_memset' depends on axioms: [propext, Quot.sound]
'Pok.Libc.C45_strcmp_eq' depends on axioms: [propext, Classical.choice, Quot.sound]
'Pok.Libc.C45_strcmp_order_partial' depends on axioms: [propext, Classical.choice, Quot.sound]
'Pok.Libc.C45_strcmp_violated' depends on axioms: [propext, Classical.choice, Quot.sound]
'Pok.Libc.C45_strcpy' depends on axioms: [propext, Classical.choice, Quot.sound]
'Pok.Libc.C45_strlen' depends on axioms: [propext, Classical.choice, Quot.sound]
'Pok.Libc.C45_strlen_x86' depends on axioms: [propext, Classical.choice, Quot.sound]
'Pok.Libc.C45_strncmp_eq' depends on axioms: [propext, Classical.choice, Quot.sound]
'Pok.Libc.C45_strncmp_order_partial' depends on axioms: [propext, Classical.choice, Quot.sound]
'Pok.Libc.C45_strncpy_violated' depends on axioms: [propext]
'Pok.Libc.C46_long_violated' depends on axioms: [propext, Classical.choice, Quot.sound]
'Pok.Libc.C46_lookup_violated' does not depend on any axioms
'Pok.Libc.C46_prefix_free_partial' depends on axioms: [propext, Classical.choice, Quot.sound]
'Pok.Libc.C46_prefix_violated' depends on axioms: [propext, Classical.choice, Quot.sound]
'Pok.Libc.C46_same_length_partial' depends on axioms: [propext, Quot.sound]
'Pok.Libc.C65_range' depends on axioms: [propext, Quot.sound]
'Pok.Libc.C65_states' depends on axioms: [propext, Classical.choice, Quot.sound]
'Pok.Libm.C122_domain' depends on axioms: [propext, Classical.choice, Quot.sound]
'Pok.Libm.C122_exact' depends on axioms: [propext, Classical.choice, Quot.sound]
'Pok.Libm.C122_far' depends on axioms: [propext, Classical.choice, Quot.sound]
'Pok.Libm.C122_infinite_base' depends on axioms: [propext, Classical.choice, Quot.sound]
'Pok.Libm.C122_infinite_exponent' depends on axioms: [propext, Classical.choice, Quot.sound]
'Pok.Libm.C122_nan' depends on axioms: [propext, Classical.choice, Quot.sound]
'Pok.Libm.C122_one' depends on axioms: [propext, Classical.choice, Quot.sound]
'Pok.Libm.C122_root' depends on axioms: [propext, Classical.choice, Quot.sound]
'Pok.Libm.C122_sign' depends on axioms: [propext, Classical.choice, Quot.sound]
'Pok.Libm.C122_zero_base' depends on axioms: [propext, Classical.choice, Quot.sound]
'Pok.Libm.C122_zero_exponent' depends on axioms: [propext, Classical.choice, Quot.sound]
'Pok.Libm.C146_fraction' depends on axioms: [propext, Classical.choice, Quot.sound]
'Pok.Libm.C146_scalb' depends on axioms: [propext, Classical.choice, Quot.sound]
'Pok.Libm.C146_significand' depends on axioms: [propext, Classical.choice, Quot.sound]
'Pok.Libm.C146_significand_special' depends on axioms: [propext, Classical.choice, Quot.sound]
'Pok.Libm.C146_special' depends on axioms: [propext, Classical.choice, Quot.sound]
'Pok.Libm.C86_big_endian_violated' depends on axioms: [propext]
'Pok.Libm.C86_kinds' depends on axioms: [propext, Classical.choice, Quot.sound]
'Pok.Libm.C86_sign' depends on axioms: [propext, Classical.choice, Quot.sound]
'Pok.Libm.C87_ceil' depends on axioms: [propext, Classical.choice, Quot.sound]
'Pok.Libm.C87_floor' depends on axioms: [propext, Classical.choice, Quot.sound]
'Pok.Libm.C87_modf' depends on axioms: [propext, Classical.choice, Quot.sound]
'Pok.Libm.C87_round' depends on axioms: [propext, Classical.choice, Quot.sound]
'Pok.Libm.C87_special' depends on axioms: [propext, Classical.choice, Quot.sound]
'Pok.Libm.C87_trunc' depends on axioms: [propext, Classical.choice, Quot.sound]
'Pok.Libm.C88_frexp' depends on axioms: [propext, Classical.choice, Quot.sound]
'Pok.Libm.C88_frexp_special' depends on axioms: [propext, Classical.choice, Quot.sound]
'Pok.Libm.C88_ilogb' depends on axioms: [propext, Classical.choice, Quot.sound]
'Pok.Libm.C88_ilogb_special' depends on axioms: [propext, Classical.choice, Quot.sound]
'Pok.Libm.C88_ldexp' depends on axioms: [propext, Classical.choice, Quot.sound]
'Pok.Libm.C88_logb' depends on axioms: [propext, Classical.choice, Quot.sound]
'Pok.Libm.C88_logb_violated' depends on axioms: [propext, Classical.choice, Quot.sound]
'Pok.Libm.C88_nextafter' depends on axioms: [propext, Classical.choice, Quot.sound]
'Pok.Libm.C88_rank' depends on axioms: [propext, Classical.choice, Quot.sound]
'Pok.Libm.C88_scalbn' depends on axioms: [propext, Classical.choice, Quot.sound]
'Pok.Libm.C88_scalbn_special' depends on axioms: [propext, Classical.choice, Quot.sound]
'Pok.Libm.C89_rint_partial' depends on axioms: [propext, Classical.choice, Quot.sound]
'Pok.Libm.C89_rint_special' depends on axioms: [propext, Classical.choice, Quot.sound]
'Pok.Libm.C89_rint_violated' depends on axioms: [propext, Classical.choice, Quot.sound]
'Pok.Libm.C90_fmod' depends on axioms: [propext, Classical.choice, Quot.sound]
'Pok.Libm.C90_fmod_special' depends on axioms: [propext, Classical.choice, Quot.sound]
'Pok.Libm.C90_remainder' depends on axioms: [propext, Classical.choice, Quot.sound]
'Pok.Libm.C90_remainder_special' depends on axioms: [propext, Classical.choice, Quot.sound]
'Pok.Libm.C91_sqrt' depends on axioms: [propext, Classical.choice, Quot.sound]
'Pok.Libm.C91_sqrt_special' depends on axioms: [propext, Classical.choice, Quot.sound]
'Pok.Libm.fpu_add' depends on axioms: [propext, Classical.choice, Quot.sound]
'Pok.Libm.fpu_div' depends on axioms: [propext, Classical.choice, Quot.sound]
'Pok.Libm.fpu_mul' depends on axioms: [propext, Classical.choice, Quot.sound]
'Pok.Libmf.C115_kinds' depends on axioms: [propext, Classical.choice, Quot.sound]
'Pok.Libmf.C115_sign' depends on axioms: [propext, Classical.choice, Quot.sound]
'Pok.Libmf.C116_ceil' depends on axioms: [propext, Classical.choice, Quot.sound]
'Pok.Libmf.C116_floor' depends on axioms: [propext, Classical.choice, Quot.sound]
'Pok.Libmf.C116_modf' depends on axioms: [propext, Classical.choice, Quot.sound]
'Pok.Libmf.C116_round' depends on axioms: [propext, Classical.choice, Quot.sound]
'Pok.Libmf.C116_special' depends on axioms: [propext, Classical.choice, Quot.sound]
'Pok.Libmf.C116_trunc' depends on axioms: [propext, Classical.choice, Quot.sound]
'Pok.Libmf.C117_frexp' depends on axioms: [propext, Classical.choice, Quot.sound]
'Pok.Libmf.C117_frexp_special' depends on axioms: [propext, Classical.choice, Quot.sound]
'Pok.Libmf.C117_ilogb' depends on axioms: [propext, Classical.choice, Quot.sound]
'Pok.Libmf.C117_ilogb_special' depends on axioms: [propext, Classical.choice, Quot.sound]
'Pok.Libmf.C117_ldexp' depends on axioms: [propext, Classical.choice, Quot.sound]
'Pok.Libmf.C117_logb' depends on axioms: [propext, Classical.choice, Quot.sound]
'Pok.Libmf.C117_logb_violated' depends on axioms: [propext, Classical.choice, Quot.sound]
'Pok.Libmf.C117_nextafter' depends on axioms: [propext, Classical.choice, Quot.sound]
'Pok.Libmf.C117_rank' depends on axioms: [propext, Classical.choice, Quot.sound]
'Pok.Libmf.C117_scalbn' depends on axioms: [propext, Classical.choice, Quot.sound]
'Pok.Libmf.C117_scalbn_special' depends on axioms: [propext, Classical.choice, Quot.sound]
'Pok.Libmf.C118_rint_partial' depends on axioms: [propext, Classical.choice, Quot.sound]
'Pok.Libmf.C118_rint_special' depends on axioms: [propext, Classical.choice, Quot.sound]
'Pok.Libmf.C118_rint_violated' depends on axioms: [propext, Classical.choice, Quot.sound]
'Pok.Libmf.C119_fmod' depends on axioms: [propext, Classical.choice, Quot.sound]
'Pok.Libmf.C119_fmod_special' depends on axioms: [propext, Classical.choice, Quot.sound]
'Pok.Libmf.C119_remainder' depends on axioms: [propext, Classical.choice, Quot.sound]
'Pok.Libmf.C119_remainder_special' depends on axioms: [propext, Classical.choice, Quot.sound]
'Pok.Libmf.C120_sqrt' depends on axioms: [propext, Classical.choice, Quot.sound]
'Pok.Libmf.C120_sqrt_special' depends on axioms: [propext, Classical.choice, Quot.sound]
'Pok.Libmf.C147_fraction' depends on axioms: [propext, Classical.choice, Quot.sound]
'Pok.Libmf.C147_scalb' depends on axioms: [propext, Classical.choice, Quot.sound]
'Pok.Libmf.C147_significand' depends on axioms: [propext, Classical.choice, Quot.sound]
'Pok.Libmf.C147_significand_special' depends on axioms: [propext, Classical.choice, Quot.sound]
'Pok.Libmf.C147_special' depends on axioms: [propext, Classical.choice, Quot.sound]
'Pok.Libmf.fpu_add' depends on axioms: [propext, Classical.choice, Quot.sound]
'Pok.Libmf.fpu_mul' depends on axioms: [propext, Classical.choice, Quot.sound]
'Pok.Loader.C58_archive_partial' depends on axioms: [propext, Classical.choice, Quot.sound]
'Pok.Loader.C58_load_partial' depends on axioms: [propext, Classical.choice, Quot.sound]
'Pok.Loader.C58_not_elf_violated' depends on axioms: [propext, Classical.choice, Quot.sound]
'Pok.Loader.C58_outside_violated' depends on axioms: [propext]
'Pok.Loader.C58_segments_partial' depends on axioms: [propext, Classical.choice, Quot.sound]
'Pok.Loader.C58_sizes_violated' depends on axioms: [propext, Classical.choice, Quot.sound]
'Pok.Log.C126_log' depends on axioms: [propext, Classical.choice, Quot.sound]
'Pok.Log.C126_one' depends on axioms: [propext, Classical.choice, Quot.sound]
'Pok.Log.C126_special' depends on axioms: [propext, Classical.choice, Quot.sound]
'Pok.Log.C129_log10' depends on axioms: [propext, Classical.choice, Quot.sound]
'Pok.Log.C129_log10_powers' depends on axioms: [propext, Classical.choice, Quot.sound]
'Pok.Log.C129_log2' depends on axioms: [propext, Classical.choice, Quot.sound]
'Pok.Log.C129_log2_exact' depends on axioms: [propext, Classical.choice, Quot.sound]
'Pok.Log.C129_special' depends on axioms: [propext, Classical.choice, Quot.sound]
'Pok.Machine.C67_boot' depends on axioms: [propext, Classical.choice, Quot.sound]
'Pok.Machine.C67_exceptions_forged_violated' depends on axioms: [propext, Classical.choice, Quot.sound]
'Pok.Machine.C67_forged_violated' depends on axioms: [propext, Quot.sound]
'Pok.Machine.C67_init' depends on axioms: [propext]
'Pok.Machine.C67_pci_violated' depends on axioms: [propext, Quot.sound]
'Pok.Machine.C67_register' depends on axioms: [propext, Quot.sound]
'Pok.Machine.C67_syscall_lost_violated' depends on axioms: [propext, Classical.choice, Quot.sound]
'Pok.Machine.C67_wrap_violated' depends on axioms: [propext, Classical.choice, Quot.sound]
'Pok.Machine.C68_every_exception' depends on axioms: [propext, Classical.choice, Quot.sound]
'Pok.Machine.C68_exception' depends on axioms: [propext, Classical.choice, Quot.sound]
'Pok.Machine.C68_frame' depends on axioms: [propext, Classical.choice, Quot.sound]
'Pok.Machine.C68_interrupt' depends on axioms: [propext, Classical.choice, Quot.sound]
'Pok.Machine.C68_ipi_partial' depends on axioms: [propext, Classical.choice, Quot.sound]
'Pok.Machine.C68_ipi_violated' does not depend on any axioms
'Pok.Machine.C68_soft_exception_violated' depends on axioms: [propext, Classical.choice, Quot.sound]
'Pok.Machine.C68_stack' depends on axioms: [propext, Classical.choice, Quot.sound]
'Pok.Machine.C68_syscall' depends on axioms: [propext, Classical.choice, Quot.sound]
'Pok.Machine.C69_lines' depends on axioms: [propext, Quot.sound]
'Pok.Machine.C69_refused' depends on axioms: [propext, Classical.choice, Quot.sound]
'Pok.Machine.C69_register' depends on axioms: [propext, Quot.sound]
'Pok.Machine.C70_first_run' depends on axioms: [propext, Classical.choice, Quot.sound]
'Pok.Machine.C70_resume' depends on axioms: [propext, Classical.choice, Quot.sound]
'Pok.Machine.C70_user_start' depends on axioms: [propext, Classical.choice, Quot.sound]
'Pok.Machine.C71_kernel_image_violated' depends on axioms: [propext, Classical.choice, Quot.sound]
'Pok.Machine.C71_reset_partial' depends on axioms: [propext, Classical.choice, Quot.sound]
'Pok.Machine.C71_violated' depends on axioms: [propext, Classical.choice, Quot.sound]
'Pok.Machine.C72_caller' depends on axioms: [propext, Quot.sound]
'Pok.Machine.C72_frame' depends on axioms: [propext, Classical.choice, Quot.sound]
'Pok.Machine.C74_gates_partial' depends on axioms: [propext, Classical.choice, Quot.sound]
'Pok.Machine.C74_handler_partial' depends on axioms: [propext, Quot.sound]
'Pok.Machine.C74_start_violated' depends on axioms: [propext, Classical.choice, Quot.sound]
'Pok.Mp.C108_number_violated' depends on axioms: [propext, Quot.sound]
'Pok.Mp.C108_numbers_partial' depends on axioms: [propext, Quot.sound]
'Pok.Mp.C108_others_partial' does not depend on any axioms
'Pok.Mp.C108_request_partial' depends on axioms: [propext, Classical.choice, Quot.sound]
'Pok.Mp.C108_request_violated' depends on axioms: [propext, Classical.choice, Quot.sound]
'Pok.Mp.C108_stack_violated' depends on axioms: [propext, Quot.sound]
'Pok.Mp.C108_stacks_partial' depends on axioms: [propext, Classical.choice, Quot.sound]
'Pok.Mp.C109_count_partial' depends on axioms: [propext, Classical.choice, Quot.sound]
'Pok.Mp.C109_ebda_violated' depends on axioms: [propext, Classical.choice, Quot.sound]
'Pok.Mp.C109_missing_violated' depends on axioms: [propext, Quot.sound]
'Pok.Mp.C109_table_violated' depends on axioms: [propext, Classical.choice, Quot.sound]
'Pok.Mw.C106_buffer_partial' depends on axioms: [propext, Classical.choice, Quot.sound]
'Pok.Mw.C106_count_violated' depends on axioms: [propext, Classical.choice, Quot.sound]
'Pok.Mw.C106_empty_violated' depends on axioms: [propext, Quot.sound]
'Pok.Mw.C106_id_partial' depends on axioms: [propext, Classical.choice, Quot.sound]
'Pok.Mw.C106_uncreated_violated' depends on axioms: [propext]
'Pok.Mw.C41_boundary_violated' depends on axioms: [propext]
'Pok.Mw.C41_fifo_partial' depends on axioms: [propext, Classical.choice, Quot.sound]
'Pok.Mw.C41_geometry_violated' depends on axioms: [propext]
'Pok.Mw.C41_long_violated' depends on axioms: [propext]
'Pok.Mw.C41_short_violated' depends on axioms: [propext]
'Pok.Mw.C41_spin_violated' depends on axioms: [propext]
'Pok.Mw.C41_storage_partial' depends on axioms: [propext, Classical.choice, Quot.sound]
'Pok.Mw.C42_boundary_violated' depends on axioms: [propext]
'Pok.Mw.C42_empty_violated' depends on axioms: [propext]
'Pok.Mw.C42_last_partial' depends on axioms: [propext, Classical.choice, Quot.sound]
'Pok.Mw.C42_panels_partial' depends on axioms: [propext, Classical.choice, Quot.sound]
'Pok.Mw.C42_short_violated' depends on axioms: [propext]
'Pok.Net.C111_alone_violated' depends on axioms: [propext, Classical.choice, Quot.sound]
'Pok.Net.C111_count_violated' depends on axioms: [propext, Quot.sound]
'Pok.Net.C111_endless_violated' depends on axioms: [propext, Classical.choice, Quot.sound]
'Pok.Net.C111_first_page_violated' depends on axioms: [propext, Classical.choice, Quot.sound]
'Pok.Net.C111_forged_violated' depends on axioms: [propext, Classical.choice, Quot.sound]
'Pok.Net.C111_long_violated' depends on axioms: [propext, Classical.choice, Quot.sound]
'Pok.Net.C111_partial' depends on axioms: [propext, Classical.choice, Quot.sound]
'Pok.Net.C111_poll_partial' depends on axioms: [propext, Classical.choice, Quot.sound]
'Pok.Net.C111_read_partial' depends on axioms: [propext, Classical.choice, Quot.sound]
'Pok.Net.C111_two_pages_violated' depends on axioms: [propext, Classical.choice, Quot.sound]
'Pok.Net.C112_partial' depends on axioms: [propext, Classical.choice, Quot.sound]
'Pok.Net.C112_refused_partial' depends on axioms: [propext, Quot.sound]
'Pok.Net.C112_stack_violated' depends on axioms: [propext, Classical.choice, Quot.sound]
'Pok.Net.C113_long_violated' depends on axioms: [propext, Classical.choice, Quot.sound]
'Pok.Net.C113_one_violated' depends on axioms: [propext, Classical.choice, Quot.sound]
'Pok.Net.C113_partial' depends on axioms: [propext, Classical.choice, Quot.sound]
'Pok.Net.C114_multi_violated' depends on axioms: [propext, Classical.choice, Quot.sound]
'Pok.Net.C114_none_partial' depends on axioms: [propext, Classical.choice, Quot.sound]
'Pok.Net.C114_partial' depends on axioms: [propext, Classical.choice, Quot.sound]
'Pok.Ports.C121_alone_partial' depends on axioms: [propext, Classical.choice, Quot.sound]
'Pok.Ports.C121_buffer_violated' depends on axioms: [propext, Quot.sound]
'Pok.Ports.C121_partial' depends on axioms: [propext, Classical.choice, Quot.sound]
'Pok.Ports.C121_room_violated' depends on axioms: [propext, Classical.choice, Quot.sound]
'Pok.Ports.C32_create' depends on axioms: [propext, Classical.choice, Quot.sound]
'Pok.Ports.C32_disjoint' depends on axioms: [propext, Classical.choice, Quot.sound]
'Pok.Ports.C32_stays' depends on axioms: [propext, Classical.choice, Quot.sound]
'Pok.Ports.C33_last_partial' depends on axioms: [propext, Classical.choice, Quot.sound]
'Pok.Ports.C33_late_destination_violated' depends on axioms: [propext]
'Pok.Ports.C33_lock_violated' depends on axioms: [propext]
'Pok.Ports.C33_long_violated' depends on axioms: [propext]
'Pok.Ports.C33_read' depends on axioms: [propext, Classical.choice, Quot.sound]
'Pok.Ports.C33_short_violated' depends on axioms: [propext]
'Pok.Ports.C34_destination_full_violated' depends on axioms: [propext]
'Pok.Ports.C34_fifo_partial' depends on axioms: [propext, Classical.choice, Quot.sound]
'Pok.Ports.C34_no_capacity_test' depends on axioms: [propext, Classical.choice, Quot.sound]
'Pok.Ports.C34_no_destination_violated' depends on axioms: [propext]
'Pok.Ports.C34_overwrite_violated' depends on axioms: [propext]
'Pok.Ports.C34_receive' depends on axioms: [propext, Classical.choice, Quot.sound]
'Pok.Ports.C34_stale_full_violated' depends on axioms: [propext]
'Pok.Ports.C35_boundary_violated' depends on axioms: [propext, Quot.sound]
'Pok.Ports.C35_kind_violated' depends on axioms: [propext]
'Pok.Ports.C35_refused_partial' depends on axioms: [propext, Classical.choice, Quot.sound]
'Pok.Ports.C35_zero_violated' depends on axioms: [propext]
'Pok.Ports.C36_flush' depends on axioms: [propext, Classical.choice, Quot.sound]
'Pok.Ports.C36_flushAll' depends on axioms: [propext, Classical.choice, Quot.sound]
'Pok.Ports.C36_total' depends on axioms: [propext, Classical.choice, Quot.sound]
'Pok.Ports.C99_deadline_violated' depends on axioms: [propext, Classical.choice, Quot.sound]
'Pok.Ports.C99_moves_violated' depends on axioms: [propext, Classical.choice, Quot.sound]
'Pok.Ports.C99_receive_partial' depends on axioms: [propext, Classical.choice, Quot.sound]
'Pok.Ports.C99_send_deadline_violated' depends on axioms: [propext, Quot.sound]
'Pok.Ports.C99_send_partial' depends on axioms: [propext, Quot.sound]
'Pok.Ports.C99_send_room' depends on axioms: [propext, Classical.choice, Quot.sound]
'Pok.Ports.C99_woken' depends on axioms: [propext, Classical.choice, Quot.sound]
'Pok.Ports.C99_wrap_violated' depends on axioms: [propext, Classical.choice, Quot.sound]
'Pok.Ppc.C59_base_violated' depends on axioms: [propext]
'Pok.Ppc.C59_confined_partial' depends on axioms: [propext, Classical.choice, Quot.sound]
'Pok.Ppc.C59_full_violated' depends on axioms: [propext]
'Pok.Ppc.C59_isolation_partial' depends on axioms: [propext, Classical.choice, Quot.sound]
'Pok.Ppc.C59_never_full_partial' depends on axioms: [propext, Classical.choice, Quot.sound]
'Pok.Ppc.C59_outside' depends on axioms: [propext, Quot.sound]
'Pok.Ppc.C59_served_partial' depends on axioms: [propext, Classical.choice, Quot.sound]
'Pok.Ppc.C59_size_violated' depends on axioms: [propext]
'Pok.Ppc.C59_stride_violated' depends on axioms: [propext]
'Pok.PpcCpu.C101_start' depends on axioms: [propext, Quot.sound]
'Pok.PpcCpu.C101_switch' depends on axioms: [propext, Quot.sound]
'Pok.PpcCpu.C101_user' depends on axioms: [propext, Classical.choice, Quot.sound]
'Pok.PpcCpu.C102_fault_partial' depends on axioms: [propext, Quot.sound]
'Pok.PpcCpu.C102_kernel_partial' depends on axioms: [propext, Quot.sound]
'Pok.PpcCpu.C102_stack_violated' depends on axioms: [propext, Classical.choice, Quot.sound]
'Pok.PpcCpu.C102_switch_violated' depends on axioms: [propext, Quot.sound]
'Pok.PpcCpu.C102_syscall_partial' depends on axioms: [propext, Classical.choice, Quot.sound]
'Pok.PpcCpu.C102_timer_violated' depends on axioms: [propext, Quot.sound]
'Pok.Printf.C123_count_violated' depends on axioms: [propext, Classical.choice, Quot.sound]
'Pok.Printf.C123_digits_violated' depends on axioms: [propext, Classical.choice, Quot.sound]
'Pok.Printf.C123_extended_partial' depends on axioms: [propext, Classical.choice, Quot.sound]
'Pok.Printf.C123_large_violated' depends on axioms: [propext, Classical.choice, Quot.sound]
'Pok.Printf.C123_near_partial' depends on axioms: [propext, Classical.choice, Quot.sound]
'Pok.Printf.C123_negative_fraction_violated' depends on axioms: [propext, Classical.choice, Quot.sound]
'Pok.Printf.C123_negative_violated' depends on axioms: [propext, Classical.choice, Quot.sound]
'Pok.Printf.C123_partial' depends on axioms: [propext, Classical.choice, Quot.sound]
'Pok.Printf.C64_count_violated' depends on axioms: [propext, Classical.choice, Quot.sound]
'Pok.Printf.C64_min_violated' depends on axioms: [propext, Classical.choice, Quot.sound]
'Pok.Printf.C64_text_partial' depends on axioms: [propext, Classical.choice, Quot.sound]
'Pok.Printf.C64_unknown_violated' depends on axioms: [propext, Classical.choice, Quot.sound]
'Pok.Printf.keep_double' depends on axioms: [propext, Quot.sound]
'Pok.Results.C77_apex_violated' depends on axioms: [propext, Classical.choice, Quot.sound]
'Pok.Results.C77_bound_violated' depends on axioms: [propext, Quot.sound]
'Pok.Results.C77_error_partial' depends on axioms: [propext, Classical.choice, Quot.sound]
'Pok.Results.C77_event_violated' depends on axioms: [propext, Quot.sound]
'Pok.Results.C77_message_violated' depends on axioms: [propext, Classical.choice, Quot.sound]
'Pok.Results.C77_overwrite_violated' depends on axioms: [propext, Classical.choice, Quot.sound]
'Pok.Results.C77_queueing_violated' depends on axioms: [propext, Quot.sound]
'Pok.Results.C77_sampling_status' depends on axioms: [propext, Quot.sound]
'Pok.Results.C77_shown_partial' depends on axioms: [propext, Classical.choice, Quot.sound]
'Pok.Results.C77_status_exact' depends on axioms: [propext, Quot.sound]
'Pok.Results.C77_waiting_violated' depends on axioms: [propext]
'Pok.Results.C78_full_violated' depends on axioms: [propext, Classical.choice, Quot.sound]
'Pok.Results.C78_ignored' does not depend on any axioms
'Pok.Results.C78_log_partial' depends on axioms: [propext, Classical.choice, Quot.sound]
'Pok.Results.C79_affinity_violated' does not depend on any axioms
'Pok.Results.C79_deadline' depends on axioms: [propext]
'Pok.Results.C79_defaults_partial' depends on axioms: [propext]
'Pok.Results.C79_until_violated' depends on axioms: [propext, Quot.sound]
'Pok.Serial.C128_answer_violated' does not depend on any axioms
'Pok.Serial.C128_control_violated' does not depend on any axioms
'Pok.Serial.C128_getchar_partial' depends on axioms: [propext, Quot.sound]
'Pok.Serial.C128_getchar_refused_partial' depends on axioms: [propext]
'Pok.Serial.C128_getchar_violated' depends on axioms: [propext]
'Pok.Serial.C128_inb_partial' depends on axioms: [propext, Quot.sound]
'Pok.Serial.C128_line_partial' depends on axioms: [propext, Quot.sound]
'Pok.Serial.C128_sequence_partial' depends on axioms: [propext]
'Pok.Sinh.C142_large' depends on axioms: [propext, Classical.choice, Quot.sound]
'Pok.Sinh.C142_nan' depends on axioms: [propext, Classical.choice, Quot.sound]
'Pok.Sinh.C142_odd' depends on axioms: [propext, Classical.choice, Quot.sound]
'Pok.Sinh.C142_overflow' depends on axioms: [propext, Classical.choice, Quot.sound]
'Pok.Sinh.C142_sinh' depends on axioms: [propext, Classical.choice, Quot.sound]
'Pok.Sinh.C142_small' depends on axioms: [propext, Classical.choice, Quot.sound]
'Pok.Sinh.C142_special' depends on axioms: [propext]
'Pok.Sinh.C142_tiny' depends on axioms: [propext, Classical.choice, Quot.sound]
'Pok.Sinh.C143_large' depends on axioms: [propext, Classical.choice, Quot.sound]
'Pok.Sinh.C143_nan' depends on axioms: [propext, Classical.choice, Quot.sound]
'Pok.Sinh.C143_odd' depends on axioms: [propext, Classical.choice, Quot.sound]
'Pok.Sinh.C143_small' depends on axioms: [propext, Classical.choice, Quot.sound]
'Pok.Sinh.C143_special' depends on axioms: [propext]
'Pok.Sinh.C143_tanh' depends on axioms: [propext, Classical.choice, Quot.sound]
'Pok.Sinh.C143_tiny' depends on axioms: [propext, Classical.choice, Quot.sound]
'Pok.Smp.C51_barrier' depends on axioms: [propext, Classical.choice, Quot.sound]
'Pok.Smp.C51_completes' depends on axioms: [propext, Classical.choice, Quot.sound]
'Pok.Smp.C51_progress' depends on axioms: [propext, Classical.choice, Quot.sound]
'Pok.Smp.C52_enter' depends on axioms: [propext, Quot.sound]
'Pok.Smp.C52_mutex' depends on axioms: [propext, Classical.choice, Quot.sound]
'Pok.Smp.C52_undisciplined' does not depend on any axioms
'Pok.Sparc.C92_calls_refine_stack' depends on axioms: [propext, Classical.choice, Quot.sound]
'Pok.Sparc.C93_flags_violated' depends on axioms: [propext, Classical.choice, Quot.sound]
'Pok.Sparc.C93_seven_windows_violated' depends on axioms: [propext, Classical.choice, Quot.sound]
'Pok.Sparc.C93_trap_invisible_partial' depends on axioms: [propext, Classical.choice, Quot.sound]
'Pok.Sparc.C94_supervisor_violated' depends on axioms: [propext, Classical.choice, Quot.sound]
'Pok.Sparc.C95_flags_violated' depends on axioms: [propext, Classical.choice, Quot.sound]
'Pok.Sparc.C95_syscall_result_partial' depends on axioms: [propext, Classical.choice, Quot.sound]
'Pok.Sparc.C96_thread_starts' depends on axioms: [propext, Classical.choice, Quot.sound]
'Pok.Sparc.C97_reset_violated' depends on axioms: [propext, Quot.sound]
'Pok.SparcMmu.C98_alignment_violated' depends on axioms: [propext]
'Pok.SparcMmu.C98_big_partition_violated' depends on axioms: [propext, Classical.choice, Quot.sound]
'Pok.SparcMmu.C98_supervisor_violated' depends on axioms: [propext, Classical.choice, Quot.sound]
'Pok.SparcMmu.C98_user_isolation_partial' depends on axioms: [propext, Classical.choice, Quot.sound]
'Pok.Spin.C135_ppc_enter_partial' depends on axioms: [propext, Classical.choice, Quot.sound]
'Pok.Spin.C135_ppc_partial' depends on axioms: [propext, Classical.choice, Quot.sound]
'Pok.Spin.C135_sparc_partial' depends on axioms: [propext, Quot.sound]
'Pok.Spin.C135_sparc_violated' depends on axioms: [propext, Classical.choice, Quot.sound]
'Pok.Stub.C75_arrives_partial' depends on axioms: [propext, Classical.choice, Quot.sound]
'Pok.Stub.C75_effect' depends on axioms: [propext, Quot.sound]
'Pok.Stub.C75_event_create_violated' depends on axioms: [propext, Classical.choice, Quot.sound]
'Pok.Stub.C75_event_id_violated' depends on axioms: [propext, Classical.choice, Quot.sound]
'Pok.Stub.C75_long_message_violated' depends on axioms: [propext, Classical.choice, Quot.sound]
'Pok.Stub.C75_long_time_violated' depends on axioms: [propext, Classical.choice, Quot.sound]
'Pok.Stub.C75_sleep_partial' depends on axioms: [propext, Classical.choice, Quot.sound]
'Pok.Stub.C75_trylock_violated' depends on axioms: [propext, Classical.choice, Quot.sound]
'Pok.Sys.C20_empty' depends on axioms: [propext, Classical.choice, Quot.sound]
'Pok.Sys.C20_exact' depends on axioms: [propext, Classical.choice, Quot.sound]
'Pok.Sys.C20_no_wrap' depends on axioms: [propext, Classical.choice, Quot.sound]
'Pok.Sys.C21_conswrite_exact' depends on axioms: [propext, Quot.sound]
'Pok.Sys.C21_conswrite_violated' depends on axioms: [propext, Classical.choice, Quot.sound]
'Pok.Sys.C21_gate' depends on axioms: [propext, Classical.choice, Quot.sound]
'Pok.Sys.C21_getchar_violated' depends on axioms: [propext, Classical.choice, Quot.sound]
'Pok.Sys.C21_lock_violated' depends on axioms: [propext, Classical.choice, Quot.sound]
'Pok.Sys.C21_mac_violated' depends on axioms: [propext, Classical.choice, Quot.sound]
'Pok.Sys.C21_null_exact' depends on axioms: [propext, Classical.choice, Quot.sound]
'Pok.Sys.C21_null_violated' depends on axioms: [propext]
'Pok.Sys.C21_partial' depends on axioms: [propext, Classical.choice, Quot.sound]
'Pok.Sys.C21_read_writes' depends on axioms: [propext, Quot.sound]
'Pok.Sys.C21_reading' depends on axioms: [propext]
'Pok.Sys.C21_receive_writes' depends on axioms: [propext, Quot.sound]
'Pok.Sys.C21_rtl_violated' depends on axioms: [propext, Classical.choice, Quot.sound]
'Pok.Sys.C21_sampling_violated' depends on axioms: [propext, Classical.choice, Quot.sound]
'Pok.Sys.C22_count_partial' depends on axioms: [propext]
'Pok.Sys.C22_count_violated' depends on axioms: [propext]
'Pok.Sys.C22_numbers' depends on axioms: [propext, Classical.choice, Quot.sound]
'Pok.Sys.C22_refused' depends on axioms: [propext]
'Pok.Sys.C22_unknown' depends on axioms: [propext, Classical.choice, Quot.sound]
'Pok.Sys.C23_access' depends on axioms: [propext, Classical.choice, Quot.sound]
'Pok.Sys.C23_history_partial' depends on axioms: [propext, Classical.choice, Quot.sound]
'Pok.Sys.C23_pci_violated' depends on axioms: [propext]
'Pok.Sys.C23_refused' depends on axioms: [propext, Classical.choice, Quot.sound]
'Pok.Timers.C103_drift_partial' depends on axioms: [propext, Quot.sound]
'Pok.Timers.C103_late_violated' depends on axioms: [propext, Quot.sound]
'Pok.Timers.C103_sparc_violated' depends on axioms: [propext, Classical.choice, Quot.sound]
'Pok.Timers.C103_unit_violated' depends on axioms: [propext, Classical.choice, Quot.sound]
'Pok.Timers.C104_disjoint_partial' depends on axioms: [propext, Quot.sound]
'Pok.Timers.C104_wrap_violated' depends on axioms: [propext, Quot.sound]
'Pok.Trace.C131_count_partial' depends on axioms: [propext, Classical.choice, Quot.sound]
'Pok.Trace.C131_document_violated' depends on axioms: [propext, Quot.sound]
'Pok.Trace.C131_elements_partial' depends on axioms: [propext]
'Pok.Trace.C131_partition_partial' depends on axioms: [propext, Quot.sound]
'Pok.Trace.C131_time_violated' depends on axioms: [propext, Quot.sound]
'Pok.Trace.C131_twice_violated' depends on axioms: [propext, Classical.choice, Quot.sound]
'Pok.Trace.C131_values_partial' depends on axioms: [propext, Quot.sound]
'Pok.Trig.C124_cos' depends on axioms: [propext, Classical.choice, Quot.sound]
'Pok.Trig.C124_not_finite' depends on axioms: [propext, Classical.choice, Quot.sound]
'Pok.Trig.C124_sin' depends on axioms: [propext, Classical.choice, Quot.sound]
'Pok.Trig.C124_sin_small' depends on axioms: [propext, Classical.choice, Quot.sound]
'Pok.Tss.C137_pic_violated' depends on axioms: [propext, Classical.choice, Quot.sound]
'Pok.Tss.C137_ports_partial' depends on axioms: [propext, Classical.choice, Quot.sound]
'Pok.Tss.C137_ports_violated' depends on axioms: [propext, Classical.choice, Quot.sound]
'Pok.Tss.C137_stack_partial' depends on axioms: [propext, Classical.choice, Quot.sound]
'Pok.Vectors.C102_result_violated' depends on axioms: [propext, Classical.choice, Quot.sound]
'Pok.Vectors.C127_answer_partial' depends on axioms: [propext, Quot.sound]
'Pok.Vectors.C127_delivered_partial' depends on axioms: [propext, Quot.sound]
'Pok.Vectors.C127_error_violated' depends on axioms: [propext, Quot.sound]
'Pok.Vectors.C127_first_partial' depends on axioms: [propext, Quot.sound]
'Pok.Vectors.C127_highest_violated' depends on axioms: [propext, Quot.sound]
'Pok.Vectors.C127_mask_partial' depends on axioms: [propext, Classical.choice, Quot.sound]
'Pok.Vectors.C127_ppc_error_violated' depends on axioms: [propext, Quot.sound]
'Pok.Vectors.C127_ppc_partial' does not depend on any axioms
'Pok.Vectors.C127_ppc_register_violated' does not depend on any axioms
'Pok.Vectors.C127_software_trap_violated' depends on axioms: [propext, Quot.sound]
'Pok.Vectors.C127_table_partial' depends on axioms: [propext]
'Pok.Vectors.C54_boards_partial' depends on axioms: [propext, Quot.sound]
'Pok.VirtPort.C105_answers_partial' depends on axioms: [propext, Quot.sound]
'Pok.VirtPort.C105_enumerate_partial' depends on axioms: [propext, Quot.sound]
'Pok.VirtPort.C105_index_violated' depends on axioms: [propext, Quot.sound]
'Pok.VirtPort.C105_kind_violated' does not depend on any axioms
'Pok.VirtPort.C105_mac_partial' depends on axioms: [propext]
'Pok.VirtPort.C105_name_partial' depends on axioms: [propext, Quot.sound]
'Pok.VirtPort.C105_name_violated' depends on axioms: [propext, Classical.choice, Quot.sound]
'Pok.VirtPort.C105_node_violated' depends on axioms: [propext, Quot.sound]
'Pok.VirtPort.C105_refused_partial' depends on axioms: [propext, Quot.sound]
'Pok.X86.C53_beyond_violated' depends on axioms: [propext, Classical.choice, Quot.sound]
'Pok.X86.C53_boot_violated' depends on axioms: [propext, Classical.choice, Quot.sound]
'Pok.X86.C53_cover_partial' depends on axioms: [propext, Classical.choice, Quot.sound]
'Pok.X86.C53_idle_leak_violated' depends on axioms: [propext, Classical.choice, Quot.sound]
'Pok.X86.C53_idle_start_violated' depends on axioms: [propext, Classical.choice, Quot.sound]
'Pok.X86.C53_megabyte_violated' depends on axioms: [propext, Classical.choice, Quot.sound]
'Pok.X86.C53_switch_partial' depends on axioms: [propext, Classical.choice, Quot.sound]
'Pok.X86.C54_fit_violated' does not depend on any axioms
'Pok.X86.C54_stacks_partial' depends on axioms: [propext, Quot.sound]
'Pok.X86.C55_memory_violated' depends on axioms: [propext, Quot.sound]
'Pok.X86.C55_regions_partial' depends on axioms: [propext, Classical.choice, Quot.sound]
'Pok.X86.C55_wrap_violated' does not depend on any axioms
'Pok.X86.C56_console' depends on axioms: [propext, Classical.choice, Quot.sound]
'Pok.X86.C57_accepts' depends on axioms: [propext, Classical.choice, Quot.sound]
'Pok.X86.C57_drift' depends on axioms: [propext, Quot.sound]
'Pok.X86.C57_increment' depends on axioms: [propext, Classical.choice, Quot.sound]
'Pok.X86.C57_timer' depends on axioms: [propext, Quot.sound]
