#!/usr/bin/env python3
"""Writes MANIFEST.json from the table below; theorem names are checked to exist in lean/Verif."""
import json, re, glob, os
os.chdir(os.path.join(os.path.dirname(__file__), '..'))
names = set()
for f in glob.glob('lean/Verif/**/*.lean', recursive=True):
    names |= set(re.findall(r'^theorem (\S+)', open(f).read(), re.M))
P, Q = 'proved', 'partial'
T = [
('C01', P, ['C01_crc_correct', 'C01_crc_correct_list', 'C01_crc_beyond_buffer'], ''),
('C02', P, ['C02_framed_accepted'], ''),
('C03', P, ['C03_recv_exact', 'C03_short_never_accepted'], ''),
('C04', P, ['C04_odd_errors_detected', 'C04_C06_not_accepted'], ''),
('C05', P, ['C05_two_errors_detected', 'C04_C06_not_accepted'], ''),
('C06', P, ['C06_burst_detected', 'C04_C06_not_accepted'], ''),
('C07', P, ['C07_send_guard', 'C07_recv_null'], ''),
('C08', P, ['C08_parser_memory_safe', 'C08_large_config_unsafe'], 'for table sizes up to 65535; C08_large_config_unsafe shows that the bound is needed'),
('C09', P, ['C09_read_bits_exact'], ''),
('C10', P, ['C10_read_regs_exact'], ''),
('C11', P, ['C11_write_coil', 'C11_write_reg'], ''),
('C12', P, ['C12_write_coils', 'C12_write_regs'], ''),
('C13', P, ['C13_exception_selection', 'C13_exception_selection_bytes'], ''),
('C14', P, ['C14_refused_no_change'], ''),
('C15', P, ['C15_reads_pure'], ''),
('C16', P, ['C16_writes_only_addressed'], ''),
('C17', Q, ['C17_multi_write_atomic_violated', 'C17_multi_write_prefix_partial'], 'the code violates the claim (witness); the exact prefix effect is proved'),
('C18', P, ['C18_response_well_formed'], ''),
('C19', Q, ['C19_only_received_bytes_violated', 'C19_only_received_bytes_partial'], 'the code violates the claim for frames shorter than their function code requires (witness); proved for all others'),
('C20', P, ['C20_transmit_only_after_valid_check'], ''),
('C21', P, ['C21_one_response_per_frame', 'C21_next_only_after_completion'], ''),
('C22', P, ['C22_one_exchange', 'C22_serves_all_traffic', 'C22_answers_every_valid_frame'], 'frames long enough for their function code (shorter ones: see C19)'),
('C23', P, ['C23_bad_frames_dropped', 'C22_serves_all_traffic'], ''),
('C24', Q, ['C24_recovery_violated', 'C24_recovery_dichotomy', 'C24_recovers_from_garbage_partial', 'C24_recovery_after_reinit_partial'], 'the code violates the claim: permanent loss of synchronisation, proved for every continuation. C24_recovery_dichotomy says exactly, for every history, when the slave recovers and that it is deaf for ever otherwise; recovery proved for every disturbance whose 1.5/3.5 events come in polled pairs, and after re-initialisation'),
('C25', Q, ['C25_answer_after_silence_violated', 'C25_stale_event_from_previous_response', 'C25_no_answer_without_event_partial'], 'the code violates the claim (stale event)'),
('C26', P, ['C26_tx_buffer_stable'], ''),
('C27', P, ['C27_no_undefined_behaviour', 'C27_poll_before_init', 'C27_non_rtu_reinit'], ''),
('C28', P, ['C28_queue_is_bounded_fifo', 'C28_zero_queue_is_bounded_fifo', 'C28_capacity_256_loses_everything'], 'capacities 1..255; C28_capacity_256_loses_everything shows that the bound is needed'),
('C29', P, ['C29_request_frame', 'C34_transmissions', 'master_transactions'], ''),
('C30', P, ['C30_quantity_validation', 'master_transactions'], ''),
('C31', Q, ['C31_refused_requests_exhaust_slots_violated', 'C31_default_config_violated', 'C31_slot_account_partial'], 'the code violates the claim: every refused quantity loses a buffer'),
('C32', P, ['C32_buffers_partitioned'], ''),
('C33', P, ['C33_accepted_while_slots_remain', 'master_transactions'], ''),
('C34', P, ['C34_transmissions', 'master_transactions'], ''),
('C35', P, ['transaction_fails', 'C35_retries_bounded', 'master_transactions'], ''),
('C36', P, ['C36_timeout_never_early'], ''),
('C37', Q, ['C37_missed_timeout_violated', 'C37_stale_silence_hang_violated', 'C37_timeout_exactly_when', 'C37_timeout_partial'], 'the code violates the claim: universal theorems about the missed timeout and about the hang after a stale 1.5-char event; exact characterisation of the schedules that lead to the timeout; what the report contains is in C37_timeout_partial'),
('C38', P, ['C38_other_slaves_ignored', 'transaction_succeeds', 'C37_timeout_partial'], 'per poll, for every reachable waiting state; the other two theorems allow any number of other frames within a transaction'),
('C39', P, ['C39_only_correct_responses_delivered', 'C45_attempt_ends_partial'], ''),
('C40', P, ['C40_read_delivered', 'C39_only_correct_responses_delivered'], ''),
('C41', P, ['C41_write_confirmed', 'C39_only_correct_responses_delivered'], ''),
('C42', P, ['C42_exception_reported', 'C39_only_correct_responses_delivered'], ''),
('C43', Q, ['C43_read_outside_buffer_violated', 'C43_mismatch_confirmed_violated', 'C43_wrong_kind_delivered_violated', 'C43_defined_partial', 'C43_device_defined'], 'the code violates the claim (universal theorems); proved: no other undefined behaviour exists, and none at all (whatever is received) if no request reads more than 126 bits'),
('C44', P, ['C44_completed_once', 'master_transactions'], ''),
('C45', Q, ['C45_hang_violated', 'C45_attempt_ends_partial'], 'the code violates the claim (universal theorem about the hang); proved when a poll separates the two events'),
('C46', Q, ['C46_error_stays_pending', 'C46_good_response_rejected_violated', 'C46_good_response_reported_as_error_violated', 'C46_first_attempt_partial'], 'the code violates the claim after every communication error; proved after successes and timeouts'),
('C47', Q, ['C47_comm_report_names_nothing_violated', 'C47_timeout_function_code_violated', 'C47_timeout_function_code_from_line', 'C47_timeout_wrong_function_code_violated', 'C47_timeout_names_request_partial', 'C47_comm_report_partial'], 'the code violates the claim; proved: slave, address and quantity of timeout reports, slave of communication error reports'),
('C48', P, ['C48_read_end_to_end', 'end_to_end', 'end_to_end_simple'], ''),
('C49', P, ['C49_write_end_to_end', 'C49_read_back'], ''),
('C50', Q, ['C50_slave_completion', 'C50_slave_completion_lost_violated', 'C50_slave_completion_seen_partial', 'C50_master_completion', 'C50_master_completion_lost_violated', 'C50_master_completion_seen_partial'], 'the code violates the claim (completion before the flag is set); the exact behaviour of every completion is proved, and the claim for completions after the flag is set'),
('C51', Q, ['C51_slave_rx_in_bounds', 'C51_slave_overlong_mistaken', 'C51_slave_overlong_violated', 'C51_master_rx_in_bounds', 'C51_master_overlong_mistaken', 'C51_master_overlong_violated'], 'the first half is proved for both sides; the code violates the second half (universal theorems and witnesses)'),
('C52', P, ['C52_last_registration', 'C52_answers_from_current_memory', 'C52_register_bounds'], ''),
('C53', P, ['C53_div_by_zero', 'C53_t35_low', 'C53_t35_high', 'C53_t15_low', 'C53_t15_high', 'C53_t15_nonstandard_short', 'C53_t15_any', 'C53_t15_before_t35'], ''),
('C57', P, ['C57_line_carries_whole_frames'], 'slave driver of the STM32G070RB example with the library; hardware reduced to status bits'),
('C58', P, ['C58_one_exchange', 'C58_serves_all_traffic', 'hsync_after_init'], 'slave driver of the STM32G070RB example with the library'),
('C59', P, ['C59_bad_exchange_dropped', 'C58_serves_all_traffic'], 'frames of at most 255 bytes unless interrupted by a gap (C51 for longer ones)'),
('C60', P, ['C60_line_carries_requests', 'C60_device_transactions'], 'master driver of the STM32G070RB example with the library; histories stop being described at a poll that processes a malformed response (C43)'),
('C61', P, ['C61_master_device_refines_library', 'C61_slave_device_refines_library', 'C61_slave_frames_le_timer', 'device_history'], 'both example drivers'),
('C62', P, ['C62_device_transaction', 'C62_device_failure'], 'schedules of Spec/DeviceSchedule.lean'),
('C64', P, ['C64_device_end_to_end', 'device_end_to_end_simple'], 'lossless line; the bytes one device receives are those the other one writes'),
('C65', P, ['C65_session', 'session_from_init'], 'schedules of Spec/Session.lean'),
('C66', P, ['C66_bus', 'C66_slaves_progress', 'bus_simple', 'bus_from_init'], 'a response taken as undamaged consists of the bytes of a slave with the address of the request (hypothesis of BusSession); collisions are not modelled'),
('C67', Q, ['C67_first_init', 'C67_first_init_peripherals', 'C67_history_partial', 'C67_reinit_violated', 'C67_same_parameters'], 'first initialisation proved; re-initialisation with other parameters violates the claim (RTOR and STOP bits are or-ed); exact register contents proved for every history'),
('C68', P, ['C68_example_master', 'C68_round_due'], 'STM32G070RB example master program on the model of library and driver; library calls atomic'),
('C69', P, ['C69_example_slave', 'C69_inputs', 'C69_from_power_on', 'C69_led_follows_coil', 'C69_led_switched', 'x_startup'], 'STM32G070RB example slave program; XFits: the configured tables have room for what the program registers'),
('C70', P, ['C70_every_request_in_time', 'C70_transaction_in_time', 'timed_demo'], 'environment assumptions: TimedRun.Punctual of Spec/Timed.lean; executions without undefined behaviour (C43)'),
('C71', P, ['C71_every_frame_in_time', 'C71_memory_changes_only_with_response', 'slave_timed_demo'], 'environment assumptions: SlaveTimed.Punctual of Spec/TimedSlave.lean'),
('C72', P, ['C72_device_in_time', 'device_timed_demo'], 'hardware and environment assumptions: DeviceTimed.Hardware, DeviceTimed.Punctual of Spec/TimedDevice.lean'),
('C73', P, ['C73_master_device_in_time', 'master_device_timed_demo'], 'hardware, line and environment assumptions: MDeviceTimed.Hardware, OneAnswer, Punctual of Spec/TimedMasterDevice.lean; executions without undefined behaviour (C43)'),
('C74', P, ['C74_bus_in_time', 'bus_demo'], 'hypotheses: TimedBus and BusTimes.Fit of Spec/TimedBus.lean; executions without undefined behaviour on the master side (C43)'),
('C75', P, ['C75_every_request_on_the_bus', 'bus_demo'], 'hypotheses: TimedBus and BusTimes.Fit of Spec/TimedBus.lean; executions without undefined behaviour on the master side (C43)'),
('C76', P, ['C76_board_times_fit', 'C76_boards_on_the_bus', 'C76_slow_lines', 'boards_demo'], 'board assumptions: boardTimes of Props/BusShipped.lean (latency 50 us, main loops 450 us, tick 1 ms +- 50 us, 11-bit characters); boards_demo exhibits an execution at 115200 baud'),
('C77', P, ['C77_polls_are_atomic', 'C77_device_in_time', 'stmt_timed_demo'], 'hypotheses: StmtTimed.Hardware and Punctual of Spec/DeviceStatements.lean (hardware timing, punctual environment, handlers not nested); modbus_RTU_recv, the parser and modbus_RTU_send are one step each (C81 looks inside them); stmt_timed_demo exhibits an execution with interrupts inside polls'),
('C78', Q, ['C78_no_undefined_behaviour', 'C78_line_carries_whole_frames_partial', 'C78_bytes_swapped_violated', 'C78_send_disturbed_violated', 'stmt_wire_demo'], 'the code violates the claim when a byte is received inside the driver\'s send function (universal theorem and witness); proved for every other placement; definedness proved for every placement (modbus_RTU_recv, the parser and modbus_RTU_send being one step each; C81 shows what interrupts inside the parser do)'),
('C79', Q, ['C79_device_transactions', 'C79_no_undefined_behaviour', 'C79_line_carries_requests_partial', 'C79_bytes_swapped_violated', 'C79_send_disturbed_violated', 'stmt_master_demo'], 'the transaction discipline holds for every placement; the line claim is violated when a byte is received inside the driver\'s send function (universal theorem and witness), proved for every other placement, as is definedness'),
('C80', P, ['C80_poll', 'C80_callback_requests', 'C80_transactions', 'C80_single_slot', 'C80_no_undefined_behaviour', 'C80_nested_poll_forgets', 'callback_demo'], ''),
('C81', Q, ['C81_linearise_partial', 'C81_no_undefined_behaviour_partial', 'C81_quiet_polls_undisturbed', 'C81_one_response_per_frame', 'C81_overrun_violated', 'C81_overrun_input_violated', 'C81_undefined_behaviour_violated', 'C81_uninterrupted', 'C81_example'], 'the code violates the claim for frames shorter than their function code requires (universal theorems for function codes 3 and 4, and a history from power-on); proved for polls during which no byte arrives or whose request is complete (slaveUndisturbed); one response per frame proved without condition'),
('C63', Q, ['C63_stale_silence_violated', 'C63_undisturbed_partial'], 'the code violates the claim after a 1.5-char event while idle (witness, also at device level); proved for all other events'),
('C82', P, ['C82_transactions_any_schedule', 'C82_transmissions_any_schedule', 'C82_defined_any_schedule', 'C82_complete_response_delivered', 'C82_verdict_of_one_moment', 'C82_uninterrupted', 'C82_torn_value_violated'], 'bits read up to 126 for definedness (C43); C82_torn_value_violated shows that the length condition of C82_complete_response_delivered is needed'),
('C83', P, ['C83_polls_are_atomic', 'C83_master_device_in_time', 'mstmt_timed_demo'], 'hypotheses: MStmtTimed.Hardware, OneAnswer and Punctual of Spec/MasterPc.lean; respTimeout at least 2 ticks; modbus_RTU_recv, the response reader and the queue functions are one step each (C82 looks inside the first two); handlers not nested; mstmt_timed_demo exhibits an execution with interrupts and ticks inside polls'),
('C84', Q, ['C84_foreign_response_executed', 'C84_foreign_response_example', 'C84_foreign_frames_ignored_partial', 'C84_one_poll_is_not_enough', 'late_discard', 'C22_serves_all_traffic'], 'the code violates the claim when it is polled late (universal theorem and witness); with two polls in every pause it holds for all traffic (C84_foreign_frames_ignored_partial; mixed with own requests: C22_serves_all_traffic)'),
('C85', P, ['C85_line_in_time', 'line_demo'], 'each device is driver + library with interrupts between main-loop calls; the response timeout is measured in ticks; line_demo is an execution with two slaves'),
('C86', P, ['C86_every_request_on_the_line', 'line_demo'], 'one instance of every_request (the other one is C75)'),
('C87', Q, ['C87_slow_loop_violated', 'C87_board_times_fit_partial', 'C87_boards_on_the_line_partial', 'line_boards_demo'], 'the code violates it at 115200 baud with polls every 450 us (C87_slow_loop_violated: a complete timed execution of three boards); proved for all baud rates from 9600 up if two polls + 60 us are shorter than ten bits'),
('C88', Q, ['C88_counter_violated', 'C88_two_requests_violated', 'C88_poll_partial', 'C88_requests_in_interrupts_partial', 'C88_transactions_partial', 'C88_defined_partial', 'C88_uninterrupted', 'C88_example'], 'the code violates it at the counter updates and for two requests in one gap (witnesses); proved for every history in which no request falls between the read and the write of a counter and at most one between two accesses'),
('C89', P, ['C89_repeat_same_answer', 'C89_repeats_harmless', 'C89_retries_end_to_end', 'C89_retry_example'], ''),
('C90', Q, ['C90_init_in_time_partial', 'C90_device_partial', 'C90_hears_partial', 'C90_byte_during_init_violated', 'C90_timer_during_init_violated', 'C90_gap_during_init_violated'], 'the code violates it between switching the UART on and subscribing the callbacks (theorems for every memory, address and byte); proved for every history in which nothing is complete on the line before the callback it leads to is subscribed, and that the device afterwards is the device of Model/Driver.lean and hears its line'),
('C91', Q, ['C91_quiet_before_first_request_partial', 'C91_device_partial', 'C91_line_carries_requests_partial', 'C91_hears_partial', 'C91_noise_before_first_request_violated'], 'the code violates it in every state before the first request (theorem for every history and byte); proved for every history in which no reception is ended by 1.5 characters of silence before the first request (library, driver and line)'),
('C92', Q, ['C92_broadcast_ignored_violated', 'C92_broadcast_unanswered_partial', 'C92_slave_0_answers_violated', 'C92_broadcast_times_out_violated'], 'the code has no broadcast: universal theorems that slaves ignore it (address 0 excepted, which answers it) and that the master reports a timeout; proved of the claim: no slave with another address answers one'),
('C93', P, ['C93_examples_mirror', 'C93_examples_converge', 'C93_happens'], 'both example programs from power-on, any retries and disturbances allowed by sessions (C66); C93_happens is the witness'),
('C94', P, ['C94_line_is_serial', 'C94_bus_is_serial', 'C94_happens'], 'timing conditions as in C74 and C85; the shipped boards meet them in the cases of C76 and C87; C94_happens is the witness'),
    ('C95', P, ['C95_examples_live', 'C95_happens'], 'undisturbed line; C93 is the counterpart with disturbances, for one round; C95_happens: a full execution at 115200 baud meets the hypotheses, all four requests of a round carried out and reported'),
('C54', P, ['C54_slave_interrupts_linearise', 'C54_one_response_per_frame', 'C54_no_undefined_behaviour', 'slave_uninterrupted'], 'modbus_RTU_recv, the parser and modbus_RTU_send are one step each; C81 opens them'),
('C55', Q, ['C55_stale_values_violated', 'C55_delivered_from_buffer', 'C55_short_response_delivered_violated', 'C39_only_correct_responses_delivered', 'C40_read_delivered'], 'the code violates the claim for every short response (universal theorem and witness); exactly what is delivered is proved for responses of every length'),
('C56', Q, ['C56_master_interrupts_linearise_partial', 'C56_byte_lost_violated', 'C56_transactions', 'C56_transmissions', 'C56_quiet_polls_have_no_race', 'master_uninterrupted', 'C56_transactions_any_schedule', 'C56_transmissions_any_schedule', 'C56_defined_any_schedule'], 'the code violates the claim at a few statements (witness); proved for every schedule that avoids them; at EVERY placement, races included, the transaction discipline (order, retry bound, one end per transaction, buffer accounting) and definedness are proved (C56_*_any_schedule; C82 proves the same with the reads of the response and the callbacks as separate steps)'),
]
for _, _, ts, _ in T:
    for t in ts:
        assert t in names, t
ids = [json.loads(l)['id'] for l in open('properties.jsonl') if l.strip()]
print('properties without claim:', [i for i in ids if i not in [t[0] for t in T]])
json.dump({'claims': [{'property': a, 'status': b, 'theorems': c, 'note': d} for a, b, c, d in T]}, open('MANIFEST.json', 'w'), indent=1)
