{"id": "C01", "title": "CRC computation equals CRC-16/MODBUS", "statement": "For every byte sequence, the library's checksum routine returns the CRC-16/MODBUS value of that sequence (reflected polynomial 0xA001, initial value 0xFFFF, no final xor), as defined bit by bit without any table.", "quantifier": "every byte sequence of every length", "why_tests_cant": "Tests compare a handful of fixed messages; a single wrong table entry is only visible on inputs that index it.", "anchors": ["src/common/modbus_crc.c:calculate_CRC", "src/common/modbus_crc.c:CRC_loock_up_table"]}
{"id": "C02", "title": "A frame built by the library is accepted by the library", "statement": "Framing any message of 1..253 bytes for any slave ID succeeds, stores the ID in byte 0, leaves bytes 1..len-1 as they were, appends exactly two bytes, and the resulting frame passes reception with the same slave ID.", "quantifier": "every buffer content, every length 1..253, every slave ID", "why_tests_cant": "256^253 possible messages; tests check three of them.", "anchors": ["src/common/modbus_RTU.c:modbus_RTU_send", "src/common/modbus_RTU.c:modbus_RTU_recv"]}
{"id": "C03", "title": "Reception accepts exactly the correctly addressed, correctly checksummed frames", "statement": "A received frame of any length is accepted if and only if its first byte is the expected slave ID, it has at least two bytes, and its last two bytes are the CRC (low byte first) of all preceding bytes; a wrong first byte is reported as a slave-ID error even when the CRC is also wrong, any other failure as a CRC error.", "quantifier": "every buffer content, every length 0..255, every slave ID", "why_tests_cant": "The 'only if' direction is a claim about all frames that must be refused.", "anchors": ["src/common/modbus_RTU.c:modbus_RTU_recv", "src/common/modbus_crc.c:calculate_CRC"]}
{"id": "C04", "title": "Any odd number of flipped bits is detected", "statement": "If a valid frame is altered in an odd number of bit positions (in particular in a single bit), the altered frame no longer checks as CRC-correct.", "quantifier": "every valid frame of every length and every odd-size set of flipped bit positions", "why_tests_cant": "2^2048 error patterns.", "anchors": ["src/common/modbus_crc.c:calculate_CRC", "src/common/modbus_RTU.c:modbus_RTU_recv"]}
{"id": "C05", "title": "Any two flipped bits are detected", "statement": "If a valid frame of at most 256 bytes is altered in exactly two bit positions, the altered frame no longer checks as CRC-correct.", "quantifier": "every valid frame of at most 256 bytes and every pair of distinct bit positions", "why_tests_cant": "About two million position pairs for each of 256^256 frames.", "anchors": ["src/common/modbus_crc.c:calculate_CRC", "src/common/modbus_RTU.c:modbus_RTU_recv"]}
{"id": "C06", "title": "Any error burst of at most 16 bits is detected", "statement": "If a valid frame is altered arbitrarily but non-trivially inside a window of 16 consecutive bits (in transmission order), the altered frame no longer checks as CRC-correct.", "quantifier": "every valid frame of every length, every window position, every non-zero 16-bit pattern", "why_tests_cant": "65535 patterns times every window position times every frame.", "anchors": ["src/common/modbus_crc.c:calculate_CRC", "src/common/modbus_RTU.c:modbus_RTU_recv"]}
{"id": "C07", "title": "Framing refuses over-long or missing buffers and never overruns", "statement": "Framing a NULL buffer or a message longer than 253 bytes reports an error and changes neither the buffer nor the length; otherwise the resulting length is at most 255 and every byte written lies inside the 256-byte RTU buffer.", "quantifier": "every buffer, every 8-bit length, every slave ID", "why_tests_cant": "Boundary must hold at every length and for every content.", "anchors": ["src/common/modbus_RTU.c:modbus_RTU_send", "src/common/modbus_type.h:MODBUS_PDU_MAX_LEN"]}
{"id": "C08", "title": "The slave request parser is memory safe for every request", "statement": "Whatever bytes the request buffer holds, parsing it and preparing the response reads and writes only inside the 256-byte request and response buffers and inside the four data tables, dereferences no NULL pointer and terminates, for every table configuration with at most 65535 items each.", "quantifier": "every request buffer content, every registration state, every application data, every configuration", "why_tests_cant": "Attackers choose the bytes; tests use well-behaved masters.", "anchors": ["src/slave_internall/modbus_slave_PDU.c:parse_master_request_and_prepare_resp", "src/slave_internall/modbus_slave_data.c", "src/common/modbus_PDU_common.c:clear_coil_din_status_byte"]}
{"id": "C09", "title": "Read Coils / Read Discrete Inputs return exactly the application data", "statement": "A valid FC 01/02 request is answered with the function code, the byte count ceil(qty/8) and the current values of the requested application variables packed LSB first in address order, with the unused high bits of the last byte zero.", "quantifier": "every start address, quantity 1..2000, registration, aliasing and variable contents", "why_tests_cant": "Padding, byte boundaries and stale response-buffer contents interact for all 2000 quantities.", "anchors": ["src/slave_internall/modbus_slave_PDU.c:handle_slave_read_coil_service", "src/slave_internall/modbus_slave_PDU.c:handle_slave_read_discrete_inputs_service", "src/common/modbus_PDU_common.c:get_coil_din_byte_count"]}
{"id": "C10", "title": "Read Holding / Input Registers return exactly the application data", "statement": "A valid FC 03/04 request is answered with the function code, byte count 2*qty and the current register values big-endian in address order; in particular a register holding 0xFFFF is reported as 0xFFFF and is never mistaken for a failed read.", "quantifier": "every start address, quantity 1..125, registration and register contents", "why_tests_cant": "All 65536 values at all positions; -1 and 0xFFFF differ only in C integer width.", "anchors": ["src/slave_internall/modbus_slave_PDU.c:handle_slave_read_holding_reg_service", "src/slave_internall/modbus_slave_PDU.c:handle_slave_read_input_reg_service", "src/slave_internall/modbus_slave_data.c:get_register_state"]}
{"id": "C11", "title": "Write Single Coil / Register stores the value and echoes the request", "statement": "A valid FC 05/06 request sets the addressed application variable to the requested value (0xFF00 = on, 0x0000 = off for coils) and the response echoes address and value.", "quantifier": "every address, value, registration and prior memory", "why_tests_cant": "65536 addresses times 65536 values times memory states.", "anchors": ["src/slave_internall/modbus_slave_PDU.c:modbus_slave_write_single_coil", "src/slave_internall/modbus_slave_PDU.c:modbus_slave_write_single_reg"]}
{"id": "C12", "title": "Write Multiple Coils / Registers stores every value in order", "statement": "A valid FC 15/16 request stores element i of the payload in the variable registered at start+i for every i below the quantity, in increasing address order, and the response echoes start address and quantity.", "quantifier": "every start address, quantity, payload, registration (including several addresses sharing one variable) and prior memory", "why_tests_cant": "Needs every quantity 1..1968 / 1..123 and every payload.", "anchors": ["src/slave_internall/modbus_slave_PDU.c:modbus_slave_write_multiple_coils", "src/slave_internall/modbus_slave_PDU.c:handle_slave_write_multiple_reg_service", "src/slave_internall/modbus_slave_PDU.c:set_coil_din_value_from_modbus_msg"]}
{"id": "C13", "title": "The slave picks the exception code the protocol prescribes", "statement": "Exception 01 is returned exactly for function codes other than the eight supported ones; 03 exactly when the quantity is out of range, the coil value is neither 0x0000 nor 0xFF00, or (range valid) the byte count does not match; 02 exactly when quantity/value is fine but the range leaves the table; 04 exactly when the request is otherwise valid but some addressed item has no variable registered. Exception responses are the request function code with bit 7 set followed by the code.", "quantifier": "every request buffer content and every registration state and configuration", "why_tests_cant": "A complete case distinction over all requests.", "anchors": ["src/slave_internall/modbus_slave_PDU.c:check_read_req_data_correcntess", "src/slave_internall/modbus_slave_PDU.c:check_write_req_data_correctness", "src/slave_internall/modbus_slave_PDU.c:check_write_single_coil_req_data_correctness", "src/slave_internall/modbus_slave_PDU.c:set_exception_code_resp"]}
{"id": "C14", "title": "Requests refused with exception 01, 02 or 03 change no application data", "statement": "If the slave answers with exception 01, 02 or 03, every application variable keeps its value.", "quantifier": "every request and every application state", "why_tests_cant": "Absence of side effects over all refused requests.", "anchors": ["src/slave_internall/modbus_slave_PDU.c"]}
{"id": "C15", "title": "Reads never modify application data", "statement": "Processing any request with function code 01-04 (and any unsupported code) leaves every application variable unchanged, whatever the outcome.", "quantifier": "every such request and every application state", "why_tests_cant": "Universal absence of side effects.", "anchors": ["src/slave_internall/modbus_slave_PDU.c"]}
{"id": "C16", "title": "Writes touch only the addressed variables of the right table", "statement": "Processing any request changes no application variable other than those registered, in the coil table for FC 05/15 or the holding-register table for FC 06/16, at the addresses start..start+qty-1 of that request.", "quantifier": "every request, registration and memory", "why_tests_cant": "Frame condition over all untouched variables.", "anchors": ["src/slave_internall/modbus_slave_PDU.c", "src/slave_internall/modbus_slave_data.c"]}
{"id": "C17", "title": "A multi-write that fails leaves no partial effect", "statement": "If a Write Multiple request is answered with exception 04, no addressed variable has been modified. (The code violates this: the items before the first unregistered address are already written.)", "quantifier": "every multi-write request and registration state", "why_tests_cant": "Needs registration holes at every position of every range.", "anchors": ["src/slave_internall/modbus_slave_PDU.c:handle_slave_write_multiple_reg_service", "src/slave_internall/modbus_slave_PDU.c:set_coil_din_value_from_modbus_msg"]}
{"id": "C18", "title": "Every slave response is well formed and fits", "statement": "Whatever the request, the prepared response has function code equal to the request's (normal) or to the request's with bit 7 set (exception), its length is determined by its content, lies between 3 and 253 before framing, and framing it always succeeds.", "quantifier": "every request buffer and application state", "why_tests_cant": "All requests including unsupported function codes 0..255.", "anchors": ["src/slave_internall/modbus_slave_PDU.c", "src/modbus_slave.c:handle_modbus_slave_msg_recived_state"]}
{"id": "C19", "title": "The slave acts only on bytes of the received frame", "statement": "The response and the data changes are a function of the bytes actually received in this frame and of the application data, never of leftovers of earlier frames in the receive buffer. (The code violates this for CRC-correct frames shorter than the function code requires; it holds when the frame is long enough.)", "quantifier": "every pair of receive-buffer leftovers and every frame", "why_tests_cant": "Needs all histories that could leave bytes behind.", "anchors": ["src/slave_internall/modbus_slave_PDU.c", "src/modbus_slave.c:handle_modbus_slave_idle_state"]}
{"id": "C20", "title": "The slave transmits only after a valid frame addressed to it", "statement": "In every execution, each transmission by the slave is preceded, since the previous transmission, by an end-of-frame check in which the receive buffer held a CRC-correct frame addressed to the slave's ID.", "quantifier": "every finite sequence of received bytes, driver callbacks, polls, registrations and application writes after initialisation", "why_tests_cant": "Every schedule of interrupts and polls.", "anchors": ["src/modbus_slave.c:check_modbus_request", "src/modbus_slave.c:handle_modbus_slave_idle_state", "src/modbus_slave.c:handle_modbus_slave_msg_recived_state"]}
{"id": "C21", "title": "At most one response per end-of-frame", "statement": "In every execution the number of transmissions is at most the number of 1.5-char events and at most the number of 3.5-char events so far, and a new transmission starts only after the driver reported completion of the previous one.", "quantifier": "every finite schedule", "why_tests_cant": "Counting invariant over unbounded executions.", "anchors": ["src/modbus_slave.c:check_modbus_request"]}
{"id": "C22", "title": "A synchronised slave answers every valid frame, for ever", "statement": "Starting from the idle state with all event flags clear, for every sequence of valid frames addressed to the slave (bytes, then the 1.5-char event, then the 3.5-char event, with polls interleaved anywhere, at least two afterwards, and transmission-complete events after each response) the slave transmits exactly one response per frame, equal to the framed response the protocol prescribes for the current application data, and is then again in the idle state with all flags clear.", "quantifier": "every number of frames, every frame content and every placement of polls", "why_tests_cant": "Unbounded sessions and all poll placements.", "anchors": ["src/modbus_slave.c", "src/slave_internall/modbus_slave_PDU.c", "src/common/modbus_RTU.c"]}
{"id": "C23", "title": "Frames for other slaves, corrupted or broken frames are dropped silently and do not desynchronise", "statement": "From the idle state with flags clear, a frame that is addressed to another ID or has a wrong CRC, or during which the driver reported a frame error, produces no transmission and no data change, and after its 3.5-char event and polls the slave is back in the same synchronised idle state with an empty receive buffer.", "quantifier": "every bad frame, every placement of polls and of the frame-error event", "why_tests_cant": "All bad frames and schedules.", "anchors": ["src/modbus_slave.c:handle_modbus_slave_idle_state", "src/modbus_slave.c:handle_modbus_slave_msg_recived_state"]}
{"id": "C24", "title": "The slave recovers from any disturbance", "statement": "After any finite sequence of driver events and polls, once the line carries only well-delimited valid frames the slave eventually answers again. (The code violates this: a 1.5-char event arriving while a frame is pending leaves the slave off by one frame for ever, dropping every later valid frame.)", "quantifier": "every disturbance prefix and every later run of valid frames", "why_tests_cant": "A liveness failure is an infinite execution.", "anchors": ["src/modbus_slave.c:handle_modbus_slave_idle_state", "src/modbus_slave.c:handle_modbus_slave_msg_recived_state", "src/modbus_slave.c:modbus_T_1_5_char_expired_callback"]}
{"id": "C25", "title": "The slave answers only after 3.5 characters of silence following the frame", "statement": "A response is transmitted only if a 3.5-char event occurred after the last received byte of the frame being answered. (The code violates this: a 3.5-char event that arrived earlier, e.g. while the previous response was being transmitted, is remembered and consumed.)", "quantifier": "every schedule", "why_tests_cant": "Every interleaving of timer interrupts and polls.", "anchors": ["src/modbus_slave.c:handle_modbus_slave_msg_recived_state", "src/modbus_slave.c:handle_modbus_slave_transmitting_resp_state"]}
{"id": "C26", "title": "The slave does not touch a response while it is being transmitted", "statement": "From the moment a response is handed to the driver until the driver reports completion, the transmitted buffer and its length are not modified, whatever bytes, timer events, polls, registrations or application writes occur.", "quantifier": "every schedule not containing re-initialisation", "why_tests_cant": "Data race over all schedules.", "anchors": ["src/modbus_slave.c", "src/slave_internall/modbus_slave_RTU.c:slave_RTU_resp_buf"]}
{"id": "C27", "title": "Slave life-cycle preconditions", "statement": "After initialisation in RTU mode no sequence of events makes the slave dereference a NULL pointer; polling before initialisation, or completing a request after re-initialisation in a non-RTU mode, does (undefined behaviour).", "quantifier": "every schedule after RTU initialisation; the two misuse scenarios as witnesses", "why_tests_cant": "Memory safety over all schedules.", "anchors": ["src/modbus_slave.c:modbus_slave_init", "src/modbus_slave.c:check_modbus_request", "src/modbus_slave.c:handle_modbus_slave_default_state"]}
{"id": "C28", "title": "The request queue is a bounded FIFO", "statement": "For every capacity 1..255 and every sequence of pushes and pops after initialisation, pop returns the oldest element not yet popped or NULL when there is none, push stores the element and clears the caller's pointer unless the queue already holds 'capacity' elements, in which case it changes nothing; emptiness tests agree with the contents.", "quantifier": "every capacity and every finite operation sequence", "why_tests_cant": "Wrap-around depends on the whole history.", "anchors": ["src/master_internall/modbus_queue.c", "src/modbus_master.c:check_data_to_send_availability"]}
{"id": "C29", "title": "Each master request call produces exactly the prescribed frame", "statement": "An accepted request of any of the eight kinds is queued as the frame: slave ID, function code, big-endian address, then quantity / value (0xFF00 or 0x0000 for coils) / quantity, byte count and payload (coils packed LSB first, padding zero; registers big-endian), then the CRC; the frame depends only on the arguments, not on earlier buffer contents.", "quantifier": "every argument combination, every payload and every previous buffer content", "why_tests_cant": "All quantities, payloads and stale-buffer histories.", "anchors": ["src/master_internall/modbus_master_PDU.c", "src/modbus_master.c:generate_request", "src/common/modbus_RTU.c:modbus_RTU_send"]}
{"id": "C30", "title": "Master request calls validate quantities exactly", "statement": "With a free buffer available, a request is refused with a PDU error exactly when its quantity is 0 or above the protocol limit (2000 read bits, 125 read registers, 1968 write coils, 123 write registers; single writes are never refused), and a refused request is never transmitted.", "quantifier": "every argument combination and every master state", "why_tests_cant": "65536 quantities in every queue state.", "anchors": ["src/master_internall/modbus_master_PDU.c:read_reg_request", "src/master_internall/modbus_master_PDU.c:modbus_master_write_multiple_reg_req", "src/master_internall/modbus_master_PDU.c:modbus_master_write_multiple_coils_req", "src/modbus_master.c:generate_request"]}
{"id": "C31", "title": "A refused request does not consume a request slot", "statement": "After any history, a request call that returns an error leaves the number of further requests that can be accepted unchanged. (The code violates this: a request refused for an invalid quantity permanently loses one of the buffers; after as many such calls as there are buffers every later request fails until re-initialisation.)", "quantifier": "every history of calls", "why_tests_cant": "Resource leak visible only over histories.", "anchors": ["src/modbus_master.c:generate_request"]}
{"id": "C32", "title": "Message buffers are never shared or duplicated", "statement": "At every point of every execution each message buffer is in at most one of: the free list, the transmit queue, the current transaction; and free + queued + in flight + lost to refused requests = the configured number of buffers.", "quantifier": "every finite schedule of calls, callbacks, polls and ticks", "why_tests_cant": "Ownership invariant over all histories.", "anchors": ["src/modbus_master.c", "src/master_internall/modbus_queue.c"]}
{"id": "C33", "title": "Requests are accepted while slots remain", "statement": "A valid request is accepted whenever fewer than N (configured queue size) requests are outstanding (accepted and not completed) and none has been lost, and a request call reports 'free queue empty' exactly when no buffer is free.", "quantifier": "every history without invalid-quantity calls", "why_tests_cant": "Depends on all histories.", "anchors": ["src/modbus_master.c:generate_request", "src/modbus_master.c:modbus_master_msg_process_end"]}
{"id": "C34", "title": "Transmissions are the accepted requests, in order, each repeated unmodified", "statement": "In every execution the sequence of transmitted frames is: for a prefix of the accepted requests, in the order of acceptance, each frame repeated between 1 and 1+R consecutive times (R = configured retries) with identical bytes; nothing else is ever transmitted.", "quantifier": "every finite schedule of calls, received bytes, callbacks, polls and ticks after initialisation", "why_tests_cant": "Whole-history property over all schedules.", "anchors": ["src/modbus_master.c:modbus_master_idle_state_handling", "src/modbus_master.c:modbus_master_send_req_from_msg_buf", "src/modbus_master.c:generate_request"]}
{"id": "C35", "title": "Retries are bounded", "statement": "In every execution the number of transmissions is at most (1+R) times the number of accepted requests, and a request that keeps failing is abandoned with exactly one error report after exactly 1+R transmissions.", "quantifier": "every finite schedule, every R up to 254", "why_tests_cant": "Counting invariant over unbounded executions.", "anchors": ["src/modbus_master.c:modbus_master_RTU_CRC_error_state_handling", "src/modbus_master.c:modbus_master_frame_error_state_handling"]}
{"id": "C36", "title": "A response timeout is never reported early", "statement": "A timeout is reported only when the request has been completely transmitted and exactly T-1 timer ticks (T = configured timeout) have elapsed since the poll that observed completion, with nothing transmitted, delivered or reported in between.", "quantifier": "every schedule", "why_tests_cant": "All interleavings of ticks and polls.", "anchors": ["src/modbus_master.c:modbus_master_resp_waiting_state_handling", "src/modbus_master.c:update_modbus_master_timout_timer", "src/modbus_master.c:modbus_master_transmitting_state_handling"]}
{"id": "C37", "title": "An unanswered request always ends in a timeout", "statement": "If no end-of-frame event arrives after a request was transmitted, the timeout is reported and the buffer is released once T-1 ticks have passed. (Violated in two ways. First, when two ticks occur without a poll in between at the wrong moment, the timer passes 1 unseen, stops at 0 and the master waits for ever; the timeout comes exactly when some poll is preceded by exactly T-1 ticks. Second, when a 1.5-character event was left pending from before the request and the response buffer still begins with the slave's address, the master waits for ever whatever the ticks and polls.)", "quantifier": "every request, history, timeout setting and every schedule of ticks, polls and other events", "why_tests_cant": "Liveness over all schedules.", "anchors": ["src/modbus_master.c:modbus_master_resp_waiting_state_handling", "src/modbus_master.c:update_modbus_master_timout_timer"]}
{"id": "C38", "title": "Answers from other slaves are ignored", "statement": "While waiting for a response, a received frame whose address byte differs from the requested slave ID produces no callback, does not end or restart the transaction, does not stop the timeout, and the receive buffer is emptied.", "quantifier": "every frame and every waiting state", "why_tests_cant": "All foreign frames.", "anchors": ["src/modbus_master.c:modbus_master_RTU_recv_state_handle"]}
{"id": "C39", "title": "Corrupted or broken responses are never delivered", "statement": "In every execution, data, confirmation and exception callbacks are issued only in a transaction whose response, at the end-of-frame check, was CRC-correct and came from the requested slave, with no frame error pending; on a CRC or frame error the master instead repeats the request or, after R repeats, reports a communication error.", "quantifier": "every schedule and every received byte sequence", "why_tests_cant": "All corruptions and schedules.", "anchors": ["src/modbus_master.c:modbus_master_resp_recived_state_handling", "src/modbus_master.c:modbus_master_RTU_recv_state_handle"]}
{"id": "C40", "title": "A read response is delivered value by value", "statement": "When a matching read response is processed, the master calls the read callback of the right kind exactly once per requested item, in order, with the responding slave's ID, address start+i (modulo 65536) and the i-th value encoded in the response.", "quantifier": "every request quantity and every response content", "why_tests_cant": "All quantities and payloads.", "anchors": ["src/master_internall/modbus_master_PDU.c:update_master_data_from_modbus_msg"]}
{"id": "C41", "title": "A write response is confirmed with the request's address and quantity", "statement": "When a response with the same write function code as the request is processed, exactly one write-confirmation callback of the right kind (coil or holding register) is issued with the slave ID, the request's address and the written quantity (1 for single writes).", "quantifier": "every write request and response", "why_tests_cant": "All arguments.", "anchors": ["src/master_internall/modbus_master_PDU.c:report_write_operation_confirmation"]}
{"id": "C42", "title": "Exception responses are reported faithfully", "statement": "When a response with bit 7 of the function code set is processed, exactly one exception callback is issued, chosen by the function code, carrying slave ID, function code without bit 7, the exception code byte and the request's address and quantity/value field; for an unsupported function code no callback is issued.", "quantifier": "every exception response and every request", "why_tests_cant": "All function and exception codes.", "anchors": ["src/master_internall/modbus_master_PDU.c:process_modbus_exception_code", "src/master_internall/modbus_master_PDU.c:send_exception_code_report_data"]}
{"id": "C43", "title": "A response with the wrong function code is rejected safely", "statement": "Processing any CRC-correct response never reads outside the response buffer and never confirms or delivers something that was not requested. (The code violates this: the response's own function code selects the decoder, so a register-type response to a bit-type request reads past the 256-byte buffer, and a mismatching response to a write is confirmed as a register write.)", "quantifier": "every request/response pair", "why_tests_cant": "Adversarial responses.", "anchors": ["src/master_internall/modbus_master_PDU.c:update_master_data_from_modbus_msg", "src/master_internall/modbus_master_PDU.c:report_write_operation_confirmation"]}
{"id": "C44", "title": "Each accepted request is completed at most once, and a finished transaction releases its buffer", "statement": "In every execution the number of completed transactions never exceeds the number of accepted requests, each completion returns exactly one buffer to the free list, and after the last outstanding transaction completes all buffers not lost to refused requests are free again.", "quantifier": "every schedule", "why_tests_cant": "Counting invariant over all histories.", "anchors": ["src/modbus_master.c:modbus_master_msg_process_end"]}
{"id": "C45", "title": "The master never hangs on a delivered response", "statement": "Once a response frame has ended (1.5-char and 3.5-char events delivered) polling completes the transaction. (The code violates this: if both events arrive before the next poll, the poll discards the 3.5-char event, the response timeout is disabled, and polling and ticking alone never leave the state; proved when a poll occurs between the two events.)", "quantifier": "every placement of polls and ticks", "why_tests_cant": "Depends on interrupt/poll interleaving.", "anchors": ["src/modbus_master.c:modbus_master_RTU_recv_state_handle", "src/modbus_master.c:modbus_master_resp_recived_state_handling"]}
{"id": "C46", "title": "A failed transaction does not affect the next one", "statement": "After a transaction ended with an error report, a correct response to the next request is delivered at the first attempt. (The code violates this: the CRC/frame error flag of the last failed attempt is left set, so the next correct response is treated as an error and the request is repeated.)", "quantifier": "every failed transaction and next request", "why_tests_cant": "Needs error exhaustion followed by success for all requests.", "anchors": ["src/modbus_master.c:modbus_master_RTU_CRC_error_state_handling", "src/modbus_master.c:modbus_master_frame_error_state_handling"]}
{"id": "C47", "title": "Error reports identify the failed request", "statement": "Timeout and communication-error reports carry the slave ID, function code, address and quantity of the failed request. (The code violates this: the timeout report takes the function code from the response buffer, the communication-error report takes slave ID and function code from the corrupted response and leaves address and quantity zero. Proved: the timeout report's slave ID, address and quantity are the request's.)", "quantifier": "every failed request and every response-buffer content", "why_tests_cant": "All stale contents.", "anchors": ["src/modbus_master.c:modbus_master_resp_timeout_handle", "src/modbus_master.c:modbus_master_RTU_CRC_error_state_handling", "src/modbus_master.c:modbus_master_frame_error_state_handling"]}
{"id": "C48", "title": "End to end: a read delivers the slave's data to the master application", "statement": "For every slave memory and every valid read request, transporting the master's frame to the slave library and its response back makes the master application receive exactly the slave application's current values, in order, or the exception prescribed by the protocol.", "quantifier": "every read request, slave memory and registration", "why_tests_cant": "Composition over all requests and memories.", "anchors": ["src/modbus_master.c", "src/master_internall/modbus_master_PDU.c", "src/modbus_slave.c", "src/slave_internall/modbus_slave_PDU.c"]}
{"id": "C49", "title": "End to end: a write is applied exactly once and confirmed", "statement": "For every valid write request to registered items, transporting the frames makes the slave application's variables hold exactly the values given to the master call and the master application receive one confirmation; a following read returns the written values (for non-aliased variables).", "quantifier": "every write request, payload and slave memory", "why_tests_cant": "Composition over all payloads.", "anchors": ["src/modbus_master.c", "src/master_internall/modbus_master_PDU.c", "src/modbus_slave.c", "src/slave_internall/modbus_slave_PDU.c"]}
{"id": "C50", "title": "Transmission-complete is never lost", "statement": "Whenever the driver reports transmission complete, the state machine leaves its transmitting state at the next poll. (The code violates this for a completion reported before the send call's follow-up statement sets the 'transmitting' flag, e.g. a driver that completes synchronously: master and slave then wait for ever.)", "quantifier": "every point at which the completion interrupt can fire", "why_tests_cant": "Race between interrupt and main loop.", "anchors": ["src/modbus_master.c:modbus_master_send_req_from_msg_buf", "src/modbus_slave.c:handle_modbus_slave_msg_recived_state"]}
{"id": "C51", "title": "Over-long input cannot overrun the receive buffer, nor be answered", "statement": "However many bytes are received in a row, the receiving driver stores them only inside the 256-byte buffer; an over-long frame is never mistaken for a shorter valid one. (The second half is violated: the 8-bit length wraps at 256, so bytes 257.. of an over-long burst are taken as a new frame start.)", "quantifier": "every byte stream of every length", "why_tests_cant": "Unbounded inputs.", "anchors": ["examples/STM32G070RB_MODBUS_SLAVE/Core/Src/modbus_driver_interface.c:MODBUS_USART_IRQHandler", "src/common/modbus_type.h:modbus_buf_size_t"]}
{"id": "C52", "title": "Registration controls what the protocol exposes", "statement": "After any sequence of registrations, address a of each table exposes the variable most recently registered there (none after registering NULL), reads show the variable's value at the time the request is processed, and registering at an address outside the configured table is undefined behaviour.", "quantifier": "every registration history and every application write history", "why_tests_cant": "All histories, aliasing included.", "anchors": ["src/modbus_slave.c:register_app_data_to_modbus_slave_coils_table", "src/slave_internall/modbus_slave_data.c:register_app_data_to_modbus_coils_din_table", "src/slave_internall/modbus_slave_data.c:register_app_data_to_modbus_reg_table"]}
{"id": "C53", "title": "The example driver's line timing follows the serial-line specification", "statement": "For every baud rate from 2400 to 19200 the 3.5-character timer is programmed to at least 3.5 characters (11-bit) minus one microsecond; above 19200 it is 1750 us; the 1.5-character receive timeout is at least 1.5 characters / 750 us for the standard rates; below 2400 baud the computation divides by zero.", "quantifier": "every 32-bit baud rate", "why_tests_cant": "Integer division rounding over all rates.", "anchors": ["examples/STM32G070RB_MODBUS_SLAVE/Core/Src/modbus_driver_interface.c:get_ARR_value", "examples/STM32G070RB_MODBUS_SLAVE/Core/Src/modbus_driver_interface.c:get_RTOR_value"]}
{"id": "C54", "title": "Interrupts during slave polls are as good as interrupts between polls", "statement": "Whatever driver callbacks and received bytes occur between the statements of check_modbus_request and its state handlers (the calls of modbus_RTU_recv, the request parser and modbus_RTU_send counting as one statement each; C81 looks inside them), the slave's outputs and final state are those of a history in which every poll is atomic and the same callbacks and bytes occur before or after it (bytes in order of arrival); in particular at most one response per end-of-frame event and no undefined behaviour, under every interrupt schedule.", "quantifier": "every history of registrations, polls and callbacks, every placement of any number of interrupts at every statement of check_modbus_request and its state handlers, every configuration", "why_tests_cant": "interrupt placement inside a poll is not controllable in a unit test and the number of placements is unbounded", "anchors": ["src/modbus_slave.c: check_modbus_request, handle_modbus_slave_idle_state, handle_modbus_slave_msg_recived_state, handle_modbus_slave_transmitting_resp_state, modbus_resp_send_callback, modbus_T_1_5_char_expired_callback, modbus_T_3_5_char_expired_callback, modbus_frame_error_callback", "examples/STM32G070RB_MODBUS_SLAVE/Core/Src/modbus_driver_interface.c: MODBUS_USART_IRQHandler, MODBUS_TIMER_IRQHandler"]}
{"id": "C55", "title": "Delivered values come from the response", "statement": "Every value the master delivers to the application for a read request was contained in the payload of the response to that request. (The code violates this: the length of a CRC-correct response is not compared with the request, so for a short response the CRC bytes and bytes left in the buffer by earlier responses are delivered as values. Proved for responses that are at least as long as the request requires.)", "quantifier": "every read request, every response of every length, every earlier content of the receive buffer", "why_tests_cant": "depends on all earlier traffic through the same buffer and on every response length; tests use responses of the right length", "anchors": ["src/master_internall/modbus_master_PDU.c:modbus_master_read_slave_resp", "src/master_internall/modbus_master_PDU.c:modbus_master_read_coils_resp", "src/modbus_master.c:modbus_master_RTU_recv_state_handle"]}
{"id": "C56", "title": "Interrupts during master polls are as good as interrupts between polls", "statement": "Whatever driver callbacks, received bytes and timer ticks occur between the statements of any of the master's polls, outputs and final state are those of a history in which every poll is atomic and the same interrupts occur before or after it; hence requests are still transmitted in order, each at most 1+R times, and completed at most once. (The code violates this at a few statements: e.g. a byte received between the address check of a frame that is ignored and the reset of the length is lost.)", "quantifier": "every history of requests, polls, ticks and callbacks, every placement of any number of interrupts at every statement of every poll, every configuration", "why_tests_cant": "interrupt placement inside a poll is not controllable in a unit test and the number of placements is unbounded", "anchors": ["src/modbus_master.c: update_modbus_master_manager, modbus_master_idle_state_handling, modbus_master_transmitting_state_handling, modbus_master_resp_waiting_state_handling, modbus_master_resp_recived_state_handling, modbus_master_req_sended_callback, modbus_master_T_1_5_char_expired_callback, modbus_master_T_3_5_char_expired_callback, modbus_master_frame_error_callback, update_modbus_master_timout_timer"]}
{"id": "C57", "title": "The line carries whole frames", "statement": "Whatever bytes and interrupts arrive, in whatever order, the bytes the slave device writes to the line are exactly the response frames of the library, each complete, unaltered and in order; only the last one may still be under way, and it is complete as soon as the library is told that the transmission has ended. The driver's transmit pointer never leaves the response buffer.", "quantifier": "every history of received bytes, UART and timer interrupts, receive timeouts, polls, registrations and application writes after initialisation, every configuration", "why_tests_cant": "the repository has no tests of the driver; the claim is about every interleaving of interrupts with the main program, and about the aliasing of the response buffer by the driver", "anchors": ["examples/STM32G070RB_MODBUS_SLAVE/Core/Src/modbus_driver_interface.c: slave_usart_send, MODBUS_USART_IRQHandler, MODBUS_TIMER_IRQHandler", "src/modbus_slave.c: handle_modbus_slave_msg_recived_state"]}
{"id": "C58", "title": "A device with its driver answers on the line", "statement": "When the bytes of a valid request frame for this slave arrive, followed by 3.5 characters of silence, and the main program keeps polling, the bytes written to the line afterwards are the response the protocol prescribes for the memory at the moment of a poll after the silence, and the device is ready for the next frame; so for any number of exchanges.", "quantifier": "every sequence of exchanges, every frame, every placement of polls, application writes and transmit interrupts, every configuration", "why_tests_cant": "needs every sequence of exchanges through the interrupt handlers; the unit tests stop at the driver interface", "anchors": ["examples/STM32G070RB_MODBUS_SLAVE/Core/Src/modbus_driver_interface.c: slave_usart_send, MODBUS_USART_IRQHandler, MODBUS_TIMER_IRQHandler", "src/modbus_slave.c: check_modbus_request"]}
{"id": "C59", "title": "Frames with a gap, a wrong CRC or another address cost nothing", "statement": "When a frame is interrupted by more than 1.5 characters of silence, or its CRC is wrong, or it is for another slave, the device writes nothing to the line, changes no application data, and is ready for the next frame.", "quantifier": "every frame, every length of the part after the gap, every placement of polls and application writes, every configuration", "why_tests_cant": "needs every frame and every position of the gap through the interrupt handlers", "anchors": ["examples/STM32G070RB_MODBUS_SLAVE/Core/Src/modbus_driver_interface.c: MODBUS_USART_IRQHandler, MODBUS_TIMER_IRQHandler", "src/modbus_slave.c: check_modbus_request"]}
{"id": "C60", "title": "A master device puts exactly its accepted requests on the line", "statement": "Whatever is requested and whatever bytes and interrupts arrive, in whatever order, the bytes the master device writes to the line are exactly the frames of the accepted requests, in order of acceptance, each 1 to 1+R times, complete and unaltered; only the last one may still be under way. The driver's transmit pointer never leaves the request buffer, and what the application sees is a sequence of transactions.", "quantifier": "every history of requests, polls, ticks, received bytes, UART and timer interrupts and receive timeouts after initialisation, every configuration", "why_tests_cant": "the repository has no tests of the driver; the claim is about every interleaving of interrupts with the main program, and about the driver's pointer into a buffer that the library reuses", "anchors": ["examples/STM32G070RB_MODBUS_MASTER/Drivers/STM32G0_Drivers/modbus_driver_interface.c: master_usart_send, MODBUS_USART_IRQHandler, MODBUS_TIMER_IRQHandler", "src/modbus_master.c: update_modbus_master_manager"]}
{"id": "C61", "title": "A device with its driver only does what the library can do", "statement": "Whatever happens to a device (main program, bytes and interrupts in any order), the library in it goes through a history of its documented interface with the same calls, outputs, received bytes and 3.5-character events; so everything that holds for all histories of the library holds for the device. In particular a slave device never puts more frames on the line than there were 3.5-character silences.", "quantifier": "every history of a master or slave device, from any state", "why_tests_cant": "a refinement between all executions of two systems", "anchors": ["examples/STM32G070RB_MODBUS_MASTER/Drivers/STM32G0_Drivers/modbus_driver_interface.c: MODBUS_USART_IRQHandler, MODBUS_TIMER_IRQHandler", "examples/STM32G070RB_MODBUS_SLAVE/Core/Src/modbus_driver_interface.c: MODBUS_USART_IRQHandler, MODBUS_TIMER_IRQHandler"]}
{"id": "C62", "title": "A transaction of a master device", "statement": "On a master device with its driver, from any history that left no event pending: after at most R failed attempts (a gap of 1.5 characters inside the response, or a wrong CRC) a response that comes in complete, in time, without a gap and with a correct CRC is delivered, at the next poll, exactly as it says; the line carries the frame of the request once per attempt and nothing else. If all 1+R attempts fail, the line carries it 1+R times and the application gets exactly one communication error for that slave.", "quantifier": "every history of the device, every request, every number of failed attempts, every order of interrupts, polls, ticks, further request calls and frames of other slaves which the schedules allow, every configuration", "why_tests_cant": "the interleavings of transmit, receive and timer interrupts with the main program are unbounded; the repository has no tests of the driver", "anchors": ["examples/STM32G070RB_MODBUS_MASTER/Drivers/STM32G0_Drivers/modbus_driver_interface.c: master_usart_send, MODBUS_USART_IRQHandler, MODBUS_TIMER_IRQHandler", "src/modbus_master.c: update_modbus_master_manager"]}
{"id": "C63", "title": "What happens on the line between transactions does not spoil the next one", "statement": "Whatever bytes, silences and other events the driver reports while the master is idle, the next request whose response comes in complete, with a correct CRC and without a gap is answered: its values are delivered.", "quantifier": "every history before the request, every sequence of driver events while idle, every request and every good response, whenever polls happen", "why_tests_cant": "the effect of a pending event shows only in a later transaction and only for some positions of the polls relative to the bytes of the response; tests start from a fresh initialisation", "anchors": ["src/modbus_master.c: modbus_master_T_1_5_char_expired_callback, modbus_master_resp_waiting_state_handling, modbus_master_RTU_recv_state_handle", "examples/STM32G070RB_MODBUS_MASTER/Drivers/STM32G0_Drivers/modbus_driver_interface.c: MODBUS_USART_IRQHandler"]}
{"id": "C64", "title": "Device to device, end to end", "statement": "A master device and a slave device on a line that loses nothing: whatever the master's application requests, the slave's application memory is changed exactly as the request asks and the master's application is told exactly the slave application's values at the moment of processing, or the confirmation, or the prescribed exception; on the line there is the request once per attempt, and exactly one response per request heard.", "quantifier": "every history of both devices that left no event pending, every request, every slave memory, every interleaving of interrupts with both main programs which the schedules allow, both configurations independently", "why_tests_cant": "two independent interrupt-driven devices; no test runs master and slave together", "anchors": ["examples/STM32G070RB_MODBUS_MASTER/Drivers/STM32G0_Drivers/modbus_driver_interface.c: master_usart_send, MODBUS_USART_IRQHandler, MODBUS_TIMER_IRQHandler", "examples/STM32G070RB_MODBUS_SLAVE/Core/Src/modbus_driver_interface.c: MODBUS_USART_IRQHandler, MODBUS_TIMER_IRQHandler", "src/modbus_master.c: update_modbus_master_manager", "src/modbus_slave.c: check_modbus_request"]}
{"id": "C65", "title": "Sessions: the master device serves its requests in order, each with exactly its own outcome", "statement": "Once the master device is at rest, the accepted requests not yet served are served one after the other in the order of acceptance, whatever happens in each of them: the request's frame is on the line once per attempt and nothing else is; the application is told the values of the good response, or after R+1 failed attempts one communication error of the right kind, or one timeout; requests issued meanwhile are queued behind. An error left over from one transaction affects the next one exactly as one more failed attempt.", "quantifier": "every history before, every number of transactions, every combination of gaps, wrong CRCs, silence, frames of other slaves, requests, ticks and polls which the schedules allow in each attempt", "why_tests_cant": "unbounded sequences of transactions whose outcomes depend on errors left over by earlier ones; tests run one transaction from a fresh initialisation", "anchors": ["src/modbus_master.c: modbus_master_resp_waiting_state_handling, update_modbus_master_manager", "examples/STM32G070RB_MODBUS_MASTER/Drivers/STM32G0_Drivers/modbus_driver_interface.c: master_usart_send, MODBUS_USART_IRQHandler, MODBUS_TIMER_IRQHandler"]}
{"id": "C66", "title": "A multi-drop bus behaves like a sequence of atomic operations on the slaves' memories", "statement": "One master device and any number of slave devices on one line: whatever is queued, each request is served in the order of acceptance; the master's application is told exactly the prescribed outcome for the addressed slave's memory at the moment it processed the request, or a communication error or a timeout when the attempts came to that; every slave's memory is changed exactly by the requests it heard and its own application, never by requests to others, by others' responses or by damaged frames; afterwards all slaves are synchronised and the master is at rest.", "quantifier": "every number of slaves, all IDs, memories and configurations, every history of the master, every number of transactions and attempts, every assignment of what each slave hears in each attempt, every interleaving which the schedules allow", "why_tests_cant": "an unbounded number of devices and transactions; no test runs more than one device", "anchors": ["src/modbus_master.c: update_modbus_master_manager, modbus_master_resp_waiting_state_handling", "src/modbus_slave.c: check_modbus_request", "examples/STM32G070RB_MODBUS_MASTER/Drivers/STM32G0_Drivers/modbus_driver_interface.c: master_usart_send, MODBUS_USART_IRQHandler, MODBUS_TIMER_IRQHandler", "examples/STM32G070RB_MODBUS_SLAVE/Core/Src/modbus_driver_interface.c: MODBUS_USART_IRQHandler, MODBUS_TIMER_IRQHandler"]}
{"id": "C67", "title": "Initialising the example driver configures the line that was asked for", "statement": "After modbus_slave_init/modbus_master_init on the example board, for every baud rate from 2400 up and every parity: the UART, both directions and the receiver timeout are on; characters have 8 data bits, the requested parity and together 11 bits; the bit rate is the requested one up to the divider's resolution (below 127000 baud less than 0.2 % off, never slow); the 1.5- and 3.5-character times are those of C53; the pins are connected and the other pins left alone; the peripheral clocks are on; the driver-enable pin is high while the UART transmits, from half a bit before the first start bit to half a bit after the last stop bit; overruns raise no error; the receiver timeout is the only UART interrupt enabled before the first receive or send; the timer stops after one period. This holds for the last call whatever calls came before. (The code violates the last sentence: a second initialisation with other parameters leaves the 1.5-character timeout at the bitwise or of both values and two stop bits if any earlier call was without parity.)", "quantifier": "every 32-bit baud rate, every parity, every history of initialisations", "why_tests_cant": "All rates, all histories of calls; the registers depend on what was in them before.", "anchors": ["examples/STM32G070RB_MODBUS_SLAVE/Core/Src/modbus_driver_interface.c:slave_usart_init", "examples/STM32G070RB_MODBUS_SLAVE/Core/Src/modbus_driver_interface.c:USART_module_config", "examples/STM32G070RB_MODBUS_SLAVE/Core/Src/modbus_driver_interface.c:TIMER7_init", "examples/STM32G070RB_MODBUS_SLAVE/Core/Src/modbus_driver_interface.c:USART_GPIO_init"]}
{"id": "C68", "title": "The example master program mirrors coil 1 and register 1 of slave 1", "statement": "The example master application (main loop, SysTick, callbacks, on the library and the example driver) never runs into undefined behaviour. Its request calls come in rounds of four — read coil 1, read holding register 1, write coil 0, write holding register 0, all of slave 1 — a round at least 300 ticks after the one before and, when the loop gets to run, not later than the first pass of the loop after 300 ticks; each call is accepted or turned down because the queue is full; the values written are those of the last successful reads; its variables always hold the values last reported by the read callbacks. The line carries exactly the frames of the accepted requests in order, each 1 to R+1 times.", "quantifier": "every interleaving of the main loop's statements with ticks, UART and timer interrupts, every sequence of received bytes (well-formed or not), every configuration", "why_tests_cant": "Every interleaving and every received byte sequence, including malformed responses; no test runs the example program.", "anchors": ["examples/STM32G070RB_MODBUS_MASTER/Core/Src/main.c: update_modbus_data, SysTick_Handler, main", "examples/STM32G070RB_MODBUS_MASTER/Core/Src/modbus_master_data_interface.c", "src/modbus_master.c: update_modbus_master_manager"]}
{"id": "C69", "title": "The example slave program serves its tables and its LED follows coil 21", "statement": "The example slave application (registration of its tables, main loop, LED, on the library and the example driver) never runs into undefined behaviour; discrete inputs, input registers and the registration itself never change whatever is received, and the inputs read as initialised in main.c; with a quiet line until registration is finished, everything the slave exposes has the value of its initialiser and all later answers follow from those values and the requests; the line carries only whole response frames; in synchronised traffic every good request is answered from the current variables, and after the next two steps of the main loop the LED shows coil 21; a good write of coil 21 is echoed and switches the LED to the value written.", "quantifier": "every interleaving of the main program's statements with UART and timer interrupts, every received byte sequence, every configuration with room for the example's tables", "why_tests_cant": "Every interleaving and byte sequence; no test runs the example program.", "anchors": ["examples/STM32G070RB_MODBUS_SLAVE/Core/Src/main.c: register_modbus_data, update_LED, main", "src/modbus_slave.c: check_modbus_request", "src/slave_internall/modbus_slave_data.c: register_app_data_to_modbus_coils_din_table"]}
{"id": "C70", "title": "With a punctual environment every request is dealt with in bounded time", "statement": "If the main loop calls the manager at least every P, the tick comes at least every D (and not twice within 2P), the driver reports the end of each transmission within X, and a response's 1.5-char and 3.5-char silences are reported once per transmission, more than P after its end and more than P and at most G apart, then with a response timeout of T >= 2 ticks, R repetitions and N queue items every request accepted before some moment has had its complete transaction (transmissions followed by its events) not later than N*((R+1)*(X+5P+(T-1)*D+G)+P) afterwards, and from then on, whatever bytes and frame errors arrive and whether or not the slaves answer; one transaction takes at most (R+1)*(X+5P+(T-1)*D+G) from its first transmission until the master is idle again.", "quantifier": "all infinite timed executions without undefined behaviour in a punctual environment, all configurations with T >= 2, all moments", "why_tests_cant": "A liveness bound over all infinite interleavings of polls, ticks, bytes, silences and requests; a test runs a few finite schedules.", "anchors": ["src/modbus_master.c: update_modbus_master_manager, modbus_master_resp_waiting_state_handling, modbus_master_resp_recived_state_handling", "src/modbus_master.c: update_modbus_master_timout_timer"]}
{"id": "C71", "title": "With a punctual environment the slave answers every valid frame within two poll periods, for ever", "statement": "If the main loop polls at least every P, silences are reported in pairs (1.5-char, then 3.5-char event, no byte in between), the line stays quiet for more than 2P after each 3.5-char event and from a response until more than P after its completion, and the driver reports the completion of every response once, then for every frame (the bytes received between two consecutive 3.5-char events) of any infinite execution from power-on: if it is a valid request for this slave received without frame error, a poll not later than 2P after the 3.5-char event hands exactly the prescribed response to the driver, computed from the memory at that moment, with exactly the prescribed effect, and nothing else is transmitted until the next 3.5-char event; if its CRC is wrong, it is addressed to somebody else or a frame error was reported (and it has at most 255 bytes), nothing is transmitted. Memory changes only by the application or with a response.", "quantifier": "all infinite timed executions from power-on in a punctual environment, all frames, all configurations, all slave addresses", "why_tests_cant": "A real-time bound over all infinite interleavings of polls, bytes, silences, application writes and completions; tests run a few finite schedules.", "anchors": ["src/modbus_slave.c: check_modbus_request, handle_modbus_slave_idle_state, handle_modbus_slave_msg_recived_state, handle_modbus_slave_transmitting_resp_state"]}
{"id": "C72", "title": "The slave device answers on the line within fixed times of the last byte, for ever", "statement": "Library and example driver together, in real time. If the receiver timeout comes t15 and the timer t35 after the last byte (each at most lat late, t15+2*lat < t35), the main program polls at least every P while it runs, the transmit interrupts of a response come within X, and the master leaves more than 2P after 3.5 characters of silence and more than P after a response, then for every frame (the bytes received between two consecutive timer events) of any infinite execution from power-on: the timer event comes between t35 and t35+lat after its last byte; if it is a valid request for this slave with all bytes less than t15 apart, a poll at most 2P later starts the response, all bytes of exactly the prescribed response have been written to the transmit register within X, memory changes exactly as prescribed, and nothing else is written until the next timer event; if its CRC is wrong or it is addressed to somebody else (and has at most 255 bytes), or two consecutive bytes are more than t15+2*lat apart (whatever the length), nothing is written.", "quantifier": "all infinite timed executions of slave and driver from power-on with such hardware and environment, all frames, all configurations, all slave addresses, all t15, t35, lat, P, X", "why_tests_cant": "A real-time claim over all infinite interleavings of UART and timer interrupts, silences, main-loop polls and application writes; tests replace driver and hardware by a mock and run a few finite schedules.", "anchors": ["src/modbus_slave.c: check_modbus_request", "examples/STM32G070RB_MODBUS_SLAVE/Core/Src/modbus_driver_interface.c: MODBUS_USART_IRQHandler, MODBUS_TIMER_IRQHandler, slave_usart_send"]}
{"id": "C73", "title": "The master device deals with every request in bounded time, and its line carries exactly its frames", "statement": "Library and example driver together, in real time. If the receiver timeout comes t15 and the timer t35 after the last byte (each at most lat late, its interrupt within lat, t15+2*lat+P < t35), the main program polls at least every P, the tick comes at least every D (and not twice within 2P), the transmit interrupts of a frame come within X, and what comes in answers a transmission (one gap-free frame at most per transmission, ending more than P after it; no assumption on its bytes or on whether it comes), then in every infinite execution from power-on with a response timeout of T >= 2 ticks, R repetitions and N queue items every request accepted before some moment has had its complete transaction at most P+N*((R+1)*(X+5P+(T-1)*D+(t35+lat-t15))+P) afterwards and from then on; what the main program sees is a sequence of transactions; the count of free, open and refused requests is N; and whenever the device is idle the bytes written to the transmit register are exactly the transmitted frames one after the other.", "quantifier": "all infinite timed executions of master and driver from power-on with such hardware and environment, all configurations with T >= 2, all moments, all t15, t35, lat, P, D, X", "why_tests_cant": "A liveness bound over all infinite interleavings of UART and timer interrupts, ticks, polls and requests; tests replace driver and hardware by a mock and run a few finite schedules.", "anchors": ["src/modbus_master.c: update_modbus_master_manager, update_modbus_master_timout_timer", "examples/STM32G070RB_MODBUS_MASTER/Drivers/STM32G0_Drivers/modbus_driver_interface.c: MODBUS_USART_IRQHandler, MODBUS_TIMER_IRQHandler"]}
{"id": "C74", "title": "Master device, line and slave device: every transmission is executed exactly once and reported within a round trip", "statement": "Two devices (library and example driver each) and the line between them, in real time. One clock, a line that delivers every byte unaltered, in order, at most c late and bytes of a frame less than t15 apart, hardware timing as in C72/C73, a master that polls at least every Pm and ticks between d and D apart, a slave that polls at least every Ps while it runs, transmit interrupts at most e after each byte, and times that fit (t15+2*lat+Pm < t35, 2*Ps < t35, e+Ps < t35, e+Pm < t35, 2*Pm < d, round < (T-2)*d where round = 2*(256e+c+t35+lat+Ps)+Pm). Then in every infinite execution from power-on, whatever the two applications do, nobody has to assume that the line is quiet, that responses come in time or that frames do not collide: every transmission of the master for this slave is executed by it exactly once, in order, with exactly the prescribed effect and response (on the slave's memory at that moment), and its outcome is reported to the master's application after the execution and at most round after the transmission began, with nothing else put out in between; every transmission for another address yields exactly one timeout error within 256e+2Pm+(T-1)D; the slave sends nothing else; and its memory changes only by these executions and by its own application.", "quantifier": "all infinite timed executions of both devices and the line, all applications on both sides, all configurations with such times, all slave addresses", "why_tests_cant": "A closed-loop claim about two devices running concurrently for ever with all interleavings of both sides' interrupts, polls, ticks and application calls; the unit tests run one library against a mocked driver for a few steps.", "anchors": ["src/modbus_master.c: update_modbus_master_manager, update_modbus_master_timout_timer", "src/modbus_slave.c: check_modbus_request", "examples/STM32G070RB_MODBUS_MASTER/Drivers/STM32G0_Drivers/modbus_driver_interface.c: MODBUS_USART_IRQHandler, MODBUS_TIMER_IRQHandler", "examples/STM32G070RB_MODBUS_SLAVE/Core/Src/modbus_driver_interface.c: MODBUS_USART_IRQHandler, MODBUS_TIMER_IRQHandler, slave_usart_send"]}
{"id": "C75", "title": "Master device, line and slave device: every accepted request is carried out exactly once within a fixed time", "statement": "Two devices and the line as in C74. Then in every infinite execution from power-on every request the master's application has had accepted before some moment is, at most N*(max(round, 256e+2Pm+(T-1)D)+Pm) later (N queue items) and from then on, finished: requests are finished in the order of acceptance, each transmitted exactly once (never repeated), one after the other without overlap, executed exactly once by the slave with the prescribed effect if addressed to it, and its outcome - computed from the slave's memory at the moment of execution - reported in exactly one poll; a request for another address is reported as timed out. Nothing else is transmitted or reported.", "quantifier": "all infinite timed executions of both devices and the line, all sequences of requests at any moments, all applications on both sides, all configurations with such times", "why_tests_cant": "An end-to-end exactly-once and bounded-latency claim over infinite concurrent executions of two devices; no finite test can settle it.", "anchors": ["src/modbus_master.c: update_modbus_master_manager, update_modbus_master_timout_timer", "src/modbus_slave.c: check_modbus_request", "examples/STM32G070RB_MODBUS_MASTER/Drivers/STM32G0_Drivers/modbus_driver_interface.c: MODBUS_USART_IRQHandler, MODBUS_TIMER_IRQHandler", "examples/STM32G070RB_MODBUS_SLAVE/Core/Src/modbus_driver_interface.c: MODBUS_USART_IRQHandler, MODBUS_TIMER_IRQHandler, slave_usart_send"]}
{"id": "C76", "title": "The shipped configuration on the example boards meets the conditions of the bus guarantees at every baud rate from 9600 up", "statement": "With the silence times the example driver computes for a baud rate (receiver timeout for 1.5 characters, timer for 3.5), the configuration the library ships (1000 ms response timeout, 5 queue items), interrupts served within 50 us, main loops polling at least every 450 us, a tick every 1 ms +- 50 us and 11-bit characters, the conditions of C74 and C75 are met at EVERY baud rate from 9600 up: one round takes at most 627 ms, a timeout at most 1357 ms, and every request accepted by the master is finished exactly once, in order, with the prescribed effect and a correct report, at most 6.8 s later. Below 5940 baud they are not met: the shipped response timeout does not cover a round of two full frames.", "quantifier": "all 32-bit baud rates from 9600 up; all infinite timed executions of both boards and the line; all applications on both sides", "why_tests_cant": "The driver's integer arithmetic must fit the library's timing needs at every baud rate, and the guarantee ranges over infinite concurrent executions of two devices; the repository has no test of the driver at all.", "anchors": ["src/modbus_config.h: MODBUS_MASTER_MAX_MSG_QUEUE_ITEMS", "examples/STM32G070RB_MODBUS_MASTER/Drivers/STM32G0_Drivers/modbus_driver_interface.c: get_ARR_value, get_RTOR_value", "src/modbus_master.c: update_modbus_master_manager, update_modbus_master_timout_timer", "src/modbus_slave.c: check_modbus_request", "examples/STM32G070RB_MODBUS_MASTER/Drivers/STM32G0_Drivers/modbus_driver_interface.c: MODBUS_USART_IRQHandler, MODBUS_TIMER_IRQHandler", "examples/STM32G070RB_MODBUS_SLAVE/Core/Src/modbus_driver_interface.c: MODBUS_USART_IRQHandler, MODBUS_TIMER_IRQHandler, slave_usart_send"]}
{"id": "C77", "title": "Slave device: interrupts between any two statements of a poll make no difference", "statement": "The slave device (library and example driver) with its interrupt handlers allowed to run between ANY two C statements of check_modbus_request, its state handlers and the driver's send function (the calls of modbus_RTU_recv, the request parser and modbus_RTU_send counting as one statement each; C81 looks inside them). If the hardware produces the silence events at the right times, the UART interrupts only for a received byte, RTOF or an enabled empty transmit register, the main program polls (and the poll returns) within P, the bytes of a response are not all transmitted before the poll that started it returns, and the master leaves the prescribed silence, then every infinite execution is indistinguishable from one with uninterrupted polls: same interrupts, application calls and outputs at the same times, one atomic poll per poll, equal states between polls. In particular the device-level guarantee (C72) holds: every valid request is answered correctly by a poll within 2P of the timer event and with the prescribed effect, all response bytes are on the line within X, and invalid, foreign or gapped frames cause no output.", "quantifier": "all infinite timed executions of the device, all placements of interrupt handlers between statements, all byte contents, all applications, all configurations and times", "why_tests_cant": "Races between handlers and statements of the main loop depend on the schedule; unit tests run handlers only between complete calls, and the driver is not tested at all.", "anchors": ["src/modbus_slave.c: check_modbus_request", "examples/STM32G070RB_MODBUS_SLAVE/Core/Src/modbus_driver_interface.c: MODBUS_USART_IRQHandler, MODBUS_TIMER_IRQHandler, slave_usart_send"]}
{"id": "C78", "title": "The line carries whole response frames under every interrupt placement", "statement": "Whatever bytes and interrupts arrive, in whatever order, also between any two C statements of check_modbus_request, its state handlers and the driver's send function (the calls of modbus_RTU_recv, the request parser and modbus_RTU_send counting as one statement each; C81 looks inside them), the slave device has no undefined behaviour (the driver's pointer never leaves the response buffer) and the bytes it writes to the line are exactly the response frames handed to the driver, each a correctly framed response prescribed by the protocol, complete, unaltered and in order, only the last one possibly still under way. (The code violates the second half: the UART handler looks at the TXE bit without asking whether the transmit interrupt is enabled, so a byte received while the driver's send function is between setting its pointers and writing the first byte makes it transmit the second byte of the response before the first.)", "quantifier": "all finite histories of calls, statements, application operations, received bytes, UART and timer interrupts; all configurations, memories and slave addresses", "why_tests_cant": "The claim ranges over every placement of interrupts between statements of the main program; no unit test covers the driver, and none can place an interrupt between two statements.", "anchors": ["src/modbus_slave.c: check_modbus_request", "examples/STM32G070RB_MODBUS_SLAVE/Core/Src/modbus_driver_interface.c: MODBUS_USART_IRQHandler, slave_usart_send"]}
{"id": "C79", "title": "Master device: transactions and the line under every interrupt placement", "statement": "Initialise the master device (library and example driver), then let anything happen: requests, polls, bytes, silence and timer events, ticks, with the interrupt handlers running between ANY two C statements of update_modbus_master_manager and of the driver's send function. The accepted requests are transacted one after the other in order, each transmitted at most once plus the configured repetitions and finished with exactly one outcome, and no message buffer is lost other than by refused requests; with bit reads of at most 126 bits there is no undefined behaviour; and the line carries exactly the request frames, complete, unaltered and in order, only the last one possibly still under way. (The code violates the last two parts: the UART handler looks at the TXE bit without asking whether the transmit interrupt is enabled, so a byte received while the driver's send function is between its first and third assignment makes it transmit bytes of the wrong message, or the function code before the slave address, and may run the pointer over the end.)", "quantifier": "all finite histories of calls, received bytes, UART, timer and tick interrupts, all placements of interrupts between statements; all configurations", "why_tests_cant": "The claim ranges over every placement of interrupts between statements of the main program; no unit test covers the driver, and none can place an interrupt between two statements.", "anchors": ["src/modbus_master.c: update_modbus_master_manager, modbus_master_send_req_from_msg_buf", "examples/STM32G070RB_MODBUS_MASTER/Drivers/STM32G0_Drivers/modbus_driver_interface.c: MODBUS_USART_IRQHandler, master_usart_send"]}
{"id": "C80", "title": "Requests made inside callbacks are as good as requests made before the poll", "statement": "The application may call any request function, any number of times, from inside any callback update_modbus_master_manager makes (coil, discrete input, register, write confirmation, exception, timeout, CRC, framing), including between two values of the same response. The history then ends in the same state, returns the same values from the request calls, makes the same callbacks and hands the same frames to the driver as the history in which each poll's request calls are made, in the same order, just before that poll; so all other claims about transactions apply, nothing delivered is disturbed, and there is no undefined behaviour if bit reads stay within 126 bits. Inside a callback the finished request still holds its message buffer: with one message buffer every request made from a callback is refused. (update_modbus_master_manager itself must not be called from a callback: whenever a timeout is reported while a request is queued, two nested calls put the queued request on the line and then forget it.)", "quantifier": "all histories of the master, all sequences of request calls made inside each callback of each poll, all configurations", "why_tests_cant": "The library's test callbacks never call the library. The claim ranges over every callback position, every sequence of calls there and every reachable state.", "anchors": ["src/modbus_master.c: update_modbus_master_manager, generate_request, modbus_master_msg_process_end, modbus_master_resp_timeout_handle", "src/master_internall/modbus_master_PDU.c: modbus_master_read_slave_resp, update_master_coils_frmo_modbus_msg"]}
{"id": "C81", "title": "Interrupts between any two reads of the request buffer make no difference", "statement": "Interrupts may also occur inside the checksum computation and inside the request parser of a slave poll: before every single read of a byte of the request buffer, as well as between the statements of check_modbus_request, any driver callbacks and any received bytes (which the receive interrupt writes into that same buffer). Still the slave's outputs and final state are those of a history in which every poll is atomic and the same callbacks and bytes occur before or after it, there is no undefined behaviour, and there is at most one response per end-of-frame event. (The code violates the first two: a frame with a valid checksum but shorter than its function code requires is parsed with bytes left over from earlier frames, which an arriving byte can overwrite after the quantity was checked and before it is read again; then the slave reads or writes outside its response buffer or register table. It holds when no byte arrives during the poll, or when the frame being parsed is as long as its function code requires and the arriving bytes fit in the buffer.)", "quantifier": "every history of registrations, polls and callbacks, every placement of any number of interrupts before every statement and every read of the request buffer, every configuration", "why_tests_cant": "a unit test cannot deliver a byte between two reads of the same buffer inside one call, and the number of placements is unbounded", "anchors": ["src/modbus_slave.c: check_modbus_request, handle_modbus_slave_idle_state, handle_modbus_slave_msg_recived_state", "src/slave_internall/modbus_slave_PDU.c: parse_master_request_and_prepare_resp, check_read_req_data_correcntess, modbus_slave_read_holding_reg, modbus_slave_read_input_reg", "src/common/modbus_RTU.c: modbus_RTU_recv"]}
{"id": "C82", "title": "Interrupts between any two reads of the response buffer do not disturb the master's transactions", "statement": "Interrupts may also occur inside the checksum computation over a response and inside modbus_master_read_slave_resp: before every single read of a byte of the response buffer and before every callback, any driver callbacks, ticks and received bytes (which the receive interrupt writes into that same buffer). Whatever they are and wherever they occur, the outputs of a history are those of its transactions one after the other in order of acceptance, each frame sent 1 to 1 + R times, each transaction ended exactly once by its own callbacks, with no message buffer lost; there is no undefined behaviour if bit reads stay within 126 bits. A response at least as long as the request asks for is delivered exactly as if the interrupts had occurred after the poll (as long as the arriving bytes do not overflow the length counter and no framing error is flagged), and the verdict about a response (other slave, wrong checksum, accepted) is the one about the bytes received up to one moment during the poll. (For a response shorter than asked for, values are reported that were never in the buffer: half of a register read before and half after two bytes arrived.)", "quantifier": "every history of requests, polls, callbacks and ticks, every placement of any number of interrupts before every statement, every read of the response buffer and every callback, every configuration", "why_tests_cant": "a unit test cannot deliver a byte between two reads of the same buffer inside one call, and the number of placements grows with the length of the response and the number of interrupts", "anchors": ["src/modbus_master.c: update_modbus_master_manager", "src/modbus_master.c: modbus_master_RTU_recv_state_handle", "src/modbus_master.c: modbus_master_msg_recived_correctly_state_handle", "src/common/modbus_RTU.c: modbus_RTU_recv", "src/master_internall/modbus_master_PDU.c: modbus_master_read_slave_resp", "src/master_internall/modbus_master_PDU.c: update_master_data_from_modbus_msg"]}
{"id": "C83", "title": "A master device is prompt and correct with interrupts between any two statements of a poll", "statement": "A master device (library, STM32 driver, main program) runs for ever in real time, and the UART's, the timer's and the tick's interrupts may occur between any two statements of a poll, of its state handlers and of the driver's send function. Suppose the hardware keeps its timing, polls are called and return within P, ticks come every D at most and are more than 2P apart, a transmission lasts at most X and outlasts the poll that starts it, and at most one frame answers each transmission, well before the timeout. Then the execution puts out the same things at the same times as one in which every poll is uninterrupted and happens at one of its statements, and is in the same state between polls. Hence every request accepted before some moment is finished (confirmation, data, exception or error report) within the number of queue buffers times the time of R+1 attempts, the outputs are those of the transactions in order, no message buffer is lost, and when no request is being served the bytes on the line are exactly the frames handed over.", "quantifier": "every infinite execution of a master device (any requests, any answers, any interleaving of interrupts with statements), every configuration and every choice of the time bounds", "why_tests_cant": "a unit test calls a poll as a whole; it cannot place an interrupt between two of its statements, let alone at all of them in all combinations over an unbounded execution", "anchors": ["src/modbus_master.c: update_modbus_master_manager", "src/modbus_master.c: modbus_master_RTU_recv_state_handle", "src/modbus_master.c: modbus_master_resp_timeout_handle", "examples/STM32G070RB_MODBUS_MASTER/Drivers/STM32G0_Drivers/modbus_driver_interface.c: master_usart_send"]}
{"id": "C84", "title": "A slave never acts on the traffic of other slaves", "statement": "On a line shared with other slaves (two-wire RS485: every slave hears the requests to the others and the others' responses), a slave executes and answers only whole frames whose first byte is its own address. (The code violates this: a slave that gets around to discarding a foreign frame only after the next frame has begun empties its receive buffer in the middle of that frame and takes the rest for a frame of its own; for every request there is a correct read response of another slave whose data ends with it, and which is then executed and answered. It holds when two polls fall between the 3.5-char event of every frame and the first byte of the next one, and one is not enough.)", "quantifier": "every request and every other slave (violation); every number, content and poll placement of foreign frames with two polls in every pause (what holds)", "why_tests_cant": "it depends on where polls fall relative to the bytes of frames that the slave does not even care about; tests feed a slave with its own frames", "anchors": ["src/modbus_slave.c: handle_modbus_slave_msg_recived_state", "src/modbus_slave.c: handle_modbus_slave_idle_state", "src/common/modbus_RTU.c: modbus_RTU_recv"]}
{"id": "C85", "title": "Several slaves on one line, in real time", "statement": "A master device and any number of slave devices with distinct addresses (library, STM32 driver, interrupts, main program each) run for ever on one two-wire line on which everybody hears everybody else; bytes written at the same time may be altered or lost. Suppose the hardware keeps its timing, the devices are polled regularly, the response timeout covers two frames, and a slave's two polls fit into the time of a byte. Then no byte ever meets another one on the line; every request the master transmits is executed exactly once, by the slave it is addressed to, on that slave's memory of that moment, and its outcome is reported to the master's application within the time of two frames; a request to an address nobody has ends with a timeout report in bounded time; the transmissions to one slave are executed in the order of transmission; and no slave answers or changes its memory on account of anything else.", "quantifier": "every infinite execution of the devices (any requests, application writes, interleaving of interrupts), every number of slaves, every choice of the times that fit, every behaviour of the line on simultaneous bytes", "why_tests_cant": "absence of collisions and of cross talk is a property of all interleavings of three or more devices over unbounded time; tests run one device with hand-fed bytes", "anchors": ["src/modbus_master.c: update_modbus_master_manager", "src/modbus_slave.c: check_modbus_request", "src/modbus_slave.c: handle_modbus_slave_msg_recived_state", "examples/STM32G070RB_MODBUS_SLAVE/Core/Src/modbus_driver_interface.c: slave_usart_send"]}
{"id": "C86", "title": "Every request of the application is served on a line with several slaves", "statement": "Under the conditions of C85, every request that the master's library accepts is finished within the number of queue buffers times the longest round: requests are served strictly in the order of acceptance, each is transmitted exactly once (no retry is ever needed), the request to a slave that exists is executed once by that slave and its outcome (values read from that slave's memory of that moment, confirmation, or the Modbus exception prescribed) is reported by exactly the callbacks prescribed for it, a request to an address nobody has is reported as timed out, and nothing else is ever put out; slaves execute nothing but these requests.", "quantifier": "every infinite execution of a master device and any number of slave devices on one line (any requests at any moments, application writes, interleaving of interrupts), every choice of the times that fit", "why_tests_cant": "it is a statement about all moments of all executions of several devices with unbounded numbers of requests", "anchors": ["src/modbus_master.c: update_modbus_master_manager", "src/modbus_slave.c: check_modbus_request", "src/master_internall/modbus_queue.c"]}
{"id": "C87", "title": "The example boards serve a line with several slaves", "statement": "Example boards with the shipped configuration on one line (a master and any number of slaves with different addresses, main loops that poll at least every 450 microseconds as in C76): every request is answered by the slave addressed within the times of C76, slaves execute nothing but the requests addressed to them, and every request of the application is served as in C86, at every baud rate from 9600 up. (The code violates this: at 115200 baud a slave that discards another slave's request only after a part of the answer has come in takes the rest of the answer for a request of its own. It holds if two polls and 60 microseconds are shorter than ten bits on the line, e.g. at 9600 baud with these main loops.)", "quantifier": "every baud rate from 9600 up, every infinite execution of the master board and any number of slave boards on one line", "why_tests_cant": "it depends on how main loops of different boards fall relative to bytes on the line, in all executions", "anchors": ["src/modbus_slave.c: check_modbus_request", "src/modbus_slave.c: handle_modbus_slave_idle_state", "examples/STM32G070RB_MODBUS_SLAVE/Core/Src/modbus_driver_interface.c: slave_usart_init"]}
{"id": "C88", "title": "Requests made by interrupt handlers", "statement": "Request functions may be called from interrupt handlers (or tasks of a higher priority) while update_modbus_master_manager runs: wherever inside a poll they arrive, requests are accepted, queued and served as if they had been made before or after the poll, in the same order and with the same return values; every accepted request is transmitted in turn and ends exactly once, no message buffer is lost or used twice, and there is no undefined behaviour. (The code violates this: a request between the read and the write of items_in_queue-- or ++ loses the update, and two requests between the update of the counter and the move of the head of the free queue lose a buffer. It holds if no request falls into a counter update and at most one request arrives between two accesses.)", "quantifier": "every configuration, every history of calls, ticks, received bytes and polls, every placement of any number of request calls between the accesses of a poll to the queues", "why_tests_cant": "the unit tests call the request functions between polls only; where an interrupt falls cannot be controlled by a test and the windows are a few instructions wide", "anchors": ["src/modbus_master.c: update_modbus_master_manager", "src/modbus_master.c: generate_request", "src/master_internall/modbus_queue.c: modbus_queue_push", "src/master_internall/modbus_queue.c: modbus_queue_pop"]}
{"id": "C89", "title": "A repeated request does no harm", "statement": "A request that the slave executes again because its response was damaged or lost gets the same response and leaves the application data exactly as the first execution left them, as long as the application does not touch the data in between: however often the master has repeated a request, the slave's data are as after one execution, and the outcome told to the master's application is that of one execution on the data before the first.", "quantifier": "every request, registration (including several addresses sharing one variable, and writes that fail half way), memory, number of repetitions and timing", "why_tests_cant": "it ranges over all requests, registrations with aliasing, memories and numbers of repetitions", "anchors": ["src/slave_internall/modbus_slave_PDU.c: parse_master_request_and_prepare_resp", "src/modbus_slave.c: check_modbus_request", "src/modbus_master.c: update_modbus_master_manager"]}
{"id": "C90", "title": "A slave device may be initialised on a live line", "statement": "Whatever arrives on the line while the example slave device executes modbus_slave_init, and whichever statement of the initialisation it is received at, nothing undefined happens: afterwards the device does what the library does in some history of calls with bytes that have arrived, and takes the line to be silent only if it has been silent. The same holds for every later initialisation. (The code violates this: slave_usart_init switches the UART on and slave_enable_usart_rx_interrupt enables its receive interrupt before the end of transmission is subscribed; a byte that is complete in between makes the interrupt handler call a NULL pointer. It holds if no character is complete before the end of transmission is subscribed, and if neither 1.5 nor 3.5 characters of silence pass before the last callback is subscribed.)", "quantifier": "every configuration, memory, address and history of statements of the initialisation, bytes, silences, interrupts, polls, registrations and initialisations in any order", "why_tests_cant": "the unit tests replace the driver by a mock and never run an interrupt handler while the initialisation is under way; on hardware the window is a few instructions wide", "anchors": ["src/modbus_slave.c: modbus_slave_init", "examples/STM32G070RB_MODBUS_SLAVE/Core/Src/modbus_driver_interface.c: slave_usart_init", "examples/STM32G070RB_MODBUS_SLAVE/Core/Src/modbus_driver_interface.c: MODBUS_USART_IRQHandler", "examples/STM32G070RB_MODBUS_SLAVE/Core/Src/modbus_driver_interface.c: MODBUS_TIMER_IRQHandler"]}
{"id": "C91", "title": "A master device may be switched on next to a live line", "statement": "Whatever arrives on the line while the example master device executes modbus_master_init and before its application makes the first request, nothing undefined happens: the device does what the library does in a history that begins with its initialisation, contains exactly the calls made after it, and bytes that have arrived. (The code violates this: the receiver timeout interrupt is enabled by the initialisation, but the pointer rx_msg through which the interrupt handler stores a received byte is NULL until the first request is sent; one byte of noise followed by 1.5 characters of silence makes it write through NULL, at any time before the first request, whatever has happened before. It holds if no reception is ended by 1.5 characters of silence before the first request is handed to the driver.)", "quantifier": "every configuration and history of statements of the initialisation, bytes, silences, interrupts, ticks, polls and requests in any order", "why_tests_cant": "the unit tests replace the driver by a mock; on hardware it depends on noise before the first request and on when interrupts fall relative to the statements of the initialisation", "anchors": ["src/modbus_master.c: modbus_master_init", "src/modbus_master.c: modbus_master_send_req_from_msg_buf", "examples/STM32G070RB_MODBUS_MASTER/Drivers/STM32G0_Drivers/modbus_driver_interface.c: MODBUS_USART_IRQHandler", "examples/STM32G070RB_MODBUS_MASTER/Drivers/STM32G0_Drivers/modbus_driver_interface.c: MODBUS_TIMER_IRQHandler"]}
{"id": "C92", "title": "A request to address 0 is a broadcast", "statement": "A request the application sends to slave address 0 is executed by every slave and answered by none, and the master completes it without expecting a response. (The code violates this: the slave compares the address with its own one only, so it ignores the request, or, if it was initialised with address 0, answers it; the master waits for a response and reports a timeout.)", "quantifier": "every request, every slave state and address, every timing of reception, polls and ticks", "why_tests_cant": "the repository has no test with address 0, and the claim is about all slaves in all states", "anchors": ["src/modbus_slave.c:handle_modbus_slave_idle_state", "src/modbus_slave.c:handle_modbus_slave_msg_recived_state", "src/modbus_master.c:modbus_master_resp_waiting_state_handling", "src/modbus_master.c:modbus_master_resp_timeout_handle"]}
{"id": "C93", "title": "The two example programs together mirror the slave's data", "statement": "With the example master program and the example slave program on one bus, every round of requests that is served makes the master's variables equal to the slave's coil 1 and holding register 1, writes the values the master had before into the slave's coil 0 and holding register 0, and leaves everything else the slave exposes as it was; so after two rounds coil 0 equals coil 1 and holding register 0 equals holding register 1. Requests that are retried, and executed several times by the slave, make no difference.", "quantifier": "every history of both programs since power-on, every order of main loop statements and interrupts, every number of retries and every disturbance of the line under which the four requests are answered in the end", "why_tests_cant": "it needs both programs and the line, all interleavings and all patterns of damaged frames and retries; the repository's tests have neither the programs nor the drivers", "anchors": ["examples/STM32G070RB_MODBUS_MASTER/Core/Src/main.c: update_modbus_data", "examples/STM32G070RB_MODBUS_SLAVE/Core/Src/main.c: register_modbus_data", "examples/STM32G070RB_MODBUS_MASTER/Core/Src/modbus_master_data_interface.c: modbus_master_coil_read"]}
{"id": "C94", "title": "A line with slaves is a memory: requests act as if carried out one at a time", "statement": "A master device and slave devices on an undisturbed line, in real time (timing conditions of C74 for one slave, C85 for several). In every infinite execution from power-on there is, for each slave, one history made of its application's own operations and the requests addressed to it, such that at every moment the slave's data is exactly what this history makes of the data at power-on; the application's operations are in it exactly as made, in order; a request whose outcome the master's application has been told by some moment is in it from that moment on, a request in it has been accepted by the master before, and the requests are in the order of acceptance; and the values and errors reported to the master's application are exactly those the history yields when each request is carried out at its place in it. Every accepted request gets finished within a fixed time, and requests to nobody are reported as timed out. (Linearizability.)", "quantifier": "all infinite timed executions of the master and any number of slaves, all sequences of requests at any moments, all slave applications, all configurations with fitting times", "why_tests_cant": "Linearizability is a statement about all interleavings of requests, application writes, interrupts and main loops of several devices over infinite executions.", "anchors": ["src/modbus_master.c: update_modbus_master_manager, update_modbus_master_timout_timer", "src/modbus_slave.c: check_modbus_request", "examples/STM32G070RB_MODBUS_MASTER/Drivers/STM32G0_Drivers/modbus_driver_interface.c: MODBUS_USART_IRQHandler, MODBUS_TIMER_IRQHandler", "examples/STM32G070RB_MODBUS_SLAVE/Core/Src/modbus_driver_interface.c: MODBUS_USART_IRQHandler, MODBUS_TIMER_IRQHandler, slave_usart_send"]}
{"id": "C95", "title": "The two example programs do what they are for, in real time", "statement": "The example master program on its device and the example slave program on its device, joined by an undisturbed line, from power-on, for as long as they run (timing conditions of C74). In every such execution: all that the master's application is ever told is that coil 1 is off, that holding register 1 is 2002, and that coil 0 and holding register 0 were written - never a timeout, an exception or another value. Of the slave's variables only those behind coil 0 and holding register 0 ever change; in particular the LED's variable stays off. From a fixed time after a write of coil 0 was accepted, coil 0 of the slave equals its coil 1, for ever; from a fixed time after a write of holding register 0 was accepted (the value of register 1 having come in before), holding register 0 of the slave equals its holding register 1, for ever.", "quantifier": "all infinite timed executions of the two programs on their devices (all interrupt times, main loop times, tick phases), all configurations with fitting times and table sizes", "why_tests_cant": "It speaks about all schedules of two devices over unbounded time, and about 'for ever'.", "anchors": ["examples/STM32G070RB_MODBUS_MASTER/Core/Src/main.c: update_modbus_data, SysTick_Handler, main", "examples/STM32G070RB_MODBUS_MASTER/Core/Src/modbus_master_data_interface.c", "src/modbus_master.c: update_modbus_master_manager", "examples/STM32G070RB_MODBUS_SLAVE/Core/Src/main.c: register_modbus_data, update_LED, main", "src/modbus_slave.c: check_modbus_request", "src/slave_internall/modbus_slave_data.c: register_app_data_to_modbus_coils_din_table", "src/modbus_master.c: update_modbus_master_manager, update_modbus_master_timout_timer", "examples/STM32G070RB_MODBUS_MASTER/Drivers/STM32G0_Drivers/modbus_driver_interface.c: MODBUS_USART_IRQHandler, MODBUS_TIMER_IRQHandler", "examples/STM32G070RB_MODBUS_SLAVE/Core/Src/modbus_driver_interface.c: MODBUS_USART_IRQHandler, MODBUS_TIMER_IRQHandler, slave_usart_send"]}
