# Formal model of niwciu/MODBUS in Lean 4 — design

Subject: `/repo` (C library for Modbus RTU master and slave, `src/`, about 4.5k lines, and the STM32 example
drivers that implement the driver interface the library needs).

## 1. Layout

| directory | content |
|---|---|
| `lean/Verif/Model/` | the model of the C code, function by function, each definition citing file and lines |
| `lean/Verif/Spec/`  | small independent specifications: bit-by-bit CRC, Modbus application protocol, bounded FIFO, frames, line timing |
| `lean/Verif/Proofs/` | helper lemmas and invariants |
| `lean/Verif/Props/` | the property theorems (one file per group), with non-vacuity examples next to them |
| `lean/Verif/Conformance/` | the repository's own unit tests (`test/modbus/*_test.c`) replayed on the model: tests of the model, not proofs |

`COVERAGE.md` (generated by `tools/coverage.py` from the citations in the model) lists every C function of the
modelled files with the model definitions that cite it.

Property theorems are named `Cnn_...`; partial ones end in `_partial`; a theorem that shows that the code
violates the English claim ends in `_violated`.

## 2. Modelling conventions

* Integers: `uint8_t`/`uint16_t` stored in buffers are `BitVec 8`/`BitVec 16`; `modbus_buf_size_t`
  (`uint8_t`) lengths are `BitVec 8` (so that the wrap at 256 is visible); the C `int` promotions inside
  expressions are `Nat`/`Int`, with the narrowing cast written out where the code narrows.
* Undefined behaviour is an explicit outcome: `C α = Except UB α` with `UB` one of
  `oobRead`, `oobWrite`, `nullDeref`, `divZero`, `diverge`. Buffers are functions `Nat → U8` accessed only by
  checked `rd`/`wr` (index `< 256` or UB). Table accesses are checked against the configured table size.
* Pointers: application variables are identified by abstract pointers; a data table is `Nat → Option Ptr` and
  the application memory is two heaps (`Ptr → Bool`, `Ptr → U16`), so aliasing (two addresses registered to
  the same variable) is modelled. Buffers `data` are either NULL or point at a full 256 byte array.
* Configuration macros (`modbus_config.h`) are fields of a `Config` structure over which theorems quantify.
* Concurrency, three levels of granularity:
  1. *Library histories* (`Model/Slave.lean`, `Model/Master.lean`): an execution is a list of operations (API
     calls, polls, driver/timer callbacks, received bytes) in any order, each atomic.
  2. *Preemptible polls* (`Model/Preempt.lean`): a poll is a program (`Prog`) of single accesses to the state
     shared with interrupts; `runProg` lets any interrupts run between two accesses. C54/C56 prove which of
     these executions are histories of level 1 and exhibit those that are not. Assumed: one byte/bool access
     is atomic and is not moved by the compiler (the flags are not `volatile` in the source; the model takes
     the order of the source text).
  3. *Devices* (`Model/Driver.lean`): the library with the STM32G070RB example driver: the USART and timer interrupt
     handlers and the send/enable functions, with the hardware reduced to status bits (receive-not-empty,
     receiver time-out, transmit-empty), a receiver-enabled bit, a timer, and the line as the list of bytes
     written. C57–C66 are proved about these, by refinement to level 1 where possible (C61).
* Histories of a library or a device are `Except UB`: a run either returns (state, outputs) or stops at the first
  undefined behaviour; theorems say which.

## 3. Trusted base

* Lean 4.33.0's kernel; axioms at most `propext`, `Classical.choice`, `Quot.sound` (each property theorem is
  listed with `#print axioms` in the check script of section 6). No added axioms, no `native_decide`, no `bv_decide`.
* Faithfulness of the hand-written model to the C source (cited in comments). Nothing is executed.
* C semantics assumed: two's complement, 32 bit `int`, `bool` objects hold 0/1, no strict-aliasing trouble.

Modelled: `common/buf_rw.c`, `common/modbus_crc.c`, `common/modbus_PDU_common.c`, `common/modbus_RTU.c`,
`slave_internall/modbus_slave_data.c`, `slave_internall/modbus_slave_PDU.c`, `modbus_slave.c`,
`master_internall/modbus_queue.c`, `master_internall/modbus_master_PDU.c`, `modbus_master.c`, and of
the STM32G070RB examples the driver (`modbus_driver_interface.c`: interrupt logic, timing computations, register
set-up) and the application programs (`main.c`, `modbus_master_data_interface.c`, `LED_driver.c`).

Not modelled: ASCII mode (not implemented in the code either), hardware registers beyond the status bits
named in section 2 and the electrical line itself (a line is a list of bytes plus silences), CPU memory
ordering / compiler reordering of the non-atomic flags, the examples for other boards, the unit test mocks, the
application callbacks' own behaviour (their calls are recorded as outputs; what happens if they call the library is modelled for C80).

## 4. Properties: what is modelled and how it is proved

* **C01** table loop of `modbus_crc.c` as fold over bytes; spec = 8 shift/xor steps per bit. Table correct for all 256 indices (`decide` over the whole finite table, lifted), then induction on the byte list.
* **C02, C03, C07** `modbus_RTU_send`/`recv` on 256-byte buffers; CRC over the list of bytes in the buffer; residue lemma (CRC of message ++ its CRC is 0).
* **C04–C06** linearity of the CRC over GF(2): difference of two frames with same length; CRC-detects iff the error pattern's zero-init CRC is non-zero. Odd: parity functional invariant. Two flips: order of x modulo the polynomial is > 2048 (kernel-evaluated cycle). Burst: shift register injective.
* **C08–C16, C18** refinement: `parse_master_request_and_prepare_resp` = encode (Spec.respond (decode request) memory), never UB, by loop invariants for unbounded quantity/configuration; the rest are corollaries.
* **C17** FALSE. Negation with witness; exact effect (prefix written) proved.
* **C19** FALSE for short frames. Negation with witness; `_partial` when frame is as long as the function code requires.
* **C20–C26** slave state machine as `step : State → Op → C (State × List Out)`, executions = op lists; invariants by induction, C22/C23 with arbitrary interleaved polls. C24, C25 FALSE: negation with concrete histories; livelock proved for ever by induction. C24 also has the exact dichotomy (`Props/SlaveRecovery.lean`): after every history and three polls the slave is listening, busy or waiting; it recovers from the first two and is deaf for ever in the third; garbage of any content with paired events never leads to the third.
* **C27** UB outcomes of the state machine; invariant "driver and message pointers non NULL after RTU init".
* **C28** ring buffer refines a list with capacity bound, any capacity 1..255.
* **C29–C31** request builders; spec frame as list; C31 FALSE (leak), exact accounting proved.
* **C32–C36, C44** master state machine + accounting invariants over all op lists; C34 as structure theorem on the output trace.
* **C37, C43, C45, C46, C47** FALSE in general: witness + exact partial theorem.
* **C38–C42** response decoding refinement to spec.
* **C48, C49** composition of the master's frames with the slave parser and back.
* **C50** FALSE: completion reported inside the send call; level 2 model (`Model/Preempt.lean`), exact effect of a completion at each point of a poll.
* **C51** receive interrupt with its 8 bit length; safety half for every byte sequence, wrap-around half FALSE (universal theorem: an over-long frame is treated as its wrapped remainder).
* **C52** registration as map update.
* **C53** integer arithmetic of the example driver's timer set-up; divide by zero as UB outcome.
* **C54** commutation of interrupts with the accesses of a slave poll; every preempted history equals an atomic one.
* **C55** FALSE for short responses (witness); decoding of complete responses proved equal to the payload.
* **C56** FALSE at a few statements of the master's poll (witness for each); commutation everywhere else. At every placement,
  races included, a poll still equals an atomic poll up to flags, timer and response contents
  (`pollWith_explained`), hence the transaction discipline of C33–C36 and definedness hold unconditionally.
* **C57, C60** invariant relating bytes on the line, frame under way and library outputs; induction over arbitrary device histories.
* **C58, C59** schedules of `Spec/Wire.lean` (bytes, silence, polls anywhere), simulation of the slave device by the library's synchronised exchange (C22/C23).
* **C61** refinement: each device step is a (possibly empty) list of library operations.
* **C62, C64** schedules of `Spec/DeviceSchedule.lean`; forward simulation of each phase (send, transmit, wait, other slaves' frames, response, late noise), induction on the number of failed attempts; C64 composes with C58.
* **C65** `Spec/Session.lean`: rounds (calls of the main program, failed attempts, last attempt) and what each comes to; induction on the number of rounds, carrying the abstract queue (`Ghost`) and the flags left over from round to round; each round composes the phases of C62 and a phase for silence until the timeout.
* **C66** `Spec/Bus.lean`: slaves indexed by an arbitrary type, what each hears in each attempt (`Ear`), and the atomic reading (`BusTold`); induction on the session, each attempt by C58/C59 for every slave, the master's side by C65. `bus_simple` and `bus_from_init` give the purely sequential reading for the simplest schedule.
* **C67** registers as 32-bit words (`Model/DriverInit.lean`), their meaning after the reference manual (`Spec/Uart.lean`); bitwise reasoning for all rates; induction over the history of initialisations. FALSE for re-initialisation with other parameters (witness), exact contents proved.
* **C68** `Model/ExampleMaster.lean` (main loop, SysTick, data callbacks); histories as an inductive predicate (`Spec/Example.lean`); invariant relating the program's variables to the callbacks; definedness from the device-level `C43_device_defined`.
* **C69** `Model/ExampleSlave.lean` (registration, loop, LED); invariant on tables and constants; traffic by C58.
* **C70** infinite timed executions (`Spec/Timed.lean`); from the bookkeeping invariant each state is left within its own bound, attempts by the retry counter, requests by induction on the number of open ones; `timed_demo` constructs a punctual execution that never ends.
* **C71** infinite timed executions of the slave (`Spec/TimedSlave.lean`); induction over the 3.5-char events: before anything arrives after one, the slave is synchronised and every response completed (`rest_after`); one frame by `frame_cycle`; `slave_timed_demo` constructs a punctual execution that never ends.
* **C72** infinite timed executions of slave and driver (`Spec/TimedDevice.lean`: hardware timing and punctual environment); induction over the timer events: device and library are synchronised before anything arrives after one (`dev_rest`); one frame by `dev_cycle` on top of C58's phases; `device_timed_demo` constructs an infinite execution with a valid frame, its response and a frame with a gap.
* **C73** infinite timed executions of master and driver (`Spec/TimedMasterDevice.lean`): the events of the device are flattened into the operations the library experiences (`flatten_exists`, `evOps`), hardware, line and environment assumptions give `TimedRun.Punctual` for it (`device_punctual`), C70 gives the bound, the transmitter invariant `MWInv` the line; `master_device_timed_demo` constructs an infinite execution with an answered and an unanswered request.
* **C74** two timed devices joined by a line (`Spec/TimedBus.lean`: `Line`, `TimedBus`, `BusTimes.Fit`); nothing is assumed about quiet lines or timely answers: induction over the master's transmissions shows that when one begins both devices are at rest and the line is empty, follows the frame to the slave (`Proofs/BusChain`, `BusSlave`), the response back (`BusMaster`, `BusRound`, `BusAnswer`, `BusTold`) or the timeout (`BusSilence`) up to the next transmission (`BusRounds`); `bus_demo` (`Props/BusDemo.lean`) constructs an infinite execution of both devices meeting all hypotheses in which a register is written over the line.
* **C75** on top of C74: the ghost history of C33 along the master device's execution (`Proofs/BusRequests.lean`), a counter of finished requests for the bound.
* **C76** the times of two example boards as a function of the baud rate (`boardTimes`, `Props/BusShipped.lean`), from the modelled `get_ARR_value`/`get_RTOR_value` (C53); linear arithmetic shows that they satisfy `BusTimes.Fit` at every rate from 9600 up (and at none up to 5940), then C75 is instantiated. `boards_demo` (`Props/BusShippedDemo.lean`) is an execution of both devices at 115200 baud with the shipped configuration.
* **C77** the slave device with the position of its main program as part of the state (`Model/DeviceStatements.lean`): handlers run between any two statements of `check_modbus_request` and `slave_usart_send`. Infinite timed executions of it (`Spec/DeviceStatements.lean`). A simulation (`Proofs/StmtSim.lean`: `Sim` relates a position inside a poll with the uninterrupted device before or after its poll; `sim_stmt`, `sim_irq`) whose side conditions (no byte after the timer event, no end of transmission before the poll returns, no silence event while the flags are being cleared) are derived from the timing conditions by an invariant over the infinite execution (`Proofs/StmtDevice.lean`); the atomic execution `atom` is constructed step by step and shown to meet C72's conditions; C72 is then carried back. Demonstration: `stmt_timed_demo`.
* **C78** finite histories of the statement-by-statement slave device (`Spec/StmtWire.lean`); two invariants with an assertion per program position (`Proofs/StmtWire.lean`): `PInv` (definedness, holds always) and `TInv` (transmitter and line, stable unless the UART handler with TXE hits the two positions between the pointer assignments and the write to the transmit register). The excluded case is shown to be a violation for every response (`C78_bytes_swapped_violated`) and by a concrete history.
* **C79** the master device statement by statement (`Model/MasterStatements.lean`: polls as programs of atomic steps, with the driver's `send` opened, separate rows for the two transmit pointers, and a list of interrupts before every step). Each interrupted device poll is shown to be an interrupted poll of the library (`Tr`, `Proofs/MasterStmt*.lean`), so C56 applies (transactions, definedness); the line invariant `Line` is stable under every interrupt except TXE at the two marked steps between the pointer assignments and the write of the first byte. The excluded case is shown to be a violation for every history and request (`C79_bytes_swapped_violated`) and by a concrete history.
* **C80** `Model/Callbacks.lean` repeats the delivering part of the poll with every callback a call of application code, given as a script of library calls per callback, the library's state being read again after each. Invariant `MidPoll`: the state in the middle of the poll is the state before it after the same requests, and the requests change only the queues and message buffers other than the current one (`KeptBy`, from the ghost invariant `MInv`: the current buffer is not in the free queue). So each poll is a block of requests followed by an ordinary poll (`C80_poll`), histories translate (`C80_callback_requests`), and every theorem about ordinary histories applies. Nested polls are modelled to show what they break (`C80_nested_poll_forgets`, universal).
* **C81** `Model/ParseSteps.lean` opens the checksum loop and every function of the request parser: `ReqM` is the C code with each read of a request byte a separate step, before which any interrupts run (`toProg` makes it a program of the C54 machine). `ReqM.run` on a fixed buffer is the uninterrupted function (`run_*` lemmas), and a parse whose reads all lie below the received length of a complete frame is not disturbed by bytes appended after it (`Reads`, `Kept`), which gives the linearisation. One response per frame by a token argument (`Pays`). FALSE otherwise: universal theorems for function codes 3 and 4 (short frame, late byte) and a history from power-on.
* **C82** `Model/RespSteps.lean` opens the checksum loop and every function of the response reader (`RespM`: each read of a response byte and each callback is a step). A torn run makes the callbacks of some buffer contents (`torn_explained`), so each poll is an atomic one from a state that differs only in what interrupts write (`pollF_explained`) and the transaction invariant goes through at every schedule. For a complete response: every step of the poll commutes with the interrupts, so they can be deferred to its end (`Defers`). Verdict: the length is read once and the positions below it keep their contents. The longer statement (polls atomic) is FALSE for short responses: witness from power-on.
* **C83** the master device with the position of its main program (and the local variables that outlive a statement) as part of the state (`Model/MasterPc.lean`). `Proofs/MasterPcSim.lean` and `MasterPcStep.lean` give each poll the one statement at which it takes effect and show that interrupts before and after it commute with the statements around it, under an invariant of the positions (`MasterPcInv.lean`, `MasterPcHist.lean`) that the timing conditions maintain (`MasterPcTimed.lean`: the transmission outlasts the sending poll, the answer is over before the timeout, ticks are too far apart for two of them to fall into one poll). `MasterPcDevice.lean` builds the execution with uninterrupted polls and shows that it satisfies the hypotheses of C73, whose claim is then carried back. `Props/MasterPcDemo.lean`: an infinite execution with interrupts inside polls satisfies all hypotheses.
* **C84** FALSE for late polls: `late_discard` shows that discarding a foreign frame in the middle of the next one leaves the slave synchronised *in the middle of a frame*; two data bytes bring the CRC register of a foreign response back to its initial value (`crc_reset`), so that every own frame is the tail of a correct foreign response (`C84_foreign_response_executed`). With two polls in every pause: C23 iterated.
* **C85** `Spec/MultiBus.lean` puts the master's timed device execution and any family of slave executions on one medium (`Medium`: nothing is assumed about bytes that overlap; nobody hears what nobody writes; a clean byte reaches all others within `c0..c`, less than `s` apart). Proved by induction over the master's transmissions: at the start of a round all slaves are at rest (`Rest`) and nobody transmits; `Phase`/`Got` follow the bytes of a request through every slave; only the addressed slave writes before the master's next transmission (`phase_one`, `answers`), hence nothing clashes; foreign requests and responses are discarded before the next frame begins because two polls fit into `c0` (C84 shows that this is necessary). `C85_line_in_time`; `line_demo` is an execution with two slaves that meets all hypotheses.
* **C86** `every_request` (Proofs/BusRequests.lean) turns per-transmission outcomes with a time bound (`Outcomes`) into a statement about all requests accepted; C75 and C86 are its instances for one slave and for a line of slaves (`BusTx.OnLine`).
* **C87** FALSE at 115200 baud with the main loops of C76: `C87_slow_loop_violated` is a complete timed execution (tables in `Props/MultiLate.lean`, generated by `tools/linetables.py`, checked by the kernel through `Proofs/LineTable.lean`) in which slave 10 executes the second half of slave 9's read response. What holds: `C87_board_times_fit_partial` (the times fit C85 when two polls and 60 µs are shorter than ten bits) and `C87_boards_on_the_line_partial`; `line_boards_demo` meets the hypotheses at 9600 baud.
* **C88** FALSE: `C88_counter_violated` (a request between the read and the write of `items_in_queue--` ends in a null pointer dereference), `C88_two_requests_violated` (two requests between the counter and the head of the free queue: a message is lost for good). `Model/QueueSteps.lean` splits the queue functions called by a poll into single accesses (a counter update is a read and a write) and lets request calls run between any two of them; the request functions themselves are not interrupted, the driver's interrupts are left out (C56, C83 have them). What holds: in a history that is `WellTimed` (at most one request between two accesses, none inside a counter update) every poll with requests is an ordinary poll with some of the requests before and the others after it (`C88_poll_partial`, `C88_requests_in_interrupts_partial`), hence C34/C35/C44 (`C88_transactions_partial`) and C43 (`C88_defined_partial`); without requests the split poll is the poll of the base model (`C88_uninterrupted`). Proof: the rest of the poll is run symbolically from every point of the queue functions; the pending effect of a half-done `push`/`pop` is shown to commute with one request.
* **C89** `Props/Repeat.lean`: the effect of a request is idempotent (`effect_again`: storing the same elements in the same order again changes nothing, aliasing included), the exception due depends on the tables only; lifted to the parser (`C89_repeat_same_answer`), to a synchronised slave that hears a frame any number of times (`C89_repeats_harmless`) and, with the failed attempts of the master, end to end (`C89_retries_end_to_end`).
* **C90** FALSE: `C90_byte_during_init_violated` (a byte complete between `UE` and the subscription of the end of transmission: the handler finds TXE set and calls NULL), likewise for the two silences. `Model/Boot.lean` executes `modbus_slave_init` statement by statement with the interrupt enabling bits and the driver's pointers explicit: a handler runs only if an enabled interrupt is pending, and follows whatever pointer it finds. Proved (`C90_init_in_time_partial`): every history in which nothing is complete on the line before the callback it leads to is subscribed (`BootInTime`, a condition on the events only) is defined and is, for the library, a history of its own with the same calls, the same transmissions, and bytes that arrived; the initialisation is one event of that history at its last statement, with callbacks that came during it after it (`survivors`). A silence or a byte out of time is in that history only if the events contain such a silence (`SOp.Why`; the mutants that let the initialisation set the flags it must clear survived before this was added). `C90_device_partial`: after the initialisation the device does, event for event (`bootSeen`), what the device of `Model/Driver.lean` does, with the same outputs and the same library, driver pointers and flags; `C90_hears_partial`: the interrupt enabling bits are then all on (`BOn`), and a byte, 1.5 and 3.5 characters of silence reach the library as soon as their handler runs (a mutant that never enables the receive interrupt satisfied the histories alone).
* **C91** FALSE: `C91_noise_before_first_request_violated`: after any history in which the UART's interrupt has been enabled and no frame has been handed to the driver, a byte and 1.5 characters of silence end in a null pointer dereference. `Model/BootMaster.lean` executes `modbus_master_init` statement by statement (library part and driver part), then the whole device, handlers following the pointers they find. Proved (`C91_quiet_before_first_request_partial`): every history in which no silence ends a reception before the first request is defined and is, for the library, a history that begins with its initialisation, with exactly the calls after its last statement, the same outputs, and bytes that arrived; or it ends at the poll of C43. `C91_device_partial`: the driver's variables too are those of a history of the device of `Model/Driver.lean`, hence (`C91_line_carries_requests_partial`) the line carries the frames of accepted requests and nothing else from power-on. `C91_hears_partial` (added because dropping `RXNEIE` from the send function survived): once a frame has been handed to the driver, a received byte is in the response buffer of the message the driver receives into as soon as the UART handler has run.
* **C92** FALSE: `Props/Broadcast.lean`, from C23 (frames for others), C89 and C37: a synchronised slave with address ≠ 0 drops every broadcast and its data stay as they are, whatever the request would have changed; a slave initialised with address 0 answers it; the master reports a timeout. Proved: no slave with address ≠ 0 answers a broadcast (`C92_broadcast_unanswered_partial`).
* **C93** `Props/Mirror.lean`: the two example programs (models of C68 and C69) on one bus (C66), from power-on. `Spec/Mirror.lean`: what a master can see of the slave's data before and after a round. Assumed: queue of at least 4 messages, nothing queued, a round due, the four requests answered in the end. Retried requests are executed again without harm (C89). Not modelled: the UART settings; as shipped the master uses odd parity and the slave none, so the boards need the same setting first. Witness `C93_happens`.
* **C94** `Props/Serial.lean`: linearizability of the timed line, one slave (C74/C75) and several (C85/C86). `Spec/Serial.lean`: a history of a slave's data is a list of `Act`s (an operation of the slave's application, or a request); `runActs` gives data and reports; `SerialSlave`/`SerialLine` say what it has to do with the execution (real-time order included: by comparing times of master and slave events). Proof: the history is built along the slave's events; the requests in it are those of the master's bookkeeping (`bus_inv_seq`, a growing list of finished transactions, each transmission among them or in progress). Witness `C94_happens`.
* **C95** `Props/ExamplesLive.lean`: the two example programs in real time. `Spec/ExamplesLive.lean`: the timed executions of C74 whose events are those of executions of `exMain` and `xMain`. Proof: the slave's program registers first and then polls, so a history of C94 is registrations, then requests; every request of the master belongs to a round of what it has read (`ExHistory`); the four requests keep everything but coil 0 and register 0; what follows an accepted write in the history was asked for after it. Non-vacuity (`Props/ExamplesLiveDemo.lean`, `Props/ExamplesLiveHappens.lean`, `C95_happens`): an infinite execution of both programs at 115200 baud with the shipped configuration (1200 idle events, a table of 181 events of the master and 137 of the slave, an idle tail); all hypotheses hold, the four requests are carried out and reported, coil 0 changes from on to off.
* **C63** FALSE after a 1.5-char event while idle (universal theorem); proved for all other events.

## 5. Disagreements between code and documentation found while modelling

See the `_violated` theorems; the list is kept in section 4 (entries marked FALSE).

## 6. Checking

Is the model the code? Three things support it besides reading: every definition cites the lines it models; the repository's
unit tests (about 230 `TEST`s of 12 files, with the configuration of the unit-test build) are replayed on the model in
`lean/Verif/Conformance/` and give the values the C tests assert (left out: assertions on the mock UART itself, NULL message
pointers that no caller passes, four tests the runner skips, and one with 1968 coils that is too large for kernel evaluation); and
the seeded bugs below show that the theorems notice when the model is changed.


`cd lean && lake build`; `vcheck`; `grep` for forbidden words; `#print axioms` on each theorem of `MANIFEST.json`.
`tools/anchors.py` checks that every anchor of `properties.jsonl` exists in `/repo`; `tools/manifest.py` writes
`MANIFEST.json`.

Seeded bugs (`seeded/LOG.jsonl`): a scratch copy of `lean/` outside `/verif`; one edit of a model definition per
mutant; every module is then re-elaborated with error recovery (a module that fails does not hide the ones
that import it: statements whose proof fails are kept as failed), and each theorem of the manifest is recorded as
failed if its own proof, or a lemma its proof depends on, no longer checks. `tools/seedlog.py` turns the results into the log.
