# Which C functions the model covers

Generated by `tools/coverage.py` from the citations in `lean/Verif/Model/`: a definition is listed for a function if its comment names the function or cites lines of it.

| file | function | lines | definitions |
|---|---|---|---|
| src/common/buf_rw.c | `write_u16_to_buf` | 26-30 | BufRw.`hiByte`, BufRw.`loByte`, BufRw.`writeU16` |
| src/common/buf_rw.c | `read_u16_from_buf` | 41-44 | BufRw.`u16of`, BufRw.`readU16`, ParseSteps.`readReqU16`, RespSteps.`readRespU16` |
| src/common/modbus_PDU_common.c | `get_coil_din_byte_count` | 25-35 | PduCommon.`coilDinByteCount` |
| src/common/modbus_PDU_common.c | `clear_coil_din_status_byte` | 46-52 | PduCommon.`clearLoop`, PduCommon.`clearStatusBytes` |
| src/common/modbus_RTU.c | `modbus_RTU_send` | 41-61 | Rtu.`rtuSend` |
| src/common/modbus_RTU.c | `modbus_RTU_recv` | 78-90 | ParseSteps.`rtuRecvR`, RespSteps.`masterAfterRecvP`, Rtu.`rtuRecv` |
| src/common/modbus_crc.c | `calculate_CRC` | 48-59 | Crc.`crcByte`, Crc.`crcLoop`, Crc.`calculateCRC`, Crc.`crcList`, ParseSteps.`crcLoopR` |
| src/master_internall/modbus_master_PDU.c | `modbus_master_read_holding_reg_req` | 88-98 | MasterPdu.`readHoldingRegReq` |
| src/master_internall/modbus_master_PDU.c | `modbus_master_read_input_reg_req` | 113-123 | MasterPdu.`readInputRegReq` |
| src/master_internall/modbus_master_PDU.c | `modbus_master_read_discrete_inputs_req` | 138-148 | MasterPdu.`readDiscreteInputsReq` |
| src/master_internall/modbus_master_PDU.c | `modbus_master_read_coils_req` | 163-173 | MasterPdu.`readCoilsReq` |
| src/master_internall/modbus_master_PDU.c | `modbus_master_write_single_reg_req` | 188-203 | MasterPdu.`writeSingleRegReq` |
| src/master_internall/modbus_master_PDU.c | `modbus_master_write_single_coil_req` | 218-233 | MasterPdu.`writeSingleCoilReq` |
| src/master_internall/modbus_master_PDU.c | `modbus_master_write_multiple_reg_req` | 250-279 | MasterPdu.`callerRd`, MasterPdu.`reqRegsBody`, MasterPdu.`writeMultipleRegReq` |
| src/master_internall/modbus_master_PDU.c | `modbus_master_write_multiple_coils_req` | 296-325 | MasterPdu.`callerRd`, MasterPdu.`reqCoilsBody`, MasterPdu.`writeMultipleCoilsReq` |
| src/master_internall/modbus_master_PDU.c | `modbus_master_read_slave_resp` | 341-355 | Callbacks.`readSlaveRespCb`, Master.`masterCorrect`, MasterPdu.`readSlaveResp`, RespSteps.`readSlaveRespR`, RespSteps.`masterCorrectF` |
| src/master_internall/modbus_master_PDU.c | `modbus_master_read_coils_resp` | 368-371 | Callbacks.`respMapperCb`, MasterPdu.`respMapper`, RespSteps.`respMapperR` |
| src/master_internall/modbus_master_PDU.c | `modbus_master_read_discrete_inputs_resp` | 383-386 | Callbacks.`respMapperCb`, MasterPdu.`respMapper`, RespSteps.`respMapperR` |
| src/master_internall/modbus_master_PDU.c | `modbus_master_read_input_reg_resp` | 398-402 | Callbacks.`respMapperCb`, MasterPdu.`respMapper`, RespSteps.`respMapperR` |
| src/master_internall/modbus_master_PDU.c | `modbus_master_read_holding_reg_resp` | 414-417 | Callbacks.`respMapperCb`, MasterPdu.`respMapper`, RespSteps.`respMapperR` |
| src/master_internall/modbus_master_PDU.c | `modbus_master_write_single_coil_resp` | 429-432 | Callbacks.`respMapperCb`, MasterPdu.`respMapper`, RespSteps.`respMapperR` |
| src/master_internall/modbus_master_PDU.c | `modbus_master_write_single_reg_resp` | 443-446 | Callbacks.`respMapperCb`, MasterPdu.`respMapper`, RespSteps.`respMapperR` |
| src/master_internall/modbus_master_PDU.c | `modbus_master_write_multiple_coils_resp` | 458-461 | Callbacks.`respMapperCb`, MasterPdu.`respMapper`, RespSteps.`respMapperR` |
| src/master_internall/modbus_master_PDU.c | `modbus_master_write_multiple_reg_resp` | 472-475 | Callbacks.`respMapperCb`, MasterPdu.`respMapper`, RespSteps.`respMapperR` |
| src/master_internall/modbus_master_PDU.c | `read_reg_request` | 491-505 | MasterPdu.`readRegRequest` |
| src/master_internall/modbus_master_PDU.c | `modbus_get_max_len_2_read` | 516-533 | MasterPdu.`maxLenToRead` |
| src/master_internall/modbus_master_PDU.c | `update_master_data_from_modbus_msg` | 549-577 | Callbacks.`updateMasterDataCb`, MasterPdu.`updateMasterData`, RespSteps.`updateMasterDataR` |
| src/master_internall/modbus_master_PDU.c | `update_master_coils_frmo_modbus_msg` | 591-604 | Callbacks.`deliverBitBodyCb`, Callbacks.`deliverBitsCb`, MasterPdu.`deliverBitBody`, MasterPdu.`deliverBits`, RespSteps.`deliverBitsR` |
| src/master_internall/modbus_master_PDU.c | `update_master_dis_in_from_modbus_msg` | 619-632 | Callbacks.`deliverBitBodyCb`, Callbacks.`deliverBitsCb`, MasterPdu.`deliverBitBody`, MasterPdu.`deliverBits`, RespSteps.`deliverBitsR` |
| src/master_internall/modbus_master_PDU.c | `update_input_reg_from_modbus_msg` | 646-653 | Callbacks.`deliverRegBodyCb`, Callbacks.`deliverRegsCb`, MasterPdu.`deliverRegBody`, MasterPdu.`deliverRegs`, RespSteps.`deliverRegsR` |
| src/master_internall/modbus_master_PDU.c | `update_holding_reg_from_modbus_msg` | 667-674 | Callbacks.`deliverRegBodyCb`, Callbacks.`deliverRegsCb`, MasterPdu.`deliverRegBody`, MasterPdu.`deliverRegs`, RespSteps.`deliverRegsR` |
| src/master_internall/modbus_master_PDU.c | `report_write_operation_confirmation` | 688-712 | Callbacks.`reportWriteConfirmationCb`, MasterPdu.`reportWriteConfirmation`, RespSteps.`reportWriteConfirmationR` |
| src/master_internall/modbus_master_PDU.c | `check_null_ptr_correctness` | 728-739 | MasterPdu.`checkNullPtr` |
| src/master_internall/modbus_master_PDU.c | `modbus_response_contain_exception_code` | 754-757 | MasterPdu.`respContainsException` |
| src/master_internall/modbus_master_PDU.c | `process_modbus_exception_code` | 773-784 | Callbacks.`processExceptionCb`, MasterPdu.`processException`, RespSteps.`processExceptionR` |
| src/master_internall/modbus_master_PDU.c | `send_exception_code_report_data` | 800-825 | MasterPdu.`sendExceptionReport` |
| src/master_internall/modbus_master_PDU.c | `process_modbus_response` | 838-852 | Callbacks.`respMapperLoopCb`, Callbacks.`readSlaveRespCb`, MasterPdu.`respMapperLoop`, MasterPdu.`processResponse`, RespSteps.`respMapperLoopR`, RespSteps.`processResponseR` |
| src/master_internall/modbus_queue.c | `modbus_queue_init` | 27-33 | Queue.`Queue.init` |
| src/master_internall/modbus_queue.c | `modbus_queue_push` | 50-75 | Queue.`slotWr`, Queue.`Queue.push`, QueueSteps.`pushSlot`, QueueSteps.`pushCount`, QueueSteps.`pushFreeQ` |
| src/master_internall/modbus_queue.c | `modbus_queue_pop` | 86-113 | Queue.`slotWr`, Queue.`slotRd`, Queue.`Queue.pop`, QueueSteps.`popTakeQ`, QueueSteps.`popTxQ` |
| src/modbus_master.c | `modbus_master_read_coils` | 149-153 | BootMaster.`mbootStep`, Callbacks.`appCalls`, Driver.`HMOp`, Master.`MReq`, Master.`MReq.param`, Master.`MOp`, QueueSteps.`reqInt` |
| src/modbus_master.c | `modbus_master_read_discrete_inputs` | 169-173 | BootMaster.`mbootStep`, Callbacks.`appCalls`, Driver.`HMOp`, Master.`MReq`, Master.`MReq.param`, Master.`MOp`, QueueSteps.`reqInt` |
| src/modbus_master.c | `modbus_master_read_input_reg` | 189-193 | BootMaster.`mbootStep`, Callbacks.`appCalls`, Driver.`HMOp`, Master.`MReq`, Master.`MReq.param`, Master.`MOp`, QueueSteps.`reqInt` |
| src/modbus_master.c | `modbus_master_read_holding_reg` | 209-213 | BootMaster.`mbootStep`, Callbacks.`appCalls`, Driver.`HMOp`, Master.`MReq`, Master.`MReq.param`, Master.`MOp`, QueueSteps.`reqInt` |
| src/modbus_master.c | `modbus_master_write_single_coil` | 229-233 | BootMaster.`mbootStep`, Callbacks.`appCalls`, Driver.`HMOp`, Master.`MReq`, Master.`MReq.param`, Master.`MOp`, QueueSteps.`reqInt` |
| src/modbus_master.c | `modbus_master_write_single_reg` | 249-253 | BootMaster.`mbootStep`, Callbacks.`appCalls`, Driver.`HMOp`, Master.`MReq`, Master.`MReq.param`, Master.`MOp`, QueueSteps.`reqInt` |
| src/modbus_master.c | `modbus_master_write_multiple_reg` | 270-274 | BootMaster.`mbootStep`, Callbacks.`appCalls`, Driver.`HMOp`, Master.`MReq`, Master.`MReq.param`, Master.`MOp`, QueueSteps.`reqInt` |
| src/modbus_master.c | `modbus_master_write_multiple_coils` | 291-295 | BootMaster.`mbootStep`, Callbacks.`appCalls`, Driver.`HMOp`, Master.`MReq`, Master.`MReq.param`, Master.`MOp`, QueueSteps.`reqInt` |
| src/modbus_master.c | `modbus_master_init` | 311-336 | BootMaster.`MInitStmt`, BootMaster.`masterInitStmts`, BootMaster.`MInitStmt.lib`, BootMaster.`mbootStep`, Driver.`HMOp`, Master.`Master`, Master.`MOp`, Master.`masterInit` |
| src/modbus_master.c | `update_modbus_master_manager` | 351-374 | BootMaster.`mbootStep`, Callbacks.`appCalls`, Callbacks.`masterPollCb`, Driver.`HMOp`, Master.`MOp`, Master.`masterPoll`, MasterPc.`MPc`, MasterPc.`masterStmt`, MasterPc.`MSEv`, MasterStatements.`masterDevPollP`, Preempt.`masterPollP`, QueueSteps.`masterPollQ`, RespSteps.`masterPollF` |
| src/modbus_master.c | `update_modbus_master_timout_timer` | 385-391 | BootMaster.`mbootStep`, Driver.`HMOp`, Master.`MOp`, Master.`masterStep`, MasterStatements.`masterDevInt`, Preempt.`MEv` |
| src/modbus_master.c | `modbus_master_send_req_from_msg_buf` | 402-408 | BootMaster.`MasterBoot`, BootMaster.`mbootSend`, BootMaster.`mbootSends`, Driver.`masterSends`, Master.`MOut`, Master.`masterSend`, Master.`curMsg`, MasterPc.`MPc`, MasterPc.`masterStmt`, MasterStatements.`masterSendArgs`, MasterStatements.`masterDevSendP`, Preempt.`masterDrvSend`, Preempt.`masterEnableRx`, Preempt.`masterSendP`, QueueSteps.`masterSendQ` |
| src/modbus_master.c | `register_msg_req_resp_data_buffers` | 422-441 | BootMaster.`MInitStmt`, BootMaster.`MInitStmt.lib`, Master.`Master`, Master.`masterInit` |
| src/modbus_master.c | `push_all_available_msg_buffer_to_free_queue` | 453-461 | BootMaster.`MInitStmt`, BootMaster.`MInitStmt.lib`, Master.`pushAllLoop`, Master.`masterInit` |
| src/modbus_master.c | `generate_request` | 484-505 | Master.`MOut`, Master.`generateRequest`, MasterPdu.`checkNullPtr`, QueueSteps.`reqInt` |
| src/modbus_master.c | `generate_request_PDU_data` | 522-534 | Master.`reqMapperLoop`, Master.`generatePdu` |
| src/modbus_master.c | `modbus_master_enable_resp_timeout_timer` | 543-546 | Master.`Master` |
| src/modbus_master.c | `modbus_master_disable_resp_timeout_timer` | 555-558 | BootMaster.`MInitStmt`, Master.`Master` |
| src/modbus_master.c | `modbus_master_req_sended_callback` | 571-574 | BootMaster.`mbootIrqTx`, Master.`MOp`, Master.`masterStep`, Preempt.`MEv`, Preempt.`masterInt` |
| src/modbus_master.c | `modbus_master_T_1_5_char_expired_callback` | 586-589 | BootMaster.`mbootIrqRto`, Master.`MOp`, Master.`masterStep`, Preempt.`MEv`, Preempt.`masterInt` |
| src/modbus_master.c | `modbus_master_T_3_5_char_expired_callback` | 601-604 | BootMaster.`mbootIrqTimer`, Master.`MOp`, Master.`masterStep`, Preempt.`MEv`, Preempt.`masterInt` |
| src/modbus_master.c | `modbus_master_frame_error_callback` | 616-619 | BootMaster.`mbootIrqRx`, Master.`MOp`, Master.`masterStep`, Preempt.`MEv`, Preempt.`masterInt` |
| src/modbus_master.c | `check_data_to_send_availability` | 631-634 | Queue.`Queue.available`, QueueSteps.`masterIdleQ` |
| src/modbus_master.c | `modbus_master_idle_state_handling` | 647-654 | Master.`masterIdle`, MasterPc.`MPc`, MasterPc.`masterStmt`, MasterStatements.`masterDevIdleP`, Preempt.`masterIdleP`, QueueSteps.`masterIdleQ` |
| src/modbus_master.c | `modbus_master_transmitting_state_handling` | 667-675 | Master.`clearRespLen`, Master.`masterTransmitting`, MasterPc.`MPc`, MasterPc.`masterStmt`, Preempt.`masterTransmittingP`, QueueSteps.`masterTransmittingQ` |
| src/modbus_master.c | `modbus_master_resp_waiting_state_handling` | 688-699 | Callbacks.`masterTimeoutCb`, Callbacks.`masterWaitingCb`, Master.`masterWaiting`, MasterPc.`MPc`, MasterPc.`masterStmt`, Preempt.`masterTimeoutP`, Preempt.`masterWaitingP`, QueueSteps.`masterTimeoutQ`, QueueSteps.`masterWaitingQ`, RespSteps.`masterWaitingF` |
| src/modbus_master.c | `modbus_master_resp_timeout_handle` | 715-724 | Callbacks.`masterTimeoutCb`, Master.`curMsg`, Master.`masterTimeoutReport`, MasterPc.`MPc`, MasterPc.`masterStmt`, Preempt.`masterTimeoutP`, QueueSteps.`masterTimeoutQ` |
| src/modbus_master.c | `modbus_master_RTU_recv_state_handle` | 743-765 | Master.`clearRespLen`, Master.`curMsg`, Master.`masterRecv`, MasterPc.`MPc`, MasterPc.`masterStmt`, Preempt.`masterRecvP`, QueueSteps.`masterRecvQ`, RespSteps.`masterAfterRecvP`, RespSteps.`masterRecvF` |
| src/modbus_master.c | `modbus_master_resp_recived_state_handling` | 782-800 | Callbacks.`masterReceivedCb`, Master.`masterReceived`, MasterPc.`MPc`, MasterPc.`masterStmt`, Preempt.`masterReceived3P`, Preempt.`masterReceivedP`, QueueSteps.`masterReceived3Q`, QueueSteps.`masterReceivedQ`, RespSteps.`masterReceived3F`, RespSteps.`masterReceivedF` |
| src/modbus_master.c | `modbus_master_msg_recived_correctly_state_handle` | 811-815 | Callbacks.`masterCorrectCb`, Master.`masterCorrect`, MasterPc.`MPc`, MasterPc.`masterStmt`, MasterPdu.`checkNullPtr`, Preempt.`masterCorrectP`, QueueSteps.`masterCorrectQ`, RespSteps.`masterCorrectF` |
| src/modbus_master.c | `modbus_master_RTU_CRC_error_state_handling` | 831-850 | Callbacks.`masterCrcErrorCb`, Master.`clearRespLen`, Master.`masterCommReport`, Master.`masterCrcError`, MasterPc.`MPc`, MasterPc.`clearErr`, MasterPc.`masterStmt`, Preempt.`masterCommP`, Preempt.`masterCrcErrorP`, QueueSteps.`masterCommQ`, QueueSteps.`masterCrcErrorQ` |
| src/modbus_master.c | `modbus_master_frame_error_state_handling` | 866-885 | Callbacks.`masterFrameErrorCb`, Master.`clearRespLen`, Master.`masterCommReport`, Master.`masterFrameError`, MasterPc.`MPc`, MasterPc.`clearErr`, MasterPc.`masterStmt`, Preempt.`masterCommP`, Preempt.`masterFrameErrorP`, QueueSteps.`masterCommQ`, QueueSteps.`masterFrameErrorQ` |
| src/modbus_master.c | `modbus_master_msg_process_end` | 898-903 | Callbacks.`processEndCb`, Master.`masterProcessEnd`, MasterPc.`MPc`, MasterPc.`masterStmt`, Preempt.`masterProcessEndP`, Preempt.`masterTimeoutP`, QueueSteps.`masterProcessEndQ`, QueueSteps.`masterTimeoutQ` |
| src/modbus_slave.c | `register_app_data_to_modbus_slave_coils_table` | 66-69 | Boot.`bootStep`, Driver.`HOp`, Slave.`TabSel`, Slave.`SOp`, Slave.`slaveRegister` |
| src/modbus_slave.c | `register_app_data_to_modbus_slave_din_table` | 79-82 | Boot.`bootStep`, Driver.`HOp`, Slave.`TabSel`, Slave.`SOp`, Slave.`slaveRegister` |
| src/modbus_slave.c | `register_app_data_to_modbus_slave_inreg_table` | 92-95 | Boot.`bootStep`, Driver.`HOp`, Slave.`TabSel`, Slave.`SOp`, Slave.`slaveRegister` |
| src/modbus_slave.c | `register_app_data_to_modbus_slave_hreg_table` | 105-108 | Boot.`bootStep`, Driver.`HOp`, Slave.`TabSel`, Slave.`SOp`, Slave.`slaveRegister` |
| src/modbus_slave.c | `modbus_slave_init` | 121-126 | Boot.`InitStmt`, Boot.`slaveInitStmts`, Boot.`bootStep`, Driver.`HOp`, ExampleSlave.`xMain`, Slave.`SOp`, Slave.`slaveInit` |
| src/modbus_slave.c | `check_modbus_request` | 137-154 | Boot.`bootStep`, DeviceStatements.`SPc`, DeviceStatements.`slaveStmt`, DeviceStatements.`SDEv`, Driver.`HOp`, ExampleSlave.`XSlave`, ParseSteps.`slavePollF`, Preempt.`slavePollP`, Slave.`SOp`, Slave.`slavePoll` |
| src/modbus_slave.c | `handle_modbus_slave_idle_state` | 162-175 | DeviceStatements.`SPc`, DeviceStatements.`slaveStmt`, ParseSteps.`slaveIdleF`, Preempt.`slaveIdleP`, Slave.`slaveIdle` |
| src/modbus_slave.c | `handle_modbus_slave_msg_recived_state` | 184-206 | Boot.`bootSends`, DeviceStatements.`SPc`, DeviceStatements.`slaveStmt`, Driver.`HOut`, Driver.`slaveSends`, ParseSteps.`slaveParseF`, ParseSteps.`slaveAnswerF`, ParseSteps.`slaveMsgReceivedF`, Preempt.`slaveReqLen0`, Preempt.`slaveDropP`, Preempt.`slaveAnswerP`, Preempt.`slaveMsgReceivedP`, Slave.`SOut`, Slave.`slaveParse`, Slave.`slaveFrame`, Slave.`slaveDriverSend`, Slave.`slaveMsgReceived` |
| src/modbus_slave.c | `handle_modbus_slave_transmitting_resp_state` | 214-222 | DeviceStatements.`SPc`, DeviceStatements.`slaveStmt`, Preempt.`slaveReqLen0`, Preempt.`slaveRespLen0`, Preempt.`slaveTransmittingP`, Slave.`slaveTransmitting` |
| src/modbus_slave.c | `handle_modbus_slave_default_state` | 230-239 | DeviceStatements.`SPc`, DeviceStatements.`slaveStmt`, Preempt.`slaveReqLen0`, Preempt.`slaveRespLen0`, Preempt.`slaveDefaultP`, Slave.`slaveDefault` |
| src/modbus_slave.c | `init_modbus_data_buffers_and_queues` | 249-253 | Boot.`InitStmt`, Boot.`slaveInitStmts`, Boot.`SlaveBoot.exec`, Slave.`slaveInit` |
| src/modbus_slave.c | `register_msg_req_resp_data_buffers` | 263-270 | Boot.`InitStmt`, Boot.`SlaveBoot.exec`, Master.`masterInit`, Slave.`slaveInit`, Slave.`Slave.reqData`, Slave.`Slave.respData` |
| src/modbus_slave.c | `init_modbus_driver` | 282-299 | Boot.`InitStmt`, Boot.`slaveInitStmts`, Boot.`SlaveBoot.exec`, Slave.`Slave`, Slave.`slaveInit` |
| src/modbus_slave.c | `init_modbus_slave_internall_data` | 309-319 | Boot.`InitStmt`, Boot.`slaveInitStmts`, Boot.`SlaveBoot.exec`, Slave.`slaveInit` |
| src/modbus_slave.c | `modbus_resp_send_callback` | 327-330 | Boot.`bootIrqTx`, Preempt.`SEv`, Preempt.`slaveInt`, Slave.`SOp`, Slave.`slaveStep` |
| src/modbus_slave.c | `modbus_T_1_5_char_expired_callback` | 338-341 | Boot.`bootIrqRto`, Preempt.`SEv`, Preempt.`slaveInt`, Slave.`SOp`, Slave.`slaveStep` |
| src/modbus_slave.c | `modbus_T_3_5_char_expired_callback` | 349-352 | Boot.`bootIrqTimer`, Preempt.`SEv`, Preempt.`slaveInt`, Slave.`SOp`, Slave.`slaveStep` |
| src/modbus_slave.c | `modbus_frame_error_callback` | 360-363 | Boot.`bootIrqRx`, Preempt.`SEv`, Preempt.`slaveInt`, Slave.`SOp`, Slave.`slaveStep` |
| src/slave_internall/modbus_slave_PDU.c | `parse_master_request_and_prepare_resp` | 80-109 | ParseSteps.`parseRequestR`, ParseSteps.`slaveParseF`, Slave.`slaveParse`, SlavePdu.`parseRequest` |
| src/slave_internall/modbus_slave_PDU.c | `modbus_slave_read_coils` | 123-135 | ParseSteps.`slaveReadCoilsR`, SlavePdu.`slaveReadCoils` |
| src/slave_internall/modbus_slave_PDU.c | `handle_slave_read_coil_service` | 148-168 | ParseSteps.`readCoilServiceR`, SlavePdu.`readCoilBody`, SlavePdu.`readCoilService` |
| src/slave_internall/modbus_slave_PDU.c | `modbus_slave_read_discrete_inputs` | 184-194 | ParseSteps.`slaveReadDiscreteInputsR`, SlavePdu.`slaveReadDiscreteInputs` |
| src/slave_internall/modbus_slave_PDU.c | `handle_slave_read_discrete_inputs_service` | 211-234 | ParseSteps.`readDinServiceR`, SlavePdu.`readDinBody`, SlavePdu.`readDinService` |
| src/slave_internall/modbus_slave_PDU.c | `modbus_slave_read_holding_reg` | 249-259 | ParseSteps.`slaveReadHoldingRegR`, SlavePdu.`slaveReadHoldingReg` |
| src/slave_internall/modbus_slave_PDU.c | `handle_slave_read_holding_reg_service` | 275-297 | ParseSteps.`readRegServiceR`, SlavePdu.`readRegBody`, SlavePdu.`readRegService` |
| src/slave_internall/modbus_slave_PDU.c | `modbus_slave_read_input_reg` | 314-324 | ParseSteps.`slaveReadInputRegR`, SlavePdu.`slaveReadInputReg` |
| src/slave_internall/modbus_slave_PDU.c | `handle_slave_read_input_reg_service` | 340-361 | ParseSteps.`readRegServiceR`, SlavePdu.`readRegBody`, SlavePdu.`readRegService` |
| src/slave_internall/modbus_slave_PDU.c | `modbus_slave_write_single_coil` | 376-390 | ParseSteps.`slaveWriteSingleCoilR`, SlavePdu.`slaveWriteSingleCoil` |
| src/slave_internall/modbus_slave_PDU.c | `check_write_single_coil_req_data_correctness` | 406-422 | SlavePdu.`checkWriteSingleCoil` |
| src/slave_internall/modbus_slave_PDU.c | `handle_slave_write_single_coil_service` | 437-452 | SlavePdu.`writeSingleCoilService` |
| src/slave_internall/modbus_slave_PDU.c | `modbus_slave_write_multiple_coils` | 466-490 | ParseSteps.`slaveWriteMultipleCoilsR`, SlavePdu.`slaveWriteMultipleCoils` |
| src/slave_internall/modbus_slave_PDU.c | `modbus_slave_write_single_reg` | 504-520 | ParseSteps.`slaveWriteSingleRegR`, SlavePdu.`slaveWriteSingleReg` |
| src/slave_internall/modbus_slave_PDU.c | `handle_slave_write_single_reg_service` | 534-550 | ParseSteps.`writeSingleRegServiceR`, SlavePdu.`writeSingleRegService` |
| src/slave_internall/modbus_slave_PDU.c | `modbus_slave_write_multiple_reg` | 565-576 | ParseSteps.`slaveWriteMultipleRegR`, SlavePdu.`slaveWriteMultipleReg` |
| src/slave_internall/modbus_slave_PDU.c | `handle_slave_write_multiple_reg_service` | 592-615 | ParseSteps.`writeRegsBodyR`, ParseSteps.`writeMultipleRegServiceR`, SlavePdu.`writeRegsBody`, SlavePdu.`writeMultipleRegService` |
| src/slave_internall/modbus_slave_PDU.c | `set_exception_code_resp` | 626-631 | SlavePdu.`setExceptionCodeResp` |
| src/slave_internall/modbus_slave_PDU.c | `update_msg_len_and_ret_status` | 646-657 | SlavePdu.`updateMsgLenAndRetStatus` |
| src/slave_internall/modbus_slave_PDU.c | `check_read_req_data_correcntess` | 673-693 | ParseSteps.`checkReadReqR`, SlavePdu.`checkReadReq` |
| src/slave_internall/modbus_slave_PDU.c | `check_write_req_data_correctness` | 711-727 | ParseSteps.`checkWriteReqR`, SlavePdu.`checkWriteReq` |
| src/slave_internall/modbus_slave_PDU.c | `check_write_req_byte_count_correctenss` | 743-757 | ParseSteps.`checkWriteReqByteCountR`, SlavePdu.`checkWriteReqByteCount` |
| src/slave_internall/modbus_slave_PDU.c | `check_write_req_reg_byte_count_correctenss` | 773-786 | ParseSteps.`checkWriteReqRegByteCountR`, SlavePdu.`checkWriteReqRegByteCount` |
| src/slave_internall/modbus_slave_PDU.c | `set_coil_din_value_from_modbus_msg` | 803-822 | ParseSteps.`setCoilsBodyR`, ParseSteps.`setCoilsFromMsgR`, SlavePdu.`setCoilsBody`, SlavePdu.`setCoilsFromMsg` |
| src/slave_internall/modbus_slave_data.c | `register_app_data_to_modbus_coils_din_table` | 30-33 | SlaveData.`registerAt` |
| src/slave_internall/modbus_slave_data.c | `register_app_data_to_modbus_reg_table` | 45-48 | SlaveData.`registerAt` |
| src/slave_internall/modbus_slave_data.c | `get_coil_din_state` | 60-68 | SlaveData.`tabRd`, SlaveData.`getCoilDinState` |
| src/slave_internall/modbus_slave_data.c | `set_coil_state` | 80-91 | SlaveData.`setCoilState` |
| src/slave_internall/modbus_slave_data.c | `get_register_state` | 103-113 | SlaveData.`getRegisterState` |
| src/slave_internall/modbus_slave_data.c | `set_register_value` | 128-139 | SlaveData.`setRegisterValue` |
| examples/STM32G070RB_MODBUS_SLAVE/Core/Src/modbus_driver_interface.c | `get_slave_RTU_driver_interface` | 66-69 | Driver.`SlaveSys` |
| examples/STM32G070RB_MODBUS_SLAVE/Core/Src/modbus_driver_interface.c | `slave_usart_init` | 71-79 | Boot.`InitStmt`, Boot.`slaveInitStmts`, Boot.`SlaveBoot.exec`, Driver.`slaveSysStep`, DriverInit.`driverInit` |
| examples/STM32G070RB_MODBUS_SLAVE/Core/Src/modbus_driver_interface.c | `slave_usart_send` | 81-90 | Boot.`UartHw`, Boot.`InitStmt`, Boot.`SlaveBoot.exec`, Boot.`bootUsartSend`, DeviceStatements.`SPc`, DeviceStatements.`SlaveDev`, DeviceStatements.`slaveStmt`, Driver.`SlaveSys`, Driver.`HOut`, Driver.`slaveUsartSend` |
| examples/STM32G070RB_MODBUS_SLAVE/Core/Src/modbus_driver_interface.c | `slave_enable_usart_rx_interrupt` | 91-95 | Boot.`UartHw`, Boot.`InitStmt`, Boot.`slaveInitStmts`, Boot.`SlaveBoot.exec`, Driver.`SlaveSys` |
| examples/STM32G070RB_MODBUS_SLAVE/Core/Src/modbus_driver_interface.c | `slave_t_1_5_char_expired_callback_subscribe` | 96-99 | Boot.`InitStmt`, Boot.`SlaveBoot.exec`, Driver.`SlaveSys` |
| examples/STM32G070RB_MODBUS_SLAVE/Core/Src/modbus_driver_interface.c | `slave_msg_tx_done_callback_subscribe` | 100-103 | Boot.`InitStmt`, Boot.`SlaveBoot.exec`, Driver.`SlaveSys` |
| examples/STM32G070RB_MODBUS_SLAVE/Core/Src/modbus_driver_interface.c | `slave_t_3_5_char_expired_callback_subscribe` | 104-107 | Boot.`InitStmt`, Boot.`SlaveBoot.exec`, Driver.`SlaveSys` |
| examples/STM32G070RB_MODBUS_SLAVE/Core/Src/modbus_driver_interface.c | `slave_msg_frame_erroro_callback_subscribe` | 108-111 | Boot.`InitStmt`, Boot.`SlaveBoot.exec`, Driver.`SlaveSys` |
| examples/STM32G070RB_MODBUS_SLAVE/Core/Src/modbus_driver_interface.c | `MODBUS_USART_IRQHandler` | 113-152 | Boot.`UartHw`, Boot.`bootIrqRx`, Boot.`bootIrqTx`, Boot.`bootIrqRto`, Boot.`bootIrqUsart`, Boot.`bootStep`, BootMaster.`mbootIrqUsart`, DeviceStatements.`SlaveDev`, DeviceStatements.`txeAfter`, DeviceStatements.`slaveDevIrq`, Driver.`HOp`, Driver.`HOut`, Driver.`slaveIrqRx`, Driver.`slaveIrqTx`, Driver.`slaveIrqRto`, Driver.`slaveSysStep`, Driver.`HMOp`, ExampleMaster.`EOp`, ExampleSlave.`XOp`, Slave.`slaveStep` |
| examples/STM32G070RB_MODBUS_SLAVE/Core/Src/modbus_driver_interface.c | `MODBUS_TIMER_IRQHandler` | 154-163 | Boot.`UartHw`, Boot.`bootIrqTimer`, Boot.`bootStep`, BootMaster.`mbootIrqTimer`, DeviceStatements.`slaveDevIrq`, Driver.`HOp`, Driver.`slaveSysStep`, Driver.`HMOp`, ExampleMaster.`EOp`, ExampleSlave.`XOp` |
| examples/STM32G070RB_MODBUS_SLAVE/Core/Src/modbus_driver_interface.c | `USART_GPIO_init` | 165-175 | DriverInit.`HwRegs`, DriverInit.`gpioInit` |
| examples/STM32G070RB_MODBUS_SLAVE/Core/Src/modbus_driver_interface.c | `USART_module_config` | 176-206 | Boot.`UartHw`, Boot.`InitStmt`, BootMaster.`MInitStmt`, DriverInit.`HwRegs`, DriverInit.`parityCr1`, DriverInit.`parityCr2`, DriverInit.`usartConfig` |
| examples/STM32G070RB_MODBUS_SLAVE/Core/Src/modbus_driver_interface.c | `get_RTOR_value` | 207-220 | Boot.`UartHw`, Driver.`rtorValue`, DriverInit.`HwRegs` |
| examples/STM32G070RB_MODBUS_SLAVE/Core/Src/modbus_driver_interface.c | `USART_set_and_enable_interrupts` | 225-229 | Boot.`UartHw`, Boot.`InitStmt`, DriverInit.`HwRegs`, DriverInit.`driverInit` |
| examples/STM32G070RB_MODBUS_SLAVE/Core/Src/modbus_driver_interface.c | `TIMER7_init` | 230-241 | Boot.`UartHw`, Boot.`InitStmt`, DriverInit.`HwRegs`, DriverInit.`timerInit` |
| examples/STM32G070RB_MODBUS_SLAVE/Core/Src/modbus_driver_interface.c | `get_ARR_value` | 242-255 | Driver.`arrValue`, DriverInit.`HwRegs` |
| examples/STM32G070RB_MODBUS_MASTER/Drivers/STM32G0_Drivers/modbus_driver_interface.c | `get_master_RTU_driver_interface` | 65-68 | Driver.`MasterSys` |
| examples/STM32G070RB_MODBUS_MASTER/Drivers/STM32G0_Drivers/modbus_driver_interface.c | `master_usart_init` | 70-77 | BootMaster.`MInitStmt`, BootMaster.`MInitStmt.drv`, Driver.`masterSysStep`, DriverInit.`driverInit` |
| examples/STM32G070RB_MODBUS_MASTER/Drivers/STM32G0_Drivers/modbus_driver_interface.c | `master_usart_send` | 79-92 | BootMaster.`mbootSend`, Driver.`HMOut`, Driver.`masterUsartSend`, MasterPc.`MPc`, MasterPc.`masterStmt`, MasterStatements.`masterUsartTailP`, MasterStatements.`masterUsartSendP` |
| examples/STM32G070RB_MODBUS_MASTER/Drivers/STM32G0_Drivers/modbus_driver_interface.c | `master_enable_usart_rx_interrupt` | 93-97 | BootMaster.`mbootSend`, Driver.`MasterSys` |
| examples/STM32G070RB_MODBUS_MASTER/Drivers/STM32G0_Drivers/modbus_driver_interface.c | `master_disable_usart_rx_interrupt` | 98-102 | Driver.`MasterSys` |
| examples/STM32G070RB_MODBUS_MASTER/Drivers/STM32G0_Drivers/modbus_driver_interface.c | `master_t_1_5_char_expired_callback_subscribe` | 103-106 | BootMaster.`MInitStmt`, BootMaster.`MInitStmt.drv`, Driver.`MasterSys` |
| examples/STM32G070RB_MODBUS_MASTER/Drivers/STM32G0_Drivers/modbus_driver_interface.c | `master_uasrt_subscribe_msg_tx_done_callback` | 107-110 | BootMaster.`MInitStmt`, BootMaster.`MInitStmt.drv`, Driver.`MasterSys` |
| examples/STM32G070RB_MODBUS_MASTER/Drivers/STM32G0_Drivers/modbus_driver_interface.c | `master_t_3_5_char_expired_callback_subscribe` | 112-115 | BootMaster.`MInitStmt`, BootMaster.`MInitStmt.drv`, Driver.`MasterSys` |
| examples/STM32G070RB_MODBUS_MASTER/Drivers/STM32G0_Drivers/modbus_driver_interface.c | `master_msg_frame_erroro_callback_subscribe` | 116-119 | BootMaster.`MInitStmt`, BootMaster.`MInitStmt.drv`, Driver.`MasterSys` |
| examples/STM32G070RB_MODBUS_MASTER/Drivers/STM32G0_Drivers/modbus_driver_interface.c | `MODBUS_USART_IRQHandler` | 120-158 | Boot.`bootIrqUsart`, BootMaster.`mbootIrqRx`, BootMaster.`mbootIrqTx`, BootMaster.`mbootIrqRto`, BootMaster.`mbootIrqUsart`, BootMaster.`mbootStep`, Driver.`HOp`, Driver.`HMOp`, Driver.`HMOut`, Driver.`masterIrqRx`, Driver.`masterIrqTx`, Driver.`masterIrqRto`, ExampleMaster.`EOp`, ExampleSlave.`XOp`, Master.`masterRx`, MasterPc.`MasterDev.more`, MasterPc.`mtxeAfter`, MasterStatements.`masterDevTx`, MasterStatements.`masterDevInt` |
| examples/STM32G070RB_MODBUS_MASTER/Drivers/STM32G0_Drivers/modbus_driver_interface.c | `MODBUS_TIMER_IRQHandler` | 160-169 | Boot.`bootIrqTimer`, BootMaster.`mbootIrqTimer`, BootMaster.`mbootStep`, Driver.`HOp`, Driver.`HMOp`, Driver.`masterSysStep`, ExampleMaster.`EOp`, ExampleSlave.`XOp`, MasterStatements.`masterDevInt` |
| examples/STM32G070RB_MODBUS_MASTER/Drivers/STM32G0_Drivers/modbus_driver_interface.c | `USART_GPIO_init` | 171-181 | DriverInit.`gpioInit` |
| examples/STM32G070RB_MODBUS_MASTER/Drivers/STM32G0_Drivers/modbus_driver_interface.c | `USART_module_config` | 182-212 | Boot.`InitStmt`, BootMaster.`MInitStmt`, DriverInit.`parityCr1`, DriverInit.`usartConfig` |
| examples/STM32G070RB_MODBUS_MASTER/Drivers/STM32G0_Drivers/modbus_driver_interface.c | `get_RTOR_value` | 213-226 | Driver.`rtorValue` |
| examples/STM32G070RB_MODBUS_MASTER/Drivers/STM32G0_Drivers/modbus_driver_interface.c | `USART_set_and_enable_global_interrupts` | 228-232 | BootMaster.`MInitStmt`, DriverInit.`driverInit` |
| examples/STM32G070RB_MODBUS_MASTER/Drivers/STM32G0_Drivers/modbus_driver_interface.c | `TIMER7_init` | 234-245 | BootMaster.`MInitStmt`, Driver.`arrValue`, DriverInit.`timerInit` |
| examples/STM32G070RB_MODBUS_MASTER/Drivers/STM32G0_Drivers/modbus_driver_interface.c | `get_ARR_value` | 247-260 | Driver.`arrValue` |
| examples/STM32G070RB_MODBUS_SLAVE/Core/Src/main.c | `main` | 45-59 | Driver.`HOp`, Driver.`HMOp`, ExampleMaster.`EOp`, ExampleMaster.`exMain`, ExampleSlave.`XSlave`, ExampleSlave.`XOp`, ExampleSlave.`xMain` |
| examples/STM32G070RB_MODBUS_SLAVE/Core/Src/main.c | `register_modbus_data` | 61-71 | ExampleMaster.`exStep`, ExampleSlave.`xRegister`, ExampleSlave.`xRegistrations`, ExampleSlave.`XSlave` |
| examples/STM32G070RB_MODBUS_SLAVE/Core/Src/main.c | `update_LED` | 72-82 | ExampleMaster.`exRequests`, ExampleMaster.`exStep`, ExampleSlave.`XSlave`, ExampleSlave.`xStep` |
| examples/STM32G070RB_MODBUS_MASTER/Core/Src/main.c | `main` | 45-60 | Driver.`HOp`, Driver.`HMOp`, ExampleMaster.`ExMaster`, ExampleMaster.`EOp`, ExampleMaster.`exMain`, ExampleSlave.`XSlave`, ExampleSlave.`xMain` |
| examples/STM32G070RB_MODBUS_MASTER/Core/Src/main.c | `update_modbus_data` | 64-85 | ExampleMaster.`ExMaster`, ExampleMaster.`EOp`, ExampleMaster.`exRequests`, ExampleMaster.`exStep`, ExampleSlave.`xRegister`, ExampleSlave.`xRegistrations`, ExampleSlave.`xStep` |
| examples/STM32G070RB_MODBUS_MASTER/Core/Src/main.c | `SysTick_Handler` | 87-95 | ExampleMaster.`ExMaster`, ExampleMaster.`EOp`, ExampleMaster.`exStep` |
| examples/STM32G070RB_MODBUS_MASTER/Core/Src/modbus_master_data_interface.c | `modbus_master_coil_read` | 19-28 | ExampleMaster.`exCallback` |
| examples/STM32G070RB_MODBUS_MASTER/Core/Src/modbus_master_data_interface.c | `modbus_master_hreg_read` | 30-39 | ExampleMaster.`exCallback` |
| examples/STM32G070RB_MODBUS_MASTER/Core/Src/modbus_master_data_interface.c | `modbus_master_coil_write` | 41-46 | ExampleMaster.`exCallback` |
| examples/STM32G070RB_MODBUS_MASTER/Core/Src/modbus_master_data_interface.c | `modbus_master_coil_exception` | 47-51 | ExampleMaster.`exCallback` |
| examples/STM32G070RB_MODBUS_MASTER/Core/Src/modbus_master_data_interface.c | `modbus_master_disin_read` | 52-57 | ExampleMaster.`exCallback` |
| examples/STM32G070RB_MODBUS_MASTER/Core/Src/modbus_master_data_interface.c | `modbus_master_disin_exception` | 58-61 | ExampleMaster.`exCallback` |
| examples/STM32G070RB_MODBUS_MASTER/Core/Src/modbus_master_data_interface.c | `modbus_master_hreg_write` | 63-68 | ExampleMaster.`exCallback` |
| examples/STM32G070RB_MODBUS_MASTER/Core/Src/modbus_master_data_interface.c | `modbus_master_hreg_exception` | 69-73 | ExampleMaster.`exCallback` |
| examples/STM32G070RB_MODBUS_MASTER/Core/Src/modbus_master_data_interface.c | `modbus_master_inreg_read` | 74-79 | ExampleMaster.`exCallback` |
| examples/STM32G070RB_MODBUS_MASTER/Core/Src/modbus_master_data_interface.c | `modbus_master_inreg_exception` | 80-83 | ExampleMaster.`exCallback` |
| examples/STM32G070RB_MODBUS_MASTER/Core/Src/modbus_master_data_interface.c | `modbus_master_data_timeout_error` | 84-87 | ExampleMaster.`exCallback` |
| examples/STM32G070RB_MODBUS_MASTER/Core/Src/modbus_master_data_interface.c | `modbus_master_communication_error` | 88-91 | ExampleMaster.`exCallback` |
| examples/STM32G070RB_MODBUS_SLAVE/Core/Src/LED_driver.c | `LED_init` | 13-18 | ExampleSlave.`XSlave` |
| examples/STM32G070RB_MODBUS_SLAVE/Core/Src/LED_driver.c | `LED_on` | 20-23 | ExampleSlave.`XSlave` |
| examples/STM32G070RB_MODBUS_SLAVE/Core/Src/LED_driver.c | `LED_off` | 24-27 | ExampleSlave.`XSlave` |
