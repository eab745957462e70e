import Verif.Model.Preempt

/-! Polls of the master during which interrupt handlers (or tasks of a higher priority) make requests.

`update_modbus_master_manager` takes messages from the queue of requests and puts finished ones into the queue of free messages; a request function takes
a message from the queue of free messages and puts it into the queue of requests. `Model/Preempt.lean` treats the queue functions as one step each and
lets only the driver's handlers interrupt a poll. Here the queue functions called by a poll are split into single accesses to the queue, and the
interrupts are calls of request functions; a request call itself is not interrupted.

`q->items_in_queue++` and `--` are a read and a write of the counter (on the target three instructions; the member is neither atomic nor protected).
Two reads of members of which the interrupts change only one (`q->head == q->tail`) are one step. As in `Model/Preempt.lean` the calls of `modbus_RTU_recv`,
`modbus_master_read_slave_resp` are one step each. Interrupts of the driver are left out here. -/

namespace Modbus

/-- The library, and what the requests made by interrupt handlers have returned so far. Modelling infrastructure, no C counterpart. -/
structure QMaster where
  lib : Master
  rets : List ReqRet

/-- A handler makes a request, `src/modbus_master.c:149-295` with `generate_request` (`:484-505`). -/
def reqInt (cfg : Config) (x : QMaster) (r : MReq) : C QMaster := do
  let (c, s) ← generateRequest cfg x.lib r.param
  return { lib := s, rets := x.rets ++ [c] }

/-- Modelling infrastructure, no C counterpart. -/
abbrev QProg := Prog QMaster MOut MReq

/-- A step of the main program. `race` marks a step before which we want to be able to exclude requests; it has no influence on the execution. Modelling
infrastructure, no C counterpart. -/
def qstep {α : Type} (race : Bool) (f : Master → C (α × Master × List MOut)) (k : α → QProg) : QProg :=
  .step (fun _ _ => race) (fun x => do let (a, s, o) ← f x.lib; return (a, { x with lib := s }, o)) k

/-- Modelling infrastructure, no C counterpart. -/
def qassign (f : Master → Master) (k : QProg) : QProg := qstep false (fun s => .ok ((), f s, [])) fun _ => k

/-- Modelling infrastructure, no C counterpart. -/
def qassignC (f : Master → C Master) (k : QProg) : QProg := qstep false (fun s => do let s ← f s; return ((), s, [])) fun _ => k

/-- Modelling infrastructure, no C counterpart. -/
def qtest (c : Master → Bool) (p q : QProg) : QProg := qstep false (fun s => .ok (c s, s, [])) fun b => if b then p else q

/-! ### The queue functions -/

/-- The common part of the two branches of `modbus_queue_pop(tx_rx_q)`, `src/master_internall/modbus_queue.c:98-101`, `:106-109`. -/
def popTakeQ (N : Nat) (k : Option Nat → QProg) : QProg :=
  qstep false (fun s => do let x ← slotRd N s.txQ.arr s.txQ.tail.toNat; return (x, s, [])) fun x =>
    qassignC (fun s => do let a ← slotWr N s.txQ.arr s.txQ.tail.toNat none; return { s with txQ := { s.txQ with arr := a } })
      (qstep false (fun s => .ok (s.txQ.items, s, [])) fun n =>
        qstep true (fun s => .ok ((), { s with txQ := { s.txQ with items := n - 1 } }, [])) fun _ =>
          qassignC (fun s => if N = 0 then .error .divZero
            else .ok { s with txQ := { s.txQ with tail := BitVec.ofNat 8 ((s.txQ.tail.toNat + 1) % N) } })
            (k x))

/-- `modbus_queue_pop(tx_rx_q)`, `src/master_internall/modbus_queue.c:86-113`; `k` gets the result. -/
def popTxQ (N : Nat) (k : Option Nat → QProg) : QProg :=
  qtest (fun s => s.txQ.head = s.txQ.tail) (qtest (fun s => s.txQ.items = 0) (k none) (popTakeQ N k)) (popTakeQ N k)

/-- `q->modbus_msg[q->head] = *data` for the free queue and `msg_buf`, `src/master_internall/modbus_queue.c:62`, `:70`. -/
def pushSlot (N : Nat) (s : Master) : C Master := do
  let a ← slotWr N s.freeQ.arr s.freeQ.head.toNat s.msgBuf
  return { s with freeQ := { s.freeQ with arr := a } }

/-- `q->items_in_queue++`, `src/master_internall/modbus_queue.c:63`, `:72`. -/
def pushCount (k : QProg) : QProg :=
  qstep false (fun s => .ok (s.freeQ.items, s, [])) fun n =>
    qstep true (fun s => .ok ((), { s with freeQ := { s.freeQ with items := n + 1 } }, [])) fun _ => k

/-- `modbus_queue_push(free_q, &msg_buf)`, `src/master_internall/modbus_queue.c:50-75`. -/
def pushFreeQ (N : Nat) (k : QProg) : QProg :=
  qstep false (fun s => if N = 0 then .error .divZero else .ok (BitVec.ofNat 8 ((s.freeQ.head.toNat + 1) % N), s, [])) fun (nh : U8) =>
    qtest (fun s => s.freeQ.head = s.freeQ.tail)
      (qtest (fun s => s.freeQ.items.toNat = N) k
        (qassignC (pushSlot N)
          (pushCount
            (qassign (fun s => { s with freeQ := { s.freeQ with head := nh } })
              (qassign (fun s => { s with msgBuf := none }) k)))))
      (qassignC (pushSlot N)
        (qassign (fun s => { s with freeQ := { s.freeQ with head := nh } })
          (pushCount
            (qassign (fun s => { s with msgBuf := none }) k))))

/-! ### The poll -/

/-- `modbus_master_send_req_from_msg_buf`, `src/modbus_master.c:402-408`. -/
def masterSendQ : QProg :=
  qstep false (fun s => do let o ← masterDrvSend s; return ((), s, o)) fun _ =>
    qassignC masterEnableRx
      (qassign (fun s => { s with txf := .set })
        (qassign (fun s => { s with st := .transmitting }) .done))

/-- `modbus_master_idle_state_handling`, `src/modbus_master.c:647-654`, with `check_data_to_send_availability` (`:631-634`). -/
def masterIdleQ (cfg : Config) : QProg :=
  let go : QProg := popTxQ cfg.queueItems fun x => qassign (fun s => { s with msgBuf := x }) masterSendQ
  qtest (fun s => s.txQ.head ≠ s.txQ.tail) go (qtest (fun s => 0 < s.txQ.items.toNat) go .done)

/-- `modbus_master_transmitting_state_handling`, `src/modbus_master.c:667-675`. -/
def masterTransmittingQ (cfg : Config) : QProg :=
  qtest (fun s => s.txf = .cleared)
    (qassignC clearRespLen
      (qassign (fun s => { s with timer := cfg.respTimeout })
        (qassign (fun s => { s with st := .waiting }) .done)))
    .done

/-- `modbus_master_msg_process_end`, `src/modbus_master.c:898-903`. -/
def masterProcessEndQ (cfg : Config) : QProg :=
  qassign (fun s => { s with repeatCnt := 0 })
    (pushFreeQ cfg.queueItems (qassign (fun s => { s with st := .idle }) .done))

/-- `modbus_master_resp_timeout_handle` followed by `modbus_master_msg_process_end`, `src/modbus_master.c:695-696`, `:715-724`. -/
def masterTimeoutQ (cfg : Config) : QProg :=
  qstep false (fun s => do let m ← curMsg s; let x ← rd m.req idxSlaveAdr; return (x, s, [])) fun slave =>
    qstep false (fun s => do let m ← curMsg s; let x ← readU16 m.req idxRequestAdr; return (x, s, [])) fun adr =>
      qstep false (fun s => do let m ← curMsg s; let x ← readU16 m.req idxRequestQty; return (x, s, [])) fun qty =>
        qstep false (fun s => do let m ← curMsg s; let x ← rd m.resp idxFunctionCode; return (x, s, [])) fun fc =>
          qstep false (fun s => .ok ((), s,
              [.event (.timeoutErr { slave := slave, fc := fc, adr := adr, qty := qty, err := .timeout })])) fun _ =>
            masterProcessEndQ cfg

/-- `modbus_master_RTU_recv_state_handle`, `src/modbus_master.c:743-765`. -/
def masterRecvQ : QProg :=
  qstep false (fun s => do let m ← curMsg s; let x ← rd m.req idxSlaveAdr; return (x, s, [])) fun id =>
    qassign (fun s => { s with t15 := .cleared })
      (qassign (fun s => { s with t35 := .cleared })
        (qstep false (fun s => do let m ← curMsg s; let r ← rtuRecv (some m.resp) m.respLen id; return (r, s, [])) fun r =>
          if RET_ERROR_CRC = r then
            qassign (fun s => { s with timer := 0 })
              (qassign (fun s => { s with crcf := .set })
                (qassign (fun s => { s with st := .received }) .done))
          else if RET_ERROR_SLAVE_ID = r then
            qassignC clearRespLen .done
          else
            qassign (fun s => { s with timer := 0 })
              (qassign (fun s => { s with st := .received }) .done)))

/-- `modbus_master_resp_waiting_state_handling`, `src/modbus_master.c:688-699`. -/
def masterWaitingQ (cfg : Config) : QProg :=
  qtest (fun s => s.t15 = .set) masterRecvQ
    (qtest (fun s => s.timer = 1) (masterTimeoutQ cfg) .done)

/-- `modbus_master_msg_recived_correctly_state_handle`, `src/modbus_master.c:811-815`. -/
def masterCorrectQ (cfg : Config) : QProg :=
  qstep false
    (fun s => do
      let ev ← (match s.msgBuf with
        | none => .ok []
        | some i => do
          let (_, ev) ← readSlaveResp s.dataSet (s.msgs i)
          return ev : C (List MEvent))
      return ((), s, ev.map .event)) fun _ =>
    masterProcessEndQ cfg

/-- The report and end of transaction at `src/modbus_master.c:842-848` and `:877-883`. -/
def masterCommQ (cfg : Config) (e : RespErr) : QProg :=
  qstep false (fun s => do let m ← curMsg s; let x ← rd m.resp idxSlaveAdr; return (x, s, [])) fun slave =>
    qstep false (fun s => do let m ← curMsg s; let x ← rd m.resp idxFunctionCode; return (x, s, [])) fun fc =>
      qstep false (fun s => .ok ((), s,
          [.event (.commErr { slave := slave, fc := fc &&& ~~~exceptionCodeMask, adr := 0, qty := 0, err := e })])) fun _ =>
        masterProcessEndQ cfg

/-- `modbus_master_RTU_CRC_error_state_handling`, `src/modbus_master.c:831-850`. -/
def masterCrcErrorQ (cfg : Config) : QProg :=
  qassign (fun s => { s with repeatCnt := s.repeatCnt + 1 })
    (qtest (fun s => s.repeatCnt.toNat ≤ cfg.repeatMax)
      (qassign (fun s => { s with st := .repeatRequest })
        (qassign (fun s => { s with crcf := .cleared })
          (qassignC clearRespLen .done)))
      (masterCommQ cfg .crc))

/-- `modbus_master_frame_error_state_handling`, `src/modbus_master.c:866-885`. -/
def masterFrameErrorQ (cfg : Config) : QProg :=
  qassign (fun s => { s with repeatCnt := s.repeatCnt + 1 })
    (qtest (fun s => s.repeatCnt.toNat ≤ cfg.repeatMax)
      (qassign (fun s => { s with st := .repeatRequest })
        (qassign (fun s => { s with ferr := .cleared })
          (qassignC clearRespLen .done)))
      (masterCommQ cfg .frame))

/-- Third condition of `modbus_master_resp_recived_state_handling`, `src/modbus_master.c:792-795`. -/
def masterReceived3Q (cfg : Config) : QProg :=
  qtest (fun s => s.ferr = .cleared)
    (qtest (fun s => s.crcf = .cleared) (qtest (fun s => s.t35 = .set) (masterCorrectQ cfg) .done) .done) .done

/-- `modbus_master_resp_recived_state_handling`, `src/modbus_master.c:782-800`. -/
def masterReceivedQ (cfg : Config) : QProg :=
  let second : QProg :=
    qtest (fun s => s.crcf = .set)
      (qtest (fun s => s.t35 = .set) (masterCrcErrorQ cfg) (masterReceived3Q cfg))
      (masterReceived3Q cfg)
  qtest (fun s => s.ferr = .set)
    (qtest (fun s => s.t35 = .set) (masterFrameErrorQ cfg) second)
    second

/-- `update_modbus_master_manager`, `src/modbus_master.c:351-374`. -/
def masterPollQ (cfg : Config) : QProg :=
  qstep false (fun s => .ok (s.st, s, [])) fun st =>
    match st with
    | .idle => masterIdleQ cfg
    | .repeatRequest => masterSendQ
    | .transmitting => masterTransmittingQ cfg
    | .waiting => masterWaitingQ cfg
    | .received => masterReceivedQ cfg

/-! ### Histories -/

/-- What can happen to the master: an operation of the base model, or a poll during which handlers make requests: `ints[k]` before its `k`-th step.
Modelling infrastructure, no C counterpart. -/
inductive MQOp where
  | op (o : MOp)
  | pollReq (ints : List (List MReq))
  deriving DecidableEq

/-- One of them; the requests made during a poll show their return values after the poll's own output. Modelling infrastructure, no C counterpart. -/
def masterQStep (cfg : Config) (s : Master) : MQOp → C (Master × List MOut)
  | .op o => masterStep cfg s o
  | .pollReq ints => do
    let (x, o) ← runProg (reqInt cfg) (masterPollQ cfg) ints { lib := s, rets := [] }
    return (x.lib, o ++ x.rets.map .ret)

/-- An execution. Modelling infrastructure, no C counterpart. -/
def masterQRun (cfg : Config) : Master → List MQOp → C (Master × List (MQOp × List MOut))
  | s, [] => .ok (s, [])
  | s, op :: ops => do
    let (s', o) ← masterQStep cfg s op
    let (s'', tr) ← masterQRun cfg s' ops
    return (s'', (op, o) :: tr)

end Modbus
