import Verif.Proofs.PreemptSlave
import Verif.Proofs.PreemptMaster
import Verif.Props.Slave
import Verif.Props.MasterHist

/-! C54, C56: interrupts that arrive between the statements of a poll. Every theorem about atomic polls carries over. -/

set_option linter.unusedSimpArgs false

namespace Modbus

open Spec

/-! ### An uninterrupted poll is the atomic poll -/

/-- The statement-by-statement program of `check_modbus_request`, not interrupted, is the function of the base model, in every state. -/
theorem slave_uninterrupted (cfg : Config) (s : Slave) : runProg (slaveInt cfg) (slavePollP cfg) [] s = slavePoll cfg s := by
  cases s with
  | mk id st drv mp ds sub req rl resp pl a b c d mem =>
  cases st with
  | idle =>
    cases a <;> cases mp <;> simp [slavePollP, slavePoll, slaveIdleP, slaveIdle, runProg, runInts, test, assign, okBind, errBind, pureOk, Slave.reqData]
    cases h : rtuRecv (if ds then some req else none) rl id with
    | error u => rfl
    | ok r =>
      by_cases hr : r = RET_OK <;> simp [hr, okBind, runProg, runInts, pureOk]
  | msgReceived =>
    cases c <;> cases b <;> cases mp <;> simp [slavePollP, slavePoll, slaveMsgReceivedP, slaveMsgReceived, runProg, runInts, test, assign, assignC, okBind, errBind, pureOk,
      slaveDropP, slaveReqLen0, slaveAnswerP]
  | transmitting =>
    cases d <;> cases mp <;> simp [slavePollP, slavePoll, slaveTransmittingP, slaveTransmitting, runProg, runInts, test, assign, assignC, okBind, errBind, pureOk,
      slaveReqLen0, slaveRespLen0]
  | unknown =>
    cases mp <;> simp [slavePollP, slavePoll, slaveDefaultP, slaveDefault, runProg, runInts, test, assign, assignC, okBind, errBind, pureOk,
      slaveReqLen0, slaveRespLen0]


theorem unint_end (cfg : Config) (s : Master) :
    runProg (masterInt cfg) (masterProcessEndP cfg) [] s = (masterProcessEnd cfg s >>= fun s => .ok (s, [])) := by
  simp only [masterProcessEndP, masterProcessEnd, assign, assignC, runProg, runInts, okBind, pureOk, List.headD_nil, List.tail_nil]
  cases h : s.freeQ.push cfg.queueItems s.msgBuf <;> simp [okBind, errBind, runInts]

theorem unint_comm (cfg : Config) (s : Master) (e : RespErr) :
    runProg (masterInt cfg) (masterCommP cfg e) [] s =
      (masterCommReport s e >>= fun ev => masterProcessEnd cfg s >>= fun s => .ok (s, [.event ev])) := by
  simp only [masterCommP, masterCommReport, runProg, runInts, okBind, pureOk, List.headD_nil, List.tail_nil]
  cases h : curMsg s with
  | error u => rfl
  | ok m =>
    simp only [okBind, rd_zero, rd_one, unint_end, h]
    cases masterProcessEnd cfg s <;> rfl

theorem unint_crc (cfg : Config) (s : Master) :
    runProg (masterInt cfg) (masterCrcErrorP cfg) [] s = masterCrcError cfg s := by
  simp only [masterCrcErrorP, masterCrcError, test, assign, assignC, runProg, runInts, okBind, pureOk, List.headD_nil, List.tail_nil]
  by_cases h : (s.repeatCnt + 1).toNat ≤ cfg.repeatMax
  · simp only [h, decide_true, if_true, runProg, runInts, okBind, List.headD_nil, List.tail_nil, clearRespLen]
    cases s.msgBuf <;> simp [okBind, errBind, runInts]
  · simp only [h, decide_false, if_false, unint_comm, Bool.false_eq_true]
    cases masterCommReport _ _ with
    | error u => rfl
    | ok x =>
      simp only [okBind]
      cases masterProcessEnd cfg _ <;> rfl

theorem unint_frame (cfg : Config) (s : Master) :
    runProg (masterInt cfg) (masterFrameErrorP cfg) [] s = masterFrameError cfg s := by
  simp only [masterFrameErrorP, masterFrameError, test, assign, assignC, runProg, runInts, okBind, pureOk, List.headD_nil, List.tail_nil]
  by_cases h : (s.repeatCnt + 1).toNat ≤ cfg.repeatMax
  · simp only [h, decide_true, if_true, runProg, runInts, okBind, List.headD_nil, List.tail_nil, clearRespLen]
    cases s.msgBuf <;> simp [okBind, errBind, runInts]
  · simp only [h, decide_false, if_false, unint_comm, Bool.false_eq_true]
    cases masterCommReport _ _ with
    | error u => rfl
    | ok x =>
      simp only [okBind]
      cases masterProcessEnd cfg _ <;> rfl

theorem unint_correct (cfg : Config) (s : Master) :
    runProg (masterInt cfg) (masterCorrectP cfg) [] s = masterCorrect cfg s := by
  simp only [masterCorrectP, masterCorrect, runProg, runInts, okBind, pureOk, List.headD_nil, List.tail_nil, unint_end]
  cases s.msgBuf with
  | none =>
    simp only [okBind]
    cases masterProcessEnd cfg s <;> simp [okBind, errBind]
  | some i =>
    simp only
    cases readSlaveResp s.dataSet (s.msgs i) with
    | error u => rfl
    | ok x =>
      simp only [okBind]
      cases masterProcessEnd cfg s <;> simp [okBind, errBind]

theorem ok_pair {α β : Type} (x : C (α × β)) : (x >>= fun y => Except.ok (y.1, y.2)) = x := by
  cases x <;> rfl

/-- The statement-by-statement program of `update_modbus_master_manager`, not interrupted, is the function of the base model, in
every state. -/
theorem master_uninterrupted (cfg : Config) (s : Master) : runProg (masterInt cfg) (masterPollP cfg) [] s = masterPoll cfg s := by
  cases s with
  | mk st drv fq tq ms ds mb tm rc a b c d e tgt =>
  cases st with
  | idle =>
    simp only [masterPollP, masterPoll, masterIdleP, masterIdle, runProg, runInts, test, assign, assignC, okBind, List.headD_nil, List.tail_nil]
    cases ha : tq.available with
    | false => simp [runProg, runInts, okBind, pureOk]
    | true =>
      simp only [if_true, runProg, runInts, okBind, List.headD_nil, List.tail_nil]
      cases hq : tq.pop cfg.queueItems with
      | error u => rfl
      | ok x =>
        obtain ⟨mb', tq'⟩ := x
        cases mb' <;> cases drv <;> cases ds <;> simp [masterSendP, masterSend, masterDrvSend, masterEnableRx, assign, assignC, runProg, runInts, okBind, errBind, pureOk]
  | repeatRequest =>
    cases mb <;> cases drv <;> cases ds <;> simp [masterPollP, masterPoll, masterSendP, masterSend, masterDrvSend, masterEnableRx, assign, assignC, runProg, runInts, okBind, errBind, pureOk]
  | transmitting =>
    cases d <;> cases mb <;> simp [masterPollP, masterPoll, masterTransmittingP, masterTransmitting, clearRespLen, test, assign, assignC, runProg, runInts, okBind, errBind, pureOk]
  | waiting =>
    by_cases ha : a = .set
    · cases mb with
      | none => simp [ha, masterPollP, masterPoll, masterWaitingP, masterWaiting, masterRecvP, masterRecv, clearRespLen, test, assign, assignC, runProg, runInts, okBind, errBind, pureOk, curMsg]
      | some i =>
        cases ds with
        | false => simp [ha, masterPollP, masterPoll, masterWaitingP, masterWaiting, masterRecvP, masterRecv, clearRespLen, test, assign, assignC, runProg, runInts, okBind, errBind, pureOk, curMsg]
        | true =>
          simp [ha, masterPollP, masterPoll, masterWaitingP, masterWaiting, masterRecvP, masterRecv, clearRespLen, test, assign, assignC, runProg, runInts, okBind, errBind, pureOk, curMsg, rd_zero]
          cases h : rtuRecv (some (ms i).resp) (ms i).respLen ((ms i).req 0) with
          | error u => rfl
          | ok r =>
            by_cases h1 : RET_ERROR_CRC = r <;> by_cases h2 : RET_ERROR_SLAVE_ID = r <;>
              simp [h1, h2, okBind, runProg, runInts, pureOk, assign]
    · by_cases ht : tm = 1 <;> cases mb <;> cases ds <;>
        simp [ha, ht, masterPollP, masterPoll, masterWaitingP, masterWaiting, masterTimeoutP, masterTimeoutReport, masterProcessEndP, masterProcessEnd, test, assign, assignC, runProg, runInts, okBind, errBind, pureOk, curMsg, rd_zero, rd_one, read_adr, read_qty]
  | received =>
    cases c <;> cases b <;> cases e <;>
      simp [masterPollP, masterPoll, masterReceivedP, masterReceived3P, masterReceived, test, assign, assignC, runProg, runInts, okBind, errBind, pureOk,
        unint_crc, unint_frame, unint_correct, ok_pair]

/-! ### C54: interrupted polls of the slave -/

/-- A history of the slave with interrupted polls, and one with atomic operations only in which every interrupted poll has been replaced
by an atomic poll, or none, with the interrupts before or after it. -/
inductive SExpands : List SPOp → List SOp → Prop
  | nil : SExpands [] []
  | op {o p a} : SExpands p a → SExpands (.op o :: p) (o :: a)
  | poll {ints ops p a} : SAsAtomic ints ops → SExpands p a → SExpands (.pollWith ints :: p) (ops ++ a)

theorem slaveStep_keeps {cfg : Config} {s s' : Slave} {op : SOp} {o : List SOut} (h : slaveStep cfg s op = .ok (s', o))
    (hs : s.subscribed = true) (hm : s.msgPtr = true) : s'.subscribed = true ∧ s'.msgPtr = true := by
  cases op with
  | init m i => cases h; cases m <;> simp [slaveInit, hs]
  | poll =>
    simp only [slaveStep, slavePoll] at h
    cases hst : s.st <;> simp only [hst] at h
    · simp only [slaveIdle, hm, if_true] at h
      split at h
      · obtain ⟨r, -, h⟩ := bind_ok h
        cases h; first | exact ⟨hs, hm⟩ | exact ⟨hs, rfl⟩ | exact ⟨rfl, hm⟩
      · cases h; first | exact ⟨hs, hm⟩ | exact ⟨hs, rfl⟩ | exact ⟨rfl, hm⟩
    · simp only [slaveMsgReceived, hm, if_true] at h
      split at h
      · cases h; first | exact ⟨hs, hm⟩ | exact ⟨hs, rfl⟩ | exact ⟨rfl, hm⟩
      · split at h
        · obtain ⟨s1, h1, h⟩ := bind_ok h
          obtain ⟨s2, h2, h⟩ := bind_ok h
          obtain ⟨o1, h3, h⟩ := bind_ok h
          cases h
          have k1 : s1.subscribed = true ∧ s1.msgPtr = true := by
            unfold slaveParse at h1
            split at h1
            · cases h1; first | exact ⟨hs, hm⟩ | exact ⟨hs, rfl⟩ | exact ⟨rfl, hm⟩
            · obtain ⟨x, -, h1⟩ := bind_ok h1
              cases h1; first | exact ⟨hs, hm⟩ | exact ⟨hs, rfl⟩ | exact ⟨rfl, hm⟩
          unfold slaveFrame at h2
          rw [if_pos k1.2] at h2
          obtain ⟨x, -, h2⟩ := bind_ok h2
          cases h2; exact k1
        · cases h; first | exact ⟨hs, hm⟩ | exact ⟨hs, rfl⟩ | exact ⟨rfl, hm⟩
    · simp only [slaveTransmitting, hm, if_true] at h
      split at h <;> (cases h; first | exact ⟨hs, hm⟩ | exact ⟨hs, rfl⟩ | exact ⟨rfl, hm⟩)
    · simp only [slaveDefault, hm, if_true] at h
      cases h; first | exact ⟨hs, hm⟩ | exact ⟨hs, rfl⟩ | exact ⟨rfl, hm⟩
  | t15 | t35 | frameErr | txDone => simp only [slaveStep, hs, if_true] at h; cases h; first | exact ⟨hs, hm⟩ | exact ⟨hs, rfl⟩ | exact ⟨rfl, hm⟩
  | rxByte b =>
    simp only [slaveStep, hs, if_true] at h
    obtain ⟨r, -, h⟩ := bind_ok h
    cases h; first | exact ⟨hs, hm⟩ | exact ⟨hs, rfl⟩ | exact ⟨rfl, hm⟩
  | register t a p =>
    simp only [slaveStep] at h
    obtain ⟨r, -, h⟩ := bind_ok h
    cases h; first | exact ⟨hs, hm⟩ | exact ⟨hs, rfl⟩ | exact ⟨rfl, hm⟩
  | appBool | appReg => cases h; first | exact ⟨hs, hm⟩ | exact ⟨hs, rfl⟩ | exact ⟨rfl, hm⟩

theorem slaveRun_keeps {cfg : Config} {ops : List SOp} : ∀ {s s' : Slave} {o : List SOut}, slaveRun cfg s ops = .ok (s', o) →
    s.subscribed = true → s.msgPtr = true → s'.subscribed = true ∧ s'.msgPtr = true := by
  induction ops with
  | nil => intro s s' o h hs hm; cases h; exact ⟨hs, hm⟩
  | cons op ops ih =>
    intro s s' o h hs hm
    obtain ⟨s1, o1, o2, h1, h2, rfl⟩ := slaveRun_cons_inv h
    obtain ⟨a, b⟩ := slaveStep_keeps h1 hs hm
    exact ih h2 a b

/-- **C54.** Whatever interrupts arrive between the statements of any of the polls: the history has exactly the outcome (final state,
transmissions, or undefined behaviour) of one in which every poll is atomic, and every interrupt happens exactly once, at most
displaced to the beginning or the end of the poll it interrupted, received bytes in the order of arrival. -/
theorem C54_slave_interrupts_linearise (cfg : Config) (pops : List SPOp) : ∀ (s : Slave), s.subscribed = true → s.msgPtr = true →
    ∃ ops, SExpands pops ops ∧ slavePRun cfg s pops = slaveRun cfg s ops := by
  induction pops with
  | nil => exact fun s _ _ => ⟨[], .nil, rfl⟩
  | cons p pops ih =>
    intro s hs hm
    cases p with
    | op o =>
      cases h : slaveStep cfg s o with
      | error u =>
        obtain ⟨ops, h1, -⟩ := ih s hs hm
        exact ⟨o :: ops, .op h1, by simp only [slavePRun, slavePStep, slaveRun, h]; rfl⟩
      | ok x =>
        obtain ⟨a, b⟩ := slaveStep_keeps h hs hm
        obtain ⟨ops, h1, h2⟩ := ih x.1 a b
        exact ⟨o :: ops, .op h1, by simp only [slavePRun, slavePStep, slaveRun, h, okBind, h2]⟩
    | pollWith ints =>
      obtain ⟨l, hl, hr⟩ := slave_poll_reduces cfg s hs hm ints
      cases h : slaveRun cfg s l with
      | error u =>
        obtain ⟨ops, h1, -⟩ := ih s hs hm
        refine ⟨l ++ ops, .poll hl h1, ?_⟩
        rw [slaveRun_append']
        simp only [slavePRun, slavePStep, hr, h]
        rfl
      | ok x =>
        obtain ⟨a, b⟩ := slaveRun_keeps h hs hm
        obtain ⟨ops, h1, h2⟩ := ih x.1 a b
        refine ⟨l ++ ops, .poll hl h1, ?_⟩
        rw [slaveRun_append']
        simp only [slavePRun, slavePStep, hr, h, okBind, h2]
        rfl

/-- An interrupt in a history: on its own, or during a poll. -/
def SPOp.events : SPOp → List SOp
  | .op o => [o]
  | .pollWith ints => ints.flatten.map SEv.op

theorem SExpands.count {pops : List SPOp} {ops : List SOp} (h : SExpands pops ops) (e : SOp) (he : e ≠ .poll) :
    ops.count e = (pops.flatMap SPOp.events).count e := by
  induction h with
  | nil => rfl
  | op _ ih => simp [List.count_cons, SPOp.events, ih]
  | @poll ints l p a hl _ ih =>
    obtain ⟨A, B, h1, h2, -⟩ := hl
    have h3 := (h2.map SEv.op).count_eq e
    have h4 : l.count e = ((A ++ B).map SEv.op).count e := by
      rcases h1 with rfl | rfl
      · simp [List.count_append, List.count_cons]
        intro h; exact absurd h.symm he
      · simp
    rw [List.count_append, ih, h4, h3]
    simp [SPOp.events]

theorem SExpands.mem {pops : List SPOp} {ops : List SOp} (h : SExpands pops ops) (e : SOp) (he : e ≠ .poll) :
    e ∈ ops ↔ e ∈ pops.flatMap SPOp.events := by
  rw [← List.count_pos_iff, ← List.count_pos_iff, h.count e he]

/-- The same for histories that begin with an initialisation in RTU mode, from any contents of memory. -/
theorem slave_from_init (cfg : Config) (s : Slave) (id : U8) (pops : List SPOp) :
    ∃ ops, SExpands pops ops ∧ slavePRun cfg s (.op (.init .rtu id) :: pops) = slaveRun cfg s (.init .rtu id :: ops) := by
  obtain ⟨ops, h1, h2⟩ := C54_slave_interrupts_linearise cfg pops (slaveInit s .rtu id) rfl rfl
  refine ⟨ops, h1, ?_⟩
  simp only [slavePRun, slavePStep, slaveRun, slaveStep, okBind, h2]

/-- C21 with interrupted polls: transmissions never outnumber the 1.5 character events, nor the 3.5 character events. -/
theorem C54_one_response_per_frame (cfg : Config) (hc : cfg.WF) (mem : AppMem) (id : U8) (pops : List SPOp) (s : Slave) (o : List SOut)
    (h : slavePRun cfg (Slave.powerOn mem) (.op (.init .rtu id) :: pops) = .ok (s, o)) :
    o.length ≤ (pops.flatMap SPOp.events).count .t15 ∧ o.length ≤ (pops.flatMap SPOp.events).count .t35 := by
  obtain ⟨ops, h1, h2⟩ := slave_from_init cfg (Slave.powerOn mem) id pops
  rw [h2] at h
  obtain ⟨a, b⟩ := C21_one_response_per_frame cfg hc mem _ s o h
  rw [List.count_cons_of_ne (by simp)] at a b
  rw [← h1.count .t15 (by simp), ← h1.count .t35 (by simp)]
  exact ⟨a, b⟩

/-- The operations of a history that are the application's: registrations inside the tables, initialisation in RTU mode. -/
def SPOp.legal (cfg : Config) : SPOp → Prop
  | .op o => o.legal cfg
  | .pollWith _ => True

theorem SExpands.legal {cfg : Config} {pops : List SPOp} {ops : List SOp} (h : SExpands pops ops) (hl : ∀ p ∈ pops, p.legal cfg) :
    ∀ o ∈ ops, o.legal cfg := by
  induction h with
  | nil => exact fun o h => absurd h List.not_mem_nil
  | @op o p a _ ih =>
    intro x hx
    rcases List.mem_cons.mp hx with rfl | hx
    · exact hl (.op x) List.mem_cons_self
    · exact ih (fun p hp => hl p (List.mem_cons_of_mem _ hp)) x hx
  | @poll ints l p a hl' _ ih =>
    intro x hx
    rcases List.mem_append.mp hx with hx | hx
    · obtain ⟨A, B, h1, -, -⟩ := hl'
      have hev : ∀ C : List SEv, x ∈ C.map SEv.op → x.legal cfg := by
        intro C hC
        obtain ⟨e, -, rfl⟩ := List.mem_map.mp hC
        cases e <;> trivial
      have hx' : x ∈ A.map SEv.op ∨ x = .poll ∨ x ∈ B.map SEv.op := by
        rcases h1 with rfl | rfl <;> simp at hx ⊢ <;> grind
      rcases hx' with h | rfl | h
      · exact hev A h
      · trivial
      · exact hev B h
    · exact ih (fun p hp => hl p (List.mem_cons_of_mem _ hp)) x hx

/-- C27 with interrupted polls: after an initialisation in RTU mode no interrupt at any point of any poll leads to undefined
behaviour. -/
theorem C54_no_undefined_behaviour (cfg : Config) (hc : cfg.WF) (s : Slave) (id : U8) (pops : List SPOp)
    (hl : ∀ p ∈ pops, p.legal cfg) : ∃ s' o, slavePRun cfg s (.op (.init .rtu id) :: pops) = .ok (s', o) := by
  obtain ⟨ops, h1, h2⟩ := slave_from_init cfg s id pops
  rw [h2]
  exact C27_no_undefined_behaviour cfg hc s id ops (h1.legal hl)

/-! ### C56: interrupted polls of the master -/

theorem processEnd_keeps {cfg : Config} {s s' : Master} (h : masterProcessEnd cfg s = .ok s') : s'.drv = s.drv ∧ s'.dataSet = s.dataSet := by
  simp only [masterProcessEnd] at h
  obtain ⟨x, -, h⟩ := bind_ok h
  cases h; exact ⟨rfl, rfl⟩

theorem clearRespLen_keeps {s s' : Master} (h : clearRespLen s = .ok s') : s'.drv = s.drv ∧ s'.dataSet = s.dataSet := by
  simp only [clearRespLen] at h
  split at h <;> cases h
  exact ⟨rfl, rfl⟩

theorem masterStep_keeps {cfg : Config} {s s' : Master} {op : MOp} {o : List MOut} (h : masterStep cfg s op = .ok (s', o))
    (hop : ∀ m, op ≠ .init m) : s'.drv = s.drv ∧ s'.dataSet = s.dataSet := by
  cases op with
  | init m => exact absurd rfl (hop m)
  | request r =>
    simp only [masterStep] at h
    obtain ⟨⟨c, s1⟩, h1, h⟩ := bind_ok h
    cases h
    simp only [generateRequest] at h1
    obtain ⟨⟨x, fq⟩, -, h1⟩ := bind_ok h1
    cases x with
    | none => cases h1; exact ⟨rfl, rfl⟩
    | some i =>
      simp only at h1
      obtain ⟨⟨r1, m⟩, -, h1⟩ := bind_ok h1
      simp only at h1
      split at h1
      · cases h1; exact ⟨rfl, rfl⟩
      · obtain ⟨⟨r2, b, l⟩, -, h1⟩ := bind_ok h1
        simp only at h1
        split at h1
        · cases h1; exact ⟨rfl, rfl⟩
        · obtain ⟨⟨tq, y⟩, -, h1⟩ := bind_ok h1
          cases h1; exact ⟨rfl, rfl⟩
  | poll =>
    simp only [masterStep, masterPoll] at h
    split at h
    · simp only [masterIdle] at h
      split at h
      · obtain ⟨⟨x, tq⟩, -, h⟩ := bind_ok h
        simp only [masterSend] at h
        repeat' split at h
        all_goals cases h
        exact ⟨rfl, rfl⟩
      · cases h; exact ⟨rfl, rfl⟩
    · simp only [masterSend] at h
      repeat' split at h
      all_goals cases h
      exact ⟨rfl, rfl⟩
    · simp only [masterTransmitting] at h
      split at h
      · obtain ⟨s1, h1, h⟩ := bind_ok h
        have k := clearRespLen_keeps h1; cases h; exact k
      · cases h; exact ⟨rfl, rfl⟩
    · simp only [masterWaiting] at h
      repeat' split at h
      · simp only [masterRecv] at h
        obtain ⟨m, -, h⟩ := bind_ok h
        obtain ⟨i, -, h⟩ := bind_ok h
        obtain ⟨r, -, h⟩ := bind_ok h
        repeat' split at h
        · cases h; exact ⟨rfl, rfl⟩
        · obtain ⟨s1, h1, h⟩ := bind_ok h
          have k := clearRespLen_keeps h1; cases h; exact k
        · cases h; exact ⟨rfl, rfl⟩
      · obtain ⟨e, -, h⟩ := bind_ok h
        obtain ⟨s1, h1, h⟩ := bind_ok h
        cases h; exact processEnd_keeps h1
      · cases h; exact ⟨rfl, rfl⟩
    · simp only [masterReceived] at h
      repeat' split at h
      · simp only [masterFrameError] at h
        split at h
        · obtain ⟨s1, h1, h⟩ := bind_ok h
          have k := clearRespLen_keeps h1; cases h; exact k
        · obtain ⟨e, -, h⟩ := bind_ok h
          obtain ⟨s1, h1, h⟩ := bind_ok h
          cases h; exact processEnd_keeps h1
      · simp only [masterCrcError] at h
        split at h
        · obtain ⟨s1, h1, h⟩ := bind_ok h
          have k := clearRespLen_keeps h1; cases h; exact k
        · obtain ⟨e, -, h⟩ := bind_ok h
          obtain ⟨s1, h1, h⟩ := bind_ok h
          cases h; exact processEnd_keeps h1
      · simp only [masterCorrect] at h
        obtain ⟨e, -, h⟩ := bind_ok h
        obtain ⟨s1, h1, h⟩ := bind_ok h
        cases h; exact processEnd_keeps h1
      · cases h; exact ⟨rfl, rfl⟩
  | tick => simp only [masterStep] at h; cases h; split <;> exact ⟨rfl, rfl⟩
  | t15 | t35 | frameErr | txDone => simp only [masterStep] at h; cases h; split <;> exact ⟨rfl, rfl⟩
  | rxByte b =>
    simp only [masterStep] at h
    obtain ⟨s1, h1, h⟩ := bind_ok h
    cases h
    simp only [masterRx] at h1
    repeat' split at h1
    · cases h1; exact ⟨rfl, rfl⟩
    · obtain ⟨r, -, h1⟩ := bind_ok h1
      cases h1; exact ⟨rfl, rfl⟩
    · cases h1


theorem masterRun_keeps {cfg : Config} {ops : List MOp} : ∀ {s s' : Master} {tr : MTrace}, masterRun cfg s ops = .ok (s', tr) →
    (∀ m, MOp.init m ∉ ops) → s'.drv = s.drv ∧ s'.dataSet = s.dataSet := by
  induction ops with
  | nil => intro s s' o h _; cases h; exact ⟨rfl, rfl⟩
  | cons op ops ih =>
    intro s s' o h hn
    simp only [masterRun] at h
    obtain ⟨⟨s1, o1⟩, h1, h⟩ := bind_ok h
    obtain ⟨⟨s2, o2⟩, h2, h⟩ := bind_ok h
    cases h
    obtain ⟨a, b⟩ := masterStep_keeps h1 (fun m e => hn m (by simp [e]))
    obtain ⟨c, d⟩ := ih h2 (fun m e => hn m (List.mem_cons_of_mem _ e))
    exact ⟨c.trans a, d.trans b⟩

/-- A trace of the master with interrupted polls, and one with atomic operations only in which every interrupted poll has been replaced
by an atomic poll with the same outputs, or none, and the interrupts before or after it. -/
inductive MExpands : List (MPOp × List MOut) → MTrace → Prop
  | nil : MExpands [] []
  | op {o out p a} : MExpands p a → MExpands ((.op o, out) :: p) ((o, out) :: a)
  | poll {ints out ops tr p a} : MAsAtomic ints out ops tr → MExpands p a → MExpands ((.pollWith ints, out) :: p) (tr ++ a)

/-- The same for the operations only. -/
inductive MOpsExpand : List MPOp → List MOp → Prop
  | nil : MOpsExpand [] []
  | op {o p a} : MOpsExpand p a → MOpsExpand (.op o :: p) (o :: a)
  | poll {ints A B ops p a} : (ops = A.map MEv.op ++ [.poll] ++ B.map MEv.op ∨ ops = A.map MEv.op ++ B.map MEv.op) →
      (A ++ B).Perm ints.flatten → mrx (A ++ B) = mrx ints.flatten → MOpsExpand p a → MOpsExpand (.pollWith ints :: p) (ops ++ a)

/-- None of the polls of the history is interrupted at one of the few places marked in `masterPollP`: by a received byte between
the address check and the reset of the length (`src/modbus_master.c:749-757`) or between the two reads of a communication error report
(`:842-844`, `:877-879`), or, with both a frame error and a CRC error pending, by the 3.5 character callback between the two tests of
its flag (`:784-788`). -/
def masterNoRace (cfg : Config) : Master → List MPOp → Prop
  | _, [] => True
  | s, .op o :: ops => ∀ s' out, masterPStep cfg s (.op o) = .ok (s', out) → masterNoRace cfg s' ops
  | s, .pollWith ints :: ops => noRace (masterInt cfg) (masterPollP cfg) ints s ∧
      ∀ s' out, masterPStep cfg s (.pollWith ints) = .ok (s', out) → masterNoRace cfg s' ops

theorem MOpsExpand.some (pops : List MPOp) : ∃ ops, MOpsExpand pops ops := by
  induction pops with
  | nil => exact ⟨_, .nil⟩
  | cons p pops ih =>
    obtain ⟨ops, h⟩ := ih
    cases p with
    | op o => exact ⟨_, .op h⟩
    | pollWith ints => exact ⟨_, .poll (A := ints.flatten) (B := []) (.inl rfl) (by simp) (by simp) h⟩

theorem ints_no_init {l : List MEv} {m : Mode} : MOp.init m ∉ l.map MEv.op := by
  intro h
  obtain ⟨e, -, he⟩ := List.mem_map.mp h
  cases e <;> cases he

/-- **C56.** Whatever interrupts arrive between the statements of any of the polls (outside the places of `masterNoRace`): the history
has exactly the outcome (final state, outputs of every operation, or undefined behaviour) of one in which every poll is atomic, and every
interrupt happens exactly once, at most displaced to the beginning or the end of the poll it interrupted, received bytes in the order of
arrival. -/
theorem C56_master_interrupts_linearise_partial (cfg : Config) (pops : List MPOp) : ∀ (s : Master), s.drv = true → s.dataSet = true →
    (∀ m, MPOp.op (.init m) ∉ pops) → masterNoRace cfg s pops →
    (∃ s' ptr tr, masterPRun cfg s pops = .ok (s', ptr) ∧ ptr.map Prod.fst = pops ∧ MExpands ptr tr ∧
      masterRun cfg s (tr.map Prod.fst) = .ok (s', tr)) ∨
    (∃ u ops, masterPRun cfg s pops = .error u ∧ MOpsExpand pops ops ∧ masterRun cfg s ops = .error u) := by
  induction pops with
  | nil => exact fun s _ _ _ _ => .inl ⟨s, [], [], rfl, rfl, .nil, rfl⟩
  | cons p pops ih =>
    intro s hs hd hi hn
    have hi' : ∀ m, MPOp.op (.init m) ∉ pops := fun m h => hi m (List.mem_cons_of_mem _ h)
    cases p with
    | op o =>
      cases h : masterStep cfg s o with
      | error u =>
        obtain ⟨ops, h1⟩ := MOpsExpand.some pops
        exact .inr ⟨u, o :: ops, by simp only [masterPRun, masterPStep, h]; rfl, .op h1, by simp only [masterRun, h]; rfl⟩
      | ok x =>
        obtain ⟨s1, o1⟩ := x
        obtain ⟨a, b⟩ := masterStep_keeps h (fun m e => hi m (by simp [e]))
        rcases ih s1 (a.trans hs) (b.trans hd) hi' (hn s1 o1 h) with ⟨s', ptr, tr, h1, h2, h3, h4⟩ | ⟨u, ops, h1, h2, h3⟩
        · refine .inl ⟨s', (.op o, o1) :: ptr, (o, o1) :: tr, ?_, by simp [h2], .op h3, ?_⟩
          · simp only [masterPRun, masterPStep, h, okBind, h1, pureOk]
          · simp only [List.map_cons, masterRun, h, okBind, h4, pureOk]
        · refine .inr ⟨u, o :: ops, ?_, .op h2, ?_⟩
          · simp only [masterPRun, masterPStep, h, okBind, h1]; rfl
          · simp only [masterRun, h, okBind, h3]; rfl
    | pollWith ints =>
      rcases master_poll_reduces cfg s hs hd ints hn.1 with ⟨s1, o1, l, t1, k1, k2, k3⟩ | ⟨u, A, B, k1, k2, k3, k4⟩
      · have hl : ∀ m, MOp.init m ∉ l := by
          intro m h
          obtain ⟨A, B, h1, -, -⟩ := k2
          rcases h1 with ⟨rfl, -⟩ | ⟨rfl, -⟩ <;> simp only [List.mem_append, List.mem_singleton] at h
          · rcases h with (h | h) | h
            · exact ints_no_init h
            · cases h
            · exact ints_no_init h
          · rcases h with h | h <;> exact ints_no_init h
        obtain ⟨a, b⟩ := masterRun_keeps k3 hl
        have hl1 := masterRun_ops k3
        rcases ih s1 (a.trans hs) (b.trans hd) hi' (hn.2 s1 o1 k1) with ⟨s', ptr, tr, h1, h2, h3, h4⟩ | ⟨u, ops, h1, h2, h3⟩
        · refine .inl ⟨s', (.pollWith ints, o1) :: ptr, t1 ++ tr, ?_, by simp [h2], .poll k2 h3, ?_⟩
          · simp only [masterPRun, masterPStep, k1, okBind, h1, pureOk]
          · rw [List.map_append, masterRun_append', hl1, k3]
            simp only [okBind, h4]
        · obtain ⟨A, B, q1, q2, q3⟩ := k2
          refine .inr ⟨u, l ++ ops, ?_, .poll (A := A) (B := B) (q1.imp And.left And.left) q2 q3 h2, ?_⟩
          · simp only [masterPRun, masterPStep, k1, okBind, h1]; rfl
          · rw [masterRun_append', k3]
            simp only [okBind, h3]; rfl
      · obtain ⟨ops, h1⟩ := MOpsExpand.some pops
        refine .inr ⟨u, _, ?_, .poll (.inl rfl) k2 k3 h1, ?_⟩
        · simp only [masterPRun, masterPStep, k1]; rfl
        · rw [masterRun_append', k4]; rfl

/-- The trace with the interrupts during the polls forgotten. -/
def forget (ptr : List (MPOp × List MOut)) : MTrace :=
  ptr.map fun x =>
    match x with
    | (.op o, out) => (o, out)
    | (.pollWith _, out) => (.poll, out)

theorem intTrace_accepted (l : List MEv) : accepted (intTrace l) = [] := by
  induction l with
  | nil => rfl
  | cons e l ih => cases e <;> simpa [intTrace, accepted, List.filterMap_cons, MEv.op] using ih

theorem intTrace_refused (l : List MEv) : refused (intTrace l) = 0 := by
  induction l with
  | nil => rfl
  | cons e l ih => cases e <;> simpa [intTrace, refused, List.countP_cons, MEv.op] using ih

theorem intTrace_outs (l : List MEv) : outs (intTrace l) = [] := by
  induction l with
  | nil => rfl
  | cons e l ih => simpa [intTrace, outs] using ih

theorem outs_append' (a b : MTrace) : outs (a ++ b) = outs a ++ outs b := by simp [outs]
theorem accepted_append' (a b : MTrace) : accepted (a ++ b) = accepted a ++ accepted b := by simp [accepted]
theorem refused_append' (a b : MTrace) : refused (a ++ b) = refused a + refused b := by simp [refused]

theorem MExpands.same {ptr : List (MPOp × List MOut)} {tr : MTrace} (h : MExpands ptr tr) :
    accepted tr = accepted (forget ptr) ∧ outs tr = outs (forget ptr) ∧ refused tr = refused (forget ptr) := by
  induction h with
  | nil => exact ⟨rfl, rfl, rfl⟩
  | @op o out p a _ ih =>
    have e : forget ((.op o, out) :: p) = [(o, out)] ++ forget p := rfl
    rw [e, ← List.singleton_append, accepted_append', outs_append', refused_append', accepted_append', outs_append', refused_append', ih.1, ih.2.1, ih.2.2]
    exact ⟨rfl, rfl, rfl⟩
  | @poll ints out ops tr p a hl _ ih =>
    have e : forget ((.pollWith ints, out) :: p) = [(.poll, out)] ++ forget p := rfl
    obtain ⟨A, B, h1, -, -⟩ := hl
    rw [e, accepted_append', outs_append', refused_append', accepted_append', outs_append', refused_append', ih.1, ih.2.1, ih.2.2]
    rcases h1 with ⟨-, rfl⟩ | ⟨-, rfl, rfl⟩
    · simp only [accepted_append', outs_append', refused_append', intTrace_accepted, intTrace_outs, intTrace_refused]
      simp
    · simp only [accepted_append', outs_append', refused_append', intTrace_accepted, intTrace_outs, intTrace_refused]
      simp [accepted, outs, refused]

theorem MExpands.ops {ptr : List (MPOp × List MOut)} {tr : MTrace} (h : MExpands ptr tr) (op : MOp) (hop : op ∈ tr.map Prod.fst) :
    MPOp.op op ∈ ptr.map Prod.fst ∨ op = .poll ∨ ∃ e : MEv, op = e.op := by
  induction h with
  | nil => cases hop
  | @op o out p a _ ih =>
    rcases List.mem_cons.mp hop with rfl | h
    · exact .inl (by simp)
    · exact (ih h).imp_left (List.mem_cons_of_mem _)
  | @poll ints out ops tr p a hl _ ih =>
    rw [List.map_append] at hop
    rcases List.mem_append.mp hop with h | h
    · obtain ⟨A, B, h1, -, -⟩ := hl
      have hx : (∃ C : List MEv, op ∈ (intTrace C).map Prod.fst) ∨ op = .poll := by
        rcases h1 with ⟨-, rfl⟩ | ⟨-, -, rfl⟩
        · simp only [List.map_append, List.mem_append, List.map_cons, List.map_nil, List.mem_singleton] at h
          rcases h with (h | h) | h
          · exact .inl ⟨A, h⟩
          · exact .inr h
          · exact .inl ⟨B, h⟩
        · simp only [List.map_append, List.mem_append] at h
          rcases h with h | h
          · exact .inl ⟨A, h⟩
          · exact .inl ⟨B, h⟩
      rcases hx with ⟨C, h⟩ | h
      · simp only [intTrace, List.map_map, List.mem_map] at h
        obtain ⟨e, -, rfl⟩ := h
        exact .inr (.inr ⟨e, rfl⟩)
      · exact .inr (.inl h)
    · exact (ih h).imp_left (List.mem_cons_of_mem _)

/-- The application keeps its side of the contract (`OpsOk`) in a history with interrupted polls. -/
def POpsOk (pops : List MPOp) : Prop :=
  ∀ op, MPOp.op op ∈ pops → (∀ m, op ≠ .init m) ∧ ∀ r, op = .request r → QtyOk r → DataOk r

/-- From an RTU initialisation. -/
theorem master_from_init {cfg : Config} (hw : cfg.MWF) {pops : List MPOp} (ho : POpsOk pops) {s0 s : Master} {ptr : List (MPOp × List MOut)}
    (h : masterPRun cfg s0 (.op (.init .rtu) :: pops) = .ok (s, ptr)) (hn : masterNoRace cfg s0 (.op (.init .rtu) :: pops)) :
    ∃ tr, MExpands ptr ((.init .rtu, []) :: tr) ∧ OpsOk (tr.map Prod.fst) ∧
      masterRun cfg s0 (.init .rtu :: tr.map Prod.fst) = .ok (s, (.init .rtu, []) :: tr) := by
  obtain ⟨s1, h1, h2⟩ := masterInit_inv hw s0
  have hst : masterStep cfg s0 (.init .rtu) = .ok (s1, []) := by simp only [masterStep, h1, okBind, pureOk]
  simp only [masterPRun, masterPStep, hst, okBind] at h
  obtain ⟨⟨s2, t2⟩, h3, h⟩ := bind_ok h
  cases h
  have hi : ∀ m, MPOp.op (.init m) ∉ pops := fun m hm => (ho _ hm).1 m rfl
  rcases C56_master_interrupts_linearise_partial cfg pops s1 h2.drv h2.data hi (hn s1 [] hst) with ⟨s', p', tr, k1, k2, k3, k4⟩ | ⟨u, ops, k1, -, -⟩
  · rw [h3] at k1
    cases k1
    refine ⟨tr, .op k3, ?_, ?_⟩
    · intro op hop
      rcases k3.ops op hop with h | rfl | ⟨e, rfl⟩
      · rw [k2] at h; exact ho op h
      · exact ⟨nofun, nofun⟩
      · cases e <;> exact ⟨nofun, nofun⟩
    · simp only [masterRun, hst, okBind, k4, pureOk]
  · rw [h3] at k1; cases k1

/-- C29, C33, C34, C35, C44 with interrupted polls: the outputs of a history are those of its transactions, one after the other, in
order of acceptance, every frame transmitted between 1 and `1 + R` times unmodified, every transaction ended by its callbacks; buffers
are accounted for. -/
theorem C56_transactions {cfg : Config} (hw : cfg.MWF) {pops : List MPOp} (ho : POpsOk pops) {s0 s : Master} {ptr : List (MPOp × List MOut)}
    (h : masterPRun cfg s0 (.op (.init .rtu) :: pops) = .ok (s, ptr)) (hn : masterNoRace cfg s0 (.op (.init .rtu) :: pops)) :
    ∃ done cur queued, Transactions cfg.repeatMax (forget ptr) done cur queued ∧ (s.st = .idle ↔ cur = none) ∧
      s.freeQ.items.toNat + outstanding cur queued + refused (forget ptr) = cfg.queueItems := by
  obtain ⟨tr, h1, h2, h3⟩ := master_from_init hw ho h hn
  obtain ⟨done, cur, queued, ht, a, -, b, -⟩ := master_transactions hw h2 h3
  obtain ⟨e1, e2, e3⟩ := h1.same
  refine ⟨done, cur, queued, ⟨?_, ?_, ht.done_ok, ht.cur_ok, ?_⟩, a, ?_⟩
  · rw [← e1]; exact ht.order
  · rw [← e2]; exact ht.output
  · rw [← e1]; exact ht.valid
  · rw [← e3]; exact b

/-- C34 with interrupted polls. -/
theorem C56_transmissions {cfg : Config} (hw : cfg.MWF) {pops : List MPOp} (ho : POpsOk pops) {s0 s : Master} {ptr : List (MPOp × List MOut)}
    (h : masterPRun cfg s0 (.op (.init .rtu) :: pops) = .ok (s, ptr)) (hn : masterNoRace cfg s0 (.op (.init .rtu) :: pops)) :
    ∃ served : List (MReq × Nat), served.map Prod.fst <+: accepted (forget ptr) ∧
      (∀ x ∈ served, 1 ≤ x.2 ∧ x.2 ≤ 1 + cfg.repeatMax) ∧
      sends (forget ptr) = served.flatMap fun x => List.replicate x.2 (reqFrame x.1) := by
  obtain ⟨tr, h1, h2, h3⟩ := master_from_init hw ho h hn
  obtain ⟨e1, e2, -⟩ := h1.same
  obtain ⟨served, a, b, c⟩ := C34_transmissions hw h2 h3
  refine ⟨served, e1 ▸ a, b, ?_⟩
  rw [sends_eq_outs, ← e2, ← sends_eq_outs]; exact c

/-! ### A simple sufficient condition for `masterNoRace` -/

/-- All marked interrupts of a program satisfy `P`. -/
inductive RaceIn {σ ω ε : Type} (P : ε → Prop) : Prog σ ω ε → Prop
  | done : RaceIn P .done
  | step {α : Type} {r : σ → ε → Bool} {f : σ → C (α × σ × List ω)} {k : α → Prog σ ω ε} :
      (∀ s e, r s e = true → P e) → (∀ a, RaceIn P (k a)) → RaceIn P (.step r f k)

theorem RaceIn.noRace {σ ω ε : Type} {P : ε → Prop} {int : σ → ε → C σ} {p : Prog σ ω ε} (h : RaceIn P p) :
    ∀ (ints : List (List ε)) (s : σ), (∀ e ∈ ints.flatten, ¬ P e) → noRace int p ints s := by
  induction h with
  | done => intro ints s _; trivial
  | @step α r f k hr _ ih =>
    intro ints s hq
    refine ⟨?_, ?_⟩
    · intro e he
      cases hre : r s e with
      | false => rfl
      | true =>
        refine absurd (hr s e hre) (hq e ?_)
        cases ints with
        | nil => cases he
        | cons I Is => exact List.mem_append_left _ he
    · intro s1 a s2 o _ _
      refine ih a _ _ (fun e he => hq e ?_)
      cases ints with
      | nil => exact he
      | cons I Is => exact List.mem_append_right _ he

theorem RaceIn.free {σ ω ε : Type} {P : ε → Prop} {α : Type} {f : σ → C (α × σ × List ω)} {k : α → Prog σ ω ε}
    (h : ∀ a, RaceIn P (k a)) : RaceIn P (.step Modbus.free f k) := .step (fun _ _ h => by cases h) h

theorem RaceIn.ite {σ ω ε : Type} {P : ε → Prop} {c : Prop} [Decidable c] {p q : Prog σ ω ε} (h1 : RaceIn P p) (h2 : RaceIn P q) :
    RaceIn P (if c then p else q) := by split <;> assumption

/-- Bytes and 3.5 character callbacks. -/
def MEv.delicate (e : MEv) : Prop := e.isRx = true ∨ e = .t35

theorem raceIn_end (cfg : Config) : RaceIn MEv.delicate (masterProcessEndP cfg) :=
  .free fun _ => .free fun _ => .free fun _ => .done

theorem raceIn_comm (cfg : Config) (e : RespErr) : RaceIn MEv.delicate (masterCommP cfg e) :=
  .free fun _ => .step (fun _ _ h => .inl h) fun _ => .free fun _ => raceIn_end cfg

theorem raceIn_received3 (cfg : Config) : RaceIn MEv.delicate (masterReceived3P cfg) :=
  .free fun _ => .ite (.free fun _ => .ite (.free fun _ => .ite (.free fun _ => raceIn_end cfg) .done) .done) .done

theorem raceIn_crc (cfg : Config) : RaceIn MEv.delicate (masterCrcErrorP cfg) :=
  .free fun _ => .free fun _ => .ite (.free fun _ => .free fun _ => .free fun _ => .done) (raceIn_comm cfg _)

theorem raceIn_frame (cfg : Config) : RaceIn MEv.delicate (masterFrameErrorP cfg) :=
  .free fun _ => .free fun _ => .ite (.free fun _ => .free fun _ => .free fun _ => .done) (raceIn_comm cfg _)

theorem raceIn_send : RaceIn MEv.delicate masterSendP :=
  .free fun _ => .free fun _ => .free fun _ => .free fun _ => .done

theorem raceIn_poll (cfg : Config) : RaceIn MEv.delicate (masterPollP cfg) := by
  refine .free fun st => ?_
  cases st with
  | idle => exact .free fun _ => .ite (.free fun _ => raceIn_send) .done
  | repeatRequest => exact raceIn_send
  | transmitting => exact .free fun _ => .ite (.free fun _ => .free fun _ => .free fun _ => .done) .done
  | waiting =>
    refine .free fun _ => .ite ?_ (.free fun _ => .ite ?_ .done)
    · refine .free fun _ => .free fun _ => .free fun _ => .free fun _ => .ite ?_ (.ite ?_ ?_)
      · exact .free fun _ => .free fun _ => .free fun _ => .done
      · exact .step (fun _ _ h => .inl h) fun _ => .done
      · exact .free fun _ => .free fun _ => .done
    · exact .free fun _ => .free fun _ => .free fun _ => .free fun _ => .free fun _ => raceIn_end cfg
  | received =>
    refine .free fun _ => .ite (.free fun _ => .ite (raceIn_frame cfg) ?_) (.free fun _ => .ite (.free fun _ => .ite (raceIn_crc cfg) (raceIn_received3 cfg)) (raceIn_received3 cfg))
    refine .step (fun _ _ h => .inr (by simpa using (of_decide_eq_true h).2)) fun _ => .ite ?_ (raceIn_received3 cfg)
    exact .step (fun _ _ h => .inr (of_decide_eq_true h)) fun _ => .ite (raceIn_crc cfg) (raceIn_received3 cfg)

/-- C56 holds without further conditions whenever the polls are interrupted only by ticks, completions, frame errors and
1.5 character callbacks: a poll that no byte and no 3.5 character callback interrupts has no race. -/
theorem C56_quiet_polls_have_no_race (cfg : Config) (pops : List MPOp)
    (h : ∀ ints, MPOp.pollWith ints ∈ pops → ∀ e ∈ ints.flatten, e.isRx = false ∧ e ≠ .t35) : ∀ s, masterNoRace cfg s pops := by
  induction pops with
  | nil => exact fun _ => trivial
  | cons p pops ih =>
    have ih' := ih (fun ints hm => h ints (List.mem_cons_of_mem _ hm))
    intro s
    cases p with
    | op o => exact fun s' _ _ => ih' s'
    | pollWith ints =>
      refine ⟨(raceIn_poll cfg).noRace ints s (fun e he hd => ?_), fun s' _ _ => ih' s'⟩
      have := h ints List.mem_cons_self e he
      rcases hd with hd | hd
      · rw [this.1] at hd; cases hd
      · exact this.2 hd

/-- A transaction of the master in which the completion, the 1.5 character callback, ticks and a frame error interrupt polls. -/
def interruptedOps : List MPOp :=
  [.op (.request (.writeSingleReg 2 1 0x1234)), .pollWith [[.tick], [], [], [], [], [], [.txDone]], .pollWith [[.t15], [.tick]]]
    ++ (rtuFrame 1 [6, 0, 2, 0x12, 0x34]).map (fun b => .op (.rxByte b)) ++ [.pollWith [[.t15]], .op .t35, .pollWith [[], [], [], [], [.frameErr]]]

/-- The outputs of a run with interrupted polls. -/
def poutsOf (r : C (Master × List (MPOp × List MOut))) : Option (List MOut) :=
  match r with
  | .ok x => some (outs (forget x.2))
  | .error _ => none

theorem interruptedOps_mem {p : MPOp} (h : p ∈ interruptedOps) :
    p = .op (.request (.writeSingleReg 2 1 0x1234)) ∨ p = .pollWith [[.tick], [], [], [], [], [], [.txDone]] ∨ p = .pollWith [[.t15], [.tick]] ∨
      (∃ b, p = .op (.rxByte b)) ∨ p = .pollWith [[.t15]] ∨ p = .op .t35 ∨ p = .pollWith [[], [], [], [], [.frameErr]] := by
  unfold interruptedOps at h
  rcases List.mem_append.mp h with h | h
  · rcases List.mem_append.mp h with h | h
    · simp only [List.mem_cons, List.not_mem_nil, or_false] at h
      rcases h with rfl | rfl | rfl <;> simp
    · obtain ⟨b, -, rfl⟩ := List.mem_map.mp h
      simp
  · simp only [List.mem_cons, List.not_mem_nil, or_false] at h
    rcases h with rfl | rfl | rfl <;> simp

/-- The hypotheses of C56 are met by a history with interrupts in every poll, which ends with the confirmation. -/
theorem C56_example : POpsOk interruptedOps ∧ (∀ s, masterNoRace smallCfg s (.op (.init .rtu) :: interruptedOps)) ∧
    poutsOf (masterPRun smallCfg Master.powerOn (.op (.init .rtu) :: interruptedOps)) =
      some [.send (rtuFrame 1 [6, 0, 2, 0x12, 0x34]), .event (.hregWrite 1 2 1)] := by
  refine ⟨?_, ?_, by decide +kernel⟩
  · intro op hop
    have := interruptedOps_mem hop
    refine ⟨?_, ?_⟩
    · rintro m rfl; simp at this
    · rintro r rfl; simp at this; subst this; exact fun _ => trivial
  · refine C56_quiet_polls_have_no_race _ _ ?_
    intro ints hm e he
    rcases List.mem_cons.mp hm with h | h
    · cases h
    · have := interruptedOps_mem h
      simp at this
      rcases this with rfl | rfl | rfl | rfl <;> revert e <;> decide

/-! ### The condition of C56 is needed -/

/-- The rest of a correct answer, its end, and two ticks. -/
def lostByteTail : List MOp :=
  ((rtuFrame 1 [6, 0, 2, 0x12, 0x34]).drop 1).map MOp.rxByte ++ [.t15, .poll, .t35, .poll, .tick, .tick, .poll]

/-- The outputs of a run with atomic polls. -/
def moutsOf (r : C (Master × MTrace)) : Option (List MOut) :=
  match r with
  | .ok x => some (outs x.2)
  | .error _ => none

/-- A 1.5 character event without a byte (noise); while the poll that handles it is between the address check and the reset of the
length, the first byte of the answer arrives; the rest of the correct answer follows, and the response timer runs out. -/
def lostByteOps (tail : List MOp) : List MPOp :=
  .op (.init .rtu) :: .op (.request (.writeSingleReg 2 1 0x1234)) :: .op .poll :: .op .txDone :: .op .poll :: .op .t15 ::
    .pollWith [[], [], [], [], [], [], [.rxByte 1]] :: tail.map .op

/-- The same with the poll and its interrupt replaced by atomic operations. -/
def lostByteAtomic (tail mid : List MOp) : List MOp :=
  .init .rtu :: .request (.writeSingleReg 2 1 0x1234) :: .poll :: .txDone :: .poll :: .t15 :: (mid ++ tail)

theorem MOpsExpand.ops_inv {l : List MOp} : ∀ {a : List MOp}, MOpsExpand (l.map .op) a → a = l := by
  induction l with
  | nil => intro a h; cases h; rfl
  | cons o l ih => intro a h; cases h with | op h => rw [ih h]

theorem lostByteOps_expand {tail ops : List MOp} (h : MOpsExpand (lostByteOps tail) ops) :
    ∃ mid ∈ [[MOp.rxByte 1, .poll], [.poll, .rxByte 1], [.rxByte 1]], ops = lostByteAtomic tail mid := by
  cases h with | op h =>
  cases h with | op h =>
  cases h with | op h =>
  cases h with | op h =>
  cases h with | op h =>
  cases h with | op h =>
  cases h with
  | @poll _ A B mid _ a hm hp hx h =>
    cases MOpsExpand.ops_inv h
    have hp : (A ++ B).Perm [.rxByte 1] := hp
    have hs : A ++ B = [.rxByte 1] := List.perm_singleton.mp hp
    refine ⟨mid, ?_, rfl⟩
    cases A with
    | nil =>
      simp only [List.nil_append] at hs
      subst hs
      rcases hm with rfl | rfl <;> simp [MEv.op]
    | cons e A =>
      simp only [List.cons_append, List.cons.injEq, List.append_eq_nil_iff] at hs
      obtain ⟨rfl, rfl, rfl⟩ := hs
      rcases hm with rfl | rfl <;> simp [MEv.op]

/-- What the application sees. -/
def lostByteOuts : List MOut :=
  [.send (rtuFrame 1 [6, 0, 2, 0x12, 0x34]), .event (.timeoutErr { slave := 1, fc := 0, adr := 2, qty := 0x1234, err := .timeout })]

/-- **C56 is violated** at one of the excluded places: the byte is lost, the request ends with a timeout although the correct answer was
received, and no placement of the interrupt before or after the poll explains this. -/
theorem C56_byte_lost_violated :
    poutsOf (masterPRun smallCfg Master.powerOn (lostByteOps lostByteTail)) = some lostByteOuts ∧
    ∀ ops, MOpsExpand (lostByteOps lostByteTail) ops → moutsOf (masterRun smallCfg Master.powerOn ops) ≠ some lostByteOuts := by
  refine ⟨by decide +kernel, ?_⟩
  intro ops h
  obtain ⟨mid, hm, rfl⟩ := lostByteOps_expand h
  have key : ∀ mid ∈ [[MOp.rxByte 1, .poll], [.poll, .rxByte 1], [.rxByte 1]],
      moutsOf (masterRun smallCfg Master.powerOn (lostByteAtomic lostByteTail mid)) ≠ some lostByteOuts := by
    decide +kernel
  exact key mid hm

end Modbus
