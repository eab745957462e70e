import Verif.Props.Preempt
import Verif.Props.MasterLive

/-! C50: what becomes of a transmission-complete callback that arrives during the poll which transmits. -/

set_option linter.unusedSimpArgs false

namespace Modbus

open Spec

theorem pad_list {σ ω ε : Type} (int : σ → ε → C σ) (p : Prog σ ω ε) (n : Nat) (ints : List (List ε)) (s : σ) :
    runProg int p (ints ++ List.replicate n []) s = runProg int p ints s := by
  induction n with
  | zero => simp
  | succ n ih => rw [List.replicate_succ', ← List.append_assoc, runProg_pad1, ih]

theorem pad_drop {ε : Type} (n k : Nat) (ints : List (List ε)) : ((ints ++ List.replicate n []).drop k).flatten = (ints.drop k).flatten := by
  simp [List.drop_append, List.drop_replicate, List.flatten_replicate_nil]

/-! ### Slave -/

/-- **C50 (slave, exact).** A poll that transmits, interrupted in any way: the slave is then waiting for the end of the transmission, and
it has noted the end (and returns to idle at the next poll) exactly if a completion callback arrived after the eighth step of the poll,
the assignment of the transmission flag at `src/modbus_slave.c:198`. A completion reported earlier, in particular between the
call of `send` and that assignment, leaves no trace. -/
theorem C50_slave_completion (cfg : Config) (s s' : Slave) (hs : s.subscribed = true) (hm : s.msgPtr = true) (ints : List (List SEv)) (b : List U8)
    (h : runProg (slaveInt cfg) (slavePollP cfg) ints s = .ok (s', [.send b])) :
    s'.st = .transmitting ∧ s'.txf = (if .txDone ∈ (ints.drop 8).flatten then .cleared else .set) := by
  rw [← pad_list _ _ 11] at h
  rw [← pad_drop 11]
  have hlen : 11 ≤ (ints ++ List.replicate 11 []).length := by simp
  generalize ints ++ List.replicate 11 [] = l at h hlen
  obtain ⟨I0, I1, I2, I3, I4, I5, I6, I7, I8, I9, I10, R, rfl⟩ := length11 l hlen
  cases s with
  | mk id st drv mp ds sub req rl resp pl a b c d mem =>
  simp only at hs hm
  subst hs; subst hm
  cases st with
  | idle =>
    exfalso
    by_cases hf : mark (hasEv SEv.t15 I0 || hasEv SEv.t15 I1) a = Flag.set
    · cases hq : rtuRecv (if ds then some (rxRun (req, rl) (srx I0 ++ (srx I1 ++ (srx I2 ++ srx I3)))).1 else none)
        (rxRun (req, rl) (srx I0 ++ (srx I1 ++ (srx I2 ++ srx I3)))).2 id with
      | error u => simp [slavePollP, srun_step, srun_done, srun_assign, srun_assignC, srun_test, slaveAfter_mk, slaveIdleP, okBind, errBind, pureOk, hf, Slave.reqData, hq] at h
      | ok r =>
        by_cases hr : r = RET_OK <;>
        simp [slavePollP, srun_step, srun_done, srun_assign, srun_assignC, srun_test, slaveAfter_mk, slaveIdleP, okBind, errBind, pureOk, hf, Slave.reqData, hq, hr] at h
    · simp [slavePollP, srun_step, srun_done, srun_assign, srun_assignC, srun_test, slaveAfter_mk, slaveIdleP, okBind, errBind, pureOk, hf] at h
  | transmitting =>
    exfalso
    by_cases hf : unmark (hasEv SEv.txDone I0 || hasEv SEv.txDone I1) d = Flag.cleared <;>
    simp [slavePollP, srun_step, srun_done, srun_assign, srun_assignC, srun_test, slaveAfter_mk, slaveTransmittingP, okBind, errBind, pureOk, slaveRespLen0, slaveReqLen0, hf] at h
  | unknown =>
    exfalso
    simp [slavePollP, srun_step, srun_done, srun_assign, srun_assignC, srun_test, slaveAfter_mk, slaveDefaultP, okBind, errBind, pureOk, slaveRespLen0, slaveReqLen0] at h
  | msgReceived =>
    by_cases hf : mark (hasEv SEv.frameErr I0 || hasEv SEv.frameErr I1) c = Flag.set
    · by_cases ht : mark (hasEv SEv.t35 I0 || hasEv SEv.t35 I1 || hasEv SEv.t35 I2) b = Flag.set
      · exfalso
        simp [slavePollP, srun_step, srun_done, srun_assign, srun_assignC, srun_test, slaveAfter_mk, slaveMsgReceivedP, slaveDropP, okBind, errBind, pureOk, slaveRespLen0, slaveReqLen0, hf, ht] at h
      · have hx : ¬ mark (hasEv SEv.frameErr I0 || hasEv SEv.frameErr I1 || hasEv SEv.frameErr I2 || hasEv SEv.frameErr I3) c = Flag.cleared := by
          grind [mark, unmark]
        exfalso
        simp [slavePollP, srun_step, srun_done, srun_assign, srun_assignC, srun_test, slaveAfter_mk, slaveMsgReceivedP, okBind, errBind, pureOk, slaveRespLen0, slaveReqLen0, hf, ht, hx] at h
    · by_cases hc : mark (hasEv SEv.frameErr I0 || hasEv SEv.frameErr I1 || hasEv SEv.frameErr I2) c = Flag.cleared
      · by_cases ht : mark (hasEv SEv.t35 I0 || hasEv SEv.t35 I1 || hasEv SEv.t35 I2 || hasEv SEv.t35 I3) b = Flag.set
        · cases ds with
          | false =>
            cases drv <;> simp [slavePollP, srun_step, srun_done, srun_assign, srun_assignC, srun_test, slaveAfter_mk, slaveMsgReceivedP, slaveAnswerP, slaveParse,
              slaveFrame, Slave.respData, rtuSend, slaveDriverSend, okBind, errBind, pureOk, hf, hc, ht] at h
          | true =>
            cases hp : parseRequest cfg { req := (rxRun (req, rl) (srx I0 ++ (srx I1 ++ (srx I2 ++ (srx I3 ++ srx I4))))).1, resp := resp, respLen := pl, mem := mem } with
            | error u => simp [slavePollP, srun_step, srun_done, srun_assign, srun_assignC, srun_test, slaveAfter_mk, slaveMsgReceivedP, slaveAnswerP, slaveParse, slaveFrame, Slave.respData, slaveDriverSend, okBind, errBind, pureOk, hf, hc, ht, hp] at h
            | ok x =>
              obtain ⟨x1, p⟩ := x
              cases hq : rtuSend (some p.resp) p.respLen id with
              | error u => simp [slavePollP, srun_step, srun_done, srun_assign, srun_assignC, srun_test, slaveAfter_mk, slaveMsgReceivedP, slaveAnswerP, slaveParse, slaveFrame, Slave.respData, slaveDriverSend, okBind, errBind, pureOk, hf, hc, ht, hp, hq] at h
              | ok y =>
                obtain ⟨y1, bb, l⟩ := y
                cases drv with
                | false => simp [slavePollP, srun_step, srun_done, srun_assign, srun_assignC, srun_test, slaveAfter_mk, slaveMsgReceivedP, slaveAnswerP, slaveParse, slaveFrame, Slave.respData, slaveDriverSend, okBind, errBind, pureOk, hf, hc, ht, hp, hq] at h
                | true =>
                  simp [slavePollP, srun_step, srun_done, srun_assign, srun_assignC, srun_test, slaveAfter_mk, slaveMsgReceivedP, slaveAnswerP, slaveParse, slaveFrame, Slave.respData, slaveDriverSend, okBind, errBind, pureOk, hf, hc, ht, hp, hq] at h
                  obtain ⟨rfl, -⟩ := h
                  refine ⟨rfl, ?_⟩
                  simp [unmark, hasEv, or_assoc]
        · exfalso
          simp [slavePollP, srun_step, srun_done, srun_assign, srun_assignC, srun_test, slaveAfter_mk, slaveMsgReceivedP, okBind, errBind, pureOk, slaveRespLen0, slaveReqLen0, hf, hc, ht] at h
      · exfalso
        simp [slavePollP, srun_step, srun_done, srun_assign, srun_assignC, srun_test, slaveAfter_mk, slaveMsgReceivedP, okBind, errBind, pureOk, slaveRespLen0, slaveReqLen0, hf, hc] at h


/-- The window: the interrupts of a poll that consist of one completion callback between `send` and the assignment of the flag. -/
def slaveTxWindow : List (List SEv) := [[], [], [], [], [], [], [], [.txDone]]

/-- **C50 (slave), violated.** Every poll that transmits can be interrupted so that the end of the transmission is lost for ever: if the
completion is reported between `send` and the assignment of the flag (as a driver that transmits synchronously does, or an interrupt
of higher urgency than the main program for a short frame), then, whatever happens afterwards short of a second completion callback or a
re-initialisation, the slave transmits nothing any more and stays in its transmitting state. -/
theorem C50_slave_completion_lost_violated (cfg : Config) (hc : cfg.WF) (s s1 : Slave) (hs : s.subscribed = true) (hm : s.msgPtr = true)
    (b : List U8) (hp : slavePoll cfg s = .ok (s1, [.send b])) :
    runProg (slaveInt cfg) (slavePollP cfg) slaveTxWindow s = .ok (s1, [.send b]) ∧
    ∀ cont s2 o, slavePRun cfg s1 cont = .ok (s2, o) → .txDone ∉ cont.flatMap SPOp.events →
      (∀ m i, SPOp.op (.init m i) ∉ cont) → o = [] ∧ s2.st = .transmitting := by
  have hpi := slavePoll_inv cfg hc hp
  have hst : s1.st = .transmitting ∧ s1.txf = .set ∧ s1.subscribed = true ∧ s1.msgPtr = true := by
    have k := slaveStep_keeps (op := .poll) hp hs hm
    generalize ho : [SOut.send b] = o1 at hpi
    cases hpi <;> simp_all
  refine ⟨?_, ?_⟩
  · have hans : s.st = .msgReceived ∧ s.ferr = .cleared ∧ s.t35 = .set := by
      generalize ho : [SOut.send b] = o1 at hpi
      cases hpi <;> simp_all
    obtain ⟨e1, e2, e3⟩ := hans
    simp only [slavePoll, e1, slaveMsgReceived, e2, e3, reduceCtorEq, false_and, and_self, if_false, if_true] at hp
    obtain ⟨x, h1, hp⟩ := bind_ok hp
    obtain ⟨y, h2, hp⟩ := bind_ok hp
    obtain ⟨z, h3, hp⟩ := bind_ok hp
    have kx : x.subscribed = true ∧ x.msgPtr = true := by
      unfold slaveParse at h1
      split at h1
      · cases h1; exact ⟨hs, hm⟩
      · obtain ⟨w, -, h1⟩ := bind_ok h1
        cases h1; exact ⟨hs, hm⟩
    have ky : y.subscribed = true := by
      unfold slaveFrame at h2
      rw [if_pos kx.2] at h2
      obtain ⟨w, -, h2⟩ := bind_ok h2
      cases h2; exact kx.1
    simp only [pureOk, Except.ok.injEq, Prod.mk.injEq] at hp
    obtain ⟨rfl, rfl⟩ := hp
    simp [slaveTxWindow, slavePollP, runProg, runInts, e1, e2, e3, slaveMsgReceivedP, slaveAnswerP, test, assign, assignC, okBind, pureOk, h1, h2, h3,
      slaveInt, SEv.op, slaveStep, ky]
  · intro cont s2 o hr hx hi
    obtain ⟨ops, h1, h2⟩ := C54_slave_interrupts_linearise cfg cont s1 hst.2.2.1 hst.2.2.2
    rw [h2] at hr
    have hi' : ∀ m i, SOp.init m i ∉ ops := fun m i h => by
      have := (h1.mem (.init m i) (by simp)).mp h
      rw [List.mem_flatMap] at this
      obtain ⟨p, hp1, hp2⟩ := this
      cases p with
      | op o => simp [SPOp.events] at hp2; subst hp2; exact hi m i hp1
      | pollWith ints =>
        simp only [SPOp.events, List.mem_map] at hp2
        obtain ⟨e, -, he⟩ := hp2
        cases e <;> cases he
    obtain ⟨k1, k2, -⟩ := busy_run cfg hc ops s1 s2 o hst.1 hst.2.1 hr (fun h => hx ((h1.mem _ (by simp)).mp h)) hi'
    exact ⟨k1, k2⟩

/-- **C50 (slave, what holds).** A completion reported after the flag has been set, during the same poll or later, ends the transmission
at the next poll. -/
theorem C50_slave_completion_seen_partial (cfg : Config) (s s' : Slave) (hs : s.subscribed = true) (hm : s.msgPtr = true) (ints : List (List SEv)) (b : List U8)
    (h : runProg (slaveInt cfg) (slavePollP cfg) ints s = .ok (s', [.send b])) :
    (.txDone ∈ (ints.drop 8).flatten → ∃ s2, slavePoll cfg s' = .ok (s2, []) ∧ s2.st = .idle) ∧
    ∃ s2, slaveRun cfg s' [.txDone, .poll] = .ok (s2, []) ∧ s2.st = .idle := by
  obtain ⟨h1, h2⟩ := C50_slave_completion cfg s s' hs hm ints b h
  obtain ⟨ops, -, hr⟩ := slave_poll_reduces cfg s hs hm ints
  rw [h] at hr
  obtain ⟨k1, k2⟩ := slaveRun_keeps hr.symm hs hm
  refine ⟨?_, ?_⟩
  · intro hx
    rw [if_pos hx] at h2
    exact ⟨{ s' with st := .idle, respLen := 0, reqLen := 0 }, by simp [slavePoll, h1, slaveTransmitting, h2, k2], rfl⟩
  · exact ⟨{ s' with txf := .cleared, st := .idle, respLen := 0, reqLen := 0 },
      by simp [slaveRun, slaveStep, k1, slavePoll, h1, slaveTransmitting, k2, okBind, pureOk], rfl⟩

/-! ### Master -/

/-- **C50 (master, exact).** A poll that transmits, interrupted in any way: the master is then waiting for the end of the transmission,
and has noted it exactly if a completion callback arrived after the assignment of the transmission flag at
`src/modbus_master.c:406` (sixth step of a poll that takes a new request, fourth of one that repeats a request). -/
theorem C50_master_completion (cfg : Config) (s s' : Master) (hs : s.drv = true) (hd : s.dataSet = true) (ints : List (List MEv)) (b : List U8)
    (hst : s.st = .idle ∨ s.st = .repeatRequest)
    (h : runProg (masterInt cfg) (masterPollP cfg) ints s = .ok (s', [.send b])) :
    s'.st = .transmitting ∧
      s'.txf = (if .txDone ∈ (ints.drop (if s.st = .idle then 6 else 4)).flatten then .cleared else .set) ∧
      s'.drv = true ∧ s'.msgBuf.isSome := by
  rw [← pad_list _ _ 13] at h
  rw [← pad_drop 13]
  have hlen : 13 ≤ (ints ++ List.replicate 13 []).length := by simp
  generalize ints ++ List.replicate 13 [] = l at h hlen
  obtain ⟨I0, I1, I2, I3, I4, I5, I6, I7, I8, I9, I10, I11, I12, R, rfl⟩ := length13 l hlen
  cases s with
  | mk st drv fq tq ms ds mb tm rc a b c d e tgt =>
  simp only at hs hd hst
  subst hs; subst hd
  rcases hst with rfl | rfl
  · cases ha : tq.available with
    | false => simp [masterPollP, mrun_step, mrun_done, mrun_assign, mrun_assignC, mrun_test, masterAfter_mk, masterIdleP, ha, okBind, errBind, pureOk, curMsg, clearRespLen] at h
    | true =>
      cases hq : tq.pop cfg.queueItems with
      | error u => simp [masterPollP, mrun_step, mrun_done, mrun_assign, mrun_assignC, mrun_test, masterAfter_mk, masterIdleP, masterSendP, masterDrvSend, masterEnableRx, ha, hq, okBind, errBind, pureOk, curMsg, clearRespLen] at h
      | ok x =>
        obtain ⟨mb', tq'⟩ := x
        cases mb' with
        | none => simp [masterPollP, mrun_step, mrun_done, mrun_assign, mrun_assignC, mrun_test, masterAfter_mk, masterIdleP, masterSendP, masterDrvSend, masterEnableRx, ha, hq, okBind, errBind, pureOk, curMsg, clearRespLen] at h
        | some i =>
          simp [masterPollP, mrun_step, mrun_done, mrun_assign, mrun_assignC, mrun_test, masterAfter_mk, masterIdleP, masterSendP, masterDrvSend, masterEnableRx, ha, hq, okBind, errBind, pureOk, curMsg, clearRespLen] at h
          obtain ⟨rfl, -⟩ := h
          refine ⟨rfl, ?_, rfl, rfl⟩
          simp [unmark, hasEv, or_assoc]
  · cases mb with
    | none => simp [masterPollP, mrun_step, mrun_done, mrun_assign, mrun_assignC, mrun_test, masterAfter_mk, masterSendP, masterDrvSend, masterEnableRx, okBind, errBind, pureOk, curMsg, clearRespLen] at h
    | some i =>
      simp [masterPollP, mrun_step, mrun_done, mrun_assign, mrun_assignC, mrun_test, masterAfter_mk, masterSendP, masterDrvSend, masterEnableRx, okBind, errBind, pureOk, curMsg, clearRespLen] at h
      obtain ⟨rfl, -⟩ := h
      refine ⟨rfl, ?_, rfl, rfl⟩
      simp [unmark, hasEv, or_assoc]

/-- The window of the master: one completion callback between `send` and the assignment of the flag. -/
def masterTxWindow (s : Master) : List (List MEv) :=
  if s.st = .idle then [[], [], [], [], [.txDone]] else [[], [], [.txDone]]

/-- Transmitting, completion not noted. -/
def MBusy (s : Master) : Prop := s.st = .transmitting ∧ s.txf = .set

theorem mbusy_step {cfg : Config} (hw : cfg.MWF) {s : Master} {g : Ghost} (hi : MInv cfg s g) (h : MBusy s) {op : MOp} (hop : op ≠ .txDone)
    (hc : (∀ m, op ≠ .init m) ∧ ∀ r, op = .request r → QtyOk r → DataOk r) :
    ∃ s' o, masterStep cfg s op = .ok (s', o) ∧ outs [(op, o)] = [] ∧ MBusy s' := by
  by_cases hp : op = .poll
  · subst hp
    exact ⟨s, [], by simp [masterStep, masterPoll, h.1, masterTransmitting, h.2], rfl, h⟩
  · obtain ⟨s', o, g', k1, k2, -⟩ := step_effect hw hi hp hc
    exact ⟨s', o, k1, k2.outs, k2.st.trans h.1, by rw [k2.txf', if_neg hop]; exact h.2⟩

theorem send_states {cfg : Config} {s s1 : Master} {b : List U8} (hp : masterPoll cfg s = .ok (s1, [.send b])) :
    s.st = .idle ∨ s.st = .repeatRequest := by
  cases hst : s.st with
  | idle => exact .inl rfl
  | repeatRequest => exact .inr rfl
  | transmitting =>
    simp only [masterPoll, hst, masterTransmitting] at hp
    split at hp
    · obtain ⟨x, -, hp⟩ := bind_ok hp; cases hp
    · cases hp
  | waiting =>
    simp only [masterPoll, hst, masterWaiting, masterRecv] at hp
    repeat' split at hp
    · obtain ⟨x, -, hp⟩ := bind_ok hp
      obtain ⟨x, -, hp⟩ := bind_ok hp
      obtain ⟨x, -, hp⟩ := bind_ok hp
      repeat' split at hp
      · cases hp
      · obtain ⟨x, -, hp⟩ := bind_ok hp; cases hp
      · cases hp
    · obtain ⟨x, -, hp⟩ := bind_ok hp
      obtain ⟨x, -, hp⟩ := bind_ok hp
      cases hp
    · cases hp
  | received =>
    simp only [masterPoll, hst, masterReceived, masterFrameError, masterCrcError] at hp
    repeat' split at hp
    · obtain ⟨x, -, hp⟩ := bind_ok hp; cases hp
    · obtain ⟨x, -, hp⟩ := bind_ok hp
      obtain ⟨x, -, hp⟩ := bind_ok hp; cases hp
    · obtain ⟨x, -, hp⟩ := bind_ok hp; cases hp
    · obtain ⟨x, -, hp⟩ := bind_ok hp
      obtain ⟨x, -, hp⟩ := bind_ok hp; cases hp
    · simp only [masterCorrect] at hp
      obtain ⟨x, -, hp⟩ := bind_ok hp
      obtain ⟨y, -, hp⟩ := bind_ok hp
      simp only [pureOk, Except.ok.injEq, Prod.mk.injEq] at hp
      obtain ⟨-, hp⟩ := hp
      cases x <;> simp at hp
    · cases hp

/-- **C50 (master), violated.** In every history every poll that transmits a frame can be interrupted so that the end of the
transmission is lost for ever: if the completion is reported between `send` and the assignment of the flag, then, whatever happens
afterwards short of a second completion callback or a re-initialisation, nothing more is transmitted or reported: the request is
never answered, repeated or given up, and every later request waits for ever. -/
theorem C50_master_completion_lost_violated {cfg : Config} (hw : cfg.MWF) {ops : List MOp} (ho : OpsOk ops) {s0 s s1 : Master} {tr : MTrace}
    (h : masterRun cfg s0 (.init .rtu :: ops) = .ok (s, tr)) {b : List U8} (hp : masterStep cfg s .poll = .ok (s1, [.send b])) :
    runProg (masterInt cfg) (masterPollP cfg) (masterTxWindow s) s = .ok (s1, [.send b]) ∧
    ∀ cont, OpsOk cont → .txDone ∉ cont →
      ∃ s2 tr2, masterRun cfg s1 cont = .ok (s2, tr2) ∧ outs tr2 = [] ∧ s2.st = .transmitting := by
  obtain ⟨tr', g, sx, rfl, hi, -⟩ := run_from_init hw ho h
  have hp' : masterPoll cfg s = .ok (s1, [.send b]) := hp
  have hst := send_states hp'
  have hdrv := hi.drv
  have hdata := hi.data
  have key : runProg (masterInt cfg) (masterPollP cfg) (masterTxWindow s) s = .ok (s1, [.send b]) ∧ MBusy s1 := by
    clear h hi ho
    cases s with
    | mk st drv fq tq ms ds mb tm rc a b c d e tgt =>
    simp only at hdrv hdata hst
    subst hdrv; subst hdata
    rcases hst with rfl | rfl
    · simp only [masterPoll, masterIdle] at hp'
      split at hp'
      · rename_i hav
        obtain ⟨⟨x, tq'⟩, h1, hp'⟩ := bind_ok hp'
        cases x with
        | none => simp [masterSend] at hp'
        | some i =>
          simp [masterSend] at hp'
          obtain ⟨rfl, rfl⟩ := hp'
          refine ⟨?_, rfl, rfl⟩
          simp [masterTxWindow, masterPollP, runProg, runInts, masterIdleP, hav, h1, masterSendP, masterDrvSend, masterEnableRx, test, assign, assignC, okBind, pureOk,
            masterInt, MEv.op, masterStep]
      · cases hp'
    · cases mb with
      | none => simp [masterPoll, masterSend] at hp'
      | some i =>
        simp [masterPoll, masterSend] at hp'
        obtain ⟨rfl, rfl⟩ := hp'
        refine ⟨?_, rfl, rfl⟩
        simp [masterTxWindow, masterPollP, runProg, runInts, masterSendP, masterDrvSend, masterEnableRx, test, assign, assignC, okBind, pureOk,
          masterInt, MEv.op, masterStep]
  refine ⟨key.1, ?_⟩
  intro cont hcont hno
  rcases masterStep_inv hw hi .poll nofun nofun with ⟨s1', o1, g1, k1, k2, -⟩ | ⟨-, k1, -⟩
  · rw [hp] at k1
    cases k1
    obtain ⟨s2, t2, g2, f1, f2, f3, f4⟩ := run_silent hw MBusy (· ≠ .txDone) (fun s g op hi hb ho hc => mbusy_step hw hi hb ho hc) cont hcont
      (fun op hop e => hno (e ▸ hop)) k2 key.2
    exact ⟨s2, t2, f1, f2, f4.1⟩
  · rw [hp] at k1; cases k1

/-- **C50 (master, what holds).** A completion reported after the flag has been set, during the same poll or later, ends the transmission
at the next poll: the master then waits for the response with the timer started. -/
theorem C50_master_completion_seen_partial (cfg : Config) (s s' : Master) (hs : s.drv = true) (hd : s.dataSet = true) (ints : List (List MEv)) (b : List U8)
    (hst : s.st = .idle ∨ s.st = .repeatRequest)
    (h : runProg (masterInt cfg) (masterPollP cfg) ints s = .ok (s', [.send b])) :
    (.txDone ∈ (ints.drop (if s.st = .idle then 6 else 4)).flatten →
      ∃ s2, masterPoll cfg s' = .ok (s2, []) ∧ s2.st = .waiting ∧ s2.timer = cfg.respTimeout) ∧
    (∃ s2 tr, masterRun cfg s' [.txDone, .poll] = .ok (s2, tr) ∧ outs tr = [] ∧ s2.st = .waiting ∧ s2.timer = cfg.respTimeout) := by
  obtain ⟨h1, h2, hdr, hm⟩ := C50_master_completion cfg s s' hs hd ints b hst h
  cases hmb : s'.msgBuf with
  | none => rw [hmb] at hm; cases hm
  | some i =>
    refine ⟨?_, ?_⟩
    · intro hx
      rw [if_pos hx] at h2
      refine ⟨{ s' with msgs := setMsg s'.msgs i { s'.msgs i with respLen := 0 }, timer := cfg.respTimeout, st := .waiting }, ?_, rfl, rfl⟩
      simp [masterPoll, h1, masterTransmitting, h2, clearRespLen, hmb, okBind, pureOk]
    · refine ⟨{ s' with txf := .cleared, msgs := setMsg s'.msgs i { s'.msgs i with respLen := 0 }, timer := cfg.respTimeout, st := .waiting },
        [(.txDone, []), (.poll, [])], ?_, rfl, rfl, rfl⟩
      simp [masterRun, masterStep, hdr, masterPoll, h1, masterTransmitting, clearRespLen, hmb, okBind, pureOk]

/-! ### Concrete executions -/

/-- A request frame, its end, and the answering polls; the completion arrives as `ints` say. -/
def exchangeP (ints : List (List SEv)) : List SPOp :=
  (rxs sampleFrame).map .op ++ [.op .t15, .pollWith [], .op .t35, .pollWith ints, .pollWith []]

/-- Completion reported in time: both requests are answered. -/
theorem C50_slave_example_seen : outsOf (slavePRun Config.default (Slave.powerOn sampleMem)
    (.op (.init .rtu 1) :: exchangeP [[], [], [], [], [], [], [], [], [.txDone]] ++ exchangeP [])) =
    some [.send [1, 3, 2, 0x03, 0xE8, 0xB8, 0xFA], .send [1, 3, 2, 0x03, 0xE8, 0xB8, 0xFA]] := by decide +kernel

/-- Completion of the first response reported in the window: the second request is not answered. -/
theorem C50_slave_example_lost_violated : outsOf (slavePRun Config.default (Slave.powerOn sampleMem)
    (.op (.init .rtu 1) :: exchangeP slaveTxWindow ++ exchangeP [])) =
    some [.send [1, 3, 2, 0x03, 0xE8, 0xB8, 0xFA]] := by decide +kernel

/-- Master, completion reported in the window: no answer is awaited, no timeout reported, the second request never transmitted. -/
theorem C50_master_example_lost_violated :
    poutsOf (masterPRun smallCfg Master.powerOn ([.op (.init .rtu), .op (.request (.writeSingleReg 2 1 0x1234)),
      .op (.request (.readCoils 0 1 1)), .pollWith [[], [], [], [], [.txDone]]] ++ List.replicate 20 (.pollWith [[.tick]]))) =
    some [.send (rtuFrame 1 [6, 0, 2, 0x12, 0x34])] := by decide +kernel

/-- Master, completion reported after the window: the timeout is reported and the second request transmitted. -/
theorem C50_master_example_seen :
    poutsOf (masterPRun smallCfg Master.powerOn ([.op (.init .rtu), .op (.request (.writeSingleReg 2 1 0x1234)),
      .op (.request (.readCoils 0 1 1)), .pollWith [[], [], [], [], [], [], [.txDone]]] ++ List.replicate 20 (.pollWith [[.tick]]))) =
    some [.send (rtuFrame 1 [6, 0, 2, 0x12, 0x34]), .event (.timeoutErr { slave := 1, fc := 0, adr := 2, qty := 0x1234, err := .timeout }),
      .send (rtuFrame 1 [1, 0, 0, 0, 1])] := by decide +kernel

end Modbus
