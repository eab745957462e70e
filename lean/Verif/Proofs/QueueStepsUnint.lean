import Verif.Proofs.QueueStepsPushLin
import Verif.Props.Preempt

set_option linter.unusedSimpArgs false

/-! C88: a poll during which no request is made is the poll of the base model. -/

namespace Modbus

open Spec

/-- The result of a function of the base model, with the return codes collected so far. -/
def withRets (rs : List ReqRet) (r : C (Master × List MOut)) : C (QMaster × List MOut) := do
  let (s, o) ← r
  return ({ lib := s, rets := rs }, o)

theorem unint_popQ {cfg : Config} (N : Nat) (k : Option Nat → QProg) (s : Master) (rs : List ReqRet) :
    runProg (reqInt cfg) (popTxQ N k) [] { lib := s, rets := rs } =
      (do let (r, q) ← s.txQ.pop N; runProg (reqInt cfg) (k r) [] { lib := { s with txQ := q }, rets := rs }) := by
  have htake : runProg (reqInt cfg) (popTakeQ N k) [] { lib := s, rets := rs } =
      (do let ret ← slotRd N s.txQ.arr s.txQ.tail.toNat
          let arr ← slotWr N s.txQ.arr s.txQ.tail.toNat none
          if N = 0 then .error .divZero
          else runProg (reqInt cfg) (k ret) [] { lib := { s with txQ := { s.txQ with arr := arr, items := s.txQ.items - 1, tail := BitVec.ofNat 8 ((s.txQ.tail.toNat + 1) % N) } }, rets := rs }) := by
    by_cases ht : s.txQ.tail.toNat < N
    · have hN : N ≠ 0 := by omega
      unfold popTakeQ
      rw [q_quiet (ints := []) (x := { lib := s, rets := rs }) (a := s.txQ.arr s.txQ.tail.toNat) (s := s) (ints_nil _ _) (by simp only [slotRd, if_pos ht]; rfl),
        q_assignC (s := { s with txQ := { s.txQ with arr := fun j => if j = s.txQ.tail.toNat then none else s.txQ.arr j } }) (ints_nil _ _) (by simp only [slotWr, if_pos ht]; rfl),
        q_quiet (ints_nil _ _) rfl, q_quiet (ints_nil _ _) rfl, q_assignC (ints_nil _ _) (by rw [if_neg hN])]
      simp only [slotRd, slotWr, if_pos ht, okBind, if_neg hN]
      rfl
    · simp only [popTakeQ, qstep, runProg, runInts, List.headD_nil, okBind, slotRd, if_neg ht]
      rfl
  unfold popTxQ Queue.pop
  by_cases h : s.txQ.head = s.txQ.tail
  · rw [q_test (ints := []) (x := { lib := s, rets := rs }) (b := true) (ints_nil _ _) (decide_ht h), if_pos rfl]
    by_cases hi : s.txQ.items = 0
    · rw [q_test (b := true) (ints_nil _ _) (decide_ht hi), if_pos rfl, if_pos ⟨h, hi⟩]
      rfl
    · rw [q_test (b := false) (ints_nil _ _) (decide_hf hi), if_neg (by simp), if_neg (fun e => hi e.2)]
      refine Eq.trans htake ?_
      by_cases ht : s.txQ.tail.toNat < N
      · simp only [slotRd, slotWr, if_pos ht, okBind]
        rw [if_neg (by omega), if_neg (by omega)]; rfl
      · simp only [slotRd, if_neg ht]; rfl
  · rw [q_test (ints := []) (x := { lib := s, rets := rs }) (b := false) (ints_nil _ _) (decide_hf h), if_neg (by simp), if_neg (fun e => h e.1)]
    refine Eq.trans htake ?_
    by_cases ht : s.txQ.tail.toNat < N
    · simp only [slotRd, slotWr, if_pos ht, okBind]
      rw [if_neg (by omega), if_neg (by omega)]; rfl
    · simp only [slotRd, if_neg ht]; rfl

theorem unint_pushQ {cfg : Config} (N : Nat) (k : QProg) (s : Master) (rs : List ReqRet) :
    runProg (reqInt cfg) (pushFreeQ N k) [] { lib := s, rets := rs } =
      (do let (q, mb) ← s.freeQ.push N s.msgBuf; runProg (reqInt cfg) k [] { lib := { s with freeQ := q, msgBuf := mb }, rets := rs }) := by
  unfold pushFreeQ Queue.push
  by_cases hN : N = 0
  · simp only [qstep, runProg, runInts, List.headD_nil, okBind, if_pos hN]
    rfl
  have hnh : (fun s : Master => if N = 0 then (.error .divZero : C (U8 × Master × List MOut)) else .ok (BitVec.ofNat 8 ((s.freeQ.head.toNat + 1) % N), s, [])) s
      = .ok (BitVec.ofNat 8 ((s.freeQ.head.toNat + 1) % N), s, []) := by simp [hN]
  rw [q_quiet (ints := []) (x := { lib := s, rets := rs }) (ints_nil _ _) hnh]
  simp only [if_neg hN]
  have hslot : ∀ (p : QProg), ¬ s.freeQ.head.toNat < N → runProg (reqInt cfg) (qassignC (pushSlot N) p) [].tail { lib := s, rets := rs } = .error .oobWrite := by
    intro p hh
    simp only [qassignC, qstep, runProg, runInts, List.headD_nil, List.tail_nil, okBind, pushSlot, slotWr, if_neg hh]
    rfl
  have hok : s.freeQ.head.toNat < N → pushSlot N s = .ok { s with freeQ := { s.freeQ with arr := fun j => if j = s.freeQ.head.toNat then s.msgBuf else s.freeQ.arr j } } := by
    intro hh
    simp only [pushSlot, slotWr, if_pos hh]; rfl
  by_cases h : s.freeQ.head = s.freeQ.tail
  · rw [q_test (b := true) (ints_nil _ _) (decide_ht h), if_pos rfl, if_pos h]
    by_cases hi : s.freeQ.items.toNat = N
    · rw [q_test (b := true) (ints_nil _ _) (decide_ht hi), if_pos rfl, if_pos hi]
      rfl
    · rw [q_test (b := false) (ints_nil _ _) (decide_hf hi), if_neg (by simp), if_neg hi]
      by_cases hh : s.freeQ.head.toNat < N
      · rw [q_assignC (ints_nil _ _) (hok hh)]
        unfold pushCount
        rw [q_quiet (ints_nil _ _) rfl, q_quiet (ints_nil _ _) rfl, q_assign (ints_nil _ _) rfl, q_assign (ints_nil _ _) rfl]
        simp only [slotWr, if_pos hh]
        rfl
      · refine Eq.trans (hslot _ hh) ?_
        simp only [slotWr, if_neg hh]; rfl
  · rw [q_test (b := false) (ints_nil _ _) (decide_hf h), if_neg (by simp), if_neg h]
    by_cases hh : s.freeQ.head.toNat < N
    · rw [q_assignC (ints_nil _ _) (hok hh), q_assign (ints_nil _ _) rfl]
      unfold pushCount
      rw [q_quiet (ints_nil _ _) rfl, q_quiet (ints_nil _ _) rfl, q_assign (ints_nil _ _) rfl]
      simp only [slotWr, if_pos hh]
      rfl
    · refine Eq.trans (hslot _ hh) ?_
      simp only [slotWr, if_neg hh]; rfl

theorem unint_endQ (cfg : Config) (s : Master) (rs : List ReqRet) :
    runProg (reqInt cfg) (masterProcessEndQ cfg) [] { lib := s, rets := rs } = (masterProcessEnd cfg s >>= fun s => .ok ({ lib := s, rets := rs }, [])) := by
  unfold masterProcessEndQ masterProcessEnd
  rw [q_assign (ints := []) (x := { lib := s, rets := rs }) (s := { s with repeatCnt := 0 }) (ints_nil _ _) rfl]
  refine Eq.trans (unint_pushQ _ _ _ _) ?_
  cases h : s.freeQ.push cfg.queueItems s.msgBuf with
  | error u => simp only [h]; rfl
  | ok z => simp only [h]; rfl

theorem unint_sendQ (cfg : Config) (s : Master) (rs : List ReqRet) :
    runProg (reqInt cfg) masterSendQ [] { lib := s, rets := rs } = withRets rs (masterSend s) := by
  cases s with
  | mk st drv fq tq ms ds mb tm rc a b c d e tgt =>
  cases mb <;> cases drv <;> cases ds <;>
    simp [withRets, masterSendQ, masterSend, masterDrvSend, masterEnableRx, qstep, qassign, qassignC, runProg, runInts, okBind, errBind, pureOk]

theorem unint_commQ (cfg : Config) (s : Master) (e : RespErr) (rs : List ReqRet) :
    runProg (reqInt cfg) (masterCommQ cfg e) [] { lib := s, rets := rs } =
      (masterCommReport s e >>= fun ev => masterProcessEnd cfg s >>= fun s => .ok ({ lib := s, rets := rs }, [.event ev])) := by
  simp only [masterCommQ, masterCommReport, qstep, runProg, runInts, okBind, pureOk, List.headD_nil, List.tail_nil]
  cases h : curMsg s with
  | error u => rfl
  | ok m =>
    simp only [okBind, rd_zero, rd_one, unint_endQ, h]
    cases masterProcessEnd cfg s <;> rfl

theorem unint_crcQ (cfg : Config) (s : Master) (rs : List ReqRet) :
    runProg (reqInt cfg) (masterCrcErrorQ cfg) [] { lib := s, rets := rs } = withRets rs (masterCrcError cfg s) := by
  simp only [masterCrcErrorQ, masterCrcError, qstep, qtest, qassign, qassignC, runProg, runInts, okBind, pureOk, List.headD_nil, List.tail_nil]
  by_cases h : (s.repeatCnt + 1).toNat ≤ cfg.repeatMax
  · simp only [h, decide_true, if_true, runProg, runInts, okBind, List.headD_nil, List.tail_nil, clearRespLen]
    cases s.msgBuf <;> simp [withRets, okBind, errBind, runInts]
  · simp only [h, decide_false, if_false, unint_commQ, Bool.false_eq_true]
    cases masterCommReport _ _ with
    | error u => rfl
    | ok ev => cases h : masterProcessEnd cfg { s with repeatCnt := s.repeatCnt + 1 } <;> simp [withRets, okBind, errBind, h]

theorem unint_frameQ (cfg : Config) (s : Master) (rs : List ReqRet) :
    runProg (reqInt cfg) (masterFrameErrorQ cfg) [] { lib := s, rets := rs } = withRets rs (masterFrameError cfg s) := by
  simp only [masterFrameErrorQ, masterFrameError, qstep, qtest, qassign, qassignC, runProg, runInts, okBind, pureOk, List.headD_nil, List.tail_nil]
  by_cases h : (s.repeatCnt + 1).toNat ≤ cfg.repeatMax
  · simp only [h, decide_true, if_true, runProg, runInts, okBind, List.headD_nil, List.tail_nil, clearRespLen]
    cases s.msgBuf <;> simp [withRets, okBind, errBind, runInts]
  · simp only [h, decide_false, if_false, unint_commQ, Bool.false_eq_true]
    cases masterCommReport _ _ with
    | error u => rfl
    | ok ev => cases h : masterProcessEnd cfg { s with repeatCnt := s.repeatCnt + 1 } <;> simp [withRets, okBind, errBind, h]

theorem unint_correctQ (cfg : Config) (s : Master) (rs : List ReqRet) :
    runProg (reqInt cfg) (masterCorrectQ cfg) [] { lib := s, rets := rs } = withRets rs (masterCorrect cfg s) := by
  simp only [masterCorrectQ, masterCorrect, qstep, runProg, runInts, okBind, pureOk, List.headD_nil, List.tail_nil, unint_endQ]
  cases s.msgBuf with
  | none =>
    simp only [okBind]
    rw [unint_endQ]
    cases masterProcessEnd cfg s <;> simp [withRets, okBind, errBind]
  | some i =>
    simp only
    cases readSlaveResp s.dataSet (s.msgs i) with
    | error u => rfl
    | ok x =>
      simp only [okBind]
      rw [unint_endQ]
      cases masterProcessEnd cfg s <;> simp [withRets, okBind, errBind]

theorem withRets_ok (rs : List ReqRet) (s : Master) (o : List MOut) : withRets rs (.ok (s, o)) = .ok ({ lib := s, rets := rs }, o) := rfl
theorem withRets_err (rs : List ReqRet) (u : UB) : withRets rs (.error u) = .error u := rfl

/-- The poll in single accesses, during which no request is made, is `update_modbus_master_manager` of the base model, in every state. -/
theorem unint_pollQ (cfg : Config) (s : Master) (rs : List ReqRet) :
    runProg (reqInt cfg) (masterPollQ cfg) [] { lib := s, rets := rs } = withRets rs (masterPoll cfg s) := by
  unfold masterPollQ
  rw [q_quiet (ints := []) (x := { lib := s, rets := rs }) (a := s.st) (s := s) (ints_nil _ _) rfl]
  simp only [List.tail_nil]
  cases s with
  | mk st drv fq tq ms ds mb tm rc a b c d e tgt =>
  cases st with
  | idle =>
    simp only [masterPoll, masterIdle, masterIdleQ]
    by_cases h1 : tq.head = tq.tail
    · rw [q_test (b := false) (ints_nil _ _) (by simp [h1]), if_neg (by simp)]
      by_cases h2 : 0 < tq.items.toNat
      · rw [q_test (b := true) (ints_nil _ _) (by simpa using h2), if_pos rfl, if_pos (by simp [Queue.available, h2])]
        refine Eq.trans (unint_popQ _ _ _ _) ?_
        dsimp only
        cases hq : tq.pop cfg.queueItems with
        | error u => rfl
        | ok x =>
          obtain ⟨mb', tq'⟩ := x
          simp only [okBind]
          rw [q_assign (ints := []) (ints_nil _ _) rfl]
          exact unint_sendQ cfg _ rs
      · rw [q_test (b := false) (ints_nil _ _) (by simpa using h2), if_neg (by simp), if_neg (by simp [Queue.available, h1]; omega)]
        rfl
    · rw [q_test (b := true) (ints_nil _ _) (by simpa using h1), if_pos rfl, if_pos (by simp [Queue.available, h1])]
      refine Eq.trans (unint_popQ _ _ _ _) ?_
      dsimp only
      cases hq : tq.pop cfg.queueItems with
      | error u => rfl
      | ok x =>
        obtain ⟨mb', tq'⟩ := x
        simp only [okBind]
        rw [q_assign (ints := []) (ints_nil _ _) rfl]
        exact unint_sendQ cfg _ rs
  | repeatRequest => exact unint_sendQ cfg _ rs
  | transmitting =>
    cases d <;> cases mb <;> simp [masterPoll, masterTransmittingQ, masterTransmitting, clearRespLen, qtest, qassign, qassignC, qstep, runProg, runInts, okBind, errBind, pureOk, withRets]
  | waiting =>
    by_cases ha : a = .set
    · cases mb with
      | none => simp [ha, masterPoll, masterWaitingQ, masterWaiting, masterRecvQ, masterRecv, clearRespLen, qtest, qassign, qassignC, qstep, runProg, runInts, okBind, errBind, pureOk, curMsg, withRets]
      | some i =>
        cases ds with
        | false => simp [ha, masterPoll, masterWaitingQ, masterWaiting, masterRecvQ, masterRecv, clearRespLen, qtest, qassign, qassignC, qstep, runProg, runInts, okBind, errBind, pureOk, curMsg, withRets]
        | true =>
          simp [ha, masterPoll, masterWaitingQ, masterWaiting, masterRecvQ, masterRecv, clearRespLen, qtest, qassign, qassignC, qstep, runProg, runInts, okBind, errBind, pureOk, curMsg, rd_zero, withRets]
          cases h : rtuRecv (some (ms i).resp) (ms i).respLen ((ms i).req 0) with
          | error u => rfl
          | ok r =>
            by_cases h1 : RET_ERROR_CRC = r <;> by_cases h2 : RET_ERROR_SLAVE_ID = r <;>
              simp [h1, h2, okBind, runProg, runInts, pureOk]
    · by_cases ht : tm = 1
      · simp only [masterPoll, masterWaitingQ, masterWaiting]
        rw [q_test (b := false) (ints_nil _ _) (decide_hf ha), if_neg (by simp), q_test (b := true) (ints_nil _ _) (decide_ht ht), if_pos rfl]
        cases mb <;> cases ds <;>
        simp [ha, ht, masterTimeoutQ, masterTimeoutReport, qtest, qassign, qassignC, qstep, runProg, runInts, okBind, errBind, pureOk, curMsg, rd_zero, rd_one, read_adr, read_qty, withRets,
          unint_endQ]
      · simp [ha, ht, masterPoll, masterWaitingQ, masterWaiting, qtest, qstep, runProg, runInts, okBind, pureOk, withRets]
  | received =>
    simp only [masterPoll]
    cases c <;> cases b <;> cases e <;>
      simp [masterReceivedQ, masterReceived3Q, masterReceived, qtest, qassign, qassignC, qstep, runProg, runInts, okBind, errBind, pureOk,
        unint_crcQ, unint_frameQ, unint_correctQ, ok_pair, withRets_ok]

end Modbus
