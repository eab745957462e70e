import Verif.Proofs.Preempt

/-! Reduction of interrupted polls to atomic ones: the slave, path by path. -/

set_option linter.unusedSimpArgs false

namespace Modbus

/-- What an interrupted poll amounts to: an atomic poll, or none, with every interrupt exactly once before or after it, bytes in order. -/
def SAsAtomic (ints : List (List SEv)) (ops : List SOp) : Prop :=
  ∃ A B : List SEv,
    (ops = A.map SEv.op ++ [.poll] ++ B.map SEv.op ∨ ops = A.map SEv.op ++ B.map SEv.op) ∧
    (A ++ B).Perm ints.flatten ∧ srx (A ++ B) = srx ints.flatten

theorem asAtomic_cut (ints : List (List SEv)) (a b c d r : Nat) :
    SAsAtomic ints ((before (scut a b c d r) ints).map SEv.op ++ [.poll] ++ (after (scut a b c d r) ints).map SEv.op) := by
  refine ⟨_, _, .inl rfl, before_after_perm _ _, ?_⟩
  rw [srx_append, srx_before, srx_after, ← srx_append, ← List.flatten_append, List.take_append_drop]

theorem asAtomic_none (ints : List (List SEv)) : SAsAtomic ints (ints.flatten.map SEv.op) := by
  refine ⟨ints.flatten, [], .inr (by simp), by simp, by simp⟩

theorem slaveRun_append' (cfg : Config) (s : Slave) (a b : List SOp) :
    slaveRun cfg s (a ++ b) = (slaveRun cfg s a >>= fun x => slaveRun cfg x.1 b >>= fun y => .ok (y.1, x.2 ++ y.2)) := by
  induction a generalizing s with
  | nil =>
    simp only [List.nil_append, slaveRun, bind, Except.bind]
    cases slaveRun cfg s b <;> rfl
  | cons op a ih =>
    simp only [List.cons_append, slaveRun]
    cases h : slaveStep cfg s op with
    | error u => rfl
    | ok x =>
      simp only [bind, Except.bind, ih]
      cases slaveRun cfg x.1 a with
      | error u => rfl
      | ok y =>
        simp only [pure, Except.pure]
        cases slaveRun cfg y.1 b with
        | error u => rfl
        | ok z => simp [List.append_assoc]

theorem macro_ok (cfg : Config) (s : Slave) (A B : List SEv) (h : s.subscribed = true) (s1 : Slave) (o : List SOut)
    (hp : slavePoll cfg (slaveAfter s A) = .ok (s1, o)) (h1 : s1.subscribed = true) :
    slaveRun cfg s (A.map SEv.op ++ [.poll] ++ B.map SEv.op) = .ok (slaveAfter s1 B, o) := by
  rw [List.append_assoc, slaveRun_append', slaveRun_ints cfg s h A]
  simp only [bind, Except.bind, List.singleton_append, slaveRun, slaveStep, hp, slaveRun_ints cfg s1 h1 B]
  simp [pure, Except.pure]

theorem macro_err (cfg : Config) (s : Slave) (A B : List SEv) (h : s.subscribed = true) (u : UB)
    (hp : slavePoll cfg (slaveAfter s A) = .error u) :
    slaveRun cfg s (A.map SEv.op ++ [.poll] ++ B.map SEv.op) = .error u := by
  rw [List.append_assoc, slaveRun_append', slaveRun_ints cfg s h A]
  simp only [bind, Except.bind, List.singleton_append, slaveRun, slaveStep, hp]

theorem reduce_ok (cfg : Config) (s : Slave) (a b c d r : Nat) (ints : List (List SEv)) (hs : s.subscribed = true) (s1 : Slave) (o : List SOut)
    (hp : slavePoll cfg (slaveAfter s (before (scut a b c d r) ints)) = .ok (s1, o)) (h1 : s1.subscribed = true)
    (hr : runProg (slaveInt cfg) (slavePollP cfg) ints s = .ok (slaveAfter s1 (after (scut a b c d r) ints), o)) :
    ∃ ops, SAsAtomic ints ops ∧ runProg (slaveInt cfg) (slavePollP cfg) ints s = slaveRun cfg s ops :=
  ⟨_, asAtomic_cut ints a b c d r, hr.trans (macro_ok cfg s _ _ hs s1 o hp h1).symm⟩

theorem reduce_err (cfg : Config) (s : Slave) (a b c d r : Nat) (ints : List (List SEv)) (hs : s.subscribed = true) (u : UB)
    (hp : slavePoll cfg (slaveAfter s (before (scut a b c d r) ints)) = .error u)
    (hr : runProg (slaveInt cfg) (slavePollP cfg) ints s = .error u) :
    ∃ ops, SAsAtomic ints ops ∧ runProg (slaveInt cfg) (slavePollP cfg) ints s = slaveRun cfg s ops :=
  ⟨_, asAtomic_cut ints a b c d r, hr.trans (macro_err cfg s _ _ hs u hp).symm⟩

theorem reduce_none (cfg : Config) (s : Slave) (ints : List (List SEv)) (hs : s.subscribed = true)
    (hr : runProg (slaveInt cfg) (slavePollP cfg) ints s = .ok (slaveAfter s ints.flatten, [])) :
    ∃ ops, SAsAtomic ints ops ∧ runProg (slaveInt cfg) (slavePollP cfg) ints s = slaveRun cfg s ops :=
  ⟨_, asAtomic_none ints, hr.trans (slaveRun_ints cfg s hs _).symm⟩

theorem transmitting_reduces {cfg : Config} {id : U8} {drv ds : Bool} {req : Buf} {rl : U8} {resp : Buf} {pl : U8}
    {a b c d : Flag} {mem : AppMem}
    (I0 I1 I2 I3 I4 : List SEv) (R : List (List SEv)) :
    ∃ ops, SAsAtomic (I0 :: I1 :: I2 :: I3 :: I4 :: R) ops ∧
      runProg (slaveInt cfg) (slavePollP cfg) (I0 :: I1 :: I2 :: I3 :: I4 :: R) ⟨id, .transmitting, drv, true, ds, true, req, rl, resp, pl, a, b, c, d, mem⟩ = slaveRun cfg ⟨id, .transmitting, drv, true, ds, true, req, rl, resp, pl, a, b, c, d, mem⟩ ops := by
  by_cases hf : unmark (hasEv SEv.txDone I0 || hasEv SEv.txDone I1) d = Flag.cleared
  · refine reduce_ok cfg ⟨id, .transmitting, drv, true, ds, true, req, rl, resp, pl, a, b, c, d, mem⟩ 2 2 2 2 5 _ rfl
      { slaveAfter ⟨id, .transmitting, drv, true, ds, true, req, rl, resp, pl, a, b, c, d, mem⟩ (before (scut 2 2 2 2 5) (I0 :: I1 :: I2 :: I3 :: I4 :: R)) with st := .idle, respLen := 0, reqLen := 0 } []
      ?_ rfl ?_
    · simp [slaveAfter_mk, slavePoll, hasEv_before, srx_before, scut, slaveTransmitting, hf]
    · simp [slavePollP, srun_step, srun_done, srun_assign, srun_assignC, srun_test, slaveAfter_mk, slaveTransmittingP, okBind, errBind, pureOk, slaveRespLen0, slaveReqLen0, hf]
      simp [slaveAfter_mk, hasEv_before, hasEv_after, srx_before, srx_after, scut, Bool.or_assoc]
      all_goals grind [mark, unmark]
  · refine reduce_ok cfg ⟨id, .transmitting, drv, true, ds, true, req, rl, resp, pl, a, b, c, d, mem⟩ 2 2 2 2 2 _ rfl
      (slaveAfter ⟨id, .transmitting, drv, true, ds, true, req, rl, resp, pl, a, b, c, d, mem⟩ (before (scut 2 2 2 2 2) (I0 :: I1 :: I2 :: I3 :: I4 :: R))) []
      ?_ rfl ?_
    · simp [slaveAfter_mk, slavePoll, hasEv_before, srx_before, scut, slaveTransmitting, hf]
    · simp [slavePollP, srun_step, srun_done, srun_assign, srun_assignC, srun_test, slaveAfter_mk, slaveTransmittingP, okBind, errBind, pureOk, slaveRespLen0, slaveReqLen0, hf]
      simp [slaveAfter_mk, hasEv_before, hasEv_after, srx_before, srx_after, scut, Bool.or_assoc]
      all_goals grind [mark, unmark]

theorem default_reduces {cfg : Config} {id : U8} {drv ds : Bool} {req : Buf} {rl : U8} {resp : Buf} {pl : U8}
    {a b c d : Flag} {mem : AppMem}
    (I0 I1 I2 I3 I4 I5 I6 I7 : List SEv) (R : List (List SEv)) :
    ∃ ops, SAsAtomic (I0 :: I1 :: I2 :: I3 :: I4 :: I5 :: I6 :: I7 :: R) ops ∧
      runProg (slaveInt cfg) (slavePollP cfg) (I0 :: I1 :: I2 :: I3 :: I4 :: I5 :: I6 :: I7 :: R) ⟨id, .unknown, drv, true, ds, true, req, rl, resp, pl, a, b, c, d, mem⟩ = slaveRun cfg ⟨id, .unknown, drv, true, ds, true, req, rl, resp, pl, a, b, c, d, mem⟩ ops := by
  refine reduce_ok cfg ⟨id, .unknown, drv, true, ds, true, req, rl, resp, pl, a, b, c, d, mem⟩ 3 4 5 6 8 _ rfl
    { slaveAfter ⟨id, .unknown, drv, true, ds, true, req, rl, resp, pl, a, b, c, d, mem⟩ (before (scut 3 4 5 6 8) (I0 :: I1 :: I2 :: I3 :: I4 :: I5 :: I6 :: I7 :: R)) with st := .idle, t15 := .cleared, t35 := .cleared, ferr := .cleared, txf := .cleared, respLen := 0, reqLen := 0 } []
    ?_ rfl ?_
  · simp [slaveAfter_mk, slavePoll, hasEv_before, srx_before, scut, slaveDefault]
  · simp [slavePollP, srun_step, srun_done, srun_assign, srun_assignC, srun_test, slaveAfter_mk, slaveDefaultP, okBind, errBind, pureOk, slaveRespLen0, slaveReqLen0]
    simp [slaveAfter_mk, hasEv_before, hasEv_after, srx_before, srx_after, scut, Bool.or_assoc]
    all_goals grind [mark, unmark]

theorem idle_reduces {cfg : Config} {id : U8} {drv ds : Bool} {req : Buf} {rl : U8} {resp : Buf} {pl : U8}
    {a b c d : Flag} {mem : AppMem}
    (I0 I1 I2 I3 I4 I5 I6 : List SEv) (R : List (List SEv)) :
    ∃ ops, SAsAtomic (I0 :: I1 :: I2 :: I3 :: I4 :: I5 :: I6 :: R) ops ∧
      runProg (slaveInt cfg) (slavePollP cfg) (I0 :: I1 :: I2 :: I3 :: I4 :: I5 :: I6 :: R) ⟨id, .idle, drv, true, ds, true, req, rl, resp, pl, a, b, c, d, mem⟩ = slaveRun cfg ⟨id, .idle, drv, true, ds, true, req, rl, resp, pl, a, b, c, d, mem⟩ ops := by
  by_cases hf : mark (hasEv SEv.t15 I0 || hasEv SEv.t15 I1) a = Flag.set
  · cases hq : rtuRecv (if ds then some (rxRun (req, rl) (srx I0 ++ (srx I1 ++ (srx I2 ++ srx I3)))).1 else none)
        (rxRun (req, rl) (srx I0 ++ (srx I1 ++ (srx I2 ++ srx I3)))).2 id with
    | error u =>
      refine reduce_err cfg ⟨id, .idle, drv, true, ds, true, req, rl, resp, pl, a, b, c, d, mem⟩ 3 2 2 2 4 _ rfl u ?_ ?_
      · simp [slaveAfter_mk, slavePoll, slaveIdle, hasEv_before, srx_before, scut, Slave.reqData, hq, okBind, errBind, pureOk]
        grind [mark, unmark]
      · simp [slavePollP, srun_step, srun_done, srun_assign, srun_assignC, srun_test, slaveAfter_mk, slaveIdleP, okBind, errBind, pureOk, hf, Slave.reqData, hq]
    | ok r =>
      by_cases hr : r = RET_OK
      · refine reduce_ok cfg ⟨id, .idle, drv, true, ds, true, req, rl, resp, pl, a, b, c, d, mem⟩ 3 2 2 2 4 (I0 :: I1 :: I2 :: I3 :: I4 :: I5 :: I6 :: R) rfl
          { slaveAfter ⟨id, .idle, drv, true, ds, true, req, rl, resp, pl, a, b, c, d, mem⟩ (before (scut 3 2 2 2 4) (I0 :: I1 :: I2 :: I3 :: I4 :: I5 :: I6 :: R)) with st := .msgReceived, t15 := .cleared } [] ?_ rfl ?_
        · simp [slaveAfter_mk, slavePoll, slaveIdle, hasEv_before, srx_before, scut, Slave.reqData, hq, hr, okBind, errBind, pureOk]
          grind [mark, unmark]
        · simp [slavePollP, srun_step, srun_done, srun_assign, srun_assignC, srun_test, slaveAfter_mk, slaveIdleP, okBind, errBind, pureOk, hf, Slave.reqData, hq, hr]
          simp [slaveAfter_mk, hasEv_before, hasEv_after, srx_before, srx_after, scut, Bool.or_assoc]
          all_goals grind [mark, unmark]
      · refine reduce_ok cfg ⟨id, .idle, drv, true, ds, true, req, rl, resp, pl, a, b, c, d, mem⟩ 3 2 2 2 4 (I0 :: I1 :: I2 :: I3 :: I4 :: I5 :: I6 :: R) rfl
          { slaveAfter ⟨id, .idle, drv, true, ds, true, req, rl, resp, pl, a, b, c, d, mem⟩ (before (scut 3 2 2 2 4) (I0 :: I1 :: I2 :: I3 :: I4 :: I5 :: I6 :: R)) with st := .msgReceived, t15 := .cleared, ferr := .set } [] ?_ rfl ?_
        · simp [slaveAfter_mk, slavePoll, slaveIdle, hasEv_before, srx_before, scut, Slave.reqData, hq, hr, okBind, errBind, pureOk]
          grind [mark, unmark]
        · simp [slavePollP, srun_step, srun_done, srun_assign, srun_assignC, srun_test, slaveAfter_mk, slaveIdleP, okBind, errBind, pureOk, hf, Slave.reqData, hq, hr]
          simp [slaveAfter_mk, hasEv_before, hasEv_after, srx_before, srx_after, scut, Bool.or_assoc]
          all_goals grind [mark, unmark]
  · refine reduce_ok cfg ⟨id, .idle, drv, true, ds, true, req, rl, resp, pl, a, b, c, d, mem⟩ 2 2 2 2 2 _ rfl
      (slaveAfter ⟨id, .idle, drv, true, ds, true, req, rl, resp, pl, a, b, c, d, mem⟩ (before (scut 2 2 2 2 2) (I0 :: I1 :: I2 :: I3 :: I4 :: I5 :: I6 :: R))) []
      ?_ rfl ?_
    · simp [slaveAfter_mk, slavePoll, hasEv_before, srx_before, scut, slaveIdle, hf]
    · simp [slavePollP, srun_step, srun_done, srun_assign, srun_assignC, srun_test, slaveAfter_mk, slaveIdleP, okBind, errBind, pureOk, slaveRespLen0, slaveReqLen0, hf]
      simp [slaveAfter_mk, hasEv_before, hasEv_after, srx_before, srx_after, scut, Bool.or_assoc]
      all_goals grind [mark, unmark]

theorem msgReceived_reduces {cfg : Config} {id : U8} {drv ds : Bool} {req : Buf} {rl : U8} {resp : Buf} {pl : U8}
    {a b c d : Flag} {mem : AppMem}
    (I0 I1 I2 I3 I4 I5 I6 I7 I8 I9 I10 : List SEv) (R : List (List SEv)) :
    ∃ ops, SAsAtomic (I0 :: I1 :: I2 :: I3 :: I4 :: I5 :: I6 :: I7 :: I8 :: I9 :: I10 :: R) ops ∧
      runProg (slaveInt cfg) (slavePollP cfg) (I0 :: I1 :: I2 :: I3 :: I4 :: I5 :: I6 :: I7 :: I8 :: I9 :: I10 :: R) ⟨id, .msgReceived, drv, true, ds, true, req, rl, resp, pl, a, b, c, d, mem⟩ = slaveRun cfg ⟨id, .msgReceived, drv, true, ds, true, req, rl, resp, pl, a, b, c, d, mem⟩ ops := by
  by_cases hf : mark (hasEv SEv.frameErr I0 || hasEv SEv.frameErr I1) c = Flag.set
  · by_cases ht : mark (hasEv SEv.t35 I0 || hasEv SEv.t35 I1 || hasEv SEv.t35 I2) b = Flag.set
    · refine reduce_ok cfg ⟨id, .msgReceived, drv, true, ds, true, req, rl, resp, pl, a, b, c, d, mem⟩ 3 7 6 3 4 _ rfl
        { slaveAfter ⟨id, .msgReceived, drv, true, ds, true, req, rl, resp, pl, a, b, c, d, mem⟩ (before (scut 3 7 6 3 4) (I0 :: I1 :: I2 :: I3 :: I4 :: I5 :: I6 :: I7 :: I8 :: I9 :: I10 :: R)) with reqLen := 0, st := .idle, ferr := .cleared, t35 := .cleared } []
        ?_ rfl ?_
      · simp [slaveAfter_mk, slavePoll, hasEv_before, srx_before, scut, slaveMsgReceived]
        grind [mark, unmark]
      · simp [slavePollP, srun_step, srun_done, srun_assign, srun_assignC, srun_test, slaveAfter_mk, slaveMsgReceivedP, slaveDropP, okBind, errBind, pureOk, slaveRespLen0, slaveReqLen0, hf, ht]
        simp [slaveAfter_mk, hasEv_before, hasEv_after, srx_before, srx_after, scut, Bool.or_assoc]
        all_goals grind [mark, unmark]
    · refine reduce_ok cfg ⟨id, .msgReceived, drv, true, ds, true, req, rl, resp, pl, a, b, c, d, mem⟩ 3 3 3 3 3 _ rfl
        (slaveAfter ⟨id, .msgReceived, drv, true, ds, true, req, rl, resp, pl, a, b, c, d, mem⟩ (before (scut 3 3 3 3 3) (I0 :: I1 :: I2 :: I3 :: I4 :: I5 :: I6 :: I7 :: I8 :: I9 :: I10 :: R))) []
        ?_ rfl ?_
      · simp [slaveAfter_mk, slavePoll, hasEv_before, srx_before, scut, slaveMsgReceived]
        grind [mark, unmark]
      · have hx : ¬ mark (hasEv SEv.frameErr I0 || hasEv SEv.frameErr I1 || hasEv SEv.frameErr I2 || hasEv SEv.frameErr I3) c = Flag.cleared := by
          grind [mark, unmark]
        simp [slavePollP, srun_step, srun_done, srun_assign, srun_assignC, srun_test, slaveAfter_mk, slaveMsgReceivedP, okBind, errBind, pureOk, slaveRespLen0, slaveReqLen0, hf, ht, hx]
        simp [slaveAfter_mk, hasEv_before, hasEv_after, srx_before, srx_after, scut, Bool.or_assoc]
        all_goals grind [mark, unmark]
  · by_cases hc : mark (hasEv SEv.frameErr I0 || hasEv SEv.frameErr I1 || hasEv SEv.frameErr I2) c = Flag.cleared
    · by_cases ht : mark (hasEv SEv.t35 I0 || hasEv SEv.t35 I1 || hasEv SEv.t35 I2 || hasEv SEv.t35 I3) b = Flag.set
      · have ht' : mark (hasEv SEv.t35 I0 || (hasEv SEv.t35 I1 || (hasEv SEv.t35 I2 || (hasEv SEv.t35 I3 ||
            (hasEv SEv.t35 I4 || (hasEv SEv.t35 I5 || (hasEv SEv.t35 I6 || (hasEv SEv.t35 I7 || (hasEv SEv.t35 I8 || hasEv SEv.t35 I9))))))))) b = Flag.set := by
          grind [mark, unmark]
        have hf' : ¬ mark (hasEv SEv.frameErr I0 || hasEv SEv.frameErr I1 || hasEv SEv.frameErr I2) c = Flag.set := by
          rw [hc]; exact nofun
        cases ds with
        | false =>
          refine reduce_err cfg ⟨id, .msgReceived, drv, true, false, true, req, rl, resp, pl, a, b, c, d, mem⟩ 3 10 3 7 5 _ rfl .nullDeref ?_ ?_
          · cases drv <;> simp [slaveAfter_mk, slavePoll, hasEv_before, srx_before, scut, slaveMsgReceived, hc, ht', Bool.or_assoc, slaveParse, slaveFrame,
              Slave.respData, rtuSend, slaveDriverSend, okBind, errBind, pureOk] <;> grind [mark, unmark]
          · cases drv <;> simp [slavePollP, srun_step, srun_done, srun_assign, srun_assignC, srun_test, slaveAfter_mk, slaveMsgReceivedP, slaveAnswerP, slaveParse,
              slaveFrame, Slave.respData, rtuSend, slaveDriverSend, okBind, errBind, pureOk, hf, hc, ht]
        | true =>
          have hc' : mark (hasEv SEv.frameErr I0 || (hasEv SEv.frameErr I1 || hasEv SEv.frameErr I2)) c = Flag.cleared := by
            rw [← Bool.or_assoc]; exact hc
          cases hp : parseRequest cfg { req := (rxRun (req, rl) (srx I0 ++ (srx I1 ++ (srx I2 ++ (srx I3 ++ srx I4))))).1, resp := resp, respLen := pl, mem := mem } with
          | error u =>
            refine reduce_err cfg ⟨id, .msgReceived, drv, true, true, true, req, rl, resp, pl, a, b, c, d, mem⟩ 3 10 3 7 5 _ rfl u ?_ ?_
            · simp [slaveAfter_mk, slavePoll, hasEv_before, srx_before, scut, slaveMsgReceived, hc, ht', Bool.or_assoc, slaveParse, slaveFrame, Slave.respData, slaveDriverSend, okBind, errBind, pureOk, hc', hp]
            · simp [slavePollP, srun_step, srun_done, srun_assign, srun_assignC, srun_test, slaveAfter_mk, slaveMsgReceivedP, slaveAnswerP, slaveParse, slaveFrame, Slave.respData, slaveDriverSend, okBind, errBind, pureOk, hf, hc, ht, hp]
          | ok x =>
            obtain ⟨x1, p⟩ := x
            cases hq : rtuSend (some p.resp) p.respLen id with
            | error u =>
              refine reduce_err cfg ⟨id, .msgReceived, drv, true, true, true, req, rl, resp, pl, a, b, c, d, mem⟩ 3 10 3 7 5 _ rfl u ?_ ?_
              · simp [slaveAfter_mk, slavePoll, hasEv_before, srx_before, scut, slaveMsgReceived, hc, ht', Bool.or_assoc, slaveParse, slaveFrame, Slave.respData, slaveDriverSend, okBind, errBind, pureOk, hc', hp, hq]
              · simp [slavePollP, srun_step, srun_done, srun_assign, srun_assignC, srun_test, slaveAfter_mk, slaveMsgReceivedP, slaveAnswerP, slaveParse, slaveFrame, Slave.respData, slaveDriverSend, okBind, errBind, pureOk, hf, hc, ht, hp, hq]
            | ok y =>
              obtain ⟨y1, bb, l⟩ := y
              cases drv with
              | false =>
                refine reduce_err cfg ⟨id, .msgReceived, false, true, true, true, req, rl, resp, pl, a, b, c, d, mem⟩ 3 10 3 7 5 _ rfl .nullDeref ?_ ?_
                · simp [slaveAfter_mk, slavePoll, hasEv_before, srx_before, scut, slaveMsgReceived, hc, ht', Bool.or_assoc, slaveParse, slaveFrame, Slave.respData, slaveDriverSend, okBind, errBind, pureOk, hc', hp, hq]
                · simp [slavePollP, srun_step, srun_done, srun_assign, srun_assignC, srun_test, slaveAfter_mk, slaveMsgReceivedP, slaveAnswerP, slaveParse, slaveFrame, Slave.respData, slaveDriverSend, okBind, errBind, pureOk, hf, hc, ht, hp, hq]
              | true =>
                refine reduce_ok cfg ⟨id, .msgReceived, true, true, true, true, req, rl, resp, pl, a, b, c, d, mem⟩ 3 10 3 8 5 _ rfl
                  ⟨id, .transmitting, true, true, true, true, p.req, (rxRun (req, rl) (srx I0 ++ (srx I1 ++ (srx I2 ++ (srx I3 ++ srx I4))))).2, bb.getD p.resp, l, mark (hasEv .t15 I0 || (hasEv .t15 I1 || hasEv .t15 I2)) a, .cleared, .cleared, .set, p.mem⟩
                  [.send ((bb.getD p.resp).bytes 0 l.toNat)] ?_ rfl ?_
                · simp [slaveAfter_mk, slavePoll, hasEv_before, srx_before, scut, slaveMsgReceived, hc, ht', Bool.or_assoc, slaveParse, slaveFrame, Slave.respData, slaveDriverSend, okBind, errBind, pureOk, hc', hp, hq]
                · simp [slavePollP, srun_step, srun_done, srun_assign, srun_assignC, srun_test, slaveAfter_mk, slaveMsgReceivedP, slaveAnswerP, slaveParse, slaveFrame, Slave.respData, slaveDriverSend, okBind, errBind, pureOk, hf, hc, ht, hp, hq]
                  simp [slaveAfter_mk, hasEv_before, hasEv_after, srx_before, srx_after, scut, Bool.or_assoc]
                  all_goals grind [mark, unmark]
      · refine reduce_ok cfg ⟨id, .msgReceived, drv, true, ds, true, req, rl, resp, pl, a, b, c, d, mem⟩ 3 4 3 3 3 _ rfl
          (slaveAfter ⟨id, .msgReceived, drv, true, ds, true, req, rl, resp, pl, a, b, c, d, mem⟩ (before (scut 3 4 3 3 3) (I0 :: I1 :: I2 :: I3 :: I4 :: I5 :: I6 :: I7 :: I8 :: I9 :: I10 :: R))) []
          ?_ rfl ?_
        · simp [slaveAfter_mk, slavePoll, hasEv_before, srx_before, scut, slaveMsgReceived, hc, ht]
          grind [mark, unmark]
        · simp [slavePollP, srun_step, srun_done, srun_assign, srun_assignC, srun_test, slaveAfter_mk, slaveMsgReceivedP, okBind, errBind, pureOk, slaveRespLen0, slaveReqLen0, hf, hc, ht]
          simp [slaveAfter_mk, hasEv_before, hasEv_after, srx_before, srx_after, scut, Bool.or_assoc]
          all_goals grind [mark, unmark]
    · refine reduce_none cfg ⟨id, .msgReceived, drv, true, ds, true, req, rl, resp, pl, a, b, c, d, mem⟩ _ rfl ?_
      simp [slavePollP, srun_step, srun_done, srun_assign, srun_assignC, srun_test, slaveAfter_mk, slaveMsgReceivedP, okBind, errBind, pureOk, slaveRespLen0, slaveReqLen0, hf, hc]
      simp [slaveAfter_mk, hasEv_before, hasEv_after, srx_before, srx_after, scut, Bool.or_assoc]
      all_goals grind [mark, unmark]

theorem length11 {α : Type} (l : List α) (h : 11 ≤ l.length) :
    ∃ a0 a1 a2 a3 a4 a5 a6 a7 a8 a9 a10 r, l = a0 :: a1 :: a2 :: a3 :: a4 :: a5 :: a6 :: a7 :: a8 :: a9 :: a10 :: r := by
  match l, h with
  | a0 :: a1 :: a2 :: a3 :: a4 :: a5 :: a6 :: a7 :: a8 :: a9 :: a10 :: r, _ => exact ⟨_, _, _, _, _, _, _, _, _, _, _, _, rfl⟩

/-- Every interrupted poll of an initialised slave has the effect of an atomic one. -/
theorem slave_poll_reduces (cfg : Config) (s : Slave) (hs : s.subscribed = true) (hm : s.msgPtr = true) (ints : List (List SEv)) :
    ∃ ops, SAsAtomic ints ops ∧ runProg (slaveInt cfg) (slavePollP cfg) ints s = slaveRun cfg s ops := by
  obtain ⟨ints', hlen, hfl, hrun, -⟩ := pad_ints (slaveInt cfg) (slavePollP cfg) 11 ints s
  rw [← hrun]
  suffices h : ∃ ops, SAsAtomic ints' ops ∧ runProg (slaveInt cfg) (slavePollP cfg) ints' s = slaveRun cfg s ops by
    obtain ⟨ops, ⟨A, B, h1, h2, h3⟩, h4⟩ := h
    exact ⟨ops, ⟨A, B, h1, by rw [← hfl]; exact h2, by rw [← hfl]; exact h3⟩, h4⟩
  clear hrun hfl
  obtain ⟨a0, a1, a2, a3, a4, a5, a6, a7, a8, a9, a10, r, rfl⟩ := length11 ints' hlen
  clear hlen
  cases s with
  | mk id st drv mp ds sub req rl resp pl a b c d mem =>
  simp only at hs hm
  subst hs; subst hm
  cases st with
  | idle => exact idle_reduces _ _ _ _ _ _ _ _
  | msgReceived => exact msgReceived_reduces _ _ _ _ _ _ _ _ _ _ _ _
  | transmitting => exact transmitting_reduces _ _ _ _ _ _
  | unknown => exact default_reduces _ _ _ _ _ _ _ _ _

end Modbus
