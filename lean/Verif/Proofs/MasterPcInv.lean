import Verif.Spec.MasterPc
import Verif.Proofs.DeviceMasterTimed
import Verif.Proofs.MasterStmt

/-! The master statement by statement, in real time: what holds in every state. -/

set_option linter.unusedSimpArgs false

namespace Modbus

open Spec

section
variable {cfg : Config}

/-! ### Effects of single events -/

theorem mint_tick {d d' : MasterDev} {o : List HMOut} (h : masterDevInt cfg d (.main .tick) = .ok (d', o)) :
    d' = { d with sys := { d.sys with lib := { d.sys.lib with timer := d.sys.lib.timer - 1 } } } ∧ o = [] := by
  simp only [masterDevInt, if_true, masterSysStep, MOp.isMain, Bool.true_eq_false, if_false, masterStep, ok_bind, masterSends, pure_eq,
    Except.ok.injEq, Prod.mk.injEq] at h
  obtain ⟨rfl, rfl⟩ := h
  refine ⟨?_, rfl⟩
  obtain ⟨⟨l, t, c, la, g, r⟩, lm⟩ := d
  by_cases h0 : l.timer = 0
  · cases l; simp only at h0; subst h0; simp
  · simp [h0]

theorem mint_timer {d d' : MasterDev} {o : List HMOut} (hd : d.sys.lib.drv = true) (h : masterDevInt cfg d .timer = .ok (d', o)) :
    d' = { d with sys := { d.sys with lib := { d.sys.lib with t35 := .set }, gap := false } } ∧ o = [] := by
  simp only [masterDevInt, masterSysStep, masterStep, if_pos hd, ok_bind, pure_eq, Except.ok.injEq, Prod.mk.injEq] at h
  exact ⟨h.1.symm, h.2.symm⟩

theorem mint_rto {d d' : MasterDev} {o : List HMOut} (h : masterDevInt cfg d .rto = .ok (d', o)) :
    d' = { d with sys := { d.sys with rtof := true } } ∧ o = [] := by
  simp only [masterDevInt, masterSysStep, ok_bind, pure_eq, Except.ok.injEq, Prod.mk.injEq] at h
  exact ⟨h.1.symm, h.2.symm⟩

/-- What the UART's handler does. -/
structure MUsart (d : MasterDev) (rx : Option U8) (t : Bool) (d' : MasterDev) (o : List HMOut) : Prop where
  eq : ∃ M, (rx = none → M = d.sys.lib.msgs) ∧ d' = { d with sys := { d.sys with
    lib := { d.sys.lib with
      msgs := M
      ferr := if rx.isSome && d.sys.gap then .set else d.sys.lib.ferr
      txf := if t && !d.more then .cleared else d.sys.lib.txf
      t15 := if d.sys.rtof then .set else d.sys.lib.t15 }
    cur := if t && d.more then d.sys.cur + 1 else d.sys.cur
    gap := if d.sys.rtof then true else d.sys.gap
    rtof := false } }
  out : if t && d.more then ∃ b, o = [.tdr b] else o = []

theorem mirqRx_eq {s s' : MasterSys} {rx : Option U8} (hd : s.lib.drv = true) (h : masterIrqRx cfg s rx = .ok s') :
    ∃ M, (rx = none → M = s.lib.msgs) ∧ s' = { s with lib := { s.lib with msgs := M, ferr := if rx.isSome && s.gap then .set else s.lib.ferr } } := by
  cases rx with
  | none => cases h; exact ⟨s.lib.msgs, fun _ => rfl, rfl⟩
  | some b =>
    simp only [masterIrqRx, masterStep, masterRx] at h
    obtain ⟨⟨l, o1⟩, h1, h⟩ := bind_ok h
    obtain ⟨l1, h2, h3⟩ := bind_ok h1
    simp only [pure_eq, Except.ok.injEq, Prod.mk.injEq] at h3
    obtain ⟨rfl, -⟩ := h3
    have key : ∃ M, l1 = { s.lib with msgs := M } := by
      split at h2
      · simp only [Except.ok.injEq] at h2; exact ⟨s.lib.msgs, h2.symm⟩
      · split at h2
        · obtain ⟨r, -, h2⟩ := bind_ok h2
          simp only [pure_eq, Except.ok.injEq] at h2
          exact ⟨_, h2.symm⟩
        · cases h2
    obtain ⟨M, rfl⟩ := key
    refine ⟨M, (fun h => nomatch h), ?_⟩
    cases hg : s.gap with
    | false =>
      simp only [hg] at h
      simp only [pure_eq, Bool.false_eq_true, if_false, Except.ok.injEq] at h
      rw [← h]; rfl
    | true =>
      simp only [hg, if_true] at h
      rw [if_pos (show ({ s.lib with msgs := M } : Master).drv = true from hd)] at h
      simp only [ok_bind, pure_eq, Except.ok.injEq] at h
      rw [← h]; rfl

theorem mint_usart {d d' : MasterDev} {o : List HMOut} {rx : Option U8} {t : Bool} (hd : d.sys.lib.drv = true)
    (h : masterDevInt cfg d (.usart rx t) = .ok (d', o)) : MUsart d rx t d' o := by
  obtain ⟨s, lm⟩ := d
  simp only [masterDevInt] at h
  obtain ⟨s1, h1, h⟩ := bind_ok h
  obtain ⟨⟨d2, o2⟩, h2, h⟩ := bind_ok h
  obtain ⟨s3, h3, h⟩ := bind_ok h
  simp only [pure_eq, Except.ok.injEq, Prod.mk.injEq] at h
  obtain ⟨rfl, rfl⟩ := h
  have hd : s.lib.drv = true := hd
  obtain ⟨M, hM, rfl⟩ := mirqRx_eq hd h1
  have h3' : d2.sys.lib.drv = true → s3 = { d2.sys with lib := { d2.sys.lib with t15 := if d2.sys.rtof then .set else d2.sys.lib.t15 }, gap := if d2.sys.rtof then true else d2.sys.gap, rtof := false } := by
    intro hd2
    simp only [masterIrqRto, masterStep, if_pos hd2] at h3
    split at h3
    · rename_i hr
      simp only [ok_bind, pure_eq, Except.ok.injEq] at h3
      rw [← h3, if_pos hr, if_pos hr]
    · rename_i hr
      have hr : d2.sys.rtof = false := by simpa using hr
      simp only [Except.ok.injEq] at h3
      rw [← h3, hr]
      obtain ⟨⟨l, a1, a2, a3, a4, a5⟩, a6⟩ := d2
      simp only at hr
      subst hr
      rfl
  simp only [masterDevTx] at h2
  cases t with
  | false =>
    simp only [Bool.false_eq_true, if_false, Except.ok.injEq, Prod.mk.injEq] at h2
    obtain ⟨rfl, rfl⟩ := h2
    rw [h3' hd]
    exact ⟨⟨M, hM, rfl⟩, rfl⟩
  | true =>
    simp only [if_true] at h2
    by_cases hm : s.txMsg < lm ∨ (s.txMsg = lm ∧ s.cur < s.last)
    · have hm' : MasterDev.more ⟨s, lm⟩ = true := decide_eq_true hm
      rw [if_pos hm] at h2
      obtain ⟨b, -, h2⟩ := bind_ok h2
      simp only [pure_eq, Except.ok.injEq, Prod.mk.injEq] at h2
      obtain ⟨rfl, rfl⟩ := h2
      rw [h3' hd]
      refine ⟨⟨M, hM, ?_⟩, ?_⟩
      · rw [hm']; rfl
      · rw [hm']; exact ⟨b, rfl⟩
    · have hm' : MasterDev.more ⟨s, lm⟩ = false := decide_eq_false hm
      rw [if_neg hm] at h2
      simp only [masterStep] at h2
      rw [if_pos hd] at h2
      simp only [ok_bind, pure_eq, Except.ok.injEq, Prod.mk.injEq] at h2
      obtain ⟨rfl, rfl⟩ := h2
      rw [h3' hd]
      refine ⟨⟨M, hM, ?_⟩, ?_⟩
      · rw [hm']; rfl
      · rw [hm']; rfl

/-! ### Statements -/

theorem clearRespLen_eq {l l' : Master} (h : clearRespLen l = .ok l') :
    ∃ i, l.msgBuf = some i ∧ l' = { l with msgs := setMsg l.msgs i { l.msgs i with respLen := 0 } } := by
  simp only [clearRespLen] at h
  split at h
  · cases h
  · rename_i i hi
    simp only [Except.ok.injEq] at h
    exact ⟨i, hi, h.symm⟩

theorem masterEnableRx_eq {l l' : Master} (h : masterEnableRx l = .ok l') : ∃ i, l.msgBuf = some i ∧ l' = { l with rxTarget := some i } := by
  simp only [masterEnableRx] at h
  split at h
  · cases h
  · split at h
    · cases h
    · rename_i i hi
      simp only [Except.ok.injEq] at h
      exact ⟨i, hi, h.symm⟩

/-- Positions at which the master waits for an answer and none has come. -/
def MPc.waits : MPc → Bool
  | .out | .enter | .wtT15 | .wtTimer => true
  | _ => false

/-- Positions at which an answer may be there. -/
def MPc.has15 : MPc → Bool
  | .out | .enter | .wtT15 | .wtTimer | .rcId | .rcT15 _ => true
  | _ => false

/-- Positions at which a transmission may be under way, once the poll that has started it has returned. -/
def MPc.sending : MPc → Bool
  | .out | .enter | .trTest => true
  | _ => false

/-- Positions between the enabling of the transmit interrupt and the flag. -/
def MPc.starting : MPc → Bool
  | .snGap | .snTim | .snRtof | .snRx | .snTxf => true
  | _ => false

/-- Positions that go with the states of the state machine. -/
def MPc.goes (pc : MPc) (st : MasterSt) : Prop :=
  match pc with
  | .out | .enter => True
  | .idTest | .idPop => st = .idle
  | .snCur | .snLast _ _ | .snTdr _ _ | .snTxeie | .snGap | .snTim | .snRtof | .snRx | .snTxf | .snSt => st = .idle ∨ st = .repeatRequest
  | .trTest | .trLen | .trTimer | .trSt => st = .transmitting
  | .wtT15 | .wtTimer | .rcId | .rcT15 _ | .rcT35 _ | .rcRecv _ | .rcErrTimer | .rcErrFlag | .rcSkip
  | .rcOkTimer | .rcSt | .toSlave | .toAdr _ | .toQty _ _ | .toFc _ _ _ | .toRep _ _ _ _ => st = .waiting
  | .enCnt | .enPush | .enSt => st = .waiting ∨ st = .received
  | .feFlag _ | .feLen => st = .repeatRequest
  | .rvF1 | .rvT1 | .rvC2 | .rvT2 | .rvF3 | .rvC3 | .rvT3 | .coProc | .feCnt _ | .feTest _ | .feSt _ | .cmSlave _ | .cmFc _ _ | .cmRep _ _ _ => st = .received

/-- What holds in every state. -/
structure SI (d : MasterPcDev) : Prop where
  drv : d.dev.sys.lib.drv = true
  goes : d.pc.goes d.dev.sys.lib.st
  rtof : d.dev.sys.rtof = true → d.pc.waits = true ∧ d.dev.sys.lib.st = .waiting
  t15 : d.dev.sys.lib.t15 = .set → d.pc.has15 = true ∧ d.dev.sys.lib.st = .waiting
  txf : d.dev.sys.lib.txf = .set → d.pc = .snSt ∨ d.pc.sending = true ∧ d.dev.sys.lib.st = .transmitting
  txe : d.txeie = true → d.pc.starting = true ∨ d.dev.sys.lib.txf = .set
  ferr : d.dev.sys.lib.ferr = .cleared
  row : match d.pc with
    | .snLast i _ => d.dev.sys.txMsg = i
    | _ => d.dev.lastMsg = d.dev.sys.txMsg
  rvt : d.pc ≠ .rvT1

set_option maxHeartbeats 8000000 in
theorem si_stmt {d d' : MasterPcDev} {o : List HMOut} (hS : SI d) (hr : d.dev.sys.rtof = false) (hp : d.pc ≠ .out)
    (hw : d.pc = .wtTimer → d.dev.sys.lib.timer = 1 → d.dev.sys.lib.t15 ≠ .set) (h : masterStmt cfg d = .ok (d', o)) :
    SI d' ∧ d'.dev.sys.rtof = false := by
  obtain ⟨⟨⟨l, tm, cu, la, g, r⟩, lm⟩, pc, e⟩ := d
  obtain ⟨h1, h2, h3, h4, h5, h6, h7, h8, h9⟩ := hS
  dsimp only at h1 h2 h3 h4 h5 h6 h7 h8 h9 hr hp hw
  subst hr
  cases pc <;> simp only [masterStmt] at h
  case out => exact absurd rfl hp
  case idPop =>
    obtain ⟨⟨x, tq⟩, -, h⟩ := bind_ok h
    simp only [Except.ok.injEq, Prod.mk.injEq] at h
    obtain ⟨rfl, -⟩ := h
    refine ⟨⟨?_, ?_, ?_, ?_, ?_, ?_, ?_, ?_, ?_⟩, rfl⟩ <;> simp_all [MPc.goes, MPc.waits, MPc.has15, MPc.sending, MPc.starting]
  case enPush =>
    obtain ⟨⟨x, tq⟩, -, h⟩ := bind_ok h
    simp only [Except.ok.injEq, Prod.mk.injEq] at h
    obtain ⟨rfl, -⟩ := h
    refine ⟨⟨?_, ?_, ?_, ?_, ?_, ?_, ?_, ?_, ?_⟩, rfl⟩ <;> simp_all [MPc.goes, MPc.waits, MPc.has15, MPc.sending, MPc.starting]
  case snCur =>
    obtain ⟨x, -, h⟩ := bind_ok h
    obtain ⟨⟨i, n⟩, -, h⟩ := bind_ok h
    split at h
    all_goals
      simp only [Except.ok.injEq, Prod.mk.injEq] at h
      obtain ⟨rfl, -⟩ := h
      refine ⟨⟨?_, ?_, ?_, ?_, ?_, ?_, ?_, ?_, ?_⟩, rfl⟩ <;> simp_all [MPc.goes, MPc.waits, MPc.has15, MPc.sending, MPc.starting]
  case snRx =>
    obtain ⟨l', hl, h⟩ := bind_ok h
    obtain ⟨i, -, rfl⟩ := masterEnableRx_eq hl
    simp only [Except.ok.injEq, Prod.mk.injEq] at h
    obtain ⟨rfl, -⟩ := h
    refine ⟨⟨?_, ?_, ?_, ?_, ?_, ?_, ?_, ?_, ?_⟩, rfl⟩ <;> simp_all [MPc.goes, MPc.waits, MPc.has15, MPc.sending, MPc.starting]
  case trLen | rcSkip | feLen =>
    obtain ⟨l', hl, h⟩ := bind_ok h
    obtain ⟨i, -, rfl⟩ := clearRespLen_eq hl
    simp only [Except.ok.injEq, Prod.mk.injEq] at h
    obtain ⟨rfl, -⟩ := h
    refine ⟨⟨?_, ?_, ?_, ?_, ?_, ?_, ?_, ?_, ?_⟩, rfl⟩ <;> simp_all [MPc.goes, MPc.waits, MPc.has15, MPc.sending, MPc.starting]
  case snTdr | coProc =>
    obtain ⟨x, -, h⟩ := bind_ok h
    simp only [Except.ok.injEq, Prod.mk.injEq] at h
    obtain ⟨rfl, -⟩ := h
    refine ⟨⟨?_, ?_, ?_, ?_, ?_, ?_, ?_, ?_, ?_⟩, rfl⟩ <;> simp_all [MPc.goes, MPc.waits, MPc.has15, MPc.sending, MPc.starting]
  case rcRecv =>
    obtain ⟨x, -, h⟩ := bind_ok h
    obtain ⟨y, -, h⟩ := bind_ok h
    simp only [Except.ok.injEq, Prod.mk.injEq] at h
    obtain ⟨rfl, -⟩ := h
    split
    · refine ⟨⟨?_, ?_, ?_, ?_, ?_, ?_, ?_, ?_, ?_⟩, rfl⟩ <;> simp_all [MPc.goes, MPc.waits, MPc.has15, MPc.sending, MPc.starting]
    · split <;> (refine ⟨⟨?_, ?_, ?_, ?_, ?_, ?_, ?_, ?_, ?_⟩, rfl⟩ <;> simp_all [MPc.goes, MPc.waits, MPc.has15, MPc.sending, MPc.starting])
  case rcId | toSlave | toAdr | toQty | toFc | cmSlave | cmFc =>
    obtain ⟨x, -, h⟩ := bind_ok h
    obtain ⟨y, -, h⟩ := bind_ok h
    simp only [Except.ok.injEq, Prod.mk.injEq] at h
    obtain ⟨rfl, -⟩ := h
    refine ⟨⟨?_, ?_, ?_, ?_, ?_, ?_, ?_, ?_, ?_⟩, rfl⟩ <;> simp_all [MPc.goes, MPc.waits, MPc.has15, MPc.sending, MPc.starting]
  case enter =>
    simp only [Except.ok.injEq, Prod.mk.injEq] at h
    obtain ⟨rfl, -⟩ := h
    cases hst : l.st <;>
      (refine ⟨⟨?_, ?_, ?_, ?_, ?_, ?_, ?_, ?_, ?_⟩, rfl⟩ <;> simp_all [MPc.goes, MPc.waits, MPc.has15, MPc.sending, MPc.starting])
  case feFlag x =>
    simp only [Except.ok.injEq, Prod.mk.injEq] at h
    obtain ⟨rfl, -⟩ := h
    cases x <;>
      (refine ⟨⟨?_, ?_, ?_, ?_, ?_, ?_, ?_, ?_, ?_⟩, rfl⟩ <;> simp_all [MPc.goes, MPc.waits, MPc.has15, MPc.sending, MPc.starting, clearErr])
  case idTest | trTest | wtT15 | wtTimer | rvF1 | rvT1 | rvC2 | rvT2 | rvF3 | rvC3 | rvT3 | feTest =>
    simp only [Except.ok.injEq, Prod.mk.injEq] at h
    obtain ⟨rfl, -⟩ := h
    split <;>
      (refine ⟨⟨?_, ?_, ?_, ?_, ?_, ?_, ?_, ?_, ?_⟩, rfl⟩ <;> simp_all [MPc.goes, MPc.waits, MPc.has15, MPc.sending, MPc.starting])
  all_goals
    simp only [Except.ok.injEq, Prod.mk.injEq] at h
    obtain ⟨rfl, -⟩ := h
    refine ⟨⟨?_, ?_, ?_, ?_, ?_, ?_, ?_, ?_, ?_⟩, rfl⟩ <;> simp_all [MPc.goes, MPc.waits, MPc.has15, MPc.sending, MPc.starting]

/-! ### Other events -/

theorem mreq_eq {s s' : Master} {r : MReq} {o : List MOut} (h : masterStep cfg s (.request r) = .ok (s', o)) :
    (∃ fq tq M, s' = { s with freeQ := fq, txQ := tq, msgs := M }) ∧ ∃ c, o = [.ret c] := by
  simp only [masterStep, generateRequest] at h
  obtain ⟨⟨c, s1⟩, h1, h⟩ := bind_ok h
  simp only [pure_eq, Except.ok.injEq, Prod.mk.injEq] at h
  obtain ⟨rfl, rfl⟩ := h
  refine ⟨?_, c, rfl⟩
  obtain ⟨⟨x, fq⟩, -, h1⟩ := bind_ok h1
  cases x with
  | none =>
    simp only [pure_eq, Except.ok.injEq, Prod.mk.injEq] at h1
    exact ⟨fq, s.txQ, s.msgs, h1.2.symm⟩
  | some i =>
    dsimp only at h1
    obtain ⟨⟨q, m⟩, -, h1⟩ := bind_ok h1
    split at h1
    · simp only [pure_eq, Except.ok.injEq, Prod.mk.injEq] at h1
      exact ⟨fq, s.txQ, _, h1.2.symm⟩
    · obtain ⟨⟨q, b, l⟩, -, h1⟩ := bind_ok h1
      dsimp only at h1
      split at h1
      · simp only [pure_eq, Except.ok.injEq, Prod.mk.injEq] at h1
        exact ⟨fq, s.txQ, _, h1.2.symm⟩
      · obtain ⟨⟨tq, y⟩, -, h1⟩ := bind_ok h1
        simp only [pure_eq, Except.ok.injEq, Prod.mk.injEq] at h1
        exact ⟨fq, tq, _, h1.2.symm⟩

theorem mpc_irq {d d' : MasterPcDev} {o : List HMOut} {h : HMOp} (hs : masterPcStep cfg d (.irq h) = .ok (d', o)) :
    ∃ v, masterDevInt cfg d.dev h = .ok (v, o) ∧ d' = { d with dev := v, txeie := mtxeAfter h d.txeie d.dev } := by
  simp only [masterPcStep] at hs
  obtain ⟨⟨v, o1⟩, h1, hs⟩ := bind_ok hs
  simp only [pure_eq, Except.ok.injEq, Prod.mk.injEq] at hs
  obtain ⟨rfl, rfl⟩ := hs
  exact ⟨v, h1, rfl⟩

theorem mpc_app {d d' : MasterPcDev} {o : List HMOut} {r : MReq} (hp : d.pc = .out) (hs : masterPcStep cfg d (.app (.request r)) = .ok (d', o)) :
    masterSysStep cfg d.dev.sys (.main (.request r)) = .ok (d'.dev.sys, o) ∧
    (∃ fq tq M, d' = { d with dev := { d.dev with sys := { d.dev.sys with lib := { d.dev.sys.lib with freeQ := fq, txQ := tq, msgs := M } } } }) ∧
      ∃ c, o = [.lib (.ret c)] := by
  simp only [masterPcStep] at hs
  rw [if_neg (by rw [hp]; rintro (h | h) <;> first | exact h rfl | cases h)] at hs
  obtain ⟨⟨s, o1⟩, h1, hs⟩ := bind_ok hs
  simp only [pure_eq, Except.ok.injEq, Prod.mk.injEq] at hs
  obtain ⟨rfl, rfl⟩ := hs
  refine ⟨h1, ?_⟩
  simp only [masterSysStep, MOp.isMain, Bool.true_eq_false, if_false] at h1
  obtain ⟨⟨l, o2⟩, h2, h1⟩ := bind_ok h1
  obtain ⟨⟨fq, tq, M, rfl⟩, c, rfl⟩ := mreq_eq h2
  simp only [masterSends, ok_bind, pure_eq, Except.ok.injEq, Prod.mk.injEq] at h1
  obtain ⟨rfl, rfl⟩ := h1
  exact ⟨⟨fq, tq, M, rfl⟩, c, rfl⟩

theorem si_app {d d' : MasterPcDev} {o : List HMOut} {r : MReq} (hS : SI d) (hp : d.pc = .out)
    (hs : masterPcStep cfg d (.app (.request r)) = .ok (d', o)) : SI d' := by
  obtain ⟨-, ⟨fq, tq, M, rfl⟩, -⟩ := mpc_app hp hs
  exact ⟨hS.drv, hS.goes, hS.rtof, hS.t15, hS.txf, hS.txe, hS.ferr, hS.row, hS.rvt⟩

theorem mpc_call {d d' : MasterPcDev} {o : List HMOut} (hp : d.pc = .out) (hs : masterPcStep cfg d .call = .ok (d', o)) :
    d' = { d with pc := .enter } ∧ o = [] := by
  simp only [masterPcStep, Except.ok.injEq, Prod.mk.injEq] at hs
  rw [if_neg (by simp [hp])] at hs
  exact ⟨hs.1.symm, hs.2.symm⟩

theorem si_call {d d' : MasterPcDev} {o : List HMOut} (hS : SI d) (hp : d.pc = .out) (hs : masterPcStep cfg d .call = .ok (d', o)) : SI d' := by
  obtain ⟨rfl, -⟩ := mpc_call hp hs
  obtain ⟨⟨s, lm⟩, pc, e⟩ := d
  dsimp only at hp
  subst hp
  exact ⟨hS.drv, trivial, fun h => ⟨rfl, (hS.rtof h).2⟩, fun h => ⟨rfl, (hS.t15 h).2⟩, fun h => (hS.txf h).elim (fun h => nomatch h) (fun h => .inr ⟨rfl, h.2⟩),
    fun h => (hS.txe h).elim (fun h => nomatch h) .inr, hS.ferr, hS.row, (fun h => nomatch h)⟩

/-- An answer may come in. -/
structure AtAnswer (d : MasterPcDev) : Prop where
  pc : d.pc.waits = true
  st : d.dev.sys.lib.st = .waiting
  t15 : d.dev.sys.lib.t15 ≠ .set
  timer : 3 ≤ d.dev.sys.lib.timer
  rtof : d.dev.sys.rtof = false
  gap : d.dev.sys.gap = false

def HMOp.isAnswer : HMOp → Bool
  | .usart (some _) _ | .rto => true
  | _ => false

theorem waits_has15 {pc : MPc} (h : pc.waits = true) : pc.has15 = true := by
  cases pc <;> first | rfl | cases h

theorem si_irq {d d' : MasterPcDev} {o : List HMOut} {h : HMOp} (hS : SI d) (hm : ∀ op, h = .main op → op = .tick)
    (hA : h.isAnswer = true → AtAnswer d) (hs : masterPcStep cfg d (.irq h) = .ok (d', o)) : SI d' := by
  obtain ⟨v, h1, rfl⟩ := mpc_irq hs
  cases h with
  | main op =>
    cases hm op rfl
    obtain ⟨rfl, -⟩ := mint_tick h1
    exact ⟨hS.drv, hS.goes, hS.rtof, hS.t15, hS.txf, hS.txe, hS.ferr, hS.row, hS.rvt⟩
  | rto =>
    obtain ⟨rfl, -⟩ := mint_rto h1
    have := hA rfl
    exact ⟨hS.drv, hS.goes, fun _ => ⟨this.pc, this.st⟩, hS.t15, hS.txf, hS.txe, hS.ferr, hS.row, hS.rvt⟩
  | timer =>
    obtain ⟨rfl, -⟩ := mint_timer hS.drv h1
    exact ⟨hS.drv, hS.goes, hS.rtof, hS.t15, hS.txf, hS.txe, hS.ferr, hS.row, hS.rvt⟩
  | usart rx t =>
    obtain ⟨⟨M, -, rfl⟩, -⟩ := mint_usart hS.drv h1
    refine ⟨hS.drv, hS.goes, (fun h => nomatch h), fun h => ?_, fun h => ?_, fun h => ?_, ?_, hS.row, hS.rvt⟩
    · dsimp only at h ⊢
      split at h
      · rename_i hr
        exact ⟨waits_has15 (hS.rtof hr).1, (hS.rtof hr).2⟩
      · exact hS.t15 h
    · dsimp only at h ⊢
      split at h
      · cases h
      · exact hS.txf h
    · dsimp only at h ⊢
      cases t with
      | false => exact hS.txe h
      | true =>
        obtain ⟨e1, e2⟩ := Bool.and_eq_true_iff.1 h
        rw [e2]; exact hS.txe e1
    · dsimp only
      cases rx with
      | none => exact hS.ferr
      | some b => rw [(hA rfl).gap]; exact hS.ferr

/-! ### What statements change -/

/-- An answer is there, or being looked at for the first time. -/
def Answered (d : MasterPcDev) : Prop :=
  d.dev.sys.lib.t15 = .set ∨ d.dev.sys.rtof = true ∨ match d.pc with
    | .rcId | .rcT15 _ | .rcT35 _ | .rcRecv _ | .rcSkip => True
    | _ => False

/-- The response timeout is over, or will be for the next poll. -/
structure Expired (d : MasterPcDev) : Prop where
  timer : d.dev.sys.lib.timer = 1
  t15 : d.dev.sys.lib.t15 ≠ .set
  rtof : d.dev.sys.rtof = false
  pc : match d.pc with
    | .out | .enter => d.dev.sys.lib.st = .waiting
    | .wtT15 | .wtTimer | .toSlave | .toAdr _ | .toQty _ _ | .toFc _ _ _ | .toRep _ _ _ _ | .trSt => True
    | _ => False

set_option maxHeartbeats 4000000 in
theorem mstmt_answered {d d' : MasterPcDev} {o : List HMOut} (hS : SI d) (hr : d.dev.sys.rtof = false) (hp : d.pc ≠ .out)
    (hw : d.pc = .wtTimer → d.dev.sys.lib.timer = 1 → d.dev.sys.lib.t15 ≠ .set) (h : masterStmt cfg d = .ok (d', o)) (hA : Answered d') :
    Answered d ∧ d'.dev.sys.lib.timer = d.dev.sys.lib.timer ∧ d'.pc ≠ .wtTimer ∧ (d'.pc = .out → d.pc = .wtTimer) := by
  obtain ⟨⟨⟨l, tm, cu, la, g, r⟩, lm⟩, pc, e⟩ := d
  obtain ⟨-, h2, -, h4, -, -, -, -, -⟩ := hS
  dsimp only at h2 h4 hr hp hw
  subst hr
  cases pc <;> simp only [masterStmt] at h
  all_goals try (obtain ⟨x1, hb, h⟩ := bind_ok h)
  all_goals try (obtain ⟨x2, hb2, h⟩ := bind_ok h)
  all_goals repeat' split at h
  all_goals
    simp only [Except.ok.injEq, Prod.mk.injEq, reduceCtorEq] at h
    obtain ⟨rfl, -⟩ := h
    try (obtain ⟨x3, hb3, rfl⟩ := clearRespLen_eq hb)
    try (obtain ⟨x3, hb3, rfl⟩ := masterEnableRx_eq hb)
    simp_all [Answered, MPc.has15, MPc.goes]
  all_goals
    rename_i e
    cases e <;> simp_all [clearErr]

set_option maxHeartbeats 4000000 in
theorem mstmt_expired {d d' : MasterPcDev} {o : List HMOut} (hS : SI d) (hr : d.dev.sys.rtof = false) (hp : d.pc ≠ .out)
    (hT : cfg.respTimeout ≠ 1) (hk : d.pc = .rcSkip → d.dev.sys.lib.timer ≠ 1)
    (h : masterStmt cfg d = .ok (d', o)) (hE : Expired d') : Expired d ∧ d'.pc ≠ .trSt ∧ (d'.pc = .out → d.pc = .trSt) := by
  obtain ⟨⟨⟨l, tm, cu, la, g, r⟩, lm⟩, pc, e⟩ := d
  obtain ⟨-, h2, -, h4, -, -, -, -, -⟩ := hS
  obtain ⟨k1, k2, k3, k4⟩ := hE
  dsimp only at h2 h4 hr hp hk
  subst hr
  cases pc <;> simp only [masterStmt] at h
  all_goals try (obtain ⟨x1, hb, h⟩ := bind_ok h)
  all_goals try (obtain ⟨x2, hb2, h⟩ := bind_ok h)
  all_goals repeat' split at h
  all_goals
    simp only [Except.ok.injEq, Prod.mk.injEq, reduceCtorEq] at h
    obtain ⟨rfl, -⟩ := h
    try (obtain ⟨x3, hb3, rfl⟩ := clearRespLen_eq hb)
    try (obtain ⟨x3, hb3, rfl⟩ := masterEnableRx_eq hb)
    first
      | (exfalso; simp_all [MPc.has15, MPc.goes]; done)
      | (refine ⟨⟨?_, ?_, ?_, ?_⟩, ?_, ?_⟩ <;> simp_all [MPc.has15, MPc.goes])

theorem mstmt_wt {d d' : MasterPcDev} {o : List HMOut} (h : masterStmt cfg d = .ok (d', o)) (hp : d.pc ≠ .out) (hw : d'.pc = .wtTimer) :
    d.pc = .wtT15 ∧ d.dev.sys.lib.t15 ≠ .set ∧ d' = { d with pc := .wtTimer } := by
  obtain ⟨⟨⟨l, tm, cu, la, g, r⟩, lm⟩, pc, e⟩ := d
  cases pc <;> simp only [masterStmt] at h
  all_goals try (obtain ⟨x1, hb, h⟩ := bind_ok h)
  all_goals try (obtain ⟨x2, hb2, h⟩ := bind_ok h)
  all_goals repeat' split at h
  all_goals
    simp only [Except.ok.injEq, Prod.mk.injEq, reduceCtorEq] at h
    obtain ⟨rfl, -⟩ := h
    simp_all

end

end Modbus
