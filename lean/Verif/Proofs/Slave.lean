import Verif.Props.SlavePdu
import Verif.Model.Slave

/-! Helper lemmas about the slave state machine. -/

namespace Modbus

open Spec

theorem slaveRun_nil (cfg : Config) (s : Slave) : slaveRun cfg s [] = .ok (s, []) := rfl

theorem slaveRun_cons (cfg : Config) (s : Slave) (op : SOp) (ops : List SOp) :
    slaveRun cfg s (op :: ops) = (slaveStep cfg s op >>= fun x =>
      slaveRun cfg x.1 ops >>= fun y => .ok (y.1, x.2 ++ y.2)) := rfl

theorem slaveRun_cons_ok {cfg : Config} {s s1 : Slave} {op : SOp} {o : List SOut}
    (h : slaveStep cfg s op = .ok (s1, o)) (ops : List SOp) :
    slaveRun cfg s (op :: ops) = (slaveRun cfg s1 ops >>= fun y => .ok (y.1, o ++ y.2)) := by
  rw [slaveRun_cons, h]; rfl

theorem slaveRun_append (cfg : Config) (s : Slave) (a b : List SOp) :
    slaveRun cfg s (a ++ b) = (slaveRun cfg s a >>= fun x =>
      slaveRun cfg x.1 b >>= fun y => .ok (y.1, x.2 ++ y.2)) := by
  induction a generalizing s with
  | nil =>
    simp only [List.nil_append, slaveRun_nil, ok_bind]
    cases slaveRun cfg s b <;> simp
  | cons op a ih =>
    simp only [List.cons_append, slaveRun_cons]
    cases h : slaveStep cfg s op with
    | error e => rfl
    | ok x =>
      simp only [ok_bind]
      rw [ih]
      cases slaveRun cfg x.1 a with
      | error e => rfl
      | ok y =>
        simp only [ok_bind]
        cases slaveRun cfg y.1 b with
        | error e => rfl
        | ok z => simp [List.append_assoc]

theorem slaveRun_append_ok {cfg : Config} {s s1 s2 : Slave} {a b : List SOp} {o1 o2 : List SOut}
    (h1 : slaveRun cfg s a = .ok (s1, o1)) (h2 : slaveRun cfg s1 b = .ok (s2, o2)) :
    slaveRun cfg s (a ++ b) = .ok (s2, o1 ++ o2) := by
  rw [slaveRun_append, h1, ok_bind, h2]; rfl

theorem slaveRun_append_inv {cfg : Config} {s s2 : Slave} {a b : List SOp} {o : List SOut}
    (h : slaveRun cfg s (a ++ b) = .ok (s2, o)) :
    ∃ s1 o1 o2, slaveRun cfg s a = .ok (s1, o1) ∧ slaveRun cfg s1 b = .ok (s2, o2) ∧ o = o1 ++ o2 := by
  rw [slaveRun_append] at h
  cases h1 : slaveRun cfg s a with
  | error e => rw [h1] at h; simp at h
  | ok x =>
    rw [h1] at h
    simp only [ok_bind] at h
    cases h2 : slaveRun cfg x.1 b with
    | error e => rw [h2] at h; simp at h
    | ok y =>
      rw [h2] at h
      simp only [ok_bind] at h
      injection h with h
      injection h with ha hb
      exact ⟨x.1, x.2, y.2, rfl, by rw [h2, ← ha], hb.symm⟩

theorem slaveRun_one (cfg : Config) (s : Slave) (op : SOp) : slaveRun cfg s [op] = slaveStep cfg s op := by
  rw [slaveRun_cons]
  cases slaveStep cfg s op with
  | error e => rfl
  | ok x => simp [slaveRun_nil]

theorem slaveRun_cons_inv {cfg : Config} {s s2 : Slave} {op : SOp} {b : List SOp} {o : List SOut}
    (h : slaveRun cfg s (op :: b) = .ok (s2, o)) :
    ∃ s1 o1 o2, slaveStep cfg s op = .ok (s1, o1) ∧ slaveRun cfg s1 b = .ok (s2, o2) ∧ o = o1 ++ o2 := by
  obtain ⟨s1, o1, o2, h1, h2, h3⟩ := slaveRun_append_inv (a := [op]) h
  exact ⟨s1, o1, o2, by rw [← slaveRun_one]; exact h1, h2, h3⟩

/-- Invariant induction on executions, extending at the end. -/
theorem slaveRun_snoc_induct {cfg : Config} {s0 : Slave} (P : List SOp → Slave → List SOut → Prop)
    (h0 : P [] s0 [])
    (hstep : ∀ ops s o op s' o', P ops s o → slaveRun cfg s0 ops = .ok (s, o) → slaveStep cfg s op = .ok (s', o') →
      P (ops ++ [op]) s' (o ++ o')) :
    ∀ ops s o, slaveRun cfg s0 ops = .ok (s, o) → P ops s o := by
  intro ops
  induction hn : ops.length generalizing ops with
  | zero =>
    intro s o h
    obtain rfl := List.length_eq_zero_iff.mp hn
    rw [slaveRun_nil] at h
    injection h with h; injection h with h1 h2
    subst h1 h2
    exact h0
  | succ n ih =>
    intro s o h
    rcases List.eq_nil_or_concat ops with rfl | ⟨l, op, rfl⟩
    · simp at hn
    · rw [List.concat_eq_append] at h hn ⊢
      obtain ⟨s1, o1, o2, h1, h2, rfl⟩ := slaveRun_append_inv h
      rw [slaveRun_one] at h2
      exact hstep _ _ _ _ _ _ (ih l (by simpa using hn) _ _ h1) h1 h2

/-- The slave has been initialised in RTU mode. -/
structure Live (s : Slave) : Prop where
  drv : s.drv = true
  msgPtr : s.msgPtr = true
  dataSet : s.dataSet = true
  sub : s.subscribed = true

/-- Request and response views. -/
def Slave.pdu (s : Slave) : Pdu := { req := s.req, resp := s.resp, respLen := s.respLen, mem := s.mem }

theorem slaveIdle_noT15 (s : Slave) (h : s.t15 ≠ .set) : slaveIdle s = .ok (s, []) := by
  simp [slaveIdle, h]

/-- Is the buffered frame valid for this slave. -/
def Slave.frameOk (s : Slave) : Prop := s.req 0 = s.id ∧ crc16 (s.req.bytes 0 s.reqLen.toNat) = 0

instance (s : Slave) : Decidable s.frameOk := by unfold Slave.frameOk; infer_instance

theorem slaveIdle_t15 {s : Slave} (hm : s.msgPtr = true) (hd : s.dataSet = true) (h : s.t15 = .set) :
    slaveIdle s = .ok ({ s with t15 := .cleared, ferr := if s.frameOk then s.ferr else .set, st := .msgReceived }, []) := by
  have key : rtuRecv s.reqData s.reqLen s.id = .ok (if s.frameOk then RET_OK else
      if s.id ≠ s.req 0 then RET_ERROR_SLAVE_ID else RET_ERROR_CRC) := by
    simp only [Slave.reqData, hd, if_true]
    rw [rtuRecv_eq]
    congr 1
    by_cases h0 : s.req 0 = s.id
    · have h0' : ¬ s.id ≠ s.req 0 := fun h => h h0.symm
      by_cases hc : crc16 (s.req.bytes 0 s.reqLen.toNat) = 0
      · rw [if_neg h0', if_neg (fun h => h hc), if_pos ⟨h0, hc⟩]
      · rw [if_neg h0', if_pos hc, if_neg (fun h => hc h.2), if_neg h0']
    · have h0' : s.id ≠ s.req 0 := fun h => h0 h.symm
      rw [if_pos h0', if_neg (fun h => h0 h.1), if_pos h0']
  unfold slaveIdle
  rw [if_pos h, if_pos hm, key, ok_bind]
  by_cases hf : s.frameOk
  · rw [if_pos hf, if_pos hf, if_neg (by decide)]; rfl
  · rw [if_neg hf, if_neg hf]
    rw [if_pos (by split <;> decide)]; rfl

theorem framed_bytes (b : Buf) (pdu : List U8) (len : U8) (id : U8) (hlen : len.toNat = 1 + pdu.length)
    (hb : b.bytes 1 pdu.length = pdu) :
    (framed b len.toNat id).bytes 0 (len.toNat + 2) = rtuFrame id pdu := by
  rw [framed_frame]
  have : (b.set 0 id).bytes 0 len.toNat = id :: pdu := by
    rw [hlen, Buf.bytes_add]
    have h1 : (b.set 0 id).bytes 0 1 = [id] := by simp [Buf.bytes, List.range_succ, Buf.set_apply]
    rw [h1]
    have h2 : (b.set 0 id).bytes (0 + 1) pdu.length = b.bytes 1 pdu.length := by
      apply Buf.bytes_congr
      intro i _
      rw [Nat.zero_add, Buf.set_ne _ _ (by omega)]
    rw [h2, hb]; rfl
  rw [this]; rfl

/-- The answering poll. -/
theorem slaveMsgReceived_send (cfg : Config) (hc : cfg.WF) {s : Slave} (hm : s.msgPtr = true) (hd : s.dataSet = true)
    (hv : s.drv = true) (hf : s.ferr = .cleared) (ht : s.t35 = .set) :
    ∃ resp respLen, slaveMsgReceived cfg s = .ok
      ({ s with resp := resp, respLen := respLen, mem := effect cfg.limits s.mem (requestOf s.req),
                txf := .set, st := .transmitting, t35 := .cleared },
       [.send (rtuFrame s.id (encodeResponse (respond cfg.limits s.mem (requestOf s.req))))]) ∧
      resp.bytes 0 respLen.toNat = rtuFrame s.id (encodeResponse (respond cfg.limits s.mem (requestOf s.req))) := by
  obtain ⟨r, p, hp, hi⟩ := parse_refines cfg hc s.pdu
  have hlen := encode_len cfg.limits s.mem (requestOf s.req)
  have hl1 : p.respLen.toNat = 1 + (encodeResponse (respond cfg.limits s.mem (requestOf s.req))).length := hi.len
  have hb1 : p.resp.bytes 1 _ = encodeResponse (respond cfg.limits s.mem (requestOf s.req)) := hi.bytes
  have hl2 : (p.respLen + 2).toNat = p.respLen.toNat + 2 := by
    rw [BitVec.toNat_add]; simp; omega
  have hfr := framed_bytes p.resp _ p.respLen s.id hl1 hb1
  refine ⟨framed p.resp p.respLen.toNat s.id, p.respLen + 2, ?_, by rw [hl2]; exact hfr⟩
  unfold slaveMsgReceived
  rw [if_neg (by simp [hf]), if_pos ⟨hf, ht⟩]
  unfold slaveParse
  rw [if_neg (by simp [hm, hd])]
  have hp' : parseRequest cfg { req := s.req, resp := s.resp, respLen := s.respLen, mem := s.mem } = .ok (r, p) := hp
  rw [hp']
  simp only [ok_bind, pure_eq]
  unfold slaveFrame
  simp only [hm, Slave.respData, hd, if_true]
  rw [rtuSend_ok _ _ _ (by omega)]
  simp only [ok_bind, pure_eq]
  unfold slaveDriverSend
  simp only [hv, hd, Option.getD_some, Bool.true_eq_false, if_false, ok_bind]
  have e1 : p.req = s.req := hi.req
  have e2 : p.mem = effect cfg.limits s.mem (requestOf s.req) := hi.mem
  rw [hl2, hfr, e1, e2]

theorem slaveMsgReceived_drop (cfg : Config) {s : Slave} (hm : s.msgPtr = true) (hf : s.ferr = .set) (ht : s.t35 = .set) :
    slaveMsgReceived cfg s = .ok ({ s with reqLen := 0, st := .idle, ferr := .cleared, t35 := .cleared }, []) := by
  simp [slaveMsgReceived, hf, ht, hm]

theorem slaveMsgReceived_wait (cfg : Config) {s : Slave} (ht : s.t35 ≠ .set) :
    slaveMsgReceived cfg s = .ok (s, []) := by
  simp [slaveMsgReceived, ht]

theorem slaveTransmitting_done {s : Slave} (hm : s.msgPtr = true) (h : s.txf = .cleared) :
    slaveTransmitting s = .ok ({ s with st := .idle, respLen := 0, reqLen := 0 }, []) := by
  simp [slaveTransmitting, h, hm]

theorem slaveTransmitting_busy {s : Slave} (h : s.txf ≠ .cleared) : slaveTransmitting s = .ok (s, []) := by
  simp [slaveTransmitting, h]

/-- The possible outcomes of one poll. -/
inductive PollR (cfg : Config) (s : Slave) : Slave → List SOut → Prop
  | stay (hn : s.st ≠ .unknown) : PollR cfg s s []
  | check (hst : s.st = .idle) (ht : s.t15 = .set) :
      PollR cfg s { s with t15 := .cleared, ferr := if s.frameOk then s.ferr else .set, st := .msgReceived } []
  | drop (hst : s.st = .msgReceived) (hf : s.ferr = .set) (ht : s.t35 = .set) :
      PollR cfg s { s with reqLen := 0, st := .idle, ferr := .cleared, t35 := .cleared } []
  | answer (hst : s.st = .msgReceived) (hf : s.ferr = .cleared) (ht : s.t35 = .set)
      (resp : Buf) (respLen : U8)
      (hb : resp.bytes 0 respLen.toNat = rtuFrame s.id (encodeResponse (respond cfg.limits s.mem (requestOf s.req)))) :
      PollR cfg s { s with resp := resp, respLen := respLen, mem := effect cfg.limits s.mem (requestOf s.req), txf := .set, st := .transmitting, t35 := .cleared }
        [.send (rtuFrame s.id (encodeResponse (respond cfg.limits s.mem (requestOf s.req))))]
  | done (hst : s.st = .transmitting) (hx : s.txf = .cleared) :
      PollR cfg s { s with st := .idle, respLen := 0, reqLen := 0 } []
  | dflt (hst : s.st = .unknown) :
      PollR cfg s { s with st := .idle, t15 := .cleared, t35 := .cleared, ferr := .cleared, txf := .cleared, respLen := 0, reqLen := 0 } []

theorem slavePoll_inv (cfg : Config) (hc : cfg.WF) {s s' : Slave} {o : List SOut}
    (h : slavePoll cfg s = .ok (s', o)) : PollR cfg s s' o := by
  have fin : ∀ {a : Slave} {b : List SOut}, PollR cfg s a b → (Except.ok (a, b) : C _) = .ok (s', o) → PollR cfg s s' o := by
    intro a b hr he
    injection he with he; injection he with h1 h2
    rw [← h1, ← h2]; exact hr
  unfold slavePoll at h
  cases hst : s.st with
  | idle =>
    rw [hst] at h
    simp only at h
    by_cases ht : s.t15 = .set
    · cases hm : s.msgPtr with
      | false => simp [slaveIdle, ht, hm] at h
      | true =>
        cases hd : s.dataSet with
        | false => simp [slaveIdle, ht, hm, Slave.reqData, hd, rtuRecv] at h
        | true =>
          rw [slaveIdle_t15 hm hd ht] at h
          exact fin (.check hst ht) h
    · rw [slaveIdle_noT15 _ ht] at h
      exact fin (.stay (by simp [hst])) h
  | msgReceived =>
    rw [hst] at h
    simp only at h
    by_cases ht : s.t35 = .set
    · cases hf : s.ferr with
      | set =>
        cases hm : s.msgPtr with
        | false => simp [slaveMsgReceived, ht, hf, hm] at h
        | true =>
          rw [slaveMsgReceived_drop cfg hm hf ht] at h
          exact fin (.drop hst hf ht) h
      | unknown =>
        simp only [slaveMsgReceived, hf, reduceCtorEq, false_and, if_false] at h
        exact fin (.stay (by simp [hst])) h
      | cleared =>
        cases hm : s.msgPtr with
        | false => simp [slaveMsgReceived, hf, ht, slaveParse, hm, slaveFrame] at h
        | true =>
          cases hd : s.dataSet with
          | false =>
            simp only [slaveMsgReceived, hf, ht, slaveParse, hm, hd, slaveFrame, slaveDriverSend, Slave.respData, rtuSend,
              reduceCtorEq, false_and, if_false, and_self, if_true, or_true, ok_bind, pure_eq, Bool.false_eq_true,
              Bool.true_eq_false] at h
            split at h <;> simp at h
          | true =>
            cases hv : s.drv with
            | true =>
              obtain ⟨resp, respLen, h1, h2⟩ := slaveMsgReceived_send cfg hc hm hd hv hf ht
              rw [h1] at h
              exact fin (.answer hst hf ht resp respLen h2) h
            | false =>
              obtain ⟨r, p, hp, hi⟩ := parse_refines cfg hc s.pdu
              have hp' : parseRequest cfg { req := s.req, resp := s.resp, respLen := s.respLen, mem := s.mem } = .ok (r, p) := hp
              have hlen := encode_len cfg.limits s.mem (requestOf s.req)
              have hl1 : p.respLen.toNat = 1 + (encodeResponse (respond cfg.limits s.mem (requestOf s.req))).length := hi.len
              unfold slaveMsgReceived at h
              rw [if_neg (by simp [hf]), if_pos ⟨hf, ht⟩] at h
              unfold slaveParse at h
              rw [if_neg (by simp [hm, hd]), hp'] at h
              simp only [ok_bind, pure_eq] at h
              unfold slaveFrame at h
              simp only [hm, Slave.respData, hd, if_true] at h
              rw [rtuSend_ok _ _ _ (by omega)] at h
              simp only [ok_bind, pure_eq, slaveDriverSend, hv, if_true, error_bind] at h
              simp at h
    · rw [slaveMsgReceived_wait cfg ht] at h
      exact fin (.stay (by simp [hst])) h
  | transmitting =>
    rw [hst] at h
    simp only at h
    by_cases hx : s.txf = .cleared
    · cases hm : s.msgPtr with
      | false => simp [slaveTransmitting, hx, hm] at h
      | true =>
        rw [slaveTransmitting_done hm hx] at h
        exact fin (.done hst hx) h
    · rw [slaveTransmitting_busy hx] at h
      exact fin (.stay (by simp [hst])) h
  | unknown =>
    rw [hst] at h
    simp only at h
    cases hm : s.msgPtr with
    | false => simp [slaveDefault, hm] at h
    | true =>
      simp only [slaveDefault, hm, if_true] at h
      rw [← hm] at h
      exact fin (.dflt hst) h

end Modbus
