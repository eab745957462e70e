import Verif.Props.MasterFaults
import Verif.Props.MasterExamples
import Verif.Proofs.DriverMasterExchange

/-! C55 and C47, universally: what the master makes of short responses, and where the function code of a timeout report comes from. -/

namespace Modbus

open Spec

/-- What is outside the response buffers does not matter: the bytes after the frame, up to the end of the buffer. -/
theorem buf_split {b : Buf} {f : List U8} (h : b.bytes 0 f.length = f) (hl : f.length ≤ 255) {k : Nat} (hk : k < 256) :
    b k = (f ++ b.bytes f.length (256 - f.length)).getD k 0 := by
  by_cases hkf : k < f.length
  · rw [getD_of_bytes h hkf, List.getD_eq_getElem?_getD, List.getD_eq_getElem?_getD, List.getElem?_append_left hkf]
  · rw [List.getD_eq_getElem?_getD, List.getElem?_append_right (by omega), List.getElem?_eq_getElem (by simp; omega)]
    simp only [Buf.bytes_getElem, Option.getD_some]
    congr 1
    omega

/-- **C55, exactly what the code delivers**, for every read request, every history and every CRC-correct response from the addressed slave with the requested function
code, of whatever length: the callbacks are those of the frame continued by `old`, the bytes that happen to follow it in the buffer. All
requested items are delivered, those inside the frame from the frame (`List.getD` of an append), the others from its CRC and from `old`. -/
theorem C55_delivered_from_buffer {cfg : Config} (hw : cfg.MWF) {ops : List MOp} (ho : OpsOk ops) {s0 s s1 : Master} {tr : MTrace}
    (h : masterRun cfg s0 (.init .rtu :: ops) = .ok (s, tr)) (hs : Standing false false s) {r : MReq} (hq : QtyOk r)
    (hp : masterStep cfg s .poll = .ok (s1, [.send (reqFrame r)])) {a : Attempt} (ha : a.Wf cfg.respTimeout r) (hb : ¬ a.broken)
    (hc : CrcCorrect a.resp.frame) (hr : IsRead r) (hfc : a.resp.frame.getD 1 0 = reqFc r) :
    ∃ (s' : Master) (tr' : MTrace) (old : List U8), old.length = 256 - a.resp.frame.length ∧
      masterRun cfg s (.poll :: a.ops) = .ok (s', tr') ∧
      outs tr' = .send (reqFrame r) :: (responseEvents r (a.resp.frame ++ old)).map .event := by
  obtain ⟨i, s', tr', g', k1, k2, k3, k4⟩ := attempt_ready hw ho h hs hq hp ha hb hc
  have hl : 2 ≤ a.resp.frame.length := by
    obtain ⟨b, hb⟩ := hc; rw [hb]; simp
  have hle : a.resp.frame.length ≤ 255 := ha.resp.1.le
  let b := (s'.msgs i).resp
  let old := b.bytes a.resp.frame.length (256 - a.resp.frame.length)
  have hb' : ∀ k, k < 256 → b k = (a.resp.frame ++ old).getD k 0 := fun k hk => buf_split k4.bytes hle hk
  have g1 : b 1 = reqFc r := by rw [← hfc]; exact getD_of_bytes k4.bytes (k := 1) (by omega)
  have hn7 : ¬ 128 ≤ (reqFc r).toNat := by cases r <;> first | exact hr.elim | (simp only [reqFc]; decide)
  have hev : respEvents (s'.msgs i) = .ok (responseEvents r (a.resp.frame ++ old)) := by
    rw [respEvents_eq k4.cur.2.2.1 hq]
    have g1' : (s'.msgs i).resp 1 = reqFc r := g1
    rw [g1', if_neg (fun e => absurd ((u8_bit7 _).1 e) hn7)]
    rw [show actualEvents r ((s'.msgs i).resp 0) (reqFc r) (s'.msgs i).resp = .ok (deliveries ((s'.msgs i).resp 0) (respBit (s'.msgs i).resp) (respReg (s'.msgs i).resp) r) from actualEvents_match hq _ _]
    unfold responseEvents
    simp only
    rw [← hb' 1 (by decide), g1, if_neg hn7, ← hb' 0 (by decide)]
    congr 1
    have hbit : ∀ k, k < 2000 → respBit b k = frameBit (a.resp.frame ++ old) k := by
      intro k hk
      unfold respBit frameBit
      rw [hb' _ (by omega)]
    have hreg : ∀ k, k < 126 → respReg b k = frameReg (a.resp.frame ++ old) k := by
      intro k hk
      unfold respReg frameReg
      rw [hb' _ (by omega), hb' _ (by omega)]
      apply BitVec.eq_of_toNat_eq
      rw [u16of_toNat]
      have := word_lt ((a.resp.frame ++ old).getD (3 + 2 * k) 0) ((a.resp.frame ++ old).getD (4 + 2 * k) 0)
      unfold word at this ⊢
      rw [BitVec.toNat_ofNat, show 3 + 2 * k + 1 = 4 + 2 * k by omega, Nat.mod_eq_of_lt (by omega)]
      omega
    cases r with
    | readCoils x q y =>
      simp only [deliveries]
      refine List.map_congr_left fun k hk => ?_
      have := List.mem_range.1 hk
      have hq' : q.toNat ≤ 2000 := hq.2
      rw [show respBit (s'.msgs i).resp k = _ from hbit k (by omega)]
    | readDiscreteInputs x q y =>
      simp only [deliveries]
      refine List.map_congr_left fun k hk => ?_
      have := List.mem_range.1 hk
      have hq' : q.toNat ≤ 2000 := hq.2
      rw [show respBit (s'.msgs i).resp k = _ from hbit k (by omega)]
    | readInputReg x q y =>
      simp only [deliveries]
      refine List.map_congr_left fun k hk => ?_
      have := List.mem_range.1 hk
      have hq' : q.toNat ≤ 125 := hq.2
      rw [show respReg (s'.msgs i).resp k = _ from hreg k (by omega)]
    | readHoldingReg x q y =>
      simp only [deliveries]
      refine List.map_congr_left fun k hk => ?_
      have := List.mem_range.1 hk
      have hq' : q.toNat ≤ 125 := hq.2
      rw [show respReg (s'.msgs i).resp k = _ from hreg k (by omega)]
    | writeSingleCoil _ _ _ => exact hr.elim
    | writeSingleReg _ _ _ => exact hr.elim
    | writeMultipleReg _ _ _ _ => exact hr.elim
    | writeMultipleCoils _ _ _ _ => exact hr.elim
  obtain ⟨s2, m1, m2⟩ := (final_events hw k3 k4).1 _ hev
  refine ⟨s2, tr' ++ [(.poll, (responseEvents r (a.resp.frame ++ old)).map .event)], old, by simp [old], ?_, ?_⟩
  · have := run_seq k1 (run_one m1)
    simpa [Attempt.ops] using this
  · rw [outs_append, k2]
    show _ ++ (List.map MOut.event _ ++ []).filter isOut = _
    rw [List.append_nil, List.filter_eq_self.2 (by intro x hx; obtain ⟨e, -, rfl⟩ := List.mem_map.1 hx; rfl)]
    rfl

/-- **C55 is violated by every short response**: a CRC-correct response with the requested function code that does not hold all the requested
registers gets exactly as many values delivered as were requested nevertheless, so the last one does not come from its payload. -/
theorem C55_short_response_delivered_violated {cfg : Config} (hw : cfg.MWF) {ops : List MOp} (ho : OpsOk ops) {s0 s s1 : Master} {tr : MTrace}
    (h : masterRun cfg s0 (.init .rtu :: ops) = .ok (s, tr)) (hs : Standing false false s) {r : MReq} (hq : QtyOk r)
    (hp : masterStep cfg s .poll = .ok (s1, [.send (reqFrame r)])) {a : Attempt} (ha : a.Wf cfg.respTimeout r) (hb : ¬ a.broken)
    (hc : CrcCorrect a.resp.frame) (hr : IsRead r) (hfc : a.resp.frame.getD 1 0 = reqFc r) (_hshort : a.resp.frame.length < respLenFor r (reqFc r)) :
    ∃ (s' : Master) (tr' : MTrace) (evs : List MEvent), masterRun cfg s (.poll :: a.ops) = .ok (s', tr') ∧
      outs tr' = .send (reqFrame r) :: evs.map .event ∧ evs.length = (reqField r).toNat ∧ ∀ e ∈ evs, isErrorReport e = false := by
  obtain ⟨s', tr', old, k1, k2, k3⟩ := C55_delivered_from_buffer hw ho h hs hq hp ha hb hc hr hfc
  have hl : 2 ≤ a.resp.frame.length := by
    obtain ⟨b, hb⟩ := hc; rw [hb]; simp
  have e1 : (a.resp.frame ++ old).getD 1 0 = reqFc r := by
    rw [← hfc, List.getD_eq_getElem?_getD, List.getD_eq_getElem?_getD, List.getElem?_append_left (by omega)]
  have hn7 : ¬ 128 ≤ (reqFc r).toNat := by cases r <;> first | exact hr.elim | (simp only [reqFc]; decide)
  refine ⟨s', tr', _, k2, k3, ?_, ?_⟩
  · unfold responseEvents
    simp only
    rw [e1, if_neg hn7]
    cases r <;> first | exact hr.elim | simp [deliveries, reqField]
  · unfold responseEvents
    simp only
    rw [e1, if_neg hn7]
    cases r <;> first
      | exact hr.elim
      | (intro e he
         simp only [deliveries] at he
         obtain ⟨k, -, rfl⟩ := List.mem_map.1 he
         rfl)

/-! ### Where the bytes of a response buffer come from -/

/-- Bytes allowed in the response buffers. -/
def RespFrom (l : List U8) (s : Master) : Prop := ∀ i k, (s.msgs i).resp k ∈ 0 :: l

theorem respFrom_mono {l l' : List U8} {s : Master} (h : RespFrom l s) (hl : ∀ b ∈ l, b ∈ l') : RespFrom l' s := by
  intro i k
  have := h i k
  simp only [List.mem_cons] at this ⊢
  exact this.imp id (hl _)

theorem respFrom_of_eq {l : List U8} {s s' : Master} (h : RespFrom l s) (e : ∀ i, (s'.msgs i).resp = (s.msgs i).resp) : RespFrom l s' := by
  intro i k; rw [e i]; exact h i k

/-- A request call does not touch response buffers. -/
theorem request_resp {cfg : Config} {s s' : Master} {r : MReq} {c : ReqRet} (hd : QtyOk r → DataOk r)
    (h : generateRequest cfg s r.param = .ok (c, s')) (j : Nat) : (s'.msgs j).resp = (s.msgs j).resp := by
  unfold generateRequest at h
  obtain ⟨⟨x, fq⟩, -, h⟩ := bind_ok h
  cases x with
  | none =>
    simp only [pure_eq, Except.ok.injEq, Prod.mk.injEq] at h
    rw [← h.2]
  | some i =>
    simp only at h
    obtain ⟨⟨rv, m⟩, h1, h⟩ := bind_ok h
    have hm : m.resp = (s.msgs i).resp := by
      cases hds : s.dataSet with
      | false =>
        rw [hds, generatePdu_null] at h1
        cases h1; rfl
      | true =>
        rw [hds] at h1
        by_cases hq : QtyOk r
        · obtain ⟨m', e1, e2⟩ := generatePdu_built (s.msgs i) r hq (hd hq)
          rw [e1] at h1
          cases h1; exact e2.resp
        · rw [generatePdu_refuse _ r hq] at h1
          cases h1; rfl
    have hset : ∀ m' : MMsg, m'.resp = m.resp → (setMsg s.msgs i m' j).resp = (s.msgs j).resp := by
      intro m' e
      unfold setMsg
      split
      · next e' => rw [e, hm, e']
      · rfl
    simp only at h
    split at h
    · simp only [pure_eq, Except.ok.injEq, Prod.mk.injEq] at h
      rw [← h.2]; exact hset _ rfl
    · obtain ⟨⟨rv2, b, l⟩, -, h⟩ := bind_ok h
      simp only at h
      split at h
      · simp only [pure_eq, Except.ok.injEq, Prod.mk.injEq] at h
        rw [← h.2]; exact hset _ rfl
      · obtain ⟨⟨tq, y⟩, -, h⟩ := bind_ok h
        simp only [pure_eq, Except.ok.injEq, Prod.mk.injEq] at h
        rw [← h.2]; exact hset _ rfl

theorem clearRespLen_resp {s s' : Master} (h : clearRespLen s = .ok s') (j : Nat) : (s'.msgs j).resp = (s.msgs j).resp := by
  unfold clearRespLen at h
  split at h
  · cases h
  · cases h
    simp only [setMsg]
    split
    · next e => rw [e]
    · rfl

theorem processEnd_msgs {cfg : Config} {s s' : Master} (h : masterProcessEnd cfg s = .ok s') : s'.msgs = s.msgs := by
  unfold masterProcessEnd at h
  obtain ⟨⟨fq, mb⟩, -, h⟩ := bind_ok h
  simp only [pure_eq, Except.ok.injEq] at h
  rw [← h]

theorem send_msgs {s s' : Master} {o : List MOut} (h : masterSend s = .ok (s', o)) : s'.msgs = s.msgs := by
  unfold masterSend at h
  repeat' split at h
  all_goals first | (cases h; done) | (cases h; rfl)

/-- A poll does not touch response buffers. -/
theorem poll_resp {cfg : Config} {s s' : Master} {o : List MOut} (h : masterPoll cfg s = .ok (s', o)) (j : Nat) : (s'.msgs j).resp = (s.msgs j).resp := by
  have hrep : ∀ {s1 : Master} {e : MEvent} {x : C MEvent}, s1.msgs = s.msgs → (x >>= fun e => masterProcessEnd cfg s1 >>= fun s => (.ok (s, [.event e]) : C (Master × List MOut))) = .ok (s', o) →
      s'.msgs = s.msgs := by
    intro s1 e x e1 h
    obtain ⟨e, -, h⟩ := bind_ok h
    obtain ⟨s2, h2, h⟩ := bind_ok h
    cases h
    rw [processEnd_msgs h2, e1]
  unfold masterPoll at h
  split at h
  · unfold masterIdle at h
    split at h
    · obtain ⟨⟨x, tq⟩, -, h⟩ := bind_ok h
      simp only at h
      rw [send_msgs h]
    · cases h; rfl
  · rw [send_msgs h]
  · unfold masterTransmitting at h
    split at h
    · obtain ⟨s1, h1, h⟩ := bind_ok h
      simp only [pure_eq, Except.ok.injEq, Prod.mk.injEq] at h
      rw [← h.1]; exact clearRespLen_resp h1 j
    · cases h; rfl
  · unfold masterWaiting at h
    split at h
    · unfold masterRecv at h
      obtain ⟨m, -, h⟩ := bind_ok h
      obtain ⟨id', -, h⟩ := bind_ok h
      simp only at h
      obtain ⟨rv, -, h⟩ := bind_ok h
      split at h
      · simp only [pure_eq, Except.ok.injEq, Prod.mk.injEq] at h
        rw [← h.1]
      · split at h
        · obtain ⟨s1, h1, h⟩ := bind_ok h
          simp only [pure_eq, Except.ok.injEq, Prod.mk.injEq] at h
          rw [← h.1]; exact clearRespLen_resp h1 j
        · simp only [pure_eq, Except.ok.injEq, Prod.mk.injEq] at h
          rw [← h.1]
    · split at h
      · obtain ⟨e, -, h⟩ := bind_ok h
        obtain ⟨s2, h2, h⟩ := bind_ok h
        simp only [pure_eq, Except.ok.injEq, Prod.mk.injEq] at h
        rw [← h.1, processEnd_msgs h2]
      · cases h; rfl
  · unfold masterReceived at h
    repeat' split at h
    · unfold masterFrameError at h
      simp only at h
      split at h
      · obtain ⟨s1, h1, h⟩ := bind_ok h
        simp only [pure_eq, Except.ok.injEq, Prod.mk.injEq] at h
        rw [← h.1]; exact clearRespLen_resp h1 j
      · obtain ⟨e, -, h⟩ := bind_ok h
        obtain ⟨s2, h2, h⟩ := bind_ok h
        simp only [pure_eq, Except.ok.injEq, Prod.mk.injEq] at h
        rw [← h.1, processEnd_msgs h2]
    · unfold masterCrcError at h
      simp only at h
      split at h
      · obtain ⟨s1, h1, h⟩ := bind_ok h
        simp only [pure_eq, Except.ok.injEq, Prod.mk.injEq] at h
        rw [← h.1]; exact clearRespLen_resp h1 j
      · obtain ⟨e, -, h⟩ := bind_ok h
        obtain ⟨s2, h2, h⟩ := bind_ok h
        simp only [pure_eq, Except.ok.injEq, Prod.mk.injEq] at h
        rw [← h.1, processEnd_msgs h2]
    · unfold masterCorrect at h
      obtain ⟨e, -, h⟩ := bind_ok h
      obtain ⟨s2, h2, h⟩ := bind_ok h
      simp only [pure_eq, Except.ok.injEq, Prod.mk.injEq] at h
      rw [← h.1, processEnd_msgs h2]
    · cases h; rfl

/-- One operation: a response buffer changes only by a received byte. -/
theorem step_respFrom {cfg : Config} {l : List U8} {s s' : Master} {op : MOp} {o : List MOut} (hr : ∀ r, op = .request r → QtyOk r → DataOk r)
    (h : masterStep cfg s op = .ok (s', o)) (hi : RespFrom l s) : RespFrom (l ++ rxBytes [(op, o)]) s' := by
  have hl : ∀ b ∈ l, b ∈ l ++ rxBytes [(op, o)] := fun b hb => List.mem_append_left _ hb
  cases op with
  | init m =>
    refine respFrom_mono (respFrom_of_eq hi ?_) hl
    simp only [masterStep] at h
    obtain ⟨s1, h1, h⟩ := bind_ok h
    simp only [pure_eq, Except.ok.injEq, Prod.mk.injEq] at h
    unfold masterInit at h1
    split at h1
    · cases h1
    · obtain ⟨fq, -, h1⟩ := bind_ok h1
      simp only [pure_eq, Except.ok.injEq] at h1
      intro i; rw [← h.1, ← h1]
  | request r =>
    refine respFrom_mono (respFrom_of_eq hi ?_) hl
    simp only [masterStep] at h
    obtain ⟨⟨c, s1⟩, h1, h⟩ := bind_ok h
    simp only [pure_eq, Except.ok.injEq, Prod.mk.injEq] at h
    intro i; rw [← h.1]; exact request_resp (hr r rfl) h1 i
  | poll => exact respFrom_mono (respFrom_of_eq hi (poll_resp h)) hl
  | tick =>
    refine respFrom_mono (respFrom_of_eq hi ?_) hl
    simp only [masterStep, Except.ok.injEq, Prod.mk.injEq] at h
    intro i; rw [← h.1]; split <;> rfl
  | t15 =>
    refine respFrom_mono (respFrom_of_eq hi ?_) hl
    simp only [masterStep, Except.ok.injEq, Prod.mk.injEq] at h
    intro i; rw [← h.1]; split <;> rfl
  | t35 =>
    refine respFrom_mono (respFrom_of_eq hi ?_) hl
    simp only [masterStep, Except.ok.injEq, Prod.mk.injEq] at h
    intro i; rw [← h.1]; split <;> rfl
  | frameErr =>
    refine respFrom_mono (respFrom_of_eq hi ?_) hl
    simp only [masterStep, Except.ok.injEq, Prod.mk.injEq] at h
    intro i; rw [← h.1]; split <;> rfl
  | txDone =>
    refine respFrom_mono (respFrom_of_eq hi ?_) hl
    simp only [masterStep, Except.ok.injEq, Prod.mk.injEq] at h
    intro i; rw [← h.1]; split <;> rfl
  | rxByte b =>
    simp only [masterStep] at h
    obtain ⟨s1, h1, h⟩ := bind_ok h
    simp only [pure_eq, Except.ok.injEq, Prod.mk.injEq] at h
    rw [← h.1]
    unfold masterRx at h1
    split at h1
    · cases h1; exact respFrom_mono hi hl
    · rename_i i hi'
      split at h1
      · obtain ⟨rb, h2, h1⟩ := bind_ok h1
        simp only [pure_eq, Except.ok.injEq] at h1
        rw [← h1]
        intro j k
        unfold wr at h2
        split at h2
        · cases h2
          simp only [setMsg]
          split
          · simp only [Buf.set]
            split
            · simp [rxBytes]
            · exact (respFrom_mono hi hl) i k
          · exact (respFrom_mono hi hl) j k
        · cases h2
      · cases h1

theorem run_respFrom {cfg : Config} {ops : List MOp} (ho : ∀ r, .request r ∈ ops → QtyOk r → DataOk r) {l : List U8} {s s' : Master} {tr : MTrace}
    (h : masterRun cfg s ops = .ok (s', tr)) (hi : RespFrom l s) : RespFrom (l ++ rxBytes tr) s' := by
  induction ops generalizing s l tr with
  | nil => cases h; simpa [rxBytes] using hi
  | cons op ops ih =>
    obtain ⟨s1, o1, t1, h1, h2, h3⟩ := run_cons_inv h
    have := ih (fun r hr => ho r (List.mem_cons_of_mem _ hr)) h2 (step_respFrom (fun r e => ho r (e ▸ List.mem_cons_self)) h1 hi)
    rw [h3, show ((op, o1) :: t1) = [(op, o1)] ++ t1 from rfl, rxBytes_append, ← List.append_assoc]
    exact this

/-- The state in which an entry of the trace happened. -/
theorem run_at {cfg : Config} {ops : List MOp} {s s' : Master} {t0 t1 : MTrace} {op : MOp} {o : List MOut}
    (h : masterRun cfg s ops = .ok (s', t0 ++ (op, o) :: t1)) :
    ∃ pre post sm sm', ops = pre ++ op :: post ∧ masterRun cfg s pre = .ok (sm, t0) ∧ masterStep cfg sm op = .ok (sm', o) := by
  induction ops generalizing s t0 with
  | nil =>
    simp only [masterRun, Except.ok.injEq, Prod.mk.injEq] at h
    have := h.2
    simp at this
  | cons x ops ih =>
    obtain ⟨s1, o1, t2, h1, h2, h3⟩ := run_cons_inv h
    cases t0 with
    | nil =>
      simp only [List.nil_append, List.cons.injEq, Prod.mk.injEq] at h3
      obtain ⟨⟨rfl, rfl⟩, -⟩ := h3
      exact ⟨[], ops, s, s1, rfl, rfl, h1⟩
    | cons y t0 =>
      simp only [List.cons_append, List.cons.injEq] at h3
      obtain ⟨rfl, rfl⟩ := h3
      obtain ⟨pre, post, sm, sm', e1, e2, e3⟩ := ih h2
      exact ⟨x :: pre, post, sm, sm', by rw [e1]; rfl, by simp only [masterRun, h1, ok_bind, e2]; rfl, e3⟩

theorem powerOn_respFrom : RespFrom [] Master.powerOn := by
  intro i k; exact List.mem_cons_self

/-- **C47, the function code of timeout reports**, in every execution from power-on: it has nothing to do with the request: it is 0 or a byte received some time
before. -/
theorem C47_timeout_function_code_from_line {cfg : Config} (hw : cfg.MWF) {ops : List MOp} (ho : OpsOk ops) {s : Master}
    {tr t0 t1 : MTrace} {op : MOp} {o : List MOut} {rep : ErrReport}
    (h : masterRun cfg Master.powerOn (.init .rtu :: ops) = .ok (s, tr)) (ht : tr = t0 ++ (op, o) :: t1) (he : .event (.timeoutErr rep) ∈ o) :
    rep.fc = 0 ∨ rep.fc ∈ rxBytes t0 := by
  subst ht
  obtain ⟨pre, post, sm, sm', e1, e2, e3⟩ := run_at h
  obtain rfl := event_only_poll e3 he
  cases pre with
  | nil => simp at e1
  | cons x pre =>
    simp only [List.cons_append, List.cons.injEq] at e1
    obtain ⟨rfl, e1⟩ := e1
    have hpre : OpsOk pre := fun y hy => ho y (by rw [e1]; exact List.mem_append_left _ hy)
    obtain ⟨tr', g, sx, -, hi, -⟩ := run_from_init hw hpre e2
    have hf := run_respFrom (l := []) (by
      intro r hr
      rcases List.mem_cons.1 hr with hr | hr
      · cases hr
      · exact (hpre _ hr).2 r rfl) e2 powerOn_respFrom
    rw [List.nil_append] at hf
    rcases poll_event_cases hw hi e3 he with ⟨-, -, -, i, r, c, hc, rfl⟩ | ⟨-, i, r, c, er, hc, -, -, rfl⟩ | ⟨-, -, -, -, i, r, c, evs, hc, hev, rfl⟩
    · simp only [List.mem_singleton, MOut.event.injEq, MEvent.timeoutErr.injEq] at he
      subst he
      have := hf i 1
      simpa using this
    · simp at he
    · have hcur := hi.cur
      rw [hc] at hcur
      simp at he
      have := respEvents_noerr hcur.2.2.1 hcur.2.2.2.1 hev _ he
      simp [isErrorReport] at this

/-- **C47 is violated by every timeout before the first byte received**: whatever was requested, the report names function code 0, which no request has. -/
theorem C47_timeout_wrong_function_code_violated {cfg : Config} (hw : cfg.MWF) {ops : List MOp} (ho : OpsOk ops) {s : Master}
    {tr t0 t1 : MTrace} {op : MOp} {o : List MOut} {rep : ErrReport}
    (h : masterRun cfg Master.powerOn (.init .rtu :: ops) = .ok (s, tr)) (ht : tr = t0 ++ (op, o) :: t1) (he : .event (.timeoutErr rep) ∈ o)
    (hrx : rxBytes t0 = []) : rep.fc = 0 ∧ ∀ r : MReq, rep.fc ≠ reqFc r := by
  have h0 : rep.fc = 0 := by
    rcases C47_timeout_function_code_from_line hw ho h ht he with e | e
    · exact e
    · rw [hrx] at e; cases e
  refine ⟨h0, fun r => ?_⟩
  rw [h0]
  cases r <;> simp [reqFc]

/-- The hypotheses of `C55_short_response_delivered_violated` can be met: three registers are asked for, the response holds one. -/
example : ∃ s tr s1, masterRun smallCfg Master.powerOn [.init .rtu, .request (.readHoldingReg 0 3 1)] = .ok (s, tr) ∧ Standing false false s ∧
    masterStep smallCfg s .poll = .ok (s1, [.send (reqFrame (.readHoldingReg 0 3 1))]) ∧
    (simpleAttempt [] (rtuFrame 1 [3, 2, 0x44, 0x44])).Wf smallCfg.respTimeout (.readHoldingReg 0 3 1) ∧
    ¬ (simpleAttempt [] (rtuFrame 1 [3, 2, 0x44, 0x44])).broken ∧
    CrcCorrect (simpleAttempt [] (rtuFrame 1 [3, 2, 0x44, 0x44])).resp.frame ∧
    (simpleAttempt [] (rtuFrame 1 [3, 2, 0x44, 0x44])).resp.frame.length < respLenFor (.readHoldingReg 0 3 1) 3 := by
  obtain ⟨s, tr, s1, h1, h2, h3⟩ := one_request smallCfg_wf Master.powerOn (r := .readHoldingReg 0 3 1) (by decide) trivial
  refine ⟨s, tr, s1, h1, h2, h3, simpleAttempt_wf (by decide) (by intro x hx; cases hx) (by decide) (by decide +kernel) rfl, not_broken_simple _ _, ?_, ?_⟩
  · show CrcCorrect (heard _).frame
    rw [heard_frame]
    exact ⟨_, rfl⟩
  · show (heard _).frame.length < _
    rw [heard_frame]
    decide +kernel

end Modbus
