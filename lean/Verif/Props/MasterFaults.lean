import Verif.Props.MasterLive

/-! What the master does with unexpected responses: C43, C47, C55. -/

namespace Modbus

open Spec

/-- The last poll of an attempt without error: whatever the processing of the response gives. -/
theorem final_events {cfg : Config} (hw : cfg.MWF) {i : Nat} {r : MReq} {c0 : U8} {f : List U8} {s : Master} {g : Ghost}
    (hi : MInv cfg s g) (h : P6 i r c0 .cleared .cleared f s) :
    (∀ evs, respEvents (s.msgs i) = .ok evs → ∃ s', masterStep cfg s .poll = .ok (s', evs.map .event) ∧ s'.st = .idle) ∧
    (∀ e, respEvents (s.msgs i) = .error e → masterStep cfg s .poll = .error e) := by
  obtain ⟨i', r', c, hc, h1⟩ := hi.curIs (by rw [h.st_eq]; decide)
  have hii : i' = i := by have := h1.1; rw [h.cur.1] at this; exact (Option.some.inj this).symm
  subst hii
  obtain ⟨s', k1, k2, k3, k4, k5, k6, k7⟩ := processEnd_inv hw hi (s1 := s) hc rfl rfl rfl rfl rfl rfl hi.flags
  have hst : masterStep cfg s .poll = (do
      let ev ← respEvents (s.msgs i')
      let s ← masterProcessEnd cfg s
      return (s, ev.map .event)) := by
    simp only [masterStep, masterPoll, h.st_eq, masterReceived]
    rw [if_neg (by simp [h.ferr_eq]), if_neg (by simp [h.crcf_eq]), if_pos ⟨h.ferr_eq, h.crcf_eq, h.t35_eq⟩]
    unfold masterCorrect
    rw [h.cur.1]
    simp only [respEvents_ds i' hi.data]
  refine ⟨?_, ?_⟩
  · intro evs he
    refine ⟨s', ?_, processEnd_st k1⟩
    rw [hst, he, ok_bind, k1]; rfl
  · intro e he
    rw [hst, he]; rfl

/-- An undefined operation makes the whole run undefined. -/
theorem run_error {cfg : Config} {s s1 : Master} {w : List MOp} {t : MTrace} {op : MOp} {e : UB} (h1 : masterRun cfg s w = .ok (s1, t))
    (h2 : masterStep cfg s1 op = .error e) (rest : List MOp) : masterRun cfg s (w ++ op :: rest) = .error e := by
  induction w generalizing s t with
  | nil => cases h1; simp only [List.nil_append, masterRun, h2]; rfl
  | cons x w ih =>
    simp only [masterRun] at h1
    obtain ⟨⟨sa, oa⟩, k1, h1⟩ := bind_ok h1
    obtain ⟨⟨sb, ob⟩, k2, h1⟩ := bind_ok h1
    simp only [pure_eq, Except.ok.injEq, Prod.mk.injEq] at h1
    obtain ⟨rfl, -⟩ := h1
    simp only [List.cons_append, masterRun, k1, ok_bind, ih k2]
    rfl

/-- The state before the last poll of the first attempt, when no error is pending and the response is CRC-correct. -/
theorem attempt_ready {cfg : Config} (hw : cfg.MWF) {ops : List MOp} (ho : OpsOk ops) {s0 s s1 : Master} {tr : MTrace}
    (h : masterRun cfg s0 (.init .rtu :: ops) = .ok (s, tr)) (hs : Standing false false s) {r : MReq} (hq : QtyOk r)
    (hp : masterStep cfg s .poll = .ok (s1, [.send (reqFrame r)])) {a : Attempt} (ha : a.Wf cfg.respTimeout r) (hb : ¬ a.broken)
    (hc : CrcCorrect a.resp.frame) :
    ∃ i s' tr' g', masterRun cfg s (.poll :: a.init) = .ok (s', tr') ∧ outs tr' = [.send (reqFrame r)] ∧ MInv cfg s' g' ∧
      P6 i r 0 .cleared .cleared a.resp.frame s' := by
  obtain ⟨tr', g, sx, rfl, hi, -⟩ := run_from_init hw ho h
  obtain ⟨i, g1, a1, a2⟩ := start_P1 hw hi hs hp hq
  obtain ⟨s3, t3, g3, c1, c2, c3, c4⟩ := attempt_init hw a1 a2 ha
  rcases c4 with ⟨-, c4⟩ | ⟨hc', -⟩
  · rw [if_neg hb] at c4
    refine ⟨i, s3, [sent r] ++ t3, g3, run_seq (run_one hp) c1, ?_, c3, c4⟩
    rw [outs_append, c2]; rfl
  · exact absurd hc hc'

/-- A request for bits (coils or discrete inputs). -/
def IsBitRead : MReq → Prop
  | .readCoils .. | .readDiscreteInputs .. => True
  | _ => False

/-- **C43 is violated (1).** For every read of more than 126 bits and every CRC-correct response of the addressed slave with
function code 3 or 4, in every execution: the poll that processes it reads outside the response buffer. -/
theorem C43_read_outside_buffer_violated {cfg : Config} (hw : cfg.MWF) {ops : List MOp} (ho : OpsOk ops) {s0 s s1 : Master} {tr : MTrace}
    (h : masterRun cfg s0 (.init .rtu :: ops) = .ok (s, tr)) (hs : Standing false false s) {r : MReq} (hq : QtyOk r)
    (hp : masterStep cfg s .poll = .ok (s1, [.send (reqFrame r)])) {a : Attempt} (ha : a.Wf cfg.respTimeout r) (hb : ¬ a.broken)
    (hc : CrcCorrect a.resp.frame) (hr : IsBitRead r) (hbig : 126 < (reqField r).toNat)
    (hfc : a.resp.frame.getD 1 0 = 3 ∨ a.resp.frame.getD 1 0 = 4) (rest : List MOp) :
    masterRun cfg s (.poll :: a.init ++ .poll :: rest) = .error .oobRead := by
  obtain ⟨i, s', tr', g', k1, -, k3, k4⟩ := attempt_ready hw ho h hs hq hp ha hb hc
  have hl : 2 ≤ a.resp.frame.length := by
    obtain ⟨b, hb⟩ := hc; rw [hb]; simp
  have g1 := getD_of_bytes k4.bytes (k := 1) (by omega)
  have hir : isRead r = true := by cases r <;> first | rfl | exact hr.elim
  have hev : respEvents (s'.msgs i) = .error .oobRead := by
    rw [respEvents_eq k4.cur.2.2.1 hq, g1]
    unfold actualEvents
    simp only
    rw [if_pos hir]
    rcases hfc with e | e
    · rw [e, if_neg (by decide), if_neg (by decide), if_neg (by decide), if_neg (by decide), if_pos rfl, if_neg (by omega)]
    · rw [e, if_neg (by decide), if_neg (by decide), if_neg (by decide), if_pos rfl, if_neg (by omega)]
  exact run_error k1 ((final_events hw k3 k4).2 _ hev) rest

/-- **C43 is violated (2).** Every write request is confirmed, as a write of holding registers, by every CRC-correct response of the
addressed slave whose function code is below 128 and not 5, 6 or 15: for example by the response to a read, or by a response
with an unknown function code. -/
theorem C43_mismatch_confirmed_violated {cfg : Config} (hw : cfg.MWF) {ops : List MOp} (ho : OpsOk ops) {s0 s s1 : Master} {tr : MTrace}
    (h : masterRun cfg s0 (.init .rtu :: ops) = .ok (s, tr)) (hs : Standing false false s) {r : MReq} (hq : QtyOk r)
    (hp : masterStep cfg s .poll = .ok (s1, [.send (reqFrame r)])) {a : Attempt} (ha : a.Wf cfg.respTimeout r) (hb : ¬ a.broken)
    (hc : CrcCorrect a.resp.frame) (hr : ¬ IsRead r) (hfc : (a.resp.frame.getD 1 0).toNat < 128)
    (h5 : a.resp.frame.getD 1 0 ≠ 5) (h6 : a.resp.frame.getD 1 0 ≠ 6) (h15 : a.resp.frame.getD 1 0 ≠ 15) :
    ∃ s' tr', masterRun cfg s (.poll :: a.ops) = .ok (s', tr') ∧
      outs tr' = [.send (reqFrame r), .event (.hregWrite (reqSlave r) (reqAdr r) (reqField r))] := by
  obtain ⟨i, s', tr', g', k1, k2, k3, k4⟩ := attempt_ready hw ho h hs hq hp ha hb hc
  have hl : 2 ≤ a.resp.frame.length := by
    obtain ⟨b, hb⟩ := hc; rw [hb]; simp
  have g0 := getD_of_bytes k4.bytes (k := 0) (by omega)
  have g1 := getD_of_bytes k4.bytes (k := 1) (by omega)
  have hir : ¬ isRead r = true := by cases r <;> first | exact absurd trivial hr | simp [isRead]
  have hev : respEvents (s'.msgs i) = .ok [.hregWrite (reqSlave r) (reqAdr r) (reqField r)] := by
    rw [respEvents_eq k4.cur.2.2.1 hq, g0, g1, if_neg (fun e => absurd ((u8_bit7 _).1 e) (by omega))]
    unfold actualEvents
    simp only
    rw [if_neg hir, if_neg h5, if_neg h6, if_neg h15, ha.resp.2]
  obtain ⟨s2, m1, m2⟩ := (final_events hw k3 k4).1 _ hev
  refine ⟨s2, tr' ++ [(.poll, [.event (.hregWrite (reqSlave r) (reqAdr r) (reqField r))])], ?_, ?_⟩
  · have := run_seq k1 (run_one m1)
    simpa [Attempt.ops] using this
  · rw [outs_append, k2]; rfl

/-- **C43 is violated (3).** Every read request gets its values delivered as coils (discrete inputs) by every CRC-correct response
with function code 1 (2), whatever was requested. -/
theorem C43_wrong_kind_delivered_violated {cfg : Config} (hw : cfg.MWF) {ops : List MOp} (ho : OpsOk ops) {s0 s s1 : Master} {tr : MTrace}
    (h : masterRun cfg s0 (.init .rtu :: ops) = .ok (s, tr)) (hs : Standing false false s) {r : MReq} (hq : QtyOk r)
    (hp : masterStep cfg s .poll = .ok (s1, [.send (reqFrame r)])) {a : Attempt} (ha : a.Wf cfg.respTimeout r) (hb : ¬ a.broken)
    (hc : CrcCorrect a.resp.frame) (hr : IsRead r) (hfc : a.resp.frame.getD 1 0 = 1) :
    ∃ (s' : Master) (tr' : MTrace) (v : Nat → Bool), masterRun cfg s (.poll :: a.ops) = .ok (s', tr') ∧ outs tr' = .send (reqFrame r) ::
      (List.range (reqField r).toNat).map fun i => .event (.coilRead (reqSlave r) (reqAdr r + BitVec.ofNat 16 i) (v i)) := by
  obtain ⟨i, s', tr', g', k1, k2, k3, k4⟩ := attempt_ready hw ho h hs hq hp ha hb hc
  have hl : 2 ≤ a.resp.frame.length := by
    obtain ⟨b, hb⟩ := hc; rw [hb]; simp
  have g0 := getD_of_bytes k4.bytes (k := 0) (by omega)
  have g1 := getD_of_bytes k4.bytes (k := 1) (by omega)
  have hir : isRead r = true := by cases r <;> first | rfl | exact hr.elim
  have hev : respEvents (s'.msgs i) = .ok ((List.range (reqField r).toNat).map fun k => .coilRead (reqSlave r) (reqAdr r + BitVec.ofNat 16 k) (respBit (s'.msgs i).resp k)) := by
    rw [respEvents_eq k4.cur.2.2.1 hq, g0, g1, if_neg (by rw [hfc]; decide)]
    unfold actualEvents
    simp only
    rw [if_pos hir, if_pos hfc, ha.resp.2]
  obtain ⟨s2, m1, m2⟩ := (final_events hw k3 k4).1 _ hev
  refine ⟨s2, tr' ++ [(.poll, ((List.range (reqField r).toNat).map fun k => MEvent.coilRead (reqSlave r) (reqAdr r + BitVec.ofNat 16 k) (respBit (s'.msgs i).resp k)).map .event)],
    respBit (s'.msgs i).resp, ?_, ?_⟩
  · have := run_seq k1 (run_one m1)
    simpa [Attempt.ops] using this
  · rw [outs_append, k2]
    show _ ++ (List.map MOut.event _ ++ []).filter isOut = _
    rw [List.append_nil, List.filter_eq_self.2 (by intro x hx; obtain ⟨e, -, rfl⟩ := List.mem_map.1 hx; rfl), List.map_map]
    rfl

theorem accepted_mem {tr : MTrace} {r : MReq} (h : r ∈ accepted tr) : MOp.request r ∈ tr.map Prod.fst := by
  unfold accepted at h
  obtain ⟨x, hx, he⟩ := List.mem_filterMap.1 h
  obtain ⟨op, o⟩ := x
  split at he
  · simp at he
    subst he
    rename_i heq
    cases heq
    exact List.mem_map.2 ⟨_, hx, rfl⟩
  · cases he

/-- **C43, what holds.** The read outside the buffer above is the only undefined behaviour of the initialised master: any execution
in which bit reads are limited to 126 bits is defined, whatever is received, in whatever order things happen. -/
theorem C43_defined_partial {cfg : Config} (hw : cfg.MWF) {ops : List MOp} (ho : OpsOk ops) (s0 : Master)
    (hbits : ∀ r, MOp.request r ∈ ops → IsBitRead r → (reqField r).toNat ≤ 126) :
    ∃ s tr, masterRun cfg s0 (.init .rtu :: ops) = .ok (s, tr) := by
  obtain ⟨s1, h1, h2⟩ := masterInit_inv hw s0
  have hinit : masterStep cfg s0 (.init .rtu) = .ok (s1, []) := by simp only [masterStep, h1, ok_bind]; rfl
  rcases masterRun_inv hw ho h2 with ⟨s', tr, g', k1, -, -⟩ | ⟨-, pre, suf, s2, tr2, g2, e, k1, k2, k3, i, r, c, q1, q2, q3, q4, q5, -⟩
  · exact ⟨s', _, run_seq (run_one hinit) k1⟩
  · exfalso
    obtain ⟨hv, hacc, done, d1, d2, d3, d4⟩ := k3.transactions (Ghost.fresh_valid cfg)
    have hr : r ∈ accepted tr2 := by
      have : r ∈ done.map Tx.req ++ (g2.tx.map Prod.fst).toList ++ g2.pend := by simp [Ghost.tx, q1]
      rw [← d2] at this
      simpa [Ghost.fresh, Ghost.tx] using this
    have hm := accepted_mem hr
    rw [masterRun_ops k1] at hm
    have hmem : MOp.request r ∈ ops := by rw [e]; simp [hm]
    have hqr := hacc r hr
    have := hbits r hmem
    cases r <;> simp only [isRead, IsBitRead, QtyOk, reqField, true_implies, Bool.false_eq_true] at * <;> omega

/-- **C47 is violated (communication errors)**, in every execution: no communication error report ever names an address or a
quantity: both are 0, whatever was requested. -/
theorem C47_comm_report_names_nothing_violated {cfg : Config} (hw : cfg.MWF) {ops : List MOp} (ho : OpsOk ops) {s0 s : Master}
    {tr t0 t1 : MTrace} {op : MOp} {o : List MOut} {rep : ErrReport}
    (h : masterRun cfg s0 (.init .rtu :: ops) = .ok (s, tr)) (ht : tr = t0 ++ (op, o) :: t1) (he : .event (.commErr rep) ∈ o) :
    rep.adr = 0 ∧ rep.qty = 0 := by
  obtain ⟨sm, sm', g, hi, hh, hst, -⟩ := entry_facts hw ho h ht (by rintro rfl; simp at he)
  obtain rfl := event_only_poll hst he
  rcases poll_event_cases hw hi hst he with ⟨q1, q2, q3, i, r, c, hc, rfl⟩ | ⟨q1, i, r, c, er, hc, -, -, rfl⟩ | ⟨q1, -, -, -, i, r, c, evs, hc, hev, rfl⟩
  · simp at he
  · simp at he; subst he; exact ⟨rfl, rfl⟩
  · have hcur := hi.cur
    rw [hc] at hcur
    simp at he
    have := respEvents_noerr hcur.2.2.1 hcur.2.2.2.1 hev _ he
    simp [isErrorReport] at this

/-- **C47 is violated (timeouts).** The first transaction after power-on, a read of holding registers (function code 3) without
answer, is reported with function code 0. -/
theorem C47_timeout_function_code_violated :
    (traceOf (masterRun smallCfg Master.powerOn [.init .rtu, .request (.readHoldingReg 7 1 9), .poll, .txDone, .poll, .tick, .poll, .tick, .poll])).map outs =
      some [.send (rtuFrame 9 [3, 0, 7, 0, 1]), .event (.timeoutErr { slave := 9, fc := 0, adr := 7, qty := 1, err := .timeout })] := by
  decide +kernel

/-- **C47, what holds.** A timeout report carries the slave, address and quantity (or value) of a request that had been transmitted
before (see also C36). -/
theorem C47_timeout_names_request_partial {cfg : Config} (hw : cfg.MWF) {ops : List MOp} (ho : OpsOk ops) {s0 s : Master}
    {tr t0 t1 : MTrace} {op : MOp} {o : List MOut} {rep : ErrReport}
    (h : masterRun cfg s0 (.init .rtu :: ops) = .ok (s, tr)) (ht : tr = t0 ++ (op, o) :: t1) (he : .event (.timeoutErr rep) ∈ o) :
    ∃ r a b, t0 = a ++ sent r :: b ∧ outs b = [] ∧ rep.slave = reqSlave r ∧ rep.adr = reqAdr r ∧ rep.qty = reqField r := by
  obtain ⟨-, r, a, b, d, h1, h2, h3, -, -, -, h4, h5, h6, -⟩ := C36_timeout_never_early hw ho h ht he
  refine ⟨r, a, b ++ silentPoll :: d, h1, ?_, h4, h5, h6⟩
  rw [outs_append, h2, show silentPoll :: d = [silentPoll] ++ d from rfl, outs_append, h3]; rfl

/-- **C47, what holds of communication errors.** In every execution, a communication error report is made by a poll after a request
`r` was transmitted and a frame `f` was checked (`d` up to the check, `e` since then). It names the slave of `r` if no byte came
after the check, or if the frame was not empty and the bytes that followed did not wrap around the buffer. The function code it names
is that of the received frame. -/
theorem C47_comm_report_partial {cfg : Config} (hw : cfg.MWF) {ops : List MOp} (ho : OpsOk ops) {s0 s : Master}
    {tr t0 t1 : MTrace} {op : MOp} {o : List MOut} {rep : ErrReport}
    (h : masterRun cfg s0 (.init .rtu :: ops) = .ok (s, tr)) (ht : tr = t0 ++ (op, o) :: t1) (he : .event (.commErr rep) ∈ o) :
    op = .poll ∧ o = [.event (.commErr rep)] ∧ ∃ r a b d e f, t0 = a ++ sent r :: (b ++ silentPoll :: (d ++ silentPoll :: e)) ∧
      outs b = [] ∧ outs d = [] ∧ outs e = [] ∧ f <:+ rxBytes d ∧
      (rxBytes e = [] → rep.slave = reqSlave r) ∧
      (f ≠ [] → f.length + (rxBytes e).length ≤ 256 → rep.slave = reqSlave r) ∧
      (2 ≤ f.length → f.length + (rxBytes e).length ≤ 256 → rep.fc = f.getD 1 0 &&& 0x7F) := by
  obtain ⟨sm, sm', g, hi, hh, hst, -⟩ := entry_facts hw ho h ht (by rintro rfl; simp at he)
  obtain rfl := event_only_poll hst he
  rcases poll_event_cases hw hi hst he with ⟨q1, q2, q3, i, r, c, hc, rfl⟩ | ⟨q1, i, r, c, er, hc, -, -, rfl⟩ | ⟨q1, -, -, -, i, r, c, evs, hc, hev, rfl⟩
  · simp at he
  · simp at he; subst he
    unfold HInv at hh
    rw [q1] at hh
    obtain ⟨i', r', a, b, d, e, f, h1, h2, h3, h4, h5, h6, h7, h8, h9, h10, h11, h12, h13, h14, h15⟩ := hh
    have hcur := hi.cur
    rw [hc] at hcur
    have hii : i' = i := by have := h1.1; rw [hcur.1] at this; exact (Option.some.inj this).symm
    subst hii
    refine ⟨rfl, rfl, r', a, b, d, e, f, h2, h3, h4, h5, h9, h15, ?_, ?_⟩
    · intro hne hl
      have hpos : 0 < f.length := List.length_pos_iff.2 hne
      have h0 := getD_of_bytes (h13 hl) (k := 0) hpos
      have h14 := h14 hne
      rw [List.head?_eq_getElem?] at h14
      show (sm.msgs i').resp 0 = _
      rw [h0, List.getD_eq_getElem?_getD, h14]; rfl
    · intro hl2 hl
      show (sm.msgs i').resp 1 &&& 0x7F = _
      rw [getD_of_bytes (h13 hl) (k := 1) (by omega)]
  · have hcur := hi.cur
    rw [hc] at hcur
    simp at he
    have := respEvents_noerr hcur.2.2.1 hcur.2.2.2.1 hev _ he
    simp [isErrorReport] at this

/-- Non-vacuity: every attempt gets a response with a wrong CRC; the report names slave 9 and the function code of the frame. -/
example : (traceOf (masterRun { smallCfg with repeatMax := 0 } Master.powerOn ([.init .rtu, .request (.readHoldingReg 7 1 9), .poll, .txDone, .poll] ++
      [9, 3, 2, 0, 0, 1, 1].map .rxByte ++ [.t15, .poll, .t35, .poll]))).map outs =
    some [.send (rtuFrame 9 [3, 0, 7, 0, 1]), .event (.commErr { slave := 9, fc := 3, adr := 0, qty := 0, err := .crc })] := by
  decide +kernel

/-- **C55 is violated.** A CRC-correct response that is shorter than the request requires is not rejected: its CRC and then what an
earlier response left in the buffer are delivered as values. Here the first read (of three registers) leaves 0x3333 behind, which is
delivered again as the third register of the second read although its response holds only one register, 0x4444. -/
theorem C55_stale_values_violated :
    (traceOf (masterRun { smallCfg with queueItems := 1 } Master.powerOn ([.init .rtu, .request (.readHoldingReg 0 3 1)] ++
        answerOps (rtuFrame 1 [3, 6, 0x11, 0x11, 0x22, 0x22, 0x33, 0x33]) ++
        [.request (.readHoldingReg 0 3 1)] ++ answerOps (rtuFrame 1 [3, 2, 0x44, 0x44])))).map events =
      some [.hregRead 1 0 0x1111, .hregRead 1 1 0x2222, .hregRead 1 2 0x3333,
            .hregRead 1 0 0x4444, .hregRead 1 1 0x8b77, .hregRead 1 2 0x3333] := by
  decide +kernel

end Modbus
