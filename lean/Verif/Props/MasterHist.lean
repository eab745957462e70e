import Verif.Proofs.MasterHist
import Verif.Props.MasterTrace

/-! C36, C39–C42: what the callbacks say about the history of the execution. -/

namespace Modbus

open Spec

/-- Every entry of a trace is a step of the run. -/
theorem masterRun_split {cfg : Config} {ops : List MOp} {s s' : Master} {t0 t1 : MTrace} {op : MOp} {o : List MOut}
    (h : masterRun cfg s ops = .ok (s', t0 ++ (op, o) :: t1)) :
    ∃ ops0 ops1 sm sm', ops = ops0 ++ op :: ops1 ∧ masterRun cfg s ops0 = .ok (sm, t0) ∧ masterStep cfg sm op = .ok (sm', o) ∧
      masterRun cfg sm' ops1 = .ok (s', t1) := by
  induction t0 generalizing ops s with
  | nil =>
    cases ops with
    | nil => cases h
    | cons op' ops =>
      simp only [masterRun] at h
      obtain ⟨⟨s1, o1⟩, k1, h⟩ := bind_ok h
      obtain ⟨⟨s2, o2⟩, k2, h⟩ := bind_ok h
      simp only [pure_eq, List.nil_append, Except.ok.injEq, Prod.mk.injEq, List.cons.injEq] at h
      obtain ⟨rfl, ⟨rfl, rfl⟩, rfl⟩ := h
      exact ⟨[], ops, s, s1, rfl, rfl, k1, k2⟩
  | cons x t0 ih =>
    cases ops with
    | nil => cases h
    | cons op' ops =>
      simp only [masterRun] at h
      obtain ⟨⟨s1, o1⟩, k1, h⟩ := bind_ok h
      obtain ⟨⟨s2, o2⟩, k2, h⟩ := bind_ok h
      simp only [pure_eq, List.cons_append, Except.ok.injEq, Prod.mk.injEq, List.cons.injEq] at h
      obtain ⟨rfl, rfl, rfl⟩ := h
      obtain ⟨ops0, ops1, sm, sm', e1, e2, e3, e4⟩ := ih k2
      refine ⟨op' :: ops0, ops1, sm, sm', by rw [e1]; rfl, ?_, e3, e4⟩
      simp only [masterRun, k1, ok_bind, e2]
      rfl

/-- State and history at every entry of the trace of an initialised run (the initialisation itself excepted). -/
theorem entry_facts {cfg : Config} (hw : cfg.MWF) {ops : List MOp} (ho : OpsOk ops) {s0 s : Master} {tr t0 t1 : MTrace}
    {op : MOp} {o : List MOut} (h : masterRun cfg s0 (.init .rtu :: ops) = .ok (s, tr)) (ht : tr = t0 ++ (op, o) :: t1)
    (hne : o ≠ []) :
    ∃ sm sm' g, MInv cfg sm g ∧ HInv cfg t0 sm ∧ masterStep cfg sm op = .ok (sm', o) ∧ (∀ m, op ≠ .init m) := by
  obtain ⟨tr', g, s1, e1, hi, hg, hi1, hr⟩ := run_from_init hw ho h
  rw [e1] at ht
  cases t0 with
  | nil =>
    simp at ht
    exact absurd ht.1.2 hne
  | cons x t0 =>
    simp at ht
    obtain ⟨rfl, rfl⟩ := ht
    obtain ⟨ops0, ops1, sm, sm', rfl, k2, k3, k4⟩ := masterRun_split hr
    have ho0 : OpsOk ops0 := fun o hm => ho o (by simp [hm])
    obtain ⟨gm, j1, -⟩ := masterRun_ok hw ho0 hi1 k2
    have hh := masterRun_hist hw ho0 hi1 (hi1.fresh_hist [(.init .rtu, [])]) k2
    exact ⟨sm, sm', gm, j1, hh, k3, (ho op (by simp)).1⟩

/-- Callbacks are only made by polls. -/
theorem event_only_poll {cfg : Config} {s s' : Master} {op : MOp} {o : List MOut} {e : MEvent}
    (h : masterStep cfg s op = .ok (s', o)) (he : .event e ∈ o) : op = .poll := by
  cases op with
  | poll => rfl
  | init m =>
    simp only [masterStep] at h
    obtain ⟨x, -, h⟩ := bind_ok h
    cases h; simp at he
  | request r =>
    simp only [masterStep] at h
    obtain ⟨x, -, h⟩ := bind_ok h
    cases h; simp at he
  | rxByte b =>
    simp only [masterStep] at h
    obtain ⟨x, -, h⟩ := bind_ok h
    cases h; simp at he
  | _ => simp only [masterStep] at h; cases h; simp at he

/-- Where a poll's callback comes from. -/
theorem poll_event_cases {cfg : Config} (hw : cfg.MWF) {s s' : Master} {g : Ghost} {o : List MOut} {e : MEvent} (hi : MInv cfg s g)
    (h : masterPoll cfg s = .ok (s', o)) (he : .event e ∈ o) :
    (s.st = .waiting ∧ s.t15 ≠ .set ∧ s.timer = 1 ∧ ∃ i r c, g.cur = some (i, r, c) ∧ o = [.event (.timeoutErr
        { slave := reqSlave r, fc := (s.msgs i).resp 1, adr := reqAdr r, qty := reqField r, err := .timeout })]) ∨
    (s.st = .received ∧ ∃ i r c er, g.cur = some (i, r, c) ∧ c = 1 + cfg.repeatMax ∧ ((er = .frame ∧ s.ferr = .set) ∨ (er = .crc ∧ s.crcf = .set)) ∧
      o = [.event (.commErr { slave := (s.msgs i).resp 0, fc := (s.msgs i).resp 1 &&& 0x7F, adr := 0, qty := 0, err := er })]) ∨
    (s.st = .received ∧ s.ferr = .cleared ∧ s.crcf = .cleared ∧ s.t35 = .set ∧ ∃ i r c evs, g.cur = some (i, r, c) ∧
      respEvents (s.msgs i) = .ok evs ∧ o = evs.map .event) := by
  have hcur := hi.cur
  cases hs : s.st with
  | idle =>
    cases hp : g.pend with
    | nil => rw [poll_idle_nop hi hs hp] at h; cases h; simp at he
    | cons r rest =>
      obtain ⟨s2, i, k1, -⟩ := poll_idle_send hw hi hs hp
      rw [k1] at h; cases h; simp at he
  | repeatRequest =>
    obtain ⟨i, r, c, hc, h1⟩ := hi.curIs (by simp [hs])
    unfold masterPoll at h
    rw [hs] at h
    simp only [send_inv hi.drv hi.data h1.1 h1.2.2.1] at h
    cases h; simp at he
  | transmitting =>
    unfold masterPoll at h
    rw [hs] at h
    simp only [masterTransmitting] at h
    split at h
    · obtain ⟨x, -, h⟩ := bind_ok h
      cases h; simp at he
    · cases h; simp at he
  | waiting =>
    obtain ⟨i, r, c, hc, h1⟩ := hi.curIs (by simp [hs])
    unfold masterPoll at h
    rw [hs] at h
    simp only [masterWaiting] at h
    split at h
    · rw [masterRecv_eq h1.1 hi.data h1.2.2.1] at h
      cases h; simp at he
    · rename_i ht
      split at h
      · rename_i htm
        rw [timeoutReport_eq h1.1 hi.data h1.2.2.1, ok_bind] at h
        obtain ⟨x, -, h⟩ := bind_ok h
        cases h
        exact .inl ⟨rfl, ht, htm, i, r, c, hc, rfl⟩
      · cases h; simp at he
  | received =>
    obtain ⟨i, r, c, hc, h1⟩ := hi.curIs (by simp [hs])
    rw [hc] at hcur
    obtain ⟨c1, c2, c3, c4, c5, c6, q | q⟩ := hcur
    · simp [hs] at q
    have hcnt := cnt_succ q.2 c6 hw.rle
    unfold masterPoll at h
    rw [hs] at h
    simp only [masterReceived] at h
    right
    split at h
    · rename_i hf
      left
      unfold masterFrameError at h
      simp only [hcnt] at h
      split at h
      · obtain ⟨x, -, h⟩ := bind_ok h
        cases h; simp at he
      · rw [commReport_eq (s := { s with repeatCnt := s.repeatCnt + 1 }) c1 hi.data, ok_bind] at h
        obtain ⟨x, -, h⟩ := bind_ok h
        cases h
        exact ⟨rfl, i, r, c, .frame, hc, by omega, .inl ⟨rfl, hf.1⟩, rfl⟩
    split at h
    · rename_i hf
      left
      unfold masterCrcError at h
      simp only [hcnt] at h
      split at h
      · obtain ⟨x, -, h⟩ := bind_ok h
        cases h; simp at he
      · rw [commReport_eq (s := { s with repeatCnt := s.repeatCnt + 1 }) c1 hi.data, ok_bind] at h
        obtain ⟨x, -, h⟩ := bind_ok h
        cases h
        exact ⟨rfl, i, r, c, .crc, hc, by omega, .inr ⟨rfl, hf.1⟩, rfl⟩
    split at h
    · rename_i hf
      right
      unfold masterCorrect at h
      rw [c1] at h
      simp only [respEvents_ds i hi.data] at h
      obtain ⟨evs, k1, h⟩ := bind_ok h
      obtain ⟨x, -, h⟩ := bind_ok h
      cases h
      exact ⟨rfl, hf.1, hf.2.1, hf.2.2, i, r, c, evs, hc, k1, rfl⟩
    · cases h; simp at he

/-- **C36.** A timeout report in any execution is made by a poll; before it there is the transmission of a request `r`, later
a poll after the driver's completion callback, and then exactly `T - 1` ticks, with nothing transmitted and no callback in
between; it is the only output of the poll and names `r`'s slave, address and quantity. -/
theorem C36_timeout_never_early {cfg : Config} (hw : cfg.MWF) {ops : List MOp} (ho : OpsOk ops) {s0 s : Master}
    {tr t0 t1 : MTrace} {op : MOp} {o : List MOut} {rep : ErrReport}
    (h : masterRun cfg s0 (.init .rtu :: ops) = .ok (s, tr)) (ht : tr = t0 ++ (op, o) :: t1) (he : .event (.timeoutErr rep) ∈ o) :
    op = .poll ∧ ∃ r a b d, t0 = a ++ sent r :: (b ++ silentPoll :: d) ∧ outs b = [] ∧ outs d = [] ∧ Happened .txDone b ∧
      ticks d + 1 = cfg.respTimeout ∧ o = [.event (.timeoutErr rep)] ∧
      rep.slave = reqSlave r ∧ rep.adr = reqAdr r ∧ rep.qty = reqField r ∧ rep.err = .timeout := by
  obtain ⟨sm, sm', g, hi, hh, hst, -⟩ := entry_facts hw ho h ht (by rintro rfl; simp at he)
  obtain rfl := event_only_poll hst he
  refine ⟨rfl, ?_⟩
  rcases poll_event_cases hw hi hst he with ⟨q1, q2, q3, i, r, c, hc, rfl⟩ | ⟨q1, i, r, c, er, hc, -, -, rfl⟩ | ⟨q1, -, -, -, i, r, c, evs, hc, hev, rfl⟩
  · simp at he
    subst he
    unfold HInv at hh
    rw [q1] at hh
    obtain ⟨i', r', a, b, d, h1, h2, h3, h4, h5, h6, h7, h8⟩ := hh
    have hcur := hi.cur
    rw [hc] at hcur
    have hii : i' = i := by have := hcur.1; rw [h1.1] at this; exact Option.some.inj this
    subst hii
    have hf1 := hcur.2.2.1.fields
    have hf2 := h1.2.2.1.fields
    refine ⟨r', a, b, d, h2, h3, h4, h5, by omega, rfl, hf1.1.symm.trans hf2.1, hf1.2.2.1.symm.trans hf2.2.2.1,
      hf1.2.2.2.symm.trans hf2.2.2.2, rfl⟩
  · simp at he
  · have hcur := hi.cur
    rw [hc] at hcur
    simp at he
    have := respEvents_noerr hcur.2.2.1 hcur.2.2.2.1 hev _ he
    simp [isErrorReport] at this

/-- Where an answered transaction comes from. -/
theorem answered_facts {cfg : Config} {t0 : MTrace} {sm : Master} (hh : HInv cfg t0 sm)
    (q1 : sm.st = .received) (q2 : sm.ferr = .cleared) (q3 : sm.crcf = .cleared) (q4 : sm.t35 = .set) {i : Nat}
    (hm : sm.msgBuf = some i) :
    ∃ r a b d e f, t0 = a ++ sent r :: (b ++ silentPoll :: (d ++ silentPoll :: e)) ∧ outs b = [] ∧ outs d = [] ∧ outs e = [] ∧
      Happened .txDone b ∧ Happened .t35 e ∧ ¬ Happened .frameErr (b ++ silentPoll :: (d ++ silentPoll :: e)) ∧
      f <:+ rxBytes d ∧ CrcCorrect f ∧ f.head? = some (reqSlave r) ∧ Holds (sm.msgs i) r ∧ QtyOk r ∧
      (f.length + (rxBytes e).length ≤ 256 → (sm.msgs i).resp.bytes 0 f.length = f) := by
  unfold HInv at hh
  rw [q1] at hh
  obtain ⟨i', r, a, b, d, e, f, h1, h2, h3, h4, h5, h6, h7, h8, h9, h10, h11, h12, h13, -⟩ := hh
  have hii : i' = i := by have := h1.1; rw [hm] at this; exact (Option.some.inj this).symm
  subst hii
  obtain ⟨j1, j2⟩ := h11 q3
  refine ⟨r, a, b, d, e, f, h2, h3, h4, h5, h6, h8 q4, ?_, h9, j1, j2, h1.2.2.1, h1.2.2.2, h13⟩
  intro hc
  rw [h7 hc] at q2
  cases q2

theorem getD_of_bytes {b : Buf} {f : List U8} (h : b.bytes 0 f.length = f) {k : Nat} (hk : k < f.length) : b k = f.getD k 0 := by
  have h2 := congrArg (fun l => l[k]?) h
  rw [List.getElem?_eq_getElem (by simpa using hk)] at h2
  simp only [Buf.bytes_getElem, Nat.zero_add] at h2
  rw [List.getD_eq_getElem?_getD, ← h2]
  rfl

theorem deliveries_congr {slave : U8} {b1 b2 : Nat → Bool} {r1 r2 : Nat → U16} (r : MReq)
    (hb : ∀ i, isRead r = true → i < (reqField r).toNat → reqFc r = 1 ∨ reqFc r = 2 → b1 i = b2 i)
    (hr : ∀ i, isRead r = true → i < (reqField r).toNat → reqFc r = 3 ∨ reqFc r = 4 → r1 i = r2 i) :
    deliveries slave b1 r1 r = deliveries slave b2 r2 r := by
  cases r with
  | readCoils a q sl => exact List.map_congr_left (fun i hi => by rw [hb i rfl (List.mem_range.1 hi) (by simp [reqFc])])
  | readDiscreteInputs a q sl => exact List.map_congr_left (fun i hi => by rw [hb i rfl (List.mem_range.1 hi) (by simp [reqFc])])
  | readInputReg a q sl => exact List.map_congr_left (fun i hi => by rw [hr i rfl (List.mem_range.1 hi) (by simp [reqFc])])
  | readHoldingReg a q sl => exact List.map_congr_left (fun i hi => by rw [hr i rfl (List.mem_range.1 hi) (by simp [reqFc])])
  | _ => rfl

theorem u8_bit7 (x : U8) : x.getLsbD 7 = true ↔ 128 ≤ x.toNat := by
  revert x; decide +kernel

theorem u8_mask (x : U8) (h : 128 ≤ x.toNat) : x &&& 0x7F = x - 128 := by
  revert x; decide +kernel

/-- Processing a buffer whose first bytes are a good response frame causes the specified callbacks. -/
theorem respEvents_good {m : MMsg} {r : MReq} {f : List U8} (hm : Holds m r) (hq : QtyOk r) (hg : GoodResponse r f)
    (hb : m.resp.bytes 0 f.length = f) : respEvents m = .ok (responseEvents r f) := by
  have hl := hg.len
  have h5 : 5 ≤ f.length := by
    refine Nat.le_trans ?_ hl
    unfold respLenFor
    split
    · omega
    · split <;> omega
  have g0 := getD_of_bytes hb (k := 0) (by omega)
  have g1 := getD_of_bytes hb (k := 1) (by omega)
  have g2 := getD_of_bytes hb (k := 2) (by omega)
  rw [respEvents_eq hm hq, g0, g1, g2]
  unfold responseEvents
  simp only
  by_cases hx : 128 ≤ (f.getD 1 0).toNat
  · rw [if_pos ((u8_bit7 _).2 hx), if_pos hx, u8_mask _ hx]
  · have hfc : f.getD 1 0 = reqFc r := by
      rcases hg.fc with k | k
      · exact absurd k hx
      · exact k
    rw [if_neg (fun e => hx ((u8_bit7 _).1 e)), if_neg hx, hfc, actualEvents_match hq]
    congr 1
    unfold respLenFor at hl
    rw [if_neg hx] at hl
    apply deliveries_congr
    · intro i hr hi hk
      unfold respBit frameBit
      rw [getD_of_bytes hb]
      cases r <;> simp only [reqField, reqFc] at hi hk hl <;> first | exact absurd hk (by decide) | omega
    · intro i hr hi hk
      unfold respReg frameReg
      have hh : 4 + 2 * i < f.length := by
        cases r <;> simp only [reqField, reqFc] at hi hk hl <;> first | exact absurd hk (by decide) | omega
      rw [getD_of_bytes hb (by omega), getD_of_bytes hb hh]
      apply BitVec.eq_of_toNat_eq
      rw [u16of_toNat]
      have := word_lt (f.getD (3 + 2 * i) 0) (f.getD (4 + 2 * i) 0)
      unfold word at this ⊢
      rw [BitVec.toNat_ofNat, show 3 + 2 * i + 1 = 4 + 2 * i by omega, Nat.mod_eq_of_lt (by omega)]
      omega

/-- **C39.** In any execution, a callback that is not an error report (data, confirmation, exception) is made by a poll that was
preceded by: the transmission of a request `r`, its completion, an end-of-frame check at which the bytes `f` received last
(after the completion was observed) formed a CRC-correct frame from the requested slave, the 3.5-char event; with no frame
error since the transmission and no other output in between. If `f` is moreover a complete matching response (and the
receive buffer has not been overrun since the check), the callbacks are exactly those `f` prescribes. -/
theorem C39_only_correct_responses_delivered {cfg : Config} (hw : cfg.MWF) {ops : List MOp} (ho : OpsOk ops) {s0 s : Master}
    {tr t0 t1 : MTrace} {op : MOp} {o : List MOut} {ev : MEvent}
    (h : masterRun cfg s0 (.init .rtu :: ops) = .ok (s, tr)) (ht : tr = t0 ++ (op, o) :: t1) (he : .event ev ∈ o)
    (hne : isErrorReport ev = false) :
    op = .poll ∧ ∃ r a b d e f, t0 = a ++ sent r :: (b ++ silentPoll :: (d ++ silentPoll :: e)) ∧ outs b = [] ∧ outs d = [] ∧
      outs e = [] ∧ Happened .txDone b ∧ Happened .t35 e ∧ ¬ Happened .frameErr (b ++ silentPoll :: (d ++ silentPoll :: e)) ∧
      f <:+ rxBytes d ∧ CrcCorrect f ∧ f.head? = some (reqSlave r) ∧
      (GoodResponse r f → f.length + (rxBytes e).length ≤ 256 → o = (responseEvents r f).map .event) := by
  obtain ⟨sm, sm', g, hi, hh, hst, -⟩ := entry_facts hw ho h ht (by rintro rfl; simp at he)
  obtain rfl := event_only_poll hst he
  refine ⟨rfl, ?_⟩
  rcases poll_event_cases hw hi hst he with ⟨q1, q2, q3, i, r, c, hc, rfl⟩ | ⟨q1, i, r, c, er, hc, -, -, rfl⟩ | ⟨q1, q2, q3, q4, i, r, c, evs, hc, hev, rfl⟩
  · simp at he; subst he; simp [isErrorReport] at hne
  · simp at he; subst he; simp [isErrorReport] at hne
  · have hcur := hi.cur
    rw [hc] at hcur
    obtain ⟨r', a, b, d, e, f, k1, k2, k3, k4, k5, k6, k7, k8, k9, k10, k11, k12, k13⟩ := answered_facts hh q1 q2 q3 q4 hcur.1
    refine ⟨r', a, b, d, e, f, k1, k2, k3, k4, k5, k6, k7, k8, k9, k10, ?_⟩
    intro hg hl
    rw [respEvents_good k11 k12 hg (k13 hl)] at hev
    cases hev; rfl

/-- Non-vacuity: in the sample execution the write confirmation and the timeout report are such entries. -/
example : ∃ s tr, masterRun smallCfg Master.powerOn (.init .rtu :: sampleOps) = .ok (s, tr) ∧
    (MOp.poll, [MOut.event (.hregWrite 1 2 1)]) ∈ tr ∧
    (MOp.poll, [MOut.event (.timeoutErr { slave := 9, fc := 3, adr := 7, qty := 1, err := .timeout })]) ∈ tr := by
  have h : (traceOf (masterRun smallCfg Master.powerOn (.init .rtu :: sampleOps))).isSome = true ∧
      ∀ tr, traceOf (masterRun smallCfg Master.powerOn (.init .rtu :: sampleOps)) = some tr →
      (MOp.poll, [MOut.event (.hregWrite 1 2 1)]) ∈ tr ∧
      (MOp.poll, [MOut.event (.timeoutErr { slave := 9, fc := 3, adr := 7, qty := 1, err := .timeout })]) ∈ tr := by
    constructor
    · decide +kernel
    · intro tr htr
      have : (traceOf (masterRun smallCfg Master.powerOn (.init .rtu :: sampleOps))).all (fun tr =>
        decide ((MOp.poll, [MOut.event (.hregWrite 1 2 1)]) ∈ tr ∧
          (MOp.poll, [MOut.event (.timeoutErr { slave := 9, fc := 3, adr := 7, qty := 1, err := .timeout })]) ∈ tr)) = true := by
        decide +kernel
      rw [htr] at this
      simpa using this
  obtain ⟨tr, htr⟩ := Option.isSome_iff_exists.1 h.1
  obtain ⟨s, hs⟩ := traceOf_some htr
  exact ⟨s, tr, hs, h.2 tr htr⟩

end Modbus
