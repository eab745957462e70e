import Verif.Proofs.MasterPdu

/-! Response processing by the master. -/

namespace Modbus

open Spec

/-- Message `m` holds the frame of request `r`. -/
def Holds (m : MMsg) (r : MReq) : Prop := m.req.bytes 0 m.reqLen.toNat = reqFrame r

theorem u16of_bytes (v : U16) : u16of (hiByte v) (loByte v) = v := by
  apply BitVec.eq_of_toNat_eq
  rw [u16of_toNat, hiByte_eq, loByte_eq]
  simp only [word, BitVec.toNat_ofNat]
  have := v.isLt
  omega

theorem reqFrame_eq (r : MReq) : ∃ tl, reqFrame r =
    reqSlave r :: reqFc r :: hiByte (reqAdr r) :: loByte (reqAdr r) :: hiByte (reqField r) :: loByte (reqField r) :: tl := by
  simp only [reqFrame, rtuFrame, reqPdu, beBytes_eq, List.cons_append, List.nil_append]
  exact ⟨_, rfl⟩

/-- The header fields of a message that holds a frame. -/
theorem Holds.fields {m : MMsg} {r : MReq} (h : Holds m r) :
    m.req 0 = reqSlave r ∧ m.req 1 = reqFc r ∧ u16of (m.req 2) (m.req 3) = reqAdr r ∧
      u16of (m.req 4) (m.req 5) = reqField r := by
  obtain ⟨tl, e⟩ := reqFrame_eq r
  have hb : m.req.bytes 0 m.reqLen.toNat = _ := h.trans e
  have hlen := congrArg List.length hb
  simp only [Buf.bytes_length, List.length_cons] at hlen
  have g : ∀ i, i < 6 → (m.req.bytes 0 m.reqLen.toNat)[i]? = some (m.req i) := by
    intro i hi
    rw [List.getElem?_eq_getElem (by simp; omega)]
    simp
  rw [hb] at g
  have g0 := g 0 (by omega)
  have g1 := g 1 (by omega)
  have g2 := g 2 (by omega)
  have g3 := g 3 (by omega)
  have g4 := g 4 (by omega)
  have g5 := g 5 (by omega)
  simp at g0 g1 g2 g3 g4 g5
  rw [← g0, ← g1, ← g2, ← g3, ← g4, ← g5]
  exact ⟨rfl, rfl, u16of_bytes _, u16of_bytes _⟩

/-- Bit `i` of a read-bits response. -/
def respBit (b : Buf) (i : Nat) : Bool := (b (3 + i / 8)).getLsbD (i % 8)

/-- Register `i` of a read-registers response. -/
def respReg (b : Buf) (i : Nat) : U16 := u16of (b (3 + 2 * i)) (b (4 + 2 * i))

theorem deliverBits_ok (q : U16) (resp : Buf) (ev : U16 → Bool → MEvent) (adr : U16) (h : q.toNat ≤ 2024) :
    deliverBits q resp ev adr =
      .ok ((List.range q.toNat).map fun i => ev (adr + BitVec.ofNat 16 i) (respBit resp i)) := by
  obtain ⟨c, h1, h2⟩ := forLoop_inv (body := deliverBitBody resp ev adr)
    (Inv := fun k out => out = (List.range k).map fun i => ev (adr + BitVec.ofNat 16 i) (respBit resp i))
    (B := fun _ => False) (R := fun _ => False) q.toNat 0 []
    (by
      intro k out _ hk hi
      refine ⟨.next (out ++ [ev (adr + BitVec.ofNat 16 k) (respBit resp k)]), ?_, ?_⟩
      · unfold deliverBitBody
        rw [rd_ok _ (by simp only [idxRespReadData]; omega), ok_bind]
        have hm := maskBit (resp (3 + k / 8)) (k % 8) (by omega)
        simp only [idxRespReadData, respBit]
        cases hb : (resp (3 + k / 8)).getLsbD (k % 8)
        · rw [if_neg (by rw [hm, hb]; decide)]; rfl
        · rw [if_pos (by rw [hm, hb])]; rfl
      · show _ = _
        rw [List.range_succ, List.map_append, ← hi]; rfl)
    rfl
  unfold deliverBits
  rw [h1, ok_bind]
  cases c with
  | next out =>
    simp only [CtlP, Nat.zero_add] at h2
    rw [← h2]; rfl
  | brk _ => exact h2.elim
  | ret _ => exact h2.elim

theorem deliverRegs_ok (q : U16) (resp : Buf) (ev : U16 → U16 → MEvent) (adr : U16) (h : q.toNat ≤ 126) :
    deliverRegs q resp ev adr =
      .ok ((List.range q.toNat).map fun i => ev (adr + BitVec.ofNat 16 i) (respReg resp i)) := by
  obtain ⟨c, h1, h2⟩ := forLoop_inv (body := deliverRegBody resp ev adr)
    (Inv := fun k out => out = (List.range k).map fun i => ev (adr + BitVec.ofNat 16 i) (respReg resp i))
    (B := fun _ => False) (R := fun _ => False) q.toNat 0 []
    (by
      intro k out _ hk hi
      refine ⟨.next (out ++ [ev (adr + BitVec.ofNat 16 k) (respReg resp k)]), ?_, ?_⟩
      · unfold deliverRegBody
        rw [readU16_ok _ (by simp only [idxRespReadData]; omega), ok_bind]
        simp only [idxRespReadData, respReg]
        rw [show 3 + k * 2 = 3 + 2 * k by omega, show 3 + 2 * k + 1 = 4 + 2 * k by omega]
        rfl
      · show _ = _
        rw [List.range_succ, List.map_append, ← hi]; rfl)
    rfl
  unfold deliverRegs
  rw [h1, ok_bind]
  cases c with
  | next out =>
    simp only [CtlP, Nat.zero_add] at h2
    rw [← h2]; rfl
  | brk _ => exact h2.elim
  | ret _ => exact h2.elim

theorem forLoop_error {σ ρ : Type} {body : Nat → σ → C (Ctl σ ρ)} (n i k : Nat) (s : σ) (e : UB)
    (hk : i ≤ k ∧ k < i + n) (hn : ∀ j s, i ≤ j → j < k → ∃ s', body j s = .ok (.next s'))
    (he : ∀ s, body k s = .error e) : forLoop body n i s = .error e := by
  induction n generalizing i s with
  | zero => omega
  | succ n ih =>
    by_cases h : i = k
    · subst h; simp [forLoop, he]
    · obtain ⟨s', h'⟩ := hn i s (Nat.le_refl _) (by omega)
      simp only [forLoop, h', ok_bind]
      exact ih (i + 1) s' (by omega) (fun j s h1 h2 => hn j s (by omega) h2)

/-- More than 126 registers do not fit into the response buffer: out of bounds read. -/
theorem deliverRegs_oob (q : U16) (resp : Buf) (ev : U16 → U16 → MEvent) (adr : U16) (h : 126 < q.toNat) :
    deliverRegs q resp ev adr = .error .oobRead := by
  unfold deliverRegs
  rw [forLoop_error (body := deliverRegBody resp ev adr) q.toNat 0 126 [] .oobRead (by omega)]
  · rfl
  · intro j s _ hj
    unfold deliverRegBody
    rw [readU16_ok _ (by simp only [idxRespReadData]; omega), ok_bind]
    exact ⟨_, rfl⟩
  · intro s
    unfold deliverRegBody readU16
    rw [rd_ok _ (by decide)]
    rfl

/-- The request reads something (function codes 1 to 4). -/
def isRead : MReq → Bool
  | .readCoils .. => true
  | .readDiscreteInputs .. => true
  | .readInputReg .. => true
  | .readHoldingReg .. => true
  | _ => false

/-- What the code does with a response of function code `x` (without bit 7) from `slave`. -/
def actualEvents (r : MReq) (slave x : U8) (resp : Buf) : C (List MEvent) :=
  let a := reqAdr r
  let q := reqField r
  if isRead r then
    if x = 1 then .ok ((List.range q.toNat).map fun i => .coilRead slave (a + BitVec.ofNat 16 i) (respBit resp i))
    else if x = 2 then .ok ((List.range q.toNat).map fun i => .disinRead slave (a + BitVec.ofNat 16 i) (respBit resp i))
    else if x = 4 then
      if q.toNat ≤ 126 then .ok ((List.range q.toNat).map fun i => .inregRead slave (a + BitVec.ofNat 16 i) (respReg resp i))
      else .error .oobRead
    else if x = 3 then
      if q.toNat ≤ 126 then .ok ((List.range q.toNat).map fun i => .hregRead slave (a + BitVec.ofNat 16 i) (respReg resp i))
      else .error .oobRead
    else .ok []
  else
    if x = 5 then .ok [.coilWrite slave a 1]
    else if x = 6 then .ok [.hregWrite slave a 1]
    else if x = 15 then .ok [.coilWrite slave a q]
    else .ok [.hregWrite slave a q]

/-- The callbacks made. -/
def respEvents (m : MMsg) : C (List MEvent) := do
  let (_, ev) ← readSlaveResp true m
  return ev

theorem updateMasterData_eq {m : MMsg} {r : MReq} (h : Holds m r) (hq : QtyOk r) (hr : isRead r = true) :
    (do let (_, ev) ← updateMasterData m; return ev : C (List MEvent)) = actualEvents r (m.resp 0) (m.resp 1) m.resp := by
  obtain ⟨-, -, h3, h4⟩ := h.fields
  have hq' : (reqField r).toNat ≤ 2000 := by
    cases r <;> simp [isRead, QtyOk, reqField] at hr hq ⊢ <;> omega
  unfold updateMasterData
  rw [rd_ok _ (by decide), ok_bind, rd_ok _ (by decide), ok_bind, readU16_ok _ (by decide), ok_bind, readU16_ok _ (by decide), ok_bind]
  simp only [idxRequestAdr, idxRequestQty, idxSlaveAdr, idxFunctionCode, h3, h4, fcReadCoils, fcReadDiscreteInputs,
    fcReadHoldingRegisters, fcReadInputRegisters]
  unfold actualEvents
  simp only [hr, if_true]
  by_cases x1 : m.resp 1 = 1
  · rw [if_pos x1, if_pos x1, deliverBits_ok _ _ _ _ (by omega)]; rfl
  rw [if_neg x1, if_neg x1]
  by_cases x2 : m.resp 1 = 2
  · rw [if_pos x2, if_pos x2, deliverBits_ok _ _ _ _ (by omega)]; rfl
  rw [if_neg x2, if_neg x2]
  by_cases x3 : m.resp 1 = 4
  · rw [if_pos x3, if_pos x3]
    by_cases hz : (reqField r).toNat ≤ 126
    · rw [if_pos hz, deliverRegs_ok _ _ _ _ hz]; rfl
    · rw [if_neg hz, deliverRegs_oob _ _ _ _ (by omega)]; rfl
  rw [if_neg x3, if_neg x3]
  by_cases x4 : m.resp 1 = 3
  · rw [if_pos x4, if_pos x4]
    by_cases hz : (reqField r).toNat ≤ 126
    · rw [if_pos hz, deliverRegs_ok _ _ _ _ hz]; rfl
    · rw [if_neg hz, deliverRegs_oob _ _ _ _ (by omega)]; rfl
  rw [if_neg x4, if_neg x4]
  rfl

theorem reportWriteConfirmation_eq {m : MMsg} {r : MReq} (h : Holds m r) (hr : isRead r = false) :
    (do let (_, ev) ← reportWriteConfirmation m; return ev : C (List MEvent)) =
      actualEvents r (m.resp 0) (m.resp 1) m.resp := by
  obtain ⟨-, -, h3, h4⟩ := h.fields
  unfold reportWriteConfirmation
  rw [rd_ok _ (by decide), ok_bind, readU16_ok _ (by decide), ok_bind, rd_ok _ (by decide), ok_bind, readU16_ok _ (by decide)]
  simp only [idxRequestAdr, idxRequestQty, idxSlaveAdr, idxFunctionCode, h3, h4, fcWriteSingleCoil, fcWriteSingleRegister,
    fcWriteMultipleCoils, ok_bind]
  unfold actualEvents
  simp only [hr, Bool.false_eq_true, if_false]
  by_cases x1 : m.resp 1 = 5
  · rw [if_pos x1, if_pos x1]; rfl
  rw [if_neg x1, if_neg x1]
  by_cases x2 : m.resp 1 = 6
  · rw [if_pos x2, if_pos x2]; rfl
  rw [if_neg x2, if_neg x2]
  by_cases x3 : m.resp 1 = 15
  · rw [if_pos x3, if_pos x3]; rfl
  rw [if_neg x3, if_neg x3]
  rfl

theorem processResponse_eq {m : MMsg} {r : MReq} (h : Holds m r) :
    processResponse m = if isRead r then updateMasterData m else reportWriteConfirmation m := by
  obtain ⟨-, h2, -, -⟩ := h.fields
  unfold processResponse
  rw [rd_ok _ (by decide), ok_bind]
  simp only [idxFunctionCode, h2, respMapper, respMapperLoop]
  cases r <;> simp [reqFc, isRead]

theorem sendExceptionReport_eq (r : MReq) (slave fc code : U8) :
    (sendExceptionReport { slave := slave, fc := fc, code := code, adr := reqAdr r, qty := reqField r }).2 =
      exceptionEvent r slave fc code := by
  unfold sendExceptionReport exceptionEvent
  have key : ∀ n : Nat, n < 256 → (fc = BitVec.ofNat 8 n ↔ fc.toNat = n) := by
    intro n hn
    constructor
    · intro e; rw [e, BitVec.toNat_ofNat]; omega
    · intro e; apply BitVec.eq_of_toNat_eq; rw [e, BitVec.toNat_ofNat]; omega
  have k1 := key 1 (by decide)
  have k2 := key 2 (by decide)
  have k3 := key 3 (by decide)
  have k4 := key 4 (by decide)
  have k5 := key 5 (by decide)
  have k6 := key 6 (by decide)
  have k15 := key 15 (by decide)
  have k16 := key 16 (by decide)
  simp only [fcReadCoils, fcReadDiscreteInputs, fcReadHoldingRegisters, fcReadInputRegisters,
      fcWriteSingleCoil, fcWriteSingleRegister, fcWriteMultipleCoils, fcWriteMultipleRegisters] at *
  simp only [BitVec.ofNat_eq_ofNat, k1, k2, k3, k4, k5, k6, k15, k16]
  generalize fc.toNat = n
  split
  · rename_i hc
    rcases hc with rfl | rfl | rfl <;> rfl
  · rename_i hc
    split
    · rename_i hd
      subst hd; rfl
    · split
      · rename_i hd
        rcases hd with rfl | rfl | rfl <;> rfl
      · split
        · rename_i hd
          subst hd; rfl
        · split <;> first | rfl | omega

theorem processException_eq {m : MMsg} {r : MReq} (h : Holds m r) :
    processException m = .ok (RET_OK, exceptionEvent r (m.resp 0) (m.resp 1 &&& 0x7F) (m.resp 2)) := by
  obtain ⟨-, -, h3, h4⟩ := h.fields
  unfold processException
  rw [rd_ok _ (by decide), ok_bind, rd_ok _ (by decide), ok_bind, rd_ok _ (by decide), ok_bind,
    readU16_ok _ (by decide), ok_bind, readU16_ok _ (by decide), ok_bind]
  simp only [idxRequestAdr, idxRequestQty, idxSlaveAdr, idxFunctionCode, idxRespExceptionCode, h3, h4]
  rw [sendExceptionReport_eq]
  rfl

/-- Complete description of the processing of a response. -/
theorem respEvents_eq {m : MMsg} {r : MReq} (h : Holds m r) (hq : QtyOk r) :
    respEvents m =
      if (m.resp 1).getLsbD 7 then .ok (exceptionEvent r (m.resp 0) (m.resp 1 &&& 0x7F) (m.resp 2))
      else actualEvents r (m.resp 0) (m.resp 1) m.resp := by
  have hb : (m.resp 1 &&& 0x80 = 0x80) ↔ (m.resp 1).getLsbD 7 = true := by
    generalize m.resp 1 = x
    revert x
    decide +kernel
  unfold respEvents readSlaveResp
  rw [if_neg (by simp [checkNull_true])]
  unfold respContainsException
  rw [rd_ok _ (by decide), ok_bind]
  simp only [pure_eq, ok_bind, idxFunctionCode, exceptionCodeMask]
  by_cases hx : (m.resp 1).getLsbD 7 = true
  · rw [decide_eq_true (hb.2 hx)]
    simp only [if_true, hx]
    rw [processException_eq h]; rfl
  · rw [decide_eq_false (fun e => hx (hb.1 e))]
    simp only [Bool.false_eq_true, if_false, hx]
    rw [processResponse_eq h]
    cases hr : isRead r
    · exact reportWriteConfirmation_eq h hr
    · exact updateMasterData_eq h hq hr

/-- If the function codes agree, the specified callbacks are made. -/
theorem actualEvents_match {r : MReq} (hq : QtyOk r) (slave : U8) (resp : Buf) :
    actualEvents r slave (reqFc r) resp = .ok (deliveries slave (respBit resp) (respReg resp) r) := by
  cases r with
  | readInputReg a q s =>
    simp only [QtyOk] at hq
    simp only [actualEvents, isRead, reqFc, deliveries, reqAdr, reqField, if_true]
    rw [if_neg (by decide), if_neg (by decide)]
    exact if_pos (show q.toNat ≤ 126 by omega)
  | readHoldingReg a q s =>
    simp only [QtyOk] at hq
    simp only [actualEvents, isRead, reqFc, deliveries, reqAdr, reqField, if_true]
    rw [if_neg (by decide), if_neg (by decide), if_neg (by decide)]
    exact if_pos (show q.toNat ≤ 126 by omega)
  | _ => rfl

end Modbus
