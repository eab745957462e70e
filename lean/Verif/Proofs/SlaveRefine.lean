import Verif.Proofs.SlavePdu

/-! `parse_master_request_and_prepare_resp` refines `Spec.respond` / `Spec.effect`. -/

namespace Modbus

open Spec

/-- The request held in a request buffer (PDU starts at byte 1). -/
def requestOf (req : Buf) : Request := decodeRequest (fun i => req (1 + i))

/-- Writing the function code. -/
def setFc (s : Pdu) (fc : U8) : Pdu := { s with resp := s.resp.set 1 fc }

theorem excFc (s : Pdu) (fc code : U8) : IsResp s (excResp (setFc s fc) code) s.mem (.exception fc code) :=
  excResp_isResp s (setFc s fc) fc code (by simp [setFc]) rfl (by simp [setFc, Buf.set_apply])

theorem slaveReadCoils_ok (cfg : Config) (hc : cfg.WF) (s : Pdu) :
    ∃ r s', slaveReadCoils cfg s = .ok (r, s') ∧
      IsResp s s' s.mem (respond cfg.limits s.mem (.readBits .coils s.adr s.qty)) := by
  unfold slaveReadCoils
  rw [wr_ok _ _ (by decide), ok_bind, checkReadReq_eq _ _ _ hc.1, ok_bind]
  have ha : Pdu.adr { s with resp := s.resp.set idxFunctionCode fcReadCoils } = s.adr := rfl
  have hq : Pdu.qty { s with resp := s.resp.set idxFunctionCode fcReadCoils } = s.qty := rfl
  rw [ha, hq]
  have hE : exceptionFor cfg.limits s.mem (.readBits .coils s.adr s.qty) =
      (if s.qty = 0 ∨ maxReadCoilsQty < s.qty then some 3 else if cfg.coilsQty < s.adr + s.qty then some 2
       else if allRegistered s.mem.coils s.adr s.qty then none else some 4) := rfl
  simp only [respond, hE, normalResponse, Request.fc, BitTab.fc, BitTab.table]
  by_cases h1 : s.qty = 0 ∨ maxReadCoilsQty < s.qty
  · rw [if_pos h1, if_pos h1]
    exact ⟨_, _, rfl, excFc s 1 3⟩
  · rw [if_neg h1, if_neg h1]
    by_cases h2 : cfg.coilsQty < s.adr + s.qty
    · rw [if_pos h2, if_pos h2]
      exact ⟨_, _, rfl, excFc s 1 2⟩
    · rw [if_neg h2, if_neg h2]
      obtain ⟨r, s', hs, hr⟩ := readCoilService_ok cfg hc s (setFc s 1) rfl rfl (by simp [setFc])
        (by simp [setFc, Buf.set_apply]) (by simp only [not_or] at h1; exact Nat.not_lt.mp h1.2) (by omega)
      refine ⟨r, s', hs, ?_⟩
      split at hr <;> rename_i h3
      · rw [if_pos h3]; exact hr
      · rw [if_neg h3]; exact hr

theorem slaveReadDiscreteInputs_ok (cfg : Config) (hc : cfg.WF) (s : Pdu) :
    ∃ r s', slaveReadDiscreteInputs cfg s = .ok (r, s') ∧
      IsResp s s' s.mem (respond cfg.limits s.mem (.readBits .dins s.adr s.qty)) := by
  unfold slaveReadDiscreteInputs
  rw [wr_ok _ _ (by decide), ok_bind, checkReadReq_eq _ _ _ hc.2.1, ok_bind]
  have ha : Pdu.adr { s with resp := s.resp.set idxFunctionCode fcReadDiscreteInputs } = s.adr := rfl
  have hq : Pdu.qty { s with resp := s.resp.set idxFunctionCode fcReadDiscreteInputs } = s.qty := rfl
  rw [ha, hq]
  have hE : exceptionFor cfg.limits s.mem (.readBits .dins s.adr s.qty) =
      (if s.qty = 0 ∨ maxReadDiscreteInputsQty < s.qty then some 3 else if cfg.dinQty < s.adr + s.qty then some 2
       else if allRegistered s.mem.dins s.adr s.qty then none else some 4) := rfl
  simp only [respond, hE, normalResponse, Request.fc, BitTab.fc, BitTab.table]
  by_cases h1 : s.qty = 0 ∨ maxReadDiscreteInputsQty < s.qty
  · rw [if_pos h1, if_pos h1]
    exact ⟨_, _, rfl, excFc s 2 3⟩
  · rw [if_neg h1, if_neg h1]
    by_cases h2 : cfg.dinQty < s.adr + s.qty
    · rw [if_pos h2, if_pos h2]
      exact ⟨_, _, rfl, excFc s 2 2⟩
    · rw [if_neg h2, if_neg h2]
      obtain ⟨r, s', hs, hr⟩ := readDinService_ok cfg hc s (setFc s 2) rfl rfl (by simp [setFc])
        (by simp [setFc, Buf.set_apply]) (by simp only [not_or] at h1; exact Nat.not_lt.mp h1.2) (by omega)
      refine ⟨r, s', hs, ?_⟩
      split at hr <;> rename_i h3
      · rw [if_pos h3]; exact hr
      · rw [if_neg h3]; exact hr

theorem slaveReadHoldingReg_ok (cfg : Config) (hc : cfg.WF) (s : Pdu) :
    ∃ r s', slaveReadHoldingReg cfg s = .ok (r, s') ∧
      IsResp s s' s.mem (respond cfg.limits s.mem (.readRegs .hregs s.adr s.qty)) := by
  unfold slaveReadHoldingReg
  rw [wr_ok _ _ (by decide), ok_bind, checkReadReq_eq _ _ _ hc.2.2.2, ok_bind]
  have ha : Pdu.adr { s with resp := s.resp.set idxFunctionCode fcReadHoldingRegisters } = s.adr := rfl
  have hq : Pdu.qty { s with resp := s.resp.set idxFunctionCode fcReadHoldingRegisters } = s.qty := rfl
  rw [ha, hq]
  have hE : exceptionFor cfg.limits s.mem (.readRegs .hregs s.adr s.qty) =
      (if s.qty = 0 ∨ maxReadRegQty < s.qty then some 3 else if cfg.hregQty < s.adr + s.qty then some 2
       else if allRegistered s.mem.hregs s.adr s.qty then none else some 4) := rfl
  simp only [respond, hE, normalResponse, Request.fc, RegTab.fc, RegTab.table]
  by_cases h1 : s.qty = 0 ∨ maxReadRegQty < s.qty
  · rw [if_pos h1, if_pos h1]
    exact ⟨_, _, rfl, excFc s 3 3⟩
  · rw [if_neg h1, if_neg h1]
    by_cases h2 : cfg.hregQty < s.adr + s.qty
    · rw [if_pos h2, if_pos h2]
      exact ⟨_, _, rfl, excFc s 3 2⟩
    · rw [if_neg h2, if_neg h2]
      obtain ⟨r, s', hs, hr⟩ := readRegService_ok cfg.hregQty AppMem.hregs 3 hc.2.2.2 s (setFc s 3) rfl rfl (by simp [setFc])
        (by simp [setFc, Buf.set_apply]) (by simp only [not_or] at h1; exact Nat.not_lt.mp h1.2) (by omega)
      refine ⟨r, s', by rw [tableSize_eq hc.2.2.2]; exact hs, ?_⟩
      split at hr <;> rename_i h3
      · rw [if_pos h3]; exact hr
      · rw [if_neg h3]; exact hr

theorem slaveReadInputReg_ok (cfg : Config) (hc : cfg.WF) (s : Pdu) :
    ∃ r s', slaveReadInputReg cfg s = .ok (r, s') ∧
      IsResp s s' s.mem (respond cfg.limits s.mem (.readRegs .inregs s.adr s.qty)) := by
  unfold slaveReadInputReg
  rw [wr_ok _ _ (by decide), ok_bind, checkReadReq_eq _ _ _ hc.2.2.1, ok_bind]
  have ha : Pdu.adr { s with resp := s.resp.set idxFunctionCode fcReadInputRegisters } = s.adr := rfl
  have hq : Pdu.qty { s with resp := s.resp.set idxFunctionCode fcReadInputRegisters } = s.qty := rfl
  rw [ha, hq]
  have hE : exceptionFor cfg.limits s.mem (.readRegs .inregs s.adr s.qty) =
      (if s.qty = 0 ∨ maxReadRegQty < s.qty then some 3 else if cfg.inregQty < s.adr + s.qty then some 2
       else if allRegistered s.mem.inregs s.adr s.qty then none else some 4) := rfl
  simp only [respond, hE, normalResponse, Request.fc, RegTab.fc, RegTab.table]
  by_cases h1 : s.qty = 0 ∨ maxReadRegQty < s.qty
  · rw [if_pos h1, if_pos h1]
    exact ⟨_, _, rfl, excFc s 4 3⟩
  · rw [if_neg h1, if_neg h1]
    by_cases h2 : cfg.inregQty < s.adr + s.qty
    · rw [if_pos h2, if_pos h2]
      exact ⟨_, _, rfl, excFc s 4 2⟩
    · rw [if_neg h2, if_neg h2]
      obtain ⟨r, s', hs, hr⟩ := readRegService_ok cfg.inregQty AppMem.inregs 4 hc.2.2.1 s (setFc s 4) rfl rfl (by simp [setFc])
        (by simp [setFc, Buf.set_apply]) (by simp only [not_or] at h1; exact Nat.not_lt.mp h1.2) (by omega)
      refine ⟨r, s', by rw [tableSize_eq hc.2.2.1]; exact hs, ?_⟩
      split at hr <;> rename_i h3
      · rw [if_pos h3]; exact hr
      · rw [if_neg h3]; exact hr

theorem slaveWriteSingleCoil_ok (cfg : Config) (hc : cfg.WF) (s : Pdu) :
    ∃ r s', slaveWriteSingleCoil cfg s = .ok (r, s') ∧
      IsResp s s' (effect cfg.limits s.mem (.writeCoil s.adr s.qty))
        (respond cfg.limits s.mem (.writeCoil s.adr s.qty)) := by
  unfold slaveWriteSingleCoil
  simp only [idxRequestAdr, idxRespWriteSingleData, readAdr, readQty, ok_bind, wr_ok s.resp _ (show 1 < 256 by decide)]
  have ha : (u16of (s.req 2) (s.req 3)).toNat = s.adr := u16of_toNat _ _
  have hq : (u16of (s.req 4) (s.req 5)).toNat = s.qty := u16of_toNat _ _
  have e0 : (u16of (s.req 4) (s.req 5) = 0x0000) ↔ s.qty = 0 := by
    rw [← hq]; constructor
    · intro h; rw [h]; rfl
    · intro h; exact BitVec.eq_of_toNat_eq h
  have e1 : (u16of (s.req 4) (s.req 5) = 0xFF00) ↔ s.qty = 0xFF00 := by
    rw [← hq]; constructor
    · intro h; rw [h]; rfl
    · intro h; exact BitVec.eq_of_toNat_eq h
  simp only [checkWriteSingleCoil, ne_eq, e0, e1, ha, ge_iff_le]
  have hE : exceptionFor cfg.limits s.mem (.writeCoil s.adr s.qty) =
      (if ¬ s.qty = 0x0000 ∧ ¬ s.qty = 0xFF00 then some 3 else if cfg.coilsQty ≤ s.adr then some 2
       else if (s.mem.coils s.adr).isSome then none else some 4) := rfl
  simp only [effect, respond, hE, normalResponse, Request.fc]
  by_cases h1 : ¬ s.qty = 0x0000 ∧ ¬ s.qty = 0xFF00
  · rw [if_pos h1, if_pos h1, if_neg (by simp [h1])]
    exact ⟨_, _, rfl, excFc s 5 3⟩
  · rw [if_neg h1, if_neg h1]
    by_cases h2 : cfg.coilsQty ≤ s.adr
    · rw [if_pos h2, if_pos h2, if_neg (by simp [h1, h2])]
      exact ⟨_, _, rfl, excFc s 5 2⟩
    · rw [if_neg h2, if_neg h2]
      simp only [ok_bind, pure_eq, if_true, writeSingleCoilService, tableSize_eq hc.1]
      rw [setCoilState_ok (by omega), ha]
      cases ht : s.mem.coils s.adr with
      | none =>
        simp only [ok_bind, setExceptionCodeResp_ok, if_neg (show ¬ RET_OK = RET_ERROR by decide),
          Option.isSome_none, Bool.false_eq_true, if_false]
        rw [if_neg (by simp [h1, h2])]
        exact ⟨_, _, rfl, excFc s 5 4⟩
      | some p =>
        simp only [ok_bind, if_true, Option.isSome_some, writeU16_ok _ _ (show 2 + 1 < 256 by decide),
          writeU16_ok _ _ (show 4 + 1 < 256 by decide)]
        have hm : { s.mem with bools := storeAll s.mem.coils s.adr (fun _ => decide (s.qty ≠ 0)) s.mem.bools 1 } =
            { s.mem with bools := fun q => if q = p then (u16of (s.req 4) (s.req 5) != 0) else s.mem.bools q } := by
          congr 1
          rw [storeAll_succ]
          simp only [Nat.add_zero, ht, storeAll]
          have : decide (s.qty ≠ 0) = (u16of (s.req 4) (s.req 5) != 0) := by
            have e0' : (u16of (s.req 4) (s.req 5) = 0) ↔ s.qty = 0 := e0
            by_cases h : s.qty = 0
            · simp [h, e0'.mpr h]
            · have : ¬ u16of (s.req 4) (s.req 5) = 0 := fun h' => h (e0'.mp h')
              simp only [ne_eq, h, not_false_eq_true, decide_true]
              exact (bne_iff_ne.mpr this).symm
          rw [this]
        simp only [ne_eq] at hm
        rw [hm]
        refine ⟨_, _, rfl, ?_⟩
        have := echoResp_isResp s (setFc s 5)
          { s.mem with bools := fun q => if q = p then (u16of (s.req 4) (s.req 5) != 0) else s.mem.bools q } 5
          (u16of (s.req 2) (s.req 3)) (u16of (s.req 4) (s.req 5)) (by simp [setFc]) rfl (by simp [setFc, Buf.set_apply])
        rw [ha, hq] at this
        exact this

theorem slaveWriteSingleReg_ok (cfg : Config) (hc : cfg.WF) (s : Pdu) :
    ∃ r s', slaveWriteSingleReg cfg s = .ok (r, s') ∧
      IsResp s s' (effect cfg.limits s.mem (.writeReg s.adr s.qty))
        (respond cfg.limits s.mem (.writeReg s.adr s.qty)) := by
  unfold slaveWriteSingleReg
  simp only [idxRequestAdr, readAdr, ok_bind, wr_ok s.resp _ (show 1 < 256 by decide)]
  have ha : (u16of (s.req 2) (s.req 3)).toNat = s.adr := u16of_toNat _ _
  have hq : (u16of (s.req 4) (s.req 5)).toNat = s.qty := u16of_toNat _ _
  have hE : exceptionFor cfg.limits s.mem (.writeReg s.adr s.qty) =
      (if cfg.hregQty ≤ s.adr then some 2
       else if (s.mem.hregs s.adr).isSome then none else some 4) := rfl
  simp only [effect, respond, hE, normalResponse, Request.fc, ha]
  by_cases h2 : cfg.hregQty ≤ s.adr
  · rw [if_pos h2, if_pos h2, if_neg (by simp)]
    exact ⟨_, _, rfl, excFc s 6 2⟩
  · rw [if_neg h2, if_neg h2]
    simp only [ok_bind, pure_eq, writeSingleRegService, tableSize_eq hc.2.2.2, idxRequestAdr, idxRequestQty,
      readAdr, readQty]
    rw [setRegisterValue_ok (by omega), ha]
    cases ht : s.mem.hregs s.adr with
    | none =>
      simp only [ok_bind, setExceptionCodeResp_ok, if_neg (show ¬ RET_OK = RET_ERROR by decide),
        Option.isSome_none, Bool.false_eq_true, if_false]
      rw [if_neg (by simp)]
      exact ⟨_, _, rfl, excFc s 6 4⟩
    | some p =>
      simp only [ok_bind, if_true, Option.isSome_some, writeU16_ok _ _ (show 2 + 1 < 256 by decide),
        writeU16_ok _ _ (show 4 + 1 < 256 by decide)]
      have hm : { s.mem with regs := storeAll s.mem.hregs s.adr (fun _ => BitVec.ofNat 16 s.qty) s.mem.regs 1 } =
          { s.mem with regs := fun q => if q = p then u16of (s.req 4) (s.req 5) else s.mem.regs q } := by
        congr 1
        rw [storeAll_succ]
        simp only [Nat.add_zero, ht, storeAll]
        have : BitVec.ofNat 16 s.qty = u16of (s.req 4) (s.req 5) := by
          rw [← hq]; simp
        rw [this]
      rw [hm]
      refine ⟨_, _, rfl, ?_⟩
      have := echoResp_isResp s (setFc s 6)
        { s.mem with regs := fun q => if q = p then u16of (s.req 4) (s.req 5) else s.mem.regs q } 6
        (u16of (s.req 2) (s.req 3)) (u16of (s.req 4) (s.req 5)) (by simp [setFc]) rfl (by simp [setFc, Buf.set_apply])
      rw [ha, hq] at this
      exact this

theorem slaveWriteMultipleCoils_ok (cfg : Config) (hc : cfg.WF) (s : Pdu) (hfc : s.req 1 = 15) :
    ∃ r s', slaveWriteMultipleCoils cfg s = .ok (r, s') ∧
      IsResp s s' (effect cfg.limits s.mem (.writeCoils s.adr s.qty (s.req 6).toNat (payloadBits s.req)))
        (respond cfg.limits s.mem (.writeCoils s.adr s.qty (s.req 6).toNat (payloadBits s.req))) := by
  have ha : (u16of (s.req 2) (s.req 3)).toNat = s.adr := u16of_toNat _ _
  have hq : (u16of (s.req 4) (s.req 5)).toNat = s.qty := u16of_toNat _ _
  unfold slaveWriteMultipleCoils
  rw [wr_ok _ _ (by decide), ok_bind]
  unfold checkWriteReq
  rw [checkReadReq_eq _ _ _ hc.1]
  have ha' : Pdu.adr { s with resp := s.resp.set idxFunctionCode fcWriteMultipleCoils } = s.adr := rfl
  have hq' : Pdu.qty { s with resp := s.resp.set idxFunctionCode fcWriteMultipleCoils } = s.qty := rfl
  rw [ha', hq']
  have hE : exceptionFor cfg.limits s.mem (.writeCoils s.adr s.qty (s.req 6).toNat (payloadBits s.req)) =
      (if s.qty = 0 ∨ maxWriteCoilsQty < s.qty then some 3 else if cfg.coilsQty < s.adr + s.qty then some 2
       else if (s.req 6).toNat ≠ (s.qty + 7) / 8 then some 3
       else if allRegistered s.mem.coils s.adr s.qty then none else some 4) := rfl
  simp only [effect, respond, hE, normalResponse, Request.fc, idxFunctionCode,
    rd_ok s.req (show 1 < 256 by decide), ok_bind]
  by_cases h1 : s.qty = 0 ∨ maxWriteCoilsQty < s.qty
  · rw [if_pos h1, if_pos h1, if_neg (by simp)]
    exact ⟨_, _, rfl, excFc s 15 3⟩
  · rw [if_neg h1, if_neg h1]
    by_cases h2 : cfg.coilsQty < s.adr + s.qty
    · rw [if_pos h2, if_pos h2, if_neg (by simp)]
      exact ⟨_, _, rfl, excFc s 15 2⟩
    · rw [if_neg h2, if_neg h2]
      have hmax : s.qty ≤ 1968 := by simp only [not_or] at h1; exact Nat.not_lt.mp h1.2
      have hbc : (coilDinByteCount (u16of (s.req 4) (s.req 5))).toNat = (s.qty + 7) / 8 := by
        rw [coilDinByteCount_toNat _ (by omega), hq]
      have ebc : (s.req 6 = coilDinByteCount (u16of (s.req 4) (s.req 5))) ↔ (s.req 6).toNat = (s.qty + 7) / 8 := by
        rw [← hbc]
        constructor
        · intro h; rw [h]
        · intro h; exact BitVec.eq_of_toNat_eq h
      simp only [if_true, hfc, checkWriteReqByteCount, idxRequestByteCnt, idxRequestQty,
        rd_ok s.req (show 6 < 256 by decide), readQty, ok_bind, ebc,
        setExceptionCodeResp_ok, pure_eq]
      by_cases h3 : (s.req 6).toNat = (s.qty + 7) / 8
      · rw [if_pos h3]
        have h3' : ¬ (s.req 6).toNat ≠ (s.qty + 7) / 8 := by simpa using h3
        rw [if_neg h3']
        simp only [ok_bind, if_true, setCoilsFromMsg, idxRequestAdr, readAdr, readQty,
          tableSize_eq hc.1, hq]
        obtain ⟨c, hl, hp⟩ := setCoilsLoop_ok cfg.coilsQty s.mem.coils s.req (u16of (s.req 2) (s.req 3)) s.qty
          s.mem.bools hc.1 hmax (by omega)
        rw [hl]
        rw [ha] at hp
        cases c with
        | ret e => exact nomatch e
        | next y =>
          obtain ⟨r, bools⟩ := y
          have hr : r = RET_OK := hp.val
          have hb : bools = _ := hp.heap
          have hall : allRegistered s.mem.coils s.adr s.qty := hp.reg
          subst hr hb
          rw [if_pos hall]
          simp only [ok_bind, if_true, writeU16_ok _ _ (show 2 + 1 < 256 by decide),
            writeU16_ok _ _ (show 4 + 1 < 256 by decide), true_or]
          rw [registeredPrefix_all _ _ _ hall]
          refine ⟨_, _, rfl, ?_⟩
          have := echoResp_isResp s (setFc s 15)
            { s.mem with bools := storeAll s.mem.coils s.adr (payloadBits s.req) s.mem.bools s.qty } 15
            (u16of (s.req 2) (s.req 3)) (u16of (s.req 4) (s.req 5)) (by simp [setFc]) rfl (by simp [setFc, Buf.set_apply])
          rw [ha, hq] at this
          exact this
        | brk y =>
          obtain ⟨r, bools⟩ := y
          have hr : r = RET_ERROR := hp.val
          have hb : bools = _ := hp.heap
          subst hr hb
          rw [if_neg hp.miss]
          simp only [ok_bind, if_neg (show ¬ RET_OK = RET_ERROR by decide), setExceptionCodeResp_ok]
          rw [if_pos (by simp)]
          exact ⟨_, _, rfl, excResp_isResp s
            { setFc s 15 with mem := { s.mem with bools := storeAll s.mem.coils s.adr (payloadBits s.req) s.mem.bools (registeredPrefix s.mem.coils s.adr s.qty) } }
            15 4 (by simp [setFc]) rfl (by simp [setFc, Buf.set_apply])⟩
      · rw [if_neg h3]
        have h3' : (s.req 6).toNat ≠ (s.qty + 7) / 8 := h3
        rw [if_pos h3', if_neg (by simp)]
        exact ⟨_, _, rfl, excFc s 15 3⟩

theorem slaveWriteMultipleReg_ok (cfg : Config) (hc : cfg.WF) (s : Pdu) (hfc : s.req 1 = 16) :
    ∃ r s', slaveWriteMultipleReg cfg s = .ok (r, s') ∧
      IsResp s s' (effect cfg.limits s.mem (.writeRegs s.adr s.qty (s.req 6).toNat (payloadRegs s.req)))
        (respond cfg.limits s.mem (.writeRegs s.adr s.qty (s.req 6).toNat (payloadRegs s.req))) := by
  have ha : (u16of (s.req 2) (s.req 3)).toNat = s.adr := u16of_toNat _ _
  have hq : (u16of (s.req 4) (s.req 5)).toNat = s.qty := u16of_toNat _ _
  unfold slaveWriteMultipleReg
  rw [wr_ok _ _ (by decide), ok_bind]
  unfold checkWriteReq
  rw [checkReadReq_eq _ _ _ hc.2.2.2]
  have ha' : Pdu.adr { s with resp := s.resp.set idxFunctionCode fcWriteMultipleRegisters } = s.adr := rfl
  have hq' : Pdu.qty { s with resp := s.resp.set idxFunctionCode fcWriteMultipleRegisters } = s.qty := rfl
  rw [ha', hq']
  have hE : exceptionFor cfg.limits s.mem (.writeRegs s.adr s.qty (s.req 6).toNat (payloadRegs s.req)) =
      (if s.qty = 0 ∨ maxWriteRegQty < s.qty then some 3 else if cfg.hregQty < s.adr + s.qty then some 2
       else if (s.req 6).toNat ≠ 2 * s.qty then some 3
       else if allRegistered s.mem.hregs s.adr s.qty then none else some 4) := rfl
  simp only [effect, respond, hE, normalResponse, Request.fc, idxFunctionCode,
    rd_ok s.req (show 1 < 256 by decide), ok_bind]
  by_cases h1 : s.qty = 0 ∨ maxWriteRegQty < s.qty
  · rw [if_pos h1, if_pos h1, if_neg (by simp)]
    exact ⟨_, _, rfl, excFc s 16 3⟩
  · rw [if_neg h1, if_neg h1]
    by_cases h2 : cfg.hregQty < s.adr + s.qty
    · rw [if_pos h2, if_pos h2, if_neg (by simp)]
      exact ⟨_, _, rfl, excFc s 16 2⟩
    · rw [if_neg h2, if_neg h2]
      have hmax : s.qty ≤ 123 := by simp only [not_or] at h1; exact Nat.not_lt.mp h1.2
      have hne : ¬ (16 : U8) = fcWriteMultipleCoils := by decide
      simp only [if_true, hfc, if_neg hne, checkWriteReqRegByteCount, idxRequestByteCnt, idxRequestQty,
        rd_ok s.req (show 6 < 256 by decide), readQty, ok_bind, hq,
        setExceptionCodeResp_ok, pure_eq, Nat.mul_comm s.qty 2]
      by_cases h3 : (s.req 6).toNat = 2 * s.qty
      · rw [if_pos h3]
        have h3' : ¬ (s.req 6).toNat ≠ 2 * s.qty := by simpa using h3
        rw [if_neg h3']
        simp only [ok_bind, if_true, writeMultipleRegService, idxRequestAdr, idxRequestQty,
          readAdr, readQty,
          tableSize_eq hc.2.2.2, hq]
        obtain ⟨c, hl, hp⟩ := writeRegsLoop_ok cfg.hregQty s.mem.hregs s.req (u16of (s.req 2) (s.req 3)) s.qty
          s.mem.regs hc.2.2.2 hmax (by omega)
        rw [hl]
        rw [ha] at hp
        cases c with
        | ret e => exact nomatch e
        | next y =>
          obtain ⟨r, regs⟩ := y
          have hr : r = RET_OK := hp.val
          have hb : regs = _ := hp.heap
          have hall : allRegistered s.mem.hregs s.adr s.qty := hp.reg
          subst hr hb
          rw [if_pos hall]
          simp only [ok_bind, pure_eq, if_true, writeU16_ok _ _ (show 2 + 1 < 256 by decide),
            writeU16_ok _ _ (show 4 + 1 < 256 by decide), true_or]
          rw [registeredPrefix_all _ _ _ hall]
          refine ⟨_, _, rfl, ?_⟩
          have := echoResp_isResp s (setFc s 16)
            { s.mem with regs := storeAll s.mem.hregs s.adr (payloadRegs s.req) s.mem.regs s.qty } 16
            (u16of (s.req 2) (s.req 3)) (u16of (s.req 4) (s.req 5)) (by simp [setFc]) rfl (by simp [setFc, Buf.set_apply])
          rw [ha, hq] at this
          exact this
        | brk y =>
          obtain ⟨r, regs⟩ := y
          have hr : r = RET_ERROR := hp.val
          have hb : regs = _ := hp.heap
          subst hr hb
          rw [if_neg hp.miss]
          simp only [ok_bind, pure_eq, if_neg (show ¬ RET_OK = RET_ERROR by decide), setExceptionCodeResp_ok]
          rw [if_pos (by simp)]
          exact ⟨_, _, rfl, excResp_isResp s
            { setFc s 16 with mem := { s.mem with regs := storeAll s.mem.hregs s.adr (payloadRegs s.req) s.mem.regs (registeredPrefix s.mem.hregs s.adr s.qty) } }
            16 4 (by simp [setFc]) rfl (by simp [setFc, Buf.set_apply])⟩
      · rw [if_neg h3]
        have h3' : (s.req 6).toNat ≠ 2 * s.qty := h3
        rw [if_pos h3', if_neg (by simp)]
        exact ⟨_, _, rfl, excFc s 16 3⟩

theorem requestOf_unsupported (req : Buf)
    (h : req 1 ≠ 1 ∧ req 1 ≠ 2 ∧ req 1 ≠ 3 ∧ req 1 ≠ 4 ∧ req 1 ≠ 5 ∧ req 1 ≠ 6 ∧ req 1 ≠ 15 ∧ req 1 ≠ 16) :
    requestOf req = .unsupported (req 1) := by
  have key : ∀ n : Nat, n < 256 → req 1 ≠ BitVec.ofNat 8 n → (req 1).toNat ≠ n := by
    intro n hn h1 h2
    apply h1
    apply BitVec.eq_of_toNat_eq
    rw [h2]; simp; omega
  obtain ⟨h1, h2, h3, h4, h5, h6, h7, h8⟩ := h
  have h1 := key 1 (by decide) h1
  have h2 := key 2 (by decide) h2
  have h3 := key 3 (by decide) h3
  have h4 := key 4 (by decide) h4
  have h5 := key 5 (by decide) h5
  have h6 := key 6 (by decide) h6
  have h7 := key 15 (by decide) h7
  have h8 := key 16 (by decide) h8
  unfold requestOf decodeRequest
  split <;> simp_all

/-- The refinement theorem. -/
theorem parse_refines (cfg : Config) (hc : cfg.WF) (s : Pdu) :
    ∃ r s', parseRequest cfg s = .ok (r, s') ∧
      IsResp s s' (effect cfg.limits s.mem (requestOf s.req)) (respond cfg.limits s.mem (requestOf s.req)) := by
  unfold parseRequest
  rw [rd_ok s.req (show 1 < 256 by decide)]
  simp only [ok_bind]
  by_cases h1 : s.req 1 = 1
  · have e : requestOf s.req = .readBits .coils s.adr s.qty := by
      simp [requestOf, decodeRequest, h1, Pdu.adr, Pdu.qty]
    rw [e, h1]
    simpa [slaveMapper, effect] using slaveReadCoils_ok cfg hc s
  by_cases h2 : s.req 1 = 2
  · have e : requestOf s.req = .readBits .dins s.adr s.qty := by
      simp [requestOf, decodeRequest, h2, Pdu.adr, Pdu.qty]
    rw [e, h2]
    simpa [slaveMapper, effect] using slaveReadDiscreteInputs_ok cfg hc s
  by_cases h3 : s.req 1 = 3
  · have e : requestOf s.req = .readRegs .hregs s.adr s.qty := by
      simp [requestOf, decodeRequest, h3, Pdu.adr, Pdu.qty]
    rw [e, h3]
    simpa [slaveMapper, effect] using slaveReadHoldingReg_ok cfg hc s
  by_cases h4 : s.req 1 = 4
  · have e : requestOf s.req = .readRegs .inregs s.adr s.qty := by
      simp [requestOf, decodeRequest, h4, Pdu.adr, Pdu.qty]
    rw [e, h4]
    simpa [slaveMapper, effect] using slaveReadInputReg_ok cfg hc s
  by_cases h5 : s.req 1 = 5
  · have e : requestOf s.req = .writeCoil s.adr s.qty := by
      simp [requestOf, decodeRequest, h5, Pdu.adr, Pdu.qty]
    rw [e, h5]
    exact slaveWriteSingleCoil_ok cfg hc s
  by_cases h6 : s.req 1 = 6
  · have e : requestOf s.req = .writeReg s.adr s.qty := by
      simp [requestOf, decodeRequest, h6, Pdu.adr, Pdu.qty]
    rw [e, h6]
    exact slaveWriteSingleReg_ok cfg hc s
  by_cases h7 : s.req 1 = 15
  · have e : requestOf s.req = .writeCoils s.adr s.qty (s.req 6).toNat (payloadBits s.req) := by
      have hp : payloadBits s.req = fun i => (s.req (1 + (6 + i / 8))).getLsbD (i % 8) := by
        funext i
        rw [show 1 + (6 + i / 8) = 7 + i / 8 by omega]
        rfl
      have h7' : (s.req (1 + 0)).toNat = 15 := by rw [h7]; rfl
      rw [hp]
      unfold requestOf decodeRequest
      rw [h7']
      rfl
    rw [e, h7]
    exact slaveWriteMultipleCoils_ok cfg hc s h7
  by_cases h8 : s.req 1 = 16
  · have e : requestOf s.req = .writeRegs s.adr s.qty (s.req 6).toNat (payloadRegs s.req) := by
      have hp : payloadRegs s.req = fun i => BitVec.ofNat 16 (word (s.req (1 + (6 + 2 * i))) (s.req (1 + (7 + 2 * i)))) := by
        funext i
        rw [show 1 + (6 + 2 * i) = 7 + 2 * i by omega, show 1 + (7 + 2 * i) = 8 + 2 * i by omega]
        rfl
      have h8' : (s.req (1 + 0)).toNat = 16 := by rw [h8]; rfl
      rw [hp]
      unfold requestOf decodeRequest
      rw [h8']
      rfl
    rw [e, h8]
    exact slaveWriteMultipleReg_ok cfg hc s h8
  · rw [requestOf_unsupported s.req ⟨h1, h2, h3, h4, h5, h6, h7, h8⟩]
    have hf : (slaveMapper cfg).find? (fun e => s.req 1 == e.1) = none := by
      simp only [slaveMapper, List.find?_eq_none, List.mem_cons, List.not_mem_nil, or_false]
      rintro x (rfl | rfl | rfl | rfl | rfl | rfl | rfl | rfl) hx <;> exact absurd (by simpa using hx) (by assumption)
    rw [hf]
    simp only [wr_ok s.resp _ (show 1 < 256 by decide), ok_bind, setExceptionCodeResp_ok, respond, exceptionFor,
      Request.fc, effect]
    exact ⟨_, _, rfl, excFc s (s.req 1) 1⟩

end Modbus
