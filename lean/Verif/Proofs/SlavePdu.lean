import Verif.Proofs.Basic

/-! The slave's request handlers refine the protocol specification. -/

namespace Modbus

open Spec

/-- The configurations the code supports: every table has at most 65535 items. -/
def Config.WF (cfg : Config) : Prop :=
  cfg.coilsQty ≤ 65535 ∧ cfg.dinQty ≤ 65535 ∧ cfg.inregQty ≤ 65535 ∧ cfg.hregQty ≤ 65535

instance (cfg : Config) : Decidable cfg.WF := by unfold Config.WF; infer_instance

/-- Limits of the specification for a configuration. -/
def Config.limits (cfg : Config) : Limits :=
  { coils := cfg.coilsQty, dins := cfg.dinQty, hregs := cfg.hregQty, inregs := cfg.inregQty }

theorem tableSize_eq {q : Nat} (h : q ≤ 65535) : tableSize q = q := by
  unfold tableSize; split <;> omega

/-- The PDU handlers' result: request untouched, application memory `m`, response PDU `R`. -/
structure IsResp (s s' : Pdu) (m : AppMem) (R : Response) : Prop where
  req : s'.req = s.req
  mem : s'.mem = m
  len : s'.respLen.toNat = 1 + (encodeResponse R).length
  bytes : s'.resp.bytes 1 (encodeResponse R).length = encodeResponse R
  id : s'.resp 0 = s.resp 0

/-- State after `set_exception_code_resp`. -/
def excResp (s : Pdu) (code : U8) : Pdu :=
  { s with resp := (s.resp.set 1 (s.resp 1 ||| 0x80)).set 2 code, respLen := 3 }

theorem setExceptionCodeResp_ok (s : Pdu) (code : U8) : setExceptionCodeResp s code = .ok (excResp s code) := by
  rfl

theorem excResp_isResp (s0 s : Pdu) (fc code : U8) (h1 : s.resp 1 = fc) (hr : s.req = s0.req)
    (hi : s.resp 0 = s0.resp 0) : IsResp s0 (excResp s code) s.mem (.exception fc code) := by
  refine ⟨hr, rfl, rfl, ?_, ?_⟩
  · simp [Buf.bytes, encodeResponse, excResp, List.range_succ, Buf.set_apply, h1]
  · simpa [excResp, Buf.set_apply] using hi

/-- Address field of a request. -/
def Pdu.adr (s : Pdu) : Nat := word (s.req 2) (s.req 3)
/-- Quantity / value field of a request. -/
def Pdu.qty (s : Pdu) : Nat := word (s.req 4) (s.req 5)

theorem readAdr (s : Pdu) : readU16 s.req 2 = .ok (u16of (s.req 2) (s.req 3)) := readU16_ok _ (by decide)
theorem readQty (s : Pdu) : readU16 s.req 4 = .ok (u16of (s.req 4) (s.req 5)) := readU16_ok _ (by decide)

theorem checkReadReq_eq (s : Pdu) (maxQ app : Nat) (happ : app ≤ 65535) :
    checkReadReq s maxQ app = .ok (
      if s.qty = 0 ∨ maxQ < s.qty then (RET_ERROR, excResp s 3)
      else if app < s.adr + s.qty then (RET_ERROR, excResp s 2)
      else (RET_OK, s)) := by
  simp only [checkReadReq, idxRequestAdr, idxRequestQty, readAdr, readQty, ok_bind, u16of_toNat,
    setExceptionCodeResp_ok, Nat.mod_eq_of_lt (show app < 65536 by omega), pure_eq]
  rw [show word (s.req 4) (s.req 5) = s.qty from rfl, show word (s.req 2) (s.req 3) = s.adr from rfl]
  by_cases h1 : s.qty = 0 ∨ maxQ < s.qty
  · rw [if_pos h1, if_pos h1]
  · rw [if_neg h1, if_neg h1]
    by_cases h2 : app < s.adr + s.qty
    · rw [if_pos h2, if_pos h2]
    · rw [if_neg h2, if_neg h2]

theorem tabRd_ok {size : Nat} {t : Table} {a : U16} (h : a.toNat < size) : tabRd size t a = .ok (t a.toNat) := by
  simp [tabRd, h]

theorem add_ofNat_toNat (a : U16) (i n : Nat) (h : a.toNat + i < n) (hn : n ≤ 65536) :
    (a + BitVec.ofNat 16 i).toNat = a.toNat + i := by
  simp only [BitVec.toNat_add, BitVec.toNat_ofNat]; omega

theorem getCoilDinState_ok {size : Nat} {t : Table} {bools : Ptr → Bool} {a : U16} (h : a.toNat < size) :
    getCoilDinState size t bools a =
      .ok (match t a.toNat with | some p => (if bools p then 1 else 0) | none => RET_ERROR) := by
  simp only [getCoilDinState, tabRd_ok h, ok_bind]
  cases t a.toNat <;> rfl

theorem getRegisterState_ok {size : Nat} {t : Table} {regs : Ptr → U16} {a : U16} (h : a.toNat < size) :
    getRegisterState size t regs a =
      .ok (match t a.toNat with | some p => ((regs p).toNat : Int) | none => RET_ERROR) := by
  simp only [getRegisterState, tabRd_ok h, ok_bind]
  cases t a.toNat <;> rfl

theorem setCoilState_ok {size : Nat} {t : Table} {bools : Ptr → Bool} {a : U16} {v : Bool} (h : a.toNat < size) :
    setCoilState size t bools a v =
      .ok (match t a.toNat with
        | some p => (RET_OK, fun q => if q = p then v else bools q)
        | none => (RET_ERROR, bools)) := by
  simp only [setCoilState, tabRd_ok h, ok_bind]
  cases t a.toNat <;> rfl

theorem setRegisterValue_ok {size : Nat} {t : Table} {regs : Ptr → U16} {a : U16} {v : U16} (h : a.toNat < size) :
    setRegisterValue size t regs a v =
      .ok (match t a.toNat with
        | some p => (RET_OK, fun q => if q = p then v else regs q)
        | none => (RET_ERROR, regs)) := by
  simp only [setRegisterValue, tabRd_ok h, ok_bind]
  cases t a.toNat <;> rfl

/-! Bit reads. -/

/-- Invariant of the two bit read loops. -/
structure BitInv (s0 : Pdu) (fc : U8) (t : Table) (adr bc : Nat) (k : Nat) (x : Ret × Pdu) : Prop where
  reg : ∀ j, j < k → (t (adr + j)).isSome
  val : x.1 ≠ RET_ERROR
  req : x.2.req = s0.req
  mem : x.2.mem = s0.mem
  id : x.2.resp 0 = s0.resp 0
  fc : x.2.resp 1 = fc
  cnt : x.2.resp 2 = BitVec.ofNat 8 bc
  bits : ∀ b, b < bc → ∀ j, j < 8 →
    (x.2.resp (3 + b)).getLsbD j = (decide (8 * b + j < k) && bitAt t s0.mem.bools (adr + (8 * b + j)))

/-- Result of a read that met an unregistered item. -/
structure ReadErr (s0 : Pdu) (fc : U8) (t : Table) (adr qty : Nat) (x : Ret × Pdu) : Prop where
  miss : ¬ allRegistered t adr qty
  val : x.1 = RET_ERROR
  resp : IsResp s0 x.2 s0.mem (.exception fc 4)

/-- One iteration of either bit read loop (before the decision how the loop is left). -/
theorem bitStep (s0 : Pdu) (fc : U8) (t : Table) (adr : U16) (qty size bc : Nat) (k : Nat) (x : Ret × Pdu)
    (hinv : BitInv s0 fc t adr.toNat bc k x) (hk : k < qty) (hsz : adr.toNat + qty ≤ size) (hs : size ≤ 65535)
    (hq : qty ≤ 2000) :
    (t (adr.toNat + k) = none ∧
      getCoilDinState size t s0.mem.bools (adr + BitVec.ofNat 16 k) = .ok RET_ERROR ∧
      ReadErr s0 fc t adr.toNat qty (RET_ERROR, excResp x.2 4)) ∨
    (∃ v resp, v ≠ RET_ERROR ∧
      getCoilDinState size t s0.mem.bools (adr + BitVec.ofNat 16 k) = .ok v ∧
      (rd x.2.resp (3 + k / 8) >>= fun old => wr x.2.resp (3 + k / 8) (old ||| BitVec.ofInt 8 (v * 2 ^ (k % 8)))) = .ok resp ∧
      BitInv s0 fc t adr.toNat bc (k + 1) (v, { x.2 with resp := resp })) := by
  have ha := add_ofNat_toNat adr k size (by omega) (by omega)
  rw [getCoilDinState_ok (by omega), ha]
  cases ht : t (adr.toNat + k) with
  | none =>
    left
    refine ⟨rfl, rfl, ?_, rfl, ?_⟩
    · intro hall
      have := hall k hk
      simp [ht] at this
    · have := excResp_isResp s0 x.2 fc 4 hinv.fc hinv.req hinv.id
      rw [hinv.mem] at this
      exact this
  | some p =>
    right
    have hidx : 3 + k / 8 < 256 := by omega
    refine ⟨if s0.mem.bools p then 1 else 0, x.2.resp.set (3 + k / 8) (x.2.resp (3 + k / 8) |||
      BitVec.ofInt 8 ((if s0.mem.bools p then 1 else 0) * 2 ^ (k % 8))), by split <;> decide, rfl, ?_, ?_⟩
    · rw [rd_ok _ hidx, ok_bind, wr_ok _ _ hidx]
    · refine ⟨?_, ?_, hinv.req, hinv.mem, ?_, ?_, ?_, ?_⟩
      · intro j hj
        by_cases h : j = k
        · subst h; simp [ht]
        · exact hinv.reg j (by omega)
      · show (if s0.mem.bools p then (1 : Int) else 0) ≠ RET_ERROR
        split <;> decide
      · show Buf.set _ _ _ 0 = _
        rw [Buf.set_ne _ _ (by omega)]; exact hinv.id
      · show Buf.set _ _ _ 1 = _
        rw [Buf.set_ne _ _ (by omega)]; exact hinv.fc
      · show Buf.set _ _ _ 2 = _
        rw [Buf.set_ne _ _ (by omega)]; exact hinv.cnt
      · intro b hb j hj
        show (Buf.set _ _ _ (3 + b)).getLsbD j = _
        rw [Buf.set_apply]
        by_cases hbk : b = k / 8
        · subst hbk
          rw [if_pos rfl, BitVec.getLsbD_or, hinv.bits _ hb j hj, shiftedBit _ _ _ (by omega) hj]
          by_cases hjk : j = k % 8
          · have e : 8 * (k / 8) + j = k := by omega
            rw [e]
            simp [hjk, bitAt, ht]
          · have e : (8 * (k / 8) + j < k + 1) ↔ (8 * (k / 8) + j < k) := by omega
            simp [hjk, e]
        · rw [if_neg (by omega), hinv.bits b hb j hj]
          have e : (8 * b + j < k + 1) ↔ (8 * b + j < k) := by omega
          simp [e]

theorem bitStart (s0 s : Pdu) (fc : U8) (t : Table) (adr bc : Nat) (hreq : s.req = s0.req) (hmem : s.mem = s0.mem)
    (hfc : s.resp 1 = fc) (hid : s.resp 0 = s0.resp 0) (hbc : bc ≤ 250) :
    ∃ b, clearStatusBytes (s.resp.set 2 (BitVec.ofNat 8 bc)) 3 bc = .ok b ∧
      BitInv s0 fc t adr bc 0 (RET_OK, { s with resp := b }) := by
  obtain ⟨b, hb, hj⟩ := clearStatusBytes_ok (s.resp.set 2 (BitVec.ofNat 8 bc)) 3 bc (by omega) (by omega)
  refine ⟨b, hb, by omega, show RET_OK ≠ RET_ERROR by decide, hreq, hmem, ?_, ?_, ?_, ?_⟩
  · show b 0 = _
    rw [hj, if_neg (by omega), Buf.set_ne _ _ (by omega)]; exact hid
  · show b 1 = _
    rw [hj, if_neg (by omega), Buf.set_ne _ _ (by omega)]; exact hfc
  · show b 2 = _
    rw [hj, if_neg (by omega), Buf.set_same]
  · intro i hi j hj'
    show (b (3 + i)).getLsbD j = _
    rw [hj, if_pos (by omega)]
    simp

theorem bitEnd (s0 : Pdu) (fc : U8) (t : Table) (adr qty bc : Nat) (x : Ret × Pdu)
    (hinv : BitInv s0 fc t adr bc qty x) (hbc : bc = (qty + 7) / 8) (hq : qty ≤ 2000) :
    allRegistered t adr qty ∧
    ∃ s', updateMsgLenAndRetStatus x.2 x.1 (BitVec.ofNat 8 bc) = .ok (RET_OK, s') ∧
      IsResp s0 s' s0.mem (.bits fc ((List.range qty).map fun i => bitAt t s0.mem.bools (adr + i))) := by
  refine ⟨hinv.reg, { x.2 with respLen := readRespLen + BitVec.ofNat 8 bc }, ?_, hinv.req, hinv.mem, ?_, ?_, hinv.id⟩
  · unfold updateMsgLenAndRetStatus
    rw [if_pos (Ne.symm hinv.val)]
  · simp only [encodeResponse, List.length_cons, packBits_length, List.length_map, List.length_range,
      BitVec.toNat_add, BitVec.toNat_ofNat]
    simp
    omega
  · apply List.ext_getElem
    · simp
    · intro i h1 h2
      simp only [Buf.bytes_length, encodeResponse, List.length_cons, packBits_length, List.length_map,
        List.length_range] at h1
      rw [Buf.bytes_getElem]
      match i, h1, h2 with
      | 0, _, _ => exact hinv.fc
      | 1, _, _ => simpa [encodeResponse, ← hbc] using hinv.cnt
      | i + 2, h1, h2 =>
        show x.2.resp (1 + (i + 2)) = (packBits _)[i]'_
        have hi : i < bc := by omega
        apply u8_ext
        intro j hj
        rw [packBits_getElem _ _ _ _ hj, show 1 + (i + 2) = 3 + i by omega, hinv.bits i hi j hj]
        by_cases h : 8 * i + j < qty
        · simp [h]
        · simp [h]

/-- Result of a complete bit read service: the response of the specification. -/
theorem readCoilService_ok (cfg : Config) (hc : cfg.WF) (s0 s : Pdu) (hreq : s.req = s0.req) (hmem : s.mem = s0.mem)
    (hfc : s.resp 1 = 1) (hid : s.resp 0 = s0.resp 0)
    (hq1 : s0.qty ≤ 2000) (hrange : s0.adr + s0.qty ≤ cfg.coilsQty) :
    ∃ r s', readCoilService cfg s = .ok (r, s') ∧
      IsResp s0 s' s0.mem
        (if allRegistered s0.mem.coils s0.adr s0.qty then
          .bits 1 ((List.range s0.qty).map fun i => bitAt s0.mem.coils s0.mem.bools (s0.adr + i))
         else .exception 1 4) := by
  have hadr : (u16of (s.req 2) (s.req 3)).toNat = s0.adr := by rw [u16of_toNat, hreq]; rfl
  have hqty : (u16of (s.req 4) (s.req 5)).toNat = s0.qty := by rw [u16of_toNat, hreq]; rfl
  have hbc : (coilDinByteCount (u16of (s.req 4) (s.req 5))).toNat = (s0.qty + 7) / 8 := by
    rw [coilDinByteCount_toNat _ (by omega), hqty]
  have hbc' : coilDinByteCount (u16of (s.req 4) (s.req 5)) = BitVec.ofNat 8 ((s0.qty + 7) / 8) := by
    apply BitVec.eq_of_toNat_eq; rw [hbc]; simp; omega
  rw [hbc'] at hbc
  obtain ⟨b, hb, hstart⟩ := bitStart s0 s 1 s0.mem.coils s0.adr ((s0.qty + 7) / 8) hreq hmem hfc hid (by omega)
  have hloop := forLoop_inv (body := readCoilBody cfg (u16of (s.req 2) (s.req 3)))
    (BitInv s0 1 s0.mem.coils s0.adr ((s0.qty + 7) / 8))
    (fun _ => False) (ReadErr s0 1 s0.mem.coils s0.adr s0.qty) s0.qty 0 (RET_OK, { s with resp := b })
    (by
      intro k x _ hk hinv
      have h := bitStep s0 1 s0.mem.coils (u16of (s.req 2) (s.req 3)) s0.qty cfg.coilsQty ((s0.qty + 7) / 8) k x
        (by rw [hadr]; exact hinv) (by omega) (by omega) hc.1 hq1
      rw [hadr] at h
      unfold readCoilBody
      simp only [tableSize_eq hc.1]
      rw [← hinv.mem] at h
      rcases h with ⟨_, hg, herr⟩ | ⟨v, resp, hv, hg, hw, hinv'⟩
      · rw [hg]
        rw [hinv.mem] at herr
        simp only [ok_bind, if_true, setExceptionCodeResp_ok, pure_eq]
        exact ⟨_, rfl, herr⟩
      · rw [hg]
        simp only [ok_bind]
        rw [if_neg (fun h => hv h.symm)]
        have hidx : 3 + k / 8 < 256 := by omega
        rw [rd_ok _ hidx, ok_bind] at hw
        rw [rd_ok _ hidx]
        simp only [ok_bind]
        rw [hw]
        rw [hinv.mem] at hinv'
        exact ⟨_, rfl, hinv'⟩)
    hstart
  obtain ⟨c, hc1, hc2⟩ := hloop
  unfold readCoilService
  simp only [idxRequestAdr, idxRequestQty, idxRespReadByteCnt, idxRespReadData, readAdr, readQty, ok_bind,
    hqty, hbc, hbc', wr_ok s.resp _ (show 2 < 256 by decide)]
  rw [hb]
  simp only [ok_bind]
  rw [hc1]
  cases c with
  | next x =>
    rw [Nat.zero_add] at hc2
    obtain ⟨hall, s', hu, hr⟩ := bitEnd s0 1 _ _ _ _ x hc2 rfl hq1
    rw [if_pos hall]
    exact ⟨_, s', hu, hr⟩
  | brk x => exact absurd hc2 id
  | ret x =>
    rw [if_neg hc2.miss]
    exact ⟨x.1, x.2, rfl, hc2.resp⟩

theorem readDinService_ok (cfg : Config) (hc : cfg.WF) (s0 s : Pdu) (hreq : s.req = s0.req) (hmem : s.mem = s0.mem)
    (hfc : s.resp 1 = 2) (hid : s.resp 0 = s0.resp 0)
    (hq1 : s0.qty ≤ 2000) (hrange : s0.adr + s0.qty ≤ cfg.dinQty) :
    ∃ r s', readDinService cfg s = .ok (r, s') ∧
      IsResp s0 s' s0.mem
        (if allRegistered s0.mem.dins s0.adr s0.qty then
          .bits 2 ((List.range s0.qty).map fun i => bitAt s0.mem.dins s0.mem.bools (s0.adr + i))
         else .exception 2 4) := by
  have hadr : (u16of (s.req 2) (s.req 3)).toNat = s0.adr := by rw [u16of_toNat, hreq]; rfl
  have hqty : (u16of (s.req 4) (s.req 5)).toNat = s0.qty := by rw [u16of_toNat, hreq]; rfl
  have hbc : (coilDinByteCount (u16of (s.req 4) (s.req 5))).toNat = (s0.qty + 7) / 8 := by
    rw [coilDinByteCount_toNat _ (by omega), hqty]
  have hbc' : coilDinByteCount (u16of (s.req 4) (s.req 5)) = BitVec.ofNat 8 ((s0.qty + 7) / 8) := by
    apply BitVec.eq_of_toNat_eq; rw [hbc]; simp; omega
  rw [hbc'] at hbc
  obtain ⟨b, hb, hstart⟩ := bitStart s0 s 2 s0.mem.dins s0.adr ((s0.qty + 7) / 8) hreq hmem hfc hid (by omega)
  have hloop := forLoop_inv (body := readDinBody cfg (u16of (s.req 2) (s.req 3)))
    (BitInv s0 2 s0.mem.dins s0.adr ((s0.qty + 7) / 8))
    (ReadErr s0 2 s0.mem.dins s0.adr s0.qty) (fun _ => False) s0.qty 0 (RET_OK, { s with resp := b })
    (by
      intro k x _ hk hinv
      have h := bitStep s0 2 s0.mem.dins (u16of (s.req 2) (s.req 3)) s0.qty cfg.dinQty ((s0.qty + 7) / 8) k x
        (by rw [hadr]; exact hinv) (by omega) (by omega) hc.2.1 hq1
      rw [hadr] at h
      unfold readDinBody
      simp only [tableSize_eq hc.2.1]
      rw [← hinv.mem] at h
      rcases h with ⟨_, hg, herr⟩ | ⟨v, resp, hv, hg, hw, hinv'⟩
      · rw [hg]
        rw [hinv.mem] at herr
        simp only [ok_bind, if_true, setExceptionCodeResp_ok, pure_eq]
        exact ⟨_, rfl, herr⟩
      · rw [hg]
        simp only [ok_bind]
        rw [if_neg (fun h => hv h.symm)]
        have hidx : 3 + k / 8 < 256 := by omega
        rw [rd_ok _ hidx, ok_bind] at hw
        rw [rd_ok _ hidx]
        simp only [ok_bind]
        rw [hw]
        rw [hinv.mem] at hinv'
        exact ⟨_, rfl, hinv'⟩)
    hstart
  obtain ⟨c, hc1, hc2⟩ := hloop
  unfold readDinService
  simp only [idxRequestAdr, idxRequestQty, idxRespReadByteCnt, idxRespReadData, readAdr, readQty, ok_bind,
    hqty, hbc, hbc', wr_ok s.resp _ (show 2 < 256 by decide)]
  rw [hb]
  simp only [ok_bind]
  rw [hc1]
  cases c with
  | next x =>
    rw [Nat.zero_add] at hc2
    obtain ⟨hall, s', hu, hr⟩ := bitEnd s0 2 _ _ _ _ x hc2 rfl hq1
    rw [if_pos hall]
    exact ⟨_, s', hu, hr⟩
  | ret x => exact nomatch x
  | brk x =>
    rw [if_neg hc2.miss]
    refine ⟨RET_ERROR, x.2, ?_, hc2.resp⟩
    obtain ⟨v, s'⟩ := x
    have : v = RET_ERROR := hc2.val
    subst this
    simp [updateMsgLenAndRetStatus]

/-! Register reads. -/

/-- Invariant of the register read loops. -/
structure RegInv (s0 : Pdu) (fc : U8) (t : Table) (adr qty : Nat) (k : Nat) (x : Ret × Pdu) : Prop where
  reg : ∀ j, j < k → (t (adr + j)).isSome
  val : x.1 ≠ RET_ERROR
  req : x.2.req = s0.req
  mem : x.2.mem = s0.mem
  id : x.2.resp 0 = s0.resp 0
  fc : x.2.resp 1 = fc
  cnt : x.2.resp 2 = BitVec.ofNat 8 (2 * qty)
  hi : ∀ j, j < k → x.2.resp (3 + 2 * j) = hiByte (regAt t s0.mem.regs (adr + j))
  lo : ∀ j, j < k → x.2.resp (4 + 2 * j) = loByte (regAt t s0.mem.regs (adr + j))

theorem flatMap_be_length (vs : List U16) : (vs.flatMap fun v => beBytes v.toNat).length = 2 * vs.length := by
  induction vs with
  | nil => rfl
  | cons v vs ih => simp only [List.flatMap_cons, List.length_append, List.length_cons, ih]; simp [beBytes]; omega

theorem flatMap_be_getElem (vs : List U16) (i : Nat) (h : i < (vs.flatMap fun v => beBytes v.toNat).length)
    (h2 : i / 2 < vs.length) :
    (vs.flatMap fun v => beBytes v.toNat)[i] = if i % 2 = 0 then hiByte vs[i / 2] else loByte vs[i / 2] := by
  induction vs generalizing i with
  | nil => simp at h2
  | cons v vs ih =>
    simp only [List.flatMap_cons, beBytes_eq]
    match i with
    | 0 => simp
    | 1 => simp
    | i + 2 =>
      have e : (i + 2) / 2 = i / 2 + 1 := by omega
      have e2 : (i + 2) % 2 = i % 2 := by omega
      simp only [List.cons_append, List.nil_append, List.getElem_cons_succ, e, e2]
      simp only [List.flatMap_cons, beBytes_eq, List.length_append, List.length_cons, List.length_nil] at h
      have := ih i (by simp only [beBytes_eq]; omega) (by simp at h2; omega)
      simpa only [beBytes_eq] using this

theorem readRegService_ok (size : Nat) (tab : AppMem → Table) (fc : U8) (hs : size ≤ 65535) (s0 s : Pdu)
    (hreq : s.req = s0.req) (hmem : s.mem = s0.mem)
    (hfc : s.resp 1 = fc) (hid : s.resp 0 = s0.resp 0)
    (hq1 : s0.qty ≤ 125) (hrange : s0.adr + s0.qty ≤ size) :
    ∃ r s', readRegService size tab s = .ok (r, s') ∧
      IsResp s0 s' s0.mem
        (if allRegistered (tab s0.mem) s0.adr s0.qty then
          .regs fc ((List.range s0.qty).map fun i => regAt (tab s0.mem) s0.mem.regs (s0.adr + i))
         else .exception fc 4) := by
  have hadr : (u16of (s.req 2) (s.req 3)).toNat = s0.adr := by rw [u16of_toNat, hreq]; rfl
  have hqty : (u16of (s.req 4) (s.req 5)).toNat = s0.qty := by rw [u16of_toNat, hreq]; rfl
  have hstart : RegInv s0 fc (tab s0.mem) s0.adr s0.qty 0
      (RET_OK, { s with resp := s.resp.set 2 (BitVec.ofNat 8 (2 * s0.qty)) }) := by
    refine ⟨by omega, show RET_OK ≠ RET_ERROR by decide, hreq, hmem, ?_, ?_, ?_, by omega, by omega⟩
    · show (s.resp.set 2 (BitVec.ofNat 8 (2 * s0.qty))) 0 = _
      rw [Buf.set_ne _ _ (by omega)]; exact hid
    · show (s.resp.set 2 (BitVec.ofNat 8 (2 * s0.qty))) 1 = _
      rw [Buf.set_ne _ _ (by omega)]; exact hfc
    · show (s.resp.set 2 (BitVec.ofNat 8 (2 * s0.qty))) 2 = _
      rw [Buf.set_same]
  have hloop := forLoop_inv (body := readRegBody size tab (u16of (s.req 2) (s.req 3)))
    (RegInv s0 fc (tab s0.mem) s0.adr s0.qty)
    (ReadErr s0 fc (tab s0.mem) s0.adr s0.qty) (fun _ => False) s0.qty 0 _
    (by
      intro k x _ hk hinv
      have ha := add_ofNat_toNat (u16of (s.req 2) (s.req 3)) k size (by omega) (by omega)
      unfold readRegBody
      simp only
      rw [hinv.mem, getRegisterState_ok (by omega), ha, hadr]
      cases ht : tab s0.mem (s0.adr + k) with
      | none =>
        simp only [ok_bind, if_true, setExceptionCodeResp_ok, pure_eq]
        refine ⟨_, rfl, ?_, rfl, ?_⟩
        · intro hall
          have := hall k (by omega)
          simp [ht] at this
        · have := excResp_isResp s0 x.2 fc 4 hinv.fc hinv.req hinv.id
          rw [hinv.mem] at this
          exact this
      | some p =>
        have hidx : 3 + k * 2 + 1 < 256 := by omega
        have hv : ¬ (RET_ERROR = (((s0.mem.regs p).toNat : Nat) : Int)) := by
          intro h
          have h' : (-1 : Int) = (((s0.mem.regs p).toNat : Nat) : Int) := h
          omega
        simp only [ok_bind]
        rw [if_neg hv]
        simp only [idxRespReadData]
        rw [writeU16_ok _ _ hidx]
        simp only [ok_bind, pure_eq]
        have hval : BitVec.ofInt 16 (((s0.mem.regs p).toNat : Nat) : Int) = s0.mem.regs p := by
          simp
        rw [hval]
        have hra : regAt (tab s0.mem) s0.mem.regs (s0.adr + k) = s0.mem.regs p := by simp [regAt, ht]
        refine ⟨_, rfl, ?_⟩
        refine ⟨?_, fun h => hv h.symm, hinv.req, rfl, ?_, ?_, ?_, ?_, ?_⟩
        · intro j hj
          by_cases h : j = k
          · subst h; simp [ht]
          · exact hinv.reg j (by omega)
        · simp only [Buf.set_apply]
          rw [if_neg (by omega), if_neg (by omega)]; exact hinv.id
        · simp only [Buf.set_apply]
          rw [if_neg (by omega), if_neg (by omega)]; exact hinv.fc
        · simp only [Buf.set_apply]
          rw [if_neg (by omega), if_neg (by omega)]; exact hinv.cnt
        · intro j hj
          simp only [Buf.set_apply]
          by_cases h : j = k
          · subst h
            rw [if_neg (by omega), if_pos (by omega), hra]
          · rw [if_neg (by omega), if_neg (by omega)]
            exact hinv.hi j (by omega)
        · intro j hj
          simp only [Buf.set_apply]
          by_cases h : j = k
          · subst h
            rw [if_pos (by omega), hra]
          · rw [if_neg (by omega), if_neg (by omega)]
            exact hinv.lo j (by omega))
    hstart
  obtain ⟨c, hc1, hc2⟩ := hloop
  unfold readRegService
  simp only [idxRequestAdr, idxRequestQty, idxRespReadByteCnt, readAdr, readQty, ok_bind,
    hqty, wr_ok s.resp _ (show 2 < 256 by decide)]
  rw [hc1]
  cases c with
  | next x =>
    rw [Nat.zero_add] at hc2
    have hall : allRegistered (tab s0.mem) s0.adr s0.qty := hc2.reg
    rw [if_pos hall]
    refine ⟨RET_OK, { x.2 with respLen := readRespLen + BitVec.ofNat 8 (2 * s0.qty) }, ?_, ?_⟩
    · simp only [ok_bind, updateMsgLenAndRetStatus]
      rw [if_pos (Ne.symm hc2.val)]
    · refine ⟨hc2.req, hc2.mem, ?_, ?_, hc2.id⟩
      · simp only [encodeResponse, List.length_cons, flatMap_be_length, List.length_map, List.length_range,
          BitVec.toNat_add, BitVec.toNat_ofNat]
        simp
        omega
      · apply List.ext_getElem
        · simp
        · intro i h1 h2
          simp only [Buf.bytes_length, encodeResponse, List.length_cons, flatMap_be_length, List.length_map,
            List.length_range] at h1
          rw [Buf.bytes_getElem]
          match i, h1, h2 with
          | 0, _, _ => exact hc2.fc
          | 1, _, _ => simpa [encodeResponse] using hc2.cnt
          | i + 2, h1, h2 =>
            simp only [encodeResponse, List.getElem_cons_succ]
            rw [flatMap_be_getElem _ _ _ (by simp; omega)]
            simp only [List.getElem_map, List.getElem_range]
            split
            · rw [show 1 + (i + 2) = 3 + 2 * (i / 2) by omega]
              exact hc2.hi (i / 2) (by omega)
            · rw [show 1 + (i + 2) = 4 + 2 * (i / 2) by omega]
              exact hc2.lo (i / 2) (by omega)
  | ret x => exact nomatch x
  | brk x =>
    rw [if_neg hc2.miss]
    refine ⟨RET_ERROR, x.2, ?_, hc2.resp⟩
    obtain ⟨v, s'⟩ := x
    have : v = RET_ERROR := hc2.val
    subst this
    simp [updateMsgLenAndRetStatus]

/-! Writes. -/

/-- State after an echo response has been written. -/
def echoResp (s : Pdu) (m : AppMem) (a v : U16) : Pdu :=
  { s with mem := m, respLen := 6,
           resp := (((s.resp.set 2 (hiByte a)).set 3 (loByte a)).set 4 (hiByte v)).set 5 (loByte v) }

theorem echoResp_isResp (s0 s : Pdu) (m : AppMem) (fc : U8) (a v : U16) (h1 : s.resp 1 = fc)
    (hr : s.req = s0.req) (hi : s.resp 0 = s0.resp 0) :
    IsResp s0 (echoResp s m a v) m (.echo fc a.toNat v.toNat) := by
  refine ⟨hr, rfl, ?_, ?_, ?_⟩
  · simp [echoResp, encodeResponse, beBytes]
  · simp [Buf.bytes, encodeResponse, echoResp, List.range_succ, Buf.set_apply, h1, beBytes_eq]
  · simpa [echoResp, Buf.set_apply] using hi

theorem storeAll_succ {α : Type} (t : Table) (adr : Nat) (f : Nat → α) (h : Ptr → α) (n : Nat) :
    storeAll t adr f h (n + 1) = match t (adr + n) with
      | some p => fun q => if q = p then f n else storeAll t adr f h n q
      | none => storeAll t adr f h n := rfl

theorem registeredPrefix_eq (t : Table) (adr qty k : Nat) (hk : k ≤ qty) (hreg : ∀ j, j < k → (t (adr + j)).isSome)
    (hmiss : k < qty → t (adr + k) = none) : registeredPrefix t adr qty = k := by
  unfold registeredPrefix
  obtain ⟨d, rfl⟩ : ∃ d, qty = k + d := ⟨qty - k, by omega⟩
  rw [List.range_add, List.takeWhile_append_of_pos]
  · cases d with
    | zero => simp
    | succ d =>
      rw [List.range_succ_eq_map]
      simp [hmiss (by omega)]
  · intro a ha
    exact hreg a (by simpa using ha)

theorem registeredPrefix_all (t : Table) (adr qty : Nat) (h : allRegistered t adr qty) :
    registeredPrefix t adr qty = qty :=
  registeredPrefix_eq t adr qty qty (Nat.le_refl _) h (by omega)

/-- A storing loop stops exactly at the first unregistered address. -/
structure StoreInv {α : Type} (t : Table) (adr : Nat) (f : Nat → α) (h : Ptr → α) (k : Nat) (x : Ret × (Ptr → α)) : Prop where
  reg : ∀ j, j < k → (t (adr + j)).isSome
  val : x.1 = RET_OK
  heap : x.2 = storeAll t adr f h k

structure StoreErr {α : Type} (t : Table) (adr qty : Nat) (f : Nat → α) (h : Ptr → α) (x : Ret × (Ptr → α)) : Prop where
  miss : ¬ allRegistered t adr qty
  val : x.1 = RET_ERROR
  heap : x.2 = storeAll t adr f h (registeredPrefix t adr qty)

theorem storeErr_of {α : Type} (t : Table) (adr qty : Nat) (f : Nat → α) (h : Ptr → α) (k : Nat)
    (x : Ret × (Ptr → α)) (hinv : StoreInv t adr f h k x) (hk : k < qty) (hn : t (adr + k) = none) :
    StoreErr t adr qty f h (RET_ERROR, x.2) := by
  refine ⟨?_, rfl, ?_⟩
  · intro hall
    have := hall k hk
    simp [hn] at this
  · rw [registeredPrefix_eq t adr qty k (by omega) hinv.reg (fun _ => hn)]
    exact hinv.heap

theorem storeInv_of {α : Type} (t : Table) (adr : Nat) (f : Nat → α) (h : Ptr → α) (k : Nat)
    (x : Ret × (Ptr → α)) (hinv : StoreInv t adr f h k x) (p : Ptr) (hn : t (adr + k) = some p) :
    StoreInv t adr f h (k + 1) (RET_OK, fun q => if q = p then f k else x.2 q) := by
  refine ⟨?_, rfl, ?_⟩
  · intro j hj
    by_cases e : j = k
    · subst e; simp [hn]
    · exact hinv.reg j (by omega)
  · rw [storeAll_succ, hn, hinv.heap]

/-- Payload of a write-multiple-coils request. -/
def payloadBits (req : Buf) (i : Nat) : Bool := (req (7 + i / 8)).getLsbD (i % 8)
/-- Payload of a write-multiple-registers request. -/
def payloadRegs (req : Buf) (i : Nat) : U16 := BitVec.ofNat 16 (word (req (7 + 2 * i)) (req (8 + 2 * i)))

theorem setCoilsLoop_ok (size : Nat) (t : Table) (req : Buf) (adr : U16) (qty : Nat) (bools : Ptr → Bool)
    (hs : size ≤ 65535) (hq : qty ≤ 1968) (hr : adr.toNat + qty ≤ size) :
    ∃ c, forLoop (setCoilsBody size t req adr) qty 0 (RET_OK, bools) = .ok c ∧
      CtlP (StoreInv t adr.toNat (payloadBits req) bools qty)
        (StoreErr t adr.toNat qty (payloadBits req) bools) (fun _ => False) c := by
  have := forLoop_inv (body := setCoilsBody size t req adr)
    (StoreInv t adr.toNat (payloadBits req) bools) (StoreErr t adr.toNat qty (payloadBits req) bools) (fun _ => False)
    qty 0 (RET_OK, bools)
    (by
      intro k x _ hk hinv
      have ha := add_ofNat_toNat adr k size (by omega) (by omega)
      have key : ∀ v, setCoilState size t x.2 (adr + BitVec.ofNat 16 k) v =
          .ok (match t (adr.toNat + k) with
            | some p => (RET_OK, fun q => if q = p then v else x.2 q)
            | none => (RET_ERROR, x.2)) := by
        intro v; rw [setCoilState_ok (by omega), ha]
      unfold setCoilsBody
      simp only [idxRequestWriteMultiData]
      rw [rd_ok req (show 7 + k / 8 < 256 by omega)]
      simp only [ok_bind, key]
      have hm := maskBit (req (7 + k / 8)) (k % 8) (by omega)
      by_cases h : payloadBits req k = true
      · rw [if_pos (hm.mpr h), ← h]
        cases ht : t (adr.toNat + k) with
        | none => exact ⟨_, rfl, storeErr_of t _ qty _ _ k x hinv (by omega) ht⟩
        | some p => exact ⟨_, rfl, storeInv_of t _ _ _ k x hinv p ht⟩
      · rw [if_neg (fun h' => h (hm.mp h'))]
        simp only [Bool.not_eq_true] at h
        rw [← h]
        cases ht : t (adr.toNat + k) with
        | none => exact ⟨_, rfl, storeErr_of t _ qty _ _ k x hinv (by omega) ht⟩
        | some p => exact ⟨_, rfl, storeInv_of t _ _ _ k x hinv p ht⟩)
    ⟨by omega, rfl, rfl⟩
  simpa using this

theorem writeRegsLoop_ok (size : Nat) (t : Table) (req : Buf) (adr : U16) (qty : Nat) (regs : Ptr → U16)
    (hs : size ≤ 65535) (hq : qty ≤ 123) (hr : adr.toNat + qty ≤ size) :
    ∃ c, forLoop (writeRegsBody size t req adr) qty 0 (RET_OK, regs) = .ok c ∧
      CtlP (StoreInv t adr.toNat (payloadRegs req) regs qty)
        (StoreErr t adr.toNat qty (payloadRegs req) regs) (fun _ => False) c := by
  have := forLoop_inv (body := writeRegsBody size t req adr)
    (StoreInv t adr.toNat (payloadRegs req) regs) (StoreErr t adr.toNat qty (payloadRegs req) regs) (fun _ => False)
    qty 0 (RET_OK, regs)
    (by
      intro k x _ hk hinv
      have ha := add_ofNat_toNat adr k size (by omega) (by omega)
      unfold writeRegsBody
      simp only [idxRequestWriteMultiData]
      rw [readU16_ok req (show 7 + k * 2 + 1 < 256 by omega), ok_bind, setRegisterValue_ok (by omega), ha]
      have hv : u16of (req (7 + k * 2)) (req (7 + k * 2 + 1)) = payloadRegs req k := by
        apply BitVec.eq_of_toNat_eq
        have := word_lt (req (7 + 2 * k)) (req (8 + 2 * k))
        rw [u16of_toNat, payloadRegs, BitVec.toNat_ofNat, Nat.mod_eq_of_lt this,
          show 7 + k * 2 = 7 + 2 * k by omega, show 7 + 2 * k + 1 = 8 + 2 * k by omega]
      rw [hv]
      simp only [ok_bind]
      cases ht : t (adr.toNat + k) with
      | none => exact ⟨_, rfl, storeErr_of t _ qty _ _ k x hinv (by omega) ht⟩
      | some p => exact ⟨_, rfl, storeInv_of t _ _ _ k x hinv p ht⟩)
    ⟨by omega, rfl, rfl⟩
  simpa using this

end Modbus
