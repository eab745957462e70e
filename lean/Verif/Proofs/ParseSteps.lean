import Verif.Model.ParseSteps
import Verif.Proofs.PreemptSlave
import Verif.Props.SlavePdu

/-! Reading the request buffer byte by byte: with the buffer left alone this is the parser of `Model/SlavePdu.lean`, and bytes that
arrive at positions not read make no difference. -/

namespace Modbus
variable {α β : Type}

/-! ### Execution on a buffer that does not change -/

/-- Result on the buffer `b`. -/
def ReqM.run : ReqM α → Buf → C α
  | .ret a, _ => .ok a
  | .err u, _ => .error u
  | .rd i k, b => (k (b i)).run b

/-- Number of reads made on the buffer `b`. -/
def ReqM.count : ReqM α → Buf → Nat
  | .ret _, _ => 0
  | .err _, _ => 0
  | .rd i k, b => (k (b i)).count b + 1

/-- All positions read on the buffer `b` satisfy `P`. -/
def ReqM.Reads (P : Nat → Prop) : ReqM α → Buf → Prop
  | .ret _, _ => True
  | .err _, _ => True
  | .rd i k, b => P i ∧ (k (b i)).Reads P b

@[simp] theorem run_pure (a : α) (b : Buf) : (pure a : ReqM α).run b = .ok a := rfl
@[simp] theorem run_ret (a : α) (b : Buf) : (ReqM.ret a : ReqM α).run b = .ok a := rfl

theorem run_bind (m : ReqM α) (f : α → ReqM β) (b : Buf) : (m >>= f).run b = (m.run b >>= fun a => (f a).run b) := by
  show (m.bind f).run b = _
  induction m with
  | ret a => rfl
  | err u => rfl
  | rd i k ih => exact ih _

@[simp] theorem run_lift (c : C α) (b : Buf) : (ReqM.lift c).run b = c := by
  cases c <;> rfl

@[simp] theorem run_rdReq (i : Nat) (b : Buf) : (rdReq i).run b = rd b i := by
  unfold rdReq rd
  split <;> rfl

@[simp] theorem run_readReqU16 (i : Nat) (b : Buf) : (readReqU16 i).run b = readU16 b i := by
  unfold readReqU16 readU16
  simp only [run_bind, run_rdReq, run_pure]
  rfl

theorem run_forLoop {σ ρ : Type} {bodyR : Nat → σ → ReqM (Ctl σ ρ)} {body : Nat → σ → C (Ctl σ ρ)} {b : Buf}
    (h : ∀ i x, (bodyR i x).run b = body i x) : ∀ (n i : Nat) (s : σ), (forLoopR bodyR n i s).run b = forLoop body n i s
  | 0, _, _ => rfl
  | n + 1, i, s => by
    unfold forLoopR forLoop
    rw [run_bind, h]
    cases body i s with
    | error u => rfl
    | ok c => cases c with
      | next s' => exact run_forLoop h n (i + 1) s'
      | brk s' => rfl
      | ret r => rfl

theorem bind_congr_ok {x : C α} {f g : α → C β} (h : ∀ a, x = .ok a → f a = g a) : (x >>= f) = (x >>= g) := by
  cases x with
  | error u => rfl
  | ok a => exact h a rfl

theorem reads_pure (P : Nat → Prop) (a : α) (b : Buf) : (pure a : ReqM α).Reads P b := trivial

theorem reads_lift (P : Nat → Prop) (c : C α) (b : Buf) : (ReqM.lift c).Reads P b := by
  cases c <;> trivial

theorem reads_bind {P : Nat → Prop} {m : ReqM α} {f : α → ReqM β} {b : Buf} (hm : m.Reads P b)
    (hf : ∀ a, m.run b = .ok a → (f a).Reads P b) : (m >>= f).Reads P b := by
  show (m.bind f).Reads P b
  induction m with
  | ret a => exact hf a rfl
  | err u => trivial
  | rd i k ih => exact ⟨hm.1, ih _ hm.2 hf⟩

theorem reads_rdReq {P : Nat → Prop} {i : Nat} {b : Buf} (h : P i) : (rdReq i).Reads P b := by
  unfold rdReq
  split
  · exact ⟨h, trivial⟩
  · trivial

theorem reads_readReqU16 {P : Nat → Prop} {i : Nat} {b : Buf} (h : P i) (h1 : P (i + 1)) : (readReqU16 i).Reads P b :=
  reads_bind (reads_rdReq h) fun _ _ => reads_bind (reads_rdReq h1) fun _ _ => reads_pure _ _ _

theorem reads_forLoop {σ ρ : Type} {P : Nat → Prop} {body : Nat → σ → ReqM (Ctl σ ρ)} {b : Buf} :
    ∀ (n i : Nat) (s : σ), (∀ j x, i ≤ j → j < i + n → (body j x).Reads P b) → (forLoopR body n i s).Reads P b
  | 0, _, _, _ => trivial
  | n + 1, i, s, h => by
    unfold forLoopR
    refine reads_bind (h i s (Nat.le_refl _) (by omega)) fun c _ => ?_
    cases c with
    | next s' => exact reads_forLoop n (i + 1) s' fun j x h1 h2 => h j x (by omega) (by omega)
    | brk s' => trivial
    | ret r => trivial

theorem reads_mono {P Q : Nat → Prop} (h : ∀ i, P i → Q i) : ∀ {m : ReqM α} {b : Buf}, m.Reads P b → m.Reads Q b := by
  intro m b hm
  induction m with
  | ret a => trivial
  | err u => trivial
  | rd i k ih => exact ⟨h i hm.1, ih _ hm.2⟩

theorem reads_all (m : ReqM α) (b : Buf) : m.Reads (fun _ => True) b := by
  induction m with
  | ret a => trivial
  | err u => trivial
  | rd i k ih => exact ⟨trivial, ih _⟩

/-- Two buffers that agree on the positions read: same reads, same result. -/
theorem reads_congr {P : Nat → Prop} {b b' : Buf} (h : ∀ i, P i → b' i = b i) (m : ReqM α) (hm : m.Reads P b) :
    m.Reads P b' ∧ m.run b' = m.run b ∧ m.count b' = m.count b := by
  induction m with
  | ret a => exact ⟨trivial, rfl, rfl⟩
  | err u => exact ⟨trivial, rfl, rfl⟩
  | rd i k ih =>
    have := ih (b i) hm.2
    simp only [ReqM.Reads, ReqM.run, ReqM.count, h i hm.1]
    exact ⟨⟨hm.1, this.1⟩, this.2.1, by rw [this.2.2]⟩

/-! ### `modbus_RTU_recv` -/

theorem run_crcLoop (b : Buf) : ∀ (n pos : Nat) (crc : U16), (crcLoopR n pos crc).run b = crcLoop b n pos crc
  | 0, _, _ => rfl
  | n + 1, pos, crc => by
    unfold crcLoopR crcLoop
    rw [run_bind, run_rdReq]
    exact bind_congr_ok fun x _ => run_crcLoop b n (pos + 1) _

theorem run_rtuRecv (len id : U8) (b : Buf) : (rtuRecvR len id).run b = rtuRecv (some b) len id := by
  unfold rtuRecvR rtuRecv
  rw [run_bind, run_rdReq]
  refine bind_congr_ok fun x _ => ?_
  split
  · rfl
  · rw [run_bind, run_crcLoop]
    refine bind_congr_ok fun c _ => ?_
    split <;> rfl

theorem reads_crcLoop (P : Nat → Prop) (b : Buf) : ∀ (n pos : Nat) (crc : U16), (∀ i, pos ≤ i → i < pos + n → P i) →
    (crcLoopR n pos crc).Reads P b
  | 0, _, _, _ => trivial
  | n + 1, pos, crc, h => by
    unfold crcLoopR
    exact reads_bind (reads_rdReq (h pos (Nat.le_refl _) (by omega))) fun x _ =>
      reads_crcLoop P b n (pos + 1) _ fun i h1 h2 => h i (by omega) (by omega)

/-- A frame of at least one byte: only its bytes are read. -/
theorem reads_rtuRecv (len id : U8) (b : Buf) (h : 0 < len.toNat) : (rtuRecvR len id).Reads (· < len.toNat) b := by
  unfold rtuRecvR
  refine reads_bind (reads_rdReq h) fun x _ => ?_
  split
  · trivial
  · refine reads_bind (reads_crcLoop _ b _ _ _ fun i _ h2 => by omega) fun c _ => ?_
    split <;> trivial

/-! ### The parser -/

theorem run_checkReadReq (s : Pdu) (mq aq : Nat) : (checkReadReqR s mq aq).run s.req = checkReadReq s mq aq := by
  unfold checkReadReqR checkReadReq
  simp only [run_bind, run_readReqU16]
  refine bind_congr_ok fun adr _ => bind_congr_ok fun qty _ => ?_
  split
  · rw [run_bind, run_lift]; rfl
  · split
    · rw [run_bind, run_lift]; rfl
    · rfl

theorem setExc_req {s s' : Pdu} {code : U8} (h : setExceptionCodeResp s code = .ok s') : s'.req = s.req := by
  unfold setExceptionCodeResp at h
  simp only [rd, wr, idxFunctionCode, idxRespExceptionCode, rtuBufferSize] at h
  injection h with h
  rw [← h]

theorem rd_lt (b : Buf) {i : Nat} (h : i < 256) : rd b i = .ok (b i) := by
  unfold rd; rw [if_pos h]

theorem readU16_lt (b : Buf) {i : Nat} (h : i + 1 < 256) : readU16 b i = .ok (u16of (b i) (b (i + 1))) := by
  unfold readU16; rw [rd_lt b (by omega), rd_lt b h]; rfl

theorem setExc_then {s s' : Pdu} {code : U8} {st r : Ret}
    (h : (setExceptionCodeResp s code >>= fun s => (pure (r, s) : C (Ret × Pdu))) = .ok (st, s')) : st = r ∧ s'.req = s.req := by
  cases h3 : setExceptionCodeResp s code with
  | error u => rw [h3] at h; cases h
  | ok x =>
    rw [h3] at h
    simp only [okBind, pureOk, Except.ok.injEq, Prod.mk.injEq] at h
    rw [← h.2, ← h.1]
    exact ⟨rfl, setExc_req h3⟩

/-- The checks leave the request alone, and succeed only on a quantity within the limits. -/
theorem checkRead_ok {s s' : Pdu} {mq aq : Nat} {st : Ret} (h : checkReadReq s mq aq = .ok (st, s')) :
    s'.req = s.req ∧ (st = RET_ERROR ∨ st = RET_OK ∧ (u16of (s.req 4) (s.req 5)).toNat ≤ mq) := by
  unfold checkReadReq at h
  simp only [idxRequestAdr, idxRequestQty] at h
  rw [readU16_lt _ (by omega), readU16_lt _ (by omega)] at h
  simp only [okBind, Nat.reduceAdd] at h
  split at h
  · exact ⟨(setExc_then h).2, .inl (setExc_then h).1⟩
  · rename_i hq
    split at h
    · exact ⟨(setExc_then h).2, .inl (setExc_then h).1⟩
    · simp only [pureOk, Except.ok.injEq, Prod.mk.injEq] at h
      rw [← h.2, ← h.1]
      exact ⟨rfl, .inr ⟨rfl, by omega⟩⟩

theorem checkBc_ok {s s' : Pdu} {st : Ret} (h : checkWriteReqByteCount s = .ok (st, s')) :
    s'.req = s.req ∧ (st = RET_OK → s.req 6 = coilDinByteCount (u16of (s.req 4) (s.req 5))) := by
  unfold checkWriteReqByteCount at h
  simp only [idxRequestByteCnt, idxRequestQty] at h
  rw [rd_lt _ (by omega), readU16_lt _ (by omega)] at h
  simp only [okBind, Nat.reduceAdd] at h
  split at h
  · rename_i hb
    simp only [pureOk, Except.ok.injEq, Prod.mk.injEq] at h
    rw [← h.2]
    exact ⟨rfl, fun _ => hb⟩
  · exact ⟨(setExc_then h).2, fun e => absurd ((setExc_then h).1.symm.trans e) (by decide)⟩

theorem checkRegBc_ok {s s' : Pdu} {st : Ret} (h : checkWriteReqRegByteCount s = .ok (st, s')) :
    s'.req = s.req ∧ (st = RET_OK → (s.req 6).toNat = (u16of (s.req 4) (s.req 5)).toNat * 2) := by
  unfold checkWriteReqRegByteCount at h
  simp only [idxRequestByteCnt, idxRequestQty] at h
  rw [rd_lt _ (by omega), readU16_lt _ (by omega)] at h
  simp only [okBind, Nat.reduceAdd] at h
  split at h
  · rename_i hb
    simp only [pureOk, Except.ok.injEq, Prod.mk.injEq] at h
    rw [← h.2]
    exact ⟨rfl, fun _ => hb⟩
  · exact ⟨(setExc_then h).2, fun e => absurd ((setExc_then h).1.symm.trans e) (by decide)⟩

theorem run_checkByteCount (s : Pdu) : (checkWriteReqByteCountR s).run s.req = checkWriteReqByteCount s := by
  unfold checkWriteReqByteCountR checkWriteReqByteCount
  simp only [run_bind, run_readReqU16, run_rdReq]
  refine bind_congr_ok fun bc _ => bind_congr_ok fun qty _ => ?_
  split
  · rfl
  · rw [run_bind, run_lift]; rfl

theorem run_checkRegByteCount (s : Pdu) : (checkWriteReqRegByteCountR s).run s.req = checkWriteReqRegByteCount s := by
  unfold checkWriteReqRegByteCountR checkWriteReqRegByteCount
  simp only [run_bind, run_readReqU16, run_rdReq]
  refine bind_congr_ok fun bc _ => bind_congr_ok fun qty _ => ?_
  split
  · rfl
  · rw [run_bind, run_lift]; rfl

theorem run_checkWriteReq (s : Pdu) (mq aq : Nat) : (checkWriteReqR s mq aq).run s.req = checkWriteReq s mq aq := by
  unfold checkWriteReqR checkWriteReq
  rw [run_bind, run_rdReq]
  refine bind_congr_ok fun fc _ => ?_
  rw [run_bind, run_checkReadReq]
  refine bind_congr_ok fun x hx => ?_
  obtain ⟨st, s'⟩ := x
  have e := (checkRead_ok hx).1
  dsimp only
  split
  · split
    · rw [← e]; exact run_checkByteCount s'
    · rw [← e]; exact run_checkRegByteCount s'
  · rfl

/-- What a successful check of a multiple write says about the request. -/
theorem checkWrite_ok {s s' : Pdu} {mq aq : Nat} {st : Ret} (h : checkWriteReq s mq aq = .ok (st, s')) :
    s'.req = s.req ∧ (st = RET_OK → (u16of (s.req 4) (s.req 5)).toNat ≤ mq ∧
      (s.req 1 = fcWriteMultipleCoils → s.req 6 = coilDinByteCount (u16of (s.req 4) (s.req 5))) ∧
      (s.req 1 ≠ fcWriteMultipleCoils → (s.req 6).toNat = (u16of (s.req 4) (s.req 5)).toNat * 2)) := by
  unfold checkWriteReq at h
  simp only [idxFunctionCode] at h
  rw [rd_lt _ (by omega)] at h
  simp only [okBind] at h
  cases h1 : checkReadReq s mq aq with
  | error u => rw [h1] at h; cases h
  | ok x =>
    obtain ⟨st1, s1⟩ := x
    rw [h1] at h
    simp only [okBind] at h
    obtain ⟨e1, e2⟩ := checkRead_ok h1
    split at h
    · rename_i hst
      have hq := e2.resolve_left (by rw [hst]; decide)
      split at h
      · rename_i hfc
        have := checkBc_ok h
        rw [e1] at this
        exact ⟨this.1, fun e => ⟨hq.2, fun _ => this.2 e, fun hn => absurd hfc hn⟩⟩
      · rename_i hfc
        have := checkRegBc_ok h
        rw [e1] at this
        exact ⟨this.1, fun e => ⟨hq.2, fun hn => absurd hn hfc, fun _ => this.2 e⟩⟩
    · rename_i hst
      simp only [pureOk, Except.ok.injEq, Prod.mk.injEq] at h
      rw [← h.2]
      exact ⟨e1, fun e => absurd (h.1.trans e) hst⟩

theorem run_readCoilService (cfg : Config) (s : Pdu) : (readCoilServiceR cfg s).run s.req = readCoilService cfg s := by
  unfold readCoilServiceR readCoilService
  simp only [run_bind, run_readReqU16, run_lift]
  rfl

theorem run_readDinService (cfg : Config) (s : Pdu) : (readDinServiceR cfg s).run s.req = readDinService cfg s := by
  unfold readDinServiceR readDinService
  simp only [run_bind, run_readReqU16, run_lift]
  rfl

theorem run_readRegService (size : Nat) (tab : AppMem → Table) (s : Pdu) :
    (readRegServiceR size tab s).run s.req = readRegService size tab s := by
  unfold readRegServiceR readRegService
  simp only [run_bind, run_readReqU16, run_lift]
  rfl

theorem run_readCoils (cfg : Config) (s : Pdu) : (slaveReadCoilsR cfg s).run s.req = slaveReadCoils cfg s := by
  unfold slaveReadCoilsR slaveReadCoils
  rw [run_bind, run_lift]
  refine bind_congr_ok fun resp _ => ?_
  rw [run_bind, run_checkReadReq { s with resp := resp }]
  refine bind_congr_ok fun x hx => ?_
  obtain ⟨st, s'⟩ := x
  have e : s'.req = s.req := (checkRead_ok hx).1
  dsimp only
  split
  · rw [← e]; exact run_readCoilService cfg s'
  · rfl

theorem run_readDins (cfg : Config) (s : Pdu) : (slaveReadDiscreteInputsR cfg s).run s.req = slaveReadDiscreteInputs cfg s := by
  unfold slaveReadDiscreteInputsR slaveReadDiscreteInputs
  rw [run_bind, run_lift]
  refine bind_congr_ok fun resp _ => ?_
  rw [run_bind, run_checkReadReq { s with resp := resp }]
  refine bind_congr_ok fun x hx => ?_
  obtain ⟨st, s'⟩ := x
  have e : s'.req = s.req := (checkRead_ok hx).1
  dsimp only
  split
  · rw [← e]; exact run_readDinService cfg s'
  · rfl

theorem run_readHregs (cfg : Config) (s : Pdu) : (slaveReadHoldingRegR cfg s).run s.req = slaveReadHoldingReg cfg s := by
  unfold slaveReadHoldingRegR slaveReadHoldingReg
  rw [run_bind, run_lift]
  refine bind_congr_ok fun resp _ => ?_
  rw [run_bind, run_checkReadReq { s with resp := resp }]
  refine bind_congr_ok fun x hx => ?_
  obtain ⟨st, s'⟩ := x
  have e : s'.req = s.req := (checkRead_ok hx).1
  dsimp only
  split
  · rw [← e]; exact run_readRegService _ _ s'
  · rfl

theorem run_readInregs (cfg : Config) (s : Pdu) : (slaveReadInputRegR cfg s).run s.req = slaveReadInputReg cfg s := by
  unfold slaveReadInputRegR slaveReadInputReg
  rw [run_bind, run_lift]
  refine bind_congr_ok fun resp _ => ?_
  rw [run_bind, run_checkReadReq { s with resp := resp }]
  refine bind_congr_ok fun x hx => ?_
  obtain ⟨st, s'⟩ := x
  have e : s'.req = s.req := (checkRead_ok hx).1
  dsimp only
  split
  · rw [← e]; exact run_readRegService _ _ s'
  · rfl

theorem run_writeSingleCoil (cfg : Config) (s : Pdu) : (slaveWriteSingleCoilR cfg s).run s.req = slaveWriteSingleCoil cfg s := by
  unfold slaveWriteSingleCoilR slaveWriteSingleCoil
  simp only [run_bind, run_readReqU16, run_lift]

theorem run_setCoils (cfg : Config) (s : Pdu) (adr qty : U16) : (setCoilsFromMsgR cfg s adr qty).run s.req = setCoilsFromMsg cfg s adr qty := by
  unfold setCoilsFromMsgR setCoilsFromMsg
  rw [run_bind, run_forLoop (body := setCoilsBody (tableSize cfg.coilsQty) s.mem.coils s.req adr)]
  · refine bind_congr_ok fun c _ => ?_
    cases c with
    | ret e => cases e
    | next y => rfl
    | brk y => rfl
  · intro i x
    unfold setCoilsBodyR setCoilsBody
    simp only [run_bind, run_rdReq, run_lift]

theorem run_writeCoils (cfg : Config) (s : Pdu) : (slaveWriteMultipleCoilsR cfg s).run s.req = slaveWriteMultipleCoils cfg s := by
  unfold slaveWriteMultipleCoilsR slaveWriteMultipleCoils
  rw [run_bind, run_lift]
  refine bind_congr_ok fun resp _ => ?_
  rw [run_bind, run_checkWriteReq { s with resp := resp }]
  refine bind_congr_ok fun x hx => ?_
  obtain ⟨st, s'⟩ := x
  have e : s'.req = s.req := (checkWrite_ok hx).1
  dsimp only
  split
  · rw [← e]
    simp only [run_bind, run_readReqU16, run_setCoils]
    refine bind_congr_ok fun adr _ => bind_congr_ok fun qty _ => bind_congr_ok fun y _ => ?_
    rw [run_lift]
  · rfl

theorem run_writeSingleReg (cfg : Config) (s : Pdu) : (slaveWriteSingleRegR cfg s).run s.req = slaveWriteSingleReg cfg s := by
  unfold slaveWriteSingleRegR slaveWriteSingleReg writeSingleRegServiceR writeSingleRegService
  simp only [run_bind, run_readReqU16, run_lift]
  refine bind_congr_ok fun adr _ => bind_congr_ok fun resp _ => ?_
  split
  · rw [run_bind, run_lift]; rfl
  · simp only [run_bind, run_readReqU16, run_lift]

theorem run_writeRegService (cfg : Config) (s : Pdu) : (writeMultipleRegServiceR cfg s).run s.req = writeMultipleRegService cfg s := by
  unfold writeMultipleRegServiceR writeMultipleRegService
  simp only [run_bind, run_readReqU16]
  refine bind_congr_ok fun adr _ => bind_congr_ok fun qty _ => ?_
  rw [run_forLoop (body := writeRegsBody (tableSize cfg.hregQty) s.mem.hregs s.req adr)]
  · refine bind_congr_ok fun c _ => ?_
    cases c with
    | ret e => cases e
    | next y => simp only [run_bind, run_pure, run_lift]; rfl
    | brk y => simp only [run_bind, run_pure, run_lift]; rfl
  · intro i x
    unfold writeRegsBodyR writeRegsBody
    simp only [run_bind, run_readReqU16, run_lift]

theorem run_writeRegs (cfg : Config) (s : Pdu) : (slaveWriteMultipleRegR cfg s).run s.req = slaveWriteMultipleReg cfg s := by
  unfold slaveWriteMultipleRegR slaveWriteMultipleReg
  rw [run_bind, run_lift]
  refine bind_congr_ok fun resp _ => ?_
  rw [run_bind, run_checkWriteReq { s with resp := resp }]
  refine bind_congr_ok fun x hx => ?_
  obtain ⟨st, s'⟩ := x
  have e : s'.req = s.req := (checkWrite_ok hx).1
  dsimp only
  split
  · rw [← e]; exact run_writeRegService cfg s'
  · rfl

/-- On a buffer that does not change, the parser that reads byte by byte is the parser. -/
theorem run_parseRequest (cfg : Config) (s : Pdu) : (parseRequestR cfg s).run s.req = parseRequest cfg s := by
  unfold parseRequestR parseRequest
  rw [run_bind, run_rdReq]
  refine bind_congr_ok fun fc _ => ?_
  unfold slaveMapperR slaveMapper
  simp only [List.find?_cons, List.find?_nil]
  by_cases h1 : (fc == fcReadCoils) = true
  · simp only [h1]; exact run_readCoils cfg s
  by_cases h2 : (fc == fcReadDiscreteInputs) = true
  · simp only [h1, h2]; exact run_readDins cfg s
  by_cases h3 : (fc == fcReadHoldingRegisters) = true
  · simp only [h1, h2, h3]; exact run_readHregs cfg s
  by_cases h4 : (fc == fcReadInputRegisters) = true
  · simp only [h1, h2, h3, h4]; exact run_readInregs cfg s
  by_cases h5 : (fc == fcWriteSingleCoil) = true
  · simp only [h1, h2, h3, h4, h5]; exact run_writeSingleCoil cfg s
  by_cases h6 : (fc == fcWriteSingleRegister) = true
  · simp only [h1, h2, h3, h4, h5, h6]; exact run_writeSingleReg cfg s
  by_cases h7 : (fc == fcWriteMultipleCoils) = true
  · simp only [h1, h2, h3, h4, h5, h6, h7]; exact run_writeCoils cfg s
  by_cases h8 : (fc == fcWriteMultipleRegisters) = true
  · simp only [h1, h2, h3, h4, h5, h6, h7, h8]; exact run_writeRegs cfg s
  · simp only [h1, h2, h3, h4, h5, h6, h7, h8, run_bind, run_rdReq, run_lift]

/-! ### Positions read by the parser -/

theorem reads_checkRead {P : Nat → Prop} (s : Pdu) (mq aq : Nat) (b : Buf) (h : ∀ i, 2 ≤ i → i < 6 → P i) : (checkReadReqR s mq aq).Reads P b := by
  unfold checkReadReqR
  refine reads_bind (reads_readReqU16 (h _ (by decide) (by decide)) (h _ (by decide) (by decide))) fun adr _ =>
    reads_bind (reads_readReqU16 (h _ (by decide) (by decide)) (h _ (by decide) (by decide))) fun qty _ => ?_
  split
  · exact reads_bind (reads_lift _ _ _) fun _ _ => reads_pure _ _ _
  · split
    · exact reads_bind (reads_lift _ _ _) fun _ _ => reads_pure _ _ _
    · exact reads_pure _ _ _

theorem reads_bcs {P : Nat → Prop} (s : Pdu) (b : Buf) (h : ∀ i, 1 ≤ i → i < 7 → P i) :
    (checkWriteReqByteCountR s).Reads P b ∧ (checkWriteReqRegByteCountR s).Reads P b := by
  unfold checkWriteReqByteCountR checkWriteReqRegByteCountR
  constructor
  all_goals
    refine reads_bind (reads_rdReq (h _ (by decide) (by decide))) fun bc _ =>
      reads_bind (reads_readReqU16 (h _ (by decide) (by decide)) (h _ (by decide) (by decide))) fun qty _ => ?_
    split
    · exact reads_pure _ _ _
    · exact reads_bind (reads_lift _ _ _) fun _ _ => reads_pure _ _ _

theorem reads_checkWrite {P : Nat → Prop} (s : Pdu) (mq aq : Nat) (b : Buf) (h : ∀ i, 1 ≤ i → i < 7 → P i) : (checkWriteReqR s mq aq).Reads P b := by
  unfold checkWriteReqR
  refine reads_bind (reads_rdReq (h _ (by decide) (by decide))) fun fc _ =>
    reads_bind (reads_checkRead s mq aq b fun i h1 h2 => h i (by omega) (by omega)) fun x _ => ?_
  split
  split
  · split
    · exact (reads_bcs _ b h).1
    · exact (reads_bcs _ b h).2
  · exact reads_pure _ _ _

theorem reads_two {P : Nat → Prop} {b : Buf} {f : U16 → U16 → ReqM β} (h : ∀ i, 2 ≤ i → i < 6 → P i)
    (hf : ∀ x y, x = u16of (b 2) (b 3) → y = u16of (b 4) (b 5) → (f x y).Reads P b) :
    (do let adr ← readReqU16 idxRequestAdr; let qty ← readReqU16 idxRequestQty; f adr qty).Reads P b := by
  refine reads_bind (reads_readReqU16 (h _ (by decide) (by decide)) (h _ (by decide) (by decide))) fun adr ha =>
    reads_bind (reads_readReqU16 (h _ (by decide) (by decide)) (h _ (by decide) (by decide))) fun qty hq => hf adr qty ?_ ?_
  · rw [run_readReqU16, readU16_lt _ (by decide)] at ha
    exact (Except.ok.inj ha).symm
  · rw [run_readReqU16, readU16_lt _ (by decide)] at hq
    exact (Except.ok.inj hq).symm

theorem reads_readers {P : Nat → Prop} (cfg : Config) (s : Pdu) (b : Buf) (h : ∀ i, 2 ≤ i → i < 6 → P i) :
    (slaveReadCoilsR cfg s).Reads P b ∧ (slaveReadDiscreteInputsR cfg s).Reads P b ∧ (slaveReadHoldingRegR cfg s).Reads P b ∧
      (slaveReadInputRegR cfg s).Reads P b := by
  unfold slaveReadCoilsR slaveReadDiscreteInputsR slaveReadHoldingRegR slaveReadInputRegR
  refine ⟨?_, ?_, ?_, ?_⟩
  all_goals
    refine reads_bind (reads_lift _ _ _) fun resp _ => reads_bind (reads_checkRead _ _ _ b h) fun x _ => ?_
    split
    split
    · first
        | exact reads_two h fun _ _ _ _ => reads_lift _ _ _
    · exact reads_pure _ _ _

theorem reads_writeSingleCoil {P : Nat → Prop} (cfg : Config) (s : Pdu) (b : Buf) (h : ∀ i, 2 ≤ i → i < 6 → P i) :
    (slaveWriteSingleCoilR cfg s).Reads P b := reads_two h fun _ _ _ _ => reads_lift _ _ _

theorem reads_writeSingleReg {P : Nat → Prop} (cfg : Config) (s : Pdu) (b : Buf) (h : ∀ i, 2 ≤ i → i < 6 → P i) :
    (slaveWriteSingleRegR cfg s).Reads P b := by
  unfold slaveWriteSingleRegR
  refine reads_bind (reads_readReqU16 (h _ (by decide) (by decide)) (h _ (by decide) (by decide))) fun adr _ =>
    reads_bind (reads_lift _ _ _) fun resp _ => ?_
  dsimp only
  split
  · exact reads_bind (reads_lift _ _ _) fun _ _ => reads_pure _ _ _
  · exact reads_two h fun _ _ _ _ => reads_lift _ _ _

theorem reads_writeCoils (cfg : Config) (s : Pdu) (n : Nat) (hf : s.req 1 = 15) (h : 9 + (s.req 6).toNat ≤ n) :
    (slaveWriteMultipleCoilsR cfg s).Reads (· < n) s.req := by
  unfold slaveWriteMultipleCoilsR
  refine reads_bind (reads_lift _ _ _) fun resp _ => reads_bind (reads_checkWrite _ _ _ _ fun i _ h2 => by omega) fun x hx => ?_
  rw [run_checkWriteReq { s with resp := resp }] at hx
  obtain ⟨st, s'⟩ := x
  dsimp only
  split
  · rename_i hst
    obtain ⟨hq, hb, _⟩ := (checkWrite_ok hx).2 hst.symm
    have hb : s.req 6 = coilDinByteCount (u16of (s.req 4) (s.req 5)) := hb hf
    have hq : (u16of (s.req 4) (s.req 5)).toNat ≤ maxWriteCoilsQty := hq
    refine reads_two (fun i _ h2 => by omega) fun adr qty _ eq => ?_
    refine reads_bind ?_ fun y _ => reads_lift _ _ _
    unfold setCoilsFromMsgR
    refine reads_bind (reads_forLoop _ _ _ fun j z _ hj => ?_) fun c _ => ?_
    · unfold setCoilsBodyR
      refine reads_bind (reads_rdReq ?_) fun y _ => reads_lift _ _ _
      have e6 := congrArg BitVec.toNat hb
      rw [← eq] at e6 hq
      have : (coilDinByteCount qty).toNat = (qty.toNat + 7) / 8 := coilDinByteCount_toNat qty (Nat.le_trans hq (by decide))
      simp only [idxRequestWriteMultiData]
      omega
    · cases c with
      | ret e => cases e
      | next y => exact reads_pure _ _ _
      | brk y => exact reads_pure _ _ _
  · exact reads_pure _ _ _

theorem reads_writeRegs (cfg : Config) (s : Pdu) (n : Nat) (hf : s.req 1 = 16) (h : 9 + (s.req 6).toNat ≤ n) :
    (slaveWriteMultipleRegR cfg s).Reads (· < n) s.req := by
  unfold slaveWriteMultipleRegR
  refine reads_bind (reads_lift _ _ _) fun resp _ => reads_bind (reads_checkWrite _ _ _ _ fun i _ h2 => by omega) fun x hx => ?_
  rw [run_checkWriteReq { s with resp := resp }] at hx
  obtain ⟨st, s'⟩ := x
  dsimp only
  split
  · rename_i hst
    obtain ⟨hq, _, hb⟩ := (checkWrite_ok hx).2 hst.symm
    have hb : (s.req 6).toNat = (u16of (s.req 4) (s.req 5)).toNat * 2 := hb (by
      show s.req 1 ≠ fcWriteMultipleCoils
      rw [hf]; decide)
    unfold writeMultipleRegServiceR
    refine reads_two (fun i _ h2 => by omega) fun adr qty _ eq => ?_
    refine reads_bind (reads_forLoop _ _ _ fun j z _ hj => ?_) fun c _ => ?_
    · unfold writeRegsBodyR
      rw [← eq] at hb
      refine reads_bind (reads_readReqU16 ?_ ?_) fun y _ => reads_lift _ _ _
      all_goals simp only [idxRequestWriteMultiData]; omega
    · cases c with
      | ret e => cases e
      | next y => exact reads_bind (reads_pure _ _ _) fun _ _ => reads_lift _ _ _
      | brk y => exact reads_bind (reads_pure _ _ _) fun _ _ => reads_lift _ _ _
  · exact reads_pure _ _ _

/-- Only bytes of the frame are read when it is as long as its function code (and byte count) calls for. -/
theorem reads_parse (cfg : Config) (s : Pdu) (n : Nat) (h : frameLenFor (s.req 1) (s.req 6) ≤ n) :
    (parseRequestR cfg s).Reads (· < n) s.req := by
  have h1 : 1 < n := by
    unfold frameLenFor at h
    repeat' split at h
    all_goals omega
  unfold parseRequestR
  refine reads_bind (reads_rdReq h1) fun fc hfc => ?_
  rw [run_rdReq, rd_lt _ (by decide)] at hfc
  have hfc : s.req 1 = fc := Except.ok.inj hfc
  have h8 : (fc = 1 ∨ fc = 2 ∨ fc = 3 ∨ fc = 4 ∨ fc = 5 ∨ fc = 6) → ∀ i, 2 ≤ i → i < 6 → i < n := fun hx i _ hi => by
    rw [hfc] at h
    unfold frameLenFor at h
    rw [if_pos hx] at h
    omega
  unfold slaveMapperR
  simp only [List.find?_cons, List.find?_nil]
  by_cases h1 : (fc == fcReadCoils) = true
  · simp only [h1]; exact (reads_readers cfg s _ (h8 (.inl (eq_of_beq h1)))).1
  by_cases h2 : (fc == fcReadDiscreteInputs) = true
  · simp only [h1, h2]; exact (reads_readers cfg s _ (h8 (.inr (.inl (eq_of_beq h2))))).2.1
  by_cases h3 : (fc == fcReadHoldingRegisters) = true
  · simp only [h1, h2, h3]; exact (reads_readers cfg s _ (h8 (.inr (.inr (.inl (eq_of_beq h3)))))).2.2.1
  by_cases h4 : (fc == fcReadInputRegisters) = true
  · simp only [h1, h2, h3, h4]; exact (reads_readers cfg s _ (h8 (.inr (.inr (.inr (.inl (eq_of_beq h4))))))).2.2.2
  by_cases h5 : (fc == fcWriteSingleCoil) = true
  · simp only [h1, h2, h3, h4, h5]
    exact reads_writeSingleCoil cfg s _ (h8 (.inr (.inr (.inr (.inr (.inl (eq_of_beq h5)))))))
  by_cases h6 : (fc == fcWriteSingleRegister) = true
  · simp only [h1, h2, h3, h4, h5, h6]
    exact reads_writeSingleReg cfg s _ (h8 (.inr (.inr (.inr (.inr (.inr (eq_of_beq h6)))))))
  by_cases h7 : (fc == fcWriteMultipleCoils) = true
  · simp only [h1, h2, h3, h4, h5, h6, h7]
    have e := hfc.trans (eq_of_beq h7)
    exact reads_writeCoils cfg s n e (by rw [e] at h; exact h)
  by_cases h8 : (fc == fcWriteMultipleRegisters) = true
  · simp only [h1, h2, h3, h4, h5, h6, h7, h8]
    have e := hfc.trans (eq_of_beq h8)
    exact reads_writeRegs cfg s n e (by rw [e] at h; exact h)
  · simp only [h1, h2, h3, h4, h5, h6, h7, h8]
    exact reads_bind (reads_rdReq (by assumption)) fun _ _ => reads_lift _ _ _

end Modbus
