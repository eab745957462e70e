import Verif.Model.RespSteps
import Verif.Proofs.ParseSteps
import Verif.Proofs.PreemptAny
import Verif.Proofs.Rtu

/-! Reading a response while it changes: whatever the bytes read, the callbacks made are those for some contents of the buffer. -/

namespace Modbus
variable {α β : Type}

/-- `l` first. -/
def firstOut (l : List MEvent) (r : C (α × List MEvent)) : C (α × List MEvent) := r >>= fun x => .ok (x.1, l ++ x.2)

theorem firstOut_nil (r : C (α × List MEvent)) : firstOut [] r = r := by
  cases r <;> rfl

theorem firstOut_app (l l' : List MEvent) (r : C (α × List MEvent)) : firstOut l (firstOut l' r) = firstOut (l ++ l') r := by
  cases r with
  | error u => rfl
  | ok x => simp [firstOut]

/-- The possible outcomes when every read may give any byte. -/
def RespM.Torn : RespM α → C (α × List MEvent) → Prop
  | .ret a, r => r = .ok (a, [])
  | .err u, r => r = .error u
  | .rd _ k, r => ∃ b, (k b).Torn r
  | .emit e m, r => ∃ r', m.Torn r' ∧ r = firstOut [e] r'

theorem torn_bind {m : RespM α} {f : α → RespM β} : ∀ {r : C (β × List MEvent)}, (m >>= f).Torn r →
    (∃ u, m.Torn (.error u) ∧ r = .error u) ∨ ∃ a l r', m.Torn (.ok (a, l)) ∧ (f a).Torn r' ∧ r = firstOut l r' := by
  induction m with
  | ret a => intro r h; exact .inr ⟨a, [], r, rfl, h, (firstOut_nil r).symm⟩
  | err u => intro r h; exact .inl ⟨u, rfl, h⟩
  | rd i k ih =>
    intro r h
    obtain ⟨b, h⟩ := h
    rcases ih b h with ⟨u, h1, h2⟩ | ⟨a, l, r', h1, h2, h3⟩
    · exact .inl ⟨u, ⟨b, h1⟩, h2⟩
    · exact .inr ⟨a, l, r', ⟨b, h1⟩, h2, h3⟩
  | emit e m ih =>
    intro r h
    obtain ⟨r1, h, rfl⟩ := h
    rcases ih h with ⟨u, h1, h2⟩ | ⟨a, l, r', h1, h2, h3⟩
    · exact .inl ⟨u, ⟨_, h1, rfl⟩, by rw [h2]; rfl⟩
    · exact .inr ⟨a, e :: l, r', ⟨_, h1, rfl⟩, h2, by rw [h3, firstOut_app]; rfl⟩

theorem torn_lift {c : C α} {r : C (α × List MEvent)} (h : (RespM.lift c).Torn r) : r = (c >>= fun a => .ok (a, [])) := by
  cases c <;> exact h

theorem torn_rdResp {i : Nat} {r : C (U8 × List MEvent)} (h : (rdResp i).Torn r) :
    (i < 256 ∧ ∃ b, r = .ok (b, [])) ∨ (256 ≤ i ∧ r = .error .oobRead) := by
  unfold rdResp rtuBufferSize at h
  split at h
  · obtain ⟨b, h⟩ := h; exact .inl ⟨by assumption, b, h⟩
  · exact .inr ⟨by omega, h⟩

/-- Reading a byte and going on. -/
theorem torn_rd_then {i : Nat} (hi : i < 256) {f : U8 → RespM α} {r : C (α × List MEvent)} (h : (rdResp i >>= f).Torn r) : ∃ b, (f b).Torn r := by
  rcases torn_bind h with ⟨u, h1, h2⟩ | ⟨a, l, r', h1, h2, h3⟩
  · rcases torn_rdResp h1 with ⟨-, b, h⟩ | ⟨h, -⟩
    · cases h
    · omega
  · rcases torn_rdResp h1 with ⟨-, b, h⟩ | ⟨h, -⟩
    · cases h
      rw [firstOut_nil] at h3
      exact ⟨a, h3 ▸ h2⟩
    · omega

theorem torn_lift_then {c : α} {f : α → RespM β} {r : C (β × List MEvent)} (h : (RespM.lift (.ok c) >>= f).Torn r) : (f c).Torn r := h

theorem torn_call {l : List MEvent} : ∀ {f : Unit → RespM α} {r : C (α × List MEvent)}, (callApp l >>= f).Torn r → ∃ r', (f ()).Torn r' ∧ r = firstOut l r' := by
  induction l with
  | nil => intro f r h; exact ⟨r, h, (firstOut_nil r).symm⟩
  | cons e l ih =>
    intro f r h
    obtain ⟨r1, h1, rfl⟩ := h
    obtain ⟨r', h2, rfl⟩ := ih h1
    exact ⟨r', h2, firstOut_app _ _ _⟩

/-- Bits `i, …, i + n - 1` delivered, or a read beyond the buffer. -/
theorem torn_bits (ev : U16 → Bool → MEvent) (adr : U16) : ∀ (n i : Nat) {r : C (Unit × List MEvent)}, (deliverBitsR ev adr n i).Torn r →
    (∃ v : Nat → Bool, (n = 0 ∨ 3 + (i + n - 1) / 8 < 256) ∧ r = .ok ((), (List.range' i n).map fun j => ev (adr + BitVec.ofNat 16 j) (v j))) ∨
      (0 < n ∧ 256 ≤ 3 + (i + n - 1) / 8 ∧ r = .error .oobRead)
  | 0, i, r, h => .inl ⟨fun _ => false, .inl rfl, h⟩
  | n + 1, i, r, h => by
    unfold deliverBitsR at h
    by_cases hi : 3 + i / 8 < 256
    · obtain ⟨b, h⟩ := torn_rd_then hi h
      have : ∃ x r', (deliverBitsR ev adr n (i + 1)).Torn r' ∧ r = firstOut [ev (adr + BitVec.ofNat 16 i) x] r' := by
        split at h
        · obtain ⟨r', h1, h2⟩ := torn_call h; exact ⟨true, r', h1, h2⟩
        · obtain ⟨r', h1, h2⟩ := torn_call h; exact ⟨false, r', h1, h2⟩
      obtain ⟨x, r', h1, rfl⟩ := this
      rcases torn_bits ev adr n (i + 1) h1 with ⟨v, h2, rfl⟩ | ⟨h2, h3, rfl⟩
      · refine .inl ⟨fun j => if j = i then x else v j, .inr ?_, ?_⟩
        · rcases h2 with h2 | h2
          · subst h2; exact hi
          · rwa [show i + (n + 1) - 1 = i + 1 + n - 1 by omega]
        · show Except.ok _ = Except.ok _
          congr 2
          rw [List.range'_succ, List.map_cons]
          dsimp only
          rw [if_pos rfl]
          refine congrArg (List.cons _) ?_
          refine List.map_congr_left fun j hj => ?_
          rw [if_neg]
          rw [List.mem_range'_1] at hj
          omega
      · exact .inr ⟨by omega, by rwa [show i + (n + 1) - 1 = i + 1 + n - 1 by omega], rfl⟩
    · refine .inr ⟨by omega, by omega, ?_⟩
      rcases torn_bind h with ⟨u, h1, h2⟩ | ⟨a, l, r', h1, h2, h3⟩
      · rcases torn_rdResp h1 with ⟨h, -⟩ | ⟨-, h⟩
        · exact absurd h hi
        · cases h; exact h2
      · rcases torn_rdResp h1 with ⟨h, -⟩ | ⟨-, h⟩
        · exact absurd h hi
        · cases h

theorem torn_u16 {i : Nat} (hi : i + 1 < 256) {f : U16 → RespM α} {r : C (α × List MEvent)} (h : (readRespU16 i >>= f).Torn r) : ∃ v, (f v).Torn r := by
  rcases torn_bind h with ⟨u, h1, h2⟩ | ⟨a, l, r', h1, h2, h3⟩
  · obtain ⟨x, h1⟩ := torn_rd_then (by omega) h1
    obtain ⟨y, h1⟩ := torn_rd_then hi h1
    cases h1
  · obtain ⟨x, h1⟩ := torn_rd_then (by omega) h1
    obtain ⟨y, h1⟩ := torn_rd_then hi h1
    cases h1
    rw [firstOut_nil] at h3
    exact ⟨_, h3 ▸ h2⟩

theorem torn_u16_oob {i : Nat} (hi : 256 ≤ i + 1) {f : U16 → RespM α} {r : C (α × List MEvent)} (h : (readRespU16 i >>= f).Torn r) : r = .error .oobRead := by
  have key : ∀ {r : C (U16 × List MEvent)}, (readRespU16 i).Torn r → r = .error .oobRead := by
    intro r h
    by_cases h0 : i < 256
    · obtain ⟨x, h1⟩ := torn_rd_then h0 h
      rcases torn_bind h1 with ⟨u, k1, k2⟩ | ⟨a, l, r', k1, k2, k3⟩
      · rcases torn_rdResp k1 with ⟨h, -⟩ | ⟨-, h⟩
        · omega
        · cases h; exact k2
      · rcases torn_rdResp k1 with ⟨h, -⟩ | ⟨-, h⟩
        · omega
        · cases h
    · rcases torn_bind h with ⟨u, k1, k2⟩ | ⟨a, l, r', k1, k2, k3⟩
      · rcases torn_rdResp k1 with ⟨h, -⟩ | ⟨-, h⟩
        · omega
        · cases h; exact k2
      · rcases torn_rdResp k1 with ⟨h, -⟩ | ⟨-, h⟩
        · omega
        · cases h
  rcases torn_bind h with ⟨u, h1, h2⟩ | ⟨a, l, r', h1, h2, h3⟩
  · cases key h1; exact h2
  · cases key h1

/-- Registers `i, …, i + n - 1` delivered, or a read beyond the buffer. -/
theorem torn_regs (ev : U16 → U16 → MEvent) (adr : U16) : ∀ (n i : Nat) {r : C (Unit × List MEvent)}, (deliverRegsR ev adr n i).Torn r →
    (∃ v : Nat → U16, (n = 0 ∨ i + n ≤ 126) ∧ r = .ok ((), (List.range' i n).map fun j => ev (adr + BitVec.ofNat 16 j) (v j))) ∨
      (0 < n ∧ 126 < i + n ∧ r = .error .oobRead)
  | 0, i, r, h => .inl ⟨fun _ => 0, .inl rfl, h⟩
  | n + 1, i, r, h => by
    unfold deliverRegsR at h
    by_cases hi : 3 + i * 2 + 1 < 256
    · obtain ⟨x, h⟩ := torn_u16 hi h
      obtain ⟨r', h1, rfl⟩ := torn_call h
      rcases torn_regs ev adr n (i + 1) h1 with ⟨v, h2, rfl⟩ | ⟨h2, h3, rfl⟩
      · refine .inl ⟨fun j => if j = i then x else v j, .inr (by omega), ?_⟩
        show Except.ok _ = Except.ok _
        congr 2
        rw [List.range'_succ, List.map_cons]
        dsimp only
        rw [if_pos rfl]
        refine congrArg (List.cons _) ?_
        refine List.map_congr_left fun j hj => ?_
        rw [if_neg]
        rw [List.mem_range'_1] at hj
        omega
      · exact .inr ⟨by omega, by omega, rfl⟩
    · exact .inr ⟨by omega, by omega, torn_u16_oob (show 256 ≤ 3 + i * 2 + 1 by omega) h⟩

/-! ### A buffer that gives the same callbacks -/

/-- A byte with the given bits. -/
def byteOfBits (v : Nat → Bool) : U8 := BitVec.ofNat 8 (((List.range 8).map fun j => if v j then 2 ^ j else 0).sum)

theorem byteOfBits_get (v : Nat → Bool) {j : Nat} (h : j < 8) : (byteOfBits v).getLsbD j = v j := by
  exact packByte_getLsbD v j h

/-- A response buffer delivering the bits `v`. -/
def bitsBuf (slave fc : U8) (v : Nat → Bool) : Buf := fun p => if p = 0 then slave else if p = 1 then fc else byteOfBits fun j => v (8 * (p - 3) + j)

theorem bitsBuf_bit (slave fc : U8) (v : Nat → Bool) (i : Nat) : respBit (bitsBuf slave fc v) i = v i := by
  unfold respBit bitsBuf
  rw [if_neg (by omega), if_neg (by omega), byteOfBits_get _ (by omega)]
  congr 1; omega

/-- A response buffer delivering the registers `v`. -/
def regsBuf (slave fc : U8) (v : Nat → U16) : Buf := fun p =>
  if p = 0 then slave else if p = 1 then fc else if p % 2 = 1 then hiByte (v ((p - 3) / 2)) else loByte (v ((p - 3) / 2))

theorem regsBuf_reg (slave fc : U8) (v : Nat → U16) (i : Nat) : respReg (regsBuf slave fc v) i = v i := by
  unfold respReg regsBuf
  rw [if_neg (by omega), if_neg (by omega), if_pos (by omega), if_neg (by omega), if_neg (by omega), if_neg (by omega),
    show (3 + 2 * i - 3) / 2 = i by omega, show (4 + 2 * i - 3) / 2 = i by omega, u16of_bytes]

theorem deliverBits_oob (q : U16) (resp : Buf) (ev : U16 → Bool → MEvent) (adr : U16) (h : 2024 < q.toNat) :
    deliverBits q resp ev adr = .error .oobRead := by
  unfold deliverBits
  rw [forLoop_error (body := deliverBitBody resp ev adr) q.toNat 0 2024 [] .oobRead (by omega)]
  · rfl
  · intro j s _ hj
    unfold deliverBitBody
    rw [rd_ok _ (show idxRespReadData + j / 8 < 256 by simp only [idxRespReadData]; omega), okBind]
    split
    · exact ⟨_, rfl⟩
    · exact ⟨_, rfl⟩
  · intro s
    rfl

/-- The callbacks of an outcome. -/
def evsOf (r : C (α × List MEvent)) : C (List MEvent) := r >>= fun x => .ok x.2

/-- The bit callbacks of a response read while it changes are those of some response. -/
theorem torn_bits_explained {ev : U16 → Bool → MEvent} {adr q : U16} {r : C (Ret × List MEvent)} {x : Ret} (slave fc : U8)
    (h : (deliverBitsR ev adr q.toNat 0 >>= fun _ => RespM.ret x).Torn r) :
    ∃ v, deliverBits q (bitsBuf slave fc v) ev adr = evsOf r := by
  rcases torn_bind h with ⟨u, h1, rfl⟩ | ⟨a, l, r', h1, h2, rfl⟩
  · rcases torn_bits ev adr q.toNat 0 h1 with ⟨v, h2, h3⟩ | ⟨h2, h3, h4⟩
    · cases h3
    · cases h4
      exact ⟨fun _ => false, deliverBits_oob q _ ev adr (by omega)⟩
  · rcases torn_bits ev adr q.toNat 0 h1 with ⟨v, h3, h4⟩ | ⟨h3, h4, h5⟩
    · obtain rfl : r' = .ok (x, []) := h2
      simp only [Except.ok.injEq, Prod.mk.injEq, true_and] at h4
      refine ⟨v, ?_⟩
      rw [deliverBits_ok q _ ev adr (by omega)]
      simp only [bitsBuf_bit, firstOut, evsOf, okBind, List.append_nil]
      rw [h4, List.range_eq_range']
    · cases h5

theorem torn_regs_explained {ev : U16 → U16 → MEvent} {adr q : U16} {r : C (Ret × List MEvent)} {x : Ret} (slave fc : U8)
    (h : (deliverRegsR ev adr q.toNat 0 >>= fun _ => RespM.ret x).Torn r) :
    ∃ v, deliverRegs q (regsBuf slave fc v) ev adr = evsOf r := by
  rcases torn_bind h with ⟨u, h1, rfl⟩ | ⟨a, l, r', h1, h2, rfl⟩
  · rcases torn_regs ev adr q.toNat 0 h1 with ⟨v, h2, h3⟩ | ⟨h2, h3, h4⟩
    · cases h3
    · cases h4
      exact ⟨fun _ => 0, deliverRegs_oob q _ ev adr (by omega)⟩
  · rcases torn_regs ev adr q.toNat 0 h1 with ⟨v, h3, h4⟩ | ⟨h3, h4, h5⟩
    · obtain rfl : r' = .ok (x, []) := h2
      simp only [Except.ok.injEq, Prod.mk.injEq, true_and] at h4
      refine ⟨v, ?_⟩
      rw [deliverRegs_ok q _ ev adr (by omega)]
      simp only [regsBuf_reg, firstOut, evsOf, okBind, List.append_nil]
      rw [h4, List.range_eq_range']
    · cases h5

/-- A buffer beginning with three given bytes. -/
def headBuf (a b c : U8) : Buf := fun p => if p = 0 then a else if p = 1 then b else c

theorem torn_update {m : MMsg} {r : C (Ret × List MEvent)} (h : (updateMasterDataR m).Torn r) :
    ∃ resp : Buf, resp 1 &&& exceptionCodeMask ≠ exceptionCodeMask ∧ evsOf (updateMasterData { m with resp := resp }) = evsOf r := by
  unfold updateMasterDataR at h
  obtain ⟨slave, h⟩ := torn_rd_then (by decide) h
  obtain ⟨fc, h⟩ := torn_rd_then (by decide) h
  rw [read_adr] at h
  replace h := torn_lift_then h
  rw [read_qty] at h
  replace h := torn_lift_then h
  have red : ∀ resp : Buf, resp 0 = slave → updateMasterData { m with resp := resp } = (do
      let adr := u16of (m.req 2) (m.req 3)
      let qty := u16of (m.req 4) (m.req 5)
      if resp 1 = fcReadCoils then return (RET_OK, ← deliverBits qty resp (.coilRead slave) adr)
      else if resp 1 = fcReadDiscreteInputs then return (RET_OK, ← deliverBits qty resp (.disinRead slave) adr)
      else if resp 1 = fcReadInputRegisters then return (RET_OK, ← deliverRegs qty resp (.inregRead slave) adr)
      else if resp 1 = fcReadHoldingRegisters then return (RET_OK, ← deliverRegs qty resp (.hregRead slave) adr)
      else return (RET_ERROR, [])) := by
    intro resp h0
    unfold updateMasterData
    rw [rd_zero, okBind, rd_one, okBind, read_adr, okBind, read_qty, okBind]
    subst h0
    rfl
  have fin : ∀ (c : C (List MEvent)) (y : Ret), evsOf (do let l ← c; return (y, l)) = c := by
    intro c y; cases c <;> rfl
  split at h
  · next e =>
    obtain ⟨v, hv⟩ := torn_bits_explained slave fc h
    refine ⟨bitsBuf slave fc v, by rw [show bitsBuf slave fc v 1 = fc from rfl, e]; decide, ?_⟩
    rw [red _ rfl, show bitsBuf slave fc v 1 = fc from rfl]
    simp only [e, if_true]
    rw [fin, ← e, hv]
  split at h
  · next n1 e =>
    obtain ⟨v, hv⟩ := torn_bits_explained slave fc h
    refine ⟨bitsBuf slave fc v, by rw [show bitsBuf slave fc v 1 = fc from rfl, e]; decide, ?_⟩
    rw [red _ rfl, show bitsBuf slave fc v 1 = fc from rfl]
    simp only [e, if_true]
    rw [if_neg (by decide), fin, ← e, hv]
  split at h
  · next n1 n2 e =>
    obtain ⟨v, hv⟩ := torn_regs_explained slave fc h
    refine ⟨regsBuf slave fc v, by rw [show regsBuf slave fc v 1 = fc from rfl, e]; decide, ?_⟩
    rw [red _ rfl, show regsBuf slave fc v 1 = fc from rfl]
    simp only [e, if_true]
    rw [if_neg (by decide), if_neg (by decide), fin, ← e, hv]
  split at h
  · next n1 n2 n3 e =>
    obtain ⟨v, hv⟩ := torn_regs_explained slave fc h
    refine ⟨regsBuf slave fc v, by rw [show regsBuf slave fc v 1 = fc from rfl, e]; decide, ?_⟩
    rw [red _ rfl, show regsBuf slave fc v 1 = fc from rfl]
    simp only [e, if_true]
    rw [if_neg (by decide), if_neg (by decide), if_neg (by decide), fin, ← e, hv]
  · refine ⟨headBuf slave 5 0, show (5 : U8) &&& exceptionCodeMask ≠ exceptionCodeMask by decide, ?_⟩
    obtain rfl : r = .ok (RET_ERROR, []) := h
    rw [red _ rfl]
    rfl

theorem torn_write {m : MMsg} {r : C (Ret × List MEvent)} (h : (reportWriteConfirmationR m).Torn r) :
    ∃ resp : Buf, resp 1 &&& exceptionCodeMask ≠ exceptionCodeMask ∧ evsOf (reportWriteConfirmation { m with resp := resp }) = evsOf r := by
  unfold reportWriteConfirmationR at h
  obtain ⟨slave, h⟩ := torn_rd_then (by decide) h
  rw [read_adr] at h
  replace h := torn_lift_then h
  obtain ⟨fc, h⟩ := torn_rd_then (by decide) h
  rw [read_qty] at h
  have red : ∀ resp : Buf, resp 0 = slave → reportWriteConfirmation { m with resp := resp } = (
      if resp 1 = fcWriteSingleCoil then .ok (RET_OK, [.coilWrite slave (u16of (m.req 2) (m.req 3)) 1])
      else if resp 1 = fcWriteSingleRegister then .ok (RET_OK, [.hregWrite slave (u16of (m.req 2) (m.req 3)) 1])
      else if resp 1 = fcWriteMultipleCoils then .ok (RET_OK, [.coilWrite slave (u16of (m.req 2) (m.req 3)) (u16of (m.req 4) (m.req 5))])
      else .ok (RET_OK, [.hregWrite slave (u16of (m.req 2) (m.req 3)) (u16of (m.req 4) (m.req 5))])) := by
    intro resp h0
    unfold reportWriteConfirmation
    rw [rd_zero, okBind, read_adr, okBind, rd_one, okBind, read_qty]
    subst h0
    rfl
  split at h
  · obtain ⟨r', h1, rfl⟩ := torn_call h
    obtain rfl : r' = .ok (RET_OK, []) := h1
    exact ⟨headBuf slave fcWriteSingleCoil 0, show (fcWriteSingleCoil : U8) &&& exceptionCodeMask ≠ exceptionCodeMask by decide, by rw [red _ rfl]; rfl⟩
  split at h
  · obtain ⟨r', h1, rfl⟩ := torn_call h
    obtain rfl : r' = .ok (RET_OK, []) := h1
    exact ⟨headBuf slave fcWriteSingleRegister 0, show (fcWriteSingleRegister : U8) &&& exceptionCodeMask ≠ exceptionCodeMask by decide, by rw [red _ rfl]; rfl⟩
  split at h
  · replace h := torn_lift_then h
    obtain ⟨r', h1, rfl⟩ := torn_call h
    obtain rfl : r' = .ok (RET_OK, []) := h1
    exact ⟨headBuf slave fcWriteMultipleCoils 0, show (fcWriteMultipleCoils : U8) &&& exceptionCodeMask ≠ exceptionCodeMask by decide, by rw [red _ rfl]; rfl⟩
  · replace h := torn_lift_then h
    obtain ⟨r', h1, rfl⟩ := torn_call h
    obtain rfl : r' = .ok (RET_OK, []) := h1
    exact ⟨headBuf slave fcWriteMultipleRegisters 0, show (fcWriteMultipleRegisters : U8) &&& exceptionCodeMask ≠ exceptionCodeMask by decide, by rw [red _ rfl]; rfl⟩

theorem torn_exception {m : MMsg} {r : C (Ret × List MEvent)} (h : (processExceptionR m).Torn r) :
    ∃ resp : Buf, resp 1 &&& exceptionCodeMask = exceptionCodeMask ∧ evsOf (processException { m with resp := resp }) = evsOf r := by
  unfold processExceptionR at h
  obtain ⟨slave, h⟩ := torn_rd_then (by decide) h
  obtain ⟨fc, h⟩ := torn_rd_then (by decide) h
  obtain ⟨code, h⟩ := torn_rd_then (by decide) h
  rw [read_adr] at h
  replace h := torn_lift_then h
  rw [read_qty] at h
  replace h := torn_lift_then h
  obtain ⟨r', h1, rfl⟩ := torn_call h
  obtain rfl : r' = .ok (RET_OK, []) := h1
  have a1 : ∀ x : U8, (x ||| 0x80) &&& exceptionCodeMask = exceptionCodeMask := by decide
  have a2 : ∀ x : U8, (x ||| 0x80) &&& ~~~exceptionCodeMask = x &&& ~~~exceptionCodeMask := by decide
  refine ⟨headBuf slave (fc ||| 0x80) code, a1 fc, ?_⟩
  unfold processException
  simp only [rd_zero, okBind, rd_one, read_adr, read_qty]
  rw [rd_ok _ (show idxRespExceptionCode < 256 by decide), okBind]
  simp only [headBuf, show (1 : Nat) ≠ 0 from by decide, if_false, if_true, a2, show idxRespExceptionCode ≠ 0 from by decide, show idxRespExceptionCode ≠ 1 from by decide]
  simp [firstOut, evsOf]

/-- **The callbacks for a response read while it changes are those for some contents of the buffer.** -/
theorem torn_explained {m : MMsg} {r : C (Ret × List MEvent)} (h : (readSlaveRespR m).Torn r) :
    ∃ resp : Buf, respEvents { m with resp := resp } = evsOf r := by
  unfold readSlaveRespR at h
  obtain ⟨fc, h⟩ := torn_rd_then (by decide) h
  have red : ∀ resp : Buf, respEvents { m with resp := resp } =
      if resp 1 &&& exceptionCodeMask = exceptionCodeMask then evsOf (processException { m with resp := resp })
      else evsOf (processResponse { m with resp := resp }) := by
    intro resp
    unfold respEvents readSlaveResp
    rw [if_neg (by decide)]
    unfold respContainsException
    rw [rd_one, okBind, pureOk, okBind]
    split
    · next hh =>
      have hh : resp 1 &&& exceptionCodeMask = exceptionCodeMask := of_decide_eq_true hh
      rw [if_pos hh]; rfl
    · next hh =>
      have hh : ¬ (resp 1 &&& exceptionCodeMask = exceptionCodeMask) := fun e => hh (decide_eq_true e)
      rw [if_neg hh]; rfl
  split at h
  · obtain ⟨resp, h1, h2⟩ := torn_exception h
    exact ⟨resp, by rw [red, if_pos h1, h2]⟩
  · unfold processResponseR at h
    rw [rd_one] at h
    replace h := torn_lift_then h
    have red2 : ∀ resp : Buf, processResponse { m with resp := resp } = respMapperLoop { m with resp := resp } (m.req 1) respMapper := by
      intro resp
      unfold processResponse
      rw [rd_one, okBind]
    generalize m.req 1 = fc0 at h red2
    unfold respMapperR at h
    unfold respMapper at red2
    simp only [respMapperLoopR] at h
    simp only [respMapperLoop] at red2
    have upd : ∀ resp : Buf, ∀ c, resp 1 &&& exceptionCodeMask ≠ exceptionCodeMask → processResponse { m with resp := resp } = c →
        evsOf c = evsOf r → ∃ resp : Buf, respEvents { m with resp := resp } = evsOf r := by
      intro resp c h1 h2 h3
      exact ⟨resp, by rw [red, if_neg h1, h2, h3]⟩
    iterate 4
      split at h
      · next e =>
        obtain ⟨resp, h1, h2⟩ := torn_update h
        refine upd resp _ h1 ?_ h2
        rw [red2, ← e]; rfl
    iterate 4
      split at h
      · next e =>
        obtain ⟨resp, h1, h2⟩ := torn_write h
        refine upd resp _ h1 ?_ h2
        rw [red2, ← e]; rfl
    obtain rfl : r = .ok (RET_ERROR, []) := h
    refine upd (headBuf 0 0 0) (.ok (RET_ERROR, [])) (by decide) ?_ rfl
    rw [red2]
    simp only [*, if_false]

end Modbus
