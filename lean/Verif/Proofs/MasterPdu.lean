import Verif.Spec.Master
import Verif.Proofs.Basic

/-! The master's request builders produce the specified PDU; response processing refines the specification. -/

namespace Modbus

open Spec

/-- Outcome of building the PDU of request `r` in message `m`. -/
structure Built (m m' : MMsg) (r : MReq) : Prop where
  len : m'.reqLen.toNat = 1 + (reqPdu r).length
  len_le : m'.reqLen.toNat ≤ 253
  bytes : m'.req.bytes 1 (reqPdu r).length = reqPdu r
  resp : m'.resp = m.resp
  respLen : m'.respLen = m.respLen

/-- `callee b` starting at index 1: five bytes and a tail. -/
theorem bytes_five (b : Buf) (n : Nat) (f a0 a1 q0 q1 : U8) (tl : List U8) (h1 : b 1 = f) (h2 : b 2 = a0)
    (h3 : b 3 = a1) (h4 : b 4 = q0) (h5 : b 5 = q1) (hn : n = 5 + tl.length) (ht : b.bytes 6 tl.length = tl) :
    b.bytes 1 n = f :: ([a0, a1] ++ [q0, q1] ++ tl) := by
  subst hn
  rw [Buf.bytes_add, ht]
  simp [Buf.bytes, List.range_succ, h1, h2, h3, h4, h5]

theorem header_writes (b : Buf) (fc : U8) (adr q : U16) :
    ∃ b', (do
      let b ← wr b idxFunctionCode fc
      let b ← writeU16 b idxRequestAdr adr
      writeU16 b idxRequestQty q : C Buf) = .ok b' ∧
    b' 1 = fc ∧ b' 2 = hiByte adr ∧ b' 3 = loByte adr ∧ b' 4 = hiByte q ∧ b' 5 = loByte q := by
  refine ⟨_, by rw [wr_ok _ _ (by decide), ok_bind, writeU16_ok _ _ (by decide), ok_bind, writeU16_ok _ _ (by decide)], ?_⟩
  simp [Buf.set_apply, idxFunctionCode, idxRequestAdr, idxRequestQty]

/-- Variant with an arbitrary continuation. -/
theorem header_bind {α : Type} (b : Buf) (fc : U8) (adr q : U16) (k : Buf → C α) :
    ∃ b', (do
      let b ← wr b idxFunctionCode fc
      let b ← writeU16 b idxRequestAdr adr
      let b ← writeU16 b idxRequestQty q
      k b) = k b' ∧
    b' 1 = fc ∧ b' 2 = hiByte adr ∧ b' 3 = loByte adr ∧ b' 4 = hiByte q ∧ b' 5 = loByte q := by
  refine ⟨_, by rw [wr_ok _ _ (by decide), ok_bind, writeU16_ok _ _ (by decide), ok_bind, writeU16_ok _ _ (by decide), ok_bind], ?_⟩
  simp [Buf.set_apply, idxFunctionCode, idxRequestAdr, idxRequestQty]

theorem readRegRequest_refuse (m : MMsg) (fc : U8) (adr q : U16) (h : ¬ (1 ≤ q.toNat ∧ q.toNat ≤ maxLenToRead fc)) :
    readRegRequest m fc adr q = .ok (RET_ERROR, m) := by
  unfold readRegRequest minRegCoilQty
  rw [if_neg (by omega)]

theorem built_of_six {m : MMsg} {b' : Buf} {r : MReq} (hp : reqPayload r = [])
    (h1 : b' 1 = reqFc r) (h2 : b' 2 = hiByte (reqAdr r)) (h3 : b' 3 = loByte (reqAdr r))
    (h4 : b' 4 = hiByte (reqField r)) (h5 : b' 5 = loByte (reqField r)) :
    Built m { m with req := b', reqLen := 6 } r := by
  have e : reqPdu r = reqFc r :: ([hiByte (reqAdr r), loByte (reqAdr r)] ++ [hiByte (reqField r), loByte (reqField r)] ++ []) := by
    simp [reqPdu, beBytes_eq, hp]
  refine ⟨by rw [e]; rfl, by show BitVec.toNat (6 : U8) ≤ 253; decide, ?_, rfl, rfl⟩
  rw [e]
  exact bytes_five _ _ _ _ _ _ _ _ h1 h2 h3 h4 h5 rfl rfl

theorem readRegRequest_built (m : MMsg) (r : MReq) (hp : reqPayload r = [])
    (h : 1 ≤ (reqField r).toNat ∧ (reqField r).toNat ≤ maxLenToRead (reqFc r)) :
    ∃ m', readRegRequest m (reqFc r) (reqAdr r) (reqField r) = .ok (RET_OK, m') ∧ Built m m' r := by
  obtain ⟨b', e, h1, h2, h3, h4, h5⟩ := header_bind (α := Ret × MMsg) m.req (reqFc r) (reqAdr r) (reqField r)
    (fun b => pure (RET_OK, { m with req := b, reqLen := readRequestLen }))
  refine ⟨_, ?_, built_of_six hp h1 h2 h3 h4 h5⟩
  unfold readRegRequest minRegCoilQty
  rw [if_pos (by omega), e]
  rfl

theorem callerRd_ok {α : Type} (l : List α) (i : Nat) (h : i < l.length) : callerRd (some l) i = .ok l[i] := by
  simp [callerRd, List.getElem?_eq_getElem h]

/-- The register payload loop. -/
theorem writeRegs_loop (l : List U16) (n : Nat) (hn : n ≤ l.length) (h123 : n ≤ 123) (b : Buf) :
    ∃ b', forLoop (reqRegsBody (some l)) n 0 b = .ok (.next b') ∧ (∀ j, j < 7 → b' j = b j) ∧
      ∀ i, (h : i < n) → b' (7 + 2 * i) = hiByte (l[i]'(by omega)) ∧ b' (8 + 2 * i) = loByte (l[i]'(by omega)) := by
  obtain ⟨c, h1, h2⟩ := forLoop_inv (body := reqRegsBody (some l))
    (Inv := fun k b' => (∀ j, j < 7 → b' j = b j) ∧
      ∀ i, (h : i < k) → (hl : i < l.length) → b' (7 + 2 * i) = hiByte l[i] ∧ b' (8 + 2 * i) = loByte l[i])
    (B := fun _ => False) (R := fun _ => False) n 0 b
    (by
      intro k b' _ hk ⟨i1, i2⟩
      have hk' : k < l.length := by omega
      refine ⟨.next ((b'.set (7 + k * 2) (hiByte l[k])).set (7 + k * 2 + 1) (loByte l[k])), ?_, ?_⟩
      · unfold reqRegsBody
        rw [callerRd_ok l k hk', ok_bind, writeU16_ok _ _ (by simp only [idxRequestWriteMultiData]; omega)]
        rfl
      · refine ⟨fun j hj => ?_, fun i hi hl => ?_⟩
        · rw [Buf.set_ne _ _ (by omega), Buf.set_ne _ _ (by omega)]
          exact i1 j hj
        · by_cases hik : i = k
          · subst hik
            constructor
            · rw [Buf.set_ne _ _ (by omega), show 7 + 2 * i = 7 + i * 2 by omega, Buf.set_same]
            · rw [show 8 + 2 * i = 7 + i * 2 + 1 by omega, Buf.set_same]
          · rw [Buf.set_ne _ _ (by omega), Buf.set_ne _ _ (by omega), Buf.set_ne _ _ (by omega), Buf.set_ne _ _ (by omega)]
            exact i2 i (by omega) hl)
    ⟨fun _ _ => rfl, fun i hi => by omega⟩
  cases c with
  | next b' => exact ⟨b', h1, h2.1, fun i hi => h2.2 i (by omega) (by omega)⟩
  | brk _ => exact h2.elim
  | ret _ => exact h2.elim

theorem flatMap_beBytes_length (l : List U16) : (l.flatMap fun v => beBytes v.toNat).length = 2 * l.length := by
  induction l with
  | nil => rfl
  | cons x l ih => simp [beBytes] at ih ⊢; omega

theorem flatMap_beBytes_eq (l : List U16) (b : Buf) (p : Nat)
    (h : ∀ i, (h : i < l.length) → b (p + 2 * i) = hiByte l[i] ∧ b (p + 1 + 2 * i) = loByte l[i]) :
    b.bytes p (2 * l.length) = l.flatMap fun v => beBytes v.toNat := by
  induction l generalizing p with
  | nil => rfl
  | cons x l ih =>
    have h0 := h 0 (by simp)
    simp at h0
    rw [List.length_cons, show 2 * (l.length + 1) = 2 + 2 * l.length by omega, Buf.bytes_add, List.flatMap_cons, beBytes_eq]
    congr 1
    · simp [Buf.bytes, List.range_succ, h0]
    · apply ih
      intro i hi
      have := h (i + 1) (by simpa using hi)
      simp only [List.getElem_cons_succ] at this
      constructor
      · rw [← this.1]; congr 1; omega
      · rw [← this.2]; congr 1; omega

/-- The coil payload loop, on zeroed bytes. -/
theorem writeCoils_loop (l : List Bool) (n : Nat) (hn : n ≤ l.length) (h1968 : n ≤ 1968) (b : Buf)
    (hz : ∀ j, 7 ≤ j → j < 7 + (n + 7) / 8 → b j = 0) :
    ∃ b', forLoop (reqCoilsBody (some l)) n 0 b = .ok (.next b') ∧ (∀ j, j < 7 → b' j = b j) ∧
      ∀ k, k < (n + 7) / 8 → ∀ j, j < 8 → (b' (7 + k)).getLsbD j = (l.take n).getD (8 * k + j) false := by
  obtain ⟨c, h1, h2⟩ := forLoop_inv (body := reqCoilsBody (some l))
    (Inv := fun i b' => (∀ j, j < 7 → b' j = b j) ∧
      ∀ k, k < (n + 7) / 8 → ∀ j, j < 8 → (b' (7 + k)).getLsbD j = (l.take i).getD (8 * k + j) false)
    (B := fun _ => False) (R := fun _ => False) n 0 b
    (by
      intro i b' _ hi ⟨i1, i2⟩
      have hi' : i < l.length := by omega
      refine ⟨.next (b'.set (7 + i / 8) (b' (7 + i / 8) ||| BitVec.ofInt 8 ((if l[i] then (1 : Int) else 0) * 2 ^ (i % 8)))), ?_, ?_⟩
      · unfold reqCoilsBody
        rw [callerRd_ok l i hi', ok_bind, rd_ok _ (by simp only [idxRequestWriteMultiData]; omega), ok_bind,
          wr_ok _ _ (by simp only [idxRequestWriteMultiData]; omega)]
        rfl
      · refine ⟨fun j hj => ?_, fun k hk j hj => ?_⟩
        · rw [Buf.set_ne _ _ (by omega)]
          exact i1 j hj
        · have e1 : (l.take (i + 1)).getD (8 * k + j) false =
              if 8 * k + j = i then l[i] else (l.take i).getD (8 * k + j) false := by
            simp only [List.getD_eq_getElem?_getD, List.getElem?_take]
            by_cases hc : 8 * k + j = i
            · rw [if_pos hc, if_pos (by omega), hc, List.getElem?_eq_getElem hi']; rfl
            · rw [if_neg hc]
              by_cases hd : 8 * k + j < i
              · rw [if_pos (by omega), if_pos hd]
              · rw [if_neg (by omega), if_neg hd]
          have e2 := i2 k hk j hj
          rw [e1, Buf.set_apply]
          by_cases hk' : k = i / 8
          · subst hk'
            rw [if_pos rfl, BitVec.getLsbD_or, e2, shiftedBit _ _ _ (by omega) hj]
            by_cases hc : 8 * (i / 8) + j = i
            · have hj' : j = i % 8 := by omega
              rw [if_pos hc, decide_eq_true hj', Bool.and_true, hc]
              have : (l.take i).getD i false = false := by
                simp [List.getD_eq_getElem?_getD, List.getElem?_take]
              rw [this, Bool.false_or]
            · rw [if_neg hc, decide_eq_false (by omega), Bool.and_false, Bool.or_false]
          · rw [if_neg (by omega), if_neg (by omega), e2])
    ⟨fun _ _ => rfl, fun k hk j hj => by rw [hz (7 + k) (by omega) (by omega)]; simp⟩
  cases c with
  | next b' => 
    refine ⟨b', h1, h2.1, ?_⟩
    have := h2.2
    rwa [Nat.zero_add] at this
  | brk _ => exact h2.elim
  | ret _ => exact h2.elim

theorem packBits_eq_bytes (l : List Bool) (b : Buf) (p : Nat)
    (h : ∀ k, k < (l.length + 7) / 8 → ∀ j, j < 8 → (b (p + k)).getLsbD j = l.getD (8 * k + j) false) :
    b.bytes p ((l.length + 7) / 8) = packBits l := by
  apply List.ext_getElem
  · simp [packBits_length]
  · intro k h1 h2
    simp at h1
    apply u8_ext
    intro j hj
    rw [packBits_getElem _ _ h2 _ hj, Buf.bytes_getElem, h k h1 j hj]

theorem checkNull_true : checkNullPtr true = RET_OK := rfl

theorem writeMultipleRegReq_go (m : MMsg) (p : ReqParam) (h : 1 ≤ p.qty.toNat ∧ p.qty.toNat ≤ 123) :
    writeMultipleRegReq true m p = (do
      let b ← wr m.req idxFunctionCode fcWriteMultipleRegisters
      let b ← writeU16 b idxRequestAdr p.adr
      let b ← writeU16 b idxRequestQty p.qty
      let b ← wr b idxRequestByteCnt (BitVec.ofNat 8 (p.qty.toNat * 2))
      match ← forLoop (reqRegsBody p.regs) p.qty.toNat 0 b with
      | .ret e => nomatch e
      | .next b | .brk b =>
        let bc ← rd b idxRequestByteCnt
        return (RET_OK, { m with req := b, reqLen := writeMultiRequestLen + bc })) := by
  unfold writeMultipleRegReq
  rw [if_neg (by simp [checkNull_true]), if_neg (by unfold maxWriteRegQty minRegCoilQty; omega)]
  rfl

theorem writeMultipleRegReq_refuse (m : MMsg) (p : ReqParam) (h : ¬ (1 ≤ p.qty.toNat ∧ p.qty.toNat ≤ 123)) :
    writeMultipleRegReq true m p = .ok (RET_ERROR, m) := by
  unfold writeMultipleRegReq
  rw [if_neg (by simp [checkNull_true]), if_pos (by unfold maxWriteRegQty minRegCoilQty; omega)]

theorem writeMultipleCoilsReq_go (m : MMsg) (p : ReqParam) (h : 1 ≤ p.qty.toNat ∧ p.qty.toNat ≤ 1968) :
    writeMultipleCoilsReq true m p = (do
      let b ← wr m.req idxFunctionCode fcWriteMultipleCoils
      let b ← writeU16 b idxRequestAdr p.adr
      let b ← writeU16 b idxRequestQty p.qty
      let b ← wr b idxRequestByteCnt (coilDinByteCount p.qty)
      let b ← clearStatusBytes b idxRequestWriteMultiData (coilDinByteCount p.qty).toNat
      match ← forLoop (reqCoilsBody p.coils) p.qty.toNat 0 b with
      | .ret e => nomatch e
      | .next b | .brk b =>
        let bc ← rd b idxRequestByteCnt
        return (RET_OK, { m with req := b, reqLen := writeMultiRequestLen + bc })) := by
  unfold writeMultipleCoilsReq
  rw [if_neg (by simp [checkNull_true]), if_neg (by unfold maxWriteCoilsQty minRegCoilQty; omega)]
  rfl

theorem writeMultipleCoilsReq_refuse (m : MMsg) (p : ReqParam) (h : ¬ (1 ≤ p.qty.toNat ∧ p.qty.toNat ≤ 1968)) :
    writeMultipleCoilsReq true m p = .ok (RET_ERROR, m) := by
  unfold writeMultipleCoilsReq
  rw [if_neg (by simp [checkNull_true]), if_pos (by unfold maxWriteCoilsQty minRegCoilQty; omega)]

theorem writeMultipleReg_built (m : MMsg) (adr q : U16) (s : U8) (l : List U16) (hl : q.toNat ≤ l.length)
    (hq : 1 ≤ q.toNat ∧ q.toNat ≤ 123) :
    ∃ m', writeMultipleRegReq true m (MReq.writeMultipleReg adr q s (some l)).param = .ok (RET_OK, m') ∧
      Built m m' (.writeMultipleReg adr q s (some l)) := by
  rw [writeMultipleRegReq_go _ _ hq]
  simp only [MReq.param]
  obtain ⟨b1, e, h1, h2, h3, h4, h5⟩ := header_bind (α := Ret × MMsg) m.req fcWriteMultipleRegisters adr q
    (fun b => do
      let b ← wr b idxRequestByteCnt (BitVec.ofNat 8 (q.toNat * 2))
      match ← forLoop (reqRegsBody (some l)) q.toNat 0 b with
      | .ret e => nomatch e
      | .next b | .brk b =>
        let bc ← rd b idxRequestByteCnt
        return (RET_OK, { m with req := b, reqLen := writeMultiRequestLen + bc }))
  rw [e, wr_ok _ _ (by decide), ok_bind]
  obtain ⟨b2, e2, k1, k2⟩ := writeRegs_loop l q.toNat hl hq.2 (b1.set idxRequestByteCnt (BitVec.ofNat 8 (q.toNat * 2)))
  have hbc : b2 6 = BitVec.ofNat 8 (2 * q.toNat) := by
    rw [k1 6 (by omega), Buf.set_same, Nat.mul_comm]
  rw [e2, ok_bind]
  simp only
  rw [rd_ok _ (by decide), ok_bind, show b2 idxRequestByteCnt = BitVec.ofNat 8 (2 * q.toNat) from hbc]
  have hlt : (l.take q.toNat).length = q.toNat := by simp [hl]
  have hpay : b2.bytes 7 (2 * q.toNat) = (l.take q.toNat).flatMap fun v => beBytes v.toNat := by
    have := flatMap_beBytes_eq (l.take q.toNat) b2 7 (by
      intro i hi
      simp only [List.getElem_take]
      exact k2 i (by omega))
    rwa [hlt] at this
  have e3 : reqPdu (.writeMultipleReg adr q s (some l)) =
      16 :: ([hiByte adr, loByte adr] ++ [hiByte q, loByte q] ++
        (BitVec.ofNat 8 (2 * q.toNat) :: (l.take q.toNat).flatMap fun v => beBytes v.toNat)) := by
    simp [reqPdu, reqFc, reqAdr, reqField, reqPayload, beBytes_eq]
  have hlen : (reqPdu (.writeMultipleReg adr q s (some l))).length = 6 + 2 * q.toNat := by
    rw [e3]
    simp only [List.length_cons, List.length_append, List.length_nil, flatMap_beBytes_length, hlt]
    omega
  have hl8 : (writeMultiRequestLen + BitVec.ofNat 8 (2 * q.toNat)).toNat = 7 + 2 * q.toNat := by
    rw [BitVec.toNat_add, BitVec.toNat_ofNat]
    show (7 + _ ) % _ = _
    omega
  refine ⟨_, rfl, ?_, ?_, ?_, rfl, rfl⟩
  · rw [hlen]; refine hl8.trans ?_; omega
  · refine Nat.le_trans (Nat.le_of_eq hl8) ?_; omega
  · show b2.bytes 1 _ = _
    rw [hlen, e3]
    have hs : ∀ j, j ≠ 6 → (b1.set idxRequestByteCnt (BitVec.ofNat 8 (q.toNat * 2))) j = b1 j := fun j hj => Buf.set_ne _ _ hj
    apply bytes_five
    · rw [k1 1 (by omega), hs _ (by omega), h1]
    · rw [k1 2 (by omega), hs _ (by omega), h2]
    · rw [k1 3 (by omega), hs _ (by omega), h3]
    · rw [k1 4 (by omega), hs _ (by omega), h4]
    · rw [k1 5 (by omega), hs _ (by omega), h5]
    · simp only [List.length_cons, flatMap_beBytes_length, hlt]; omega
    · rw [List.length_cons, flatMap_beBytes_length, hlt, show 2 * q.toNat + 1 = 1 + 2 * q.toNat by omega, Buf.bytes_add, hpay]
      simp [Buf.bytes, hbc]

theorem writeMultipleCoils_built (m : MMsg) (adr q : U16) (s : U8) (l : List Bool) (hl : q.toNat ≤ l.length)
    (hq : 1 ≤ q.toNat ∧ q.toNat ≤ 1968) :
    ∃ m', writeMultipleCoilsReq true m (MReq.writeMultipleCoils adr q s (some l)).param = .ok (RET_OK, m') ∧
      Built m m' (.writeMultipleCoils adr q s (some l)) := by
  rw [writeMultipleCoilsReq_go _ _ hq]
  simp only [MReq.param]
  have hbcn := coilDinByteCount_toNat q (by omega)
  have hbce : coilDinByteCount q = BitVec.ofNat 8 ((q.toNat + 7) / 8) := by
    apply BitVec.eq_of_toNat_eq
    rw [hbcn, BitVec.toNat_ofNat]; omega
  obtain ⟨b1, e, h1, h2, h3, h4, h5⟩ := header_bind (α := Ret × MMsg) m.req fcWriteMultipleCoils adr q
    (fun b => do
      let b ← wr b idxRequestByteCnt (coilDinByteCount q)
      let b ← clearStatusBytes b idxRequestWriteMultiData (coilDinByteCount q).toNat
      match ← forLoop (reqCoilsBody (some l)) q.toNat 0 b with
      | .ret e => nomatch e
      | .next b | .brk b =>
        let bc ← rd b idxRequestByteCnt
        return (RET_OK, { m with req := b, reqLen := writeMultiRequestLen + bc }))
  rw [e, wr_ok _ _ (by decide), ok_bind]
  obtain ⟨b3, e4, z⟩ := clearStatusBytes_ok (b1.set idxRequestByteCnt (coilDinByteCount q)) idxRequestWriteMultiData
    (coilDinByteCount q).toNat (by rw [hbcn]; simp only [idxRequestWriteMultiData]; omega) (by rw [hbcn]; omega)
  rw [e4, ok_bind]
  simp only [hbcn, idxRequestWriteMultiData] at z
  obtain ⟨b2, e2, k1, k2⟩ := writeCoils_loop l q.toNat hl hq.2 b3
    (by intro j hj1 hj2; rw [z j, if_pos ⟨hj1, hj2⟩])
  have k1' : ∀ j, j < 7 → b2 j = (b1.set idxRequestByteCnt (coilDinByteCount q)) j := by
    intro j hj
    rw [k1 j hj, z j, if_neg (by omega)]
  have hbc : b2 6 = BitVec.ofNat 8 ((q.toNat + 7) / 8) := by
    rw [k1' 6 (by omega), Buf.set_same, hbce]
  rw [e2, ok_bind]
  simp only
  rw [rd_ok _ (by decide), ok_bind, show b2 idxRequestByteCnt = BitVec.ofNat 8 ((q.toNat + 7) / 8) from hbc]
  have hlt : (l.take q.toNat).length = q.toNat := by simp [hl]
  have hpay : b2.bytes 7 ((q.toNat + 7) / 8) = packBits (l.take q.toNat) := by
    have := packBits_eq_bytes (l.take q.toNat) b2 7 (by rw [hlt]; exact k2)
    rwa [hlt] at this
  have e3 : reqPdu (.writeMultipleCoils adr q s (some l)) =
      15 :: ([hiByte adr, loByte adr] ++ [hiByte q, loByte q] ++
        (BitVec.ofNat 8 ((q.toNat + 7) / 8) :: packBits (l.take q.toNat))) := by
    simp [reqPdu, reqFc, reqAdr, reqField, reqPayload, beBytes_eq]
  have hpl : (packBits (l.take q.toNat)).length = (q.toNat + 7) / 8 := by rw [packBits_length, hlt]
  have hlen : (reqPdu (.writeMultipleCoils adr q s (some l))).length = 6 + (q.toNat + 7) / 8 := by
    rw [e3]
    simp only [List.length_cons, List.length_append, List.length_nil, hpl]
    omega
  have hl8 : (writeMultiRequestLen + BitVec.ofNat 8 ((q.toNat + 7) / 8)).toNat = 7 + (q.toNat + 7) / 8 := by
    rw [BitVec.toNat_add, BitVec.toNat_ofNat]
    show (7 + _ ) % _ = _
    omega
  refine ⟨_, rfl, ?_, ?_, ?_, rfl, rfl⟩
  · rw [hlen]; refine hl8.trans ?_; omega
  · refine Nat.le_trans (Nat.le_of_eq hl8) ?_; omega
  · show b2.bytes 1 _ = _
    rw [hlen, e3]
    have hs : ∀ j, j ≠ 6 → (b1.set idxRequestByteCnt (coilDinByteCount q)) j = b1 j := fun j hj => Buf.set_ne _ _ hj
    apply bytes_five
    · rw [k1' 1 (by omega), hs _ (by omega), h1]
    · rw [k1' 2 (by omega), hs _ (by omega), h2]
    · rw [k1' 3 (by omega), hs _ (by omega), h3]
    · rw [k1' 4 (by omega), hs _ (by omega), h4]
    · rw [k1' 5 (by omega), hs _ (by omega), h5]
    · simp only [List.length_cons, hpl]; omega
    · rw [List.length_cons, hpl, show (q.toNat + 7) / 8 + 1 = 1 + (q.toNat + 7) / 8 by omega, Buf.bytes_add, hpay]
      simp [Buf.bytes, hbc]

theorem generatePdu_eq (ds : Bool) (m : MMsg) (r : MReq) : generatePdu ds m r.param =
    (match r with
    | .readCoils .. => readCoilsReq ds m r.param
    | .readDiscreteInputs .. => readDiscreteInputsReq ds m r.param
    | .readInputReg .. => readInputRegReq ds m r.param
    | .readHoldingReg .. => readHoldingRegReq ds m r.param
    | .writeSingleCoil .. => writeSingleCoilReq ds m r.param
    | .writeSingleReg .. => writeSingleRegReq ds m r.param
    | .writeMultipleReg .. => writeMultipleRegReq ds m r.param
    | .writeMultipleCoils .. => writeMultipleCoilsReq ds m r.param) := by
  have hb : ∀ x : C (Ret × MMsg), (x >>= fun x => .ok x) = x := by
    intro x; cases x <;> rfl
  cases r <;> simp only [generatePdu, reqMapper, reqMapperLoop] <;>
    simp [MReq.param, hb, fcReadCoils, fcReadDiscreteInputs, fcReadHoldingRegisters, fcReadInputRegisters,
      fcWriteSingleCoil, fcWriteSingleRegister, fcWriteMultipleCoils, fcWriteMultipleRegisters]

theorem generatePdu_null (m : MMsg) (r : MReq) : generatePdu false m r.param = .ok (RET_NULL_PTR_ERROR, m) := by
  rw [generatePdu_eq]
  cases r <;> rfl

theorem generatePdu_refuse (m : MMsg) (r : MReq) (h : ¬ QtyOk r) : generatePdu true m r.param = .ok (RET_ERROR, m) := by
  rw [generatePdu_eq]
  cases r with
  | readCoils a q s => exact readRegRequest_refuse _ _ _ _ h
  | readDiscreteInputs a q s => exact readRegRequest_refuse _ _ _ _ h
  | readInputReg a q s => exact readRegRequest_refuse _ _ _ _ h
  | readHoldingReg a q s => exact readRegRequest_refuse _ _ _ _ h
  | writeSingleCoil a s v => exact absurd trivial h
  | writeSingleReg a s v => exact absurd trivial h
  | writeMultipleReg a q s d =>
    exact writeMultipleRegReq_refuse _ _ h
  | writeMultipleCoils a q s d =>
    exact writeMultipleCoilsReq_refuse _ _ h

theorem generatePdu_built (m : MMsg) (r : MReq) (h : QtyOk r) (hd : DataOk r) :
    ∃ m', generatePdu true m r.param = .ok (RET_OK, m') ∧ Built m m' r := by
  rw [generatePdu_eq]
  cases r with
  | readCoils a q s => exact readRegRequest_built m (.readCoils a q s) rfl h
  | readDiscreteInputs a q s => exact readRegRequest_built m (.readDiscreteInputs a q s) rfl h
  | readInputReg a q s => exact readRegRequest_built m (.readInputReg a q s) rfl h
  | readHoldingReg a q s => exact readRegRequest_built m (.readHoldingReg a q s) rfl h
  | writeSingleCoil a s v =>
    obtain ⟨b', e, h1, h2, h3, h4, h5⟩ := header_bind (α := Ret × MMsg) m.req 5 a (BitVec.ofNat 16 ((if v then 1 else 0) * 0xFF00))
      (fun b => pure (RET_OK, { m with req := b, reqLen := writeSingleRequestLen }))
    have hv : BitVec.ofNat 16 ((if v then 1 else 0) * 0xFF00) = reqField (.writeSingleCoil a s v) := by
      cases v <;> rfl
    rw [hv] at h4 h5
    exact ⟨_, e, built_of_six (r := .writeSingleCoil a s v) rfl h1 h2 h3 h4 h5⟩
  | writeSingleReg a s v =>
    obtain ⟨b', e, h1, h2, h3, h4, h5⟩ := header_bind (α := Ret × MMsg) m.req 6 a v
      (fun b => pure (RET_OK, { m with req := b, reqLen := writeSingleRequestLen }))
    exact ⟨_, e, built_of_six (r := .writeSingleReg a s v) rfl h1 h2 h3 h4 h5⟩
  | writeMultipleReg a q s d =>
    obtain ⟨l, rfl, hl⟩ := hd
    exact writeMultipleReg_built m a q s l hl h
  | writeMultipleCoils a q s d =>
    obtain ⟨l, rfl, hl⟩ := hd
    exact writeMultipleCoils_built m a q s l hl h

/-- After RTU framing the message holds exactly the frame of the request. -/
theorem built_framed {m m' : MMsg} {r : MReq} (h : Built m m' r) :
    rtuSend (some m'.req) m'.reqLen (reqSlave r) =
      .ok (RET_OK, some (framed m'.req m'.reqLen.toNat (reqSlave r)), m'.reqLen + 2) ∧
    (framed m'.req m'.reqLen.toNat (reqSlave r)).bytes 0 (m'.reqLen + 2).toNat = reqFrame r := by
  refine ⟨rtuSend_ok _ _ _ h.len_le, ?_⟩
  have h2 : (m'.reqLen + 2).toNat = m'.reqLen.toNat + 2 := by
    have := h.len_le
    rw [BitVec.toNat_add]
    show (_ + 2) % 256 = _
    omega
  have hb : (m'.req.set 0 (reqSlave r)).bytes 0 m'.reqLen.toNat = reqSlave r :: reqPdu r := by
    rw [h.len, Buf.bytes_add]
    rw [show (0 + 1) = 1 from rfl]
    have : (m'.req.set 0 (reqSlave r)).bytes 1 (reqPdu r).length = reqPdu r := by
      rw [← h.bytes, Buf.bytes_length]
      exact Buf.bytes_congr (fun i _ => Buf.set_ne _ _ (by omega))
    rw [this]
    simp [Buf.bytes]
  rw [h2, framed_frame, hb]
  rfl

end Modbus
