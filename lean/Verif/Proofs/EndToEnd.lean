import Verif.Spec.EndToEnd
import Verif.Props.SlaveSync
import Verif.Props.MasterExchange

/-! The master's request frame read by the slave, and the slave's response frame read by the master. -/

namespace Modbus

open Spec

/-- Two requests that ask for the same thing: they differ at most in values beyond the quantity. -/
inductive Agree : Request → Request → Prop
  | refl (r : Request) : Agree r r
  | coils (a q bc : Nat) (v w : Nat → Bool) (h : ∀ i, i < q → v i = w i) : Agree (.writeCoils a q bc v) (.writeCoils a q bc w)
  | regs (a q bc : Nat) (v w : Nat → U16) (h : ∀ i, i < q → v i = w i) : Agree (.writeRegs a q bc v) (.writeRegs a q bc w)

theorem Agree.exception {l : Limits} {m : AppMem} {r r' : Request} (h : Agree r r') : exceptionFor l m r = exceptionFor l m r' := by
  cases h <;> rfl

theorem Agree.fc {r r' : Request} (h : Agree r r') : r.fc = r'.fc := by cases h <;> rfl

theorem Agree.normal {m : AppMem} {r r' : Request} (h : Agree r r') : normalResponse m r = normalResponse m r' := by cases h <;> rfl

theorem Agree.respond {l : Limits} {m : AppMem} {r r' : Request} (h : Agree r r') : Spec.respond l m r = Spec.respond l m r' := by
  unfold Spec.respond
  rw [h.exception, h.fc, h.normal]

theorem Agree.effect {l : Limits} {m : AppMem} {r r' : Request} (h : Agree r r') : Spec.effect l m r = Spec.effect l m r' := by
  cases h with
  | refl => rfl
  | coils a q bc v w h =>
    have e : exceptionFor l m (.writeCoils a q bc v) = exceptionFor l m (.writeCoils a q bc w) := rfl
    unfold Spec.effect
    simp only [e]
    rw [storeAll_congr m.coils a v w m.bools _ (fun i hi => h i (Nat.lt_of_lt_of_le hi (registeredPrefix_le _ _ _)))]
  | regs a q bc v w h =>
    have e : exceptionFor l m (.writeRegs a q bc v) = exceptionFor l m (.writeRegs a q bc w) := rfl
    unfold Spec.effect
    simp only [e]
    rw [storeAll_congr m.hregs a v w m.regs _ (fun i hi => h i (Nat.lt_of_lt_of_le hi (registeredPrefix_le _ _ _)))]

theorem word_be (v : U16) : word (BitVec.ofNat 8 (v.toNat / 256)) (BitVec.ofNat 8 v.toNat) = v.toNat := by
  have := v.isLt
  simp only [word, BitVec.toNat_ofNat]
  omega

/-- The bytes of a request frame after the function code, with the CRC at the end. -/
theorem reqFrame_bytes (r : MReq) : reqFrame r = reqSlave r :: reqFc r :: BitVec.ofNat 8 ((reqAdr r).toNat / 256) :: BitVec.ofNat 8 (reqAdr r).toNat ::
    BitVec.ofNat 8 ((reqField r).toNat / 256) :: BitVec.ofNat 8 (reqField r).toNat ::
    (reqPayload r ++ [(crc16 (reqSlave r :: reqPdu r)).setWidth 8, (crc16 (reqSlave r :: reqPdu r) >>> 8).setWidth 8]) := by
  simp [reqFrame, rtuFrame, reqPdu, beBytes]

theorem reqFrame_length (r : MReq) : (reqFrame r).length = 8 + (reqPayload r).length := by
  rw [reqFrame_bytes]; simp; omega

theorem reqFrame_payload (r : MReq) (i : Nat) (h : i < (reqPayload r).length) : (reqFrame r).getD (6 + i) 0 = (reqPayload r)[i] := by
  rw [reqFrame_bytes, show 6 + i = i + 1 + 1 + 1 + 1 + 1 + 1 by omega]
  simp only [List.getD_cons_succ]
  rw [List.getD_eq_getElem?_getD, List.getElem?_append_left h, List.getElem?_eq_getElem h]
  rfl

theorem regs_payload_length {a q : U16} {s : U8} {l : List U16} (h : q.toNat ≤ l.length) :
    (reqPayload (.writeMultipleReg a q s (some l))).length = 1 + 2 * q.toNat := by
  simp only [reqPayload, Option.getD_some, List.length_cons, flatMap_be_length, List.length_take]
  omega

theorem coils_payload_length {a q : U16} {s : U8} {l : List Bool} (h : q.toNat ≤ l.length) :
    (reqPayload (.writeMultipleCoils a q s (some l))).length = 1 + (q.toNat + 7) / 8 := by
  simp only [reqPayload, Option.getD_some, List.length_cons, packBits_length, List.length_take]
  rw [Nat.min_eq_left h]; omega

theorem hilo (v : U16) : BitVec.ofNat 16 (word (hiByte v) (loByte v)) = v := by
  have h := beBytes_eq v
  simp only [beBytes, List.cons.injEq, and_true] at h
  rw [← h.1, ← h.2, word_be]
  simp

/-- The slave decodes the master's request frame as what was asked. -/
theorem frameRequest_reqFrame (r : MReq) (hq : QtyOk r) (hd : DataOk r) : Agree (frameRequest (reqFrame r)) (asRequest r) := by
  have h1 : (reqFrame r).getD 1 0 = reqFc r := by rw [reqFrame_bytes]; rfl
  have h2 : word ((reqFrame r).getD 2 0) ((reqFrame r).getD 3 0) = (reqAdr r).toNat := by rw [reqFrame_bytes]; exact word_be _
  have h3 : word ((reqFrame r).getD 4 0) ((reqFrame r).getD 5 0) = (reqField r).toNat := by rw [reqFrame_bytes]; exact word_be _
  unfold frameRequest decodeRequest
  simp only [Nat.add_zero, Nat.reduceAdd, h1, h2, h3]
  cases r with
  | readCoils a q s => exact .refl _
  | readDiscreteInputs a q s => exact .refl _
  | readInputReg a q s => exact .refl _
  | readHoldingReg a q s => exact .refl _
  | writeSingleCoil a s v => cases v <;> exact .refl _
  | writeSingleReg a s v => exact .refl _
  | writeMultipleReg a q s d =>
    obtain ⟨l, rfl, hl⟩ := hd
    have hlen := regs_payload_length (a := a) (s := s) hl
    have hq' : q.toNat ≤ 123 := hq.2
    have h6 : ((reqFrame (.writeMultipleReg a q s (some l))).getD 6 0).toNat = 2 * q.toNat := by
      rw [show (6 : Nat) = 6 + 0 from rfl, reqFrame_payload _ 0 (by omega)]
      simp only [reqPayload, List.getElem_cons_zero, BitVec.toNat_ofNat]; omega
    rw [h6]
    refine .regs _ _ _ _ _ fun i hi => ?_
    have hi : i < q.toNat := hi
    have e1 : 1 + (6 + 2 * i) = 6 + (1 + 2 * i) := by omega
    have e2 : 1 + (7 + 2 * i) = 6 + (2 + 2 * i) := by omega
    rw [e1, e2, reqFrame_payload _ _ (by omega), reqFrame_payload _ _ (by omega)]
    simp only [reqPayload, Option.getD_some]
    have hlt : i < (l.take q.toNat).length := by rw [List.length_take]; omega
    have g1 : ∀ (k : Nat) (x : U8) (xs : List U8) (h : 1 + k < (x :: xs).length), (x :: xs)[1 + k] = xs[k]'(by simp at h; omega) := by
      intro k x xs h
      simp only [Nat.add_comm 1 k, List.getElem_cons_succ]
    have g2 : ∀ (k : Nat) (x : U8) (xs : List U8) (h : 2 + k < (x :: xs).length), (x :: xs)[2 + k] = xs[1 + k]'(by simp at h; omega) := by
      intro k x xs h
      simp only [show 2 + k = (1 + k) + 1 by omega, List.getElem_cons_succ]
    rw [g1, g2, flatMap_be_getElem _ _ _ (by omega), flatMap_be_getElem _ _ _ (by omega)]
    rw [if_pos (by omega), if_neg (by omega)]
    have e3 : 2 * i / 2 = i := by omega
    have e4 : (1 + 2 * i) / 2 = i := by omega
    simp only [e3, e4, hilo]
    rw [List.getElem_take, List.getD_eq_getElem?_getD, List.getElem?_eq_getElem (by omega)]
    rfl
  | writeMultipleCoils a q s d =>
    obtain ⟨l, rfl, hl⟩ := hd
    have hlen := coils_payload_length (a := a) (s := s) hl
    have hq' : q.toNat ≤ 1968 := hq.2
    have h6 : ((reqFrame (.writeMultipleCoils a q s (some l))).getD 6 0).toNat = (q.toNat + 7) / 8 := by
      rw [show (6 : Nat) = 6 + 0 from rfl, reqFrame_payload _ 0 (by omega)]
      simp only [reqPayload, List.getElem_cons_zero, BitVec.toNat_ofNat]; omega
    rw [h6]
    refine .coils _ _ _ _ _ fun i hi => ?_
    have hi : i < q.toNat := hi
    have e1 : 1 + (6 + i / 8) = 6 + (1 + i / 8) := by omega
    rw [e1, reqFrame_payload _ _ (by omega)]
    simp only [reqPayload, Option.getD_some, Nat.add_comm 1 (i / 8), List.getElem_cons_succ]
    rw [packBits_getElem _ _ _ _ (by omega), show 8 * (i / 8) + i % 8 = i by omega]
    rw [List.getD_eq_getElem?_getD, List.getD_eq_getElem?_getD, List.getElem?_take_of_lt hi]

/-- The request frame is a complete valid frame for the addressed slave. -/
theorem reqFrame_good (r : MReq) (hq : QtyOk r) (hd : DataOk r) : GoodFrame (reqSlave r) (reqFrame r) := by
  have hl := reqFrame_length r
  refine ⟨⟨_, rfl⟩, rfl, ?_, ?_⟩
  · cases r with
    | writeMultipleReg a q s d =>
      obtain ⟨l, rfl, h⟩ := hd
      have := hq.2
      rw [hl, regs_payload_length h]; omega
    | writeMultipleCoils a q s d =>
      obtain ⟨l, rfl, h⟩ := hd
      have := hq.2
      rw [hl, coils_payload_length h]; omega
    | _ => rw [hl]; simp [reqPayload]
  · have h1 : (reqFrame r).getD 1 0 = reqFc r := by rw [reqFrame_bytes]; rfl
    rw [h1, hl]
    cases r with
    | writeMultipleReg a q s d =>
      obtain ⟨l, rfl, h⟩ := hd
      have hlen := regs_payload_length (a := a) (s := s) h
      have h6 : (reqFrame (.writeMultipleReg a q s (some l))).getD 6 0 = BitVec.ofNat 8 (2 * q.toNat) := by
        rw [show (6 : Nat) = 6 + 0 from rfl, reqFrame_payload _ 0 (by omega)]; rfl
      rw [h6, hlen]
      simp only [frameLenFor, reqFc, BitVec.toNat_ofNat]
      simp
      omega
    | writeMultipleCoils a q s d =>
      obtain ⟨l, rfl, h⟩ := hd
      have hlen := coils_payload_length (a := a) (s := s) h
      have h6 : (reqFrame (.writeMultipleCoils a q s (some l))).getD 6 0 = BitVec.ofNat 8 ((q.toNat + 7) / 8) := by
        rw [show (6 : Nat) = 6 + 0 from rfl, reqFrame_payload _ 0 (by omega)]; rfl
      rw [h6, hlen]
      simp only [frameLenFor, reqFc, BitVec.toNat_ofNat]
      simp
      omega
    | _ => simp [frameLenFor, reqFc]

/-! The response. -/

theorem asRequest_fc (r : MReq) : (asRequest r).fc = reqFc r := by cases r <;> rfl

theorem frameBit_bits (s fc : U8) (vals : List Bool) (tl : List U8) (i : Nat) (h : i < vals.length) :
    frameBit (s :: fc :: BitVec.ofNat 8 ((vals.length + 7) / 8) :: (packBits vals ++ tl)) i = vals[i] := by
  have hl : i / 8 < (packBits vals).length := by rw [packBits_length]; omega
  unfold frameBit
  rw [show 3 + i / 8 = i / 8 + 1 + 1 + 1 by omega]
  simp only [List.getD_cons_succ]
  rw [List.getD_eq_getElem?_getD, List.getElem?_append_left hl, List.getElem?_eq_getElem hl, Option.getD_some,
    packBits_getElem _ _ _ _ (by omega), show 8 * (i / 8) + i % 8 = i by omega, List.getD_eq_getElem?_getD, List.getElem?_eq_getElem h]
  rfl

theorem frameReg_regs (s fc : U8) (vals : List U16) (tl : List U8) (i : Nat) (h : i < vals.length) :
    frameReg (s :: fc :: BitVec.ofNat 8 (2 * vals.length) :: (vals.flatMap (fun v => beBytes v.toNat) ++ tl)) i = vals[i] := by
  have hl : 2 * i + 1 < (vals.flatMap (fun v => beBytes v.toNat)).length := by rw [flatMap_be_length]; omega
  unfold frameReg
  rw [show 3 + 2 * i + 1 = (2 * i + 1) + 1 + 1 + 1 by omega, show 3 + 2 * i = 2 * i + 1 + 1 + 1 by omega]
  simp only [List.getD_cons_succ]
  rw [List.getD_eq_getElem?_getD, List.getElem?_append_left (by omega), List.getElem?_eq_getElem (by omega), Option.getD_some,
    List.getD_eq_getElem?_getD, List.getElem?_append_left (by omega), List.getElem?_eq_getElem (by omega), Option.getD_some,
    flatMap_be_getElem _ _ _ (by omega), flatMap_be_getElem _ _ _ (by omega), if_pos (by omega), if_neg (by omega)]
  have e3 : 2 * i / 2 = i := by omega
  have e4 : (2 * i + 1) / 2 = i := by omega
  simp only [e3, e4]
  have := hilo vals[i]
  unfold word at this
  rw [Nat.mul_comm 256]
  exact this

theorem exception_range {l : Limits} {m : AppMem} {r : Request} {code : U8} (h : exceptionFor l m r = some code) :
    code = 1 ∨ code = 2 ∨ code = 3 ∨ code = 4 := by
  cases r <;> simp only [exceptionFor] at h
  all_goals (repeat' split at h)
  all_goals simp_all

theorem reqFc_lt (r : MReq) : (reqFc r).toNat < 128 := by cases r <;> simp [reqFc]

theorem reqFc_or (r : MReq) : reqFc r ||| 0x80 = reqFc r + 128 := by cases r <;> simp [reqFc]

theorem range_map_congr {α : Type} {n : Nat} {f g : Nat → α} (h : ∀ i, i < n → f i = g i) : (List.range n).map f = (List.range n).map g :=
  List.map_congr_left fun i hi => h i (List.mem_range.1 hi)

theorem bits_frame {s fc : U8} {q : Nat} {v : Nat → Bool} {i : Nat} (hi : i < q) :
    frameBit (rtuFrame s (encodeResponse (.bits fc ((List.range q).map v)))) i = v i := by
  have := frameBit_bits s fc ((List.range q).map v) [(crc16 (s :: encodeResponse (.bits fc ((List.range q).map v)))).setWidth 8, (crc16 (s :: encodeResponse (.bits fc ((List.range q).map v))) >>> 8).setWidth 8] i (by simpa using hi)
  simp only [List.getElem_map, List.getElem_range] at this
  rw [← this]; rfl

theorem regs_frame {s fc : U8} {q : Nat} {v : Nat → U16} {i : Nat} (hi : i < q) :
    frameReg (rtuFrame s (encodeResponse (.regs fc ((List.range q).map v)))) i = v i := by
  have := frameReg_regs s fc ((List.range q).map v) [(crc16 (s :: encodeResponse (.regs fc ((List.range q).map v)))).setWidth 8, (crc16 (s :: encodeResponse (.regs fc ((List.range q).map v))) >>> 8).setWidth 8] i (by simpa using hi)
  simp only [List.getElem_map, List.getElem_range] at this
  rw [← this]; rfl

theorem bits_frame_length (s fc : U8) (q : Nat) (v : Nat → Bool) :
    (rtuFrame s (encodeResponse (.bits fc ((List.range q).map v)))).length = 3 + (q + 7) / 8 + 2 := by
  simp [rtuFrame, encodeResponse, packBits_length]; omega

theorem regs_frame_length (s fc : U8) (q : Nat) (v : Nat → U16) :
    (rtuFrame s (encodeResponse (.regs fc ((List.range q).map v)))).length = 3 + 2 * q + 2 := by
  simp only [rtuFrame, encodeResponse, List.length_cons, List.length_append, flatMap_be_length, List.length_map, List.length_range]; simp; omega

/-- The slave's response to what `r` asks makes the master's application be told exactly the prescribed outcome. -/
theorem response_outcome {l : Limits} {m : AppMem} (r : MReq) (hq : QtyOk r) :
    GoodResponse r (rtuFrame (reqSlave r) (encodeResponse (Spec.respond l m (asRequest r)))) ∧
      responseEvents r (rtuFrame (reqSlave r) (encodeResponse (Spec.respond l m (asRequest r)))) = outcome l m r := by
  have hx : 128 ≤ (reqFc r + 128).toNat := by have := reqFc_lt r; rw [BitVec.toNat_add]; simp; omega
  cases he : exceptionFor l m (asRequest r) with
  | some code =>
    have hr : Spec.respond l m (asRequest r) = .exception (reqFc r) code := by
      unfold Spec.respond; rw [he, asRequest_fc]
    rw [hr]
    simp only [encodeResponse, reqFc_or]
    refine ⟨⟨⟨_, rfl⟩, rfl, .inl hx, ?_, by simp [rtuFrame]⟩, ?_⟩
    · show respLenFor r (reqFc r + 128) ≤ _
      unfold respLenFor
      rw [if_pos hx]; simp [rtuFrame]
    · unfold outcome
      rw [he]
      show (if 128 ≤ (reqFc r + 128).toNat then exceptionEvent r (reqSlave r) (reqFc r + 128 - 128) code else _) = _
      rw [if_pos hx, BitVec.add_sub_cancel]
  | none =>
    have hr : Spec.respond l m (asRequest r) = normalResponse m (asRequest r) := by
      unfold Spec.respond; rw [he]
    rw [hr]
    unfold outcome
    rw [he]
    cases r with
    | readCoils a q s =>
      simp only [asRequest, normalResponse]
      have h2 : q.toNat ≤ 2000 := hq.2
      refine ⟨⟨⟨_, rfl⟩, rfl, .inr rfl, Nat.le_of_eq (bits_frame_length _ _ _ _).symm, by rw [bits_frame_length]; omega⟩, ?_⟩
      exact range_map_congr fun i hi => congrArg _ (bits_frame hi)
    | readDiscreteInputs a q s =>
      simp only [asRequest, normalResponse]
      have h2 : q.toNat ≤ 2000 := hq.2
      refine ⟨⟨⟨_, rfl⟩, rfl, .inr rfl, Nat.le_of_eq (bits_frame_length _ _ _ _).symm, by rw [bits_frame_length]; omega⟩, ?_⟩
      exact range_map_congr fun i hi => congrArg _ (bits_frame hi)
    | readInputReg a q s =>
      simp only [asRequest, normalResponse]
      have h2 : q.toNat ≤ 125 := hq.2
      refine ⟨⟨⟨_, rfl⟩, rfl, .inr rfl, Nat.le_of_eq (regs_frame_length _ _ _ _).symm, by rw [regs_frame_length]; omega⟩, ?_⟩
      exact range_map_congr fun i hi => congrArg _ (regs_frame hi)
    | readHoldingReg a q s =>
      simp only [asRequest, normalResponse]
      have h2 : q.toNat ≤ 125 := hq.2
      refine ⟨⟨⟨_, rfl⟩, rfl, .inr rfl, Nat.le_of_eq (regs_frame_length _ _ _ _).symm, by rw [regs_frame_length]; omega⟩, ?_⟩
      exact range_map_congr fun i hi => congrArg _ (regs_frame hi)
    | writeSingleCoil a s v =>
      refine ⟨⟨⟨_, rfl⟩, rfl, .inr rfl, ?_, ?_⟩, rfl⟩
      · simp [respLenFor, rtuFrame, encodeResponse, beBytes, asRequest, normalResponse]
      · simp [rtuFrame, encodeResponse, beBytes, asRequest, normalResponse]
    | writeSingleReg a s v =>
      refine ⟨⟨⟨_, rfl⟩, rfl, .inr rfl, ?_, ?_⟩, rfl⟩
      · simp [respLenFor, rtuFrame, encodeResponse, beBytes, asRequest, normalResponse]
      · simp [rtuFrame, encodeResponse, beBytes, asRequest, normalResponse]
    | writeMultipleReg a q s d =>
      refine ⟨⟨⟨_, rfl⟩, rfl, .inr rfl, ?_, ?_⟩, rfl⟩
      · simp [respLenFor, rtuFrame, encodeResponse, beBytes, asRequest, normalResponse]
      · simp [rtuFrame, encodeResponse, beBytes, asRequest, normalResponse]
    | writeMultipleCoils a q s d =>
      refine ⟨⟨⟨_, rfl⟩, rfl, .inr rfl, ?_, ?_⟩, rfl⟩
      · simp [respLenFor, rtuFrame, encodeResponse, beBytes, asRequest, normalResponse]
      · simp [rtuFrame, encodeResponse, beBytes, asRequest, normalResponse]

end Modbus
