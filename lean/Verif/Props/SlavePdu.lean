import Verif.Proofs.SlaveRefine
import Verif.Props.Crc

/-! C08–C19, and the data-level part of C52: the slave's request parser.

`slaveAnswer` is the observable result of parsing one request: the response PDU (function code first, CRC and
slave ID excluded) and the application memory afterwards. -/

namespace Modbus

open Spec

/-- Observable result of `parse_master_request_and_prepare_resp`
(`src/slave_internall/modbus_slave_PDU.c:80-109`): response PDU and application memory. -/
def slaveAnswer (cfg : Config) (s : Pdu) : C (List U8 × AppMem) := do
  let (_, s') ← parseRequest cfg s
  return (s'.resp.bytes 1 (s'.respLen.toNat - 1), s'.mem)

theorem slaveAnswer_eq (cfg : Config) (hc : cfg.WF) (s : Pdu) :
    slaveAnswer cfg s = .ok (encodeResponse (respond cfg.limits s.mem (requestOf s.req)),
      effect cfg.limits s.mem (requestOf s.req)) := by
  obtain ⟨r, s', h, hi⟩ := parse_refines cfg hc s
  simp only [slaveAnswer, h, ok_bind, pure_eq]
  rw [hi.len, Nat.add_sub_cancel_left, hi.bytes, hi.mem]

/-! ### A concrete slave for the non-vacuity examples: coils, inputs, holding and input registers 0..15
registered to variables 0..15 (inputs/input registers to 16..31); coil 15 and holding register 15 not registered. -/

/-- Example memory. -/
def sampleMem : AppMem :=
  { coils := fun a => if a < 15 then some a else none,
    dins := fun a => if a < 15 then some (16 + a) else none,
    hregs := fun a => if a < 15 then some a else none,
    inregs := fun a => if a < 15 then some (16 + a) else none,
    bools := fun p => p % 3 == 0,
    regs := fun p => if p = 2 then 0xFFFF else BitVec.ofNat 16 (1000 + p) }

/-- Example request buffer from a list of bytes. -/
def bufOf (l : List U8) : Buf := fun i => l.getD i 0

/-- Example message. -/
def samplePdu (l : List U8) : Pdu := { req := bufOf l, resp := Buf.zero, respLen := 0, mem := sampleMem }

/-! ### Decoding of the fields -/

theorem requestOf_bits (req : Buf) (tab : BitTab) (h : req 1 = tab.fc) :
    requestOf req = .readBits tab (word (req 2) (req 3)) (word (req 4) (req 5)) := by
  cases tab <;> simp [requestOf, decodeRequest, h, BitTab.fc]

theorem requestOf_regs (req : Buf) (tab : RegTab) (h : req 1 = tab.fc) :
    requestOf req = .readRegs tab (word (req 2) (req 3)) (word (req 4) (req 5)) := by
  cases tab <;> simp [requestOf, decodeRequest, h, RegTab.fc]

theorem requestOf_wcoil (req : Buf) (h : req 1 = 5) :
    requestOf req = .writeCoil (word (req 2) (req 3)) (word (req 4) (req 5)) := by
  simp [requestOf, decodeRequest, h]

theorem requestOf_wreg (req : Buf) (h : req 1 = 6) :
    requestOf req = .writeReg (word (req 2) (req 3)) (word (req 4) (req 5)) := by
  simp [requestOf, decodeRequest, h]

theorem requestOf_wcoils (req : Buf) (h : req 1 = 15) :
    requestOf req = .writeCoils (word (req 2) (req 3)) (word (req 4) (req 5)) (req 6).toNat
      (fun i => (req (7 + i / 8)).getLsbD (i % 8)) := by
  have hp : (fun i => (req (7 + i / 8)).getLsbD (i % 8)) = fun i => (req (1 + (6 + i / 8))).getLsbD (i % 8) := by
    funext i
    rw [show 1 + (6 + i / 8) = 7 + i / 8 by omega]
  have h' : (req (1 + 0)).toNat = 15 := by rw [h]; rfl
  rw [hp]
  unfold requestOf decodeRequest
  rw [h']
  rfl

theorem requestOf_wregs (req : Buf) (h : req 1 = 16) :
    requestOf req = .writeRegs (word (req 2) (req 3)) (word (req 4) (req 5)) (req 6).toNat
      (fun i => BitVec.ofNat 16 (word (req (7 + 2 * i)) (req (8 + 2 * i)))) := by
  have hp : (fun i => BitVec.ofNat 16 (word (req (7 + 2 * i)) (req (8 + 2 * i)))) =
      fun i => BitVec.ofNat 16 (word (req (1 + (6 + 2 * i))) (req (1 + (7 + 2 * i)))) := by
    funext i
    rw [show 1 + (6 + 2 * i) = 7 + 2 * i by omega, show 1 + (7 + 2 * i) = 8 + 2 * i by omega]
  have h' : (req (1 + 0)).toNat = 16 := by rw [h]; rfl
  rw [hp]
  unfold requestOf decodeRequest
  rw [h']
  rfl

theorem fc_cases (x : U8) : x = 1 ∨ x = 2 ∨ x = 3 ∨ x = 4 ∨ x = 5 ∨ x = 6 ∨ x = 15 ∨ x = 16 ∨
    (x ≠ 1 ∧ x ≠ 2 ∧ x ≠ 3 ∧ x ≠ 4 ∧ x ≠ 5 ∧ x ≠ 6 ∧ x ≠ 15 ∧ x ≠ 16) := by
  revert x; decide +kernel

theorem requestOf_fc (req : Buf) : (requestOf req).fc = req 1 := by
  rcases fc_cases (req 1) with h | h | h | h | h | h | h | h | h
  · rw [requestOf_bits req .coils h, h]; rfl
  · rw [requestOf_bits req .dins h, h]; rfl
  · rw [requestOf_regs req .hregs h, h]; rfl
  · rw [requestOf_regs req .inregs h, h]; rfl
  · rw [requestOf_wcoil req h, h]; rfl
  · rw [requestOf_wreg req h, h]; rfl
  · rw [requestOf_wcoils req h, h]; rfl
  · rw [requestOf_wregs req h, h]; rfl
  · rw [requestOf_unsupported req h]; rfl

theorem getD_lt {α : Type} (l : List α) (i : Nat) (d : α) (h : i < l.length) : l.getD i d = l[i] := by
  rw [List.getD_eq_getElem?_getD, List.getElem?_eq_getElem h]; rfl

/-! ### storeAll -/

theorem storeAll_get {α : Type} (t : Table) (adr : Nat) (f : Nat → α) (h : Ptr → α) (n i : Nat) (p : Ptr)
    (hi : i < n) (ht : t (adr + i) = some p) (hlast : ∀ j, i < j → j < n → t (adr + j) ≠ some p) :
    storeAll t adr f h n p = f i := by
  induction n with
  | zero => omega
  | succ n ih =>
    rw [storeAll_succ]
    by_cases e : i = n
    · subst e
      rw [ht]; simp
    · have := ih (by omega) (fun j h1 h2 => hlast j h1 (by omega))
      have hn := hlast n (by omega) (by omega)
      cases hq : t (adr + n) with
      | none => exact this
      | some q =>
        have : ¬ p = q := by rintro rfl; exact hn hq
        simp only [this, if_false]
        assumption

theorem storeAll_other {α : Type} (t : Table) (adr : Nat) (f : Nat → α) (h : Ptr → α) (n : Nat) (p : Ptr)
    (hno : ∀ i, i < n → t (adr + i) ≠ some p) : storeAll t adr f h n p = h p := by
  induction n with
  | zero => rfl
  | succ n ih =>
    rw [storeAll_succ]
    have := ih (fun i hi => hno i (by omega))
    have hn := hno n (by omega)
    cases hq : t (adr + n) with
    | none => exact this
    | some q =>
      have : ¬ p = q := by rintro rfl; exact hn hq
      simp only [this, if_false]
      assumption

/-! ### C08 -/

/-- C08. For every request buffer content, response buffer content, memory and registration state, and every
configuration with tables of at most 65535 items, request parsing ends without undefined behaviour (no access
outside the 256 byte buffers or the data tables, no NULL dereference) and leaves the request buffer and the
address byte of the response buffer alone. -/
theorem C08_parser_memory_safe (cfg : Config) (hc : cfg.WF) (s : Pdu) :
    ∃ r s', parseRequest cfg s = .ok (r, s') ∧ s'.req = s.req ∧ s'.resp 0 = s.resp 0 := by
  obtain ⟨r, s', h, hi⟩ := parse_refines cfg hc s
  exact ⟨r, s', h, hi.req, hi.id⟩

/-- The configuration hypothesis is needed: with more than 65535 coils configured the table still has 65535
entries and a Write Single Coil request to address 65535 reads outside it. -/
theorem C08_large_config_unsafe (cfg : Config) (h : 65535 < cfg.coilsQty) (s : Pdu) (hfc : s.req 1 = 5)
    (hadr : word (s.req 2) (s.req 3) = 65535) (hv : word (s.req 4) (s.req 5) = 0) :
    parseRequest cfg s = .error .oobRead := by
  have ha : (u16of (s.req 2) (s.req 3)).toNat = 65535 := by rw [u16of_toNat, hadr]
  have hq : u16of (s.req 4) (s.req 5) = 0 := by
    apply BitVec.eq_of_toNat_eq; rw [u16of_toNat, hv]; rfl
  unfold parseRequest
  rw [rd_ok s.req (show 1 < 256 by decide), hfc]
  simp only [ok_bind]
  show slaveWriteSingleCoil cfg s = _
  unfold slaveWriteSingleCoil
  simp only [idxRequestAdr, idxRespWriteSingleData, readAdr, readQty, ok_bind, wr_ok s.resp _ (show 1 < 256 by decide), hq]
  have hts : tableSize cfg.coilsQty = 65535 := by unfold tableSize; split <;> omega
  have : ¬ 65535 ≥ cfg.coilsQty := by omega
  simp [checkWriteSingleCoil, ha, this, writeSingleCoilService, setCoilState, tabRd, hts]

/-- Non-vacuity: the shipped configuration satisfies the hypothesis, and so does the largest supported one. -/
example : Config.default.WF ∧
    Config.WF { coilsQty := 65535, dinQty := 65535, inregQty := 65535, hregQty := 65535,
                queueItems := 5, respTimeout := 1000, repeatMax := 3 } := by decide

/-! ### C09, C10 -/

/-- C09. A valid Read Coils (1) / Read Discrete Inputs (2) request is answered with the function code, the
byte count ⌈qty/8⌉ and that many data bytes; bit `j` of data byte `k` is the current value of the variable
registered at address `adr + 8k + j` if `8k + j < qty`, and zero otherwise. Memory is unchanged. -/
theorem C09_read_bits_exact (cfg : Config) (hc : cfg.WF) (s : Pdu) (tab : BitTab) (hfc : s.req 1 = tab.fc)
    (adr qty : Nat) (hadr : word (s.req 2) (s.req 3) = adr) (hqty : word (s.req 4) (s.req 5) = qty)
    (h1 : 1 ≤ qty) (h2 : qty ≤ 2000) (hrange : adr + qty ≤ tab.limit cfg.limits)
    (hreg : allRegistered (tab.table s.mem) adr qty) :
    ∃ data : List U8, slaveAnswer cfg s = .ok (tab.fc :: BitVec.ofNat 8 ((qty + 7) / 8) :: data, s.mem) ∧
      data.length = (qty + 7) / 8 ∧
      (∀ k (hk : k < data.length) j, j < 8 → 8 * k + j < qty →
        ∃ p, tab.table s.mem (adr + (8 * k + j)) = some p ∧ data[k].getLsbD j = s.mem.bools p) ∧
      (∀ k (hk : k < data.length) j, j < 8 → qty ≤ 8 * k + j → data[k].getLsbD j = false) := by
  subst hadr hqty
  have he : exceptionFor cfg.limits s.mem (.readBits tab (word (s.req 2) (s.req 3)) (word (s.req 4) (s.req 5))) = none := by
    simp only [exceptionFor]
    rw [if_neg (by omega), if_neg (by omega), if_pos hreg]
  refine ⟨packBits ((List.range (word (s.req 4) (s.req 5))).map fun i =>
    bitAt (tab.table s.mem) s.mem.bools (word (s.req 2) (s.req 3) + i)), ?_, by simp [packBits_length], ?_, ?_⟩
  · rw [slaveAnswer_eq cfg hc, requestOf_bits _ _ hfc]
    simp only [respond, he, normalResponse, effect, encodeResponse, List.length_map, List.length_range]
  · intro k hk j hj hlt
    obtain ⟨p, hp⟩ := Option.isSome_iff_exists.mp (hreg _ hlt)
    refine ⟨p, hp, ?_⟩
    rw [packBits_getElem _ _ _ _ hj]
    simp [hlt, bitAt, hp]
  · intro k hk j hj hge
    rw [packBits_getElem _ _ _ _ hj]
    simp [hge]

/-- C10. A valid Read Holding (3) / Input (4) Registers request is answered with the function code, the byte
count 2·qty and the current values of the registered variables, big-endian, in address order. There is no
exception for the value 0xFFFF. Memory is unchanged. -/
theorem C10_read_regs_exact (cfg : Config) (hc : cfg.WF) (s : Pdu) (tab : RegTab) (hfc : s.req 1 = tab.fc)
    (adr qty : Nat) (hadr : word (s.req 2) (s.req 3) = adr) (hqty : word (s.req 4) (s.req 5) = qty)
    (h1 : 1 ≤ qty) (h2 : qty ≤ 125) (hrange : adr + qty ≤ tab.limit cfg.limits)
    (hreg : allRegistered (tab.table s.mem) adr qty) :
    ∃ data : List U8, slaveAnswer cfg s = .ok (tab.fc :: BitVec.ofNat 8 (2 * qty) :: data, s.mem) ∧
      data.length = 2 * qty ∧
      (∀ i, i < qty → ∃ p, tab.table s.mem (adr + i) = some p ∧
        word (data.getD (2 * i) 0) (data.getD (2 * i + 1) 0) = (s.mem.regs p).toNat) := by
  subst hadr hqty
  have he : exceptionFor cfg.limits s.mem (.readRegs tab (word (s.req 2) (s.req 3)) (word (s.req 4) (s.req 5))) = none := by
    simp only [exceptionFor]
    rw [if_neg (by omega), if_neg (by omega), if_pos hreg]
  refine ⟨((List.range (word (s.req 4) (s.req 5))).map fun i =>
    regAt (tab.table s.mem) s.mem.regs (word (s.req 2) (s.req 3) + i)).flatMap (fun v => beBytes v.toNat), ?_,
    by simp only [flatMap_be_length, List.length_map, List.length_range], ?_⟩
  · rw [slaveAnswer_eq cfg hc, requestOf_regs _ _ hfc]
    simp only [respond, he, normalResponse, effect, encodeResponse, List.length_map, List.length_range]
  · intro i hi
    obtain ⟨p, hp⟩ := Option.isSome_iff_exists.mp (hreg _ hi)
    refine ⟨p, hp, ?_⟩
    rw [getD_lt _ _ _ (by simp only [flatMap_be_length, List.length_map, List.length_range]; omega),
      getD_lt _ _ _ (by simp only [flatMap_be_length, List.length_map, List.length_range]; omega),
      flatMap_be_getElem _ _ _ (by simp; omega), flatMap_be_getElem _ _ _ (by simp; omega)]
    rw [if_pos (by omega), if_neg (by omega)]
    simp only [List.getElem_map, List.getElem_range]
    rw [show (2 * i + 1) / 2 = i by omega, show 2 * i / 2 = i by omega]
    simp only [regAt, hp]
    rw [← u16of_toNat]
    generalize s.mem.regs p = v
    simp only [u16of_toNat, word, hiByte_eq, loByte_eq, BitVec.toNat_ofNat]
    have := v.isLt
    omega

/-- Non-vacuity of C09 and C10: reading 11 coils / inputs from address 2, and 3 registers including one that
holds 0xFFFF, from the sample slave. -/
example : word ((samplePdu [1, 1, 0, 2, 0, 11]).req 2) ((samplePdu [1, 1, 0, 2, 0, 11]).req 3) = 2 ∧
    word ((samplePdu [1, 1, 0, 2, 0, 11]).req 4) ((samplePdu [1, 1, 0, 2, 0, 11]).req 5) = 11 ∧
    (samplePdu [1, 1, 0, 2, 0, 11]).req 1 = BitTab.coils.fc ∧
    (samplePdu [1, 2, 0, 2, 0, 11]).req 1 = BitTab.dins.fc ∧
    2 + 11 ≤ BitTab.coils.limit Config.default.limits ∧ 2 + 11 ≤ BitTab.dins.limit Config.default.limits ∧
    allRegistered (BitTab.coils.table sampleMem) 2 11 ∧ allRegistered (BitTab.dins.table sampleMem) 2 11 ∧
    allRegistered (RegTab.hregs.table sampleMem) 1 3 ∧ allRegistered (RegTab.inregs.table sampleMem) 1 3 ∧
    slaveAnswer Config.default (samplePdu [1, 3, 0, 1, 0, 3]) =
      .ok ([3, 6, 0x03, 0xE9, 0xFF, 0xFF, 0x03, 0xEB], sampleMem) := by
  refine ⟨by decide, by decide, by decide, by decide, by decide, by decide, by decide, by decide, by decide,
    by decide, ?_⟩
  rw [slaveAnswer_eq _ (by decide)]
  rfl

/-! ### C11, C12 -/

/-- C11, coil. A valid Write Single Coil request sets the addressed variable (0xFF00 on, 0x0000 off), changes
no other variable, and the response echoes address and value. -/
theorem C11_write_coil (cfg : Config) (hc : cfg.WF) (s : Pdu) (hfc : s.req 1 = 5)
    (adr v : Nat) (hadr : word (s.req 2) (s.req 3) = adr) (hv : word (s.req 4) (s.req 5) = v)
    (hval : v = 0xFF00 ∨ v = 0x0000) (hrange : adr < cfg.coilsQty) (p : Ptr) (hreg : s.mem.coils adr = some p) :
    slaveAnswer cfg s = .ok ([5, s.req 2, s.req 3, s.req 4, s.req 5],
      { s.mem with bools := fun q => if q = p then decide (v = 0xFF00) else s.mem.bools q }) := by
  have he : exceptionFor cfg.limits s.mem (.writeCoil adr v) = none := by
    simp only [exceptionFor]
    rw [if_neg (by omega), if_neg (by simp only [Config.limits]; omega), hreg]
    rfl
  rw [slaveAnswer_eq cfg hc, requestOf_wcoil _ hfc, hadr, hv]
  simp only [respond, he, normalResponse, effect, encodeResponse, if_true, storeAll, Nat.add_zero, hreg]
  have hb : decide (v ≠ 0) = decide (v = 0xFF00) := by
    rcases hval with rfl | rfl <;> rfl
  have b1 : beBytes adr = [s.req 2, s.req 3] := by rw [← hadr]; exact beBytes_word _ _
  have b2 : beBytes v = [s.req 4, s.req 5] := by rw [← hv]; exact beBytes_word _ _
  rw [hb, b1, b2]
  rfl

/-- C11, register. -/
theorem C11_write_reg (cfg : Config) (hc : cfg.WF) (s : Pdu) (hfc : s.req 1 = 6)
    (adr v : Nat) (hadr : word (s.req 2) (s.req 3) = adr) (hv : word (s.req 4) (s.req 5) = v)
    (hrange : adr < cfg.hregQty) (p : Ptr) (hreg : s.mem.hregs adr = some p) :
    slaveAnswer cfg s = .ok ([6, s.req 2, s.req 3, s.req 4, s.req 5],
      { s.mem with regs := fun q => if q = p then BitVec.ofNat 16 v else s.mem.regs q }) := by
  have he : exceptionFor cfg.limits s.mem (.writeReg adr v) = none := by
    simp only [exceptionFor]
    rw [if_neg (by simp only [Config.limits]; omega), hreg]
    rfl
  rw [slaveAnswer_eq cfg hc, requestOf_wreg _ hfc, hadr, hv]
  simp only [respond, he, normalResponse, effect, encodeResponse, if_true, storeAll, Nat.add_zero, hreg]
  have b1 : beBytes adr = [s.req 2, s.req 3] := by rw [← hadr]; exact beBytes_word _ _
  have b2 : beBytes v = [s.req 4, s.req 5] := by rw [← hv]; exact beBytes_word _ _
  rw [b1, b2]
  rfl

/-- Non-vacuity of C11. -/
example : slaveAnswer Config.default (samplePdu [1, 5, 0, 4, 0xFF, 0]) =
      .ok ([5, 0, 4, 0xFF, 0], { sampleMem with bools := fun q => if q = 4 then true else sampleMem.bools q }) ∧
    slaveAnswer Config.default (samplePdu [1, 6, 0, 4, 0x12, 0x34]) =
      .ok ([6, 0, 4, 0x12, 0x34], { sampleMem with regs := fun q => if q = 4 then 0x1234 else sampleMem.regs q }) :=
  ⟨C11_write_coil _ (by decide) _ (by decide) 4 0xFF00 (by decide) (by decide) (by decide) (by decide) 4 (by decide),
   C11_write_reg _ (by decide) _ (by decide) 4 0x1234 (by decide) (by decide) (by decide) 4 (by decide)⟩

/-- C12, coils. A valid Write Multiple Coils request is answered with the echo of address and quantity; the
variable registered at `adr + i` afterwards holds payload bit `i` (if several addressed items share a variable,
the highest address wins); all other variables, the registers and the registrations are unchanged. -/
theorem C12_write_coils (cfg : Config) (hc : cfg.WF) (s : Pdu) (hfc : s.req 1 = 15)
    (adr qty : Nat) (hadr : word (s.req 2) (s.req 3) = adr) (hqty : word (s.req 4) (s.req 5) = qty)
    (h1 : 1 ≤ qty) (h2 : qty ≤ 1968) (hbc : (s.req 6).toNat = (qty + 7) / 8)
    (hrange : adr + qty ≤ cfg.coilsQty) (hreg : allRegistered s.mem.coils adr qty) :
    ∃ bools, slaveAnswer cfg s = .ok ([15, s.req 2, s.req 3, s.req 4, s.req 5], { s.mem with bools := bools }) ∧
      (∀ i p, i < qty → s.mem.coils (adr + i) = some p → (∀ j, i < j → j < qty → s.mem.coils (adr + j) ≠ some p) →
        bools p = (s.req (7 + i / 8)).getLsbD (i % 8)) ∧
      (∀ p, (∀ i, i < qty → s.mem.coils (adr + i) ≠ some p) → bools p = s.mem.bools p) := by
  refine ⟨storeAll s.mem.coils adr (fun i => (s.req (7 + i / 8)).getLsbD (i % 8)) s.mem.bools qty, ?_, ?_, ?_⟩
  · have he : exceptionFor cfg.limits s.mem (.writeCoils adr qty (s.req 6).toNat
        (fun i => (s.req (7 + i / 8)).getLsbD (i % 8))) = none := by
      simp only [exceptionFor]
      rw [if_neg (by omega), if_neg (by simp only [Config.limits]; omega), if_neg (by omega), if_pos hreg]
    rw [slaveAnswer_eq cfg hc, requestOf_wcoils _ hfc, hadr, hqty]
    simp only [respond, he, normalResponse, effect, encodeResponse, true_or, if_true]
    have b1 : beBytes adr = [s.req 2, s.req 3] := by rw [← hadr]; exact beBytes_word _ _
    have b2 : beBytes qty = [s.req 4, s.req 5] := by rw [← hqty]; exact beBytes_word _ _
    rw [b1, b2, registeredPrefix_all _ _ _ hreg]
    rfl
  · intro i p hi hp hl
    exact storeAll_get _ _ _ _ _ i p hi hp hl
  · intro p hp
    exact storeAll_other _ _ _ _ _ p hp

/-- C12, registers. -/
theorem C12_write_regs (cfg : Config) (hc : cfg.WF) (s : Pdu) (hfc : s.req 1 = 16)
    (adr qty : Nat) (hadr : word (s.req 2) (s.req 3) = adr) (hqty : word (s.req 4) (s.req 5) = qty)
    (h1 : 1 ≤ qty) (h2 : qty ≤ 123) (hbc : (s.req 6).toNat = 2 * qty)
    (hrange : adr + qty ≤ cfg.hregQty) (hreg : allRegistered s.mem.hregs adr qty) :
    ∃ regs, slaveAnswer cfg s = .ok ([16, s.req 2, s.req 3, s.req 4, s.req 5], { s.mem with regs := regs }) ∧
      (∀ i p, i < qty → s.mem.hregs (adr + i) = some p → (∀ j, i < j → j < qty → s.mem.hregs (adr + j) ≠ some p) →
        (regs p).toNat = word (s.req (7 + 2 * i)) (s.req (8 + 2 * i))) ∧
      (∀ p, (∀ i, i < qty → s.mem.hregs (adr + i) ≠ some p) → regs p = s.mem.regs p) := by
  refine ⟨storeAll s.mem.hregs adr (fun i => BitVec.ofNat 16 (word (s.req (7 + 2 * i)) (s.req (8 + 2 * i)))) s.mem.regs qty,
    ?_, ?_, ?_⟩
  · have he : exceptionFor cfg.limits s.mem (.writeRegs adr qty (s.req 6).toNat
        (fun i => BitVec.ofNat 16 (word (s.req (7 + 2 * i)) (s.req (8 + 2 * i))))) = none := by
      simp only [exceptionFor]
      rw [if_neg (by omega), if_neg (by simp only [Config.limits]; omega), if_neg (by omega), if_pos hreg]
    rw [slaveAnswer_eq cfg hc, requestOf_wregs _ hfc, hadr, hqty]
    simp only [respond, he, normalResponse, effect, encodeResponse, true_or, if_true]
    have b1 : beBytes adr = [s.req 2, s.req 3] := by rw [← hadr]; exact beBytes_word _ _
    have b2 : beBytes qty = [s.req 4, s.req 5] := by rw [← hqty]; exact beBytes_word _ _
    rw [b1, b2, registeredPrefix_all _ _ _ hreg]
    rfl
  · intro i p hi hp hl
    rw [storeAll_get _ _ _ _ _ i p hi hp hl]
    have := word_lt (s.req (7 + 2 * i)) (s.req (8 + 2 * i))
    rw [BitVec.toNat_ofNat, Nat.mod_eq_of_lt this]
  · intro p hp
    exact storeAll_other _ _ _ _ _ p hp

/-- Non-vacuity of C12. -/
example : let s := samplePdu [1, 15, 0, 1, 0, 10, 2, 0xCD, 0x01]
    let t := samplePdu [1, 16, 0, 1, 0, 2, 4, 0x12, 0x34, 0xAB, 0xCD]
    s.req 1 = 15 ∧ word (s.req 2) (s.req 3) = 1 ∧ word (s.req 4) (s.req 5) = 10 ∧ (s.req 6).toNat = (10 + 7) / 8 ∧
    1 + 10 ≤ Config.default.coilsQty ∧ allRegistered s.mem.coils 1 10 ∧
    t.req 1 = 16 ∧ word (t.req 2) (t.req 3) = 1 ∧ word (t.req 4) (t.req 5) = 2 ∧ (t.req 6).toNat = 2 * 2 ∧
    1 + 2 ≤ Config.default.hregQty ∧ allRegistered t.mem.hregs 1 2 := by decide

/-! ### C13 -/

theorem respond_exc_iff (l : Limits) (m : AppMem) (r : Request) (code : U8) :
    encodeResponse (respond l m r) = [r.fc ||| 0x80, code] ↔ exceptionFor l m r = some code := by
  cases he : exceptionFor l m r with
  | some c => simp [respond, he, encodeResponse]
  | none =>
    simp only [respond, he, reduceCtorEq, iff_false]
    cases r with
    | readBits t adr qty =>
      intro h
      have := congrArg List.length h
      simp [normalResponse, encodeResponse, packBits_length] at this
      obtain rfl : qty = 0 := by omega
      simp [exceptionFor] at he
    | readRegs t adr qty =>
      intro h
      have := congrArg List.length h
      simp only [normalResponse, encodeResponse, flatMap_be_length, List.length_cons, List.length_map,
        List.length_range, List.length_nil] at this
      obtain rfl : qty = 0 := by omega
      simp [exceptionFor] at he
    | unsupported fc => simp [exceptionFor] at he
    | writeCoil | writeReg | writeCoils | writeRegs =>
      intro h
      have := congrArg List.length h
      simp [normalResponse, encodeResponse, beBytes] at this

/-- C13. The answer is an exception response with code `code` exactly when the protocol specification
(`Spec.exceptionFor`, applied to the decoded request) prescribes that code. -/
theorem C13_exception_selection (cfg : Config) (hc : cfg.WF) (s : Pdu) (code : U8) :
    (∃ m, slaveAnswer cfg s = .ok ([s.req 1 ||| 0x80, code], m)) ↔
      exceptionFor cfg.limits s.mem (requestOf s.req) = some code := by
  rw [slaveAnswer_eq cfg hc, ← respond_exc_iff, requestOf_fc]
  simp

/-- C13, the four codes spelled out on the request bytes. -/
theorem C13_exception_selection_bytes (cfg : Config) (hc : cfg.WF) (s : Pdu) :
    let fc := (s.req 1).toNat
    let adr := word (s.req 2) (s.req 3)
    let qty := word (s.req 4) (s.req 5)
    let isExc := fun code : U8 => ∃ m, slaveAnswer cfg s = .ok ([s.req 1 ||| 0x80, code], m)
    let limit := if fc = 1 ∨ fc = 5 ∨ fc = 15 then cfg.coilsQty else if fc = 2 then cfg.dinQty
      else if fc = 4 then cfg.inregQty else cfg.hregQty
    let table := if fc = 1 ∨ fc = 5 ∨ fc = 15 then s.mem.coils else if fc = 2 then s.mem.dins
      else if fc = 4 then s.mem.inregs else s.mem.hregs
    let count := if fc = 5 ∨ fc = 6 then 1 else qty
    let supported := fc = 1 ∨ fc = 2 ∨ fc = 3 ∨ fc = 4 ∨ fc = 5 ∨ fc = 6 ∨ fc = 15 ∨ fc = 16
    let badQuantity := (fc = 1 ∨ fc = 2) ∧ ¬ (1 ≤ qty ∧ qty ≤ 2000) ∨ (fc = 3 ∨ fc = 4) ∧ ¬ (1 ≤ qty ∧ qty ≤ 125) ∨
      fc = 15 ∧ ¬ (1 ≤ qty ∧ qty ≤ 1968) ∨ fc = 16 ∧ ¬ (1 ≤ qty ∧ qty ≤ 123) ∨ fc = 5 ∧ qty ≠ 0 ∧ qty ≠ 0xFF00
    let badRange := limit < adr + count
    let badByteCount := fc = 15 ∧ (s.req 6).toNat ≠ (qty + 7) / 8 ∨ fc = 16 ∧ (s.req 6).toNat ≠ 2 * qty
    let missing := ∃ i, i < count ∧ table (adr + i) = none
    (isExc 1 ↔ ¬ supported) ∧
    (isExc 2 ↔ supported ∧ ¬ badQuantity ∧ badRange) ∧
    (isExc 3 ↔ badQuantity ∨ (supported ∧ ¬ badQuantity ∧ ¬ badRange ∧ badByteCount)) ∧
    (isExc 4 ↔ supported ∧ ¬ badQuantity ∧ ¬ badRange ∧ ¬ badByteCount ∧ missing) := by
  intro fc adr qty isExc limit table count supported badQuantity badRange badByteCount missing
  have hall : ∀ (t : Table) n, ¬ allRegistered t adr n ↔ ∃ i, i < n ∧ t (adr + i) = none := by
    intro t n
    simp [allRegistered]
  simp only [isExc, C13_exception_selection cfg hc]
  have tn : ∀ n : Nat, n < 256 → s.req 1 = BitVec.ofNat 8 n → fc = n := by
    intro n hn h
    simp only [fc, h, BitVec.toNat_ofNat]; omega
  rcases fc_cases (s.req 1) with h | h | h | h | h | h | h | h | h
  · have hf : fc = 1 := tn 1 (by decide) h
    rw [requestOf_bits s.req .coils h, show word (s.req 2) (s.req 3) = adr from rfl, show word (s.req 4) (s.req 5) = qty from rfl]
    have hE : exceptionFor cfg.limits s.mem (.readBits .coils adr qty) =
        (if qty = 0 ∨ 2000 < qty then some 3 else if cfg.coilsQty < adr + qty then some 2
         else if allRegistered s.mem.coils adr qty then none else some 4) := rfl
    rw [hE]
    simp only [supported, badQuantity, badRange, badByteCount, missing, limit, table, count, hf, ← hall]
    by_cases c1 : qty = 0 ∨ 2000 < qty
    · have c1' : ¬ (1 ≤ qty ∧ qty ≤ 2000) := by omega
      rw [if_pos c1]; simp [c1']
    · have c1' : (1 ≤ qty ∧ qty ≤ 2000) := by omega
      rw [if_neg c1]
      by_cases c2 : cfg.coilsQty < adr + qty
      · rw [if_pos c2]; simp [c1', c2]
      · rw [if_neg c2]
        by_cases c3 : allRegistered s.mem.coils adr qty
        · rw [if_pos c3]; simp [c1', c2, c3]
        · rw [if_neg c3]; simp [c1', c2, c3]
  · have hf : fc = 2 := tn 2 (by decide) h
    rw [requestOf_bits s.req .dins h, show word (s.req 2) (s.req 3) = adr from rfl, show word (s.req 4) (s.req 5) = qty from rfl]
    have hE : exceptionFor cfg.limits s.mem (.readBits .dins adr qty) =
        (if qty = 0 ∨ 2000 < qty then some 3 else if cfg.dinQty < adr + qty then some 2
         else if allRegistered s.mem.dins adr qty then none else some 4) := rfl
    rw [hE]
    simp only [supported, badQuantity, badRange, badByteCount, missing, limit, table, count, hf, ← hall]
    by_cases c1 : qty = 0 ∨ 2000 < qty
    · have c1' : ¬ (1 ≤ qty ∧ qty ≤ 2000) := by omega
      rw [if_pos c1]; simp [c1']
    · have c1' : (1 ≤ qty ∧ qty ≤ 2000) := by omega
      rw [if_neg c1]
      by_cases c2 : cfg.dinQty < adr + qty
      · rw [if_pos c2]; simp [c1', c2]
      · rw [if_neg c2]
        by_cases c3 : allRegistered s.mem.dins adr qty
        · rw [if_pos c3]; simp [c1', c2, c3]
        · rw [if_neg c3]; simp [c1', c2, c3]
  · have hf : fc = 3 := tn 3 (by decide) h
    rw [requestOf_regs s.req .hregs h, show word (s.req 2) (s.req 3) = adr from rfl, show word (s.req 4) (s.req 5) = qty from rfl]
    have hE : exceptionFor cfg.limits s.mem (.readRegs .hregs adr qty) =
        (if qty = 0 ∨ 125 < qty then some 3 else if cfg.hregQty < adr + qty then some 2
         else if allRegistered s.mem.hregs adr qty then none else some 4) := rfl
    rw [hE]
    simp only [supported, badQuantity, badRange, badByteCount, missing, limit, table, count, hf, ← hall]
    by_cases c1 : qty = 0 ∨ 125 < qty
    · have c1' : ¬ (1 ≤ qty ∧ qty ≤ 125) := by omega
      rw [if_pos c1]; simp [c1']
    · have c1' : (1 ≤ qty ∧ qty ≤ 125) := by omega
      rw [if_neg c1]
      by_cases c2 : cfg.hregQty < adr + qty
      · rw [if_pos c2]; simp [c1', c2]
      · rw [if_neg c2]
        by_cases c3 : allRegistered s.mem.hregs adr qty
        · rw [if_pos c3]; simp [c1', c2, c3]
        · rw [if_neg c3]; simp [c1', c2, c3]
  · have hf : fc = 4 := tn 4 (by decide) h
    rw [requestOf_regs s.req .inregs h, show word (s.req 2) (s.req 3) = adr from rfl, show word (s.req 4) (s.req 5) = qty from rfl]
    have hE : exceptionFor cfg.limits s.mem (.readRegs .inregs adr qty) =
        (if qty = 0 ∨ 125 < qty then some 3 else if cfg.inregQty < adr + qty then some 2
         else if allRegistered s.mem.inregs adr qty then none else some 4) := rfl
    rw [hE]
    simp only [supported, badQuantity, badRange, badByteCount, missing, limit, table, count, hf, ← hall]
    by_cases c1 : qty = 0 ∨ 125 < qty
    · have c1' : ¬ (1 ≤ qty ∧ qty ≤ 125) := by omega
      rw [if_pos c1]; simp [c1']
    · have c1' : (1 ≤ qty ∧ qty ≤ 125) := by omega
      rw [if_neg c1]
      by_cases c2 : cfg.inregQty < adr + qty
      · rw [if_pos c2]; simp [c1', c2]
      · rw [if_neg c2]
        by_cases c3 : allRegistered s.mem.inregs adr qty
        · rw [if_pos c3]; simp [c1', c2, c3]
        · rw [if_neg c3]; simp [c1', c2, c3]
  · have hf : fc = 5 := tn 5 (by decide) h
    rw [requestOf_wcoil s.req h, show word (s.req 2) (s.req 3) = adr from rfl, show word (s.req 4) (s.req 5) = qty from rfl]
    simp only [exceptionFor, supported, badQuantity, badRange, badByteCount, missing, limit, table,
      count, hf]
    have : cfg.limits.coils = cfg.coilsQty := rfl
    rw [this]
    by_cases c1 : qty ≠ 0 ∧ qty ≠ 0xFF00
    · rw [if_pos c1]; simp [c1]
    · rw [if_neg c1]
      by_cases c2 : cfg.coilsQty ≤ adr
      · have c2' : cfg.coilsQty < adr + 1 := by omega
        rw [if_pos c2]; simp [c1, c2']
      · have c2' : ¬ cfg.coilsQty < adr + 1 := by omega
        rw [if_neg c2]
        cases ht : s.mem.coils adr with
        | none => simp [c1, c2', ht]
        | some p => simp [c1, c2', ht]
  · have hf : fc = 6 := tn 6 (by decide) h
    rw [requestOf_wreg s.req h, show word (s.req 2) (s.req 3) = adr from rfl, show word (s.req 4) (s.req 5) = qty from rfl]
    simp only [exceptionFor, supported, badQuantity, badRange, badByteCount, missing, limit, table,
      count, hf]
    have : cfg.limits.hregs = cfg.hregQty := rfl
    rw [this]
    by_cases c2 : cfg.hregQty ≤ adr
    · have c2' : cfg.hregQty < adr + 1 := by omega
      rw [if_pos c2]; simp [c2']
    · have c2' : ¬ cfg.hregQty < adr + 1 := by omega
      rw [if_neg c2]
      cases ht : s.mem.hregs adr with
      | none => simp [c2', ht]
      | some p => simp [c2', ht]
  · have hf : fc = 15 := tn 15 (by decide) h
    rw [requestOf_wcoils s.req h, show word (s.req 2) (s.req 3) = adr from rfl, show word (s.req 4) (s.req 5) = qty from rfl]
    simp only [exceptionFor, supported, badQuantity, badRange, badByteCount, missing, limit, table,
      count, hf, ← hall]
    have : cfg.limits.coils = cfg.coilsQty := rfl
    rw [this]
    by_cases c1 : qty = 0 ∨ 1968 < qty
    · have c1' : ¬ (1 ≤ qty ∧ qty ≤ 1968) := by omega
      rw [if_pos c1]; simp [c1']
    · have c1' : (1 ≤ qty ∧ qty ≤ 1968) := by omega
      rw [if_neg c1]
      by_cases c2 : cfg.coilsQty < adr + qty
      · rw [if_pos c2]; simp [c1', c2]
      · rw [if_neg c2]
        by_cases c4 : (s.req 6).toNat ≠ (qty + 7) / 8
        · rw [if_pos c4]; simp [c1', c2, c4]
        · rw [if_neg c4]
          by_cases c3 : allRegistered s.mem.coils adr qty
          · rw [if_pos c3]; simp [c1', c2, c3, c4]
          · rw [if_neg c3]; simp [c1', c2, c3, c4]
  · have hf : fc = 16 := tn 16 (by decide) h
    rw [requestOf_wregs s.req h, show word (s.req 2) (s.req 3) = adr from rfl, show word (s.req 4) (s.req 5) = qty from rfl]
    simp only [exceptionFor, supported, badQuantity, badRange, badByteCount, missing, limit, table,
      count, hf, ← hall]
    have : cfg.limits.hregs = cfg.hregQty := rfl
    rw [this]
    by_cases c1 : qty = 0 ∨ 123 < qty
    · have c1' : ¬ (1 ≤ qty ∧ qty ≤ 123) := by omega
      rw [if_pos c1]; simp [c1']
    · have c1' : (1 ≤ qty ∧ qty ≤ 123) := by omega
      rw [if_neg c1]
      by_cases c2 : cfg.hregQty < adr + qty
      · rw [if_pos c2]; simp [c1', c2]
      · rw [if_neg c2]
        by_cases c4 : (s.req 6).toNat ≠ 2 * qty
        · rw [if_pos c4]; simp [c1', c2, c4]
        · rw [if_neg c4]
          by_cases c3 : allRegistered s.mem.hregs adr qty
          · rw [if_pos c3]; simp [c1', c2, c3, c4]
          · rw [if_neg c3]; simp [c1', c2, c3, c4]
  · rw [requestOf_unsupported s.req h]
    have hn : ∀ n : Nat, n < 256 → s.req 1 ≠ BitVec.ofNat 8 n → fc ≠ n := by
      intro n hn h1 h2
      apply h1
      apply BitVec.eq_of_toNat_eq
      show fc = _
      rw [h2]; simp; omega
    obtain ⟨h1, h2, h3, h4, h5, h6, h7, h8⟩ := h
    have h1 := hn 1 (by decide) h1
    have h2 := hn 2 (by decide) h2
    have h3 := hn 3 (by decide) h3
    have h4 := hn 4 (by decide) h4
    have h5 := hn 5 (by decide) h5
    have h6 := hn 6 (by decide) h6
    have h7 := hn 15 (by decide) h7
    have h8 := hn 16 (by decide) h8
    simp [exceptionFor, supported, badQuantity, h1, h2, h3, h4, h5, h6, h7, h8]

/-- Non-vacuity of C13: each of the four exceptions occurs. -/
example : (∃ m, slaveAnswer Config.default (samplePdu [1, 7]) = .ok ([0x87, 1], m)) ∧
    (∃ m, slaveAnswer Config.default (samplePdu [1, 3, 0, 99, 0, 2]) = .ok ([0x83, 2], m)) ∧
    (∃ m, slaveAnswer Config.default (samplePdu [1, 15, 0, 0, 0, 10, 3]) = .ok ([0x8F, 3], m)) ∧
    (∃ m, slaveAnswer Config.default (samplePdu [1, 1, 0, 10, 0, 10]) = .ok ([0x81, 4], m)) := by
  refine ⟨?_, ?_, ?_, ?_⟩ <;> rw [slaveAnswer_eq _ (by decide)] <;> exact ⟨_, rfl⟩

/-! ### C14–C17 -/

/-- C14. If the answer is exception 01, 02 or 03, memory and registrations are unchanged. -/
theorem C14_refused_no_change (cfg : Config) (hc : cfg.WF) (s : Pdu) (code : U8) (m : AppMem)
    (hcode : code = 1 ∨ code = 2 ∨ code = 3)
    (h : slaveAnswer cfg s = .ok ([s.req 1 ||| 0x80, code], m)) : m = s.mem := by
  have he := (C13_exception_selection cfg hc s code).mp ⟨m, h⟩
  rw [slaveAnswer_eq cfg hc] at h
  have hm : effect cfg.limits s.mem (requestOf s.req) = m := by injection h with h; injection h
  rw [← hm]
  have h4 : ¬ code = 4#8 := by rcases hcode with rfl | rfl | rfl <;> decide
  generalize requestOf s.req = r at he
  cases r <;> simp [effect, he, h4]

/-- Non-vacuity of C14: see the example after C13 (codes 1, 2 and 3 occur). -/
example : slaveAnswer Config.default (samplePdu [1, 15, 0, 0, 0, 10, 3]) = .ok ([0x8F, 3], sampleMem) := by
  rw [slaveAnswer_eq _ (by decide)]; rfl

/-- C15. Requests with a function code other than 5, 6, 15, 16 never change memory or registrations. -/
theorem C15_reads_pure (cfg : Config) (hc : cfg.WF) (s : Pdu)
    (hfc : s.req 1 ≠ 5 ∧ s.req 1 ≠ 6 ∧ s.req 1 ≠ 15 ∧ s.req 1 ≠ 16) :
    ∃ resp, slaveAnswer cfg s = .ok (resp, s.mem) := by
  rw [slaveAnswer_eq cfg hc]
  refine ⟨_, congrArg _ (Prod.ext rfl ?_)⟩
  rcases fc_cases (s.req 1) with h | h | h | h | h | h | h | h | h
  · rw [requestOf_bits s.req .coils h]; rfl
  · rw [requestOf_bits s.req .dins h]; rfl
  · rw [requestOf_regs s.req .hregs h]; rfl
  · rw [requestOf_regs s.req .inregs h]; rfl
  · exact absurd h hfc.1
  · exact absurd h hfc.2.1
  · exact absurd h hfc.2.2.1
  · exact absurd h hfc.2.2.2
  · rw [requestOf_unsupported s.req h]; rfl

/-- Non-vacuity of C15: a read request. -/
example : (samplePdu [1, 1, 0, 2, 0, 11]).req 1 ≠ 5 := by decide

theorem registeredPrefix_le (t : Table) (adr qty : Nat) : registeredPrefix t adr qty ≤ qty := by
  unfold registeredPrefix
  have := (List.takeWhile_prefix (p := fun i => (t (adr + i)).isSome) (l := List.range qty)).length_le
  simpa using this

/-- C16. Whatever the request and the outcome: the registrations are unchanged; a Boolean variable that changes
is registered in the coil table at one of the addresses the request names and the function code is 5 or 15;
a register variable that changes is registered in the holding register table at one of the addresses the
request names and the function code is 6 or 16. (`count` is 1 for single writes.) -/
theorem C16_writes_only_addressed (cfg : Config) (hc : cfg.WF) (s : Pdu) :
    ∃ resp m, slaveAnswer cfg s = .ok (resp, m) ∧
      m.coils = s.mem.coils ∧ m.dins = s.mem.dins ∧ m.hregs = s.mem.hregs ∧ m.inregs = s.mem.inregs ∧
      (∀ p, m.bools p ≠ s.mem.bools p → (s.req 1 = 5 ∨ s.req 1 = 15) ∧
        ∃ i, i < (if s.req 1 = 5 then 1 else word (s.req 4) (s.req 5)) ∧
          s.mem.coils (word (s.req 2) (s.req 3) + i) = some p) ∧
      (∀ p, m.regs p ≠ s.mem.regs p → (s.req 1 = 6 ∨ s.req 1 = 16) ∧
        ∃ i, i < (if s.req 1 = 6 then 1 else word (s.req 4) (s.req 5)) ∧
          s.mem.hregs (word (s.req 2) (s.req 3) + i) = some p) := by
  have key : ∀ {α : Type} (t : Table) (adr n qty : Nat) (f : Nat → α) (h : Ptr → α) (p : Ptr), n ≤ qty →
      storeAll t adr f h n p ≠ h p → ∃ i, i < qty ∧ t (adr + i) = some p := by
    intro α t adr n qty f h p hn hne
    by_cases hex : ∃ i, i < qty ∧ t (adr + i) = some p
    · exact hex
    · exact absurd (storeAll_other t adr f h n p (fun i hi he => hex ⟨i, by omega, he⟩)) hne
  by_cases hro : s.req 1 ≠ 5 ∧ s.req 1 ≠ 6 ∧ s.req 1 ≠ 15 ∧ s.req 1 ≠ 16
  · obtain ⟨resp, h⟩ := C15_reads_pure cfg hc s hro
    exact ⟨resp, s.mem, h, rfl, rfl, rfl, rfl, fun p hp => absurd rfl hp, fun p hp => absurd rfl hp⟩
  · refine ⟨_, _, slaveAnswer_eq cfg hc s, ?_⟩
    have hcases : s.req 1 = 5 ∨ s.req 1 = 6 ∨ s.req 1 = 15 ∨ s.req 1 = 16 := by
      by_cases a : s.req 1 = 5
      · exact .inl a
      by_cases b : s.req 1 = 6
      · exact .inr (.inl b)
      by_cases c : s.req 1 = 15
      · exact .inr (.inr (.inl c))
      by_cases d : s.req 1 = 16
      · exact .inr (.inr (.inr d))
      exact absurd ⟨a, b, c, d⟩ hro
    rcases hcases with h | h | h | h
    · rw [requestOf_wcoil s.req h]
      simp only [effect, h]
      split
      · exact ⟨rfl, rfl, rfl, rfl, fun p hp => ⟨.inl trivial, key _ _ _ _ _ _ p (Nat.le_refl _) hp⟩, fun p hp => absurd rfl hp⟩
      · exact ⟨rfl, rfl, rfl, rfl, fun p hp => absurd rfl hp, fun p hp => absurd rfl hp⟩
    · rw [requestOf_wreg s.req h]
      simp only [effect, h]
      split
      · exact ⟨rfl, rfl, rfl, rfl, fun p hp => absurd rfl hp, fun p hp => ⟨.inl trivial, key _ _ _ _ _ _ p (Nat.le_refl _) hp⟩⟩
      · exact ⟨rfl, rfl, rfl, rfl, fun p hp => absurd rfl hp, fun p hp => absurd rfl hp⟩
    · rw [requestOf_wcoils s.req h]
      simp only [effect, h]
      split
      · exact ⟨rfl, rfl, rfl, rfl, fun p hp => ⟨.inr trivial, key _ _ _ _ _ _ p (registeredPrefix_le _ _ _) hp⟩, fun p hp => absurd rfl hp⟩
      · exact ⟨rfl, rfl, rfl, rfl, fun p hp => absurd rfl hp, fun p hp => absurd rfl hp⟩
    · rw [requestOf_wregs s.req h]
      simp only [effect, h]
      split
      · exact ⟨rfl, rfl, rfl, rfl, fun p hp => absurd rfl hp, fun p hp => ⟨.inr trivial, key _ _ _ _ _ _ p (registeredPrefix_le _ _ _) hp⟩⟩
      · exact ⟨rfl, rfl, rfl, rfl, fun p hp => absurd rfl hp, fun p hp => absurd rfl hp⟩

/-- Non-vacuity of C16: a request that does change a variable. -/
example : ∃ resp m, slaveAnswer Config.default (samplePdu [1, 5, 0, 4, 0xFF, 0]) = .ok (resp, m) ∧
    m.bools 4 ≠ sampleMem.bools 4 :=
  ⟨_, _, C11_write_coil _ (by decide) _ (by decide) 4 0xFF00 (by decide) (by decide) (by decide) (by decide) 4 (by decide),
   by decide⟩

/-- C17 does not hold: a Write Multiple Registers request answered with exception 04 has changed a variable. -/
theorem C17_multi_write_atomic_violated :
    ∃ (cfg : Config) (s : Pdu) (m : AppMem), cfg.WF ∧
      slaveAnswer cfg s = .ok ([s.req 1 ||| 0x80, 4], m) ∧ m.regs 14 ≠ s.mem.regs 14 := by
  refine ⟨Config.default, samplePdu [1, 16, 0, 14, 0, 2, 4, 0xAA, 0xAA, 0xBB, 0xBB],
    effect Config.default.limits sampleMem (requestOf (bufOf [1, 16, 0, 14, 0, 2, 4, 0xAA, 0xAA, 0xBB, 0xBB])),
    by decide, ?_, ?_⟩
  · rw [slaveAnswer_eq _ (by decide)]
    exact congrArg _ (Prod.ext (by decide +kernel) rfl)
  · decide +kernel

/-- C17, what does hold. If a multiple write is answered with exception 04, there is a first unregistered
address `adr + k` inside the range; exactly the items before it have been written (the highest address winning
among items that share a variable) and every other variable is unchanged. Missing w.r.t. the full
property: the items before the first unregistered address are not restored. -/
theorem C17_multi_write_prefix_partial (cfg : Config) (hc : cfg.WF) (s : Pdu) (m : AppMem)
    (h : slaveAnswer cfg s = .ok ([s.req 1 ||| 0x80, 4], m)) :
    (s.req 1 = 15 → ∃ k, k < word (s.req 4) (s.req 5) ∧
      (∀ i, i < k → (s.mem.coils (word (s.req 2) (s.req 3) + i)).isSome) ∧
      s.mem.coils (word (s.req 2) (s.req 3) + k) = none ∧
      m.regs = s.mem.regs ∧
      (∀ i p, i < k → s.mem.coils (word (s.req 2) (s.req 3) + i) = some p →
        (∀ j, i < j → j < k → s.mem.coils (word (s.req 2) (s.req 3) + j) ≠ some p) →
        m.bools p = (s.req (7 + i / 8)).getLsbD (i % 8)) ∧
      (∀ p, (∀ i, i < k → s.mem.coils (word (s.req 2) (s.req 3) + i) ≠ some p) → m.bools p = s.mem.bools p)) ∧
    (s.req 1 = 16 → ∃ k, k < word (s.req 4) (s.req 5) ∧
      (∀ i, i < k → (s.mem.hregs (word (s.req 2) (s.req 3) + i)).isSome) ∧
      s.mem.hregs (word (s.req 2) (s.req 3) + k) = none ∧
      m.bools = s.mem.bools ∧
      (∀ i p, i < k → s.mem.hregs (word (s.req 2) (s.req 3) + i) = some p →
        (∀ j, i < j → j < k → s.mem.hregs (word (s.req 2) (s.req 3) + j) ≠ some p) →
        (m.regs p).toNat = word (s.req (7 + 2 * i)) (s.req (8 + 2 * i))) ∧
      (∀ p, (∀ i, i < k → s.mem.hregs (word (s.req 2) (s.req 3) + i) ≠ some p) → m.regs p = s.mem.regs p)) ∧
    (s.req 1 ≠ 15 → s.req 1 ≠ 16 → m = s.mem) := by
  have he := (C13_exception_selection cfg hc s 4).mp ⟨m, h⟩
  rw [slaveAnswer_eq cfg hc] at h
  have hm : effect cfg.limits s.mem (requestOf s.req) = m := by injection h with h; injection h
  have first : ∀ (t : Table) adr qty, ¬ allRegistered t adr qty → ∃ k, k < qty ∧
      (∀ i, i < k → (t (adr + i)).isSome) ∧ t (adr + k) = none := by
    intro t adr qty hna
    induction qty with
    | zero => exact absurd (fun i hi => by omega) hna
    | succ n ih =>
      by_cases hn : allRegistered t adr n
      · refine ⟨n, by omega, hn, ?_⟩
        by_cases hs : (t (adr + n)).isSome
        · exfalso
          apply hna
          intro i hi
          by_cases e : i = n
          · subst e; exact hs
          · exact hn i (by omega)
        · simpa using hs
      · obtain ⟨k, h1, h2, h3⟩ := ih hn
        exact ⟨k, by omega, h2, h3⟩
  refine ⟨?_, ?_, ?_⟩
  · intro hf
    rw [requestOf_wcoils s.req hf] at he hm
    have hna : ¬ allRegistered s.mem.coils (word (s.req 2) (s.req 3)) (word (s.req 4) (s.req 5)) := by
      intro hall
      simp only [exceptionFor, if_pos hall] at he
      repeat' split at he
      all_goals simp at he
    obtain ⟨k, h1, h2, h3⟩ := first _ _ _ hna
    simp only [effect, he, or_true, if_true] at hm
    rw [registeredPrefix_eq _ _ _ k (by omega) h2 (fun _ => h3)] at hm
    subst hm
    exact ⟨k, h1, h2, h3, rfl, fun i p hi hp hl => storeAll_get _ _ _ _ _ i p hi hp hl,
      fun p hp => storeAll_other _ _ _ _ _ p hp⟩
  · intro hf
    rw [requestOf_wregs s.req hf] at he hm
    have hna : ¬ allRegistered s.mem.hregs (word (s.req 2) (s.req 3)) (word (s.req 4) (s.req 5)) := by
      intro hall
      simp only [exceptionFor, if_pos hall] at he
      repeat' split at he
      all_goals simp at he
    obtain ⟨k, h1, h2, h3⟩ := first _ _ _ hna
    simp only [effect, he, or_true, if_true] at hm
    rw [registeredPrefix_eq _ _ _ k (by omega) h2 (fun _ => h3)] at hm
    subst hm
    refine ⟨k, h1, h2, h3, rfl, fun i p hi hp hl => ?_, fun p hp => storeAll_other _ _ _ _ _ p hp⟩
    show BitVec.toNat (storeAll _ _ _ _ _ p) = _
    rw [storeAll_get _ _ _ _ _ i p hi hp hl]
    have := word_lt (s.req (7 + 2 * i)) (s.req (8 + 2 * i))
    rw [BitVec.toNat_ofNat, Nat.mod_eq_of_lt this]
  · intro h15 h16
    rw [← hm]
    rcases fc_cases (s.req 1) with h | h | h | h | h | h | h | h | h
    · rw [requestOf_bits s.req .coils h]; rfl
    · rw [requestOf_bits s.req .dins h]; rfl
    · rw [requestOf_regs s.req .hregs h]; rfl
    · rw [requestOf_regs s.req .inregs h]; rfl
    · rw [requestOf_wcoil s.req h] at he ⊢; simp [effect, he]
    · rw [requestOf_wreg s.req h] at he ⊢; simp [effect, he]
    · exact absurd h h15
    · exact absurd h h16
    · rw [requestOf_unsupported s.req h]; rfl

/-! ### C18 -/

theorem encode_len (l : Limits) (m : AppMem) (r : Request) :
    2 ≤ (encodeResponse (respond l m r)).length ∧ (encodeResponse (respond l m r)).length ≤ 252 ∧
    ((encodeResponse (respond l m r)).getD 0 0 = r.fc ∨
      (encodeResponse (respond l m r)).getD 0 0 = r.fc ||| 0x80 ∧ (encodeResponse (respond l m r)).length = 2) := by
  unfold respond
  cases he : exceptionFor l m r with
  | some c => simp [encodeResponse]
  | none =>
    cases r with
    | readBits t adr qty =>
      simp only [exceptionFor] at he
      split at he
      · simp at he
      simp [normalResponse, encodeResponse, packBits_length, Request.fc]
      omega
    | readRegs t adr qty =>
      simp only [exceptionFor] at he
      split at he
      · simp at he
      simp only [normalResponse, encodeResponse, flatMap_be_length, List.length_cons, List.length_map,
        List.length_range, Request.fc]
      refine ⟨by omega, by omega, .inl rfl⟩
    | unsupported fc => simp [exceptionFor] at he
    | writeCoil | writeReg | writeCoils | writeRegs =>
      simp [normalResponse, encodeResponse, beBytes, Request.fc]

/-- C18. Whatever the request, the prepared message (address byte + response PDU) has length 3..253, is the
encoding of a protocol response, its function code is the request's or, for a 3 byte exception message, the
request's with bit 7 set, and framing it for any slave ID succeeds. -/
theorem C18_response_well_formed (cfg : Config) (hc : cfg.WF) (s : Pdu) (id : U8) :
    ∃ r s', parseRequest cfg s = .ok (r, s') ∧
      3 ≤ s'.respLen.toNat ∧ s'.respLen.toNat ≤ 253 ∧
      (∃ R : Response, s'.resp.bytes 1 (s'.respLen.toNat - 1) = encodeResponse R) ∧
      (s'.resp 1 = s.req 1 ∨ (s'.resp 1 = s.req 1 ||| 0x80 ∧ s'.respLen.toNat = 3)) ∧
      (∃ b, rtuSend (some s'.resp) s'.respLen id = .ok (RET_OK, some b, s'.respLen + 2)) := by
  obtain ⟨r, s', h, hi⟩ := parse_refines cfg hc s
  have hl := encode_len cfg.limits s.mem (requestOf s.req)
  have h1 : s'.resp 1 = (encodeResponse (respond cfg.limits s.mem (requestOf s.req))).getD 0 0 := by
    rw [← hi.bytes, getD_lt _ _ _ (by simp; omega)]
    simp
  have hlen := hi.len
  refine ⟨r, s', h, by omega, by omega,
    ⟨respond cfg.limits s.mem (requestOf s.req), ?_⟩, ?_, ⟨_, rtuSend_ok _ _ _ (by omega)⟩⟩
  · rw [hlen, Nat.add_sub_cancel_left, hi.bytes]
  · rw [h1, hlen, ← requestOf_fc s.req]
    rcases hl.2.2 with h | ⟨h, h'⟩
    · exact .inl h
    · exact .inr ⟨h, by omega⟩

/-- C18 is tight at both ends: the shortest (exception) and the longest (2000 coils: 1 + 2 + 250) message. -/
example : (encodeResponse (.exception 3 2)).length = 2 ∧
    (encodeResponse (.bits 1 (List.replicate 2000 true))).length = 252 := by
  constructor
  · rfl
  · simp only [encodeResponse, packBits_length, List.length_cons, List.length_replicate]

/-! ### C19 -/

/-- Number of bytes of a frame (address, PDU and CRC) that the request's function code calls for: 8 for function
codes 1–6, 9 plus the announced byte count for 15 and 16, 4 otherwise. -/
def frameLenFor (fc : U8) (byteCount : U8) : Nat :=
  if fc = 1 ∨ fc = 2 ∨ fc = 3 ∨ fc = 4 ∨ fc = 5 ∨ fc = 6 then 8
  else if fc = 15 ∨ fc = 16 then 9 + byteCount.toNat
  else 4

/-- C19 does not hold: two receive buffers that hold the same accepted (CRC-correct, correctly addressed) frame
of length 4, and differ only beyond it, give different answers. -/
theorem C19_only_received_bytes_violated :
    ∃ (cfg : Config) (s t : Pdu) (len id : U8), cfg.WF ∧ s.mem = t.mem ∧ s.resp = t.resp ∧
      (∀ i, i < len.toNat → s.req i = t.req i) ∧
      rtuRecv (some s.req) len id = .ok RET_OK ∧ rtuRecv (some t.req) len id = .ok RET_OK ∧
      slaveAnswer cfg s ≠ slaveAnswer cfg t := by
  refine ⟨Config.default, samplePdu [1, 3, 0x40, 0x21], samplePdu [1, 3, 0x40, 0x21, 0, 1], 4, 1, by decide,
    rfl, rfl, by decide, ?_, ?_, ?_⟩
  · rw [rtuRecv_eq]; exact congrArg _ (by decide +kernel)
  · rw [rtuRecv_eq]; exact congrArg _ (by decide +kernel)
  · rw [slaveAnswer_eq _ (by decide), slaveAnswer_eq _ (by decide)]
    intro h
    injection h with h
    have := congrArg Prod.fst h
    revert this
    decide +kernel

theorem storeAll_congr {α : Type} (t : Table) (adr : Nat) (f g : Nat → α) (h : Ptr → α) (n : Nat)
    (hfg : ∀ i, i < n → f i = g i) : storeAll t adr f h n = storeAll t adr g h n := by
  induction n with
  | zero => rfl
  | succ n ih => rw [storeAll_succ, storeAll_succ, ih (fun i hi => hfg i (by omega)), hfg n (by omega)]

/-- C19, what does hold: if the frame is at least as long as its function code (and byte count) calls for, the
answer and the effect depend only on the bytes received (everything before the two CRC bytes) and on the
memory. Missing w.r.t. the full property: CRC-correct frames that are too short, for which the code
also looks at bytes beyond the frame. -/
theorem C19_only_received_bytes_partial (cfg : Config) (hc : cfg.WF) (s t : Pdu) (n : Nat)
    (hmem : s.mem = t.mem) (hsame : ∀ i, i + 2 < n → s.req i = t.req i)
    (hlen : frameLenFor (s.req 1) (s.req 6) ≤ n) :
    slaveAnswer cfg s = slaveAnswer cfg t := by
  rw [slaveAnswer_eq cfg hc, slaveAnswer_eq cfg hc, ← hmem]
  have e1 : s.req 1 = t.req 1 := by
    apply hsame
    unfold frameLenFor at hlen
    repeat' split at hlen
    all_goals omega
  have short : ∀ (hl : 8 ≤ n), s.req 2 = t.req 2 ∧ s.req 3 = t.req 3 ∧ s.req 4 = t.req 4 ∧ s.req 5 = t.req 5 :=
    fun hl => ⟨hsame 2 (by omega), hsame 3 (by omega), hsame 4 (by omega), hsame 5 (by omega)⟩
  rcases fc_cases (s.req 1) with h | h | h | h | h | h | h | h | h
  · obtain ⟨a, b, c, d⟩ := short (by simpa [frameLenFor, h] using hlen)
    rw [requestOf_bits s.req .coils h, requestOf_bits t.req .coils (e1 ▸ h), a, b, c, d]
  · obtain ⟨a, b, c, d⟩ := short (by simpa [frameLenFor, h] using hlen)
    rw [requestOf_bits s.req .dins h, requestOf_bits t.req .dins (e1 ▸ h), a, b, c, d]
  · obtain ⟨a, b, c, d⟩ := short (by simpa [frameLenFor, h] using hlen)
    rw [requestOf_regs s.req .hregs h, requestOf_regs t.req .hregs (e1 ▸ h), a, b, c, d]
  · obtain ⟨a, b, c, d⟩ := short (by simpa [frameLenFor, h] using hlen)
    rw [requestOf_regs s.req .inregs h, requestOf_regs t.req .inregs (e1 ▸ h), a, b, c, d]
  · obtain ⟨a, b, c, d⟩ := short (by simpa [frameLenFor, h] using hlen)
    rw [requestOf_wcoil s.req h, requestOf_wcoil t.req (e1 ▸ h), a, b, c, d]
  · obtain ⟨a, b, c, d⟩ := short (by simpa [frameLenFor, h] using hlen)
    rw [requestOf_wreg s.req h, requestOf_wreg t.req (e1 ▸ h), a, b, c, d]
  · have hn : 9 + (s.req 6).toNat ≤ n := by simpa [frameLenFor, h] using hlen
    obtain ⟨a, b, c, d⟩ := short (by omega)
    have e6 : s.req 6 = t.req 6 := hsame 6 (by omega)
    rw [requestOf_wcoils s.req h, requestOf_wcoils t.req (e1 ▸ h), ← a, ← b, ← c, ← d, ← e6]
    have hcode : ∀ f g, exceptionFor cfg.limits s.mem (.writeCoils (word (s.req 2) (s.req 3)) (word (s.req 4) (s.req 5)) (s.req 6).toNat f) =
        exceptionFor cfg.limits s.mem (.writeCoils (word (s.req 2) (s.req 3)) (word (s.req 4) (s.req 5)) (s.req 6).toNat g) :=
      fun _ _ => rfl
    refine congrArg _ (Prod.ext (by simp only [respond, exceptionFor, normalResponse, Request.fc]) ?_)
    simp only [effect]
    rw [hcode (fun i => (t.req (7 + i / 8)).getLsbD (i % 8)) (fun i => (s.req (7 + i / 8)).getLsbD (i % 8))]
    split
    · rename_i he
      have hbc : (s.req 6).toNat = (word (s.req 4) (s.req 5) + 7) / 8 := by
        by_cases hb : (s.req 6).toNat = (word (s.req 4) (s.req 5) + 7) / 8
        · exact hb
        · simp only [exceptionFor, ne_eq, hb, not_false_eq_true, if_true] at he
          exfalso
          repeat' split at he
          all_goals simp at he
      congr 1
      apply storeAll_congr
      intro i hi
      have := registeredPrefix_le s.mem.coils (word (s.req 2) (s.req 3)) (word (s.req 4) (s.req 5))
      rw [hsame (7 + i / 8) (by omega)]
    · rfl
  · have hn : 9 + (s.req 6).toNat ≤ n := by simpa [frameLenFor, h] using hlen
    obtain ⟨a, b, c, d⟩ := short (by omega)
    have e6 : s.req 6 = t.req 6 := hsame 6 (by omega)
    rw [requestOf_wregs s.req h, requestOf_wregs t.req (e1 ▸ h), ← a, ← b, ← c, ← d, ← e6]
    have hcode : ∀ f g, exceptionFor cfg.limits s.mem (.writeRegs (word (s.req 2) (s.req 3)) (word (s.req 4) (s.req 5)) (s.req 6).toNat f) =
        exceptionFor cfg.limits s.mem (.writeRegs (word (s.req 2) (s.req 3)) (word (s.req 4) (s.req 5)) (s.req 6).toNat g) :=
      fun _ _ => rfl
    refine congrArg _ (Prod.ext (by simp only [respond, exceptionFor, normalResponse, Request.fc]) ?_)
    simp only [effect]
    rw [hcode (fun i => BitVec.ofNat 16 (word (t.req (7 + 2 * i)) (t.req (8 + 2 * i)))) (fun i => BitVec.ofNat 16 (word (s.req (7 + 2 * i)) (s.req (8 + 2 * i))))]
    split
    · rename_i he
      have hbc : (s.req 6).toNat = 2 * word (s.req 4) (s.req 5) := by
        by_cases hb : (s.req 6).toNat = 2 * word (s.req 4) (s.req 5)
        · exact hb
        · simp only [exceptionFor, ne_eq, hb, not_false_eq_true, if_true] at he
          exfalso
          repeat' split at he
          all_goals simp at he
      refine congrArg (fun x => { s.mem with regs := x }) ?_
      apply storeAll_congr
      intro i hi
      have := registeredPrefix_le s.mem.hregs (word (s.req 2) (s.req 3)) (word (s.req 4) (s.req 5))
      rw [hsame (7 + 2 * i) (by omega), hsame (8 + 2 * i) (by omega)]
    · rfl
  · rw [requestOf_unsupported s.req h, requestOf_unsupported t.req (e1 ▸ h), e1]

/-- Non-vacuity of C19_partial: an 8 byte read request followed by different leftovers. -/
example : let s := samplePdu [1, 3, 0, 0, 0, 1, 0x84, 0x0A, 7, 7]
    let t := samplePdu [1, 3, 0, 0, 0, 1, 0x84, 0x0A, 9]
    s.mem = t.mem ∧ (∀ i, i + 2 < 8 → s.req i = t.req i) ∧ frameLenFor (s.req 1) (s.req 6) ≤ 8 ∧ s.req 8 ≠ t.req 8 := by
  refine ⟨rfl, ?_, by decide, by decide⟩
  intro i hi
  have : ∀ i, i < 6 → (samplePdu [1, 3, 0, 0, 0, 1, 0x84, 0x0A, 7, 7]).req i = (samplePdu [1, 3, 0, 0, 0, 1, 0x84, 0x0A, 9]).req i := by decide
  exact this i (by omega)

end Modbus
