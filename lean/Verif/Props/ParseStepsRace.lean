import Verif.Props.ParseSteps
import Verif.Spec.Crc

/-! C81: a byte that arrives while a short request is being answered. -/

namespace Modbus
open Spec

theorem rbind_assoc {α β γ : Type} (m : ReqM α) (f : α → ReqM β) (g : β → ReqM γ) : (m >>= f) >>= g = m >>= fun a => f a >>= g := by
  show (m.bind f).bind g = m.bind fun a => (f a).bind g
  induction m with
  | ret a => rfl
  | err u => rfl
  | rd i k ih => simp only [ReqM.bind, ih]

theorem rbind_pure {α β : Type} (a : α) (f : α → ReqM β) : (pure a >>= f) = f a := rfl

theorem rbind_lift {α β : Type} (a : α) (f : α → ReqM β) : (ReqM.lift (.ok a) >>= f) = f a := rfl

/-- One read. -/
theorem prog_rdReq (cfg : Config) {α : Type} {s : Slave} (hs : s.subscribed = true) {i : Nat} (hi : i < 256) (f : U8 → ReqM α) (k : α → SProg)
    (ints : List (List SEv)) :
    runProg (slaveInt cfg) ((rdReq i >>= f).toProg k) ints s =
      runProg (slaveInt cfg) ((f ((slaveAfter s (ints.headD [])).req i)).toProg k) ints.tail (slaveAfter s (ints.headD [])) := by
  have : (rdReq i >>= f) = .rd i f := by
    unfold rdReq
    rw [if_pos hi]
    rfl
  rw [this]
  show runProg (slaveInt cfg) (.step free _ _) ints s = _
  rw [runProg_head cfg hs]
  simp only [okBind, addOut_nil]

/-- Reading a word without interrupts in between. -/
theorem prog_word (cfg : Config) {α : Type} {s : Slave} (hs : s.subscribed = true) {i : Nat} (hi : i + 1 < 256) (f : U16 → ReqM α)
    (k : α → SProg) (I : List SEv) (ints : List (List SEv)) :
    runProg (slaveInt cfg) ((readReqU16 i >>= f).toProg k) (I :: [] :: ints) s =
      runProg (slaveInt cfg) ((f (u16of ((slaveAfter s I).req i) ((slaveAfter s I).req (i + 1)))).toProg k) ints (slaveAfter s I) := by
  unfold readReqU16
  rw [rbind_assoc, prog_rdReq cfg hs (by omega), rbind_assoc, prog_rdReq cfg (by exact hs) hi]
  rfl

theorem prog_lift_error (cfg : Config) {α : Type} {s : Slave} (hs : s.subscribed = true) (u : UB) (k : α → SProg) (ints : List (List SEv)) :
    runProg (slaveInt cfg) ((ReqM.lift (.error u : C α)).toProg k) ints s = .error u := by
  show runProg (slaveInt cfg) (.step free _ _) ints s = _
  rw [runProg_head cfg hs]
  rfl

/-- Reading 127 or more registers that are all registered runs out of the table or out of the response buffer. -/
theorem readRegs_overrun (size : Nat) (tab : AppMem → Table) (adr : U16) (hsz : size ≤ 65535) :
    ∀ (n i : Nat) (x : Ret × Pdu), i ≤ 126 → 127 ≤ i + n → adr.toNat + i ≤ size → (∀ a, adr.toNat ≤ a → a < size → tab x.2.mem a ≠ none) →
      ∃ u, forLoop (readRegBody size tab adr) n i x = .error u ∧ (u = .oobRead ∨ u = .oobWrite)
  | 0, i, x, h1, h2, _, _ => by omega
  | n + 1, i, x, h1, h2, h3, hreg => by
    have hadr : (adr + BitVec.ofNat 16 i).toNat = adr.toNat + i := by
      rw [BitVec.toNat_add, BitVec.toNat_ofNat]
      have := adr.isLt
      omega
    unfold forLoop
    by_cases hlt : adr.toNat + i < size
    · obtain ⟨p, hp⟩ : ∃ p, tab x.2.mem (adr.toNat + i) = some p := Option.ne_none_iff_exists'.1 (hreg _ (by omega) hlt)
      have hg : getRegisterState size (tab x.2.mem) x.2.mem.regs (adr + BitVec.ofNat 16 i) = .ok ((x.2.mem.regs p).toNat : Int) := by
        unfold getRegisterState tabRd
        rw [hadr, if_pos hlt, hp]
        rfl
      have hv : RET_ERROR ≠ (((x.2.mem.regs p).toNat : Nat) : Int) := by
        show (-1 : Int) ≠ _
        omega
      by_cases hi : i = 126
      · refine ⟨.oobWrite, ?_, .inr rfl⟩
        have hb : readRegBody size tab adr i x = .error .oobWrite := by
          unfold readRegBody
          simp only [hg, okBind]
          rw [if_neg hv, hi]
          simp only [writeU16, wr, idxRespReadData, rtuBufferSize]
          rfl
        rw [hb]
        rfl
      · obtain ⟨b, hb⟩ : ∃ b, writeU16 x.2.resp (idxRespReadData + i * 2) (BitVec.ofInt 16 ((x.2.mem.regs p).toNat : Int)) = .ok b := by
          unfold writeU16 wr
          simp only [idxRespReadData, rtuBufferSize]
          rw [if_pos (by omega)]
          simp only [okBind]
          rw [if_pos (by omega)]
          exact ⟨_, rfl⟩
        have hbody : readRegBody size tab adr i x = .ok (.next (((x.2.mem.regs p).toNat : Int), { x.2 with resp := b })) := by
          unfold readRegBody
          simp only [hg, okBind]
          rw [if_neg hv, hb]
          rfl
        rw [hbody]
        exact readRegs_overrun size tab adr hsz n (i + 1) _ (by omega) (by omega) (by omega) hreg
    · refine ⟨.oobRead, ?_, .inl rfl⟩
      have hb : readRegBody size tab adr i x = .error .oobRead := by
        unfold readRegBody getRegisterState tabRd
        simp only [hadr, if_neg hlt]
        rfl
      rw [hb]
      rfl

/-- The interrupts of the attack: a byte arrives after the poll has checked the quantity, before it reads the quantity again. -/
def byteAfterCheck (b : U8) : List (List SEv) := List.replicate 10 [] ++ [[.rxByte b], [], [], []]

/-- C81 is violated: a slave that has accepted a five byte frame "read holding registers" (station, 3, and three bytes that happen to be the high byte of the
register address and the CRC; the high CRC byte 0) and is about to answer it takes the low byte of the quantity from behind the frame.
Whenever that leftover byte makes an acceptable quantity and the registers concerned are registered, a single further byte of 127 or more arriving between
two statements of the poll makes the poll read outside the register table or write outside the response buffer. -/
theorem C81_overrun_violated (cfg : Config) (s : Slave) (b : U8) (hs : s.subscribed = true) (hm : s.msgPtr = true) (hd : s.dataSet = true)
    (hst : s.st = .msgReceived) (hf : s.ferr = .cleared) (ht : s.t35 = .set)
    (hlen : s.reqLen = 5) (hfc : s.req 1 = 3) (h4 : s.req 4 = 0) (h5 : 1 ≤ (s.req 5).toNat) (h5' : (s.req 5).toNat ≤ 125)
    (hq : cfg.hregQty < 65535)
    (hadr : (u16of (s.req 2) (s.req 3)).toNat + (s.req 5).toNat ≤ cfg.hregQty)
    (hreg : ∀ a, (u16of (s.req 2) (s.req 3)).toNat ≤ a → a < cfg.hregQty → s.mem.hregs a ≠ none) (hb : 127 ≤ b.toNat) :
    ∃ u, slaveFStep cfg s (.pollWith (byteAfterCheck b)) = .error u ∧ (u = .oobRead ∨ u = .oobWrite) := by
  show ∃ u, runProg (slaveInt cfg) (slavePollF cfg)
    ([] :: [] :: [] :: [] :: [] :: [] :: [] :: [] :: [] :: [] :: [.rxByte b] :: [] :: [] :: [] :: []) s = .error u ∧ _
  have word : ∀ x y : U8, (u16of x y).toNat = x.toNat * 256 + y.toNat := fun x y => u16of_toNat x y
  have hqv : (u16of (s.req 4) (s.req 5)).toNat = (s.req 5).toNat := by rw [word, h4]; simp
  unfold slavePollF
  rw [runProg_head cfg hs]
  simp only [List.headD_cons, List.tail_cons, slaveAfter_nil, okBind, addOut_nil, hst]
  unfold slaveMsgReceivedF test
  rw [runProg_head cfg hs]
  simp only [List.headD_cons, List.tail_cons, slaveAfter_nil, okBind, addOut_nil, hf]
  rw [show (decide (Flag.cleared = Flag.set)) = false from rfl]
  simp only [Bool.false_eq_true, if_false]
  rw [runProg_head cfg hs]
  simp only [List.headD_cons, List.tail_cons, slaveAfter_nil, okBind, addOut_nil, hf, decide_true, if_true]
  rw [runProg_head cfg hs]
  simp only [List.headD_cons, List.tail_cons, slaveAfter_nil, okBind, addOut_nil, ht, decide_true, if_true]
  unfold slaveAnswerF slaveParseF
  rw [runProg_head cfg hs]
  simp only [List.headD_cons, List.tail_cons, slaveAfter_nil, okBind, addOut_nil, hm, hd, Bool.true_eq_false, or_self, if_false]
  unfold parseRequestR
  rw [prog_rdReq cfg hs (by decide)]
  simp only [List.headD_cons, List.tail_cons, slaveAfter_nil, hfc]
  rw [show (slaveMapperR cfg).find? (fun e => (3 : U8) == e.1) = some (fcReadHoldingRegisters, slaveReadHoldingRegR cfg) from rfl]
  dsimp only
  unfold slaveReadHoldingRegR
  rw [show wr s.resp idxFunctionCode fcReadHoldingRegisters = .ok (s.resp.set 1 3) from rfl, rbind_lift]
  unfold checkReadReqR
  rw [rbind_assoc, prog_word cfg hs (by decide), slaveAfter_nil, rbind_assoc, prog_word cfg hs (by decide), slaveAfter_nil]
  simp only [idxRequestAdr, idxRequestQty, Nat.reduceAdd]
  rw [if_neg (by rw [hqv]; simp only [maxReadRegQty]; omega), if_neg (by rw [hqv, Nat.mod_eq_of_lt (by omega)]; omega), rbind_pure]
  dsimp only
  rw [if_pos rfl]
  unfold readRegServiceR
  rw [prog_word cfg hs (by decide)]
  generalize hs1 : slaveAfter s [.rxByte b] = s1
  have hs1' : s1.subscribed = true := by rw [← hs1]; exact hs
  have r1 : ∀ i, s1.req i = if i = 5 then b else s.req i := by
    intro i
    rw [← hs1]
    show (s.req.set s.reqLen.toNat b) i = _
    rw [hlen]
    rfl
  simp only [idxRequestAdr, idxRequestQty, Nat.reduceAdd]
  rw [prog_word cfg hs1' (by decide), slaveAfter_nil]
  simp only [r1, Nat.reduceAdd, Nat.reduceEqDiff, if_false, if_true]
  have hqb : (u16of (s.req 4) b).toNat = b.toNat := by rw [word, h4]; simp
  have hw : ∀ v : U8, ∃ r, wr (s.resp.set 1 3) idxRespReadByteCnt v = .ok r := fun v => ⟨_, rfl⟩
  obtain ⟨r, hr⟩ := hw (BitVec.ofNat 8 (2 * (u16of (s.req 4) b).toNat))
  have hts : tableSize cfg.hregQty = cfg.hregQty := by unfold tableSize; rw [if_pos hq]
  obtain ⟨u, hu, hu'⟩ := readRegs_overrun cfg.hregQty AppMem.hregs (u16of (s.req 2) (s.req 3)) (by omega) (u16of (s.req 4) b).toNat 0
    (RET_OK, { req := s.req, resp := r, respLen := s.respLen, mem := s.mem }) (by omega) (by omega) (by omega) hreg
  refine ⟨u, ?_, hu'⟩
  rw [hr, hts]
  simp only [okBind]
  rw [hu]
  exact prog_lift_error cfg hs1' u _ _

/-- The same for "read input registers". -/
theorem C81_overrun_input_violated (cfg : Config) (s : Slave) (b : U8) (hs : s.subscribed = true) (hm : s.msgPtr = true) (hd : s.dataSet = true)
    (hst : s.st = .msgReceived) (hf : s.ferr = .cleared) (ht : s.t35 = .set)
    (hlen : s.reqLen = 5) (hfc : s.req 1 = 4) (h4 : s.req 4 = 0) (h5 : 1 ≤ (s.req 5).toNat) (h5' : (s.req 5).toNat ≤ 125)
    (hq : cfg.inregQty < 65535)
    (hadr : (u16of (s.req 2) (s.req 3)).toNat + (s.req 5).toNat ≤ cfg.inregQty)
    (hreg : ∀ a, (u16of (s.req 2) (s.req 3)).toNat ≤ a → a < cfg.inregQty → s.mem.inregs a ≠ none) (hb : 127 ≤ b.toNat) :
    ∃ u, slaveFStep cfg s (.pollWith (byteAfterCheck b)) = .error u ∧ (u = .oobRead ∨ u = .oobWrite) := by
  show ∃ u, runProg (slaveInt cfg) (slavePollF cfg)
    ([] :: [] :: [] :: [] :: [] :: [] :: [] :: [] :: [] :: [] :: [.rxByte b] :: [] :: [] :: [] :: []) s = .error u ∧ _
  have word : ∀ x y : U8, (u16of x y).toNat = x.toNat * 256 + y.toNat := fun x y => u16of_toNat x y
  have hqv : (u16of (s.req 4) (s.req 5)).toNat = (s.req 5).toNat := by rw [word, h4]; simp
  unfold slavePollF
  rw [runProg_head cfg hs]
  simp only [List.headD_cons, List.tail_cons, slaveAfter_nil, okBind, addOut_nil, hst]
  unfold slaveMsgReceivedF test
  rw [runProg_head cfg hs]
  simp only [List.headD_cons, List.tail_cons, slaveAfter_nil, okBind, addOut_nil, hf]
  rw [show (decide (Flag.cleared = Flag.set)) = false from rfl]
  simp only [Bool.false_eq_true, if_false]
  rw [runProg_head cfg hs]
  simp only [List.headD_cons, List.tail_cons, slaveAfter_nil, okBind, addOut_nil, hf, decide_true, if_true]
  rw [runProg_head cfg hs]
  simp only [List.headD_cons, List.tail_cons, slaveAfter_nil, okBind, addOut_nil, ht, decide_true, if_true]
  unfold slaveAnswerF slaveParseF
  rw [runProg_head cfg hs]
  simp only [List.headD_cons, List.tail_cons, slaveAfter_nil, okBind, addOut_nil, hm, hd, Bool.true_eq_false, or_self, if_false]
  unfold parseRequestR
  rw [prog_rdReq cfg hs (by decide)]
  simp only [List.headD_cons, List.tail_cons, slaveAfter_nil, hfc]
  rw [show (slaveMapperR cfg).find? (fun e => (4 : U8) == e.1) = some (fcReadInputRegisters, slaveReadInputRegR cfg) from rfl]
  dsimp only
  unfold slaveReadInputRegR
  rw [show wr s.resp idxFunctionCode fcReadInputRegisters = .ok (s.resp.set 1 4) from rfl, rbind_lift]
  unfold checkReadReqR
  rw [rbind_assoc, prog_word cfg hs (by decide), slaveAfter_nil, rbind_assoc, prog_word cfg hs (by decide), slaveAfter_nil]
  simp only [idxRequestAdr, idxRequestQty, Nat.reduceAdd]
  rw [if_neg (by rw [hqv]; simp only [maxReadRegQty]; omega), if_neg (by rw [hqv, Nat.mod_eq_of_lt (by omega)]; omega), rbind_pure]
  dsimp only
  rw [if_pos rfl]
  unfold readRegServiceR
  rw [prog_word cfg hs (by decide)]
  generalize hs1 : slaveAfter s [.rxByte b] = s1
  have hs1' : s1.subscribed = true := by rw [← hs1]; exact hs
  have r1 : ∀ i, s1.req i = if i = 5 then b else s.req i := by
    intro i
    rw [← hs1]
    show (s.req.set s.reqLen.toNat b) i = _
    rw [hlen]
    rfl
  simp only [idxRequestAdr, idxRequestQty, Nat.reduceAdd]
  rw [prog_word cfg hs1' (by decide), slaveAfter_nil]
  simp only [r1, Nat.reduceAdd, Nat.reduceEqDiff, if_false, if_true]
  have hqb : (u16of (s.req 4) b).toNat = b.toNat := by rw [word, h4]; simp
  have hw : ∀ v : U8, ∃ r, wr (s.resp.set 1 4) idxRespReadByteCnt v = .ok r := fun v => ⟨_, rfl⟩
  obtain ⟨r, hr⟩ := hw (BitVec.ofNat 8 (2 * (u16of (s.req 4) b).toNat))
  have hts : tableSize cfg.inregQty = cfg.inregQty := by unfold tableSize; rw [if_pos hq]
  obtain ⟨u, hu, hu'⟩ := readRegs_overrun cfg.inregQty AppMem.inregs (u16of (s.req 2) (s.req 3)) (by omega) (u16of (s.req 4) b).toNat 0
    (RET_OK, { req := s.req, resp := r, respLen := s.respLen, mem := s.mem }) (by omega) (by omega) (by omega) hreg
  refine ⟨u, ?_, hu'⟩
  rw [hr, hts]
  simp only [okBind]
  rw [hu]
  exact prog_lift_error cfg hs1' u _ _

/-! ### From power-on -/

/-- A slave with 140 input registers. -/
def raceCfg : Config := { Config.default with inregQty := 140 }

/-- Station 3 with the input registers 131 to 139 in use. -/
def raceSetup : List SOp := (List.range 9).map fun i => .register .inregs (BitVec.ofNat 16 (131 + i)) (some i)

/-- A valid request (input register 131) is received and answered; then the five bytes 3, 4, 0, 131, 0 arrive, whose CRC is correct; the slave accepts
them as a frame. -/
def raceBefore : List SOp :=
  raceSetup ++ (rtuFrame 3 [4, 0, 131, 0, 1]).map .rxByte ++ [.t15, .poll, .t35, .poll, .txDone, .poll] ++
    (rtuFrame 3 [4, 0]).map .rxByte ++ [.t15, .poll, .t35]

/-- While the slave answers them, one byte arrives. -/
def raceOps : List SPOp := .op (.init .rtu 3) :: raceBefore.map .op ++ [.pollWith (byteAfterCheck 0xFF)]

instance (cfg : Config) (o : SOp) : Decidable (o.legal cfg) := by
  cases o <;> unfold SOp.legal <;> infer_instance

instance (cfg : Config) (p : SPOp) : Decidable (p.legal cfg) := by
  cases p <;> unfold SPOp.legal <;> infer_instance

/-- Undefined behaviour, if any. -/
def faultOf (r : C (Slave × List SOut)) : Option UB :=
  match r with
  | .error u => some u
  | .ok _ => none

/-- C81 is violated from power-on: a correct sequence of calls, a correct request, five more bytes with a correct CRC, and one byte at the wrong moment. The answer
is computed from registers behind the end of the table. If the two calls are not interrupted (`Model/Preempt.lean`) nothing goes wrong. -/
theorem C81_undefined_behaviour_violated :
    raceCfg.WF ∧ (∀ p ∈ raceOps.tail, p.legal raceCfg) ∧ rtuFrame 3 [4, 0] = [3, 4, 0, 131, 0] ∧
    faultOf (slaveFRun raceCfg (Slave.powerOn AppMem.empty) raceOps) = some .oobRead ∧
    faultOf (slavePRun raceCfg (Slave.powerOn AppMem.empty) raceOps) = none := by
  refine ⟨by decide, by decide, by decide +kernel, by decide +kernel, by decide +kernel⟩

/-! ### Examples -/

theorem runProg_flat {σ ω ε : Type} (int : σ → ε → C σ) (p : Prog σ ω ε) : ∀ (ints : List (List ε)) (s : σ), ints.flatten = [] →
    runProg int p ints s = runProg int p [] s := by
  induction p with
  | done => intro ints s h; simp only [runProg, h]; rfl
  | step r f k ih =>
    intro ints s h
    have h1 : ints.headD [] = [] := by
      cases ints with
      | nil => rfl
      | cons I Is => exact (List.append_eq_nil_iff.1 h).1
    have h2 : ints.tail.flatten = [] := by
      cases ints with
      | nil => rfl
      | cons I Is => exact (List.append_eq_nil_iff.1 h).2
    simp only [runProg, h1, List.headD_nil, List.tail_nil]
    refine bind_congr_ok fun s1 _ => bind_congr_ok fun x _ => ?_
    rw [ih x.1 ints.tail x.2.1 h2]

/-- C81: without interrupts the poll is the poll of the base model. -/
theorem C81_uninterrupted (cfg : Config) (hc : cfg.WF) (s : Slave) (hs : s.subscribed = true) :
    slaveFStep cfg s (.pollWith []) = slavePoll cfg s := by
  obtain ⟨ints', e1, e2⟩ := same_poll cfg hc hs (ints := []) (.inl rfl)
  show runProg (slaveInt cfg) (slavePollF cfg) [] s = _
  rw [e2, runProg_flat _ _ ints' s e1, slave_uninterrupted]

/-- A complete request, up to and including the end of its silence. -/
def calmBefore : List SOp :=
  raceSetup ++ [.appReg 0 0x1234] ++ (rtuFrame 3 [4, 0, 131, 0, 1]).map .rxByte ++ [.t15, .poll, .t35]

/-- A complete request, in the interrupted machine. -/
def calmOps : List SPOp := .op (.init .rtu 3) :: calmBefore.map .op

/-- The state reached. -/
def reachedBy (r : C (Slave × List SOut)) : Slave :=
  match r with
  | .error _ => Slave.powerOn AppMem.empty
  | .ok x => x.1

/-- The outputs. -/
def sentBy (r : C (Slave × List SOut)) : List SOut :=
  match r with
  | .error _ => []
  | .ok x => x.2

instance (s : Slave) (ints : List (List SEv)) : Decidable (Undisturbed s ints) := by
  unfold Undisturbed; infer_instance

/-- C81 example: the byte arrives, the poll is undisturbed because the request is complete, and the answer is right. -/
theorem C81_example :
    Undisturbed (reachedBy (slaveFRun raceCfg (Slave.powerOn AppMem.empty) calmOps)) (byteAfterCheck 0xFF) ∧
    srx (byteAfterCheck 0xFF).flatten = [0xFF] ∧
    sentBy (slaveFRun raceCfg (Slave.powerOn AppMem.empty) (calmOps ++ [.pollWith (byteAfterCheck 0xFF)])) =
      [.send (rtuFrame 3 [4, 2, 0x12, 0x34])] := by
  refine ⟨by decide +kernel, by decide, by decide +kernel⟩

end Modbus
