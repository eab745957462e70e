import Verif.Spec.StmtWire
import Verif.Proofs.DriverSlave

/-! The transmitter of the slave device when interrupts occur between any two statements. -/

namespace Modbus

open Spec

/-! ### Interrupts -/

/-- What an interrupt leaves alone, and what it does to the transmitter. -/
structure IrqEff (s s' : SlaveSys) (o : List HOut) (t : Bool) : Prop where
  live : Live s'.lib
  st : s'.lib.st = s.lib.st
  resp : s'.lib.resp = s.lib.resp
  respLen : s'.lib.respLen = s.lib.respLen
  id : s'.lib.id = s.lib.id
  last : s'.last = s.last
  tx : (t = true ∧ s.cur < s.last ∧ s'.cur = s.cur + 1 ∧ s'.lib.txf = s.lib.txf ∧ o = [.tdr (s.lib.resp (s.cur + 1))]) ∨
    (s'.cur = s.cur ∧ o = [] ∧ (t = false ∧ s'.lib.txf = s.lib.txf ∨ t = true ∧ ¬ s.cur < s.last))

section
variable {cfg : Config}

theorem lib_event (hc : cfg.WF) {l : Slave} (hl : Live l) (op : SOp) (hop : op.legal cfg) (h1 : op ≠ .poll) (h2 : ∀ m i, op ≠ .init m i) :
    ∃ l', slaveStep cfg l op = .ok (l', []) ∧ Live l' ∧ l'.st = l.st ∧ l'.resp = l.resp ∧ l'.respLen = l.respLen ∧ l'.id = l.id ∧
      (l'.txf = l.txf ∨ op = .txDone) := by
  obtain ⟨l', o, hs, hl'⟩ := live_step cfg hc l hl op hop
  have := slaveStep_out hs h1
  subst this
  obtain ⟨e1, e2, e3, e4, -, -, -, -, -, -, -, e5⟩ := slaveStep_frame hs h1 h2
  exact ⟨l', hs, hl', e1, e3, e4, e2, e5.imp (fun h => h) (fun h => h.1)⟩

theorem eff_rx (hc : cfg.WF) {s : SlaveSys} (hl : Live s.lib) (b : Option U8) :
    ∃ s', slaveIrqRx cfg s b = .ok s' ∧ s'.cur = s.cur ∧ IrqEff s s' [] false := by
  cases b with
  | none => exact ⟨s, rfl, rfl, hl, rfl, rfl, rfl, rfl, rfl, .inr ⟨rfl, rfl, .inl ⟨rfl, rfl⟩⟩⟩
  | some b =>
    obtain ⟨l, h1, hl1, a1, a2, a3, a4, a5⟩ := lib_event hc hl (.rxByte b) trivial (by simp) (by simp)
    have a5 : l.txf = s.lib.txf := a5.elim (fun h => h) (fun h => nomatch h)
    simp only [slaveIrqRx, h1, ok_bind]
    cases hg : s.gap with
    | false => exact ⟨_, rfl, rfl, hl1, a1, a2, a3, a4, rfl, .inr ⟨rfl, rfl, .inl ⟨rfl, a5⟩⟩⟩
    | true =>
      obtain ⟨l', h2, hl2, b1, b2, b3, b4, b5⟩ := lib_event hc hl1 .frameErr trivial (by simp) (by simp)
      have b5 : l'.txf = l.txf := b5.elim (fun h => h) (fun h => nomatch h)
      simp only [if_true, h2, ok_bind, pure_eq]
      exact ⟨_, rfl, rfl, hl2, b1.trans a1, b2.trans a2, b3.trans a3, b4.trans a4, rfl, .inr ⟨rfl, rfl, .inl ⟨rfl, b5.trans a5⟩⟩⟩

theorem eff_tx (hc : cfg.WF) {s : SlaveSys} (hl : Live s.lib) (hb : s.last < 256) (t : Bool) :
    ∃ s' o, slaveIrqTx cfg s t = .ok (s', o) ∧ IrqEff s s' o t := by
  cases t with
  | false => exact ⟨s, [], rfl, hl, rfl, rfl, rfl, rfl, rfl, .inr ⟨rfl, rfl, .inl ⟨rfl, rfl⟩⟩⟩
  | true =>
    by_cases hlt : s.cur < s.last
    · simp only [slaveIrqTx, if_true, hlt, rd_ok s.lib.resp (show s.cur + 1 < 256 by omega), ok_bind, pure_eq]
      exact ⟨_, _, rfl, hl, rfl, rfl, rfl, rfl, rfl, .inl ⟨rfl, hlt, rfl, rfl, rfl⟩⟩
    · obtain ⟨l, h1, hl1, a1, a2, a3, a4, -⟩ := lib_event hc hl .txDone trivial (by simp) (by simp)
      simp only [slaveIrqTx, if_true, hlt, if_false, h1, ok_bind, pure_eq]
      exact ⟨_, [], rfl, hl1, a1, a2, a3, a4, rfl, .inr ⟨rfl, rfl, .inr ⟨rfl, hlt⟩⟩⟩

theorem eff_rto (hc : cfg.WF) {s : SlaveSys} (hl : Live s.lib) :
    ∃ s', slaveIrqRto cfg s = .ok s' ∧ s'.cur = s.cur ∧ IrqEff s s' [] false := by
  by_cases hr : s.rtof = true
  · obtain ⟨l, h1, hl1, a1, a2, a3, a4, a5⟩ := lib_event hc hl .t15 trivial (by simp) (by simp)
    have a5 : l.txf = s.lib.txf := a5.elim (fun h => h) (fun h => nomatch h)
    simp only [slaveIrqRto, hr, if_true, h1, ok_bind, pure_eq]
    exact ⟨_, rfl, rfl, hl1, a1, a2, a3, a4, rfl, .inr ⟨rfl, rfl, .inl ⟨rfl, a5⟩⟩⟩
  · simp only [slaveIrqRto, hr]
    exact ⟨s, rfl, rfl, hl, rfl, rfl, rfl, rfl, rfl, .inr ⟨rfl, rfl, .inl ⟨rfl, rfl⟩⟩⟩

theorem quiet_txf {s s' : SlaveSys} (h : IrqEff s s' [] false) : s'.lib.txf = s.lib.txf := by
  rcases h.tx with ⟨h, -⟩ | ⟨-, -, ⟨-, h⟩ | ⟨h, -⟩⟩
  · cases h
  · exact h
  · cases h

/-- The TXE bit a handler sees. -/
def HOp.txe : HOp → Bool
  | .usart _ t => t
  | _ => false

theorem eff_irq (hc : cfg.WF) {s : SlaveSys} (hl : Live s.lib) (hb : s.last < 256) (h : HOp) (hn : ∀ op, h ≠ .main op) :
    ∃ s' o, slaveSysStep cfg s h = .ok (s', o) ∧ IrqEff s s' o h.txe := by
  cases h with
  | main op => exact absurd rfl (hn op)
  | rto => exact ⟨_, [], rfl, hl, rfl, rfl, rfl, rfl, rfl, .inr ⟨rfl, rfl, .inl ⟨rfl, rfl⟩⟩⟩
  | timer =>
    obtain ⟨l, h1, hl1, a1, a2, a3, a4, a5⟩ := lib_event hc hl .t35 trivial (by simp) (by simp)
    have a5 : l.txf = s.lib.txf := a5.elim (fun h => h) (fun h => nomatch h)
    exact ⟨{ s with lib := l, gap := false, rtof := false }, [], by simp only [slaveSysStep, h1, ok_bind, pure_eq], hl1, a1, a2, a3, a4, rfl,
      .inr ⟨rfl, rfl, .inl ⟨rfl, a5⟩⟩⟩
  | usart b t =>
    obtain ⟨s1, h1, c1, i1⟩ := eff_rx hc hl b
    obtain ⟨s2, o, h2, i2⟩ := eff_tx hc i1.live (by rw [i1.last]; exact hb) t
    obtain ⟨s3, h3, c3, i3⟩ := eff_rto hc i2.live
    refine ⟨s3, o, by simp only [slaveSysStep, h1, h2, h3, ok_bind, pure_eq], i3.live, ?_, ?_, ?_, ?_, ?_, ?_⟩
    · rw [i3.st, i2.st, i1.st]
    · rw [i3.resp, i2.resp, i1.resp]
    · rw [i3.respLen, i2.respLen, i1.respLen]
    · rw [i3.id, i2.id, i1.id]
    · rw [i3.last, i2.last, i1.last]
    · rw [quiet_txf i3, ← quiet_txf i1, c3, ← c1, ← i1.last, ← i1.resp]
      exact i2.tx

/-! ### Definedness -/

/-- A response the protocol prescribes to some request in some memory. -/
def IsPdu (cfg : Config) (p : List U8) : Prop := ∃ mem r, p = encodeResponse (respond cfg.limits mem r)

/-- What is known at every position of the main program, whatever has happened. -/
structure PInv (cfg : Config) (id : U8) (d : SlaveDev) : Prop where
  live : Live d.sys.lib
  sid : d.sys.lib.id = id
  last : d.sys.last < 256
  frame : d.pc = .anFrame → ∃ p, IsPdu cfg p ∧ d.sys.lib.respLen.toNat = 1 + p.length ∧ d.sys.lib.resp.bytes 1 p.length = p
  send : d.pc = .anCur ∨ d.pc = .anLast ∨ d.pc = .anTdr →
    ∃ p, IsPdu cfg p ∧ d.sys.lib.resp.bytes 0 d.sys.lib.respLen.toNat = rtuFrame id p

theorem PInv.respPos {id : U8} {d : SlaveDev} (h : PInv cfg id d) (hp : d.pc = .anCur ∨ d.pc = .anLast ∨ d.pc = .anTdr) :
    0 < d.sys.lib.respLen.toNat := by
  obtain ⟨p, -, hb⟩ := h.send hp
  have := congrArg List.length hb
  rw [Buf.bytes_length, rtuFrame_length] at this
  omega

theorem IsPdu.short {p : List U8} (h : IsPdu cfg p) : 1 + p.length ≤ 253 := by
  obtain ⟨mem, r, rfl⟩ := h
  have := encode_len cfg.limits mem r
  omega

/-! ### The line -/

/-- When the transmitter may be busy. -/
def BusyAt (d : SlaveDev) : Prop :=
  match d.pc with
  | .anLast | .anTdr | .anTxeie | .anTxf => True
  | .anSt => d.sys.lib.txf = .set
  | .out | .enter | .trTest | .anT35 => d.sys.lib.st = .transmitting ∧ d.sys.lib.txf = .set
  | _ => False

/-- The transmitter and the line, as long as `send` is not disturbed. -/
structure TInv (cfg : Config) (id : U8) (d : SlaveDev) (o : List HOut) : Prop where
  fr : ∀ f ∈ frames o, ∃ p, IsPdu cfg p ∧ f = rtuFrame id p
  le : d.sys.cur ≤ d.sys.last
  busy : d.sys.cur < d.sys.last → BusyAt d
  hist : ¬ Sending d → (frames o = [] ∧ wire o = [] ∧ d.sys.cur = d.sys.last) ∨
    ∃ done f, frames o = done ++ [f] ∧ wire o = done.flatten ++ f.take (d.sys.cur + 1) ∧ f.length = d.sys.last + 1 ∧
      (d.sys.cur < d.sys.last → d.sys.lib.resp.bytes 0 (d.sys.last + 1) = f)
  send : Sending d → wire o = (frames o).flatten ∧ d.sys.cur = 0 ∧ (d.pc = .anTdr → d.sys.last = d.sys.lib.respLen.toNat - 1)

theorem TInv.done {id : U8} {d : SlaveDev} {o : List HOut} (h : TInv cfg id d o) (hb : ¬ BusyAt d) : d.sys.cur = d.sys.last := by
  rcases Nat.lt_or_ge d.sys.cur d.sys.last with h1 | h1
  · exact absurd (h.busy h1) hb
  · exact Nat.le_antisymm h.le h1

theorem TInv.complete {id : U8} {d : SlaveDev} {o : List HOut} (h : TInv cfg id d o) (hs : ¬ Sending d) (hc : d.sys.cur = d.sys.last) :
    wire o = (frames o).flatten := by
  rcases h.hist hs with ⟨h1, h2, -⟩ | ⟨done, f, h1, h2, h3, -⟩
  · rw [h1, h2]; rfl
  · rw [h1, h2, hc, List.take_of_length_le (by omega)]; simp

/-- Statements and interrupts that leave the transmitter alone. -/
theorem TInv.keep {id : U8} {d d' : SlaveDev} {o : List HOut} (h : TInv cfg id d o) (h1 : d'.sys.cur = d.sys.cur) (h2 : d'.sys.last = d.sys.last)
    (hs : ¬ Sending d) (hs' : ¬ Sending d') (h3 : d.sys.cur < d.sys.last → BusyAt d' ∧ d'.sys.lib.resp = d.sys.lib.resp) :
    TInv cfg id d' (o ++ []) := by
  rw [List.append_nil]
  refine ⟨h.fr, by rw [h1, h2]; exact h.le, by rw [h1, h2]; exact fun hc => (h3 hc).1, fun _ => ?_, fun h => absurd h hs'⟩
  rw [h1, h2]
  rcases h.hist hs with h4 | ⟨done, f, a, b, c, e⟩
  · exact .inl h4
  · exact .inr ⟨done, f, a, b, c, fun hc => by rw [(h3 hc).2]; exact e hc⟩

/-- Interrupts. -/
theorem inv_irq (hc : cfg.WF) {id : U8} {d : SlaveDev} (hp : PInv cfg id d) (h : HOp) (hn : ∀ op, h ≠ .main op) :
    ∃ d' o', slaveDevIrq cfg d h = .ok (d', o') ∧ PInv cfg id d' ∧
      ∀ o, TInv cfg id d o → (h.txe = true → ¬ Sending d) → TInv cfg id d' (o ++ o') := by
  obtain ⟨s', o', h1, e⟩ := eff_irq hc hp.live hp.last h hn
  refine ⟨⟨s', d.pc, txeAfter h d.txeie d.sys⟩, o', by simp only [slaveDevIrq, h1, ok_bind, pure_eq], ⟨e.live, ?_, ?_, ?_, ?_⟩, ?_⟩
  · show s'.lib.id = id; rw [e.id]; exact hp.sid
  · show s'.last < 256; rw [e.last]; exact hp.last
  · show d.pc = _ → ∃ p, _ ∧ s'.lib.respLen.toNat = _ ∧ s'.lib.resp.bytes 1 _ = _
    rw [e.respLen, e.resp]; exact hp.frame
  · show _ → ∃ p, _ ∧ s'.lib.resp.bytes 0 s'.lib.respLen.toNat = _
    rw [e.respLen, e.resp]; exact hp.send
  · intro o ht hu
    rcases e.tx with ⟨t1, t2, t3, t4, t5⟩ | ⟨t1, t2, t3⟩
    · -- one byte
      have hs : ¬ Sending d := hu t1
      refine ⟨?_, ?_, ?_, fun _ => ?_, fun h => absurd h hs⟩
      · rw [frames_append, t5]; simpa [frames] using ht.fr
      · show s'.cur ≤ s'.last
        rw [t3, e.last]; exact t2
      · intro _
        have := ht.busy t2
        revert this
        unfold BusyAt
        simp only [e.st, t4]
        exact fun h => h
      · show (_ ∧ _ ∧ s'.cur = s'.last) ∨ ∃ (done : List (List U8)) (f : List U8), _ ∧ _ = done.flatten ++ f.take (s'.cur + 1) ∧ f.length = s'.last + 1 ∧
          (s'.cur < s'.last → s'.lib.resp.bytes 0 (s'.last + 1) = f)
        rw [t3, e.last, e.resp]
        rcases ht.hist hs with ⟨-, -, h3⟩ | ⟨done, f, a, b, c, g⟩
        · omega
        · refine .inr ⟨done, f, ?_, ?_, c, fun _ => g t2⟩
          · rw [frames_append, a, t5]; simp [frames]
          · rw [wire_append, b, List.append_assoc, t5]
            congr 1
            show f.take (d.sys.cur + 1) ++ [d.sys.lib.resp (d.sys.cur + 1)] = f.take (d.sys.cur + 1 + 1)
            rw [List.take_succ_eq_append_getElem (l := f) (i := d.sys.cur + 1) (by omega)]
            have := g t2
            subst this
            simp
    · subst t2
      by_cases hs : Sending d
      · -- in `send`
        have hx := ht.send hs
        rw [List.append_nil]
        refine ⟨ht.fr, ?_, ?_, fun h => absurd hs h, fun _ => ⟨hx.1, ?_, ?_⟩⟩
        · show s'.cur ≤ s'.last
          rw [t1, e.last]; exact ht.le
        · intro _
          show BusyAt _
          unfold BusyAt
          rcases hs with hs | hs <;> simp only [hs]
        · show s'.cur = 0
          rw [t1]; exact hx.2.1
        · show d.pc = _ → s'.last = s'.lib.respLen.toNat - 1
          rw [e.last, e.respLen]; exact hx.2.2
      · refine ht.keep t1 e.last hs hs fun hlt => ⟨?_, e.resp⟩
        have := ht.busy hlt
        rcases t3 with ⟨-, t3⟩ | ⟨-, t3⟩
        · revert this
          unfold BusyAt
          simp only [e.st, t3]
          exact fun h => h
        · exact absurd hlt t3

/-- Statements. -/
theorem inv_stmt (hc : cfg.WF) {id : U8} {d : SlaveDev} (hp : PInv cfg id d) :
    ∃ d' o', slaveStmt cfg d = .ok (d', o') ∧ PInv cfg id d' ∧ ∀ o, TInv cfg id d o → TInv cfg id d' (o ++ o') := by
  obtain ⟨s, pc, e⟩ := d
  -- a statement without output that changes flags, state or lengths only
  have quiet : ∀ (l : Slave) (pc' : SPc), slaveStmt cfg ⟨s, pc, e⟩ = .ok (⟨{ s with lib := l }, pc', e⟩, []) → Live l → l.id = s.lib.id →
      l.resp = s.lib.resp → pc' ≠ .anFrame → pc' ≠ .anCur → ¬ Sending ⟨s, pc, e⟩ → ¬ Sending ⟨{ s with lib := l }, pc', e⟩ →
      (BusyAt ⟨s, pc, e⟩ → s.cur < s.last → BusyAt ⟨{ s with lib := l }, pc', e⟩) →
      ∃ d' o', slaveStmt cfg ⟨s, pc, e⟩ = .ok (d', o') ∧ PInv cfg id d' ∧ ∀ o, TInv cfg id ⟨s, pc, e⟩ o → TInv cfg id d' (o ++ o') := by
    intro l pc' hst hl hid hr n1 n2 hs hs' hb
    refine ⟨_, _, hst, ⟨hl, hid.trans hp.sid, hp.last, fun h => absurd h n1, ?_⟩, fun o ht => ?_⟩
    · rintro (h | h)
      · exact absurd h n2
      · exact absurd h hs'
    · exact ht.keep rfl rfl hs hs' fun hlt => ⟨hb (ht.busy hlt) hlt, hr⟩
  have live : ∀ {l : Slave}, l.drv = s.lib.drv → l.msgPtr = s.lib.msgPtr → l.dataSet = s.lib.dataSet → l.subscribed = s.lib.subscribed → Live l :=
    fun h1 h2 h3 h4 => ⟨h1.trans hp.live.drv, h2.trans hp.live.msgPtr, h3.trans hp.live.dataSet, h4.trans hp.live.sub⟩
  have hm : s.lib.msgPtr = true := hp.live.msgPtr
  have hds : s.lib.dataSet = true := hp.live.dataSet
  have hdv : s.lib.drv = true := hp.live.drv
  have ns : ∀ {d : SlaveDev}, d.pc ≠ .anLast → d.pc ≠ .anTdr → ¬ Sending d := fun h1 h2 h => h.elim h1 h2
  cases pc with
  | out => exact quiet s.lib .out rfl hp.live rfl rfl (by simp) (by simp) (ns (by simp) (by simp)) (ns (by simp) (by simp)) fun h _ => h
  | enter =>
    cases hst : s.lib.st with
    | idle =>
      refine quiet s.lib .idTest (by simp only [slaveStmt, hst]) hp.live rfl rfl (by simp) (by simp) (ns (by simp) (by simp)) (ns (by simp) (by simp)) ?_
      rintro ⟨h, -⟩; rw [hst] at h; cases h
    | msgReceived =>
      refine quiet s.lib .mrF1 (by simp only [slaveStmt, hst]) hp.live rfl rfl (by simp) (by simp) (ns (by simp) (by simp)) (ns (by simp) (by simp)) ?_
      rintro ⟨h, -⟩; rw [hst] at h; cases h
    | transmitting =>
      exact quiet s.lib .trTest (by simp only [slaveStmt, hst]) hp.live rfl rfl (by simp) (by simp) (ns (by simp) (by simp)) (ns (by simp) (by simp)) fun h _ => h
    | unknown =>
      refine quiet s.lib .dfSt (by simp only [slaveStmt, hst]) hp.live rfl rfl (by simp) (by simp) (ns (by simp) (by simp)) (ns (by simp) (by simp)) ?_
      rintro ⟨h, -⟩; rw [hst] at h; cases h
  | idTest =>
    by_cases h : s.lib.t15 = .set
    · exact quiet s.lib .idClear (by simp only [slaveStmt, if_pos h]) hp.live rfl rfl (by simp) (by simp) (ns (by simp) (by simp)) (ns (by simp) (by simp)) fun h _ => h.elim
    · exact quiet s.lib .out (by simp only [slaveStmt, if_neg h]) hp.live rfl rfl (by simp) (by simp) (ns (by simp) (by simp)) (ns (by simp) (by simp)) fun h _ => h.elim
  | idClear => exact quiet { s.lib with t15 := .cleared } .idRecv rfl (live rfl rfl rfl rfl) rfl rfl (by simp) (by simp) (ns (by simp) (by simp)) (ns (by simp) (by simp)) fun h _ => h.elim
  | idRecv =>
    have key : ∃ r, rtuRecv s.lib.reqData s.lib.reqLen s.lib.id = .ok r := by
      rw [Slave.reqData, hp.live.dataSet, if_pos rfl, rtuRecv_eq]; exact ⟨_, rfl⟩
    obtain ⟨r, hr⟩ := key
    refine quiet s.lib (if r ≠ RET_OK then .idErr else .idSt) ?_ hp.live rfl rfl ?_ ?_ (ns (by simp) (by simp)) ?_ fun h _ => h.elim
    · simp only [slaveStmt, hm, hr, ok_bind, if_true]
    · split <;> simp
    · split <;> simp
    · apply ns
      · show (if r ≠ RET_OK then SPc.idErr else .idSt) ≠ _
        split <;> simp
      · show (if r ≠ RET_OK then SPc.idErr else .idSt) ≠ _
        split <;> simp
  | idErr => exact quiet { s.lib with ferr := .set } .idSt rfl (live rfl rfl rfl rfl) rfl rfl (by simp) (by simp) (ns (by simp) (by simp)) (ns (by simp) (by simp)) fun h _ => h.elim
  | idSt => exact quiet { s.lib with st := .msgReceived } .out rfl (live rfl rfl rfl rfl) rfl rfl (by simp) (by simp) (ns (by simp) (by simp)) (ns (by simp) (by simp)) fun h _ => h.elim
  | mrF1 =>
    by_cases h : s.lib.ferr = .set
    · exact quiet s.lib .mrT1 (by simp only [slaveStmt, if_pos h]) hp.live rfl rfl (by simp) (by simp) (ns (by simp) (by simp)) (ns (by simp) (by simp)) fun h _ => h.elim
    · exact quiet s.lib .mrF2 (by simp only [slaveStmt, if_neg h]) hp.live rfl rfl (by simp) (by simp) (ns (by simp) (by simp)) (ns (by simp) (by simp)) fun h _ => h.elim
  | mrT1 =>
    by_cases h : s.lib.t35 = .set
    · exact quiet s.lib .drLen (by simp only [slaveStmt, if_pos h]) hp.live rfl rfl (by simp) (by simp) (ns (by simp) (by simp)) (ns (by simp) (by simp)) fun h _ => h.elim
    · exact quiet s.lib .mrF2 (by simp only [slaveStmt, if_neg h]) hp.live rfl rfl (by simp) (by simp) (ns (by simp) (by simp)) (ns (by simp) (by simp)) fun h _ => h.elim
  | mrF2 =>
    by_cases h : s.lib.ferr = .cleared
    · exact quiet s.lib .mrT2 (by simp only [slaveStmt, if_pos h]) hp.live rfl rfl (by simp) (by simp) (ns (by simp) (by simp)) (ns (by simp) (by simp)) fun h _ => h.elim
    · exact quiet s.lib .out (by simp only [slaveStmt, if_neg h]) hp.live rfl rfl (by simp) (by simp) (ns (by simp) (by simp)) (ns (by simp) (by simp)) fun h _ => h.elim
  | mrT2 =>
    by_cases h : s.lib.t35 = .set
    · exact quiet s.lib .anParse (by simp only [slaveStmt, if_pos h]) hp.live rfl rfl (by simp) (by simp) (ns (by simp) (by simp)) (ns (by simp) (by simp)) fun h _ => h.elim
    · exact quiet s.lib .out (by simp only [slaveStmt, if_neg h]) hp.live rfl rfl (by simp) (by simp) (ns (by simp) (by simp)) (ns (by simp) (by simp)) fun h _ => h.elim
  | drLen => exact quiet { s.lib with reqLen := 0 } .drSt (by simp only [slaveStmt, slaveReqLen0, hm, if_true, ok_bind]) (live rfl rfl rfl rfl) rfl rfl (by simp) (by simp) (ns (by simp) (by simp)) (ns (by simp) (by simp)) fun h _ => h.elim
  | drSt => exact quiet { s.lib with st := .idle } .drErr rfl (live rfl rfl rfl rfl) rfl rfl (by simp) (by simp) (ns (by simp) (by simp)) (ns (by simp) (by simp)) fun h _ => h.elim
  | drErr => exact quiet { s.lib with ferr := .cleared } .drT35 rfl (live rfl rfl rfl rfl) rfl rfl (by simp) (by simp) (ns (by simp) (by simp)) (ns (by simp) (by simp)) fun h _ => h.elim
  | drT35 => exact quiet { s.lib with t35 := .cleared } .out rfl (live rfl rfl rfl rfl) rfl rfl (by simp) (by simp) (ns (by simp) (by simp)) (ns (by simp) (by simp)) fun h _ => h.elim
  | trTest =>
    by_cases h : s.lib.txf = .cleared
    · refine quiet s.lib .trSt (by simp only [slaveStmt, if_pos h]) hp.live rfl rfl (by simp) (by simp) (ns (by simp) (by simp)) (ns (by simp) (by simp)) ?_
      rintro ⟨-, h'⟩; rw [show s.lib.txf = _ from h'] at h; cases h
    · exact quiet s.lib .out (by simp only [slaveStmt, if_neg h]) hp.live rfl rfl (by simp) (by simp) (ns (by simp) (by simp)) (ns (by simp) (by simp)) fun h _ => h
  | trSt => exact quiet { s.lib with st := .idle } .trResp rfl (live rfl rfl rfl rfl) rfl rfl (by simp) (by simp) (ns (by simp) (by simp)) (ns (by simp) (by simp)) fun h _ => h.elim
  | trResp => exact quiet { s.lib with respLen := 0 } .trReq (by simp only [slaveStmt, slaveRespLen0, hm, if_true, ok_bind]) (live rfl rfl rfl rfl) rfl rfl (by simp) (by simp) (ns (by simp) (by simp)) (ns (by simp) (by simp)) fun h _ => h.elim
  | trReq => exact quiet { s.lib with reqLen := 0 } .out (by simp only [slaveStmt, slaveReqLen0, hm, if_true, ok_bind]) (live rfl rfl rfl rfl) rfl rfl (by simp) (by simp) (ns (by simp) (by simp)) (ns (by simp) (by simp)) fun h _ => h.elim
  | dfSt => exact quiet { s.lib with st := .idle } .dfT15 rfl (live rfl rfl rfl rfl) rfl rfl (by simp) (by simp) (ns (by simp) (by simp)) (ns (by simp) (by simp)) fun h _ => h.elim
  | dfT15 => exact quiet { s.lib with t15 := .cleared } .dfT35 rfl (live rfl rfl rfl rfl) rfl rfl (by simp) (by simp) (ns (by simp) (by simp)) (ns (by simp) (by simp)) fun h _ => h.elim
  | dfT35 => exact quiet { s.lib with t35 := .cleared } .dfErr rfl (live rfl rfl rfl rfl) rfl rfl (by simp) (by simp) (ns (by simp) (by simp)) (ns (by simp) (by simp)) fun h _ => h.elim
  | dfErr => exact quiet { s.lib with ferr := .cleared } .dfTx rfl (live rfl rfl rfl rfl) rfl rfl (by simp) (by simp) (ns (by simp) (by simp)) (ns (by simp) (by simp)) fun h _ => h.elim
  | dfTx => exact quiet { s.lib with txf := .cleared } .dfResp rfl (live rfl rfl rfl rfl) rfl rfl (by simp) (by simp) (ns (by simp) (by simp)) (ns (by simp) (by simp)) fun h _ => h.elim
  | dfResp => exact quiet { s.lib with respLen := 0 } .dfReq (by simp only [slaveStmt, slaveRespLen0, hm, if_true, ok_bind]) (live rfl rfl rfl rfl) rfl rfl (by simp) (by simp) (ns (by simp) (by simp)) (ns (by simp) (by simp)) fun h _ => h.elim
  | dfReq => exact quiet { s.lib with reqLen := 0 } .out (by simp only [slaveStmt, slaveReqLen0, hm, if_true, ok_bind]) (live rfl rfl rfl rfl) rfl rfl (by simp) (by simp) (ns (by simp) (by simp)) (ns (by simp) (by simp)) fun h _ => h.elim
  | anTxf => exact quiet { s.lib with txf := .set } .anSt rfl (live rfl rfl rfl rfl) rfl rfl (by simp) (by simp) (ns (by simp) (by simp)) (ns (by simp) (by simp)) fun _ _ => rfl
  | anSt => exact quiet { s.lib with st := .transmitting } .anT35 rfl (live rfl rfl rfl rfl) rfl rfl (by simp) (by simp) (ns (by simp) (by simp)) (ns (by simp) (by simp)) fun h _ => ⟨rfl, h⟩
  | anT35 => exact quiet { s.lib with t35 := .cleared } .out rfl (live rfl rfl rfl rfl) rfl rfl (by simp) (by simp) (ns (by simp) (by simp)) (ns (by simp) (by simp)) fun h _ => h
  | anTxeie =>
    refine ⟨⟨s, .anTxf, true⟩, [], rfl, ⟨hp.live, hp.sid, hp.last, (fun h => nomatch h), ?_⟩, fun o ht => ?_⟩
    · rintro (h | h | h) <;> cases h
    · exact ht.keep rfl rfl (ns (by simp) (by simp)) (ns (by simp) (by simp)) fun _ => ⟨trivial, rfl⟩
  | anParse =>
    obtain ⟨r, p, hq, hi⟩ := parse_refines cfg hc s.lib.pdu
    have hq : parseRequest cfg { req := s.lib.req, resp := s.lib.resp, respLen := s.lib.respLen, mem := s.lib.mem } = .ok (r, p) := hq
    refine ⟨⟨{ s with lib := { s.lib with req := p.req, resp := p.resp, respLen := p.respLen, mem := p.mem } }, .anFrame, e⟩, [], ?_,
      ⟨live rfl rfl rfl rfl, hp.sid, hp.last, fun _ => ⟨_, ⟨_, _, rfl⟩, hi.len, hi.bytes⟩, ?_⟩, fun o ht => ?_⟩
    · simp only [slaveStmt, slaveParse, hm, hds, Bool.true_eq_false, or_self, if_false, hq, ok_bind, pure_eq]
    · rintro (h | h | h) <;> cases h
    · have := ht.done (fun h => h)
      exact ht.keep rfl rfl (ns (by simp) (by simp)) (ns (by simp) (by simp)) fun hlt => absurd this (Nat.ne_of_lt hlt)
  | anFrame =>
    obtain ⟨p, hpdu, hlen, hb⟩ := hp.frame rfl
    have hlen : s.lib.respLen.toNat = 1 + p.length := hlen
    have hshort := hpdu.short
    have hl2 : (s.lib.respLen + 2).toNat = s.lib.respLen.toNat + 2 := by
      rw [BitVec.toNat_add]; simp; omega
    have hfr := framed_bytes s.lib.resp p s.lib.respLen id hlen hb
    refine ⟨⟨{ s with lib := { s.lib with resp := framed s.lib.resp s.lib.respLen.toNat id, respLen := s.lib.respLen + 2 } }, .anCur, e⟩, [], ?_,
      ⟨live rfl rfl rfl rfl, hp.sid, hp.last, (fun h => nomatch h), fun _ => ⟨p, hpdu, ?_⟩⟩, fun o ht => ?_⟩
    · have hid : s.lib.id = id := hp.sid
      simp only [slaveStmt, slaveFrame, hm, Slave.respData, hds, if_true, rtuSend_ok _ _ _ (show s.lib.respLen.toNat ≤ 253 by omega), ok_bind, pure_eq, hid]
      rfl
    · show Buf.bytes _ 0 (s.lib.respLen + 2).toNat = _
      rw [hl2]; exact hfr
    · have := ht.done (fun h => h)
      exact ht.keep rfl rfl (ns (by simp) (by simp)) (ns (by simp) (by simp)) fun hlt => absurd this (Nat.ne_of_lt hlt)
  | anCur =>
    have hpos : 0 < s.lib.respLen.toNat := hp.respPos (.inl rfl)
    refine ⟨⟨{ s with cur := 0 }, .anLast, e⟩, [], ?_, ⟨hp.live, hp.sid, hp.last, (fun h => nomatch h), fun _ => hp.send (.inl rfl)⟩, fun o ht => ?_⟩
    · simp only [slaveStmt, slaveDriverSend, hdv, hds, Bool.true_eq_false, if_false, ok_bind, if_pos hpos]
    · rw [List.append_nil]
      refine ⟨ht.fr, Nat.zero_le _, fun _ => trivial, fun h => absurd (.inl rfl) h, fun _ => ⟨?_, rfl, fun h => nomatch h⟩⟩
      exact ht.complete (ns (by simp) (by simp)) (ht.done (fun h => h))
  | anLast =>
    refine ⟨⟨{ s with last := s.lib.respLen.toNat - 1 }, .anTdr, e⟩, [], rfl,
      ⟨hp.live, hp.sid, ?_, (fun h => nomatch h), fun _ => hp.send (.inr (.inl rfl))⟩, fun o ht => ?_⟩
    · show s.lib.respLen.toNat - 1 < 256
      have := s.lib.respLen.isLt
      omega
    · rw [List.append_nil]
      obtain ⟨h1, h2, -⟩ := ht.send (.inl rfl)
      have h2 : s.cur = 0 := h2
      refine ⟨ht.fr, ?_, fun _ => trivial, fun h => absurd (.inr rfl) h, fun _ => ⟨h1, h2, fun _ => rfl⟩⟩
      show s.cur ≤ _
      omega
  | anTdr =>
    have hpos : 0 < s.lib.respLen.toNat := hp.respPos (.inr (.inr rfl))
    obtain ⟨p, hpdu, hb⟩ := hp.send (.inr (.inr rfl))
    have hb : s.lib.resp.bytes 0 s.lib.respLen.toNat = rtuFrame id p := hb
    refine ⟨⟨s, .anTxeie, e⟩, [.send (s.lib.resp.bytes 0 s.lib.respLen.toNat), .tdr (s.lib.resp 0)], ?_,
      ⟨hp.live, hp.sid, hp.last, (fun h => nomatch h), ?_⟩, fun o ht => ?_⟩
    · simp only [slaveStmt, rd_ok s.lib.resp (show 0 < 256 by decide), ok_bind]
    · rintro (h | h | h) <;> cases h
    · obtain ⟨h1, h2, h3⟩ := ht.send (.inr rfl)
      have h2 : s.cur = 0 := h2
      have h3 : s.last = s.lib.respLen.toNat - 1 := h3 rfl
      refine ⟨?_, ht.le, fun _ => trivial, fun _ => .inr ⟨frames o, s.lib.resp.bytes 0 s.lib.respLen.toNat, ?_, ?_, ?_, fun _ => ?_⟩, fun h => absurd h (ns (by simp) (by simp))⟩
      · intro f hf
        rw [frames_append] at hf
        rcases List.mem_append.1 hf with hf | hf
        · exact ht.fr f hf
        · simp only [frames, List.mem_singleton] at hf
          exact ⟨p, hpdu, hf.trans hb⟩
      · rw [frames_append]; rfl
      · rw [wire_append, h1]
        congr 1
        show [s.lib.resp 0] = _
        obtain ⟨n, hn⟩ : ∃ n, s.lib.respLen.toNat = n + 1 := ⟨_, (Nat.succ_pred_eq_of_pos hpos).symm⟩
        rw [show ({ sys := s, pc := SPc.anTxeie, txeie := e } : SlaveDev).sys.cur = 0 from h2, hn, Buf.bytes_succ]; rfl
      · rw [Buf.bytes_length]
        show _ = s.last + 1
        omega
      · show s.lib.resp.bytes 0 (s.last + 1) = _
        rw [h3, Nat.sub_add_cancel hpos]

/-- One event. -/
theorem inv_step (hc : cfg.WF) {id : U8} {d : SlaveDev} (hp : PInv cfg id d) (ev : SDEv) (hl : LegalEv cfg ev) :
    ∃ d' o', slaveDevStep cfg d ev = .ok (d', o') ∧ PInv cfg id d' ∧
      ∀ o, TInv cfg id d o → (∀ rx, ev = .irq (.usart rx true) → ¬ Sending d) → TInv cfg id d' (o ++ o') := by
  have stay : slaveDevStep cfg d ev = .ok (d, []) → ∃ d' o', slaveDevStep cfg d ev = .ok (d', o') ∧ PInv cfg id d' ∧
      ∀ o, TInv cfg id d o → (∀ rx, ev = .irq (.usart rx true) → ¬ Sending d) → TInv cfg id d' (o ++ o') :=
    fun h => ⟨d, [], h, hp, fun o ht _ => by rw [List.append_nil]; exact ht⟩
  cases ev with
  | call =>
    by_cases hx : d.sys.rtof = true ∨ d.pc ≠ .out
    · exact stay (by simp only [slaveDevStep, if_pos hx])
    · have hpc : d.pc = .out := Classical.not_not.1 (fun h => hx (.inr h))
      refine ⟨{ d with pc := .enter }, [], by simp only [slaveDevStep, if_neg hx], ⟨hp.live, hp.sid, hp.last, (fun h => nomatch h), ?_⟩, fun o ht _ => ?_⟩
      · rintro (h | h | h) <;> cases h
      · refine ht.keep rfl rfl ?_ ?_ fun hlt => ⟨?_, rfl⟩
        · rintro (h | h) <;> rw [hpc] at h <;> cases h
        · rintro (h | h) <;> cases h
        · have := ht.busy hlt
          unfold BusyAt at this
          rw [hpc] at this
          exact this
  | stmt =>
    by_cases hr : d.sys.rtof = true
    · exact stay (by simp only [slaveDevStep, hr, if_true])
    · obtain ⟨d', o', h1, h2, h3⟩ := inv_stmt hc hp
      exact ⟨d', o', by simp only [slaveDevStep, hr]; exact h1, h2, fun o ht _ => h3 o ht⟩
  | app op =>
    by_cases hx : d.pc ≠ .out ∨ op = .poll
    · exact stay (by simp only [slaveDevStep, if_pos hx])
    · have hpc : d.pc = .out := Classical.not_not.1 (fun h => hx (.inl h))
      have h1 : op ≠ .poll := fun h => hx (.inr h)
      have h2 : ∀ m i, op ≠ .init m i := by rintro m i rfl; exact hl
      have h3 : op ≠ .txDone := by rintro rfl; exact hl
      have hleg : op.legal cfg := by
        cases op <;> first | exact hl | exact hl.elim | trivial
      by_cases hst : d.sys.rtof ∨ op.isMain = false
      · refine stay ?_
        simp only [slaveDevStep, if_neg hx, slaveSysStep, hst, if_true, ok_bind, pure_eq]
      · obtain ⟨l, k1, k2, k3, k4, k5, k6, k7⟩ := lib_event hc hp.live op hleg h1 h2
        have k7 : l.txf = d.sys.lib.txf := k7.elim (fun h => h) (fun h => absurd h h3)
        refine ⟨{ d with sys := { d.sys with lib := l } }, [], ?_, ⟨k2, k6.trans hp.sid, hp.last, ?_, ?_⟩, fun o ht _ => ?_⟩
        · simp only [slaveDevStep, if_neg hx, slaveSysStep, hst, if_false, k1, ok_bind, slaveSends, pure_eq]
          cases op <;> first | rfl | exact absurd rfl (h2 _ _)
        · intro h; rw [show d.pc = _ from h] at hpc; cases hpc
        · rintro (h | h | h) <;> rw [show d.pc = _ from h] at hpc <;> cases hpc
        · have hns : ¬ Sending d := by rintro (h | h) <;> rw [hpc] at h <;> cases h
          refine ht.keep rfl rfl hns hns fun hlt => ⟨?_, k4⟩
          have := ht.busy hlt
          revert this
          unfold BusyAt
          simp only [k3, k7]
          exact fun h => h
  | irq h =>
    by_cases hm : ∃ op, h = .main op
    · obtain ⟨op, rfl⟩ := hm
      exact stay rfl
    · have hn : ∀ op, h ≠ .main op := fun op e => hm ⟨op, e⟩
      obtain ⟨d', o', h1, h2, h3⟩ := inv_irq hc hp h hn
      refine ⟨d', o', ?_, h2, fun o ht hu => h3 o ht fun htx => ?_⟩
      · cases h with
        | main op => exact absurd rfl (hn op)
        | _ => exact h1
      · cases h with
        | usart rx t =>
          have : t = true := htx
          subst this
          exact hu rx rfl
        | _ => cases htx

theorem inv_run (hc : cfg.WF) {id : U8} (evs : List SDEv) : ∀ {d : SlaveDev}, PInv cfg id d → (∀ e ∈ evs, LegalEv cfg e) →
    ∃ d' o', stmtRun cfg d evs = .ok (d', o') ∧ PInv cfg id d' ∧
      ∀ o, TInv cfg id d o → SendUndisturbed cfg d evs → TInv cfg id d' (o ++ o') := by
  induction evs with
  | nil => intro d hp _; exact ⟨d, [], rfl, hp, fun o ht _ => by rw [List.append_nil]; exact ht⟩
  | cons ev evs ih =>
    intro d hp hl
    obtain ⟨d1, o1, h1, p1, t1⟩ := inv_step hc hp ev (hl ev (List.mem_cons_self ..))
    obtain ⟨d2, o2, h2, p2, t2⟩ := ih p1 (fun e he => hl e (List.mem_cons_of_mem _ he))
    refine ⟨d2, o1 ++ o2, by simp only [stmtRun, h1, h2, ok_bind, pure_eq], p2, fun o ht hu => ?_⟩
    rw [← List.append_assoc]
    exact t2 _ (t1 o ht hu.1) (hu.2 d1 o1 h1)

end

end Modbus
