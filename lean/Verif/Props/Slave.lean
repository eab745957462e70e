import Verif.Proofs.Slave

/-! C20, C21, C26, C27, C51 (slave), C52: properties of every execution of the slave. -/

namespace Modbus

open Spec

/-! ### C20 -/

/-- Only polls transmit. -/
theorem slaveStep_out {cfg : Config} {s s' : Slave} {op : SOp} {o : List SOut}
    (h : slaveStep cfg s op = .ok (s', o)) (hop : op ≠ .poll) : o = [] := by
  cases op with
  | poll => exact absurd rfl hop
  | init m i => simp only [slaveStep] at h; injection h with h; injection h with _ h; exact h.symm
  | t15 | t35 | frameErr | txDone | appBool | appReg =>
    simp only [slaveStep] at h; injection h with h; injection h with _ h; exact h.symm
  | rxByte b =>
    simp only [slaveStep] at h
    split at h
    · rw [wr_ok _ _ s.reqLen.isLt] at h
      simp only [ok_bind, pure_eq] at h; injection h with h; injection h with _ h; exact h.symm
    · injection h with h; injection h with _ h; exact h.symm
  | register tab a p =>
    simp only [slaveStep] at h
    cases hr : slaveRegister cfg s.mem tab a p with
    | error e => rw [hr] at h; simp at h
    | ok m => rw [hr] at h; simp only [ok_bind, pure_eq] at h; injection h with h; injection h with _ h; exact h.symm

/-- What the operations other than `poll` and `init` leave unchanged. -/
theorem slaveStep_frame {cfg : Config} {s s' : Slave} {op : SOp} {o : List SOut}
    (h : slaveStep cfg s op = .ok (s', o)) (hop : op ≠ .poll) (hin : ∀ m i, op ≠ .init m i) :
    s'.st = s.st ∧ s'.id = s.id ∧ s'.resp = s.resp ∧ s'.respLen = s.respLen ∧
    s'.drv = s.drv ∧ s'.msgPtr = s.msgPtr ∧ s'.dataSet = s.dataSet ∧ s'.subscribed = s.subscribed ∧
    (s'.ferr = s.ferr ∨ op = .frameErr ∧ s'.ferr = .set) ∧
    (s'.t15 = s.t15 ∨ op = .t15 ∧ s'.t15 = .set) ∧
    (s'.t35 = s.t35 ∨ op = .t35 ∧ s'.t35 = .set) ∧
    (s'.txf = s.txf ∨ op = .txDone ∧ s'.txf = .cleared) := by
  cases op with
  | poll => exact absurd rfl hop
  | init m i => exact absurd rfl (hin m i)
  | t15 | t35 | frameErr | txDone =>
    simp only [slaveStep] at h; injection h with h; injection h with h _; subst h
    split <;> simp
  | appBool | appReg =>
    simp only [slaveStep] at h; injection h with h; injection h with h _; subst h
    simp
  | rxByte b =>
    simp only [slaveStep] at h
    split at h
    · rw [wr_ok _ _ s.reqLen.isLt] at h
      simp only [ok_bind, pure_eq] at h; injection h with h; injection h with h _; subst h; simp
    · injection h with h; injection h with h _; subst h; simp
  | register tab a p =>
    simp only [slaveStep] at h
    cases hr : slaveRegister cfg s.mem tab a p with
    | error e => rw [hr] at h; simp at h
    | ok m =>
      rw [hr] at h; simp only [ok_bind, pure_eq] at h; injection h with h; injection h with h _; subst h; simp

/-- C20. In every execution from power-on (any operations, including re-initialisations), whenever an operation
transmits, it is a poll transmitting one frame, and the execution so far splits at an earlier poll at which
the slave, idle with the 1.5-char event pending, found in its receive buffer a CRC-correct frame whose first
byte is its ID; the ID is still the same, and nothing has been transmitted since. -/
theorem C20_transmit_only_after_valid_check (cfg : Config) (hc : cfg.WF) (mem : AppMem) (ops : List SOp)
    (s s' : Slave) (o o' : List SOut) (op : SOp)
    (hrun : slaveRun cfg (Slave.powerOn mem) ops = .ok (s, o))
    (hstep : slaveStep cfg s op = .ok (s', o')) (hout : o' ≠ []) :
    op = .poll ∧ (∃ b, o' = [.send b]) ∧
    ∃ pre post s1, ops = pre ++ .poll :: post ∧
      slaveRun cfg (Slave.powerOn mem) pre = .ok (s1, o) ∧
      s1.st = .idle ∧ s1.t15 = .set ∧ s1.id = s.id ∧
      s1.req 0 = s1.id ∧ CrcCorrect (s1.req.bytes 0 s1.reqLen.toNat) := by
  have inv : s.st = .msgReceived → s.ferr = .cleared → ∃ pre post s1, ops = pre ++ .poll :: post ∧
      slaveRun cfg (Slave.powerOn mem) pre = .ok (s1, o) ∧ s1.st = .idle ∧ s1.t15 = .set ∧ s1.id = s.id ∧
      s1.req 0 = s1.id ∧ CrcCorrect (s1.req.bytes 0 s1.reqLen.toNat) := by
    refine slaveRun_snoc_induct (cfg := cfg) (s0 := Slave.powerOn mem)
      (fun ops s o => s.st = .msgReceived → s.ferr = .cleared → ∃ pre post s1, ops = pre ++ .poll :: post ∧
        slaveRun cfg (Slave.powerOn mem) pre = .ok (s1, o) ∧ s1.st = .idle ∧ s1.t15 = .set ∧ s1.id = s.id ∧
        s1.req 0 = s1.id ∧ CrcCorrect (s1.req.bytes 0 s1.reqLen.toNat)) ?_ ?_ ops s o hrun
    · intro h; simp [Slave.powerOn] at h
    · intro ops s o op s' o' ih hr hs hst hf
      by_cases hp : op = .poll
      · subst hp
        have hpoll := slavePoll_inv cfg hc hs
        cases hpoll with
        | stay =>
          obtain ⟨pre, post, s1, h1, h2, h3⟩ := ih hst hf
          exact ⟨pre, post ++ [.poll], s1, by simp [h1], by simpa using h2, h3⟩
        | check h1 h2 =>
          have hok : s.frameOk := by
            by_cases hok : s.frameOk
            · exact hok
            · simp [hok] at hf
          exact ⟨ops, [], s, rfl, by simpa using hr, h1, h2, rfl, hok.1, (crc16_eq_zero_iff _).mp hok.2⟩
        | drop => simp at hst
        | answer => simp at hst
        | done => simp at hst
        | dflt => simp at hst
      · by_cases hi : ∃ m i, op = .init m i
        · obtain ⟨m, i, rfl⟩ := hi
          simp only [slaveStep] at hs
          injection hs with hs; injection hs with hs _
          rw [← hs] at hst
          simp [slaveInit] at hst
        · have hfr := slaveStep_frame hs hp (fun m i he => hi ⟨m, i, he⟩)
          have ho := slaveStep_out hs hp
          subst ho
          have hst' : s.st = .msgReceived := by rw [← hfr.1]; exact hst
          have hf' : s.ferr = .cleared := by
            rcases hfr.2.2.2.2.2.2.2.2.1 with h | ⟨_, h⟩
            · rw [← h]; exact hf
            · rw [h] at hf; simp at hf
          obtain ⟨pre, post, s1, h1, h2, h3⟩ := ih hst' hf'
          exact ⟨pre, post ++ [op], s1, by simp [h1], by simpa using h2, by rw [hfr.2.1]; exact h3⟩
  have hp : op = .poll := by
    by_cases hp : op = .poll
    · exact hp
    · exact absurd (slaveStep_out hstep hp) hout
  subst hp
  have hpoll := slavePoll_inv cfg hc hstep
  refine ⟨rfl, ?_, ?_⟩
  · cases hpoll <;> first | exact ⟨_, rfl⟩ | exact absurd rfl hout
  · cases hpoll with
    | answer h1 h2 => exact inv h1 h2
    | stay | check | drop | done | dflt => exact absurd rfl hout

/-! ### C21 -/

/-- 1 if the condition holds. -/
def ind (p : Prop) [Decidable p] : Nat := if p then 1 else 0

/-- C21, first half. In every execution from power-on, the number of transmissions is at most the number of
1.5-char events and at most the number of 3.5-char events. -/
theorem C21_one_response_per_frame (cfg : Config) (hc : cfg.WF) (mem : AppMem) (ops : List SOp) (s : Slave)
    (o : List SOut) (hrun : slaveRun cfg (Slave.powerOn mem) ops = .ok (s, o)) :
    o.length ≤ ops.count .t15 ∧ o.length ≤ ops.count .t35 := by
  have inv : o.length + ind (s.st = .msgReceived) + ind (s.t15 = .set) ≤ ops.count .t15 ∧
      o.length + ind (s.t35 = .set) ≤ ops.count .t35 := by
    refine slaveRun_snoc_induct (cfg := cfg) (s0 := Slave.powerOn mem)
      (fun ops s o => o.length + ind (s.st = .msgReceived) + ind (s.t15 = .set) ≤ ops.count .t15 ∧
        o.length + ind (s.t35 = .set) ≤ ops.count .t35) ?_ ?_ ops s o hrun
    · simp [Slave.powerOn, ind]
    · intro ops s o op s' o' ih hr hs
      rw [List.count_append, List.count_append, List.length_append]
      by_cases hp : op = .poll
      · subst hp
        have hpoll := slavePoll_inv cfg hc hs
        cases hpoll with
        | stay => simpa using ih
        | check h1 h2 => simp [ind, h1, h2] at ih ⊢; omega
        | drop h1 h2 h3 => simp [ind, h1, h2, h3] at ih ⊢; omega
        | answer h1 h2 h3 => simp [ind, h1, h2, h3] at ih ⊢; omega
        | done h1 h2 => simp [ind, h1] at ih ⊢; omega
        | dflt h1 => simp [ind, h1] at ih ⊢; omega
      · have ho := slaveStep_out hs hp
        subst ho
        by_cases hi : ∃ m i, op = .init m i
        · obtain ⟨m, i, rfl⟩ := hi
          simp only [slaveStep] at hs
          injection hs with hs; injection hs with hs _
          rw [← hs]
          simp [slaveInit, ind] at ih ⊢
          omega
        · have hfr := slaveStep_frame hs hp (fun m i he => hi ⟨m, i, he⟩)
          obtain ⟨h1, _, _, _, _, _, _, _, _, h15, h35, _⟩ := hfr
          rw [h1]
          have a : ind (s'.t15 = .set) ≤ ind (s.t15 = .set) + [op].count .t15 := by
            rcases h15 with h | ⟨rfl, h⟩
            · rw [h]; omega
            · simp [ind, h]
          have b : ind (s'.t35 = .set) ≤ ind (s.t35 = .set) + [op].count .t35 := by
            rcases h35 with h | ⟨rfl, h⟩
            · rw [h]; omega
            · simp [ind, h]
          simp only [List.length_nil]
          omega
  omega

/-- While a response is being transmitted and the driver does not report completion, nothing happens to it. -/
theorem busy_run (cfg : Config) (hc : cfg.WF) (ops : List SOp) : ∀ (s s' : Slave) (o : List SOut),
    s.st = .transmitting → s.txf = .set → slaveRun cfg s ops = .ok (s', o) → .txDone ∉ ops →
    (∀ m i, SOp.init m i ∉ ops) →
    o = [] ∧ s'.st = .transmitting ∧ s'.txf = .set ∧ s'.resp = s.resp ∧ s'.respLen = s.respLen := by
  induction ops with
  | nil =>
    intro s s' o h1 h2 h _ _
    rw [slaveRun_nil] at h
    injection h with h; injection h with ha hb
    subst ha hb
    exact ⟨rfl, h1, h2, rfl, rfl⟩
  | cons op ops ih =>
    intro s s' o h1 h2 h hx hi
    obtain ⟨s1, o1, o2, hs, hr, rfl⟩ := slaveRun_cons_inv h
    have hx' : .txDone ∉ ops := fun h => hx (List.mem_cons_of_mem _ h)
    have hi' : ∀ m i, SOp.init m i ∉ ops := fun m i h => hi m i (List.mem_cons_of_mem _ h)
    by_cases hp : op = .poll
    · subst hp
      have hpoll := slavePoll_inv cfg hc hs
      cases hpoll with
      | stay => simpa using ih s s' o2 h1 h2 hr hx' hi'
      | check h | drop h | answer h | done h | dflt h => simp_all
    · have ho := slaveStep_out hs hp
      subst ho
      have hfr := slaveStep_frame hs hp (fun m i he => hi m i (by simp [he]))
      obtain ⟨e1, _, e3, e4, _, _, _, _, _, _, _, etx⟩ := hfr
      have etx' : s1.txf = .set := by
        rcases etx with h | ⟨rfl, _⟩
        · rw [h]; exact h2
        · exact absurd (List.mem_cons_self ..) hx
      have := ih s1 s' o2 (by rw [e1]; exact h1) etx' hr hx' hi'
      rw [e3, e4] at this
      simpa using this

/-- C21, second half. Between two transmissions (without re-initialisation in between) the driver has reported
completion of the first. -/
theorem C21_next_only_after_completion (cfg : Config) (hc : cfg.WF) (s s1 s2 s3 : Slave) (mid : List SOp)
    (b1 b2 : List U8) (o : List SOut)
    (h1 : slaveStep cfg s .poll = .ok (s1, [.send b1])) (h2 : slaveRun cfg s1 mid = .ok (s2, o))
    (h3 : slaveStep cfg s2 .poll = .ok (s3, [.send b2])) (hi : ∀ m i, SOp.init m i ∉ mid) : .txDone ∈ mid := by
  by_cases hx : SOp.txDone ∈ mid
  · exact hx
  · have hst : s1.st = .transmitting ∧ s1.txf = .set := by
      generalize ho : [SOut.send b1] = o1 at h1
      have hp := slavePoll_inv cfg hc h1
      cases hp <;> simp_all
    obtain ⟨_, h4, _, _, _⟩ := busy_run cfg hc mid s1 s2 o hst.1 hst.2 h2 hx hi
    generalize ho : [SOut.send b2] = o3 at h3
    have hp := slavePoll_inv cfg hc h3
    cases hp <;> simp_all

/-! ### C26 -/

/-- C26. From the poll that hands a response to the driver, as long as the driver has not reported completion
and the slave is not re-initialised, whatever else happens: nothing further is transmitted, and the
transmitted buffer and its length still are what was handed over. -/
theorem C26_tx_buffer_stable (cfg : Config) (hc : cfg.WF) (s s1 s2 : Slave) (mid : List SOp) (b : List U8)
    (o : List SOut) (h1 : slaveStep cfg s .poll = .ok (s1, [.send b])) (h2 : slaveRun cfg s1 mid = .ok (s2, o))
    (hx : .txDone ∉ mid) (hi : ∀ m i, SOp.init m i ∉ mid) :
    o = [] ∧ s2.resp = s1.resp ∧ s2.respLen = s1.respLen ∧ s2.resp.bytes 0 s2.respLen.toNat = b := by
  have hst : s1.st = .transmitting ∧ s1.txf = .set ∧ s1.resp.bytes 0 s1.respLen.toNat = b := by
    generalize ho : [SOut.send b] = o1 at h1
    have hp := slavePoll_inv cfg hc h1
    cases hp <;> simp_all
  obtain ⟨h3, _, _, h4, h5⟩ := busy_run cfg hc mid s1 s2 o hst.1 hst.2.1 h2 hx hi
  exact ⟨h3, h4, h5, by rw [h4, h5]; exact hst.2.2⟩

/-! ### C27 -/

/-- Size of a table. -/
def TabSel.qty (cfg : Config) : TabSel → Nat
  | .coils => cfg.coilsQty
  | .dins => cfg.dinQty
  | .inregs => cfg.inregQty
  | .hregs => cfg.hregQty

/-- Operations within the documented preconditions: initialisation only in RTU mode, registration only inside
the configured table. Everything else is unrestricted. -/
def SOp.legal (cfg : Config) : SOp → Prop
  | .init m _ => m = .rtu
  | .register tab adr _ => adr.toNat < tab.qty cfg
  | _ => True

/-- Updating one table. -/
def setTab (m : AppMem) (tab : TabSel) (a : Nat) (p : Option Ptr) : AppMem :=
  match tab with
  | .coils => { m with coils := fun x => if x = a then p else m.coils x }
  | .dins => { m with dins := fun x => if x = a then p else m.dins x }
  | .inregs => { m with inregs := fun x => if x = a then p else m.inregs x }
  | .hregs => { m with hregs := fun x => if x = a then p else m.hregs x }

theorem slaveRegister_ok (cfg : Config) (hc : cfg.WF) (m : AppMem) (tab : TabSel) (adr : U16) (p : Option Ptr) :
    slaveRegister cfg m tab adr p =
      if adr.toNat < tab.qty cfg then .ok (setTab m tab adr.toNat p) else .error .oobWrite := by
  obtain ⟨h1, h2, h3, h4⟩ := hc
  cases tab
  · by_cases h : adr.toNat < cfg.coilsQty <;> simp [slaveRegister, registerAt, TabSel.qty, tableSize_eq, h1, h, setTab, ok_bind, pure_eq]
  · by_cases h : adr.toNat < cfg.dinQty <;> simp [slaveRegister, registerAt, TabSel.qty, tableSize_eq, h2, h, setTab, ok_bind, pure_eq]
  · by_cases h : adr.toNat < cfg.inregQty <;> simp [slaveRegister, registerAt, TabSel.qty, tableSize_eq, h3, h, setTab, ok_bind, pure_eq]
  · by_cases h : adr.toNat < cfg.hregQty <;> simp [slaveRegister, registerAt, TabSel.qty, tableSize_eq, h4, h, setTab, ok_bind, pure_eq]

theorem live_poll (cfg : Config) (hc : cfg.WF) (s : Slave) (hl : Live s) :
    ∃ s' o, slavePoll cfg s = .ok (s', o) ∧ Live s' := by
  obtain ⟨h1, h2, h3, h4⟩ := hl
  unfold slavePoll
  cases hst : s.st with
  | idle =>
    by_cases ht : s.t15 = .set
    · exact ⟨_, _, slaveIdle_t15 h2 h3 ht, h1, h2, h3, h4⟩
    · exact ⟨_, _, slaveIdle_noT15 s ht, h1, h2, h3, h4⟩
  | msgReceived =>
    by_cases ht : s.t35 = .set
    · cases hf : s.ferr with
      | set => exact ⟨_, _, slaveMsgReceived_drop cfg h2 hf ht, h1, h2, h3, h4⟩
      | cleared =>
        obtain ⟨_, _, h, _⟩ := slaveMsgReceived_send cfg hc h2 h3 h1 hf ht
        exact ⟨_, _, h, h1, h2, h3, h4⟩
      | unknown =>
        refine ⟨s, [], ?_, h1, h2, h3, h4⟩
        simp [slaveMsgReceived, hf]
    · exact ⟨_, _, slaveMsgReceived_wait cfg ht, h1, h2, h3, h4⟩
  | transmitting =>
    by_cases hx : s.txf = .cleared
    · exact ⟨_, _, slaveTransmitting_done h2 hx, h1, h2, h3, h4⟩
    · exact ⟨_, _, slaveTransmitting_busy hx, h1, h2, h3, h4⟩
  | unknown =>
    refine ⟨{ s with st := .idle, t15 := .cleared, t35 := .cleared, ferr := .cleared, txf := .cleared,
                     respLen := 0, reqLen := 0 }, [], ?_, h1, h2, h3, h4⟩
    simp [slaveDefault, h2]

theorem live_step (cfg : Config) (hc : cfg.WF) (s : Slave) (hl : Live s) (op : SOp) (hop : op.legal cfg) :
    ∃ s' o, slaveStep cfg s op = .ok (s', o) ∧ Live s' := by
  cases op with
  | poll => exact live_poll cfg hc s hl
  | init m i =>
    have : m = .rtu := hop
    subst this
    exact ⟨_, _, rfl, rfl, rfl, rfl, rfl⟩
  | t15 | t35 | frameErr | txDone =>
    refine ⟨_, _, rfl, ?_⟩
    rw [if_pos hl.sub]
    exact ⟨hl.drv, hl.msgPtr, hl.dataSet, hl.sub⟩
  | rxByte b =>
    refine ⟨{ s with req := s.req.set s.reqLen.toNat b, reqLen := s.reqLen + 1 }, [], ?_,
      hl.drv, hl.msgPtr, hl.dataSet, hl.sub⟩
    simp only [slaveStep, hl.sub, if_true, wr_ok _ _ s.reqLen.isLt, ok_bind, pure_eq]
  | register tab a p =>
    have : a.toNat < tab.qty cfg := hop
    refine ⟨{ s with mem := setTab s.mem tab a.toNat p }, [], ?_, hl.drv, hl.msgPtr, hl.dataSet, hl.sub⟩
    simp only [slaveStep, slaveRegister_ok cfg hc, this, if_true, ok_bind, pure_eq]
  | appBool | appReg => exact ⟨_, _, rfl, hl.drv, hl.msgPtr, hl.dataSet, hl.sub⟩

theorem live_run (cfg : Config) (hc : cfg.WF) (ops : List SOp) : ∀ (s : Slave), Live s → (∀ op ∈ ops, op.legal cfg) →
    ∃ s' o, slaveRun cfg s ops = .ok (s', o) ∧ Live s' := by
  induction ops with
  | nil => intro s hl _; exact ⟨s, [], rfl, hl⟩
  | cons op ops ih =>
    intro s hl h
    obtain ⟨s1, o1, h1, hl1⟩ := live_step cfg hc s hl op (h op (List.mem_cons_self ..))
    obtain ⟨s2, o2, h2, hl2⟩ := ih s1 hl1 (fun op hop => h op (List.mem_cons_of_mem _ hop))
    refine ⟨s2, o1 ++ o2, ?_, hl2⟩
    rw [slaveRun_cons_ok h1, h2]; rfl

/-- C27. After initialisation in RTU mode (from any state) no sequence of received bytes, driver events, polls,
application writes, registrations inside the tables and further RTU initialisations leads to undefined
behaviour: no NULL dereference and no access outside a buffer or table. -/
theorem C27_no_undefined_behaviour (cfg : Config) (hc : cfg.WF) (s : Slave) (id : U8) (ops : List SOp)
    (hops : ∀ op ∈ ops, op.legal cfg) :
    ∃ s' o, slaveRun cfg s (.init .rtu id :: ops) = .ok (s', o) := by
  obtain ⟨s', o, h, _⟩ := live_run cfg hc ops (slaveInit s .rtu id) ⟨rfl, rfl, rfl, rfl⟩ hops
  refine ⟨s', [] ++ o, ?_⟩
  rw [slaveRun_cons_ok (s1 := slaveInit s .rtu id) (o := []) rfl, h]; rfl


/-! Concrete executions are evaluated with these two observations. -/

/-- Outputs of a run without UB. -/
def outsOf (r : C (Slave × List SOut)) : Option (List SOut) :=
  match r with
  | .ok x => some x.2
  | .error _ => none

/-- The UB a run ends in. -/
def ubOf (r : C (Slave × List SOut)) : Option UB :=
  match r with
  | .ok _ => none
  | .error e => some e

theorem outsOf_some {r : C (Slave × List SOut)} {o : List SOut} (h : outsOf r = some o) : ∃ s, r = .ok (s, o) := by
  cases r with
  | error e => simp [outsOf] at h
  | ok x => obtain ⟨s, o'⟩ := x; simp [outsOf] at h; exact ⟨s, by rw [h]⟩

/-- A frame (read holding register 0, for slave 1) as received bytes. -/
def sampleFrame : List U8 := [1, 3, 0, 0, 0, 1, 0x84, 0x0A]

/-- Reception of bytes. -/
def rxs (l : List U8) : List SOp := l.map .rxByte

/-- Non-vacuity of C20, C21, C26 and C27: an execution with two transmissions. -/
example : outsOf (slaveRun Config.default (Slave.powerOn sampleMem)
      ([.init .rtu 1] ++ rxs sampleFrame ++ [.poll, .t15, .poll, .poll, .t35, .poll, .poll, .txDone, .poll, .poll]
        ++ [.appReg 0 7] ++ rxs sampleFrame ++ [.t15, .poll, .poll, .t35, .poll, .txDone, .poll])) =
    some [.send [1, 3, 2, 0x03, 0xE8, 0xB8, 0xFA], .send [1, 3, 2, 0, 7, 0xF9, 0x86]] := by decide +kernel

/-- C27, misuse 1: polling a slave that has never been initialised dereferences NULL, whatever happened before. -/
theorem C27_poll_before_init (cfg : Config) (mem : AppMem) (ops : List SOp) (s : Slave) (o : List SOut)
    (hi : ∀ m i, SOp.init m i ∉ ops) (hrun : slaveRun cfg (Slave.powerOn mem) ops = .ok (s, o)) :
    slaveStep cfg s .poll = .error .nullDeref := by
  have inv : s.st = .unknown ∧ s.msgPtr = false := by
    have := slaveRun_snoc_induct (cfg := cfg) (s0 := Slave.powerOn mem)
      (fun ops s _ => (∀ m i, SOp.init m i ∉ ops) → s.st = .unknown ∧ s.msgPtr = false) ?_ ?_ ops s o hrun
    · exact this hi
    · intro _; exact ⟨rfl, rfl⟩
    · intro ops s o op s' o' ih _ hs hi
      have h0 := ih (fun m i h => hi m i (List.mem_append_left _ h))
      by_cases hp : op = .poll
      · subst hp
        simp [slaveStep, slavePoll, slaveDefault, h0.1, h0.2] at hs
      · have hfr := slaveStep_frame hs hp (fun m i he => hi m i (by simp [he]))
        rw [hfr.1, hfr.2.2.2.2.2.1]; exact h0
  simp [slaveStep, slavePoll, slaveDefault, inv.1, inv.2]

/-- Non-vacuity: registrations and stray driver events before initialisation are such a history. -/
example : (∃ s, slaveRun Config.default (Slave.powerOn sampleMem) [.register .coils 3 (some 4), .t15, .rxByte 1] = .ok (s, [])) :=
  outsOf_some (by decide +kernel)

/-- C27, misuse 2: initialise for RTU, receive a valid request, but re-initialise with an unknown mode in between:
the driver pointer is NULL when the answer is to be sent. -/
theorem C27_non_rtu_reinit : ubOf (slaveRun Config.default (Slave.powerOn sampleMem)
      ([.init .rtu 1, .init .unknownMode 1] ++ rxs sampleFrame ++ [.t15, .poll, .t35, .poll])) = some .nullDeref := by
  decide +kernel

/-! ### C51, slave part -/

/-- The receive buffer and length after storing bytes. -/
def pushAll : Buf × U8 → List U8 → Buf × U8
  | r, [] => r
  | r, b :: bs => pushAll (r.1.set r.2.toNat b, r.2 + 1) bs

theorem pushAll_append (r : Buf × U8) (a b : List U8) : pushAll r (a ++ b) = pushAll (pushAll r a) b := by
  induction a generalizing r with
  | nil => rfl
  | cons x a ih => exact ih _

theorem pushAll_len (r : Buf × U8) (bs : List U8) : (pushAll r bs).2.toNat = (r.2.toNat + bs.length) % 256 := by
  induction bs generalizing r with
  | nil => have := r.2.isLt; simp only [pushAll, List.length_nil]; omega
  | cons b bs ih =>
    simp only [pushAll, ih, List.length_cons]
    rw [BitVec.toNat_add, show (1 : U8).toNat = 1 from rfl]
    omega

/-- As long as the length does not wrap, the bytes are stored one after the other. -/
theorem pushAll_get (r : Buf × U8) (bs : List U8) (h : r.2.toNat + bs.length ≤ 256) (i : Nat) :
    (pushAll r bs).1 i = if r.2.toNat ≤ i ∧ i < r.2.toNat + bs.length then bs.getD (i - r.2.toNat) 0 else r.1 i := by
  induction bs generalizing r with
  | nil =>
    have : ¬ (r.2.toNat ≤ i ∧ i < r.2.toNat + ([] : List U8).length) := by simp
    rw [if_neg this]; rfl
  | cons b bs ih =>
    simp only [List.length_cons] at h
    by_cases hb : bs = []
    · subst hb
      simp only [pushAll, Buf.set_apply, List.length_cons, List.length_nil]
      by_cases e : i = r.2.toNat
      · subst e; simp
      · rw [if_neg e, if_neg (by omega)]
    · have hpos : 0 < bs.length := List.length_pos_iff.mpr hb
      have h1 : (r.2 + 1).toNat = r.2.toNat + 1 := by
        rw [BitVec.toNat_add, show (1 : U8).toNat = 1 from rfl]; omega
      simp only [pushAll]
      rw [ih _ (by rw [h1]; omega)]
      simp only [h1, Buf.set_apply, List.length_cons]
      by_cases e : i = r.2.toNat
      · subst e
        rw [if_neg (by omega), if_pos rfl, if_pos (by omega)]; simp
      · rw [if_neg e]
        by_cases c : r.2.toNat + 1 ≤ i ∧ i < r.2.toNat + 1 + bs.length
        · rw [if_pos c, if_pos (by omega)]
          obtain ⟨k, hk⟩ : ∃ k, i - r.2.toNat = k + 1 := ⟨i - r.2.toNat - 1, by omega⟩
          rw [hk, show i - (r.2.toNat + 1) = k by omega]; simp
        · rw [if_neg c, if_neg (by omega)]

theorem rxs_run (cfg : Config) (bs : List U8) : ∀ (s : Slave), s.subscribed = true →
    slaveRun cfg s (rxs bs) = .ok ({ s with req := (pushAll (s.req, s.reqLen) bs).1, reqLen := (pushAll (s.req, s.reqLen) bs).2 }, []) := by
  induction bs with
  | nil => intro s _; rfl
  | cons b bs ih =>
    intro s hs
    have h1 : slaveStep cfg s (.rxByte b) = .ok ({ s with req := s.req.set s.reqLen.toNat b, reqLen := s.reqLen + 1 }, []) := by
      simp only [slaveStep, hs, if_true, wr_ok _ _ s.reqLen.isLt, ok_bind, pure_eq]
    show slaveRun cfg s (.rxByte b :: rxs bs) = _
    rw [slaveRun_cons_ok h1, ih { s with req := s.req.set s.reqLen.toNat b, reqLen := s.reqLen + 1 } hs]; rfl

/-- C51, slave, first half. However many bytes arrive in a row, whatever the state of an initialised slave, every
byte is stored inside the 256 byte buffer (no UB), nothing but the receive buffer and its length changes, and
the length counts the bytes modulo 256. -/
theorem C51_slave_rx_in_bounds (cfg : Config) (s : Slave) (hs : Live s) (bs : List U8) :
    ∃ req len, slaveRun cfg s (rxs bs) = .ok ({ s with req := req, reqLen := len }, []) ∧
      len.toNat = (s.reqLen.toNat + bs.length) % 256 ∧
      (s.reqLen.toNat + bs.length ≤ 256 → ∀ i, i < bs.length → req (s.reqLen.toNat + i) = bs.getD i 0) := by
  refine ⟨_, _, rxs_run cfg bs s hs.sub, pushAll_len _ _, fun h i hi => ?_⟩
  rw [pushAll_get _ _ h, if_pos (by simp only; omega)]
  simp

/-- C51, second half, does not hold: 256 arbitrary bytes directly followed (no gap) by any frame of at most 255 bytes
leave the slave with exactly that frame as the received message: same length, same bytes. -/
theorem C51_slave_overlong_mistaken (cfg : Config) (s : Slave) (hs : Live s) (h0 : s.reqLen = 0) (junk frame : List U8)
    (hj : junk.length = 256) (hf : frame.length ≤ 255) :
    ∃ req len, slaveRun cfg s (rxs (junk ++ frame)) = .ok ({ s with req := req, reqLen := len }, []) ∧
      len.toNat = frame.length ∧ req.bytes 0 len.toNat = frame := by
  have hlen : (pushAll (s.req, s.reqLen) junk).2 = 0 := by
    apply BitVec.eq_of_toNat_eq
    rw [pushAll_len, hj, h0]; simp
  have hl2 : (pushAll (pushAll (s.req, s.reqLen) junk) frame).2.toNat = frame.length := by
    rw [pushAll_len, hlen, show (0 : U8).toNat = 0 from rfl]; omega
  refine ⟨_, _, rxs_run cfg _ s hs.sub, ?_, ?_⟩
  · rw [pushAll_append]; exact hl2
  · rw [pushAll_append, hl2]
    apply List.ext_getElem
    · simp
    · intro i h1 h2
      have hx := pushAll_get (pushAll (s.req, s.reqLen) junk) frame (by rw [hlen, show (0 : U8).toNat = 0 from rfl]; omega) i
      rw [hlen, show (0 : U8).toNat = 0 from rfl, if_pos ⟨by omega, by omega⟩] at hx
      simp only [Buf.bytes, List.getElem_map, List.getElem_range, Nat.zero_add]
      rw [hx, Nat.sub_zero, getD_lt _ _ _ h2]

/-- C51, second half, negated at the interface: one uninterrupted burst of 264 bytes, and the slave answers the request
formed by its last 8 bytes. -/
theorem C51_slave_overlong_violated : outsOf (slaveRun Config.default (Slave.powerOn sampleMem)
      ([.init .rtu 1] ++ rxs (List.replicate 256 0xAA ++ sampleFrame) ++ [.t15, .poll, .t35, .poll])) =
    some [.send [1, 3, 2, 0x03, 0xE8, 0xB8, 0xFA]] := by decide +kernel

/-! ### C52 -/

/-- The table of a kind. -/
def TabSel.table (m : AppMem) : TabSel → Table
  | .coils => m.coils
  | .dins => m.dins
  | .inregs => m.inregs
  | .hregs => m.hregs

/-- What was most recently registered at an address, if anything: scan of the history, newest last. -/
def lastRegistered (tab : TabSel) (a : Nat) (before : Option Ptr) : List SOp → Option Ptr
  | [] => before
  | .register t adr p :: ops => lastRegistered tab a (if t = tab ∧ adr.toNat = a then p else before) ops
  | _ :: ops => lastRegistered tab a before ops

theorem lastRegistered_append (tab : TabSel) (a : Nat) (x : Option Ptr) (l1 l2 : List SOp) :
    lastRegistered tab a x (l1 ++ l2) = lastRegistered tab a (lastRegistered tab a x l1) l2 := by
  induction l1 generalizing x with
  | nil => rfl
  | cons op l1 ih => cases op <;> exact ih _

theorem effect_tables (l : Limits) (m : AppMem) (r : Request) (tab : TabSel) :
    tab.table (effect l m r) = tab.table m := by
  cases tab <;> cases r <;> simp only [TabSel.table, effect] <;> split <;> rfl

/-- C52, part 1. In every execution, address `a` of each table exposes the variable most recently registered there;
received requests, polls, driver events and initialisation never change a table. -/
theorem C52_last_registration (cfg : Config) (hc : cfg.WF) (mem : AppMem) (ops : List SOp) (s : Slave)
    (o : List SOut) (hrun : slaveRun cfg (Slave.powerOn mem) ops = .ok (s, o)) (tab : TabSel) (a : Nat) :
    tab.table s.mem a = lastRegistered tab a (tab.table mem a) ops := by
  refine slaveRun_snoc_induct (cfg := cfg) (s0 := Slave.powerOn mem)
    (fun ops s _ => tab.table s.mem a = lastRegistered tab a (tab.table mem a) ops) rfl ?_ ops s o hrun
  intro ops s o op s' o' ih _ hs
  rw [lastRegistered_append, ← ih]
  cases op with
  | poll =>
    have hp := slavePoll_inv cfg hc hs
    cases hp with
    | answer => exact congrFun (effect_tables _ _ _ tab) a
    | stay | check | drop | done | dflt => rfl
  | init m i => simp only [slaveStep] at hs; injection hs with hs; injection hs with hs _; subst hs; rfl
  | t15 | t35 | frameErr | txDone =>
    simp only [slaveStep] at hs; injection hs with hs; injection hs with hs _; subst hs
    split <;> rfl
  | appBool | appReg =>
    simp only [slaveStep] at hs; injection hs with hs; injection hs with hs _; subst hs; cases tab <;> rfl
  | rxByte b =>
    simp only [slaveStep] at hs
    split at hs
    · rw [wr_ok _ _ s.reqLen.isLt] at hs
      simp only [ok_bind, pure_eq] at hs; injection hs with hs; injection hs with hs _; subst hs; rfl
    · injection hs with hs; injection hs with hs _; subst hs; rfl
  | register t adr p =>
    simp only [slaveStep] at hs
    rw [slaveRegister_ok cfg hc] at hs
    by_cases hq : adr.toNat < t.qty cfg
    · rw [if_pos hq] at hs
      simp only [ok_bind, pure_eq] at hs; injection hs with hs; injection hs with hs _; subst hs
      simp only [lastRegistered]
      cases tab <;> cases t <;> simp [TabSel.table, setTab, eq_comm]
    · rw [if_neg hq] at hs; simp at hs

/-- C52, part 2. Whenever a poll transmits, the answer is the protocol's answer computed from the tables and variable
values at that very moment. -/
theorem C52_answers_from_current_memory (cfg : Config) (hc : cfg.WF) (s s' : Slave) (b : List U8)
    (h : slaveStep cfg s .poll = .ok (s', [.send b])) :
    b = rtuFrame s.id (encodeResponse (respond cfg.limits s.mem (decodeRequest fun i => s.req (1 + i)))) ∧
    s'.mem = effect cfg.limits s.mem (decodeRequest fun i => s.req (1 + i)) := by
  generalize ho : [SOut.send b] = o1 at h
  have hp := slavePoll_inv cfg hc h
  cases hp with
  | answer => simp at ho; exact ⟨ho, rfl⟩
  | stay | check | drop | done | dflt => simp at ho

/-- C52, part 3. Registering outside the configured table writes outside the table (UB), and only then. -/
theorem C52_register_bounds (cfg : Config) (hc : cfg.WF) (s : Slave) (tab : TabSel) (adr : U16) (p : Option Ptr) :
    (adr.toNat < tab.qty cfg → ∃ s', slaveStep cfg s (.register tab adr p) = .ok (s', [])) ∧
    (tab.qty cfg ≤ adr.toNat → slaveStep cfg s (.register tab adr p) = .error .oobWrite) := by
  constructor
  · intro h
    refine ⟨{ s with mem := setTab s.mem tab adr.toNat p }, ?_⟩
    simp only [slaveStep, slaveRegister_ok cfg hc, h, if_true, ok_bind, pure_eq]
  · intro h
    simp only [slaveStep, slaveRegister_ok cfg hc, Nat.not_lt.mpr h, if_false, error_bind]

/-- Non-vacuity of C52: register, answer, re-register, answer from the new variable, unregister, exception 4. -/
example : outsOf (slaveRun Config.default (Slave.powerOn sampleMem)
      ([.init .rtu 1, .register .hregs 0 (some 2)] ++ rxs sampleFrame ++ [.t15, .poll, .t35, .poll, .txDone, .poll,
        .register .hregs 0 none] ++ rxs sampleFrame ++ [.t15, .poll, .t35, .poll])) =
    some [.send [1, 3, 2, 0xFF, 0xFF, 0xB9, 0xF4], .send [1, 0x83, 4, 0x40, 0xF3]] := by decide +kernel

end Modbus
