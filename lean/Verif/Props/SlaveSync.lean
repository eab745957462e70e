import Verif.Props.Slave

/-! C22–C25: long-run behaviour of the slave on the line. -/

namespace Modbus

open Spec

/-! ### Vocabulary: exchanges on the line -/

/-- Things that may happen at any time without being line events: polls, application writes and registrations
inside the tables. -/
def SOp.noise (cfg : Config) : SOp → Prop
  | .poll | .appBool _ _ | .appReg _ _ => True
  | .register tab adr _ => adr.toNat < tab.qty cfg
  | _ => False

/-- Noise, or a received byte. -/
def SOp.rxNoise (cfg : Config) (op : SOp) : Prop := op.noise cfg ∨ ∃ b, op = .rxByte b

/-- The bytes received in a list of operations. -/
def bytesOf : List SOp → List U8
  | [] => []
  | .rxByte b :: ops => b :: bytesOf ops
  | _ :: ops => bytesOf ops

/-- What the application (not the protocol) does to its memory. -/
def appMem (m : AppMem) : List SOp → AppMem
  | [] => m
  | .appBool p v :: ops => appMem { m with bools := fun q => if q = p then v else m.bools q } ops
  | .appReg p v :: ops => appMem { m with regs := fun q => if q = p then v else m.regs q } ops
  | .register tab adr p :: ops => appMem (setTab m tab adr.toNat p) ops
  | _ :: ops => appMem m ops

/-- One exchange on the line as seen by the slave: reception (bytes with polls etc. in between), the 1.5-char event,
the 3.5-char event, then (if a response is transmitted) its completion; polls, application writes and
registrations anywhere in between. -/
structure Exchange where
  rx : List SOp
  n1 : List SOp
  n2 : List SOp
  n3 : List SOp

/-- The operations of a complete exchange. -/
def Exchange.ops (x : Exchange) : List SOp := x.rx ++ .t15 :: x.n1 ++ .t35 :: x.n2 ++ .txDone :: x.n3

/-- The operations of an exchange without transmission. -/
def Exchange.opsSilent (x : Exchange) : List SOp := x.rx ++ .t15 :: x.n1 ++ .t35 :: x.n2

/-- The frame received in an exchange. -/
def Exchange.frame (x : Exchange) : List U8 := bytesOf x.rx

/-- A valid frame for slave `id`, long enough for its function code. -/
structure GoodFrame (id : U8) (f : List U8) : Prop where
  crc : CrcCorrect f
  addressed : f.getD 0 0 = id
  len : f.length ≤ 255
  complete : frameLenFor (f.getD 1 0) (f.getD 6 0) ≤ f.length

/-- A valid exchange: a good frame, at least two polls after the 3.5-char event, at least one after the completion. -/
structure Exchange.Good (cfg : Config) (id : U8) (x : Exchange) : Prop where
  frame : GoodFrame id x.frame
  rx : ∀ op ∈ x.rx, op.rxNoise cfg
  n1 : ∀ op ∈ x.n1, op.noise cfg
  n2 : ∀ op ∈ x.n2, op.noise cfg
  n3 : ∀ op ∈ x.n3, op.noise cfg
  polls2 : 2 ≤ x.n2.count .poll
  polls3 : 1 ≤ x.n3.count .poll

/-- A bad exchange: the frame is not CRC-correct, or addressed to somebody else, or the driver reported a frame error
at any time before the 3.5-char event. -/
structure Exchange.Bad (cfg : Config) (id : U8) (x : Exchange) : Prop where
  bad : ¬ CrcCorrect x.frame ∨ x.frame.getD 0 0 ≠ id ∨ .frameErr ∈ x.rx ∨ .frameErr ∈ x.n1
  len : x.frame.length ≤ 255
  rx : ∀ op ∈ x.rx, op.rxNoise cfg ∨ op = .frameErr
  n1 : ∀ op ∈ x.n1, op.noise cfg ∨ op = .frameErr
  n2 : ∀ op ∈ x.n2, op.noise cfg
  polls2 : 2 ≤ x.n2.count .poll

/-- The synchronised idle state. -/
structure Sync (s : Slave) : Prop where
  live : Live s
  st : s.st = .idle
  t15 : s.t15 = .cleared
  t35 : s.t35 = .cleared
  ferr : s.ferr = .cleared
  len : s.reqLen = 0

/-- The request carried by a frame. -/
def frameRequest (f : List U8) : Request := decodeRequest fun i => f.getD (1 + i) 0

/-! ### Basic facts -/

theorem bytesOf_append (a b : List SOp) : bytesOf (a ++ b) = bytesOf a ++ bytesOf b := by
  induction a with
  | nil => rfl
  | cons op a ih => cases op <;> simp [bytesOf, ih]

theorem appMem_append (m : AppMem) (a b : List SOp) : appMem m (a ++ b) = appMem (appMem m a) b := by
  induction a generalizing m with
  | nil => rfl
  | cons op a ih => cases op <;> simp [appMem, ih]

theorem bytesOf_noise {cfg : Config} {l : List SOp} (h : ∀ op ∈ l, op.noise cfg) : bytesOf l = [] := by
  induction l with
  | nil => rfl
  | cons op l ih =>
    have h0 := h op (List.mem_cons_self ..)
    have := ih (fun o ho => h o (List.mem_cons_of_mem _ ho))
    cases op <;> simp_all [bytesOf, SOp.noise]

theorem bytesOf_noiseErr {cfg : Config} {l : List SOp} (h : ∀ op ∈ l, op.noise cfg ∨ op = .frameErr) : bytesOf l = [] := by
  induction l with
  | nil => rfl
  | cons op l ih =>
    have h0 := h op (List.mem_cons_self ..)
    have := ih (fun o ho => h o (List.mem_cons_of_mem _ ho))
    cases op <;> simp_all [bytesOf, SOp.noise]

/-- First poll in a list. -/
theorem first_poll {l : List SOp} (h : 1 ≤ l.count .poll) :
    ∃ a b, l = a ++ .poll :: b ∧ SOp.poll ∉ a ∧ l.count .poll = 1 + b.count .poll := by
  induction l with
  | nil => simp at h
  | cons op l ih =>
    by_cases hp : op = .poll
    · subst hp; exact ⟨[], l, rfl, by simp, by simp; omega⟩
    · rw [List.count_cons_of_ne hp] at h ⊢
      obtain ⟨a, b, rfl, ha, hc⟩ := ih h
      exact ⟨op :: a, b, rfl, by simp [ha, Ne.symm hp], hc⟩

/-- Operations that neither are line events nor initialisation. -/
def SOp.soft (cfg : Config) (op : SOp) : Prop := op.rxNoise cfg ∨ op = .frameErr

/-- State after soft operations none of which is an effective poll. -/
def softRes (s : Slave) (l : List SOp) : Slave :=
  { s with mem := appMem s.mem l, ferr := if .frameErr ∈ l then .set else s.ferr,
           req := (pushAll (s.req, s.reqLen) (bytesOf l)).1, reqLen := (pushAll (s.req, s.reqLen) (bytesOf l)).2 }

theorem soft_cons {cfg : Config} {s s1 : Slave} {op : SOp} {l : List SOp} (h1 : slaveStep cfg s op = .ok (s1, []))
    (h2 : slaveRun cfg s1 l = .ok (softRes s1 l, [])) (h3 : softRes s1 l = softRes s (op :: l)) :
    slaveRun cfg s (op :: l) = .ok (softRes s (op :: l), []) := by
  rw [slaveRun_cons_ok h1, h2, h3]; rfl

theorem soft_run (cfg : Config) (hc : cfg.WF) (l : List SOp) : ∀ (s : Slave), Live s → (∀ op ∈ l, op.soft cfg) →
    (SOp.poll ∉ l ∨ ∀ m f r n, slavePoll cfg { s with mem := m, ferr := f, req := r, reqLen := n } =
      .ok ({ s with mem := m, ferr := f, req := r, reqLen := n }, [])) →
    slaveRun cfg s l = .ok (softRes s l, []) := by
  induction l with
  | nil => intro s _ _ _; rfl
  | cons op l ih =>
    intro s hl hsoft hq
    have h0 := hsoft op (List.mem_cons_self ..)
    have hrest : ∀ op ∈ l, op.soft cfg := fun o ho => hsoft o (List.mem_cons_of_mem _ ho)
    have hq'' : SOp.poll ∉ l ∨ ∀ m f r n, slavePoll cfg { s with mem := m, ferr := f, req := r, reqLen := n } =
      .ok ({ s with mem := m, ferr := f, req := r, reqLen := n }, []) := by
      rcases hq with h | h
      · exact .inl fun hm => h (List.mem_cons_of_mem _ hm)
      · exact .inr h
    cases op with
    | poll =>
      have hs : slaveStep cfg s .poll = .ok (s, []) := by
        rcases hq with h | h
        · exact absurd (List.mem_cons_self ..) h
        · exact h s.mem s.ferr s.req s.reqLen
      exact soft_cons hs (ih s hl hrest hq'') (by simp [softRes, appMem, bytesOf])
    | appBool p v =>
      have hs : slaveStep cfg s (.appBool p v) = .ok ({ s with mem := { s.mem with bools := fun q => if q = p then v else s.mem.bools q } }, []) := rfl
      exact soft_cons hs (ih _ ⟨hl.drv, hl.msgPtr, hl.dataSet, hl.sub⟩ hrest hq'') (by simp [softRes, appMem, bytesOf])
    | appReg p v =>
      have hs : slaveStep cfg s (.appReg p v) = .ok ({ s with mem := { s.mem with regs := fun q => if q = p then v else s.mem.regs q } }, []) := rfl
      exact soft_cons hs (ih _ ⟨hl.drv, hl.msgPtr, hl.dataSet, hl.sub⟩ hrest hq'') (by simp [softRes, appMem, bytesOf])
    | register tab adr p =>
      have hq1 : adr.toNat < tab.qty cfg := by
        rcases h0 with h | h
        · rcases h with h | ⟨_, h⟩
          · exact h
          · simp at h
        · simp at h
      have hs : slaveStep cfg s (.register tab adr p) = .ok ({ s with mem := setTab s.mem tab adr.toNat p }, []) := by
        simp only [slaveStep, slaveRegister_ok cfg hc, hq1, if_true, ok_bind, pure_eq]
      exact soft_cons hs (ih _ ⟨hl.drv, hl.msgPtr, hl.dataSet, hl.sub⟩ hrest hq'') (by simp [softRes, appMem, bytesOf])
    | rxByte b =>
      have hs : slaveStep cfg s (.rxByte b) = .ok ({ s with req := s.req.set s.reqLen.toNat b, reqLen := s.reqLen + 1 }, []) := by
        simp only [slaveStep, hl.sub, if_true, wr_ok _ _ s.reqLen.isLt, ok_bind, pure_eq]
      exact soft_cons hs (ih _ ⟨hl.drv, hl.msgPtr, hl.dataSet, hl.sub⟩ hrest hq'') (by simp [softRes, appMem, bytesOf, pushAll])
    | frameErr =>
      have hs : slaveStep cfg s .frameErr = .ok ({ s with ferr := .set }, []) := by
        simp only [slaveStep, hl.sub, if_true]
      exact soft_cons hs (ih _ ⟨hl.drv, hl.msgPtr, hl.dataSet, hl.sub⟩ hrest hq'') (by simp [softRes, appMem, bytesOf])
    | init m i | t15 | t35 | txDone =>
      rcases h0 with h | h
      · rcases h with h | ⟨_, h⟩
        · simp [SOp.noise] at h
        · simp at h
      · simp at h

theorem noise_run (cfg : Config) (hc : cfg.WF) (l : List SOp) (s : Slave) (hl : Live s) (hn : ∀ op ∈ l, op.noise cfg)
    (hq : SOp.poll ∉ l ∨ ∀ m f r n, slavePoll cfg { s with mem := m, ferr := f, req := r, reqLen := n } =
      .ok ({ s with mem := m, ferr := f, req := r, reqLen := n }, [])) :
    slaveRun cfg s l = .ok ({ s with mem := appMem s.mem l }, []) := by
  rw [soft_run cfg hc l s hl (fun op ho => .inl (.inl (hn op ho))) hq]
  have h1 : SOp.frameErr ∉ l := fun h => by simpa [SOp.noise] using hn _ h
  simp [softRes, bytesOf_noise hn, pushAll, h1]

/-- Quiet states. -/
theorem quiet_idle (cfg : Config) (s : Slave) (h : s.st = .idle) (ht : s.t15 ≠ .set) (m : AppMem) (f : Flag) (r : Buf)
    (n : U8) : slavePoll cfg { s with mem := m, ferr := f, req := r, reqLen := n } =
      .ok ({ s with mem := m, ferr := f, req := r, reqLen := n }, []) := by
  simp only [slavePoll, h]
  exact slaveIdle_noT15 _ ht

theorem quiet_msg (cfg : Config) (s : Slave) (h : s.st = .msgReceived) (ht : s.t35 ≠ .set) (m : AppMem) (f : Flag) (r : Buf)
    (n : U8) : slavePoll cfg { s with mem := m, ferr := f, req := r, reqLen := n } =
      .ok ({ s with mem := m, ferr := f, req := r, reqLen := n }, []) := by
  simp only [slavePoll, h]
  exact slaveMsgReceived_wait cfg ht

theorem quiet_tx (cfg : Config) (s : Slave) (h : s.st = .transmitting) (ht : s.txf ≠ .cleared) (m : AppMem) (f : Flag) (r : Buf)
    (n : U8) : slavePoll cfg { s with mem := m, ferr := f, req := r, reqLen := n } =
      .ok ({ s with mem := m, ferr := f, req := r, reqLen := n }, []) := by
  simp only [slavePoll, h]
  exact slaveTransmitting_busy ht

theorem poll_check (cfg : Config) {s : Slave} (hl : Live s) (h : s.st = .idle) (ht : s.t15 = .set) :
    slaveStep cfg s .poll = .ok ({ s with t15 := .cleared, ferr := if s.frameOk then s.ferr else .set, st := .msgReceived }, []) := by
  simp only [slaveStep, slavePoll, h]
  exact slaveIdle_t15 hl.msgPtr hl.dataSet ht

/-- Running a list followed by more, silent prefix. -/
theorem run_then {cfg : Config} {s s1 : Slave} {a b : List SOp} {r : Slave × List SOut}
    (h1 : slaveRun cfg s a = .ok (s1, [])) (h2 : slaveRun cfg s1 b = .ok r) : slaveRun cfg s (a ++ b) = .ok r := by
  obtain ⟨s2, o⟩ := r
  simpa using slaveRun_append_ok h1 h2

theorem run_cons {cfg : Config} {s s1 : Slave} {op : SOp} {b : List SOp} {r : Slave × List SOut}
    (h1 : slaveStep cfg s op = .ok (s1, [])) (h2 : slaveRun cfg s1 b = .ok r) : slaveRun cfg s (op :: b) = .ok r := by
  obtain ⟨s2, o⟩ := r
  rw [slaveRun_cons_ok h1, h2]; rfl

/-! ### From the check on -/

/-- A frame has been received and found valid, `post` starts with the 3.5-char event already seen. -/
structure Pending (s : Slave) : Prop where
  live : Live s
  st : s.st = .msgReceived
  t15 : s.t15 = .cleared
  t35 : s.t35 = .set
  ferr : s.ferr = .cleared

/-- What a state update leaves unchanged, level by level. -/
theorem live_of {s s' : Slave} (h : Live s) (h1 : s'.drv = s.drv) (h2 : s'.msgPtr = s.msgPtr) (h3 : s'.dataSet = s.dataSet)
    (h4 : s'.subscribed = s.subscribed) : Live s' := ⟨h1 ▸ h.drv, h2 ▸ h.msgPtr, h3 ▸ h.dataSet, h4 ▸ h.sub⟩

/-- Everything the line proofs look at. -/
def sig (s : Slave) : SlaveSt × Flag × Flag × Flag × Flag × U8 × Buf × U8 × AppMem :=
  (s.st, s.t15, s.t35, s.ferr, s.txf, s.id, s.req, s.reqLen, s.mem)

theorem noise_run' (cfg : Config) (hc : cfg.WF) (l : List SOp) (s : Slave) (hl : Live s) (hn : ∀ op ∈ l, op.noise cfg)
    (hq : SOp.poll ∉ l ∨ ∀ m f r n, slavePoll cfg { s with mem := m, ferr := f, req := r, reqLen := n } =
      .ok ({ s with mem := m, ferr := f, req := r, reqLen := n }, [])) :
    ∃ s', slaveRun cfg s l = .ok (s', []) ∧ Live s' ∧
      sig s' = (s.st, s.t15, s.t35, s.ferr, s.txf, s.id, s.req, s.reqLen, appMem s.mem l) :=
  ⟨_, noise_run cfg hc l s hl hn hq, live_of hl rfl rfl rfl rfl, rfl⟩

theorem sig_eqs {s : Slave} {a b c d e f g h i} (hs : sig s = (a, b, c, d, e, f, g, h, i)) :
    s.st = a ∧ s.t15 = b ∧ s.t35 = c ∧ s.ferr = d ∧ s.txf = e ∧ s.id = f ∧ s.req = g ∧ s.reqLen = h ∧ s.mem = i := by
  simpa [sig] using hs

/-- Answering, from the pending state: noise with at least one poll, completion, noise with at least one poll. -/
theorem answer_tail (cfg : Config) (hc : cfg.WF) (s : Slave) (hp : Pending s) (n2 n3 : List SOp)
    (h2 : ∀ op ∈ n2, op.noise cfg) (h3 : ∀ op ∈ n3, op.noise cfg) (c2 : 1 ≤ n2.count .poll) (c3 : 1 ≤ n3.count .poll) :
    ∃ a b s', n2 ++ .txDone :: n3 = a ++ .poll :: b ∧
      slaveRun cfg s (n2 ++ .txDone :: n3) = .ok (s',
        [.send (rtuFrame s.id (encodeResponse (respond cfg.limits (appMem s.mem a) (requestOf s.req))))]) ∧
      Sync s' ∧ s'.id = s.id ∧
      s'.mem = appMem (effect cfg.limits (appMem s.mem a) (requestOf s.req)) b := by
  obtain ⟨a, b2, rfl, ha, _⟩ := first_poll c2
  obtain ⟨a3, b3, rfl, ha3, _⟩ := first_poll c3
  have na : ∀ op ∈ a, op.noise cfg := fun op ho => h2 op (by simp [ho])
  have nb2 : ∀ op ∈ b2, op.noise cfg := fun op ho => h2 op (by simp [ho])
  have na3 : ∀ op ∈ a3, op.noise cfg := fun op ho => h3 op (by simp [ho])
  have nb3 : ∀ op ∈ b3, op.noise cfg := fun op ho => h3 op (by simp [ho])
  obtain ⟨s1, r1, l1, e1⟩ := noise_run' cfg hc a s hp.live na (.inl ha)
  obtain ⟨e1st, e115, e135, e1f, e1x, e1i, e1r, e1n, e1m⟩ := sig_eqs e1
  obtain ⟨s2, p1, l2, e2⟩ : ∃ s2, slaveStep cfg s1 .poll = .ok (s2, [.send (rtuFrame s1.id (encodeResponse
      (respond cfg.limits s1.mem (requestOf s1.req))))]) ∧ Live s2 ∧
      sig s2 = (.transmitting, s1.t15, .cleared, s1.ferr, .set, s1.id, s1.req, s1.reqLen, effect cfg.limits s1.mem (requestOf s1.req)) := by
    obtain ⟨resp, respLen, hans, _⟩ := slaveMsgReceived_send cfg hc l1.msgPtr l1.dataSet l1.drv
      (s := s1) (by rw [e1f]; exact hp.ferr) (by rw [e135]; exact hp.t35)
    have h1 : s1.st = .msgReceived := by rw [e1st]; exact hp.st
    have h2 : slaveStep cfg s1 .poll = slaveMsgReceived cfg s1 := by simp only [slaveStep, slavePoll, h1]
    exact ⟨_, h2.trans hans, live_of l1 rfl rfl rfl rfl, rfl⟩
  obtain ⟨e2st, e215, e235, e2f, e2x, e2i, e2r, e2n, e2m⟩ := sig_eqs e2
  obtain ⟨s3, r2, l3, e3⟩ := noise_run' cfg hc b2 s2 l2 nb2 (.inr (quiet_tx cfg s2 e2st (by rw [e2x]; simp)))
  obtain ⟨e3st, e315, e335, e3f, e3x, e3i, e3r, e3n, e3m⟩ := sig_eqs e3
  obtain ⟨s4, p2, l4, e4⟩ : ∃ s4, slaveStep cfg s3 .txDone = .ok (s4, []) ∧ Live s4 ∧
      sig s4 = (s3.st, s3.t15, s3.t35, s3.ferr, .cleared, s3.id, s3.req, s3.reqLen, s3.mem) :=
    ⟨{ s3 with txf := .cleared }, by simp [slaveStep, l3.sub], live_of l3 rfl rfl rfl rfl, rfl⟩
  obtain ⟨e4st, e415, e435, e4f, e4x, e4i, e4r, e4n, e4m⟩ := sig_eqs e4
  obtain ⟨s5, r3, l5, e5⟩ := noise_run' cfg hc a3 s4 l4 na3 (.inl ha3)
  obtain ⟨e5st, e515, e535, e5f, e5x, e5i, e5r, e5n, e5m⟩ := sig_eqs e5
  obtain ⟨s6, p3, l6, e6⟩ : ∃ s6, slaveStep cfg s5 .poll = .ok (s6, []) ∧ Live s6 ∧
      sig s6 = (.idle, s5.t15, s5.t35, s5.ferr, s5.txf, s5.id, s5.req, 0, s5.mem) := by
    refine ⟨{ s5 with st := .idle, respLen := 0, reqLen := 0 }, ?_, live_of l5 rfl rfl rfl rfl, rfl⟩
    have h1 : s5.st = .transmitting := by rw [e5st, e4st, e3st, e2st]
    simp only [slaveStep, slavePoll, h1]
    exact slaveTransmitting_done l5.msgPtr (by rw [e5x, e4x])
  obtain ⟨e6st, e615, e635, e6f, e6x, e6i, e6r, e6n, e6m⟩ := sig_eqs e6
  have t6 : s6.t15 = .cleared := by rw [e615, e515, e415, e315, e215, e115, hp.t15]
  obtain ⟨s7, r4, l7, e7⟩ := noise_run' cfg hc b3 s6 l6 nb3 (.inr (quiet_idle cfg s6 e6st (by simp [t6])))
  obtain ⟨e7st, e715, e735, e7f, e7x, e7i, e7r, e7n, e7m⟩ := sig_eqs e7
  refine ⟨a, b2 ++ .txDone :: (a3 ++ .poll :: b3), s7, by simp, ?_, ?_, ?_, ?_⟩
  · have tail := run_then r2 (run_cons p2 (run_then r3 (run_cons p3 r4)))
    have key : slaveRun cfg s1 (.poll :: (b2 ++ .txDone :: (a3 ++ .poll :: b3))) = .ok (s7,
        [.send (rtuFrame s1.id (encodeResponse (respond cfg.limits s1.mem (requestOf s1.req))))]) := by
      rw [slaveRun_cons_ok p1, tail]; rfl
    have := run_then r1 key
    rw [e1i, e1m, e1r] at this
    simpa using this
  · exact ⟨l7, by rw [e7st, e6st], by rw [e715, t6], by rw [e735, e635, e535, e435, e335, e235],
      by rw [e7f, e6f, e5f, e4f, e3f, e2f, e1f, hp.ferr], by rw [e7n, e6n]⟩
  · rw [e7i, e6i, e5i, e4i, e3i, e2i, e1i]
  · rw [e7m, e6m, e5m, e4m, e3m, e2m, e1m, e1r]
    simp only [appMem_append, appMem]

/-- Dropping, from the pending state with the error flag set. -/
theorem drop_tail (cfg : Config) (hc : cfg.WF) (s : Slave) (hl : Live s) (hst : s.st = .msgReceived)
    (h35 : s.t35 = .set) (hf : s.ferr = .set) (n2 : List SOp)
    (h2 : ∀ op ∈ n2, op.noise cfg) (c2 : 1 ≤ n2.count .poll) :
    ∃ a b s', n2 = a ++ .poll :: b ∧ n2.count .poll = 1 + b.count .poll ∧
      slaveRun cfg s (a ++ [.poll]) = .ok (s', []) ∧ Live s' ∧
      sig s' = (.idle, s.t15, .cleared, .cleared, s.txf, s.id, s.req, 0, appMem s.mem (a ++ [.poll])) := by
  obtain ⟨a, b2, rfl, ha, hcnt⟩ := first_poll c2
  have na : ∀ op ∈ a, op.noise cfg := fun op ho => h2 op (by simp [ho])
  obtain ⟨s1, r1, l1, e1⟩ := noise_run' cfg hc a s hl na (.inl ha)
  obtain ⟨e1st, e115, e135, e1f, e1x, e1i, e1r, e1n, e1m⟩ := sig_eqs e1
  have p1 : slaveStep cfg s1 .poll = .ok ({ s1 with reqLen := 0, st := .idle, ferr := .cleared, t35 := .cleared }, []) := by
    have e : s1.st = .msgReceived := by rw [e1st]; exact hst
    simp only [slaveStep, slavePoll, e]
    exact slaveMsgReceived_drop cfg l1.msgPtr (by rw [e1f]; exact hf) (by rw [e135]; exact h35)
  refine ⟨a, b2, _, rfl, hcnt, run_then r1 ((slaveRun_one ..).trans p1), live_of l1 rfl rfl rfl rfl, ?_⟩
  simp only [sig, e115, e1x, e1i, e1r, e1m, appMem_append, appMem]

theorem drop_tail_sync (cfg : Config) (hc : cfg.WF) (s : Slave) (hl : Live s) (hst : s.st = .msgReceived)
    (h15 : s.t15 = .cleared) (h35 : s.t35 = .set) (hf : s.ferr = .set) (n2 : List SOp)
    (h2 : ∀ op ∈ n2, op.noise cfg) (c2 : 1 ≤ n2.count .poll) :
    ∃ s', slaveRun cfg s n2 = .ok (s', []) ∧ Sync s' ∧ s'.id = s.id ∧ s'.mem = appMem s.mem n2 := by
  obtain ⟨a, b, s1, rfl, _, r1, l1, e1⟩ := drop_tail cfg hc s hl hst h35 hf n2 h2 c2
  obtain ⟨e1st, e115, e135, e1f, e1x, e1i, e1r, e1n, e1m⟩ := sig_eqs e1
  have nb : ∀ op ∈ b, op.noise cfg := fun op ho => h2 op (by simp [ho])
  obtain ⟨s2, r2, l2, e2⟩ := noise_run' cfg hc b s1 l1 nb (.inr (quiet_idle cfg s1 e1st (by simp [e115, h15])))
  obtain ⟨e2st, e215, e235, e2f, e2x, e2i, e2r, e2n, e2m⟩ := sig_eqs e2
  refine ⟨s2, by simpa using run_then r1 r2, ⟨l2, by rw [e2st, e1st], by rw [e215, e115, h15], by rw [e235, e135],
    by rw [e2f, e1f], by rw [e2n, e1n]⟩, by rw [e2i, e1i], ?_⟩
  rw [e2m, e1m]; simp only [appMem_append, appMem]

/-- Soft operations that contain no received byte. -/
theorem err_run (cfg : Config) (hc : cfg.WF) (l : List SOp) (s : Slave) (hl : Live s)
    (hn : ∀ op ∈ l, op.noise cfg ∨ op = .frameErr)
    (hq : SOp.poll ∉ l ∨ ∀ m f r n, slavePoll cfg { s with mem := m, ferr := f, req := r, reqLen := n } =
      .ok ({ s with mem := m, ferr := f, req := r, reqLen := n }, [])) :
    ∃ s', slaveRun cfg s l = .ok (s', []) ∧ Live s' ∧
      sig s' = (s.st, s.t15, s.t35, if .frameErr ∈ l then .set else s.ferr, s.txf, s.id, s.req, s.reqLen, appMem s.mem l) := by
  have h := soft_run cfg hc l s hl (fun op ho => by
      rcases hn op ho with h | h
      · exact .inl (.inl h)
      · exact .inr h) hq
  refine ⟨_, h, live_of hl rfl rfl rfl rfl, ?_⟩
  simp only [softRes, bytesOf_noiseErr hn, pushAll, sig]

theorem frameOk_congr {s s' : Slave} (h1 : s'.id = s.id) (h2 : s'.req = s.req) (h3 : s'.reqLen = s.reqLen) :
    s'.frameOk ↔ s.frameOk := by simp only [Slave.frameOk, h1, h2, h3]

/-- From the end of reception (`t15` already set) to the moment when the frame has been checked and the 3.5-char event
has been seen. -/
theorem check_phase (cfg : Config) (hc : cfg.WF) (s : Slave) (hl : Live s) (hst : s.st = .idle)
    (h15 : s.t15 = .set) (n1 n2 : List SOp)
    (h1 : ∀ op ∈ n1, op.noise cfg ∨ op = .frameErr) (h2 : ∀ op ∈ n2, op.noise cfg) (c2 : 2 ≤ n2.count .poll)
    (h35 : s.t35 = .cleared) :
    ∃ a b s', n1 ++ .t35 :: n2 = a ++ b ∧ .t35 ∈ a ∧ (∀ op ∈ b, op.noise cfg) ∧ 1 ≤ b.count .poll ∧
      slaveRun cfg s a = .ok (s', []) ∧ Live s' ∧
      sig s' = (.msgReceived, .cleared, .set, if s.frameOk ∧ .frameErr ∉ n1 then s.ferr else .set, s.txf, s.id, s.req,
        s.reqLen, appMem s.mem a) := by
  by_cases hp : 1 ≤ n1.count .poll
  · obtain ⟨a, b1, rfl, ha, _⟩ := first_poll hp
    obtain ⟨s1, r1, l1, e1⟩ := err_run cfg hc a s hl (fun op ho => h1 op (by simp [ho])) (.inl ha)
    obtain ⟨e1st, e115, e135, e1f, e1x, e1i, e1r, e1n, e1m⟩ := sig_eqs e1
    have p1 := poll_check cfg l1 (by rw [e1st, hst]) (by rw [e115, h15])
    obtain ⟨s2, p1, l2, e2⟩ : ∃ s2, slaveStep cfg s1 .poll = .ok (s2, []) ∧ Live s2 ∧
        sig s2 = (.msgReceived, .cleared, s1.t35, if s1.frameOk then s1.ferr else .set, s1.txf, s1.id, s1.req, s1.reqLen, s1.mem) :=
      ⟨_, p1, live_of l1 rfl rfl rfl rfl, rfl⟩
    obtain ⟨e2st, e215, e235, e2f, e2x, e2i, e2r, e2n, e2m⟩ := sig_eqs e2
    obtain ⟨s3, r2, l3, e3⟩ := err_run cfg hc b1 s2 l2 (fun op ho => h1 op (by simp [ho]))
      (.inr (quiet_msg cfg s2 e2st (by rw [e235, e135, h35]; simp)))
    obtain ⟨e3st, e315, e335, e3f, e3x, e3i, e3r, e3n, e3m⟩ := sig_eqs e3
    have p3 : slaveStep cfg s3 .t35 = .ok ({ s3 with t35 := .set }, []) := by simp [slaveStep, l3.sub]
    refine ⟨a ++ .poll :: (b1 ++ [.t35]), n2, { s3 with t35 := .set }, by simp, by simp, h2, by omega,
      run_then r1 (run_cons p1 (run_then r2 ((slaveRun_one ..).trans p3))), live_of l3 rfl rfl rfl rfl, ?_⟩
    have ef : s1.frameOk ↔ s.frameOk := frameOk_congr e1i e1r e1n
    simp only [sig, e3st, e315, e3f, e3x, e3i, e3r, e3n, e3m, e2st, e215, e2f, e2x, e2i, e2r, e2n, e2m, e1f, e1x, e1i, e1r,
      e1n, e1m, appMem_append, appMem, ef]
    by_cases f1 : s.frameOk <;> by_cases f2 : SOp.frameErr ∈ a <;> by_cases f3 : SOp.frameErr ∈ b1 <;> simp [f1, f2, f3]
  · have hp' : SOp.poll ∉ n1 := fun h => hp (List.count_pos_iff.mpr h)
    obtain ⟨a2, b2, rfl, ha2, hcnt⟩ := first_poll (l := n2) (by omega)
    have na2 : ∀ op ∈ a2, op.noise cfg := fun op ho => h2 op (by simp [ho])
    have nb2 : ∀ op ∈ b2, op.noise cfg := fun op ho => h2 op (by simp [ho])
    obtain ⟨s1, r1, l1, e1⟩ := err_run cfg hc n1 s hl h1 (.inl hp')
    obtain ⟨e1st, e115, e135, e1f, e1x, e1i, e1r, e1n, e1m⟩ := sig_eqs e1
    obtain ⟨s2, p1, l2, e2⟩ : ∃ s2, slaveStep cfg s1 .t35 = .ok (s2, []) ∧ Live s2 ∧
        sig s2 = (s1.st, s1.t15, .set, s1.ferr, s1.txf, s1.id, s1.req, s1.reqLen, s1.mem) :=
      ⟨{ s1 with t35 := .set }, by simp [slaveStep, l1.sub], live_of l1 rfl rfl rfl rfl, rfl⟩
    obtain ⟨e2st, e215, e235, e2f, e2x, e2i, e2r, e2n, e2m⟩ := sig_eqs e2
    obtain ⟨s3, r2, l3, e3⟩ := noise_run' cfg hc a2 s2 l2 na2 (.inl ha2)
    obtain ⟨e3st, e315, e335, e3f, e3x, e3i, e3r, e3n, e3m⟩ := sig_eqs e3
    have p3 := poll_check cfg l3 (by rw [e3st, e2st, e1st, hst]) (by rw [e315, e215, e115, h15])
    obtain ⟨s4, p3, l4, e4⟩ : ∃ s4, slaveStep cfg s3 .poll = .ok (s4, []) ∧ Live s4 ∧
        sig s4 = (.msgReceived, .cleared, s3.t35, if s3.frameOk then s3.ferr else .set, s3.txf, s3.id, s3.req, s3.reqLen, s3.mem) :=
      ⟨_, p3, live_of l3 rfl rfl rfl rfl, rfl⟩
    refine ⟨n1 ++ .t35 :: (a2 ++ [.poll]), b2, s4, by simp, by simp, nb2, by omega,
      run_then r1 (run_cons p1 (run_then r2 ((slaveRun_one ..).trans p3))), l4, ?_⟩
    rw [e4]
    have ef : s3.frameOk ↔ s.frameOk :=
      frameOk_congr (by rw [e3i, e2i, e1i]) (by rw [e3r, e2r, e1r]) (by rw [e3n, e2n, e1n])
    simp only [e335, e3f, e3x, e3i, e3r, e3n, e3m, e235, e2f, e2x, e2i, e2r, e2n, e2m, e1f, e1x, e1i, e1r,
      e1n, e1m, appMem_append, appMem, ef]
    by_cases f1 : s.frameOk <;> by_cases f2 : SOp.frameErr ∈ n1 <;> simp [f1, f2]


/-! ### C22, C23 -/

/-- Reception from the synchronised state. -/
theorem rx_phase (cfg : Config) (hc : cfg.WF) (s : Slave) (hs : Sync s) (rx : List SOp)
    (h : ∀ op ∈ rx, op.rxNoise cfg ∨ op = .frameErr) (hlen : (bytesOf rx).length ≤ 255) :
    ∃ s1, slaveRun cfg s (rx ++ [.t15]) = .ok (s1, []) ∧ Live s1 ∧ s1.st = .idle ∧ s1.t15 = .set ∧ s1.t35 = .cleared ∧
      s1.ferr = (if .frameErr ∈ rx then .set else .cleared) ∧ s1.id = s.id ∧
      s1.reqLen.toNat = (bytesOf rx).length ∧ (∀ i, i < (bytesOf rx).length → s1.req i = (bytesOf rx).getD i 0) ∧
      s1.mem = appMem s.mem rx := by
  have r1 := soft_run cfg hc rx s hs.live h (.inr (quiet_idle cfg s hs.st (by simp [hs.t15])))
  have l1 : Live (softRes s rx) := live_of hs.live rfl rfl rfl rfl
  have p1 : slaveStep cfg (softRes s rx) .t15 = .ok ({ softRes s rx with t15 := .set }, []) := by
    simp [slaveStep, l1.sub]
  have z : (s.reqLen).toNat = 0 := by rw [hs.len]; rfl
  have hlen2 : (pushAll (s.req, s.reqLen) (bytesOf rx)).2.toNat = (bytesOf rx).length := by
    rw [pushAll_len]; simp only [z]; omega
  refine ⟨_, run_then r1 ((slaveRun_one ..).trans p1), live_of l1 rfl rfl rfl rfl, hs.st, rfl, hs.t35, ?_, rfl, hlen2,
    fun i hi => ?_, rfl⟩
  · show (if .frameErr ∈ rx then Flag.set else s.ferr) = _
    rw [hs.ferr]
  · show (pushAll (s.req, s.reqLen) (bytesOf rx)).1 i = _
    rw [pushAll_get _ _ (by simp only [z]; omega)]
    simp only [z]
    rw [if_pos (by omega), Nat.sub_zero]

theorem bytes_of_prefix {b : Buf} {f : List U8} {n : Nat} (hn : n = f.length) (h : ∀ i, i < f.length → b i = f.getD i 0) :
    b.bytes 0 n = f := by
  subst hn
  apply List.ext_getElem
  · simp
  · intro i h1 h2
    simp only [Buf.bytes, List.getElem_map, List.getElem_range, Nat.zero_add]
    rw [h i h2, getD_lt _ _ _ h2]

theorem goodFrame_len {id : U8} {f : List U8} (h : GoodFrame id f) : 4 ≤ f.length := by
  have := h.complete
  unfold frameLenFor at this
  repeat' split at this
  all_goals omega

/-- The code's reading of the receive buffer is the request carried by the frame. -/
theorem request_of_frame (cfg : Config) (hc : cfg.WF) {id : U8} {f : List U8} (hg : GoodFrame id f) (req : Buf)
    (h : ∀ i, i < f.length → req i = f.getD i 0) (m : AppMem) :
    encodeResponse (respond cfg.limits m (requestOf req)) = encodeResponse (respond cfg.limits m (frameRequest f)) ∧
    effect cfg.limits m (requestOf req) = effect cfg.limits m (frameRequest f) := by
  have h4 := goodFrame_len hg
  have e1 : req 1 = f.getD 1 0 := h 1 (by omega)
  have hl : frameLenFor (req 1) (req 6) ≤ f.length := by
    by_cases h6 : 6 < f.length
    · rw [e1, h 6 h6]; exact hg.complete
    · have := hg.complete
      rw [e1]
      unfold frameLenFor at this ⊢
      repeat' split at this
      · omega
      · omega
      · rename_i a b
        rw [if_neg a, if_neg b]; exact this
  have := C19_only_received_bytes_partial cfg hc { req := req, resp := Buf.zero, respLen := 0, mem := m }
    { req := bufOf f, resp := Buf.zero, respLen := 0, mem := m } f.length rfl
    (fun i hi => h i (by omega)) hl
  rw [slaveAnswer_eq cfg hc, slaveAnswer_eq cfg hc] at this
  injection this with this
  injection this with ha hb
  exact ⟨ha, hb⟩

/-- C22 for one exchange: exactly one response, the one the protocol prescribes for the memory at the moment of the
answering poll, which comes after the 3.5-char event; then synchronised again. -/
theorem C22_one_exchange (cfg : Config) (hc : cfg.WF) (s : Slave) (hs : Sync s) (x : Exchange) (hx : x.Good cfg s.id) :
    ∃ pre post s', x.ops = pre ++ .poll :: post ∧ .t35 ∈ pre ∧
      slaveRun cfg s x.ops = .ok (s', [.send (rtuFrame s.id (encodeResponse
        (respond cfg.limits (appMem s.mem pre) (frameRequest x.frame))))]) ∧
      Sync s' ∧ s'.id = s.id ∧
      s'.mem = appMem (effect cfg.limits (appMem s.mem pre) (frameRequest x.frame)) post := by
  have nofe : SOp.frameErr ∉ x.rx := fun h => by
    rcases hx.rx _ h with h | ⟨_, h⟩
    · simp [SOp.noise] at h
    · simp at h
  have nofe1 : SOp.frameErr ∉ x.n1 := fun h => by simpa [SOp.noise] using hx.n1 _ h
  obtain ⟨s1, r1, l1, st1, t1, u1, f1, i1, n1, b1, m1⟩ := rx_phase cfg hc s hs x.rx (fun op ho => .inl (hx.rx op ho)) hx.frame.len
  rw [if_neg nofe] at f1
  have h4 := goodFrame_len hx.frame
  have h4' : 0 < (bytesOf x.rx).length := Nat.lt_of_lt_of_le (by decide) h4
  have ok : s1.frameOk := by
    refine ⟨?_, ?_⟩
    · rw [b1 0 h4', i1]; exact hx.frame.addressed
    · rw [bytes_of_prefix n1 b1]; exact (crc16_eq_zero_iff _).mpr hx.frame.crc
  obtain ⟨a, b, s2, hab, ha35, hb, cb, r2, l2, e2⟩ := check_phase cfg hc s1 l1 st1 t1 x.n1 x.n2 (fun op ho => .inl (hx.n1 op ho))
    hx.n2 hx.polls2 u1
  obtain ⟨e2st, e215, e235, e2f, e2x, e2i, e2r, e2n, e2m⟩ := sig_eqs e2
  rw [if_pos ⟨ok, nofe1⟩, f1] at e2f
  obtain ⟨c, d, s3, hcd, r3, sy, i3, m3⟩ := answer_tail cfg hc s2 ⟨l2, e2st, e215, e235, e2f⟩ b x.n3 hb hx.n3 cb hx.polls3
  have hops : x.ops = (x.rx ++ [.t15]) ++ (a ++ (b ++ .txDone :: x.n3)) := by
    have : a ++ (b ++ .txDone :: x.n3) = (a ++ b) ++ .txDone :: x.n3 := by simp
    rw [this, ← hab]
    simp [Exchange.ops]
  have hrun := run_then r1 (run_then r2 r3)
  rw [← hops] at hrun
  have hm : appMem s2.mem c = appMem s.mem (x.rx ++ [.t15] ++ a ++ c) := by
    rw [e2m, m1]; simp only [appMem_append, appMem]
  have hr := fun m => request_of_frame cfg hc hx.frame s1.req b1 m
  refine ⟨x.rx ++ [.t15] ++ a ++ c, d, s3, ?_, by simp [ha35], ?_, sy, by rw [i3, e2i, i1], ?_⟩
  · rw [hops, hcd]; simp
  · rw [hrun, hm, e2r, e2i, i1, (hr _).1]
  · rw [m3, hm, e2r, (hr _).2]

/-- C23 for one exchange: no transmission, no data change (other than the application's own writes), and synchronised
again with an empty receive buffer. -/
theorem C23_bad_frames_dropped (cfg : Config) (hc : cfg.WF) (s : Slave) (hs : Sync s) (x : Exchange) (hx : x.Bad cfg s.id) :
    ∃ s', slaveRun cfg s x.opsSilent = .ok (s', []) ∧ Sync s' ∧ s'.id = s.id ∧ s'.mem = appMem s.mem x.opsSilent := by
  obtain ⟨s1, r1, l1, st1, t1, u1, f1, i1, n1, b1, m1⟩ := rx_phase cfg hc s hs x.rx hx.rx hx.len
  obtain ⟨a, b, s2, hab, ha35, hb, cb, r2, l2, e2⟩ := check_phase cfg hc s1 l1 st1 t1 x.n1 x.n2 hx.n1 hx.n2 hx.polls2 u1
  obtain ⟨e2st, e215, e235, e2f, e2x, e2i, e2r, e2n, e2m⟩ := sig_eqs e2
  have hf : s2.ferr = .set := by
    rw [e2f, f1]
    by_cases h1 : s1.frameOk ∧ .frameErr ∉ x.n1
    · rw [if_pos h1]
      by_cases h2 : SOp.frameErr ∈ x.rx
      · rw [if_pos h2]
      · exfalso
        have hcrc : CrcCorrect x.frame := by
          have := h1.1.2
          rw [bytes_of_prefix n1 b1] at this
          exact (crc16_eq_zero_iff _).mp this
        have hpos : 0 < (bytesOf x.rx).length := by
          obtain ⟨body, hb⟩ := hcrc
          have : (bytesOf x.rx).length = (body ++ [_, _]).length := congrArg List.length hb
          rw [this]; simp
        have h0 : x.frame.getD 0 0 = s.id := by
          have := h1.1.1
          rw [b1 0 hpos, i1] at this; exact this
        rcases hx.bad with h | h | h | h
        · exact h hcrc
        · exact h h0
        · exact h2 h
        · exact h1.2 h
    · rw [if_neg h1]
  obtain ⟨s3, r3, sy, i3, m3⟩ := drop_tail_sync cfg hc s2 l2 e2st e215 e235 hf b hb cb
  have hops : x.opsSilent = (x.rx ++ [.t15]) ++ (a ++ b) := by
    rw [← hab]; simp [Exchange.opsSilent]
  refine ⟨s3, ?_, sy, by rw [i3, e2i, i1], ?_⟩
  · rw [hops]; exact run_then r1 (run_then r2 r3)
  · rw [m3, e2m, m1, hops]; simp only [appMem_append, appMem]

/-- A stretch of line traffic: valid exchanges and bad ones. -/
inductive Traffic where
  | good (x : Exchange)
  | bad (x : Exchange)

def Traffic.ops : Traffic → List SOp
  | .good x => x.ops
  | .bad x => x.opsSilent

def Traffic.WF (cfg : Config) (id : U8) : Traffic → Prop
  | .good x => x.Good cfg id
  | .bad x => x.Bad cfg id

/-- What the protocol prescribes for a stretch of traffic: for each valid exchange exactly one response, computed
from the memory at some poll after the 3.5-char event of that exchange, and its effect; nothing for bad ones;
the application's own writes in between. -/
inductive Served (l : Limits) (id : U8) : AppMem → List Traffic → List SOut → AppMem → Prop
  | nil (m : AppMem) : Served l id m [] [] m
  | good {m m' : AppMem} {x : Exchange} {pre post : List SOp} {xs : List Traffic} {outs : List SOut}
      (split : x.ops = pre ++ .poll :: post) (after35 : .t35 ∈ pre)
      (rest : Served l id (appMem (effect l (appMem m pre) (frameRequest x.frame)) post) xs outs m') :
      Served l id m (.good x :: xs)
        (.send (rtuFrame id (encodeResponse (respond l (appMem m pre) (frameRequest x.frame)))) :: outs) m'
  | bad {m m' : AppMem} {x : Exchange} {xs : List Traffic} {outs : List SOut}
      (rest : Served l id (appMem m x.opsSilent) xs outs m') : Served l id m (.bad x :: xs) outs m'

/-- C22 (with C23): a synchronised slave serves every stretch of valid and bad exchanges, of any length, exactly as
prescribed, and is synchronised again afterwards. -/
theorem C22_serves_all_traffic (cfg : Config) (hc : cfg.WF) (xs : List Traffic) : ∀ (s : Slave), Sync s →
    (∀ x ∈ xs, x.WF cfg s.id) →
    ∃ s' outs, slaveRun cfg s (xs.flatMap Traffic.ops) = .ok (s', outs) ∧ Sync s' ∧ s'.id = s.id ∧
      Served cfg.limits s.id s.mem xs outs s'.mem := by
  induction xs with
  | nil => intro s hs _; exact ⟨s, [], rfl, hs, rfl, .nil _⟩
  | cons x xs ih =>
    intro s hs hx
    have hx0 := hx x (List.mem_cons_self ..)
    cases x with
    | good x =>
      obtain ⟨pre, post, s1, h1, h2, r1, sy1, i1, m1⟩ := C22_one_exchange cfg hc s hs x hx0
      obtain ⟨s2, outs, r2, sy2, i2, sv⟩ := ih s1 sy1 (fun y hy => by rw [i1]; exact hx y (List.mem_cons_of_mem _ hy))
      refine ⟨s2, _, slaveRun_append_ok r1 r2, sy2, by rw [i2, i1], ?_⟩
      rw [i1, m1] at sv
      exact .good h1 h2 sv
    | bad x =>
      obtain ⟨s1, r1, sy1, i1, m1⟩ := C23_bad_frames_dropped cfg hc s hs x hx0
      obtain ⟨s2, outs, r2, sy2, i2, sv⟩ := ih s1 sy1 (fun y hy => by rw [i1]; exact hx y (List.mem_cons_of_mem _ hy))
      refine ⟨s2, outs, run_then r1 r2, sy2, by rw [i2, i1], ?_⟩
      rw [i1, m1] at sv
      exact .bad sv

theorem served_count {l : Limits} {id : U8} {m m' : AppMem} {xs : List Exchange} {outs : List SOut}
    (h : Served l id m (xs.map .good) outs m') : outs.length = xs.length := by
  generalize hy : xs.map Traffic.good = ys at h
  induction h generalizing xs with
  | nil => simp at hy; simp [hy]
  | good _ _ _ ih =>
    cases xs with
    | nil => simp at hy
    | cons x xs => simp at hy; simp [ih hy.2]
  | bad _ _ =>
    cases xs with
    | nil => simp at hy
    | cons x xs => simp at hy

/-- C22. Every valid frame gets exactly one response, for ever. -/
theorem C22_answers_every_valid_frame (cfg : Config) (hc : cfg.WF) (s : Slave) (hs : Sync s) (xs : List Exchange)
    (hx : ∀ x ∈ xs, x.Good cfg s.id) :
    ∃ s' outs, slaveRun cfg s (xs.flatMap Exchange.ops) = .ok (s', outs) ∧ Sync s' ∧ outs.length = xs.length ∧
      Served cfg.limits s.id s.mem (xs.map .good) outs s'.mem := by
  obtain ⟨s', outs, r, sy, _, sv⟩ := C22_serves_all_traffic cfg hc (xs.map .good) s hs (by
    intro x h
    obtain ⟨y, hy, rfl⟩ := List.mem_map.mp h
    exact hx y hy)
  refine ⟨s', outs, ?_, sy, served_count sv, sv⟩
  rw [← r, List.flatMap_map]; rfl

/-- The state after RTU initialisation of a fresh slave is synchronised. -/
theorem sync_after_init (mem : AppMem) (id : U8) : Sync (slaveInit (Slave.powerOn mem) .rtu id) :=
  ⟨⟨rfl, rfl, rfl, rfl⟩, rfl, rfl, rfl, rfl, rfl⟩

/-- An example exchange. -/
def sampleExchange : Exchange :=
  { rx := [.poll, .rxByte 1, .rxByte 3, .rxByte 0, .rxByte 0, .poll, .appReg 0 9, .rxByte 0, .rxByte 1, .rxByte 0x84, .rxByte 0x0A],
    n1 := [.poll, .appReg 0 10], n2 := [.poll, .appReg 0 11, .poll], n3 := [.poll, .poll] }

/-- An example bad exchange: last byte corrupted. -/
def sampleBad : Exchange :=
  { rx := [.rxByte 1, .rxByte 3, .rxByte 0, .rxByte 0, .rxByte 0, .rxByte 1, .rxByte 0x84, .rxByte 0x0B],
    n1 := [.poll], n2 := [.poll, .poll], n3 := [] }

theorem sampleExchange_good : sampleExchange.Good Config.default 1 := by
  refine ⟨⟨(crc16_eq_zero_iff _).mp (by decide +kernel), by decide, by decide, by decide⟩, ?_, ?_, ?_, ?_, by decide, by decide⟩ <;>
    simp [sampleExchange, SOp.rxNoise, SOp.noise]

theorem sampleBad_bad : sampleBad.Bad Config.default 1 := by
  refine ⟨.inl (fun h => absurd ((crc16_eq_zero_iff _).mpr h) (by decide +kernel)), by decide, ?_, ?_, ?_, by decide⟩ <;>
    simp [sampleBad, SOp.rxNoise, SOp.noise]

/-- Non-vacuity of C22 and C23: a good, a bad and a good exchange, with application writes in between. -/
example : (∀ x ∈ [Traffic.good sampleExchange, .bad sampleBad, .good sampleExchange], x.WF Config.default 1) ∧
    outsOf (slaveRun Config.default (slaveInit (Slave.powerOn sampleMem) .rtu 1)
      ([Traffic.good sampleExchange, .bad sampleBad, .good sampleExchange].flatMap Traffic.ops)) =
      some [.send [1, 3, 2, 0, 10, 0x38, 0x43], .send [1, 3, 2, 0, 10, 0x38, 0x43]] := by
  refine ⟨?_, by decide +kernel⟩
  intro x hx
  simp only [List.mem_cons, List.not_mem_nil, or_false] at hx
  rcases hx with rfl | rfl | rfl
  · exact sampleExchange_good
  · exact sampleBad_bad
  · exact sampleExchange_good


/-! ### C24 -/

/-- Noise in the synchronised state. -/
theorem sync_noise (cfg : Config) (hc : cfg.WF) (s : Slave) (hs : Sync s) (l : List SOp) (hl : ∀ op ∈ l, op.noise cfg) :
    ∃ s', slaveRun cfg s l = .ok (s', []) ∧ Sync s' ∧ s'.id = s.id ∧ s'.mem = appMem s.mem l := by
  obtain ⟨s1, r1, l1, e1⟩ := noise_run' cfg hc l s hs.live hl (.inr (quiet_idle cfg s hs.st (by simp [hs.t15])))
  obtain ⟨e1st, e115, e135, e1f, e1x, e1i, e1r, e1n, e1m⟩ := sig_eqs e1
  exact ⟨s1, r1, ⟨l1, e1st.trans hs.st, e115.trans hs.t15, e135.trans hs.t35, e1f.trans hs.ferr, e1n.trans hs.len⟩, e1i, e1m⟩

/-- The state in which the slave is off by one frame: a check has failed, but the 3.5-char event it waits for is the one
after the next frame. -/
structure Stuck (s : Slave) : Prop where
  live : Live s
  st : s.st = .msgReceived
  t15 : s.t15 = .cleared
  t35 : s.t35 = .cleared
  ferr : s.ferr = .set
  len : s.reqLen = 0

/-- A valid exchange in the stuck state is lost, and the state is the same again. -/
theorem stuck_exchange (cfg : Config) (hc : cfg.WF) (s : Slave) (hs : Stuck s) (x : Exchange) (hx : x.Good cfg s.id) :
    ∃ s', slaveRun cfg s x.ops = .ok (s', []) ∧ Stuck s' ∧ s'.id = s.id := by
  obtain ⟨s1, r1, l1, f1st, f1f, f115, f135, f1i⟩ : ∃ s1, slaveRun cfg s x.rx = .ok (s1, []) ∧ Live s1 ∧ s1.st = .msgReceived ∧
      s1.ferr = .set ∧ s1.t15 = .cleared ∧ s1.t35 = .cleared ∧ s1.id = s.id := by
    have r1 := soft_run cfg hc x.rx s hs.live (fun op ho => .inl (hx.rx op ho))
      (.inr (quiet_msg cfg s hs.st (by simp [hs.t35])))
    refine ⟨softRes s x.rx, r1, live_of hs.live rfl rfl rfl rfl, hs.st, ?_, hs.t15, hs.t35, rfl⟩
    simp only [softRes, hs.ferr, ite_self]
  obtain ⟨s2, p2, l2, e2⟩ : ∃ s2, slaveStep cfg s1 .t15 = .ok (s2, []) ∧ Live s2 ∧
      sig s2 = (s1.st, .set, s1.t35, s1.ferr, s1.txf, s1.id, s1.req, s1.reqLen, s1.mem) :=
    ⟨{ s1 with t15 := .set }, by simp [slaveStep, l1.sub], live_of l1 rfl rfl rfl rfl, rfl⟩
  obtain ⟨e2st, e215, e235, e2f, e2x, e2i, e2r, e2n, e2m⟩ := sig_eqs e2
  obtain ⟨s3, r3, l3, e3⟩ := noise_run' cfg hc x.n1 s2 l2 hx.n1
    (.inr (quiet_msg cfg s2 (e2st.trans f1st) (by simp [e235, f135])))
  obtain ⟨e3st, e315, e335, e3f, e3x, e3i, e3r, e3n, e3m⟩ := sig_eqs e3
  obtain ⟨s4, p4, l4, e4⟩ : ∃ s4, slaveStep cfg s3 .t35 = .ok (s4, []) ∧ Live s4 ∧
      sig s4 = (s3.st, s3.t15, .set, s3.ferr, s3.txf, s3.id, s3.req, s3.reqLen, s3.mem) :=
    ⟨{ s3 with t35 := .set }, by simp [slaveStep, l3.sub], live_of l3 rfl rfl rfl rfl, rfl⟩
  obtain ⟨e4st, e415, e435, e4f, e4x, e4i, e4r, e4n, e4m⟩ := sig_eqs e4
  obtain ⟨a, b, s5, hab, hcnt, r5, l5, e5⟩ := drop_tail cfg hc s4 l4 (by rw [e4st, e3st, e2st, f1st]) e435
    (by rw [e4f, e3f, e2f, f1f]) x.n2 hx.n2 (Nat.le_trans (by decide) hx.polls2)
  obtain ⟨e5st, e515, e535, e5f, e5x, e5i, e5r, e5n, e5m⟩ := sig_eqs e5
  have hb : ∀ op ∈ b, op.noise cfg := fun op ho => hx.n2 op (by rw [hab]; simp [ho])
  have hc2 := hx.polls2
  obtain ⟨c, d, rfl, hcp, _⟩ := first_poll (l := b) (by omega)
  obtain ⟨s6, r6, l6, e6⟩ := noise_run' cfg hc c s5 l5 (fun op ho => hb op (by simp [ho])) (.inl hcp)
  obtain ⟨e6st, e615, e635, e6f, e6x, e6i, e6r, e6n, e6m⟩ := sig_eqs e6
  have p7 := poll_check cfg l6 (e6st.trans e5st) (by rw [e615, e515, e415, e315, e215])
  have nok : ¬ s6.frameOk := by
    intro h
    have := h.2
    rw [e6n, e5n] at this
    exact crc16_short.1 this
  rw [if_neg nok] at p7
  obtain ⟨s7, p7, l7, e7⟩ : ∃ s7, slaveStep cfg s6 .poll = .ok (s7, []) ∧ Live s7 ∧
      sig s7 = (.msgReceived, .cleared, s6.t35, .set, s6.txf, s6.id, s6.req, s6.reqLen, s6.mem) :=
    ⟨_, p7, live_of l6 rfl rfl rfl rfl, rfl⟩
  obtain ⟨e7st, e715, e735, e7f, e7x, e7i, e7r, e7n, e7m⟩ := sig_eqs e7
  have t7 : s7.t35 = .cleared := by rw [e735, e635, e535]
  obtain ⟨s8, r8, l8, e8⟩ := noise_run' cfg hc d s7 l7 (fun op ho => hb op (by simp [ho]))
    (.inr (quiet_msg cfg s7 e7st (by simp [t7])))
  obtain ⟨e8st, e815, e835, e8f, e8x, e8i, e8r, e8n, e8m⟩ := sig_eqs e8
  obtain ⟨s9, p9, l9, e9⟩ : ∃ s9, slaveStep cfg s8 .txDone = .ok (s9, []) ∧ Live s9 ∧
      sig s9 = (s8.st, s8.t15, s8.t35, s8.ferr, .cleared, s8.id, s8.req, s8.reqLen, s8.mem) :=
    ⟨{ s8 with txf := .cleared }, by simp [slaveStep, l8.sub], live_of l8 rfl rfl rfl rfl, rfl⟩
  obtain ⟨e9st, e915, e935, e9f, e9x, e9i, e9r, e9n, e9m⟩ := sig_eqs e9
  obtain ⟨s10, r10, l10, e10⟩ := noise_run' cfg hc x.n3 s9 l9 hx.n3
    (.inr (quiet_msg cfg s9 (by rw [e9st, e8st, e7st]) (by rw [e935, e835, t7]; simp)))
  obtain ⟨e10st, e1015, e1035, e10f, e10x, e10i, e10r, e10n, e10m⟩ := sig_eqs e10
  refine ⟨s10, ?_, ⟨l10, ?_, ?_, ?_, ?_, ?_⟩, ?_⟩
  · have hops : x.ops = x.rx ++ .t15 :: (x.n1 ++ .t35 :: ((a ++ [.poll]) ++ (c ++ .poll :: (d ++ .txDone :: x.n3)))) := by
      simp [Exchange.ops, hab]
    rw [hops]
    exact run_then r1 (run_cons p2 (run_then r3 (run_cons p4 (run_then r5 (run_then r6 (run_cons p7 (run_then r8 (run_cons p9 r10))))))))
  · rw [e10st, e9st, e8st, e7st]
  · rw [e1015, e915, e815, e715]
  · rw [e1035, e935, e835, t7]
  · rw [e10f, e9f, e8f, e7f]
  · rw [e10n, e9n, e8n, e7n, e6n, e5n]
  · rw [e10i, e9i, e8i, e7i, e6i, e5i, e4i, e3i, e2i, f1i]

theorem stuck_forever (cfg : Config) (hc : cfg.WF) (xs : List Exchange) : ∀ (s : Slave), Stuck s →
    (∀ x ∈ xs, x.Good cfg s.id) → ∃ s', slaveRun cfg s (xs.flatMap Exchange.ops) = .ok (s', []) := by
  induction xs with
  | nil => intro s _ _; exact ⟨s, rfl⟩
  | cons x xs ih =>
    intro s hs hx
    obtain ⟨s1, r1, st1, i1⟩ := stuck_exchange cfg hc s hs x (hx x (List.mem_cons_self ..))
    obtain ⟨s2, r2⟩ := ih s1 st1 (fun y hy => by rw [i1]; exact hx y (List.mem_cons_of_mem _ hy))
    exact ⟨s2, run_then r1 r2⟩

/-- A frame transmitted with a pause of between 1.5 and 3.5 characters in the middle: a 1.5-char event at the pause,
and both events at the end. -/
def gapHistory : List SOp :=
  [.init .rtu 1, .rxByte 1, .rxByte 3, .rxByte 0, .t15, .poll, .rxByte 0, .rxByte 0, .rxByte 1, .rxByte 0x84, .rxByte 0x0A,
   .t15, .poll, .t35, .poll, .poll, .poll]

/-- What the proofs need of the state after the history. -/
def stuckB (r : C (Slave × List SOut)) : Bool :=
  match r with
  | .ok (s, o) => s.drv && s.msgPtr && s.dataSet && s.subscribed && s.st == .msgReceived && s.t15 == .cleared &&
      s.t35 == .cleared && s.ferr == .set && s.reqLen == 0 && s.id == 1 && o.isEmpty
  | .error _ => false

theorem gap_stuck : ∃ s, slaveRun Config.default (Slave.powerOn sampleMem) gapHistory = .ok (s, []) ∧ Stuck s ∧ s.id = 1 := by
  have h : stuckB (slaveRun Config.default (Slave.powerOn sampleMem) gapHistory) = true := by decide +kernel
  cases hr : slaveRun Config.default (Slave.powerOn sampleMem) gapHistory with
  | error e => rw [hr] at h; simp [stuckB] at h
  | ok x =>
    obtain ⟨s, o⟩ := x
    rw [hr] at h
    simp only [stuckB, Bool.and_eq_true, beq_iff_eq, List.isEmpty_iff] at h
    obtain ⟨⟨⟨⟨⟨⟨⟨⟨⟨⟨h1, h2⟩, h3⟩, h4⟩, h5⟩, h6⟩, h7⟩, h8⟩, h9⟩, h10⟩, h11⟩ := h
    exact ⟨s, by rw [h11], ⟨⟨h1, h2, h3, h4⟩, h5, h6, h7, h8, h9⟩, h10⟩

/-- C24 does not hold: after one frame with a pause of between 1.5 and 3.5 characters in it, the slave never answers
again, however many perfectly delimited valid frames follow and however often it is polled. -/
theorem C24_recovery_violated : ∃ (s : Slave),
    slaveRun Config.default (Slave.powerOn sampleMem) gapHistory = .ok (s, []) ∧
    ∀ xs : List Exchange, (∀ x ∈ xs, x.Good Config.default 1) →
      ∃ s', slaveRun Config.default s (xs.flatMap Exchange.ops) = .ok (s', []) := by
  obtain ⟨s, h1, h2, h3⟩ := gap_stuck
  refine ⟨s, h1, fun xs hx => stuck_forever _ (by decide) xs s h2 (fun x hm => by rw [h3]; exact hx x hm)⟩

/-- Non-vacuity: such frames exist, e.g. any number of copies of the example exchange. -/
example (n : Nat) : ∀ x ∈ List.replicate n sampleExchange, x.Good Config.default 1 := by
  intro x hx
  rw [(List.mem_replicate.mp hx).2]
  exact sampleExchange_good

/-- C24, what does hold: from any state whatsoever (any history, also from the one above), after re-initialisation in RTU
mode and at most one lost exchange the slave is synchronised, hence answers every later valid frame. Missing: recovery
without re-initialisation. -/
theorem C24_recovery_after_reinit_partial (cfg : Config) (hc : cfg.WF) (s : Slave) (id : U8) (x : Exchange)
    (xs : List Exchange) (hx : x.Good cfg id) (hxs : ∀ y ∈ xs, y.Good cfg id) :
    ∃ s1 o1 s2 outs, slaveRun cfg s (.init .rtu id :: x.ops) = .ok (s1, o1) ∧ o1.length ≤ 1 ∧ Sync s1 ∧
      slaveRun cfg s1 (xs.flatMap Exchange.ops) = .ok (s2, outs) ∧ outs.length = xs.length ∧
      Served cfg.limits id s1.mem (xs.map .good) outs s2.mem := by
  suffices h : ∃ s1 o1, slaveRun cfg s (.init .rtu id :: x.ops) = .ok (s1, o1) ∧ o1.length ≤ 1 ∧ Sync s1 ∧ s1.id = id by
    obtain ⟨s1, o1, r1, h1, sy, i1⟩ := h
    obtain ⟨s2, outs, r2, _, h2, sv⟩ := C22_answers_every_valid_frame cfg hc s1 sy xs (by rw [i1]; exact hxs)
    rw [i1] at sv
    exact ⟨s1, o1, s2, outs, r1, h1, sy, r2, h2, sv⟩
  obtain ⟨s0, p0, l0, e0⟩ : ∃ s0, slaveStep cfg s (.init .rtu id) = .ok (s0, []) ∧ Live s0 ∧
      sig s0 = (.idle, .cleared, .cleared, .cleared, .cleared, id, s.req, s.reqLen, s.mem) :=
    ⟨slaveInit s .rtu id, rfl, ⟨rfl, rfl, rfl, rfl⟩, rfl⟩
  obtain ⟨e0st, e015, e035, e0f, e0x, e0i, e0r, e0n, e0m⟩ := sig_eqs e0
  have nofe : SOp.frameErr ∉ x.rx := fun h => by
    rcases hx.rx _ h with h | ⟨_, h⟩
    · simp [SOp.noise] at h
    · simp at h
  have nofe1 : SOp.frameErr ∉ x.n1 := fun h => by simpa [SOp.noise] using hx.n1 _ h
  obtain ⟨s1, r1, l1, st1, t1, u1, f1, i1⟩ : ∃ s1, slaveRun cfg s0 (x.rx ++ [.t15]) = .ok (s1, []) ∧ Live s1 ∧
      s1.st = .idle ∧ s1.t15 = .set ∧ s1.t35 = .cleared ∧ s1.ferr = .cleared ∧ s1.id = id := by
    have r1 := soft_run cfg hc x.rx s0 l0 (fun op ho => .inl (hx.rx op ho)) (.inr (quiet_idle cfg s0 e0st (by simp [e015])))
    have l1 : Live (softRes s0 x.rx) := live_of l0 rfl rfl rfl rfl
    have p1 : slaveStep cfg (softRes s0 x.rx) .t15 = .ok ({ softRes s0 x.rx with t15 := .set }, []) := by
      simp [slaveStep, l1.sub]
    refine ⟨{ softRes s0 x.rx with t15 := .set }, run_then r1 ((slaveRun_one ..).trans p1), live_of l1 rfl rfl rfl rfl,
      e0st, rfl, e035, ?_, e0i⟩
    simp only [softRes, nofe, if_false, e0f]
  obtain ⟨a, b, s2, hab, ha35, hb, cb, r2, l2, e2⟩ := check_phase cfg hc s1 l1 st1 t1 x.n1 x.n2 (fun op ho => .inl (hx.n1 op ho))
    hx.n2 hx.polls2 u1
  obtain ⟨e2st, e215, e235, e2f, e2x, e2i, e2r, e2n, e2m⟩ := sig_eqs e2
  have hops : x.ops = (x.rx ++ [.t15]) ++ (a ++ (b ++ .txDone :: x.n3)) := by
    have : a ++ (b ++ .txDone :: x.n3) = (a ++ b) ++ .txDone :: x.n3 := by simp
    rw [this, ← hab]
    simp [Exchange.ops]
  rw [hops]
  by_cases ok : s1.frameOk
  · rw [if_pos ⟨ok, nofe1⟩, f1] at e2f
    obtain ⟨c, d, s3, hcd, r3, sy, i3, m3⟩ := answer_tail cfg hc s2 ⟨l2, e2st, e215, e235, e2f⟩ b x.n3 hb hx.n3 cb hx.polls3
    exact ⟨s3, _, run_cons p0 (run_then r1 (run_then r2 r3)), by simp, sy, by rw [i3, e2i, i1]⟩
  · rw [if_neg (fun h => ok h.1)] at e2f
    obtain ⟨s3, r3, sy, i3, m3⟩ := drop_tail_sync cfg hc s2 l2 e2st e215 e235 e2f b hb cb
    obtain ⟨s4, p4, sy4, i4⟩ : ∃ s4, slaveStep cfg s3 .txDone = .ok (s4, []) ∧ Sync s4 ∧ s4.id = s3.id :=
      ⟨{ s3 with txf := .cleared }, by simp [slaveStep, sy.live.sub],
        ⟨live_of sy.live rfl rfl rfl rfl, sy.st, sy.t15, sy.t35, sy.ferr, sy.len⟩, rfl⟩
    obtain ⟨s5, r5, sy5, i5, _⟩ := sync_noise cfg hc s4 sy4 x.n3 hx.n3
    exact ⟨s5, [], run_cons p0 (run_then r1 (run_then r2 (run_then r3 (run_cons p4 r5)))), by simp, sy5, by rw [i5, i4, i3, e2i, i1]⟩

/-! ### C25 -/

/-- C25 does not hold: a 3.5-char event before the frame, none after it, and yet the frame is answered. -/
theorem C25_answer_after_silence_violated : outsOf (slaveRun Config.default (Slave.powerOn sampleMem)
      ([.init .rtu 1, .t35] ++ rxs sampleFrame ++ [.t15, .poll, .poll])) =
    some [.send [1, 3, 2, 0x03, 0xE8, 0xB8, 0xFA]] := by decide +kernel

/-- The same with a realistic origin of the stale event: it arrives during the transmission of the previous response. -/
theorem C25_stale_event_from_previous_response : outsOf (slaveRun Config.default (Slave.powerOn sampleMem)
      ([.init .rtu 1] ++ rxs sampleFrame ++ [.t15, .poll, .t35, .poll, .t35, .txDone, .poll] ++
        rxs sampleFrame ++ [.t15, .poll, .poll])) =
    some [.send [1, 3, 2, 0x03, 0xE8, 0xB8, 0xFA], .send [1, 3, 2, 0x03, 0xE8, 0xB8, 0xFA]] := by decide +kernel

/-- C25, what does hold in every schedule: as long as no 3.5-char event is pending (none occurred since one was last
consumed by a response, a dropped frame or an initialisation) and none occurs, nothing is transmitted.
Missing: events that occurred before the frame are not forgotten. See also `C22_one_exchange`: from a synchronised
state the answering poll comes after the 3.5-char event of the same exchange. -/
theorem C25_no_answer_without_event_partial (cfg : Config) (hc : cfg.WF) (ops : List SOp) : ∀ (s s' : Slave) (o : List SOut),
    s.t35 ≠ .set → .t35 ∉ ops → slaveRun cfg s ops = .ok (s', o) → o = [] ∧ s'.t35 ≠ .set := by
  induction ops with
  | nil =>
    intro s s' o h _ hr
    rw [slaveRun_nil] at hr
    injection hr with hr; injection hr with h1 h2
    subst h1 h2; exact ⟨rfl, h⟩
  | cons op ops ih =>
    intro s s' o h hno hr
    obtain ⟨s1, o1, o2, hs, hr2, rfl⟩ := slaveRun_cons_inv hr
    have key : o1 = [] ∧ s1.t35 ≠ .set := by
      by_cases hp : op = .poll
      · subst hp
        have hpoll := slavePoll_inv cfg hc hs
        cases hpoll with
        | stay => exact ⟨rfl, h⟩
        | check => exact ⟨rfl, h⟩
        | drop h1 h2 h3 => exact absurd h3 h
        | answer h1 h2 h3 => exact absurd h3 h
        | done => exact ⟨rfl, h⟩
        | dflt => exact ⟨rfl, by simp⟩
      · refine ⟨slaveStep_out hs hp, ?_⟩
        by_cases hi : ∃ m i, op = .init m i
        · obtain ⟨m, i, rfl⟩ := hi
          simp only [slaveStep] at hs
          injection hs with hs; injection hs with hs _
          rw [← hs]; simp [slaveInit]
        · have hfr := slaveStep_frame hs hp (fun m i he => hi ⟨m, i, he⟩)
          rcases hfr.2.2.2.2.2.2.2.2.2.2.1 with h' | ⟨h', _⟩
          · rw [h']; exact h
          · exact absurd (by rw [h']; exact List.mem_cons_self ..) hno
    obtain ⟨h1, h2⟩ := ih s1 s' o2 key.2 (fun hm => hno (List.mem_cons_of_mem _ hm)) hr2
    exact ⟨by rw [key.1, h1]; rfl, h2⟩

end Modbus
