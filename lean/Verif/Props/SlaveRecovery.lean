import Verif.Props.SlaveSync

/-! C24, sharper: exactly which disturbances the slave recovers from.

After any history whatsoever and three polls the slave is in one of three resting situations: listening, waiting for the
silence after a frame it has already checked, or busy transmitting. From the first and the third it recovers with at most one
frame lost; from the second it never answers more than one further frame. -/

namespace Modbus

open Spec

/-! ### Phase induction -/

theorem soft_one (cfg : Config) (hc : cfg.WF) (s : Slave) (hl : Live s) (op : SOp) (h : op.soft cfg) (hp : op ≠ .poll) :
    slaveStep cfg s op = .ok (softRes s [op], []) := by
  have := soft_run cfg hc [op] s hl (by simpa using h) (.inl (by simpa using Ne.symm hp))
  rwa [slaveRun_one] at this

/-- An invariant that is kept by every operation of a class and makes progress with each poll. -/
theorem phase_run (cfg : Config) (hc : cfg.WF) (P : SOp → Prop) (hP : ∀ op, P op → op.soft cfg)
    (I : Nat → List SOp → List SOut → Slave → Prop) (hl : ∀ k h o s, I k h o s → Live s)
    (other : ∀ k h o s op, P op → op ≠ .poll → I k h o s → I k (h ++ [op]) o (softRes s [op]))
    (poll : ∀ k h o s, I k h o s → ∃ s' o', slaveStep cfg s .poll = .ok (s', o') ∧ I (k - 1) (h ++ [.poll]) (o ++ o') s')
    (l : List SOp) : ∀ (k : Nat) (h : List SOp) (o : List SOut) (s : Slave), (∀ op ∈ l, P op) → I k h o s →
      ∃ s' o', slaveRun cfg s l = .ok (s', o') ∧ I (k - l.count .poll) (h ++ l) (o ++ o') s' := by
  induction l with
  | nil => intro k h o s _ hi; exact ⟨s, [], rfl, by simpa using hi⟩
  | cons op l ih =>
    intro k h o s hp hi
    have hp0 := hp op (List.mem_cons_self ..)
    have hpl : ∀ op ∈ l, P op := fun op ho => hp op (List.mem_cons_of_mem _ ho)
    by_cases hop : op = .poll
    · subst hop
      obtain ⟨s1, o1, r1, i1⟩ := poll k h o s hi
      obtain ⟨s2, o2, r2, i2⟩ := ih _ _ _ s1 hpl i1
      refine ⟨s2, o1 ++ o2, by rw [slaveRun_cons_ok r1, r2]; rfl, ?_⟩
      have e : k - (SOp.poll :: l).count .poll = k - 1 - l.count .poll := by
        rw [List.count_cons_self]; omega
      rw [e]; simpa using i2
    · have r1 := soft_one cfg hc s (hl _ _ _ _ hi) op (hP _ hp0) hop
      obtain ⟨s2, o2, r2, i2⟩ := ih _ _ _ _ hpl (other k h o s op hp0 hop hi)
      refine ⟨s2, o2, by rw [slaveRun_cons_ok r1, r2]; rfl, ?_⟩
      rw [List.count_cons_of_ne hop]
      simpa using i2

/-! ### Poll steps -/

theorem poll_idle_stay (cfg : Config) {s : Slave} (h : s.st = .idle) (ht : s.t15 ≠ .set) :
    slaveStep cfg s .poll = .ok (s, []) := quiet_idle cfg s h ht s.mem s.ferr s.req s.reqLen

theorem poll_msg_stay (cfg : Config) {s : Slave} (h : s.st = .msgReceived) (ht : s.t35 ≠ .set) :
    slaveStep cfg s .poll = .ok (s, []) := quiet_msg cfg s h ht s.mem s.ferr s.req s.reqLen

theorem poll_tx_stay (cfg : Config) {s : Slave} (h : s.st = .transmitting) (ht : s.txf ≠ .cleared) :
    slaveStep cfg s .poll = .ok (s, []) := quiet_tx cfg s h ht s.mem s.ferr s.req s.reqLen

theorem poll_drop (cfg : Config) {s : Slave} (hl : Live s) (h : s.st = .msgReceived) (hf : s.ferr = .set) (ht : s.t35 = .set) :
    slaveStep cfg s .poll = .ok ({ s with reqLen := 0, st := .idle, ferr := .cleared, t35 := .cleared }, []) := by
  simp only [slaveStep, slavePoll, h]
  exact slaveMsgReceived_drop cfg hl.msgPtr hf ht

theorem poll_done (cfg : Config) {s : Slave} (hl : Live s) (h : s.st = .transmitting) (ht : s.txf = .cleared) :
    slaveStep cfg s .poll = .ok ({ s with st := .idle, respLen := 0, reqLen := 0 }, []) := by
  simp only [slaveStep, slavePoll, h]
  exact slaveTransmitting_done hl.msgPtr ht

theorem poll_answer (cfg : Config) (hc : cfg.WF) {s : Slave} (hl : Live s) (h : s.st = .msgReceived) (hf : s.ferr = .cleared)
    (ht : s.t35 = .set) : ∃ s', slaveStep cfg s .poll = .ok (s',
        [.send (rtuFrame s.id (encodeResponse (respond cfg.limits s.mem (requestOf s.req))))]) ∧ Live s' ∧
      sig s' = (.transmitting, s.t15, .cleared, s.ferr, .set, s.id, s.req, s.reqLen, effect cfg.limits s.mem (requestOf s.req)) := by
  obtain ⟨resp, respLen, hans, _⟩ := slaveMsgReceived_send cfg hc hl.msgPtr hl.dataSet hl.drv hf ht
  have h2 : slaveStep cfg s .poll = slaveMsgReceived cfg s := by simp only [slaveStep, slavePoll, h]
  exact ⟨_, h2.trans hans, live_of hl rfl rfl rfl rfl, rfl⟩

theorem step_t15 (cfg : Config) {s : Slave} (hl : Live s) : slaveStep cfg s .t15 = .ok ({ s with t15 := .set }, []) := by
  simp [slaveStep, hl.sub]

theorem step_t35 (cfg : Config) {s : Slave} (hl : Live s) : slaveStep cfg s .t35 = .ok ({ s with t35 := .set }, []) := by
  simp [slaveStep, hl.sub]

theorem step_txDone (cfg : Config) {s : Slave} (hl : Live s) : slaveStep cfg s .txDone = .ok ({ s with txf := .cleared }, []) := by
  simp [slaveStep, hl.sub]

theorem softRes_live {s : Slave} (l : List SOp) (h : Live s) : Live (softRes s l) := live_of h rfl rfl rfl rfl

theorem softRes_ferr {s : Slave} (l : List SOp) (h : s.ferr ≠ .unknown) : (softRes s l).ferr ≠ .unknown := by
  show (if .frameErr ∈ l then Flag.set else s.ferr) ≠ _
  split
  · simp
  · exact h

/-! ### Resting situations -/

/-- Nothing pending: listening. -/
structure Listening (s : Slave) : Prop where
  live : Live s
  known : s.ferr ≠ .unknown
  st : s.st = .idle
  t15 : s.t15 ≠ .set

/-- A response is being transmitted. -/
structure Busy (s : Slave) : Prop where
  live : Live s
  known : s.ferr ≠ .unknown
  st : s.st = .transmitting
  txf : s.txf ≠ .cleared

/-- A frame has been checked; the silence after it has not been reported. -/
structure Waiting (s : Slave) : Prop where
  live : Live s
  known : s.ferr ≠ .unknown
  st : s.st = .msgReceived
  t35 : s.t35 ≠ .set

/-- The error flag of an initialised slave always has a defined value. -/
theorem known_step (cfg : Config) (hc : cfg.WF) {s s' : Slave} {op : SOp} {o : List SOut} (hk : s.ferr ≠ .unknown)
    (h : slaveStep cfg s op = .ok (s', o)) : s'.ferr ≠ .unknown := by
  by_cases hp : op = .poll
  · subst hp
    have hi := slavePoll_inv cfg hc h
    cases hi with
    | stay => exact hk
    | check => 
      show (if s.frameOk then s.ferr else Flag.set) ≠ _
      split
      · exact hk
      · simp
    | drop => simp
    | answer => exact hk
    | done => exact hk
    | dflt => simp
  · by_cases hi : ∃ m i, op = .init m i
    · obtain ⟨m, i, rfl⟩ := hi
      simp only [slaveStep] at h
      injection h with h; injection h with h _
      subst h; simp [slaveInit]
    · have := (slaveStep_frame h hp (fun m i e => hi ⟨m, i, e⟩)).2.2.2.2.2.2.2.2.1
      rcases this with h | ⟨_, h⟩ <;> rw [h]
      · exact hk
      · simp

theorem known_run (cfg : Config) (hc : cfg.WF) (ops : List SOp) : ∀ (s s' : Slave) (o : List SOut), s.ferr ≠ .unknown →
    slaveRun cfg s ops = .ok (s', o) → s'.ferr ≠ .unknown := by
  induction ops with
  | nil =>
    intro s s' o hk h
    rw [slaveRun_nil] at h; injection h with h; injection h with h _; subst h; exact hk
  | cons op ops ih =>
    intro s s' o hk h
    obtain ⟨s1, o1, o2, h1, h2, _⟩ := slaveRun_cons_inv h
    exact ih s1 s' o2 (known_step cfg hc hk h1) h2

theorem noise_soft {cfg : Config} (op : SOp) (h : op.noise cfg) : op.soft cfg := .inl (.inl h)

theorem noise_softRes {cfg : Config} {op : SOp} (h : op.noise cfg) (s : Slave) :
    softRes s [op] = { s with mem := appMem s.mem [op] } := by
  have h1 : SOp.frameErr ∉ [op] := fun hm => by
    have := List.mem_singleton.mp hm
    rw [← this] at h; simp [SOp.noise] at h
  simp [softRes, bytesOf_noise (l := [op]) (by simpa using h), pushAll, h1]

/-- What three polls do. -/
theorem settles (cfg : Config) (hc : cfg.WF) (s : Slave) (hl : Live s) (hk : s.ferr ≠ .unknown) (l : List SOp)
    (hn : ∀ op ∈ l, op.soft cfg) (hp : 3 ≤ l.count .poll) :
    ∃ s' o', slaveRun cfg s l = .ok (s', o') ∧ (Listening s' ∨ Busy s' ∨ Waiting s') := by
  obtain ⟨s', o', r, l', k', h⟩ := phase_run cfg hc (fun op => op.soft cfg) (fun op h => h)
    (fun k _ _ s => Live s ∧ s.ferr ≠ .unknown ∧ (
      (s.st = .idle ∧ s.t15 ≠ .set) ∨ (s.st = .transmitting ∧ s.txf ≠ .cleared) ∨ (s.st = .msgReceived ∧ s.t35 ≠ .set) ∨
      (s.st = .unknown ∧ 1 ≤ k) ∨ (s.st = .transmitting ∧ s.txf = .cleared ∧ 3 ≤ k) ∨ (s.st = .idle ∧ 2 ≤ k) ∨
      (s.st = .msgReceived ∧ 2 ≤ k) ∨ (s.st = .msgReceived ∧ s.t15 ≠ .set ∧ 1 ≤ k) ∨
      (s.st = .idle ∧ s.t35 ≠ .set ∧ 1 ≤ k)))
    (fun k h o s hi => hi.1)
    (fun k h o s op hop hne hi => ⟨softRes_live _ hi.1, softRes_ferr _ hi.2.1, hi.2.2⟩)
    (fun k h o s hi => by
      obtain ⟨hl, hk, hi⟩ := hi
      cases hst : s.st with
      | idle =>
        by_cases ht : s.t15 = .set
        · refine ⟨_, _, poll_check cfg hl hst ht, live_of hl rfl rfl rfl rfl, ?_, ?_⟩
          · show (if s.frameOk then s.ferr else Flag.set) ≠ _
            split
            · exact hk
            · simp
          · simp [hst, ht] at hi
            by_cases h35 : s.t35 = .set
            · simp [h35] at hi ⊢; omega
            · simp [h35]
        · exact ⟨s, [], poll_idle_stay cfg hst ht, hl, hk, .inl ⟨hst, ht⟩⟩
      | transmitting =>
        by_cases ht : s.txf = .cleared
        · refine ⟨_, _, poll_done cfg hl hst ht, live_of hl rfl rfl rfl rfl, hk, ?_⟩
          simp [hst, ht] at hi
          simp; omega
        · exact ⟨s, [], poll_tx_stay cfg hst ht, hl, hk, .inr (.inl ⟨hst, ht⟩)⟩
      | unknown =>
        obtain ⟨s', o', hp, hl'⟩ := live_poll cfg hc s hl
        have hi := slavePoll_inv cfg hc hp
        refine ⟨s', o', hp, hl', known_step cfg hc (op := .poll) hk hp, ?_⟩
        cases hi with
        | stay hn => exact absurd hst hn
        | dflt => simp
        | check h => simp [hst] at h
        | drop h => simp [hst] at h
        | answer h => simp [hst] at h
        | done h => simp [hst] at h
      | msgReceived =>
        by_cases ht : s.t35 = .set
        · cases hf : s.ferr with
          | set =>
            refine ⟨_, _, poll_drop cfg hl hst hf ht, live_of hl rfl rfl rfl rfl, by simp, ?_⟩
            simp [hst, ht] at hi
            by_cases h15 : s.t15 = .set
            · simp [h15] at hi ⊢; omega
            · simp [h15]
          | cleared =>
            obtain ⟨s', r, l', e⟩ := poll_answer cfg hc hl hst hf ht
            obtain ⟨e1, e2, e3, e4, e5, _⟩ := sig_eqs e
            exact ⟨s', _, r, l', by rw [e4, hf]; simp, .inr (.inl ⟨e1, by simp [e5]⟩)⟩
          | unknown => exact absurd hf hk
        · exact ⟨s, [], poll_msg_stay cfg hst ht, hl, hk, .inr (.inr (.inl ⟨hst, ht⟩))⟩)
    l 3 [] [] s hn ⟨hl, hk, by cases h : s.st <;> simp ; cases s.txf <;> simp⟩
  refine ⟨s', o', r, ?_⟩
  have z : 3 - l.count .poll = 0 := by omega
  rw [z] at h
  simp at h
  rcases h with h | h | h
  · exact .inl ⟨l', k', h.1, h.2⟩
  · exact .inr (.inl ⟨l', k', h.1, h.2⟩)
  · exact .inr (.inr ⟨l', k', h.1, h.2⟩)


/-! ### Exact service, up to a stale 3.5-char event -/

/-- Synchronised, except that a 3.5-char event may be pending. -/
structure Primed (s : Slave) : Prop where
  live : Live s
  st : s.st = .idle
  t15 : s.t15 ≠ .set
  ferr : s.ferr = .cleared
  len : s.reqLen = 0

theorem Sync.primed {s : Slave} (h : Sync s) : Primed s := ⟨h.live, h.st, by simp [h.t15], h.ferr, h.len⟩

/-- The frame is in the buffer and has not been answered. -/
structure Unanswered (m0 : AppMem) (who : U8) (f : List U8) (h : List SOp) (o : List SOut) (s : Slave) : Prop where
  live : Live s
  ferr : s.ferr = .cleared
  id : s.id = who
  req : ∀ i, i < f.length → s.req i = f.getD i 0
  mem : s.mem = appMem m0 h
  seen : .t15 ∈ h
  out : o = []

/-- The frame has been answered. -/
structure Answered1 (l : Limits) (m0 : AppMem) (who : U8) (f : List U8) (h : List SOp) (o : List SOut) (s : Slave) : Prop where
  live : Live s
  ferr : s.ferr = .cleared
  t15 : s.t15 ≠ .set
  id : s.id = who
  how : ∃ pre post, h = pre ++ .poll :: post ∧ .t15 ∈ pre ∧
    o = [.send (rtuFrame who (encodeResponse (respond l (appMem m0 pre) (frameRequest f))))] ∧
    s.mem = appMem (effect l (appMem m0 pre) (frameRequest f)) post

theorem Unanswered.noise {cfg : Config} {m0 : AppMem} {id : U8} {f : List U8} {h : List SOp} {o : List SOut} {s : Slave}
    (hu : Unanswered m0 id f h o s) {op : SOp} (hop : op.noise cfg) : Unanswered m0 id f (h ++ [op]) o (softRes s [op]) := by
  rw [noise_softRes hop]
  exact ⟨live_of hu.live rfl rfl rfl rfl, hu.ferr, hu.id, hu.req, by rw [appMem_append, ← hu.mem], by simp [hu.seen], hu.out⟩

theorem Unanswered.event {m0 : AppMem} {id : U8} {f : List U8} {h : List SOp} {o : List SOut} {s : Slave}
    (hu : Unanswered m0 id f h o s) : Unanswered m0 id f (h ++ [.t35]) o { s with t35 := .set } :=
  ⟨live_of hu.live rfl rfl rfl rfl, hu.ferr, hu.id, hu.req, by rw [appMem_append, ← hu.mem]; rfl, by simp [hu.seen], hu.out⟩

theorem Answered1.noise {cfg : Config} {l : Limits} {m0 : AppMem} {id : U8} {f : List U8} {h : List SOp} {o : List SOut} {s : Slave}
    (hu : Answered1 l m0 id f h o s) {op : SOp} (hop : op.noise cfg) : Answered1 l m0 id f (h ++ [op]) o (softRes s [op]) := by
  rw [noise_softRes hop]
  obtain ⟨pre, post, h1, h2, h3, h4⟩ := hu.how
  refine ⟨live_of hu.live rfl rfl rfl rfl, hu.ferr, hu.t15, hu.id, pre, post ++ [op], by simp [h1], h2, h3, ?_⟩
  rw [appMem_append, ← h4]

/-- Operations that leave the memory alone. -/
theorem Answered1.other {l : Limits} {m0 : AppMem} {id : U8} {f : List U8} {h : List SOp} {o : List SOut} {s s' : Slave}
    (hu : Answered1 l m0 id f h o s) (op : SOp) (hop : ∀ m, appMem m [op] = m) (hl : Live s') (h1 : s'.ferr = s.ferr)
    (h2 : s'.t15 = s.t15) (h3 : s'.id = s.id) (h4 : s'.mem = s.mem) : Answered1 l m0 id f (h ++ [op]) o s' := by
  obtain ⟨pre, post, e1, e2, e3, e4⟩ := hu.how
  refine ⟨hl, h1.trans hu.ferr, by rw [h2]; exact hu.t15, h3.trans hu.id, pre, post ++ [op], by simp [e1], e2, e3, ?_⟩
  rw [appMem_append, hop, h4, e4]

/-- The answering poll. -/
theorem unanswered_poll (cfg : Config) (hc : cfg.WF) {m0 : AppMem} {id : U8} {f : List U8} {h : List SOp} {o : List SOut} {s : Slave}
    (hg : GoodFrame id f) (hu : Unanswered m0 id f h o s) (hst : s.st = .msgReceived) (h15 : s.t15 ≠ .set) (h35 : s.t35 = .set) :
    ∃ s' o', slaveStep cfg s .poll = .ok (s', o') ∧ Answered1 cfg.limits m0 id f (h ++ [.poll]) (o ++ o') s' ∧
      s'.st = .transmitting ∧ s'.txf = .set := by
  obtain ⟨s', r, l', e⟩ := poll_answer cfg hc hu.live hst hu.ferr h35
  obtain ⟨e1, e2, e3, e4, e5, e6, e7, e8, e9⟩ := sig_eqs e
  have hr := request_of_frame cfg hc hg s.req hu.req s.mem
  refine ⟨s', _, r, ⟨l', by rw [e4, hu.ferr], by rw [e2]; exact h15, by rw [e6, hu.id], h, [], rfl, hu.seen, ?_, ?_⟩, e1, e5⟩
  · rw [hu.out, List.nil_append, hr.1, hu.id, hu.mem]
  · rw [e9, hr.2, hu.mem]; rfl

/-- One valid exchange from the ready state: exactly the prescribed response, and ready again. -/
theorem primed_exchange (cfg : Config) (hc : cfg.WF) (s : Slave) (hs : Primed s) (x : Exchange) (hx : x.Good cfg s.id) :
    ∃ pre post s', x.ops = pre ++ .poll :: post ∧ .t15 ∈ pre ∧
      slaveRun cfg s x.ops = .ok (s', [.send (rtuFrame s.id (encodeResponse
        (respond cfg.limits (appMem s.mem pre) (frameRequest x.frame))))]) ∧
      Primed s' ∧ s'.id = s.id ∧ s'.mem = appMem (effect cfg.limits (appMem s.mem pre) (frameRequest x.frame)) post := by
  have nofe : SOp.frameErr ∉ x.rx := fun h => by
    rcases hx.rx _ h with h | ⟨_, h⟩
    · simp [SOp.noise] at h
    · simp at h
  have hg := hx.frame
  -- reception
  have r1 := soft_run cfg hc x.rx s hs.live (fun op ho => .inl (hx.rx op ho)) (.inr (quiet_idle cfg s hs.st hs.t15))
  have l1 : Live (softRes s x.rx) := softRes_live _ hs.live
  have z : (s.reqLen).toNat = 0 := by rw [hs.len]; rfl
  have hlen : (bytesOf x.rx).length ≤ 255 := hg.len
  have hlen2 : (pushAll (s.req, s.reqLen) (bytesOf x.rx)).2.toNat = x.frame.length := by
    rw [pushAll_len]; simp only [z, Exchange.frame]; omega
  have hget : ∀ i, i < x.frame.length → (pushAll (s.req, s.reqLen) (bytesOf x.rx)).1 i = x.frame.getD i 0 := by
    intro i hi
    rw [pushAll_get _ _ (by simp only [z]; omega)]
    simp only [z, Exchange.frame] at hi ⊢
    rw [if_pos (by omega), Nat.sub_zero]
  have u1 : Unanswered s.mem s.id x.frame (x.rx ++ [.t15]) [] { softRes s x.rx with t15 := .set } := by
    refine ⟨live_of l1 rfl rfl rfl rfl, ?_, rfl, hget, ?_, by simp, rfl⟩
    · show (if .frameErr ∈ x.rx then Flag.set else s.ferr) = _
      rw [if_neg nofe, hs.ferr]
    · rw [appMem_append]; rfl
  have frameOk : ∀ (h : List SOp) (o : List SOut) (s' : Slave), Unanswered s.mem s.id x.frame h o s' →
      s'.reqLen.toNat = x.frame.length → s'.frameOk := by
    intro h o s' hu hn
    have h4 := goodFrame_len hg
    refine ⟨?_, ?_⟩
    · rw [hu.req 0 (by omega), hu.id]; exact hg.addressed
    · rw [bytes_of_prefix hn hu.req]; exact (crc16_eq_zero_iff _).mpr hg.crc
  -- after the 1.5-char event
  obtain ⟨s2, o2, r2, i2⟩ := phase_run cfg hc (fun op => op.noise cfg) noise_soft
    (fun _ h o s' => (Unanswered s.mem s.id x.frame h o s' ∧
        ((s'.st = .idle ∧ s'.t15 = .set ∧ s'.reqLen.toNat = x.frame.length) ∨ (s'.st = .msgReceived ∧ s'.t15 ≠ .set))) ∨
      (Answered1 cfg.limits s.mem s.id x.frame h o s' ∧ s'.st = .transmitting ∧ s'.txf = .set))
    (fun k h o s' hi => by rcases hi with hi | hi; exact hi.1.live; exact hi.1.live)
    (fun k h o s' op hop hne hi => by
      rcases hi with hi | hi
      · exact .inl ⟨hi.1.noise hop, by rw [noise_softRes hop]; exact hi.2⟩
      · exact .inr ⟨hi.1.noise hop, by rw [noise_softRes hop]; exact hi.2⟩)
    (fun k h o s' hi => by
      rcases hi with ⟨hu, ⟨hst, h15, hn⟩ | ⟨hst, h15⟩⟩ | ⟨ha, hst, hx⟩
      · have p := poll_check cfg hu.live hst h15
        rw [if_pos (frameOk _ _ _ hu hn)] at p
        refine ⟨_, _, p, .inl ⟨⟨live_of hu.live rfl rfl rfl rfl, hu.ferr, hu.id, hu.req, ?_, by simp [hu.seen], by simp [hu.out]⟩,
          .inr ⟨rfl, by simp⟩⟩⟩
        rw [appMem_append, ← hu.mem]; rfl
      · by_cases h35 : s'.t35 = .set
        · obtain ⟨s'', o'', r, a, b, c⟩ := unanswered_poll cfg hc hg hu hst h15 h35
          exact ⟨s'', o'', r, .inr ⟨a, b, c⟩⟩
        · refine ⟨s', [], poll_msg_stay cfg hst h35, .inl ⟨⟨hu.live, hu.ferr, hu.id, hu.req, ?_, by simp [hu.seen], by simp [hu.out]⟩,
            .inr ⟨hst, h15⟩⟩⟩
          rw [appMem_append, ← hu.mem]; rfl
      · refine ⟨s', [], poll_tx_stay cfg hst (by simp [hx]), .inr ⟨?_, hst, hx⟩⟩
        simpa using ha.other .poll (fun m => rfl) ha.live rfl rfl rfl rfl)
    x.n1 0 _ [] _ hx.n1 (.inl ⟨u1, .inl ⟨hs.st, rfl, hlen2⟩⟩)
  -- after the 3.5-char event
  have l2 : Live s2 := by rcases i2 with hi | hi; exact hi.1.live; exact hi.1.live
  obtain ⟨s3, o3, r3, i3⟩ := phase_run cfg hc (fun op => op.noise cfg) noise_soft
    (fun k h o s' => (Unanswered s.mem s.id x.frame h o s' ∧ s'.t35 = .set ∧
        ((s'.st = .idle ∧ s'.t15 = .set ∧ s'.reqLen.toNat = x.frame.length ∧ 2 ≤ k) ∨ (s'.st = .msgReceived ∧ s'.t15 ≠ .set ∧ 1 ≤ k))) ∨
      (Answered1 cfg.limits s.mem s.id x.frame h o s' ∧ s'.st = .transmitting ∧ s'.txf = .set))
    (fun k h o s' hi => by rcases hi with hi | hi; exact hi.1.live; exact hi.1.live)
    (fun k h o s' op hop hne hi => by
      rcases hi with hi | hi
      · exact .inl ⟨hi.1.noise hop, by rw [noise_softRes hop]; exact hi.2⟩
      · exact .inr ⟨hi.1.noise hop, by rw [noise_softRes hop]; exact hi.2⟩)
    (fun k h o s' hi => by
      rcases hi with ⟨hu, h35, ⟨hst, h15, hn, hk⟩ | ⟨hst, h15, hk⟩⟩ | ⟨ha, hst, hx⟩
      · have p := poll_check cfg hu.live hst h15
        rw [if_pos (frameOk _ _ _ hu hn)] at p
        refine ⟨_, _, p, .inl ⟨⟨live_of hu.live rfl rfl rfl rfl, hu.ferr, hu.id, hu.req, ?_, by simp [hu.seen], by simp [hu.out]⟩,
          h35, .inr ⟨rfl, by simp, by omega⟩⟩⟩
        rw [appMem_append, ← hu.mem]; rfl
      · obtain ⟨s'', o'', r, a, b, c⟩ := unanswered_poll cfg hc hg hu hst h15 h35
        exact ⟨s'', o'', r, .inr ⟨a, b, c⟩⟩
      · refine ⟨s', [], poll_tx_stay cfg hst (by simp [hx]), .inr ⟨?_, hst, hx⟩⟩
        simpa using ha.other .poll (fun m => rfl) ha.live rfl rfl rfl rfl)
    x.n2 2 (x.rx ++ [.t15] ++ x.n1 ++ [.t35]) ([] ++ o2) { s2 with t35 := .set } hx.n2 (by
      rcases i2 with ⟨hu, ⟨hst, h15, hn⟩ | ⟨hst, h15⟩⟩ | ⟨ha, hst, hx⟩
      · exact .inl ⟨hu.event, rfl, .inl ⟨hst, h15, hn, by decide⟩⟩
      · exact .inl ⟨hu.event, rfl, .inr ⟨hst, h15, by decide⟩⟩
      · exact .inr ⟨ha.other .t35 (fun m => rfl) (live_of ha.live rfl rfl rfl rfl) rfl rfl rfl rfl, hst, hx⟩)
  have z2 : 2 - x.n2.count .poll = 0 := by have := hx.polls2; omega
  rw [z2] at i3
  have i3 : Answered1 cfg.limits s.mem s.id x.frame (x.rx ++ [.t15] ++ x.n1 ++ [.t35] ++ x.n2) ([] ++ o2 ++ o3) s3 ∧
      s3.st = .transmitting ∧ s3.txf = .set := by
    rcases i3 with ⟨_, _, h | h⟩ | h
    · omega
    · omega
    · exact h
  -- after the completion
  obtain ⟨s4, o4, r4, i4⟩ := phase_run cfg hc (fun op => op.noise cfg) noise_soft
    (fun k h o s' => Answered1 cfg.limits s.mem s.id x.frame h o s' ∧
      ((s'.st = .transmitting ∧ s'.txf = .cleared ∧ 1 ≤ k) ∨ (s'.st = .idle ∧ s'.reqLen = 0)))
    (fun k h o s' hi => hi.1.live)
    (fun k h o s' op hop hne hi => ⟨hi.1.noise hop, by rw [noise_softRes hop]; exact hi.2⟩)
    (fun k h o s' hi => by
      rcases hi with ⟨ha, ⟨hst, hx, hk⟩ | ⟨hst, hn⟩⟩
      · refine ⟨_, _, poll_done cfg ha.live hst hx, ?_, .inr ⟨rfl, rfl⟩⟩
        rw [List.append_nil]
        exact ha.other .poll (fun m => rfl) (live_of ha.live rfl rfl rfl rfl) rfl rfl rfl rfl
      · refine ⟨s', [], poll_idle_stay cfg hst ha.t15, ?_, .inr ⟨hst, hn⟩⟩
        rw [List.append_nil]
        exact ha.other .poll (fun m => rfl) ha.live rfl rfl rfl rfl)
    x.n3 1 (x.rx ++ [.t15] ++ x.n1 ++ [.t35] ++ x.n2 ++ [.txDone]) ([] ++ o2 ++ o3) { s3 with txf := .cleared } hx.n3
      ⟨i3.1.other (s' := { s3 with txf := .cleared }) .txDone (fun m => rfl) (live_of i3.1.live rfl rfl rfl rfl) rfl rfl rfl rfl, .inl ⟨i3.2.1, rfl, by decide⟩⟩
  have z3 : 1 - x.n3.count .poll = 0 := by have := hx.polls3; omega
  rw [z3] at i4
  obtain ⟨ha, hf⟩ := i4
  have hf : s4.st = .idle ∧ s4.reqLen = 0 := by
    rcases hf with h | h
    · omega
    · exact h
  have hops : x.ops = x.rx ++ [.t15] ++ x.n1 ++ [.t35] ++ x.n2 ++ [.txDone] ++ x.n3 := by simp [Exchange.ops]
  obtain ⟨pre, post, e1, e2, e3, e4⟩ := ha.how
  refine ⟨pre, post, s4, hops.trans e1, e2, ?_, ⟨ha.live, hf.1, ha.t15, ha.ferr, hf.2⟩, ha.id, e4⟩
  have key := slaveRun_append_ok (slaveRun_append_ok (slaveRun_append_ok (slaveRun_append_ok (slaveRun_append_ok
    (slaveRun_append_ok r1 ((slaveRun_one ..).trans (step_t15 cfg l1))) r2) ((slaveRun_one ..).trans (step_t35 cfg l2))) r3)
    ((slaveRun_one ..).trans (step_txDone cfg i3.1.live))) r4
  rw [hops, key, ← e3]
  simp


/-- Each frame gets exactly one response: the one prescribed for the memory at a poll after the end of that frame. -/
inductive AnsweredAll (l : Limits) (id : U8) : AppMem → List Exchange → List SOut → AppMem → Prop
  | nil (m : AppMem) : AnsweredAll l id m [] [] m
  | cons {m m' : AppMem} {x : Exchange} {pre post : List SOp} {xs : List Exchange} {outs : List SOut}
      (split : x.ops = pre ++ .poll :: post) (after15 : .t15 ∈ pre)
      (rest : AnsweredAll l id (appMem (effect l (appMem m pre) (frameRequest x.frame)) post) xs outs m') :
      AnsweredAll l id m (x :: xs)
        (.send (rtuFrame id (encodeResponse (respond l (appMem m pre) (frameRequest x.frame)))) :: outs) m'

theorem AnsweredAll.length {l : Limits} {id : U8} {m m' : AppMem} {xs : List Exchange} {outs : List SOut}
    (h : AnsweredAll l id m xs outs m') : outs.length = xs.length := by
  induction h with
  | nil => rfl
  | cons _ _ _ ih => simp [ih]

theorem primed_all (cfg : Config) (hc : cfg.WF) (xs : List Exchange) : ∀ (s : Slave), Primed s → (∀ x ∈ xs, x.Good cfg s.id) →
    ∃ s' outs, slaveRun cfg s (xs.flatMap Exchange.ops) = .ok (s', outs) ∧ Primed s' ∧ s'.id = s.id ∧
      AnsweredAll cfg.limits s.id s.mem xs outs s'.mem := by
  induction xs with
  | nil => intro s hs _; exact ⟨s, [], rfl, hs, rfl, .nil _⟩
  | cons x xs ih =>
    intro s hs hx
    obtain ⟨pre, post, s1, h1, h2, r1, sy1, i1, m1⟩ := primed_exchange cfg hc s hs x (hx x (List.mem_cons_self ..))
    obtain ⟨s2, outs, r2, sy2, i2, sv⟩ := ih s1 sy1 (fun y hy => by rw [i1]; exact hx y (List.mem_cons_of_mem _ hy))
    refine ⟨s2, _, slaveRun_append_ok r1 r2, sy2, by rw [i2, i1], ?_⟩
    rw [i1, m1] at sv
    exact .cons h1 h2 sv

/-! ### Rough traffic -/

/-- A stretch of line traffic of any content: bytes, frame errors and polls anywhere, but a 1.5-char event followed by a
3.5-char event, each polled for; with or without a completed transmission. -/
structure Rough where
  rx : List SOp
  n1 : List SOp
  n2 : List SOp
  tx : Bool
  n3 : List SOp

def Rough.ops (x : Rough) : List SOp :=
  x.rx ++ [.t15] ++ x.n1 ++ [.t35] ++ x.n2 ++ (if x.tx then [.txDone] else []) ++ x.n3

structure Rough.Ok (cfg : Config) (x : Rough) : Prop where
  rx : ∀ op ∈ x.rx, op.soft cfg
  n1 : ∀ op ∈ x.n1, op.soft cfg
  n2 : ∀ op ∈ x.n2, op.soft cfg
  n3 : ∀ op ∈ x.n3, op.soft cfg
  polls2 : 2 ≤ x.n2.count .poll
  polls3 : x.tx = true → 3 ≤ x.n3.count .poll

theorem check_known {s : Slave} (hk : s.ferr ≠ .unknown) : (if s.frameOk then s.ferr else Flag.set) ≠ .unknown := by
  split
  · exact hk
  · simp

/-- The part before the 1.5-char event changes none of the resting situations. -/
theorem rest_soft (cfg : Config) (hc : cfg.WF) (s : Slave) (l : List SOp) (hn : ∀ op ∈ l, op.soft cfg) (hl : Live s)
    (h : (s.st = .idle ∧ s.t15 ≠ .set) ∨ (s.st = .transmitting ∧ s.txf ≠ .cleared) ∨ (s.st = .msgReceived ∧ s.t35 ≠ .set)) :
    slaveRun cfg s l = .ok (softRes s l, []) :=
  soft_run cfg hc l s hl hn (.inr (by
    rcases h with h | h | h
    · exact quiet_idle cfg s h.1 h.2
    · exact quiet_tx cfg s h.1 h.2
    · exact quiet_msg cfg s h.1 h.2))

/-- After rough traffic the slave is listening or busy, if it was before; at most one frame is answered. -/
theorem rough_round (cfg : Config) (hc : cfg.WF) (s : Slave) (hs : Listening s ∨ Busy s) (x : Rough) (hx : x.Ok cfg) :
    ∃ s' o, slaveRun cfg s x.ops = .ok (s', o) ∧ o.length ≤ 1 ∧ (Listening s' ∨ Busy s') ∧ s'.id = s.id := by
  have hl : Live s := by rcases hs with h | h; exact h.live; exact h.live
  have hk : s.ferr ≠ .unknown := by rcases hs with h | h; exact h.known; exact h.known
  have r1 := rest_soft cfg hc s x.rx hx.rx hl (by rcases hs with h | h; exact .inl ⟨h.st, h.t15⟩; exact .inr (.inl ⟨h.st, h.txf⟩))
  have l1 := softRes_live x.rx hl
  have k1 := softRes_ferr x.rx hk
  -- after the 1.5-char event
  obtain ⟨s2, o2, r2, l2, k2, j2, i2⟩ := phase_run cfg hc (fun op => op.soft cfg) (fun _ h => h)
    (fun _ _ o s' => Live s' ∧ s'.ferr ≠ .unknown ∧ s'.id = s.id ∧
      ((o = [] ∧ s'.st = .idle ∧ s'.t15 = .set) ∨ (o = [] ∧ s'.st = .msgReceived ∧ s'.t15 ≠ .set) ∨
       (o = [] ∧ s'.st = .transmitting ∧ s'.txf ≠ .cleared) ∨
       (o.length ≤ 1 ∧ s'.st = .transmitting ∧ s'.txf ≠ .cleared ∧ s'.t15 ≠ .set) ∨ (o = [] ∧ s'.st = .idle ∧ s'.t15 ≠ .set)))
    (fun k h o s' hi => hi.1)
    (fun k h o s' op hop hne hi => ⟨softRes_live _ hi.1, softRes_ferr _ hi.2.1, hi.2.2.1, hi.2.2.2⟩)
    (fun k h o s' hi => by
      obtain ⟨hl, hk, hid, ⟨ho, hst, h15⟩ | ⟨ho, hst, h15⟩ | ⟨ho, hst, hx⟩ | ⟨ho, hst, hx, h15⟩ | ⟨ho, hst, h15⟩⟩ := hi
      · exact ⟨_, _, poll_check cfg hl hst h15, live_of hl rfl rfl rfl rfl, check_known hk, hid, .inr (.inl ⟨by simp [ho], rfl, by simp⟩)⟩
      · by_cases h35 : s'.t35 = .set
        · cases hf : s'.ferr with
          | set => exact ⟨_, _, poll_drop cfg hl hst hf h35, live_of hl rfl rfl rfl rfl, by simp, hid,
              .inr (.inr (.inr (.inr ⟨by simp [ho], rfl, h15⟩)))⟩
          | cleared =>
            obtain ⟨s'', r, l', e⟩ := poll_answer cfg hc hl hst hf h35
            obtain ⟨e1, e2, e3, e4, e5, e6, _⟩ := sig_eqs e
            exact ⟨s'', _, r, l', by rw [e4]; exact hk, by rw [e6, hid],
              .inr (.inr (.inr (.inl ⟨by simp [ho], e1, by simp [e5], by rw [e2]; exact h15⟩)))⟩
          | unknown => exact absurd hf hk
        · exact ⟨s', [], poll_msg_stay cfg hst h35, hl, hk, hid, .inr (.inl ⟨by simp [ho], hst, h15⟩)⟩
      · exact ⟨s', [], poll_tx_stay cfg hst hx, hl, hk, hid, .inr (.inr (.inl ⟨by simp [ho], hst, hx⟩))⟩
      · exact ⟨s', [], poll_tx_stay cfg hst hx, hl, hk, hid, .inr (.inr (.inr (.inl ⟨by simpa using ho, hst, hx, h15⟩)))⟩
      · exact ⟨s', [], poll_idle_stay cfg hst h15, hl, hk, hid, .inr (.inr (.inr (.inr ⟨by simp [ho], hst, h15⟩)))⟩)
    x.n1 0 [] [] { softRes s x.rx with t15 := .set } hx.n1
    ⟨live_of l1 rfl rfl rfl rfl, k1, rfl, by
      rcases hs with h | h
      · exact .inl ⟨rfl, h.st, rfl⟩
      · exact .inr (.inr (.inl ⟨rfl, h.st, h.txf⟩))⟩
  -- after the 3.5-char event
  obtain ⟨s3, o3, r3, l3, k3, j3, i3⟩ := phase_run cfg hc (fun op => op.soft cfg) (fun _ h => h)
    (fun k _ o s' => Live s' ∧ s'.ferr ≠ .unknown ∧ s'.id = s.id ∧
      ((o = [] ∧ s'.st = .idle ∧ s'.t15 = .set ∧ s'.t35 = .set ∧ 2 ≤ k) ∨
       (o = [] ∧ s'.st = .msgReceived ∧ s'.t15 ≠ .set ∧ s'.t35 = .set ∧ 1 ≤ k) ∨
       (o = [] ∧ s'.st = .transmitting ∧ s'.txf ≠ .cleared ∧ s'.t35 = .set) ∨
       (o.length ≤ 1 ∧ s'.st = .transmitting ∧ s'.txf ≠ .cleared ∧ s'.t15 ≠ .set) ∨ (o = [] ∧ s'.st = .idle ∧ s'.t15 ≠ .set)))
    (fun k h o s' hi => hi.1)
    (fun k h o s' op hop hne hi => ⟨softRes_live _ hi.1, softRes_ferr _ hi.2.1, hi.2.2.1, hi.2.2.2⟩)
    (fun k h o s' hi => by
      obtain ⟨hl, hk, hid, ⟨ho, hst, h15, h35, hn⟩ | ⟨ho, hst, h15, h35, hn⟩ | ⟨ho, hst, hx, h35⟩ | ⟨ho, hst, hx, h15⟩ | ⟨ho, hst, h15⟩⟩ := hi
      · exact ⟨_, _, poll_check cfg hl hst h15, live_of hl rfl rfl rfl rfl, check_known hk, hid,
          .inr (.inl ⟨by simp [ho], rfl, by simp, h35, by omega⟩)⟩
      · cases hf : s'.ferr with
        | set => exact ⟨_, _, poll_drop cfg hl hst hf h35, live_of hl rfl rfl rfl rfl, by simp, hid,
            .inr (.inr (.inr (.inr ⟨by simp [ho], rfl, h15⟩)))⟩
        | cleared =>
          obtain ⟨s'', r, l', e⟩ := poll_answer cfg hc hl hst hf h35
          obtain ⟨e1, e2, e3, e4, e5, e6, _⟩ := sig_eqs e
          exact ⟨s'', _, r, l', by rw [e4]; exact hk, by rw [e6, hid],
            .inr (.inr (.inr (.inl ⟨by simp [ho], e1, by simp [e5], by rw [e2]; exact h15⟩)))⟩
        | unknown => exact absurd hf hk
      · exact ⟨s', [], poll_tx_stay cfg hst hx, hl, hk, hid, .inr (.inr (.inl ⟨by simp [ho], hst, hx, h35⟩))⟩
      · exact ⟨s', [], poll_tx_stay cfg hst hx, hl, hk, hid, .inr (.inr (.inr (.inl ⟨by simpa using ho, hst, hx, h15⟩)))⟩
      · exact ⟨s', [], poll_idle_stay cfg hst h15, hl, hk, hid, .inr (.inr (.inr (.inr ⟨by simp [ho], hst, h15⟩)))⟩)
    x.n2 2 [] ([] ++ o2) { s2 with t35 := .set } hx.n2
    ⟨live_of l2 rfl rfl rfl rfl, k2, j2, by
      rcases i2 with ⟨ho, hst, h15⟩ | ⟨ho, hst, h15⟩ | ⟨ho, hst, hx⟩ | ⟨ho, hst, hx, h15⟩ | ⟨ho, hst, h15⟩
      · exact .inl ⟨ho, hst, h15, rfl, by decide⟩
      · exact .inr (.inl ⟨ho, hst, h15, rfl, by decide⟩)
      · exact .inr (.inr (.inl ⟨ho, hst, hx, rfl⟩))
      · exact .inr (.inr (.inr (.inl ⟨ho, hst, hx, h15⟩)))
      · exact .inr (.inr (.inr (.inr ⟨ho, hst, h15⟩)))⟩
  have z2 : 2 - x.n2.count .poll = 0 := by have := hx.polls2; omega
  rw [z2] at i3
  have key := slaveRun_append_ok (slaveRun_append_ok (slaveRun_append_ok
    (slaveRun_append_ok r1 ((slaveRun_one ..).trans (step_t15 cfg l1))) r2) ((slaveRun_one ..).trans (step_t35 cfg l2))) r3
  cases htx : x.tx with
  | false =>
    have hrest : ((s3.st = .idle ∧ s3.t15 ≠ .set) ∨ (s3.st = .transmitting ∧ s3.txf ≠ .cleared)) ∧ ([] ++ o2 ++ o3).length ≤ 1 := by
      rcases i3 with ⟨_, _, _, _, h⟩ | ⟨_, _, _, _, h⟩ | ⟨ho, h, hx, _⟩ | ⟨ho, h, hx, _⟩ | ⟨ho, h, h15⟩
      · omega
      · omega
      · exact ⟨.inr ⟨h, hx⟩, by rw [ho]; decide⟩
      · exact ⟨.inr ⟨h, hx⟩, ho⟩
      · exact ⟨.inl ⟨h, h15⟩, by rw [ho]; decide⟩
    have r4 := rest_soft cfg hc s3 x.n3 hx.n3 l3 (by rcases hrest.1 with h | h; exact .inl h; exact .inr (.inl h))
    refine ⟨softRes s3 x.n3, [] ++ o2 ++ o3, ?_, ?_, ?_, j3⟩
    · have := slaveRun_append_ok key r4
      simpa [Rough.ops, htx] using this
    · exact hrest.2
    · rcases hrest.1 with h | h
      · exact .inl ⟨softRes_live _ l3, softRes_ferr _ k3, h.1, h.2⟩
      · exact .inr ⟨softRes_live _ l3, softRes_ferr _ k3, h.1, h.2⟩
  | true =>
    obtain ⟨s4, o4, r4, l4, k4, j4, i4⟩ := phase_run cfg hc (fun op => op.soft cfg) (fun _ h => h)
      (fun k _ o s' => Live s' ∧ s'.ferr ≠ .unknown ∧ s'.id = s.id ∧
        ((o = [] ∧ s'.st = .transmitting ∧ s'.txf = .cleared ∧ s'.t35 = .set ∧ 3 ≤ k) ∨
         (o = [] ∧ s'.st = .idle ∧ s'.t15 = .set ∧ s'.t35 = .set ∧ 2 ≤ k) ∨
         (o = [] ∧ s'.st = .msgReceived ∧ s'.t15 ≠ .set ∧ s'.t35 = .set ∧ 1 ≤ k) ∨
         (o.length ≤ 1 ∧ s'.st = .transmitting ∧ s'.txf = .cleared ∧ s'.t15 ≠ .set ∧ 1 ≤ k) ∨
         (o.length ≤ 1 ∧ s'.st = .transmitting ∧ s'.txf ≠ .cleared) ∨
         (o.length ≤ 1 ∧ s'.st = .idle ∧ s'.t15 ≠ .set)))
      (fun k h o s' hi => hi.1)
      (fun k h o s' op hop hne hi => ⟨softRes_live _ hi.1, softRes_ferr _ hi.2.1, hi.2.2.1, hi.2.2.2⟩)
      (fun k h o s' hi => by
        obtain ⟨hl, hk, hid, ⟨ho, hst, hx, h35, hn⟩ | ⟨ho, hst, h15, h35, hn⟩ | ⟨ho, hst, h15, h35, hn⟩ | ⟨ho, hst, hx, h15, hn⟩ |
          ⟨ho, hst, hx⟩ | ⟨ho, hst, h15⟩⟩ := hi
        · refine ⟨_, _, poll_done cfg hl hst hx, live_of hl rfl rfl rfl rfl, hk, hid, ?_⟩
          by_cases h15 : s'.t15 = .set
          · exact .inr (.inl ⟨by simp [ho], rfl, h15, h35, by omega⟩)
          · exact .inr (.inr (.inr (.inr (.inr ⟨by simp [ho], rfl, h15⟩))))
        · exact ⟨_, _, poll_check cfg hl hst h15, live_of hl rfl rfl rfl rfl, check_known hk, hid,
            .inr (.inr (.inl ⟨by simp [ho], rfl, by simp, h35, by omega⟩))⟩
        · cases hf : s'.ferr with
          | set => exact ⟨_, _, poll_drop cfg hl hst hf h35, live_of hl rfl rfl rfl rfl, by simp, hid,
              .inr (.inr (.inr (.inr (.inr ⟨by simp [ho], rfl, h15⟩))))⟩
          | cleared =>
            obtain ⟨s'', r, l', e⟩ := poll_answer cfg hc hl hst hf h35
            obtain ⟨e1, e2, e3, e4, e5, e6, _⟩ := sig_eqs e
            exact ⟨s'', _, r, l', by rw [e4]; exact hk, by rw [e6, hid],
              .inr (.inr (.inr (.inr (.inl ⟨by simp [ho], e1, by simp [e5]⟩))))⟩
          | unknown => exact absurd hf hk
        · exact ⟨_, _, poll_done cfg hl hst hx, live_of hl rfl rfl rfl rfl, hk, hid,
            .inr (.inr (.inr (.inr (.inr ⟨by simpa using ho, rfl, h15⟩))))⟩
        · exact ⟨s', [], poll_tx_stay cfg hst hx, hl, hk, hid, .inr (.inr (.inr (.inr (.inl ⟨by simpa using ho, hst, hx⟩))))⟩
        · exact ⟨s', [], poll_idle_stay cfg hst h15, hl, hk, hid, .inr (.inr (.inr (.inr (.inr ⟨by simpa using ho, hst, h15⟩))))⟩)
      x.n3 3 [] ([] ++ o2 ++ o3) { s3 with txf := .cleared } hx.n3
      ⟨live_of l3 rfl rfl rfl rfl, k3, j3, by
        rcases i3 with ⟨_, _, _, _, h⟩ | ⟨_, _, _, _, h⟩ | ⟨ho, h, hx, h35⟩ | ⟨ho, h, hx, h15⟩ | ⟨ho, h, h15⟩
        · omega
        · omega
        · exact .inl ⟨ho, h, rfl, h35, by decide⟩
        · exact .inr (.inr (.inr (.inl ⟨ho, h, rfl, h15, by decide⟩)))
        · exact .inr (.inr (.inr (.inr (.inr ⟨by rw [ho]; decide, h, h15⟩))))⟩
    have z3 : 3 - x.n3.count .poll = 0 := by have := hx.polls3 htx; omega
    rw [z3] at i4
    have hrest : ((s4.st = .idle ∧ s4.t15 ≠ .set) ∨ (s4.st = .transmitting ∧ s4.txf ≠ .cleared)) ∧
        ([] ++ o2 ++ o3 ++ o4).length ≤ 1 := by
      rcases i4 with ⟨_, _, _, _, h⟩ | ⟨_, _, _, _, h⟩ | ⟨_, _, _, _, h⟩ | ⟨_, _, _, _, h⟩ | ⟨ho, h, hx⟩ | ⟨ho, h, h15⟩
      · omega
      · omega
      · omega
      · omega
      · exact ⟨.inr ⟨h, hx⟩, ho⟩
      · exact ⟨.inl ⟨h, h15⟩, ho⟩
    refine ⟨s4, [] ++ o2 ++ o3 ++ o4, ?_, hrest.2, ?_, j4⟩
    · have := slaveRun_append_ok (slaveRun_append_ok key ((slaveRun_one ..).trans (step_txDone cfg l3))) r4
      simpa [Rough.ops, htx] using this
    · rcases hrest.1 with h | h
      · exact .inl ⟨l4, k4, h.1, h.2⟩
      · exact .inr ⟨l4, k4, h.1, h.2⟩

/-! ### The first valid frame -/

theorem good_soft {cfg : Config} {id : U8} {x : Exchange} (hx : x.Good cfg id) (op : SOp) (h : op ∈ x.rx) : op.soft cfg :=
  .inl (hx.rx op h)

/-- Noise keeps everything but the memory. -/
theorem noise_sig {cfg : Config} {op : SOp} (hop : op.noise cfg) (s : Slave) : (softRes s [op]).ferr = s.ferr ∧
    (softRes s [op]).reqLen = s.reqLen := by
  rw [noise_softRes hop]; exact ⟨rfl, rfl⟩

/-- A valid exchange brings a listening slave into the ready state; whatever it was answering, it answers at most once. -/
theorem listening_good (cfg : Config) (hc : cfg.WF) (s : Slave) (hs : Listening s) (x : Exchange) (hx : x.Good cfg s.id) :
    ∃ s' o, slaveRun cfg s x.ops = .ok (s', o) ∧ o.length ≤ 1 ∧ Primed s' ∧ s'.id = s.id := by
  have r1 := rest_soft cfg hc s x.rx (good_soft hx) hs.live (.inl ⟨hs.st, hs.t15⟩)
  have l1 := softRes_live x.rx hs.live
  have k1 := softRes_ferr x.rx hs.known
  obtain ⟨s2, o2, r2, l2, k2, j2, i2⟩ := phase_run cfg hc (fun op => op.noise cfg) noise_soft
    (fun _ _ o s' => Live s' ∧ s'.ferr ≠ .unknown ∧ s'.id = s.id ∧
      ((o = [] ∧ s'.st = .idle ∧ s'.t15 = .set) ∨ (o = [] ∧ s'.st = .msgReceived ∧ s'.t15 ≠ .set) ∨
       (o.length ≤ 1 ∧ s'.st = .transmitting ∧ s'.txf ≠ .cleared ∧ s'.t15 ≠ .set ∧ s'.ferr = .cleared) ∨
       (o = [] ∧ s'.st = .idle ∧ s'.t15 ≠ .set ∧ s'.ferr = .cleared ∧ s'.reqLen = 0)))
    (fun k h o s' hi => hi.1)
    (fun k h o s' op hop hne hi => by
      rw [noise_softRes hop]; exact ⟨live_of hi.1 rfl rfl rfl rfl, hi.2.1, hi.2.2.1, hi.2.2.2⟩)
    (fun k h o s' hi => by
      obtain ⟨hl, hk, hid, ⟨ho, hst, h15⟩ | ⟨ho, hst, h15⟩ | ⟨ho, hst, hx, h15, hf⟩ | ⟨ho, hst, h15, hf, hn⟩⟩ := hi
      · exact ⟨_, _, poll_check cfg hl hst h15, live_of hl rfl rfl rfl rfl, check_known hk, hid, .inr (.inl ⟨by simp [ho], rfl, by simp⟩)⟩
      · by_cases h35 : s'.t35 = .set
        · cases hf : s'.ferr with
          | set => exact ⟨_, _, poll_drop cfg hl hst hf h35, live_of hl rfl rfl rfl rfl, by simp, hid,
              .inr (.inr (.inr ⟨by simp [ho], rfl, h15, rfl, rfl⟩))⟩
          | cleared =>
            obtain ⟨s'', r, l', e⟩ := poll_answer cfg hc hl hst hf h35
            obtain ⟨e1, e2, e3, e4, e5, e6, _⟩ := sig_eqs e
            exact ⟨s'', _, r, l', by rw [e4]; exact hk, by rw [e6, hid],
              .inr (.inr (.inl ⟨by simp [ho], e1, by simp [e5], by rw [e2]; exact h15, by rw [e4, hf]⟩))⟩
          | unknown => exact absurd hf hk
        · exact ⟨s', [], poll_msg_stay cfg hst h35, hl, hk, hid, .inr (.inl ⟨by simp [ho], hst, h15⟩)⟩
      · exact ⟨s', [], poll_tx_stay cfg hst hx, hl, hk, hid, .inr (.inr (.inl ⟨by simpa using ho, hst, hx, h15, hf⟩))⟩
      · exact ⟨s', [], poll_idle_stay cfg hst h15, hl, hk, hid, .inr (.inr (.inr ⟨by simp [ho], hst, h15, hf, hn⟩))⟩)
    x.n1 0 [] [] { softRes s x.rx with t15 := .set } hx.n1
    ⟨live_of l1 rfl rfl rfl rfl, k1, rfl, .inl ⟨rfl, hs.st, rfl⟩⟩
  obtain ⟨s3, o3, r3, l3, k3, j3, i3⟩ := phase_run cfg hc (fun op => op.noise cfg) noise_soft
    (fun k _ o s' => Live s' ∧ s'.ferr ≠ .unknown ∧ s'.id = s.id ∧
      ((o = [] ∧ s'.st = .idle ∧ s'.t15 = .set ∧ s'.t35 = .set ∧ 2 ≤ k) ∨
       (o = [] ∧ s'.st = .msgReceived ∧ s'.t15 ≠ .set ∧ s'.t35 = .set ∧ 1 ≤ k) ∨
       (o.length ≤ 1 ∧ s'.st = .transmitting ∧ s'.txf ≠ .cleared ∧ s'.t15 ≠ .set ∧ s'.ferr = .cleared) ∨
       (o = [] ∧ s'.st = .idle ∧ s'.t15 ≠ .set ∧ s'.ferr = .cleared ∧ s'.reqLen = 0)))
    (fun k h o s' hi => hi.1)
    (fun k h o s' op hop hne hi => by
      rw [noise_softRes hop]; exact ⟨live_of hi.1 rfl rfl rfl rfl, hi.2.1, hi.2.2.1, hi.2.2.2⟩)
    (fun k h o s' hi => by
      obtain ⟨hl, hk, hid, ⟨ho, hst, h15, h35, hn⟩ | ⟨ho, hst, h15, h35, hn⟩ | ⟨ho, hst, hx, h15, hf⟩ | ⟨ho, hst, h15, hf, hn⟩⟩ := hi
      · exact ⟨_, _, poll_check cfg hl hst h15, live_of hl rfl rfl rfl rfl, check_known hk, hid,
          .inr (.inl ⟨by simp [ho], rfl, by simp, h35, by omega⟩)⟩
      · cases hf : s'.ferr with
        | set => exact ⟨_, _, poll_drop cfg hl hst hf h35, live_of hl rfl rfl rfl rfl, by simp, hid,
            .inr (.inr (.inr ⟨by simp [ho], rfl, h15, rfl, rfl⟩))⟩
        | cleared =>
          obtain ⟨s'', r, l', e⟩ := poll_answer cfg hc hl hst hf h35
          obtain ⟨e1, e2, e3, e4, e5, e6, _⟩ := sig_eqs e
          exact ⟨s'', _, r, l', by rw [e4]; exact hk, by rw [e6, hid],
            .inr (.inr (.inl ⟨by simp [ho], e1, by simp [e5], by rw [e2]; exact h15, by rw [e4, hf]⟩))⟩
        | unknown => exact absurd hf hk
      · exact ⟨s', [], poll_tx_stay cfg hst hx, hl, hk, hid, .inr (.inr (.inl ⟨by simpa using ho, hst, hx, h15, hf⟩))⟩
      · exact ⟨s', [], poll_idle_stay cfg hst h15, hl, hk, hid, .inr (.inr (.inr ⟨by simp [ho], hst, h15, hf, hn⟩))⟩)
    x.n2 2 [] ([] ++ o2) { s2 with t35 := .set } hx.n2
    ⟨live_of l2 rfl rfl rfl rfl, k2, j2, by
      rcases i2 with ⟨ho, hst, h15⟩ | ⟨ho, hst, h15⟩ | ⟨ho, hst, hx, h15, hf⟩ | ⟨ho, hst, h15, hf, hn⟩
      · exact .inl ⟨ho, hst, h15, rfl, by decide⟩
      · exact .inr (.inl ⟨ho, hst, h15, rfl, by decide⟩)
      · exact .inr (.inr (.inl ⟨ho, hst, hx, h15, hf⟩))
      · exact .inr (.inr (.inr ⟨ho, hst, h15, hf, hn⟩))⟩
  have z2 : 2 - x.n2.count .poll = 0 := by have := hx.polls2; omega
  rw [z2] at i3
  obtain ⟨s4, o4, r4, l4, j4, ho4, h15, hf4, i4⟩ := phase_run cfg hc (fun op => op.noise cfg) noise_soft
    (fun k _ o s' => Live s' ∧ s'.id = s.id ∧ o.length ≤ 1 ∧ s'.t15 ≠ .set ∧ s'.ferr = .cleared ∧
      ((s'.st = .transmitting ∧ s'.txf = .cleared ∧ 1 ≤ k) ∨ (s'.st = .idle ∧ s'.reqLen = 0)))
    (fun k h o s' hi => hi.1)
    (fun k h o s' op hop hne hi => by
      rw [noise_softRes hop]; exact ⟨live_of hi.1 rfl rfl rfl rfl, hi.2.1, hi.2.2.1, hi.2.2.2⟩)
    (fun k h o s' hi => by
      obtain ⟨hl, hid, ho, h15, hf, ⟨hst, hx, hn⟩ | ⟨hst, hn⟩⟩ := hi
      · exact ⟨_, _, poll_done cfg hl hst hx, live_of hl rfl rfl rfl rfl, hid, by simpa using ho, h15, hf, .inr ⟨rfl, rfl⟩⟩
      · exact ⟨s', [], poll_idle_stay cfg hst h15, hl, hid, by simpa using ho, h15, hf, .inr ⟨hst, hn⟩⟩)
    x.n3 1 [] ([] ++ o2 ++ o3) { s3 with txf := .cleared } hx.n3
    (by
      have hl3 : Live { s3 with txf := .cleared } := live_of l3 rfl rfl rfl rfl
      rcases i3 with ⟨_, _, _, _, h⟩ | ⟨_, _, _, _, h⟩ | ⟨ho, hst, hx, h15, hf⟩ | ⟨ho, hst, h15, hf, hn⟩
      · omega
      · omega
      · exact ⟨hl3, j3, ho, h15, hf, .inl ⟨hst, rfl, by decide⟩⟩
      · exact ⟨hl3, j3, by rw [ho]; decide, h15, hf, .inr ⟨hst, hn⟩⟩)
  have z3 : 1 - x.n3.count .poll = 0 := by have := hx.polls3; omega
  rw [z3] at i4
  have i4 : s4.st = .idle ∧ s4.reqLen = 0 := by
    rcases i4 with h | h
    · omega
    · exact h
  refine ⟨s4, [] ++ o2 ++ o3 ++ o4, ?_, ho4, ⟨l4, i4.1, h15, hf4, i4.2⟩, j4⟩
  have key := slaveRun_append_ok (slaveRun_append_ok (slaveRun_append_ok (slaveRun_append_ok (slaveRun_append_ok
    (slaveRun_append_ok r1 ((slaveRun_one ..).trans (step_t15 cfg l1))) r2) ((slaveRun_one ..).trans (step_t35 cfg l2))) r3)
    ((slaveRun_one ..).trans (step_txDone cfg l3))) r4
  simpa [Exchange.ops] using key

/-- A frame that arrives while the previous response is still being transmitted is lost, and afterwards the slave is
synchronised. -/
theorem busy_good (cfg : Config) (hc : cfg.WF) (s : Slave) (hs : Busy s) (x : Exchange) (hx : x.Good cfg s.id)
    (h3 : 3 ≤ x.n3.count .poll) :
    ∃ s', slaveRun cfg s x.ops = .ok (s', []) ∧ Primed s' ∧ s'.id = s.id := by
  have r1 := rest_soft cfg hc s x.rx (good_soft hx) hs.live (.inr (.inl ⟨hs.st, hs.txf⟩))
  have l1 := softRes_live x.rx hs.live
  have k1 := softRes_ferr x.rx hs.known
  obtain ⟨s2, r2, l2, e2⟩ := noise_run' cfg hc x.n1 { softRes s x.rx with t15 := .set } (live_of l1 rfl rfl rfl rfl) hx.n1
    (.inr (quiet_tx cfg _ hs.st hs.txf))
  obtain ⟨e2st, e215, e235, e2f, e2x, e2i, e2r, e2n, e2m⟩ := sig_eqs e2
  obtain ⟨s3, r3, l3, e3⟩ := noise_run' cfg hc x.n2 { s2 with t35 := .set } (live_of l2 rfl rfl rfl rfl) hx.n2
    (.inr (quiet_tx cfg _ (e2st.trans hs.st) (by simp only [e2x]; exact hs.txf)))
  obtain ⟨e3st, e315, e335, e3f, e3x, e3i, e3r, e3n, e3m⟩ := sig_eqs e3
  have hk3 : s3.ferr ≠ .unknown := by rw [e3f]; simp only [e2f]; exact k1
  have hi3 : s3.id = s.id := by rw [e3i]; exact e2i
  obtain ⟨s4, o4, r4, l4, k4, j4, o4', i4⟩ := phase_run cfg hc (fun op => op.noise cfg) noise_soft
    (fun k _ o s' => Live s' ∧ s'.ferr ≠ .unknown ∧ s'.id = s.id ∧ o = [] ∧
      ((s'.st = .transmitting ∧ s'.txf = .cleared ∧ s'.t15 = .set ∧ s'.t35 = .set ∧ 3 ≤ k) ∨
       (s'.st = .idle ∧ s'.t15 = .set ∧ s'.t35 = .set ∧ s'.reqLen = 0 ∧ 2 ≤ k) ∨
       (s'.st = .msgReceived ∧ s'.t15 = .cleared ∧ s'.t35 = .set ∧ s'.ferr = .set ∧ 1 ≤ k) ∨
       (s'.st = .idle ∧ s'.t15 = .cleared ∧ s'.ferr = .cleared ∧ s'.reqLen = 0)))
    (fun k h o s' hi => hi.1)
    (fun k h o s' op hop hne hi => by
      rw [noise_softRes hop]; exact ⟨live_of hi.1 rfl rfl rfl rfl, hi.2.1, hi.2.2.1, hi.2.2.2⟩)
    (fun k h o s' hi => by
      obtain ⟨hl, hk, hid, ho, ⟨hst, hx, h15, h35, hn⟩ | ⟨hst, h15, h35, hz, hn⟩ | ⟨hst, h15, h35, hf, hn⟩ | ⟨hst, h15, hf, hz⟩⟩ := hi
      · exact ⟨_, _, poll_done cfg hl hst hx, live_of hl rfl rfl rfl rfl, hk, hid, by simp [ho],
          .inr (.inl ⟨rfl, h15, h35, rfl, by omega⟩)⟩
      · have nok : ¬ s'.frameOk := by
          intro h
          have := h.2
          rw [hz] at this
          exact crc16_short.1 this
        have p := poll_check cfg hl hst h15
        rw [if_neg nok] at p
        exact ⟨_, _, p, live_of hl rfl rfl rfl rfl, by simp, hid, by simp [ho], .inr (.inr (.inl ⟨rfl, rfl, h35, rfl, by omega⟩))⟩
      · exact ⟨_, _, poll_drop cfg hl hst hf h35, live_of hl rfl rfl rfl rfl, by simp, hid, by simp [ho],
          .inr (.inr (.inr ⟨rfl, h15, rfl, rfl⟩))⟩
      · exact ⟨s', [], poll_idle_stay cfg hst (by simp [h15]), hl, hk, hid, by simp [ho], .inr (.inr (.inr ⟨hst, h15, hf, hz⟩))⟩)
    x.n3 3 [] [] { s3 with txf := .cleared } hx.n3
    ⟨live_of l3 rfl rfl rfl rfl, hk3, hi3, rfl, .inl ⟨e3st.trans (e2st.trans hs.st), rfl, e315.trans e215, e335, by decide⟩⟩
  have z3 : 3 - x.n3.count .poll = 0 := by omega
  rw [z3] at i4
  have i4 : s4.st = .idle ∧ s4.t15 = .cleared ∧ s4.ferr = .cleared ∧ s4.reqLen = 0 := by
    rcases i4 with ⟨_, _, _, _, h⟩ | ⟨_, _, _, _, h⟩ | ⟨_, _, _, _, h⟩ | h
    · omega
    · omega
    · omega
    · exact h
  obtain rfl : o4 = [] := by simpa using o4'
  refine ⟨s4, ?_, ⟨l4, i4.1, by simp [i4.2.1], i4.2.2.1, i4.2.2.2⟩, j4⟩
  have key := run_then r1 (run_cons (step_t15 cfg l1) (run_then r2 (run_cons (step_t35 cfg l2) (run_then r3
    (run_cons (step_txDone cfg l3) r4)))))
  simpa [Exchange.ops] using key

/-- A slave that is waiting for the silence when the next frame comes is off by one frame for ever. -/
theorem waiting_good (cfg : Config) (hc : cfg.WF) (s : Slave) (hs : Waiting s) (x : Exchange) (hx : x.Good cfg s.id)
    (h3 : 2 ≤ x.n3.count .poll) :
    ∃ s' o, slaveRun cfg s x.ops = .ok (s', o) ∧ o.length ≤ 1 ∧ Stuck s' ∧ s'.id = s.id := by
  have r1 := rest_soft cfg hc s x.rx (good_soft hx) hs.live (.inr (.inr ⟨hs.st, hs.t35⟩))
  have l1 := softRes_live x.rx hs.live
  have k1 := softRes_ferr x.rx hs.known
  obtain ⟨s2, r2, l2, e2⟩ := noise_run' cfg hc x.n1 { softRes s x.rx with t15 := .set } (live_of l1 rfl rfl rfl rfl) hx.n1
    (.inr (quiet_msg cfg _ hs.st hs.t35))
  obtain ⟨e2st, e215, e235, e2f, e2x, e2i, e2r, e2n, e2m⟩ := sig_eqs e2
  have hk2 : s2.ferr ≠ .unknown := by rw [e2f]; exact k1
  have zero_bad : ∀ s' : Slave, s'.reqLen = 0 → ¬ s'.frameOk := by
    intro s' hz h
    have := h.2
    rw [hz] at this
    exact crc16_short.1 this
  obtain ⟨s3, o3, r3, l3, k3, j3, i3⟩ := phase_run cfg hc (fun op => op.noise cfg) noise_soft
    (fun k _ o s' => Live s' ∧ s'.ferr ≠ .unknown ∧ s'.id = s.id ∧
      ((o = [] ∧ s'.st = .msgReceived ∧ s'.t15 = .set ∧ s'.t35 = .set ∧ 2 ≤ k) ∨
       (o.length ≤ 1 ∧ s'.st = .transmitting ∧ s'.txf = .set ∧ s'.t15 = .set ∧ s'.t35 = .cleared) ∨
       (o = [] ∧ s'.st = .idle ∧ s'.t15 = .set ∧ s'.t35 = .cleared ∧ s'.reqLen = 0 ∧ 1 ≤ k) ∨
       (o = [] ∧ s'.st = .msgReceived ∧ s'.t15 = .cleared ∧ s'.t35 = .cleared ∧ s'.ferr = .set ∧ s'.reqLen = 0)))
    (fun k h o s' hi => hi.1)
    (fun k h o s' op hop hne hi => by
      rw [noise_softRes hop]; exact ⟨live_of hi.1 rfl rfl rfl rfl, hi.2.1, hi.2.2.1, hi.2.2.2⟩)
    (fun k h o s' hi => by
      obtain ⟨hl, hk, hid, ⟨ho, hst, h15, h35, hn⟩ | ⟨ho, hst, hx, h15, h35⟩ | ⟨ho, hst, h15, h35, hz, hn⟩ | ⟨ho, hst, h15, h35, hf, hz⟩⟩ := hi
      · cases hf : s'.ferr with
        | set => exact ⟨_, _, poll_drop cfg hl hst hf h35, live_of hl rfl rfl rfl rfl, by simp, hid,
            .inr (.inr (.inl ⟨by simp [ho], rfl, h15, rfl, rfl, by omega⟩))⟩
        | cleared =>
          obtain ⟨s'', r, l', e⟩ := poll_answer cfg hc hl hst hf h35
          obtain ⟨e1, e2, e3, e4, e5, e6, _⟩ := sig_eqs e
          exact ⟨s'', _, r, l', by rw [e4]; exact hk, by rw [e6, hid],
            .inr (.inl ⟨by simp [ho], e1, e5, by rw [e2]; exact h15, e3⟩)⟩
        | unknown => exact absurd hf hk
      · exact ⟨s', [], poll_tx_stay cfg hst (by simp [hx]), hl, hk, hid, .inr (.inl ⟨by simpa using ho, hst, hx, h15, h35⟩)⟩
      · have p := poll_check cfg hl hst h15
        rw [if_neg (zero_bad s' hz)] at p
        exact ⟨_, _, p, live_of hl rfl rfl rfl rfl, by simp, hid, .inr (.inr (.inr ⟨by simp [ho], rfl, rfl, h35, rfl, hz⟩))⟩
      · exact ⟨s', [], poll_msg_stay cfg hst (by simp [h35]), hl, hk, hid, .inr (.inr (.inr ⟨by simp [ho], hst, h15, h35, hf, hz⟩))⟩)
    x.n2 2 [] [] { s2 with t35 := .set } hx.n2
    ⟨live_of l2 rfl rfl rfl rfl, hk2, e2i, .inl ⟨rfl, e2st.trans hs.st, e215, rfl, by decide⟩⟩
  have z2 : 2 - x.n2.count .poll = 0 := by have := hx.polls2; omega
  rw [z2] at i3
  obtain ⟨s4, o4, r4, l4, k4, j4, o4', i4⟩ := phase_run cfg hc (fun op => op.noise cfg) noise_soft
    (fun k _ o s' => Live s' ∧ s'.ferr ≠ .unknown ∧ s'.id = s.id ∧ o.length ≤ 1 ∧
      ((s'.st = .transmitting ∧ s'.txf = .cleared ∧ s'.t15 = .set ∧ s'.t35 = .cleared ∧ 2 ≤ k) ∨
       (s'.st = .idle ∧ s'.t15 = .set ∧ s'.t35 = .cleared ∧ s'.reqLen = 0 ∧ 1 ≤ k) ∨
       (s'.st = .msgReceived ∧ s'.t15 = .cleared ∧ s'.t35 = .cleared ∧ s'.ferr = .set ∧ s'.reqLen = 0)))
    (fun k h o s' hi => hi.1)
    (fun k h o s' op hop hne hi => by
      rw [noise_softRes hop]; exact ⟨live_of hi.1 rfl rfl rfl rfl, hi.2.1, hi.2.2.1, hi.2.2.2⟩)
    (fun k h o s' hi => by
      obtain ⟨hl, hk, hid, ho, ⟨hst, hx, h15, h35, hn⟩ | ⟨hst, h15, h35, hz, hn⟩ | ⟨hst, h15, h35, hf, hz⟩⟩ := hi
      · exact ⟨_, _, poll_done cfg hl hst hx, live_of hl rfl rfl rfl rfl, hk, hid, by simpa using ho,
          .inr (.inl ⟨rfl, h15, h35, rfl, by omega⟩)⟩
      · have p := poll_check cfg hl hst h15
        rw [if_neg (zero_bad s' hz)] at p
        exact ⟨_, _, p, live_of hl rfl rfl rfl rfl, by simp, hid, by simpa using ho, .inr (.inr ⟨rfl, rfl, h35, rfl, hz⟩)⟩
      · exact ⟨s', [], poll_msg_stay cfg hst (by simp [h35]), hl, hk, hid, by simpa using ho, .inr (.inr ⟨hst, h15, h35, hf, hz⟩)⟩)
    x.n3 2 [] ([] ++ o3) { s3 with txf := .cleared } hx.n3
    (by
      have hl3 : Live { s3 with txf := .cleared } := live_of l3 rfl rfl rfl rfl
      rcases i3 with ⟨_, _, _, _, h⟩ | ⟨ho, hst, hx, h15, h35⟩ | ⟨_, _, _, _, _, h⟩ | ⟨ho, hst, h15, h35, hf, hz⟩
      · omega
      · exact ⟨hl3, k3, j3, ho, .inl ⟨hst, rfl, h15, h35, by decide⟩⟩
      · omega
      · exact ⟨hl3, k3, j3, by rw [ho]; decide, .inr (.inr ⟨hst, h15, h35, hf, hz⟩)⟩)
  have z3 : 2 - x.n3.count .poll = 0 := by omega
  rw [z3] at i4
  have i4 : s4.st = .msgReceived ∧ s4.t15 = .cleared ∧ s4.t35 = .cleared ∧ s4.ferr = .set ∧ s4.reqLen = 0 := by
    rcases i4 with ⟨_, _, _, _, h⟩ | ⟨_, _, _, _, h⟩ | h
    · omega
    · omega
    · exact h
  refine ⟨s4, [] ++ o3 ++ o4, ?_, o4', ⟨l4, i4.1, i4.2.1, i4.2.2.1, i4.2.2.2.1, i4.2.2.2.2⟩, j4⟩
  have key := slaveRun_append_ok (slaveRun_append_ok (slaveRun_append_ok (slaveRun_append_ok (slaveRun_append_ok
    (slaveRun_append_ok r1 ((slaveRun_one ..).trans (step_t15 cfg l1))) r2) ((slaveRun_one ..).trans (step_t35 cfg l2))) r3)
    ((slaveRun_one ..).trans (step_txDone cfg l3))) r4
  simpa [Exchange.ops] using key

/-! ### The dichotomy -/

/-- From now on: the first valid frame may be lost (or answered once), every later one is answered exactly as prescribed. -/
def Recovers (cfg : Config) (s : Slave) : Prop :=
  ∀ (x : Exchange) (xs : List Exchange), x.Good cfg s.id → 3 ≤ x.n3.count .poll → (∀ y ∈ xs, y.Good cfg s.id) →
    ∃ s1 o1 s2 outs, slaveRun cfg s x.ops = .ok (s1, o1) ∧ o1.length ≤ 1 ∧
      slaveRun cfg s1 (xs.flatMap Exchange.ops) = .ok (s2, outs) ∧ AnsweredAll cfg.limits s.id s1.mem xs outs s2.mem

/-- From now on: at the first valid frame at most one response is sent, at all later ones none, for ever. -/
def Deaf (cfg : Config) (s : Slave) : Prop :=
  ∀ (x : Exchange) (xs : List Exchange), x.Good cfg s.id → 3 ≤ x.n3.count .poll → (∀ y ∈ xs, y.Good cfg s.id) →
    ∃ s1 o1 s2, slaveRun cfg s x.ops = .ok (s1, o1) ∧ o1.length ≤ 1 ∧
      slaveRun cfg s1 (xs.flatMap Exchange.ops) = .ok (s2, [])

theorem listening_recovers (cfg : Config) (hc : cfg.WF) (s : Slave) (h : Listening s ∨ Busy s) : Recovers cfg s := by
  intro x xs hx h3 hxs
  have : ∃ s1 o1, slaveRun cfg s x.ops = .ok (s1, o1) ∧ o1.length ≤ 1 ∧ Primed s1 ∧ s1.id = s.id := by
    rcases h with h | h
    · exact listening_good cfg hc s h x hx
    · obtain ⟨s1, r, a, b⟩ := busy_good cfg hc s h x hx h3
      exact ⟨s1, [], r, by decide, a, b⟩
  obtain ⟨s1, o1, r1, c1, a1, i1⟩ := this
  obtain ⟨s2, outs, r2, _, _, sv⟩ := primed_all cfg hc xs s1 a1 (by rw [i1]; exact hxs)
  rw [i1] at sv
  exact ⟨s1, o1, s2, outs, r1, c1, r2, sv⟩

theorem waiting_deaf (cfg : Config) (hc : cfg.WF) (s : Slave) (h : Waiting s) : Deaf cfg s := by
  intro x xs hx h3 hxs
  obtain ⟨s1, o1, r1, c1, a1, i1⟩ := waiting_good cfg hc s h x hx (by omega)
  obtain ⟨s2, r2⟩ := stuck_forever cfg hc xs s1 a1 (by rw [i1]; exact hxs)
  exact ⟨s1, o1, s2, r1, c1, r2⟩

/-- C24, exactly: after any history from any state (re-initialisations included) and at least three polls, the slave either
recovers — and this is so exactly when it is not still holding a checked frame for which no 3.5-char silence has been
reported — or it is deaf from then on. -/
theorem C24_recovery_dichotomy (cfg : Config) (hc : cfg.WF) (s0 : Slave) (id : U8) (ops : List SOp)
    (hops : ∀ op ∈ ops, op.legal cfg) (quiet : List SOp) (hq : ∀ op ∈ quiet, op.noise cfg) (hp : 3 ≤ quiet.count .poll) :
    ∃ s o, slaveRun cfg s0 (.init .rtu id :: ops ++ quiet) = .ok (s, o) ∧
      ((s.st ≠ .msgReceived ∧ Recovers cfg s) ∨ (s.st = .msgReceived ∧ Deaf cfg s)) := by
  obtain ⟨s1, o1, r1, l1⟩ := live_run cfg hc ops (slaveInit s0 .rtu id) ⟨rfl, rfl, rfl, rfl⟩ hops
  have k1 : s1.ferr ≠ .unknown := known_run cfg hc ops _ _ _ (by simp [slaveInit]) r1
  obtain ⟨s2, o2, r2, h2⟩ := settles cfg hc s1 l1 k1 quiet (fun op ho => noise_soft op (hq op ho)) hp
  refine ⟨s2, [] ++ (o1 ++ o2), ?_, ?_⟩
  · rw [List.cons_append, slaveRun_cons_ok (s1 := slaveInit s0 .rtu id) (o := []) rfl, slaveRun_append_ok r1 r2]; rfl
  · rcases h2 with h | h | h
    · exact .inl ⟨by simp [h.st], listening_recovers cfg hc s2 (.inl h)⟩
    · exact .inl ⟨by simp [h.st], listening_recovers cfg hc s2 (.inr h)⟩
    · exact .inr ⟨h.st, waiting_deaf cfg hc s2 h⟩

theorem rough_rounds (cfg : Config) (hc : cfg.WF) (rs : List Rough) : ∀ (s : Slave), (Listening s ∨ Busy s) →
    (∀ r ∈ rs, r.Ok cfg) → ∃ s' o, slaveRun cfg s (rs.flatMap Rough.ops) = .ok (s', o) ∧ o.length ≤ rs.length ∧
      (Listening s' ∨ Busy s') ∧ s'.id = s.id := by
  induction rs with
  | nil => intro s hs _; exact ⟨s, [], rfl, by simp, hs, rfl⟩
  | cons r rs ih =>
    intro s hs hr
    obtain ⟨s1, o1, r1, c1, h1, i1⟩ := rough_round cfg hc s hs r (hr r (List.mem_cons_self ..))
    obtain ⟨s2, o2, r2, c2, h2, i2⟩ := ih s1 h1 (fun y hy => hr y (List.mem_cons_of_mem _ hy))
    exact ⟨s2, o1 ++ o2, slaveRun_append_ok r1 r2, by simp; omega, h2, i2.trans i1⟩

/-- C24, the disturbances the slave does recover from: any amount of garbage — bytes and frame errors in any number and at
any time, truncated, merged and overlong frames, frames that arrive during the transmission — provided the 1.5-char
and 3.5-char events come in pairs and the slave is polled after each pair. Missing: event sequences that are not of
this form (`C24_recovery_violated`). -/
theorem C24_recovers_from_garbage_partial (cfg : Config) (hc : cfg.WF) (s0 : Slave) (id : U8) (rs : List Rough)
    (hr : ∀ r ∈ rs, r.Ok cfg) :
    ∃ s o, slaveRun cfg s0 (.init .rtu id :: rs.flatMap Rough.ops) = .ok (s, o) ∧ o.length ≤ rs.length ∧ s.id = id ∧
      Recovers cfg s := by
  have l0 : Listening (slaveInit s0 .rtu id) := ⟨⟨rfl, rfl, rfl, rfl⟩, by simp [slaveInit], rfl, by simp [slaveInit]⟩
  obtain ⟨s, o, r, c, h, i⟩ := rough_rounds cfg hc rs _ (.inl l0) hr
  refine ⟨s, [] ++ o, ?_, by simpa using c, i.trans rfl, listening_recovers cfg hc s h⟩
  rw [slaveRun_cons_ok (s1 := slaveInit s0 .rtu id) (o := []) rfl, r]; rfl

/-- Non-vacuity: 1000 junk bytes with frame errors in the middle, a pause inside the frame, more junk between the events. -/
def sampleRough : Rough :=
  { rx := List.replicate 1000 (.rxByte 7) ++ [.poll, .frameErr, .rxByte 1], n1 := [.rxByte 3, .poll, .rxByte 1],
    n2 := [.poll, .rxByte 9, .poll], tx := false, n3 := [.rxByte 5] }

theorem sampleRough_ok : sampleRough.Ok Config.default := by
  refine ⟨?_, ?_, ?_, ?_, by decide, by decide⟩ <;> intro op hop <;>
    simp only [sampleRough, List.mem_append, List.mem_replicate, List.mem_cons, List.not_mem_nil, or_false] at hop
  · rcases hop with ⟨_, rfl⟩ | rfl | rfl | rfl <;> simp [SOp.soft, SOp.rxNoise, SOp.noise]
  · rcases hop with rfl | rfl | rfl <;> simp [SOp.soft, SOp.rxNoise, SOp.noise]
  · rcases hop with rfl | rfl | rfl <;> simp [SOp.soft, SOp.rxNoise, SOp.noise]
  · subst hop; simp [SOp.soft, SOp.rxNoise, SOp.noise]

/-- Non-vacuity of the dichotomy: both branches occur. After the history of `C24_recovery_violated` the slave is deaf; after
the sample garbage it recovers, the first valid frame being lost and the next two answered. -/
example : (∃ s, slaveRun Config.default (Slave.powerOn sampleMem) gapHistory = .ok (s, []) ∧ s.st = .msgReceived) ∧
    outsOf (slaveRun Config.default (Slave.powerOn sampleMem) (.init .rtu 1 ::
      ([sampleRough, sampleRough].flatMap Rough.ops ++ sampleExchange.ops ++ sampleExchange.ops ++ sampleExchange.ops))) =
      some [.send [1, 3, 2, 0, 10, 0x38, 0x43], .send [1, 3, 2, 0, 10, 0x38, 0x43]] := by
  refine ⟨?_, by decide +kernel⟩
  obtain ⟨s, h1, h2, _⟩ := gap_stuck
  exact ⟨s, h1, h2.st⟩

/-- Non-vacuity of `Recovers` and `Deaf`: a valid exchange with three polls after it. -/
example : Exchange.Good Config.default 1 { sampleExchange with n3 := [.poll, .poll, .poll] } ∧
    3 ≤ ([.poll, .poll, .poll] : List SOp).count .poll := by
  have h := sampleExchange_good
  exact ⟨⟨h.frame, h.rx, h.n1, h.n2, by simp [SOp.noise], h.polls2, by decide⟩, by decide⟩

end Modbus
