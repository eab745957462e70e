import Verif.Proofs.DriverExchange

/-! C57–C59: the slave together with the example driver, from interrupts to the bytes on the line. -/

namespace Modbus

open Spec

/-! ### C57 -/

/-- **C57.** Initialise, then let anything happen: any bytes, any interrupts in any order, any polls, application writes and legal
registrations. There is no undefined behaviour (in particular the driver's pointer never leaves the response buffer), and the line carries
exactly the frames the library handed over, each complete and in order; only the last one may still be under way. It is complete as soon as
the library has been told so, and in any case when the library is not transmitting. -/
theorem C57_line_carries_whole_frames (cfg : Config) (hc : cfg.WF) (mem : AppMem) (id : U8) (ops : List HOp) (hl : ∀ op ∈ ops, op.legal cfg) :
    ∃ s o, slaveSysRun cfg (SlaveSys.powerOn mem) (.main (.init .rtu id) :: ops) = .ok (s, o) ∧
      (frames o).dropLast.flatten <+: wire o ∧ wire o <+: (frames o).flatten ∧
      (s.lib.st ≠ .transmitting ∨ s.lib.txf ≠ .set → wire o = (frames o).flatten) := by
  have h0 : WInv ⟨slaveInit (Slave.powerOn mem) .rtu id, 0, 0, false, false⟩ [] :=
    ⟨⟨rfl, rfl, rfl, rfl⟩, Nat.le_refl _, fun h => absurd h (Nat.lt_irrefl _), .inl ⟨rfl, rfl, rfl⟩⟩
  obtain ⟨s, o, hr, hi⟩ := h0.run hc ops hl
  rw [List.nil_append] at hi
  refine ⟨s, o, ?_, ?_, ?_, fun h => hi.complete (hi.idle h)⟩
  · exact sysRun_cons (o1 := []) (show slaveSysStep cfg (SlaveSys.powerOn mem) (.main (.init .rtu id)) = _ from rfl) hr
  · rcases hi.hist with ⟨h1, h2, -⟩ | ⟨done, f, h1, h2, -⟩
    · rw [h1]; exact List.nil_prefix
    · rw [h1, h2, List.dropLast_concat]; exact List.prefix_append _ _
  · rcases hi.hist with ⟨h1, h2, -⟩ | ⟨done, f, h1, h2, -⟩
    · rw [h2]; exact List.nil_prefix
    · rw [h1, h2, List.flatten_append]
      simp only [List.flatten_cons, List.flatten_nil, List.append_nil]
      exact (List.prefix_append_right_inj _).mpr (List.take_prefix _ _)

/-! ### C58, C59 -/

/-- The last byte has been written and the transmitter is free again. -/
theorem end_sys {cfg : Config} (hc : cfg.WF) {l : Slave} {c : Nat} (hl : Live l) (hst : l.st = .transmitting)
    (h15 : l.t15 = .cleared) {h : List HOp} (hn : ∀ op ∈ h, op.noise cfg) (hp : 1 ≤ h.count (.main .poll)) :
    ∃ l', slaveSysRun cfg ⟨l, c, c, false, false⟩ (.usart none true :: h) = .ok (⟨l', c, c, false, false⟩, []) ∧ Live l' ∧
      sig l' = (.idle, .cleared, l.t35, l.ferr, .cleared, l.id, l.req, 0, appMem l.mem (mainOps h)) := by
  obtain ⟨a, b, rfl, ha, -⟩ := first_hpoll hp
  have hna : ∀ op ∈ a, op.noise cfg := fun op ho => hn op (by simp [ho])
  have hnb : ∀ op ∈ b, op.noise cfg := fun op ho => hn op (by simp [ho])
  have y0 : slaveSysStep cfg ⟨l, c, c, false, false⟩ (.usart none true) = .ok (⟨{ l with txf := .cleared }, c, c, false, false⟩, []) := by
    have : slaveStep cfg l .txDone = .ok ({ l with txf := .cleared }, []) := by
      show Except.ok (if l.subscribed = true then _ else _, _) = _
      rw [if_pos hl.sub]
    simp only [slaveSysStep, slaveIrqRx, slaveIrqTx, ok_bind, if_true, Nat.lt_irrefl, if_false, this, slaveIrqRto, pure_eq]
    rfl
  obtain ⟨l1, r1, v1, e1⟩ := noise_run' cfg hc (hstrip a) { l with txf := .cleared } (live_of hl rfl rfl rfl rfl) (hstrip_noise hna)
    (.inl fun h => ha (poll_hstrip.mp h))
  obtain ⟨e1st, e115, e135, e1f, e1x, e1i, e1r, e1n, e1m⟩ := sig_eqs e1
  have p1 : slaveStep cfg l1 .poll = .ok ({ l1 with st := .idle, respLen := 0, reqLen := 0 }, []) := by
    have h1 : l1.st = .transmitting := e1st.trans hst
    simp only [slaveStep, slavePoll, h1]
    exact slaveTransmitting_done v1.msgPtr e1x
  obtain ⟨l2, p1, v2, e2⟩ : ∃ l2, slaveStep cfg l1 .poll = .ok (l2, []) ∧ Live l2 ∧
      sig l2 = (.idle, l1.t15, l1.t35, l1.ferr, l1.txf, l1.id, l1.req, 0, l1.mem) :=
    ⟨_, p1, live_of v1 rfl rfl rfl rfl, rfl⟩
  obtain ⟨e2st, e215, e235, e2f, e2x, e2i, e2r, e2n, e2m⟩ := sig_eqs e2
  obtain ⟨l3, r3, v3, e3⟩ := noise_run' cfg hc (hstrip b) l2 v2 (hstrip_noise hnb)
    (.inr (quiet_idle cfg l2 e2st (by rw [e215, e115, show ({ l with txf := Flag.cleared } : Slave).t15 = l.t15 from rfl, h15]; simp)))
  obtain ⟨e3st, e315, e335, e3f, e3x, e3i, e3r, e3n, e3m⟩ := sig_eqs e3
  have hrun : slaveRun cfg { l with txf := .cleared } (hstrip (a ++ .main .poll :: b)) = .ok (l3, []) := by
    rw [hstrip_append]
    exact run_then r1 (run_cons p1 r3)
  obtain ⟨y, -⟩ := quiet_sys hc _ _ l3 c c (Nat.lt_irrefl _) rfl (fun op ho => (hn op ho).rx) hrun
  refine ⟨l3, sysRun_cons y0 y, v3, ?_⟩
  simp only [sig, e3st, e2st, e315, e215, e115, e335, e235, e135, e3f, e2f, e1f, e3x, e2x, e1x, e3i, e2i, e1i, e3r, e2r, e1r, e3n, e2n, e3m, e2m, e1m, h15]
  rw [appMem_hstrip, appMem_hstrip, mainOps_append, appMem_append]; rfl

theorem wire_tdr (l : List U8) : wire (l.map .tdr) = l := by
  induction l with
  | nil => rfl
  | cons b l ih => simp [wire, ih]

theorem frames_tdr (l : List U8) : frames (l.map .tdr) = [] := by
  induction l with
  | nil => rfl
  | cons b l ih => simp [frames, ih]

/-- **C58** for one exchange: the bytes of a valid frame arrive, the receive timeout and the 3.5 character timer fire, the main program
polls, the transmit interrupts come. Then the bytes written to the line are the response prescribed by the protocol for the memory at the
moment of a poll after the timer, whatever else the main program does in between; and slave and driver are ready for the next frame. -/
theorem C58_one_exchange (cfg : Config) (hc : cfg.WF) (s : SlaveSys) (hs : HSync s) (x : HExchange) (hx : x.Good cfg s.lib.id) :
    ∃ pre post s' o, x.ops = pre ++ .main .poll :: post ∧ .timer ∈ pre ∧ slaveSysRun cfg s x.ops = .ok (s', o) ∧
      wire o = rtuFrame s.lib.id (encodeResponse (respond cfg.limits (appMem s.lib.mem (mainOps pre)) (frameRequest x.frame))) ∧
      frames o = [wire o] ∧ HSync s' ∧ s'.lib.id = s.lib.id ∧
      s'.lib.mem = appMem (effect cfg.limits (appMem s.lib.mem (mainOps pre)) (frameRequest x.frame)) (mainOps post) := by
  obtain ⟨l1, y1, v1, st1, t1, u1, x1, i1, m1, f1, b1⟩ := recv_sys hc hs hx.toWF
  obtain ⟨bl, bb⟩ := b1 hx.nogap hx.frame.len
  rw [if_pos hx.nogap] at f1
  have h4 := goodFrame_len hx.frame
  have ok : l1.frameOk := by
    refine ⟨?_, ?_⟩
    · rw [bb 0 (by omega), i1]; exact hx.frame.addressed
    · rw [bytes_of_prefix bl bb]; exact (crc16_eq_zero_iff _).mpr hx.frame.crc
  obtain ⟨a, b, l2, hab, y2, v2, e2⟩ := decide_sys hc v1 st1 t1 u1 x1 (c := s.last) hx.n2 hx.polls2
  rw [if_pos ok, f1] at e2
  obtain ⟨e2st, e215, e235, e2f, e2x, e2i, e2r, e2n, e2m⟩ := sig_eqs e2
  obtain ⟨resp, respLen, hans, hb⟩ := slaveMsgReceived_send cfg hc v2.msgPtr v2.dataSet v2.drv e2f e235
  have hq := request_of_frame cfg hc hx.frame l1.req bb l2.mem
  rw [e2r, hq.1] at hans hb
  rw [hq.2] at hans
  have hlen := encode_len cfg.limits l2.mem (frameRequest x.frame)
  have hml : l2.mem = appMem s.lib.mem (mainOps (x.recv ++ a)) := by
    rw [e2m, m1, mainOps_append, appMem_append]
  rw [hml] at hans hb hlen
  rw [e2i, i1] at hans hb
  revert hans hb hlen
  generalize hF : rtuFrame s.lib.id (encodeResponse (respond cfg.limits (appMem s.lib.mem (mainOps (x.recv ++ a))) (frameRequest x.frame))) = F
  intro hans hb hlen
  have hFl : respLen.toNat = F.length := by rw [← hb, Buf.bytes_length]
  have hFl2 : 3 ≤ F.length := by rw [← hF, rtuFrame_length]; omega
  -- the answering poll
  obtain ⟨L3, hL3⟩ : ∃ L3 : Slave, L3 = { l2 with id := s.lib.id, req := l1.req, resp := resp, respLen := respLen, mem := effect cfg.limits (appMem s.lib.mem (mainOps (x.recv ++ a))) (frameRequest x.frame), txf := .set, st := .transmitting, t35 := .cleared } := ⟨_, rfl⟩
  have y3 : slaveSysStep cfg ⟨l2, s.last, s.last, false, false⟩ (.main .poll) = .ok (⟨L3, 0, respLen.toNat - 1, false, false⟩, [.send F, .tdr (resp 0)]) := by
    have hstep : slaveStep cfg l2 .poll = .ok (L3, [.send F]) := by
      simp only [slaveStep, slavePoll, e2st]
      rw [hL3]; exact hans
    have hm : ¬ ((⟨l2, s.last, s.last, false, false⟩ : SlaveSys).rtof = true ∨ SOp.poll.isMain = false) := by
      rintro (h | h) <;> cases h
    have hpos : 0 < L3.respLen.toNat := by rw [hL3]; show 0 < respLen.toNat; omega
    simp only [slaveSysStep, if_neg hm, hstep, ok_bind, slaveSends, slaveUsartSend, if_pos hpos, rd_ok L3.resp (show 0 < 256 by decide), pure_eq]
    rw [hL3]; rfl
  have v3 : Live L3 := by rw [hL3]; exact live_of v2 rfl rfl rfl rfl
  -- transmission
  have hnb : ∀ op ∈ b ++ x.tx, op.noise cfg := by
    intro op ho
    rcases List.mem_append.mp ho with h | h
    · exact hx.n2 op (by rw [hab]; simp [h])
    · exact hx.tx op h
  have hr256 := respLen.isLt
  obtain ⟨h1, h2, hsp, y4⟩ := tx_sys hc (b ++ x.tx) L3 0 (respLen.toNat - 1) v3 (by rw [hL3]) (by rw [hL3]) (Nat.zero_le _) (by omega) hnb
    (by rw [List.count_append]; have := hx.irqs; omega)
  have hn1 : ∀ op ∈ h1, op.noise cfg := fun op ho => hnb op (by rw [hsp]; simp [ho])
  have hn2 : ∀ op ∈ h2 ++ x.n3, op.noise cfg := by
    intro op ho
    rcases List.mem_append.mp ho with h | h
    · exact hnb op (by rw [hsp]; simp [h])
    · exact hx.n3 op h
  obtain ⟨l5, y5, v5, e5⟩ := end_sys hc (l := { L3 with mem := appMem L3.mem (hstrip h1) }) (c := respLen.toNat - 1)
    (live_of v3 rfl rfl rfl rfl) (by rw [hL3]) (by rw [hL3]; exact e215) hn2 (by rw [List.count_append]; have := hx.polls3; omega)
  obtain ⟨e5st, e515, e535, e5f, e5x, e5i, e5r, e5n, e5m⟩ := sig_eqs e5
  have hops : x.ops = (x.recv ++ a) ++ .main .poll :: (h1 ++ .usart none true :: (h2 ++ x.n3)) := by
    have : h1 ++ .usart none true :: (h2 ++ x.n3) = (h1 ++ .usart none true :: h2) ++ x.n3 := by simp
    rw [this, ← hsp]
    simp only [HExchange.ops, hab, List.append_assoc, List.cons_append]
  have hwire : wire ([HOut.send F, .tdr (resp 0)] ++ (((L3.resp.bytes 0 (respLen.toNat - 1 + 1)).drop (0 + 1)).map .tdr ++ [])) = F := by
    rw [wire_append, List.append_nil, wire_tdr]
    have hr : L3.resp.bytes 0 (respLen.toNat - 1 + 1) = F := by
      rw [hL3, Nat.sub_add_cancel (by omega)]; exact hb
    rw [hr]
    have h0 : resp 0 = F[0]'(by omega) := by
      have : F[0]? = some (resp 0) := by
        rw [← hb]
        obtain ⟨n, hn⟩ : ∃ n, respLen.toNat = n + 1 := ⟨respLen.toNat - 1, by omega⟩
        rw [hn, Buf.bytes_succ]; rfl
      rw [List.getElem?_eq_getElem (by omega)] at this
      exact (Option.some.inj this).symm
    show resp 0 :: F.drop 1 = F
    rw [h0]
    exact (List.drop_eq_getElem_cons (i := 0) (by omega)).symm
  have y1' : slaveSysRun cfg s x.recv = .ok (⟨l1, s.last, s.last, false, false⟩, []) := by rw [y1, hs.cur]
  have hall := sysRun_append _ (sysRun_append _ y1' y2) (sysRun_cons y3 (sysRun_append _ y4 y5))
  rw [← hops] at hall
  refine ⟨x.recv ++ a, h1 ++ .usart none true :: (h2 ++ x.n3), _, _, hops, by simp [HExchange.recv], hall, ?_, ?_, ?_, ?_, ?_⟩
  · rw [hF]; exact hwire
  · show frames ([HOut.send F, .tdr (resp 0)] ++ (((L3.resp.bytes 0 (respLen.toNat - 1 + 1)).drop (0 + 1)).map .tdr ++ [])) = _
    rw [List.nil_append, List.nil_append, hwire, frames_append, List.append_nil, frames_tdr]; rfl
  · refine ⟨⟨v5, e5st, e515, ?_, ?_, e5n⟩, e5x, rfl, rfl, rfl⟩
    · rw [e535, hL3]
    · rw [e5f, hL3]; exact e2f
  · show l5.id = _
    rw [e5i, hL3]
  · show l5.mem = _
    rw [e5m, hL3]
    show appMem (appMem _ (hstrip h1)) (mainOps (h2 ++ x.n3)) = _
    rw [appMem_hstrip, ← appMem_append, mainOps_append h1]
    rfl

/-- **C59** for one exchange: a frame with a wrong CRC, a frame for somebody else, and a frame interrupted by a gap of more than 1.5
characters (whatever its bytes, whatever its length) are dropped: nothing is written to the line, no data changes other than by the
application, and slave and driver are ready for the next frame. -/
theorem C59_bad_exchange_dropped (cfg : Config) (hc : cfg.WF) (s : SlaveSys) (hs : HSync s) (x : HExchange) (hx : x.Bad cfg s.lib.id) :
    ∃ s', slaveSysRun cfg s x.opsSilent = .ok (s', []) ∧ HSync s' ∧ s'.lib.id = s.lib.id ∧
      s'.lib.mem = appMem s.lib.mem (mainOps x.opsSilent) := by
  obtain ⟨l1, y1, v1, st1, t1, u1, x1, i1, m1, f1, b1⟩ := recv_sys hc hs hx.toWF
  obtain ⟨a, b, l2, hab, y2, v2, e2⟩ := decide_sys hc v1 st1 t1 u1 x1 (c := s.last) hx.n2 hx.polls2
  obtain ⟨e2st, e215, e235, e2f, e2x, e2i, e2r, e2n, e2m⟩ := sig_eqs e2
  have hf : l2.ferr = .set := by
    rw [e2f, f1]
    by_cases hg : hbytes x.gap = []
    · rw [if_pos hg]
      rcases hx.bad with h | ⟨h, hlen⟩
      · exact absurd hg h
      · rw [if_neg]
        intro ok
        obtain ⟨bl, bb⟩ := b1 hg hlen
        have hcrc : CrcCorrect x.frame := by
          have := ok.2
          rw [bytes_of_prefix bl bb] at this
          exact (crc16_eq_zero_iff _).mp this
        have hpos : 0 < x.frame.length := by
          obtain ⟨body, hb⟩ := hcrc
          rw [hb]; simp
        have h0 : x.frame.getD 0 0 = s.lib.id := by
          have := ok.1
          rw [bb 0 hpos, i1] at this; exact this
        rcases h with h | h
        · exact h hcrc
        · exact h h0
    · rw [if_neg hg, ite_self]
  have p3 : slaveStep cfg l2 .poll = .ok ({ l2 with reqLen := 0, st := .idle, ferr := .cleared, t35 := .cleared }, []) := by
    simp only [slaveStep, slavePoll, e2st]
    exact slaveMsgReceived_drop cfg v2.msgPtr hf e235
  obtain ⟨l3, p3, v3, e3⟩ : ∃ l3, slaveStep cfg l2 .poll = .ok (l3, []) ∧ Live l3 ∧
      sig l3 = (.idle, l2.t15, .cleared, .cleared, l2.txf, l2.id, l2.req, 0, l2.mem) :=
    ⟨_, p3, live_of v2 rfl rfl rfl rfl, rfl⟩
  obtain ⟨e3st, e315, e335, e3f, e3x, e3i, e3r, e3n, e3m⟩ := sig_eqs e3
  have hnb : ∀ op ∈ b, op.noise cfg := fun op ho => hx.n2 op (by rw [hab]; simp [ho])
  obtain ⟨l4, r4, v4, e4⟩ := noise_run' cfg hc (hstrip b) l3 v3 (hstrip_noise hnb)
    (.inr (quiet_idle cfg l3 e3st (by rw [e315, e215]; simp)))
  obtain ⟨e4st, e415, e435, e4f, e4x, e4i, e4r, e4n, e4m⟩ := sig_eqs e4
  have hrun : slaveRun cfg l2 (hstrip (.main .poll :: b)) = .ok (l4, []) := run_cons p3 r4
  obtain ⟨y3, -⟩ := quiet_sys hc (.main .poll :: b) l2 l4 s.last s.last (Nat.lt_irrefl _) e2x (fun op ho => (hx.n2 op (by
    rw [hab]; exact List.mem_append_right _ ho)).rx) hrun
  have y1' : slaveSysRun cfg s x.recv = .ok (⟨l1, s.last, s.last, false, false⟩, []) := by rw [y1, hs.cur]
  have hall := sysRun_append _ y1' (sysRun_append _ y2 y3)
  rw [← hab] at hall
  refine ⟨_, hall, ⟨⟨v4, e4st.trans e3st, by rw [e415, e315, e215], by rw [e435, e335], by rw [e4f, e3f], by rw [e4n, e3n]⟩,
    by rw [e4x, e3x, e2x], rfl, rfl, rfl⟩, by rw [e4i, e3i, e2i, i1], ?_⟩
  rw [e4m, e3m, e2m, m1, appMem_hstrip, HExchange.opsSilent, hab]
  simp only [mainOps_append, appMem_append, mainOps, appMem]

/-- A stretch of line traffic. -/
inductive HTraffic where
  | good (x : HExchange)
  | bad (x : HExchange)

def HTraffic.ops : HTraffic → List HOp
  | .good x => x.ops
  | .bad x => x.opsSilent

def HTraffic.WF (cfg : Config) (id : U8) : HTraffic → Prop
  | .good x => x.Good cfg id
  | .bad x => x.Bad cfg id

/-- What the protocol prescribes for a stretch of traffic: the bytes of one response for each valid exchange, computed from the memory at
a poll after the timer of that exchange, and its effect; nothing for bad ones; the application's own writes in between. -/
inductive HServed (l : Limits) (id : U8) : AppMem → List HTraffic → List U8 → AppMem → Prop
  | nil (m : AppMem) : HServed l id m [] [] m
  | good {m m' : AppMem} {x : HExchange} {pre post : List HOp} {xs : List HTraffic} {bytes : List U8}
      (split : x.ops = pre ++ .main .poll :: post) (after35 : .timer ∈ pre)
      (rest : HServed l id (appMem (effect l (appMem m (mainOps pre)) (frameRequest x.frame)) (mainOps post)) xs bytes m') :
      HServed l id m (.good x :: xs)
        (rtuFrame id (encodeResponse (respond l (appMem m (mainOps pre)) (frameRequest x.frame))) ++ bytes) m'
  | bad {m m' : AppMem} {x : HExchange} {xs : List HTraffic} {bytes : List U8}
      (rest : HServed l id (appMem m (mainOps x.opsSilent)) xs bytes m') : HServed l id m (.bad x :: xs) bytes m'

/-- **C58 and C59.** Slave and driver serve every stretch of valid and bad exchanges, of any length, exactly as prescribed, byte by byte on
the line, and are ready for the next frame afterwards. -/
theorem C58_serves_all_traffic (cfg : Config) (hc : cfg.WF) (xs : List HTraffic) : ∀ (s : SlaveSys), HSync s →
    (∀ x ∈ xs, x.WF cfg s.lib.id) →
    ∃ s' o, slaveSysRun cfg s (xs.flatMap HTraffic.ops) = .ok (s', o) ∧ HSync s' ∧ s'.lib.id = s.lib.id ∧
      HServed cfg.limits s.lib.id s.lib.mem xs (wire o) s'.lib.mem := by
  induction xs with
  | nil => intro s hs _; exact ⟨s, [], rfl, hs, rfl, .nil _⟩
  | cons x xs ih =>
    intro s hs hx
    have hx0 := hx x (List.mem_cons_self ..)
    cases x with
    | good x =>
      obtain ⟨pre, post, s1, o1, h1, h2, r1, w1, -, sy1, i1, m1⟩ := C58_one_exchange cfg hc s hs x hx0
      obtain ⟨s2, o2, r2, sy2, i2, sv⟩ := ih s1 sy1 (fun y hy => by rw [i1]; exact hx y (List.mem_cons_of_mem _ hy))
      refine ⟨s2, _, sysRun_append _ r1 r2, sy2, by rw [i2, i1], ?_⟩
      rw [i1, m1] at sv
      rw [wire_append, w1]
      exact .good h1 h2 sv
    | bad x =>
      obtain ⟨s1, r1, sy1, i1, m1⟩ := C59_bad_exchange_dropped cfg hc s hs x hx0
      obtain ⟨s2, o2, r2, sy2, i2, sv⟩ := ih s1 sy1 (fun y hy => by rw [i1]; exact hx y (List.mem_cons_of_mem _ hy))
      refine ⟨s2, _, sysRun_append _ r1 r2, sy2, by rw [i2, i1], ?_⟩
      rw [i1, m1] at sv
      exact .bad sv

/-- After power-on and initialisation the slave and its driver are synchronised. -/
theorem hsync_after_init (cfg : Config) (mem : AppMem) (id : U8) :
    ∃ s, slaveSysStep cfg (SlaveSys.powerOn mem) (.main (.init .rtu id)) = .ok (s, []) ∧ HSync s ∧ s.lib.id = id ∧ s.lib.mem = mem :=
  ⟨_, rfl, ⟨sync_after_init mem id, rfl, rfl, rfl, rfl⟩, rfl, rfl⟩

/-! ### Non-vacuity -/

/-- Outputs of a run without undefined behaviour. -/
def houtsOf (r : C (SlaveSys × List HOut)) : Option (List HOut) :=
  match r with
  | .ok x => some x.2
  | .error _ => none

/-- Reception of bytes; the transmitter is empty (TXE set) all the time. -/
def hrx (l : List U8) : List HOp := l.map fun b => .usart (some b) true

/-- Read holding register 0, with polls and an application write in between. -/
def sampleHExchange : HExchange :=
  { rx := .main .poll :: hrx sampleFrame ++ [.main .poll], fb := none, ft := true, gap := [.usart none true, .rto, .usart none true],
    n2 := [.main .poll, .main (.appReg 0 11), .usart none true, .main .poll, .main (.appReg 0 12)],
    tx := .main .poll :: List.replicate 256 (.usart none true), n3 := [.main .poll, .main .poll] }

/-- The same frame with a gap in the middle. -/
def sampleHGap : HExchange :=
  { rx := hrx (sampleFrame.take 4), fb := none, ft := true, gap := hrx (sampleFrame.drop 4),
    n2 := [.main .poll, .main .poll], tx := [], n3 := [] }

theorem sampleHExchange_good : sampleHExchange.Good Config.default 1 := by
  refine { rx := ?_, gap := ?_, n2 := ?_, polls2 := by decide, frame := ⟨(crc16_eq_zero_iff _).mp (by decide +kernel), by decide, by decide, by decide⟩, nogap := by decide, tx := ?_, n3 := ?_, irqs := ?_, polls3 := by decide }
  · show ∀ op ∈ .main .poll :: hrx sampleFrame ++ [.main .poll], _
    simp [hrx, sampleFrame, HOp.rxNoise, SOp.noise]
  · show ∀ op ∈ ([.usart none true, .rto, .usart none true] : List HOp), _
    simp [HOp.inGap]
  · show ∀ op ∈ ([.main .poll, .main (.appReg 0 11), .usart none true, .main .poll, .main (.appReg 0 12)] : List HOp), _
    simp [HOp.noise, SOp.noise]
  · intro op ho
    simp only [sampleHExchange, List.mem_cons] at ho
    rcases ho with rfl | ho
    · trivial
    · rw [(List.mem_replicate.mp ho).2]; trivial
  · show ∀ op ∈ ([.main .poll, .main .poll] : List HOp), _
    simp [HOp.noise, SOp.noise]
  · show 256 ≤ List.count _ (_ :: List.replicate 256 _)
    rw [List.count_cons_of_ne (by simp), List.count_replicate_self]
    exact Nat.le_refl _

theorem sampleHGap_bad : sampleHGap.Bad Config.default 1 := by
  refine { rx := ?_, gap := ?_, n2 := ?_, polls2 := by decide, bad := .inl (by decide) }
  · simp [sampleHGap, hrx, sampleFrame, HOp.rxNoise]
  · simp [sampleHGap, hrx, sampleFrame, HOp.inGap]
  · simp [sampleHGap, HOp.noise, SOp.noise]

/-- A good exchange, a frame with a gap, and a good exchange: the bytes on the line. -/
example : (houtsOf (slaveSysRun Config.default (SlaveSys.powerOn sampleMem)
      (.main (.init .rtu 1) :: [HTraffic.good sampleHExchange, .bad sampleHGap, .good sampleHExchange].flatMap HTraffic.ops))).map wire =
    some [1, 3, 2, 0, 11, 0xF9, 0x83, 1, 3, 2, 0, 11, 0xF9, 0x83] := by decide +kernel

end Modbus
