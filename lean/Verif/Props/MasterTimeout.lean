import Verif.Props.MasterStale
import Verif.Props.Preempt

/-! C37 again: exactly when an unanswered request ends in a timeout, and a second way to wait for ever. -/

namespace Modbus

open Spec

/-- Waiting for a response, `k` ticks after the request was transmitted, no 1.5-char event. -/
structure WaitT (cfg : Config) (k : Nat) (s : Master) : Prop where
  st : s.st = .waiting
  t15 : s.t15 = .cleared
  timer : s.timer = cfg.respTimeout - k

/-- Some poll comes after exactly `k` ticks. -/
def PollAfter (k : Nat) (w : List MOp) : Prop := ∃ a b, w = a ++ .poll :: b ∧ tickCount a = k

theorem waitT_run {cfg : Config} (hw : cfg.MWF) (w : List MOp) (hok : OpsOk w) (h15 : ∀ op ∈ w, op ≠ .t15) (hT : 1 ≤ cfg.respTimeout)
    (hno : ¬ PollAfter (cfg.respTimeout - 1) w) {s : Master} {g : Ghost} (hi : MInv cfg s g) (h : WaitT cfg 0 s) :
    ∃ s' tr g', masterRun cfg s w = .ok (s', tr) ∧ outs tr = [] ∧ MInv cfg s' g' ∧ WaitT cfg (tickCount w) s' := by
  refine run_phase hw (fun pre s => WaitT cfg (tickCount pre) s) w hok ?_ hi h
  intro pre op suf s g e hi h
  by_cases hp : op = .poll
  · subst hp
    have hk : tickCount pre ≠ cfg.respTimeout - 1 := fun k => hno ⟨pre, suf, e.symm, k⟩
    refine ⟨s, [], ?_, rfl, ⟨h.st, h.t15, by rw [h.timer, tickCount_append]; simp [tickCount]⟩⟩
    simp only [masterStep, masterPoll, h.st, masterWaiting]
    rw [if_neg (by rw [h.t15]; decide), if_neg (by rw [h.timer]; omega)]
  · obtain ⟨s', o, g', k1, k2, -⟩ := step_effect hw hi hp (hok op (by rw [← e]; simp))
    refine ⟨s', o, k1, k2.outs, ⟨k2.st.trans h.st, by rw [k2.t15', if_neg (h15 op (by rw [← e]; simp))]; exact h.t15, ?_⟩⟩
    rw [k2.timer, h.timer, tickCount_append, tickCount_one]
    omega

/-- The first poll after exactly `k` ticks. -/
theorem PollAfter.first {k : Nat} : ∀ {w : List MOp}, PollAfter k w → ∃ a b, w = a ++ .poll :: b ∧ tickCount a = k ∧ ¬ PollAfter k a := by
  intro w h
  obtain ⟨a, b, e, hk⟩ := h
  generalize hn : a.length = n
  induction n using Nat.strongRecOn generalizing a b with
  | _ n ih =>
    by_cases hc : PollAfter k a
    · obtain ⟨a', b', e', hk'⟩ := hc
      refine ih a'.length ?_ a' (b' ++ .poll :: b) ?_ hk' rfl
      · rw [← hn, e']; simp
      · rw [e, e']; simp
    · exact ⟨a, b, e, hk, hc⟩

/-- The poll at timer 1. -/
theorem waitT_poll {cfg : Config} (hw : cfg.MWF) {k : Nat} {s : Master} {g : Ghost} (hi : MInv cfg s g) (h : WaitT cfg k s)
    (hk : k + 1 = cfg.respTimeout) : ∃ s' rep, masterStep cfg s .poll = .ok (s', [.event (.timeoutErr rep)]) ∧ s'.st = .idle := by
  obtain ⟨i, r, c, hc, h1⟩ := hi.curIs (by rw [h.st]; decide)
  obtain ⟨s', k1, -⟩ := processEnd_inv hw hi (s1 := s) hc rfl rfl rfl rfl rfl rfl hi.flags
  refine ⟨s', { slave := reqSlave r, fc := (s.msgs i).resp 1, adr := reqAdr r, qty := reqField r, err := .timeout }, ?_, processEnd_st k1⟩
  simp only [masterStep, masterPoll, h.st, masterWaiting]
  rw [if_neg (by rw [h.t15]; decide), if_pos (by rw [h.timer]; omega), timeoutReport_eq h1.1 hi.data h1.2.2.1, ok_bind, k1]
  rfl

/-- **C37, exactly.** A transmitted request that nobody answers (no 1.5-char event): whatever polls, ticks, request calls, received bytes,
completions, frame errors and 3.5-char events follow (`w`), the master makes a callback at all if and only if `w` contains a poll that is preceded by exactly
`T - 1` ticks. With such a poll, the first one reports the timeout, nothing having been put out before. Without it nothing is put out and the
master still waits. -/
theorem C37_timeout_exactly_when {cfg : Config} (hw : cfg.MWF) (hT : 1 ≤ cfg.respTimeout) {ops : List MOp} (ho : OpsOk ops) {s0 s s1 : Master} {tr : MTrace}
    (h : masterRun cfg s0 (.init .rtu :: ops) = .ok (s, tr)) {fe ce : Bool} (hs : Standing fe ce s) {r : MReq} (hq : QtyOk r)
    (hp : masterStep cfg s .poll = .ok (s1, [.send (reqFrame r)])) {w1 w2 w : List MOp}
    (h1 : ∀ op ∈ w1, op.noise) (h2 : ∀ op ∈ w2, op.quiet) (hok : OpsOk w) (h15 : ∀ op ∈ w, op ≠ .t15) :
    ((∃ a b, w = a ++ .poll :: b ∧ tickCount a = cfg.respTimeout - 1) →
      ∃ a b s' tr' rep, w = a ++ .poll :: b ∧ tickCount a = cfg.respTimeout - 1 ∧
        masterRun cfg s (.poll :: sendOps w1 w2 ++ a ++ [.poll]) = .ok (s', tr' ++ [(.poll, [.event (.timeoutErr rep)])]) ∧
        outs tr' = [.send (reqFrame r)] ∧ s'.st = .idle) ∧
    ((¬ ∃ a b, w = a ++ .poll :: b ∧ tickCount a = cfg.respTimeout - 1) →
      ∃ s' tr', masterRun cfg s (.poll :: sendOps w1 w2 ++ w) = .ok (s', tr') ∧ outs tr' = [.send (reqFrame r)] ∧ s'.st = .waiting) := by
  obtain ⟨tr', g, sx, rfl, hi, -⟩ := run_from_init hw ho h
  obtain ⟨i, g1, a1, a2⟩ := start_P1 hw hi hs hp hq
  obtain ⟨s2, t2, g2, b1, b2, b3, b4⟩ := run_to_wait hw a1 a2 h1 h2
  have hw0 : WaitT cfg 0 s2 := ⟨b4.st_eq, b4.t15_eq, b4.timer_eq⟩
  constructor
  · intro hx
    obtain ⟨a, b, rfl, hk, hno⟩ := PollAfter.first hx
    obtain ⟨s3, t3, g3, c1, c2, c3, c4⟩ := waitT_run hw a (fun op hop => hok op (List.mem_append_left _ hop))
      (fun op hop => h15 op (List.mem_append_left _ hop)) hT hno b3 hw0
    obtain ⟨s4, rep, d1, d2⟩ := waitT_poll hw c3 c4 (by omega)
    refine ⟨a, b, s4, [sent r] ++ t2 ++ t3, rep, rfl, hk, ?_, ?_, d2⟩
    · have := run_seq (run_seq (run_seq (run_one hp) b1) c1) (run_one d1)
      simpa using this
    · simp only [outs_append, b2, c2]; rfl
  · intro hx
    obtain ⟨s3, t3, g3, c1, c2, c3, c4⟩ := waitT_run hw w hok h15 hT hx b3 hw0
    refine ⟨s3, [sent r] ++ t2 ++ t3, ?_, ?_, c4.st⟩
    · have := run_seq (run_seq (run_one hp) b1) c1
      simpa using this
    · simp only [outs_append, b2, c2]; rfl

/-! ### A second way to wait for ever -/

/-- Transmitting or waiting with a 1.5-char event left over from before and an old address byte in the (otherwise empty) response buffer, or hung. -/
def Doomed (i : Nat) (r : MReq) (s : Master) : Prop :=
  ((s.st = .transmitting ∨ (s.st = .waiting ∧ (s.msgs i).respLen = 0)) ∧ CurIs s i r ∧ s.t15 = .set ∧ (s.msgs i).resp 0 = reqSlave r) ∨ Hung s

theorem doomed_step {cfg : Config} (hw : cfg.MWF) {i : Nat} {r : MReq} {s : Master} {g : Ghost} (hi : MInv cfg s g) (h : Doomed i r s) {op : MOp}
    (hop : op ≠ .t35 ∧ ∀ b, op ≠ .rxByte b) (hc : (∀ m, op ≠ .init m) ∧ ∀ r, op = .request r → QtyOk r → DataOk r) :
    ∃ s' o, masterStep cfg s op = .ok (s', o) ∧ outs [(op, o)] = [] ∧ Doomed i r s' := by
  rcases h with ⟨hst, hcur, ht, hb⟩ | h
  · have hne : s.st ≠ .idle := by rcases hst with e | ⟨e, -⟩ <;> rw [e] <;> decide
    by_cases hp : op = .poll
    · subst hp
      rcases hst with e | ⟨e, hl⟩
      · by_cases hx : s.txf = .cleared
        · refine ⟨{ s with msgs := setMsg s.msgs i { s.msgs i with respLen := 0 }, timer := cfg.respTimeout, st := .waiting }, [], ?_, rfl, .inl ⟨.inr ⟨rfl, ?_⟩, ⟨hcur.1, hcur.2.1, ?_, hcur.2.2.2⟩, ht, ?_⟩⟩
          · simp only [masterStep, masterPoll, e, masterTransmitting]
            rw [if_pos hx, clearRespLen_ok hcur.1]
            rfl
          · simp [setMsg_same]
          · have := hcur.2.2.1
            unfold Holds at this ⊢
            simpa [setMsg_same] using this
          · simpa [setMsg_same] using hb
        · refine ⟨s, [], ?_, rfl, .inl ⟨.inl e, hcur, ht, hb⟩⟩
          simp only [masterStep, masterPoll, e, masterTransmitting]
          rw [if_neg hx]
      · have hpo : masterPoll cfg s = masterRecv s := by
          simp only [masterPoll, e, masterWaiting]
          rw [if_pos ht]
        have he := masterRecv_eq hcur.1 hi.data hcur.2.2.1
        rw [if_neg (by rw [hb]; simp), hl, if_pos (show crc16 ((s.msgs i).resp.bytes 0 (BitVec.toNat (0 : U8))) ≠ 0 from (by decide : crc16 [] ≠ 0))] at he
        exact ⟨{ s with t15 := .cleared, t35 := .cleared, timer := 0, crcf := .set, st := .received }, [], hpo.trans he, rfl, .inr ⟨rfl, rfl⟩⟩
    · obtain ⟨s', o, g', k1, k2, -⟩ := step_effect hw hi hp hc
      have hm : s'.msgs i = s.msgs i := by
        have := k2.msg i hcur.1 hcur.2.1 hne
        cases op <;> first | exact this | exact absurd rfl (hop.2 _)
      refine ⟨s', o, k1, k2.outs, .inl ⟨?_, k2.curIs hne hcur, by rw [k2.t15', ht]; split <;> rfl, by rw [hm]; exact hb⟩⟩
      rw [k2.st, hm]
      exact hst
  · obtain ⟨s', o, k1, k2, k3⟩ := hung_step hw hi h hop.1 hc
    exact ⟨s', o, k1, k2, .inr k3⟩

/-- **C37 is violated a second time**, whatever the ticks and polls: if a 1.5-char event is pending when the request is transmitted (noise or a
late response while idle, C63) and the response buffer still begins with the slave's address from an earlier response, then a slave that does not answer
at all makes the master wait for ever: whatever polls, ticks, requests, completions, frame errors and further 1.5-char events follow, without a received
byte and without a 3.5-char event, nothing is put out any more: no timeout, no error, no further request. -/
theorem C37_stale_silence_hang_violated {cfg : Config} (hw : cfg.MWF) {ops : List MOp} (ho : OpsOk ops) {s0 s s1 : Master} {tr : MTrace}
    (h : masterRun cfg s0 (.init .rtu :: ops) = .ok (s, tr)) (hs : s.st = .idle) (ht : s.t15 = .set) {r : MReq} (hq : QtyOk r)
    (hp : masterStep cfg s .poll = .ok (s1, [.send (reqFrame r)])) {i : Nat} (hb : s1.msgBuf = some i) (hold : (s1.msgs i).resp 0 = reqSlave r)
    {w : List MOp} (hok : OpsOk w) (hdead : ∀ op ∈ w, op ≠ .t35 ∧ ∀ b, op ≠ .rxByte b) :
    ∃ s' tr', masterRun cfg s (.poll :: w) = .ok (s', tr') ∧ outs tr' = [.send (reqFrame r)] ∧ s'.st ≠ .idle := by
  obtain ⟨tr', g, sx, rfl, hi, -⟩ := run_from_init hw ho h
  obtain ⟨i', g1, a1, a2⟩ := start_P1' hw hi hs hp hq
  have hii : i' = i := by have := a2.cur.1; rw [hb] at this; exact (Option.some.inj this).symm
  subst hii
  obtain ⟨s2, t2, g2, b1, b2, b3, b4⟩ := run_silent hw (Doomed i' r) (fun op => op ≠ .t35 ∧ ∀ b, op ≠ .rxByte b)
    (fun s g op hi hp ho hc => doomed_step hw hi hp ho hc) w hok hdead a1 (.inl ⟨.inl a2.st_eq, a2.cur, by rw [a2.t15_eq]; exact ht, hold⟩)
  refine ⟨s2, [sent r] ++ t2, ?_, ?_, ?_⟩
  · have := run_seq (run_one hp) b1
    simpa using this
  · rw [outs_append, b2]; rfl
  · rcases b4 with ⟨e | ⟨e, -⟩, -⟩ | e
    · rw [e]; decide
    · rw [e]; decide
    · rw [e.st]; decide

/-! ### The hypotheses can be met -/

/-- One complete transaction with slave 9. -/
def goodExchange : List MOp :=
  [.request (.readHoldingReg 7 1 9), .poll, .txDone, .poll] ++ (rtuFrame 9 [3, 2, 0xAA, 0xBB]).map .rxByte ++ [.t15, .poll, .t35, .poll]

/-- After two good transactions with the slave (one for each of the two buffers of `smallCfg`) and one 1.5-char event while idle: the slave does not
answer the third request; two hundred ticks, each followed by a poll, bring nothing. Without the event, the timeout comes after the second. -/
example : moutsOf (masterRun smallCfg Master.powerOn (.init .rtu :: goodExchange ++ goodExchange ++ [.t15, .request (.readHoldingReg 7 1 9), .poll, .txDone, .poll] ++
      (List.replicate 200 [MOp.tick, .poll]).flatten)) =
    some [.send (rtuFrame 9 [3, 0, 7, 0, 1]), .event (.hregRead 9 7 0xAABB), .send (rtuFrame 9 [3, 0, 7, 0, 1]),
      .event (.hregRead 9 7 0xAABB), .send (rtuFrame 9 [3, 0, 7, 0, 1])] := by decide +kernel

example : moutsOf (masterRun smallCfg Master.powerOn (.init .rtu :: goodExchange ++ goodExchange ++ [.request (.readHoldingReg 7 1 9), .poll, .txDone, .poll] ++
      [.tick, .poll, .tick, .poll])) =
    some [.send (rtuFrame 9 [3, 0, 7, 0, 1]), .event (.hregRead 9 7 0xAABB), .send (rtuFrame 9 [3, 0, 7, 0, 1]),
      .event (.hregRead 9 7 0xAABB), .send (rtuFrame 9 [3, 0, 7, 0, 1]),
      .event (.timeoutErr { slave := 9, fc := 3, adr := 7, qty := 1, err := .timeout })] := by decide +kernel

end Modbus
