import Verif.Props.MasterExamples
import Verif.Props.DriverMaster
import Verif.Proofs.DriverMasterExchange

/-! C63: an event of the 1.5 character timer that nobody waits for. -/

namespace Modbus

open Spec

/-- A 1.5-char event stays pending until the next poll. -/
theorem stale_kept {cfg : Config} (hw : cfg.MWF) (post : List MOp) : ∀ {s s' : Master} {g : Ghost} {tr : MTrace}, MInv cfg s g → s.t15 = .set →
    OpsOk post → (∀ op ∈ post, op ≠ .poll) → masterRun cfg s post = .ok (s', tr) → s'.t15 = .set ∧ s'.st = s.st := by
  induction post with
  | nil => intro s s' g tr _ ht _ _ h; cases h; exact ⟨ht, rfl⟩
  | cons op post ih =>
    intro s s' g tr hi ht ho hp h
    obtain ⟨s1, o, t2, k1, k2, -⟩ := run_cons_inv h
    obtain ⟨s2, o2, g2, q1, q2, q3⟩ := step_effect hw hi (hp op (List.mem_cons_self ..)) (ho op (List.mem_cons_self ..))
    rw [k1] at q1
    cases q1
    obtain ⟨a, b⟩ := ih q3 (by rw [q2.t15', ht]; split <;> rfl) (fun x hx => ho x (List.mem_cons_of_mem _ hx))
      (fun x hx => hp x (List.mem_cons_of_mem _ hx)) k2
    exact ⟨a, b.trans q2.st⟩

/-- **C63** is violated as soon as the 1.5-char event is signalled while the master is idle (which the driver of the example does after
any byte on the line, e.g. noise or a late response). The event stays pending and is taken for the end of the next response: that response is
checked at the first poll after its first bytes have come in, although the rest of it, without any gap, is still under way. A perfect response
is thus not delivered; the request is transmitted again. -/
theorem C63_stale_silence_violated {cfg : Config} (hw : cfg.MWF) (hR : 1 ≤ cfg.repeatMax) {ops post : List MOp} (ho : OpsOk ops) (ho' : OpsOk post)
    (hpost : ∀ op ∈ post, op ≠ .poll) {s0 s s1 : Master}
    {tr : MTrace} (h : masterRun cfg s0 (.init .rtu :: (ops ++ .t15 :: post)) = .ok (s, tr)) (hs : s.st = .idle) {r : MReq} (hq : QtyOk r)
    (hp : masterStep cfg s .poll = .ok (s1, [.send (reqFrame r)])) {w1 w2 w3 w4 w5 : List MOp}
    (h1 : ∀ op ∈ w1, op.noise) (h2 : ∀ op ∈ w2, op.quiet) (h3 : ∀ op ∈ w3, op.lateNoise) (h4 : ∀ op ∈ w4, op.tailNoise)
    (h5 : ∀ op ∈ w5, op.quiet) (hne : mBytes w3 ≠ []) (hc : ¬ CrcCorrect (mBytes w3))
    (hgood : GoodResponse r (mBytes w3 ++ mBytes w4)) (hlen : (mBytes w3 ++ mBytes w4).length ≤ 255) :
    ∃ s' tr', masterRun cfg s (.poll :: w1 ++ .txDone :: w2 ++ .poll :: w3 ++ .poll :: w4 ++ .t35 :: w5 ++ [.poll, .poll]) = .ok (s', tr') ∧
      outs tr' = [.send (reqFrame r), .send (reqFrame r)] ∧ s'.st = .transmitting := by
  have hall : OpsOk (ops ++ .t15 :: post) := by
    intro op hop
    rcases List.mem_append.1 hop with k | k
    · exact ho op k
    · rcases List.mem_cons.1 k with rfl | k
      · exact ⟨by simp, by simp⟩
      · exact ho' op k
  obtain ⟨tr', g, sx, rfl, hi, -, hx, hrun⟩ := run_from_init hw hall h
  have ht : s.t15 = .set := by
    obtain ⟨sa, ta, tb, k1, k2, -⟩ := run_split hrun
    obtain ⟨gb, q2, -⟩ := masterRun_ok hw ho hx k1
    obtain ⟨s3, o3, t3, k3, k4, -⟩ := run_cons_inv k2
    obtain ⟨s4, o4, g4, q1, q3, q4⟩ := step_effect hw q2 (op := .t15) (by simp) (by simp)
    rw [k3] at q1
    cases q1
    exact (stale_kept hw post q4 (by rw [q3.t15']; rfl) ho' hpost k4).1
  obtain ⟨i, g1, a1, a2⟩ := start_P1' hw hi hs hp hq
  rw [ht] at a2
  have hsl : (mBytes w3).getD 0 0 = reqSlave r := by
    have := hgood.slave
    cases hm : mBytes w3 with
    | nil => exact absurd hm hne
    | cons b l => rw [hm] at this; simpa using this
  rw [List.length_append] at hlen
  obtain ⟨x1, t1, g2, b1, b2, b3, b4⟩ := phase1 hw a1 a2 w1 h1
  obtain ⟨x2, o2, g3, c1, c2, c3, c4⟩ := phase12 hw b3 b4
  obtain ⟨x3, t3, g4, d1, d2, d3, d4⟩ := phase2 hw c3 c4 w2 h2
  obtain ⟨x4, g5, e1, e3, e4⟩ := phase24 hw d3 d4
  obtain ⟨x5, t5, g6, f1, f2, f3, f4⟩ := phase4 hw e3 e4 w3 h3 (by rw [List.nil_append]; omega)
  rw [List.nil_append] at f4
  obtain ⟨x6, g7, j1, j2, j3⟩ := phase45 hw f3 f4 hne hsl
  rcases j3 with ⟨hc', -⟩ | ⟨-, j3⟩
  · exact absurd hc' hc
  obtain ⟨x7, t7, g8, l1, l2, l3, l4⟩ := phase5 hw j2 j3 w4 h4 (by omega)
  obtain ⟨x8, o8, g9, m1, m2, m3, m4⟩ := phase56 hw l3 l4
  obtain ⟨x9, t9, g10, n1, n2, n3, n4⟩ := phase6 hw m3 m4 w5 h5
  obtain ⟨x10, g11, p1, p2, p3⟩ := final_repeat hw n3 n4 (.inr rfl) (by simpa using hR)
  refine ⟨x10, sent r :: t1 ++ (MOp.txDone, o2) :: t3 ++ (MOp.poll, []) :: t5 ++ (MOp.poll, []) :: t7 ++ (MOp.t35, o8) :: t9 ++ [silentPoll, sent r], ?_, ?_, p3.st_eq⟩
  · have := run_seq (run_seq (run_seq (run_seq (run_seq (run_seq (run_seq (run_seq (run_seq (run_seq (run_one hp) b1) (run_one c1)) d1) (run_one e1)) f1)
      (run_one j1)) l1) (run_one m1)) n1) p1
    simpa using this
  · have e : sent r :: t1 ++ (MOp.txDone, o2) :: t3 ++ (MOp.poll, []) :: t5 ++ (MOp.poll, []) :: t7 ++ (MOp.t35, o8) :: t9 ++ [silentPoll, sent r] =
        [sent r] ++ t1 ++ [(MOp.txDone, o2)] ++ t3 ++ [(MOp.poll, [])] ++ t5 ++ [(MOp.poll, [])] ++ t7 ++ [(MOp.t35, o8)] ++ t9 ++ [silentPoll, sent r] := by simp
    rw [e]
    simp only [outs_append, b2, c2, d2, f2, l2, m2, n2]
    rfl

/-- **C63**, the part that holds: whatever else happens while the master is idle and not polled (request calls, ticks, received bytes, 3.5-char events,
transmission events), the next transaction is unaffected: a good response is delivered. Missing: 1.5-char events (see above) and frame errors
(they spoil the next attempt as well, C45). -/
theorem C63_undisturbed_partial {cfg : Config} (hw : cfg.MWF) {ops : List MOp} (ho : OpsOk ops) {s0 s : Master} {tr : MTrace}
    (h : masterRun cfg s0 (.init .rtu :: ops) = .ok (s, tr)) (hs : Standing false false s) {idle : List MOp} (hok : OpsOk idle)
    (hidle : ∀ op ∈ idle, op ≠ .poll ∧ op ≠ .t15 ∧ op ≠ .frameErr) :
    ∃ s1 t1, masterRun cfg s idle = .ok (s1, t1) ∧ outs t1 = [] ∧ Standing false false s1 ∧
      ∀ {s2 : Master} {r : MReq} {a : Attempt}, QtyOk r → masterStep cfg s1 .poll = .ok (s2, [.send (reqFrame r)]) →
        a.Wf cfg.respTimeout r → ¬ a.broken → GoodResponse r a.resp.frame →
        ∃ s' tr', masterRun cfg s1 (.poll :: a.init ++ [.poll]) = .ok (s', tr' ++ [(.poll, (responseEvents r a.resp.frame).map .event)]) ∧
          outs tr' = [.send (reqFrame r)] ∧ Standing false false s' := by
  have key : ∃ s1 t1, masterRun cfg s idle = .ok (s1, t1) ∧ outs t1 = [] ∧ Standing false false s1 := by
    obtain ⟨tr', g, sx, -, hi, -⟩ := run_from_init hw ho h
    refine (fun ⟨s', t, g', a, b, c, d⟩ => ⟨s', t, a, b, d⟩) (run_phase hw (fun _ s => Standing false false s) idle hok ?_ hi hs)
    intro pre op suf s g e hi hs
    have hop : op ∈ idle := by rw [← e]; simp
    obtain ⟨n1, n2, n3⟩ := hidle op hop
    obtain ⟨s', o, g', j1, j2, -⟩ := step_effect hw hi n1 (hok op hop)
    exact ⟨s', o, j1, j2.outs, ⟨j2.st.trans hs.st, by rw [j2.t15', if_neg n2]; exact hs.t15, by rw [j2.ferr', if_neg n3]; exact hs.ferr,
      j2.crcf.trans hs.crcf⟩⟩
  obtain ⟨s1, t1, k1, k2, k3⟩ := key
  refine ⟨s1, t1, k1, k2, k3, ?_⟩
  intro s2 r a hq hp ha hb hg
  have hall : OpsOk (ops ++ idle) := by
    intro op hop
    rcases List.mem_append.1 hop with k | k
    · exact ho op k
    · exact hok op k
  have := transaction_succeeds hw hall (run_seq (w1 := .init .rtu :: ops) h k1) k3 hq hp (.nil _ _) (by simp) ha hb hg
  simpa [retries] using this

/-! ### Non-vacuity -/

/-- The hypotheses of `C63_stale_silence_violated` are met: one 1.5-char event before the first request, then a perfect response with a poll after
its third byte. -/
example : ∃ s s' tr tr', masterRun smallCfg Master.powerOn [.init .rtu, .t15, .request (.readHoldingReg 7 1 9)] = .ok (s, tr) ∧
    masterRun smallCfg s (.poll :: [] ++ .txDone :: [] ++ .poll :: [.rxByte 9, .rxByte 3, .rxByte 2] ++
      .poll :: ((rtuFrame 9 [3, 2, 0xAA, 0xBB]).drop 3).map .rxByte ++ .t35 :: [] ++ [.poll, .poll]) = .ok (s', tr') ∧
    outs tr' = [.send (reqFrame (.readHoldingReg 7 1 9)), .send (reqFrame (.readHoldingReg 7 1 9))] := by
  have hok : OpsOk [.request (.readHoldingReg 7 1 9)] := by
    intro op hop
    obtain rfl := List.mem_singleton.1 hop
    exact ⟨by simp, by rintro _ ⟨⟩ _; trivial⟩
  have hsome : ∃ s tr s1, masterRun smallCfg Master.powerOn (.init .rtu :: ([] ++ .t15 :: [.request (.readHoldingReg 7 1 9)])) = .ok (s, tr) ∧
      s.st = .idle ∧ masterStep smallCfg s .poll = .ok (s1, [.send (reqFrame (.readHoldingReg 7 1 9))]) := by
    have e : (match masterRun smallCfg Master.powerOn (.init .rtu :: ([] ++ .t15 :: [.request (.readHoldingReg 7 1 9)])) with
        | .ok x => (match masterStep smallCfg x.1 .poll with
          | .ok y => some (x.1.st, y.2)
          | .error _ => none)
        | .error _ => none) = some (.idle, [.send (reqFrame (.readHoldingReg 7 1 9))]) := by decide +kernel
    split at e
    · rename_i x hx
      split at e
      · rename_i y hy
        obtain ⟨s, tr⟩ := x
        obtain ⟨s1, o⟩ := y
        simp only [Option.some.injEq, Prod.mk.injEq] at e
        obtain ⟨e1, rfl⟩ := e
        exact ⟨s, tr, s1, hx, e1, hy⟩
      · cases e
    · cases e
  obtain ⟨s, tr, s1, h1, h2, h3⟩ := hsome
  obtain ⟨s', tr', k1, k2, -⟩ := C63_stale_silence_violated (w1 := []) (w2 := []) (w3 := [.rxByte 9, .rxByte 3, .rxByte 2])
    (w4 := ((rtuFrame 9 [3, 2, 0xAA, 0xBB]).drop 3).map .rxByte) (w5 := []) smallCfg_wf (by decide) (by intro op h; cases h) hok (by simp)
    h1 h2 (by decide) h3 (by simp) (by simp)
    (by intro op ho; simp only [List.mem_cons, List.not_mem_nil, or_false] at ho; rcases ho with rfl | rfl | rfl <;> exact .inr (.inl ⟨_, rfl⟩))
    (by intro op ho; obtain ⟨b, -, rfl⟩ := List.mem_map.1 ho; exact .inr (.inl ⟨b, rfl⟩)) (by simp) (by decide)
    (fun h => absurd ((crc16_eq_zero_iff _).2 h) (by decide +kernel))
    (by
      rw [mBytes_map]
      exact ⟨(crc16_eq_zero_iff _).1 (by decide +kernel), by decide +kernel, .inr (by decide +kernel), by decide +kernel, by decide +kernel⟩)
    (by rw [mBytes_map]; decide +kernel)
  exact ⟨s, s', tr, tr', h1, k1, k2⟩

/-- The same on a device: one byte of noise while the master is idle; the following perfect response is not delivered, the request is
transmitted again. Without the noise the response is delivered. -/
def staleHM (noise : List HMOp) : List HMOp :=
  noise ++ [.main (.request (.readHoldingReg 7 1 9)), .main .poll] ++ List.replicate 8 (.usart none true) ++ [.main .poll] ++
  hmrx [9, 3, 2] ++ [.main .poll] ++ hmrx ((rtuFrame 9 [3, 2, 0xAA, 0xBB]).drop 3) ++ [.rto, .usart none false, .main .poll, .timer, .main .poll, .main .poll]

example : hmoutsOf (masterSysRun Config.default MasterSys.powerOn (.main (.init .rtu) :: staleHM [.usart (some 0) false, .rto, .usart none false, .timer])) =
    some (rtuFrame 9 [3, 0, 7, 0, 1] ++ [9], [.ret .sendToQueue, .send (rtuFrame 9 [3, 0, 7, 0, 1]), .send (rtuFrame 9 [3, 0, 7, 0, 1])]) := by decide +kernel

example : hmoutsOf (masterSysRun Config.default MasterSys.powerOn (.main (.init .rtu) :: staleHM [])) =
    some (rtuFrame 9 [3, 0, 7, 0, 1], [.ret .sendToQueue, .send (rtuFrame 9 [3, 0, 7, 0, 1]), .event (.hregRead 9 7 0xAABB)]) := by decide +kernel

end Modbus
