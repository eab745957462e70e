import Verif.Props.SlaveForeign
import Verif.Props.MasterTimeout
import Verif.Props.Repeat

/-! C92: requests to address 0, the broadcast address of Modbus over serial line: every slave obeys, nobody answers, the master expects no answer. -/

namespace Modbus

open Spec

/-- **C92** is false of the code, on the slave's side: a slave whose address is not 0 takes a broadcast for a request to somebody else. Whatever the request
and the configuration, the data are changed by the application only. -/
theorem C92_broadcast_ignored_violated (cfg : Config) (hc : cfg.WF) (s : Slave) (hs : Sync s) (hid : s.id ≠ 0) (r : MReq) (hr : reqSlave r = 0)
    (hq : QtyOk r) (hd : DataOk r) (x : Exchange) (hf : x.frame = reqFrame r) (h1 : ∀ op ∈ x.rx, op.rxNoise cfg) (h2 : ∀ op ∈ x.n1, op.noise cfg)
    (h3 : ∀ op ∈ x.n2, op.noise cfg) (h4 : 2 ≤ x.n2.count .poll) :
    ∃ s', slaveRun cfg s x.opsSilent = .ok (s', []) ∧ Sync s' ∧ s'.mem = appMem s.mem x.opsSilent ∧
      ((∀ op ∈ x.opsSilent, op.idleApp = true) → effect cfg.limits s.mem (asRequest r) ≠ s.mem → s'.mem ≠ effect cfg.limits s.mem (asRequest r)) := by
  have hg := reqFrame_good r hq hd
  obtain ⟨s', a1, a2, -, a4⟩ := C23_bad_frames_dropped cfg hc s hs x
    ⟨.inr (.inl (by rw [hf, hg.addressed, hr]; exact fun h => hid h.symm)), by rw [hf]; exact hg.len, fun op ho => .inl (h1 op ho),
      fun op ho => .inl (h2 op ho), h3, h4⟩
  refine ⟨s', a1, a2, a4, fun hi he h => he ?_⟩
  rw [← h, a4, appMem_idle _ hi]

/-- What holds: a slave whose address is not 0 never answers a broadcast. Missing: that it obeys it. -/
theorem C92_broadcast_unanswered_partial (cfg : Config) (hc : cfg.WF) (s : Slave) (hs : Sync s) (hid : s.id ≠ 0) (xs : List Exchange)
    (hx : ∀ x ∈ xs, ∃ r, reqSlave r = 0 ∧ QtyOk r ∧ DataOk r ∧ x.frame = reqFrame r ∧ (∀ op ∈ x.rx, op.rxNoise cfg) ∧ (∀ op ∈ x.n1, op.noise cfg) ∧
      (∀ op ∈ x.n2, op.noise cfg) ∧ 2 ≤ x.n2.count .poll) :
    ∃ s', slaveRun cfg s (xs.flatMap Exchange.opsSilent) = .ok (s', []) ∧ Sync s' ∧ s'.id = s.id := by
  obtain ⟨s', a1, a2, a3, -⟩ := C84_foreign_frames_ignored_partial cfg hc xs s hs (fun x h => by
      obtain ⟨r, k0, k1, k2, k3, k4, k5, k6, -⟩ := hx x h
      have hg := reqFrame_good r k1 k2
      exact ⟨by rw [k3, hg.addressed, k0]; exact fun h => hid h.symm, by rw [k3]; exact hg.len, k4, k5, k6⟩)
    (fun x h => by obtain ⟨r, -, -, -, -, -, -, -, k7⟩ := hx x h; exact k7)
  exact ⟨s', a1, a2, a3⟩

/-- The initialisation accepts address 0. A slave with this address answers every broadcast. -/
theorem C92_slave_0_answers_violated (cfg : Config) (hc : cfg.WF) (s : Slave) (hs : Sync s) (hid : s.id = 0) (r : MReq) (hr : reqSlave r = 0)
    (hq : QtyOk r) (hd : DataOk r) (x : Exchange) (ht : x.Timed cfg) (hf : x.frame = reqFrame r) (hi : ∀ op ∈ x.ops, op.idleApp = true) :
    ∃ s', slaveRun cfg s x.ops = .ok (s', [.send (rtuFrame 0 (encodeResponse (respond cfg.limits s.mem (asRequest r))))]) ∧
      s'.mem = effect cfg.limits s.mem (asRequest r) := by
  obtain ⟨s', a1, a2, -⟩ := slave_repeats hc (xs := [x]) hs (by rw [hid, hr]) hq hd (by simp) (fun y hy => by
    rw [List.mem_singleton.1 hy]; exact ⟨ht, hf, hi⟩)
  refine ⟨s', ?_, a2⟩
  rw [← hr]
  simpa using a1

/-- **C92** is false on the master's side, too: nobody is to answer a broadcast, but the master waits for an answer and tells its application, at the first poll
with `T - 1` ticks behind it, that the request has timed out. -/
theorem C92_broadcast_times_out_violated {cfg : Config} (hw : cfg.MWF) (hT : 1 ≤ cfg.respTimeout) {ops : List MOp} (ho : OpsOk ops) {s0 s s1 : Master} {tr : MTrace}
    (h : masterRun cfg s0 (.init .rtu :: ops) = .ok (s, tr)) {fe ce : Bool} (hs : Standing fe ce s) {r : MReq} (hq : QtyOk r) (_hr : reqSlave r = 0)
    (hp : masterStep cfg s .poll = .ok (s1, [.send (reqFrame r)])) {w1 w2 a : List MOp} (h1 : ∀ op ∈ w1, op.noise) (h2 : ∀ op ∈ w2, op.quiet)
    (ha : ∀ op ∈ a, op = .poll ∨ op = .tick) (hk : tickCount a = cfg.respTimeout - 1) :
    ∃ a' s' tr' rep, a' ++ [.poll] <+: a ++ [.poll] ∧ masterRun cfg s (.poll :: sendOps w1 w2 ++ a' ++ [.poll]) = .ok (s', tr' ++ [(.poll, [.event (.timeoutErr rep)])]) ∧
      outs tr' = [.send (reqFrame r)] := by
  have hm : ∀ op ∈ a ++ [.poll], op = .poll ∨ op = .tick := by
    intro op h
    rcases List.mem_append.1 h with h | h
    · exact ha op h
    · exact .inl (List.mem_singleton.1 h)
  have hk' := C37_timeout_exactly_when hw hT ho h hs hq hp h1 h2 (w := a ++ [.poll])
    (fun op h => by rcases hm op h with rfl | rfl <;> exact ⟨(fun _ h => nomatch h), (fun _ h => nomatch h)⟩)
    (fun op h => by rcases hm op h with rfl | rfl <;> exact (fun h => nomatch h))
  obtain ⟨a', b, s', tr', rep, e, -, r1, r2, -⟩ := hk'.1 ⟨a, [], rfl, hk⟩
  exact ⟨a', s', tr', rep, ⟨b, by rw [e]; simp⟩, r1, r2⟩

/-! ### Non-vacuity: a broadcast of a write -/

/-- Everybody is to set coil 1. -/
def bcast : MReq := .writeSingleCoil 1 0 true

example : reqSlave bcast = 0 ∧ QtyOk bcast ∧ DataOk bcast ∧ (simpleExchange (reqFrame bcast)).frame.length = 8 := ⟨rfl, trivial, trivial, by decide +kernel⟩

/-- Slave 1 does nothing, slave 0 answers. -/
example :
    outsOf (slaveRun Config.default (Slave.powerOn sampleMem) (.init .rtu 1 :: (simpleExchange (reqFrame bcast)).opsSilent)) = some [] ∧
    outsOf (slaveRun Config.default (Slave.powerOn sampleMem) (.init .rtu 0 :: (simpleExchange (reqFrame bcast)).opsSilent)) =
      some [.send (reqFrame bcast)] := by decide +kernel

/-- The master sends it once and then reports a timeout. -/
example : moutsOf (masterRun smallCfg Master.powerOn ([.init .rtu, .request bcast, .poll, .txDone, .poll, .tick, .poll, .tick, .poll])) =
    some [.send (reqFrame bcast), .event (.timeoutErr { slave := 0, fc := 0, adr := 1, qty := 0xFF00, err := .timeout })] := by decide +kernel

end Modbus
