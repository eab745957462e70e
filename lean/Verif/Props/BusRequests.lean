import Verif.Proofs.BusRequests

/-! **C75**: every request of the master's application, on a line with a slave device, in real time. -/

namespace Modbus

open Spec

section
variable {cfgM cfgS : Config} {id : U8} {τ : BusTimes} {x : MDeviceTimed} {y : DeviceTimed} {P : Nat → Nat} {g : Nat → Ghost}

/-- **C75**: see `properties.jsonl`. -/
theorem C75_every_request_on_the_bus (hw : cfgM.MWF) (hc : cfgS.WF) (B : TimedBus cfgM cfgS id τ x y) (hf : τ.Fit cfgM.respTimeout) :
    ∃ P : Nat → Nat,
      (∀ p, y.Sends p → ∃ a r, .lib (.send (reqFrame r)) ∈ x.out a ∧ reqSlave r = id ∧ P a = p) ∧
      (∀ a a' r r', a < a' → .lib (.send (reqFrame r)) ∈ x.out a → .lib (.send (reqFrame r')) ∈ x.out a' → reqSlave r = id → reqSlave r' = id → P a < P a') ∧
      (∀ k, (y.st (k + 1)).lib.mem ≠ (y.st k).lib.mem → y.Sends k ∨ ∃ op : SOp, y.op k = .main op ∧ isAppOp op = true) ∧
      ∀ n, ∃ m, n ≤ m ∧ x.time m ≤ x.time n + cfgM.queueItems * (τ.most cfgM.respTimeout + τ.Pm) ∧
        ∀ q, m < q → ∃ (done : List BusTx) (cur : Option (MReq × Nat)) (queued : List MReq),
          Transactions 0 (mainTrace (x.trace q)) (done.map BusTx.tx) cur queued ∧
          accepted (mainTrace (x.trace n)) <+: done.map (fun d => d.tx.req) ∧
          (∀ d ∈ done, d.stop < q ∧ d.Ok cfgS.limits id x y P) ∧ done.Pairwise fun d d' => d.stop < d'.start := by
  obtain ⟨P, hE, h2, h3, h4⟩ := C74_bus_in_time hw hc B hf
  have hE : Each cfgM cfgS id τ x y P := hE
  exact ⟨P, h2, h3, h4, every_request hw B.master hE.outcomes B.mpoll⟩

end

end Modbus
