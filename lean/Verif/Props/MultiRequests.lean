import Verif.Props.MultiBus
import Verif.Proofs.BusRequests

/-! **C86**: every request of the master's application, on a line with any number of slave devices, in real time. -/

namespace Modbus

open Spec

section
variable {ι : Type} {cfgM : Config} {cfgS : ι → Config} {id : ι → U8} {τ : BusTimes} {c0 s : Nat} {x : MDeviceTimed} {y : ι → DeviceTimed} {P : Nat → Nat}

/-- What every transmission on a line with several slaves leads to. -/
def LEach (cfgM : Config) (cfgS : ι → Config) (id : ι → U8) (τ : BusTimes) (x : MDeviceTimed) (y : ι → DeviceTimed) (P : Nat → Nat) : Prop :=
  ∀ a, x.Sends a → ∃ r b, x.out a = [.lib (.send (reqFrame r)), .tdr b] ∧ QtyOk r ∧ DataOk r ∧
    (∀ i, id i = reqSlave r → ExecutedAt (cfgS i).limits (id i) x (y i) a (P a) r ∧
      ∃ v, ReportedAt x a v (outcome (cfgS i).limits ((y i).st (P a)).lib.mem r) ∧ (y i).time (P a) ≤ x.time v ∧ x.time v ≤ x.time a + τ.round) ∧
    ((∀ i, id i ≠ reqSlave r) → ∃ v fc, ReportedAt x a v [.timeoutErr ⟨reqSlave r, fc, reqAdr r, reqField r, .timeout⟩] ∧
      x.time v ≤ x.time a + 256 * τ.e + 2 * τ.Pm + (cfgM.respTimeout - 1) * τ.D)

theorem LEach.entry (hi : ∀ i j, id i = id j → i = j) (h : LEach cfgM cfgS id τ x y P) {a : Nat} {r : MReq} {b : U8}
    (ho : x.out a = [.lib (.send (reqFrame r)), .tdr b]) (hq : QtyOk r) (hd : DataOk r) :
    ∃ v evs, evs ≠ [] ∧ BusTx.OnLine (fun i => (cfgS i).limits) id x y P ⟨a, v, ⟨r, 1, evs⟩⟩ ∧ x.time v ≤ x.time a + τ.most cfgM.respTimeout := by
  obtain ⟨r', b', h1, h2, h3, h4, h5⟩ := h a ⟨_, by rw [ho]; exact List.mem_cons_self ..⟩
  rw [ho] at h1
  simp only [List.cons.injEq, HMOut.lib.injEq, MOut.send.injEq, HMOut.tdr.injEq, and_true] at h1
  obtain ⟨e1, e2, e3, e4, e5, e6⟩ := same_frame h1.1 hq hd h2 h3
  unfold BusTimes.most
  by_cases hr : ∃ i, id i = reqSlave r
  · obtain ⟨i, hr⟩ := hr
    obtain ⟨E, v, R, t1, t2⟩ := h4 i (by rw [← e1]; exact hr)
    refine ⟨v, outcome (cfgS i).limits ((y i).st (P a)).lib.mem r, outcome_ne_nil hq, ⟨⟨b, ho⟩, rfl, ?_, fun j hj => ?_, fun h => absurd hr (h i)⟩,
      by omega⟩
    · rw [e6]; exact R
    · obtain rfl := hi i j (by rw [hr]; exact hj.symm)
      refine ⟨⟨E.poll, E.later, ?_, ?_⟩, t1, rfl⟩
      · show _ = effect _ _ (asRequest r)
        rw [e5]; exact E.effect
      · show ∃ b, (y i).out (P a) = [.send (rtuFrame (id i) (encodeResponse (respond _ _ (asRequest r)))), .tdr b]
        rw [e4]; exact E.response
  · have hr : ∀ i, id i ≠ reqSlave r := fun i h => hr ⟨i, h⟩
    obtain ⟨v, fc, R, t⟩ := h5 (by rw [← e1]; exact hr)
    refine ⟨v, _, by simp, ⟨⟨b, ho⟩, rfl, R, fun i h => absurd h (hr i), fun _ => ⟨fc, ?_⟩⟩, by omega⟩
    rw [e1, e2, e3]

theorem LEach.outcomes (hi : ∀ i j, id i = id j → i = j) (h : LEach cfgM cfgS id τ x y P) :
    Outcomes x (BusTx.OnLine (fun i => (cfgS i).limits) id x y P) (τ.most cfgM.respTimeout) := by
  refine ⟨h.entry hi, fun d hok => hok.reported, fun d hok => ⟨Nat.le_of_eq hok.once.symm, Nat.le_of_eq hok.once, ?_⟩⟩
  by_cases hr : ∃ i, id i = reqSlave d.tx.req
  · obtain ⟨i, hr⟩ := hr
    left
    rw [(hok.mine i hr).2.2]
    exact outcome_reports
  · obtain ⟨fc, he⟩ := hok.nobody fun i h => hr ⟨i, h⟩
    exact .inr ⟨_, he, rfl, fun h => by cases h⟩

/-- **C86**: see `properties.jsonl`. -/
theorem C86_every_request_on_the_line (hw : cfgM.MWF) (hc : ∀ i, (cfgS i).WF) (B : TimedLine cfgM cfgS id τ c0 s x y)
    (hf : τ.FitLine c0 s cfgM.respTimeout) :
    ∃ P : Nat → Nat,
      (∀ i p, (y i).Sends p → ∃ a r, .lib (.send (reqFrame r)) ∈ x.out a ∧ id i = reqSlave r ∧ P a = p) ∧
      (∀ a a' r r' i, a < a' → .lib (.send (reqFrame r)) ∈ x.out a → .lib (.send (reqFrame r')) ∈ x.out a' → id i = reqSlave r → id i = reqSlave r' →
        P a < P a') ∧
      (∀ i k, ((y i).st (k + 1)).lib.mem ≠ ((y i).st k).lib.mem → (y i).Sends k ∨ ∃ op : SOp, (y i).op k = .main op ∧ isAppOp op = true) ∧
      ∀ n, ∃ m, n ≤ m ∧ x.time m ≤ x.time n + cfgM.queueItems * (τ.most cfgM.respTimeout + τ.Pm) ∧
        ∀ q, m < q → ∃ (done : List BusTx) (cur : Option (MReq × Nat)) (queued : List MReq),
          Transactions 0 (mainTrace (x.trace q)) (done.map BusTx.tx) cur queued ∧
          accepted (mainTrace (x.trace n)) <+: done.map (fun d => d.tx.req) ∧
          (∀ d ∈ done, d.stop < q ∧ d.OnLine (fun i => (cfgS i).limits) id x y P) ∧ done.Pairwise fun d d' => d.stop < d'.start := by
  obtain ⟨P, hE, h2, h3, h4, -⟩ := C85_line_in_time hw hc B hf
  have hE : LEach cfgM cfgS id τ x y P := hE
  exact ⟨P, h2, h3, h4, every_request hw B.master (hE.outcomes B.distinct) B.mpoll⟩

end

end Modbus
