import Verif.Proofs.Serial

/-! **C94**: on an undisturbed line requests act as if each was carried out at one moment, one after the other. -/

namespace Modbus

open Spec

/-- **C94**: see `properties.jsonl`. A master and any number of slaves. -/
theorem C94_line_is_serial {ι : Type} {cfgM : Config} {cfgS : ι → Config} {id : ι → U8} {τ : BusTimes} {c0 s : Nat} {x : MDeviceTimed} {y : ι → DeviceTimed}
    (hw : cfgM.MWF) (hc : ∀ i, (cfgS i).WF) (B : TimedLine cfgM cfgS id τ c0 s x y) (hf : τ.FitLine c0 s cfgM.respTimeout) :
    ∃ (D : Nat → List Tx) (H : ι → Nat → List Act),
      SerialLine (cfgM.queueItems * (τ.most cfgM.respTimeout + τ.Pm)) (fun i => (cfgS i).limits) id x y D H := by
  obtain ⟨P, hE, h2, h3, h4, -⟩ := C85_line_in_time hw hc B hf
  have hE : LEach cfgM cfgS id τ x y P := hE
  have hO := hE.outcomes B.distinct
  obtain ⟨g, g0, hg⟩ := B.master.ghosts hw
  obtain ⟨D, hgr, hD⟩ := bus_inv_seq hO B.master hw g0 hg
  have hle : ∀ {m n : Nat}, m ≤ n → D m <+: D n := by
    intro m n h
    induction h with
    | refl => exact List.prefix_refl _
    | step _ ih => exact List.IsPrefix.trans ih (hgr _)
  have hsent : ∀ n, ∀ d ∈ D n, .lib (.send (reqFrame d.tx.req)) ∈ x.out d.start := by
    intro n d hd
    obtain ⟨b, hb⟩ := ((hD n).ok d hd).2.sent
    rw [hb]; exact List.mem_cons_self ..
  have hne : ∀ n, ∀ d ∈ D n, d.tx.evs ≠ [] := by
    intro n d hd
    have hok := ((hD n).ok d hd).2
    by_cases hr : ∃ i, id i = reqSlave d.tx.req
    · obtain ⟨i, hr⟩ := hr
      rw [(hok.mine i hr).2.2]
      exact outcome_ne_nil ((hD n).qty d hd)
    · obtain ⟨fc, he⟩ := hok.nobody fun i h => hr ⟨i, h⟩
      rw [he]; simp
  have C : ∀ i, SerialCtx (cfgS i).limits (id i) x (y i) P D := by
    intro i
    refine ⟨hgr, fun n => (hD n).sorted, fun n d hd => ((hD n).ok d hd).1, fun n d hd => ((hD n).ok d hd).2.reported.after, hsent,
      fun n d hd hr => ((hD n).ok d hd).2.mine i hr.symm, fun a hs => sent_finished hO hw B.master hD hs, fun p hp => ?_,
      fun a a' r r' haa ha ha' hr hr' => h3 a a' r r' i haa ha ha' hr.symm hr'.symm, fun a hs => ?_, fun k op hop ha => ?_, fun k hns hna => ?_,
      fun h => B.master.time_le h, fun h => (B.slave i).time_le h, made_prefix hO hne hle hD fun n d hd => ⟨_, hsent n d hd⟩⟩
    · obtain ⟨a, r, k1, k2, k3⟩ := h2 i p hp
      exact ⟨a, r, k1, k2.symm, k3⟩
    · obtain ⟨r, F⟩ := B.master.sends hw hs
      obtain ⟨b, hb⟩ := F.out
      exact ⟨_, b, hb⟩
    · have hst := (B.slave i).step k
      rw [hop] at hst
      refine app_step (hc i) hst ?_ ha
      cases hr : ((y i).st k).rtof with
      | false => rfl
      | true => exact absurd hop ((B.shw i).stalled k op hr)
    · refine Classical.byContradiction fun h => ?_
      rcases h4 i k h with h | ⟨op, h, h'⟩
      · exact hns h
      · rw [hna op h] at h'; cases h'
  obtain ⟨H, hH⟩ := Classical.axiomOfChoice fun i => (C i).history
  refine ⟨fun n => (D n).map BusTx.tx, H, fun n => (hgr n).map _, fun n => ⟨_, _, (hD n).transactions hO (hg n).2.1⟩, fun n => ?_, fun n t ht hno => ?_, hH⟩
  · obtain ⟨m, m1, m2, m3⟩ := every_request_seq hw B.master hO g0 hg hD B.mpoll n
    refine ⟨m, m1, m2, fun q hq => ?_⟩
    have := m3 q hq
    rw [List.map_map]
    exact this
  · obtain ⟨d, hd, rfl⟩ := List.mem_map.1 ht
    exact ((hD n).ok d hd).2.nobody hno

/-- **C94**: a master and one slave. -/
theorem C94_bus_is_serial {cfgM cfgS : Config} {id : U8} {τ : BusTimes} {x : MDeviceTimed} {y : DeviceTimed} (hw : cfgM.MWF) (hc : cfgS.WF)
    (B : TimedBus cfgM cfgS id τ x y) (hf : τ.Fit cfgM.respTimeout) :
    ∃ (D : Nat → List Tx) (H : Nat → List Act),
      SerialLine (ι := Unit) (cfgM.queueItems * (τ.most cfgM.respTimeout + τ.Pm)) (fun _ => cfgS.limits) (fun _ => id) x (fun _ => y) D (fun _ => H) := by
  obtain ⟨P, hE, h2, h3, h4⟩ := C74_bus_in_time hw hc B hf
  have hE : Each cfgM cfgS id τ x y P := hE
  have hO := hE.outcomes
  obtain ⟨g, g0, hg⟩ := B.master.ghosts hw
  obtain ⟨D, hgr, hD⟩ := bus_inv_seq hO B.master hw g0 hg
  have hle : ∀ {m n : Nat}, m ≤ n → D m <+: D n := by
    intro m n h
    induction h with
    | refl => exact List.prefix_refl _
    | step _ ih => exact List.IsPrefix.trans ih (hgr _)
  have hsent : ∀ n, ∀ d ∈ D n, .lib (.send (reqFrame d.tx.req)) ∈ x.out d.start := by
    intro n d hd
    obtain ⟨b, hb⟩ := ((hD n).ok d hd).2.sent
    rw [hb]; exact List.mem_cons_self ..
  have hne : ∀ n, ∀ d ∈ D n, d.tx.evs ≠ [] := by
    intro n d hd
    have hok := ((hD n).ok d hd).2
    by_cases hr : reqSlave d.tx.req = id
    · rw [(hok.mine hr).2.2]
      exact outcome_ne_nil ((hD n).qty d hd)
    · obtain ⟨fc, he⟩ := hok.other hr
      rw [he]; simp
  have C : SerialCtx cfgS.limits id x y P D := by
    refine ⟨hgr, fun n => (hD n).sorted, fun n d hd => ((hD n).ok d hd).1, fun n d hd => ((hD n).ok d hd).2.reported.after, hsent,
      fun n d hd hr => ((hD n).ok d hd).2.mine hr, fun a hs => sent_finished hO hw B.master hD hs, h2, h3, fun a hs => ?_, fun k op hop ha => ?_,
      fun k hns hna => ?_, fun h => B.master.time_le h, fun h => B.slave.time_le h, made_prefix hO hne hle hD fun n d hd => ⟨_, hsent n d hd⟩⟩
    · obtain ⟨r, F⟩ := B.master.sends hw hs
      obtain ⟨b, hb⟩ := F.out
      exact ⟨_, b, hb⟩
    · have hst := B.slave.step k
      rw [hop] at hst
      refine app_step hc hst ?_ ha
      cases hr : (y.st k).rtof with
      | false => rfl
      | true => exact absurd hop (B.shw.stalled k op hr)
    · refine Classical.byContradiction fun h => ?_
      rcases h4 k h with h | ⟨op, h, h'⟩
      · exact hns h
      · rw [hna op h] at h'; cases h'
  obtain ⟨H, hH⟩ := C.history
  refine ⟨fun n => (D n).map BusTx.tx, H, fun n => (hgr n).map _, fun n => ⟨_, _, (hD n).transactions hO (hg n).2.1⟩, fun n => ?_, fun n t ht hno => ?_,
    fun _ => hH⟩
  · obtain ⟨m, m1, m2, m3⟩ := every_request_seq hw B.master hO g0 hg hD B.mpoll n
    refine ⟨m, m1, m2, fun q hq => ?_⟩
    have := m3 q hq
    rw [List.map_map]
    exact this
  · obtain ⟨d, hd, rfl⟩ := List.mem_map.1 ht
    exact ((hD n).ok d hd).2.other fun h => hno () h.symm

end Modbus
