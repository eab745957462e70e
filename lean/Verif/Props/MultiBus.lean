import Verif.Proofs.MultiRounds

/-! **C85**: a master device and any number of slave devices on one two-wire line, in real time. -/

namespace Modbus

open Spec

section
variable {ι : Type} {cfgM : Config} {cfgS : ι → Config} {id : ι → U8} {τ : BusTimes} {c0 s : Nat} {x : MDeviceTimed} {y : ι → DeviceTimed}

/-- **C85**: see `properties.jsonl`. `P` tells at which event of the addressed slave a transmission of the master is executed. -/
theorem C85_line_in_time (hw : cfgM.MWF) (hc : ∀ i, (cfgS i).WF) (B : TimedLine cfgM cfgS id τ c0 s x y) (hf : τ.FitLine c0 s cfgM.respTimeout) :
    ∃ P : Nat → Nat,
      (∀ a, x.Sends a → ∃ r b, x.out a = [.lib (.send (reqFrame r)), .tdr b] ∧ QtyOk r ∧ DataOk r ∧
        (∀ i, id i = reqSlave r → ExecutedAt (cfgS i).limits (id i) x (y i) a (P a) r ∧
          ∃ v, ReportedAt x a v (outcome (cfgS i).limits ((y i).st (P a)).lib.mem r) ∧ (y i).time (P a) ≤ x.time v ∧ x.time v ≤ x.time a + τ.round) ∧
        ((∀ i, id i ≠ reqSlave r) → ∃ v fc, ReportedAt x a v [.timeoutErr ⟨reqSlave r, fc, reqAdr r, reqField r, .timeout⟩] ∧
          x.time v ≤ x.time a + 256 * τ.e + 2 * τ.Pm + (cfgM.respTimeout - 1) * τ.D)) ∧
      (∀ i p, (y i).Sends p → ∃ a r, .lib (.send (reqFrame r)) ∈ x.out a ∧ id i = reqSlave r ∧ P a = p) ∧
      (∀ a a' r r' i, a < a' → .lib (.send (reqFrame r)) ∈ x.out a → .lib (.send (reqFrame r')) ∈ x.out a' → id i = reqSlave r → id i = reqSlave r' →
        P a < P a') ∧
      (∀ i k, ((y i).st (k + 1)).lib.mem ≠ ((y i).st k).lib.mem → (y i).Sends k ∨ ∃ op : SOp, (y i).op k = .main op ∧ isAppOp op = true) ∧
      ∀ d n b, (stations x y d).writes n b → ¬ Clash τ.c (stations x y) d n := by
  obtain ⟨via, hm⟩ := B.line
  classical
  have hex : ∀ a, ∃ p, x.Sends a → ∃ e e2 v r, LAll cfgM cfgS id τ x y via a e e2 p v r ∧
      ∀ i e' e2' q v' r', LAll cfgM cfgS id τ x y via a e' e2' q v' r' → id i = reqSlave r' → q = p := by
    intro a
    by_cases hs : x.Sends a
    · obtain ⟨e, e2, p, v, r, h⟩ := lround_at hw hc B hf hm hs
      exact ⟨p, fun _ => ⟨e, e2, v, r, h⟩⟩
    · exact ⟨0, fun h => absurd h hs⟩
  refine ⟨fun a => Classical.choose (hex a), fun a hs => ?_, fun i p hp => ?_, fun a a' r r' i haa hs hs' hr hr' => ?_, fun i k hk => ?_,
    fun d n b hb => lclear hw hc B hf hm d hb⟩
  · obtain ⟨e, e2, v, r, Q, -⟩ := Classical.choose_spec (hex a) hs
    obtain ⟨b, hb⟩ := Q.facts.out
    refine ⟨r, b, hb, Q.facts.qty, Q.facts.data, fun i hi => ?_, fun hr => ?_⟩
    · obtain ⟨h1, h2, h3, h4⟩ := Q.mine i hi
      exact ⟨h1, v, h2, h3, h4⟩
    · obtain ⟨fc, h1, h2⟩ := Q.nobody hr
      exact ⟨v, fc, h1, h2⟩
  · obtain ⟨a, e, e2, v, r, Q, hr, hs⟩ := lslave_sends hw hc B hf hm hp
    obtain ⟨_, _, _, _, _, h⟩ := Classical.choose_spec (hex a) hs
    obtain ⟨b, hb⟩ := Q.facts.out
    exact ⟨a, r, by rw [hb]; exact List.mem_cons_self .., hr, (h i _ _ _ _ _ Q hr).symm⟩
  · have key : ∀ {a r}, .lib (.send (reqFrame r)) ∈ x.out a → id i = reqSlave r → ∀ {r'}, SendFacts x a r' → id i = reqSlave r' := by
      intro a r h1 h2 r' F
      obtain ⟨b, hb⟩ := F.out
      rw [hb] at h1
      simp only [List.mem_cons, HMOut.lib.injEq, MOut.send.injEq, reduceCtorEq, List.not_mem_nil, or_false] at h1
      have h3 := congrArg (fun l => l.getD 0 0) h1
      have h4 : ∀ r, (reqFrame r).getD 0 0 = reqSlave r := fun r => rfl
      simp only [h4] at h3
      rw [← h3, h2]
    have s1 : x.Sends a := ⟨_, hs⟩
    have s2 : x.Sends a' := ⟨_, hs'⟩
    obtain ⟨e, e2, v, r1, Q, -⟩ := Classical.choose_spec (hex a) s1
    obtain ⟨f, f2, v', r2, Q', -⟩ := Classical.choose_spec (hex a') s2
    obtain ⟨-, -, h2, -⟩ := Q.mine i (key hs hr Q.facts)
    have h3 : v < a' := Classical.byContradiction fun hn => Q.last a' haa (by omega) s2
    have h4 := B.master.time_le (Nat.le_of_lt h3)
    have h5 := Q'.after i (key hs' hr' Q'.facts)
    show Classical.choose (hex a) < Classical.choose (hex a')
    refine Classical.byContradiction fun hn => ?_
    have := (B.slave i).time_le (show Classical.choose (hex a') ≤ Classical.choose (hex a) by omega)
    omega
  · rcases sys_cases (hc i) ((B.slave i).step k) (fun m j h => (B.slave i).noInit k m j h) with ⟨-, h | h⟩ | ⟨-, f, b, h⟩
    · exact .inr h
    · exact absurd h hk
    · exact .inl ⟨f, by rw [h]; exact List.mem_cons_self ..⟩

end

end Modbus
