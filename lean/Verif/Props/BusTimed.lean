import Verif.Proofs.BusRounds

/-! **C74**: a master device and a slave device on one line, in real time. -/

namespace Modbus

open Spec

section
variable {cfgM cfgS cfg : Config} {id : U8} {τ : BusTimes} {x : MDeviceTimed} {y : DeviceTimed} {v1 v2 : Nat → Nat}

/-- Time passes. -/
theorem time_passes (B : TimedBus cfgM cfgS id τ x y) (hd : 0 < τ.d) (K : Nat) : ∃ m, x.op m = .main .tick ∧ K ≤ x.time m := by
  induction K with
  | zero =>
    obtain ⟨m, -, h, -⟩ := B.tick 0
    exact ⟨m, h, Nat.zero_le _⟩
  | succ K ih =>
    obtain ⟨m, h1, h2⟩ := ih
    obtain ⟨m', h3, h4, -⟩ := B.tick m
    have := B.apart m m' h3 h1 h4
    exact ⟨m', h4, by omega⟩

theorem step_mem_irq {s s' : Slave} {op : SOp} {o : List SOut} (h : slaveStep cfg s op = .ok (s', o))
    (ho : op = .t15 ∨ op = .t35 ∨ op = .frameErr ∨ op = .txDone ∨ ∃ b, op = .rxByte b) : s'.mem = s.mem := by
  rcases ho with rfl | rfl | rfl | rfl | ⟨b, rfl⟩
  all_goals simp only [slaveStep] at h
  case inr.inr.inr.inr =>
    split at h
    · obtain ⟨q, -, h⟩ := bind_ok h
      simp only [pure_eq, Except.ok.injEq, Prod.mk.injEq] at h
      rw [← h.1]
    · simp only [Except.ok.injEq, Prod.mk.injEq] at h
      rw [← h.1]
  all_goals
    simp only [Except.ok.injEq, Prod.mk.injEq] at h
    rw [← h.1]
    split <;> rfl

theorem irqRx_mem {s s' : SlaveSys} {rx : Option U8} (h : slaveIrqRx cfg s rx = .ok s') : s'.lib.mem = s.lib.mem := by
  cases rx with
  | none => simp only [slaveIrqRx, Except.ok.injEq] at h; rw [h]
  | some b =>
    simp only [slaveIrqRx] at h
    obtain ⟨⟨l, o⟩, h1, h⟩ := bind_ok h
    have e1 := step_mem_irq h1 (.inr (.inr (.inr (.inr ⟨b, rfl⟩))))
    have h := h
    split at h
    · obtain ⟨⟨l', o'⟩, h2, h⟩ := bind_ok h
      have e2 : l'.mem = l.mem := step_mem_irq h2 (.inr (.inr (.inl rfl)))
      simp only [pure_eq, Except.ok.injEq] at h
      rw [← h]; exact e2.trans e1
    · simp only [pure_eq, Except.ok.injEq] at h
      rw [← h]; exact e1

theorem irqRto_mem {s s' : SlaveSys} (h : slaveIrqRto cfg s = .ok s') : s'.lib.mem = s.lib.mem := by
  unfold slaveIrqRto at h
  split at h
  · obtain ⟨⟨l, o⟩, h1, h⟩ := bind_ok h
    have e1 := step_mem_irq h1 (.inl rfl)
    simp only [pure_eq, Except.ok.injEq] at h
    rw [← h]; exact e1
  · simp only [Except.ok.injEq] at h; rw [h]

theorem irqTx_mem {s s' : SlaveSys} {t : Bool} {o : List HOut} (h : slaveIrqTx cfg s t = .ok (s', o)) : s'.lib.mem = s.lib.mem ∧ ∀ f, .send f ∉ o := by
  unfold slaveIrqTx at h
  split at h
  · split at h
    · obtain ⟨b, -, h⟩ := bind_ok h
      simp only [pure_eq, Except.ok.injEq, Prod.mk.injEq] at h
      rw [← h.1, ← h.2]; exact ⟨rfl, fun f => by simp⟩
    · obtain ⟨⟨l, o'⟩, h1, h⟩ := bind_ok h
      have e1 := step_mem_irq h1 (.inr (.inr (.inr (.inl rfl))))
      simp only [pure_eq, Except.ok.injEq, Prod.mk.injEq] at h
      rw [← h.1, ← h.2]; exact ⟨e1, fun f => by simp⟩
  · simp only [Except.ok.injEq, Prod.mk.injEq] at h
    rw [← h.1, ← h.2]; exact ⟨rfl, fun f => by simp⟩

theorem DslaveSends_mem (o : List SOut) : ∀ {s s' : SlaveSys} {out : List HOut}, slaveSends s o = .ok (s', out) → s'.lib = s.lib := by
  induction o with
  | nil => intro s s' out h; simp only [slaveSends, Except.ok.injEq, Prod.mk.injEq] at h; rw [← h.1]
  | cons a os ih =>
    intro s s' out h
    cases a with
    | send f =>
      simp only [slaveSends] at h
      obtain ⟨⟨s1, o1⟩, h1, h⟩ := bind_ok h
      obtain ⟨⟨s2, o2⟩, h2, h⟩ := bind_ok h
      simp only [pure_eq, Except.ok.injEq, Prod.mk.injEq] at h
      have e2 : s2.lib = s1.lib := ih h2
      rw [← h.1, e2]
      unfold slaveUsartSend at h1
      split at h1
      · obtain ⟨b, -, h1⟩ := bind_ok h1
        simp only [pure_eq, Except.ok.injEq, Prod.mk.injEq] at h1
        rw [← h1.1]
      · simp only [Except.ok.injEq, Prod.mk.injEq] at h1
        rw [← h1.1]

/-- A frame is handed over together with its first byte, by a poll; without one, only the application changes variables and registrations. -/
theorem sys_cases (hc : cfg.WF) {s s' : SlaveSys} {op : HOp} {o : List HOut} (h : slaveSysStep cfg s op = .ok (s', o))
    (hi : ∀ m i, op ≠ .main (.init m i)) :
    ((∀ f, .send f ∉ o) ∧ ((∃ a : SOp, op = .main a ∧ isAppOp a = true) ∨ s'.lib.mem = s.lib.mem)) ∨ (op = .main .poll ∧ ∃ f b, o = [.send f, .tdr b]) := by
  cases op with
  | rto =>
    simp only [slaveSysStep, Except.ok.injEq, Prod.mk.injEq] at h
    rw [← h.1, ← h.2]; exact .inl ⟨fun f => by simp, .inr rfl⟩
  | timer =>
    simp only [slaveSysStep] at h
    obtain ⟨⟨l, o1⟩, h1, h⟩ := bind_ok h
    have e1 := step_mem_irq h1 (.inr (.inl rfl))
    simp only [pure_eq, Except.ok.injEq, Prod.mk.injEq] at h
    rw [← h.1, ← h.2]; exact .inl ⟨fun f => by simp, .inr e1⟩
  | usart rx t =>
    simp only [slaveSysStep] at h
    obtain ⟨s1, h1, h⟩ := bind_ok h
    obtain ⟨⟨s2, o2⟩, h2, h⟩ := bind_ok h
    obtain ⟨s3, h3, h⟩ := bind_ok h
    simp only [pure_eq, Except.ok.injEq, Prod.mk.injEq] at h
    obtain ⟨e2, e3⟩ := irqTx_mem h2
    have e4 : s3.lib.mem = s2.lib.mem := irqRto_mem h3
    rw [← h.1, ← h.2]
    exact .inl ⟨e3, .inr (by rw [e4, e2, irqRx_mem h1])⟩
  | main op =>
    simp only [slaveSysStep] at h
    split at h
    · simp only [Except.ok.injEq, Prod.mk.injEq] at h
      rw [← h.1, ← h.2]; exact .inl ⟨fun f => by simp, .inr rfl⟩
    · rename_i hm
      obtain ⟨⟨l, o1⟩, h1, h⟩ := bind_ok h
      have h : slaveSends _ o1 = _ := h
      cases op with
      | poll =>
        have hp := slavePoll_inv cfg hc (show slavePoll cfg s.lib = _ from h1)
        cases hp with
        | answer a1 a2 a3 resp respLen hb =>
          refine .inr ⟨rfl, ?_⟩
          have hl := congrArg List.length hb
          rw [Buf.bytes_length, rtuFrame_length] at hl
          simp only [slaveSends, slaveUsartSend] at h
          rw [if_pos (show 0 < respLen.toNat by omega), rd_ok _ (by decide)] at h
          simp only [ok_bind, pure_eq, Except.ok.injEq, Prod.mk.injEq] at h
          exact ⟨_, _, h.2.symm⟩
        | _ =>
          simp only [slaveSends, Except.ok.injEq, Prod.mk.injEq] at h
          rw [← h.1, ← h.2]; exact .inl ⟨fun f => by simp, .inr rfl⟩
      | init m i => exact absurd rfl (hi m i)
      | register t a p =>
        simp only [slaveStep] at h1
        obtain ⟨m, -, h1⟩ := bind_ok h1
        simp only [pure_eq, Except.ok.injEq, Prod.mk.injEq] at h1
        rw [← h1.2] at h
        simp only [slaveSends, Except.ok.injEq, Prod.mk.injEq] at h
        rw [← h.2]; exact .inl ⟨fun f => by simp, .inl ⟨_, rfl, rfl⟩⟩
      | appBool a p =>
        simp only [slaveStep, Except.ok.injEq, Prod.mk.injEq] at h1
        rw [← h1.2] at h
        simp only [slaveSends, Except.ok.injEq, Prod.mk.injEq] at h
        rw [← h.2]; exact .inl ⟨fun f => by simp, .inl ⟨_, rfl, rfl⟩⟩
      | appReg a p =>
        simp only [slaveStep, Except.ok.injEq, Prod.mk.injEq] at h1
        rw [← h1.2] at h
        simp only [slaveSends, Except.ok.injEq, Prod.mk.injEq] at h
        rw [← h.2]; exact .inl ⟨fun f => by simp, .inl ⟨_, rfl, rfl⟩⟩
      | _ => exact absurd (.inr rfl) hm

theorem slave_send_writes (hc : cfgS.WF) (hy : y.Exec cfgS id) {p : Nat} (h : y.Sends p) : y.op p = .main .poll ∧ ∃ b, y.Writes p b := by
  rcases sys_cases hc (hy.step p) (fun m i h => hy.noInit p m i h) with ⟨h1, -⟩ | ⟨h1, f, b, h2⟩
  · obtain ⟨f, hf⟩ := h
    exact absurd hf (h1 f)
  · exact ⟨h1, b, by unfold DeviceTimed.Writes; rw [h2]; simp⟩

/-- Every frame the slave sends belongs to a round. -/
theorem slave_sends (hw : cfgM.MWF) (hc : cfgS.WF) (B : TimedBus cfgM cfgS id τ x y) (hf : τ.Fit cfgM.respTimeout) (ll : Lines τ x y v1 v2) {q : Nat}
    (hq : y.Sends q) : ∃ a1 a01 e1 a0' z w m e' v r, RoundAll cfgM cfgS id τ x y v1 v2 a1 a01 e1 a0' z w m q e' v r ∧ reqSlave r = id ∧ x.Sends a1 := by
  have htick := hf.tick
  obtain ⟨K, -, hK⟩ := time_passes B (by omega) (y.time q + 1)
  obtain ⟨-, b, hb⟩ := slave_send_writes hc B.slave hq
  rcases last_before x.Sends K with h | ⟨a, a1, a2, a3⟩
  · obtain ⟨hwr, -⟩ := first_calm hw hc B hf ll h
    obtain ⟨mm, hm⟩ := B.slave.init
    obtain ⟨s, s1, s2, s3, -⟩ := hsync_after_init cfgS mm id
    rw [s1] at hm
    simp only [Except.ok.injEq, Prod.mk.injEq] at hm
    obtain ⟨m, k', -, k2, k3, k4, k5, k6⟩ := slave_cause hc B.slave B.shw (c := 0) (e := 0) (.inl rfl) (Nat.le_refl _) (fun k _ h => by omega)
      (by rw [← hm.1]; exact s2) hb (Nat.zero_le _)
    obtain ⟨b', hb'⟩ := sbyte_iff.1 k5
    obtain ⟨n', n1', rfl⟩ := ll.down.only k' b' hb'
    have h2 := (ll.down.arrives n' b' n1').2.1
    have h3 := B.slave.time_le (show v1 n' ≤ q by omega)
    have : n' < K := B.master.lt_of_time (by omega)
    exact absurd n1' (hwr n' b' this)
  · obtain ⟨a0, c, e, R, hr⟩ := rounds hw hc B hf ll a a2
    rcases Nat.lt_or_ge q e with h | h
    · obtain ⟨a1, a01, e1, a0', z, w, m, e', v, r, h1, h2, h3, -⟩ := hr q h hq
      exact ⟨a1, a01, e1, a0', z, w, m, e', v, r, h1, h2, h3⟩
    · obtain ⟨a0', z, w, m, p, e', v, r, Q⟩ := round_all hw hc B hf ll R
      rcases Nat.lt_or_ge q e' with h' | h'
      · by_cases hr : reqSlave r = id
        · obtain ⟨-, -, hns, -⟩ := Q.slave.yes hr
          have : q = p := by
            rcases Nat.lt_trichotomy q p with h'' | h'' | h''
            · obtain ⟨f, hf'⟩ := hq
              rw [Q.slave.before q h h''] at hf'; cases hf'
            · exact h''
            · exact absurd hq (hns q h'' h')
          subst this
          exact ⟨a, a0, e, a0', z, w, m, e', v, r, Q, hr, a2⟩
        · obtain ⟨f, hf'⟩ := hq
          rw [Q.slave.no hr q h h'] at hf'; cases hf'
      · obtain ⟨a', l1, l2, l3⟩ := slave_later hc B Q.arrived Q.slave hb h'
        have : a' < K := B.master.lt_of_time (by omega)
        exact absurd l2 (a3 a' l1 this)

theorem RoundAll.after {a a0 e a0' z w m p e' v : Nat} {r : MReq} (B : TimedBus cfgM cfgS id τ x y) (hf : τ.Fit cfgM.respTimeout)
    (ll : Lines τ x y v1 v2) (Q : RoundAll cfgM cfgS id τ x y v1 v2 a a0 e a0' z w m p e' v r) : x.time a < y.time p := by
  obtain ⟨bz, hbz⟩ := Q.slave.chain.wz
  have h1 := (ll.down.arrives z bz hbz).2.1
  have h2 := B.master.time_le Q.slave.chain.az
  have h3 := Q.slave.early
  have h4 := B.slave.time_le (Nat.le_of_lt Q.slave.mp)
  have h5 := hf.slave
  omega

theorem RoundAll.executed {a a0 e a0' z w m p e' v : Nat} {r : MReq} (B : TimedBus cfgM cfgS id τ x y) (hf : τ.Fit cfgM.respTimeout)
    (ll : Lines τ x y v1 v2) (Q : RoundAll cfgM cfgS id τ x y v1 v2 a a0 e a0' z w m p e' v r) (hr : reqSlave r = id) :
    ExecutedAt cfgS.limits id x y a p r := by
  obtain ⟨h1, h2, -⟩ := Q.slave.yes hr
  exact ⟨Q.slave.poll, Nat.le_of_lt (Q.after B hf ll), h1, h2.out⟩

theorem Spec.ExecutedAt.sends {lim : Limits} {a p : Nat} {r : MReq} (h : ExecutedAt lim id x y a p r) : y.Sends p := by
  obtain ⟨b, h⟩ := h.response
  exact ⟨_, by rw [h]; exact List.mem_cons_self ..⟩

/-- A round of a transmission; it contains the only execution of it. -/
theorem round_at (hw : cfgM.MWF) (hc : cfgS.WF) (B : TimedBus cfgM cfgS id τ x y) (hf : τ.Fit cfgM.respTimeout) (ll : Lines τ x y v1 v2)
    {a : Nat} (hs : x.Sends a) : ∃ a0 e a0' z w m p e' v r, RoundAll cfgM cfgS id τ x y v1 v2 a a0 e a0' z w m p e' v r ∧
      ∀ b0 f b0' z' w' m' q f' u r', RoundAll cfgM cfgS id τ x y v1 v2 a b0 f b0' z' w' m' q f' u r' → reqSlave r' = id → q = p := by
  obtain ⟨a0, c, e, R, hr⟩ := rounds hw hc B hf ll a hs
  obtain ⟨a0', z, w, m, p, e', v, r, Q⟩ := round_all hw hc B hf ll R
  refine ⟨a0, e, a0', z, w, m, p, e', v, r, Q, fun b0 f b0' z' w' m' q f' u r' Q' hr' => ?_⟩
  have hq := (Q'.executed B hf ll hr').sends
  have ht := Q'.after B hf ll
  obtain ⟨-, -, hu, -⟩ := Q'.yes hr'
  rcases Nat.lt_or_ge q e with h | h
  · obtain ⟨a1, a01, e1, _, _, _, _, _, v', r1, h1, h2, h3, h4⟩ := hr q h hq
    obtain ⟨-, -, h5, -⟩ := h1.yes h2
    have : v' < a := Classical.byContradiction fun hn => h1.last a h4 (by omega) hs
    have := B.master.time_le (Nat.le_of_lt this)
    omega
  · rcases Nat.lt_or_ge q e' with h' | h'
    · by_cases hr : reqSlave r = id
      · obtain ⟨-, -, hns, -⟩ := Q.slave.yes hr
        rcases Nat.lt_trichotomy q p with h'' | h'' | h''
        · obtain ⟨f, hf'⟩ := hq
          rw [Q.slave.before q h h''] at hf'; cases hf'
        · exact h''
        · exact absurd hq (hns q h'' h')
      · obtain ⟨f, hf'⟩ := hq
        rw [Q.slave.no hr q h h'] at hf'; cases hf'
    · obtain ⟨-, b, hb⟩ := slave_send_writes hc B.slave hq
      obtain ⟨a', l1, l2, l3⟩ := slave_later hc B Q.arrived Q.slave hb h'
      have : u < a' := Classical.byContradiction fun hn => Q'.last a' l1 (by omega) l2
      have := B.master.time_le (Nat.le_of_lt this)
      have := hf.slave
      omega

/-- **C74**: see `properties.jsonl`. `P` tells at which event of the slave a transmission of the master is executed. -/
theorem C74_bus_in_time (hw : cfgM.MWF) (hc : cfgS.WF) (B : TimedBus cfgM cfgS id τ x y) (hf : τ.Fit cfgM.respTimeout) :
    ∃ P : Nat → Nat,
      (∀ a, x.Sends a → ∃ r b, x.out a = [.lib (.send (reqFrame r)), .tdr b] ∧ QtyOk r ∧ DataOk r ∧
        (reqSlave r = id → ExecutedAt cfgS.limits id x y a (P a) r ∧ ∃ v, ReportedAt x a v (outcome cfgS.limits (y.st (P a)).lib.mem r) ∧
          y.time (P a) ≤ x.time v ∧ x.time v ≤ x.time a + τ.round) ∧
        (reqSlave r ≠ id → ∃ v fc, ReportedAt x a v [.timeoutErr ⟨reqSlave r, fc, reqAdr r, reqField r, .timeout⟩] ∧
          x.time v ≤ x.time a + 256 * τ.e + 2 * τ.Pm + (cfgM.respTimeout - 1) * τ.D)) ∧
      (∀ p, y.Sends p → ∃ a r, .lib (.send (reqFrame r)) ∈ x.out a ∧ reqSlave r = id ∧ P a = p) ∧
      (∀ a a' r r', a < a' → .lib (.send (reqFrame r)) ∈ x.out a → .lib (.send (reqFrame r')) ∈ x.out a' → reqSlave r = id → reqSlave r' = id → P a < P a') ∧
      ∀ k, (y.st (k + 1)).lib.mem ≠ (y.st k).lib.mem → y.Sends k ∨ ∃ op : SOp, y.op k = .main op ∧ isAppOp op = true := by
  obtain ⟨v1, hd⟩ := B.down
  obtain ⟨v2, hu⟩ := B.up
  have ll : Lines τ x y v1 v2 := ⟨hd, hu⟩
  have hsl := hf.slave
  classical
  have hex : ∀ a, ∃ p, x.Sends a → ∃ a0 e a0' z w m e' v r, RoundAll cfgM cfgS id τ x y v1 v2 a a0 e a0' z w m p e' v r ∧
      ∀ b0 f b0' z' w' m' q f' u r', RoundAll cfgM cfgS id τ x y v1 v2 a b0 f b0' z' w' m' q f' u r' → reqSlave r' = id → q = p := by
    intro a
    by_cases hs : x.Sends a
    · obtain ⟨a0, e, a0', z, w, m, p, e', v, r, h⟩ := round_at hw hc B hf ll hs
      exact ⟨p, fun _ => ⟨a0, e, a0', z, w, m, e', v, r, h⟩⟩
    · exact ⟨0, fun h => absurd h hs⟩
  refine ⟨fun a => Classical.choose (hex a), fun a hs => ?_, fun p hp => ?_, fun a a' r r' haa hs hs' hr hr' => ?_, fun k hk => ?_⟩
  · obtain ⟨a0, e, a0', z, w, m, e', v, r, Q, -⟩ := Classical.choose_spec (hex a) hs
    obtain ⟨b, hb⟩ := Q.slave.facts.out
    refine ⟨r, b, hb, Q.slave.facts.qty, Q.slave.facts.data, fun hr => ?_, fun hr => ?_⟩
    · obtain ⟨T, t1, t2, -⟩ := Q.yes hr
      exact ⟨Q.executed B hf ll hr, v, ⟨T.av, T.poll, T.out, T.silent⟩, t2, t1⟩
    · obtain ⟨T, t1, -⟩ := Q.no hr
      obtain ⟨⟨s, fc, adr, qty, er⟩, h1, h2, h3, h4, h5⟩ := T.out
      dsimp only at h2 h3 h4 h5
      subst h2 h3 h4 h5
      exact ⟨v, fc, ⟨T.av, T.poll, h1, T.silent⟩, t1⟩
  · obtain ⟨a, a0, e, a0', z, w, m, e', v, r, Q, hr, hs⟩ := slave_sends hw hc B hf ll hp
    obtain ⟨_, _, _, _, _, _, _, _, _, _, h⟩ := Classical.choose_spec (hex a) hs
    obtain ⟨b, hb⟩ := Q.slave.facts.out
    exact ⟨a, r, by rw [hb]; exact List.mem_cons_self .., hr, (h _ _ _ _ _ _ _ _ _ _ Q hr).symm⟩
  · have key : ∀ {a r}, .lib (.send (reqFrame r)) ∈ x.out a → reqSlave r = id → ∀ {r'}, SendFacts x a r' → reqSlave r' = id := by
      intro a r h1 h2 r' F
      obtain ⟨b, hb⟩ := F.out
      rw [hb] at h1
      simp only [List.mem_cons, HMOut.lib.injEq, MOut.send.injEq, reduceCtorEq, List.not_mem_nil, or_false] at h1
      have h3 := congrArg (fun l => l.getD 0 0) h1
      have h4 : ∀ r, (reqFrame r).getD 0 0 = reqSlave r := fun r => rfl
      simp only [h4] at h3
      rw [← h3, h2]
    have s1 : x.Sends a := ⟨_, hs⟩
    have s2 : x.Sends a' := ⟨_, hs'⟩
    obtain ⟨a0, e, a0', z, w, m, e', v, r1, Q, -⟩ := Classical.choose_spec (hex a) s1
    obtain ⟨b0, f, b0', z', w', m', f', v', r2, Q', -⟩ := Classical.choose_spec (hex a') s2
    obtain ⟨-, -, h2, -⟩ := Q.yes (key hs hr Q.slave.facts)
    have h3 : v < a' := Classical.byContradiction fun hn => Q.last a' haa (by omega) s2
    have h4 := B.master.time_le (Nat.le_of_lt h3)
    have h5 := Q'.after B hf ll
    show Classical.choose (hex a) < Classical.choose (hex a')
    refine Classical.byContradiction fun hn => ?_
    have := B.slave.time_le (show Classical.choose (hex a') ≤ Classical.choose (hex a) by omega)
    omega
  · rcases sys_cases hc (B.slave.step k) (fun m i h => B.slave.noInit k m i h) with ⟨-, h | h⟩ | ⟨-, f, b, h⟩
    · exact .inr h
    · exact absurd h hk
    · exact .inl ⟨f, by rw [h]; exact List.mem_cons_self ..⟩

end

end Modbus
