import Verif.Proofs.BusSilence

/-! All requests on the timed bus. -/

namespace Modbus

open Spec

section
variable {cfgM cfgS : Config} {id : U8} {τ : BusTimes} {x : MDeviceTimed} {y : DeviceTimed} {v1 v2 : Nat → Nat} {a a0 c e z w m p e' : Nat} {r : MReq}

/-- A round and its end: event `v` of the master. -/
structure RoundAll (cfgM cfgS : Config) (id : U8) (τ : BusTimes) (x : MDeviceTimed) (y : DeviceTimed) (v1 v2 : Nat → Nat) (a a0 e a0' z w m p e' v : Nat)
    (r : MReq) : Prop where
  slave : SlaveRound cfgS id τ x y v1 a e z w r m p e'
  arrived : Arrived cfgM.respTimeout τ x y v1 a e z m
  yes : reqSlave r = id → RoundTold cfgS x y a p v r ∧ x.time v ≤ x.time a + τ.round ∧ y.time p ≤ x.time v ∧
    ∃ zs t, Answer cfgM.respTimeout τ x y v2 a e p e' zs t ∧ a0' = t + 1
  no : reqSlave r ≠ id → RoundLost x a v r ∧ x.time v ≤ x.time a + 256 * τ.e + 2 * τ.Pm + (cfgM.respTimeout - 1) * τ.D ∧ a0' = a0
  av : a < v
  poll : x.op v = .main .poll
  stand : Standing false false (x.st (v + 1)).lib
  start : a0' ≤ v
  starts : a0' = 0 ∨ x.op (a0' - 1) = .timer
  calm : ∀ N, (∀ k, a < k → k < N → ¬ x.Sends k) → ∀ k, a0' ≤ k → k ≤ N → ¬ x.Byte k ∧ x.op k ≠ .rto ∧ x.op k ≠ .timer
  silent : ∀ k, a < k → k < v → x.Silent k
  last : ∀ k, a < k → k ≤ v → ¬ x.Sends k

theorem send_loud (h : x.Sends a) : ¬ x.Silent a := by
  obtain ⟨f, hf⟩ := h
  intro h
  exact absurd (h _ hf) (by simp [isOut])

theorem round_all (hw : cfgM.MWF) (hc : cfgS.WF) (B : TimedBus cfgM cfgS id τ x y) (hf : τ.Fit cfgM.respTimeout) (ll : Lines τ x y v1 v2)
    (R : RoundInv id x y v1 v2 a a0 c e) : ∃ a0' z w m p e' v r, RoundAll cfgM cfgS id τ x y v1 v2 a a0 e a0' z w m p e' v r := by
  have hx := B.master
  have hsil := hf.silence
  obtain ⟨r, F⟩ := hx.sends hw R.sends
  obtain ⟨z, w, C⟩ := master_chain hw hx B.mtx F
  obtain ⟨m, A⟩ := arrived hw hc B hf ll R F C
  obtain ⟨p, e', S⟩ := slave_round hw hc B hf ll R F C A
  by_cases hr : reqSlave r = id
  · obtain ⟨zs, t, N⟩ := answer hw hc B hf ll R A S hr
    obtain ⟨v, T1, T2, T3, T4, T5⟩ := told hw hc B hf ll R A S hr N
    have N1 := N.atl
    have N2 := N.lt
    have hb : ∀ N', (∀ k, a < k → k < N' → ¬ x.Sends k) → ∀ k, t < k → k ≤ N' → ¬ x.Byte k := by
      intro N' hN k k1 k2 k3
      obtain ⟨bs, hbs⟩ := N.wz
      rcases mbyte_from hc B ll R A S (by omega) k3 with ⟨n, b, g1, g2, g3, g4, -⟩ | ⟨a', a1, a2, a3⟩
      · have hnz := (N.round n b g1 g2 g3).2
        subst g4
        by_cases h : n = zs
        · subst h; omega
        · have := ll.up.order n zs b bs (by omega) g3 hbs; omega
      · have : a' < k := hx.lt_of_time (by omega)
        exact hN a' a1 (by omega) a2
    refine ⟨t + 1, z, w, m, p, e', v, r, S, A, fun _ => ⟨T1, T3, ?_, zs, t, N, rfl⟩, fun h => absurd hr h, T1.av, T1.poll, T4, by omega, .inr N.timer, ?_, T1.silent, ?_⟩
    · obtain ⟨bs, hbs⟩ := N.wz
      have h1 := (ll.up.arrives zs bs hbs).2.1
      have h2 := B.slave.time_le N.pz
      have h3 := hx.time_le (show v2 zs ≤ v by omega)
      omega
    · intro N' hN k k1 k2
      exact ⟨hb N' hN k (by omega) k2, MDeviceTimed.Hardware.still hx B.mhw (by omega) (c := t + 1) (.inr N.timer)
        (fun i i1 i2 => hb N' hN i (by omega) (by omega)) k1 k2⟩
    · intro k k1 k2 k3
      by_cases h : k = v
      · subst h
        obtain ⟨f, hk⟩ := k3
        rw [T1.out] at hk
        obtain ⟨ev, -, he⟩ := List.mem_map.1 hk
        cases he
      · exact send_loud k3 (T1.silent k k1 (by omega))
  · obtain ⟨v, T1, T2, T3⟩ := lost hw hc B hf ll R A S hr
    have ha0 := R.a0a
    refine ⟨a0, z, w, m, p, e', v, r, S, A, fun h => absurd h hr, fun _ => ⟨T1, T2, rfl⟩, T1.av, T1.poll, T3, by have := T1.av; omega, R.a0s, ?_, T1.silent, ?_⟩
    · intro N hN k k1 k2
      have hb : ∀ i, a0 ≤ i → i ≤ N → ¬ x.Byte i := by
        intro i i1 i2 i3
        rcases Nat.lt_or_ge a i with h | h
        · rcases mbyte_from hc B ll R A S h i3 with ⟨n, b, g1, g2, g3, g4, -⟩ | ⟨a', a1, a2, a3⟩
          · have := S.no hr n g1 g2
            unfold DeviceTimed.Writes at g3
            rw [this] at g3; cases g3
          · have : a' < i := hx.lt_of_time (by omega)
            exact hN a' a1 (by omega) a2
        · by_cases h' : i = a
          · subst h'; exact mmain_not_byte F.op i3
          · exact R.calm i i1 (by omega) i3
      exact ⟨hb k k1 k2, MDeviceTimed.Hardware.still hx B.mhw (by omega) R.a0s (fun i i1 i2 => hb i i1 (by omega)) k1 k2⟩
    · intro k k1 k2 k3
      by_cases h : k = v
      · subst h
        obtain ⟨f, hk⟩ := k3
        obtain ⟨rep, h1, -⟩ := T1.out
        rw [h1] at hk
        simp at hk
      · exact send_loud k3 (T1.silent k k1 (by omega))

/-- The round after a round. -/
theorem round_next (hw : cfgM.MWF) (B : TimedBus cfgM cfgS id τ x y) (ll : Lines τ x y v1 v2) (R : RoundInv id x y v1 v2 a a0 c e) {a0' v : Nat}
    (Q : RoundAll cfgM cfgS id τ x y v1 v2 a a0 e a0' z w m p e' v r) {a' : Nat} (haa : a < a') (hs : x.Sends a')
    (hn : ∀ k, a < k → k < a' → ¬ x.Sends k) : RoundInv id x y v1 v2 a' a0' (m + 1) e' := by
  have hx := B.master
  have hva : v < a' := by
    refine Classical.byContradiction fun h => ?_
    exact Q.last a' haa (by omega) hs
  have hcm := Q.calm a' hn
  have h0 := Q.start
  refine next_round B ll R Q.arrived Q.slave haa hs hn ?_ (by omega) Q.starts (fun k k1 k2 => (hcm k k1 (by omega)).1) ?_
  · have := standing_range hw hx Q.stand (a' - (v + 1)) (fun k k1 k2 => ⟨hn k (by have := Q.av; omega) (by omega), (hcm k (by omega) (by omega)).1, ?_⟩)
    · rwa [show v + 1 + (a' - (v + 1)) = a' by omega] at this
    · cases hrt : (x.st k).rtof with
      | false => rfl
      | true =>
        obtain ⟨q, q1, q2, q3⟩ := rtof_since hx B.mhw k hrt
        rcases Nat.lt_or_ge q v with h | h
        · rcases q3 v h (by omega) with h' | h' <;> rw [Q.poll] at h' <;> cases h'
        · exact absurd q2 (hcm q (by omega) (by omega)).2.1
  · intro n b n1 n2 n3
    by_cases hr : reqSlave r = id
    · obtain ⟨-, -, -, zs, t, N, ht⟩ := Q.yes hr
      obtain ⟨bs, hbs⟩ := N.wz
      have hnz := (N.round n b n1 n2 n3).2
      have := N.lt
      by_cases h : n = zs
      · subst h; omega
      · have := ll.up.order n zs b bs (by omega) n3 hbs; omega
    · have := Q.slave.no hr n n1 n2
      unfold DeviceTimed.Writes at n3
      rw [this] at n3; cases n3

/-- Before the first transmission nothing happens on the line. -/
theorem first_calm (hw : cfgM.MWF) (hc : cfgS.WF) (B : TimedBus cfgM cfgS id τ x y) (hf : τ.Fit cfgM.respTimeout) (ll : Lines τ x y v1 v2) {N : Nat}
    (hn : ∀ k, k < N → ¬ x.Sends k) : (∀ k b, k < N → ¬ x.Writes k b) ∧ ∀ k, k ≤ N → ¬ x.Byte k := by
  have hx := B.master
  have hsil := hf.silence
  have hcl : (x.st 0).cur = (x.st 0).last := by
    rcases (hx.mwinv hw 0).hist with ⟨-, -, h⟩ | ⟨done, f, h, -⟩
    · exact h
    · have : mframes (x.trace 0) = [] := rfl
      rw [this] at h
      have := congrArg List.length h
      simp at this
  have hwr : ∀ k b, k < N → ¬ x.Writes k b := by
    intro k b hk
    exact (master_unsent hx hcl N (fun i _ i2 => hn i (by omega))).1 k b (by omega) (by omega)
  refine ⟨hwr, fun k hk hb => ?_⟩
  obtain ⟨b, hb⟩ := mbyte_iff.1 hb
  obtain ⟨n, n1, rfl⟩ := ll.up.only k b hb
  have h1 := (ll.up.arrives n b n1).2.1
  obtain ⟨mm, hm⟩ := B.slave.init
  obtain ⟨s, s1, s2, s3, -⟩ := hsync_after_init cfgS mm id
  rw [s1] at hm
  simp only [Except.ok.injEq, Prod.mk.injEq] at hm
  obtain ⟨m, k', -, k2, k3, k4, k5, k6⟩ := slave_cause hc B.slave B.shw (c := 0) (e := 0) (.inl rfl) (Nat.le_refl _) (fun k _ h => by omega)
    (by rw [← hm.1]; exact s2) n1 (Nat.zero_le _)
  obtain ⟨b', hb'⟩ := sbyte_iff.1 k5
  obtain ⟨n', n1', rfl⟩ := ll.down.only k' b' hb'
  have h2 := (ll.down.arrives n' b' n1').2.1
  have h3 := B.slave.time_le (show m ≤ n by omega)
  have : n' < v2 n := hx.lt_of_time (by omega)
  exact hwr n' b' (by omega) n1'

/-- The first round. -/
theorem round_first (hw : cfgM.MWF) (hc : cfgS.WF) (B : TimedBus cfgM cfgS id τ x y) (hf : τ.Fit cfgM.respTimeout) (ll : Lines τ x y v1 v2)
    (hs : x.Sends a) (hn : ∀ k, k < a → ¬ x.Sends k) : RoundInv id x y v1 v2 a 0 0 0 := by
  have hx := B.master
  have hsil := hf.silence
  obtain ⟨hwr, hby⟩ := first_calm hw hc B hf ll hn
  have hst : Standing false false (x.st 0).lib := by
    obtain ⟨l, h1, h2, h3⟩ := sysInit_ok hw MasterSys.powerOn
    obtain ⟨sa, k1, k2⟩ := standing_init hw Master.powerOn
    simp only [masterRun, show masterStep cfgM Master.powerOn (.init .rtu) = .ok (l, []) from h3, ok_bind, pure_eq, Except.ok.injEq, Prod.mk.injEq] at k1
    have := hx.init
    rw [h1] at this
    simp only [Except.ok.injEq, Prod.mk.injEq] at this
    rw [← this.1, k1.1]
    exact k2
  obtain ⟨mm, hm⟩ := B.slave.init
  obtain ⟨s, s1, s2, s3, -⟩ := hsync_after_init cfgS mm id
  rw [s1] at hm
  simp only [Except.ok.injEq, Prod.mk.injEq] at hm
  refine ⟨hs, ?_, Nat.zero_le _, .inl rfl, fun k _ h => hby k (by omega), .inl rfl, Nat.le_refl _, fun k _ h => by omega, by rw [← hm.1]; exact s2,
    by rw [← hm.1]; exact s3, fun n b h1 h2 => absurd h2 (hwr n b h1), fun _ _ _ _ => Nat.zero_le _, fun n b h => by omega⟩
  have := standing_range hw hx hst a (fun k k1 k2 => ⟨hn k (by omega), hby k (by omega), ?_⟩)
  · rwa [Nat.zero_add] at this
  · cases hrt : (x.st k).rtof with
    | false => rfl
    | true =>
      obtain ⟨q, q1, q2, q3⟩ := rtof_since hx B.mhw k hrt
      exact absurd q2 (MDeviceTimed.Hardware.still hx B.mhw (by omega) (c := 0) (.inl rfl) (z := a) (fun i _ i2 => hby i (by omega)) (Nat.zero_le _) (by omega)).1

/-- The last event with a property before event `n`. -/
theorem last_before (P : Nat → Prop) (n : Nat) : (∀ k, k < n → ¬ P k) ∨ ∃ k, k < n ∧ P k ∧ ∀ i, k < i → i < n → ¬ P i := by
  induction n with
  | zero => exact .inl fun k h => by omega
  | succ n ih =>
    by_cases hp : P n
    · exact .inr ⟨n, by omega, hp, fun i i1 i2 => by omega⟩
    · rcases ih with h | ⟨k, k1, k2, k3⟩
      · refine .inl fun k hk => ?_
        by_cases hkn : k = n
        · rw [hkn]; exact hp
        · exact h k (by omega)
      · refine .inr ⟨k, by omega, k2, fun i i1 i2 => ?_⟩
        by_cases hin : i = n
        · rw [hin]; exact hp
        · exact k3 i i1 (by omega)

/-- Every transmission starts a round. -/
theorem rounds (hw : cfgM.MWF) (hc : cfgS.WF) (B : TimedBus cfgM cfgS id τ x y) (hf : τ.Fit cfgM.respTimeout) (ll : Lines τ x y v1 v2) (a : Nat) :
    x.Sends a → ∃ a0 c e, RoundInv id x y v1 v2 a a0 c e ∧ ∀ q, q < e → y.Sends q →
      ∃ a1 a01 e1 a0' z w m e' v r, RoundAll cfgM cfgS id τ x y v1 v2 a1 a01 e1 a0' z w m q e' v r ∧ reqSlave r = id ∧ x.Sends a1 ∧ a1 < a := by
  induction a using Nat.strongRecOn with
  | ind a ih =>
    intro hs
    rcases last_before x.Sends a with h | ⟨b, b1, b2, b3⟩
    · exact ⟨0, 0, 0, round_first hw hc B hf ll hs h, fun q h => by omega⟩
    · obtain ⟨a0, c, e, R, hq⟩ := ih b b1 b2
      obtain ⟨a0', z, w, m, p, e', v, r, Q⟩ := round_all hw hc B hf ll R
      refine ⟨a0', m + 1, e', round_next hw B ll R Q b1 hs b3, fun q q1 q2 => ?_⟩
      rcases Nat.lt_or_ge q e with h | h
      · obtain ⟨a1, a01, e1, a0', z, w, m, e', v, r, h1, h2, h3, h4⟩ := hq q h q2
        exact ⟨a1, a01, e1, a0', z, w, m, e', v, r, h1, h2, h3, by omega⟩
      · by_cases hr : reqSlave r = id
        · obtain ⟨-, -, hns, -⟩ := Q.slave.yes hr
          have : q = p := by
            rcases Nat.lt_trichotomy q p with h' | h' | h'
            · obtain ⟨f, hf'⟩ := q2
              rw [Q.slave.before q h h'] at hf'; cases hf'
            · exact h'
            · exact absurd q2 (hns q h' q1)
          subst this
          exact ⟨b, a0, e, a0', z, w, m, e', v, r, Q, hr, b2, b1⟩
        · obtain ⟨f, hf'⟩ := q2
          rw [Q.slave.no hr q h q1] at hf'; cases hf'

end

end Modbus
