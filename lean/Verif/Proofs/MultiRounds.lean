import Verif.Proofs.MultiTold
import Verif.Props.BusTimed

/-! All requests on a line with several slaves. -/

namespace Modbus

open Spec

section
variable {ι : Type} {cfgM : Config} {cfgS : ι → Config} {id : ι → U8} {τ : BusTimes} {c0 s : Nat} {x : MDeviceTimed} {y : ι → DeviceTimed}
  {via : Option ι → Option ι → Nat → Nat} {a a0 z w u : Nat} {c e m e1 c2 e2 : ι → Nat} {r : MReq}

/-- A round and its end: event `v` of the master. Executed at event `p` of the addressed slave. -/
structure LAll (cfgM : Config) (cfgS : ι → Config) (id : ι → U8) (τ : BusTimes) (x : MDeviceTimed) (y : ι → DeviceTimed)
    (via : Option ι → Option ι → Nat → Nat) (a : Nat) (e e2 : ι → Nat) (p v : Nat) (r : MReq) : Prop where
  facts : SendFacts x a r
  mine : ∀ i, id i = reqSlave r → ExecutedAt (cfgS i).limits (id i) x (y i) a p r ∧
    ReportedAt x a v (outcome (cfgS i).limits ((y i).st p).lib.mem r) ∧ (y i).time p ≤ x.time v ∧ x.time v ≤ x.time a + τ.round
  after : ∀ i, id i = reqSlave r → x.time a < (y i).time p
  once : ∀ i, id i = reqSlave r → ∀ k, e i ≤ k → k < e2 i → (y i).Sends k → k = p
  clearS : ∀ i, id i = reqSlave r → ∀ n b, e i ≤ n → n < e2 i → (y i).Writes n b → ¬ Clash τ.c (stations x y) (some i) n
  other : ∀ j, id j ≠ reqSlave r → ∀ k, e j ≤ k → k < e2 j → (y j).out k = []
  nobody : (∀ i, id i ≠ reqSlave r) → ∃ fc, ReportedAt x a v [.timeoutErr ⟨reqSlave r, fc, reqAdr r, reqField r, .timeout⟩] ∧
    x.time v ≤ x.time a + 256 * τ.e + 2 * τ.Pm + (cfgM.respTimeout - 1) * τ.D
  av : a < v
  last : ∀ k, a < k → k ≤ v → ¬ x.Sends k
  clear : ∀ n b, a ≤ n → (∀ k, a < k → k ≤ n → ¬ x.Sends k) → x.Writes n b → ¬ Clash τ.c (stations x y) none n
  later : ∀ j n b, e2 j ≤ n → (y j).Writes n b → ∃ a', a < a' ∧ x.Sends a' ∧ x.time a' + τ.t35 ≤ (y j).time n
  next : ∀ a', a < a' → x.Sends a' → (∀ k, a < k → k < a' → ¬ x.Sends k) → ∃ a0' c2, LRound id τ x y via a' a0' c2 e2

/-- The master is at rest until it transmits again. -/
theorem stand_until (hw : cfgM.MWF) (hx : x.Exec cfgM) (hh : x.Hardware τ.t15 τ.t35 τ.lat) {v a' a0' : Nat} (hp : x.op v = .main .poll)
    (hs : Standing false false (x.st (v + 1)).lib) (hv : v < a') (h0 : a0' ≤ v) (hn : ∀ k, v < k → k < a' → ¬ x.Sends k)
    (hcm : ∀ k, a0' ≤ k → k ≤ a' → ¬ x.Byte k ∧ x.op k ≠ .rto ∧ x.op k ≠ .timer) : Standing false false (x.st a').lib := by
  have := standing_range hw hx hs (a' - (v + 1)) (fun k k1 k2 => ⟨hn k (by omega) (by omega), (hcm k (by omega) (by omega)).1, ?_⟩)
  · rwa [show v + 1 + (a' - (v + 1)) = a' by omega] at this
  · cases hrt : (x.st k).rtof with
    | false => rfl
    | true =>
      obtain ⟨q, q1, q2, q3⟩ := rtof_since hx hh k hrt
      rcases Nat.lt_or_ge q v with h | h
      · rcases q3 v h (by omega) with h' | h' <;> rw [hp] at h' <;> cases h'
      · exact absurd q2 (hcm q (by omega) (by omega)).2.1

theorem no_send_until {v : Nat} {evs : List MEvent} (hs : ∀ k, a < k → k < v → x.Silent k) (ho : x.out v = evs.map fun ev => .lib (.event ev)) :
    ∀ k, a < k → k ≤ v → ¬ x.Sends k := by
  intro k k1 k2 k3
  by_cases h : k = v
  · subst h
    obtain ⟨f, hk⟩ := k3
    rw [ho] at hk
    obtain ⟨ev, -, he⟩ := List.mem_map.1 hk
    cases he
  · exact send_loud k3 (hs k k1 (by omega))

theorem lall (hw : cfgM.MWF) (hc : ∀ j, (cfgS j).WF) (B : TimedLine cfgM cfgS id τ c0 s x y) (hf : τ.FitLine c0 s cfgM.respTimeout)
    (hm : Medium c0 τ.c s τ.t15 (stations x y) via) (R : LRound id τ x y via a a0 c e) :
    ∃ e2 p v r, LAll cfgM cfgS id τ x y via a e e2 p v r := by
  have hx := B.master
  have hsil := hf.one.silence
  have hturn := hf.turn
  obtain ⟨r, F⟩ := hx.sends hw R.sends
  obtain ⟨z, w, C⟩ := master_chain hw hx B.mtx F
  obtain ⟨m, hm1⟩ := Classical.axiomOfChoice (ph_one hw hc B hf hm R F C)
  obtain ⟨e1, H⟩ := Classical.axiomOfChoice hm1
  have P := phase_one hc B hf hm R F C
  have hclr : ∀ n b, a ≤ n → (∀ k, a < k → k ≤ n → ¬ x.Sends k) → x.Writes n b → ¬ Clash τ.c (stations x y) none n :=
    fun n b h1 h2 h3 => P.clear h1 (C.last n b h1 h2 h3)
  by_cases hr : ∃ i, id i = reqSlave r
  · obtain ⟨i, hi⟩ := hr
    obtain ⟨p, e', t, v, c2, e2, T⟩ := ltold hw hc B hf hm R F C H hi
    have V := T.heard
    have huniq : ∀ j, id j = reqSlave r → j = i := fun j hj => B.distinct j i (by rw [hj, hi])
    have hlast := no_send_until V.silent V.out
    have vt := hx.time_le (Nat.le_of_lt V.tv)
    have hb : ∀ N', (∀ k, a < k → k < N' → ¬ x.Sends k) → ∀ k, t < k → k ≤ N' → ¬ x.Byte k := by
      intro N' hN k k1 k2 k3
      obtain ⟨a', a1, a2, a3⟩ := T.fin.byte hw hc B hf hm R.sends C k1 k3
      have : a' < k := hx.lt_of_time (by omega)
      exact hN a' a1 (by omega) a2
    refine ⟨e2, p, v, r, F, ?_, ?_, ?_, ?_, ?_, fun h => absurd hi (h i), V.av, hlast, hclr,
      fun j n b hn hb => T.fin.later hw hc B hf hm R.sends C hn hb, ?_⟩
    · intro j hj
      have := huniq j hj
      subst this
      have h1 := T.after
      have h2 := T.pt
      exact ⟨⟨T.poll, by omega, T.mem, T.sends.out⟩, ⟨V.av, V.poll, V.out, V.silent⟩, by omega, T.time⟩
    · intro j hj
      have := huniq j hj
      subst this
      exact T.after
    · intro j hj
      have := huniq j hj
      subst this
      rw [T.e2i]
      exact T.once
    · intro j hj
      have := huniq j hj
      subst this
      rw [T.e2i]
      exact T.clear
    · intro j hj
      exact T.other j (fun h => hj (by rw [h, hi]))
    · intro a' haa hs' hn
      have hva : v < a' := Classical.byContradiction fun h => hlast a' haa (by omega) hs'
      have hby := hb a' hn
      have htv := V.tv
      have hta := hx.time_le (show t ≤ a' by omega)
      have hcm : ∀ k, t + 1 ≤ k → k ≤ a' → ¬ x.Byte k ∧ x.op k ≠ .rto ∧ x.op k ≠ .timer := fun k k1 k2 =>
        ⟨hby k k1 k2, MDeviceTimed.Hardware.still hx B.mhw (by omega) (c := t + 1) (.inr T.timer) (fun i i1 i2 => hby i i1 (by omega)) k1 k2⟩
      refine ⟨t + 1, c2, T.fin.next hw B hm R.sends C hs' hn (by omega) ?_ (by omega) (.inr T.timer) (fun k k1 k2 => hby k k1 (by omega)) (fun j => ?_)
        (fun j n b n1 hb => ?_)⟩
      · exact stand_until hw hx B.mhw V.poll V.stand hva (show t + 1 ≤ v by omega) (fun k k1 k2 => hn k (by have := V.av; omega) k2) hcm
      · have := T.late j
        omega
      · have := T.old j n b n1 hb
        omega
  · have hr : ∀ i, id i ≠ reqSlave r := fun i hi => hr ⟨i, hi⟩
    have hem : ∀ j, e j ≤ m j := by
      intro j
      have h1 : e j ≤ via none (some j) z := (H j).got.ge
      have h2 := (H j).got.lt
      omega
    have own : ∀ j n b, n < e1 j → (y j).Writes n b → n < e j := by
      intro j n b h1 h2
      refine Classical.byContradiction fun h => ?_
      exact (H j).quiet n b (by omega) h1 h2
    have E : LEnd id x y via a z a (fun j => m j + 1) e1 := by
      refine ⟨Nat.le_refl _, fun j => (H j).got.timer, fun j => (H j).me, fun j => (H j).still, fun j => (H j).sync (hr j), fun j => (H j).ident (hr j), ?_, ?_, ?_⟩
      · intro j n b n1 hb
        have h2 := hem j
        have h3 := R.ce j
        show _ < m j + 1
        rcases Nat.lt_or_ge n a with h | h
        · have := R.down1 j n b h hb
          omega
        · have h4 := ((H j).got.all n b h n1 hb).2.2
          have h5 := (H j).got.lt
          omega
      · intro j n b n1 hb
        have := R.up1 j n b (own j n b n1 hb) hb
        omega
      · intro k j n b hkj n1 hb
        have h2 := hem j
        have h3 := R.ce j
        have := R.cross k j n b hkj (own k n b n1 hb) hb
        show _ < m j + 1
        omega
    obtain ⟨v, V, V2, V3⟩ := lost_core hw hx B.mhw B.mpoll B.tick B.apart hf.one R.stand R.a0a R.a0s R.calm C F (fun k k1 k2 => by
      obtain ⟨a', a1, a2, a3⟩ := E.byte hw hc B hf hm R.sends C k1 k2
      exact ⟨a', a1, hx.lt_of_time (by omega), a2⟩)
    obtain ⟨⟨sl, fc, adr, qty, er⟩, h1, h2, h3, h4, h5⟩ := V.out
    dsimp only at h2 h3 h4 h5
    subst h2 h3 h4 h5
    have hlast := no_send_until (evs := [.timeoutErr ⟨reqSlave r, fc, reqAdr r, reqField r, .timeout⟩]) V.silent h1
    refine ⟨e1, 0, v, r, F, fun i hi => absurd hi (hr i), fun i hi => absurd hi (hr i), fun i hi => absurd hi (hr i), fun i hi => absurd hi (hr i),
      fun j hj => (H j).other hj, fun _ => ⟨fc, ⟨V.av, V.poll, h1, V.silent⟩, V2⟩, V.av, hlast, hclr,
      fun j n b hn hb => E.later hw hc B hf hm R.sends C hn hb, ?_⟩
    intro a' haa hs' hn
    have hva : v < a' := Classical.byContradiction fun h => hlast a' haa (by omega) hs'
    have ha0 := R.a0a
    have hav := V.av
    have hby : ∀ k, a0 ≤ k → k ≤ a' → ¬ x.Byte k := by
      intro k k1 k2 k3
      rcases Nat.lt_trichotomy k a with h | h | h
      · exact R.calm k k1 h k3
      · subst h; exact mmain_not_byte F.op k3
      · obtain ⟨a'', a1, a2, a3⟩ := E.byte hw hc B hf hm R.sends C h k3
        have : a'' < k := hx.lt_of_time (by omega)
        exact hn a'' a1 (by omega) a2
    have hcm : ∀ k, a0 ≤ k → k ≤ a' → ¬ x.Byte k ∧ x.op k ≠ .rto ∧ x.op k ≠ .timer := fun k k1 k2 =>
      ⟨hby k k1 k2, MDeviceTimed.Hardware.still hx B.mhw (by omega) R.a0s (fun i i1 i2 => hby i i1 (by omega)) k1 k2⟩
    refine ⟨a0, fun j => m j + 1, E.next hw B hm R.sends C hs' hn haa ?_ (by omega) R.a0s (fun k k1 k2 => hby k k1 (by omega)) (fun j => ?_)
      (fun j n b n1 hb => ?_)⟩
    · exact stand_until hw hx B.mhw V.poll V3 hva (show a0 ≤ v by omega) (fun k k1 k2 => hn k (by omega) k2) hcm
    · have hH := hf.one.timeout
      unfold BusTimes.round at hH
      have hlen := reqFrame_len F.qty F.data
      have hz := C.timez
      have hmul := Nat.mul_le_mul_right τ.e (show (reqFrame r).length - 1 ≤ 254 by omega)
      have g6 : (y j).time (m j) ≤ (y j).time (via none (some j) z) + τ.t35 + τ.lat := (H j).got.soon
      have g7 : (y j).time (via none (some j) z) ≤ x.time z + τ.c := (H j).got.hi
      show (y j).time (m j) < _
      rcases soon_send hw hx B.apart R.sends haa hs' with h | ⟨t, t1, t2, t3⟩
      · omega
      · exact absurd t3 (hcm t (by omega) (by omega)).2.2
    · have := R.old j n b (own j n b n1 hb) hb
      have := hx.time_le (Nat.le_of_lt haa)
      omega

/-- At the beginning. -/
theorem rest_init (hc : ∀ j, (cfgS j).WF) (B : TimedLine cfgM cfgS id τ c0 s x y) (hf : τ.FitLine c0 s cfgM.respTimeout)
    (hm : Medium c0 τ.c s τ.t15 (stations x y) via) : (∀ j, HSync ((y j).st 0) ∧ ((y j).st 0).lib.id = id j) ∧
      Rest c0 τ.c s τ.t15 τ.t35 (stations x y) via (fun _ => 0) (fun _ => 0) none := by
  have hsil := hf.one.silence
  have hsy : ∀ j, HSync ((y j).st 0) ∧ ((y j).st 0).lib.id = id j := by
    intro j
    obtain ⟨mm, hm⟩ := (B.slave j).init
    obtain ⟨s, s1, s2, s3, -⟩ := hsync_after_init (cfgS j) mm (id j)
    rw [s1] at hm
    simp only [Except.ok.injEq, Prod.mk.injEq] at hm
    rw [← hm.1]
    exact ⟨s2, s3⟩
  refine ⟨hsy, hm, st_mono B, fun l d n b _ _ h => by omega, fun l m hl hm' _ => ?_, fun d n b hd _ hb => ?_, by omega⟩
  · cases l with
    | none => exact absurd rfl hl
    | some j =>
      obtain ⟨k, k1, k2, ⟨b, k3⟩, k4, -⟩ := frame_last (B.shw j) (c := 0) (e := 0) (.inl rfl) (Nat.le_refl _) (fun k _ _ => by omega) hm' (Nat.zero_le _)
      exact ⟨k, b, k1, k2, k3, k4⟩
  · cases d with
    | none => exact absurd rfl hd
    | some j =>
      obtain ⟨m, k, k1, k2, k3, k4, -⟩ := slave_cause (hc j) (B.slave j) (B.shw j) (c := 0) (e := 0) (.inl rfl) (Nat.le_refl _) (fun k _ _ => by omega)
        (hsy j).1 hb (Nat.zero_le _)
      exact ⟨m, Nat.zero_le _, k3, k4⟩

/-- Without a transmission of the master before event `N`, it writes nothing before that. -/
theorem unsent_init (hw : cfgM.MWF) (hx : x.Exec cfgM) {N : Nat} (hn : ∀ k, k < N → ¬ x.Sends k) : ∀ k b, k < N → ¬ x.Writes k b := by
  have hcl : (x.st 0).cur = (x.st 0).last := by
    rcases (hx.mwinv hw 0).hist with ⟨-, -, h⟩ | ⟨done, f, h, -⟩
    · exact h
    · have : mframes (x.trace 0) = [] := rfl
      rw [this] at h
      have := congrArg List.length h
      simp at this
  intro k b hk
  exact (master_unsent hx hcl N (fun i _ i2 => hn i (by omega))).1 k b (by omega) (by omega)

/-- The first round. -/
theorem lround_first (hw : cfgM.MWF) (hc : ∀ j, (cfgS j).WF) (B : TimedLine cfgM cfgS id τ c0 s x y) (hf : τ.FitLine c0 s cfgM.respTimeout)
    (hm : Medium c0 τ.c s τ.t15 (stations x y) via) (hs : x.Sends a) (hn : ∀ k, k < a → ¬ x.Sends k) :
    LRound id τ x y via a 0 (fun _ => 0) (fun _ => 0) := by
  have hx := B.master
  have hsil := hf.one.silence
  obtain ⟨hsy, Z⟩ := rest_init hc B hf hm
  have hwr := unsent_init hw hx hn
  have hby : ∀ k, k ≤ a → ¬ x.Byte k := by
    intro k hk hb
    obtain ⟨b, hb⟩ := mbyte_iff.1 hb
    obtain ⟨n', b', h1, h2, -, h3⟩ := Z.byte (l := none) (k := k) (b := b) (Nat.zero_le _) hb
    have h3 : x.time n' + c0 + τ.t35 ≤ x.time k := h3 rfl
    have : n' < k := hx.lt_of_time (by omega)
    exact hwr n' b' (by omega) h2
  have hst : Standing false false (x.st 0).lib := by
    obtain ⟨l, h1, h2, h3⟩ := sysInit_ok hw MasterSys.powerOn
    obtain ⟨sa, k1, k2⟩ := standing_init hw Master.powerOn
    simp only [masterRun, show masterStep cfgM Master.powerOn (.init .rtu) = .ok (l, []) from h3, ok_bind, pure_eq, Except.ok.injEq, Prod.mk.injEq] at k1
    have := hx.init
    rw [h1] at this
    simp only [Except.ok.injEq, Prod.mk.injEq] at this
    rw [← this.1, k1.1]
    exact k2
  refine ⟨hs, ?_, Nat.zero_le _, .inl rfl, fun k _ h => hby k (by omega), fun _ => .inl rfl, fun _ => Nat.le_refl _, fun j k _ h => by omega,
    fun j => (hsy j).1, fun j => (hsy j).2, fun j n b h1 h2 => absurd h2 (hwr n b h1), fun j n b h => by omega, fun i j n b _ h => by omega,
    fun j n b h => by omega, fun _ _ _ _ _ _ => Nat.zero_le _⟩
  have := standing_range hw hx hst a (fun k k1 k2 => ⟨hn k (by omega), hby k (by omega), ?_⟩)
  · rwa [Nat.zero_add] at this
  · cases hrt : (x.st k).rtof with
    | false => rfl
    | true =>
      obtain ⟨q, q1, q2, q3⟩ := rtof_since hx B.mhw k hrt
      exact absurd q2 (MDeviceTimed.Hardware.still hx B.mhw (by omega) (c := 0) (.inl rfl) (z := a) (fun i _ i2 => hby i (by omega)) (Nat.zero_le _) (by omega)).1

theorem LAll.split {p v : Nat} (Q : LAll cfgM cfgS id τ x y via a e e2 p v r) {j : ι} {q : Nat} (h1 : e j ≤ q) (h2 : q < e2 j) (hq : (y j).Sends q) :
    q = p ∧ id j = reqSlave r := by
  by_cases hj : id j = reqSlave r
  · exact ⟨Q.once j hj q h1 h2 hq, hj⟩
  · obtain ⟨f, hf⟩ := hq
    rw [Q.other j hj q h1 h2] at hf; cases hf

theorem LAll.noclash {p v : Nat} (Q : LAll cfgM cfgS id τ x y via a e e2 p v r) {j : ι} {n : Nat} {b : U8} (h1 : e j ≤ n) (h2 : n < e2 j)
    (hb : (y j).Writes n b) : ¬ Clash τ.c (stations x y) (some j) n := by
  by_cases hj : id j = reqSlave r
  · exact Q.clearS j hj n b h1 h2 hb
  · unfold DeviceTimed.Writes at hb
    rw [Q.other j hj n h1 h2] at hb; cases hb

/-- Every transmission starts a round. -/
theorem lrounds (hw : cfgM.MWF) (hc : ∀ j, (cfgS j).WF) (B : TimedLine cfgM cfgS id τ c0 s x y) (hf : τ.FitLine c0 s cfgM.respTimeout)
    (hm : Medium c0 τ.c s τ.t15 (stations x y) via) (a : Nat) : x.Sends a → ∃ a0 c e, LRound id τ x y via a a0 c e ∧
      (∀ j q, q < e j → (y j).Sends q → ∃ a1 e' e2 v r, LAll cfgM cfgS id τ x y via a1 e' e2 q v r ∧ id j = reqSlave r ∧ x.Sends a1 ∧ a1 < a) ∧
      ∀ j n b, n < e j → (y j).Writes n b → ¬ Clash τ.c (stations x y) (some j) n := by
  induction a using Nat.strongRecOn with
  | ind a ih =>
    intro hs
    rcases last_before x.Sends a with h | ⟨b, b1, b2, b3⟩
    · exact ⟨0, _, _, lround_first hw hc B hf hm hs h, fun j q h => by omega, fun j n b h => by omega⟩
    · obtain ⟨a0, c, e, R, hq, hcl⟩ := ih b b1 b2
      obtain ⟨e2, p, v, r, Q⟩ := lall hw hc B hf hm R
      obtain ⟨a0', c2, R'⟩ := Q.next a b1 hs b3
      refine ⟨a0', c2, e2, R', fun j q q1 q2 => ?_, fun j n b' n1 hb => ?_⟩
      · rcases Nat.lt_or_ge q (e j) with h | h
        · obtain ⟨a1, e', e2', v', r', h1, h2, h3, h4⟩ := hq j q h q2
          exact ⟨a1, e', e2', v', r', h1, h2, h3, by omega⟩
        · obtain ⟨rfl, h2⟩ := Q.split h q1 q2
          exact ⟨b, e, e2, v, r, Q, h2, b2, b1⟩
      · rcases Nat.lt_or_ge n (e j) with h | h
        · exact hcl j n b' h hb
        · exact Q.noclash h n1 hb

/-- Time passes. -/
theorem ltime_passes (B : TimedLine cfgM cfgS id τ c0 s x y) (hd : 0 < τ.d) (K : Nat) : ∃ m, x.op m = .main .tick ∧ K ≤ x.time m := by
  induction K with
  | zero =>
    obtain ⟨m, -, h, -⟩ := B.tick 0
    exact ⟨m, h, Nat.zero_le _⟩
  | succ K ih =>
    obtain ⟨m, h1, h2⟩ := ih
    obtain ⟨m', h3, h4, -⟩ := B.tick m
    have := B.apart m m' h3 h1 h4
    exact ⟨m', h4, by omega⟩

/-- What a slave writes belongs to a round. -/
theorem lwrites (hw : cfgM.MWF) (hc : ∀ j, (cfgS j).WF) (B : TimedLine cfgM cfgS id τ c0 s x y) (hf : τ.FitLine c0 s cfgM.respTimeout)
    (hm : Medium c0 τ.c s τ.t15 (stations x y) via) {j : ι} {n : Nat} {b : U8} (hb : (y j).Writes n b) :
    ∃ a a0 c e e2 p v r, x.Sends a ∧ LRound id τ x y via a a0 c e ∧ LAll cfgM cfgS id τ x y via a e e2 p v r ∧ n < e2 j ∧
      (∀ j q, q < e j → (y j).Sends q → ∃ a1 e' e2 v r, LAll cfgM cfgS id τ x y via a1 e' e2 q v r ∧ id j = reqSlave r ∧ x.Sends a1 ∧ a1 < a) ∧
      ∀ j n b, n < e j → (y j).Writes n b → ¬ Clash τ.c (stations x y) (some j) n := by
  have htick := hf.one.tick
  have hx := B.master
  obtain ⟨K, -, hK⟩ := ltime_passes B (by omega) ((y j).time n + 1)
  rcases last_before x.Sends K with h | ⟨a, a1, a2, a3⟩
  · obtain ⟨-, Z⟩ := rest_init hc B hf hm
    obtain ⟨n', b', -, h2, h3⟩ := Z.write _ (some j) n b rfl (by simp) (Nat.zero_le _) hb
    have h3 : x.time n' + c0 + τ.t35 ≤ (y j).time n := h3
    have : n' < K := hx.lt_of_time (by omega)
    exact absurd h2 (unsent_init hw hx h n' b' this)
  · obtain ⟨a0, c, e, R, hq, hcl⟩ := lrounds hw hc B hf hm a a2
    obtain ⟨e2, p, v, r, Q⟩ := lall hw hc B hf hm R
    refine ⟨a, a0, c, e, e2, p, v, r, a2, R, Q, ?_, hq, hcl⟩
    refine Classical.byContradiction fun h => ?_
    obtain ⟨a', h1, h2, h3⟩ := Q.later j n b (by omega) hb
    have : a' < K := hx.lt_of_time (by omega)
    exact a3 a' h1 this h2

/-- Nothing collides. -/
theorem lclear (hw : cfgM.MWF) (hc : ∀ j, (cfgS j).WF) (B : TimedLine cfgM cfgS id τ c0 s x y) (hf : τ.FitLine c0 s cfgM.respTimeout)
    (hm : Medium c0 τ.c s τ.t15 (stations x y) via) (d : Option ι) {n : Nat} {b : U8} (hb : (stations x y d).writes n b) :
    ¬ Clash τ.c (stations x y) d n := by
  cases d with
  | none =>
    have hb : x.Writes n b := hb
    rcases last_before x.Sends (n + 1) with h | ⟨a, a1, a2, a3⟩
    · exact absurd hb (unsent_init hw B.master h n b (by omega))
    · obtain ⟨a0, c, e, R, -⟩ := lrounds hw hc B hf hm a a2
      obtain ⟨e2, p, v, r, Q⟩ := lall hw hc B hf hm R
      exact Q.clear n b (by omega) (fun k k1 k2 => a3 k k1 (by omega)) hb
  | some j =>
    obtain ⟨a, a0, c, e, e2, p, v, r, -, -, Q, h, -, hcl⟩ := lwrites hw hc B hf hm hb
    rcases Nat.lt_or_ge n (e j) with h' | h'
    · exact hcl j n b h' hb
    · exact Q.noclash h' h hb

/-- Every frame a slave sends belongs to a round. -/
theorem lslave_sends (hw : cfgM.MWF) (hc : ∀ j, (cfgS j).WF) (B : TimedLine cfgM cfgS id τ c0 s x y) (hf : τ.FitLine c0 s cfgM.respTimeout)
    (hm : Medium c0 τ.c s τ.t15 (stations x y) via) {j : ι} {q : Nat} (hq : (y j).Sends q) :
    ∃ a e e2 v r, LAll cfgM cfgS id τ x y via a e e2 q v r ∧ id j = reqSlave r ∧ x.Sends a := by
  obtain ⟨-, b, hb⟩ := slave_send_writes (hc j) (B.slave j) hq
  obtain ⟨a, a0, c, e, e2, p, v, r, hs, -, Q, h, hr, -⟩ := lwrites hw hc B hf hm hb
  rcases Nat.lt_or_ge q (e j) with h' | h'
  · obtain ⟨a1, e', e2', v', r', h1, h2, h3, -⟩ := hr j q h' hq
    exact ⟨a1, e', e2', v', r', h1, h2, h3⟩
  · obtain ⟨rfl, h2⟩ := Q.split h' h hq
    exact ⟨a, e, e2, v, r, Q, h2, hs⟩

/-- A round of a transmission; it contains the only execution of it. -/
theorem lround_at (hw : cfgM.MWF) (hc : ∀ j, (cfgS j).WF) (B : TimedLine cfgM cfgS id τ c0 s x y) (hf : τ.FitLine c0 s cfgM.respTimeout)
    (hm : Medium c0 τ.c s τ.t15 (stations x y) via) (hs : x.Sends a) : ∃ e e2 p v r, LAll cfgM cfgS id τ x y via a e e2 p v r ∧
      ∀ i e' e2' q v' r', LAll cfgM cfgS id τ x y via a e' e2' q v' r' → id i = reqSlave r' → q = p := by
  have hsil := hf.one.silence
  obtain ⟨a0, c, e, R, hr, -⟩ := lrounds hw hc B hf hm a hs
  obtain ⟨e2, p, v, r, Q⟩ := lall hw hc B hf hm R
  refine ⟨e, e2, p, v, r, Q, fun i e' e2' q v' r' Q' hi => ?_⟩
  obtain ⟨X, -, hqv, -⟩ := Q'.mine i hi
  have ht := Q'.after i hi
  have hq := X.sends
  rcases Nat.lt_or_ge q (e i) with h | h
  · obtain ⟨a1, e3, e4, v1, r1, h1, h2, h3, h4⟩ := hr i q h hq
    obtain ⟨-, -, h5, -⟩ := h1.mine i h2
    have : v1 < a := Classical.byContradiction fun hn => h1.last a h4 (by omega) hs
    have := B.master.time_le (Nat.le_of_lt this)
    omega
  · rcases Nat.lt_or_ge q (e2 i) with h' | h'
    · exact (Q.split h h' hq).1
    · obtain ⟨-, b, hb⟩ := slave_send_writes (hc i) (B.slave i) hq
      obtain ⟨a', l1, l2, l3⟩ := Q.later i q b h' hb
      have : v' < a' := Classical.byContradiction fun hn => Q'.last a' l1 (by omega) l2
      have := B.master.time_le (Nat.le_of_lt this)
      omega

end

end Modbus
