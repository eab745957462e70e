import Verif.Proofs.BusTold
import Verif.Proofs.DriverSession

/-! One request on the timed bus that is for nobody on the line. -/

namespace Modbus

open Spec

section
variable {cfgM cfgS : Config} {id : U8} {τ : BusTimes} {x : MDeviceTimed} {y : DeviceTimed} {v1 v2 : Nat → Nat} {a a0 c e z w m p e' : Nat} {r : MReq}

/-- The tick number `N` (from 0) after event `q`. -/
theorem nth_tick (hx : x.Exec cfgM) {D : Nat} (ht : ∀ n, ∃ m, n < m ∧ x.op m = .main .tick ∧ x.time m ≤ x.time n + D) (q N : Nat) :
    ∃ u, q < u ∧ x.op u = .main .tick ∧ hmTicks (x.seg (q + 1) u) = N ∧ x.time u ≤ x.time q + (N + 1) * D := by
  induction N with
  | zero =>
    obtain ⟨m, m1, m2, m3⟩ := ht q
    obtain ⟨u, u1, u2, u3, u4⟩ := least_beyond (p := fun n => x.op n = .main .tick) m1 m2
    refine ⟨u, u1, u3, ?_, ?_⟩
    · unfold hmTicks
      rw [List.count_eq_zero]
      intro h
      obtain ⟨k, k1, k2, k3⟩ := MDeviceTimed.mem_seg.1 h
      exact u4 k (by omega) k2 k3
    · have := hx.time_le u2
      omega
  | succ N ih =>
    obtain ⟨u0, i1, i2, i3, i4⟩ := ih
    obtain ⟨m, m1, m2, m3⟩ := ht u0
    obtain ⟨u, u1, u2, u3, u4⟩ := least_beyond (p := fun n => x.op n = .main .tick) m1 m2
    refine ⟨u, by omega, u3, ?_, ?_⟩
    · rw [x.seg_split (show q + 1 ≤ u0 by omega) (show u0 ≤ u by omega), x.seg_cons u1, hmTicks_append, i3, i2]
      have h0 : hmTicks (x.seg (u0 + 1) u) = 0 := by
        unfold hmTicks
        rw [List.count_eq_zero]
        intro h
        obtain ⟨k, k1, k2, k3⟩ := MDeviceTimed.mem_seg.1 h
        exact u4 k (by omega) k2 k3
      unfold hmTicks at h0 ⊢
      rw [List.count_cons_self, h0]
    · have := hx.time_le u2
      rw [Nat.succ_mul (N + 1)]
      omega

/-- The master waits after the poll that notices the end of the transmission. -/
theorem wait_state (hw : cfgM.MWF) (hx : x.Exec cfgM) (hs : Standing false false (x.st a).lib) (F : SendFacts x a r) (C : Chain x τ.e a z w r) {p1 : Nat}
    (hwp : w < p1) (hp : x.op p1 = .main .poll) (hfirst : ∀ k, w < k → k < p1 → x.op k ≠ .main .poll)
    (hn : ∀ k, a < k → k < p1 → ¬ x.Byte k ∧ x.op k ≠ .rto ∧ x.op k ≠ .timer) :
    ∃ i, P3 cfgM i r 0 .cleared .cleared 0 [] (x.st (p1 + 1)).lib := by
  have C1 := C.az
  have C2 := C.zw
  obtain ⟨g, gi, gs⟩ := hx.sound hw a
  obtain ⟨b0, hout⟩ := F.out
  have hstep := hx.step a
  rw [F.op] at hstep
  obtain ⟨i, g1, mi, hD⟩ := device_start hw gi hs F.qty hstep (by rw [hout]; rfl)
  have hmem : ∀ {n n' : Nat} {P : HMOp → Prop}, (∀ k, n ≤ k → k < n' → P (x.op k)) → ∀ op ∈ x.seg n n', P op := by
    intro n n' P h op ho
    obtain ⟨k, k1, k2, rfl⟩ := MDeviceTimed.mem_seg.1 ho
    exact h k k1 k2
  have t1 : ∀ op ∈ x.seg (a + 1) w, op.noise :=
    hmem fun k k1 k2 => mnoise hx (hn k (by omega) (by omega)).1 (hn k (by omega) (by omega)).2.1 (hn k (by omega) (by omega)).2.2
  have t2 : ∀ op ∈ x.seg (w + 1) p1, op.quiet :=
    hmem fun k k1 k2 => mquiet hx (hn k (by omega) (by omega)).1 (hn k (by omega) (by omega)).2.1 (hn k (by omega) (by omega)).2.2
      (hfirst k (by omega) (by omega))
  obtain ⟨l, tr, g2, h1, h2, h3, h4⟩ := run_to_wait hw mi hD.lib (libOps_noise t1) (libOps_quiet t2)
  have hops : sendOps (libOps false false (x.seg (a + 1) w)) (libOps false false (x.seg (w + 1) p1)) =
      libOps false false (x.seg (a + 1) w) ++ .txDone :: libOps false false (x.seg (w + 1) p1 ++ [.main .poll]) := by
    unfold sendOps
    rw [libOps_append, gapAfter_noise (fun op ho => (t2 op ho).noise), silent_rx (fun op ho => (t2 op ho).noise.rxNoise)]
    simp [libOps]
  rw [hops] at h1
  obtain ⟨s', htr, k1, k2, -⟩ := sim_send t1 (C.count fun k k1 k2 => (hn k k1 (by omega)).1) (rest := x.seg (w + 1) p1 ++ [.main .poll])
    (by
      intro op ho
      rcases List.mem_append.1 ho with h | h
      · exact (t2 op h).noise.rxNoise.plain
      · rw [List.mem_singleton.1 h]; exact ⟨rfl, fun m h => nomatch h⟩) hD.cur hD.last hD.lt hD.gap hD.rtof mi.drv h1 (noSend_of_outs h2)
  have hseg : x.seg (a + 1) w ++ .usart none true :: (x.seg (w + 1) p1 ++ [.main .poll]) = x.seg (a + 1) (p1 + 1) := by
    rw [x.seg_split (show a + 1 ≤ w by omega) (show w ≤ p1 + 1 by omega), x.seg_cons (show w < p1 + 1 by omega),
      x.seg_split (show w + 1 ≤ p1 by omega) (show p1 ≤ p1 + 1 by omega), x.seg_one, hp, isTx_none (hn w (by omega) hwp).1 C.txw]
  rw [hseg] at k1
  have := (hx.seg_eq (show a + 1 ≤ p1 + 1 by omega) k1).1
  rw [this, k2]
  exact ⟨i, h4⟩

/-- The application is told that nobody answered. -/
structure RoundLost (x : MDeviceTimed) (a v : Nat) (r : MReq) : Prop where
  av : a < v
  poll : x.op v = .main .poll
  out : ∃ rep, x.out v = [.lib (.event (.timeoutErr rep))] ∧ rep.slave = reqSlave r ∧ rep.adr = reqAdr r ∧ rep.qty = reqField r ∧ rep.err = .timeout
  silent : ∀ k, a < k → k < v → x.Silent k

/-- The master's side of a request that nobody answers. -/
theorem lost_core (hw : cfgM.MWF) (hx : x.Exec cfgM) (hh : x.Hardware τ.t15 τ.t35 τ.lat)
    (hpoll : ∀ n, ∃ m, n < m ∧ x.op m = .main .poll ∧ x.time m ≤ x.time n + τ.Pm)
    (htick : ∀ n, ∃ m, n < m ∧ x.op m = .main .tick ∧ x.time m ≤ x.time n + τ.D)
    (hap : ∀ m n, m < n → x.op m = .main .tick → x.op n = .main .tick → x.time m + τ.d ≤ x.time n) (hf : τ.Fit cfgM.respTimeout)
    (stand : Standing false false (x.st a).lib) (a0a : a0 ≤ a) (a0s : a0 = 0 ∨ x.op (a0 - 1) = .timer) (hcalm : ∀ k, a0 ≤ k → k < a → ¬ x.Byte k)
    (C : Chain x τ.e a z w r) (F : SendFacts x a r) (nob : ∀ k, a < k → x.Byte k → ∃ a', a < a' ∧ a' < k ∧ x.Sends a') :
    ∃ v, RoundLost x a v r ∧ x.time v ≤ x.time a + 256 * τ.e + 2 * τ.Pm + (cfgM.respTimeout - 1) * τ.D ∧ Standing false false (x.st (v + 1)).lib := by
  have C1 := C.az
  have C2 := C.zw
  have C3 := C.timew
  have C4 := C.timez
  have hsil := hf.silence
  have hT : 2 < cfgM.respTimeout := by
    have hH := hf.timeout
    refine Classical.byContradiction fun h => ?_
    rw [show cfgM.respTimeout - 2 = 0 by omega, Nat.zero_mul] at hH
    omega
  have calm : ∀ N, (∀ k, a < k → k < N → ¬ x.Sends k) → ∀ k, a ≤ k → k ≤ N → ¬ x.Byte k ∧ x.op k ≠ .rto ∧ x.op k ≠ .timer := by
    intro N hN k k1 k2
    have hb : ∀ i, a ≤ i → i ≤ N → ¬ x.Byte i := by
      intro i i1 i2 i3
      by_cases hia : i = a
      · subst hia; exact mmain_not_byte F.op i3
      · obtain ⟨a', a1, a2, a3⟩ := nob i (by omega) i3
        exact hN a' a1 (by omega) a3
    refine ⟨hb k k1 k2, MDeviceTimed.Hardware.still hx hh (by omega) a0s (z := N) (fun i i1 i2 => ?_) (by omega) k2⟩
    rcases Nat.lt_or_ge i a with h | h
    · exact hcalm i i1 h
    · exact hb i h (by omega)
  obtain ⟨w', w1, w2, w3⟩ := hpoll w
  obtain ⟨p1, p11, p12, p13, p14⟩ := least_beyond (p := fun n => x.op n = .main .poll) w1 w2
  have hp1 : x.time p1 ≤ x.time w + τ.Pm := by have := hx.time_le p12; omega
  have ns1 : ∀ k, a < k → k < p1 → ¬ x.Sends k := by
    intro k k1 k2 k3
    rcases Nat.lt_or_ge w k with h | h
    · obtain ⟨r', F'⟩ := hx.sends hw k3
      exact p14 k h k2 F'.op
    · exact C.quiet k k1 h k3
  have cm1 := calm p1 ns1
  obtain ⟨i, hP3⟩ := wait_state hw hx stand F C p11 p13 p14 (fun k k1 k2 => cm1 k (by omega) (by omega))
  obtain ⟨u, u1, u2, u3, u4⟩ := nth_tick hx htick p1 (cfgM.respTimeout - 2)
  obtain ⟨w7, w8, w9, w10⟩ := hpoll u
  obtain ⟨v, va, vb, vc, vd⟩ := least_beyond (p := fun n => x.op n = .main .poll) w8 w9
  have hv : x.time v ≤ x.time u + τ.Pm := by have := hx.time_le vb; omega
  -- no transmission before `v`
  have ns2 : ∀ N, N ≤ v → ∀ k, a < k → k < N → ¬ x.Sends k := by
    intro N
    induction N with
    | zero => intro _ k _ h; omega
    | succ N ih =>
      intro hN k k1 k2 k3
      by_cases hk : k < N
      · exact ih (by omega) k k1 hk k3
      · have hkN : k = N := by omega
        subst hkN
        have cm := calm k (ih (by omega))
        obtain ⟨r', F'⟩ := hx.sends hw k3
        rcases Nat.lt_trichotomy k p1 with h | h | h
        · exact ns1 k k1 h k3
        · subst h
          have := F'.st
          rw [hP3.st_eq] at this
          cases this
        · have := next_send hw hx (a := p1 + 1) (k := 0) (.inr (.inl ⟨hP3.st_eq, by rw [hP3.timer_eq]; omega⟩)) (show p1 + 1 ≤ k by omega) k3
            (fun i i1 i2 => (cm i (by omega) (by omega)).2.2)
          have huk : u < k := by
            refine Classical.byContradiction fun h' => ?_
            have hs : hmTicks (x.seg (p1 + 1) u) = hmTicks (x.seg (p1 + 1) k) + hmTicks (x.seg k u) := by
              rw [x.seg_split (show p1 + 1 ≤ k by omega) (show k ≤ u by omega), hmTicks_append]
            omega
          exact vd k huk (by omega) F'.op
  have cm := calm v (ns2 v (Nat.le_refl _))
  have hmem : ∀ {n n' : Nat} {P : HMOp → Prop}, (∀ k, n ≤ k → k < n' → P (x.op k)) → ∀ op ∈ x.seg n n', P op := by
    intro n n' P h op ho
    obtain ⟨k, k1, k2, rfl⟩ := MDeviceTimed.mem_seg.1 ho
    exact h k k1 k2
  have cn : ∀ k, a ≤ k → k ≤ v → (x.op k).noise := fun k k1 k2 => mnoise hx (cm k k1 k2).1 (cm k k1 k2).2.1 (cm k k1 k2).2.2
  -- two ticks are further apart than the poll
  have ntick : ∀ k, u < k → k < v → x.op k ≠ .main .tick := by
    intro k k1 k2 k3
    have h1 := hap u k k1 u2 k3
    have h2 := hx.time_le (show k ≤ v by omega)
    have := hf.tick
    omega
  obtain ⟨att, hatt⟩ : ∃ att : HTimeout, att = HTimeout.mk (x.seg (a + 1) w) (x.seg (w + 1) p1) [] (x.seg (p1 + 1) u) (x.seg (u + 1) v) := ⟨_, rfl⟩
  have hwf : att.Wf cfgM.respTimeout r := by
    rw [hatt]
    refine ⟨hmem fun k k1 k2 => cn k (by omega) (by omega), C.count fun k k1 k2 => (cm k (by omega) (by omega)).1, ?_, fun h hh => (by cases hh), ?_, ?_, ?_, ?_⟩
    · exact hmem fun k k1 k2 => mquiet hx (cm k (by omega) (by omega)).1 (cm k (by omega) (by omega)).2.1 (cm k (by omega) (by omega)).2.2
        (p14 k (by omega) k2)
    · exact hmem fun k k1 k2 => (cn k (by omega) (by omega)).rxNoise
    · exact hmem (P := fun op => op.rxNoise ∧ op ≠ .main .poll ∧ op ≠ .main .tick)
        fun k k1 k2 => ⟨(cn k (by omega) (by omega)).rxNoise, vd k (by omega) k2, ntick k (by omega) k2⟩
    · show (hmBytes (x.seg (p1 + 1) u)).length + (hmBytes (x.seg (u + 1) v)).length ≤ 255
      rw [hmBytes_nil fun k k1 k2 => (cm k (by omega) (by omega)).1, hmBytes_nil fun k k1 k2 => (cm k (by omega) (by omega)).1]
      decide
    · show 0 + hmTicks (x.seg (p1 + 1) u) + 2 = _
      omega
  have hgap : att.gapped = false := by
    rw [hatt]
    show lateByte false false ([] ++ x.seg (p1 + 1) u ++ .main .tick :: x.seg (u + 1) v) = false
    refine lateByte_none (fun b tt hb => ?_) _ _
    simp only [List.nil_append, List.mem_cons, List.mem_append, reduceCtorEq, false_or] at hb
    rcases hb with hb | hb
    · obtain ⟨k, k1, k2, k3⟩ := MDeviceTimed.mem_seg.1 hb
      exact (cm k (by omega) (by omega)).1 ⟨b, tt, k3⟩
    · obtain ⟨k, k1, k2, k3⟩ := MDeviceTimed.mem_seg.1 hb
      exact (cm k (by omega) (by omega)).1 ⟨b, tt, k3⟩
  have hinit : att.init = x.seg (a + 1) v := by
    rw [hatt]
    show x.seg (a + 1) w ++ .usart none true :: x.seg (w + 1) p1 ++ .main .poll :: ([] ++ x.seg (p1 + 1) u ++ .main .tick :: x.seg (u + 1) v) = _
    rw [x.seg_split (show a + 1 ≤ w by omega) (show w ≤ v by omega), x.seg_cons (show w < v by omega),
      x.seg_split (show w + 1 ≤ p1 by omega) (show p1 ≤ v by omega), x.seg_cons (show p1 < v by omega),
      x.seg_split (show p1 + 1 ≤ u by omega) (show u ≤ v by omega), x.seg_cons (show u < v by omega), p13, u2,
      isTx_none (cm w (by omega) (by omega)).1 C.txw]
    simp only [List.nil_append, List.append_assoc, List.cons_append]
  obtain ⟨g, gi, gs⟩ := hx.sound hw a
  obtain ⟨b0, hout⟩ := F.out
  have hstep := hx.step a
  rw [F.op] at hstep
  obtain ⟨i', g1, mi, hD⟩ := device_start hw gi stand F.qty hstep (by rw [hout]; rfl)
  obtain ⟨s', htr, g', k, f, d1, d2, d3, d4, d5⟩ := device_silence hw mi hD hwf
  rw [hinit] at d1
  obtain ⟨e1, e2⟩ := hx.seg_eq (show a + 1 ≤ v by omega) d1
  rw [hgap] at d4
  obtain ⟨l, gl, rep, f1, f2, f3, f4, f5, f6, f7, f8, f9, f10⟩ := poll_timeout hw d3 d4 d5
  have hfin := sys_main (s := s') (show MOp.isMain .poll = true by rfl) (fun m h => nomatch h) f1 (by simp)
  rw [← e1] at hfin
  obtain ⟨c1, c2⟩ := hx.step_eq vc hfin
  refine ⟨v, ⟨by omega, vc, ⟨rep, c2, f3, f4, f5, f6⟩, ?_⟩, ?_, ?_⟩
  · intro k k1 k2
    exact silent_of hx (by rw [e2]; exact d2) (show a + 1 ≤ k by omega) k2
  · have hl := reqFrame_len F.qty F.data
    have := Nat.mul_le_mul_right τ.e (show (reqFrame r).length - 1 ≤ 254 by omega)
    rw [show cfgM.respTimeout - 2 + 1 = cfgM.respTimeout - 1 by omega] at u4
    omega
  · rw [c1]
    exact ⟨f7, f8, f9, f10⟩

theorem lost (hw : cfgM.MWF) (hc : cfgS.WF) (B : TimedBus cfgM cfgS id τ x y) (hf : τ.Fit cfgM.respTimeout) (ll : Lines τ x y v1 v2)
    (R : RoundInv id x y v1 v2 a a0 c e) (A : Arrived cfgM.respTimeout τ x y v1 a e z m) (S : SlaveRound cfgS id τ x y v1 a e z w r m p e')
    (hr : reqSlave r ≠ id) :
    ∃ v, RoundLost x a v r ∧ x.time v ≤ x.time a + 256 * τ.e + 2 * τ.Pm + (cfgM.respTimeout - 1) * τ.D ∧ Standing false false (x.st (v + 1)).lib := by
  have hno := S.no hr
  have hx := B.master
  refine lost_core hw hx B.mhw B.mpoll B.tick B.apart hf R.stand R.a0a R.a0s R.calm S.chain S.facts fun k k1 k2 => ?_
  rcases mbyte_from hc B ll R A S k1 k2 with ⟨n, b, g1, g2, g3, g4, -⟩ | ⟨a', a1, a2, a3⟩
  · have := hno n g1 g2
    unfold DeviceTimed.Writes at g3
    rw [this] at g3; cases g3
  · have := hf.silence
    exact ⟨a', a1, hx.lt_of_time (by omega), a2⟩

end

end Modbus
