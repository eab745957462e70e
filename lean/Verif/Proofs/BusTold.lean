import Verif.Proofs.BusAnswer

/-! One request on the timed bus: what the master's application is told. -/

namespace Modbus

open Spec

section
variable {cfgM cfgS : Config} {id : U8} {τ : BusTimes} {x : MDeviceTimed} {y : DeviceTimed} {v1 v2 : Nat → Nat} {a a0 c e z w m p e' : Nat} {r : MReq}

theorem sys_one {cfg : Config} {s s' : SlaveSys} {op : HOp} {o : List HOut} (h : slaveSysStep cfg s op = .ok (s', o)) (hf : ∀ f, .send f ∉ o) :
    o = [] ∨ ∃ b, o = [.tdr b] := by
  cases op with
  | main op =>
    simp only [slaveSysStep] at h
    split at h
    · simp only [Except.ok.injEq, Prod.mk.injEq] at h; exact .inl h.2.symm
    · obtain ⟨⟨l, o1⟩, h1, h2⟩ := bind_ok h
      cases o1 with
      | nil =>
        simp only [slaveSends, Except.ok.injEq, Prod.mk.injEq] at h2
        exact .inl h2.2.symm
      | cons a os =>
        cases a with
        | send f =>
          simp only [slaveSends] at h2
          obtain ⟨⟨s1, o2⟩, -, h2⟩ := bind_ok h2
          obtain ⟨⟨s2, o3⟩, -, h2⟩ := bind_ok h2
          simp only [pure_eq, Except.ok.injEq, Prod.mk.injEq] at h2
          exact absurd (show HOut.send f ∈ o by rw [← h2.2]; simp) (hf f)
  | rto => simp only [slaveSysStep, Except.ok.injEq, Prod.mk.injEq] at h; exact .inl h.2.symm
  | timer =>
    simp only [slaveSysStep] at h
    obtain ⟨⟨l, o1⟩, h1, h⟩ := bind_ok h
    simp only [pure_eq, Except.ok.injEq, Prod.mk.injEq] at h; exact .inl h.2.symm
  | usart rx t =>
    simp only [slaveSysStep] at h
    obtain ⟨s1, h1, h⟩ := bind_ok h
    obtain ⟨⟨s2, o2⟩, h2, h⟩ := bind_ok h
    obtain ⟨s3, h3, h⟩ := bind_ok h
    simp only [pure_eq, Except.ok.injEq, Prod.mk.injEq] at h
    rw [← h.2]
    simp only [slaveIrqTx] at h2
    split at h2
    · split at h2
      · obtain ⟨b, -, h2⟩ := bind_ok h2
        simp only [pure_eq, Except.ok.injEq, Prod.mk.injEq] at h2
        exact .inr ⟨b, h2.2.symm⟩
      · obtain ⟨⟨l, o1⟩, -, h2⟩ := bind_ok h2
        simp only [pure_eq, Except.ok.injEq, Prod.mk.injEq] at h2
        exact .inl h2.2.symm
    · simp only [Except.ok.injEq, Prod.mk.injEq] at h2
      exact .inl h2.2.symm

theorem sW_sent {cfg : Config} (hy : y.Exec cfg id) {G : List U8} (hds : DevSends y p G) {n : Nat} {b : U8} (h1 : p ≤ n)
    (hns : ∀ k, p < k → k ≤ n → ¬ y.Sends k) (h : y.Writes n b) : sW y n = [b] := by
  unfold DeviceTimed.Writes at h
  unfold sW
  by_cases hp : n = p
  · subst hp
    obtain ⟨b', hb⟩ := hds.out
    rw [hb] at h ⊢
    have : b = b' := by simpa using h
    subst this; rfl
  · rcases sys_one (hy.step n) (fun f hf => hns n (by omega) (Nat.le_refl _) ⟨f, hf⟩) with h' | ⟨b', h'⟩
    · rw [h'] at h; cases h
    · rw [h'] at h ⊢
      have : b = b' := by simpa using h
      subst this; rfl

theorem sW_writes (B : TimedBus cfgM cfgS id τ x y) (S : SlaveRound cfgS id τ x y v1 a e z w r m p e') (hr : reqSlave r = id) {n : Nat} {b : U8}
    (h1 : p ≤ n) (h2 : n < e') (h : y.Writes n b) : sW y n = [b] := by
  obtain ⟨-, hds, hns, -⟩ := S.yes hr
  exact sW_sent B.slave hds h1 (fun k k1 k2 => hns k k1 (by omega)) h

/-- An event of the master without transmissions and callbacks, from the trace. -/
theorem silent_of (hx : x.Exec cfgM) {n n' : Nat} (h : outs (mainTrace (x.tr n n')) = []) {k : Nat} (h1 : n ≤ k) (h2 : k < n') : x.Silent k := by
  intro o ho
  cases hop : x.op k with
  | main op =>
    have hm : (op, libOuts (x.out k)) ∈ mainTrace (x.tr n n') := by
      unfold mainTrace
      exact List.mem_filterMap.2 ⟨(x.op k, x.out k), MDeviceTimed.mem_tr.2 ⟨k, h1, h2, rfl⟩, by simp only [hop]⟩
    have hl : o ∈ libOuts (x.out k) := by
      unfold libOuts
      exact List.mem_filterMap.2 ⟨_, ho, rfl⟩
    cases hb : isOut o with
    | false => rfl
    | true =>
      have : o ∈ outs (mainTrace (x.tr n n')) := by
        unfold outs
        exact List.mem_filter.2 ⟨List.mem_flatMap.2 ⟨_, hm, hl⟩, hb⟩
      rw [h] at this; cases this
  | _ => exact absurd ho (not_main_out hx (by rw [hop]; simp) o)

/-- The application is told the outcome. -/
structure RoundTold (cfgS : Config) (x : MDeviceTimed) (y : DeviceTimed) (a p v : Nat) (r : MReq) : Prop where
  av : a < v
  poll : x.op v = .main .poll
  out : x.out v = (outcome cfgS.limits (y.st p).lib.mem r).map fun ev => .lib (.event ev)
  silent : ∀ k, a < k → k < v → x.Silent k

/-- What follows a response that has come in completely with the timer event `t` of the master: the report at event `v`. -/
structure RoundHeard (x : MDeviceTimed) (Pm a t v : Nat) (evs : List MEvent) : Prop where
  tv : t < v
  av : a < v
  poll : x.op v = .main .poll
  out : x.out v = evs.map fun ev => .lib (.event ev)
  silent : ∀ k, a < k → k < v → x.Silent k
  time : x.time v ≤ x.time t + Pm
  stand : Standing false false (x.st (v + 1)).lib
  calm : ∀ k, t < k → k ≤ v → ¬ x.Byte k ∧ x.op k ≠ .rto ∧ x.op k ≠ .timer

theorem hmBytes_append (l1 l2 : List HMOp) : hmBytes (l1 ++ l2) = hmBytes l1 ++ hmBytes l2 := by
  unfold hmBytes
  exact List.filterMap_append ..

/-- The master's side of an answered request. -/
theorem told_core (hw : cfgM.MWF) (hx : x.Exec cfgM) (hh : x.Hardware τ.t15 τ.t35 τ.lat)
    (hpoll : ∀ n, ∃ m, n < m ∧ x.op m = .main .poll ∧ x.time m ≤ x.time n + τ.Pm)
    (hap : ∀ m n, m < n → x.op m = .main .tick → x.op n = .main .tick → x.time m + τ.d ≤ x.time n) (hf : τ.Fit cfgM.respTimeout)
    (stand : Standing false false (x.st a).lib) (a0a : a0 ≤ a) (a0s : a0 = 0 ∨ x.op (a0 - 1) = .timer) (calm : ∀ k, a0 ≤ k → k < a → ¬ x.Byte k)
    (C : Chain x τ.e a z w r) (F : SendFacts x a r) {kz t : Nat} {G : List U8} (atl : a < kz) (lt : kz < t) (timer : x.op t = .timer)
    (first : ∀ k, a < k → k < t → x.op k ≠ .timer) (early : x.time kz + τ.t35 ≤ x.time t) (soon : x.time t < x.time a + (cfgM.respTimeout - 2) * τ.d)
    (tail : ∀ k, kz < k → k < t → ¬ x.Byte k) (jb : x.Byte kz) (blate : ∀ k, a < k → k ≤ t → x.Byte k → x.time z + τ.t35 ≤ x.time k)
    (left : ∀ k, a < k → k < kz → x.Byte k → ∃ k', k < k' ∧ k' ≤ kz ∧ x.Byte k' ∧ x.time k' < x.time k + τ.t15)
    (after : ∀ k, t < k → x.Byte k → x.time t + τ.Pm < x.time k) (hG : hmBytes (x.seg (a + 1) t) = G) (hGl : G.length ≤ 255) (hG0 : G ≠ [])
    (hgr : GoodResponse r G) : ∃ v, RoundHeard x τ.Pm a t v (responseEvents r G) := by
  have hsil := hf.silence
  have htxm := hf.txMaster
  -- receiver timeouts
  have ronly : ∀ k, a < k → k ≤ t → x.op k = .rto → kz < k ∧ ∀ i, kz < i → i < k → x.op i ≠ .rto := by
    intro k k1 k2 k3
    obtain ⟨j, j1, j2, j3, j4⟩ := hh.rtoOnly k k3
    have haj : a < j := by
      refine Classical.byContradiction fun h => ?_
      refine (MDeviceTimed.Hardware.still hx hh (by omega) a0s (z := k) (fun i i1 i2 hi => ?_) (show a0 ≤ k by omega) (Nat.le_refl _)).1 k3
      rcases Nat.lt_or_ge i a with h' | h'
      · exact calm i i1 h' hi
      · by_cases hia : i = a
        · subst hia; exact mmain_not_byte F.op hi
        · exact (j4 i (by omega) i2).1 hi
    have hjz : j = kz := by
      rcases Nat.lt_trichotomy j kz with h | h | h
      · obtain ⟨k', l1, l2, l3, l4⟩ := left j haj h j2
        rcases Nat.lt_or_ge k' k with h' | h'
        · exact absurd l3 (j4 k' l1 h').1
        · have := hx.time_le h'
          omega
      · exact h
      · exact absurd j2 (tail j h (by omega))
    subst hjz
    exact ⟨j1, fun i i1 i2 => (j4 i i1 i2).2⟩
  obtain ⟨q, q1, q2, q3⟩ := hh.rtoMust _ jb
  have hqt : q < t := hx.lt_of_time (by omega)
  have hq : x.op q = .rto := by
    rcases q2 with h | h
    · exact absurd h (tail q q1 hqt)
    · exact h
  have runiq : ∀ k, a < k → k ≤ t → k ≠ q → x.op k ≠ .rto := by
    intro k k1 k2 k3 k4
    obtain ⟨l1, l2⟩ := ronly k k1 k2 k4
    obtain ⟨l3, l4⟩ := ronly q (by omega) (by omega) hq
    rcases Nat.lt_or_ge k q with h | h
    · exact l4 k l1 h k4
    · exact l2 q l3 (by omega) hq
  -- its interrupt
  obtain ⟨i, irx, itx, i1, i2, i3⟩ := hh.irq q hq
  have hit : i < t := hx.lt_of_time (by omega)
  have hq1 : ∃ ft, x.op (q + 1) = .usart none ft := by
    cases hop : x.op (q + 1) with
    | main op => exact absurd hop (hh.stalled (q + 1) op (rto_sets hx hq))
    | rto => exact absurd hop (runiq (q + 1) (by omega) (by omega) (by omega))
    | timer =>
      by_cases h : q + 1 = i
      · rw [h, i2] at hop; cases hop
      · exact absurd hop (first (q + 1) (by omega) (by omega))
    | usart rx ft =>
      cases rx with
      | none => exact ⟨ft, rfl⟩
      | some b => exact absurd ⟨b, ft, hop⟩ (tail (q + 1) (by omega) (by omega))
  obtain ⟨ft, hft⟩ := hq1
  -- the polls
  obtain ⟨w', w1, w2, w3⟩ := hpoll w
  obtain ⟨p1, p11, p12, p13, p14⟩ := least_beyond (p := fun n => x.op n = .main .poll) w1 w2
  have C1 := C.timew
  have C2 := C.zw
  have C3 := C.az
  have hp1 : x.time p1 ≤ x.time w + τ.Pm := by have := hx.time_le p12; omega
  have hjl := blate _ atl (by omega) jb
  have hpj : p1 < kz := hx.lt_of_time (by omega)
  have hnob : ∀ k, a < k → k ≤ p1 → ¬ x.Byte k := by
    intro k k1 k2 k3
    have := blate k k1 (by omega) k3
    have := hx.time_le k2
    omega
  obtain ⟨w'', w4, w5, w6⟩ := hpoll (q + 1)
  obtain ⟨p2, p21, p22, p23, p24⟩ := least_beyond (p := fun n => x.op n = .main .poll) w4 w5
  have hiq := hx.time_le (show q + 1 ≤ i by omega)
  have hp2 : x.time p2 ≤ x.time (q + 1) + τ.Pm := by have := hx.time_le p22; omega
  have hpt : p2 < t := hx.lt_of_time (by omega)
  obtain ⟨w7, w8, w9, w10⟩ := hpoll t
  obtain ⟨v, va, vb, vc, vd⟩ := least_beyond (p := fun n => x.op n = .main .poll) w8 w9
  have hv : x.time v ≤ x.time t + τ.Pm := by have := hx.time_le vb; omega
  have hnb2 : ∀ k, t < k → k ≤ v → ¬ x.Byte k := by
    intro k k1 k2 k3
    have := after k k1 k3
    have := hx.time_le k2
    omega
  have hst2 : ∀ k, t < k → k ≤ v → x.op k ≠ .rto ∧ x.op k ≠ .timer := by
    intro k k1 k2
    exact MDeviceTimed.Hardware.still hx hh (by omega) (c := t + 1) (.inr timer) (fun i i1 i2 => hnb2 i (by omega) (by omega)) (show t + 1 ≤ k by omega) k2
  have hw0 : x.op w = .usart none true := isTx_none (hnob w (by omega) (by omega)) C.txw
  -- the attempt
  have hfr : hmBytes (x.seg (p1 + 1) q) = G := by
    rw [← hG, x.seg_split (show a + 1 ≤ p1 + 1 by omega) (show p1 + 1 ≤ t by omega), x.seg_split (show p1 + 1 ≤ q by omega) (show q ≤ t by omega),
      hmBytes_append, hmBytes_append, hmBytes_nil (n := a + 1) (m := p1 + 1) fun k k1 k2 => hnob k (by omega) (by omega),
      hmBytes_nil (n := q) (m := t) fun k k1 k2 => tail k (by omega) (by omega),
      List.append_nil, List.nil_append]
  have hT : 2 < cfgM.respTimeout := by
    have hH := hf.timeout
    refine Classical.byContradiction fun h => ?_
    rw [show cfgM.respTimeout - 2 = 0 by omega, Nat.zero_mul] at hH
    omega
  have hnt : ∀ k, a < k → k < t → x.op k ≠ .timer := first
  have hmem : ∀ {n n' : Nat} {P : HMOp → Prop}, (∀ k, n ≤ k → k < n' → P (x.op k)) → ∀ op ∈ x.seg n n', P op := by
    intro n n' P h op ho
    obtain ⟨k, k1, k2, rfl⟩ := MDeviceTimed.mem_seg.1 ho
    exact h k k1 k2
  obtain ⟨att, hatt⟩ : ∃ att : HMAttempt, att = HMAttempt.mk (x.seg (a + 1) w) (x.seg (w + 1) p1) []
      (HMHeard.mk (x.seg (p1 + 1) q) [] none ft (x.seg (q + 2) p2)) (x.seg (p2 + 1) t) (x.seg (t + 1) v) := ⟨_, rfl⟩
  have hb1 : hmBytes (x.seg (q + 2) p2) = [] := hmBytes_nil fun k k1 k2 => tail k (by omega) (by omega)
  have hb2 : hmBytes (x.seg (p2 + 1) t) = [] := hmBytes_nil fun k k1 k2 => tail k (by omega) (by omega)
  have hframe : att.resp.frame = G := by
    rw [hatt]
    show hmBytes (x.seg (p1 + 1) q) ++ [] ++ hmBytes (x.seg (q + 2) p2) = G
    rw [hb1, hfr, List.append_nil, List.append_nil]
  have hticks : hmTicks (x.seg (p1 + 1) q) + hmTicks (x.seg (q + 2) p2) + 1 < cfgM.respTimeout := by
    have hs : hmTicks (x.seg (p1 + 1) p2) = hmTicks (x.seg (p1 + 1) q) + hmTicks (x.seg q (q + 2)) + hmTicks (x.seg (q + 2) p2) := by
      rw [x.seg_split (show p1 + 1 ≤ q by omega) (show q ≤ p2 by omega), x.seg_split (show q ≤ q + 2 by omega) (show q + 2 ≤ p2 by omega),
        hmTicks_append, hmTicks_append]
      omega
    rcases ticks_time hx hap (a := p1 + 1) (p2 - (p1 + 1)) with h | ⟨l, l1, l2, l3, l4⟩
    · rw [show p1 + 1 + (p2 - (p1 + 1)) = p2 by omega] at h
      omega
    · rw [show p1 + 1 + (p2 - (p1 + 1)) = p2 by omega] at l2 l4
      have h1 := hx.time_le (show l ≤ t by omega)
      have h2 := hx.time_le (show a ≤ p1 + 1 by omega)
      have h3 : (hmTicks (x.seg (p1 + 1) p2) - 1) * τ.d < (cfgM.respTimeout - 2) * τ.d := by
        omega
      have := Nat.lt_of_mul_lt_mul_right h3
      omega
  have hwf : att.Wf cfgM.respTimeout r := by
    refine ⟨?_, ?_, ?_, ?_, ⟨⟨?_, ?_, ?_, ?_, by rw [hframe]; exact hG0, by rw [hframe]; exact hGl⟩, ?_⟩, ?_, ?_, ?_, ?_⟩
    · rw [hatt]
      exact hmem fun k k1 k2 => mnoise hx (hnob k (by omega) (by omega)) (runiq k (by omega) (by omega) (by omega)) (hnt k (by omega) (by omega))
    · rw [hatt]
      exact C.count fun k k1 k2 => hnob k k1 (by omega)
    · rw [hatt]
      exact hmem fun k k1 k2 => mquiet hx (hnob k (by omega) (by omega)) (runiq k (by omega) (by omega) (by omega)) (hnt k (by omega) (by omega))
        (p14 k (by omega) (by omega))
    · rw [hatt]; intro h hh; cases hh
    · rw [hatt]
      exact hmem fun k k1 k2 => (mtail hx (runiq k (by omega) (by omega) (by omega)) (hnt k (by omega) (by omega))).rxNoise
    · rw [hatt]; intro h hh; cases hh
    · rw [hatt]
      exact hmem fun k k1 k2 => by
        have h := mquiet hx (tail k (by omega) (by omega)) (runiq k (by omega) (by omega) (by omega)) (hnt k (by omega) (by omega)) (p24 k (by omega) (by omega))
        cases hop : x.op k with
        | main op => rw [hop] at h; exact h
        | _ => trivial
    · rw [hatt]
      exact silent_rx (hmem fun k k1 k2 => (mtail hx (runiq k (by omega) (by omega) (by omega)) (hnt k (by omega) (by omega))).rxNoise)
    · rw [hframe, hgr.slave]
    · rw [hatt]
      show 0 + (hmTicks (x.seg (p1 + 1) q) + 0 + hmTicks (x.seg (q + 2) p2)) + 1 < _
      omega
    · rw [hatt]
      exact hmem fun k k1 k2 => mtail hx (runiq k (by omega) (by omega) (by omega)) (hnt k (by omega) (by omega))
    · rw [hframe, hatt]
      show G.length + (hmBytes (x.seg (p2 + 1) t)).length ≤ 255
      rw [hb2]; exact hGl
    · rw [hatt]
      exact hmem fun k k1 k2 => mquiet hx (hnb2 k (by omega) (by omega)) (hst2 k (by omega) (by omega)).1 (hst2 k (by omega) (by omega)).2
        (vd k (by omega) (by omega))
  have hgap : att.gapped = false := by
    rw [hatt]
    show lateByte false false ([] ++ (x.seg (p1 + 1) q ++ .rto :: [] ++ .usart none ft :: x.seg (q + 2) p2 ++ [.main .poll]) ++ x.seg (p2 + 1) t) = false
    simp only [List.nil_append, List.append_assoc, List.cons_append]
    rw [lateByte_before (hmem fun k k1 k2 => runiq k (by omega) (by omega) (by omega))]
    refine lateByte_none (fun b tt hb => ?_) _ _
    simp only [List.mem_cons, List.mem_append, reduceCtorEq, HMOp.usart.injEq, false_and, false_or] at hb
    rcases hb with hb | hb
    · obtain ⟨k, k1, k2, k3⟩ := MDeviceTimed.mem_seg.1 hb
      exact tail k (by omega) (by omega) ⟨b, tt, k3⟩
    · obtain ⟨k, k1, k2, k3⟩ := MDeviceTimed.mem_seg.1 hb
      exact tail k (by omega) (by omega) ⟨b, tt, k3⟩
  have hinit : att.init = x.seg (a + 1) v := by
    rw [hatt]
    show x.seg (a + 1) w ++ .usart none true :: x.seg (w + 1) p1 ++ .main .poll ::
      ([] ++ (x.seg (p1 + 1) q ++ .rto :: [] ++ .usart none ft :: x.seg (q + 2) p2 ++ [.main .poll]) ++ x.seg (p2 + 1) t) ++ .timer :: x.seg (t + 1) v = _
    rw [x.seg_split (show a + 1 ≤ w by omega) (show w ≤ v by omega), x.seg_cons (show w < v by omega),
      x.seg_split (show w + 1 ≤ p1 by omega) (show p1 ≤ v by omega), x.seg_cons (show p1 < v by omega),
      x.seg_split (show p1 + 1 ≤ q by omega) (show q ≤ v by omega), x.seg_cons (show q < v by omega), x.seg_cons (show q + 1 < v by omega),
      x.seg_split (show q + 1 + 1 ≤ p2 by omega) (show p2 ≤ v by omega), x.seg_cons (show p2 < v by omega),
      x.seg_split (show p2 + 1 ≤ t by omega) (show t ≤ v by omega), x.seg_cons (show t < v by omega), hw0, p13, hq, hft, p23, timer]
    simp only [List.nil_append, List.append_assoc, List.cons_append]
  -- run it
  obtain ⟨g, gi, gs⟩ := hx.sound hw a
  obtain ⟨b0, hout⟩ := F.out
  have hstep := hx.step a
  rw [F.op] at hstep
  obtain ⟨i', g1, mi, hD⟩ := device_start hw gi stand F.qty hstep (by rw [hout]; rfl)
  obtain ⟨s', htr, g', d1, d2, d3, d4⟩ := device_attempt hw mi hD hwf
  rw [hinit] at d1
  obtain ⟨e1, e2⟩ := hx.seg_eq (show a + 1 ≤ v by omega) d1
  rw [hgap, hframe] at d4
  have hP : P6 i' r 0 .cleared .cleared G s'.lib := by
    rcases d4 with ⟨-, h⟩ | ⟨h, -⟩
    · exact h
    · exact absurd hgr.crc h
  obtain ⟨l, gl, f1, f2, f3⟩ := final_ok hw d3 hP hgr
  have hfin := sys_main (s := s') (show MOp.isMain .poll = true by rfl) (fun m h => nomatch h) f1 (by
    intro f hf'
    obtain ⟨ev, -, h⟩ := List.mem_map.1 hf'
    cases h)
  rw [← e1] at hfin
  obtain ⟨c1, c2⟩ := hx.step_eq vc hfin
  refine ⟨v, ⟨va, by omega, vc, ?_, ?_, hv, ?_, fun k k1 k2 => ⟨hnb2 k k1 k2, hst2 k k1 k2⟩⟩⟩
  · rw [c2, List.map_map]; rfl
  · intro k k1 k2
    exact silent_of hx (by rw [e2]; exact d2) (show a + 1 ≤ k by omega) k2
  · rw [c1]
    exact ⟨f3.st, f3.t15, f3.ferr, f3.crcf⟩

theorem told (hw : cfgM.MWF) (hc : cfgS.WF) (B : TimedBus cfgM cfgS id τ x y) (hf : τ.Fit cfgM.respTimeout) (ll : Lines τ x y v1 v2)
    (R : RoundInv id x y v1 v2 a a0 c e) (A : Arrived cfgM.respTimeout τ x y v1 a e z m) (S : SlaveRound cfgS id τ x y v1 a e z w r m p e')
    (hr : reqSlave r = id) {zs t : Nat} (N : Answer cfgM.respTimeout τ x y v2 a e p e' zs t) :
    ∃ v, RoundTold cfgS x y a p v r ∧ t < v ∧ x.time v ≤ x.time a + τ.round ∧ Standing false false (x.st (v + 1)).lib ∧
      (∀ k, t < k → k ≤ v → ¬ x.Byte k ∧ x.op k ≠ .rto ∧ x.op k ≠ .timer) := by
  obtain ⟨-, hds, hns, hwire⟩ := S.yes hr
  obtain ⟨hgr, hev⟩ := response_outcome (l := cfgS.limits) (m := (y.st p).lib.mem) r S.facts.qty
  obtain ⟨G, hG⟩ : ∃ G, G = rtuFrame id (encodeResponse (respond cfgS.limits (y.st p).lib.mem (asRequest r))) := ⟨_, rfl⟩
  rw [hr, ← hG] at hgr hev
  rw [← hG] at hwire
  have hsil := hf.silence
  have hsl := hf.slave
  have htxm := hf.txMaster
  have hH := hf.timeout
  have A3 := A.soon
  have A4 := A.klt
  have A5 := A.early
  have A6 := A.ekl
  have A7 := A.klm
  have S1 := S.mp
  have S2 := S.pe
  have S3 := S.time
  have C := S.chain
  have F := S.facts
  have hx := B.master
  obtain ⟨bz, hbz⟩ := C.wz
  obtain ⟨bs, hbs⟩ := N.wz
  have haz := hx.time_le C.az
  have kl1 := (ll.down.arrives z bz hbz).2.1
  have hmp := B.slave.time_le (show m ≤ p by omega)
  have N1 := N.early
  have N2 := N.soon
  have N3 := N.atl
  have N4 := N.lt
  have N5 := N.time
  have jb : x.Byte (v2 zs) := mbyte_iff.2 ⟨bs, (ll.up.arrives zs bs hbs).1⟩
  -- bytes come late
  have blate : ∀ k, a < k → k ≤ t → x.Byte k → x.time z + τ.t35 ≤ x.time k := by
    intro k k1 k2 k3
    obtain ⟨n, b, g1, g2, g3, g4, rfl⟩ := N.bytes k k1 k2 k3
    have := (ll.up.arrives n b g4).2.1
    have := B.slave.time_le g1
    omega
  have hfr : hmBytes (x.seg (a + 1) t) = G := by
    obtain ⟨W, hW⟩ : ∃ W : Nat → List U8, W = fun n => if p ≤ n ∧ n < e' then sW y n else [] := ⟨_, rfl⟩
    have hWn : ∀ n, W n ≠ [] → p ≤ n ∧ n < e' ∧ ∃ b, y.Writes n b ∧ W n = [b] := by
      intro n hn
      rw [hW] at hn ⊢
      dsimp only at hn ⊢
      by_cases h : p ≤ n ∧ n < e'
      · rw [if_pos h] at hn ⊢
        obtain ⟨b, hb⟩ := sW_ne hn
        exact ⟨h.1, h.2, b, hb, sW_writes B S hr h.1 h.2 hb⟩
      · rw [if_neg h] at hn; exact absurd rfl hn
    have hcong : (List.range' p (e' - p)).flatMap (sW y) = (List.range' p (e' - p)).flatMap W := by
      simp only [List.flatMap_def]
      congr 1
      refine List.map_congr_left fun n hn => ?_
      have := List.mem_range'_1.1 hn
      rw [hW]
      dsimp only
      rw [if_pos ⟨this.1, by omega⟩]
    rw [← hwire, wire_outs, hmBytes_seg, hcong]
    refine transfer (via := v2) (fun n hn => ?_) (fun n n' h hn hn' => ?_) (e' - p) (show a + 1 ≤ t by omega) (fun n n1 n2 hn => ?_) (fun k k1 k2 hk => ?_)
    · obtain ⟨-, -, b, hb, hb'⟩ := hWn n hn
      rw [hb']
      exact mR_gets (ll.up.arrives n b hb).1
    · obtain ⟨-, -, b, hb, -⟩ := hWn n hn
      obtain ⟨-, -, b', hb', -⟩ := hWn n' hn'
      exact ll.up.order n n' b b' h hb hb'
    · obtain ⟨g1, g2, b, hb, -⟩ := hWn n hn
      have hnz := (N.round n b (by omega) g2 hb).2
      have hle : v2 n ≤ v2 zs := by
        by_cases h : n = zs
        · subst h; exact Nat.le_refl _
        · exact Nat.le_of_lt (ll.up.order n zs b bs (by omega) hb hbs)
      have h1 := (ll.up.arrives n b hb).2.1
      have h2 := B.slave.time_le g1
      have : a < v2 n := hx.lt_of_time (by omega)
      exact ⟨by omega, by omega⟩
    · obtain ⟨b, hb⟩ := mR_ne hk
      obtain ⟨n, b', g1, g2, g3, g4, g5⟩ := N.bytes k (by omega) (by omega) (mbyte_iff.2 ⟨b, hb⟩)
      refine ⟨n, g1, by omega, ?_, g5⟩
      rw [hW]
      dsimp only
      rw [if_pos ⟨g1, g3⟩, sW_writes B S hr g1 g3 g4]
      simp
  have hlft : ∀ k, a < k → k < v2 zs → x.Byte k → ∃ k', k < k' ∧ k' ≤ v2 zs ∧ x.Byte k' ∧ x.time k' < x.time k + τ.t15 := by
    intro k k1 k2 k3
    obtain ⟨n, b, g1, g2, g3, g4, rfl⟩ := N.bytes k k1 (by omega) k3
    refine N.left n b g1 ?_ g4
    refine Classical.byContradiction fun h => ?_
    have : n = zs := by omega
    subst this; omega
  have haft : ∀ k, t < k → x.Byte k → x.time t + τ.Pm < x.time k := by
    intro k k1 k3
    rcases mbyte_from hc B ll R A S (by omega) k3 with ⟨n, b, g1, g2, g3, g4, -⟩ | ⟨a', a1, a2, a3⟩
    · have hnz := (N.round n b g1 g2 g3).2
      subst g4
      by_cases h : n = zs
      · subst h; omega
      · have := ll.up.order n zs b bs (by omega) g3 hbs; omega
    · refine Classical.byContradiction fun h => ?_
      have : a' < t := hx.lt_of_time (by omega)
      exact N.quiet a' a1 (by omega) a2
  have hG0 : G ≠ [] := by
    intro h
    have h2 := hds.last
    rw [← hG, h] at h2
    simp at h2
  have hGl : G.length ≤ 255 := by rw [hG]; exact hds.len
  obtain ⟨v, V⟩ := told_core hw hx B.mhw B.mpoll B.apart hf R.stand R.a0a R.a0s R.calm C F N3 N4 N.timer N.first N1
    (by unfold BusTimes.round at hH; omega) N.tail jb blate hlft haft hfr hGl hG0 hgr
  have V1 := V.time
  refine ⟨v, ⟨V.av, V.poll, ?_, V.silent⟩, V.tv, ?_, V.stand, V.calm⟩
  · rw [V.out, hev]
  · unfold BusTimes.round
    omega

end

end Modbus
