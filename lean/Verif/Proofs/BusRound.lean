import Verif.Proofs.BusMaster
import Verif.Proofs.BusSlave
import Verif.Props.DeviceTimed
import Verif.Props.DriverEndToEnd

/-! One request on the timed bus. -/

namespace Modbus

open Spec

section
variable {cfgM cfgS : Config} {id : U8} {τ : BusTimes} {x : MDeviceTimed} {y : DeviceTimed} {v1 v2 : Nat → Nat} {a a0 c e : Nat}

theorem mbyte_iff {k : Nat} : x.Byte k ↔ ∃ b, x.Gets k b := Iff.rfl

theorem sbyte_iff {k : Nat} : y.Byte k ↔ ∃ b, y.Gets k b := Iff.rfl

/-- The two directions of the line. -/
structure Lines (τ : BusTimes) (x : MDeviceTimed) (y : DeviceTimed) (v1 v2 : Nat → Nat) : Prop where
  down : Line τ.c τ.t15 x.Writes x.Sends x.time y.Gets y.time v1
  up : Line τ.c τ.t15 y.Writes y.Sends y.time x.Gets x.time v2

/-- When event `a` of the master starts a transmission: both sides are at rest, the line is empty. -/
structure RoundInv (id : U8) (x : MDeviceTimed) (y : DeviceTimed) (v1 v2 : Nat → Nat) (a a0 c e : Nat) : Prop where
  sends : x.Sends a
  stand : Standing false false (x.st a).lib
  a0a : a0 ≤ a
  a0s : a0 = 0 ∨ x.op (a0 - 1) = .timer
  calm : ∀ k, a0 ≤ k → k < a → ¬ x.Byte k
  start : DevStart y c
  ce : c ≤ e
  still : ∀ k, c ≤ k → k < e → ¬ LineEv y k
  sync : HSync (y.st e)
  ident : (y.st e).lib.id = id
  down1 : ∀ n b, n < a → x.Writes n b → v1 n < c
  down2 : ∀ n b, a ≤ n → x.Writes n b → e ≤ v1 n
  up1 : ∀ n b, n < e → y.Writes n b → v2 n < a

/-- A slave at rest writes only after a frame. -/
theorem slave_cause {t15 t35 lat : Nat} (hc : cfgS.WF) (hy : y.Exec cfgS id) (hh : y.Hardware t15 t35 lat) (hs : DevStart y c) (hce : c ≤ e)
    (hl : ∀ k, c ≤ k → k < e → ¬ LineEv y k) (hsy : HSync (y.st e)) {w : Nat} {b : U8} (hb : y.Writes w b) (hew : e ≤ w) :
    ∃ m k, e ≤ k ∧ k < m ∧ m < w ∧ y.op m = .timer ∧ y.Byte k ∧ y.time k + t35 ≤ y.time m := by
  by_cases h : ∃ m, e ≤ m ∧ m ≤ w ∧ y.op m = .timer
  · obtain ⟨m, m1, m2, m3⟩ := h
    obtain ⟨k, k1, k2, k3, k4, -⟩ := frame_last hh hs hce hl m3 m1
    refine ⟨m, k, k1, k2, ?_, m3, k3, k4⟩
    rcases Nat.lt_or_ge m w with h | h
    · exact h
    · have : m = w := by omega
      subst this
      have hst := hy.step m
      rw [m3] at hst
      simp only [slaveSysStep] at hst
      obtain ⟨⟨l, o1⟩, -, hst⟩ := bind_ok hst
      simp only [pure_eq, Except.ok.injEq, Prod.mk.injEq] at hst
      unfold DeviceTimed.Writes at hb
      rw [← hst.2] at hb; cases hb
  · have := (hy.no35 hc (a := e) (by simp [hsy.sync.t35]) hsy.cur (w + 1 - e) (fun k k1 k2 hk => h ⟨k, k1, by omega, hk⟩)).1 w hew (by omega)
    unfold DeviceTimed.Writes at hb
    rw [this] at hb; cases hb

/-- A timer event at the master after the transmission: a byte of the slave before it. -/
theorem master_cause (B : TimedBus cfgM cfgS id τ x y) (hf : τ.Fit cfgM.respTimeout) (ll : Lines τ x y v1 v2) (R : RoundInv id x y v1 v2 a a0 c e)
    {t : Nat} (ht : x.op t = .timer) (hat : a < t) :
    ∃ j w2 b, a < j ∧ j < t ∧ x.time j + τ.t35 ≤ x.time t ∧ (∀ i, j < i → i < t → ¬ x.Byte i ∧ x.op i ≠ .timer) ∧ y.Writes w2 b ∧ v2 w2 = j ∧
      e ≤ w2 ∧ y.time w2 ≤ x.time j := by
  obtain ⟨j, j1, j2, j3, j4⟩ := B.mhw.timerOnly t ht
  have ha0 : a0 ≤ j := by
    refine Classical.byContradiction fun h => ?_
    rcases R.a0s with h0 | h0
    · omega
    · have := R.a0a
      by_cases hj : j = a0 - 1
      · subst hj; exact mtimer_not_byte h0 j2
      · exact (j4 (a0 - 1) (by omega) (by omega)).2 h0
  have haj : a < j := by
    refine Classical.byContradiction fun h => ?_
    by_cases hj : j = a
    · subst hj
      obtain ⟨f, hs⟩ := R.sends
      obtain ⟨b, q, ho⟩ := j2
      exact not_main_out B.master (by rw [ho]; simp) _ hs
    · exact R.calm j ha0 (by omega) j2
  obtain ⟨b, hb⟩ := mbyte_iff.1 j2
  obtain ⟨w2, w1, rfl⟩ := ll.up.only j b hb
  refine ⟨v2 w2, w2, b, haj, j1, j3, j4, w1, rfl, ?_, (ll.up.arrives w2 b w1).2.1⟩
  refine Classical.byContradiction fun h => ?_
  have := R.up1 w2 b (by omega) w1
  omega

/-- A request is transmitted soon after another one only if a frame came in. -/
theorem soon_send (hw : cfgM.MWF) (hx : x.Exec cfgM) {d : Nat} (hap : ∀ m n, m < n → x.op m = .main .tick → x.op n = .main .tick → x.time m + d ≤ x.time n)
    (ha : x.Sends a) {a' : Nat} (haa : a < a') (hs : x.Sends a') :
    x.time a + (cfgM.respTimeout - 2) * d ≤ x.time a' ∨ ∃ t, a < t ∧ t < a' ∧ x.op t = .timer := by
  by_cases h : ∃ t, a < t ∧ t < a' ∧ x.op t = .timer
  · exact .inr h
  · left
    obtain ⟨r, hr⟩ := hx.sends hw ha
    have hn := next_send hw hx (a := a + 1) (b := a') (k := 0) (.inl hr.st) (by omega) hs (fun i i1 i2 hi => h ⟨i, by omega, i2, hi⟩)
    rcases ticks_time hx hap (a := a + 1) (a' - (a + 1)) with h0 | ⟨l, l1, l2, l3, l4⟩
    · rw [show a + 1 + (a' - (a + 1)) = a' by omega] at h0
      rw [h0] at hn
      have := hx.time_le (show a ≤ a' by omega)
      rw [show cfgM.respTimeout - 2 = 0 by omega, Nat.zero_mul]; exact this
    · rw [show a + 1 + (a' - (a + 1)) = a' by omega] at l2 l4
      have h1 := hx.time_le (show l ≤ a' by omega)
      have h2 := hx.time_le (show a ≤ a + 1 by omega)
      have h3 := Nat.mul_le_mul_right d (show cfgM.respTimeout - 2 ≤ hmTicks (x.seg (a + 1) a') - 1 by omega)
      omega

theorem early_send (hw : cfgM.MWF) (B : TimedBus cfgM cfgS id τ x y) (R : RoundInv id x y v1 v2 a a0 c e)
    {a' : Nat} (haa : a < a') (hs : x.Sends a') : x.time a + (cfgM.respTimeout - 2) * τ.d ≤ x.time a' ∨ ∃ t, a < t ∧ t < a' ∧ x.op t = .timer :=
  soon_send hw B.master B.apart R.sends haa hs

/-- The outputs of a slave event other than the timer. -/
theorem wire_nil_of {l : List HOut} (h : l = []) : wire l = [] := by rw [h]; rfl

/-- What the slave does with a request. -/
structure SlaveRound (cfgS : Config) (id : U8) (τ : BusTimes) (x : MDeviceTimed) (y : DeviceTimed) (v1 : Nat → Nat) (a e z w : Nat) (r : MReq)
    (m p e' : Nat) : Prop where
  chain : Chain x τ.e a z w r
  facts : SendFacts x a r
  ekl : e ≤ v1 z
  klm : v1 z < m
  timer : y.op m = .timer
  early : y.time (v1 z) + τ.t35 ≤ y.time m
  soon : y.time m ≤ y.time (v1 z) + τ.t35 + τ.lat
  tail : ∀ k, v1 z < k → k < m → ¬ y.Byte k
  mp : m < p
  pe : p < e'
  poll : y.op p = .main .poll
  time : y.time p ≤ y.time m + 2 * τ.Ps
  before : ∀ k, e ≤ k → k < p → y.out k = []
  sync : HSync (y.st e')
  ident : (y.st e').lib.id = id
  still : ∀ k, m < k → k < e' → ¬ LineEv y k
  yes : reqSlave r = id → (y.st (p + 1)).lib.mem = effect cfgS.limits (y.st p).lib.mem (asRequest r) ∧
    DevSends y p (rtuFrame id (encodeResponse (respond cfgS.limits (y.st p).lib.mem (asRequest r)))) ∧ (∀ k, p < k → k < e' → ¬ y.Sends k) ∧
    wire (y.outs p e') = rtuFrame id (encodeResponse (respond cfgS.limits (y.st p).lib.mem (asRequest r)))
  no : reqSlave r ≠ id → ∀ k, e ≤ k → k < e' → y.out k = []

/-- A later transmission of the master: late, or a byte of the slave, followed by silence, before it. -/
theorem later_send (hw : cfgM.MWF) (B : TimedBus cfgM cfgS id τ x y) (hf : τ.Fit cfgM.respTimeout) (ll : Lines τ x y v1 v2)
    (R : RoundInv id x y v1 v2 a a0 c e) {a' : Nat} (haa : a < a') (hs : x.Sends a') :
    x.time a + (cfgM.respTimeout - 2) * τ.d ≤ x.time a' ∨ ∃ t w2 b, a < t ∧ t < a' ∧ x.op t = .timer ∧ x.time (v2 w2) + τ.t35 ≤ x.time t ∧
      (∀ i, v2 w2 < i → i < t → ¬ x.Byte i) ∧ v2 w2 < t ∧ y.Writes w2 b ∧ e ≤ w2 ∧ y.time w2 + τ.t35 ≤ x.time t ∧ x.time t ≤ x.time a' := by
  rcases early_send hw B R haa hs with h | ⟨t, t1, t2, t3⟩
  · exact .inl h
  · obtain ⟨j, w2, b, j1, j2, j3, j4, j5, j6, j7, j8⟩ := master_cause B hf ll R t3 t1
    subst j6
    exact .inr ⟨t, w2, b, t1, t2, t3, j3, fun i i1 i2 => (j4 i i1 i2).1, j2, j5, j7, by omega, B.master.time_le (by omega)⟩

/-- A byte at the slave: of this request, or of a later one. -/
theorem byte_from (ll : Lines τ x y v1 v2) (R : RoundInv id x y v1 v2 a a0 c e) {z w : Nat} {r : MReq} (C : Chain x τ.e a z w r) {k : Nat} (hek : e ≤ k)
    (hb : y.Byte k) : ∃ n b, a ≤ n ∧ x.Writes n b ∧ v1 n = k ∧ x.time n ≤ y.time k ∧ (n ≤ z ∨ ∃ a', a < a' ∧ a' ≤ n ∧ x.Sends a') := by
  obtain ⟨b, hb⟩ := sbyte_iff.1 hb
  obtain ⟨n, n1, rfl⟩ := ll.down.only k b hb
  have han : a ≤ n := by
    refine Classical.byContradiction fun h => ?_
    have := R.down1 n b (by omega) n1
    have := R.ce
    omega
  refine ⟨n, b, han, n1, rfl, (ll.down.arrives n b n1).2.1, ?_⟩
  by_cases h : ∃ a', a < a' ∧ a' ≤ n ∧ x.Sends a'
  · exact .inr h
  · exact .inl (C.last n b han (fun i i1 i2 hi => h ⟨i, i1, i2, hi⟩) n1)

/-- A byte of the request that is not the last: the next one comes soon. -/
theorem byte_next (ll : Lines τ x y v1 v2) {z w : Nat} {r : MReq} (C : Chain x τ.e a z w r) {n : Nat} {b : U8} (h1 : a ≤ n) (h2 : n < z) (h3 : x.Writes n b) :
    ∃ k, v1 n < k ∧ k ≤ v1 z ∧ y.Byte k ∧ y.time k < y.time (v1 n) + τ.t15 := by
  obtain ⟨n', b', n1, n2, n3, n4⟩ := C.next n b h1 h2 h3
  have hz := C.zw
  refine ⟨v1 n', ll.down.order n n' b b' n1 h3 n3, ?_, sbyte_iff.2 ⟨b', (ll.down.arrives n' b' n3).1⟩,
    ll.down.together n n' b b' n1 h3 n3 n4 (C.quiet n' (by omega) (by omega))⟩
  obtain ⟨bz, hbz⟩ := C.wz
  by_cases h : n' = z
  · subst h; exact Nat.le_refl _
  · exact Nat.le_of_lt (ll.down.order n' z b' bz (by omega) n3 hbz)

/-- When the frame is complete at the slave. -/
structure Arrived (T : Nat) (τ : BusTimes) (x : MDeviceTimed) (y : DeviceTimed) (v1 : Nat → Nat) (a e z m : Nat) : Prop where
  ekl : e ≤ v1 z
  klm : v1 z < m
  timer : y.op m = .timer
  first : ∀ k, e ≤ k → k < m → y.op k ≠ .timer
  early : y.time (v1 z) + τ.t35 ≤ y.time m
  soon : y.time m ≤ y.time (v1 z) + τ.t35 + τ.lat
  tail : ∀ k, v1 z < k → k < m → ¬ y.Byte k
  klt : y.time (v1 z) ≤ x.time a + 254 * τ.e + τ.c
  later : ∀ a', a < a' → x.Sends a' → x.time a + (T - 2) * τ.d ≤ x.time a' ∨ y.time m + τ.t35 ≤ x.time a'
  after : ∀ k, m < k → y.Byte k → ∃ a', a < a' ∧ x.Sends a' ∧ x.time a' ≤ y.time k
  left : ∀ k, e ≤ k → k < v1 z → y.Byte k → ∃ k', k < k' ∧ k' ≤ v1 z ∧ y.Byte k' ∧ y.time k' < y.time k + τ.t15

theorem reqFrame_len {r : MReq} (hq : QtyOk r) (hd : DataOk r) : (reqFrame r).length ≤ 255 := (reqFrame_good r hq hd).len

theorem arrived (hw : cfgM.MWF) (hc : cfgS.WF) (B : TimedBus cfgM cfgS id τ x y) (hf : τ.Fit cfgM.respTimeout) (ll : Lines τ x y v1 v2)
    (R : RoundInv id x y v1 v2 a a0 c e) {z w : Nat} {r : MReq} (F : SendFacts x a r) (C : Chain x τ.e a z w r) :
    ∃ m, Arrived cfgM.respTimeout τ x y v1 a e z m := by
  obtain ⟨bz, hbz⟩ := C.wz
  have ekl : e ≤ v1 z := R.down2 z bz C.az hbz
  obtain ⟨kb, kl1, kl2⟩ := ll.down.arrives z bz hbz
  have kb : y.Byte (v1 z) := sbyte_iff.2 ⟨bz, kb⟩
  have hlen := reqFrame_len F.qty F.data
  have klt : y.time (v1 z) ≤ x.time a + 254 * τ.e + τ.c := by
    have := C.timez
    have := Nat.mul_le_mul_right τ.e (show (reqFrame r).length - 1 ≤ 254 by omega)
    omega
  have hH := hf.timeout
  unfold BusTimes.round at hH
  have hsil := hf.silence
  obtain ⟨n0, n01, n02, n03⟩ := B.shw.timerMust _ kb
  have late : ∀ k, v1 z < k → y.Byte k → ∃ a', a < a' ∧ x.Sends a' ∧ x.time a' ≤ y.time k := by
    intro k k1 k2
    obtain ⟨n, b, g1, g2, g3, g4, g5⟩ := byte_from ll R C (by omega) k2
    rcases g5 with g5 | ⟨a', a1, a2, a3⟩
    · subst g3
      rcases Nat.lt_or_ge n z with h | h
      · have := ll.down.order n z b bz h g2 hbz; omega
      · have : n = z := by omega
        subst this; omega
    · exact ⟨a', a1, a3, by have := B.master.time_le a2; omega⟩
  have ht : ∃ m', e ≤ m' ∧ y.op m' = .timer := by
    rcases n02 with h | h
    · obtain ⟨a', a1, a2, a3⟩ := late n0 n01 h
      rcases later_send hw B hf ll R a1 a2 with h | ⟨t, w2, b, -, -, -, -, -, -, j5, j7, -, -⟩
      · omega
      · obtain ⟨m', k', l1, l2, l3, l4, -⟩ := slave_cause hc B.slave B.shw R.start R.ce R.still R.sync j5 j7
        exact ⟨m', by omega, l4⟩
    · exact ⟨n0, by omega, h⟩
  obtain ⟨m', m1', m2'⟩ := ht
  obtain ⟨m, m1, m2, m3, m4⟩ := first_from (fun n => y.op n = .timer) m1' m2'
  have later : ∀ a', a < a' → x.Sends a' → x.time a + (cfgM.respTimeout - 2) * τ.d ≤ x.time a' ∨ y.time m + τ.t35 ≤ x.time a' := by
    intro a' a1 a2
    rcases later_send hw B hf ll R a1 a2 with h | ⟨t, w2, b, -, -, -, -, -, -, j5, j7, j8, j9⟩
    · exact .inl h
    · obtain ⟨m', k', l1, l2, l3, l4, -⟩ := slave_cause hc B.slave B.shw R.start R.ce R.still R.sync j5 j7
      right
      have : m ≤ m' := by
        refine Classical.byContradiction fun h => ?_
        exact m4 m' (by omega) (by omega) l4
      have := B.slave.time_le (show m ≤ w2 by omega)
      omega
  obtain ⟨k, k1, k2, k3, k4, k5⟩ := frame_last B.shw R.start R.ce R.still m3 m1
  have left : ∀ k, e ≤ k → k < v1 z → y.Byte k → ∃ k', k < k' ∧ k' ≤ v1 z ∧ y.Byte k' ∧ y.time k' < y.time k + τ.t15 := by
    intro k k1 k2 k3
    obtain ⟨n, b, g1, g2, g3, g4, g5⟩ := byte_from ll R C k1 k3
    subst g3
    have hnz : n < z := by
      rcases Nat.lt_trichotomy n z with h | h | h
      · exact h
      · subst h; omega
      · have := ll.down.order z n bz b h hbz g2; omega
    exact byte_next ll C g1 hnz g2
  have klm : v1 z < m := by
    refine Classical.byContradiction fun h => ?_
    have hne : v1 z ≠ m := by
      intro h'
      rw [h'] at kb
      exact timer_not_byte m3 kb
    obtain ⟨k', l1, l2, l3, l4⟩ := left k k1 (by omega) k3
    rcases Nat.lt_or_ge k' m with h' | h'
    · exact k5 k' l1 h' l3
    · have := B.slave.time_le h'
      omega
  have soon : y.time m ≤ y.time (v1 z) + τ.t35 + τ.lat := by
    rcases n02 with h | h
    · obtain ⟨a', a1, a2, a3⟩ := late n0 n01 h
      rcases later a' a1 a2 with h | h <;> omega
    · have : m ≤ n0 := by
        refine Classical.byContradiction fun h' => ?_
        exact m4 n0 (by omega) (by omega) h
      have := B.slave.time_le this
      omega
  have tail : ∀ k, v1 z < k → k < m → ¬ y.Byte k := by
    intro k k1 k2 hk
    obtain ⟨a', a1, a2, a3⟩ := late k k1 hk
    have := B.slave.time_le (show k ≤ m by omega)
    rcases later a' a1 a2 with h | h <;> omega
  have hkk : k = v1 z := by
    rcases Nat.lt_trichotomy k (v1 z) with h | h | h
    · exact absurd kb (k5 _ h klm)
    · exact h
    · exact absurd k3 (tail k h k2)
  subst hkk
  exact ⟨m, ekl, klm, m3, m4, k4, soon, tail, klt, later, fun k k1 => late k (by omega), left⟩

/-- The bytes of one event of the master. -/
def mW (x : MDeviceTimed) (n : Nat) : List U8 := mwire [(x.op n, x.out n)]

theorem mW_writes (hw : cfgM.MWF) (hx : x.Exec cfgM) {n : Nat} {b : U8} (h : x.Writes n b) : mW x n = [b] := by
  unfold MDeviceTimed.Writes at h
  by_cases hs : x.Sends n
  · obtain ⟨r, F⟩ := hx.sends hw hs
    obtain ⟨b', hb'⟩ := F.out
    rw [hb'] at h
    have : b = b' := by simpa using h
    subst this
    simp [mW, mwire, hb']
  · have hp := step_ptr (hx.legal n) (hx.step n) (fun f hf => hs ⟨f, hf⟩)
    by_cases ht : txIrq (x.op n) = true ∧ (x.st n).cur < (x.st n).last
    · obtain ⟨-, b', hb'⟩ := hp.2.1 ht.1 ht.2
      rw [hb'] at h
      have : b = b' := by simpa using h
      subst this
      simp [mW, mwire, hb']
    · exact absurd h ((hp.2.2 ht).2 b)

theorem mW_ne {n : Nat} (h : mW x n ≠ []) : ∃ b, x.Writes n b := by
  obtain ⟨b, hb⟩ := List.exists_mem_of_ne_nil _ h
  refine ⟨b, ?_⟩
  unfold mW mwire at hb
  simp only [List.flatMap_cons, List.flatMap_nil, List.append_nil, List.mem_filterMap] at hb
  obtain ⟨o, o1, o2⟩ := hb
  split at o2
  · have : _ = b := Option.some.inj o2
    subst this; exact o1
  · cases o2

theorem mwire_tr (n m : Nat) : mwire (x.tr n m) = (List.range' n (m - n)).flatMap (mW x) := by
  unfold MDeviceTimed.tr
  generalize List.range' n (m - n) = l
  induction l with
  | nil => rfl
  | cons k l ih =>
    rw [List.map_cons, List.flatMap_cons, ← ih, ← List.singleton_append, mwire_append]
    rfl

/-- The bytes of one event of the slave's receiver. -/
def sR (y : DeviceTimed) (n : Nat) : List U8 := hbytes [y.op n]

theorem sR_gets {n : Nat} {b : U8} (h : y.Gets n b) : sR y n = [b] := by
  obtain ⟨t, ht⟩ := h
  unfold sR
  rw [ht]; rfl

theorem sR_ne {n : Nat} (h : sR y n ≠ []) : ∃ b, y.Gets n b := by
  unfold sR at h
  cases ho : y.op n with
  | usart rx t =>
    cases rx with
    | none => rw [ho] at h; exact absurd rfl h
    | some b => exact ⟨b, t, ho⟩
  | _ => rw [ho] at h; exact absurd rfl h

theorem hbytes_seg (n m : Nat) : hbytes (y.seg n m) = (List.range' n (m - n)).flatMap (sR y) := by
  unfold DeviceTimed.seg
  generalize List.range' n (m - n) = l
  induction l with
  | nil => rfl
  | cons k l ih =>
    rw [List.map_cons, List.flatMap_cons, ← ih, ← List.singleton_append, hbytes_append]
    rfl

/-- What the slave gets of a request is what the master wrote. -/
theorem down_bytes (hw : cfgM.MWF) (B : TimedBus cfgM cfgS id τ x y) (ll : Lines τ x y v1 v2) (R : RoundInv id x y v1 v2 a a0 c e) {z w : Nat} {r : MReq}
    (C : Chain x τ.e a z w r) {m : Nat} (hm : v1 z < m) (ht : ∀ k, v1 z < k → k < m → ¬ y.Byte k) : hbytes (y.seg e m) = reqFrame r := by
  obtain ⟨bz, hbz⟩ := C.wz
  have haz := C.az
  have ekl := R.down2 z bz haz hbz
  rw [← C.wire, mwire_tr, hbytes_seg]
  refine transfer (via := v1) (fun n hn => ?_) (fun n n' h hn hn' => ?_) (z + 1 - a) (show e ≤ m by omega) (fun n n1 n2 hn => ?_) (fun k k1 k2 hk => ?_)
  · obtain ⟨b, hb⟩ := mW_ne hn
    rw [mW_writes hw B.master hb]
    exact sR_gets (ll.down.arrives n b hb).1
  · obtain ⟨b, hb⟩ := mW_ne hn
    obtain ⟨b', hb'⟩ := mW_ne hn'
    exact ll.down.order n n' b b' h hb hb'
  · obtain ⟨b, hb⟩ := mW_ne hn
    refine ⟨R.down2 n b n1 hb, ?_⟩
    by_cases h : n = z
    · subst h; exact hm
    · have := ll.down.order n z b bz (by omega) hb hbz
      omega
  · obtain ⟨b, hb⟩ := sR_ne hk
    have hkl : k ≤ v1 z := by
      refine Classical.byContradiction fun h => ?_
      exact ht k (by omega) k2 (sbyte_iff.2 ⟨b, hb⟩)
    obtain ⟨n, n1, rfl⟩ := ll.down.only k b hb
    refine ⟨n, ?_, ?_, by rw [mW_writes hw B.master n1]; simp, rfl⟩
    · refine Classical.byContradiction fun h => ?_
      have := R.down1 n b (by omega) n1
      have := R.ce
      omega
    · refine Classical.byContradiction fun h => ?_
      have := ll.down.order z n bz b (by omega) hbz n1
      omega

/-- What a slave does with a frame `Fr` that has come in completely with the timer event `m`. -/
structure Taken (cfg : Config) (id : U8) (P : Nat) (Fr : List U8) (y : DeviceTimed) (e m p e' : Nat) : Prop where
  mp : m < p
  pe : p < e'
  poll : y.op p = .main .poll
  time : y.time p ≤ y.time m + 2 * P
  before : ∀ k, e ≤ k → k < p → y.out k = []
  sync : HSync (y.st e')
  ident : (y.st e').lib.id = id
  still : ∀ k, m < k → k < e' → ¬ LineEv y k
  yes : ∀ r, Fr = reqFrame r → QtyOk r → DataOk r → reqSlave r = id →
    (y.st (p + 1)).lib.mem = effect cfg.limits (y.st p).lib.mem (asRequest r) ∧
    DevSends y p (rtuFrame id (encodeResponse (respond cfg.limits (y.st p).lib.mem (asRequest r)))) ∧ (∀ k, p < k → k < e' → ¬ y.Sends k) ∧
    wire (y.outs p e') = rtuFrame id (encodeResponse (respond cfg.limits (y.st p).lib.mem (asRequest r)))
  no : Fr.getD 0 0 ≠ id → ∀ k, e ≤ k → k < e' → y.out k = []

theorem take_frame {t15 t35 lat P X : Nat} (hc : cfgS.WF) (hy : y.Exec cfgS id) (hh : y.Hardware t15 t35 lat) (hp : DevPolls y P) {m kz : Nat} {Fr : List U8}
    (hq : ∀ k, m < k → y.Byte k → y.time m + 2 * P < y.time k)
    (htx : Fr.getD 0 0 = id → ∀ p, m < p → y.time p ≤ y.time m + 2 * P → (∀ k, e ≤ k → k < p → y.out k = []) → DevTx y P X p)
    (hs : DevStart y c) (hce : c ≤ e) (hl : ∀ k, c ≤ k → k < e → ¬ LineEv y k) (hsy : HSync (y.st e)) (hid : (y.st e).lib.id = id)
    (ht : y.op m = .timer) (hfirst : ∀ k, e ≤ k → k < m → y.op k ≠ .timer) (ekz : e ≤ kz) (kzm : kz < m) (kb : y.Byte kz)
    (tail : ∀ k, kz < k → k < m → ¬ y.Byte k)
    (left : ∀ k, e ≤ k → k < kz → y.Byte k → ∃ k', k < k' ∧ k' ≤ kz ∧ y.Byte k' ∧ y.time k' < y.time k + t15)
    (hfr : hbytes (y.seg e m) = Fr) (h255 : Fr.length ≤ 255) (h1 : 1 ≤ Fr.length) : ∃ p e', Taken cfgS id P Fr y e m p e' := by
  have hkz : ∀ q, e ≤ q → y.op q = .rto → kz < q := by
    intro q hq' r3
    obtain ⟨k, j1, j2, j3, j4⟩ := hh.rtoOnly q r3
    have hek : e ≤ k := by
      refine Classical.byContradiction fun h => ?_
      have hck : k < c := by
        refine Classical.byContradiction fun h' => ?_
        exact hl k (by omega) (by omega) (.inl j2)
      rcases hs with h0 | h0
      · omega
      · refine (hh.still hy h0 (z := q) ?_ (show c - 1 < q by omega) (Nat.le_refl _)).1 r3
        intro j j5 j6
        by_cases hjr : j = q
        · subst hjr; exact rto_not_byte r3
        · exact (j4 j (by omega) (by omega)).1
    refine Classical.byContradiction fun h => ?_
    have hne : q ≠ kz := by
      rintro rfl
      exact rto_not_byte r3 kb
    obtain ⟨k', k1', k2', k3', k4'⟩ := left k hek (by omega) j2
    rcases Nat.lt_or_ge k' q with h' | h'
    · exact (j4 k' k1' h').1 k3'
    · have := hy.time_le h'
      omega
  have hfb : ∀ q fb ft, e ≤ q → q + 1 < m → y.op q = .rto → y.op (q + 1) = .usart fb ft →
      hbytes (y.seg e q) ++ fb.toList = Fr ∧ hbytes (y.seg (q + 2) m) = [] := by
    intro q fb ft q1 q2 q3 q4
    have h := hkz q q1 q3
    have hgb : hbytes (y.seg (q + 2) m) = [] := hbytes_nil_iff.2 (fun k k1 k2 => tail k (by omega) k2)
    refine ⟨?_, hgb⟩
    rw [← hfr, y.seg_split q1 (show q ≤ m by omega), y.seg_cons (show q < m by omega), y.seg_cons (show q + 1 < m by omega), q3, q4, hbytes_append]
    have : hbytes (.rto :: .usart fb ft :: y.seg (q + 1 + 1) m) = fb.toList ++ hbytes (y.seg (q + 2) m) := by
      cases fb <;> simp [hbytes]
    rw [this, hgb, List.append_nil]
  obtain ⟨q, fb, ft, l1, p, e', r1, r2, r3, r4, r5, p1, p2, p3, p4, p5, s1, s2, s3, i1, b1, g1⟩ :=
    dev_cycle_taken hc hy hh hp hq (by
      rintro ⟨q, fb, l1, ⟨ft, q1, q2, q3, q4⟩, l2, l3, l4, l5⟩
      refine htx ?_
      obtain ⟨e1, -⟩ := hfb q fb ft q1 q2 q3 q4
      rw [e1] at l5
      rw [← (l5 h255).2 0 (by omega), ← l2]
      exact l3.1) hs hce hl hsy hid (show e ≤ m by omega) hfirst ht
  obtain ⟨hbs, hgb⟩ := hfb q fb ft r1 r2 r3 r4
  rw [hbs] at b1
  obtain ⟨f1, f2⟩ := b1 hgb h255
  have h0 : l1.req 0 = Fr.getD 0 0 := f2 0 (by omega)
  refine ⟨p, e', ⟨p1, p2, p3, p4, p5, s1, s2, s3, fun r hr hqt hdt hid' => ?_, fun hr => ?_⟩⟩
  · subst hr
    have hg := reqFrame_good r hqt hdt
    have ha := frameRequest_reqFrame r hqt hdt
    have h0' : l1.req 0 = reqSlave r := by rw [h0]; exact hg.addressed
    have hok : l1.frameOk := by
      refine ⟨by rw [h0', hid', i1], ?_⟩
      rw [bytes_of_prefix f1 f2]; exact (crc16_eq_zero_iff _).mpr hg.crc
    rw [if_pos ⟨hok, hgb⟩] at g1
    obtain ⟨g1, g2, n, g3, g4, g5, g6, g7, g8⟩ := g1
    have hreq := request_of_frame cfgS hc hg l1.req f2 (y.st p).lib.mem
    rw [hreq.1, ha.respond] at g2 g6
    refine ⟨by rw [g1, hreq.2, ha.effect], g2, fun k k1 k2 => ?_, ?_⟩
    rotate_left
    · rw [y.outs_split (show p ≤ n + 1 by omega) (show n + 1 ≤ e' by omega), y.outs_eq_nil (a := n + 1) (b := e') (fun k k1 k2 => g8 k (by omega) k2),
        List.append_nil]
      exact g6
    rintro ⟨f, hk⟩
    by_cases hkn : n < k
    · rw [g8 k hkn k2] at hk; cases hk
    · rw [y.outs_split (show p ≤ p + 1 by omega) (show p + 1 ≤ n + 1 by omega), y.outs_one] at g7
      obtain ⟨b, hb⟩ := g2.out
      rw [hb] at g7
      have hin : HOut.send f ∈ y.outs (p + 1) (n + 1) := by
        unfold DeviceTimed.outs
        exact List.mem_flatMap.2 ⟨k, List.mem_range'_1.2 (by omega), hk⟩
      have hfr : frames (y.outs (p + 1) (n + 1)) = [] := by
        have := congrArg List.length g7
        simp only [List.cons_append, List.nil_append, frames, List.length_cons, List.length_nil] at this
        exact List.length_eq_zero_iff.1 (by omega)
      have key : ∀ l : List HOut, HOut.send f ∈ l → frames l ≠ [] := by
        intro l
        induction l with
        | nil => intro h; cases h
        | cons o l ih =>
          intro h
          cases o with
          | send g => simp [frames]
          | tdr b =>
            rcases List.mem_cons.1 h with h | h
            · cases h
            · exact ih h
      exact key _ hin hfr
  · rw [if_neg (fun h => hr (by rw [← h0, h.1.1, i1]))] at g1
    intro k k1 k2
    rcases Nat.lt_or_ge k p with h | h
    · exact p5 k k1 h
    · exact g1 k h k2

/-- The slave takes in the request, and answers if it is addressed. -/
theorem slave_round (hw : cfgM.MWF) (hc : cfgS.WF) (B : TimedBus cfgM cfgS id τ x y) (hf : τ.Fit cfgM.respTimeout) (ll : Lines τ x y v1 v2)
    (R : RoundInv id x y v1 v2 a a0 c e) {z w : Nat} {r : MReq} (F : SendFacts x a r) (C : Chain x τ.e a z w r) {m : Nat}
    (A : Arrived cfgM.respTimeout τ x y v1 a e z m) : ∃ p e', SlaveRound cfgS id τ x y v1 a e z w r m p e' := by
  obtain ⟨bz, hbz⟩ := C.wz
  have kb : y.Byte (v1 z) := sbyte_iff.2 ⟨bz, (ll.down.arrives z bz hbz).1⟩
  have hH := hf.timeout
  unfold BusTimes.round at hH
  have hsil := hf.silence
  have hsl := hf.slave
  have htxs := hf.txSlave
  have A1 := A.ekl
  have A2 := A.klm
  have A3 := A.soon
  have A4 := A.klt
  have A5 := A.early
  have hq : ∀ k, m < k → y.Byte k → y.time m + 2 * τ.Ps < y.time k := by
    intro k k1 k2
    obtain ⟨a', a1, a2, a3⟩ := A.after k k1 k2
    rcases A.later a' a1 a2 with h | h <;> omega
  have htx : ∀ p, m < p → y.time p ≤ y.time m + 2 * τ.Ps → (∀ k, e ≤ k → k < p → y.out k = []) → DevTx y τ.Ps (256 * τ.e) p := by
    intro p p1 p2 p3 G hs
    have hG := hs.len
    have hG1 := hs.last
    obtain ⟨zs, ws, z1, z2, z3, z4, z5, z6, z7, z8, z9, z10, -⟩ := slave_chain B.slave B.stx hs (by omega)
    have hmul := Nat.mul_le_mul_right τ.e (show G.length - 1 ≤ 254 by omega)
    have hby : ∀ k, p < k → y.Byte k → y.time ws + τ.Ps < y.time k := by
      intro k k1 k2
      obtain ⟨a', a1, a2, a3⟩ := A.after k (by omega) k2
      rcases later_send hw B hf ll R a1 a2 with h | ⟨t, w2, b, t1, t2, t3, j1, j2, j3, j5, j7, j8, j9⟩
      · omega
      · have hpw : p ≤ w2 := by
          refine Classical.byContradiction fun h => ?_
          have := p3 w2 j7 (by omega)
          unfold DeviceTimed.Writes at j5
          rw [this] at j5; cases j5
        have hzw : zs ≤ w2 := by
          refine Classical.byContradiction fun h => ?_
          obtain ⟨n', b', n1, n2, n3, n4⟩ := z9 w2 b hpw (by omega) j5
          have o1 := ll.up.order w2 n' b b' n1 j5 n3
          have o2 := ll.up.together w2 n' b b' n1 j5 n3 n4 (z8 n' (by omega) (by omega))
          rcases Nat.lt_or_ge (v2 n') t with h' | h'
          · exact j2 _ o1 h' (mbyte_iff.2 ⟨b', (ll.up.arrives n' b' n3).1⟩)
          · have := B.master.time_le h'
            omega
        have := B.slave.time_le hzw
        omega
    refine ⟨ws, by omega, by omega, z10 (fun k k1 k2 hk => ?_), hby⟩
    have := hby k k1 hk
    have := B.slave.time_le k2
    omega
  have hg := reqFrame_good r F.qty F.data
  have h4' := goodFrame_len hg
  obtain ⟨p, e', K⟩ := take_frame hc B.slave B.shw B.spoll hq (fun _ => htx) R.start R.ce R.still R.sync R.ident A.timer A.first A1 A2 kb A.tail A.left
    (down_bytes hw B ll R C A2 A.tail) hg.len (by omega)
  exact ⟨p, e', ⟨C, F, A1, A2, A.timer, A5, A3, A.tail, K.mp, K.pe, K.poll, K.time, K.before, K.sync, K.ident, K.still,
    fun hr => K.yes r rfl F.qty F.data hr, fun hr => K.no hr⟩⟩

end

end Modbus
