import Verif.Proofs.BusRound

/-! One request on the timed bus: the way back. -/

namespace Modbus

open Spec

section
variable {cfgM cfgS : Config} {id : U8} {τ : BusTimes} {x : MDeviceTimed} {y : DeviceTimed} {v1 v2 : Nat → Nat} {a a0 c e z w m p e' : Nat} {r : MReq}

/-- What the slave writes after the round comes after a further transmission of the master. -/
theorem slave_later (hc : cfgS.WF) (B : TimedBus cfgM cfgS id τ x y) (A : Arrived cfgM.respTimeout τ x y v1 a e z m)
    (S : SlaveRound cfgS id τ x y v1 a e z w r m p e') {n : Nat} {b : U8} (hb : y.Writes n b) (hn : e' ≤ n) :
    ∃ a', a < a' ∧ x.Sends a' ∧ x.time a' + τ.t35 ≤ y.time n := by
  have h1 := S.mp
  have h2 := S.pe
  obtain ⟨m', k, k1, k2, k3, k4, k5, k6⟩ := slave_cause hc B.slave B.shw (c := m + 1) (e := e') (.inr S.timer) (by omega)
    (fun k k1 k2 => S.still k (by omega) k2) S.sync hb hn
  obtain ⟨a', a1, a2, a3⟩ := A.after k (by omega) k5
  have := B.slave.time_le (show m' ≤ n by omega)
  exact ⟨a', a1, a2, by omega⟩

/-- A byte at the master after the transmission: of this round, or after a further transmission. -/
theorem mbyte_from (hc : cfgS.WF) (B : TimedBus cfgM cfgS id τ x y) (ll : Lines τ x y v1 v2) (R : RoundInv id x y v1 v2 a a0 c e)
    (A : Arrived cfgM.respTimeout τ x y v1 a e z m) (S : SlaveRound cfgS id τ x y v1 a e z w r m p e') {k : Nat} (hk : a < k) (hb : x.Byte k) :
    (∃ n b, e ≤ n ∧ n < e' ∧ y.Writes n b ∧ v2 n = k ∧ y.time n ≤ x.time k) ∨ ∃ a', a < a' ∧ x.Sends a' ∧ x.time a' + τ.t35 ≤ x.time k := by
  obtain ⟨b, hb⟩ := mbyte_iff.1 hb
  obtain ⟨n, n1, rfl⟩ := ll.up.only k b hb
  have hn := (ll.up.arrives n b n1).2.1
  have hen : e ≤ n := by
    refine Classical.byContradiction fun h => ?_
    have := R.up1 n b (by omega) n1
    omega
  rcases Nat.lt_or_ge n e' with h | h
  · exact .inl ⟨n, b, hen, h, n1, rfl, hn⟩
  · obtain ⟨a', a1, a2, a3⟩ := slave_later hc B A S n1 h
    exact .inr ⟨a', a1, a2, by omega⟩

/-- The next round. -/
theorem next_round (B : TimedBus cfgM cfgS id τ x y) (ll : Lines τ x y v1 v2) (R : RoundInv id x y v1 v2 a a0 c e)
    (A : Arrived cfgM.respTimeout τ x y v1 a e z m) (S : SlaveRound cfgS id τ x y v1 a e z w r m p e') {a' a0' : Nat} (haa : a < a') (hs : x.Sends a')
    (hn : ∀ k, a < k → k < a' → ¬ x.Sends k) (hst : Standing false false (x.st a').lib) (h0 : a0' ≤ a') (h0s : a0' = 0 ∨ x.op (a0' - 1) = .timer)
    (hcalm : ∀ k, a0' ≤ k → k < a' → ¬ x.Byte k) (hup : ∀ n b, e ≤ n → n < e' → y.Writes n b → v2 n < a') :
    RoundInv id x y v1 v2 a' a0' (m + 1) e' := by
  obtain ⟨bz, hbz⟩ := S.chain.wz
  have h1 := S.mp
  have h2 := S.pe
  have h3 := R.ce
  have h4 := A.ekl
  have h5 := A.klm
  refine ⟨hs, hst, h0, h0s, hcalm, .inr S.timer, by omega, fun k k1 k2 => S.still k (by omega) k2, S.sync, S.ident, ?_, ?_, ?_⟩
  · intro n b n1 n2
    rcases Nat.lt_or_ge n a with h | h
    · have := R.down1 n b h n2; omega
    · have hnz := S.chain.last n b h (fun i i1 i2 => hn i i1 (by omega)) n2
      by_cases h' : n = z
      · subst h'; omega
      · have := ll.down.order n z b bz (by omega) n2 hbz; omega
  · intro n b n1 n2
    have hzn : z < n := by
      refine Classical.byContradiction fun h => ?_
      have := S.chain.zw
      exact S.chain.quiet a' haa (by omega) hs
    have ho := ll.down.order z n bz b hzn hbz n2
    have hb : y.Byte (v1 n) := sbyte_iff.2 ⟨b, (ll.down.arrives n b n2).1⟩
    refine Classical.byContradiction fun h => ?_
    rcases Nat.lt_trichotomy (v1 n) m with h' | h' | h'
    · exact A.tail _ ho h' hb
    · rw [h'] at hb; exact timer_not_byte S.timer hb
    · exact S.still _ h' (by omega) (.inl hb)
  · intro n b n1 n2
    rcases Nat.lt_or_ge n e with h | h
    · have := R.up1 n b h n2; omega
    · exact hup n b h n1 n2

/-- What the slave's response is like on the master's side. -/
structure Answer (T : Nat) (τ : BusTimes) (x : MDeviceTimed) (y : DeviceTimed) (v2 : Nat → Nat) (a e p e' zs t : Nat) : Prop where
  pz : p ≤ zs
  wz : ∃ b, y.Writes zs b
  atl : a < v2 zs
  lt : v2 zs < t
  timer : x.op t = .timer
  first : ∀ k, a < k → k < t → x.op k ≠ .timer
  early : x.time (v2 zs) + τ.t35 ≤ x.time t
  soon : x.time t ≤ x.time (v2 zs) + τ.t35 + τ.lat
  tail : ∀ k, v2 zs < k → k < t → ¬ x.Byte k
  time : x.time (v2 zs) ≤ y.time p + 254 * τ.e + τ.c
  round : ∀ n b, e ≤ n → n < e' → y.Writes n b → p ≤ n ∧ n ≤ zs
  quiet : ∀ k, a < k → k ≤ t → ¬ x.Sends k
  bytes : ∀ k, a < k → k ≤ t → x.Byte k → ∃ n b, p ≤ n ∧ n ≤ zs ∧ n < e' ∧ y.Writes n b ∧ v2 n = k
  left : ∀ n b, p ≤ n → n < zs → y.Writes n b → ∃ k, v2 n < k ∧ k ≤ v2 zs ∧ x.Byte k ∧ x.time k < x.time (v2 n) + τ.t15

theorem answer (hw : cfgM.MWF) (hc : cfgS.WF) (B : TimedBus cfgM cfgS id τ x y) (hf : τ.Fit cfgM.respTimeout) (ll : Lines τ x y v1 v2)
    (R : RoundInv id x y v1 v2 a a0 c e) (A : Arrived cfgM.respTimeout τ x y v1 a e z m) (S : SlaveRound cfgS id τ x y v1 a e z w r m p e')
    (hr : reqSlave r = id) : ∃ zs t, Answer cfgM.respTimeout τ x y v2 a e p e' zs t := by
  obtain ⟨-, hds, hns, -⟩ := S.yes hr
  have hG := hds.len
  have hG1 := hds.last
  obtain ⟨zs, ws, z1, z2, ⟨bs, z3⟩, z4, z5, z6, z7, z8, z9, -, z11, -⟩ := slave_chain B.slave B.stx hds (by omega)
  have hmul := Nat.mul_le_mul_right τ.e (show (rtuFrame id (encodeResponse (respond cfgS.limits (y.st p).lib.mem (asRequest r)))).length - 1 ≤ 254 by omega)
  have hH := hf.timeout
  unfold BusTimes.round at hH
  have hsil := hf.silence
  have hsl := hf.slave
  have A3 := A.soon
  have A4 := A.klt
  have A5 := A.early
  have A6 := A.ekl
  have S1 := S.mp
  have S2 := S.pe
  have S3 := S.time
  obtain ⟨bz, hbz⟩ := S.chain.wz
  have haz := B.master.time_le S.chain.az
  have kl1 := (ll.down.arrives z bz hbz).2.1
  have hmp := B.slave.time_le (show m ≤ p by omega)
  have hpz := B.slave.time_le z1
  obtain ⟨jb, jl1, jl2⟩ := ll.up.arrives zs bs z3
  have jb : x.Byte (v2 zs) := mbyte_iff.2 ⟨bs, jb⟩
  have hbef := S.before
  have em : e ≤ m := by have := A.klm; omega
  -- the bytes of this round
  have round : ∀ n b, e ≤ n → n < e' → y.Writes n b → p ≤ n ∧ n ≤ zs := by
    intro n b n1 n2 n3
    have hp : p ≤ n := by
      refine Classical.byContradiction fun h => ?_
      have := hbef n n1 (by omega)
      unfold DeviceTimed.Writes at n3
      rw [this] at n3; cases n3
    refine ⟨hp, ?_⟩
    rcases Nat.lt_or_ge ws n with h | h
    · have := (slave_unsent B.slave z11 (e' - ws) (fun i i1 i2 => hns i (by omega) (by omega))).1 n (by omega) (by omega)
      unfold DeviceTimed.Writes at n3
      rw [this] at n3; cases n3
    · exact z7 n b hp h n3
  have left : ∀ n b, p ≤ n → n < zs → y.Writes n b → ∃ k, v2 n < k ∧ k ≤ v2 zs ∧ x.Byte k ∧ x.time k < x.time (v2 n) + τ.t15 := by
    intro n b n1 n2 n3
    obtain ⟨n', b', o1, o2, o3, o4⟩ := z9 n b n1 n2 n3
    refine ⟨v2 n', ll.up.order n n' b b' o1 n3 o3, ?_, mbyte_iff.2 ⟨b', (ll.up.arrives n' b' o3).1⟩,
      ll.up.together n n' b b' o1 n3 o3 o4 (z8 n' (by omega) (by omega))⟩
    by_cases h : n' = zs
    · subst h; exact Nat.le_refl _
    · exact Nat.le_of_lt (ll.up.order n' zs b' bs (by omega) o3 z3)
  -- further transmissions
  have later : ∀ a', a < a' → x.Sends a' → x.time a + (cfgM.respTimeout - 2) * τ.d ≤ x.time a' ∨
      (y.time zs + τ.t35 ≤ x.time a' ∧ ∃ t, a < t ∧ t < a' ∧ x.op t = .timer) := by
    intro a' a1 a2
    rcases later_send hw B hf ll R a1 a2 with h | ⟨t, w2, b, t1, t2, t3, j1, j2, j3, j5, j7, j8, j9⟩
    · exact .inl h
    · right
      have hpw : p ≤ w2 := by
        refine Classical.byContradiction fun h => ?_
        have := hbef w2 j7 (by omega)
        unfold DeviceTimed.Writes at j5
        rw [this] at j5; cases j5
      have hzw : zs ≤ w2 := by
        refine Classical.byContradiction fun h => ?_
        obtain ⟨k, k1, k2, k3, k4⟩ := left w2 b hpw (by omega) j5
        rcases Nat.lt_or_ge k t with h' | h'
        · exact j2 _ k1 h' k3
        · have := B.master.time_le h'
          omega
      have := B.slave.time_le hzw
      exact ⟨by omega, t, t1, t2, t3⟩
  have hze : zs < e' := by
    refine Classical.byContradiction fun h => ?_
    obtain ⟨a', a1, a2, a3⟩ := slave_later hc B A S z3 (by omega)
    rcases later a' a1 a2 with h | h <;> omega
  have atl : a < v2 zs := B.master.lt_of_time (by omega)
  -- the timer event
  obtain ⟨n1, n11, n12, n13⟩ := B.mhw.timerMust _ jb
  have after : ∀ k, v2 zs < k → x.Byte k → ∃ a', a < a' ∧ x.Sends a' ∧ x.time a' + τ.t35 ≤ x.time k := by
    intro k k1 k2
    rcases mbyte_from hc B ll R A S (by omega) k2 with ⟨n, b, g1, g2, g3, g4, -⟩ | h
    · have hnz := (round n b g1 g2 g3).2
      subst g4
      by_cases h : n = zs
      · subst h; omega
      · have := ll.up.order n zs b bs (by omega) g3 z3; omega
    · exact h
  have ht : ∃ t', a < t' ∧ x.op t' = .timer := by
    rcases n12 with h | h
    · obtain ⟨a', a1, a2, a3⟩ := after n1 n11 h
      rcases later a' a1 a2 with h | ⟨-, t, t1, t2, t3⟩
      · omega
      · exact ⟨t, t1, t3⟩
    · exact ⟨n1, by omega, h⟩
  obtain ⟨t', t1', t2'⟩ := ht
  obtain ⟨t, t1, t2, t3, t4⟩ := least_beyond (p := fun n => x.op n = .timer) t1' t2'
  have later' : ∀ a', a < a' → x.Sends a' → x.time a + (cfgM.respTimeout - 2) * τ.d ≤ x.time a' ∨ t < a' := by
    intro a' a1 a2
    rcases later a' a1 a2 with h | ⟨-, t', g1, g2, g3⟩
    · exact .inl h
    · right
      refine Classical.byContradiction fun h => ?_
      exact t4 t' g1 (by omega) g3
  have soon : x.time t ≤ x.time (v2 zs) + τ.t35 + τ.lat := by
    rcases n12 with h | h
    · obtain ⟨a', a1, a2, a3⟩ := after n1 n11 h
      rcases later' a' a1 a2 with h | h
      · omega
      · have := B.master.time_le (show t ≤ a' by omega)
        omega
    · have : t ≤ n1 := by
        refine Classical.byContradiction fun h' => ?_
        exact t4 n1 (by omega) (by omega) h
      have := B.master.time_le this
      omega
  have quiet : ∀ k, a < k → k ≤ t → ¬ x.Sends k := by
    intro k k1 k2 hk
    have := B.master.time_le k2
    rcases later' k k1 hk with h | h <;> omega
  have bytes : ∀ k, a < k → k ≤ t → x.Byte k → ∃ n b, p ≤ n ∧ n ≤ zs ∧ n < e' ∧ y.Writes n b ∧ v2 n = k := by
    intro k k1 k2 k3
    rcases mbyte_from hc B ll R A S k1 k3 with ⟨n, b, g1, g2, g3, g4, -⟩ | ⟨a', a1, a2, a3⟩
    · have := round n b g1 g2 g3
      exact ⟨n, b, this.1, this.2, g2, g3, g4⟩
    · have := B.master.time_le k2
      have : a' < k := B.master.lt_of_time (by omega)
      exact absurd a2 (quiet a' a1 (by omega))
  obtain ⟨j, w2, b, j1, j2, j3, j4, j5, j6, j7, j8⟩ := master_cause B hf ll R t3 t1
  have hj : j = v2 zs := by
    obtain ⟨n, b', g1, g2, g3, g4, g5⟩ := bytes j j1 (by omega) (mbyte_iff.2 ⟨b, by have := (ll.up.arrives w2 b j5).1; rwa [j6] at this⟩)
    by_cases h : n = zs
    · subst h; exact g5.symm
    · obtain ⟨k, k1, k2, k3, k4⟩ := left n b' g1 (by omega) g4
      rw [g5] at k1 k4
      rcases Nat.lt_or_ge k t with h' | h'
      · exact absurd k3 (j4 k k1 h').1
      · have := B.master.time_le h'
        omega
  subst hj
  exact ⟨zs, t, z1, ⟨bs, z3⟩, atl, j2, t3, t4, j3, soon, fun k k1 k2 => (j4 k k1 k2).1, by omega, round, quiet, bytes, left⟩

theorem Spec.MDeviceTimed.Exec.noise (hx : x.Exec cfgM) {k : Nat} {op : MOp} (h : x.op k = .main op) : op.noise := by
  have := hx.main k op h
  cases op <;> first | trivial | exact this

/-- An event that is neither a byte nor one of the two silences. -/
theorem mnoise (hx : x.Exec cfgM) {k : Nat} (h1 : ¬ x.Byte k) (h2 : x.op k ≠ .rto) (h3 : x.op k ≠ .timer) : (x.op k).noise := by
  cases h : x.op k with
  | main op => exact hx.noise h
  | rto => exact absurd h h2
  | timer => exact absurd h h3
  | usart rx t =>
    cases rx with
    | none => trivial
    | some b => exact absurd ⟨b, t, h⟩ h1

theorem mquiet (hx : x.Exec cfgM) {k : Nat} (h1 : ¬ x.Byte k) (h2 : x.op k ≠ .rto) (h3 : x.op k ≠ .timer) (h4 : x.op k ≠ .main .poll) : (x.op k).quiet := by
  have := mnoise hx h1 h2 h3
  cases h : x.op k with
  | main op => rw [h] at this; exact ⟨this, fun h' => h4 (by rw [h, h'])⟩
  | rto => exact absurd h h2
  | timer => exact absurd h h3
  | usart rx t =>
    cases rx with
    | none => trivial
    | some b => exact absurd ⟨b, t, h⟩ h1

theorem mtail (hx : x.Exec cfgM) {k : Nat} (h2 : x.op k ≠ .rto) (h3 : x.op k ≠ .timer) : (x.op k).tail := by
  cases h : x.op k with
  | main op => exact hx.noise h
  | rto => exact absurd h h2
  | timer => exact absurd h h3
  | usart rx t => trivial

/-- The bytes of one event of the master's receiver. -/
def mR (x : MDeviceTimed) (n : Nat) : List U8 := hmBytes [x.op n]

theorem mR_gets {n : Nat} {b : U8} (h : x.Gets n b) : mR x n = [b] := by
  obtain ⟨t, ht⟩ := h
  unfold mR
  rw [ht]; rfl

theorem mR_ne {n : Nat} (h : mR x n ≠ []) : ∃ b, x.Gets n b := by
  unfold mR at h
  cases ho : x.op n with
  | usart rx t =>
    cases rx with
    | none => rw [ho] at h; exact absurd rfl h
    | some b => exact ⟨b, t, ho⟩
  | _ => rw [ho] at h; exact absurd rfl h

theorem hmBytes_seg (n m : Nat) : hmBytes (x.seg n m) = (List.range' n (m - n)).flatMap (mR x) := by
  unfold MDeviceTimed.seg
  generalize List.range' n (m - n) = l
  induction l with
  | nil => rfl
  | cons k l ih =>
    rw [List.map_cons, List.flatMap_cons, ← ih, ← List.singleton_append]
    unfold hmBytes mR
    rw [List.filterMap_append]
    rfl

theorem hmBytes_nil {n m : Nat} (h : ∀ k, n ≤ k → k < m → ¬ x.Byte k) : hmBytes (x.seg n m) = [] := by
  rw [hmBytes_seg, List.flatMap_eq_nil_iff]
  intro k hk
  have hk := List.mem_range'_1.1 hk
  refine Classical.byContradiction fun h' => ?_
  exact h k hk.1 (by omega) (mbyte_iff.2 (mR_ne h'))

theorem lateByte_none {ops : List HMOp} (h : ∀ b t, HMOp.usart (some b) t ∉ ops) : ∀ g p, lateByte g p ops = false := by
  induction ops with
  | nil => intro g p; rfl
  | cons op ops ih =>
    intro g p
    have ih' := ih (fun b t hb => h b t (List.mem_cons_of_mem _ hb))
    cases op with
    | usart rx t =>
      cases rx with
      | none => exact ih' _ _
      | some b => exact absurd (List.mem_cons_self ..) (h b t)
    | _ => exact ih' _ _

theorem lateByte_before {l1 l2 : List HMOp} (h : ∀ op ∈ l1, op ≠ .rto) : lateByte false false (l1 ++ l2) = lateByte false false l2 := by
  induction l1 with
  | nil => rfl
  | cons op l ih =>
    have ih' := ih (fun o ho => h o (List.mem_cons_of_mem _ ho))
    cases op with
    | rto => exact absurd rfl (h _ (List.mem_cons_self ..))
    | usart rx t =>
      cases rx with
      | none => exact ih'
      | some b => exact ih'
    | _ => exact ih'

theorem rto_sets (hx : x.Exec cfgM) {k : Nat} (h : x.op k = .rto) : (x.st (k + 1)).rtof = true := by
  have hs := hx.step k
  rw [h] at hs
  simp only [masterSysStep, pure_eq, Except.ok.injEq, Prod.mk.injEq] at hs
  rw [← hs.1]

/-- The bytes of one event of the slave. -/
def sW (y : DeviceTimed) (n : Nat) : List U8 := wire (y.out n)

theorem sW_ne {n : Nat} (h : sW y n ≠ []) : ∃ b, y.Writes n b := by
  have key : ∀ l : List HOut, wire l ≠ [] → ∃ b, HOut.tdr b ∈ l := by
    intro l
    induction l with
    | nil => intro h; exact absurd rfl h
    | cons o l ih =>
      intro h
      cases o with
      | tdr b => exact ⟨b, List.mem_cons_self ..⟩
      | send f =>
        obtain ⟨b, hb⟩ := ih h
        exact ⟨b, List.mem_cons_of_mem _ hb⟩
  exact key _ h

theorem wire_outs (n m : Nat) : wire (y.outs n m) = (List.range' n (m - n)).flatMap (sW y) := by
  unfold DeviceTimed.outs
  generalize List.range' n (m - n) = l
  induction l with
  | nil => rfl
  | cons k l ih => rw [List.flatMap_cons, List.flatMap_cons, ← ih, wire_append]; rfl

end

end Modbus
