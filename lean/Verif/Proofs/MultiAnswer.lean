import Verif.Proofs.MultiRound

/-! One request on a line with several slaves: the slave's frame. -/

namespace Modbus

open Spec

section
variable {ι : Type} {cfgM : Config} {cfgS : ι → Config} {id : ι → U8} {τ : BusTimes} {c0 s : Nat} {x : MDeviceTimed} {y : ι → DeviceTimed}
  {via : Option ι → Option ι → Nat → Nat} {a a0 z w : Nat} {c e m e1 : ι → Nat} {r : MReq}

theorem st_lt (B : TimedLine cfgM cfgS id τ c0 s x y) {d : Option ι} {m n : Nat} (h : (stations x y d).time m < (stations x y d).time n) : m < n := by
  refine Classical.byContradiction fun h' => ?_
  have := st_mono B d n m (by omega)
  omega

/-- The transmission of a slave's frame. -/
structure SChain (y : DeviceTimed) (e p z w : Nat) (F : List U8) : Prop where
  pz : p ≤ z
  zw : z < w
  wz : ∃ b, y.Writes z b
  timew : y.time w ≤ y.time z + e
  timez : y.time z ≤ y.time p + 254 * e
  last : ∀ n b, p ≤ n → n ≤ w → y.Writes n b → n ≤ z
  quiet : ∀ n, p < n → n ≤ w → ¬ y.Sends n
  count : (∀ k, p < k → k ≤ w → ¬ y.Byte k) → F.length ≤ (y.seg (p + 1) (w + 1)).count (.usart none true)
  done : (y.st w).cur = (y.st w).last
  pace : ∀ n b, p ≤ n → n < z → y.Writes n b → ∃ m b', n < m ∧ m ≤ z ∧ y.Writes m b' ∧ (∀ i b', n < i → i < m → ¬ y.Writes i b') ∧
    y.time m ≤ y.time n + e

theorem schain {y : DeviceTimed} {cfg : Config} {id : U8} (hx : y.Exec cfg id) {e : Nat}
    (htx : ∀ n b, y.Writes n b → ∃ m rx, n < m ∧ y.op m = .usart rx true ∧ y.time m ≤ y.time n + e) {p : Nat} {F : List U8} (hs : DevSends y p F) :
    ∃ z w, SChain y e p z w F := by
  have hG := hs.len
  have hG1 := hs.last
  obtain ⟨zs, ws, z1, z2, z3, z4, z5, z6, z7, z8, z9, z10, z11, z12⟩ := slave_chain hx htx hs (by omega)
  have hmul := Nat.mul_le_mul_right e (show F.length - 1 ≤ 254 by omega)
  exact ⟨zs, ws, z1, z2, z3, z5, by omega, z7, z8, z10, z11, z12⟩

/-- The transmission of a slave's frame on the line. -/
theorem phase_two (hw : cfgM.MWF) (hc : ∀ j, (cfgS j).WF) (B : TimedLine cfgM cfgS id τ c0 s x y) (hf : τ.FitLine c0 s cfgM.respTimeout)
    (hm : Medium c0 τ.c s τ.t15 (stations x y) via) (R : LRound id τ x y via a a0 c e) (F : SendFacts x a r) (C : Chain x τ.e a z w r)
    (H : ∀ j, Ph1 id τ c0 s (x.time a + (cfgM.respTimeout - 2) * τ.d) x y via a z e r j (m j) (e1 j)) {i : ι} (hi : id i = reqSlave r) {p zs ws : Nat}
    {G : List U8} (hp : m i < p) (ht : (y i).time p ≤ (y i).time (m i) + 2 * τ.Ps) (hbef : ∀ k, e i ≤ k → k < p → (y i).out k = [])
    (K : SChain (y i) τ.e p zs ws G) :
    Phase c0 τ.c s τ.t15 τ.t35 τ.lat τ.e (x.time a + (cfgM.respTimeout - 2) * τ.d) (stations x y) via (sq (a + 1) e1) (sq (z + 1) e1) (some i) p zs := by
  have hsil := hf.one.silence
  have hH := hf.one.timeout
  unfold BusTimes.round at hH
  have hturn := hf.turn
  have hmeet := hf.meet
  have hlen := reqFrame_len F.qty F.data
  have hz := C.timez
  have hmul := Nat.mul_le_mul_right τ.e (show (reqFrame r).length - 1 ≤ 254 by omega)
  have G1 : (y i).time (via none (some i) z) + τ.t35 ≤ (y i).time (m i) := (H i).got.early
  have G2 : (y i).time (m i) ≤ (y i).time (via none (some i) z) + τ.t35 + τ.lat := (H i).got.soon
  have G3 : x.time z + c0 ≤ (y i).time (via none (some i) z) := (H i).got.lo
  have G4 : (y i).time (via none (some i) z) ≤ x.time z + τ.c := (H i).got.hi
  have hmp := (B.slave i).time_le (show m i ≤ p by omega)
  have haz := B.master.time_le C.az
  have ne : ∀ j, some j ≠ some i → id j ≠ reqSlave r := fun j hj h => hj (by rw [B.distinct j i (by rw [h, hi])])
  have hem : ∀ j, e j ≤ m j := by
    intro j
    have h1 : e j ≤ via none (some j) z := (H j).got.ge
    have h2 := (H j).got.lt
    omega
  refine ⟨hm, st_mono B, ?_, K.pz, K.wz, K.pace, fun n h1 h2 => K.quiet n h1 (by have := K.zw; omega), ?_, ?_, ?_, ?_, st_must B, st_excl,
    st_one, ?_, by omega, hf.meet, ?_⟩
  · intro n b hn hb
    have hn : e1 i ≤ n := hn
    have hb : (y i).Writes n b := hb
    rw [(H i).mine hi] at hn
    refine Classical.byContradiction fun h => ?_
    unfold DeviceTimed.Writes at hb
    rw [hbef n (by have := hem i; omega) (by omega)] at hb
    cases hb
  · intro l d n b hd hb hn
    have hsl : ∀ k b, n < e1 k → (y k).Writes n b → n < e k := by
      intro k b h1 h2
      refine Classical.byContradiction fun h => ?_
      exact (H k).quiet n b (by omega) h1 h2
    cases l with
    | none =>
      cases d with
      | none => exact absurd rfl hd
      | some j =>
        have h := R.up1 j n b (hsl j b hn hb) hb
        show _ < a + 1
        omega
    | some j =>
      have h1 := R.ce j
      have h2 := (H j).me
      have h3 := hem j
      show _ < e1 j
      cases d with
      | none =>
        have hn : n < z + 1 := hn
        rcases Nat.lt_or_ge n a with h | h
        · have h := R.down1 j n b h hb
          omega
        · have h4 := ((H j).got.all n b h (by omega) hb).2.2
          have h5 := (H j).got.lt
          omega
      | some k =>
        have h := R.cross k j n b (fun h => hd (by rw [h])) (hsl k b hn hb) hb
        omega
  · intro d n b hd hn hb
    show _ ≤ (y i).time p
    cases d with
    | none =>
      have hn : n < z + 1 := hn
      have := B.master.time_le (show n ≤ z by omega)
      show x.time n + τ.c ≤ _
      omega
    | some k =>
      have h1 : n < e k := by
        refine Classical.byContradiction fun h => ?_
        exact (H k).quiet n b (by omega) hn hb
      have h2 := R.old k n b h1 hb
      show (y k).time n + τ.c ≤ _
      omega
  · intro l n b hl h1 h2 hb hcl
    have hpn := (B.slave i).time_le h1
    have har := hm.arrives (some i) l n b hl hb hcl
    cases l with
    | none =>
      have h3 : (y i).time n + c0 ≤ x.time (via (some i) none n) := har.2.1
      show a + 1 ≤ _
      exact B.master.lt_of_time (by omega)
    | some j =>
      have h3 : (y i).time n + c0 ≤ (y j).time (via (some i) (some j) n) := har.2.1
      have h4 : (y j).time (via none (some j) z) ≤ (y i).time (via none (some i) z) + s := (H i).got.near (some j) (by simp)
      have h5 : (y j).time (m j) ≤ (y j).time (via none (some j) z) + τ.t35 + τ.lat := (H j).got.soon
      have h6 : m j < via (some i) (some j) n := st_lt B (d := some j) (by show (y j).time _ < (y j).time _; omega)
      show e1 j ≤ _
      refine Classical.byContradiction fun h => ?_
      exact (H j).still _ h6 (by omega) (.inl ⟨b, har.1⟩)
  · intro l m' hm' hst
    cases l with
    | none => exact mtimer_cause B.master B.mhw R.sends R.a0a R.a0s R.calm hm' hst
    | some j =>
      obtain ⟨k, k1, k2, ⟨b, k3⟩, k4, k5⟩ := frame_last (B.shw j) (c := m j + 1) (e := e1 j) (.inr (H j).got.timer) (H j).me (H j).still hm' hst
      exact ⟨k, b, k1, k2, k3, k4, fun i b i1 i2 hi => k5 i i1 i2 ⟨b, hi⟩⟩
  · intro d n b hd hn hb
    cases d with
    | none => exact mwrite_whyS hw B R.sends C e1 n b hn hb
    | some j =>
      have hj := ne j hd
      obtain ⟨m', k, k1, k2, k3, k4, -⟩ := slave_cause (hc j) (B.slave j) (B.shw j) (c := m j + 1) (e := e1 j) (.inr (H j).got.timer) (H j).me (H j).still
        ((H j).sync hj) hb hn
      exact .inr ⟨m', by show e1 j ≤ m'; omega, k3, k4⟩
  · have := K.timez
    show (y i).time zs + τ.c ≤ _
    omega

/-- What the addressed slave does. -/
structure Answers (cfgS : ι → Config) (id : ι → U8) (τ : BusTimes) (x : MDeviceTimed) (y : ι → DeviceTimed) (e m : ι → Nat) (r : MReq) (i : ι)
    (p e' zs : Nat) (G : List U8) : Prop where
  resp : G = rtuFrame (id i) (encodeResponse (respond (cfgS i).limits ((y i).st p).lib.mem (asRequest r)))
  taken : Taken (cfgS i) (id i) τ.Ps (reqFrame r) (y i) (e i) (m i) p e'
  mem : ((y i).st (p + 1)).lib.mem = effect (cfgS i).limits ((y i).st p).lib.mem (asRequest r)
  sends : DevSends (y i) p G
  once : ∀ k, p < k → k < e' → ¬ (y i).Sends k
  ze : zs < e'
  round : ∀ n b, e i ≤ n → n < e' → (y i).Writes n b → p ≤ n ∧ n ≤ zs
  wire : (List.range' p (zs + 1 - p)).flatMap (sW (y i)) = G
  one : ∀ n b, p ≤ n → n ≤ zs → (y i).Writes n b → sW (y i) n = [b]
  time : (y i).time zs ≤ (y i).time p + 254 * τ.e

theorem answers (hw : cfgM.MWF) (hc : ∀ j, (cfgS j).WF) (B : TimedLine cfgM cfgS id τ c0 s x y) (hf : τ.FitLine c0 s cfgM.respTimeout)
    (hm : Medium c0 τ.c s τ.t15 (stations x y) via) (R : LRound id τ x y via a a0 c e) (F : SendFacts x a r) (C : Chain x τ.e a z w r)
    (H : ∀ j, Ph1 id τ c0 s (x.time a + (cfgM.respTimeout - 2) * τ.d) x y via a z e r j (m j) (e1 j)) {i : ι} (hi : id i = reqSlave r) :
    ∃ p e' zs G, Answers cfgS id τ x y e m r i p e' zs G ∧
      Phase c0 τ.c s τ.t15 τ.t35 τ.lat τ.e (x.time a + (cfgM.respTimeout - 2) * τ.d) (stations x y) via (sq (a + 1) e1) (sq (z + 1) e1) (some i) p zs ∧
      WhyS (x.time a + (cfgM.respTimeout - 2) * τ.d) (stations x y) (sq (a + 1) e1) (some i) zs := by
  have hsil := hf.one.silence
  have htxs := hf.one.txSlave
  have hH := hf.one.timeout
  unfold BusTimes.round at hH
  have hturn := hf.turn
  have hmeet := hf.meet
  have hlen := reqFrame_len F.qty F.data
  have hz := C.timez
  have hmul := Nat.mul_le_mul_right τ.e (show (reqFrame r).length - 1 ≤ 254 by omega)
  have hG := (H i).got
  have g1 : e i ≤ via none (some i) z := hG.ge
  have g2 := hG.lt
  have g3 : (y i).Byte (via none (some i) z) := hG.byte
  have g4 : (y i).op (m i) = .timer := hG.timer
  have g5 : ∀ k, e i ≤ k → k < m i → (y i).op k ≠ .timer := hG.first
  have g6 : (y i).time (m i) ≤ (y i).time (via none (some i) z) + τ.t35 + τ.lat := hG.soon
  have g7 : (y i).time (via none (some i) z) ≤ x.time z + τ.c := hG.hi
  have hg := reqFrame_good r F.qty F.data
  have h4' := goodFrame_len hg
  have h0 : (reqFrame r).getD 0 0 = reqSlave r := rfl
  -- bytes after the beginning of the answer
  have bytes : ∀ {p zs ws : Nat} {G : List U8}, m i < p → (y i).time p ≤ (y i).time (m i) + 2 * τ.Ps → (∀ k, e i ≤ k → k < p → (y i).out k = []) →
      SChain (y i) τ.e p zs ws G → ∀ k, m i < k → (y i).Byte k → (y i).time ws + τ.Ps < (y i).time k := by
    intro p zs ws G p1 p2 p3 K k k1 ⟨b, k2⟩
    have P := phase_two hw hc B hf hm R F C H hi p1 p2 p3 K
    have hk : e1 i ≤ k := by rw [(H i).mine hi]; omega
    obtain ⟨d, n, b', d1, d2, d3, d4, d5⟩ := P.source (l := some i) hk k2
    have d4 : (stations x y d).time n + c0 ≤ (y i).time k := d4
    have e1 := K.timew
    have e2 := K.timez
    have wl : (y i).time zs + c0 + τ.t35 ≤ (stations x y d).time n ∨ x.time a + (cfgM.respTimeout - 2) * τ.d ≤ (stations x y d).time n :=
      P.write_late d1 d5 d2
    rcases wl with h | h <;> omega
  obtain ⟨p, e', K⟩ := take_frame (X := 256 * τ.e) (hc i) (B.slave i) (B.shw i) (B.spoll i) (m := m i) (kz := via none (some i) z) (Fr := reqFrame r)
    (fun k k1 ⟨b, k2⟩ => by
      have g8 : (y i).time (via none (some i) z) + τ.t35 + c0 ≤ (y i).time k + s ∨ x.time a + (cfgM.respTimeout - 2) * τ.d + c0 ≤ (y i).time k :=
        hG.after k b k1 k2
      rcases g8 with h | h <;> omega)
    (fun _ p p1 p2 p3 G hs => by
      obtain ⟨zs, ws, K⟩ := schain (B.slave i) (B.stx i) hs
      have hby := bytes p1 p2 p3 K
      have k1 := K.pz
      have k2 := K.zw
      have k3 := K.timew
      have k4 := K.timez
      refine ⟨ws, by omega, by omega, K.count (fun k q1 q2 hk => ?_), fun k q1 hk => hby k (by omega) hk⟩
      have := hby k (by omega) hk
      have := (B.slave i).time_le q2
      omega) (R.start i) (R.ce i) (R.still i) (R.sync i) (R.ident i) g4 g5 g1 g2 g3
    (fun k k1 k2 ⟨b, hb⟩ => hG.tail k b k1 k2 hb)
    (fun k k1 k2 ⟨b, hb⟩ => by
      obtain ⟨k', b', l1, l2, l3, l4⟩ := hG.left k b k1 k2 hb
      exact ⟨k', l1, l2, ⟨b', l3⟩, l4⟩)
    (H i).bytes hg.len (by omega)
  obtain ⟨hmem, hds, hns, hwire⟩ := K.yes r rfl F.qty F.data hi.symm
  obtain ⟨zs, ws, S⟩ := schain (B.slave i) (B.stx i) hds
  have P := phase_two hw hc B hf hm R F C H hi K.mp K.time K.before S
  have hby := bytes K.mp K.time K.before S
  have s1 := S.pz
  have s2 := S.zw
  have s3 := K.mp
  have s4 := K.pe
  have hcause : ∀ n b, e' ≤ n → (y i).Writes n b → ∃ m' k, e' ≤ k ∧ k < m' ∧ m' < n ∧ (y i).op m' = .timer ∧ (y i).Byte k := by
    intro n b hn hb
    obtain ⟨m', k, k1, k2, k3, k4, k5, -⟩ := slave_cause (hc i) (B.slave i) (B.shw i) (c := m i + 1) (e := e') (.inr g4) (by omega)
      (fun k k1 k2 => K.still k k1 k2) K.sync hb hn
    exact ⟨m', k, k1, k2, k3, k4, k5⟩
  have hze : zs < e' := by
    refine Classical.byContradiction fun h => ?_
    obtain ⟨b, hb⟩ := S.wz
    obtain ⟨m', k, k1, k2, k3, -, k5⟩ := hcause zs b (by omega) hb
    have h1 := hby k (by omega) k5
    have h2 := (B.slave i).time_le (show k ≤ ws by omega)
    omega
  have round : ∀ n b, e i ≤ n → n < e' → (y i).Writes n b → p ≤ n ∧ n ≤ zs := by
    intro n b n1 n2 n3
    have hp : p ≤ n := by
      refine Classical.byContradiction fun h => ?_
      unfold DeviceTimed.Writes at n3
      rw [K.before n n1 (by omega)] at n3; cases n3
    refine ⟨hp, ?_⟩
    rcases Nat.lt_or_ge ws n with h | h
    · have := (slave_unsent (B.slave i) S.done (e' - ws) (fun i i1 i2 => hns i (by omega) (by omega))).1 n (by omega) (by omega)
      unfold DeviceTimed.Writes at n3
      rw [this] at n3; cases n3
    · exact S.last n b hp h n3
  have hei : e i ≤ m i := by omega
  refine ⟨p, e', zs, _, ⟨rfl, K, hmem, hds, hns, hze, round, ?_, fun n b n1 n2 hb => sW_sent (B.slave i) hds n1 (fun k k1 k2 => hns k k1 (by omega)) hb,
    S.timez⟩, P, fun n b hn hb => ?_⟩
  · rw [← wire_outs, ← hwire, (y i).outs_split (show p ≤ zs + 1 by omega) (show zs + 1 ≤ e' by omega), wire_append, wire_outs (zs + 1) e']
    have : (List.range' (zs + 1) (e' - (zs + 1))).flatMap (sW (y i)) = [] := by
      rw [List.flatMap_eq_nil_iff]
      intro k hk
      have hk := List.mem_range'_1.1 hk
      refine Classical.byContradiction fun h => ?_
      obtain ⟨b, hb⟩ := sW_ne h
      have := (round k b (by omega) (by omega) hb).2
      omega
    rw [this, List.append_nil]
  · rcases Nat.lt_or_ge n e' with h | h
    · have := (round n b (by omega) h hb).2
      omega
    · obtain ⟨m', k, k1, k2, k3, k4, -⟩ := hcause n b h hb
      have h2 := (H i).mine hi
      exact .inr ⟨m', by show e1 i ≤ m'; omega, k3, k4⟩

end

end Modbus
