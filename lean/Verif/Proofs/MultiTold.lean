import Verif.Proofs.MultiAnswer

/-! One request on a line with several slaves: the end. -/

namespace Modbus

open Spec

section
variable {ι : Type} {cfgM : Config} {cfgS : ι → Config} {id : ι → U8} {τ : BusTimes} {c0 s : Nat} {x : MDeviceTimed} {y : ι → DeviceTimed}
  {via : Option ι → Option ι → Nat → Nat} {a a0 z w u : Nat} {c e m e1 c2 e2 : ι → Nat} {r : MReq}

/-- Everybody is at rest again, and has heard everything written so far: the master by event `u`, slave `j` before event `c2 j`. -/
structure LEnd (id : ι → U8) (x : MDeviceTimed) (y : ι → DeviceTimed) (via : Option ι → Option ι → Nat → Nat) (a z u : Nat) (c2 e2 : ι → Nat) : Prop where
  au : a ≤ u
  start : ∀ j, (y j).op (c2 j - 1) = .timer
  ce : ∀ j, c2 j ≤ e2 j
  still : ∀ j k, c2 j ≤ k → k < e2 j → ¬ LineEv (y j) k
  sync : ∀ j, HSync ((y j).st (e2 j))
  ident : ∀ j, ((y j).st (e2 j)).lib.id = id j
  down : ∀ j n b, n ≤ z → x.Writes n b → via none (some j) n < c2 j
  up : ∀ j n b, n < e2 j → (y j).Writes n b → via (some j) none n ≤ u
  cross : ∀ i j n b, i ≠ j → n < e2 i → (y i).Writes n b → via (some i) (some j) n < c2 j

theorem LEnd.rest (hc : ∀ j, (cfgS j).WF) (B : TimedLine cfgM cfgS id τ c0 s x y) (hf : τ.FitLine c0 s cfgM.respTimeout)
    (hm : Medium c0 τ.c s τ.t15 (stations x y) via) (E : LEnd id x y via a z u c2 e2) :
    Rest c0 τ.c s τ.t15 τ.t35 (stations x y) via (sq (u + 1) c2) (sq (z + 1) e2) none := by
  have hsil := hf.one.silence
  refine ⟨hm, st_mono B, ?_, ?_, ?_, by omega⟩
  · intro l d n b hd hb hn
    cases l with
    | none =>
      cases d with
      | none => exact absurd rfl hd
      | some j =>
        have := E.up j n b hn hb
        show _ < u + 1
        omega
    | some j =>
      cases d with
      | none =>
        have hn : n < z + 1 := hn
        exact E.down j n b (by omega) hb
      | some i => exact E.cross i j n b (fun h => hd (by rw [h])) hn hb
  · intro l m hl hm' hst
    cases l with
    | none => exact absurd rfl hl
    | some j =>
      obtain ⟨k, k1, k2, ⟨b, k3⟩, k4, -⟩ := frame_last (B.shw j) (c := c2 j) (e := c2 j) (.inr (E.start j)) (Nat.le_refl _) (fun k _ _ => by omega) hm' hst
      exact ⟨k, b, k1, k2, k3, k4⟩
  · intro d n b hd hn hb
    cases d with
    | none => exact absurd rfl hd
    | some j =>
      obtain ⟨m, k, k1, k2, k3, k4, -⟩ := slave_cause (hc j) (B.slave j) (B.shw j) (.inr (E.start j)) (E.ce j) (E.still j) (E.sync j) hb hn
      have := E.ce j
      exact ⟨m, by show c2 j ≤ m; omega, k3, k4⟩

theorem LEnd.later (hw : cfgM.MWF) (hc : ∀ j, (cfgS j).WF) (B : TimedLine cfgM cfgS id τ c0 s x y) (hf : τ.FitLine c0 s cfgM.respTimeout)
    (hm : Medium c0 τ.c s τ.t15 (stations x y) via) (hs : x.Sends a) (C : Chain x τ.e a z w r) (E : LEnd id x y via a z u c2 e2) {j : ι} {n : Nat} {b : U8}
    (hn : e2 j ≤ n) (hb : (y j).Writes n b) : ∃ a', a < a' ∧ x.Sends a' ∧ x.time a' + τ.t35 ≤ (y j).time n := by
  obtain ⟨n', b', h1, h2, h3⟩ := (E.rest hc B hf hm).write _ (some j) n b rfl (by simp) hn hb
  have h3 : x.time n' + c0 + τ.t35 ≤ (y j).time n := h3
  obtain ⟨a', a1, a2, a3, -⟩ := mwrite_why hw B hs C (show z < n' from h1) h2
  have := B.master.time_le a2
  exact ⟨a', a1, a3, by omega⟩

theorem LEnd.byte (hw : cfgM.MWF) (hc : ∀ j, (cfgS j).WF) (B : TimedLine cfgM cfgS id τ c0 s x y) (hf : τ.FitLine c0 s cfgM.respTimeout)
    (hm : Medium c0 τ.c s τ.t15 (stations x y) via) (hs : x.Sends a) (C : Chain x τ.e a z w r) (E : LEnd id x y via a z u c2 e2) {k : Nat} (hk : u < k)
    (hb : x.Byte k) : ∃ a', a < a' ∧ x.Sends a' ∧ x.time a' + τ.t35 ≤ x.time k := by
  obtain ⟨b, hb⟩ := mbyte_iff.1 hb
  obtain ⟨n', b', h1, h2, -, h3⟩ := (E.rest hc B hf hm).byte (l := none) (k := k) (b := b) hk hb
  have h3 : x.time n' + c0 + τ.t35 ≤ x.time k := h3 rfl
  obtain ⟨a', a1, a2, a3, -⟩ := mwrite_why hw B hs C (show z < n' from h1) h2
  have := B.master.time_le a2
  exact ⟨a', a1, a3, by omega⟩

/-- The next round. -/
theorem LEnd.next (hw : cfgM.MWF) (B : TimedLine cfgM cfgS id τ c0 s x y)
    (hm : Medium c0 τ.c s τ.t15 (stations x y) via) (hs : x.Sends a) (C : Chain x τ.e a z w r) (E : LEnd id x y via a z u c2 e2) {a' a0' : Nat}
    (hs' : x.Sends a') (hn : ∀ k, a < k → k < a' → ¬ x.Sends k) (hua : u < a') (hst : Standing false false (x.st a').lib)
    (h0 : a0' ≤ a') (h0s : a0' = 0 ∨ x.op (a0' - 1) = .timer) (hcalm : ∀ k, a0' ≤ k → k < a' → ¬ x.Byte k)
    (late : ∀ j, (y j).time (c2 j - 1) < x.time a' + c0) (old : ∀ j n b, n < e2 j → (y j).Writes n b → (y j).time n + τ.c ≤ x.time a') :
    LRound id τ x y via a' a0' c2 e2 := by
  refine ⟨hs', hst, h0, h0s, hcalm, fun j => .inr (E.start j), E.ce, E.still, E.sync, E.ident, ?_, ?_, E.cross, old, ?_⟩
  · intro j n b n1 hb
    refine E.down j n b ?_ hb
    refine Classical.byContradiction fun h => ?_
    obtain ⟨a'', a1, a2, a3, -⟩ := mwrite_why hw B hs C (by omega) hb
    exact hn a'' a1 (by omega) a3
  · intro j n b n1 hb
    have := E.up j n b n1 hb
    omega
  · intro j n b n1 hb hcl
    obtain ⟨har, ht, -⟩ := hm.arrives none (some j) n b (by simp) hb hcl
    have ht : x.time n + c0 ≤ (y j).time (via none (some j) n) := ht
    have h1 := B.master.time_le n1
    have h2 := late j
    have h3 : c2 j - 1 < via none (some j) n := st_lt B (d := some j) (by show (y j).time _ < (y j).time _; omega)
    refine Classical.byContradiction fun h => ?_
    exact E.still j _ (by omega) (by omega) (.inl ⟨b, har⟩)

/-- An answered request. -/
structure LTold (cfgS : ι → Config) (id : ι → U8) (τ : BusTimes) (x : MDeviceTimed) (y : ι → DeviceTimed) (via : Option ι → Option ι → Nat → Nat)
    (a z : Nat) (e : ι → Nat) (r : MReq) (i : ι) (p e' t v : Nat) (c2 e2 : ι → Nat) : Prop where
  fin : LEnd id x y via a z t c2 e2
  e2i : e2 i = e'
  poll : (y i).op p = .main .poll
  ep : e i ≤ p
  pe : p < e'
  after : x.time a < (y i).time p
  mem : ((y i).st (p + 1)).lib.mem = effect (cfgS i).limits ((y i).st p).lib.mem (asRequest r)
  sends : DevSends (y i) p (rtuFrame (id i) (encodeResponse (respond (cfgS i).limits ((y i).st p).lib.mem (asRequest r))))
  once : ∀ k, e i ≤ k → k < e' → (y i).Sends k → k = p
  other : ∀ j, j ≠ i → ∀ k, e j ≤ k → k < e2 j → (y j).out k = []
  clear : ∀ n b, e i ≤ n → n < e' → (y i).Writes n b → ¬ Clash τ.c (stations x y) (some i) n
  heard : RoundHeard x τ.Pm a t v (outcome (cfgS i).limits ((y i).st p).lib.mem r)
  timer : x.op t = .timer
  late : ∀ j, (y j).time (c2 j - 1) < x.time t + c0
  old : ∀ j n b, n < e2 j → (y j).Writes n b → (y j).time n + τ.c ≤ x.time t
  pt : (y i).time p ≤ x.time t
  time : x.time v ≤ x.time a + τ.round

theorem ltold (hw : cfgM.MWF) (hc : ∀ j, (cfgS j).WF) (B : TimedLine cfgM cfgS id τ c0 s x y) (hf : τ.FitLine c0 s cfgM.respTimeout)
    (hm : Medium c0 τ.c s τ.t15 (stations x y) via) (R : LRound id τ x y via a a0 c e) (F : SendFacts x a r) (C : Chain x τ.e a z w r)
    (H : ∀ j, Ph1 id τ c0 s (x.time a + (cfgM.respTimeout - 2) * τ.d) x y via a z e r j (m j) (e1 j)) {i : ι} (hi : id i = reqSlave r) :
    ∃ p e' t v c2 e2, LTold (c0 := c0) cfgS id τ x y via a z e r i p e' t v c2 e2 := by
  obtain ⟨p, e', zs, G, A, P, hS⟩ := answers hw hc B hf hm R F C H hi
  have hsil := hf.one.silence
  have hH := hf.one.timeout
  have hround : τ.round = 2 * (256 * τ.e + τ.c + τ.t35 + τ.lat + τ.Ps) + τ.Pm := rfl
  have hturn := hf.turn
  have hmeet := hf.meet
  have hlen := reqFrame_len F.qty F.data
  have hz := C.timez
  have hmul := Nat.mul_le_mul_right τ.e (show (reqFrame r).length - 1 ≤ 254 by omega)
  have hem : ∀ j, e j ≤ m j := by
    intro j
    have h1 : e j ≤ via none (some j) z := (H j).got.ge
    have h2 := (H j).got.lt
    omega
  have G1 : (y i).time (via none (some i) z) + τ.t35 ≤ (y i).time (m i) := (H i).got.early
  have G2 : (y i).time (m i) ≤ (y i).time (via none (some i) z) + τ.t35 + τ.lat := (H i).got.soon
  have G3 : x.time z + c0 ≤ (y i).time (via none (some i) z) := (H i).got.lo
  have G4 : (y i).time (via none (some i) z) ≤ x.time z + τ.c := (H i).got.hi
  have K1 := A.taken.mp
  have K2 := A.taken.pe
  have K3 := A.taken.time
  have A1 := A.time
  have A2 := A.ze
  have hmp := (B.slave i).time_le (show m i ≤ p by omega)
  have hpz := (B.slave i).time_le (show p ≤ zs from P.az)
  have haz := B.master.time_le C.az
  have ne : ∀ j, some i ≠ some j → id j ≠ reqSlave r := fun j hj h => hj (by rw [B.distinct j i (by rw [h, hi])])
  have hGl := A.sends.len
  have hG1 := A.sends.last
  have hL : (y i).time zs + τ.c + τ.t35 + τ.lat < x.time a + (cfgM.respTimeout - 2) * τ.d := by omega
  -- the master gets it
  obtain ⟨t, M⟩ := P.got hS (l := none) (by simp) (by omega) hL
  have M1 : a + 1 ≤ via (some i) none zs := M.ge
  have M2 := M.lt
  have M3 : x.op t = .timer := M.timer
  have M4 : x.time (via (some i) none zs) + τ.t35 ≤ x.time t := M.early
  have M5 : x.time t ≤ x.time (via (some i) none zs) + τ.t35 + τ.lat := M.soon
  have M6 : (y i).time zs + c0 ≤ x.time (via (some i) none zs) := M.lo
  have M7 : x.time (via (some i) none zs) ≤ (y i).time zs + τ.c := M.hi
  have hfr : hmBytes (x.seg (a + 1) t) = G := by
    rw [hmBytes_seg, ← A.wire]
    exact M.frame (R := mR x) (W := sW (y i)) (fun k b h => mR_gets h) (fun k h => mR_ne h) A.one (fun n h => sW_ne h)
  -- the others get it
  have others : ∀ j, ∃ c2 e2, m j + 1 ≤ c2 ∧ (y j).op (c2 - 1) = .timer ∧ c2 ≤ e2 ∧ (∀ k, c2 ≤ k → k < e2 → ¬ LineEv (y j) k) ∧ HSync ((y j).st e2) ∧
      ((y j).st e2).lib.id = id j ∧ (y j).time (c2 - 1) < x.time t + c0 ∧ (j = i → e2 = e') ∧
      (j ≠ i → (∀ k, e j ≤ k → k < e2 → (y j).out k = []) ∧ ∀ n b, p ≤ n → n ≤ zs → (y i).Writes n b → via (some i) (some j) n < c2) := by
    intro j
    by_cases hj : j = i
    · subst hj
      refine ⟨m j + 1, e', Nat.le_refl _, (H j).got.timer, by omega, fun k k1 k2 => A.taken.still k k1 k2, A.taken.sync, A.taken.ident, ?_, fun _ => rfl,
        fun h => absurd rfl h⟩
      show (y j).time (m j) < _
      omega
    · have hji : some i ≠ some j := fun h => hj (by cases h; rfl)
      have hjr := ne j hji
      obtain ⟨m2, N⟩ := P.got hS (l := some j) hji (by omega) hL
      have N1 : e1 j ≤ via (some i) (some j) zs := N.ge
      have N2 := N.lt
      have N3 : (y j).op m2 = .timer := N.timer
      have N4 : (y j).time (via (some i) (some j) zs) + τ.t35 ≤ (y j).time m2 := N.early
      have N5 : (y j).time m2 ≤ (y j).time (via (some i) (some j) zs) + τ.t35 + τ.lat := N.soon
      have N6 : (y j).time (via (some i) (some j) zs) ≤ (y i).time zs + τ.c := N.hi
      have N7 : (y j).time (via (some i) (some j) zs) ≤ x.time (via (some i) none zs) + s := M.near (some j) hji
      have h0 : G.getD 0 0 = id i := by rw [A.resp]; rfl
      have h1 := (H j).me
      have h2 := hem j
      obtain ⟨p2, e2, K⟩ := take_frame (X := 0) (c := m j + 1) (hc j) (B.slave j) (B.shw j) (B.spoll j) (m := m2) (kz := via (some i) (some j) zs) (Fr := G)
        (fun k k1 ⟨b, k2⟩ => by
          have g8 : (y j).time (via (some i) (some j) zs) + τ.t35 + c0 ≤ (y j).time k + s ∨
            x.time a + (cfgM.respTimeout - 2) * τ.d + c0 ≤ (y j).time k := N.after k b k1 k2
          rcases g8 with h | h <;> omega)
        (fun h => absurd (B.distinct i j (h0.symm.trans h)).symm hj) (.inr (H j).got.timer) (H j).me (H j).still ((H j).sync hjr) ((H j).ident hjr) N3 N.first
        N1 N2 N.byte (fun k k1 k2 ⟨b, hb⟩ => N.tail k b k1 k2 hb)
        (fun k k1 k2 ⟨b, hb⟩ => by
          obtain ⟨k', b', l1, l2, l3, l4⟩ := N.left k b k1 k2 hb
          exact ⟨k', l1, l2, ⟨b', l3⟩, l4⟩)
        (by
          rw [hbytes_seg, ← A.wire]
          exact N.frame (R := sR (y j)) (W := sW (y i)) (fun k b h => sR_gets h) (fun k h => sR_ne h) A.one (fun n h => sW_ne h)) hGl (by omega)
      have hno := K.no (by rw [h0]; exact fun h => hj (B.distinct i j h).symm)
      refine ⟨m2 + 1, e2, by omega, N3, by have := K.mp; have := K.pe; omega, fun k k1 k2 => K.still k k1 k2, K.sync, K.ident, ?_, fun h => absurd h hj,
        fun _ => ⟨fun k k1 k2 => ?_, fun n b n1 n2 hb => ?_⟩⟩
      · show (y j).time m2 < _
        omega
      · rcases Nat.lt_or_ge k (e1 j) with h | h
        · exact (H j).other hjr k k1 h
        · exact hno k h k2
      · have := (N.all n b n1 n2 hb).2.2
        omega
  obtain ⟨c2, hc2⟩ := Classical.axiomOfChoice others
  obtain ⟨e2, O⟩ := Classical.axiomOfChoice hc2
  have own : ∀ j n b, n < e2 j → (y j).Writes n b → n < e j ∨ (j = i ∧ p ≤ n ∧ n ≤ zs) := by
    intro j n b h1 h2
    rcases Nat.lt_or_ge n (e j) with h | h
    · exact .inl h
    · right
      obtain ⟨-, -, -, -, -, -, -, o8, o9⟩ := O j
      by_cases hj : j = i
      · subst hj
        rw [o8 rfl] at h1
        exact ⟨rfl, A.round n b h h1 h2⟩
      · unfold DeviceTimed.Writes at h2
        rw [(o9 hj).1 n h h1] at h2; cases h2
  have E : LEnd id x y via a z t c2 e2 := by
    refine ⟨by omega, fun j => (O j).2.1, fun j => (O j).2.2.1, fun j => (O j).2.2.2.1, fun j => (O j).2.2.2.2.1, fun j => (O j).2.2.2.2.2.1, ?_, ?_, ?_⟩
    · intro j n b n1 hb
      have h1 := (O j).1
      have h2 := hem j
      have h3 := R.ce j
      rcases Nat.lt_or_ge n a with h | h
      · have := R.down1 j n b h hb
        omega
      · have h4 := ((H j).got.all n b h n1 hb).2.2
        have h5 := (H j).got.lt
        omega
    · intro j n b n1 hb
      rcases own j n b n1 hb with h | ⟨rfl, h1, h2⟩
      · have := R.up1 j n b h hb
        omega
      · have := (M.all n b h1 h2 hb).2.2
        omega
    · intro k j n b hkj n1 hb
      have h1 := (O j).1
      have h2 := hem j
      have h3 := R.ce j
      rcases own k n b n1 hb with h | ⟨rfl, h1, h2⟩
      · have := R.cross k j n b hkj h hb
        omega
      · exact ((O j).2.2.2.2.2.2.2.2 (fun h => hkj h.symm)).2 n b h1 h2 hb
  obtain ⟨hgr, hev⟩ := response_outcome (l := (cfgS i).limits) (m := ((y i).st p).lib.mem) r F.qty
  rw [← hi, ← A.resp] at hgr hev
  have hfirst : ∀ k, a < k → k < t → x.op k ≠ .timer := M.first
  obtain ⟨v, V⟩ := told_core hw B.master B.mhw B.mpoll B.apart hf.one R.stand R.a0a R.a0s R.calm C F (kz := via (some i) none zs) (t := t) (G := G) M1 M2 M3
    hfirst M4 (by omega) (fun k k1 k2 ⟨b, hb⟩ => M.tail k b k1 k2 hb) M.byte
    (fun k k1 k2 hk => by
      have hkt : k < t := by
        refine Classical.byContradiction fun h => ?_
        have : k = t := by omega
        subst this
        exact mtimer_not_byte M3 hk
      obtain ⟨b, hb⟩ := mbyte_iff.1 hk
      obtain ⟨n, n1, n2, n3, n4⟩ := M.just k b k1 hkt hb
      have h1 := (hm.arrives (some i) none n b (by simp) n3 (P.clear n1 n2)).2.1
      rw [n4] at h1
      have h1 : (y i).time n + c0 ≤ x.time k := h1
      have h2 := (B.slave i).time_le n1
      omega)
    (fun k k1 k2 ⟨b, hb⟩ => by
      obtain ⟨k', b', l1, l2, l3, l4⟩ := M.left k b k1 k2 hb
      exact ⟨k', l1, l2, ⟨b', l3⟩, l4⟩)
    (fun k k1 hk => by
      obtain ⟨a', a1, a2, a3⟩ := E.byte hw hc B hf hm R.sends C k1 hk
      rcases soon_send hw B.master B.apart R.sends a1 a2 with h | ⟨t', t1, t2, t3⟩
      · omega
      · have : t ≤ t' := by
          refine Classical.byContradiction fun h => ?_
          exact hfirst t' t1 (by omega) t3
        have := B.master.time_le (show t ≤ a' by omega)
        omega)
    hfr hGl (fun h => by rw [h] at hG1; simp at hG1) hgr
  rw [hev] at V
  have hvt := V.time
  have hei := hem i
  refine ⟨p, e', t, v, c2, e2, E, (O i).2.2.2.2.2.2.2.1 rfl, A.taken.poll, by omega, K2, by omega, A.mem, by rw [← A.resp]; exact A.sends, ?_,
    fun j hj => ((O j).2.2.2.2.2.2.2.2 hj).1, ?_, V, M3, fun j => (O j).2.2.2.2.2.2.1, ?_, by omega, by omega⟩
  · intro k k1 k2 hk
    rcases Nat.lt_trichotomy k p with h | h | h
    · obtain ⟨f, hk⟩ := hk
      rw [A.taken.before k k1 h] at hk; cases hk
    · exact h
    · exact absurd hk (A.once k h k2)
  · intro n b n1 n2 hb
    obtain ⟨h1, h2⟩ := A.round n b n1 n2 hb
    exact P.clear h1 h2
  · intro j n b n1 hb
    rcases own j n b n1 hb with h | ⟨rfl, h1, h2⟩
    · have := R.old j n b h hb
      omega
    · have := (B.slave j).time_le h2
      omega

end

end Modbus
