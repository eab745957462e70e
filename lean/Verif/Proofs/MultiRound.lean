import Verif.Proofs.MultiPhase
import Verif.Proofs.BusRounds

/-! One request on a line with several slaves: the master's frame. -/

namespace Modbus

open Spec

section
variable {ι : Type} {cfgM : Config} {cfgS : ι → Config} {id : ι → U8} {τ : BusTimes} {c0 s : Nat} {x : MDeviceTimed} {y : ι → DeviceTimed}
  {via : Option ι → Option ι → Nat → Nat} {a a0 z w : Nat} {c e : ι → Nat} {r : MReq}

/-- A number for the master and one for each slave. -/
def sq (n : Nat) (f : ι → Nat) : Option ι → Nat
  | none => n
  | some j => f j

/-- When event `a` of the master starts a transmission: everybody is at rest, the line is empty. -/
structure LRound (id : ι → U8) (τ : BusTimes) (x : MDeviceTimed) (y : ι → DeviceTimed) (via : Option ι → Option ι → Nat → Nat) (a a0 : Nat) (c e : ι → Nat) :
    Prop where
  sends : x.Sends a
  stand : Standing false false (x.st a).lib
  a0a : a0 ≤ a
  a0s : a0 = 0 ∨ x.op (a0 - 1) = .timer
  calm : ∀ k, a0 ≤ k → k < a → ¬ x.Byte k
  start : ∀ j, DevStart (y j) (c j)
  ce : ∀ j, c j ≤ e j
  still : ∀ j k, c j ≤ k → k < e j → ¬ LineEv (y j) k
  sync : ∀ j, HSync ((y j).st (e j))
  ident : ∀ j, ((y j).st (e j)).lib.id = id j
  down1 : ∀ j n b, n < a → x.Writes n b → via none (some j) n < c j
  up1 : ∀ j n b, n < e j → (y j).Writes n b → via (some j) none n < a
  cross : ∀ i j n b, i ≠ j → n < e i → (y i).Writes n b → via (some i) (some j) n < c j
  old : ∀ j n b, n < e j → (y j).Writes n b → (y j).time n + τ.c ≤ x.time a
  down2 : ∀ j n b, a ≤ n → x.Writes n b → ¬ Clash τ.c (stations x y) none n → e j ≤ via none (some j) n

theorem st_mono (B : TimedLine cfgM cfgS id τ c0 s x y) : ∀ d m n, m ≤ n → (stations x y d).time m ≤ (stations x y d).time n := by
  intro d m n h
  cases d with
  | none => exact B.master.time_le h
  | some j => exact (B.slave j).time_le h

theorem st_must (B : TimedLine cfgM cfgS id τ c0 s x y) : ∀ l k b, (stations x y l).gets k b →
    ∃ n, k < n ∧ ((∃ b, (stations x y l).gets n b) ∨ (stations x y l).timer n) ∧ (stations x y l).time n ≤ (stations x y l).time k + τ.t35 + τ.lat := by
  intro l k b h
  cases l with
  | none => exact B.mhw.timerMust k ⟨b, h⟩
  | some j => exact (B.shw j).timerMust k ⟨b, h⟩

theorem st_excl : ∀ l m b, (stations x y l).timer m → ¬ (stations x y l).gets m b := by
  intro l m b h
  cases l with
  | none => exact fun hg => mtimer_not_byte h ⟨b, hg⟩
  | some j => exact fun hg => timer_not_byte h ⟨b, hg⟩

theorem st_one : ∀ l k b b', (stations x y l).gets k b → (stations x y l).gets k b' → b = b' := by
  intro l k b b' h h'
  cases l with
  | none =>
    obtain ⟨t, h⟩ := (show x.Gets k b from h)
    obtain ⟨t', h'⟩ := (show x.Gets k b' from h')
    rw [h] at h'
    simp only [HMOp.usart.injEq, Option.some.injEq] at h'
    exact h'.1
  | some j =>
    obtain ⟨t, h⟩ := (show (y j).Gets k b from h)
    obtain ⟨t', h'⟩ := (show (y j).Gets k b' from h')
    rw [h] at h'
    simp only [HOp.usart.injEq, Option.some.injEq] at h'
    exact h'.1

/-- A timer event at the master after event `a`: a byte after event `a` before it. -/
theorem mtimer_cause (hx : x.Exec cfgM) (hh : x.Hardware τ.t15 τ.t35 τ.lat) (hs : x.Sends a) (a0a : a0 ≤ a) (a0s : a0 = 0 ∨ x.op (a0 - 1) = .timer)
    (calm : ∀ k, a0 ≤ k → k < a → ¬ x.Byte k) {t : Nat} (ht : x.op t = .timer) (hat : a < t) :
    ∃ k b, a + 1 ≤ k ∧ k < t ∧ x.Gets k b ∧ x.time k + τ.t35 ≤ x.time t ∧ ∀ i b, k < i → i < t → ¬ x.Gets i b := by
  obtain ⟨j, j1, j2, j3, j4⟩ := hh.timerOnly t ht
  have ha0 : a0 ≤ j := by
    refine Classical.byContradiction fun h => ?_
    rcases a0s with h0 | h0
    · omega
    · by_cases hj : j = a0 - 1
      · subst hj; exact mtimer_not_byte h0 j2
      · exact (j4 (a0 - 1) (by omega) (by omega)).2 h0
  have haj : a < j := by
    refine Classical.byContradiction fun h => ?_
    by_cases hj : j = a
    · subst hj
      obtain ⟨f, hs⟩ := hs
      obtain ⟨b, q, ho⟩ := j2
      exact not_main_out hx (by rw [ho]; simp) _ hs
    · exact calm j ha0 (by omega) j2
  obtain ⟨b, hb⟩ := mbyte_iff.1 j2
  exact ⟨j, b, haj, j1, hb, j3, fun i b i1 i2 hi => (j4 i i1 i2).1 ⟨b, hi⟩⟩

/-- Later writes of the master. -/
theorem mwrite_why (hw : cfgM.MWF) (B : TimedLine cfgM cfgS id τ c0 s x y) (hs : x.Sends a) (C : Chain x τ.e a z w r) {n : Nat} {b : U8} (hn : z < n)
    (hb : x.Writes n b) : ∃ a', a < a' ∧ a' ≤ n ∧ x.Sends a' ∧
      (x.time a + (cfgM.respTimeout - 2) * τ.d ≤ x.time a' ∨ ∃ t, a < t ∧ t < a' ∧ x.op t = .timer) := by
  have haz := C.az
  by_cases h : ∃ a', a < a' ∧ a' ≤ n ∧ x.Sends a'
  · obtain ⟨a', a1, a2, a3⟩ := h
    exact ⟨a', a1, a2, a3, soon_send hw B.master B.apart hs a1 a3⟩
  · have := C.last n b (by omega) (fun i i1 i2 hi => h ⟨i, i1, i2, hi⟩) hb
    omega

theorem mwrite_whyS (hw : cfgM.MWF) (B : TimedLine cfgM cfgS id τ c0 s x y) (hs : x.Sends a) (C : Chain x τ.e a z w r) (f : ι → Nat) :
    WhyS (x.time a + (cfgM.respTimeout - 2) * τ.d) (stations x y) (sq (a + 1) f) none z := by
  intro n b hn hb
  obtain ⟨a', a1, a2, a3, a4⟩ := mwrite_why hw B hs C hn hb
  rcases a4 with h | ⟨t, t1, t2, t3⟩
  · have := B.master.time_le a2
    exact .inl (Nat.le_trans h this)
  · exact .inr ⟨t, t1, by omega, t3⟩

/-- The transmission of the request. -/
theorem phase_one (hc : ∀ j, (cfgS j).WF) (B : TimedLine cfgM cfgS id τ c0 s x y) (hf : τ.FitLine c0 s cfgM.respTimeout)
    (hm : Medium c0 τ.c s τ.t15 (stations x y) via) (R : LRound id τ x y via a a0 c e) (F : SendFacts x a r) (C : Chain x τ.e a z w r) :
    Phase c0 τ.c s τ.t15 τ.t35 τ.lat τ.e (x.time a + (cfgM.respTimeout - 2) * τ.d) (stations x y) via (sq (a + 1) e) (sq a e) none a z := by
  have hsil := hf.one.silence
  have hH := hf.one.timeout
  unfold BusTimes.round at hH
  have hlen := reqFrame_len F.qty F.data
  have hz := C.timez
  have hmul := Nat.mul_le_mul_right τ.e (show (reqFrame r).length - 1 ≤ 254 by omega)
  refine ⟨hm, st_mono B, fun n b h _ => h, C.az, C.wz, C.pace, fun n h1 h2 => C.quiet n h1 (by have := C.zw; omega), ?_, ?_, ?_, ?_, st_must B, st_excl,
    st_one, ?_, by omega, hf.meet, ?_⟩
  · intro l d n b hd hb hn
    cases l with
    | none =>
      cases d with
      | none => exact absurd rfl hd
      | some j =>
        have h := R.up1 j n b hn hb
        show _ < a + 1
        omega
    | some j =>
      have h' := R.ce j
      show _ < e j
      cases d with
      | none =>
        have h := R.down1 j n b hn hb
        omega
      | some i =>
        have h := R.cross i j n b (fun h => hd (by rw [h])) hn hb
        omega
  · intro d n b hd hn hb
    cases d with
    | none => exact absurd rfl hd
    | some j => exact R.old j n b hn hb
  · intro l n b hl h1 h2 hb hcl
    cases l with
    | none => exact absurd rfl hl
    | some j => exact R.down2 j n b h1 hb hcl
  · intro l m hm hst
    cases l with
    | none => exact mtimer_cause B.master B.mhw R.sends R.a0a R.a0s R.calm hm hst
    | some j =>
      obtain ⟨k, k1, k2, ⟨b, k3⟩, k4, k5⟩ := frame_last (B.shw j) (R.start j) (R.ce j) (R.still j) hm hst
      exact ⟨k, b, k1, k2, k3, k4, fun i b i1 i2 hi => k5 i i1 i2 ⟨b, hi⟩⟩
  · intro d n b hd hn hb
    cases d with
    | none => exact absurd rfl hd
    | some j =>
      obtain ⟨m, k, k1, k2, k3, k4, -⟩ := slave_cause (hc j) (B.slave j) (B.shw j) (R.start j) (R.ce j) (R.still j) (R.sync j) hb hn
      exact .inr ⟨m, by show e j ≤ m; omega, k3, k4⟩
  · show x.time z + τ.c ≤ _
    omega

/-- What slave `j` makes of the request: timer event `m`; nothing happens on the line from there to event `e1`, where it is ready again if the request was
not for it. -/
structure Ph1 (id : ι → U8) (τ : BusTimes) (c0 s L : Nat) (x : MDeviceTimed) (y : ι → DeviceTimed) (via : Option ι → Option ι → Nat → Nat) (a z : Nat)
    (e : ι → Nat) (r : MReq) (j : ι) (m e1 : Nat) : Prop where
  got : Got c0 τ.c s τ.t15 τ.t35 τ.lat L (stations x y) via (sq (a + 1) e) none a z (some j) m
  bytes : hbytes ((y j).seg (e j) m) = reqFrame r
  me : m + 1 ≤ e1
  still : ∀ k, m + 1 ≤ k → k < e1 → ¬ LineEv (y j) k
  quiet : ∀ n b, e j ≤ n → n < e1 → ¬ (y j).Writes n b
  mine : id j = reqSlave r → e1 = m + 1
  sync : id j ≠ reqSlave r → HSync ((y j).st e1)
  ident : id j ≠ reqSlave r → ((y j).st e1).lib.id = id j
  other : id j ≠ reqSlave r → ∀ k, e j ≤ k → k < e1 → (y j).out k = []

theorem ph_one (hw : cfgM.MWF) (hc : ∀ j, (cfgS j).WF) (B : TimedLine cfgM cfgS id τ c0 s x y) (hf : τ.FitLine c0 s cfgM.respTimeout)
    (hm : Medium c0 τ.c s τ.t15 (stations x y) via) (R : LRound id τ x y via a a0 c e) (F : SendFacts x a r) (C : Chain x τ.e a z w r) (j : ι) :
    ∃ m e1, Ph1 id τ c0 s (x.time a + (cfgM.respTimeout - 2) * τ.d) x y via a z e r j m e1 := by
  have hsil := hf.one.silence
  have hH := hf.one.timeout
  unfold BusTimes.round at hH
  have hturn := hf.turn
  have hlen := reqFrame_len F.qty F.data
  have hz := C.timez
  have hmul := Nat.mul_le_mul_right τ.e (show (reqFrame r).length - 1 ≤ 254 by omega)
  have P := phase_one hc B hf hm R F C
  obtain ⟨m, G⟩ := P.got (mwrite_whyS hw B R.sends C e) (l := some j) (by simp) (by omega) (show x.time z + τ.c + τ.t35 + τ.lat < _ by omega)
  have g1 : e j ≤ via none (some j) z := G.ge
  have g2 := G.lt
  have g3 : (y j).Byte (via none (some j) z) := G.byte
  have g4 : (y j).op m = .timer := G.timer
  have g5 : ∀ k, e j ≤ k → k < m → (y j).op k ≠ .timer := G.first
  have g6 : (y j).time m ≤ (y j).time (via none (some j) z) + τ.t35 + τ.lat := G.soon
  have g7 : (y j).time (via none (some j) z) ≤ x.time z + τ.c := G.hi
  have hfr : hbytes ((y j).seg (e j) m) = reqFrame r := by
    rw [hbytes_seg, ← C.wire, mwire_tr]
    exact G.frame (R := sR (y j)) (W := mW x) (fun k b h => sR_gets h) (fun k h => sR_ne h) (fun n b _ _ h => mW_writes hw B.master h) (fun n h => mW_ne h)
  by_cases hj : id j = reqSlave r
  · refine ⟨m, m + 1, G, hfr, Nat.le_refl _, fun k k1 k2 => by omega, fun n b n1 n2 hb => ?_, fun _ => rfl, fun h => absurd hj h, fun h => absurd hj h,
      fun h => absurd hj h⟩
    obtain ⟨m', k, k1, k2, k3, k4, -⟩ := slave_cause (hc j) (B.slave j) (B.shw j) (R.start j) (R.ce j) (R.still j) (R.sync j) hb n1
    exact g5 m' (by omega) (by omega) k4
  · have hg := reqFrame_good r F.qty F.data
    have h4' := goodFrame_len hg
    have h0 : (reqFrame r).getD 0 0 = reqSlave r := rfl
    obtain ⟨p, e', K⟩ := take_frame (X := 0) (hc j) (B.slave j) (B.shw j) (B.spoll j) (m := m) (kz := via none (some j) z) (Fr := reqFrame r)
      (fun k k1 ⟨b, k2⟩ => by
        have g8 : (y j).time (via none (some j) z) + τ.t35 + c0 ≤ (y j).time k + s ∨ x.time a + (cfgM.respTimeout - 2) * τ.d + c0 ≤ (y j).time k :=
          G.after k b k1 k2
        rcases g8 with h | h <;> omega)
      (fun h => absurd (h0.symm.trans h).symm hj) (R.start j) (R.ce j) (R.still j) (R.sync j) (R.ident j) g4 g5 g1 g2 g3
      (fun k k1 k2 ⟨b, hb⟩ => G.tail k b k1 k2 hb)
      (fun k k1 k2 ⟨b, hb⟩ => by
        obtain ⟨k', b', l1, l2, l3, l4⟩ := G.left k b k1 k2 hb
        exact ⟨k', l1, l2, ⟨b', l3⟩, l4⟩)
      hfr hg.len (by omega)
    have hno := K.no (by rw [h0]; exact fun h => hj h.symm)
    refine ⟨m, e', G, hfr, by have := K.mp; have := K.pe; omega, fun k k1 k2 => K.still k k1 k2, fun n b n1 n2 hb => ?_, fun h => absurd h hj,
      fun _ => K.sync, fun _ => K.ident, fun _ => hno⟩
    unfold DeviceTimed.Writes at hb
    rw [hno n n1 n2] at hb
    cases hb

end

end Modbus
