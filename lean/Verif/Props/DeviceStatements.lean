import Verif.Proofs.StmtDevice
import Verif.Props.DeviceTimed
import Verif.Props.BusTimed

/-! C77: the slave device with interrupts between any two statements of a poll. -/

namespace Modbus

open Spec

section
variable {cfg : Config} {id : U8} {x : StmtTimed} {t15 t35 lat P X : Nat}

theorem atom_like (hc : cfg.WF) (hx : x.Exec cfg id) (hh : x.Hardware t15 t35 lat) (hp : x.Punctual P X) : x.Like (atom cfg x) := by
  refine ⟨fun _ => rfl, fun n => (stmt_all hc hx hh hp n).2, ?_, ?_, ?_, ?_, ?_, ?_⟩
  · intro n h e
    show atomOp _ _ _ = _
    rw [e]; rfl
  · intro n op e
    show atomOp _ _ _ = _
    rw [e]; rfl
  · intro n e hno
    have hs := (atom_exec hc hx).step n
    have hop : (atom cfg x).op n = skipOp ((atom cfg x).st n) := by
      show atomOp _ _ _ = _
      rcases e with e | e
      · rw [e]; rfl
      · cases hl : linPt (x.st n) with
        | true => exact absurd ((atom_poll hx).2 ⟨e, hl⟩) hno
        | false => rw [e]; rfl
    rw [hop, skip_step] at hs
    exact ⟨(Prod.mk.inj (Except.ok.inj hs)).1.symm, _, hop⟩
  · intro k m h
    exact poll_once hx hh h
  · intro n h
    exact ((atom_poll hx).1 h).1
  · intro n hn
    have := (stmt_all hc hx hh hp n).1.sim
    unfold Sim at this
    rw [show (x.st n).pc = .out from Classical.not_not.1 hn] at this
    exact this.symm

theorem atom_punctual (hc : cfg.WF) (hx : x.Exec cfg id) (hh : x.Hardware t15 t35 lat) (hp : x.Punctual P X) : (atom cfg x).Punctual P X := by
  refine ⟨atom_polls hc hx hh hp, ?_, ?_⟩
  · intro m k h1 h2 h3
    exact hp.quiet m k h1 (atom_timer.1 h2) (atom_byte.1 h3)
  · intro n f hf
    have : .send f ∈ x.out n := by
      rw [← (stmt_all hc hx hh hp n).2]; exact hf
    obtain ⟨w, w1, w2, w3, w4⟩ := hp.tx n f this
    exact ⟨w, w1, w2, by rw [atom_count]; exact w3, fun k k1 k2 => w4 k k1 (atom_byte.1 k2)⟩

/-- **C77.** Interrupts between any two statements of a poll make no difference: under the timing conditions, every execution with interrupts between
the statements of the polls is like one with uninterrupted polls that satisfies the same conditions. -/
theorem C77_polls_are_atomic (hc : cfg.WF) (hx : x.Exec cfg id) (hh : x.Hardware t15 t35 lat) (hp : x.Punctual P X) :
    ∃ y : DeviceTimed, y.Exec cfg id ∧ y.Hardware t15 t35 lat ∧ y.Punctual P X ∧ x.Like y :=
  ⟨atom cfg x, atom_exec hc hx, atom_hardware hc hx hh, atom_punctual hc hx hh hp, atom_like hc hx hh hp⟩

/-! ### From the bytes on the line to the bytes on the line -/

theorem Spec.StmtTimed.Exec.time_le (hx : x.Exec cfg id) {a b : Nat} (h : a ≤ b) : x.time a ≤ x.time b := by
  induction h with
  | refl => exact Nat.le_refl _
  | step _ ih => exact Nat.le_trans ih (hx.mono _)

theorem outside_start (hx : x.Exec cfg id) : ¬ x.InPoll 0 := by
  obtain ⟨m, s, -, h⟩ := hx.init
  unfold StmtTimed.InPoll
  rw [h]; simp

/-- Who is inside a poll has called it. -/
theorem poll_called (hx : x.Exec cfg id) {n : Nat} (h : x.InPoll n) : ∃ k, k < n ∧ x.ev k = .call ∧ ∀ j, k < j → j ≤ n → x.InPoll j := by
  induction n with
  | zero => exact absurd h (outside_start hx)
  | succ n ih =>
    by_cases hn : x.InPoll n
    · obtain ⟨k, k1, k2, k3⟩ := ih hn
      refine ⟨k, by omega, k2, fun j j1 j2 => ?_⟩
      by_cases hj : j = n + 1
      · rw [hj]; exact h
      · exact k3 j j1 (by omega)
    · have hpc : (x.st n).pc = .out := Classical.not_not.1 hn
      have hs := hx.step n
      refine ⟨n, Nat.lt_succ_self n, ?_, fun j j1 j2 => by rw [show j = n + 1 by omega]; exact h⟩
      cases he : x.ev n with
      | call => rfl
      | stmt => exact absurd (hx.inside n he) hn
      | app op =>
        exfalso
        apply h
        rw [he] at hs
        simp only [slaveDevStep] at hs
        split at hs
        · simp only [Except.ok.injEq, Prod.mk.injEq] at hs; rw [← hs.1]; exact hpc
        · obtain ⟨⟨s', o'⟩, -, hs⟩ := bind_ok hs
          simp only [pure_eq, Except.ok.injEq, Prod.mk.injEq] at hs
          rw [← hs.1]; exact hpc
      | irq h' =>
        exfalso
        apply h
        rw [he] at hs
        have hs : slaveDevIrq cfg (x.st n) h' = .ok (x.st (n + 1), x.out n) := by
          cases h' with
          | main op => exact absurd he (hx.irq n op)
          | _ => exact hs
        simp only [slaveDevIrq] at hs
        obtain ⟨⟨s', o'⟩, h1, hs⟩ := bind_ok hs
        simp only [pure_eq, Except.ok.injEq, Prod.mk.injEq] at hs
        rw [← hs.1]; exact hpc

/-- Inside a poll, as long as it has not had or has had its effect, memory and state stand still. -/
theorem span_still (hc : cfg.WF) (hx : x.Exec cfg id) (hh : x.Hardware t15 t35 lat) {a b : Nat} (hab : a ≤ b)
    (hin : ∀ j, a ≤ j → j < b → x.InPoll j ∧ (atom cfg x).op j ≠ .main .poll) :
    ((atom cfg x).st b).lib.mem = ((atom cfg x).st a).lib.mem ∧ ((atom cfg x).st b).lib.st = ((atom cfg x).st a).lib.st := by
  induction hab with
  | refl => exact ⟨rfl, rfl⟩
  | @step b hab ih =>
    have hab : a ≤ b := hab
    obtain ⟨i1, i2⟩ := ih (fun j j1 j2 => hin j j1 (by omega))
    obtain ⟨k1, k2⟩ := hin b hab (Nat.lt_succ_self b)
    have hs := (atom_exec hc hx).step b
    rcases inside_step hx hh k1 with ⟨e1, -⟩ | ⟨⟨h', e1⟩, -⟩
    · have hop : (atom cfg x).op b = skipOp ((atom cfg x).st b) := by
        cases hl : linPt (x.st b) with
        | true => exact absurd ((atom_poll hx).2 ⟨e1, hl⟩) k2
        | false =>
          show atomOp (x.ev b) (linPt (x.st b)) (atomSt cfg x b) = _
          rw [e1, hl]; rfl
      rw [hop, skip_step] at hs
      have := (Prod.mk.inj (Except.ok.inj hs)).1
      exact ⟨by rw [← this, i1], by rw [← this, i2]⟩
    · have hop : (atom cfg x).op b = h' := by
        show atomOp (x.ev b) (linPt (x.st b)) (atomSt cfg x b) = _
        rw [e1]; rfl
      have hn : ∀ op, h' ≠ .main op := by rintro op rfl; exact hx.irq b op e1
      rw [hop] at hs
      refine ⟨?_, by rw [(hirq_keeps hn hs).1, i2]⟩
      rcases sys_cases hc hs (fun m i => hn _) with ⟨-, ⟨a, e, -⟩ | e⟩ | ⟨e, -⟩
      · exact absurd e (hn _)
      · rw [e, i1]
      · exact absurd e (hn _)

theorem atom_bytesIn (a b : Nat) : DeviceTimed.bytesIn ((atom cfg x).seg a b) = x.bytesIn a b := by
  have key : ∀ l : List Nat, DeviceTimed.bytesIn (l.map (atom cfg x).op) = l.filterMap fun n => match x.ev n with
      | .irq (.usart rx _) => rx
      | _ => none := by
    intro l
    induction l with
    | nil => rfl
    | cons n l ih =>
      rw [List.map_cons, List.filterMap_cons]
      have hop : (atom cfg x).op n = atomOp (x.ev n) (linPt (x.st n)) (atomSt cfg x n) := rfl
      cases he : x.ev n with
      | irq h =>
        rw [he] at hop
        have hop : (atom cfg x).op n = h := hop
        rw [hop]
        cases h with
        | usart rx t => cases rx <;> simp [DeviceTimed.bytesIn, ih]
        | _ => simp [DeviceTimed.bytesIn, ih]
      | app op => rw [he] at hop; rw [hop]; simp [atomOp, DeviceTimed.bytesIn, ih]
      | call => rw [he] at hop; rw [hop]; simp [atomOp, skipOp, DeviceTimed.bytesIn, ih]
      | stmt => rw [he] at hop; rw [hop]; cases linPt (x.st n) <;> simp [atomOp, skipOp, DeviceTimed.bytesIn, ih]
  exact key _

theorem atom_gap {c m d : Nat} : (atom cfg x).Gap c m d ↔ x.Gap c m d := by
  constructor
  · rintro ⟨i, k, h1, h2, h3, h4, h5, h6, h7⟩
    exact ⟨i, k, h1, h2, h3, atom_byte.1 h4, atom_byte.1 h5, fun j j1 j2 h => h6 j j1 j2 (atom_byte.2 h), h7⟩
  · rintro ⟨i, k, h1, h2, h3, h4, h5, h6, h7⟩
    exact ⟨i, k, h1, h2, h3, atom_byte.2 h4, atom_byte.2 h5, fun j j1 j2 h => h6 j j1 j2 (atom_byte.1 h), h7⟩

/-- **C77**, spelled out. The claim of C72 with interrupts between any two statements: take the bytes `f` that came in between two consecutive timer
events (or power-on and the first). If `f` is a valid request for this slave and no two of its bytes are `t15` or more apart, then a poll called after
the second timer event starts the response, at most `2 P` after it; all its bytes, which are those the protocol prescribes for the variables at the
call of this poll, have been written to the line at most `X` later; when the poll returns, the variables have changed as prescribed; and nothing else
is put out until the next timer event. If `f` has a wrong CRC or is for somebody else (and is at most 255 bytes long), or two of its bytes are more
than `t15 + 2 lat` apart (whatever its length), nothing is put out. -/
theorem C77_device_in_time (hc : cfg.WF) (hx : x.Exec cfg id) (hh : x.Hardware t15 t35 lat) (hp : x.Punctual P X) (c m : Nat) (hcm : c ≤ m)
    (hs : c = 0 ∨ x.ev (c - 1) = .irq .timer) (hn : ∀ k, c ≤ k → k < m → x.ev k ≠ .irq .timer) (hm : x.ev m = .irq .timer) :
    (GoodFrame id (x.bytesIn c m) → (∀ d, x.Gap c m d → d < t15) →
      ∃ k p j q, m < k ∧ x.Poll k j ∧ k < p ∧ p ≤ j ∧ p ≤ q ∧ x.time p ≤ x.time m + 2 * P ∧ x.time q ≤ x.time p + X ∧
        wire (x.outs p (q + 1)) = rtuFrame id (encodeResponse (respond cfg.limits (x.st k).sys.lib.mem (frameRequest (x.bytesIn c m)))) ∧
        (x.st (j + 1)).sys.lib.mem = effect cfg.limits (x.st k).sys.lib.mem (frameRequest (x.bytesIn c m)) ∧
        (∀ n, m < n → n ≤ q → x.ev n ≠ .irq .timer) ∧
        ∀ n, m ≤ n → (n < p ∨ q < n) → (∀ i, m < i → i ≤ n → x.ev i ≠ .irq .timer) → x.out n = []) ∧
    (((¬ CrcCorrect (x.bytesIn c m) ∨ (x.bytesIn c m).getD 0 0 ≠ id) ∧ (x.bytesIn c m).length ≤ 255 ∨ ∃ d, x.Gap c m d ∧ t15 + 2 * lat < d) →
      ∀ n, m ≤ n → (∀ i, m < i → i ≤ n → x.ev i ≠ .irq .timer) → x.out n = []) := by
  have hxa := atom_exec hc hx
  have hha := atom_hardware hc hx hh
  have hpa := atom_punctual hc hx hh hp
  have hlike := atom_like hc hx hh hp
  have houts : ∀ a b, (atom cfg x).outs a b = x.outs a b := by
    intro a b
    unfold DeviceTimed.outs StmtTimed.outs
    congr 1
    funext n
    exact hlike.out n
  have hsa : c = 0 ∨ (atom cfg x).op (c - 1) = .timer := hs.imp (fun h => h) atom_timer.2
  have hna : ∀ k, c ≤ k → k < m → (atom cfg x).op k ≠ .timer := fun k k1 k2 h => hn k k1 k2 (atom_timer.1 h)
  have hma : (atom cfg x).op m = .timer := atom_timer.2 hm
  obtain ⟨-, h2, h3⟩ := device_in_time hc hxa hha hpa c m hcm hsa hna hma
  rw [atom_bytesIn] at h2 h3
  refine ⟨fun hg hgap => ?_, fun hbad n n1 n2 => ?_⟩
  · obtain ⟨p, q, a1, a2, a3, a4, a5, a6, a7, a8, a9, a10⟩ := h2 hg (fun d hd => hgap d (atom_gap.1 hd))
    obtain ⟨e1, e2⟩ := (atom_poll hx).1 a3
    obtain ⟨k, k1, k2, k3⟩ := poll_called hx (hx.inside p e1)
    have hpstep := inside_step hx hh (hx.inside p e1)
    have hpost : (x.st (p + 1)).pc.pre = false := by
      rcases hpstep with ⟨-, h⟩ | ⟨⟨h', e⟩, -⟩
      · have := (stmt_region h).2
        cases hpre : (x.st p).pc.pre with
        | true => rwa [hpre, if_pos rfl, e2, if_pos rfl] at this
        | false => rw [hpre, if_neg (by decide)] at this; rw [e2] at this; cases this.1
      · rw [e1] at e; cases e
    have hnb : ∀ n, m < n → n ≤ p → ¬ x.Byte n := by
      intro n n1 n2 hb
      have h1 := hp.quiet m n n1 hm hb
      have h2 := hx.time_le n2
      have h3 : x.time p ≤ x.time m + 2 * P := a4
      omega
    have hrp : (x.st p).sys.rtof = false := by
      cases hr : (x.st p).sys.rtof with
      | false => rfl
      | true =>
        obtain ⟨h', e⟩ := hh.stalled p hr
        rw [e1] at e; cases e
    have hrp1 : (x.st (p + 1)).sys.rtof = false := by
      rw [stmt_step_rtof hx, e1, if_neg (by simp), if_neg (by simp)]; exact hrp
    -- the poll returns
    have hend : ∃ n, p < n ∧ ¬ x.InPoll n := by
      obtain ⟨b, hb⟩ := a6.out
      have hmem : HOut.send (rtuFrame id (encodeResponse (respond cfg.limits ((atom cfg x).st p).lib.mem (frameRequest (x.bytesIn c m))))) ∈ x.out p := by
        rw [← hlike.out p, hb]; simp
      obtain ⟨w, w1, w2, w3, w4⟩ := hp.tx p _ hmem
      obtain ⟨z, z1, z2, z3⟩ := hp.poll p hrp1
      rcases z3 with e | ⟨k', k1', k2'⟩
      · exfalso
        have hnb' : ∀ n, m < n → n ≤ z → ¬ (atom cfg x).Byte n := by
          intro n n1 n2 hb
          by_cases h : n ≤ p
          · exact hnb n n1 h (atom_byte.1 hb)
          · have h1 := w4 n (by omega) (atom_byte.1 hb)
            have h2 := hx.time_le n2
            have h3 := hx.time_le (show p ≤ w by omega)
            omega
        exact (hha.still hxa hma hnb' (show m < z by omega) (Nat.le_refl z)).1 (atom_rto.2 e)
      · exact ⟨k', k1', hx.outside k' (.inl k2'.call)⟩
    obtain ⟨n0, n1, n2⟩ := hend
    obtain ⟨n, n3, n4, n5, n6⟩ := first_from (fun n => ¬ x.InPoll n) (show p + 1 ≤ n0 by omega) n2
    have hin : ∀ j, k < j → j ≤ n - 1 → x.InPoll j := by
      intro j j1 j2
      by_cases h : j ≤ p
      · exact k3 j j1 h
      · exact Classical.not_not.1 (n6 j (by omega) (by omega))
    have hpoll : x.Poll k (n - 1) := ⟨k2, by omega, hin, by rw [show n - 1 + 1 = n by omega]; exact n5⟩
    have huniq : ∀ j, k < j → j ≤ n - 1 → (atom cfg x).op j = .main .poll → j = p := by
      obtain ⟨u, -, -, -, -, hu⟩ := poll_once (cfg := cfg) hx hh hpoll
      intro j j1 j2 j3
      rw [hu j j1 j2 j3, hu p k1 (by omega) a3]
    have hcall : (atom cfg x).st (k + 1) = (atom cfg x).st k :=
      (hlike.idle k (.inl k2) (by
        intro h
        have := ((atom_poll hx).1 h).1
        rw [k2] at this; cases this)).1
    obtain ⟨m1, s1⟩ := span_still hc hx hh (show k + 1 ≤ p by omega) (fun j j1 j2 => ⟨hin j (by omega) (by omega), fun h => by
      have := huniq j (by omega) (by omega) h; omega⟩)
    obtain ⟨m2, s2⟩ := span_still hc hx hh (show p + 1 ≤ n by omega) (fun j j1 j2 => ⟨hin j (by omega) (by omega), fun h => by
      have := huniq j (by omega) (by omega) h; omega⟩)
    rw [hcall] at m1 s1
    have hk : (atom cfg x).st k = (x.st k).sys := hlike.st k (hx.outside k (.inl k2))
    have hj : (atom cfg x).st n = (x.st n).sys := hlike.st n n5
    have hmk : m < k := by
      apply Classical.byContradiction
      intro hle
      obtain ⟨e, g1, g2, g3, -, -, -⟩ := stmt_rest hc hx hh hp c hsa
      have hem : e ≤ m := by
        apply Classical.byContradiction
        intro h
        exact g2 m hcm (by omega) (.inr (.inr hma))
      have ho := open_up hc hx hem g3 (fun j j1 j2 => hna j (by omega) j2)
      have h1 : ((atom cfg x).st (m + 1)).lib.st = .idle := by
        have hst := hxa.step m
        rw [hma] at hst
        rw [(hirq_keeps (by simp) hst).1]; exact ho.st
      obtain ⟨-, h4⟩ := span_still hc hx hh (show m + 1 ≤ p by omega) (fun j j1 j2 => ⟨hin j (by omega) (by omega), fun h => by
        have := huniq j (by omega) (by omega) h; omega⟩)
      rw [h1] at h4
      have hst := hxa.step p
      rw [a3] at hst
      obtain ⟨b, hb⟩ := a6.out
      rw [hb] at hst
      rcases main_step hst with ⟨-, h⟩ | ⟨hr', -, o1, h5⟩
      · cases h
      · have hr'' := slavePoll_inv cfg hc h5
        rw [main_poll hr', show slavePoll cfg ((atom cfg x).st p).lib = _ from h5] at hst
        generalize ((atom cfg x).st (p + 1)).lib = l' at hr'' hst
        have ho1 : o1 = [] := by
          cases hr'' with
          | stay | check | drop | done | dflt => rfl
          | answer a => rw [h4] at a; cases a
        rw [ho1] at hst
        simp only [ok_bind, slaveSends, Except.ok.injEq, Prod.mk.injEq] at hst
        cases hst.2
    refine ⟨k, p, n - 1, q, hmk, hpoll, k1, by omega, a2, a4, a5, ?_, ?_, fun i i1 i2 h => a9 i i1 i2 (atom_timer.2 h), fun i i1 i2 i3 => ?_⟩
    · rw [← houts, a7, m1, hk]
    · rw [show n - 1 + 1 = n by omega, ← hj, m2, a8, m1, hk]
    · rw [← hlike.out i]
      exact a10 i i1 i2 (fun j j1 j2 h => i3 j j1 j2 (atom_timer.1 h))
  · rw [← hlike.out n]
    refine h3 ?_ n n1 (fun j j1 j2 h => n2 j j1 j2 (atom_timer.1 h))
    rcases hbad with h | ⟨d, h1, h2⟩
    · exact .inl h
    · exact .inr ⟨d, atom_gap.2 h1, h2⟩

end

end Modbus
