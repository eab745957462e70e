import Verif.Proofs.PreemptMaster
import Verif.Proofs.MasterTrace

/-! Master polls interrupted anywhere, races included: an interrupted poll is an atomic one up to what interrupts can write (the event
flags, the timer, the response part of the messages). -/

namespace Modbus

open Spec

/-- The four flags that interrupts write hold proper values. -/
def Kn (s : Master) : Prop := s.t15 ≠ .unknown ∧ s.t35 ≠ .unknown ∧ s.ferr ≠ .unknown ∧ s.txf ≠ .unknown

/-- `t` is `s` up to what interrupts can write. -/
structure MSim (s t : Master) : Prop where
  st : t.st = s.st
  drv : t.drv = s.drv
  freeQ : t.freeQ = s.freeQ
  txQ : t.txQ = s.txQ
  dataSet : t.dataSet = s.dataSet
  msgBuf : t.msgBuf = s.msgBuf
  repeatCnt : t.repeatCnt = s.repeatCnt
  crcf : t.crcf = s.crcf
  rxTarget : t.rxTarget = s.rxTarget
  req : SameReq s.msgs t.msgs
  kn : Kn t

theorem SameReq.trans {f g h : Nat → MMsg} (a : SameReq f g) (b : SameReq g h) : SameReq f h :=
  fun j => ⟨(b j).1.trans (a j).1, (b j).2.trans (a j).2⟩

theorem SameReq.symm {f g : Nat → MMsg} (a : SameReq f g) : SameReq g f :=
  fun j => ⟨(a j).1.symm, (a j).2.symm⟩

theorem MSim.refl {s : Master} (h : Kn s) : MSim s s := ⟨rfl, rfl, rfl, rfl, rfl, rfl, rfl, rfl, rfl, SameReq.rfl' _, h⟩

theorem MSim.trans {s t u : Master} (a : MSim s t) (b : MSim t u) : MSim s u :=
  ⟨b.st.trans a.st, b.drv.trans a.drv, b.freeQ.trans a.freeQ, b.txQ.trans a.txQ, b.dataSet.trans a.dataSet, b.msgBuf.trans a.msgBuf,
    b.repeatCnt.trans a.repeatCnt, b.crcf.trans a.crcf, b.rxTarget.trans a.rxTarget, a.req.trans b.req, b.kn⟩

/-- The invariant does not see the difference. -/
theorem MInv.sim {cfg : Config} {s t : Master} {g : Ghost} (h : MInv cfg s g) (hs : MSim s t) : MInv cfg t g :=
  h.keep hs.freeQ hs.txQ hs.req hs.drv hs.dataSet
    ⟨hs.kn.1, hs.kn.2.1, hs.kn.2.2.1, hs.kn.2.2.2, by rw [hs.crcf]; exact h.flags.2.2.2.2⟩
    (h.cur.keep hs.st hs.repeatCnt hs.req hs.msgBuf hs.rxTarget)

theorem MInv.kn {cfg : Config} {s : Master} {g : Ghost} (h : MInv cfg s g) : Kn s := ⟨h.flags.1, h.flags.2.1, h.flags.2.2.1, h.flags.2.2.2.1⟩

/-- Interrupts. -/
theorem masterAfter_sim {s : Master} (h : Kn s) (l : List MEv) : MSim s (masterAfter s l) := by
  refine ⟨rfl, rfl, rfl, rfl, rfl, rfl, rfl, rfl, rfl, fun j => ⟨rxMsgs_req _ _ _ _, rxMsgs_reqLen _ _ _ _⟩, ?_⟩
  obtain ⟨h1, h2, h3, h4⟩ := h
  refine ⟨?_, ?_, ?_, ?_⟩ <;> simp only [masterAfter, mark, unmark] <;> split <;> first | assumption | nofun

/-- Every execution of `p` from `s` in which the state may be perturbed before each step satisfies `Q` at the end, or fails as `E` says. -/
def wp (E : UB → Prop) : MProg → Master → List MOut → (Master → List MOut → Prop) → Prop
  | .done, s, o, Q => ∀ t, MSim s t → Q t o
  | .step _ f k, s, o, Q => ∀ t, MSim s t →
    match f t with
    | .ok (a, u, o1) => u.drv = true ∧ u.dataSet = true ∧ Kn u ∧ wp E (k a) u (o ++ o1) Q
    | .error e => E e

theorem wp_sound {cfg : Config} {E : UB → Prop} {Q : Master → List MOut → Prop} (p : MProg) : ∀ (ints : List (List MEv)) (s : Master) (o : List MOut),
    s.drv = true → s.dataSet = true → Kn s → wp E p s o Q →
    match runProg (masterInt cfg) p ints s with
    | .ok (s', o') => Q s' (o ++ o')
    | .error e => E e := by
  induction p with
  | done =>
    intro ints s o h1 h2 h3 h
    simp only [runProg, runInts_master cfg s h1 h2, okBind, pureOk, List.append_nil]
    exact h _ (masterAfter_sim h3 _)
  | step r f k ih =>
    intro ints s o h1 h2 h3 h
    simp only [runProg, runInts_master cfg s h1 h2, okBind]
    have hh := h _ (masterAfter_sim h3 (ints.headD []))
    cases hf : f (masterAfter s (ints.headD [])) with
    | error e => rw [hf] at hh; exact hh
    | ok x =>
      obtain ⟨a, u, o1⟩ := x
      rw [hf] at hh
      obtain ⟨k1, k2, k3, k4⟩ := hh
      have := ih a ints.tail u (o ++ o1) k1 k2 k3 k4
      simp only [okBind]
      cases hr : runProg (masterInt cfg) (k a) ints.tail u with
      | error e => rw [hr] at this; exact this
      | ok y =>
        obtain ⟨s', o'⟩ := y
        rw [hr] at this
        simp only [okBind, pureOk]
        rw [← List.append_assoc]; exact this

section rules
variable {E : UB → Prop} {Q : Master → List MOut → Prop} {s : Master} {o : List MOut}

theorem wp_assign {f : Master → Master} {k : MProg}
    (h : ∀ t, MSim s t → (f t).drv = true ∧ (f t).dataSet = true ∧ Kn (f t) ∧ wp E k (f t) o Q) : wp E (assign f k) s o Q := by
  intro t ht
  simp only [List.append_nil]
  exact h t ht

theorem wp_assignC {f : Master → C Master} {k : MProg}
    (h : ∀ t, MSim s t → match f t with
      | .ok u => u.drv = true ∧ u.dataSet = true ∧ Kn u ∧ wp E k u o Q
      | .error e => E e) : wp E (assignC f k) s o Q := by
  intro t ht
  have := h t ht
  cases hf : f t with
  | error e => rw [hf] at this; simp only [hf, errBind]; exact this
  | ok u =>
    rw [hf] at this
    simp only [hf, okBind, pureOk, List.append_nil]
    exact this

theorem wp_test {c : Master → Bool} {p q : MProg} (hd : s.drv = true) (hs : s.dataSet = true)
    (h : ∀ t, MSim s t → t.drv = true → t.dataSet = true → (c t = true → wp E p t o Q) ∧ (c t = false → wp E q t o Q)) : wp E (test c p q) s o Q := by
  intro t ht
  have h1 := ht.drv.trans hd
  have h2 := ht.dataSet.trans hs
  simp only [List.append_nil]
  refine ⟨h1, h2, ht.kn, ?_⟩
  cases hc : c t with
  | true => simp only [if_true]; exact (h t ht h1 h2).1 hc
  | false => simp only [Bool.false_eq_true, if_false]; exact (h t ht h1 h2).2 hc

/-- A step that only reads. -/
theorem wp_read {α : Type} {r : Master → MEv → Bool} {f : Master → C α} {f' : Master → C (α × Master × List MOut)} {k : α → MProg}
    (hff : ∀ s, f' s = (do let a ← f s; return (a, s, []))) (hd : s.drv = true) (hs : s.dataSet = true)
    (h : ∀ t, MSim s t → t.drv = true → t.dataSet = true → match f t with
      | .ok a => wp E (k a) t o Q
      | .error e => E e) : wp E (.step r f' k) s o Q := by
  intro t ht
  rw [hff]
  have h1 := ht.drv.trans hd
  have h2 := ht.dataSet.trans hs
  have := h t ht h1 h2
  cases hf : f t with
  | error e => rw [hf] at this; simp only [errBind]; exact this
  | ok a =>
    rw [hf] at this
    simp only [okBind, pureOk, List.append_nil]
    exact ⟨h1, h2, ht.kn, this⟩

/-- A step that only makes callbacks. -/
theorem wp_out {α : Type} {r : Master → MEv → Bool} {f : Master → C α} {out : α → List MOut} {f' : Master → C (Unit × Master × List MOut)} {k : Unit → MProg}
    (hff : ∀ s, f' s = (do let a ← f s; return ((), s, out a))) (hd : s.drv = true) (hs : s.dataSet = true)
    (h : ∀ t, MSim s t → t.drv = true → t.dataSet = true → match f t with
      | .ok a => wp E (k ()) t (o ++ out a) Q
      | .error e => E e) : wp E (.step r f' k) s o Q := by
  intro t ht
  rw [hff]
  have h1 := ht.drv.trans hd
  have h2 := ht.dataSet.trans hs
  have := h t ht h1 h2
  cases hf : f t with
  | error e => rw [hf] at this; simp only [errBind]; exact this
  | ok a =>
    rw [hf] at this
    simp only [okBind, pureOk]
    exact ⟨h1, h2, ht.kn, this⟩

theorem wp_mono {E' : UB → Prop} {Q' : Master → List MOut → Prop} {p : MProg} (hE : ∀ e, E e → E' e) (hQ : ∀ s o, Q s o → Q' s o)
    (h : wp E p s o Q) : wp E' p s o Q' := by
  induction p generalizing s o with
  | done => exact fun t ht => hQ _ _ (h t ht)
  | step r f k ih =>
    intro t ht
    have := h t ht
    cases hf : f t with
    | error e => rw [hf] at this; exact hE _ this
    | ok x =>
      obtain ⟨a, u, o1⟩ := x
      rw [hf] at this
      exact ⟨this.1, this.2.1, this.2.2.1, ih a this.2.2.2⟩

end rules

/-- The atomic operation `atom` explains every interrupted execution of `p` from `s`: it has the same outputs from some state like `s`, and ends
in a state like the final one. -/
def Explains (atom : Master → C (Master × List MOut)) (p : MProg) (s : Master) (o : List MOut) : Prop :=
  wp (fun e => ∃ s1, MSim s s1 ∧ atom s1 = .error e) p s o
    (fun s' o' => ∃ s1 t o1, MSim s s1 ∧ atom s1 = .ok (t, o1) ∧ o' = o ++ o1 ∧ MSim t s')

/-- `MSim` from the fields of another one, up to definitional equality. -/
macro "msim " h:term : tactic =>
  `(tactic| exact ⟨(MSim.st $h), (MSim.drv $h), (MSim.freeQ $h), (MSim.txQ $h), (MSim.dataSet $h), (MSim.msgBuf $h), (MSim.repeatCnt $h),
      (MSim.crcf $h), (MSim.rxTarget $h), (MSim.req $h), (MSim.kn $h)⟩)

theorem wp_processEnd {cfg : Config} {E : UB → Prop} {Q : Master → List MOut → Prop} {s : Master} {o : List MOut} (hd : s.drv = true)
    (hs : s.dataSet = true) (h : match masterProcessEnd cfg s with
      | .ok t => ∀ t', MSim t t' → Q t' o
      | .error e => E e) : wp E (masterProcessEndP cfg) s o Q := by
  refine wp_assign fun t1 h1 => ⟨h1.drv.trans hd, h1.dataSet.trans hs, h1.kn, wp_assignC fun t2 h2 => ?_⟩
  have e1 : t2.freeQ = s.freeQ := h2.freeQ.trans h1.freeQ
  have e2 : t2.msgBuf = s.msgBuf := h2.msgBuf.trans h1.msgBuf
  unfold masterProcessEnd at h
  rw [e1, e2]
  cases hp : s.freeQ.push cfg.queueItems s.msgBuf with
  | error e => rw [hp] at h; exact h
  | ok x =>
    obtain ⟨fq, mb⟩ := x
    rw [hp] at h
    simp only [okBind, pureOk] at h ⊢
    have d2 := h2.drv.trans (h1.drv.trans hd)
    have s2 := h2.dataSet.trans (h1.dataSet.trans hs)
    refine ⟨d2, s2, h2.kn, wp_assign fun t3 h3 => ⟨h3.drv.trans d2, h3.dataSet.trans s2, h3.kn, fun t4 h4 => h t4 ?_⟩⟩
    exact ⟨h4.st, h4.drv.trans (h3.drv.trans (h2.drv.trans h1.drv)), h4.freeQ.trans h3.freeQ, h4.txQ.trans (h3.txQ.trans (h2.txQ.trans h1.txQ)),
      h4.dataSet.trans (h3.dataSet.trans (h2.dataSet.trans h1.dataSet)), h4.msgBuf.trans h3.msgBuf, h4.repeatCnt.trans (h3.repeatCnt.trans h2.repeatCnt),
      h4.crcf.trans (h3.crcf.trans (h2.crcf.trans h1.crcf)), h4.rxTarget.trans (h3.rxTarget.trans (h2.rxTarget.trans h1.rxTarget)),
      h1.req.trans (h2.req.trans (h3.req.trans h4.req)), h4.kn⟩

/-- Like states have like ends of transaction. -/
theorem processEnd_sim {cfg : Config} {s t : Master} (h : MSim s t) :
    match masterProcessEnd cfg s with
    | .ok s' => ∃ t', masterProcessEnd cfg t = .ok t' ∧ MSim s' t' ∧ ∀ u, MSim t' u → MSim s' u
    | .error e => masterProcessEnd cfg t = .error e := by
  unfold masterProcessEnd
  rw [h.freeQ, h.msgBuf]
  cases hp : s.freeQ.push cfg.queueItems s.msgBuf with
  | error e => rfl
  | ok x =>
    obtain ⟨fq, mb⟩ := x
    simp only [okBind, pureOk]
    have hh : MSim { s with repeatCnt := 0, freeQ := fq, msgBuf := mb, st := .idle } { t with repeatCnt := 0, freeQ := fq, msgBuf := mb, st := .idle } :=
      ⟨rfl, h.drv, rfl, h.txQ, h.dataSet, rfl, rfl, h.crcf, h.rxTarget, h.req, h.kn⟩
    exact ⟨_, rfl, hh, fun u hu => hh.trans hu⟩


theorem masterEnableRx_ok {s : Master} {i : Nat} (hd : s.drv = true) (hm : s.msgBuf = some i) :
    masterEnableRx s = .ok { s with rxTarget := some i } := by
  cases s; simp only at hd hm; subst hd hm; rfl

theorem masterSend_sim {s t : Master} (h : MSim s t) (hd : s.drv = true) (hs : s.dataSet = true) (o : List MOut) :
    wp (fun e => masterSend s = .error e) masterSendP t o
      (fun s' o' => ∃ u o1, masterSend s = .ok (u, o1) ∧ o' = o ++ o1 ∧ MSim u s') := by
  intro t1 h1
  have g1 := h.trans h1
  have d1 := g1.drv.trans hd
  have s1 := g1.dataSet.trans hs
  cases hm : s.msgBuf with
  | none =>
    have hm1 : t1.msgBuf = none := g1.msgBuf.trans hm
    simp only [masterDrvSend, d1, hm1, Bool.true_eq_false, if_false, errBind]
    simp only [masterSend, hd, hm, Bool.true_eq_false, if_false]
  | some i =>
    have hm1 : t1.msgBuf = some i := g1.msgBuf.trans hm
    simp only [masterDrvSend, d1, s1, hm1, Bool.true_eq_false, if_false, okBind, pureOk]
    refine ⟨trivial, trivial, g1.kn, wp_assignC fun t2 h2 => ?_⟩
    have g2 := g1.trans h2
    have d2 := g2.drv.trans hd
    have s2 := g2.dataSet.trans hs
    have hm2 : t2.msgBuf = some i := g2.msgBuf.trans hm
    rw [masterEnableRx_ok d2 hm2]
    refine ⟨d2, s2, g2.kn, wp_assign fun t3 h3 => ?_⟩
    have d3 := h3.drv.trans d2
    have s3 := h3.dataSet.trans s2
    refine ⟨d3, s3, ⟨h3.kn.1, h3.kn.2.1, h3.kn.2.2.1, nofun⟩, wp_assign fun t4 h4 => ?_⟩
    have d4 := h4.drv.trans d3
    have s4 := h4.dataSet.trans s3
    refine ⟨d4, s4, h4.kn, fun t5 h5 => ?_⟩
    refine ⟨{ s with rxTarget := some i, txf := .set, st := .transmitting }, [.send ((s.msgs i).req.bytes 0 (s.msgs i).reqLen.toNat)], ?_, ?_, ?_⟩
    · simp only [masterSend, hd, hs, hm, Bool.true_eq_false, if_false]
    · rw [(g1.req i).1, (g1.req i).2]
    · exact ⟨h5.st, h5.drv.trans (d4.trans hd.symm), h5.freeQ.trans (h4.freeQ.trans (h3.freeQ.trans g2.freeQ)),
        h5.txQ.trans (h4.txQ.trans (h3.txQ.trans g2.txQ)), h5.dataSet.trans (s4.trans hs.symm),
        h5.msgBuf.trans (h4.msgBuf.trans (h3.msgBuf.trans g2.msgBuf)), h5.repeatCnt.trans (h4.repeatCnt.trans (h3.repeatCnt.trans g2.repeatCnt)),
        h5.crcf.trans (h4.crcf.trans (h3.crcf.trans g2.crcf)), h5.rxTarget.trans (h4.rxTarget.trans h3.rxTarget),
        g2.req.trans (h3.req.trans (h4.req.trans h5.req)), h5.kn⟩

theorem clearRespLen_sim {s t : Master} (h : MSim s t) :
    match clearRespLen t with
    | .ok u => MSim s u
    | .error e => clearRespLen s = .error e := by
  cases hm : s.msgBuf with
  | none => unfold clearRespLen; rw [h.msgBuf.trans hm, hm]
  | some i =>
    rw [clearRespLen_ok (h.msgBuf.trans hm)]
    exact ⟨h.st, h.drv, h.freeQ, h.txQ, h.dataSet, h.msgBuf, h.repeatCnt, h.crcf, h.rxTarget, h.req.trans (SameReq.set _ _ _ rfl rfl), h.kn⟩

theorem transmitting_explained {cfg : Config} {s : Master} (hd : s.drv = true) (hs : s.dataSet = true) :
    Explains (masterTransmitting cfg) (masterTransmittingP cfg) s [] := by
  refine wp_test hd hs fun t1 h1 d1 s1 => ⟨fun hc => wp_assignC fun t2 h2 => ?_, fun hc t2 h2 => ?_⟩
  · have hc : t1.txf = .cleared := by simpa using hc
    have k := clearRespLen_sim h2
    cases hu : clearRespLen t2 with
    | error e =>
      rw [hu] at k
      refine ⟨t1, h1, ?_⟩
      simp only [masterTransmitting, hc, if_true]
      rw [k]; rfl
    | ok u =>
      rw [hu] at k
      obtain ⟨i, hi⟩ : ∃ i, t1.msgBuf = some i := by
        cases hm : t1.msgBuf with
        | none => unfold clearRespLen at hu; rw [h2.msgBuf.trans hm] at hu; cases hu
        | some i => exact ⟨i, rfl⟩
      refine ⟨k.drv.trans d1, k.dataSet.trans s1, k.kn, wp_assign fun t3 h3 => ⟨h3.drv.trans (k.drv.trans d1), h3.dataSet.trans (k.dataSet.trans s1), h3.kn,
        wp_assign fun t4 h4 => ⟨h4.drv.trans (h3.drv.trans (k.drv.trans d1)), h4.dataSet.trans (h3.dataSet.trans (k.dataSet.trans s1)), h4.kn, fun t5 h5 => ?_⟩⟩⟩
      refine ⟨t1, { t1 with msgs := setMsg t1.msgs i { t1.msgs i with respLen := 0 }, timer := cfg.respTimeout, st := .waiting }, [], h1, ?_, rfl, ?_⟩
      · simp only [masterTransmitting, hc, if_true, clearRespLen, hi, okBind, pureOk]
      · have g : MSim t1 t3 := k.trans h3
        have g4 : MSim t1 t4 := ⟨h4.st.trans g.st, h4.drv.trans g.drv, h4.freeQ.trans g.freeQ, h4.txQ.trans g.txQ, h4.dataSet.trans g.dataSet,
          h4.msgBuf.trans g.msgBuf, h4.repeatCnt.trans g.repeatCnt, h4.crcf.trans g.crcf, h4.rxTarget.trans g.rxTarget, g.req.trans h4.req, h4.kn⟩
        exact ⟨h5.st, h5.drv.trans g4.drv, h5.freeQ.trans g4.freeQ, h5.txQ.trans g4.txQ, h5.dataSet.trans g4.dataSet,
          h5.msgBuf.trans g4.msgBuf, h5.repeatCnt.trans g4.repeatCnt, h5.crcf.trans g4.crcf, h5.rxTarget.trans g4.rxTarget,
          (SameReq.set t1.msgs i { t1.msgs i with respLen := 0 } rfl rfl).symm.trans (g4.req.trans h5.req), h5.kn⟩
  · have hc : t1.txf ≠ .cleared := by simpa using hc
    refine ⟨t1, t1, [], h1, ?_, rfl, h2⟩
    simp only [masterTransmitting, hc, if_false]

theorem send_explained {s : Master} (hd : s.drv = true) (hs : s.dataSet = true) (hk : Kn s) : Explains masterSend masterSendP s [] := by
  refine wp_mono ?_ ?_ (masterSend_sim (MSim.refl hk) hd hs [])
  · exact fun e he => ⟨s, MSim.refl hk, he⟩
  · rintro s' o ⟨u, o1, h1, h2, h3⟩
    exact ⟨s, u, o1, MSim.refl hk, h1, h2, h3⟩

theorem idle_explained {cfg : Config} {s : Master} (hd : s.drv = true) (hs : s.dataSet = true) :
    Explains (masterIdle cfg) (masterIdleP cfg) s [] := by
  refine wp_test hd hs fun t1 h1 d1 s1 => ⟨fun hc => wp_assignC fun t2 h2 => ?_, fun hc t2 h2 => ?_⟩
  · have e : t2.txQ = t1.txQ := h2.txQ
    rw [e]
    cases hp : t1.txQ.pop cfg.queueItems with
    | error e =>
      refine ⟨t1, h1, ?_⟩
      simp only [masterIdle, hc, if_true, hp]
      rfl
    | ok x =>
      obtain ⟨x, tq⟩ := x
      have d2 := h2.drv.trans d1
      have s2 := h2.dataSet.trans s1
      have h3 : MSim { t1 with msgBuf := x, txQ := tq } { t2 with msgBuf := x, txQ := tq } :=
        ⟨h2.st, h2.drv, h2.freeQ, rfl, h2.dataSet, rfl, h2.repeatCnt, h2.crcf, h2.rxTarget, h2.req, h2.kn⟩
      refine ⟨d2, s2, h2.kn, ?_⟩
      refine wp_mono ?_ ?_ (masterSend_sim h3 d1 s1 [])
      · intro e he
        refine ⟨t1, h1, ?_⟩
        simp only [masterIdle, hc, if_true, hp]
        exact he
      · rintro s' o ⟨u, o1, k1, k2, k3⟩
        refine ⟨t1, u, o1, h1, ?_, k2, k3⟩
        simp only [masterIdle, hc, if_true, hp]
        exact k1
  · refine ⟨t1, t1, [], h1, ?_, rfl, h2⟩
    simp only [masterIdle, hc, Bool.false_eq_true, if_false]

/-- Updates of what interrupts do not write. -/
theorem MSim.setSt {s t : Master} (h : MSim s t) (x : MasterSt) : MSim { s with st := x } { t with st := x } :=
  ⟨rfl, h.drv, h.freeQ, h.txQ, h.dataSet, h.msgBuf, h.repeatCnt, h.crcf, h.rxTarget, h.req, h.kn⟩

theorem MSim.setCrcf {s t : Master} (h : MSim s t) (x : Flag) : MSim { s with crcf := x } { t with crcf := x } :=
  ⟨h.st, h.drv, h.freeQ, h.txQ, h.dataSet, h.msgBuf, h.repeatCnt, rfl, h.rxTarget, h.req, h.kn⟩

theorem MSim.setCnt {s t : Master} (h : MSim s t) (x : U8) : MSim { s with repeatCnt := x } { t with repeatCnt := x } :=
  ⟨h.st, h.drv, h.freeQ, h.txQ, h.dataSet, h.msgBuf, rfl, h.crcf, h.rxTarget, h.req, h.kn⟩

/-- Updates of what interrupts write. -/
theorem MSim.right {s t u : Master} (h : MSim s t) (e1 : u.st = t.st) (e2 : u.drv = t.drv) (e3 : u.freeQ = t.freeQ) (e4 : u.txQ = t.txQ)
    (e5 : u.dataSet = t.dataSet) (e6 : u.msgBuf = t.msgBuf) (e7 : u.repeatCnt = t.repeatCnt) (e8 : u.crcf = t.crcf) (e9 : u.rxTarget = t.rxTarget)
    (e10 : SameReq t.msgs u.msgs) (hk : Kn u) : MSim s u :=
  h.trans ⟨e1, e2, e3, e4, e5, e6, e7, e8, e9, e10, hk⟩

theorem MSim.left {s s' t : Master} (h : MSim s t) (e1 : s'.st = s.st) (e2 : s'.drv = s.drv) (e3 : s'.freeQ = s.freeQ) (e4 : s'.txQ = s.txQ)
    (e5 : s'.dataSet = s.dataSet) (e6 : s'.msgBuf = s.msgBuf) (e7 : s'.repeatCnt = s.repeatCnt) (e8 : s'.crcf = s.crcf) (e9 : s'.rxTarget = s.rxTarget)
    (e10 : SameReq s.msgs s'.msgs) : MSim s' t :=
  ⟨h.st.trans e1.symm, h.drv.trans e2.symm, h.freeQ.trans e3.symm, h.txQ.trans e4.symm, h.dataSet.trans e5.symm, h.msgBuf.trans e6.symm,
    h.repeatCnt.trans e7.symm, h.crcf.trans e8.symm, h.rxTarget.trans e9.symm, e10.symm.trans h.req, h.kn⟩

theorem recv_explained {cfg : Config} {s : Master} (hd : s.drv = true) (hs : s.dataSet = true) :
    Explains (masterWaiting cfg) masterRecvP s [] := by
  have atom : ∀ t : Master, masterWaiting cfg { t with t15 := .set } = masterRecv { t with t15 := .set } := fun t => if_pos rfl
  refine wp_read (f := fun s => do let m ← curMsg s; rd m.req idxSlaveAdr) (fun s => by simp only [bind_assoc]) hd hs fun t2 h2 d2 s2 => ?_
  cases hm : s.msgBuf with
  | none =>
    have hm2 := h2.msgBuf.trans hm
    have hc : curMsg t2 = .error .nullDeref := by unfold curMsg; rw [hm2]
    simp only [hc, errBind]
    refine ⟨{ t2 with t15 := .set }, h2.right rfl rfl rfl rfl rfl rfl rfl rfl rfl (SameReq.rfl' _) ⟨nofun, h2.kn.2⟩, ?_⟩
    rw [atom]
    have hc : curMsg { t2 with t15 := .set } = .error .nullDeref := by unfold curMsg; simp only [hm2]
    simp only [masterRecv, hc, errBind]
  | some i =>
    simp only [curMsg_ok (h2.msgBuf.trans hm) s2, okBind, rd_zero]
    refine wp_assign fun t3 h3 => ⟨h3.drv.trans d2, h3.dataSet.trans s2, ⟨nofun, h3.kn.2⟩, wp_assign fun t4 h4 => ?_⟩
    have h4' : MSim t2 t4 := h3.trans (h4.left rfl rfl rfl rfl rfl rfl rfl rfl rfl (SameReq.rfl' _))
    refine ⟨h4'.drv.trans d2, h4'.dataSet.trans s2, ⟨h4'.kn.1, nofun, h4'.kn.2.2⟩, ?_⟩
    refine wp_read (f := fun s => do let m ← curMsg s; rtuRecv (some m.resp) m.respLen ((t2.msgs i).req 0)) (fun s => by simp only [bind_assoc]) (h4'.drv.trans d2) (h4'.dataSet.trans s2) fun t5 h5 d5 s5 => ?_
    have h5' : MSim t2 t5 := h4'.trans (h5.left rfl rfl rfl rfl rfl rfl rfl rfl rfl (SameReq.rfl' _))
    have g5 : MSim s t5 := h2.trans h5'
    have hm5 : t5.msgBuf = some i := g5.msgBuf.trans hm
    have hid : (t2.msgs i).req 0 = (t5.msgs i).req 0 := by rw [(h5'.req i).1]
    simp only [curMsg_ok hm5 s5, okBind]
    rw [hid]
    have hs1 : MSim s { t5 with t15 := .set } := g5.right rfl rfl rfl rfl rfl rfl rfl rfl rfl (SameReq.rfl' _) ⟨nofun, g5.kn.2⟩
    have hcm : curMsg { t5 with t15 := .set } = .ok (t5.msgs i) := curMsg_ok (s := { t5 with t15 := .set }) hm5 s5
    have hre : masterRecv { t5 with t15 := .set } = (do
        let r ← rtuRecv (some (t5.msgs i).resp) (t5.msgs i).respLen ((t5.msgs i).req 0)
        if RET_ERROR_CRC = r then return ({ t5 with t15 := .cleared, t35 := .cleared, timer := 0, crcf := .set, st := .received }, [])
        else if RET_ERROR_SLAVE_ID = r then
          let s ← clearRespLen { t5 with t15 := .cleared, t35 := .cleared }
          return (s, [])
        else return ({ t5 with t15 := .cleared, t35 := .cleared, timer := 0, st := .received }, [])) := by
      unfold masterRecv
      rw [hcm, okBind, rd_zero, okBind]
    cases hr : rtuRecv (some (t5.msgs i).resp) (t5.msgs i).respLen ((t5.msgs i).req 0) with
    | error e =>
      refine ⟨_, hs1, ?_⟩
      rw [atom, hre, hr]; rfl
    | ok r =>
      rw [hr, okBind] at hre
      simp only
      by_cases c1 : RET_ERROR_CRC = r
      · rw [if_pos c1] at hre ⊢
        refine wp_assign fun t6 h6 => ⟨h6.drv.trans d5, h6.dataSet.trans s5, h6.kn, wp_assign fun t7 h7 => ?_⟩
        have h7' : MSim t5 t7 := h6.trans (h7.left rfl rfl rfl rfl rfl rfl rfl rfl rfl (SameReq.rfl' _))
        refine ⟨h7'.drv.trans d5, h7'.dataSet.trans s5, h7'.kn, wp_assign fun t8 h8 => ?_⟩
        have h8' : MSim { t5 with crcf := .set } t8 := (h7'.setCrcf .set).trans h8
        refine ⟨h8'.drv.trans d5, h8'.dataSet.trans s5, h8'.kn, fun t9 h9 => ?_⟩
        refine ⟨_, _, [], hs1, (atom _).trans hre, rfl, ?_⟩
        exact ((h8'.setSt .received).trans h9).left rfl rfl rfl rfl rfl rfl rfl rfl rfl (SameReq.rfl' _)
      · rw [if_neg c1] at hre ⊢
        by_cases c2 : RET_ERROR_SLAVE_ID = r
        · rw [if_pos c2] at hre ⊢
          intro t6 h6
          have hm6 := h6.msgBuf.trans hm5
          simp only [clearRespLen_ok hm6, okBind, pureOk, List.append_nil]
          refine ⟨h6.drv.trans d5, h6.dataSet.trans s5, h6.kn, fun t7 h7 => ?_⟩
          rw [clearRespLen_ok (s := { t5 with t15 := .cleared, t35 := .cleared }) hm5] at hre
          simp only [okBind, pureOk] at hre
          refine ⟨_, _, [], hs1, (atom _).trans hre, rfl, ?_⟩
          have g6 := h6.right (u := { t6 with msgs := setMsg t6.msgs i { t6.msgs i with respLen := 0 } }) rfl rfl rfl rfl rfl rfl rfl rfl rfl
            (SameReq.set _ _ _ rfl rfl) h6.kn
          exact (g6.trans h7).left rfl rfl rfl rfl rfl rfl rfl rfl rfl (SameReq.set _ _ _ rfl rfl)
        · rw [if_neg c2] at hre ⊢
          refine wp_assign fun t6 h6 => ⟨h6.drv.trans d5, h6.dataSet.trans s5, h6.kn, wp_assign fun t7 h7 => ?_⟩
          have h7' : MSim t5 t7 := h6.trans (h7.left rfl rfl rfl rfl rfl rfl rfl rfl rfl (SameReq.rfl' _))
          refine ⟨h7'.drv.trans d5, h7'.dataSet.trans s5, h7'.kn, fun t8 h8 => ?_⟩
          refine ⟨_, _, [], hs1, (atom _).trans hre, rfl, ?_⟩
          exact ((h7'.setSt .received).trans h8).left rfl rfl rfl rfl rfl rfl rfl rfl rfl (SameReq.rfl' _)

/-- The timeout report and the end of the transaction, from a state where the timer has been seen at 1. -/
theorem timeout_explained {cfg : Config} {s : Master} (hd : s.drv = true) (hs : s.dataSet = true) :
    Explains (masterWaiting cfg) (masterTimeoutP cfg) s [] := by
  have atom : ∀ t : Master, masterWaiting cfg { t with t15 := .cleared, timer := 1 } = (do
      let e ← masterTimeoutReport { t with t15 := .cleared, timer := 1 }
      let s ← masterProcessEnd cfg { t with t15 := .cleared, timer := 1 }
      return (s, [.event e])) := by
    intro t
    exact (if_neg (by simp)).trans (if_pos rfl)
  refine wp_read (f := fun s => do let m ← curMsg s; rd m.req idxSlaveAdr) (fun s => by simp only [bind_assoc]) hd hs fun t1 h1 d1 s1 => ?_
  cases hm : s.msgBuf with
  | none =>
    have hm1 := h1.msgBuf.trans hm
    have hc : curMsg t1 = .error .nullDeref := by unfold curMsg; rw [hm1]
    simp only [hc, errBind]
    refine ⟨{ t1 with t15 := .cleared, timer := 1 }, h1.right rfl rfl rfl rfl rfl rfl rfl rfl rfl (SameReq.rfl' _) ⟨nofun, h1.kn.2⟩, ?_⟩
    rw [atom]
    have hc : curMsg { t1 with t15 := .cleared, timer := 1 } = .error .nullDeref := by unfold curMsg; simp only [hm1]
    simp only [masterTimeoutReport, hc, errBind]
  | some i =>
    simp only [curMsg_ok (h1.msgBuf.trans hm) s1, okBind, rd_zero]
    refine wp_read (f := fun s => do let m ← curMsg s; readU16 m.req idxRequestAdr) (fun s => by simp only [bind_assoc]) d1 s1 fun t2 h2 d2 s2 => ?_
    have g2 := h1.trans h2
    simp only [curMsg_ok (g2.msgBuf.trans hm) s2, okBind, read_adr]
    refine wp_read (f := fun s => do let m ← curMsg s; readU16 m.req idxRequestQty) (fun s => by simp only [bind_assoc]) d2 s2 fun t3 h3 d3 s3 => ?_
    have g3 := g2.trans h3
    simp only [curMsg_ok (g3.msgBuf.trans hm) s3, okBind, read_qty]
    refine wp_read (f := fun s => do let m ← curMsg s; rd m.resp idxFunctionCode) (fun s => by simp only [bind_assoc]) d3 s3 fun t4 h4 d4 s4 => ?_
    have g4 := g3.trans h4
    simp only [curMsg_ok (g4.msgBuf.trans hm) s4, okBind, rd_one]
    intro t5 h5
    have g5 := g4.trans h5
    have d5 := h5.drv.trans d4
    have s5 := h5.dataSet.trans s4
    refine ⟨d5, s5, h5.kn, ?_⟩
    have hs1 : MSim s { t4 with t15 := .cleared, timer := 1 } := g4.right rfl rfl rfl rfl rfl rfl rfl rfl rfl (SameReq.rfl' _) ⟨nofun, g4.kn.2⟩
    have h45 : MSim { t4 with t15 := .cleared, timer := 1 } t5 := h5.left rfl rfl rfl rfl rfl rfl rfl rfl rfl (SameReq.rfl' _)
    have rep : masterTimeoutReport { t4 with t15 := .cleared, timer := 1 } = .ok (.timeoutErr
        { slave := (t1.msgs i).req 0, fc := (t4.msgs i).resp 1, adr := u16of ((t2.msgs i).req 2) ((t2.msgs i).req 3),
          qty := u16of ((t3.msgs i).req 4) ((t3.msgs i).req 5), err := .timeout }) := by
      unfold masterTimeoutReport
      rw [curMsg_ok (s := { t4 with t15 := .cleared, timer := 1 }) (g4.msgBuf.trans hm) s4, okBind, rd_zero, read_adr, read_qty, rd_one]
      simp only [okBind, pureOk, (h1.req i).1, (g2.req i).1, (g3.req i).1, (g4.req i).1]
    refine wp_processEnd d5 s5 ?_
    have k := processEnd_sim (cfg := cfg) h45
    cases hp : masterProcessEnd cfg { t4 with t15 := .cleared, timer := 1 } with
    | error e =>
      rw [hp] at k
      rw [k]
      refine ⟨_, hs1, ?_⟩
      rw [atom, rep, okBind, hp]; rfl
    | ok u =>
      rw [hp] at k
      obtain ⟨u', k1, k2, k3⟩ := k
      rw [k1]
      intro t' ht'
      refine ⟨_, u, _, hs1, ?_, rfl, k3 _ ht'⟩
      rw [atom, rep, okBind, hp]; rfl

theorem Explains.of_sim {atom : Master → C (Master × List MOut)} {p : MProg} {s t : Master} {o : List MOut} (h : MSim s t)
    (hp : Explains atom p t o) : wp (fun e => ∃ s1, MSim s s1 ∧ atom s1 = .error e) p t o
    (fun s' o' => ∃ s1 u o1, MSim s s1 ∧ atom s1 = .ok (u, o1) ∧ o' = o ++ o1 ∧ MSim u s') := by
  refine wp_mono ?_ ?_ hp
  · rintro e ⟨s1, k1, k2⟩
    exact ⟨s1, h.trans k1, k2⟩
  · rintro s' o' ⟨s1, u, o1, k1, k2, k3, k4⟩
    exact ⟨s1, u, o1, h.trans k1, k2, k3, k4⟩

theorem waiting_explained {cfg : Config} {s : Master} (hd : s.drv = true) (hs : s.dataSet = true) :
    Explains (masterWaiting cfg) (masterWaitingP cfg) s [] := by
  refine wp_test hd hs fun t1 h1 d1 s1 => ⟨fun _ => (recv_explained d1 s1).of_sim h1, fun c1 => wp_test d1 s1 fun t2 h2 d2 s2 =>
    ⟨fun _ => (timeout_explained d2 s2).of_sim (h1.trans h2), fun c2 t3 h3 => ?_⟩⟩
  have c1 : t1.t15 ≠ .set := by simpa using c1
  have c2 : t2.timer ≠ 1 := by simpa using c2
  have g2 := h1.trans h2
  refine ⟨{ t2 with t15 := t1.t15 }, { t2 with t15 := t1.t15 }, [], g2.right rfl rfl rfl rfl rfl rfl rfl rfl rfl (SameReq.rfl' _) ⟨h1.kn.1, h2.kn.2⟩, ?_, rfl,
    h3.left rfl rfl rfl rfl rfl rfl rfl rfl rfl (SameReq.rfl' _)⟩
  exact (if_neg c1).trans (if_neg c2)

/-- The report of a communication error and the end of the transaction. -/
theorem comm_sim {cfg : Config} {s : Master} (hd : s.drv = true) (hs : s.dataSet = true) (e : RespErr) :
    wp (fun x => ∃ s1, MSim s s1 ∧ (do
          let e ← masterCommReport s1 e
          let s ← masterProcessEnd cfg s1
          return (s, [MOut.event e]) : C (Master × List MOut)) = .error x)
      (masterCommP cfg e) s []
      (fun s' o => ∃ s1 u, MSim s s1 ∧ (do
          let e ← masterCommReport s1 e
          let s ← masterProcessEnd cfg s1
          return (s, [MOut.event e])) = .ok (u, o) ∧ MSim u s') := by
  refine wp_read (f := fun s => do let m ← curMsg s; rd m.resp idxSlaveAdr) (fun s => by simp only [bind_assoc]) hd hs fun t1 h1 d1 s1 => ?_
  cases hm : s.msgBuf with
  | none =>
    have hm1 := h1.msgBuf.trans hm
    have hc : curMsg t1 = .error .nullDeref := by unfold curMsg; rw [hm1]
    simp only [hc, errBind]
    refine ⟨t1, h1, ?_⟩
    · simp only [masterCommReport, hc, errBind]
  | some i =>
    simp only [curMsg_ok (h1.msgBuf.trans hm) s1, okBind, rd_zero]
    refine wp_read (f := fun s => do let m ← curMsg s; rd m.resp idxFunctionCode) (fun s => by simp only [bind_assoc]) d1 s1 fun t2 h2 d2 s2 => ?_
    have g2 := h1.trans h2
    have m2 := g2.msgBuf.trans hm
    simp only [curMsg_ok m2 s2, okBind, rd_one]
    intro t3 h3
    have d3 := h3.drv.trans d2
    have s3 := h3.dataSet.trans s2
    refine ⟨d3, s3, h3.kn, ?_⟩
    let sA : Master := { t2 with msgs := setMsg t2.msgs i { t2.msgs i with resp := (t2.msgs i).resp.set 0 ((t1.msgs i).resp 0) } }
    have hsame : SameReq t2.msgs sA.msgs := SameReq.set _ _ _ rfl rfl
    have hsA : MSim s sA := g2.right rfl rfl rfl rfl rfl rfl rfl rfl rfl hsame g2.kn
    have h3A : MSim sA t3 := h3.left rfl rfl rfl rfl rfl rfl rfl rfl rfl hsame
    have rep : masterCommReport sA e = .ok (.commErr { slave := (t1.msgs i).resp 0, fc := (t2.msgs i).resp 1 &&& ~~~exceptionCodeMask, adr := 0, qty := 0, err := e }) := by
      unfold masterCommReport
      rw [curMsg_ok (s := sA) m2 s2, okBind]
      have hA : sA.msgs i = { t2.msgs i with resp := (t2.msgs i).resp.set 0 ((t1.msgs i).resp 0) } := setMsg_same _ _ _
      rw [hA, rd_zero, rd_one, okBind, okBind]
      simp only [Buf.set_same, Buf.set_ne _ _ (show (1 : Nat) ≠ 0 by decide), pureOk]
    refine wp_processEnd d3 s3 ?_
    have k := processEnd_sim (cfg := cfg) h3A
    cases hp : masterProcessEnd cfg sA with
    | error x =>
      rw [hp] at k
      rw [k]
      refine ⟨sA, hsA, ?_⟩
      · rw [rep, okBind, hp]; rfl
    | ok u =>
      rw [hp] at k
      obtain ⟨u', k1, k2, k3⟩ := k
      rw [k1]
      intro t' ht'
      refine ⟨sA, u, hsA, ?_, k3 _ ht'⟩
      rw [rep, okBind, hp]; rfl

theorem processEnd_flags (cfg : Config) (s : Master) (a b : Flag) :
    masterProcessEnd cfg { s with ferr := a, t35 := b } = (do let u ← masterProcessEnd cfg s; return { u with ferr := a, t35 := b }) := by
  unfold masterProcessEnd
  simp only
  cases s.freeQ.push cfg.queueItems s.msgBuf <;> rfl

theorem frameError_explained {cfg : Config} {s : Master} (hd : s.drv = true) (hs : s.dataSet = true) :
    Explains (masterReceived cfg) (masterFrameErrorP cfg) s [] := by
  have atom : ∀ t : Master, MSim s t → masterReceived cfg { t with ferr := .set, t35 := .set } = masterFrameError cfg { t with ferr := .set, t35 := .set } := by
    intro t ht
    exact if_pos ⟨rfl, rfl⟩
  refine wp_assign fun t1 h1 => ⟨h1.drv.trans hd, h1.dataSet.trans hs, h1.kn, wp_test (h1.drv.trans hd) (h1.dataSet.trans hs) fun t2 h2 d2 s2 => ?_⟩
  have hcnt : t2.repeatCnt = s.repeatCnt + 1 := by rw [h2.repeatCnt, ← h1.repeatCnt]
  have g2 : MSim s { t2 with repeatCnt := s.repeatCnt } := h1.trans
    ⟨h2.st, h2.drv, h2.freeQ, h2.txQ, h2.dataSet, h2.msgBuf, h1.repeatCnt.symm, h2.crcf, h2.rxTarget, h2.req, h2.kn⟩
  refine ⟨fun c => ?_, fun c => ?_⟩
  · have c : t2.repeatCnt.toNat ≤ cfg.repeatMax := by simpa using c
    rw [hcnt] at c
    refine wp_assign fun t3 h3 => ⟨h3.drv.trans d2, h3.dataSet.trans s2, h3.kn, wp_assign fun t4 h4 => ?_⟩
    have h4' : MSim { t2 with st := .repeatRequest } t4 := (h3.setSt .repeatRequest).trans h4
    refine ⟨h4'.drv.trans d2, h4'.dataSet.trans s2, ⟨h4'.kn.1, h4'.kn.2.1, nofun, h4'.kn.2.2.2⟩, wp_assignC fun t5 h5 => ?_⟩
    have h5' : MSim { t2 with st := .repeatRequest } t5 := h4'.trans (h5.left rfl rfl rfl rfl rfl rfl rfl rfl rfl (SameReq.rfl' _))
    have hs1 : MSim s { t2 with repeatCnt := s.repeatCnt, ferr := .set, t35 := .set } :=
      g2.right rfl rfl rfl rfl rfl rfl rfl rfl rfl (SameReq.rfl' _) ⟨g2.kn.1, nofun, nofun, g2.kn.2.2.2⟩
    have hat := atom _ g2
    have hdef : masterFrameError cfg { t2 with repeatCnt := s.repeatCnt, ferr := .set, t35 := .set } = (do
        let s ← clearRespLen { t2 with repeatCnt := s.repeatCnt + 1, ferr := .set, t35 := .set }
        return ({ s with st := .repeatRequest, ferr := .cleared }, [])) := by
      unfold masterFrameError
      exact if_pos c
    cases hm : t2.msgBuf with
    | none =>
      have hm5 : t5.msgBuf = none := h5'.msgBuf.trans hm
      have e5 : clearRespLen t5 = .error .nullDeref := by unfold clearRespLen; rw [hm5]
      simp only [e5]
      refine ⟨_, hs1, ?_⟩
      rw [hat, hdef]
      unfold clearRespLen
      simp only [hm, errBind]
    | some i =>
      have hm5 : t5.msgBuf = some i := h5'.msgBuf.trans hm
      simp only [clearRespLen_ok hm5]
      refine ⟨h5'.drv.trans d2, h5'.dataSet.trans s2, h5'.kn, fun t6 h6 => ?_⟩
      rw [clearRespLen_ok (s := { t2 with repeatCnt := s.repeatCnt + 1, ferr := .set, t35 := .set }) hm, okBind, pureOk] at hdef
      refine ⟨_, _, [], hs1, hat.trans hdef, rfl, ?_⟩
      have g6 : MSim { t2 with st := .repeatRequest } t6 := (h5'.right (u := { t5 with msgs := setMsg t5.msgs i { t5.msgs i with respLen := 0 } })
        rfl rfl rfl rfl rfl rfl rfl rfl rfl (SameReq.set _ _ _ rfl rfl) h5'.kn).trans h6
      exact g6.left rfl rfl rfl rfl rfl rfl hcnt.symm rfl rfl (SameReq.set _ _ _ rfl rfl)
  · have c : ¬ t2.repeatCnt.toNat ≤ cfg.repeatMax := by simpa using c
    rw [hcnt] at c
    have lift : ∀ s1 : Master, MSim t2 s1 → MSim s { s1 with repeatCnt := s.repeatCnt } ∧ s1.repeatCnt = s.repeatCnt + 1 := by
      intro s1 k
      refine ⟨g2.trans ⟨k.st, k.drv, k.freeQ, k.txQ, k.dataSet, k.msgBuf, rfl, k.crcf, k.rxTarget, k.req, k.kn⟩, k.repeatCnt.trans hcnt⟩
    have hdef : ∀ s1 : Master, s1.repeatCnt = s.repeatCnt + 1 → masterFrameError cfg { s1 with repeatCnt := s.repeatCnt, ferr := .set, t35 := .set } = (do
        let e ← masterCommReport s1 .frame
        let s ← masterProcessEnd cfg { s1 with ferr := .set, t35 := .set }
        return (s, [.event e])) := by
      intro s1 k
      unfold masterFrameError
      refine (if_neg c).trans ?_
      rw [← k]
      rfl
    refine wp_mono ?_ ?_ (comm_sim d2 s2 .frame)
    · rintro x ⟨s1, k1, k2⟩
      obtain ⟨l1, l2⟩ := lift s1 k1
      refine ⟨_, l1.right (u := { s1 with repeatCnt := s.repeatCnt, ferr := .set, t35 := .set }) rfl rfl rfl rfl rfl rfl rfl rfl rfl (SameReq.rfl' _)
        ⟨k1.kn.1, nofun, nofun, k1.kn.2.2.2⟩, ?_⟩
      rw [atom _ l1, hdef s1 l2]
      have hp := processEnd_flags cfg s1 .set .set
      cases hc : masterCommReport s1 .frame with
      | error e => rw [hc] at k2; exact k2
      | ok e =>
        rw [hc, okBind] at k2
        rw [okBind, hp]
        cases hq : masterProcessEnd cfg s1 with
        | error e => rw [hq] at k2; exact k2
        | ok u => rw [hq] at k2; cases k2
    · rintro s' o ⟨s1, u, k1, k2, k3⟩
      obtain ⟨l1, l2⟩ := lift s1 k1
      have hp := processEnd_flags cfg s1 .set .set
      cases hc : masterCommReport s1 .frame with
      | error e => rw [hc] at k2; cases k2
      | ok e =>
        rw [hc, okBind] at k2
        cases hq : masterProcessEnd cfg s1 with
        | error e => rw [hq] at k2; cases k2
        | ok u' =>
          rw [hq, okBind, pureOk] at k2
          cases k2
          refine ⟨_, { u with ferr := .set, t35 := .set }, [.event e], l1.right (u := { s1 with repeatCnt := s.repeatCnt, ferr := .set, t35 := .set }) rfl rfl rfl rfl rfl rfl rfl rfl rfl (SameReq.rfl' _)
            ⟨k1.kn.1, nofun, nofun, k1.kn.2.2.2⟩, ?_, rfl, k3.left rfl rfl rfl rfl rfl rfl rfl rfl rfl (SameReq.rfl' _)⟩
          rw [atom _ l1, hdef s1 l2, hc, okBind, hp, hq]
          rfl

theorem crcError_explained {cfg : Config} {s : Master} (hd : s.drv = true) (hs : s.dataSet = true) (hc : s.crcf = .set) :
    Explains (masterReceived cfg) (masterCrcErrorP cfg) s [] := by
  have atom : ∀ t : Master, MSim s t → masterReceived cfg { t with ferr := .cleared, t35 := .set } = masterCrcError cfg { t with ferr := .cleared, t35 := .set } := by
    intro t ht
    exact (if_neg (by simp)).trans (if_pos ⟨ht.crcf.trans hc, rfl⟩)
  refine wp_assign fun t1 h1 => ⟨h1.drv.trans hd, h1.dataSet.trans hs, h1.kn, wp_test (h1.drv.trans hd) (h1.dataSet.trans hs) fun t2 h2 d2 s2 => ?_⟩
  have hcnt : t2.repeatCnt = s.repeatCnt + 1 := by rw [h2.repeatCnt, ← h1.repeatCnt]
  have g2 : MSim s { t2 with repeatCnt := s.repeatCnt } := h1.trans
    ⟨h2.st, h2.drv, h2.freeQ, h2.txQ, h2.dataSet, h2.msgBuf, h1.repeatCnt.symm, h2.crcf, h2.rxTarget, h2.req, h2.kn⟩
  refine ⟨fun c => ?_, fun c => ?_⟩
  · have c : t2.repeatCnt.toNat ≤ cfg.repeatMax := by simpa using c
    rw [hcnt] at c
    refine wp_assign fun t3 h3 => ⟨h3.drv.trans d2, h3.dataSet.trans s2, h3.kn, wp_assign fun t4 h4 => ?_⟩
    have h4' : MSim { t2 with st := .repeatRequest } t4 := (h3.setSt .repeatRequest).trans h4
    refine ⟨h4'.drv.trans d2, h4'.dataSet.trans s2, h4'.kn, wp_assignC fun t5 h5 => ?_⟩
    have h5' : MSim { t2 with st := .repeatRequest, crcf := .cleared } t5 := (h4'.setCrcf .cleared).trans h5
    have hs1 : MSim s { t2 with repeatCnt := s.repeatCnt, ferr := .cleared, t35 := .set } :=
      g2.right rfl rfl rfl rfl rfl rfl rfl rfl rfl (SameReq.rfl' _) ⟨g2.kn.1, nofun, nofun, g2.kn.2.2.2⟩
    have hat := atom _ g2
    have hdef : masterCrcError cfg { t2 with repeatCnt := s.repeatCnt, ferr := .cleared, t35 := .set } = (do
        let s ← clearRespLen { t2 with repeatCnt := s.repeatCnt + 1, ferr := .cleared, t35 := .set }
        return ({ s with st := .repeatRequest, crcf := .cleared }, [])) := by
      unfold masterCrcError
      exact if_pos c
    cases hm : t2.msgBuf with
    | none =>
      have hm5 : t5.msgBuf = none := h5'.msgBuf.trans hm
      have e5 : clearRespLen t5 = .error .nullDeref := by unfold clearRespLen; rw [hm5]
      simp only [e5]
      refine ⟨_, hs1, ?_⟩
      rw [hat, hdef]
      unfold clearRespLen
      simp only [hm, errBind]
    | some i =>
      have hm5 : t5.msgBuf = some i := h5'.msgBuf.trans hm
      simp only [clearRespLen_ok hm5]
      refine ⟨h5'.drv.trans d2, h5'.dataSet.trans s2, h5'.kn, fun t6 h6 => ?_⟩
      rw [clearRespLen_ok (s := { t2 with repeatCnt := s.repeatCnt + 1, ferr := .cleared, t35 := .set }) hm, okBind, pureOk] at hdef
      refine ⟨_, _, [], hs1, hat.trans hdef, rfl, ?_⟩
      have g6 : MSim { t2 with st := .repeatRequest, crcf := .cleared } t6 := (h5'.right (u := { t5 with msgs := setMsg t5.msgs i { t5.msgs i with respLen := 0 } })
        rfl rfl rfl rfl rfl rfl rfl rfl rfl (SameReq.set _ _ _ rfl rfl) h5'.kn).trans h6
      exact g6.left rfl rfl rfl rfl rfl rfl hcnt.symm rfl rfl (SameReq.set _ _ _ rfl rfl)
  · have c : ¬ t2.repeatCnt.toNat ≤ cfg.repeatMax := by simpa using c
    rw [hcnt] at c
    have lift : ∀ s1 : Master, MSim t2 s1 → MSim s { s1 with repeatCnt := s.repeatCnt } ∧ s1.repeatCnt = s.repeatCnt + 1 := by
      intro s1 k
      refine ⟨g2.trans ⟨k.st, k.drv, k.freeQ, k.txQ, k.dataSet, k.msgBuf, rfl, k.crcf, k.rxTarget, k.req, k.kn⟩, k.repeatCnt.trans hcnt⟩
    have hdef : ∀ s1 : Master, s1.repeatCnt = s.repeatCnt + 1 → masterCrcError cfg { s1 with repeatCnt := s.repeatCnt, ferr := .cleared, t35 := .set } = (do
        let e ← masterCommReport s1 .crc
        let s ← masterProcessEnd cfg { s1 with ferr := .cleared, t35 := .set }
        return (s, [.event e])) := by
      intro s1 k
      unfold masterCrcError
      refine (if_neg c).trans ?_
      rw [← k]
      rfl
    refine wp_mono ?_ ?_ (comm_sim d2 s2 .crc)
    · rintro x ⟨s1, k1, k2⟩
      obtain ⟨l1, l2⟩ := lift s1 k1
      refine ⟨_, l1.right (u := { s1 with repeatCnt := s.repeatCnt, ferr := .cleared, t35 := .set }) rfl rfl rfl rfl rfl rfl rfl rfl rfl (SameReq.rfl' _)
        ⟨k1.kn.1, nofun, nofun, k1.kn.2.2.2⟩, ?_⟩
      rw [atom _ l1, hdef s1 l2]
      have hp := processEnd_flags cfg s1 .cleared .set
      cases hc : masterCommReport s1 .crc with
      | error e => rw [hc] at k2; exact k2
      | ok e =>
        rw [hc, okBind] at k2
        rw [okBind, hp]
        cases hq : masterProcessEnd cfg s1 with
        | error e => rw [hq] at k2; exact k2
        | ok u => rw [hq] at k2; cases k2
    · rintro s' o ⟨s1, u, k1, k2, k3⟩
      obtain ⟨l1, l2⟩ := lift s1 k1
      have hp := processEnd_flags cfg s1 .cleared .set
      cases hc : masterCommReport s1 .crc with
      | error e => rw [hc] at k2; cases k2
      | ok e =>
        rw [hc, okBind] at k2
        cases hq : masterProcessEnd cfg s1 with
        | error e => rw [hq] at k2; cases k2
        | ok u' =>
          rw [hq, okBind, pureOk] at k2
          cases k2
          refine ⟨_, { u with ferr := .cleared, t35 := .set }, [.event e], l1.right (u := { s1 with repeatCnt := s.repeatCnt, ferr := .cleared, t35 := .set }) rfl rfl rfl rfl rfl rfl rfl rfl rfl (SameReq.rfl' _)
            ⟨k1.kn.1, nofun, nofun, k1.kn.2.2.2⟩, ?_, rfl, k3.left rfl rfl rfl rfl rfl rfl rfl rfl rfl (SameReq.rfl' _)⟩
          rw [atom _ l1, hdef s1 l2, hc, okBind, hp, hq]
          rfl

/-- The callbacks for the response in the current message. -/
def correctEvents (t : Master) : C (List MEvent) :=
  match t.msgBuf with
  | none => .ok []
  | some i => do
    let (_, ev) ← readSlaveResp t.dataSet (t.msgs i)
    return ev

theorem correct_explained {cfg : Config} {s : Master} (hd : s.drv = true) (hs : s.dataSet = true) (hc : s.crcf = .cleared) :
    Explains (masterReceived cfg) (masterCorrectP cfg) s [] := by
  refine wp_out (f := correctEvents) (out := fun ev => ev.map .event) (fun s => rfl) hd hs fun t1 h1 d1 s1 => ?_
  have hs1 : MSim s { t1 with ferr := .cleared, t35 := .set } := h1.right rfl rfl rfl rfl rfl rfl rfl rfl rfl (SameReq.rfl' _) ⟨h1.kn.1, nofun, nofun, h1.kn.2.2.2⟩
  have atom : masterReceived cfg { t1 with ferr := .cleared, t35 := .set } = (do
      let ev ← correctEvents t1
      let s ← masterProcessEnd cfg { t1 with ferr := .cleared, t35 := .set }
      return (s, ev.map .event)) :=
    (if_neg (by simp)).trans ((if_neg (by simp [h1.crcf.trans hc])).trans (if_pos ⟨rfl, h1.crcf.trans hc, rfl⟩))
  cases hev : correctEvents t1 with
  | error e =>
    rw [hev] at atom
    exact ⟨_, hs1, atom⟩
  | ok ev =>
    rw [hev, okBind] at atom
    refine wp_processEnd d1 s1 ?_
    rw [processEnd_flags] at atom
    cases hp : masterProcessEnd cfg t1 with
    | error e =>
      rw [hp] at atom
      exact ⟨_, hs1, atom⟩
    | ok u =>
      rw [hp] at atom
      intro t' ht'
      exact ⟨_, _, _, hs1, atom, rfl, ht'.left rfl rfl rfl rfl rfl rfl rfl rfl rfl (SameReq.rfl' _)⟩

theorem received_nop {cfg : Config} {s t : Master} (h : MSim s t) (o : List MOut) :
    ∀ u, MSim t u → ∃ s1 t1 o1, MSim s s1 ∧ masterReceived cfg s1 = .ok (t1, o1) ∧ o = o ++ o1 ∧ MSim t1 u := by
  intro u hu
  refine ⟨{ t with t35 := .cleared }, { t with t35 := .cleared }, [], h.right rfl rfl rfl rfl rfl rfl rfl rfl rfl (SameReq.rfl' _) ⟨h.kn.1, nofun, h.kn.2.2⟩, ?_,
    by simp, hu.left rfl rfl rfl rfl rfl rfl rfl rfl rfl (SameReq.rfl' _)⟩
  exact (if_neg (by simp)).trans ((if_neg (by simp)).trans (if_neg (by simp)))

theorem received3_explained {cfg : Config} {s : Master} (hd : s.drv = true) (hs : s.dataSet = true) :
    Explains (masterReceived cfg) (masterReceived3P cfg) s [] := by
  refine wp_test hd hs fun t1 h1 d1 s1 => ⟨fun _ => wp_test d1 s1 fun t2 h2 d2 s2 => ⟨fun c2 => wp_test d2 s2 fun t3 h3 d3 s3 =>
    ⟨fun _ => ?_, fun _ => received_nop (h1.trans (h2.trans h3)) _⟩, fun _ => received_nop (h1.trans h2) _⟩, fun _ => received_nop h1 _⟩
  have c2 : t2.crcf = .cleared := by simpa using c2
  exact (correct_explained d3 s3 (h3.crcf.trans c2)).of_sim (h1.trans (h2.trans h3))

theorem received_explained {cfg : Config} {s : Master} (hd : s.drv = true) (hs : s.dataSet = true) :
    Explains (masterReceived cfg) (masterReceivedP cfg) s [] := by
  have crc : ∀ t, MSim s t → t.drv = true → t.dataSet = true → t.crcf = .set → _ :=
    fun t h d ds hc => (crcError_explained (cfg := cfg) d ds hc).of_sim h
  have rest : ∀ t, MSim s t → t.drv = true → t.dataSet = true → _ :=
    fun t h d ds => (received3_explained (cfg := cfg) d ds).of_sim h
  refine wp_test hd hs fun t1 h1 d1 s1 => ⟨fun _ => wp_test d1 s1 fun t2 h2 d2 s2 => ⟨fun _ => (frameError_explained d2 s2).of_sim (h1.trans h2), fun _ => ?_⟩,
    fun _ => wp_test d1 s1 fun t2 h2 d2 s2 => ⟨fun c2 => wp_test d2 s2 fun t3 h3 d3 s3 => ⟨fun _ => ?_, fun _ => rest t3 (h1.trans (h2.trans h3)) d3 s3⟩,
      fun _ => rest t2 (h1.trans h2) d2 s2⟩⟩
  · intro t3 h3
    have d3 := h3.drv.trans d2
    have s3 := h3.dataSet.trans s2
    have g3 := h1.trans (h2.trans h3)
    simp only [List.append_nil]
    refine ⟨d3, s3, h3.kn, ?_⟩
    by_cases hc : t3.crcf = .set
    · rw [if_pos (by simpa using hc)]
      intro t4 h4
      have d4 := h4.drv.trans d3
      have s4 := h4.dataSet.trans s3
      simp only [List.append_nil]
      refine ⟨d4, s4, h4.kn, ?_⟩
      split
      · exact crc t4 (g3.trans h4) d4 s4 (h4.crcf.trans hc)
      · exact rest t4 (g3.trans h4) d4 s4
    · rw [if_neg (by simpa using hc)]
      exact rest t3 g3 d3 s3
  · have c2 : t2.crcf = .set := by simpa using c2
    exact crc t3 (h1.trans (h2.trans h3)) d3 s3 (h3.crcf.trans c2)

/-- **An interrupted poll is an atomic one up to what interrupts write**, whatever the interrupts and wherever they occur. -/
theorem poll_explained {cfg : Config} {s : Master} (hd : s.drv = true) (hs : s.dataSet = true) :
    Explains (masterPoll cfg) (masterPollP cfg) s [] := by
  intro t1 h1
  have d1 := h1.drv.trans hd
  have s1 := h1.dataSet.trans hs
  simp only [List.append_nil]
  refine ⟨d1, s1, h1.kn, ?_⟩
  have key : ∀ (f : Master → C (Master × List MOut)) (p : MProg), (∀ t, MSim t1 t → masterPoll cfg t = f t) → Explains f p t1 [] →
      Explains (masterPoll cfg) p t1 [] := by
    intro f p hf hp
    refine wp_mono ?_ ?_ hp
    · rintro e ⟨s1, k1, k2⟩
      exact ⟨s1, k1, (hf _ k1).trans k2⟩
    · rintro s' o ⟨s1, u, o1, k1, k2, k3⟩
      exact ⟨s1, u, o1, k1, (hf _ k1).trans k2, k3⟩
  refine Explains.of_sim h1 ?_
  cases hst : t1.st with
  | idle => exact key _ _ (fun t ht => by simp only [masterPoll, ht.st, hst]) (idle_explained d1 s1)
  | repeatRequest => exact key _ _ (fun t ht => by simp only [masterPoll, ht.st, hst]) (send_explained d1 s1 h1.kn)
  | transmitting => exact key _ _ (fun t ht => by simp only [masterPoll, ht.st, hst]) (transmitting_explained d1 s1)
  | waiting => exact key _ _ (fun t ht => by simp only [masterPoll, ht.st, hst]) (waiting_explained d1 s1)
  | received => exact key _ _ (fun t ht => by simp only [masterPoll, ht.st, hst]) (received_explained d1 s1)

/-- The same about the execution. -/
theorem pollWith_explained {cfg : Config} {s : Master} (hd : s.drv = true) (hs : s.dataSet = true) (hk : Kn s) (ints : List (List MEv)) :
    (∃ s1 t s' o, MSim s s1 ∧ masterPoll cfg s1 = .ok (t, o) ∧ MSim t s' ∧ masterPStep cfg s (.pollWith ints) = .ok (s', o)) ∨
      ∃ s1 e, MSim s s1 ∧ masterPoll cfg s1 = .error e ∧ masterPStep cfg s (.pollWith ints) = .error e := by
  have h := wp_sound (cfg := cfg) _ ints s [] hd hs hk (poll_explained (cfg := cfg) hd hs)
  simp only [masterPStep]
  cases hr : runProg (masterInt cfg) (masterPollP cfg) ints s with
  | error e =>
    rw [hr] at h
    obtain ⟨s1, h1, h2⟩ := h
    exact .inr ⟨s1, e, h1, h2, rfl⟩
  | ok x =>
    obtain ⟨s', o⟩ := x
    rw [hr] at h
    obtain ⟨s1, t, o1, h1, h2, h3, h4⟩ := h
    simp only [List.nil_append] at h3
    subst h3
    exact .inl ⟨s1, t, s', o, h1, h2, h4, rfl⟩

end Modbus
