import Verif.Proofs.MasterTrace
import Verif.Proofs.Crc

/-! What the state of the current transaction says about the history. -/

namespace Modbus

open Spec

/-- The trace entry of a poll that transmits request `r`. -/
abbrev sent (r : MReq) : MOp × List MOut := (.poll, [.send (reqFrame r)])

/-- A poll without outputs. -/
abbrev silentPoll : MOp × List MOut := (.poll, [])

/-- The current message and request. -/
def CurIs (s : Master) (i : Nat) (r : MReq) : Prop :=
  s.msgBuf = some i ∧ s.rxTarget = some i ∧ Holds (s.msgs i) r ∧ QtyOk r

/-- Transmitting. -/
def HTrans (tr : MTrace) (s : Master) : Prop :=
  ∃ i r a b, CurIs s i r ∧ tr = a ++ sent r :: b ∧ outs b = [] ∧ (s.txf = .cleared → Happened .txDone b) ∧
    (Happened .frameErr b → s.ferr = .set)

/-- Waiting: `b` up to the poll that observed the completion, `d` since then. -/
def HWait (cfg : Config) (tr : MTrace) (s : Master) : Prop :=
  ∃ i r a b d, CurIs s i r ∧ tr = a ++ sent r :: (b ++ silentPoll :: d) ∧ outs b = [] ∧ outs d = [] ∧ Happened .txDone b ∧
    (Happened .frameErr (b ++ silentPoll :: d) → s.ferr = .set) ∧ s.timer = cfg.respTimeout - ticks d ∧
    (s.msgs i).resp.bytes 0 (s.msgs i).respLen.toNat <:+ rxBytes d

/-- Received: `d` up to the end-of-frame check of `f`, `e` since then. -/
def HRecv (tr : MTrace) (s : Master) : Prop :=
  ∃ i r a b d e f, CurIs s i r ∧ tr = a ++ sent r :: (b ++ silentPoll :: (d ++ silentPoll :: e)) ∧ outs b = [] ∧ outs d = [] ∧
    outs e = [] ∧ Happened .txDone b ∧ (Happened .frameErr (b ++ silentPoll :: (d ++ silentPoll :: e)) → s.ferr = .set) ∧
    (s.t35 = .set → Happened .t35 e) ∧ f <:+ rxBytes d ∧ f.length ≤ 255 ∧
    (s.crcf = .cleared → CrcCorrect f ∧ f.head? = some (reqSlave r)) ∧
    (f.length + (rxBytes e).length ≤ 255 → (s.msgs i).respLen.toNat = f.length + (rxBytes e).length) ∧
    (f.length + (rxBytes e).length ≤ 256 → (s.msgs i).resp.bytes 0 f.length = f) ∧
    (f ≠ [] → f.head? = some (reqSlave r)) ∧ (rxBytes e = [] → (s.msgs i).resp 0 = reqSlave r)

/-- History invariant. -/
def HInv (cfg : Config) (tr : MTrace) (s : Master) : Prop :=
  match s.st with
  | .transmitting => HTrans tr s
  | .waiting => HWait cfg tr s
  | .received => HRecv tr s
  | _ => True

/-- What an operation that does not change the state of the transaction may do. -/
structure Effect (s s' : Master) (op : MOp) (o : List MOut) : Prop where
  st : s'.st = s.st
  msgBuf : s'.msgBuf = s.msgBuf
  rxTarget : s'.rxTarget = s.rxTarget
  outs : outs [(op, o)] = []
  timer : s'.timer = s.timer - (if op = .tick then 1 else 0)
  txf' : s'.txf = if op = .txDone then .cleared else s.txf
  ferr' : s'.ferr = if op = .frameErr then .set else s.ferr
  crcf : s'.crcf = s.crcf
  t35' : s'.t35 = if op = .t35 then .set else s.t35
  t15' : s'.t15 = if op = .t15 then .set else s.t15
  cnt : s'.repeatCnt = s.repeatCnt
  msg : ∀ i, s.msgBuf = some i → s.rxTarget = some i → s.st ≠ .idle → s'.msgs i =
    match op with
    | .rxByte b => { s.msgs i with resp := (s.msgs i).resp.set (s.msgs i).respLen.toNat b, respLen := (s.msgs i).respLen + 1 }
    | _ => s.msgs i

theorem Effect.txf {s s' : Master} {op : MOp} {o : List MOut} (h : Effect s s' op o) (e : s'.txf = .cleared) :
    s.txf = .cleared ∨ op = .txDone := by
  by_cases k : op = .txDone
  · exact .inr k
  · left; rw [h.txf', if_neg k] at e; exact e

theorem Effect.t35 {s s' : Master} {op : MOp} {o : List MOut} (h : Effect s s' op o) (e : s'.t35 = .set) :
    s.t35 = .set ∨ op = .t35 := by
  by_cases k : op = .t35
  · exact .inr k
  · left; rw [h.t35', if_neg k] at e; exact e

theorem Effect.ferr {s s' : Master} {op : MOp} {o : List MOut} (h : Effect s s' op o) (e : s.ferr = .set ∨ op = .frameErr) :
    s'.ferr = .set := by
  rw [h.ferr']
  split
  · rfl
  · rcases e with e | e
    · exact e
    · contradiction

theorem outs_append (t1 t2 : MTrace) : outs (t1 ++ t2) = outs t1 ++ outs t2 := by simp [outs]

theorem happened_append {op : MOp} {t1 t2 : MTrace} : Happened op (t1 ++ t2) ↔ Happened op t1 ∨ Happened op t2 := by
  simp only [Happened, List.map_append, List.mem_append]

theorem happened_cons {op : MOp} {x : MOp × List MOut} {t : MTrace} : Happened op (x :: t) ↔ op = x.1 ∨ Happened op t := by
  simp only [Happened, List.map_cons, List.mem_cons]

theorem happened_nil {op : MOp} : ¬ Happened op [] := by simp [Happened]

theorem rxBytes_append (t1 t2 : MTrace) : rxBytes (t1 ++ t2) = rxBytes t1 ++ rxBytes t2 := by simp [rxBytes]

theorem ticks_append (t1 t2 : MTrace) : ticks (t1 ++ t2) = ticks t1 + ticks t2 := by simp [ticks, tickCount]

theorem ticks_one (op : MOp) (o : List MOut) : ticks [(op, o)] = if op = .tick then 1 else 0 := by
  unfold ticks tickCount
  by_cases h : op = .tick <;> simp [h]

theorem rxBytes_one (op : MOp) (o : List MOut) : rxBytes [(op, o)] = match op with | .rxByte b => [b] | _ => [] := by
  cases op <;> rfl

theorem Buf.bytes_set_last (b : Buf) (n : Nat) (v : U8) : (b.set n v).bytes 0 (n + 1) = b.bytes 0 n ++ [v] := by
  rw [Buf.bytes_add]
  congr 1
  · exact Buf.bytes_congr (fun i hi => by rw [Buf.set_ne]; omega)
  · simp [Buf.bytes]

theorem Buf.bytes_set_out (b : Buf) {n m : Nat} (v : U8) (h : n ≤ m) : (b.set m v).bytes 0 n = b.bytes 0 n :=
  Buf.bytes_congr (fun i hi => by rw [Buf.set_ne]; omega)

theorem Effect.curIs {s s' : Master} {op : MOp} {o : List MOut} (h : Effect s s' op o) (hs : s.st ≠ .idle) {i : Nat} {r : MReq}
    (hc : CurIs s i r) : CurIs s' i r := by
  refine ⟨h.msgBuf.trans hc.1, h.rxTarget.trans hc.2.1, ?_, hc.2.2.2⟩
  have := h.msg i hc.1 hc.2.1 hs
  rw [this]
  cases op <;> exact hc.2.2.1

theorem HInv.effect {cfg : Config} {tr : MTrace} {s s' : Master} {op : MOp} {o : List MOut} (h : HInv cfg tr s)
    (he : Effect s s' op o) : HInv cfg (tr ++ [(op, o)]) s' := by
  unfold HInv at h ⊢
  rw [he.st]
  cases hs : s.st with
  | idle => trivial
  | repeatRequest => trivial
  | transmitting =>
    rw [hs] at h
    obtain ⟨i, r, a, b, h1, h2, h3, h4, h5⟩ := h
    refine ⟨i, r, a, b ++ [(op, o)], he.curIs (by simp [hs]) h1, by simp [h2], by rw [outs_append, h3, he.outs]; rfl, ?_, ?_⟩
    · intro e
      rw [happened_append, happened_cons]
      rcases he.txf e with e | e
      · exact .inl (h4 e)
      · exact .inr (.inl e.symm)
    · intro e
      rw [happened_append, happened_cons] at e
      rcases e with e | e | e
      · exact he.ferr (.inl (h5 e))
      · exact he.ferr (.inr e.symm)
      · exact (happened_nil e).elim
  | waiting =>
    rw [hs] at h
    obtain ⟨i, r, a, b, d, h1, h2, h3, h4, h5, h6, h7, h8⟩ := h
    refine ⟨i, r, a, b, d ++ [(op, o)], he.curIs (by simp [hs]) h1, by simp [h2], h3, by rw [outs_append, h4, he.outs]; rfl, h5, ?_, ?_, ?_⟩
    · intro e
      rw [show b ++ silentPoll :: (d ++ [(op, o)]) = (b ++ silentPoll :: d) ++ [(op, o)] by simp, happened_append, happened_cons] at e
      rcases e with e | e | e
      · exact he.ferr (.inl (h6 e))
      · exact he.ferr (.inr e.symm)
      · exact (happened_nil e).elim
    · rw [he.timer, h7, ticks_append, ticks_one]; omega
    · rw [rxBytes_append, rxBytes_one, he.msg i h1.1 h1.2.1 (by simp [hs])]
      cases op with
      | rxByte x =>
        simp only
        by_cases hw : (s.msgs i).respLen.toNat = 255
        · have : ((s.msgs i).respLen + 1).toNat = 0 := by rw [BitVec.toNat_add, hw]; rfl
          rw [this]
          exact List.nil_suffix
        · have : ((s.msgs i).respLen + 1).toNat = (s.msgs i).respLen.toNat + 1 := by
            rw [BitVec.toNat_add]
            have := (s.msgs i).respLen.isLt
            show (_ + 1) % 256 = _
            omega
          rw [this, Buf.bytes_set_last]
          obtain ⟨t, ht⟩ := h8
          exact ⟨t, by rw [← ht]; simp⟩
      | _ => simpa using h8
  | received =>
    rw [hs] at h
    obtain ⟨i, r, a, b, d, e, f, h1, h2, h3, h4, h5, h6, h7, h8, h9, h10, h11, h12, h13, h14, h15⟩ := h
    refine ⟨i, r, a, b, d, e ++ [(op, o)], f, he.curIs (by simp [hs]) h1, by simp [h2], h3, h4, by rw [outs_append, h5, he.outs]; rfl,
      h6, ?_, ?_, h9, h10, ?_, ?_, ?_, h14, ?_⟩
    · intro k
      rw [show b ++ silentPoll :: (d ++ silentPoll :: (e ++ [(op, o)])) = (b ++ silentPoll :: (d ++ silentPoll :: e)) ++ [(op, o)] by simp,
        happened_append, happened_cons] at k
      rcases k with k | k | k
      · exact he.ferr (.inl (h7 k))
      · exact he.ferr (.inr k.symm)
      · exact (happened_nil k).elim
    · intro k
      rw [happened_append, happened_cons]
      rcases he.t35 k with k | k
      · exact .inl (h8 k)
      · exact .inr (.inl k.symm)
    · rw [he.crcf]; exact h11
    · rw [rxBytes_append, rxBytes_one, he.msg i h1.1 h1.2.1 (by simp [hs])]
      cases op with
      | rxByte x =>
        simp only [List.length_append, List.length_singleton]
        intro k
        have hl := h12 (by omega)
        rw [BitVec.toNat_add, hl]
        show (_ + 1) % 256 = _
        omega
      | _ => simpa using h12
    · rw [rxBytes_append, rxBytes_one, he.msg i h1.1 h1.2.1 (by simp [hs])]
      cases op with
      | rxByte x =>
        simp only [List.length_append, List.length_singleton]
        intro k
        have hl := h12 (by omega)
        rw [Buf.bytes_set_out _ _ (by omega)]
        exact h13 (by omega)
      | _ => simpa using h13
    · rw [rxBytes_append, rxBytes_one, he.msg i h1.1 h1.2.1 (by simp [hs])]
      cases op with
      | rxByte x => intro k; simp at k
      | _ => simpa using h15

/-- A request only touches the queues and the buffer it takes from the free queue. -/
theorem generateRequest_frame {cfg : Config} {s s' : Master} {p : ReqParam} {c : ReqRet}
    (h : generateRequest cfg s p = .ok (c, s')) :
    s' = { s with freeQ := s'.freeQ, txQ := s'.txQ, msgs := s'.msgs } ∧
      ∀ x fq, s.freeQ.pop cfg.queueItems = .ok (x, fq) → ∀ j, x ≠ some j → s'.msgs j = s.msgs j := by
  unfold generateRequest at h
  cases hp : s.freeQ.pop cfg.queueItems with
  | error e => rw [hp] at h; cases h
  | ok y =>
    obtain ⟨x, fq⟩ := y
    rw [hp] at h
    simp only [ok_bind] at h
    cases x with
    | none =>
      simp only [pure_eq, Except.ok.injEq, Prod.mk.injEq] at h
      obtain ⟨-, rfl⟩ := h
      exact ⟨rfl, fun _ _ _ _ _ => rfl⟩
    | some i =>
      simp only at h
      have fin : ∀ m, s'.msgs = setMsg s.msgs i m →
          ∀ x fq', (Except.ok (some i, fq) : C _) = .ok (x, fq') → ∀ j, x ≠ some j → s'.msgs j = s.msgs j := by
        intro m hm x fq' e j hj
        cases e
        rw [hm, setMsg_ne]
        rintro rfl; exact hj rfl
      cases hg : generatePdu s.dataSet (s.msgs i) p with
      | error e => rw [hg] at h; cases h
      | ok y =>
        obtain ⟨ret, m⟩ := y
        rw [hg] at h
        simp only [ok_bind] at h
        split at h
        · simp only [pure_eq, Except.ok.injEq, Prod.mk.injEq] at h
          obtain ⟨-, rfl⟩ := h
          exact ⟨rfl, fin m rfl⟩
        · cases hr : rtuSend (if s.dataSet then some m.req else none) m.reqLen p.slaveId with
          | error e => rw [hr] at h; cases h
          | ok z =>
            obtain ⟨r2, b2, l2⟩ := z
            rw [hr] at h
            simp only [ok_bind] at h
            split at h
            · simp only [pure_eq, Except.ok.injEq, Prod.mk.injEq] at h
              obtain ⟨-, rfl⟩ := h
              exact ⟨rfl, fin _ rfl⟩
            · cases hq : s.txQ.push cfg.queueItems (some i) with
              | error e => rw [hq] at h; cases h
              | ok w =>
                rw [hq] at h
                simp only [ok_bind, pure_eq, Except.ok.injEq, Prod.mk.injEq] at h
                obtain ⟨-, rfl⟩ := h
                exact ⟨rfl, fin _ rfl⟩

theorem masterStep_effect {cfg : Config} (hw : cfg.MWF) {s s' : Master} {g : Ghost} (hi : MInv cfg s g) {op : MOp}
    {o : List MOut} (h1 : op ≠ .poll) (h2 : ∀ m, op ≠ .init m) (h : masterStep cfg s op = .ok (s', o)) : Effect s s' op o := by
  cases op with
  | init m => exact absurd rfl (h2 m)
  | poll => exact absurd rfl h1
  | request r =>
    simp only [masterStep] at h
    cases hg : generateRequest cfg s r.param with
    | error e => rw [hg] at h; cases h
    | ok x =>
      obtain ⟨c, s2⟩ := x
      rw [hg] at h
      simp only [ok_bind, pure_eq, Except.ok.injEq, Prod.mk.injEq] at h
      obtain ⟨rfl, rfl⟩ := h
      obtain ⟨e1, e2⟩ := generateRequest_frame hg
      have f : ∀ {β : Type} (p : Master → β), p s2 = p { s with freeQ := s2.freeQ, txQ := s2.txQ, msgs := s2.msgs } := fun p => congrArg p e1
      refine ⟨f Master.st, f Master.msgBuf, f Master.rxTarget, rfl, f Master.timer, f Master.txf, f Master.ferr, f Master.crcf,
        f Master.t35, f Master.t15, f Master.repeatCnt, ?_⟩
      · intro i hm hrx hs
        simp only
        have hcur := hi.cur
        cases hc : g.cur with
        | none => rw [hc] at hcur; exact absurd hcur.1 hs
        | some x =>
          obtain ⟨j, r', c'⟩ := x
          rw [hc] at hcur
          have hij : j = i := by have := hcur.1; rw [hm] at this; exact (Option.some.inj this).symm
          subst hij
          cases hfl : g.fl with
          | nil =>
            have hfree := hi.free
            rw [hfl] at hfree
            exact e2 none _ hfree.pop_nil j (by simp)
          | cons k fl =>
            have hfree := hi.free
            rw [hfl] at hfree
            obtain ⟨fq, p1, -⟩ := hfree.pop_cons hw.qle
            refine e2 (some k) fq p1 j ?_
            intro e
            obtain rfl := Option.some.inj e
            have hnd := hi.nodup
            simp [List.nodup_append, Ghost.curIdx, hc, hfl] at hnd
  | tick =>
    simp only [masterStep, Except.ok.injEq, Prod.mk.injEq] at h
    obtain ⟨rfl, rfl⟩ := h
    split
    · exact ⟨rfl, rfl, rfl, rfl, by simp, by simp, by simp, rfl, by simp, by simp, rfl, fun _ _ _ _ => rfl⟩
    · exact ⟨rfl, rfl, rfl, rfl, by simp; omega, by simp, by simp, rfl, by simp, by simp, rfl, fun _ _ _ _ => rfl⟩
  | t15 =>
    simp only [masterStep, Except.ok.injEq, Prod.mk.injEq] at h
    obtain ⟨rfl, rfl⟩ := h
    rw [if_pos hi.drv]
    exact ⟨rfl, rfl, rfl, rfl, by simp, by simp, by simp, rfl, by simp, by simp, rfl, fun _ _ _ _ => rfl⟩
  | t35 =>
    simp only [masterStep, Except.ok.injEq, Prod.mk.injEq] at h
    obtain ⟨rfl, rfl⟩ := h
    rw [if_pos hi.drv]
    exact ⟨rfl, rfl, rfl, rfl, by simp, by simp, by simp, rfl, by simp, by simp, rfl, fun _ _ _ _ => rfl⟩
  | frameErr =>
    simp only [masterStep, Except.ok.injEq, Prod.mk.injEq] at h
    obtain ⟨rfl, rfl⟩ := h
    rw [if_pos hi.drv]
    exact ⟨rfl, rfl, rfl, rfl, by simp, by simp, by simp, rfl, by simp, by simp, rfl, fun _ _ _ _ => rfl⟩
  | txDone =>
    simp only [masterStep, Except.ok.injEq, Prod.mk.injEq] at h
    obtain ⟨rfl, rfl⟩ := h
    rw [if_pos hi.drv]
    exact ⟨rfl, rfl, rfl, rfl, by simp, by simp, by simp, rfl, by simp, by simp, rfl, fun _ _ _ _ => rfl⟩
  | rxByte b =>
    simp only [masterStep, masterRx] at h
    cases hrx : s.rxTarget with
    | none =>
      rw [hrx] at h
      simp only [ok_bind, pure_eq, Except.ok.injEq, Prod.mk.injEq] at h
      obtain ⟨rfl, rfl⟩ := h
      refine ⟨rfl, rfl, rfl, rfl, by simp, by simp, by simp, rfl, by simp, by simp, rfl, ?_⟩
      intro i _ e; rw [hrx] at e; cases e
    | some j =>
      rw [hrx] at h
      simp only [if_pos hi.data, wr_ok _ _ (show (s.msgs j).respLen.toNat < 256 by omega), ok_bind, pure_eq, Except.ok.injEq, Prod.mk.injEq] at h
      obtain ⟨rfl, rfl⟩ := h
      refine ⟨rfl, rfl, hrx.symm, rfl, by simp, by simp, by simp, rfl, by simp, by simp, rfl, ?_⟩
      intro i _ e _
      rw [hrx] at e
      cases e
      exact setMsg_same _ _ _

theorem effect_nop (s : Master) : Effect s s .poll [] :=
  ⟨rfl, rfl, rfl, rfl, by simp, by simp, by simp, rfl, by simp, by simp, rfl, fun _ _ _ _ => rfl⟩

theorem bind_ok {α β : Type} {x : C α} {f : α → C β} {b : β} (h : (x >>= f) = .ok b) : ∃ a, x = .ok a ∧ f a = .ok b := by
  cases x with
  | error e => cases h
  | ok a => exact ⟨a, rfl, h⟩

theorem processEnd_st {cfg : Config} {s s' : Master} (h : masterProcessEnd cfg s = .ok s') : s'.st = .idle := by
  unfold masterProcessEnd at h
  cases hp : s.freeQ.push cfg.queueItems s.msgBuf with
  | error e => rw [hp] at h; cases h
  | ok x => rw [hp] at h; simp only [ok_bind, pure_eq, Except.ok.injEq] at h; subst h; rfl

/-- The current transaction of a non idle master. -/
theorem MInv.curIs {cfg : Config} {s : Master} {g : Ghost} (h : MInv cfg s g) (hs : s.st ≠ .idle) : ∃ i r c, g.cur = some (i, r, c) ∧ CurIs s i r := by
  have hcur := h.cur
  cases hc : g.cur with
  | none => exact absurd (h.idle_iff.2 hc) hs
  | some x =>
    obtain ⟨i, r, c⟩ := x
    rw [hc] at hcur
    exact ⟨i, r, c, rfl, hcur.1, hcur.2.1, hcur.2.2.1, hcur.2.2.2.1⟩

theorem CurIs.send {s : Master} {i : Nat} {r : MReq} (tr : MTrace) {cfg : Config} (h : CurIs s i r) (hs : s.st = .transmitting)
    (ht : s.txf = .set) : HInv cfg (tr ++ [sent r]) s := by
  unfold HInv
  rw [hs]
  exact ⟨i, r, tr, [], h, rfl, rfl, by simp [ht], fun e => (happened_nil e).elim⟩

theorem frameError_st {cfg : Config} {s s' : Master} {o : List MOut} (h : masterFrameError cfg s = .ok (s', o)) :
    s'.st = .idle ∨ s'.st = .repeatRequest := by
  unfold masterFrameError at h
  simp only at h
  split at h
  · cases hc : clearRespLen { s with repeatCnt := s.repeatCnt + 1 } with
    | error e => rw [hc] at h; cases h
    | ok x => rw [hc] at h; simp only [ok_bind, pure_eq, Except.ok.injEq, Prod.mk.injEq] at h; right; rw [← h.1]
  · cases hc : masterCommReport { s with repeatCnt := s.repeatCnt + 1 } .frame with
    | error e => rw [hc] at h; cases h
    | ok x =>
      rw [hc] at h
      simp only [ok_bind] at h
      cases hp : masterProcessEnd cfg { s with repeatCnt := s.repeatCnt + 1 } with
      | error e => rw [hp] at h; cases h
      | ok y =>
        rw [hp] at h
        simp only [ok_bind, pure_eq, Except.ok.injEq, Prod.mk.injEq] at h
        left; rw [← h.1]; exact processEnd_st hp

theorem crcError_st {cfg : Config} {s s' : Master} {o : List MOut} (h : masterCrcError cfg s = .ok (s', o)) :
    s'.st = .idle ∨ s'.st = .repeatRequest := by
  unfold masterCrcError at h
  simp only at h
  split at h
  · cases hc : clearRespLen { s with repeatCnt := s.repeatCnt + 1 } with
    | error e => rw [hc] at h; cases h
    | ok x => rw [hc] at h; simp only [ok_bind, pure_eq, Except.ok.injEq, Prod.mk.injEq] at h; right; rw [← h.1]
  · cases hc : masterCommReport { s with repeatCnt := s.repeatCnt + 1 } .crc with
    | error e => rw [hc] at h; cases h
    | ok x =>
      rw [hc] at h
      simp only [ok_bind] at h
      cases hp : masterProcessEnd cfg { s with repeatCnt := s.repeatCnt + 1 } with
      | error e => rw [hp] at h; cases h
      | ok y =>
        rw [hp] at h
        simp only [ok_bind, pure_eq, Except.ok.injEq, Prod.mk.injEq] at h
        left; rw [← h.1]; exact processEnd_st hp

theorem masterCorrect_st {cfg : Config} {s s' : Master} {o : List MOut} (h : masterCorrect cfg s = .ok (s', o)) :
    s'.st = .idle := by
  unfold masterCorrect at h
  obtain ⟨ev, -, h⟩ := bind_ok h
  obtain ⟨y, hp, h⟩ := bind_ok h
  cases h
  exact processEnd_st hp

theorem HInv.idle {cfg : Config} {tr : MTrace} {s : Master} (h : s.st = .idle ∨ s.st = .repeatRequest) : HInv cfg tr s := by
  unfold HInv
  rcases h with h | h <;> rw [h] <;> trivial

/-- A poll in the state `received`. -/
theorem received_hist {cfg : Config} {tr : MTrace} {s s' : Master} {o : List MOut} (h : HInv cfg tr s)
    (hr : masterReceived cfg s = .ok (s', o)) : HInv cfg (tr ++ [(.poll, o)]) s' := by
  unfold masterReceived at hr
  split at hr
  · exact HInv.idle (frameError_st hr)
  split at hr
  · exact HInv.idle (crcError_st hr)
  split at hr
  · exact HInv.idle (.inl (masterCorrect_st hr))
  cases hr
  exact h.effect (effect_nop s)

theorem poll_hist {cfg : Config} (hw : cfg.MWF) {tr : MTrace} {s s' : Master} {g : Ghost} {o : List MOut} (hi : MInv cfg s g)
    (h : HInv cfg tr s) (hr : masterPoll cfg s = .ok (s', o)) : HInv cfg (tr ++ [(.poll, o)]) s' := by
  cases hs : s.st with
  | idle =>
    cases hp : g.pend with
    | nil =>
      rw [poll_idle_nop hi hs hp] at hr
      cases hr
      exact h.effect (effect_nop s)
    | cons r rest =>
      obtain ⟨s2, i, k1, k2, k3, k4, k5, k6, k7, -⟩ := poll_idle_send hw hi hs hp
      rw [k1] at hr
      cases hr
      exact CurIs.send tr ⟨k4, k5, k6, k7⟩ k2 k3
  | repeatRequest =>
    obtain ⟨i, r, c, hc, h1⟩ := hi.curIs (by simp [hs])
    unfold masterPoll at hr
    rw [hs] at hr
    simp only [send_inv hi.drv hi.data h1.1 h1.2.2.1] at hr
    cases hr
    exact CurIs.send tr ⟨h1.1, rfl, h1.2.2⟩ rfl rfl
  | transmitting =>
    unfold masterPoll at hr
    rw [hs] at hr
    simp only [masterTransmitting] at hr
    split at hr
    · rename_i ht
      unfold HInv at h
      rw [hs] at h
      obtain ⟨i, r, a, b, h1, h2, h3, h4, h5⟩ := h
      rw [clearRespLen_ok h1.1] at hr
      simp only [ok_bind, pure_eq, Except.ok.injEq, Prod.mk.injEq] at hr
      obtain ⟨rfl, rfl⟩ := hr
      refine ⟨i, r, a, b, [], ⟨h1.1, h1.2.1, ?_, h1.2.2.2⟩, by simp [h2], h3, rfl, h4 ht, ?_, by simp [ticks, tickCount], ?_⟩
      · exact (SameReq.set s.msgs i { s.msgs i with respLen := 0 } rfl rfl).holds h1.2.2.1
      · intro e
        rw [happened_append, happened_cons] at e
        rcases e with e | e | e
        · exact h5 e
        · cases e
        · exact (happened_nil e).elim
      · simp only [setMsg_same]
        exact List.nil_suffix
    · cases hr
      exact h.effect (effect_nop s)
  | waiting =>
    unfold masterPoll at hr
    rw [hs] at hr
    simp only [masterWaiting] at hr
    split at hr
    · unfold HInv at h
      rw [hs] at h
      obtain ⟨i, r, a, b, d, h1, h2, h3, h4, h5, h6, h7, h8⟩ := h
      rw [masterRecv_eq h1.1 hi.data h1.2.2.1] at hr
      simp only [Except.ok.injEq, Prod.mk.injEq] at hr
      obtain ⟨hr, rfl⟩ := hr
      split at hr
      · subst hr
        unfold HInv
        simp only [hs]
        refine ⟨i, r, a, b, d ++ [silentPoll], ⟨h1.1, h1.2.1, ?_, h1.2.2.2⟩, by simp [h2], h3, by rw [outs_append, h4]; rfl, h5, ?_, ?_, ?_⟩
        · exact (SameReq.set s.msgs i { s.msgs i with respLen := 0 } rfl rfl).holds h1.2.2.1
        · intro e
          rw [show b ++ silentPoll :: (d ++ [silentPoll]) = (b ++ silentPoll :: d) ++ [silentPoll] by simp, happened_append, happened_cons] at e
          rcases e with e | e | e
          · exact h6 e
          · cases e
          · exact (happened_nil e).elim
        · rw [ticks_append]
          exact h7
        · simp only [setMsg_same]
          exact List.nil_suffix
      · rename_i hid
        have hlen := (s.msgs i).respLen.isLt
        have main : ∀ s2 : Master, s2.st = .received → s2.msgBuf = s.msgBuf → s2.rxTarget = s.rxTarget → s2.msgs = s.msgs →
            s2.ferr = s.ferr → s2.t35 = .cleared → (s2.crcf = .cleared → crc16 ((s.msgs i).resp.bytes 0 (s.msgs i).respLen.toNat) = 0) →
            HInv cfg (tr ++ [silentPoll]) s2 := by
          intro s2 q1 q2 q3 q4 q5 q6 q7
          unfold HInv
          rw [q1]
          refine ⟨i, r, a, b, d, [], (s.msgs i).resp.bytes 0 (s.msgs i).respLen.toNat, ⟨q2.trans h1.1, q3.trans h1.2.1, by rw [q4]; exact h1.2.2.1, h1.2.2.2⟩,
            by simp [h2], h3, h4, rfl, h5, ?_, by simp [q6], h8, by simp; omega, ?_, ?_, ?_, ?_, ?_⟩
          · intro e
            rw [show b ++ silentPoll :: (d ++ [silentPoll]) = (b ++ silentPoll :: d) ++ [silentPoll] by simp, happened_append, happened_cons] at e
            rw [q5]
            rcases e with e | e | e
            · exact h6 e
            · cases e
            · exact (happened_nil e).elim
          · intro e
            have hcrc := (crc16_eq_zero_iff _).1 (q7 e)
            refine ⟨hcrc, ?_⟩
            obtain ⟨body, hb⟩ := hcrc
            have hl := congrArg List.length hb
            simp at hl
            rw [List.head?_eq_getElem?, List.getElem?_eq_getElem (by simp; omega)]
            simp only [Buf.bytes_getElem]
            rw [Classical.not_not.1 hid]
          · intro _; rw [q4]; simp [rxBytes]
          · intro _; rw [q4]; simp
          · intro hne
            have hl : 0 < (s.msgs i).respLen.toNat := by
              rcases Nat.eq_zero_or_pos (s.msgs i).respLen.toNat with h0 | h0
              · rw [h0] at hne; exact absurd rfl hne
              · exact h0
            rw [List.head?_eq_getElem?, List.getElem?_eq_getElem (by simpa using hl)]
            simp only [Buf.bytes_getElem]
            rw [Classical.not_not.1 hid]
          · intro _; rw [q4]; exact (Classical.not_not.1 hid).symm
        split at hr
        · subst hr
          exact main _ rfl rfl rfl rfl rfl rfl (by simp)
        · rename_i hcrc
          subst hr
          exact main _ rfl rfl rfl rfl rfl rfl (fun _ => Classical.not_not.1 hcrc)
    · split at hr
      · cases ht : masterTimeoutReport s with
        | error e => rw [ht] at hr; cases hr
        | ok ev =>
          rw [ht] at hr
          simp only [ok_bind] at hr
          cases hp : masterProcessEnd cfg s with
          | error e => rw [hp] at hr; cases hr
          | ok y =>
            rw [hp] at hr
            simp only [ok_bind, pure_eq, Except.ok.injEq, Prod.mk.injEq] at hr
            obtain ⟨rfl, rfl⟩ := hr
            exact HInv.idle (.inl (processEnd_st hp))
      · cases hr
        exact h.effect (effect_nop s)
  | received =>
    unfold masterPoll at hr
    rw [hs] at hr
    exact received_hist h hr

/-- The history invariant holds along every run. -/
theorem masterRun_hist {cfg : Config} (hw : cfg.MWF) {ops : List MOp} (ho : OpsOk ops) {s s' : Master} {g : Ghost}
    {tr0 tr : MTrace} (hi : MInv cfg s g) (h : HInv cfg tr0 s) (hr : masterRun cfg s ops = .ok (s', tr)) :
    HInv cfg (tr0 ++ tr) s' := by
  induction ops generalizing s g tr0 tr with
  | nil => cases hr; simpa using h
  | cons op ops ih =>
    simp only [masterRun] at hr
    cases h1 : masterStep cfg s op with
    | error e => rw [h1] at hr; cases hr
    | ok x =>
      obtain ⟨s1, o⟩ := x
      rw [h1] at hr
      simp only [ok_bind] at hr
      cases h2 : masterRun cfg s1 ops with
      | error e => rw [h2] at hr; cases hr
      | ok y =>
        obtain ⟨s2, t2⟩ := y
        rw [h2] at hr
        simp only [ok_bind, pure_eq, Except.ok.injEq, Prod.mk.injEq] at hr
        obtain ⟨rfl, rfl⟩ := hr
        have ho1 := ho op (by simp)
        have ho2 : OpsOk ops := fun o hm => ho o (by simp [hm])
        rcases masterStep_inv hw hi op ho1.1 ho1.2 with ⟨s1', o', g', k1, k2, -⟩ | ⟨-, k1, -⟩
        · rw [h1] at k1
          cases k1
          have hstep : HInv cfg (tr0 ++ [(op, o)]) s1 := by
            by_cases hp : op = .poll
            · subst hp; exact poll_hist hw hi h h1
            · exact h.effect (masterStep_effect hw hi hp ho1.1 h1)
          have := ih ho2 k2 hstep h2
          simpa using this
        · rw [h1] at k1; cases k1

theorem MInv.fresh_hist {cfg : Config} {s : Master} (h : MInv cfg s (Ghost.fresh cfg)) (tr : MTrace) : HInv cfg tr s :=
  HInv.idle (.inl (h.idle_iff.2 rfl))

end Modbus
