import Verif.Proofs.Callbacks

/-! Proof machinery for C80: whole polls and histories. -/

namespace Modbus

open Spec

/-- How a poll with request calls in its callbacks relates to ordinary operations. -/
def PollLin (cfg : Config) (s : Master) (sc : List (List MReq)) (a b : C (Master × List MOut)) : Prop :=
  (∃ u, a = .error u ∧ b = .error u) ∨
  ∃ s1 s2 s' o out rets, a = .ok (s1, o) ∧ b = .ok (s', out) ∧
    masterRun cfg s (((sc.take (o.countP isEventOut)).flatten).map .request) =
      .ok (s2, List.zipWith (fun r x => (MOp.request r, [x])) (sc.take (o.countP isEventOut)).flatten rets) ∧
    masterPoll cfg s2 = .ok (s', o) ∧ out.filter isRetOut = rets ∧ out.filter (fun x => !isRetOut x) = o ∧
    rets.length = ((sc.take (o.countP isEventOut)).flatten).length ∧ (cfg.queueItems = 1 → ∀ x ∈ rets, x = .ret .freeQueueEmpty)

theorem PollLin.plain {cfg : Config} {s : Master} {sc : List (List MReq)} {a : C (Master × List MOut)} (h : masterPoll cfg s = a)
    (ho : ∀ s1 o, a = .ok (s1, o) → ∀ x ∈ o, isRetOut x = false ∧ isEventOut x = false) : PollLin cfg s sc a a := by
  cases a with
  | error u => exact .inl ⟨u, rfl, rfl⟩
  | ok y =>
    obtain ⟨s1, o⟩ := y
    have h0 := ho s1 o rfl
    have hc : o.countP isEventOut = 0 := List.countP_eq_zero.2 (fun x hx => by rw [(h0 x hx).2]; decide)
    refine .inr ⟨s1, s, s1, o, o, [], rfl, rfl, by rw [hc]; rfl, h, ?_, ?_, by rw [hc]; rfl, by simp⟩
    · exact List.filter_eq_nil_iff.2 (fun x hx => by rw [(h0 x hx).1]; decide)
    · exact List.filter_eq_self.2 (fun x hx => by rw [(h0 x hx).1]; decide)

theorem events_count (evs : List MEvent) : (evs.map MOut.event).countP isEventOut = evs.length := by
  induction evs with
  | nil => rfl
  | cons e es ih => rw [List.map_cons, List.countP_cons, ih]; rfl

/-- From the middle of a poll to its end. -/
theorem PollLin.of_mid {cfg : Config} {s : Master} {sc : List (List MReq)} {i : Nat} {cur : Option (Nat × MReq × Nat)} {evs : List MEvent} {x : CbState}
    (h : MidPoll cfg i s cur sc evs x) {s1 s' : Master} {a b : C (Master × List MOut)} (ha : a = .ok (s1, evs.map .event)) (hb : b = .ok (s', x.out))
    (hp : masterPoll cfg x.lib = .ok (s', evs.map .event)) : PollLin cfg s sc a b := by
  obtain ⟨-, rets, hm, hv⟩ := h
  refine .inr ⟨s1, x.lib, s', evs.map .event, x.out, rets, ha, hb, ?_, hp, hv.rets, hv.others, ?_, hm.full⟩
  · rw [events_count]; exact hm.run
  · rw [events_count]; exact hm.len

theorem mid_start {cfg : Config} {s : Master} {g : Ghost} (h : MInv cfg s g) (i : Nat) (sc : List (List MReq)) :
    MidPoll cfg i s g.cur sc [] { lib := s, script := calls sc, out := [] } :=
  ⟨rfl, [], ⟨rfl, rfl, by simp, KeptBy.rfl' _ _, ⟨g, h, rfl⟩, by simp⟩, rfl, rfl⟩

/-- What a poll looks at is the same before and after request calls. -/
theorem KeptBy.fields {i : Nat} {s s' : Master} (h : KeptBy i s s') : s'.st = s.st ∧ s'.drv = s.drv ∧ s'.dataSet = s.dataSet ∧ s'.msgBuf = s.msgBuf ∧
    s'.timer = s.timer ∧ s'.repeatCnt = s.repeatCnt ∧ s'.t15 = s.t15 ∧ s'.t35 = s.t35 ∧ s'.ferr = s.ferr ∧ s'.crcf = s.crcf := by
  rw [h.1]; exact ⟨rfl, rfl, rfl, rfl, rfl, rfl, rfl, rfl, rfl, rfl⟩

theorem MidPoll.kept {cfg : Config} {s : Master} {sc : List (List MReq)} {i : Nat} {cur : Option (Nat × MReq × Nat)} {evs : List MEvent} {x : CbState}
    (h : MidPoll cfg i s cur sc evs x) : KeptBy i s x.lib := by obtain ⟨-, rets, h1, -⟩ := h; exact h1.kept

theorem MidPoll.inv {cfg : Config} {s : Master} {sc : List (List MReq)} {i : Nat} {cur : Option (Nat × MReq × Nat)} {evs : List MEvent} {x : CbState}
    (h : MidPoll cfg i s cur sc evs x) : ∃ g, MInv cfg x.lib g ∧ g.cur = cur := by obtain ⟨-, rets, h1, -⟩ := h; exact h1.inv

theorem end_ok {cfg : Config} (hw : cfg.MWF) {s : Master} {g : Ghost} (h : MInv cfg s g) {i c : Nat} {r : MReq} (hc : g.cur = some (i, r, c)) :
    ∃ s', masterProcessEnd cfg s = .ok s' := by
  obtain ⟨s', h1, -⟩ := processEnd_inv hw h hc rfl rfl rfl rfl rfl rfl h.flags
  exact ⟨s', h1⟩

theorem end_repeat (cfg : Config) (s : Master) (n : U8) : masterProcessEnd cfg { s with repeatCnt := n } = masterProcessEnd cfg s := rfl

theorem appCalls_repeat {cfg : Config} (n : U8) : ∀ (rs : List MReq) {s s' : Master} {o : List MOut}, appCalls cfg s (rs.map .request) = .ok (s', o) →
    appCalls cfg { s with repeatCnt := n } (rs.map .request) = .ok ({ s' with repeatCnt := n }, o) := by
  intro rs
  induction rs with
  | nil => intro s s' o h; cases h; rfl
  | cons r rs ih =>
    intro s s' o h
    simp only [List.map_cons, appCalls] at h ⊢
    obtain ⟨⟨c1, s1⟩, h1, h⟩ := bind_ok h
    obtain ⟨⟨s2, o2⟩, h2, h⟩ := bind_ok h
    simp only [pure_eq, Except.ok.injEq, Prod.mk.injEq] at h
    rw [genReq_repeat n h1]
    simp only [ok_bind, ih h2, pure_eq, h.1, h.2]

/-- The timeout branch and the two error branches: one callback, then the end of the transaction. -/
theorem one_callback {cfg : Config} (hw : cfg.MWF) {s : Master} {g : Ghost} (h : MInv cfg s g) {i c : Nat} {r : MReq} (hc : g.cur = some (i, r, c))
    {sc : List (List MReq)} (hsc : ScriptOk sc) (e : MEvent) (n : U8) {a b : C (Master × List MOut)}
    (ha : a = (do let s' ← masterProcessEnd cfg s; return (s', [.event e])))
    (hb : b = (do let x ← (do let x ← callback cfg e { lib := { s with repeatCnt := n }, script := calls sc, out := [] }; processEndCb cfg x); return (x.lib, x.out)))
    (hp : ∀ s2, KeptBy i s s2 → masterPoll cfg s2 = (do let s' ← masterProcessEnd cfg s2; return (s', [.event e]))) : PollLin cfg s sc a b := by
  have hm := mid_start h i sc
  rw [hc] at hm
  obtain ⟨x, k1, k2⟩ := callback_mid hw hsc hm e
  obtain ⟨s1, e1⟩ := end_ok hw h hc
  obtain ⟨g2, i2, c2⟩ := k2.inv
  obtain ⟨s', e2⟩ := end_ok hw i2 c2
  have k1' : callback cfg e { lib := { s with repeatCnt := n }, script := calls sc, out := [] } = .ok { x with lib := { x.lib with repeatCnt := n } } := by
    unfold callback at k1 ⊢
    obtain ⟨⟨s3, o3⟩, h3, k1⟩ := bind_ok k1
    simp only [pure_eq, Except.ok.injEq] at k1
    have hd : (calls sc).headD [] = (sc.headD []).map .request := by cases sc <;> rfl
    have h3' : appCalls cfg s ((sc.headD []).map .request) = .ok (s3, o3) := by rw [← hd]; exact h3
    show (do let (s, o) ← appCalls cfg { s with repeatCnt := n } ((calls sc).headD []); return _) = _
    rw [hd, appCalls_repeat n _ h3', ← k1]
    rfl
  refine PollLin.of_mid k2 (s1 := s1) (s' := s') ?_ ?_ ?_
  · rw [ha, e1]; rfl
  · rw [hb, k1']
    simp only [ok_bind, processEndCb]
    rw [end_repeat, e2]
    rfl
  · rw [hp x.lib k2.kept, e2]; rfl

theorem masterRecv_silent {s s' : Master} {o : List MOut} (h : masterRecv s = .ok (s', o)) : o = [] := by
  unfold masterRecv at h
  obtain ⟨m, -, h⟩ := bind_ok h
  obtain ⟨id, -, h⟩ := bind_ok h
  obtain ⟨r, -, h⟩ := bind_ok h
  split at h
  · simp only [pure_eq, Except.ok.injEq, Prod.mk.injEq] at h; exact h.2.symm
  · split at h
    · obtain ⟨s2, -, h⟩ := bind_ok h
      simp only [pure_eq, Except.ok.injEq, Prod.mk.injEq] at h; exact h.2.symm
    · simp only [pure_eq, Except.ok.injEq, Prod.mk.injEq] at h; exact h.2.symm

theorem masterSend_out {s s' : Master} {o : List MOut} (h : masterSend s = .ok (s', o)) : ∃ b, o = [.send b] := by
  unfold masterSend at h
  split at h
  · cases h
  · split at h
    · cases h
    · split at h
      · cases h
      · simp only [Except.ok.injEq, Prod.mk.injEq] at h; exact ⟨_, h.2.symm⟩

theorem curMsg_kept {i : Nat} {s s' : Master} (h : KeptBy i s s') (hm : s.msgBuf = some i) : curMsg s' = curMsg s := by
  obtain ⟨-, -, h3, h4, -⟩ := h.fields
  unfold curMsg
  rw [h4, hm, h3]
  simp only [h.2]

theorem timeout_kept {i : Nat} {s s' : Master} (h : KeptBy i s s') (hm : s.msgBuf = some i) : masterTimeoutReport s' = masterTimeoutReport s := by
  unfold masterTimeoutReport
  rw [curMsg_kept h hm]

theorem comm_kept {i : Nat} {s s' : Master} (h : KeptBy i s s') (hm : s.msgBuf = some i) (n : U8) (e : RespErr) :
    masterCommReport { s' with repeatCnt := n } e = masterCommReport { s with repeatCnt := n } e := by
  have : curMsg { s' with repeatCnt := n } = curMsg { s with repeatCnt := n } := show curMsg s' = curMsg s from curMsg_kept h hm
  unfold masterCommReport
  rw [this]

theorem poll_callbacks {cfg : Config} (hw : cfg.MWF) {s : Master} {g : Ghost} (h : MInv cfg s g) {sc : List (List MReq)} (hsc : ScriptOk sc) :
    PollLin cfg s sc (masterPoll cfg s) (masterPollCb cfg s (calls sc)) := by
  have hcur : s.st ≠ .idle → ∃ i r c, g.cur = some (i, r, c) ∧ s.msgBuf = some i ∧ Holds (s.msgs i) r := by
    intro hst
    have hc := h.cur
    cases hg : g.cur with
    | none => rw [hg] at hc; exact absurd hc.1 hst
    | some x => obtain ⟨i, r, c⟩ := x; rw [hg] at hc; exact ⟨i, r, c, rfl, hc.1, hc.2.2.1⟩
  cases hst : s.st with
  | idle =>
    unfold masterPollCb; rw [hst]; simp only
    refine .plain rfl ?_
    intro s1 o ho
    unfold masterPoll at ho
    rw [hst] at ho
    simp only [masterIdle] at ho
    split at ho
    · obtain ⟨⟨y, tq⟩, -, ho⟩ := bind_ok ho
      obtain ⟨b, rfl⟩ := masterSend_out ho
      intro z hz; simp only [List.mem_singleton] at hz; rw [hz]; exact ⟨rfl, rfl⟩
    · simp only [Except.ok.injEq, Prod.mk.injEq] at ho; rw [← ho.2]; simp
  | repeatRequest =>
    unfold masterPollCb; rw [hst]; simp only
    refine .plain rfl ?_
    intro s1 o ho
    unfold masterPoll at ho
    rw [hst] at ho
    obtain ⟨b, rfl⟩ := masterSend_out ho
    intro z hz; simp only [List.mem_singleton] at hz; rw [hz]; exact ⟨rfl, rfl⟩
  | transmitting =>
    unfold masterPollCb; rw [hst]; simp only
    refine .plain rfl ?_
    intro s1 o ho
    unfold masterPoll at ho
    rw [hst] at ho
    simp only [masterTransmitting] at ho
    split at ho
    · obtain ⟨s2, -, ho⟩ := bind_ok ho
      simp only [pure_eq, Except.ok.injEq, Prod.mk.injEq] at ho; rw [← ho.2]; simp
    · simp only [Except.ok.injEq, Prod.mk.injEq] at ho; rw [← ho.2]; simp
  | waiting =>
    obtain ⟨i, r, c, hc, hm, hh⟩ := hcur (by rw [hst]; decide)
    have hp : ∀ s2, s2.st = .waiting → masterPoll cfg s2 = masterWaiting cfg s2 := fun s2 h2 => by unfold masterPoll; rw [h2]
    have hpc : masterPollCb cfg s (calls sc) = (do let x ← masterWaitingCb cfg { lib := s, script := calls sc, out := [] }; return (x.lib, x.out)) := by
      unfold masterPollCb; rw [hst]
    by_cases h15 : s.t15 = .set
    · have e1 : masterPoll cfg s = masterRecv s := by rw [hp s hst]; unfold masterWaiting; rw [if_pos h15]
      have e2 : masterPollCb cfg s (calls sc) = masterRecv s := by
        rw [hpc]; unfold masterWaitingCb; rw [if_pos h15]
        cases hr : masterRecv s with
        | error u => rfl
        | ok y => obtain ⟨s1, o⟩ := y; rw [masterRecv_silent hr]; rfl
      rw [e1, e2]
      refine .plain e1 ?_
      intro s1 o ho
      rw [masterRecv_silent ho]; simp
    · by_cases ht : s.timer = 1
      · have hrep := timeoutReport_eq hm h.data hh
        have hpoll : ∀ s2, KeptBy i s s2 → masterPoll cfg s2 = (do
            let s' ← masterProcessEnd cfg s2
            return (s', [.event (.timeoutErr { slave := reqSlave r, fc := (s.msgs i).resp 1, adr := reqAdr r, qty := reqField r, err := .timeout })])) := by
          intro s2 hk
          obtain ⟨f1, f2, f3, f4, f5, f6, f7, f8, f9, f10⟩ := hk.fields
          rw [hp s2 (by rw [f1, hst])]
          unfold masterWaiting
          rw [if_neg (by rw [f7]; exact h15), if_pos (by rw [f5]; exact ht), timeout_kept hk hm, hrep]
          rfl
        refine one_callback hw h hc hsc _ s.repeatCnt (hpoll s (KeptBy.rfl' _ _)) ?_ hpoll
        rw [hpc]; unfold masterWaitingCb
        rw [if_neg h15, if_pos ht]
        unfold masterTimeoutCb
        simp only
        rw [hrep]
        rfl
      · have e1 : masterPoll cfg s = .ok (s, []) := by rw [hp s hst]; unfold masterWaiting; rw [if_neg h15, if_neg ht]
        have e2 : masterPollCb cfg s (calls sc) = .ok (s, []) := by
          rw [hpc]; unfold masterWaitingCb; rw [if_neg h15, if_neg ht]; rfl
        rw [e1, e2]
        refine .plain e1 ?_
        intro s1 o ho
        cases ho; simp
  | received =>
    obtain ⟨i, r, c, hc, hm, hh⟩ := hcur (by rw [hst]; decide)
    have hp : ∀ s2, s2.st = .received → masterPoll cfg s2 = masterReceived cfg s2 := fun s2 h2 => by unfold masterPoll; rw [h2]
    have hpc : masterPollCb cfg s (calls sc) = (do let x ← masterReceivedCb cfg { lib := s, script := calls sc, out := [] }; return (x.lib, x.out)) := by
      unfold masterPollCb; rw [hst]
    by_cases h1 : s.ferr = .set ∧ s.t35 = .set
    · by_cases hn : (s.repeatCnt + 1).toNat ≤ cfg.repeatMax
      · have e1 : masterPoll cfg s = .ok ({ s with repeatCnt := s.repeatCnt + 1, msgs := setMsg s.msgs i { s.msgs i with respLen := 0 }, st := .repeatRequest, ferr := .cleared }, []) := by
          rw [hp s hst]; unfold masterReceived; rw [if_pos h1]
          unfold masterFrameError
          simp only [if_pos hn]
          rw [clearRespLen_ok (s := { s with repeatCnt := s.repeatCnt + 1 }) hm]
          rfl
        have e2 : masterPollCb cfg s (calls sc) = masterPoll cfg s := by
          rw [e1, hpc]; unfold masterReceivedCb; rw [if_pos h1]
          unfold masterFrameErrorCb
          simp only [if_pos hn]
          rw [clearRespLen_ok (s := { s with repeatCnt := s.repeatCnt + 1 }) hm]
          rfl
        rw [e2, e1]
        refine .plain e1 ?_
        intro s1 o ho
        cases ho; simp
      · have hrep := commReport_eq (s := { s with repeatCnt := s.repeatCnt + 1 }) hm h.data .frame
        have hpoll : ∀ s2, KeptBy i s s2 → masterPoll cfg s2 = (do
            let s' ← masterProcessEnd cfg s2
            return (s', [.event (.commErr { slave := (s.msgs i).resp 0, fc := (s.msgs i).resp 1 &&& 0x7F, adr := 0, qty := 0, err := .frame })])) := by
          intro s2 hk
          obtain ⟨f1, f2, f3, f4, f5, f6, f7, f8, f9, f10⟩ := hk.fields
          rw [hp s2 (by rw [f1, hst])]
          unfold masterReceived
          rw [if_pos (by rw [f8, f9]; exact h1)]
          unfold masterFrameError
          simp only [f6, if_neg hn]
          rw [comm_kept hk hm, hrep]
          rfl
        refine one_callback hw h hc hsc _ (s.repeatCnt + 1) (hpoll s (KeptBy.rfl' _ _)) ?_ hpoll
        rw [hpc]; unfold masterReceivedCb
        rw [if_pos h1]
        unfold masterFrameErrorCb
        simp only [if_neg hn]
        rw [hrep]
        rfl
    · by_cases h2 : s.crcf = .set ∧ s.t35 = .set
      · by_cases hn : (s.repeatCnt + 1).toNat ≤ cfg.repeatMax
        · have e1 : masterPoll cfg s = .ok ({ s with repeatCnt := s.repeatCnt + 1, msgs := setMsg s.msgs i { s.msgs i with respLen := 0 }, st := .repeatRequest, crcf := .cleared }, []) := by
            rw [hp s hst]; unfold masterReceived; rw [if_neg h1, if_pos h2]
            unfold masterCrcError
            simp only [if_pos hn]
            rw [clearRespLen_ok (s := { s with repeatCnt := s.repeatCnt + 1 }) hm]
            rfl
          have e2 : masterPollCb cfg s (calls sc) = masterPoll cfg s := by
            rw [e1, hpc]; unfold masterReceivedCb; rw [if_neg h1, if_pos h2]
            unfold masterCrcErrorCb
            simp only [if_pos hn]
            rw [clearRespLen_ok (s := { s with repeatCnt := s.repeatCnt + 1 }) hm]
            rfl
          rw [e2, e1]
          refine .plain e1 ?_
          intro s1 o ho
          cases ho; simp
        · have hrep := commReport_eq (s := { s with repeatCnt := s.repeatCnt + 1 }) hm h.data .crc
          have hpoll : ∀ s2, KeptBy i s s2 → masterPoll cfg s2 = (do
              let s' ← masterProcessEnd cfg s2
              return (s', [.event (.commErr { slave := (s.msgs i).resp 0, fc := (s.msgs i).resp 1 &&& 0x7F, adr := 0, qty := 0, err := .crc })])) := by
            intro s2 hk
            obtain ⟨f1, f2, f3, f4, f5, f6, f7, f8, f9, f10⟩ := hk.fields
            rw [hp s2 (by rw [f1, hst])]
            unfold masterReceived
            rw [if_neg (by rw [f8, f9]; exact h1), if_pos (by rw [f8, f10]; exact h2)]
            unfold masterCrcError
            simp only [f6, if_neg hn]
            rw [comm_kept hk hm, hrep]
            rfl
          refine one_callback hw h hc hsc _ (s.repeatCnt + 1) (hpoll s (KeptBy.rfl' _ _)) ?_ hpoll
          rw [hpc]; unfold masterReceivedCb
          rw [if_neg h1, if_pos h2]
          unfold masterCrcErrorCb
          simp only [if_neg hn]
          rw [hrep]
          rfl
      · by_cases h3 : s.ferr = .cleared ∧ s.crcf = .cleared ∧ s.t35 = .set
        · have hpoll : ∀ s2, KeptBy i s s2 → masterPoll cfg s2 = (do
              let evs ← evOnly (readSlaveResp s.dataSet (s.msgs i))
              let s' ← masterProcessEnd cfg s2
              return (s', evs.map .event)) := by
            intro s2 hk
            obtain ⟨f1, f2, f3, f4, f5, f6, f7, f8, f9, f10⟩ := hk.fields
            rw [hp s2 (by rw [f1, hst])]
            unfold masterReceived
            rw [if_neg (by rw [f8, f9]; exact h1), if_neg (by rw [f8, f10]; exact h2), if_pos (by rw [f8, f9, f10]; exact h3)]
            unfold masterCorrect
            rw [f4, hm]
            simp only [f3, hk.2, evOnly]
          have hm0 := mid_start h i sc
          rw [hc] at hm0
          have hcb : masterPollCb cfg s (calls sc) = (do
              let x ← readSlaveRespCb cfg i { lib := s, script := calls sc, out := [] }
              let x ← processEndCb cfg x
              return (x.lib, x.out)) := by
            rw [hpc]; unfold masterReceivedCb
            rw [if_neg h1, if_neg h2, if_pos h3]
            unfold masterCorrectCb
            simp only [hm, bind_assoc]
          rcases resp_mid hw hsc hm0 with ⟨u, k1, k2⟩ | ⟨es, x', k1, k2, k3⟩
          · exact .inl ⟨u, by rw [hpoll s (KeptBy.rfl' _ _), k1]; rfl, by rw [hcb, k2]; rfl⟩
          · rw [List.nil_append] at k3
            obtain ⟨s1, e1⟩ := end_ok hw h hc
            obtain ⟨g2, i2, c2⟩ := k3.inv
            obtain ⟨s', e2⟩ := end_ok hw i2 c2
            refine PollLin.of_mid k3 (s1 := s1) (s' := s') ?_ ?_ ?_
            · rw [hpoll s (KeptBy.rfl' _ _), k1, ok_bind, e1]; rfl
            · rw [hcb, k2, ok_bind, processEndCb, e2]; rfl
            · rw [hpoll x'.lib k3.kept, k1, ok_bind, e2]; rfl
        · have e1 : masterPoll cfg s = .ok (s, []) := by rw [hp s hst]; unfold masterReceived; rw [if_neg h1, if_neg h2, if_neg h3]
          have e2 : masterPollCb cfg s (calls sc) = .ok (s, []) := by
            rw [hpc]; unfold masterReceivedCb; rw [if_neg h1, if_neg h2, if_neg h3]; rfl
          rw [e1, e2]
          refine .plain e1 ?_
          intro s1 o ho
          cases ho; simp

end Modbus
