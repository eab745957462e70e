import Verif.Proofs.MasterPcInv

/-! The master statement by statement: an uninterrupted run of the statements of a poll is a poll, and which interrupts commute with which statements. -/

set_option linter.unusedSimpArgs false

namespace Modbus

open Spec

section
variable {cfg : Config}

/-! ### Statements in a row -/

/-- The next `n` statements, uninterrupted. -/
def miter (cfg : Config) : Nat → MasterPcDev → C (MasterPcDev × List HMOut)
  | 0, d => .ok (d, [])
  | n + 1, d => do
    let (d1, o1) ← masterStmt cfg d
    let (d2, o2) ← miter cfg n d1
    return (d2, o1 ++ o2)

theorem miter_step {n : Nat} {d d1 d2 : MasterPcDev} {o1 o2 : List HMOut} (h1 : masterStmt cfg d = .ok (d1, o1)) (h2 : miter cfg n d1 = .ok (d2, o2)) :
    miter cfg (n + 1) d = .ok (d2, o1 ++ o2) := by
  simp only [miter, h1, h2, ok_bind, pure_eq]

theorem miter_out {d : MasterPcDev} (h : d.pc = .out) : ∀ n, miter cfg n d = .ok (d, [])
  | 0 => rfl
  | n + 1 => by
    have : masterStmt cfg d = .ok (d, []) := by simp only [masterStmt, h]
    exact miter_step this (miter_out h n)

theorem miter_add {d1 d2 : MasterPcDev} {o2 : List HMOut} : ∀ {m n : Nat} {d : MasterPcDev} {o1 : List HMOut},
    miter cfg m d = .ok (d1, o1) → miter cfg n d1 = .ok (d2, o2) → miter cfg (m + n) d = .ok (d2, o1 ++ o2)
  | 0, n, d, o1, h1, h2 => by
    simp only [miter, Except.ok.injEq, Prod.mk.injEq] at h1
    obtain ⟨rfl, rfl⟩ := h1
    rw [Nat.zero_add]; exact h2
  | m + 1, n, d, o1, h1, h2 => by
    simp only [miter] at h1
    obtain ⟨⟨d3, o3⟩, h3, h1⟩ := bind_ok h1
    obtain ⟨⟨d4, o4⟩, h4, h1⟩ := bind_ok h1
    simp only [pure_eq, Except.ok.injEq, Prod.mk.injEq] at h1
    obtain ⟨rfl, rfl⟩ := h1
    rw [show m + 1 + n = (m + n) + 1 by omega, List.append_assoc]
    exact miter_step h3 (miter_add h4 h2)

theorem miter_split {d2 : MasterPcDev} : ∀ {m n : Nat} {d : MasterPcDev} {o : List HMOut},
    miter cfg (m + n) d = .ok (d2, o) → ∃ d1 o1 o2, miter cfg m d = .ok (d1, o1) ∧ miter cfg n d1 = .ok (d2, o2) ∧ o = o1 ++ o2
  | 0, n, d, o, h => ⟨d, [], o, rfl, by rw [Nat.zero_add] at h; exact h, rfl⟩
  | m + 1, n, d, o, h => by
    rw [show m + 1 + n = (m + n) + 1 by omega] at h
    simp only [miter] at h
    obtain ⟨⟨d3, o3⟩, h3, h⟩ := bind_ok h
    obtain ⟨⟨d4, o4⟩, h4, h⟩ := bind_ok h
    simp only [pure_eq, Except.ok.injEq, Prod.mk.injEq] at h
    obtain ⟨rfl, rfl⟩ := h
    obtain ⟨d1, o1, o2, k1, k2, rfl⟩ := miter_split h4
    exact ⟨d1, o3 ++ o1, o2, miter_step h3 k1, k2, by rw [List.append_assoc]⟩

/-- From some number of statements on, nothing changes. -/
theorem miter_more {d d' : MasterPcDev} {o : List HMOut} {m : Nat} (h : miter cfg m d = .ok (d', o)) (hp : d'.pc = .out) (n : Nat) :
    miter cfg (m + n) d = .ok (d', o) := by
  have := miter_add h (miter_out hp n)
  rwa [List.append_nil] at this

/-! ### All statements of a poll -/

/-- A state at a position. -/
abbrev mat (a : MasterSys) (lm : Nat) (pc : MPc) (e : Bool) : MasterPcDev := ⟨⟨a, lm⟩, pc, e⟩

theorem masterProcessEnd_iter {a : MasterSys} {l : Master} (h : masterProcessEnd cfg a.lib = .ok l) (lm : Nat) (e : Bool) :
    miter cfg 3 (mat a lm .enCnt e) = .ok (mat { a with lib := l } lm .out e, []) := by
  simp only [masterProcessEnd] at h
  obtain ⟨⟨fq, mb⟩, h1, h⟩ := bind_ok h
  simp only [pure_eq, Except.ok.injEq] at h
  subst h
  simp only [miter, masterStmt, ok_bind, pure_eq, h1, List.append_nil]

theorem masterSend_iter {a a' : MasterSys} {l : Master} {o : List MOut} {oo : List HMOut} (hs : masterSend a.lib = .ok (l, o))
    (h : masterSends { a with lib := l } o = .ok (a', oo)) (e : Bool) :
    ∃ e', miter cfg 10 (mat a a.txMsg .snCur e) = .ok (mat a' a'.txMsg .out e', oo) := by
  obtain ⟨l0, tm, cu, la, g, r⟩ := a
  simp only [masterSend] at hs
  split at hs
  · cases hs
  · rename_i hd
    split at hs
    · cases hs
    · rename_i i hi
      split at hs
      · cases hs
      · rename_i hds
        simp only [Except.ok.injEq, Prod.mk.injEq] at hs
        obtain ⟨rfl, rfl⟩ := hs
        simp only [masterSends, masterUsartSend, hi] at h
        by_cases hn : 0 < (l0.msgs i).reqLen.toNat
        · rw [if_pos hn] at h
          refine ⟨true, ?_⟩
          cases hb : rd (l0.msgs i).req 0 with
          | error x => simp only [hb, error_bind] at h; cases h
          | ok b =>
            simp only [hb, ok_bind, pure_eq, Except.ok.injEq, Prod.mk.injEq] at h
            obtain ⟨rfl, rfl⟩ := h
            simp only [miter, masterStmt, ok_bind, pure_eq, masterDrvSend, if_neg hd, hi, if_neg hds, masterSendArgs, if_pos hn, hb, masterEnableRx,
              List.append_nil, List.nil_append, List.append_assoc]
        · rw [if_neg hn] at h
          refine ⟨e, ?_⟩
          simp only [ok_bind, pure_eq, Except.ok.injEq, Prod.mk.injEq] at h
          obtain ⟨rfl, rfl⟩ := h
          have h0 : (l0.msgs i).reqLen.toNat = 0 := by omega
          simp only [miter, masterStmt, ok_bind, pure_eq, masterDrvSend, if_neg hd, hi, if_neg hds, masterSendArgs, if_neg hn, masterEnableRx,
            List.append_nil, List.nil_append, List.append_assoc]
          have hz : (l0.msgs i).req.bytes 0 (l0.msgs i).reqLen.toNat = [] := by rw [h0]; rfl
          simp [hz]

theorem masterSends_event {s : MasterSys} {es : List MEvent} : masterSends s (es.map .event) = .ok (s, (es.map .event).map .lib) := by
  induction es with
  | nil => rfl
  | cons e es ih => simp only [List.map_cons, masterSends]; rw [ih]; rfl

/-- The error handlers. -/
def errPoll (cfg : Config) (x : RespErr) (l0 : Master) : C (Master × List MOut) := do
  let s := { l0 with repeatCnt := l0.repeatCnt + 1 }
  if s.repeatCnt.toNat ≤ cfg.repeatMax then
    let s ← clearRespLen s
    return (clearErr x { s with st := .repeatRequest }, [])
  else
    let e ← masterCommReport s x
    let s ← masterProcessEnd cfg s
    return (s, [MOut.event e])

theorem err_iter {l0 : Master} {tm cu la : Nat} {g r e : Bool} (x : RespErr) (s1 : Master) (o1 : List MOut) (oo : List HMOut) (aa : MasterSys)
    (h : errPoll cfg x l0 = .ok (s1, o1)) (hs : masterSends ⟨s1, tm, cu, la, g, r⟩ o1 = .ok (aa, oo)) :
    ∃ n, miter cfg n (mat ⟨l0, tm, cu, la, g, r⟩ tm (.feCnt x) e) = .ok (mat aa aa.txMsg .out e, oo) := by
  simp only [errPoll] at h
  by_cases hle : (l0.repeatCnt + 1).toNat ≤ cfg.repeatMax
  · rw [if_pos hle] at h
    obtain ⟨l1, h2, h⟩ := bind_ok h
    simp only [pure_eq, Except.ok.injEq, Prod.mk.injEq] at h
    obtain ⟨rfl, rfl⟩ := h
    simp only [masterSends, Except.ok.injEq, Prod.mk.injEq] at hs
    obtain ⟨rfl, rfl⟩ := hs
    obtain ⟨i, hi, rfl⟩ := clearRespLen_eq h2
    refine ⟨5, ?_⟩
    have hi : l0.msgBuf = some i := hi
    cases x <;> simp only [miter, masterStmt, ok_bind, pure_eq, if_pos hle, clearErr, clearRespLen, hi, List.append_nil]
  · rw [if_neg hle] at h
    obtain ⟨ev, h2, h⟩ := bind_ok h
    obtain ⟨l1, h3, h⟩ := bind_ok h
    simp only [pure_eq, Except.ok.injEq, Prod.mk.injEq] at h
    obtain ⟨rfl, rfl⟩ := h
    simp only [masterSends, ok_bind, pure_eq, Except.ok.injEq, Prod.mk.injEq] at hs
    obtain ⟨rfl, rfl⟩ := hs
    simp only [masterCommReport] at h2
    obtain ⟨m, g1, h2⟩ := bind_ok h2
    obtain ⟨a1, g2, h2⟩ := bind_ok h2
    obtain ⟨a2, g3, h2⟩ := bind_ok h2
    simp only [pure_eq, Except.ok.injEq] at h2
    subst h2
    have k1 : miter cfg 5 (mat ⟨l0, tm, cu, la, g, r⟩ tm (.feCnt x) e) = .ok (mat ⟨{ l0 with repeatCnt := l0.repeatCnt + 1 }, tm, cu, la, g, r⟩ tm .enCnt e,
        [.lib (.event (.commErr { slave := a1, fc := a2 &&& ~~~exceptionCodeMask, adr := 0, qty := 0, err := x }))]) := by
      simp only [miter, masterStmt, ok_bind, pure_eq, if_neg hle, g1, g2, g3, List.append_nil, List.nil_append]
    exact ⟨8, miter_add k1 (masterProcessEnd_iter (a := ⟨{ l0 with repeatCnt := l0.repeatCnt + 1 }, tm, cu, la, g, r⟩) h3 tm e)⟩

theorem recv_iter {l0 : Master} {tm cu la : Nat} {g r e : Bool} {m : MMsg} {id : U8} {rr : Ret} (hst : l0.st = .waiting) (ht : l0.t15 = .set)
    (h2 : curMsg l0 = .ok m) (h3 : rd m.req idxSlaveAdr = .ok id) (h4 : rtuRecv (some m.resp) m.respLen id = .ok rr) :
    miter cfg 6 (mat ⟨l0, tm, cu, la, g, r⟩ tm .enter e) = .ok (mat ⟨{ l0 with t15 := .cleared, t35 := .cleared }, tm, cu, la, g, r⟩ tm
      (if RET_ERROR_CRC = rr then .rcErrTimer else if RET_ERROR_SLAVE_ID = rr then .rcSkip else .rcOkTimer) e, []) := by
  have hm2 : curMsg { l0 with t15 := .cleared, t35 := .cleared } = .ok m := by
    simp only [curMsg] at h2 ⊢; exact h2
  have k1 : miter cfg 3 (mat ⟨l0, tm, cu, la, g, r⟩ tm .enter e) = .ok (mat ⟨l0, tm, cu, la, g, r⟩ tm (.rcT15 id) e, []) := by
    simp only [miter, masterStmt, ok_bind, pure_eq, hst, if_pos ht, h2, h3, List.append_nil]
  refine miter_add (n := 3) k1 ?_
  simp only [miter, masterStmt, ok_bind, pure_eq, List.append_nil]
  rw [show curMsg _ = _ from hm2]
  simp only [ok_bind, h4]
  rfl

set_option maxHeartbeats 1000000 in
theorem miter_poll {a a' : MasterSys} {o : List HMOut} (h : masterSysStep cfg a (.main .poll) = .ok (a', o)) (e : Bool) :
    ∃ n e', miter cfg n (mat a a.txMsg .enter e) = .ok (mat a' a'.txMsg .out e', o) := by
  simp only [masterSysStep, MOp.isMain, Bool.true_eq_false, if_false, masterStep, masterPoll] at h
  obtain ⟨⟨l, o1⟩, h1, h⟩ := bind_ok h
  have hsame : masterSends { a with lib := l } o1 = .ok (a', o) := h
  clear h
  obtain ⟨l0, tm, cu, la, g, r⟩ := a
  cases hst : l0.st <;> simp only [hst] at h1
  case idle =>
    simp only [masterIdle] at h1
    by_cases hav : l0.txQ.available = true
    · rw [if_pos hav] at h1
      obtain ⟨⟨x, tq⟩, h2, h1⟩ := bind_ok h1
      obtain ⟨e', k⟩ := masterSend_iter (cfg := cfg) (a := ⟨{ l0 with msgBuf := x, txQ := tq }, tm, cu, la, g, r⟩) h1 hsame e
      refine ⟨13, e', ?_⟩
      have k1 : miter cfg 3 (mat ⟨l0, tm, cu, la, g, r⟩ tm .enter e) = .ok (mat ⟨{ l0 with msgBuf := x, txQ := tq }, tm, cu, la, g, r⟩ tm .snCur e, []) := by
        simp only [miter, masterStmt, ok_bind, pure_eq, hst, if_pos hav, h2, List.append_nil]
      exact miter_add k1 k
    · rw [if_neg hav] at h1
      simp only [Except.ok.injEq, Prod.mk.injEq] at h1
      obtain ⟨rfl, rfl⟩ := h1
      simp only [masterSends, Except.ok.injEq, Prod.mk.injEq] at hsame
      obtain ⟨rfl, rfl⟩ := hsame
      exact ⟨2, e, by simp only [miter, masterStmt, ok_bind, pure_eq, hst, if_neg hav, List.append_nil]⟩
  case repeatRequest =>
    obtain ⟨e', k⟩ := masterSend_iter (cfg := cfg) (a := ⟨l0, tm, cu, la, g, r⟩) h1 hsame e
    refine ⟨11, e', ?_⟩
    have k1 : miter cfg 1 (mat ⟨l0, tm, cu, la, g, r⟩ tm .enter e) = .ok (mat ⟨l0, tm, cu, la, g, r⟩ tm .snCur e, []) := by
      simp only [miter, masterStmt, ok_bind, pure_eq, hst, List.append_nil]
    exact miter_add k1 k
  case transmitting =>
    simp only [masterTransmitting] at h1
    by_cases ht : l0.txf = .cleared
    · rw [if_pos ht] at h1
      obtain ⟨l1, h2, h1⟩ := bind_ok h1
      simp only [pure_eq, Except.ok.injEq, Prod.mk.injEq] at h1
      obtain ⟨rfl, rfl⟩ := h1
      simp only [masterSends, Except.ok.injEq, Prod.mk.injEq] at hsame
      obtain ⟨rfl, rfl⟩ := hsame
      exact ⟨5, e, by simp only [miter, masterStmt, ok_bind, pure_eq, hst, if_pos ht, h2, List.append_nil]⟩
    · rw [if_neg ht] at h1
      simp only [Except.ok.injEq, Prod.mk.injEq] at h1
      obtain ⟨rfl, rfl⟩ := h1
      simp only [masterSends, Except.ok.injEq, Prod.mk.injEq] at hsame
      obtain ⟨rfl, rfl⟩ := hsame
      exact ⟨2, e, by simp only [miter, masterStmt, ok_bind, pure_eq, hst, if_neg ht, List.append_nil]⟩
  case waiting =>
    simp only [masterWaiting] at h1
    by_cases ht : l0.t15 = .set
    · rw [if_pos ht] at h1
      simp only [masterRecv] at h1
      obtain ⟨m, h2, h1⟩ := bind_ok h1
      obtain ⟨id, h3, h1⟩ := bind_ok h1
      obtain ⟨rr, h4, h1⟩ := bind_ok h1
      have k1 := recv_iter (cfg := cfg) (tm := tm) (cu := cu) (la := la) (g := g) (r := r) (e := e) hst ht h2 h3 h4
      by_cases hc : RET_ERROR_CRC = rr
      · rw [if_pos hc] at h1 k1
        simp only [pure_eq, Except.ok.injEq, Prod.mk.injEq] at h1
        obtain ⟨rfl, rfl⟩ := h1
        simp only [masterSends, Except.ok.injEq, Prod.mk.injEq] at hsame
        obtain ⟨rfl, rfl⟩ := hsame
        exact ⟨9, e, miter_add (n := 3) k1 (by simp only [miter, masterStmt, ok_bind, pure_eq, List.append_nil])⟩
      · rw [if_neg hc] at h1 k1
        by_cases hd : RET_ERROR_SLAVE_ID = rr
        · rw [if_pos hd] at h1 k1
          obtain ⟨l1, h5, h1⟩ := bind_ok h1
          simp only [pure_eq, Except.ok.injEq, Prod.mk.injEq] at h1
          obtain ⟨rfl, rfl⟩ := h1
          simp only [masterSends, Except.ok.injEq, Prod.mk.injEq] at hsame
          obtain ⟨rfl, rfl⟩ := hsame
          exact ⟨7, e, miter_add (n := 1) k1 (by simp only [miter, masterStmt, ok_bind, pure_eq, h5, List.append_nil])⟩
        · rw [if_neg hd] at h1 k1
          simp only [pure_eq, Except.ok.injEq, Prod.mk.injEq] at h1
          obtain ⟨rfl, rfl⟩ := h1
          simp only [masterSends, Except.ok.injEq, Prod.mk.injEq] at hsame
          obtain ⟨rfl, rfl⟩ := hsame
          exact ⟨8, e, miter_add (n := 2) k1 (by simp only [miter, masterStmt, ok_bind, pure_eq, List.append_nil])⟩
    · rw [if_neg ht] at h1
      by_cases h1t : l0.timer = 1
      · rw [if_pos h1t] at h1
        obtain ⟨ev, h2, h1⟩ := bind_ok h1
        obtain ⟨l1, h3, h1⟩ := bind_ok h1
        simp only [pure_eq, Except.ok.injEq, Prod.mk.injEq] at h1
        obtain ⟨rfl, rfl⟩ := h1
        simp only [masterSends, ok_bind, pure_eq, Except.ok.injEq, Prod.mk.injEq] at hsame
        obtain ⟨rfl, rfl⟩ := hsame
        simp only [masterTimeoutReport] at h2
        obtain ⟨m, g1, h2⟩ := bind_ok h2
        obtain ⟨a1, g2, h2⟩ := bind_ok h2
        obtain ⟨a2, g3, h2⟩ := bind_ok h2
        obtain ⟨a3, g4, h2⟩ := bind_ok h2
        obtain ⟨a4, g5, h2⟩ := bind_ok h2
        simp only [pure_eq, Except.ok.injEq] at h2
        subst h2
        have k1 : miter cfg 8 (mat ⟨l0, tm, cu, la, g, r⟩ tm .enter e) = .ok (mat ⟨l0, tm, cu, la, g, r⟩ tm .enCnt e,
            [.lib (.event (.timeoutErr { slave := a1, fc := a4, adr := a2, qty := a3, err := .timeout }))]) := by
          simp only [miter, masterStmt, ok_bind, pure_eq, hst, if_neg ht, if_pos h1t, g1, g2, g3, g4, g5, List.append_nil, List.nil_append]
        exact ⟨11, e, miter_add k1 (masterProcessEnd_iter (a := ⟨l0, tm, cu, la, g, r⟩) h3 tm e)⟩
      · rw [if_neg h1t] at h1
        simp only [Except.ok.injEq, Prod.mk.injEq] at h1
        obtain ⟨rfl, rfl⟩ := h1
        simp only [masterSends, Except.ok.injEq, Prod.mk.injEq] at hsame
        obtain ⟨rfl, rfl⟩ := hsame
        exact ⟨3, e, by simp only [miter, masterStmt, ok_bind, pure_eq, hst, if_neg ht, if_neg h1t, List.append_nil]⟩
  case received =>
    have err := @err_iter cfg l0 tm cu la g r e
    simp only [masterReceived] at h1
    split at h1
    · rename_i hf
      simp only [masterFrameError] at h1
      obtain ⟨n, k⟩ := err .frame l o1 o a' (by rw [← h1]; rfl) hsame
      refine ⟨3 + n, e, miter_add (o1 := []) ?_ k⟩
      simp only [miter, masterStmt, ok_bind, pure_eq, hst, if_pos hf.1, if_pos hf.2, List.append_nil]
    · rename_i hf
      have pre : ∃ n, miter cfg n (mat ⟨l0, tm, cu, la, g, r⟩ tm .enter e) = .ok (mat ⟨l0, tm, cu, la, g, r⟩ tm .rvC2 e, []) := by
        by_cases h2 : l0.ferr = .set
        · have h3 : l0.t35 ≠ .set := fun h => hf ⟨h2, h⟩
          exact ⟨3, by simp only [miter, masterStmt, ok_bind, pure_eq, hst, if_pos h2, if_neg h3, List.append_nil]⟩
        · exact ⟨2, by simp only [miter, masterStmt, ok_bind, pure_eq, hst, if_neg h2, List.append_nil]⟩
      obtain ⟨n0, pre⟩ := pre
      split at h1
      · rename_i hc
        simp only [masterCrcError] at h1
        obtain ⟨n, k⟩ := err .crc l o1 o a' (by rw [← h1]; rfl) hsame
        have k2 : miter cfg 2 (mat ⟨l0, tm, cu, la, g, r⟩ tm .rvC2 e) = .ok (mat ⟨l0, tm, cu, la, g, r⟩ tm (.feCnt .crc) e, []) := by
          simp only [miter, masterStmt, ok_bind, pure_eq, hst, if_pos hc.1, if_pos hc.2, List.append_nil]
        exact ⟨n0 + (2 + n), e, miter_add pre (miter_add k2 k)⟩
      · rename_i hc
        have pre2 : ∃ n, miter cfg n (mat ⟨l0, tm, cu, la, g, r⟩ tm .rvC2 e) = .ok (mat ⟨l0, tm, cu, la, g, r⟩ tm .rvF3 e, []) := by
          by_cases h2 : l0.crcf = .set
          · have h3 : l0.t35 ≠ .set := fun h => hc ⟨h2, h⟩
            exact ⟨2, by simp only [miter, masterStmt, ok_bind, pure_eq, hst, if_pos h2, if_neg h3, List.append_nil]⟩
          · exact ⟨1, by simp only [miter, masterStmt, ok_bind, pure_eq, hst, if_neg h2, List.append_nil]⟩
        obtain ⟨n1, pre2⟩ := pre2
        have pre := miter_add pre pre2
        split at h1
        · rename_i hk
          simp only [masterCorrect] at h1
          obtain ⟨evs, h2, h1⟩ := bind_ok h1
          obtain ⟨l1, h3, h1⟩ := bind_ok h1
          simp only [pure_eq, Except.ok.injEq, Prod.mk.injEq] at h1
          obtain ⟨rfl, rfl⟩ := h1
          rw [masterSends_event] at hsame
          simp only [Except.ok.injEq, Prod.mk.injEq] at hsame
          obtain ⟨rfl, rfl⟩ := hsame
          have k1 : miter cfg 4 (mat ⟨l0, tm, cu, la, g, r⟩ tm .rvF3 e) = .ok (mat ⟨l0, tm, cu, la, g, r⟩ tm .enCnt e, evs.map fun e => .lib (.event e)) := by
            simp only [miter, masterStmt, ok_bind, pure_eq, hst, if_pos hk.1, if_pos hk.2.1, if_pos hk.2.2, List.append_nil, List.nil_append]
            cases hmb : l0.msgBuf with
            | none =>
              simp only [hmb, Except.ok.injEq] at h2
              subst h2
              rfl
            | some i =>
              simp only [hmb] at h2
              obtain ⟨w, h5, h2⟩ := bind_ok h2
              simp only [pure_eq, Except.ok.injEq] at h2
              subst h2
              simp only [h5, ok_bind]
          have k2 := miter_add k1 (masterProcessEnd_iter (a := ⟨l0, tm, cu, la, g, r⟩) h3 tm e)
          refine ⟨_, e, (miter_add pre k2).trans ?_⟩
          simp [List.map_map]
        · rename_i hk
          simp only [Except.ok.injEq, Prod.mk.injEq] at h1
          obtain ⟨rfl, rfl⟩ := h1
          simp only [masterSends, Except.ok.injEq, Prod.mk.injEq] at hsame
          obtain ⟨rfl, rfl⟩ := hsame
          have k1 : miter cfg 3 (mat ⟨l0, tm, cu, la, g, r⟩ tm .rvF3 e) = .ok (mat ⟨l0, tm, cu, la, g, r⟩ tm .out e, []) := by
            by_cases h2 : l0.ferr = .cleared
            · by_cases h3 : l0.crcf = .cleared
              · have h4 : l0.t35 ≠ .set := fun h => hk ⟨h2, h3, h⟩
                simp only [miter, masterStmt, ok_bind, pure_eq, hst, if_pos h2, if_pos h3, if_neg h4, List.append_nil]
              · simp only [miter, masterStmt, ok_bind, pure_eq, hst, if_pos h2, if_neg h3, List.append_nil]
            · simp only [miter, masterStmt, ok_bind, pure_eq, hst, if_neg h2, List.append_nil]
          exact ⟨_, e, miter_add pre k1⟩

/-! ### Which interrupts commute with which statements -/

/-- The statement at which a poll has its effect, unless it returns without any. -/
def mlinPt (cfg : Config) (d : MasterPcDev) : Bool :=
  match d.pc with
  | .snTdr _ _ | .trTimer | .rcT35 _ | .toRep _ _ _ _ | .coProc | .cmRep _ _ _ | .rvT1 => true
  | .wtT15 => decide (d.dev.sys.lib.t15 ≠ .set ∧ d.dev.sys.lib.timer ≠ 1 ∧ d.dev.sys.lib.timer ≠ 2)
  | .rvT2 => decide (d.dev.sys.lib.t35 ≠ .set)
  | .feTest _ => decide (d.dev.sys.lib.repeatCnt.toNat ≤ cfg.repeatMax)
  | _ => false

/-- Positions after the effect. -/
def MPc.late : MPc → Bool
  | .out | .snTxeie | .snGap | .snTim | .snRtof | .snRx | .snTxf | .snSt | .trSt | .rcRecv _ | .rcErrTimer | .rcErrFlag | .rcSkip | .rcOkTimer | .rcSt
  | .enCnt | .enPush | .enSt | .feSt _ | .feFlag _ | .feLen => true
  | _ => false

/-- Effect of the interrupts that may come anywhere in a poll. -/
def meff (h : HMOp) (d : MasterPcDev) : MasterPcDev :=
  match h with
  | .main _ => { d with dev := { d.dev with sys := { d.dev.sys with lib := { d.dev.sys.lib with timer := d.dev.sys.lib.timer - 1 } } } }
  | .timer => { d with dev := { d.dev with sys := { d.dev.sys with lib := { d.dev.sys.lib with t35 := .set }, gap := false } } }
  | .usart _ true => { d with dev := { d.dev with sys := { d.dev.sys with cur := d.dev.sys.cur + 1 } } }
  | _ => d

def meffOut (h : HMOp) (d : MasterPcDev) : List HMOut :=
  match h with
  | .usart _ true => [.tdr ((d.dev.sys.lib.msgs d.dev.sys.txMsg).req (d.dev.sys.cur + 1))]
  | _ => []

/-- These interrupts: the system tick, the timer, and the transmit interrupt while there are bytes left to transmit. -/
inductive Mild (d : MasterPcDev) : HMOp → Prop
  | tick : Mild d (.main .tick)
  | timer : Mild d .timer
  | nothing : d.dev.sys.rtof = false → Mild d (.usart none false)
  | byte : d.dev.sys.rtof = false → d.dev.more = true → d.dev.sys.cur + 1 < 256 → Mild d (.usart none true)

theorem mild_step {d : MasterPcDev} {h : HMOp} (hd : d.dev.sys.lib.drv = true) (hm : Mild d h) :
    masterPcStep cfg d (.irq h) = .ok (meff h d, meffOut h d) := by
  obtain ⟨⟨⟨l, tm, cu, la, g, r⟩, lm⟩, pc, e⟩ := d
  have hd : l.drv = true := hd
  cases hm with
  | tick =>
    simp only [masterPcStep, masterDevInt, if_true, masterSysStep, MOp.isMain, Bool.true_eq_false, if_false, masterStep, ok_bind, masterSends, pure_eq,
      mtxeAfter, meff, meffOut]
    by_cases h0 : l.timer = 0
    · cases l; simp only at h0; subst h0; simp
    · simp [h0]
  | timer => simp only [masterPcStep, masterDevInt, masterSysStep, masterStep, if_pos hd, ok_bind, pure_eq, mtxeAfter, meff, meffOut]
  | nothing hr =>
    have hr : r = false := hr
    subst hr
    simp only [masterPcStep, masterDevInt, masterIrqRx, masterDevTx, masterIrqRto, Bool.false_eq_true, if_false, ok_bind, pure_eq, mtxeAfter, meff, meffOut]
  | byte hr hm hc =>
    have hr : r = false := hr
    subst hr
    have hm' := hm
    simp only [MasterDev.more, decide_eq_true_eq] at hm'
    have hc : cu + 1 < 256 := hc
    simp only [masterPcStep, masterDevInt, masterIrqRx, masterDevTx, masterIrqRto, Bool.false_eq_true, if_false, if_true, ok_bind, pure_eq, mtxeAfter, meff,
      meffOut, if_pos hm', rd_ok _ hc, hm, Bool.and_true]

set_option maxHeartbeats 4000000 in
theorem late_stmt {d d1 : MasterPcDev} {o : List HMOut} (hl : d.pc.late = true) (h : masterStmt cfg d = .ok (d1, o)) : d1.pc.late = true ∧ o = [] := by
  obtain ⟨⟨⟨l, tm, cu, la, g, r⟩, lm⟩, pc, e⟩ := d
  cases pc <;> simp only [masterStmt] at h
  all_goals try (cases hl; done)
  all_goals try (obtain ⟨x1, hb, h⟩ := bind_ok h)
  all_goals try (obtain ⟨x2, hb2, h⟩ := bind_ok h)
  all_goals repeat' split at h
  all_goals
    simp only [Except.ok.injEq, Prod.mk.injEq, reduceCtorEq] at h
    obtain ⟨rfl, rfl⟩ := h
    exact ⟨rfl, rfl⟩

theorem enableRx_ok {l : Master} {i : Nat} (hd : l.drv = true) (hi : l.msgBuf = some i) : masterEnableRx l = .ok { l with rxTarget := some i } := by
  unfold masterEnableRx
  rw [if_neg (by rw [hd]; simp)]
  split
  · rename_i h; rw [hi] at h; cases h
  · rename_i j h; rw [hi] at h; cases h; rfl

set_option maxHeartbeats 4000000 in
theorem late_mild {d d1 : MasterPcDev} {o : List HMOut} {h : HMOp} (hl : d.pc.late = true) (hd : d.dev.sys.lib.drv = true) (hm : Mild d h)
    (hs : masterStmt cfg d = .ok (d1, o)) :
    masterStmt cfg (meff h d) = .ok (meff h d1, o) ∧ meffOut h d1 = meffOut h d ∧ Mild d1 h ∧ d1.dev.sys.lib.drv = true := by
  obtain ⟨⟨⟨l, tm, cu, la, g, r⟩, lm⟩, pc, e⟩ := d
  have hdl : l.drv = true := hd
  cases pc <;> simp only [masterStmt] at hs
  all_goals try (cases hl; done)
  all_goals try (obtain ⟨x1, hb, hs⟩ := bind_ok hs)
  all_goals try (obtain ⟨x2, hb2, hs⟩ := bind_ok hs)
  case snRx =>
    simp only [Except.ok.injEq, Prod.mk.injEq, reduceCtorEq] at hs
    obtain ⟨rfl, rfl⟩ := hs
    obtain ⟨i, hi, rfl⟩ := masterEnableRx_eq hb
    have hq : ∀ l' : Master, l'.drv = l.drv → l'.msgBuf = l.msgBuf → masterEnableRx l' = .ok { l' with rxTarget := some i } :=
      fun l' e1 e2 => enableRx_ok (e1.trans hdl) (e2.trans hi)
    cases hm with
    | tick => exact ⟨by simp only [masterStmt, meff]; rw [hq { l with timer := l.timer - 1 } rfl rfl]; rfl, rfl, .tick, hd⟩
    | timer => exact ⟨by simp only [masterStmt, meff]; rw [hq { l with t35 := .set } rfl rfl]; rfl, rfl, .timer, hd⟩
    | nothing hr => exact ⟨by simp only [masterStmt, meff]; rw [hq l rfl rfl]; rfl, rfl, .nothing hr, hd⟩
    | byte hr hm hc => exact ⟨by simp only [masterStmt, meff]; rw [hq l rfl rfl]; rfl, rfl, .byte hr hm hc, hd⟩
  case rcSkip | feLen =>
    simp only [Except.ok.injEq, Prod.mk.injEq, reduceCtorEq] at hs
    obtain ⟨rfl, rfl⟩ := hs
    obtain ⟨i, hi, rfl⟩ := clearRespLen_eq hb
    have hi : l.msgBuf = some i := hi
    cases hm with
    | tick => exact ⟨by simp [masterStmt, meff, clearRespLen, hi], rfl, .tick, hd⟩
    | timer => exact ⟨by simp [masterStmt, meff, clearRespLen, hi], rfl, .timer, hd⟩
    | nothing hr => exact ⟨by simp [masterStmt, meff, clearRespLen, hi], rfl, .nothing hr, hd⟩
    | byte hr hm hc =>
      refine ⟨by simp [masterStmt, meff, clearRespLen, hi], ?_, .byte hr hm hc, hd⟩
      simp only [meffOut, setMsg]
      split
      · rename_i e; rw [e]
      · rfl
  case enPush =>
    simp only [Except.ok.injEq, Prod.mk.injEq, reduceCtorEq] at hs
    obtain ⟨rfl, rfl⟩ := hs
    cases hm with
    | tick => exact ⟨by simp only [masterStmt, meff, hb, ok_bind], rfl, .tick, hd⟩
    | timer => exact ⟨by simp only [masterStmt, meff, hb, ok_bind], rfl, .timer, hd⟩
    | nothing hr => exact ⟨by simp only [masterStmt, meff, hb, ok_bind], rfl, .nothing hr, hd⟩
    | byte hr hm hc => exact ⟨by simp only [masterStmt, meff, hb, ok_bind], rfl, .byte hr hm hc, hd⟩
  case rcRecv =>
    simp only [Except.ok.injEq, Prod.mk.injEq, reduceCtorEq] at hs
    obtain ⟨rfl, rfl⟩ := hs
    have hcm : ∀ l' : Master, l'.msgBuf = l.msgBuf → l'.dataSet = l.dataSet → l'.msgs = l.msgs → curMsg l' = .ok x1 := by
      intro l' e1 e2 e3
      simp only [curMsg] at hb ⊢; rw [e1, e2, e3]; exact hb
    cases hm with
    | tick => exact ⟨by simp only [masterStmt, meff]; rw [hcm { l with timer := l.timer - 1 } rfl rfl rfl]; simp only [hb2, ok_bind], rfl, .tick, hd⟩
    | timer => exact ⟨by simp only [masterStmt, meff]; rw [hcm { l with t35 := .set } rfl rfl rfl]; simp only [hb2, ok_bind], rfl, .timer, hd⟩
    | nothing hr => exact ⟨by simp only [masterStmt, meff]; rw [hcm l rfl rfl rfl]; simp only [hb2, ok_bind], rfl, .nothing hr, hd⟩
    | byte hr hm hc => exact ⟨by simp only [masterStmt, meff]; rw [hcm l rfl rfl rfl]; simp only [hb2, ok_bind], rfl, .byte hr hm hc, hd⟩
  case feFlag x =>
    simp only [Except.ok.injEq, Prod.mk.injEq, reduceCtorEq] at hs
    obtain ⟨rfl, rfl⟩ := hs
    cases hm with
    | tick => cases x <;> exact ⟨by simp [masterStmt, meff, clearErr], rfl, .tick, hd⟩
    | timer => cases x <;> exact ⟨by simp [masterStmt, meff, clearErr], rfl, .timer, hd⟩
    | nothing hr => cases x <;> exact ⟨by simp [masterStmt, meff, clearErr], rfl, .nothing hr, hd⟩
    | byte hr hm hc => cases x <;> exact ⟨by simp [masterStmt, meff, clearErr], rfl, .byte hr hm hc, hd⟩
  all_goals
    simp only [Except.ok.injEq, Prod.mk.injEq, reduceCtorEq] at hs
    obtain ⟨rfl, rfl⟩ := hs
    cases hm with
    | tick => exact ⟨by simp [masterStmt, meff], rfl, .tick, hd⟩
    | timer => exact ⟨by simp [masterStmt, meff], rfl, .timer, hd⟩
    | nothing hr => exact ⟨by simp [masterStmt, meff], rfl, .nothing (by first | exact hr | rfl), hd⟩
    | byte hr hm hc => exact ⟨by simp [masterStmt, meff], rfl, .byte (by first | exact hr | rfl) hm hc, hd⟩

theorem late_iter {h : HMOp} : ∀ {n : Nat} {d d1 : MasterPcDev} {o : List HMOut}, d.pc.late = true → d.dev.sys.lib.drv = true → Mild d h →
    miter cfg n d = .ok (d1, o) → o = [] ∧ miter cfg n (meff h d) = .ok (meff h d1, []) ∧ meffOut h d1 = meffOut h d ∧ Mild d1 h ∧
      d1.dev.sys.lib.drv = true := by
  intro n
  induction n with
  | zero =>
    intro d d1 o _ hd hm h
    simp only [miter, Except.ok.injEq, Prod.mk.injEq] at h
    obtain ⟨rfl, rfl⟩ := h
    exact ⟨rfl, rfl, rfl, hm, hd⟩
  | succ n ih =>
    intro d d1 o hl hd hm h
    simp only [miter] at h
    obtain ⟨⟨d2, o2⟩, h1, h⟩ := bind_ok h
    obtain ⟨⟨d3, o3⟩, h2, h⟩ := bind_ok h
    simp only [pure_eq, Except.ok.injEq, Prod.mk.injEq] at h
    obtain ⟨rfl, rfl⟩ := h
    obtain ⟨hl2, ho⟩ := late_stmt hl h1
    obtain ⟨k1, k2, k3, k4⟩ := late_mild hl hd hm h1
    obtain ⟨j1, j2, j3, j4, j5⟩ := ih hl2 k4 k3 h2
    subst ho j1
    exact ⟨rfl, miter_step k1 j2, j3.trans k2, j4, j5⟩

theorem late_iter_nil {n : Nat} : ∀ {d d1 : MasterPcDev} {o : List HMOut}, d.pc.late = true → miter cfg n d = .ok (d1, o) → o = [] := by
  induction n with
  | zero =>
    intro d d1 o _ h
    simp only [miter, Except.ok.injEq, Prod.mk.injEq] at h
    exact h.2.symm
  | succ n ih =>
    intro d d1 o hl h
    simp only [miter] at h
    obtain ⟨⟨d2, o2⟩, h1, h⟩ := bind_ok h
    obtain ⟨⟨d3, o3⟩, h2, h⟩ := bind_ok h
    simp only [pure_eq, Except.ok.injEq, Prod.mk.injEq] at h
    obtain ⟨rfl, rfl⟩ := h
    obtain ⟨hl2, ho⟩ := late_stmt hl h1
    rw [ih hl2 h2]
    subst ho; rfl

/-! ### Before the effect -/

/-- From `d0` to `d` by statements before the effect. -/
inductive MPre (cfg : Config) (d0 : MasterPcDev) : MasterPcDev → Prop
  | refl : MPre cfg d0 d0
  | step {d d1 : MasterPcDev} : MPre cfg d0 d → mlinPt cfg d = false → masterStmt cfg d = .ok (d1, []) → d1.pc ≠ .out → MPre cfg d0 d1

theorem MPre.iter {d0 d : MasterPcDev} (h : MPre cfg d0 d) : ∃ n, miter cfg n d0 = .ok (d, []) := by
  induction h with
  | refl => exact ⟨0, rfl⟩
  | step _ _ h _ ih =>
    obtain ⟨n, ih⟩ := ih
    exact ⟨n + 1, miter_add ih (miter_step (n := 0) h rfl)⟩

/-- Positions at which the timeout is being handled. -/
def MPc.expiring : MPc → Bool
  | .wtTimer | .toSlave | .toAdr _ | .toQty _ _ | .toFc _ _ _ | .toRep _ _ _ _ => true
  | _ => false

set_option maxHeartbeats 4000000 in
theorem pre_late {d d1 : MasterPcDev} (hl : d.pc.late = false) (hn : mlinPt cfg d = false) (h : masterStmt cfg d = .ok (d1, []))
    (hp : d1.pc ≠ .out) : d1.pc.late = false ∧ d1.dev.sys.lib.drv = d.dev.sys.lib.drv ∧ d1.dev.sys.lib.ferr = d.dev.sys.lib.ferr ∧
      (d1.pc.expiring = false → d.pc.expiring = false) := by
  obtain ⟨⟨⟨l, tm, cu, la, g, r⟩, lm⟩, pc, e⟩ := d
  cases pc <;> simp only [masterStmt] at h
  all_goals try (cases hl; done)
  all_goals try (obtain ⟨x1, hb, h⟩ := bind_ok h)
  all_goals try (obtain ⟨x2, hb2, h⟩ := bind_ok h)
  all_goals repeat' split at h
  all_goals
    simp only [Except.ok.injEq, Prod.mk.injEq, reduceCtorEq, and_false] at h
    try (obtain ⟨rfl, -⟩ := h)
    try (obtain ⟨x3, hb3, rfl⟩ := clearRespLen_eq hb)
    try simp_all [MPc.late, mlinPt, MPc.expiring]

set_option maxHeartbeats 4000000 in
theorem pre_mild {d d1 : MasterPcDev} {h : HMOp} (hh : h = .timer ∨ h = .main .tick ∧ d1.pc.expiring = false)
    (hl : d.pc.late = false) (hn : mlinPt cfg d = false) (hs : masterStmt cfg d = .ok (d1, [])) (hp : d1.pc ≠ .out) :
    mlinPt cfg (meff h d) = false ∧ masterStmt cfg (meff h d) = .ok (meff h d1, []) := by
  obtain ⟨⟨⟨l, tm, cu, la, g, r⟩, lm⟩, pc, e⟩ := d
  cases pc <;> simp only [masterStmt] at hs
  all_goals try (cases hl; done)
  case idPop =>
    obtain ⟨x1, hb, hs⟩ := bind_ok hs
    simp only [Except.ok.injEq, Prod.mk.injEq, and_true] at hs
    subst hs
    rcases hh with rfl | ⟨rfl, -⟩ <;> exact ⟨rfl, by simp only [masterStmt, meff, hb, ok_bind]⟩
  case trLen =>
    obtain ⟨x1, hb, hs⟩ := bind_ok hs
    simp only [Except.ok.injEq, Prod.mk.injEq, and_true] at hs
    subst hs
    obtain ⟨i, hi, rfl⟩ := clearRespLen_eq hb
    rcases hh with rfl | ⟨rfl, -⟩ <;> exact ⟨rfl, by simp [masterStmt, meff, clearRespLen, hi]⟩
  case snCur =>
    obtain ⟨x1, hb, hs⟩ := bind_ok hs
    obtain ⟨⟨x2, x3⟩, hb2, hs⟩ := bind_ok hs
    have h1 : ∀ l' : Master, l'.drv = l.drv → l'.msgBuf = l.msgBuf → l'.dataSet = l.dataSet → l'.msgs = l.msgs → masterDrvSend l' = .ok x1 := by
      intro l' e1 e2 e3 e4
      simp only [masterDrvSend] at hb ⊢; rw [e1, e2, e3, e4]; exact hb
    have h2 : ∀ l' : Master, l'.msgBuf = l.msgBuf → l'.msgs = l.msgs → masterSendArgs l' = .ok (x2, x3) := by
      intro l' e2 e4
      simp only [masterSendArgs] at hb2 ⊢; rw [e2, e4]; exact hb2
    split at hs
    · rename_i h0
      simp only [Except.ok.injEq, Prod.mk.injEq, and_true] at hs
      subst hs
      have h0 : 0 < x3 := h0
      rcases hh with rfl | ⟨rfl, -⟩
      · refine ⟨rfl, ?_⟩
        simp only [masterStmt, meff]
        rw [h1 { l with t35 := .set } rfl rfl rfl rfl, h2 { l with t35 := .set } rfl rfl]
        simp only [ok_bind, if_pos h0]
      · refine ⟨rfl, ?_⟩
        simp only [masterStmt, meff]
        rw [h1 { l with timer := l.timer - 1 } rfl rfl rfl rfl, h2 { l with timer := l.timer - 1 } rfl rfl]
        simp only [ok_bind, if_pos h0]
    · simp only [Except.ok.injEq, Prod.mk.injEq, reduceCtorEq, and_false] at hs
  case snTdr | trTimer | rcT35 | toRep | coProc | cmRep | rvT1 => cases hn
  case rcId | toSlave | toAdr | toQty | toFc | cmSlave | cmFc =>
    obtain ⟨x1, hb, hs⟩ := bind_ok hs
    obtain ⟨x2, hb2, hs⟩ := bind_ok hs
    simp only [Except.ok.injEq, Prod.mk.injEq, and_true] at hs
    subst hs
    have hcm : ∀ l' : Master, l'.msgBuf = l.msgBuf → l'.dataSet = l.dataSet → l'.msgs = l.msgs → curMsg l' = .ok x1 := by
      intro l' e1 e2 e3
      simp only [curMsg] at hb ⊢; rw [e1, e2, e3]; exact hb
    rcases hh with rfl | ⟨rfl, -⟩
    · exact ⟨rfl, by simp only [masterStmt, meff]; rw [hcm { l with t35 := .set } rfl rfl rfl]; simp only [hb2, ok_bind]⟩
    · exact ⟨rfl, by simp only [masterStmt, meff]; rw [hcm { l with timer := l.timer - 1 } rfl rfl rfl]; simp only [hb2, ok_bind]⟩
  case feTest =>
    simp only [Except.ok.injEq, Prod.mk.injEq, and_true] at hs
    subst hs
    rcases hh with rfl | ⟨rfl, -⟩
    · exact ⟨hn, rfl⟩
    · exact ⟨hn, rfl⟩
  case rvF1 | rvC2 =>
    simp only [Except.ok.injEq, Prod.mk.injEq, and_true] at hs
    subst hs
    rcases hh with rfl | ⟨rfl, -⟩
    · exact ⟨rfl, rfl⟩
    · exact ⟨rfl, rfl⟩
  all_goals
    simp only [Except.ok.injEq, Prod.mk.injEq, and_true] at hs
    subst hs
    rcases hh with rfl | ⟨rfl, he⟩
    · simp_all [masterStmt, meff, mlinPt]
      try (split <;> simp_all)
    · simp_all [masterStmt, meff, mlinPt, MPc.expiring]
      try (split at he <;> simp_all)

theorem MPre.late {d0 d : MasterPcDev} (h : MPre cfg d0 d) (h0 : d0.pc.late = false) : d.pc.late = false := by
  induction h with
  | refl => exact h0
  | step _ h1 h2 h3 ih => exact (pre_late ih h1 h2 h3).1

theorem MPre.mild {d0 d : MasterPcDev} {h : HMOp} (hpre : MPre cfg d0 d) (h0 : d0.pc.late = false)
    (hh : h = .timer ∨ h = .main .tick ∧ d.pc.expiring = false) : MPre cfg (meff h d0) (meff h d) := by
  induction hpre with
  | refl => exact .refl
  | step k h1 h2 h3 ih =>
    have hl := k.late h0
    obtain ⟨j1, j2⟩ := pre_mild hh hl h1 h2 h3
    refine .step (ih ?_) j1 j2 ?_
    · rcases hh with hh | ⟨hh, he⟩
      · exact .inl hh
      · exact .inr ⟨hh, (pre_late hl h1 h2 h3).2.2.2 he⟩
    · rcases hh with rfl | ⟨rfl, he⟩ <;> exact h3

/-! ### The relation between the two executions -/

/-- How the device `d`, statement by statement, corresponds to the device `a` with uninterrupted polls; `fl` says that the current poll has had its
effect. -/
inductive MSimPc (cfg : Config) : Bool → MasterPcDev → MasterSys → Prop
  | out {fl : Bool} {a : MasterSys} {e : Bool} : MSimPc cfg fl (mat a a.txMsg .out e) a
  | pre {a : MasterSys} {e : Bool} {d : MasterPcDev} : MPre cfg (mat a a.txMsg .enter e) d → MSimPc cfg false d a
  | wt {a : MasterSys} {e : Bool} : MSimPc cfg true (mat a a.txMsg .wtTimer e) a
  | rv {a : MasterSys} {e : Bool} {pc : MPc} : pc = .rvF3 ∨ pc = .rvC3 → a.lib.crcf = .set → MSimPc cfg true (mat a a.txMsg pc e) a
  | post {a : MasterSys} {e : Bool} {d : MasterPcDev} {n : Nat} : d.pc.late = true → d.pc ≠ .out →
      miter cfg n d = .ok (mat a a.txMsg .out e, []) → MSimPc cfg true d a

theorem MPre.ne_out {d0 d : MasterPcDev} (h : MPre cfg d0 d) (h0 : d0.pc ≠ .out) : d.pc ≠ .out := by
  cases h with
  | refl => exact h0
  | step _ _ _ h => exact h

theorem MSimPc.at_out {fl : Bool} {d : MasterPcDev} {a : MasterSys} (h : MSimPc cfg fl d a) (hp : d.pc = .out) : ∃ e, d = mat a a.txMsg .out e := by
  cases h with
  | out => exact ⟨_, rfl⟩
  | pre h => exact absurd hp (h.ne_out (by simp))
  | wt => cases hp
  | rv h => rcases h with rfl | rfl <;> cases hp
  | post _ h => exact absurd hp h

theorem MSimPc.call {fl : Bool} {d : MasterPcDev} {a : MasterSys} (h : MSimPc cfg fl d a) (hp : d.pc = .out) :
    MSimPc cfg false { d with pc := .enter } a := by
  obtain ⟨e, rfl⟩ := h.at_out hp
  exact .pre (e := e) .refl

/-- With both pointers in the same row the two models of the interrupts agree. -/
theorem sys_of_dev {a : MasterSys} {pc : MPc} {e : Bool} {h : HMOp} {d' : MasterPcDev} {o : List HMOut} (hm : ∀ op, h = .main op → op = .tick)
    (hs : masterPcStep cfg (mat a a.txMsg pc e) (.irq h) = .ok (d', o)) :
    ∃ a' e', masterSysStep cfg a h = .ok (a', o) ∧ d' = mat a' a'.txMsg pc e' ∧ a'.lib.st = a.lib.st := by
  obtain ⟨v, h1, rfl⟩ := mpc_irq hs
  cases h with
  | main op =>
    cases hm op rfl
    simp only [masterDevInt, if_true] at h1
    obtain ⟨⟨a', o'⟩, h2, h1⟩ := bind_ok h1
    simp only [pure_eq, Except.ok.injEq, Prod.mk.injEq] at h1
    obtain ⟨rfl, rfl⟩ := h1
    refine ⟨a', mtxeAfter (.main .tick) e ⟨a, a.txMsg⟩, h2, ?_, ?_⟩
    all_goals
      simp only [masterSysStep, MOp.isMain, Bool.true_eq_false, if_false, masterStep, ok_bind, masterSends, Except.ok.injEq, Prod.mk.injEq] at h2
      obtain ⟨rfl, -⟩ := h2
    · rfl
    · show (if _ then _ else _ : Master).st = _
      split <;> rfl
  | rto =>
    simp only [masterDevInt, masterSysStep, ok_bind, pure_eq, Except.ok.injEq, Prod.mk.injEq] at h1
    obtain ⟨rfl, rfl⟩ := h1
    exact ⟨_, _, rfl, rfl, rfl⟩
  | timer =>
    simp only [masterDevInt, masterSysStep, masterStep, ok_bind, pure_eq, Except.ok.injEq, Prod.mk.injEq] at h1
    obtain ⟨rfl, rfl⟩ := h1
    refine ⟨_, _, rfl, rfl, ?_⟩
    show (if _ then _ else _ : Master).st = _
    split <;> rfl
  | usart rx t =>
    simp only [masterDevInt] at h1
    obtain ⟨s1, h2, h1⟩ := bind_ok h1
    obtain ⟨⟨d2, o2⟩, h3, h1⟩ := bind_ok h1
    obtain ⟨s3, h4, h1⟩ := bind_ok h1
    simp only [pure_eq, Except.ok.injEq, Prod.mk.injEq] at h1
    obtain ⟨rfl, rfl⟩ := h1
    have e1 : s1.txMsg = a.txMsg ∧ s1.lib.st = a.lib.st := by
      cases rx with
      | none => cases h2; exact ⟨rfl, rfl⟩
      | some b =>
        simp only [masterIrqRx, masterStep, masterRx] at h2
        obtain ⟨⟨l, o1⟩, k1, h2⟩ := bind_ok h2
        obtain ⟨l1, k2, k1⟩ := bind_ok k1
        simp only [pure_eq, Except.ok.injEq, Prod.mk.injEq] at k1
        obtain ⟨rfl, -⟩ := k1
        have k3 : l1.st = a.lib.st := by
          split at k2
          · simp only [Except.ok.injEq] at k2; rw [← k2]
          · split at k2
            · obtain ⟨r, -, k2⟩ := bind_ok k2
              simp only [pure_eq, Except.ok.injEq] at k2
              rw [← k2]
            · cases k2
        split at h2
        · simp only [ok_bind, pure_eq, Except.ok.injEq] at h2
          rw [← h2]
          refine ⟨rfl, ?_⟩
          show (if _ then _ else _ : Master).st = _
          split <;> exact k3
        · simp only [pure_eq, Except.ok.injEq] at h2
          rw [← h2]
          exact ⟨rfl, k3⟩
    have e2 : masterIrqTx cfg s1 t = .ok (d2.sys, o2) ∧ d2.lastMsg = a.txMsg ∧ d2.sys.txMsg = a.txMsg ∧ d2.sys.lib.st = a.lib.st := by
      simp only [masterDevTx] at h3
      simp only [masterIrqTx]
      cases t with
      | false =>
        simp only [Bool.false_eq_true, if_false, Except.ok.injEq, Prod.mk.injEq] at h3
        obtain ⟨rfl, rfl⟩ := h3
        exact ⟨rfl, rfl, e1.1, e1.2⟩
      | true =>
        simp only [if_true] at h3 ⊢
        by_cases hlt : s1.cur < s1.last
        · rw [if_pos (.inr ⟨e1.1, hlt⟩)] at h3
          rw [if_pos hlt]
          obtain ⟨b, k1, h3⟩ := bind_ok h3
          simp only [pure_eq, Except.ok.injEq, Prod.mk.injEq] at h3
          obtain ⟨rfl, rfl⟩ := h3
          rw [k1]
          exact ⟨rfl, rfl, e1.1, e1.2⟩
        · rw [if_neg (by rintro (h | h) <;> omega)] at h3
          rw [if_neg hlt]
          simp only [masterStep, ok_bind, pure_eq, Except.ok.injEq, Prod.mk.injEq] at h3
          obtain ⟨rfl, rfl⟩ := h3
          refine ⟨rfl, rfl, e1.1, ?_⟩
          show (if _ then _ else _ : Master).st = _
          split <;> exact e1.2
    refine ⟨s3, mtxeAfter (.usart rx t) e ⟨a, a.txMsg⟩, by simp only [masterSysStep, h2, ok_bind, e2.1, h4, pure_eq], ?_⟩
    simp only [masterIrqRto] at h4
    split at h4
    · simp only [masterStep, ok_bind, pure_eq, Except.ok.injEq] at h4
      rw [← h4]
      constructor
      · simp only [e2.2.1, e2.2.2.1]
      · show (if _ then _ else _ : Master).st = _
        split <;> exact e2.2.2.2
    · simp only [Except.ok.injEq] at h4
      rw [← h4]
      constructor
      · simp only [e2.2.1, e2.2.2.1]
      · exact e2.2.2.2

set_option maxHeartbeats 4000000 in
theorem stmt_into {d d1 : MasterPcDev} {o : List HMOut} (hp : d.pc ≠ .out) (h : masterStmt cfg d = .ok (d1, o)) :
    d1.pc ≠ .enter ∧ (d1.pc = .trTest → d.pc = .enter ∧ d1 = { d with pc := .trTest } ∧ d.dev.sys.lib.st = .transmitting) ∧
    (d1.pc = .wtT15 → d.pc = .enter ∧ d1 = { d with pc := .wtT15 } ∧ d.dev.sys.lib.st = .waiting) ∧
    (d1.pc = .rvT2 → d1.dev.sys.lib.crcf = .set) := by
  obtain ⟨⟨⟨l, tm, cu, la, g, r⟩, lm⟩, pc, e⟩ := d
  cases pc <;> simp only [masterStmt] at h
  all_goals try (obtain ⟨x1, hb, h⟩ := bind_ok h)
  all_goals try (obtain ⟨x2, hb2, h⟩ := bind_ok h)
  all_goals repeat' split at h
  all_goals
    simp only [Except.ok.injEq, Prod.mk.injEq, reduceCtorEq] at h
    obtain ⟨rfl, -⟩ := h
    simp_all

/-- Positions at which nothing has changed since the beginning of the poll. -/
theorem MPre.same {a : MasterSys} {lm : Nat} {e : Bool} {d : MasterPcDev} (h : MPre cfg (mat a lm .enter e) d) :
    (d.pc = .enter → d = mat a lm .enter e) ∧ (d.pc = .trTest → d = mat a lm .trTest e ∧ a.lib.st = .transmitting) ∧
    (d.pc = .wtT15 → d = mat a lm .wtT15 e ∧ a.lib.st = .waiting) ∧
    (d.pc = .wtTimer → d = mat a lm .wtTimer e ∧ a.lib.st = .waiting ∧ a.lib.t15 ≠ .set ∧ (a.lib.timer = 1 ∨ a.lib.timer = 2)) ∧
    (d.pc = .rvT2 → d.dev.sys.lib.crcf = .set) := by
  induction h with
  | refl => exact ⟨fun _ => rfl, (fun h => nomatch h), (fun h => nomatch h), (fun h => nomatch h), (fun h => nomatch h)⟩
  | step k h1 h2 h3 ih =>
    have hp := k.ne_out (by simp)
    obtain ⟨j1, j2, j3, j4⟩ := stmt_into hp h2
    refine ⟨fun h => absurd h j1, fun h => ?_, fun h => ?_, fun h => ?_, j4⟩
    · obtain ⟨e1, rfl, e3⟩ := j2 h
      rw [ih.1 e1] at e3 ⊢
      exact ⟨rfl, e3⟩
    · obtain ⟨e1, rfl, e3⟩ := j3 h
      rw [ih.1 e1] at e3 ⊢
      exact ⟨rfl, e3⟩
    · obtain ⟨e1, e2, rfl⟩ := mstmt_wt h2 hp h
      obtain ⟨e3, e4⟩ := ih.2.2.1 e1
      rw [e3] at h1 e2 ⊢
      refine ⟨rfl, e4, e2, ?_⟩
      simp only [mlinPt, decide_eq_false_iff_not] at h1
      have e2 : a.lib.t15 ≠ .set := e2
      have h1 : ¬(a.lib.t15 ≠ .set ∧ a.lib.timer ≠ 1 ∧ a.lib.timer ≠ 2) := h1
      by_cases q1 : a.lib.timer = 1
      · exact .inl q1
      · by_cases q2 : a.lib.timer = 2
        · exact .inr q2
        · exact absurd ⟨e2, q1, q2⟩ h1

theorem pre_trTest {a : MasterSys} {lm : Nat} {e : Bool} (h : a.lib.st = .transmitting) : MPre cfg (mat a lm .enter e) (mat a lm .trTest e) :=
  .step .refl rfl (by simp only [masterStmt, h]) (by simp)

theorem pre_wtT15 {a : MasterSys} {lm : Nat} {e : Bool} (h : a.lib.st = .waiting) : MPre cfg (mat a lm .enter e) (mat a lm .wtT15 e) :=
  .step .refl rfl (by simp only [masterStmt, h]) (by simp)

theorem pre_wtTimer {a : MasterSys} {lm : Nat} {e : Bool} (h : a.lib.st = .waiting) (h15 : a.lib.t15 ≠ .set) (ht : a.lib.timer = 1 ∨ a.lib.timer = 2) :
    MPre cfg (mat a lm .enter e) (mat a lm .wtTimer e) :=
  .step (pre_wtT15 h) (by simp only [mlinPt, decide_eq_false_iff_not]; omega) (by simp only [masterStmt, if_neg h15]) (by simp)

/-! ### Interrupts -/

/-- An interrupt at a position that is not one of a few is mild. -/
theorem irq_mild {d d' : MasterPcDev} {h : HMOp} {o : List HMOut} (hS : SI d) (hm : ∀ op, h = .main op → op = .tick)
    (hA : h.isAnswer = true → AtAnswer d) (hX : ∀ t, h = .usart none t → d.dev.sys.rtof = true ∨ d.txeie = true)
    (hM : d.pc.starting = true ∨ d.pc = .snSt → h = .usart none true → d.dev.more = true)
    (hw : d.pc.waits = false) (ht : d.pc ≠ .trTest) (hs : masterPcStep cfg d (.irq h) = .ok (d', o)) :
    Mild d h ∧ (d.pc.late = false ∨ d.pc = .rvF3 ∨ d.pc = .rvC3 → h = .timer ∨ h = .main .tick) := by
  cases h with
  | main op => cases hm op rfl; exact ⟨.tick, fun _ => .inr rfl⟩
  | rto => have := (hA rfl).pc; rw [hw] at this; cases this
  | timer => exact ⟨.timer, fun _ => .inl rfl⟩
  | usart rx t =>
    cases rx with
    | some b => have := (hA rfl).pc; rw [hw] at this; cases this
    | none =>
      have hr : d.dev.sys.rtof = false := by
        cases hr : d.dev.sys.rtof with
        | false => rfl
        | true => have := (hS.rtof hr).1; rw [hw] at this; cases this
      have he : d.txeie = true := by
        rcases hX t rfl with h | h
        · rw [hr] at h; cases h
        · exact h
      have hp : d.pc.starting = true ∨ d.pc = .snSt := by
        rcases hS.txe he with h | h
        · exact .inl h
        · rcases hS.txf h with h | ⟨h, -⟩
          · exact .inr h
          · exfalso
            cases hpc : d.pc <;> rw [hpc] at h hw ht <;> simp [MPc.sending, MPc.waits] at h hw ht
      refine ⟨?_, ?_⟩
      · cases t with
        | false => exact .nothing hr
        | true =>
          have hmo := hM hp rfl
          refine .byte hr hmo ?_
          obtain ⟨v, h1, -⟩ := mpc_irq hs
          simp only [masterDevInt, masterIrqRx, ok_bind, masterDevTx, if_true] at h1
          obtain ⟨⟨d2, o2⟩, h2, -⟩ := bind_ok h1
          have hmo' := hmo
          simp only [MasterDev.more, decide_eq_true_eq] at hmo'
          rw [if_pos hmo'] at h2
          obtain ⟨b, h3, -⟩ := bind_ok h2
          simp only [rd] at h3
          split at h3
          · assumption
          · cases h3
      · intro hl
        exfalso
        rcases hp with hp | hp
        · cases hpc : d.pc <;> rw [hpc] at hp hl <;> simp_all [MPc.starting, MPc.late]
        · rw [hp] at hl; simp [MPc.late] at hl

theorem MSimPc.irq {fl : Bool} {d d' : MasterPcDev} {a : MasterSys} {h : HMOp} {o : List HMOut} (hsim : MSimPc cfg fl d a) (hS : SI d)
    (hm : ∀ op, h = .main op → op = .tick)
    (hA : h.isAnswer = true → AtAnswer d) (hX : ∀ t, h = .usart none t → d.dev.sys.rtof = true ∨ d.txeie = true)
    (hM : d.pc.starting = true ∨ d.pc = .snSt → h = .usart none true → d.dev.more = true)
    (hT : fl = false → h = .main .tick → d.pc.expiring = true → d.pc = .wtTimer ∧ d.dev.sys.lib.timer = 2)
    (hW : fl = false → d.pc = .wtTimer → d.dev.sys.lib.timer ≤ 2 ∧ d.dev.sys.rtof = false)
    (hs : masterPcStep cfg d (.irq h) = .ok (d', o)) : ∃ a', masterSysStep cfg a h = .ok (a', o) ∧ MSimPc cfg fl d' a' := by
  cases hsim with
  | out =>
    obtain ⟨a', e', h1, rfl, -⟩ := sys_of_dev hm hs
    exact ⟨a', h1, .out⟩
  | wt =>
    obtain ⟨a', e', h1, rfl, -⟩ := sys_of_dev hm hs
    exact ⟨a', h1, .wt⟩
  | rv hp hc =>
    rename_i e pc
    have hw : pc.waits = false := by rcases hp with rfl | rfl <;> rfl
    have ht : pc ≠ .trTest := by rcases hp with rfl | rfl <;> simp
    obtain ⟨-, hk⟩ := irq_mild hS hm hA hX hM hw ht hs
    have hk := hk (.inr hp)
    obtain ⟨a', e', h1, rfl, -⟩ := sys_of_dev hm hs
    refine ⟨a', h1, .rv hp ?_⟩
    have hd : a.lib.drv = true := hS.drv
    rcases hk with rfl | rfl
    · simp only [masterSysStep, masterStep, if_pos hd, ok_bind, pure_eq, Except.ok.injEq, Prod.mk.injEq] at h1
      rw [← h1.1]; exact hc
    · simp only [masterSysStep, MOp.isMain, Bool.true_eq_false, if_false, masterStep, ok_bind, masterSends, Except.ok.injEq, Prod.mk.injEq] at h1
      rw [← h1.1]
      show (if _ then _ else _ : Master).crcf = _
      split <;> exact hc
  | post hl hp hit =>
    rename_i e n
    have hw : d.pc.waits = false := by cases hpc : d.pc <;> rw [hpc] at hl hp <;> simp [MPc.late, MPc.waits] at hl hp ⊢
    have ht : d.pc ≠ .trTest := by intro h; rw [h] at hl; cases hl
    obtain ⟨hmild, -⟩ := irq_mild hS hm hA hX hM hw ht hs
    obtain ⟨-, k2, k3, k4, k5⟩ := late_iter hl hS.drv hmild hit
    have e1 := mild_step (cfg := cfg) hS.drv hmild
    rw [hs] at e1
    obtain ⟨rfl, rfl⟩ := Prod.mk.inj (Except.ok.inj e1)
    have e2 := mild_step (cfg := cfg) k5 k4
    obtain ⟨a', e', h1, h2, -⟩ := sys_of_dev hm e2
    refine ⟨a', by rw [h1, k3], .post (n := n) (e := e') ?_ ?_ ?_⟩
    · cases hmild <;> exact hl
    · cases hmild <;> exact hp
    · rw [k2, h2]
  | pre hpre =>
    rename_i e
    have hsame := hpre.same
    by_cases hg : d.pc = .enter ∨ d.pc = .trTest ∨ d.pc = .wtT15
    · rcases hg with hg | hg | hg
      · have := hsame.1 hg
        subst this
        obtain ⟨a', e', h1, rfl, -⟩ := sys_of_dev hm hs
        exact ⟨a', h1, .pre (e := e') .refl⟩
      · obtain ⟨rfl, hst⟩ := hsame.2.1 hg
        obtain ⟨a', e', h1, rfl, he⟩ := sys_of_dev hm hs
        exact ⟨a', h1, .pre (e := e') (pre_trTest (he.trans hst))⟩
      · obtain ⟨rfl, hst⟩ := hsame.2.2.1 hg
        obtain ⟨a', e', h1, rfl, he⟩ := sys_of_dev hm hs
        exact ⟨a', h1, .pre (e := e') (pre_wtT15 (he.trans hst))⟩
    · by_cases hwt : d.pc = .wtTimer
      · obtain ⟨rfl, hst, h15, htm⟩ := hsame.2.2.2.1 hwt
        obtain ⟨ht2, hr⟩ := hW rfl rfl
        have hr : a.rtof = false := hr
        have hd : a.lib.drv = true := hS.drv
        obtain ⟨a', e', h1, rfl, he⟩ := sys_of_dev hm hs
        refine ⟨a', h1, .pre (e := e') (pre_wtTimer (he.trans hst) ?_ ?_)⟩
        all_goals
          cases h with
          | main op =>
            cases hm op rfl
            have h2 : a.lib.timer = 2 := (hT rfl rfl rfl).2
            simp only [masterSysStep, MOp.isMain, Bool.true_eq_false, if_false, masterStep, ok_bind, masterSends, Except.ok.injEq, Prod.mk.injEq] at h1
            rw [if_pos (by rw [h2]; simp)] at h1
            rw [← h1.1]
            first
              | exact h15
              | (left; show a.lib.timer - 1 = 1; omega)
          | rto => have := (hA rfl).timer; omega
          | timer =>
            simp only [masterSysStep, masterStep, if_pos hd, ok_bind, pure_eq, Except.ok.injEq, Prod.mk.injEq] at h1
            rw [← h1.1]
            first | exact h15 | exact htm
          | usart rx t =>
            cases rx with
            | some b => have := (hA rfl).timer; omega
            | none =>
              exfalso
              rcases hX t rfl with h | h
              · have h : a.rtof = true := h
                rw [hr] at h; cases h
              · rcases hS.txe h with h | h
                · cases h
                · rcases hS.txf h with h | ⟨h, -⟩ <;> cases h
      · have hw : d.pc.waits = false := by
          have h0 := hpre.ne_out (by simp)
          cases hpc : d.pc <;> rw [hpc] at hg hwt h0 <;> first | rfl | (exfalso; simp at hg hwt h0)
        have ht : d.pc ≠ .trTest := fun h => hg (.inr (.inl h))
        obtain ⟨hmild, hk⟩ := irq_mild hS hm hA hX hM hw ht hs
        have hk := hk (.inl (hpre.late rfl))
        have hk' : h = .timer ∨ h = .main .tick ∧ d.pc.expiring = false := by
          rcases hk with h | h
          · exact .inl h
          · refine .inr ⟨h, ?_⟩
            cases he : d.pc.expiring with
            | false => rfl
            | true => exact absurd (hT rfl h he).1 hwt
        have hp2 := hpre.mild rfl hk'
        have e1 := mild_step (cfg := cfg) hS.drv hmild
        rw [hs] at e1
        obtain ⟨rfl, rfl⟩ := Prod.mk.inj (Except.ok.inj e1)
        have hd0 : a.lib.drv = true := by
          have key : ∀ {d0 d : MasterPcDev}, MPre cfg d0 d → d0.pc.late = false → d.dev.sys.lib.drv = d0.dev.sys.lib.drv := by
            intro d0 d h h0
            induction h with
            | refl => rfl
            | step k h1 h2 h3 ih => exact ((pre_late (k.late h0) h1 h2 h3).2.1).trans ih
          exact (key hpre rfl).symm.trans hS.drv
        have hm0 : Mild (mat a a.txMsg .enter e) h := by
          rcases hk with rfl | rfl
          · exact .timer
          · exact .tick
        have e2 := mild_step (cfg := cfg) (d := mat a a.txMsg .enter e) hd0 hm0
        obtain ⟨a', e', h1, h2, -⟩ := sys_of_dev hm e2
        rw [h2] at hp2
        refine ⟨a', ?_, .pre hp2⟩
        rw [h1]
        rcases hk with rfl | rfl <;> rfl

end

end Modbus
