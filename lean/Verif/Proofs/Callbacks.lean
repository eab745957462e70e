import Verif.Proofs.Master
import Verif.Proofs.MasterHist
import Verif.Spec.Callbacks

/-! Proof machinery for C80: a poll whose callbacks make request calls is those calls followed by the poll. -/

namespace Modbus

open Spec

/-- What request calls leave alone while message `i` is the current one. -/
def KeptBy (i : Nat) (s s' : Master) : Prop :=
  s' = { s with freeQ := s'.freeQ, txQ := s'.txQ, msgs := s'.msgs } ∧ s'.msgs i = s.msgs i

theorem KeptBy.rfl' (i : Nat) (s : Master) : KeptBy i s s := ⟨rfl, rfl⟩

theorem KeptBy.trans {i : Nat} {a b c : Master} (h1 : KeptBy i a b) (h2 : KeptBy i b c) : KeptBy i a c := by
  obtain ⟨x1, y1⟩ := h1
  obtain ⟨x2, y2⟩ := h2
  refine ⟨?_, by rw [y2, y1]⟩
  rw [x1] at x2
  exact x2

theorem genReq_kept {cfg : Config} {s s' : Master} {p : ReqParam} {c : ReqRet} (h : generateRequest cfg s p = .ok (c, s')) {i : Nat}
    (hi : ∀ q, s.freeQ.pop cfg.queueItems ≠ .ok (some i, q)) : KeptBy i s s' := by
  unfold generateRequest at h
  obtain ⟨⟨x, fq⟩, h1, h⟩ := bind_ok h
  cases x with
  | none =>
    simp only [pure_eq, Except.ok.injEq, Prod.mk.injEq] at h
    rw [← h.2]; exact ⟨rfl, rfl⟩
  | some j =>
    have hji : i ≠ j := fun e => hi fq (by rw [h1, e])
    simp only at h
    obtain ⟨⟨r, m⟩, h2, h⟩ := bind_ok h
    simp only at h
    split at h
    · simp only [pure_eq, Except.ok.injEq, Prod.mk.injEq] at h
      rw [← h.2]; exact ⟨rfl, setMsg_ne _ _ hji⟩
    · obtain ⟨⟨r2, b, l⟩, h3, h⟩ := bind_ok h
      simp only at h
      split at h
      · simp only [pure_eq, Except.ok.injEq, Prod.mk.injEq] at h
        rw [← h.2]; exact ⟨rfl, setMsg_ne _ _ hji⟩
      · obtain ⟨⟨tq, y⟩, h4, h⟩ := bind_ok h
        simp only [pure_eq, Except.ok.injEq, Prod.mk.injEq] at h
        rw [← h.2]; exact ⟨rfl, setMsg_ne _ _ hji⟩

theorem genReq_repeat {cfg : Config} {s s' : Master} {p : ReqParam} {c : ReqRet} (n : U8) (h : generateRequest cfg s p = .ok (c, s')) :
    generateRequest cfg { s with repeatCnt := n } p = .ok (c, { s' with repeatCnt := n }) := by
  unfold generateRequest at h ⊢
  obtain ⟨⟨x, fq⟩, h1, h⟩ := bind_ok h
  simp only [h1, ok_bind]
  cases x with
  | none =>
    simp only [pure_eq, Except.ok.injEq, Prod.mk.injEq] at h ⊢
    rw [← h.2]; exact ⟨h.1, rfl⟩
  | some j =>
    simp only at h ⊢
    obtain ⟨⟨r, m⟩, h2, h⟩ := bind_ok h
    simp only [h2, ok_bind] at h ⊢
    split at h
    · rename_i hr
      rw [if_pos hr]
      simp only [pure_eq, Except.ok.injEq, Prod.mk.injEq] at h ⊢
      rw [← h.2]; exact ⟨h.1, rfl⟩
    · rename_i hr
      rw [if_neg hr]
      obtain ⟨⟨r2, b, l⟩, h3, h⟩ := bind_ok h
      simp only [h3, ok_bind] at h ⊢
      split at h
      · rename_i hr2
        rw [if_pos hr2]
        simp only [pure_eq, Except.ok.injEq, Prod.mk.injEq] at h ⊢
        rw [← h.2]; exact ⟨h.1, rfl⟩
      · rename_i hr2
        rw [if_neg hr2]
        obtain ⟨⟨tq, y⟩, h4, h⟩ := bind_ok h
        simp only [h4, ok_bind] at h ⊢
        simp only [pure_eq, Except.ok.injEq, Prod.mk.injEq] at h ⊢
        rw [← h.2]; exact ⟨h.1, rfl⟩

theorem pop_not_cur {cfg : Config} (hw : cfg.MWF) {s : Master} {g : Ghost} (h : MInv cfg s g) {i c : Nat} {r : MReq} (hc : g.cur = some (i, r, c)) (q : Queue Nat) :
    s.freeQ.pop cfg.queueItems ≠ .ok (some i, q) := by
  have hnd := h.nodup
  have hf := h.free
  intro hp
  cases hfl : g.fl with
  | nil =>
    rw [hfl] at hf
    rw [hf.pop_nil] at hp
    cases hp
  | cons j fl =>
    rw [hfl] at hf hnd
    obtain ⟨fq, e1, -⟩ := hf.pop_cons hw.qle
    rw [e1] at hp
    cases hp
    simp [List.nodup_append, Ghost.curIdx, hc] at hnd

/-- What is known about a run of request calls from `s` with the values `rets` returned. -/
structure Made (cfg : Config) (i : Nat) (s s' : Master) (cur : Option (Nat × MReq × Nat)) (rs : List MReq) (rets : List MOut) : Prop where
  run : masterRun cfg s (rs.map .request) = .ok (s', List.zipWith (fun r x => (MOp.request r, [x])) rs rets)
  len : rets.length = rs.length
  ret : ∀ x ∈ rets, isRetOut x = true
  kept : KeptBy i s s'
  inv : ∃ g', MInv cfg s' g' ∧ g'.cur = cur
  full : cfg.queueItems = 1 → ∀ x ∈ rets, x = .ret .freeQueueEmpty

theorem run_append_ok {cfg : Config} {l1 l2 : List MOp} {s s1 s2 : Master} {t1 t2 : MTrace} (h1 : masterRun cfg s l1 = .ok (s1, t1))
    (h2 : masterRun cfg s1 l2 = .ok (s2, t2)) : masterRun cfg s (l1 ++ l2) = .ok (s2, t1 ++ t2) := by
  induction l1 generalizing s t1 with
  | nil => cases h1; exact h2
  | cons op l ih =>
    simp only [masterRun] at h1
    obtain ⟨⟨s3, o⟩, h3, h1⟩ := bind_ok h1
    obtain ⟨⟨s4, t4⟩, h4, h1⟩ := bind_ok h1
    simp only [pure_eq, Except.ok.injEq, Prod.mk.injEq] at h1
    obtain ⟨rfl, rfl⟩ := h1
    simp only [List.cons_append, masterRun, h3, ok_bind, ih h4, pure_eq]

theorem Made.append {cfg : Config} {i : Nat} {a b c : Master} {cur : Option (Nat × MReq × Nat)} {rs1 rs2 : List MReq} {o1 o2 : List MOut}
    (h1 : Made cfg i a b cur rs1 o1) (h2 : Made cfg i b c cur rs2 o2) : Made cfg i a c cur (rs1 ++ rs2) (o1 ++ o2) where
  run := by
    rw [List.map_append, List.zipWith_append h1.len.symm]
    exact run_append_ok h1.run h2.run
  len := by simp [h1.len, h2.len]
  ret := by
    intro x hx
    rcases List.mem_append.1 hx with h | h
    · exact h1.ret x h
    · exact h2.ret x h
  kept := h1.kept.trans h2.kept
  inv := h2.inv
  full := by
    intro hN x hx
    rcases List.mem_append.1 hx with h | h
    · exact h1.full hN x h
    · exact h2.full hN x h

/-- Request calls made inside a callback always come back, and are request calls. -/
theorem appCalls_made {cfg : Config} (hw : cfg.MWF) {i c : Nat} {r0 : MReq} : ∀ (rs : List MReq), (∀ r ∈ rs, QtyOk r → DataOk r) → ∀ {s : Master} {g : Ghost},
    MInv cfg s g → g.cur = some (i, r0, c) →
    ∃ s' o, appCalls cfg s (rs.map .request) = .ok (s', o) ∧ Made cfg i s s' g.cur rs o := by
  intro rs
  induction rs with
  | nil => intro _ s g h _; exact ⟨s, [], rfl, rfl, rfl, by simp, KeptBy.rfl' _ _, ⟨g, h, rfl⟩, by simp⟩
  | cons r rs ih =>
    intro hd s g h hc
    obtain ⟨s1, o1, g1, k1, k2, k3⟩ := request_inv hw h r (hd r (by simp))
    have hcur : g1.cur = g.cur := by
      generalize hop : MOp.request r = op at k3
      cases k3 <;> first | rfl | cases hop
    have hst := k1
    have hfull : cfg.queueItems = 1 → ∀ x ∈ o1, x = .ret .freeQueueEmpty := by
      intro hN
      have hl := h.lengths
      have hfl : g.fl = [] := by
        have : g.curIdx.length = 1 := by simp [Ghost.curIdx, hc]
        exact List.length_eq_zero_iff.1 (by omega)
      clear hst k1
      generalize hop : MOp.request r = op at k3
      cases k3 with
      | accept _ _ _ h' _ => rw [hfl] at h'; cases h'
      | refuse _ _ _ h' _ => rw [hfl] at h'; cases h'
      | full _ _ => intro x hx; simpa using hx
      | silent _ hn => intro x hx; cases hx
      | start => cases hop
      | again => cases hop
      | finish => cases hop
    simp only [masterStep] at k1
    obtain ⟨⟨c1, s1'⟩, k4, k1⟩ := bind_ok k1
    simp only [pure_eq, Except.ok.injEq, Prod.mk.injEq] at k1
    obtain ⟨rfl, rfl⟩ := k1
    obtain ⟨s2, o2, j1, j2⟩ := ih (fun x hx => hd x (by simp [hx])) k2 (hcur.trans hc)
    rw [hcur] at j2
    refine ⟨s2, .ret c1 :: o2, by simp only [List.map_cons, appCalls, k4, ok_bind, j1, pure_eq], ?_⟩
    have m1 : Made cfg i s s1' g.cur [r] [.ret c1] := ⟨by simp only [List.map_cons, List.map_nil, masterRun, hst, ok_bind, pure_eq]; rfl, rfl,
      by intro x hx; simp only [List.mem_singleton] at hx; rw [hx]; rfl, genReq_kept k4 (pop_not_cur hw h hc), ⟨g1, k2, hcur⟩, hfull⟩
    exact m1.append j2

/-- The outputs of a part of a poll: callbacks `evs` and returned values `rets`, somehow interleaved. -/
structure Woven (w : List MOut) (evs : List MEvent) (rets : List MOut) : Prop where
  rets : w.filter isRetOut = rets
  others : w.filter (fun o => !isRetOut o) = evs.map .event

theorem Woven.append {a b : List MOut} {e f : List MEvent} {r q : List MOut} (h1 : Woven a e r) (h2 : Woven b f q) : Woven (a ++ b) (e ++ f) (r ++ q) :=
  ⟨by rw [List.filter_append, h1.rets, h2.rets], by rw [List.filter_append, h1.others, h2.others, List.map_append]⟩

theorem Woven.one (e : MEvent) {o : List MOut} (h : ∀ x ∈ o, isRetOut x = true) : Woven (.event e :: o) [e] o := by
  refine ⟨?_, ?_⟩
  · rw [List.filter_cons]
    simp only [isRetOut, Bool.false_eq_true, if_false]
    exact List.filter_eq_self.2 h
  · rw [List.filter_cons]
    simp only [isRetOut, Bool.not_false, if_true, List.map_cons, List.map_nil]
    rw [List.filter_eq_nil_iff.2]
    intro x hx
    show ¬ (!isRetOut x) = true
    rw [h x hx]; decide

/-- The state in the middle of a poll that has made callbacks `evs` so far. -/
structure MidPoll (cfg : Config) (i : Nat) (s : Master) (cur : Option (Nat × MReq × Nat)) (sc : List (List MReq)) (evs : List MEvent) (x : CbState) : Prop where
  script : x.script = calls (sc.drop evs.length)
  made : ∃ rets, Made cfg i s x.lib cur (sc.take evs.length).flatten rets ∧ Woven x.out evs rets

def ScriptOk (sc : List (List MReq)) : Prop := ∀ rs ∈ sc, ∀ r ∈ rs, QtyOk r → DataOk r

theorem callback_mid {cfg : Config} (hw : cfg.MWF) {i c : Nat} {r0 : MReq} {s : Master} {sc : List (List MReq)} (hsc : ScriptOk sc) {evs : List MEvent}
    {x : CbState} (h : MidPoll cfg i s (some (i, r0, c)) sc evs x) (e : MEvent) :
    ∃ x', callback cfg e x = .ok x' ∧ MidPoll cfg i s (some (i, r0, c)) sc (evs ++ [e]) x' := by
  obtain ⟨hs, rets, hm, hv⟩ := h
  obtain ⟨g, hi, hcur⟩ := hm.inv
  have hhead : ∃ rs, x.script.headD [] = rs.map .request ∧ (∀ r ∈ rs, QtyOk r → DataOk r) ∧ rs = (sc.drop evs.length).headD [] := by
    refine ⟨(sc.drop evs.length).headD [], ?_, ?_, rfl⟩
    · rw [hs]; cases sc.drop evs.length <;> rfl
    · intro r hr
      cases hd : sc.drop evs.length with
      | nil => rw [hd] at hr; cases hr
      | cons a l =>
        rw [hd] at hr
        exact hsc a (List.mem_of_mem_drop (by rw [hd]; exact List.mem_cons_self)) r hr
  obtain ⟨rs, h1, h2, h3⟩ := hhead
  obtain ⟨s', o, k1, k2⟩ := appCalls_made hw rs h2 hi hcur
  rw [hcur] at k2
  refine ⟨{ lib := s', script := x.script.tail, out := x.out ++ .event e :: o }, by simp only [callback, h1, k1, ok_bind, pure_eq], ?_, ?_⟩
  · show x.script.tail = _
    rw [hs, List.length_append, List.length_singleton, ← List.drop_drop]
    cases sc.drop evs.length <;> rfl
  · refine ⟨rets ++ o, ?_, hv.append (.one e k2.ret)⟩
    have ht : (sc.take (evs ++ [e]).length).flatten = (sc.take evs.length).flatten ++ rs := by
      rw [h3, List.length_append, List.length_singleton, List.take_add, List.flatten_append]
      congr 1
      cases sc.drop evs.length <;> simp
    rw [ht]
    exact hm.append k2

theorem callbacks_mid {cfg : Config} (hw : cfg.MWF) {i c : Nat} {r0 : MReq} {s : Master} {sc : List (List MReq)} (hsc : ScriptOk sc) (es : List MEvent) :
    ∀ {evs : List MEvent} {x : CbState}, MidPoll cfg i s (some (i, r0, c)) sc evs x →
    ∃ x', callbacks cfg es x = .ok x' ∧ MidPoll cfg i s (some (i, r0, c)) sc (evs ++ es) x' := by
  induction es with
  | nil => intro evs x h; exact ⟨x, rfl, by rw [List.append_nil]; exact h⟩
  | cons e es ih =>
    intro evs x h
    obtain ⟨x1, k1, k2⟩ := callback_mid hw hsc h e
    obtain ⟨x2, k3, k4⟩ := ih k2
    refine ⟨x2, by simp only [callbacks, k1, ok_bind, k3], ?_⟩
    rw [List.append_assoc] at k4
    exact k4

/-- The delivering loops: if the loop of the base model yields `evs`, the loop with callbacks makes these callbacks; if it fails, so does the other. -/
theorem loop_mid {cfg : Config} (hw : cfg.MWF) {i c : Nat} {r0 : MReq} {s : Master} {sc : List (List MReq)} (hsc : ScriptOk sc)
    (f : Nat → Buf → C MEvent) (body : Nat → List MEvent → C (Ctl (List MEvent) Empty)) (bodyCb : Nat → CbState → C (Ctl CbState Empty))
    (hb : ∀ k out, body k out = (do let e ← f k (s.msgs i).resp; return .next (out ++ [e])))
    (hbc : ∀ k x, bodyCb k x = (do let e ← f k (x.lib.msgs i).resp; let x ← callback cfg e x; return .next x)) :
    ∀ (n k : Nat) (out evs : List MEvent) (x : CbState), MidPoll cfg i s (some (i, r0, c)) sc evs x →
      (∃ u, forLoop body n k out = .error u ∧ forLoop bodyCb n k x = .error u) ∨
      (∃ es x', forLoop body n k out = .ok (.next (out ++ es)) ∧ forLoop bodyCb n k x = .ok (.next x') ∧
        MidPoll cfg i s (some (i, r0, c)) sc (evs ++ es) x') := by
  intro n
  induction n with
  | zero => intro k out evs x h; exact .inr ⟨[], x, by rw [List.append_nil]; rfl, rfl, by rw [List.append_nil]; exact h⟩
  | succ n ih =>
    intro k out evs x h
    have hm : x.lib.msgs i = s.msgs i := by obtain ⟨-, rets, h1, -⟩ := h; exact h1.kept.2
    simp only [forLoop, hb, hbc, hm]
    cases hf : f k (s.msgs i).resp with
    | error u => exact .inl ⟨u, rfl, rfl⟩
    | ok e =>
      obtain ⟨x1, k1, k2⟩ := callback_mid hw hsc h e
      simp only [ok_bind, k1, pure_eq]
      rcases ih (k + 1) (out ++ [e]) (evs ++ [e]) x1 k2 with ⟨u, j1, j2⟩ | ⟨es, x2, j1, j2, j3⟩
      · exact .inl ⟨u, j1, j2⟩
      · refine .inr ⟨e :: es, x2, ?_, j2, ?_⟩
        · rw [j1, List.append_assoc]; rfl
        · rw [List.append_assoc] at j3; exact j3

/-- The same for one bit or register loop. -/
def EventsOf (cfg : Config) (i : Nat) (s : Master) (cur : Option (Nat × MReq × Nat)) (sc : List (List MReq)) (evs : List MEvent) (a : C (List MEvent)) (b : C CbState) : Prop :=
  (∃ u, a = .error u ∧ b = .error u) ∨ ∃ es x', a = .ok es ∧ b = .ok x' ∧ MidPoll cfg i s cur sc (evs ++ es) x'

section
variable {cfg : Config} {i c : Nat} {r0 : MReq} {s : Master} {sc : List (List MReq)}

theorem bits_mid (hw : cfg.MWF) (hsc : ScriptOk sc) {evs : List MEvent} {x : CbState} (h : MidPoll cfg i s (some (i, r0, c)) sc evs x) (qty adr : U16)
    (ev : U16 → Bool → MEvent) :
    EventsOf cfg i s (some (i, r0, c)) sc evs (deliverBits qty (s.msgs i).resp ev adr) (deliverBitsCb cfg qty i ev adr x) := by
  have := loop_mid hw hsc (fun k b => do let y ← rd b (idxRespReadData + k / 8); return ev (adr + BitVec.ofNat 16 k) (decide (y &&& BitVec.ofNat 8 (2 ^ (k % 8)) ≠ 0)))
    (deliverBitBody (s.msgs i).resp ev adr) (deliverBitBodyCb cfg i ev adr)
    (by
      intro k out
      unfold deliverBitBody
      cases rd (s.msgs i).resp (idxRespReadData + k / 8) with
      | error u => rfl
      | ok y =>
        simp only [ok_bind, pure_eq]
        split <;> rename_i hy
        · rw [decide_eq_true hy]
        · rw [decide_eq_false hy])
    (by
      intro k x
      unfold deliverBitBodyCb
      cases rd (x.lib.msgs i).resp (idxRespReadData + k / 8) with
      | error u => rfl
      | ok y =>
        simp only [ok_bind, pure_eq]
        split <;> rename_i hy
        · rw [decide_eq_true hy]
        · rw [decide_eq_false hy])
    qty.toNat 0 [] evs x h
  unfold deliverBits deliverBitsCb
  rcases this with ⟨u, j1, j2⟩ | ⟨es, x', j1, j2, j3⟩
  · exact .inl ⟨u, by rw [j1]; rfl, by rw [j2]; rfl⟩
  · exact .inr ⟨es, x', by rw [j1]; rfl, by rw [j2]; rfl, j3⟩

theorem regs_mid (hw : cfg.MWF) (hsc : ScriptOk sc) {evs : List MEvent} {x : CbState} (h : MidPoll cfg i s (some (i, r0, c)) sc evs x) (qty adr : U16)
    (ev : U16 → U16 → MEvent) :
    EventsOf cfg i s (some (i, r0, c)) sc evs (deliverRegs qty (s.msgs i).resp ev adr) (deliverRegsCb cfg qty i ev adr x) := by
  have := loop_mid hw hsc (fun k b => do let y ← readU16 b (idxRespReadData + k * 2); return ev (adr + BitVec.ofNat 16 k) y)
    (deliverRegBody (s.msgs i).resp ev adr) (deliverRegBodyCb cfg i ev adr)
    (by
      intro k out
      unfold deliverRegBody
      cases readU16 (s.msgs i).resp (idxRespReadData + k * 2) <;> rfl)
    (by
      intro k x
      unfold deliverRegBodyCb
      cases readU16 (x.lib.msgs i).resp (idxRespReadData + k * 2) <;> rfl)
    qty.toNat 0 [] evs x h
  unfold deliverRegs deliverRegsCb
  rcases this with ⟨u, j1, j2⟩ | ⟨es, x', j1, j2, j3⟩
  · exact .inl ⟨u, by rw [j1]; rfl, by rw [j2]; rfl⟩
  · exact .inr ⟨es, x', by rw [j1]; rfl, by rw [j2]; rfl, j3⟩

/-- Only the events of a status with events. -/
def evOnly (a : C (Ret × List MEvent)) : C (List MEvent) := do
  let (_, ev) ← a
  return ev

theorem EventsOf.err {evs : List MEvent} {a : C (List MEvent)} {b : C CbState} {cur : Option (Nat × MReq × Nat)} (u : UB) (h1 : a = .error u) (h2 : b = .error u) :
    EventsOf cfg i s cur sc evs a b := .inl ⟨u, h1, h2⟩

theorem update_mid (hw : cfg.MWF) (hsc : ScriptOk sc) {evs : List MEvent} {x : CbState} (h : MidPoll cfg i s (some (i, r0, c)) sc evs x) :
    EventsOf cfg i s (some (i, r0, c)) sc evs (evOnly (updateMasterData (s.msgs i))) (updateMasterDataCb cfg i x) := by
  have hm : x.lib.msgs i = s.msgs i := by obtain ⟨-, rets, h1, -⟩ := h; exact h1.kept.2
  unfold updateMasterData updateMasterDataCb evOnly
  rw [hm]
  cases rd (s.msgs i).resp idxSlaveAdr with
  | error u => exact .err u rfl rfl
  | ok slave =>
  cases rd (s.msgs i).resp idxFunctionCode with
  | error u => exact .err u rfl rfl
  | ok fc =>
  cases readU16 (s.msgs i).req idxRequestAdr with
  | error u => exact .err u rfl rfl
  | ok adr =>
  cases readU16 (s.msgs i).req idxRequestQty with
  | error u => exact .err u rfl rfl
  | ok qty =>
    simp only [ok_bind]
    have fin : ∀ (a : C (List MEvent)) (b : C CbState), EventsOf cfg i s (some (i, r0, c)) sc evs a b →
        EventsOf cfg i s (some (i, r0, c)) sc evs (do let (_, ev) ← (do let l ← a; return (RET_OK, l) : C (Ret × List MEvent)); return ev) b := by
      intro a b hab
      rcases hab with ⟨u, rfl, rfl⟩ | ⟨es, x', rfl, rfl, j⟩
      · exact .inl ⟨u, rfl, rfl⟩
      · exact .inr ⟨es, x', rfl, rfl, j⟩
    split
    · exact fin _ _ (bits_mid hw hsc h _ _ _)
    · split
      · exact fin _ _ (bits_mid hw hsc h _ _ _)
      · split
        · exact fin _ _ (regs_mid hw hsc h _ _ _)
        · split
          · exact fin _ _ (regs_mid hw hsc h _ _ _)
          · exact .inr ⟨[], x, rfl, rfl, by rw [List.append_nil]; exact h⟩

theorem cbs_mid (hw : cfg.MWF) (hsc : ScriptOk sc) {evs : List MEvent} {x : CbState} (h : MidPoll cfg i s (some (i, r0, c)) sc evs x) (a : C (Ret × List MEvent)) :
    EventsOf cfg i s (some (i, r0, c)) sc evs (evOnly a) (do let (_, es) ← a; callbacks cfg es x) := by
  cases a with
  | error u => exact .err u rfl rfl
  | ok y =>
    obtain ⟨r, es⟩ := y
    obtain ⟨x', k1, k2⟩ := callbacks_mid hw hsc es h
    exact .inr ⟨es, x', rfl, k1, k2⟩

theorem mapper_mid (hw : cfg.MWF) (hsc : ScriptOk sc) {evs : List MEvent} {x : CbState} (h : MidPoll cfg i s (some (i, r0, c)) sc evs x) (fc : U8) :
    EventsOf cfg i s (some (i, r0, c)) sc evs (evOnly (respMapperLoop (s.msgs i) fc respMapper)) (respMapperLoopCb cfg i fc x respMapperCb) := by
  have hm : x.lib.msgs i = s.msgs i := by obtain ⟨-, rets, h1, -⟩ := h; exact h1.kept.2
  have hu := update_mid hw hsc h
  have hr : EventsOf cfg i s (some (i, r0, c)) sc evs (evOnly (reportWriteConfirmation (s.msgs i))) (reportWriteConfirmationCb cfg i x) := by
    unfold reportWriteConfirmationCb
    rw [hm]
    exact cbs_mid hw hsc h _
  simp only [respMapper, respMapperCb, respMapperLoop, respMapperLoopCb]
  repeat' split
  all_goals first | exact hu | exact hr | exact .inr ⟨[], x, rfl, rfl, by rw [List.append_nil]; exact h⟩

theorem resp_mid (hw : cfg.MWF) (hsc : ScriptOk sc) {evs : List MEvent} {x : CbState} (h : MidPoll cfg i s (some (i, r0, c)) sc evs x) :
    EventsOf cfg i s (some (i, r0, c)) sc evs (evOnly (readSlaveResp s.dataSet (s.msgs i))) (readSlaveRespCb cfg i x) := by
  have hk : KeptBy i s x.lib := by obtain ⟨-, rets, h1, -⟩ := h; exact h1.kept
  have hm := hk.2
  have hds : x.lib.dataSet = s.dataSet := by rw [hk.1]
  unfold readSlaveResp readSlaveRespCb processExceptionCb processResponse
  rw [hm, hds]
  split
  · exact .inr ⟨[], x, rfl, rfl, by rw [List.append_nil]; exact h⟩
  · cases respContainsException (s.msgs i) with
    | error u => exact .err u rfl rfl
    | ok b =>
      simp only [ok_bind]
      cases b with
      | true => exact cbs_mid hw hsc h _
      | false =>
        simp only [Bool.false_eq_true, if_false]
        cases rd (s.msgs i).req idxFunctionCode with
        | error u => exact .err u rfl rfl
        | ok fc =>
          simp only [ok_bind]
          exact mapper_mid hw hsc h fc

end

end Modbus
