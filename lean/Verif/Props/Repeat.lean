import Verif.Props.EndToEnd

/-! C89: a request that is executed again does no harm. The master repeats a request whose response was damaged; the slave cannot know and executes it again. -/

namespace Modbus
open Spec

theorem storeAll_again {α : Type} (t : Table) (adr : Nat) (v : Nat → α) (h : Ptr → α) (n : Nat) :
    storeAll t adr v (storeAll t adr v h n) n = storeAll t adr v h n := by
  have key : ∀ k, k ≤ n → ∀ p, (∃ i, i < k ∧ t (adr + i) = some p) → ∀ g g' : Ptr → α, storeAll t adr v g k p = storeAll t adr v g' k p := by
    intro k
    induction k with
    | zero => rintro - p ⟨i, hi, -⟩; omega
    | succ k ih =>
      rintro hk p ⟨i, hi, hp⟩ g g'
      rw [storeAll_succ, storeAll_succ]
      cases ht : t (adr + k) with
      | none =>
        refine ih (by omega) p ⟨i, ?_, hp⟩ g g'
        rcases Nat.lt_succ_iff_lt_or_eq.1 hi with h | h
        · exact h
        · rw [h, ht] at hp; cases hp
      | some q =>
        by_cases hpq : p = q
        · simp only [if_pos hpq]
        · simp only [if_neg hpq]
          refine ih (by omega) p ⟨i, ?_, hp⟩ g g'
          rcases Nat.lt_succ_iff_lt_or_eq.1 hi with h | h
          · exact h
          · rw [h, ht] at hp; cases hp; exact absurd rfl hpq
  funext p
  by_cases hp : ∃ i, i < n ∧ t (adr + i) = some p
  · exact key n (Nat.le_refl n) p hp _ _
  · exact storeAll_other t adr v _ n p (fun i hi h => hp ⟨i, hi, h⟩)

theorem effect_tables4 (l : Limits) (m : AppMem) (r : Request) :
    (effect l m r).coils = m.coils ∧ (effect l m r).dins = m.dins ∧ (effect l m r).hregs = m.hregs ∧ (effect l m r).inregs = m.inregs := by
  cases r <;> unfold effect <;> dsimp only <;> (try split) <;> exact ⟨rfl, rfl, rfl, rfl⟩

/-- Which exception is due depends on the tables only. -/
theorem exceptionFor_tables {l : Limits} {m m' : AppMem} (h : m'.coils = m.coils ∧ m'.dins = m.dins ∧ m'.hregs = m.hregs ∧ m'.inregs = m.inregs) (r : Request) :
    exceptionFor l m' r = exceptionFor l m r := by
  obtain ⟨h1, h2, h3, h4⟩ := h
  cases r with
  | readBits t a q => cases t <;> simp only [exceptionFor, BitTab.table, h1, h2] <;> rfl
  | readRegs t a q => cases t <;> simp only [exceptionFor, RegTab.table, h3, h4] <;> rfl
  | _ => simp only [exceptionFor, h1, h3] <;> rfl

theorem effect_again (l : Limits) (m : AppMem) (r : Request) : effect l (effect l m r) r = effect l m r := by
  have he := exceptionFor_tables (effect_tables4 l m r) (l := l) r
  have ht := effect_tables4 l m r
  generalize hm : effect l m r = m' at *
  cases r with
  | writeCoil a v =>
    simp only [effect] at hm ⊢
    rw [he]
    split at hm
    · rename_i hx
      rw [if_pos hx, ← hm]
      simp only [storeAll_again]
    · rename_i hx
      rw [if_neg hx]
  | writeReg a v =>
    simp only [effect] at hm ⊢
    rw [he]
    split at hm
    · rename_i hx
      rw [if_pos hx, ← hm]
      simp only [storeAll_again]
    · rename_i hx
      rw [if_neg hx]
  | writeCoils a q bc v =>
    simp only [effect] at hm ⊢
    rw [he]
    split at hm
    · rename_i hx
      rw [if_pos hx, ← hm]
      simp only [storeAll_again]
    · rename_i hx
      rw [if_neg hx]
  | writeRegs a q bc v =>
    simp only [effect] at hm ⊢
    rw [he]
    split at hm
    · rename_i hx
      rw [if_pos hx, ← hm]
      simp only [storeAll_again]
    · rename_i hx
      rw [if_neg hx]
  | _ => rfl

theorem respond_again (l : Limits) (m : AppMem) (r : Request) : respond l (effect l m r) r = respond l m r := by
  have he := exceptionFor_tables (effect_tables4 l m r) (l := l) r
  unfold respond
  rw [he]
  cases exceptionFor l m r with
  | some c => rfl
  | none => cases r <;> rfl

theorem outcome_again (l : Limits) (m : AppMem) (r : MReq) : outcome l (effect l m (asRequest r)) r = outcome l m r := by
  have he := exceptionFor_tables (effect_tables4 l m (asRequest r)) (l := l) (asRequest r)
  unfold outcome
  rw [he]
  cases exceptionFor l m (asRequest r) with
  | some c => rfl
  | none => cases r <;> rfl

/-- **C89**, one request. Executed a second time, on the data as the first execution left it, a request is answered with the same bytes and changes nothing:
whatever the request, the registrations, the aliasing, and whatever else has happened to the buffers. -/
theorem C89_repeat_same_answer {cfg : Config} (hc : cfg.WF) {s t : Pdu} {resp : List U8} {m : AppMem} (h : slaveAnswer cfg s = .ok (resp, m))
    (hreq : t.req = s.req) (hmem : t.mem = m) : slaveAnswer cfg t = .ok (resp, m) := by
  rw [slaveAnswer_eq cfg hc] at h ⊢
  simp only [Except.ok.injEq, Prod.mk.injEq] at h
  obtain ⟨h1, h2⟩ := h
  rw [hreq, hmem, ← h2, respond_again, effect_again, h1]

/-- The application and the registrations are left alone. -/
def SOp.idleApp : SOp → Bool
  | .appBool _ _ => false
  | .appReg _ _ => false
  | .register _ _ _ => false
  | _ => true

theorem appMem_idle : ∀ {ops : List SOp} (m : AppMem), (∀ op ∈ ops, op.idleApp = true) → appMem m ops = m
  | [], _, _ => rfl
  | op :: ops, m, h => by
    have h2 : ∀ op ∈ ops, op.idleApp = true := fun o ho => h o (by simp [ho])
    have h1 := h op (by simp)
    have ih := appMem_idle m h2
    cases op <;> first | exact ih | (simp [SOp.idleApp] at h1; done)

theorem served_repeats {cfg : Config} {id : U8} {f : List U8} : ∀ {xs : List Exchange} {m m' : AppMem} {outs : List SOut},
    Served cfg.limits id m (xs.map .good) outs m' → (∀ x ∈ xs, x.frame = f) → (∀ x ∈ xs, ∀ op ∈ x.ops, op.idleApp = true) →
    outs = List.replicate xs.length (.send (rtuFrame id (encodeResponse (respond cfg.limits m (frameRequest f))))) ∧
    m' = if xs = [] then m else effect cfg.limits m (frameRequest f)
  | [], m, m', outs, h, _, _ => by cases h; exact ⟨rfl, rfl⟩
  | x :: xs, m, m', outs, h, hf, hi => by
    cases h with
    | good split after35 rest =>
      have hx := hi x (by simp)
      rw [split] at hx
      rw [appMem_idle _ (fun op ho => hx op (by simp [ho])), hf x (by simp)] at rest
      rw [appMem_idle _ (fun op ho => hx op (by simp [ho]))] at rest ⊢
      obtain ⟨r1, r2⟩ := served_repeats rest (fun y hy => hf y (by simp [hy])) (fun y hy => hi y (by simp [hy]))
      rw [respond_again] at r1
      rw [effect_again, ite_self] at r2
      rw [hf x (by simp), r1, r2]
      exact ⟨rfl, by simp⟩

/-- **C89**, the slave. A synchronised slave receives a valid frame once or more often, in any timing, while its application does not touch the data: it answers
every time with the same frame, and its data are as after a single execution. -/
theorem C89_repeats_harmless {cfg : Config} (hc : cfg.WF) {s : Slave} (hs : Sync s) {f : List U8} {xs : List Exchange} (hne : xs ≠ [])
    (hx : ∀ x ∈ xs, x.Good cfg s.id ∧ x.frame = f ∧ ∀ op ∈ x.ops, op.idleApp = true) :
    ∃ s', slaveRun cfg s (xs.flatMap Exchange.ops) = .ok (s', List.replicate xs.length
        (.send (rtuFrame s.id (encodeResponse (respond cfg.limits s.mem (frameRequest f)))))) ∧
      s'.mem = effect cfg.limits s.mem (frameRequest f) ∧ Sync s' ∧ s'.id = s.id := by
  obtain ⟨s', outs, h1, h2, h3, h4⟩ := C22_serves_all_traffic cfg hc (xs.map .good) s hs (by
    intro y hy
    obtain ⟨x, hm, rfl⟩ := List.mem_map.1 hy
    exact (hx x hm).1)
  obtain ⟨k1, k2⟩ := served_repeats h4 (fun x hm => (hx x hm).2.1) (fun x hm => (hx x hm).2.2)
  rw [if_neg hne] at k2
  have e : (xs.map Traffic.good).flatMap Traffic.ops = xs.flatMap Exchange.ops := by
    rw [List.flatMap_map]; rfl
  exact ⟨s', by rw [← e, h1, k1], k2, h2, h3⟩

theorem slave_repeats {cfg : Config} (hc : cfg.WF) {r : MReq} : ∀ {xs : List Exchange} {sl : Slave}, Sync sl → sl.id = reqSlave r → QtyOk r → DataOk r → xs ≠ [] →
    (∀ x ∈ xs, x.Timed cfg ∧ x.frame = reqFrame r ∧ ∀ op ∈ x.ops, op.idleApp = true) →
    ∃ sl', slaveRun cfg sl (xs.flatMap Exchange.ops) = .ok (sl', List.replicate xs.length
        (.send (rtuFrame (reqSlave r) (encodeResponse (respond cfg.limits sl.mem (asRequest r)))))) ∧
      sl'.mem = effect cfg.limits sl.mem (asRequest r) ∧ Sync sl'
  | [], _, _, _, _, _, hne, _ => absurd rfl hne
  | x :: xs, sl, hsy, hid, hq, hd, _, hx => by
    obtain ⟨x1, x2, x3⟩ := hx x (by simp)
    obtain ⟨pre, post, sl', k1, k2, k3, k4, k5, k6⟩ := slave_side hc hsy hid hq hd x1 x2
    rw [k1] at x3
    have e1 : appMem sl.mem pre = sl.mem := appMem_idle _ (fun op hm => x3 op (by simp [hm]))
    rw [e1, appMem_idle _ (fun op hm => x3 op (by simp [hm]))] at k6
    rw [e1] at k3
    by_cases hxs : xs = []
    · subst hxs
      exact ⟨sl', by simpa using k3, k6, k4⟩
    · obtain ⟨sl2, j1, j2, j3⟩ := slave_repeats hc k4 (by rw [k5, hid]) hq hd hxs (fun y hy => hx y (by simp [hy]))
      rw [k6, respond_again] at j1
      rw [k6, effect_again] at j2
      refine ⟨sl2, ?_, j2, j3⟩
      rw [List.flatMap_cons, List.length_cons, List.replicate_succ]
      exact slaveRun_append_ok k3 j1

/-- **C89**, end to end. The master has transmitted request `r` once and as often again as attempts have failed; the slave has heard and executed it `k` times in
vain (its responses were damaged or lost), and now its response comes through: the master's application gets the outcome of a single execution on the data as they
were before the first one, and the slave's data are as after a single execution. -/
theorem C89_retries_end_to_end {cfgM cfgS : Config} (hw : cfgM.MWF) (hc : cfgS.WF) {ops : List MOp} (ho : OpsOk ops) {s0 s s1 : Master} {tr : MTrace}
    (h : masterRun cfgM s0 (.init .rtu :: ops) = .ok (s, tr)) {fe ce : Bool} (hs : Standing fe ce s) {r : MReq} (hq : QtyOk r) (hd : DataOk r)
    (hp : masterStep cfgM s .poll = .ok (s1, [.send (reqFrame r)])) {as : List Attempt}
    (hf : Failed cfgM.respTimeout r fe ce as false false) (hl : as.length ≤ cfgM.repeatMax) {a : Attempt}
    (ha : a.Wf cfgM.respTimeout r) (hb : ¬ a.broken)
    {sl : Slave} (hsy : Sync sl) (hid : sl.id = reqSlave r) {xs : List Exchange} (hne : xs ≠ [])
    (hx : ∀ x ∈ xs, x.Timed cfgS ∧ x.frame = reqFrame r ∧ ∀ op ∈ x.ops, op.idleApp = true) :
    ∃ sl' f, slaveRun cfgS sl (xs.flatMap Exchange.ops) = .ok (sl', List.replicate xs.length (.send f)) ∧
      sl'.mem = effect cfgS.limits sl.mem (asRequest r) ∧
      (a.resp.frame = f → ∃ s' tr', masterRun cfgM s (.poll :: retries as ++ a.init ++ [.poll]) =
          .ok (s', tr' ++ [(.poll, (outcome cfgS.limits sl.mem r).map .event)]) ∧
        outs tr' = List.replicate (as.length + 1) (.send (reqFrame r)) ∧ Standing false false s') := by
  obtain ⟨sl', h1, h2, -⟩ := slave_repeats hc hsy hid hq hd hne hx
  refine ⟨sl', _, h1, h2, fun he => ?_⟩
  obtain ⟨hg, hev⟩ := response_outcome (l := cfgS.limits) (m := sl.mem) r hq
  rw [← he] at hg hev
  obtain ⟨s', tr', k1, k2, k3⟩ := transaction_succeeds hw ho h hs hq hp hf hl ha hb hg
  exact ⟨s', tr', by rw [k1, hev], k2, k3⟩

/-- The hypotheses of `C89_repeats_harmless` and `C89_retries_end_to_end` are met for every request with an allowed quantity, every slave memory and every
configuration with at least one repetition: the first response arrives damaged (only its address byte is heard), the request is transmitted and executed again, the
second response comes through. -/
theorem C89_retry_example {cfgM cfgS : Config} (hw : cfgM.MWF) (hT : 2 ≤ cfgM.respTimeout) (hR : 1 ≤ cfgM.repeatMax) (hc : cfgS.WF) {r : MReq} (hq : QtyOk r)
    (hd : DataOk r) (mem : AppMem) :
    ∃ s tr sl sl' f s' tr', masterRun cfgM Master.powerOn [.init .rtu, .request r] = .ok (s, tr) ∧
      slaveRun cfgS (Slave.powerOn mem) [.init .rtu (reqSlave r)] = .ok (sl, []) ∧
      slaveRun cfgS sl ((simpleExchange (reqFrame r)).ops ++ (simpleExchange (reqFrame r)).ops) = .ok (sl', [.send f, .send f]) ∧
      sl'.mem = effect cfgS.limits mem (asRequest r) ∧
      masterRun cfgM s (.poll :: retries [simpleAttempt [] [reqSlave r]] ++ (simpleAttempt [] f).init ++ [.poll]) =
        .ok (s', tr' ++ [(.poll, (outcome cfgS.limits mem r).map .event)]) ∧
      outs tr' = [.send (reqFrame r), .send (reqFrame r)] := by
  obtain ⟨s, tr, s1, h1, h2, h3⟩ := one_request hw Master.powerOn hq hd
  have hok : OpsOk [.request r] := by
    intro op hop
    obtain rfl := List.mem_singleton.1 hop
    exact ⟨by simp, by rintro _ ⟨⟩ _; exact hd⟩
  have hsy := sync_after_init mem (reqSlave r)
  have hmem : (slaveInit (Slave.powerOn mem) .rtu (reqSlave r)).mem = mem := rfl
  have hinit : slaveRun cfgS (Slave.powerOn mem) [.init .rtu (reqSlave r)] = .ok (slaveInit (Slave.powerOn mem) .rtu (reqSlave r), []) := rfl
  have hidv : (slaveInit (Slave.powerOn mem) .rtu (reqSlave r)).id = reqSlave r := rfl
  generalize slaveInit (Slave.powerOn mem) .rtu (reqSlave r) = sl at *
  have hxs : ∀ x ∈ [simpleExchange (reqFrame r), simpleExchange (reqFrame r)], x.Timed cfgS ∧ x.frame = reqFrame r ∧ ∀ op ∈ x.ops, op.idleApp = true := by
    intro x hx
    have hx : x = simpleExchange (reqFrame r) := by simpa using hx
    subst hx
    refine ⟨simpleExchange_timed cfgS _, simpleExchange_frame _, ?_⟩
    intro op hop
    simp only [Exchange.ops, simpleExchange, List.mem_append, List.mem_cons, List.mem_map, List.not_mem_nil, or_false] at hop
    rcases hop with (((⟨b, -, rfl⟩ | rfl | rfl) | rfl | rfl | rfl) | rfl | rfl) <;> rfl
  obtain ⟨hg, -⟩ := response_outcome (l := cfgS.limits) (m := mem) r hq
  obtain ⟨sl', e1, e2, -⟩ := slave_repeats hc hsy hidv hq hd (by simp) hxs
  rw [hmem] at e1 e2
  generalize hfe : rtuFrame (reqSlave r) (encodeResponse (respond cfgS.limits mem (asRequest r))) = f at *
  have hf0 : f ≠ [] := by rw [← hfe]; simp [rtuFrame]
  have ha : (simpleAttempt [] f).Wf cfgM.respTimeout r := simpleAttempt_wf hT (by simp) hf0 hg.len_le hg.slave
  have hbad : (simpleAttempt [] [reqSlave r]).Wf cfgM.respTimeout r := simpleAttempt_wf hT (by simp) (by simp) (by simp) rfl
  have hnc : ¬ CrcCorrect (simpleAttempt [] [reqSlave r]).resp.frame := by
    simp only [simpleAttempt, heard_frame]
    rintro ⟨body, h⟩
    have := congrArg List.length h
    simp at this
  obtain ⟨sl2, f2, k1, k2, k3⟩ := C89_retries_end_to_end hw hc hok h1 h2 hq hd h3 (.crc hbad (not_broken_simple _ _) (.inr hnc) (.nil _ _)) (by simpa using hR) ha
    (not_broken_simple _ _) hsy hidv (by simp) hxs
  rw [e1] at k1
  simp only [Except.ok.injEq, Prod.mk.injEq, List.length_cons, List.length_nil, List.replicate, List.cons.injEq, SOut.send.injEq, and_true, and_self] at k1
  obtain ⟨rfl, rfl⟩ := k1
  obtain ⟨s', tr', q1, q2, -⟩ := k3 (by simp only [simpleAttempt, heard_frame])
  rw [hmem] at q1
  exact ⟨s, tr, sl, sl', f, s', tr', h1, hinit, by simpa using e1, e2, q1, q2⟩

end Modbus
