import Verif.Proofs.EndToEnd
import Verif.Props.MasterExamples

/-! C48, C49: a transaction from the master's application to the slave's application and back. -/

namespace Modbus

open Spec

/-- The timing of an exchange with the slave (everything in `Exchange.Good` but the frame): only bytes, polls, application writes
and registrations in the prescribed places; two polls after the 3.5-char event, one after the completion. -/
structure Exchange.Timed (cfg : Config) (x : Exchange) : Prop where
  rx : ∀ op ∈ x.rx, op.rxNoise cfg
  n1 : ∀ op ∈ x.n1, op.noise cfg
  n2 : ∀ op ∈ x.n2, op.noise cfg
  n3 : ∀ op ∈ x.n3, op.noise cfg
  polls2 : 2 ≤ x.n2.count .poll
  polls3 : 1 ≤ x.n3.count .poll

/-- The slave's side: it hears the frame which the master transmits for `r`, and answers and acts as `r` asks. -/
theorem slave_side {cfg : Config} (hc : cfg.WF) {sl : Slave} (hsy : Sync sl) {r : MReq} (hid : sl.id = reqSlave r) (hq : QtyOk r)
    (hd : DataOk r) {x : Exchange} (hx : x.Timed cfg) (hf : x.frame = reqFrame r) :
    ∃ pre post sl', x.ops = pre ++ .poll :: post ∧ .t35 ∈ pre ∧
      slaveRun cfg sl x.ops = .ok (sl', [.send (rtuFrame (reqSlave r) (encodeResponse (respond cfg.limits (appMem sl.mem pre) (asRequest r))))]) ∧
      Sync sl' ∧ sl'.id = sl.id ∧ sl'.mem = appMem (effect cfg.limits (appMem sl.mem pre) (asRequest r)) post := by
  have hg : x.Good cfg sl.id := ⟨by rw [hid, hf]; exact reqFrame_good r hq hd, hx.rx, hx.n1, hx.n2, hx.n3, hx.polls2, hx.polls3⟩
  obtain ⟨pre, post, sl', h1, h2, h3, h4, h5, h6⟩ := C22_one_exchange cfg hc sl hsy x hg
  have ha := frameRequest_reqFrame r hq hd
  rw [hf, ha.respond, hid] at h3
  rw [hf, ha.effect] at h6
  exact ⟨pre, post, sl', h1, h2, h3, h4, h5, h6⟩

/-- **End to end.** Master: any initialised execution that has reached an idle state and whose next poll transmits `r`; then any
number of failed attempts (at most the configured repetitions), then an attempt without frame error. Slave: synchronised, with the
addressed ID and any memory; in an exchange with any timing it hears the frame which the master transmits. Then the slave transmits
exactly one frame `f`, and if `f` is the response of the master's last attempt, the master's application is told exactly the
prescribed outcome for the slave's memory at the moment of processing; `r` has exactly its prescribed effect on that memory. -/
theorem end_to_end {cfgM cfgS : Config} (hw : cfgM.MWF) (hc : cfgS.WF) {ops : List MOp} (ho : OpsOk ops) {s0 s s1 : Master} {tr : MTrace}
    (h : masterRun cfgM s0 (.init .rtu :: ops) = .ok (s, tr)) {fe ce : Bool} (hs : Standing fe ce s) {r : MReq} (hq : QtyOk r) (hd : DataOk r)
    (hp : masterStep cfgM s .poll = .ok (s1, [.send (reqFrame r)])) {as : List Attempt}
    (hf : Failed cfgM.respTimeout r fe ce as false false) (hl : as.length ≤ cfgM.repeatMax) {a : Attempt}
    (ha : a.Wf cfgM.respTimeout r) (hb : ¬ a.broken)
    {sl : Slave} (hsy : Sync sl) (hid : sl.id = reqSlave r) {x : Exchange} (hx : x.Timed cfgS) (hxf : x.frame = reqFrame r) :
    ∃ pre post sl' f, x.ops = pre ++ .poll :: post ∧ .t35 ∈ pre ∧
      slaveRun cfgS sl x.ops = .ok (sl', [.send f]) ∧ Sync sl' ∧ sl'.id = sl.id ∧
      sl'.mem = appMem (effect cfgS.limits (appMem sl.mem pre) (asRequest r)) post ∧
      (a.resp.frame = f → ∃ s' tr', masterRun cfgM s (.poll :: retries as ++ a.init ++ [.poll]) =
          .ok (s', tr' ++ [(.poll, (outcome cfgS.limits (appMem sl.mem pre) r).map .event)]) ∧
        outs tr' = List.replicate (as.length + 1) (.send (reqFrame r)) ∧ Standing false false s') := by
  obtain ⟨pre, post, sl', h1, h2, h3, h4, h5, h6⟩ := slave_side hc hsy hid hq hd hx hxf
  refine ⟨pre, post, sl', _, h1, h2, h3, h4, h5, h6, fun he => ?_⟩
  obtain ⟨hg, hev⟩ := response_outcome (l := cfgS.limits) (m := appMem sl.mem pre) r hq
  rw [← he] at hg hev
  obtain ⟨s', tr', k1, k2, k3⟩ := transaction_succeeds hw ho h hs hq hp hf hl ha hb hg
  exact ⟨s', tr', by rw [k1, hev], k2, k3⟩

theorem appMem_split {m : AppMem} {pre post : List SOp} : appMem (appMem m pre) post = appMem m (pre ++ .poll :: post) := by
  rw [appMem_append]; rfl

theorem effect_read {l : Limits} {m : AppMem} {r : MReq} (h : IsRead r) : effect l m (asRequest r) = m := by
  cases r <;> first | exact h.elim | rfl

/-- The values a read request must deliver when the slave does not refuse it. -/
def readValues (m : AppMem) : MReq → List MEvent
  | .readCoils a q s => (List.range q.toNat).map fun i => .coilRead s (a + BitVec.ofNat 16 i) (bitAt m.coils m.bools (a.toNat + i))
  | .readDiscreteInputs a q s => (List.range q.toNat).map fun i => .disinRead s (a + BitVec.ofNat 16 i) (bitAt m.dins m.bools (a.toNat + i))
  | .readInputReg a q s => (List.range q.toNat).map fun i => .inregRead s (a + BitVec.ofNat 16 i) (regAt m.inregs m.regs (a.toNat + i))
  | .readHoldingReg a q s => (List.range q.toNat).map fun i => .hregRead s (a + BitVec.ofNat 16 i) (regAt m.hregs m.regs (a.toNat + i))
  | _ => []

theorem outcome_read {l : Limits} {m : AppMem} {r : MReq} (h : IsRead r) :
    outcome l m r = match exceptionFor l m (asRequest r) with
      | some code => exceptionEvent r (reqSlave r) (reqFc r) code
      | none => readValues m r := by
  unfold outcome
  cases exceptionFor l m (asRequest r) <;> cases r <;> first | exact h.elim | rfl

theorem outcome_write {l : Limits} {m : AppMem} {r : MReq} (h : ¬ IsRead r) :
    outcome l m r = match exceptionFor l m (asRequest r) with
      | some code => exceptionEvent r (reqSlave r) (reqFc r) code
      | none => [confirmEvent r] := by
  unfold outcome
  cases exceptionFor l m (asRequest r) <;> cases r <;> first | exact absurd trivial h | rfl

/-- **C48.** A read, end to end: at the last poll the master's application gets, in order, exactly the slave application's values at
the moment of processing (`m`, the slave's memory after what its application did until then), or the prescribed exception; the
slave's application data are not changed by it. -/
theorem C48_read_end_to_end {cfgM cfgS : Config} (hw : cfgM.MWF) (hc : cfgS.WF) {ops : List MOp} (ho : OpsOk ops) {s0 s s1 : Master} {tr : MTrace}
    (h : masterRun cfgM s0 (.init .rtu :: ops) = .ok (s, tr)) {fe ce : Bool} (hs : Standing fe ce s) {r : MReq} (hr : IsRead r) (hq : QtyOk r)
    (hp : masterStep cfgM s .poll = .ok (s1, [.send (reqFrame r)])) {as : List Attempt}
    (hf : Failed cfgM.respTimeout r fe ce as false false) (hl : as.length ≤ cfgM.repeatMax) {a : Attempt}
    (ha : a.Wf cfgM.respTimeout r) (hb : ¬ a.broken)
    {sl : Slave} (hsy : Sync sl) (hid : sl.id = reqSlave r) {x : Exchange} (hx : x.Timed cfgS) (hxf : x.frame = reqFrame r) :
    ∃ pre post sl' f, x.ops = pre ++ .poll :: post ∧ .t35 ∈ pre ∧
      slaveRun cfgS sl x.ops = .ok (sl', [.send f]) ∧ Sync sl' ∧ sl'.mem = appMem sl.mem x.ops ∧
      (a.resp.frame = f → ∃ s' tr' evs, masterRun cfgM s (.poll :: retries as ++ a.init ++ [.poll]) = .ok (s', tr' ++ [(.poll, evs.map .event)]) ∧
        outs tr' = List.replicate (as.length + 1) (.send (reqFrame r)) ∧
        evs = (match exceptionFor cfgS.limits (appMem sl.mem pre) (asRequest r) with
          | some code => exceptionEvent r (reqSlave r) (reqFc r) code
          | none => readValues (appMem sl.mem pre) r)) := by
  have hd : DataOk r := by cases r <;> first | exact hr.elim | trivial
  obtain ⟨pre, post, sl', f, h1, h2, h3, h4, h5, h6, h7⟩ := end_to_end hw hc ho h hs hq hd hp hf hl ha hb hsy hid hx hxf
  refine ⟨pre, post, sl', f, h1, h2, h3, h4, by rw [h6, effect_read hr, appMem_split, ← h1], fun he => ?_⟩
  obtain ⟨s', tr', k1, k2, -⟩ := h7 he
  exact ⟨s', tr', _, k1, k2, outcome_read hr⟩

/-- The Boolean variables after the values `v` have been stored at the registered coils from `adr` on, and the registers alike, as
seen by their addresses: the last of the values stored into a variable wins, nothing else changes. -/
structure Stored {α : Type} (t : Table) (adr qty : Nat) (v : Nat → α) (before after : Ptr → α) : Prop where
  /-- a variable holds the value given for it (the last one, if it is registered at several of the addresses) -/
  value : ∀ i p, i < qty → t (adr + i) = some p → (∀ j, i < j → j < qty → t (adr + j) ≠ some p) → after p = v i
  /-- a variable registered at none of the addresses keeps its value -/
  others : ∀ p, (∀ i, i < qty → t (adr + i) ≠ some p) → after p = before p

theorem storeAll_stored {α : Type} (t : Table) (adr qty : Nat) (v : Nat → α) (h : Ptr → α) : Stored t adr qty v h (storeAll t adr v h qty) :=
  ⟨fun i p hi ht hl => storeAll_get t adr v h qty i p hi ht hl, fun p hp => storeAll_other t adr v h qty p hp⟩

/-- What a write request that is not refused does to the slave application's memory. -/
def Applied (r : MReq) (m m' : AppMem) : Prop :=
  match r with
  | .writeSingleCoil a _ v => m'.regs = m.regs ∧ Stored m.coils a.toNat 1 (fun _ => v) m.bools m'.bools
  | .writeMultipleCoils a q _ d => m'.regs = m.regs ∧ Stored m.coils a.toNat q.toNat (fun i => (d.getD []).getD i false) m.bools m'.bools
  | .writeSingleReg a _ v => m'.bools = m.bools ∧ Stored m.hregs a.toNat 1 (fun _ => v) m.regs m'.regs
  | .writeMultipleReg a q _ d => m'.bools = m.bools ∧ Stored m.hregs a.toNat q.toNat (fun i => (d.getD []).getD i 0) m.regs m'.regs
  | _ => m' = m

theorem except_regs {l : Limits} {m : AppMem} {a q bc : Nat} {v : Nat → U16} (h : exceptionFor l m (.writeRegs a q bc v) = none) :
    allRegistered m.hregs a q := by
  simp only [exceptionFor] at h
  repeat' split at h
  all_goals first | assumption | simp at h

theorem except_coils {l : Limits} {m : AppMem} {a q bc : Nat} {v : Nat → Bool} (h : exceptionFor l m (.writeCoils a q bc v) = none) :
    allRegistered m.coils a q := by
  simp only [exceptionFor] at h
  repeat' split at h
  all_goals first | assumption | simp at h

theorem effect_applied {l : Limits} {m : AppMem} {r : MReq} (he : exceptionFor l m (asRequest r) = none) :
    Applied r m (effect l m (asRequest r)) ∧ (effect l m (asRequest r)).coils = m.coils ∧ (effect l m (asRequest r)).dins = m.dins ∧
      (effect l m (asRequest r)).hregs = m.hregs ∧ (effect l m (asRequest r)).inregs = m.inregs := by
  cases r with
  | writeSingleCoil a s v =>
    simp only [asRequest] at he ⊢
    simp only [effect, he, if_true]
    have hv : (fun _ : Nat => decide ((if v = true then 0xFF00 else 0x0000) ≠ 0)) = fun _ => v := by
      funext _; cases v <;> decide
    rw [hv]
    exact ⟨⟨rfl, storeAll_stored _ _ _ _ _⟩, by simp⟩
  | writeSingleReg a s v =>
    simp only [asRequest] at he ⊢
    simp only [effect, he, if_true]
    have hv : (fun _ : Nat => BitVec.ofNat 16 v.toNat) = fun _ => v := by funext _; simp
    rw [hv]
    exact ⟨⟨rfl, storeAll_stored _ _ _ _ _⟩, by simp⟩
  | writeMultipleReg a q s d =>
    simp only [asRequest] at he ⊢
    simp only [effect, he, true_or, if_true]
    rw [registeredPrefix_all _ _ _ (except_regs he)]
    exact ⟨⟨rfl, storeAll_stored _ _ _ _ _⟩, by simp⟩
  | writeMultipleCoils a q s d =>
    simp only [asRequest] at he ⊢
    simp only [effect, he, true_or, if_true]
    rw [registeredPrefix_all _ _ _ (except_coils he)]
    exact ⟨⟨rfl, storeAll_stored _ _ _ _ _⟩, by simp⟩
  | _ => exact ⟨rfl, rfl, rfl, rfl, rfl⟩

/-- **C49.** A write to registered items, end to end: the slave application's variables hold exactly the values given to the master's
call (`Applied`: nothing else changes; `m` and `m'` are the memory just before and after the processing), and the master's
application gets exactly one confirmation, at the last poll. -/
theorem C49_write_end_to_end {cfgM cfgS : Config} (hw : cfgM.MWF) (hc : cfgS.WF) {ops : List MOp} (ho : OpsOk ops) {s0 s s1 : Master} {tr : MTrace}
    (h : masterRun cfgM s0 (.init .rtu :: ops) = .ok (s, tr)) {fe ce : Bool} (hs : Standing fe ce s) {r : MReq} (hr : ¬ IsRead r)
    (hq : QtyOk r) (hd : DataOk r)
    (hp : masterStep cfgM s .poll = .ok (s1, [.send (reqFrame r)])) {as : List Attempt}
    (hf : Failed cfgM.respTimeout r fe ce as false false) (hl : as.length ≤ cfgM.repeatMax) {a : Attempt}
    (ha : a.Wf cfgM.respTimeout r) (hb : ¬ a.broken)
    {sl : Slave} (hsy : Sync sl) (hid : sl.id = reqSlave r) {x : Exchange} (hx : x.Timed cfgS) (hxf : x.frame = reqFrame r) :
    ∃ pre post sl' f, x.ops = pre ++ .poll :: post ∧ .t35 ∈ pre ∧ slaveRun cfgS sl x.ops = .ok (sl', [.send f]) ∧ Sync sl' ∧
      (exceptionFor cfgS.limits (appMem sl.mem pre) (asRequest r) = none →
        (∃ m', Applied r (appMem sl.mem pre) m' ∧ sl'.mem = appMem m' post) ∧
        (a.resp.frame = f → ∃ s' tr', masterRun cfgM s (.poll :: retries as ++ a.init ++ [.poll]) =
            .ok (s', tr' ++ [(.poll, [.event (confirmEvent r)])]) ∧
          outs tr' = List.replicate (as.length + 1) (.send (reqFrame r)))) := by
  obtain ⟨pre, post, sl', f, h1, h2, h3, h4, h5, h6, h7⟩ := end_to_end hw hc ho h hs hq hd hp hf hl ha hb hsy hid hx hxf
  refine ⟨pre, post, sl', f, h1, h2, h3, h4, fun hex => ⟨⟨_, (effect_applied hex).1, h6⟩, fun he => ?_⟩⟩
  obtain ⟨s', tr', k1, k2, -⟩ := h7 he
  rw [outcome_write hr, hex] at k1
  exact ⟨s', tr', k1, k2⟩

/-- The request that reads back what a write request has written. -/
def readBack : MReq → MReq
  | .writeSingleCoil a s _ => .readCoils a 1 s
  | .writeMultipleCoils a q s _ => .readCoils a q s
  | .writeSingleReg a s _ => .readHoldingReg a 1 s
  | .writeMultipleReg a q s _ => .readHoldingReg a q s
  | r => r

/-- The number of items a write request writes, and the callbacks reporting the values it was given. -/
def writtenValues : MReq → List MEvent
  | .writeSingleCoil a s v => [.coilRead s a v]
  | .writeSingleReg a s v => [.hregRead s a v]
  | .writeMultipleCoils a q s d => (List.range q.toNat).map fun i => .coilRead s (a + BitVec.ofNat 16 i) ((d.getD []).getD i false)
  | .writeMultipleReg a q s d => (List.range q.toNat).map fun i => .hregRead s (a + BitVec.ofNat 16 i) ((d.getD []).getD i 0)
  | _ => []

/-- No variable is registered at two of the addresses. -/
def NoAlias (t : Table) (adr qty : Nat) : Prop := ∀ i j p, i < qty → j < qty → t (adr + i) = some p → t (adr + j) = some p → i = j

/-- The addressed items of a write request are not aliased. -/
def NotAliased (m : AppMem) : MReq → Prop
  | .writeMultipleCoils a q _ _ => NoAlias m.coils a.toNat q.toNat
  | .writeMultipleReg a q _ _ => NoAlias m.hregs a.toNat q.toNat
  | _ => True

theorem stored_regs {m m' : AppMem} {adr q : Nat} {v : Nat → U16} (hall : allRegistered m.hregs adr q) (hna : NoAlias m.hregs adr q)
    (h : Stored m.hregs adr q v m.regs m'.regs) {i : Nat} (hi : i < q) : regAt m.hregs m'.regs (adr + i) = v i := by
  obtain ⟨p, hp⟩ := Option.isSome_iff_exists.1 (hall i hi)
  simp only [regAt, hp]
  exact h.value i p hi hp (fun j hj hq he => absurd (hna i j p hi hq hp he) (by omega))

theorem stored_bits {m m' : AppMem} {adr q : Nat} {v : Nat → Bool} (hall : allRegistered m.coils adr q) (hna : NoAlias m.coils adr q)
    (h : Stored m.coils adr q v m.bools m'.bools) {i : Nat} (hi : i < q) : bitAt m.coils m'.bools (adr + i) = v i := by
  obtain ⟨p, hp⟩ := Option.isSome_iff_exists.1 (hall i hi)
  simp only [bitAt, hp]
  exact h.value i p hi hp (fun j hj hq he => absurd (hna i j p hi hq hp he) (by omega))

/-- **C49, read back.** Once a write that is not refused has been applied (`m'`), the outcome of a read of the same items is exactly the
values given to the write call, if no variable is registered twice among them. (With `C48_read_end_to_end` for the read.) -/
theorem C49_read_back {l : Limits} {m m' : AppMem} {w : MReq} (hw : ¬ IsRead w) (hq : QtyOk w) (he : exceptionFor l m (asRequest w) = none)
    (hm : Applied w m m') (ht : m'.coils = m.coils ∧ m'.hregs = m.hregs) (hna : NotAliased m w) :
    outcome l m' (readBack w) = writtenValues w ∧ QtyOk (readBack w) := by
  cases w with
  | writeSingleCoil a s v =>
    refine ⟨?_, by simp [readBack, QtyOk]⟩
    have hreg : l.coils > a.toNat ∧ (m.coils a.toNat).isSome := by
      simp only [asRequest, exceptionFor] at he
      repeat' split at he
      all_goals first | (simp at he; done) | exact ⟨by omega, by assumption⟩
    have hx : exceptionFor l m' (asRequest (.readCoils a 1 s)) = none := by
      have h1 : ¬ (l.coils < a.toNat + 1) := by omega
      have h2 : allRegistered m'.coils a.toNat 1 := by
        intro i hi
        obtain rfl : i = 0 := by omega
        rw [ht.1]; exact hreg.2
      simp [asRequest, exceptionFor, BitTab.limit, BitTab.table, h1, h2]
    have h2 : allRegistered m.coils a.toNat 1 := by
      intro i hi
      obtain rfl : i = 0 := by omega
      exact hreg.2
    have hv := stored_bits h2 (fun i j p hi hj _ _ => by omega) hm.2 (i := 0) (by omega)
    unfold outcome
    simp only [readBack, hx, writtenValues, ht.1]
    simp [List.range_succ] at hv ⊢
    exact hv
  | writeSingleReg a s v =>
    refine ⟨?_, by simp [readBack, QtyOk]⟩
    have hreg : l.hregs > a.toNat ∧ (m.hregs a.toNat).isSome := by
      simp only [asRequest, exceptionFor] at he
      repeat' split at he
      all_goals first | (simp at he; done) | exact ⟨by omega, by assumption⟩
    have hx : exceptionFor l m' (asRequest (.readHoldingReg a 1 s)) = none := by
      have h1 : ¬ (l.hregs < a.toNat + 1) := by omega
      have h2 : allRegistered m'.hregs a.toNat 1 := by
        intro i hi
        obtain rfl : i = 0 := by omega
        rw [ht.2]; exact hreg.2
      simp [asRequest, exceptionFor, RegTab.limit, RegTab.table, h1, h2]
    have h2 : allRegistered m.hregs a.toNat 1 := by
      intro i hi
      obtain rfl : i = 0 := by omega
      exact hreg.2
    have hv := stored_regs h2 (fun i j p hi hj _ _ => by omega) hm.2 (i := 0) (by omega)
    unfold outcome
    simp only [readBack, hx, writtenValues, ht.2]
    simp [List.range_succ] at hv ⊢
    exact hv
  | writeMultipleReg a q s d =>
    have h1 : 1 ≤ q.toNat ∧ q.toNat ≤ 123 := hq
    refine ⟨?_, by simp only [readBack, QtyOk]; omega⟩
    have hall := except_regs he
    have hlim : ¬ (l.hregs < a.toNat + q.toNat) := by
      simp only [asRequest, exceptionFor] at he
      repeat' split at he
      all_goals first | (simp at he; done) | assumption
    have hx : exceptionFor l m' (asRequest (.readHoldingReg a q s)) = none := by
      have h2 : allRegistered m'.hregs a.toNat q.toNat := by rw [ht.2]; exact hall
      have h3 : ¬ (q.toNat = 0 ∨ 125 < q.toNat) := by omega
      exact (if_neg h3).trans ((if_neg hlim).trans (if_pos h2))
    unfold outcome
    simp only [readBack, hx, writtenValues, ht.2]
    exact range_map_congr fun i hi => congrArg _ (stored_regs hall hna hm.2 hi)
  | writeMultipleCoils a q s d =>
    have h1 : 1 ≤ q.toNat ∧ q.toNat ≤ 1968 := hq
    refine ⟨?_, by simp only [readBack, QtyOk]; omega⟩
    have hall := except_coils he
    have hlim : ¬ (l.coils < a.toNat + q.toNat) := by
      simp only [asRequest, exceptionFor] at he
      repeat' split at he
      all_goals first | (simp at he; done) | assumption
    have hx : exceptionFor l m' (asRequest (.readCoils a q s)) = none := by
      have h2 : allRegistered m'.coils a.toNat q.toNat := by rw [ht.1]; exact hall
      have h3 : ¬ (q.toNat = 0 ∨ 2000 < q.toNat) := by omega
      exact (if_neg h3).trans ((if_neg hlim).trans (if_pos h2))
    unfold outcome
    simp only [readBack, hx, writtenValues, ht.1]
    exact range_map_congr fun i hi => congrArg _ (stored_bits hall hna hm.2 hi)
  | readCoils => exact absurd trivial hw
  | readDiscreteInputs => exact absurd trivial hw
  | readInputReg => exact absurd trivial hw
  | readHoldingReg => exact absurd trivial hw

/-- An exchange in which nothing special happens. -/
def simpleExchange (f : List U8) : Exchange := { rx := f.map .rxByte, n1 := [.poll], n2 := [.poll, .poll], n3 := [.poll] }

theorem simpleExchange_timed (cfg : Config) (f : List U8) : (simpleExchange f).Timed cfg := by
  refine ⟨?_, by simp [simpleExchange, SOp.noise], by simp [simpleExchange, SOp.noise], by simp [simpleExchange, SOp.noise], by simp [simpleExchange], by simp [simpleExchange]⟩
  intro op hop
  obtain ⟨b, -, rfl⟩ := List.mem_map.1 hop
  exact .inr ⟨b, rfl⟩

theorem simpleExchange_frame (f : List U8) : (simpleExchange f).frame = f := by
  unfold Exchange.frame simpleExchange
  induction f with
  | nil => rfl
  | cons b f ih => simp only [List.map_cons, bytesOf]; rw [ih]

/-- Non-vacuity of `end_to_end`, C48, C49: for every request with an allowed quantity and proper data, every slave memory and every
configuration, the simple schedule meets all hypotheses, and the application is told the prescribed outcome. -/
theorem end_to_end_simple {cfgM cfgS : Config} (hw : cfgM.MWF) (hT : 2 ≤ cfgM.respTimeout) (hc : cfgS.WF) {r : MReq} (hq : QtyOk r)
    (hd : DataOk r) (mem : AppMem) :
    ∃ s tr sl sl' f s' tr', masterRun cfgM Master.powerOn [.init .rtu, .request r] = .ok (s, tr) ∧
      slaveRun cfgS (Slave.powerOn mem) [.init .rtu (reqSlave r)] = .ok (sl, []) ∧
      slaveRun cfgS sl (simpleExchange (reqFrame r)).ops = .ok (sl', [.send f]) ∧ sl'.mem = effect cfgS.limits mem (asRequest r) ∧
      masterRun cfgM s (.poll :: (simpleAttempt [] f).init ++ [.poll]) = .ok (s', tr' ++ [(.poll, (outcome cfgS.limits mem r).map .event)]) ∧
      outs tr' = [.send (reqFrame r)] := by
  obtain ⟨s, tr, s1, h1, h2, h3⟩ := one_request hw Master.powerOn hq hd
  have hok : OpsOk [.request r] := by
    intro op hop
    obtain rfl := List.mem_singleton.1 hop
    exact ⟨by simp, by rintro _ ⟨⟩ _; exact hd⟩
  have hsy := sync_after_init mem (reqSlave r)
  obtain ⟨pre, post, sl', e1, e2, e3, e4, e5, e6⟩ := slave_side hc hsy rfl hq hd (simpleExchange_timed cfgS (reqFrame r)) (simpleExchange_frame _)
  obtain ⟨hg, -⟩ := response_outcome (l := cfgS.limits) (m := appMem (slaveInit (Slave.powerOn mem) .rtu (reqSlave r)).mem pre) r hq
  generalize hfe : rtuFrame (reqSlave r) (encodeResponse (respond cfgS.limits (appMem (slaveInit (Slave.powerOn mem) .rtu (reqSlave r)).mem pre) (asRequest r))) = f at *
  have hf0 : f ≠ [] := by rw [← hfe]; simp [rtuFrame]
  have ha : (simpleAttempt [] f).Wf cfgM.respTimeout r := simpleAttempt_wf hT (by simp) hf0 hg.len_le hg.slave
  obtain ⟨pre2, post2, sl2, f2, k1, k2, k3, k4, k5, k6, k7⟩ := end_to_end hw hc hok h1 h2 hq hd h3 (.nil _ _) (by simp) ha (not_broken_simple _ _)
    hsy rfl (simpleExchange_timed cfgS (reqFrame r)) (simpleExchange_frame _)
  rw [e3] at k3
  simp only [Except.ok.injEq, Prod.mk.injEq, List.cons.injEq, SOut.send.injEq, and_true] at k3
  obtain ⟨rfl, rfl⟩ := k3
  obtain ⟨s', tr', q1, q2, -⟩ := k7 (by simp only [simpleAttempt, heard_frame])
  have hnone : ∀ l : List SOp, (∀ op ∈ l, op ∈ (simpleExchange (reqFrame r)).ops) → ∀ m, appMem m l = m := by
    intro l
    induction l with
    | nil => intro _ _; rfl
    | cons op l ih =>
      intro hl m
      have hop := hl op (List.mem_cons_self ..)
      have := ih (fun o ho => hl o (List.mem_cons_of_mem _ ho)) m
      cases op <;> simp only [appMem, this] <;> simp [simpleExchange, Exchange.ops] at hop
  have hmem : ∀ m, appMem m pre2 = m := hnone pre2 (fun op ho => by rw [k1]; simp [ho])
  have hmem' : ∀ m, appMem m post2 = m := hnone post2 (fun op ho => by rw [k1]; simp [ho])
  rw [hmem] at k6 q1
  rw [hmem'] at k6
  exact ⟨s, tr, _, sl', f, s', tr', h1, rfl, e3, k6, q1, q2⟩

end Modbus
