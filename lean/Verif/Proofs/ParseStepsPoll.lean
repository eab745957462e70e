import Verif.Proofs.ParseSteps

/-! A poll whose reads of the request buffer are interrupted is a poll at the granularity of `Model/Preempt.lean` as long as the bytes
read stay what they are. -/

namespace Modbus
variable {α : Type}

/-- The positions `P` of the request buffer keep their contents while the interrupts `ints` arrive. -/
def Kept (P : Nat → Prop) (s : Slave) (ints : List (List SEv)) : Prop :=
  ∀ l, l <+: ints.flatten → ∀ i, P i → (slaveAfter s l).req i = s.req i

theorem flatten_split (ints : List (List SEv)) : ints.flatten = ints.headD [] ++ ints.tail.flatten := by
  cases ints <;> rfl

theorem flatten_take_succ (n : Nat) (ints : List (List SEv)) :
    (ints.take (n + 1)).flatten = ints.headD [] ++ (ints.tail.take n).flatten := by
  cases ints <;> simp

theorem Kept.head {P : Nat → Prop} {s : Slave} {ints : List (List SEv)} (h : Kept P s ints) :
    ∀ i, P i → (slaveAfter s (ints.headD [])).req i = s.req i :=
  h _ ⟨ints.tail.flatten, (flatten_split ints).symm⟩

theorem Kept.tail {P : Nat → Prop} {s : Slave} {ints : List (List SEv)} (h : Kept P s ints) :
    Kept P (slaveAfter s (ints.headD [])) ints.tail := by
  intro l hl i hi
  rw [slaveAfter_append, h.head i hi]
  refine h _ ?_ i hi
  rw [flatten_split]
  exact (List.prefix_append_right_inj _).2 hl

theorem Kept.congr {P : Nat → Prop} {s t : Slave} {ints : List (List SEv)} (h : Kept P s ints) (h1 : t.req = s.req)
    (h2 : t.reqLen = s.reqLen) : Kept P t ints := by
  intro l hl i hi
  have := h l hl i hi
  simp only [slaveAfter_req] at this ⊢
  rw [h1, h2]; exact this

theorem runProg_head (cfg : Config) {s : Slave} (hs : s.subscribed = true) {α : Type} (r : Slave → SEv → Bool)
    (f : Slave → C (α × Slave × List SOut)) (k : α → SProg) (ints : List (List SEv)) :
    runProg (slaveInt cfg) (.step r f k) ints s =
      (f (slaveAfter s (ints.headD [])) >>= fun x => addOut x.2.2 (runProg (slaveInt cfg) (k x.1) ints.tail x.2.1)) := by
  have := srun_step' (cfg := cfg) hs r f k (ints.headD []) ints.tail
  rw [← this]
  cases ints <;> rfl

/-- Interrupts that arrive before a piece of program may be given to its first step. -/
theorem runProg_push (cfg : Config) (p : SProg) {s : Slave} (hs : s.subscribed = true) (l : List SEv) (ints : List (List SEv)) :
    runProg (slaveInt cfg) p ints (slaveAfter s l) = runProg (slaveInt cfg) p ((l ++ ints.headD []) :: ints.tail) s := by
  cases p with
  | done =>
    simp only [runProg]
    rw [runInts_slave cfg _ (by exact hs), runInts_slave cfg _ hs, slaveAfter_append, flatten_split ints]
    simp only [List.flatten_cons, List.append_assoc]
  | step r f k =>
    rw [runProg_head cfg (by exact hs), runProg_head cfg hs, slaveAfter_append]
    rfl

/-- What follows a piece that reads the buffer: the rest of the program, or undefined behaviour. -/
def thenProg (cfg : Config) (r : C α) (k : α → SProg) (ints : List (List SEv)) (s : Slave) : C (Slave × List SOut) :=
  r >>= fun a => runProg (slaveInt cfg) (k a) ints s

/-- A piece of program that reads only positions keeping their contents: it gives the result it gives on the buffer left alone. -/
theorem toProg_kept (cfg : Config) (P : Nat → Prop) (k : α → SProg) (m : ReqM α) :
    ∀ (s : Slave) (ints : List (List SEv)), s.subscribed = true → m.Reads P s.req → Kept P s ints →
      runProg (slaveInt cfg) (m.toProg k) ints s =
        thenProg cfg (m.run s.req) k (ints.drop (m.count s.req)) (slaveAfter s (ints.take (m.count s.req)).flatten) := by
  induction m with
  | ret a => intro s ints _ _ _; rfl
  | err u =>
    intro s ints hs _ _
    show runProg (slaveInt cfg) (.step free _ _) ints s = _
    rw [runProg_head cfg hs]
    rfl
  | rd i f ih =>
    intro s ints hs hr hk
    show runProg (slaveInt cfg) (.step free _ _) ints s = _
    rw [runProg_head cfg hs]
    simp only [okBind, addOut_nil]
    have hv := hk.head
    rw [hv i hr.1]
    have hc := reads_congr (b' := (slaveAfter s (ints.headD [])).req) hv (f (s.req i)) hr.2
    rw [ih (s.req i) (slaveAfter s (ints.headD [])) ints.tail (by exact hs) hc.1 hk.tail]
    rw [hc.2.1, hc.2.2]
    simp only [ReqM.run, ReqM.count]
    rw [slaveAfter_append, ← flatten_take_succ, ← List.drop_one, List.drop_drop, Nat.add_comm]

/-- Two programs do the same, up to where the interrupts are listed. -/
def SameAs (cfg : Config) (p q : SProg) (ints : List (List SEv)) (s : Slave) : Prop :=
  ∃ ints', ints'.flatten = ints.flatten ∧ runProg (slaveInt cfg) p ints s = runProg (slaveInt cfg) q ints' s

theorem SameAs.refl (cfg : Config) (p : SProg) (ints : List (List SEv)) (s : Slave) : SameAs cfg p p ints s := ⟨ints, rfl, rfl⟩

theorem SameAs.step {cfg : Config} {s : Slave} (hs : s.subscribed = true) {α : Type} (r : Slave → SEv → Bool)
    {f : Slave → C (α × Slave × List SOut)} {k k' : α → SProg} {ints : List (List SEv)}
    (h : ∀ a s' o, f (slaveAfter s (ints.headD [])) = .ok (a, s', o) → SameAs cfg (k a) (k' a) ints.tail s') :
    SameAs cfg (.step r f k) (.step r f k') ints s := by
  cases hf : f (slaveAfter s (ints.headD [])) with
  | error u =>
    refine ⟨ints, rfl, ?_⟩
    rw [runProg_head cfg hs, runProg_head cfg hs, hf]; rfl
  | ok x =>
    obtain ⟨ints', e1, e2⟩ := h x.1 x.2.1 x.2.2 hf
    refine ⟨ints.headD [] :: ints', ?_, ?_⟩
    · rw [flatten_split ints, List.flatten_cons, e1]
    · rw [runProg_head cfg hs, runProg_head cfg hs]
      show _ = (f (slaveAfter s (ints.headD [])) >>= fun x => addOut x.2.2 (runProg (slaveInt cfg) (k' x.1) ints' x.2.1))
      rw [hf]
      simp only [okBind, e2]

theorem SameAs.assign {cfg : Config} {s : Slave} (hs : s.subscribed = true) {f : Slave → Slave} {p q : SProg} {ints : List (List SEv)}
    (h : SameAs cfg p q ints.tail (f (slaveAfter s (ints.headD [])))) : SameAs cfg (assign f p) (assign f q) ints s :=
  SameAs.step hs _ fun a s' o e => by cases e; exact h

theorem SameAs.test {cfg : Config} {s : Slave} (hs : s.subscribed = true) {c : Slave → Bool} {p p' q q' : SProg} {ints : List (List SEv)}
    (h1 : c (slaveAfter s (ints.headD [])) = true → SameAs cfg p p' ints.tail (slaveAfter s (ints.headD [])))
    (h2 : c (slaveAfter s (ints.headD [])) = false → SameAs cfg q q' ints.tail (slaveAfter s (ints.headD []))) :
    SameAs cfg (test c p q) (test c p' q') ints s :=
  SameAs.step hs _ fun a s' o e => by
    cases e
    cases hc : c (slaveAfter s (ints.headD [])) with
    | true => simpa [hc] using h1 hc
    | false => simpa [hc] using h2 hc

/-! ### The two calls -/

/-- After a piece of program reading kept positions, the rest gets the interrupts that arrived meanwhile before its first step. -/
theorem toProg_then (cfg : Config) {P : Nat → Prop} {k : α → SProg} {m : ReqM α} {s : Slave} {ints : List (List SEv)}
    (hs : s.subscribed = true) (hr : m.Reads P s.req) (hk : Kept P s ints) :
    ∃ ints', ints'.flatten = ints.flatten ∧
      runProg (slaveInt cfg) (m.toProg k) ints s = (m.run s.req >>= fun a => runProg (slaveInt cfg) (k a) ints' s) := by
  refine ⟨((ints.take (m.count s.req)).flatten ++ (ints.drop (m.count s.req)).headD []) :: (ints.drop (m.count s.req)).tail, ?_, ?_⟩
  · rw [List.flatten_cons, List.append_assoc, ← flatten_split, ← List.flatten_append, List.take_append_drop]
  · rw [toProg_kept cfg P k m s ints hs hr hk]
    unfold thenProg
    refine bind_congr_ok fun a _ => ?_
    exact runProg_push cfg (k a) hs _ _

/-- The parser. -/
theorem same_parse (cfg : Config) (hc : cfg.WF) {P : Nat → Prop} {s : Slave} {ints : List (List SEv)} (rest : SProg)
    (hs : s.subscribed = true) (hk : Kept P s ints)
    (hr : ∀ p : Pdu, (∀ i, P i → p.req i = s.req i) → (parseRequestR cfg p).Reads P p.req) :
    SameAs cfg (slaveParseF cfg rest) (assignC (slaveParse cfg) rest) ints s := by
  unfold slaveParseF assignC SameAs
  by_cases hn : s.msgPtr = false ∨ s.dataSet = false
  · refine ⟨ints, rfl, ?_⟩
    rw [runProg_head cfg hs, runProg_head cfg hs]
    have hn' : (slaveAfter s (ints.headD [])).msgPtr = false ∨ (slaveAfter s (ints.headD [])).dataSet = false := hn
    simp only [okBind, slaveParse, if_pos hn', pureOk]
  · generalize hs1 : slaveAfter s (ints.headD []) = s1
    have hn1 : ¬ (s1.msgPtr = false ∨ s1.dataSet = false) := by rw [← hs1]; exact hn
    have hs1' : s1.subscribed = true := by rw [← hs1]; exact hs
    have hk1 : Kept P s1 ints.tail := by rw [← hs1]; exact hk.tail
    generalize hp : ({ req := s1.req, resp := s1.resp, respLen := s1.respLen, mem := s1.mem } : Pdu) = p
    have hreq : p.req = s1.req := by rw [← hp]
    have hr1 : (parseRequestR cfg p).Reads P s1.req := by
      rw [← hreq]
      refine hr p fun i hi => ?_
      rw [hreq, ← hs1]
      exact hk.head i hi
    obtain ⟨r, p', hpar, hreq'⟩ : ∃ r p', parseRequest cfg p = .ok (r, p') ∧ p'.req = p.req := by
      obtain ⟨r, p', h, hi⟩ := parse_refines cfg hc p
      exact ⟨r, p', h, hi.req⟩
    have hrun : (parseRequestR cfg p).run s1.req = .ok (r, p') := by
      rw [← hreq, run_parseRequest, hpar]
    obtain ⟨ints', e1, e2⟩ := toProg_then cfg (k := fun r => assign (fun s => { s with resp := r.2.resp, respLen := r.2.respLen, mem := r.2.mem }) rest)
      hs1' hr1 hk1
    refine ⟨ints.headD [] :: (ints'.headD [] ++ ints'.tail.headD []) :: ints'.tail.tail, ?_, ?_⟩
    · rw [flatten_split ints, ← e1, flatten_split ints', flatten_split ints'.tail]
      simp only [List.flatten_cons, List.append_assoc]
    · rw [runProg_head cfg hs, runProg_head cfg hs]
      show _ = ((do let s ← slaveParse cfg (slaveAfter s (ints.headD [])); pure ((), s, [])) >>= fun x =>
        addOut x.2.2 (runProg (slaveInt cfg) rest ((ints'.headD [] ++ ints'.tail.headD []) :: ints'.tail.tail) x.2.1))
      rw [hs1, if_neg hn1, hp]
      simp only [okBind, addOut_nil]
      rw [e2, hrun]
      have hpar' : slaveParse cfg s1 = .ok { s1 with req := p'.req, resp := p'.resp, respLen := p'.respLen, mem := p'.mem } := by
        unfold slaveParse
        rw [if_neg hn1, hp, hpar]; rfl
      rw [hpar']
      simp only [okBind, pureOk, addOut_nil]
      unfold Modbus.assign
      rw [runProg_head cfg hs1']
      simp only [okBind, addOut_nil]
      rw [← runProg_push cfg rest (s := { s1 with req := p'.req, resp := p'.resp, respLen := p'.respLen, mem := p'.mem }) hs1']
      rw [hreq', hreq]
      rfl

/-- The bytes arriving fit behind those already there. -/
def Room (s : Slave) (ints : List (List SEv)) : Prop := srx ints.flatten = [] ∨ s.reqLen.toNat + (srx ints.flatten).length ≤ 256

theorem rxRun_kept : ∀ (l : List U8) (b : Buf) (n : U8) (m : Nat), (l = [] ∨ m ≤ n.toNat ∧ n.toNat + l.length ≤ 256) →
    ∀ i, i < m → (rxRun (b, n) l).1 i = b i
  | [], b, n, m, _, i, _ => rfl
  | x :: l, b, n, m, h, i, hi => by
    have h := h.resolve_left (by simp)
    simp only [List.length_cons] at h
    have ne : i ≠ n.toNat := by omega
    show (rxRun (b.set n.toNat x, n + 1) l).1 i = b i
    rw [rxRun_kept l (b.set n.toNat x) (n + 1) m ?_ i hi]
    · simp [Buf.set, ne]
    · cases l with
      | nil => exact .inl rfl
      | cons y l =>
        simp only [List.length_cons] at h
        refine .inr ?_
        have : (n + 1).toNat = n.toNat + 1 := by
          rw [BitVec.toNat_add]; simp; omega
        simp only [List.length_cons]
        omega

theorem srx_prefix {l : List SEv} {ints : List (List SEv)} (h : l <+: ints.flatten) : ∃ t, srx ints.flatten = srx l ++ t := by
  obtain ⟨t, ht⟩ := h
  exact ⟨srx t, by rw [← ht, srx_append]⟩

/-- The bytes in front of the place where bytes are stored are kept. -/
theorem Room.kept {s : Slave} {ints : List (List SEv)} (h : Room s ints) {n : Nat} (hn : n ≤ s.reqLen.toNat) : Kept (· < n) s ints := by
  intro l hl i hi
  obtain ⟨t, ht⟩ := srx_prefix hl
  simp only [slaveAfter_req]
  refine rxRun_kept _ _ _ n ?_ i hi
  unfold Room at h
  rw [ht] at h
  rcases h with h | h
  · exact .inl (List.append_eq_nil_iff.1 h).1
  · rw [List.length_append] at h
    exact .inr ⟨hn, by omega⟩

theorem Kept.noRx {s : Slave} {ints : List (List SEv)} (h : srx ints.flatten = []) : Kept (fun _ => True) s ints := by
  intro l hl i hi
  obtain ⟨t, ht⟩ := srx_prefix hl
  rw [h] at ht
  simp only [slaveAfter_req, (List.append_eq_nil_iff.1 ht.symm).1]
  rfl

theorem rxRun_len : ∀ (l : List U8) (b : Buf) (n : U8), (rxRun (b, n) l).2 = n + BitVec.ofNat 8 l.length
  | [], b, n => by simp [rxRun]
  | x :: l, b, n => by
    show (rxRun (b.set n.toNat x, n + 1) l).2 = _
    rw [rxRun_len l]
    apply BitVec.eq_of_toNat_eq
    simp only [BitVec.toNat_add, BitVec.toNat_ofNat, List.length_cons]
    simp
    omega

theorem Room.tail {s : Slave} {ints : List (List SEv)} (h : Room s ints) : Room (slaveAfter s (ints.headD [])) ints.tail := by
  unfold Room at h ⊢
  rw [flatten_split, srx_append] at h
  rcases h with h | h
  · exact .inl (List.append_eq_nil_iff.1 h).2
  · rw [List.length_append] at h
    cases ht : srx ints.tail.flatten with
    | nil => exact .inl rfl
    | cons x l =>
      rw [ht, List.length_cons] at h
      refine .inr ?_
      rw [slaveAfter_reqLen, rxRun_len, BitVec.toNat_add, BitVec.toNat_ofNat, List.length_cons]
      omega

/-- The continuation of the call of `modbus_RTU_recv`. -/
def afterRecv (r : Ret) : SProg :=
  if r ≠ RET_OK then
    assign (fun s => { s with ferr := .set }) (assign (fun s => { s with st := .msgReceived }) .done)
  else assign (fun s => { s with st := .msgReceived }) .done

/-- `modbus_RTU_recv`. -/
theorem same_recv (cfg : Config) {s : Slave} {ints : List (List SEv)} (hs : s.subscribed = true) (hr : Room s ints) :
    SameAs cfg
      (.step free (fun s => if s.msgPtr = false ∨ s.dataSet = false then .error .nullDeref else .ok ((s.reqLen, s.id), s, []))
        fun x => (rtuRecvR x.1 x.2).toProg afterRecv)
      (.step free (fun s => if s.msgPtr then do let r ← rtuRecv s.reqData s.reqLen s.id; return (r, s, []) else .error .nullDeref) afterRecv)
      ints s := by
  unfold SameAs
  by_cases hn : s.msgPtr = false ∨ s.dataSet = false
  · refine ⟨ints, rfl, ?_⟩
    rw [runProg_head cfg hs, runProg_head cfg hs]
    have hn' : (slaveAfter s (ints.headD [])).msgPtr = false ∨ (slaveAfter s (ints.headD [])).dataSet = false := hn
    rw [if_pos hn']
    rcases hn' with h | h
    · rw [h]; rfl
    · cases hm : (slaveAfter s (ints.headD [])).msgPtr with
      | false => rfl
      | true =>
        have : (slaveAfter s (ints.headD [])).reqData = none := by unfold Slave.reqData; rw [h]; rfl
        rw [this]; rfl
  · generalize hs1 : slaveAfter s (ints.headD []) = s1
    have hn1 : ¬ (s1.msgPtr = false ∨ s1.dataSet = false) := by rw [← hs1]; exact hn
    have hs1' : s1.subscribed = true := by rw [← hs1]; exact hs
    have hr1 : Room s1 ints.tail := by rw [← hs1]; exact hr.tail
    have hm1 : s1.msgPtr = true := by
      cases h : s1.msgPtr with
      | true => rfl
      | false => exact absurd (.inl h) hn1
    have hd1 : s1.reqData = some s1.req := by
      unfold Slave.reqData
      cases h : s1.dataSet with
      | true => rfl
      | false => exact absurd (.inr h) hn1
    have main : ∃ ints', ints'.flatten = ints.tail.flatten ∧
        runProg (slaveInt cfg) ((rtuRecvR s1.reqLen s1.id).toProg afterRecv) ints.tail s1 =
          (rtuRecv (some s1.req) s1.reqLen s1.id >>= fun r => runProg (slaveInt cfg) (afterRecv r) ints' s1) := by
      by_cases h0 : 0 < s1.reqLen.toNat
      · have := toProg_then cfg (k := afterRecv) hs1' (reads_rtuRecv s1.reqLen s1.id s1.req h0) (hr1.kept (Nat.le_refl _))
        rwa [run_rtuRecv] at this
      · have e0 : s1.reqLen.toNat = 0 := by omega
        obtain ⟨v, hv, hv0⟩ : ∃ v, rtuRecv (some s1.req) s1.reqLen s1.id = .ok v ∧ v ≠ RET_OK := by
          unfold rtuRecv calculateCRC
          rw [e0]
          simp only [rd, idxSlaveAdr, rtuBufferSize, crcLoop]
          by_cases hid : s1.id ≠ s1.req 0
          · exact ⟨RET_ERROR_SLAVE_ID, by simp [hid, okBind, pureOk], by decide⟩
          · exact ⟨RET_ERROR_CRC, by simp [hid, okBind, pureOk], by decide⟩
        have hR : ∃ f : U8 → ReqM Ret, rtuRecvR s1.reqLen s1.id = .rd 0 f ∧ ∀ x, ∃ v, f x = .ret v ∧ v ≠ RET_OK := by
          refine ⟨fun x => if s1.id ≠ x then .ret RET_ERROR_SLAVE_ID else .ret RET_ERROR_CRC, ?_, ?_⟩
          · unfold rtuRecvR
            rw [e0]
            show ReqM.bind (.rd 0 .ret) _ = _
            simp only [ReqM.bind]
            congr 1
          · intro x
            by_cases hid : s1.id ≠ x
            · exact ⟨_, if_pos hid, by decide⟩
            · exact ⟨_, if_neg hid, by decide⟩
        obtain ⟨f, hf, hfx⟩ := hR
        refine ⟨(ints.tail.headD [] ++ ints.tail.tail.headD []) :: ints.tail.tail.tail, ?_, ?_⟩
        · rw [flatten_split ints.tail, flatten_split ints.tail.tail]
          simp only [List.flatten_cons, List.append_assoc]
        · rw [hf, hv]
          show runProg (slaveInt cfg) (.step free _ _) ints.tail s1 = _
          rw [runProg_head cfg hs1']
          simp only [okBind, addOut_nil]
          obtain ⟨w, hw, hw0⟩ := hfx ((slaveAfter s1 (ints.tail.headD [])).req 0)
          rw [hw]
          show runProg (slaveInt cfg) (afterRecv w) _ _ = _
          rw [runProg_push cfg _ hs1']
          unfold afterRecv
          rw [if_pos hw0, if_pos hv0]
    obtain ⟨ints', e1, e2⟩ := main
    refine ⟨ints.headD [] :: ints', ?_, ?_⟩
    · rw [flatten_split ints, ← e1]; rfl
    · rw [runProg_head cfg hs, runProg_head cfg hs]
      show _ = ((if (slaveAfter s (ints.headD [])).msgPtr then do
          let r ← rtuRecv (slaveAfter s (ints.headD [])).reqData (slaveAfter s (ints.headD [])).reqLen (slaveAfter s (ints.headD [])).id
          return (r, (slaveAfter s (ints.headD [])), []) else .error .nullDeref) >>= fun x =>
        addOut x.2.2 (runProg (slaveInt cfg) (afterRecv x.1) ints' x.2.1))
      rw [hs1, if_neg hn1, hm1, hd1]
      simp only [okBind, addOut_nil, if_true]
      rw [e2]
      cases rtuRecv (some s1.req) s1.reqLen s1.id with
      | error u => rfl
      | ok r => simp only [okBind, pureOk, addOut_nil]

end Modbus
