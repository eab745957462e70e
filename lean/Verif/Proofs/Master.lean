import Verif.Proofs.MasterResp
import Verif.Proofs.Queue

/-! Invariant of the master state machine over all executions after an RTU initialisation. -/

namespace Modbus

open Spec

/-- Bookkeeping of an execution: where every message buffer is, which requests are queued, and the current transaction
(buffer, request, number of transmissions so far). -/
structure Ghost where
  fl : List Nat
  tl : List Nat
  lost : List Nat
  pend : List MReq
  cur : Option (Nat × MReq × Nat)

/-- The buffer of the current transaction, as a list. -/
def Ghost.curIdx (g : Ghost) : List Nat := (g.cur.map Prod.fst).toList

/-- Relation between state and current transaction. -/
def CurOk (cfg : Config) (s : Master) : Option (Nat × MReq × Nat) → Prop
  | none => s.st = .idle ∧ s.repeatCnt = 0
  | some (i, r, c) => s.msgBuf = some i ∧ s.rxTarget = some i ∧ Holds (s.msgs i) r ∧ QtyOk r ∧ 1 ≤ c ∧
      c ≤ cfg.repeatMax + 1 ∧
      ((s.st = .repeatRequest ∧ s.repeatCnt.toNat = c ∧ c ≤ cfg.repeatMax) ∨
       ((s.st = .transmitting ∨ s.st = .waiting ∨ s.st = .received) ∧ s.repeatCnt.toNat + 1 = c))

/-- The queued buffers hold the frames of the queued requests. -/
def PendOk (msgs : Nat → MMsg) : List Nat → List MReq → Prop
  | [], [] => True
  | i :: tl, r :: rest => (Holds (msgs i) r ∧ QtyOk r) ∧ PendOk msgs tl rest
  | _, _ => False

structure MInv (cfg : Config) (s : Master) (g : Ghost) : Prop where
  drv : s.drv = true
  data : s.dataSet = true
  free : s.freeQ.Rep cfg.queueItems g.fl
  tx : s.txQ.Rep cfg.queueItems g.tl
  perm : (g.fl ++ g.tl ++ g.curIdx ++ g.lost).Perm (List.range cfg.queueItems)
  pend : PendOk s.msgs g.tl g.pend
  cur : CurOk cfg s g.cur
  flags : s.t15 ≠ .unknown ∧ s.t35 ≠ .unknown ∧ s.ferr ≠ .unknown ∧ s.txf ≠ .unknown ∧ s.crcf ≠ .unknown

/-- How a transaction for request `r`, transmitted `c` times, can end, and the callbacks made. -/
inductive Finish (cfg : Config) (r : MReq) (c : Nat) : List MEvent → Prop
  | timeout (fc : U8) : Finish cfg r c
      [.timeoutErr { slave := reqSlave r, fc := fc, adr := reqAdr r, qty := reqField r, err := .timeout }]
  | comm (slave fc : U8) (e : RespErr) (hc : c = cfg.repeatMax + 1) (he : e ≠ .timeout) : Finish cfg r c
      [.commErr { slave := slave, fc := fc, adr := 0, qty := 0, err := e }]
  | answered (m : MMsg) (evs : List MEvent) (hm : Holds m r) (he : respEvents m = .ok evs) : Finish cfg r c evs

/-- One step of the bookkeeping: operation, observable outputs, new bookkeeping. -/
inductive GStep (cfg : Config) (g : Ghost) : MOp → List MOut → Ghost → Prop
  | accept (r : MReq) (i : Nat) (fl : List Nat) (h : g.fl = i :: fl) (hq : QtyOk r) :
      GStep cfg g (.request r) [.ret .sendToQueue] { g with fl := fl, tl := g.tl ++ [i], pend := g.pend ++ [r] }
  | full (r : MReq) (h : g.fl = []) : GStep cfg g (.request r) [.ret .freeQueueEmpty] g
  | refuse (r : MReq) (i : Nat) (fl : List Nat) (h : g.fl = i :: fl) (hq : ¬ QtyOk r) :
      GStep cfg g (.request r) [.ret .pduError] { g with fl := fl, lost := i :: g.lost }
  | start (r : MReq) (i : Nat) (tl : List Nat) (rest : List MReq) (hc : g.cur = none) (ht : g.tl = i :: tl)
      (hp : g.pend = r :: rest) :
      GStep cfg g .poll [.send (reqFrame r)] { g with tl := tl, pend := rest, cur := some (i, r, 1) }
  | again (r : MReq) (i c : Nat) (hc : g.cur = some (i, r, c)) (hle : c ≤ cfg.repeatMax) :
      GStep cfg g .poll [.send (reqFrame r)] { g with cur := some (i, r, c + 1) }
  | finish (r : MReq) (i c : Nat) (evs : List MEvent) (hc : g.cur = some (i, r, c)) (hf : Finish cfg r c evs) :
      GStep cfg g .poll (evs.map .event) { g with cur := none, fl := g.fl ++ [i] }
  | silent (op : MOp) (h : ∀ r, op ≠ .request r) : GStep cfg g op [] g

/-- The configuration bounds under which the 8 bit counters work. -/
structure Config.MWF (cfg : Config) : Prop where
  qpos : 1 ≤ cfg.queueItems
  qle : cfg.queueItems ≤ 255
  rle : cfg.repeatMax ≤ 254

/-! Initialisation. -/

theorem pushAllLoop_rep (N : Nat) (hN : N ≤ 255) (n i : Nat) (hi : i + n = N) (q : Queue Nat)
    (h : q.Rep N (List.range i)) : ∃ q', pushAllLoop N n i q = .ok q' ∧ q'.Rep N (List.range N) := by
  induction n generalizing i q with
  | zero =>
    obtain rfl : i = N := by omega
    exact ⟨q, rfl, h⟩
  | succ n ih =>
    obtain ⟨q', h1, h2⟩ := h.push_ok hN (by simp; omega) i
    rw [← List.range_succ] at h2
    obtain ⟨q'', h3, h4⟩ := ih (i + 1) (by omega) q' h2
    exact ⟨q'', by simp only [pushAllLoop, h1, ok_bind, h3], h4⟩

/-- Bookkeeping right after initialisation. -/
def Ghost.fresh (cfg : Config) : Ghost := { fl := List.range cfg.queueItems, tl := [], lost := [], pend := [], cur := none }

theorem masterInit_inv {cfg : Config} (hw : cfg.MWF) (s : Master) :
    ∃ s', masterInit cfg s .rtu = .ok s' ∧ MInv cfg s' (Ghost.fresh cfg) := by
  obtain ⟨fq, h1, h2⟩ := pushAllLoop_rep cfg.queueItems hw.qle cfg.queueItems 0 (by omega) s.freeQ.init
    (Queue.init_rep _ hw.qpos _)
  have hq := hw.qle
  refine ⟨_, by unfold masterInit; rw [if_neg (by omega), h1, ok_bind]; rfl, ?_⟩
  refine ⟨rfl, rfl, h2, Queue.init_rep _ hw.qpos _, ?_, trivial, ⟨rfl, rfl⟩, ?_⟩
  · simp [Ghost.fresh, Ghost.curIdx]
  · simp

/-! Frame lemmas. -/

theorem setMsg_same (f : Nat → MMsg) (i : Nat) (m : MMsg) : setMsg f i m i = m := by simp [setMsg]
theorem setMsg_ne (f : Nat → MMsg) {i j : Nat} (m : MMsg) (h : j ≠ i) : setMsg f i m j = f j := by simp [setMsg, h]

/-- Same requests in all messages (responses may differ). -/
def SameReq (f f' : Nat → MMsg) : Prop := ∀ j, (f' j).req = (f j).req ∧ (f' j).reqLen = (f j).reqLen

theorem SameReq.rfl' (f : Nat → MMsg) : SameReq f f := fun _ => ⟨rfl, rfl⟩

theorem SameReq.set (f : Nat → MMsg) (i : Nat) (m : MMsg) (h1 : m.req = (f i).req) (h2 : m.reqLen = (f i).reqLen) :
    SameReq f (setMsg f i m) := by
  intro j
  by_cases h : j = i
  · subst h; rw [setMsg_same]; exact ⟨h1, h2⟩
  · rw [setMsg_ne _ _ h]; exact ⟨rfl, rfl⟩

theorem SameReq.holds {f f' : Nat → MMsg} (h : SameReq f f') {i : Nat} {r : MReq} (hh : Holds (f i) r) : Holds (f' i) r := by
  unfold Holds at hh ⊢
  rw [(h i).1, (h i).2]; exact hh

theorem SameReq.pend {f f' : Nat → MMsg} (h : SameReq f f') {tl : List Nat} {p : List MReq} (hp : PendOk f tl p) :
    PendOk f' tl p := by
  induction tl generalizing p with
  | nil => cases p <;> exact hp
  | cons i tl ih =>
    cases p with
    | nil => exact hp
    | cons r rest => exact ⟨⟨h.holds hp.1.1, hp.1.2⟩, ih hp.2⟩

theorem PendOk.set_notin {f : Nat → MMsg} {tl : List Nat} {p : List MReq} (hp : PendOk f tl p) {i : Nat} (m : MMsg)
    (hi : i ∉ tl) : PendOk (setMsg f i m) tl p := by
  induction tl generalizing p with
  | nil => cases p <;> exact hp
  | cons j tl ih =>
    cases p with
    | nil => exact hp
    | cons r rest =>
      simp at hi
      refine ⟨?_, ih hp.2 hi.2⟩
      rw [setMsg_ne _ _ (fun e => hi.1 e.symm)]
      exact hp.1

theorem PendOk.append {f : Nat → MMsg} {tl : List Nat} {p : List MReq} (hp : PendOk f tl p) {i : Nat} {r : MReq}
    (h : Holds (f i) r) (hq : QtyOk r) : PendOk f (tl ++ [i]) (p ++ [r]) := by
  induction tl generalizing p with
  | nil =>
    cases p with
    | nil => exact ⟨⟨h, hq⟩, trivial⟩
    | cons => exact hp.elim
  | cons j tl ih =>
    cases p with
    | nil => exact hp.elim
    | cons r' rest => exact ⟨hp.1, ih hp.2⟩

theorem PendOk.length {f : Nat → MMsg} {tl : List Nat} {p : List MReq} (hp : PendOk f tl p) : tl.length = p.length := by
  induction tl generalizing p with
  | nil => cases p <;> first | rfl | exact hp.elim
  | cons j tl ih =>
    cases p with
    | nil => exact hp.elim
    | cons r' rest => simp [ih hp.2]

theorem MInv.nodup {cfg : Config} {s : Master} {g : Ghost} (h : MInv cfg s g) :
    (g.fl ++ g.tl ++ g.curIdx ++ g.lost).Nodup := h.perm.nodup_iff.2 List.nodup_range

theorem MInv.lengths {cfg : Config} {s : Master} {g : Ghost} (h : MInv cfg s g) :
    g.fl.length + g.tl.length + g.curIdx.length + g.lost.length = cfg.queueItems := by
  have := h.perm.length_eq
  simp at this
  omega

/-! Requests. -/

theorem request_inv {cfg : Config} (hw : cfg.MWF) {s : Master} {g : Ghost} (h : MInv cfg s g) (r : MReq)
    (hd : QtyOk r → DataOk r) :
    ∃ s' o g', masterStep cfg s (.request r) = .ok (s', o) ∧ MInv cfg s' g' ∧ GStep cfg g (.request r) o g' := by
  have hlen := h.lengths
  have hnd := h.nodup
  cases hfl : g.fl with
  | nil =>
    have hfree := h.free
    rw [hfl] at hfree
    refine ⟨{ s with freeQ := s.freeQ }, [.ret .freeQueueEmpty], g, ?_, h, .full r hfl⟩
    simp only [masterStep, generateRequest, hfree.pop_nil, ok_bind]
    rfl
  | cons i fl =>
    have hfree := h.free
    rw [hfl] at hfree hlen hnd
    obtain ⟨fq, e1, f1⟩ := hfree.pop_cons hw.qle
    have hitl : i ∉ g.tl := by
      intro hc
      simp [List.nodup_append, hc] at hnd
    have hicur : ∀ j r c, g.cur = some (j, r, c) → j ≠ i := by
      intro j r c hc e
      subst e
      simp [List.nodup_append, Ghost.curIdx, hc] at hnd
    by_cases hq : QtyOk r
    · obtain ⟨m', e2, hb⟩ := generatePdu_built (s.msgs i) r hq (hd hq)
      obtain ⟨e3, hf⟩ := built_framed hb
      have hsl : r.param.slaveId = reqSlave r := by cases r <;> rfl
      obtain ⟨tq, e4, f4⟩ := h.tx.push_ok hw.qle (by simp at hlen; omega) i
      let mm : MMsg := { m' with req := framed m'.req m'.reqLen.toNat (reqSlave r), reqLen := m'.reqLen + 2 }
      refine ⟨{ s with freeQ := fq, txQ := tq, msgs := setMsg s.msgs i mm }, [.ret .sendToQueue], _, ?_, ?_, .accept r i fl hfl hq⟩
      · simp only [masterStep, generateRequest, e1, ok_bind, h.data, e2, if_true, hsl, e3, e4]
        rfl
      · refine ⟨h.drv, h.data, f1, f4, ?_, ?_, ?_, h.flags⟩
        · have := h.perm
          rw [hfl] at this
          refine List.Perm.trans ?_ this
          simp only [Ghost.curIdx, List.append_assoc, List.cons_append, List.nil_append]
          rw [← List.append_assoc]
          refine List.perm_middle.trans ?_
          rw [List.append_assoc]
        · refine (h.pend.set_notin mm hitl).append ?_ hq
          rw [setMsg_same]; exact hf
        · have hc := h.cur
          show CurOk cfg _ g.cur
          cases hgc : g.cur with
          | none => rw [hgc] at hc; exact hc
          | some x =>
            obtain ⟨j, r', c⟩ := x
            rw [hgc] at hc
            refine ⟨hc.1, hc.2.1, ?_, hc.2.2.2⟩
            show Holds (setMsg s.msgs i mm j) r'
            rw [setMsg_ne _ _ (hicur j r' c hgc)]
            exact hc.2.2.1
    · refine ⟨{ s with freeQ := fq, msgs := setMsg s.msgs i (s.msgs i) }, [.ret .pduError], _, ?_, ?_, .refuse r i fl hfl hq⟩
      · simp only [masterStep, generateRequest, e1, ok_bind, h.data, generatePdu_refuse _ r hq]
        rfl
      · have hm : setMsg s.msgs i (s.msgs i) = s.msgs := by
          funext j; by_cases hj : j = i
          · subst hj; rw [setMsg_same]
          · rw [setMsg_ne _ _ hj]
        rw [hm]
        refine ⟨h.drv, h.data, f1, h.tx, ?_, h.pend, ?_, h.flags⟩
        · have := h.perm
          rw [hfl] at this
          refine List.Perm.trans ?_ this
          simp only [Ghost.curIdx, List.append_assoc, List.cons_append]
          rw [← List.append_assoc, ← List.append_assoc]
          refine List.perm_middle.trans ?_
          rw [List.append_assoc, List.append_assoc]
        · exact h.cur

/-! Polls. -/

/-- `masterProcessEnd` in an ongoing transaction. -/
theorem processEnd_inv {cfg : Config} (hw : cfg.MWF) {s s1 : Master} {g : Ghost} (h : MInv cfg s g) {i c : Nat} {r : MReq}
    (hc : g.cur = some (i, r, c)) (e1 : s1.freeQ = s.freeQ) (e2 : s1.txQ = s.txQ) (e3 : s1.msgs = s.msgs)
    (e4 : s1.msgBuf = s.msgBuf) (e5 : s1.drv = s.drv) (e6 : s1.dataSet = s.dataSet)
    (hf : s1.t15 ≠ .unknown ∧ s1.t35 ≠ .unknown ∧ s1.ferr ≠ .unknown ∧ s1.txf ≠ .unknown ∧ s1.crcf ≠ .unknown) :
    ∃ s', masterProcessEnd cfg s1 = .ok s' ∧ MInv cfg s' { g with cur := none, fl := g.fl ++ [i] } ∧
      s'.t15 = s1.t15 ∧ s'.t35 = s1.t35 ∧ s'.ferr = s1.ferr ∧ s'.crcf = s1.crcf ∧ s'.timer = s1.timer := by
  have hlen := h.lengths
  simp [Ghost.curIdx, hc] at hlen
  obtain ⟨fq, k1, k2⟩ := h.free.push_ok hw.qle (by omega) i
  have hcur := h.cur
  rw [hc] at hcur
  refine ⟨{ s1 with repeatCnt := 0, freeQ := fq, msgBuf := none, st := .idle }, ?_, ?_, rfl, rfl, rfl, rfl, rfl⟩
  · unfold masterProcessEnd
    rw [e1, e4, hcur.1, k1]; rfl
  · refine ⟨by rw [← h.drv]; exact e5, by rw [← h.data]; exact e6, k2, by show s1.txQ.Rep _ _; rw [e2]; exact h.tx, ?_, ?_, ⟨rfl, rfl⟩, hf⟩
    · have := h.perm
      refine List.Perm.trans ?_ this
      simp only [Ghost.curIdx, hc, Option.map_none, Option.toList_none, Option.map_some, Option.toList_some, List.append_assoc,
        List.cons_append, List.nil_append]
      refine List.Perm.append_left _ ?_
      exact (List.perm_middle (a := i) (l₁ := g.tl) (l₂ := g.lost)).symm
    · show PendOk s1.msgs _ _
      rw [e3]; exact h.pend

theorem send_inv {s : Master} {i : Nat} {r : MReq} (hd : s.drv = true) (hds : s.dataSet = true)
    (hm : s.msgBuf = some i) (hh : Holds (s.msgs i) r) :
    masterSend s = .ok ({ s with rxTarget := some i, txf := .set, st := .transmitting }, [.send (reqFrame r)]) := by
  unfold masterSend
  rw [hd, hm, hds]
  simp only [Bool.true_eq_false, if_false]
  rw [show (s.msgs i).req.bytes 0 (s.msgs i).reqLen.toNat = reqFrame r from hh]

/-- The condition under which a poll has undefined behaviour: a response with a register function code to a request for
more than 126 bits. -/
def Mismatch (s : Master) (g : Ghost) : Prop :=
  ∃ i r c, g.cur = some (i, r, c) ∧ s.st = .received ∧ isRead r = true ∧ 126 < (reqField r).toNat ∧
    ((s.msgs i).resp 1 = 3 ∨ (s.msgs i).resp 1 = 4) ∧ s.ferr = .cleared ∧ s.crcf = .cleared ∧ s.t35 = .set

theorem poll_idle {cfg : Config} (hw : cfg.MWF) {s : Master} {g : Ghost} (h : MInv cfg s g) (hs : s.st = .idle) :
    ∃ s' o g', masterPoll cfg s = .ok (s', o) ∧ MInv cfg s' g' ∧ GStep cfg g .poll o g' := by
  have hcn : g.cur = none := by
    cases hgc : g.cur with
    | none => rfl
    | some x =>
      obtain ⟨i, r, c⟩ := x
      have := h.cur
      rw [hgc] at this
      obtain ⟨-, -, -, -, -, -, h1 | h1⟩ := this <;> simp [hs] at h1
  have hcur := h.cur
  rw [hcn] at hcur
  cases htl : g.tl with
  | nil =>
    refine ⟨s, [], g, ?_, h, .silent _ (by simp)⟩
    unfold masterPoll
    rw [hs]
    simp only [masterIdle, h.tx.available, htl]
    rfl
  | cons i tl =>
    have htx := h.tx
    have hpend := h.pend
    rw [htl] at htx hpend
    cases hp : g.pend with
    | nil => rw [hp] at hpend; exact hpend.elim
    | cons r rest =>
      rw [hp] at hpend
      obtain ⟨tq, k1, k2⟩ := htx.pop_cons hw.qle
      let s1 : Master := { s with msgBuf := some i, txQ := tq }
      have hsend := send_inv (s := s1) (i := i) (r := r) h.drv h.data rfl hpend.1.1
      refine ⟨{ s1 with rxTarget := some i, txf := .set, st := .transmitting }, _, _, ?_, ?_, .start r i tl rest hcn htl hp⟩
      · unfold masterPoll
        rw [hs]
        simp only [masterIdle, htx.available, k1]
        exact hsend
      · refine ⟨h.drv, h.data, h.free, k2, ?_, hpend.2, ?_, ?_⟩
        · have := h.perm
          rw [htl] at this
          simp [Ghost.curIdx, hcn] at this ⊢
          refine List.Perm.trans ?_ this
          refine List.Perm.append_left _ ?_
          exact List.perm_middle
        · refine ⟨rfl, rfl, hpend.1.1, hpend.1.2, Nat.le_refl _, by omega, .inr ⟨.inl rfl, ?_⟩⟩
          show s.repeatCnt.toNat + 1 = 1
          rw [hcur.2]; rfl
        · have := h.flags
          exact ⟨this.1, this.2.1, this.2.2.1, by simp, this.2.2.2.2⟩

/-- An idle master with something queued transmits it at the next poll. -/
theorem poll_idle_send {cfg : Config} (hw : cfg.MWF) {s : Master} {g : Ghost} (h : MInv cfg s g) (hs : s.st = .idle)
    {r : MReq} {rest : List MReq} (hp : g.pend = r :: rest) : ∃ s' i, masterPoll cfg s = .ok (s', [.send (reqFrame r)]) ∧
      s'.st = .transmitting ∧ s'.txf = .set ∧ s'.msgBuf = some i ∧ s'.rxTarget = some i ∧ Holds (s'.msgs i) r ∧ QtyOk r ∧
      s'.t15 = s.t15 ∧ s'.t35 = s.t35 ∧ s'.ferr = s.ferr ∧ s'.crcf = s.crcf ∧ s'.timer = s.timer := by
  have htx := h.tx
  have hpend := h.pend
  rw [hp] at hpend
  cases htl : g.tl with
  | nil => rw [htl] at hpend; exact hpend.elim
  | cons i tl =>
    rw [htl] at htx hpend
    obtain ⟨tq, k1, k2⟩ := htx.pop_cons hw.qle
    refine ⟨{ s with msgBuf := some i, txQ := tq, rxTarget := some i, txf := .set, st := .transmitting }, i, ?_,
      rfl, rfl, rfl, rfl, hpend.1.1, hpend.1.2, rfl, rfl, rfl, rfl, rfl⟩
    unfold masterPoll
    rw [hs]
    simp only [masterIdle, htx.available, k1]
    exact send_inv (s := { s with msgBuf := some i, txQ := tq }) h.drv h.data rfl hpend.1.1

/-- An idle master with nothing queued does nothing. -/
theorem poll_idle_nop {cfg : Config} {s : Master} {g : Ghost} (h : MInv cfg s g) (hs : s.st = .idle) (hp : g.pend = []) :
    masterPoll cfg s = .ok (s, []) := by
  have hpend := h.pend
  rw [hp] at hpend
  cases htl : g.tl with
  | nil =>
    unfold masterPoll
    rw [hs]
    simp only [masterIdle, h.tx.available, htl]
    rfl
  | cons i tl => rw [htl] at hpend; exact hpend.elim

theorem poll_repeat {cfg : Config} {s : Master} {g : Ghost} (h : MInv cfg s g) (hs : s.st = .repeatRequest) :
    ∃ s' o g', masterPoll cfg s = .ok (s', o) ∧ MInv cfg s' g' ∧ GStep cfg g .poll o g' := by
  have hcur := h.cur
  cases hgc : g.cur with
  | none => rw [hgc] at hcur; simp [CurOk, hs] at hcur
  | some x =>
    obtain ⟨i, r, c⟩ := x
    rw [hgc] at hcur
    obtain ⟨c1, c2, c3, c4, c5, c6, h1 | h1⟩ := hcur
    · have hsend := send_inv (s := s) (i := i) (r := r) h.drv h.data c1 c3
      refine ⟨{ s with rxTarget := some i, txf := .set, st := .transmitting }, _, _, ?_, ?_, .again r i c hgc h1.2.2⟩
      · unfold masterPoll
        rw [hs]
        exact hsend
      · refine ⟨h.drv, h.data, h.free, h.tx, ?_, h.pend, ?_, ?_⟩
        · have := h.perm
          simpa [Ghost.curIdx, hgc] using this
        · refine ⟨c1, rfl, c3, c4, by omega, by omega, .inr ⟨.inl rfl, ?_⟩⟩
          show s.repeatCnt.toNat + 1 = c + 1
          omega
        · have := h.flags
          exact ⟨this.1, this.2.1, this.2.2.1, by simp, this.2.2.2.2⟩
    · simp [hs] at h1

theorem clearRespLen_ok {s : Master} {i : Nat} (h : s.msgBuf = some i) :
    clearRespLen s = .ok { s with msgs := setMsg s.msgs i { s.msgs i with respLen := 0 } } := by
  unfold clearRespLen; rw [h]

/-- A step that keeps the bookkeeping: same queues, same requests. -/
theorem MInv.keep {cfg : Config} {s s' : Master} {g : Ghost} (h : MInv cfg s g) (e1 : s'.freeQ = s.freeQ)
    (e2 : s'.txQ = s.txQ) (e3 : SameReq s.msgs s'.msgs) (e5 : s'.drv = s.drv) (e6 : s'.dataSet = s.dataSet)
    (hf : s'.t15 ≠ .unknown ∧ s'.t35 ≠ .unknown ∧ s'.ferr ≠ .unknown ∧ s'.txf ≠ .unknown ∧ s'.crcf ≠ .unknown)
    (hcur : CurOk cfg s' g.cur) : MInv cfg s' g :=
  ⟨by rw [e5, h.drv], by rw [e6, h.data], by rw [e1]; exact h.free, by rw [e2]; exact h.tx, h.perm, e3.pend h.pend, hcur, hf⟩

theorem CurOk.keep {cfg : Config} {s s' : Master} {x : Option (Nat × MReq × Nat)} (h : CurOk cfg s x)
    (e1 : s'.st = s.st) (e2 : s'.repeatCnt = s.repeatCnt) (e3 : SameReq s.msgs s'.msgs) (e4 : s'.msgBuf = s.msgBuf)
    (e5 : s'.rxTarget = s.rxTarget) : CurOk cfg s' x := by
  cases x with
  | none => exact ⟨e1.trans h.1, e2.trans h.2⟩
  | some x =>
    obtain ⟨i, r, c⟩ := x
    refine ⟨e4.trans h.1, e5.trans h.2.1, e3.holds h.2.2.1, h.2.2.2.1, h.2.2.2.2.1, h.2.2.2.2.2.1, ?_⟩
    rw [e1, e2]
    exact h.2.2.2.2.2.2

theorem poll_transmitting {cfg : Config} {s : Master} {g : Ghost} (h : MInv cfg s g) (hs : s.st = .transmitting) :
    ∃ s' o g', masterPoll cfg s = .ok (s', o) ∧ MInv cfg s' g' ∧ GStep cfg g .poll o g' := by
  have hcur := h.cur
  cases hgc : g.cur with
  | none => rw [hgc] at hcur; simp [CurOk, hs] at hcur
  | some x =>
    obtain ⟨i, r, c⟩ := x
    rw [hgc] at hcur
    obtain ⟨c1, c2, c3, c4, c5, c6, h1 | h1⟩ := hcur
    · simp [hs] at h1
    · unfold masterPoll
      rw [hs]
      simp only [masterTransmitting]
      by_cases ht : s.txf = .cleared
      · rw [if_pos ht, clearRespLen_ok c1, ok_bind]
        refine ⟨_, _, g, rfl, ?_, .silent _ (by simp)⟩
        refine h.keep rfl rfl (SameReq.set _ _ _ rfl rfl) rfl rfl h.flags ?_
        rw [hgc]
        refine ⟨c1, c2, (SameReq.set s.msgs i { s.msgs i with respLen := 0 } rfl rfl).holds c3, c4, c5, c6, .inr ⟨.inr (.inl rfl), h1.2⟩⟩
      · rw [if_neg ht]
        exact ⟨s, [], g, rfl, h, .silent _ (by simp)⟩

theorem curMsg_ok {s : Master} {i : Nat} (h1 : s.msgBuf = some i) (h2 : s.dataSet = true) : curMsg s = .ok (s.msgs i) := by
  unfold curMsg; rw [h1, h2]; rfl

/-- What the check of a received frame does, in closed form. -/
theorem masterRecv_eq {s : Master} {i : Nat} {r : MReq} (h1 : s.msgBuf = some i) (h2 : s.dataSet = true)
    (hh : Holds (s.msgs i) r) :
    masterRecv s = .ok (
      if reqSlave r ≠ (s.msgs i).resp 0 then
        { s with t15 := .cleared, t35 := .cleared, msgs := setMsg s.msgs i { s.msgs i with respLen := 0 } }
      else if crc16 ((s.msgs i).resp.bytes 0 (s.msgs i).respLen.toNat) ≠ 0 then
        { s with t15 := .cleared, t35 := .cleared, timer := 0, crcf := .set, st := .received }
      else { s with t15 := .cleared, t35 := .cleared, timer := 0, st := .received }, []) := by
  unfold masterRecv
  rw [curMsg_ok h1 h2, ok_bind, rd_ok _ (by decide), ok_bind, rtuRecv_eq]
  simp only [ok_bind, idxSlaveAdr, hh.fields.1]
  by_cases a : reqSlave r ≠ (s.msgs i).resp 0
  · rw [if_pos a, if_pos a, if_neg (by decide), if_pos rfl, clearRespLen_ok (s := { s with t15 := .cleared, t35 := .cleared }) h1]
    rfl
  · rw [if_neg a, if_neg a]
    by_cases b : crc16 ((s.msgs i).resp.bytes 0 (s.msgs i).respLen.toNat) ≠ 0
    · rw [if_pos b, if_pos b, if_pos rfl]
      rfl
    · rw [if_neg b, if_neg b, if_neg (by decide), if_neg (by decide)]
      rfl

theorem timeoutReport_eq {s : Master} {i : Nat} {r : MReq} (h1 : s.msgBuf = some i) (h2 : s.dataSet = true)
    (hh : Holds (s.msgs i) r) :
    masterTimeoutReport s = .ok (.timeoutErr { slave := reqSlave r, fc := (s.msgs i).resp 1, adr := reqAdr r, qty := reqField r, err := .timeout }) := by
  obtain ⟨f0, f1, f2, f3⟩ := hh.fields
  unfold masterTimeoutReport
  rw [curMsg_ok h1 h2, ok_bind, rd_ok _ (by decide), ok_bind, readU16_ok _ (by decide), ok_bind, readU16_ok _ (by decide), ok_bind,
    rd_ok _ (by decide), ok_bind]
  simp only [idxSlaveAdr, idxRequestAdr, idxRequestQty, idxFunctionCode, f0, f2, f3]
  rfl

theorem poll_waiting {cfg : Config} (hw : cfg.MWF) {s : Master} {g : Ghost} (h : MInv cfg s g) (hs : s.st = .waiting) :
    ∃ s' o g', masterPoll cfg s = .ok (s', o) ∧ MInv cfg s' g' ∧ GStep cfg g .poll o g' := by
  have hcur := h.cur
  cases hgc : g.cur with
  | none => rw [hgc] at hcur; simp [CurOk, hs] at hcur
  | some x =>
    obtain ⟨i, r, c⟩ := x
    have hcur0 := hcur
    rw [hgc] at hcur
    obtain ⟨c1, c2, c3, c4, c5, c6, h1 | h1⟩ := hcur
    · simp [hs] at h1
    · have hfl := h.flags
      unfold masterPoll
      rw [hs]
      simp only [masterWaiting]
      by_cases ht : s.t15 = .set
      · rw [if_pos ht, masterRecv_eq c1 h.data c3]
        refine ⟨_, _, g, rfl, ?_, .silent _ (by simp)⟩
        split
        · refine h.keep rfl rfl (SameReq.set _ _ _ rfl rfl) rfl rfl ?_ ?_
          · exact ⟨by simp, by simp, hfl.2.2.1, hfl.2.2.2.1, hfl.2.2.2.2⟩
          · exact hcur0.keep rfl rfl (SameReq.set _ _ _ rfl rfl) rfl rfl
        · split
          · refine h.keep rfl rfl (SameReq.rfl' _) rfl rfl ?_ ?_
            · exact ⟨by simp, by simp, hfl.2.2.1, hfl.2.2.2.1, by simp⟩
            · rw [hgc]; exact ⟨c1, c2, c3, c4, c5, c6, .inr ⟨.inr (.inr rfl), h1.2⟩⟩
          · refine h.keep rfl rfl (SameReq.rfl' _) rfl rfl ?_ ?_
            · exact ⟨by simp, by simp, hfl.2.2.1, hfl.2.2.2.1, hfl.2.2.2.2⟩
            · rw [hgc]; exact ⟨c1, c2, c3, c4, c5, c6, .inr ⟨.inr (.inr rfl), h1.2⟩⟩
      · rw [if_neg ht]
        by_cases hk : s.timer = 1
        · rw [if_pos hk, timeoutReport_eq c1 h.data c3, ok_bind]
          obtain ⟨s', k1, k2, -⟩ := processEnd_inv hw h (s1 := s) hgc rfl rfl rfl rfl rfl rfl hfl
          rw [k1]
          exact ⟨_, _, _, rfl, k2, .finish r i c _ hgc (.timeout _)⟩
        · rw [if_neg hk]
          exact ⟨s, [], g, rfl, h, .silent _ (by simp)⟩

theorem commReport_eq {s : Master} {i : Nat} (h1 : s.msgBuf = some i) (h2 : s.dataSet = true) (e : RespErr) :
    masterCommReport s e = .ok (.commErr { slave := (s.msgs i).resp 0, fc := (s.msgs i).resp 1 &&& 0x7F, adr := 0, qty := 0, err := e }) := by
  unfold masterCommReport
  rw [curMsg_ok h1 h2, ok_bind, rd_ok _ (by decide), ok_bind, rd_ok _ (by decide), ok_bind]
  rfl

theorem respEvents_ds {s : Master} (i : Nat) (h : s.dataSet = true) :
    (do let (_, ev) ← readSlaveResp s.dataSet (s.msgs i); return ev : C (List MEvent)) = respEvents (s.msgs i) := by
  rw [h]; rfl

theorem respEvents_cases {m : MMsg} {r : MReq} (hh : Holds m r) (hq : QtyOk r) :
    (∃ evs, respEvents m = .ok evs) ∨
      (respEvents m = .error .oobRead ∧ isRead r = true ∧ 126 < (reqField r).toNat ∧ (m.resp 1 = 3 ∨ m.resp 1 = 4)) := by
  rw [respEvents_eq hh hq]
  split
  · exact .inl ⟨_, rfl⟩
  · unfold actualEvents
    simp only
    split
    · rename_i hr
      split
      · exact .inl ⟨_, rfl⟩
      split
      · exact .inl ⟨_, rfl⟩
      split
      · split
        · exact .inl ⟨_, rfl⟩
        · exact .inr ⟨rfl, hr, by omega, .inr (by assumption)⟩
      split
      · split
        · exact .inl ⟨_, rfl⟩
        · exact .inr ⟨rfl, hr, by omega, .inl (by assumption)⟩
      exact .inl ⟨_, rfl⟩
    · repeat' split
      all_goals exact .inl ⟨_, rfl⟩

theorem cnt_succ {x : U8} {c R : Nat} (h : x.toNat + 1 = c) (hR : c ≤ R + 1) (hR2 : R ≤ 254) : (x + 1).toNat = c := by
  rw [BitVec.toNat_add]
  show (x.toNat + 1) % 256 = c
  omega

theorem poll_received {cfg : Config} (hw : cfg.MWF) {s : Master} {g : Ghost} (h : MInv cfg s g) (hs : s.st = .received) :
    (∃ s' o g', masterPoll cfg s = .ok (s', o) ∧ MInv cfg s' g' ∧ GStep cfg g .poll o g') ∨
      (masterPoll cfg s = .error .oobRead ∧ Mismatch s g) := by
  have hcur := h.cur
  cases hgc : g.cur with
  | none => rw [hgc] at hcur; simp [CurOk, hs] at hcur
  | some x =>
    obtain ⟨i, r, c⟩ := x
    rw [hgc] at hcur
    obtain ⟨c1, c2, c3, c4, c5, c6, h1 | h1⟩ := hcur
    · simp [hs] at h1
    · have hfl := h.flags
      have hcnt := cnt_succ h1.2 c6 hw.rle
      have hrun : masterPoll cfg s = masterReceived cfg s := by unfold masterPoll; rw [hs]
      rw [hrun]
      unfold masterReceived
      by_cases a1 : s.ferr = .set ∧ s.t35 = .set
      · left
        rw [if_pos a1]
        unfold masterFrameError
        simp only [hcnt]
        by_cases hle : c ≤ cfg.repeatMax
        · rw [if_pos hle, clearRespLen_ok (by exact c1), ok_bind]
          refine ⟨_, _, g, rfl, ?_, .silent _ (by simp)⟩
          refine h.keep rfl rfl (SameReq.set _ _ _ rfl rfl) rfl rfl ⟨hfl.1, hfl.2.1, by simp, hfl.2.2.2.1, hfl.2.2.2.2⟩ ?_
          rw [hgc]
          exact ⟨c1, c2, (SameReq.set s.msgs i { s.msgs i with respLen := 0 } rfl rfl).holds c3, c4, c5, c6, .inl ⟨rfl, hcnt, hle⟩⟩
        · rw [if_neg hle, commReport_eq (s := { s with repeatCnt := s.repeatCnt + 1 }) c1 h.data, ok_bind]
          obtain ⟨s', k1, k2, -⟩ := processEnd_inv hw h (s1 := { s with repeatCnt := s.repeatCnt + 1 }) hgc rfl rfl rfl rfl rfl rfl hfl
          rw [k1]
          exact ⟨_, _, _, rfl, k2, .finish r i c _ hgc (.comm _ _ _ (by omega) (by simp))⟩
      · rw [if_neg a1]
        by_cases a2 : s.crcf = .set ∧ s.t35 = .set
        · left
          rw [if_pos a2]
          unfold masterCrcError
          simp only [hcnt]
          by_cases hle : c ≤ cfg.repeatMax
          · rw [if_pos hle, clearRespLen_ok (by exact c1), ok_bind]
            refine ⟨_, _, g, rfl, ?_, .silent _ (by simp)⟩
            refine h.keep rfl rfl (SameReq.set _ _ _ rfl rfl) rfl rfl ⟨hfl.1, hfl.2.1, hfl.2.2.1, hfl.2.2.2.1, by simp⟩ ?_
            rw [hgc]
            exact ⟨c1, c2, (SameReq.set s.msgs i { s.msgs i with respLen := 0 } rfl rfl).holds c3, c4, c5, c6, .inl ⟨rfl, hcnt, hle⟩⟩
          · rw [if_neg hle, commReport_eq (s := { s with repeatCnt := s.repeatCnt + 1 }) c1 h.data, ok_bind]
            obtain ⟨s', k1, k2, -⟩ := processEnd_inv hw h (s1 := { s with repeatCnt := s.repeatCnt + 1 }) hgc rfl rfl rfl rfl rfl rfl hfl
            rw [k1]
            exact ⟨_, _, _, rfl, k2, .finish r i c _ hgc (.comm _ _ _ (by omega) (by simp))⟩
        · rw [if_neg a2]
          by_cases a3 : s.ferr = .cleared ∧ s.crcf = .cleared ∧ s.t35 = .set
          · rw [if_pos a3]
            unfold masterCorrect
            rw [c1]
            simp only [respEvents_ds i h.data]
            rcases respEvents_cases c3 c4 with ⟨evs, he⟩ | ⟨he, m1, m2, m3⟩
            · left
              rw [he, ok_bind]
              obtain ⟨s', k1, k2, -⟩ := processEnd_inv hw h (s1 := s) hgc rfl rfl rfl rfl rfl rfl hfl
              rw [k1]
              exact ⟨_, _, _, rfl, k2, .finish r i c _ hgc (.answered _ _ c3 he)⟩
            · right
              rw [he]
              exact ⟨rfl, i, r, c, hgc, hs, m1, m2, m3, a3⟩
          · rw [if_neg a3]
            exact .inl ⟨s, [], g, rfl, h, .silent _ (by simp)⟩

theorem rx_inv {cfg : Config} {s : Master} {g : Ghost} (h : MInv cfg s g) (b : U8) :
    ∃ s', masterRx s b = .ok s' ∧ MInv cfg s' g := by
  unfold masterRx
  cases ht : s.rxTarget with
  | none => exact ⟨s, rfl, h⟩
  | some i =>
    simp only [h.data, if_true]
    rw [wr_ok _ _ (by omega), ok_bind]
    refine ⟨_, rfl, ?_⟩
    refine h.keep rfl rfl (SameReq.set _ _ _ rfl rfl) rfl h.data.symm h.flags ?_
    exact h.cur.keep rfl rfl (SameReq.set _ _ _ rfl rfl) rfl ht.symm

/-- Every operation other than a re-initialisation keeps the invariant; the only possible undefined behaviour is `Mismatch`. -/
theorem masterStep_inv {cfg : Config} (hw : cfg.MWF) {s : Master} {g : Ghost} (h : MInv cfg s g) (op : MOp)
    (hop : ∀ m, op ≠ .init m) (hd : ∀ r, op = .request r → QtyOk r → DataOk r) :
    (∃ s' o g', masterStep cfg s op = .ok (s', o) ∧ MInv cfg s' g' ∧ GStep cfg g op o g') ∨
      (op = .poll ∧ masterStep cfg s op = .error .oobRead ∧ Mismatch s g) := by
  have hfl := h.flags
  cases op with
  | init m => exact absurd rfl (hop m)
  | request r => exact .inl (request_inv hw h r (hd r rfl))
  | poll =>
    cases hs : s.st with
    | idle => exact .inl (poll_idle hw h hs)
    | repeatRequest => exact .inl (poll_repeat h hs)
    | transmitting => exact .inl (poll_transmitting h hs)
    | waiting => exact .inl (poll_waiting hw h hs)
    | received =>
      rcases poll_received hw h hs with k | ⟨k1, k2⟩
      · exact .inl k
      · exact .inr ⟨rfl, k1, k2⟩
  | tick =>
    refine .inl ⟨_, _, g, rfl, ?_, .silent _ (by simp)⟩
    split
    · exact h.keep rfl rfl (SameReq.rfl' _) rfl rfl hfl (h.cur.keep rfl rfl (SameReq.rfl' _) rfl rfl)
    · exact h
  | t15 =>
    refine .inl ⟨_, _, g, rfl, ?_, .silent _ (by simp)⟩
    rw [if_pos h.drv]
    exact h.keep rfl rfl (SameReq.rfl' _) rfl rfl ⟨by simp, hfl.2.1, hfl.2.2.1, hfl.2.2.2.1, hfl.2.2.2.2⟩ (h.cur.keep rfl rfl (SameReq.rfl' _) rfl rfl)
  | t35 =>
    refine .inl ⟨_, _, g, rfl, ?_, .silent _ (by simp)⟩
    rw [if_pos h.drv]
    exact h.keep rfl rfl (SameReq.rfl' _) rfl rfl ⟨hfl.1, by simp, hfl.2.2.1, hfl.2.2.2.1, hfl.2.2.2.2⟩ (h.cur.keep rfl rfl (SameReq.rfl' _) rfl rfl)
  | frameErr =>
    refine .inl ⟨_, _, g, rfl, ?_, .silent _ (by simp)⟩
    rw [if_pos h.drv]
    exact h.keep rfl rfl (SameReq.rfl' _) rfl rfl ⟨hfl.1, hfl.2.1, by simp, hfl.2.2.2.1, hfl.2.2.2.2⟩ (h.cur.keep rfl rfl (SameReq.rfl' _) rfl rfl)
  | txDone =>
    refine .inl ⟨_, _, g, rfl, ?_, .silent _ (by simp)⟩
    rw [if_pos h.drv]
    exact h.keep rfl rfl (SameReq.rfl' _) rfl rfl ⟨hfl.1, hfl.2.1, hfl.2.2.1, by simp, hfl.2.2.2.2⟩ (h.cur.keep rfl rfl (SameReq.rfl' _) rfl rfl)
  | rxByte b =>
    obtain ⟨s', k1, k2⟩ := rx_inv h b
    refine .inl ⟨s', [], g, ?_, k2, .silent _ (by simp)⟩
    simp only [masterStep, k1, ok_bind]
    rfl

/-- A run of the bookkeeping. -/
inductive GRun (cfg : Config) : Ghost → MTrace → Ghost → Prop
  | nil (g : Ghost) : GRun cfg g [] g
  | cons {g g' g'' : Ghost} {op : MOp} {o : List MOut} {tr : MTrace} (h1 : GStep cfg g op o g') (h2 : GRun cfg g' tr g'') :
      GRun cfg g ((op, o) :: tr) g''

/-- Operations after initialisation that keep the interface contract: no re-initialisation, and multiple writes are given
an array of the announced size. -/
def OpsOk (ops : List MOp) : Prop :=
  ∀ op ∈ ops, (∀ m, op ≠ .init m) ∧ ∀ r, op = .request r → QtyOk r → DataOk r

theorem masterRun_inv {cfg : Config} (hw : cfg.MWF) {ops : List MOp} (ho : OpsOk ops) {s : Master} {g : Ghost}
    (h : MInv cfg s g) :
    (∃ s' tr g', masterRun cfg s ops = .ok (s', tr) ∧ MInv cfg s' g' ∧ GRun cfg g tr g') ∨
      (masterRun cfg s ops = .error .oobRead ∧ ∃ pre suf s1 tr1 g1, ops = pre ++ .poll :: suf ∧
        masterRun cfg s pre = .ok (s1, tr1) ∧ MInv cfg s1 g1 ∧ GRun cfg g tr1 g1 ∧ Mismatch s1 g1) := by
  induction ops generalizing s g with
  | nil => exact .inl ⟨s, [], g, rfl, h, .nil g⟩
  | cons op ops ih =>
    have ho1 := ho op (by simp)
    have ho2 : OpsOk ops := fun o hm => ho o (by simp [hm])
    rcases masterStep_inv hw h op ho1.1 ho1.2 with ⟨s', o, g', k1, k2, k3⟩ | ⟨rfl, k1, k2⟩
    · rcases ih ho2 k2 with ⟨s2, tr, g2, j1, j2, j3⟩ | ⟨j1, pre, suf, s1, tr1, g1, j2, j3, j4, j5, j6⟩
      · exact .inl ⟨s2, (op, o) :: tr, g2, by simp only [masterRun, k1, ok_bind, j1]; rfl, j2, .cons k3 j3⟩
      · refine .inr ⟨by simp only [masterRun, k1, ok_bind, j1]; rfl, op :: pre, suf, s1, (op, o) :: tr1, g1, by rw [j2]; rfl, ?_, j4, .cons k3 j5, j6⟩
        simp only [masterRun, k1, ok_bind, j3]; rfl
    · exact .inr ⟨by simp only [masterRun, k1]; rfl, [], ops, s, [], g, rfl, rfl, h, .nil g, k2⟩

/-- If the run has a result, the bookkeeping describes it. -/
theorem masterRun_ok {cfg : Config} (hw : cfg.MWF) {ops : List MOp} (ho : OpsOk ops) {s s' : Master} {g : Ghost} {tr : MTrace}
    (h : MInv cfg s g) (hr : masterRun cfg s ops = .ok (s', tr)) : ∃ g', MInv cfg s' g' ∧ GRun cfg g tr g' := by
  rcases masterRun_inv hw ho h with ⟨s2, tr2, g', j1, j2, j3⟩ | ⟨j1, -⟩
  · rw [hr] at j1
    cases j1
    exact ⟨g', j2, j3⟩
  · rw [hr] at j1; cases j1

end Modbus
