import Verif.Spec.Boot
import Verif.Props.Slave
import Verif.Proofs.DriverSlave
import Verif.Props.DriverMaster

/-! The slave device during its initialisation: it does what the library does in a history of its own. -/

namespace Modbus

open Spec

variable {cfg : Config} {Q E : Prop}

/-- The silences in a history of the library have happened: `Q` says that the line was silent for 1.5 characters, `E` that it was for 3.5. -/
def SOp.Why (Q E : Prop) : SOp → Prop
  | .t15 => Q
  | .frameErr => Q
  | .t35 => E
  | _ => True

/-- Facts after the first `k` statements of the initialisation. -/
structure BPhase (Q E : Prop) (d : SlaveBoot) (k : Nat) (id : U8) : Prop where
  todo : d.todo = (slaveInitStmts id).drop k
  le : k ≤ 19
  data : 0 < k → d.lib.dataSet = true
  msg : 1 < k → d.lib.msgPtr = true
  drv : 2 < k → d.lib.drv = true
  rx : 7 < k → d.rxMsg = true
  tx : 9 < k → d.cbTx = true
  t15 : 10 < k → d.cbT15 = true
  t35 : 11 < k → d.cbT35 = true
  err : 12 < k → d.cbErr = true ∧ d.lib.subscribed = true
  ident : 13 < k → k < 19 → d.lib.id = id
  st : 14 < k → k < 19 → d.lib.st = .idle
  f15 : 15 < k → k < 19 → d.lib.t15 = .cleared ∨ d.lib.t15 = .set ∧ Q
  f35 : 16 < k → k < 19 → d.lib.t35 = .cleared ∨ d.lib.t35 = .set ∧ E
  ferr : 17 < k → k < 19 → d.lib.ferr = .cleared ∨ d.lib.ferr = .set ∧ Q

/-- No pending interrupt can reach a null pointer. -/
structure BSafe (Q E : Prop) (d : SlaveBoot) : Prop where
  tx : d.cbTx = true → d.rxMsg = true ∧ d.lib.dataSet = true
  err : d.cbErr = true → d.cbTx = true ∧ d.cbT15 = true ∧ d.cbT35 = true
  rdr : d.hw.rdr ≠ none → d.cbTx = true
  txeie : d.hw.txeie = true → d.cbTx = true
  heard : d.hw.heard = true → d.cbTx = true
  cen : d.hw.cen = true → d.cbTx = true
  rtof : d.hw.rtof = true → d.cbErr = true ∧ Q
  uif : d.hw.uif = true → d.cbErr = true ∧ E
  gap : d.gap = true → d.cbErr = true ∧ Q
  last : d.last < 256

/-- The library of the device and a library with a history of its own. -/
structure Follows (d : SlaveBoot) (l : Slave) : Prop where
  live : Live l
  req : l.req = d.lib.req
  reqLen : l.reqLen = d.lib.reqLen
  resp : l.resp = d.lib.resp
  respLen : l.respLen = d.lib.respLen
  mem : l.mem = d.lib.mem
  done : d.todo = [] → d.lib = l

/-- The device has come from `d` (with `l`) to `d'`, while the bytes `new` arrived and the main program made the calls `calls`: the library `l` has had
some history with these calls, and the bytes it received arrived. -/
def Adv (cfg : Config) (Q E : Prop) (d : SlaveBoot) (l : Slave) (os : List SOut) (new : List U8) (calls : List SOp) (d' : SlaveBoot) : Prop :=
  ∃ sops l' k id, (∀ op ∈ sops, op.legal cfg ∧ op.Why Q E) ∧ slaveRun cfg l sops = .ok (l', os) ∧
    (bytesOf sops ++ d'.hw.rdr.toList).Sublist (d.hw.rdr.toList ++ new) ∧ sops.filter SOp.isCall = calls ∧ Follows d' l' ∧ BPhase Q E d' k id ∧ BSafe Q E d'

theorem Adv.refl {d d' : SlaveBoot} {l : Slave} {k : Nat} {id : U8} {new : List U8} (h : d'.hw.rdr.toList.Sublist (d.hw.rdr.toList ++ new))
    (f : Follows d' l) (p : BPhase Q E d' k id) (s : BSafe Q E d') : Adv cfg Q E d l [] new [] d' :=
  ⟨[], l, k, id, (fun _ h => nomatch h), rfl, h, rfl, f, p, s⟩

theorem boot_rx {d : SlaveBoot} {l : Slave} {k : Nat} {id : U8} (f : Follows d l) (p : BPhase Q E d k id) (s : BSafe Q E d) :
    ∃ d', bootIrqRx d = .ok d' ∧ d'.hw.txe = d.hw.txe ∧ d'.hw.rtof = d.hw.rtof ∧ (d.cbTx = d'.cbTx) ∧
      ∃ sops l', (∀ op ∈ sops, op.legal cfg ∧ op.Why Q E) ∧ slaveRun cfg l sops = .ok (l', []) ∧
        bytesOf sops ++ d'.hw.rdr.toList = d.hw.rdr.toList ∧ sops.filter SOp.isCall = [] ∧ Follows d' l' ∧ BPhase Q E d' k id ∧ BSafe Q E d' := by
  unfold bootIrqRx
  cases hr : d.hw.rdr with
  | none => exact ⟨d, rfl, rfl, rfl, rfl, [], l, (fun _ h => nomatch h), rfl, by rw [hr]; rfl, rfl, f, p, s⟩
  | some b =>
    have hx := s.rdr (by rw [hr]; exact fun h => nomatch h)
    obtain ⟨hm, hd⟩ := s.tx hx
    have hw : wr d.lib.req d.lib.reqLen.toNat b = .ok (d.lib.req.set d.lib.reqLen.toNat b) := wr_ok _ _ d.lib.reqLen.isLt
    have hw' : wr l.req l.reqLen.toNat b = .ok (d.lib.req.set d.lib.reqLen.toNat b) := by rw [f.req, f.reqLen]; exact hw
    dsimp only
    rw [if_neg (by rw [hm, hd]; simp), hw, ok_bind]
    have hstep : slaveStep cfg l (.rxByte b) = .ok ({ l with req := d.lib.req.set d.lib.reqLen.toNat b, reqLen := l.reqLen + 1 }, []) := by
      show (if l.subscribed = true then _ else _) = _
      rw [if_pos f.live.sub, hw']; rfl
    by_cases hg : d.gap = true
    · obtain ⟨he, hq⟩ := s.gap hg
      rw [if_pos hg, if_pos he]
      refine ⟨_, rfl, rfl, rfl, rfl, [.rxByte b, .frameErr],
        { l with req := d.lib.req.set d.lib.reqLen.toNat b, reqLen := l.reqLen + 1, ferr := .set }, ?_, ?_, rfl, rfl, ?_, ?_, ?_⟩
      rotate_left
      · rw [slaveRun_cons_ok hstep, slaveRun_cons_ok (o := []) (s1 := { l with req := d.lib.req.set d.lib.reqLen.toNat b, reqLen := l.reqLen + 1, ferr := .set })]
        · rfl
        · show Except.ok (if l.subscribed = true then _ else _, _) = _
          rw [if_pos f.live.sub]
      · constructor
        · exact ⟨f.live.drv, f.live.msgPtr, f.live.dataSet, f.live.sub⟩
        · rfl
        · show _ + 1 = _ + 1; rw [f.reqLen]
        · exact f.resp
        · exact f.respLen
        · exact f.mem
        · intro h; have := f.done h; subst this; rfl
      · exact { p with ferr := (fun _ _ => .inr ⟨rfl, hq⟩), todo := p.todo }
      · exact { s with rdr := fun h => absurd rfl h, cen := fun _ => hx }
      · intro op ho
        simp only [List.mem_cons, List.not_mem_nil, or_false] at ho
        rcases ho with rfl | rfl
        · exact ⟨trivial, trivial⟩
        · exact ⟨trivial, hq⟩
    · rw [if_neg hg]
      refine ⟨_, rfl, rfl, rfl, rfl, [.rxByte b],
        { l with req := d.lib.req.set d.lib.reqLen.toNat b, reqLen := l.reqLen + 1 }, ?_, ?_, rfl, rfl, ?_, ?_, ?_⟩
      rotate_left
      · rw [slaveRun_cons_ok hstep]; rfl
      · constructor
        · exact ⟨f.live.drv, f.live.msgPtr, f.live.dataSet, f.live.sub⟩
        · rfl
        · show _ + 1 = _ + 1; rw [f.reqLen]
        · exact f.resp
        · exact f.respLen
        · exact f.mem
        · intro h; have := f.done h; subst this; rfl
      · exact { p with todo := p.todo }
      · exact { s with rdr := fun h => absurd rfl h, cen := fun _ => hx }
      · intro op ho
        simp only [List.mem_cons, List.not_mem_nil, or_false] at ho
        subst ho; first | exact ⟨trivial, trivial⟩ | exact ⟨trivial, hq⟩

theorem boot_tx {d : SlaveBoot} {l : Slave} {k : Nat} {id : U8} (f : Follows d l) (p : BPhase Q E d k id) (s : BSafe Q E d) (hx : d.cbTx = true) :
    ∃ d' o, bootIrqTx d = .ok (d', o) ∧ frames o = [] ∧ d'.hw.rtof = d.hw.rtof ∧
      ∃ sops l', (∀ op ∈ sops, op.legal cfg ∧ op.Why Q E) ∧ slaveRun cfg l sops = .ok (l', []) ∧
        bytesOf sops ++ d'.hw.rdr.toList = d.hw.rdr.toList ∧ sops.filter SOp.isCall = [] ∧ Follows d' l' ∧ BPhase Q E d' k id ∧ BSafe Q E d' := by
  unfold bootIrqTx
  by_cases ht : d.hw.txe = true
  · rw [if_pos ht]
    by_cases hc : d.cur < d.last
    · have hl := s.last
      rw [if_pos hc, rd_ok _ (by omega), ok_bind]
      exact ⟨_, _, rfl, rfl, rfl, [], l, (fun _ h => nomatch h), rfl, rfl, rfl,
        ⟨f.live, f.req, f.reqLen, f.resp, f.respLen, f.mem, f.done⟩, { p with todo := p.todo }, { s with last := s.last }⟩
    · rw [if_neg hc, if_pos hx]
      refine ⟨_, _, rfl, rfl, rfl, [.txDone], { l with txf := .cleared }, ?_, ?_, rfl, rfl, ?_, ?_, ?_⟩
      · intro op ho
        simp only [List.mem_cons, List.not_mem_nil, or_false] at ho
        subst ho; first | exact ⟨trivial, trivial⟩ | exact ⟨trivial, hq⟩
      · rw [slaveRun_cons_ok (o := []) (s1 := { l with txf := .cleared })]
        · rfl
        · show Except.ok (if l.subscribed = true then _ else _, _) = _
          rw [if_pos f.live.sub]
      · constructor
        · exact ⟨f.live.drv, f.live.msgPtr, f.live.dataSet, f.live.sub⟩
        · exact f.req
        · exact f.reqLen
        · exact f.resp
        · exact f.respLen
        · exact f.mem
        · intro h; have := f.done h; subst this; rfl
      · exact { p with todo := p.todo }
      · exact { s with txeie := fun _ => hx }
  · rw [if_neg ht]
    exact ⟨d, _, rfl, rfl, rfl, [], l, (fun _ h => nomatch h), rfl, rfl, rfl, f, p, s⟩

theorem boot_rto {d : SlaveBoot} {l : Slave} {k : Nat} {id : U8} (f : Follows d l) (p : BPhase Q E d k id) (s : BSafe Q E d) :
    ∃ sops l', (∀ op ∈ sops, op.legal cfg ∧ op.Why Q E) ∧ slaveRun cfg l sops = .ok (l', []) ∧ bytesOf sops = [] ∧
      (bootIrqRto d).hw.rdr = d.hw.rdr ∧ sops.filter SOp.isCall = [] ∧ Follows (bootIrqRto d) l' ∧ BPhase Q E (bootIrqRto d) k id ∧
      BSafe Q E (bootIrqRto d) := by
  unfold bootIrqRto
  by_cases hr : d.hw.rtof = true
  · obtain ⟨he, hq⟩ := s.rtof hr
    rw [if_pos hr, if_pos (s.err he).2.1]
    refine ⟨[.t15], { l with t15 := .set }, ?_, ?_, rfl, rfl, rfl, ?_, ?_, ?_⟩
    · intro op ho
      simp only [List.mem_cons, List.not_mem_nil, or_false] at ho
      subst ho; first | exact ⟨trivial, trivial⟩ | exact ⟨trivial, hq⟩
    · rw [slaveRun_cons_ok (o := []) (s1 := { l with t15 := .set })]
      · rfl
      · show Except.ok (if l.subscribed = true then _ else _, _) = _
        rw [if_pos f.live.sub]
    · constructor
      · exact ⟨f.live.drv, f.live.msgPtr, f.live.dataSet, f.live.sub⟩
      · exact f.req
      · exact f.reqLen
      · exact f.resp
      · exact f.respLen
      · exact f.mem
      · intro h; have := f.done h; subst this; rfl
    · exact { p with f15 := (fun _ _ => .inr ⟨rfl, hq⟩) }
    · exact { s with gap := fun _ => ⟨he, hq⟩ }
  · rw [if_neg hr]
    exact ⟨[], l, (fun _ h => nomatch h), rfl, rfl, rfl, rfl, f, p, s⟩

theorem boot_usart {d : SlaveBoot} {l : Slave} {k : Nat} {id : U8} (f : Follows d l) (p : BPhase Q E d k id) (s : BSafe Q E d) (h : d.hw.irqU = true) :
    ∃ d' o, bootIrqUsart d = .ok (d', o) ∧ frames o = [] ∧ Adv cfg Q E d l [] [] [] d' := by
  have hx : d.cbTx = true := by
    unfold UartHw.irqU at h
    cases hr : d.hw.rdr with
    | some b => exact s.rdr (by rw [hr]; exact fun h => nomatch h)
    | none =>
      cases ht : d.hw.txeie with
      | true => exact s.txeie ht
      | false =>
        have : d.hw.rtof = true := by
          rw [hr, ht] at h
          simpa using (Bool.and_eq_true_iff.1 h).2
        exact (s.err (s.rtof this).1).1
  obtain ⟨d1, e1, -, -, hx1, s1, l1, g1, r1, b1, c1, f1, p1, i1⟩ := boot_rx (cfg := cfg) f p s
  obtain ⟨d2, o2, e2, hf2, -, s2, l2, g2, r2, b2, c2, f2, p2, i2⟩ := boot_tx (cfg := cfg) f1 p1 i1 (hx1 ▸ hx)
  obtain ⟨s3, l3, g3, r3, b3, q3, c3, f3, p3, i3⟩ := boot_rto (cfg := cfg) f2 p2 i2
  refine ⟨bootIrqRto d2, o2, ?_, hf2, s1 ++ s2 ++ s3, l3, k, id, ?_, ?_, ?_, ?_, f3, p3, i3⟩
  · unfold bootIrqUsart; rw [e1, ok_bind, e2]; rfl
  · intro op ho
    simp only [List.mem_append] at ho
    rcases ho with (ho | ho) | ho
    · exact g1 _ ho
    · exact g2 _ ho
    · exact g3 _ ho
  · exact slaveRun_append_ok (slaveRun_append_ok r1 r2) r3
  · rw [bytesOf_append, bytesOf_append, b3, List.append_nil, q3, List.append_assoc, b2, b1, List.append_nil]
    exact List.Sublist.refl _
  · rw [List.filter_append, List.filter_append, c1, c2, c3]; rfl

theorem boot_timer {d : SlaveBoot} {l : Slave} {k : Nat} {id : U8} (f : Follows d l) (p : BPhase Q E d k id) (s : BSafe Q E d) (h : d.hw.uif = true) :
    ∃ d', bootIrqTimer d = .ok d' ∧ Adv cfg Q E d l [] [] [] d' := by
  obtain ⟨he, hq⟩ := s.uif h
  unfold bootIrqTimer
  rw [if_pos (s.err he).2.2]
  refine ⟨_, rfl, [.t35], { l with t35 := .set }, k, id, ?_, ?_, ?_, rfl, ?_, ?_, ?_⟩
  · intro op ho
    simp only [List.mem_cons, List.not_mem_nil, or_false] at ho
    subst ho; first | exact ⟨trivial, trivial⟩ | exact ⟨trivial, hq⟩
  · rw [slaveRun_cons_ok (o := []) (s1 := { l with t35 := .set })]
    · rfl
    · show Except.ok (if l.subscribed = true then _ else _, _) = _
      rw [if_pos f.live.sub]
  · show List.Sublist d.hw.rdr.toList (d.hw.rdr.toList ++ [])
    rw [List.append_nil]
    exact List.Sublist.refl _
  · constructor
    · exact ⟨f.live.drv, f.live.msgPtr, f.live.dataSet, f.live.sub⟩
    · exact f.req
    · exact f.reqLen
    · exact f.resp
    · exact f.respLen
    · exact f.mem
    · intro h; have := f.done h; subst this; rfl
  · exact { p with f35 := (fun _ _ => .inr ⟨rfl, hq⟩) }
  · exact { s with rtof := (fun h => nomatch h), uif := (fun h => nomatch h), gap := (fun h => nomatch h) }

end Modbus
