import Verif.Spec.Wire
import Verif.Props.SlaveSync

/-! Proofs about the slave together with its driver. -/

namespace Modbus

open Spec

theorem wire_append (a b : List HOut) : wire (a ++ b) = wire a ++ wire b := by
  induction a with
  | nil => rfl
  | cons x a ih => cases x <;> simp [wire, ih]

theorem frames_append (a b : List HOut) : frames (a ++ b) = frames a ++ frames b := by
  induction a with
  | nil => rfl
  | cons x a ih => cases x <;> simp [frames, ih]

/-- Events that can happen after initialisation: the main program does not initialise again and registers inside the tables. -/
def HOp.legal (cfg : Config) : HOp → Prop
  | .main (.init _ _) => False
  | .main op => op.legal cfg
  | _ => True

/-- The invariant of the transmitter: the driver's pointers, the library's flag and buffer, and the line so far. -/
structure WInv (s : SlaveSys) (o : List HOut) : Prop where
  live : Live s.lib
  le : s.cur ≤ s.last
  busy : s.cur < s.last → s.lib.st = .transmitting ∧ s.lib.txf = .set ∧ s.last < 256
  hist : (frames o = [] ∧ wire o = [] ∧ s.cur = s.last) ∨
    ∃ done f, frames o = done ++ [f] ∧ wire o = done.flatten ++ f.take (s.cur + 1) ∧ f.length = s.last + 1 ∧
      (s.cur < s.last → s.lib.resp.bytes 0 (s.last + 1) = f)

/-- The line when the transmitter is not busy. -/
theorem WInv.complete {s : SlaveSys} {o : List HOut} (h : WInv s o) (hc : s.cur = s.last) : wire o = (frames o).flatten := by
  rcases h.hist with ⟨h1, h2, -⟩ | ⟨done, f, h1, h2, h3, -⟩
  · rw [h1, h2]; rfl
  · rw [h1, h2, hc, List.take_of_length_le (by omega)]; simp

theorem WInv.idle {s : SlaveSys} {o : List HOut} (h : WInv s o) (hs : s.lib.st ≠ .transmitting ∨ s.lib.txf ≠ .set) : s.cur = s.last := by
  rcases Nat.lt_or_ge s.cur s.last with h1 | h1
  · have := h.busy h1
    rcases hs with hs | hs
    · exact absurd this.1 hs
    · exact absurd this.2.1 hs
  · exact Nat.le_antisymm h.le h1

/-- Library steps that leave the transmitter alone. -/
theorem WInv.keep {s s' : SlaveSys} {o : List HOut} (h : WInv s o) (hl : Live s'.lib) (h1 : s'.cur = s.cur) (h2 : s'.last = s.last)
    (h3 : s.cur < s.last → s'.lib.st = s.lib.st ∧ s'.lib.txf = s.lib.txf ∧ s'.lib.resp = s.lib.resp) : WInv s' o := by
  refine ⟨hl, by rw [h1, h2]; exact h.le, ?_, ?_⟩
  · rw [h1, h2]; intro hc
    have := h.busy hc
    rw [(h3 hc).1, (h3 hc).2.1]; exact this
  · rw [h1, h2]
    rcases h.hist with h4 | ⟨done, f, a, b, c, d⟩
    · exact .inl h4
    · exact .inr ⟨done, f, a, b, c, fun hc => by rw [(h3 hc).2.2]; exact d hc⟩

/-- A callback or a received byte, other than the completion. -/
theorem WInv.event {cfg : Config} (hc : cfg.WF) {s : SlaveSys} {o : List HOut} (h : WInv s o) (op : SOp) (hl : op.legal cfg)
    (h1 : op ≠ .poll) (h2 : ∀ m i, op ≠ .init m i) (h3 : op = .txDone → s.cur = s.last) (g r : Bool) :
    ∃ l, slaveStep cfg s.lib op = .ok (l, []) ∧ WInv { s with lib := l, gap := g, rtof := r } o := by
  obtain ⟨l, o1, hs, hlive⟩ := live_step cfg hc s.lib h.live op hl
  have := slaveStep_out hs h1
  subst this
  refine ⟨l, hs, h.keep hlive rfl rfl fun hc => ?_⟩
  obtain ⟨e1, -, e3, -, -, -, -, -, -, -, -, e12⟩ := slaveStep_frame hs h1 h2
  refine ⟨e1, ?_, e3⟩
  rcases e12 with e | ⟨e, -⟩
  · exact e
  · exact absurd (h3 e) (Nat.ne_of_lt hc)

theorem rtuFrame_length (id : U8) (p : List U8) : (rtuFrame id p).length = p.length + 3 := by
  simp [rtuFrame]

theorem WInv.poll {cfg : Config} (hc : cfg.WF) {s : SlaveSys} {o : List HOut} (h : WInv s o) :
    ∃ s' o', (do let (l, o) ← slaveStep cfg s.lib .poll
                 slaveSends { s with lib := l } o) = .ok (s', o') ∧ WInv s' (o ++ o') ∧ s'.gap = s.gap ∧ s'.rtof = s.rtof := by
  obtain ⟨l, o1, hs, hlive⟩ := live_step cfg hc s.lib h.live .poll trivial
  have hp := slavePoll_inv cfg hc (show slavePoll cfg s.lib = _ from hs)
  rw [hs]
  simp only [ok_bind]
  cases hp with
  | stay =>
    refine ⟨_, [], rfl, ?_, rfl, rfl⟩
    rw [List.append_nil]
    exact h.keep hlive rfl rfl fun _ => ⟨rfl, rfl, rfl⟩
  | check h1 =>
    refine ⟨_, [], rfl, ?_, rfl, rfl⟩
    rw [List.append_nil]
    have := h.idle (.inl (by rw [h1]; simp))
    exact h.keep hlive rfl rfl fun hc => absurd this (Nat.ne_of_lt hc)
  | drop h1 =>
    refine ⟨_, [], rfl, ?_, rfl, rfl⟩
    rw [List.append_nil]
    have := h.idle (.inl (by rw [h1]; simp))
    exact h.keep hlive rfl rfl fun hc => absurd this (Nat.ne_of_lt hc)
  | done h1 h2 =>
    refine ⟨_, [], rfl, ?_, rfl, rfl⟩
    rw [List.append_nil]
    have := h.idle (.inr (by rw [h2]; simp))
    exact h.keep hlive rfl rfl fun hc => absurd this (Nat.ne_of_lt hc)
  | dflt h1 =>
    refine ⟨_, [], rfl, ?_, rfl, rfl⟩
    rw [List.append_nil]
    have := h.idle (.inl (by rw [h1]; simp))
    exact h.keep hlive rfl rfl fun hc => absurd this (Nat.ne_of_lt hc)
  | answer h1 h2 h3 resp respLen hb =>
    have hi := h.idle (.inl (by rw [h1]; simp))
    have hw := h.complete hi
    have hlen := encode_len cfg.limits s.lib.mem (requestOf s.lib.req)
    revert hb
    generalize encodeResponse (respond cfg.limits s.lib.mem (requestOf s.lib.req)) = pdu at *
    intro hb
    have hl : respLen.toNat = pdu.length + 3 := by
      have := congrArg List.length hb
      rw [Buf.bytes_length, rtuFrame_length] at this; exact this
    have hpos : 0 < respLen.toNat := by omega
    have hrd : rd resp 0 = .ok (resp 0) := rd_ok _ (by decide)
    refine ⟨{ s with lib := { s.lib with resp := resp, respLen := respLen, mem := effect cfg.limits s.lib.mem (requestOf s.lib.req), txf := .set, st := .transmitting, t35 := .cleared }, cur := 0, last := respLen.toNat - 1 }, [.send (rtuFrame s.lib.id pdu), .tdr (resp 0)], ?_, ?_, rfl, rfl⟩
    · simp only [slaveSends, slaveUsartSend, hpos, if_true, hrd, ok_bind, pure_eq]; rfl
    · refine ⟨hlive, Nat.zero_le _, fun _ => ⟨rfl, rfl, ?_⟩, .inr ⟨frames o, rtuFrame s.lib.id pdu, ?_, ?_, ?_, fun _ => ?_⟩⟩
      · show respLen.toNat - 1 < 256
        have := respLen.isLt
        omega
      · rw [frames_append]; rfl
      · rw [wire_append, hw]
        congr 1
        rw [← hb]
        obtain ⟨n, hn⟩ : ∃ n, respLen.toNat = n + 1 := ⟨_, (Nat.succ_pred_eq_of_pos hpos).symm⟩
        rw [hn, Buf.bytes_succ]; rfl
      · rw [rtuFrame_length]
        show _ = respLen.toNat - 1 + 1
        omega
      · show resp.bytes 0 (respLen.toNat - 1 + 1) = _
        rw [Nat.sub_add_cancel hpos]; exact hb

theorem SlaveSys.eta {s : SlaveSys} {l : Slave} {g r : Bool} (h1 : s.gap = g) (h2 : s.rtof = r) :
    ({ s with lib := l, gap := g, rtof := r } : SlaveSys) = { s with lib := l } := by subst h1 h2; rfl

theorem WInv.rx {cfg : Config} (hc : cfg.WF) {s : SlaveSys} {o : List HOut} (h : WInv s o) (b : Option U8) :
    ∃ s', slaveIrqRx cfg s b = .ok s' ∧ WInv s' o := by
  cases b with
  | none => exact ⟨s, rfl, h⟩
  | some b =>
    obtain ⟨l, h1, h2⟩ := h.event hc (.rxByte b) trivial (by simp) (by simp) (by simp) s.gap s.rtof
    simp only [slaveIrqRx, h1, ok_bind]
    cases hg : s.gap with
    | false => exact ⟨_, rfl, by rw [hg] at h2; exact h2⟩
    | true =>
      obtain ⟨l', h3, h4⟩ := h2.event hc .frameErr trivial (by simp) (by simp) (by simp) s.gap s.rtof
      simp only at h3
      simp only [if_true, h3, ok_bind, pure_eq]
      exact ⟨_, rfl, by rw [hg] at h4; exact h4⟩

theorem WInv.tx {cfg : Config} (hc : cfg.WF) {s : SlaveSys} {o : List HOut} (h : WInv s o) (t : Bool) :
    ∃ s' o', slaveIrqTx cfg s t = .ok (s', o') ∧ WInv s' (o ++ o') := by
  cases t with
  | false => exact ⟨s, [], rfl, by rw [List.append_nil]; exact h⟩
  | true =>
    by_cases hlt : s.cur < s.last
    · have hb := h.busy hlt
      simp only [slaveIrqTx, if_true, hlt, rd_ok s.lib.resp (show s.cur + 1 < 256 by omega), ok_bind, pure_eq]
      refine ⟨_, _, rfl, h.live, hlt, fun hl => ?_, ?_⟩
      · exact hb
      · rcases h.hist with ⟨-, -, h3⟩ | ⟨done, f, a, b, c, d⟩
        · omega
        · refine .inr ⟨done, f, ?_, ?_, c, fun _ => d hlt⟩
          · rw [frames_append, a]; simp [frames]
          · rw [wire_append, b, List.append_assoc]
            congr 1
            show f.take (s.cur + 1) ++ [s.lib.resp (s.cur + 1)] = f.take (s.cur + 1 + 1)
            rw [List.take_succ_eq_append_getElem (l := f) (i := s.cur + 1) (by omega)]
            have := d hlt
            subst this
            simp
    · obtain ⟨l, h1, h2⟩ := h.event hc .txDone trivial (by simp) (by simp) (fun _ => Nat.le_antisymm h.le (by omega)) s.gap s.rtof
      simp only [slaveIrqTx, if_true, hlt, if_false, h1, ok_bind, pure_eq]
      exact ⟨_, [], rfl, by rw [List.append_nil]; exact h2⟩

theorem WInv.step {cfg : Config} (hc : cfg.WF) {s : SlaveSys} {o : List HOut} (h : WInv s o) (op : HOp) (hl : op.legal cfg) :
    ∃ s' o', slaveSysStep cfg s op = .ok (s', o') ∧ WInv s' (o ++ o') := by
  cases op with
  | main op =>
    by_cases hst : s.rtof ∨ op.isMain = false
    · exact ⟨s, [], by simp only [slaveSysStep, hst, if_true], by rw [List.append_nil]; exact h⟩
    · by_cases hp : op = .poll
      · subst hp
        obtain ⟨s', o', h1, h2, -⟩ := h.poll hc
        refine ⟨s', o', ?_, h2⟩
        simp only [slaveSysStep, hst, if_false]
        exact h1
      · have hni : ∀ m i, op ≠ .init m i := by rintro m i rfl; exact hl
        have hl' : op.legal cfg := by
          cases op <;> first | exact hl | exact hl.elim
        obtain ⟨l, h1, h2⟩ := h.event hc op hl' hp hni (fun e => by subst e; exact absurd (.inr rfl) hst) s.gap s.rtof
        refine ⟨{ s with lib := l }, [], ?_, by rw [List.append_nil]; exact h2⟩
        simp only [slaveSysStep, hst, if_false, h1, ok_bind, slaveSends]
        cases op <;> first | rfl | exact absurd rfl (hni _ _)
  | rto => exact ⟨_, [], rfl, by rw [List.append_nil]; exact h.keep h.live rfl rfl fun _ => ⟨rfl, rfl, rfl⟩⟩
  | usart b t =>
    obtain ⟨s1, h1, i1⟩ := h.rx hc b
    obtain ⟨s2, o2, h2, i2⟩ := i1.tx hc t
    by_cases hr : s2.rtof = true
    · obtain ⟨l, h3, i3⟩ := i2.event hc .t15 trivial (by simp) (by simp) (by simp) true s2.rtof
      refine ⟨_, o2, ?_, i3⟩
      simp only [slaveSysStep, h1, h2, ok_bind, slaveIrqRto, hr, if_true, h3, pure_eq]
    · refine ⟨s2, o2, ?_, i2⟩
      simp only [slaveSysStep, h1, h2, ok_bind, slaveIrqRto, hr, pure_eq]
      rfl
  | timer =>
    obtain ⟨l, h1, h2⟩ := h.event hc .t35 trivial (by simp) (by simp) (by simp) false false
    exact ⟨{ s with lib := l, gap := false, rtof := false }, [], by simp only [slaveSysStep, h1, ok_bind, pure_eq], by rw [List.append_nil]; exact h2⟩

theorem WInv.run {cfg : Config} (hc : cfg.WF) (ops : List HOp) : ∀ {s : SlaveSys} {o : List HOut}, WInv s o → (∀ op ∈ ops, op.legal cfg) →
    ∃ s' o', slaveSysRun cfg s ops = .ok (s', o') ∧ WInv s' (o ++ o') := by
  induction ops with
  | nil => intro s o h _; exact ⟨s, [], rfl, by rw [List.append_nil]; exact h⟩
  | cons op ops ih =>
    intro s o h hl
    obtain ⟨s1, o1, h1, i1⟩ := h.step hc op (hl op (List.mem_cons_self ..))
    obtain ⟨s2, o2, h2, i2⟩ := ih i1 (fun op ho => hl op (List.mem_cons_of_mem _ ho))
    refine ⟨s2, o1 ++ o2, ?_, by rw [← List.append_assoc]; exact i2⟩
    simp only [slaveSysRun, h1, ok_bind, h2, pure_eq]

end Modbus
