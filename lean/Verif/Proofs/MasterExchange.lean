import Verif.Proofs.MasterHist
import Verif.Spec.MasterSchedule

/-! A complete exchange, phase by phase. -/

namespace Modbus

open Spec

theorem MOp.noise.contract {op : MOp} (h : op.noise) : (∀ m, op ≠ .init m) ∧ ∀ r, op = .request r → QtyOk r → DataOk r := by
  cases op with
  | request r => exact ⟨by simp, by rintro _ ⟨⟩; exact h⟩
  | poll => simp
  | tick => simp
  | _ => exact h.elim

theorem MOp.rxNoise.contract {op : MOp} (h : op.rxNoise) : (∀ m, op ≠ .init m) ∧ ∀ r, op = .request r → QtyOk r → DataOk r := by
  rcases h with h | ⟨b, rfl⟩ | rfl | rfl
  · exact h.contract
  · simp
  · simp
  · simp

theorem step_effect {cfg : Config} (hw : cfg.MWF) {s : Master} {g : Ghost} (hi : MInv cfg s g) {op : MOp} (h1 : op ≠ .poll)
    (h2 : (∀ m, op ≠ .init m) ∧ ∀ r, op = .request r → QtyOk r → DataOk r) :
    ∃ s' o g', masterStep cfg s op = .ok (s', o) ∧ Effect s s' op o ∧ MInv cfg s' g' := by
  rcases masterStep_inv hw hi op h2.1 h2.2 with ⟨s', o, g', k1, k2, -⟩ | ⟨rfl, -, -⟩
  · exact ⟨s', o, g', k1, masterStep_effect hw hi h1 h2.1 k1, k2⟩
  · exact absurd rfl h1

/-- Running a list of operations that keep `P` and put nothing out. -/
theorem run_phase_aux {cfg : Config} (hw : cfg.MWF) (P : List MOp → Master → Prop) (ops : List MOp)
    (hops : ∀ op ∈ ops, (∀ m, op ≠ .init m) ∧ ∀ r, op = .request r → QtyOk r → DataOk r)
    (step : ∀ pre op suf s g, pre ++ op :: suf = ops → MInv cfg s g → P pre s →
      ∃ s' o, masterStep cfg s op = .ok (s', o) ∧ outs [(op, o)] = [] ∧ P (pre ++ [op]) s') :
    ∀ (suf pre : List MOp) (s : Master) (g : Ghost), pre ++ suf = ops → MInv cfg s g → P pre s →
      ∃ s' tr g', masterRun cfg s suf = .ok (s', tr) ∧ outs tr = [] ∧ MInv cfg s' g' ∧ P ops s' := by
  intro suf
  induction suf with
  | nil =>
    intro pre s g e hi hp
    simp at e
    subst e
    exact ⟨s, [], g, rfl, rfl, hi, hp⟩
  | cons op suf ih =>
    intro pre s g e hi hp
    obtain ⟨s1, o, k1, k2, k3⟩ := step pre op suf s g e hi hp
    have hc := hops op (by rw [← e]; simp)
    rcases masterStep_inv hw hi op hc.1 hc.2 with ⟨s1', o', g1, j1, j2, -⟩ | ⟨-, j1, -⟩
    · rw [k1] at j1
      cases j1
      obtain ⟨s2, tr, g2, q1, q2, q3, q4⟩ := ih (pre ++ [op]) s1 g1 (by simp [e]) j2 k3
      refine ⟨s2, (op, o) :: tr, g2, by simp only [masterRun, k1, ok_bind, q1]; rfl, ?_, q3, q4⟩
      rw [show (op, o) :: tr = [(op, o)] ++ tr from rfl, outs_append, k2, q2]; rfl
    · rw [k1] at j1; cases j1

theorem run_phase {cfg : Config} (hw : cfg.MWF) (P : List MOp → Master → Prop) (ops : List MOp)
    (hops : ∀ op ∈ ops, (∀ m, op ≠ .init m) ∧ ∀ r, op = .request r → QtyOk r → DataOk r)
    (step : ∀ pre op suf s g, pre ++ op :: suf = ops → MInv cfg s g → P pre s →
      ∃ s' o, masterStep cfg s op = .ok (s', o) ∧ outs [(op, o)] = [] ∧ P (pre ++ [op]) s')
    {s : Master} {g : Ghost} (hi : MInv cfg s g) (h0 : P [] s) :
    ∃ s' tr g', masterRun cfg s ops = .ok (s', tr) ∧ outs tr = [] ∧ MInv cfg s' g' ∧ P ops s' :=
  run_phase_aux hw P ops hops step ops [] s g rfl hi h0

/-- Common part of the phases of the transaction of request `r` in buffer `i`. -/
structure PS (st : MasterSt) (i : Nat) (r : MReq) (c0 : U8) (fe ce : Flag) (s : Master) : Prop where
  st_eq : s.st = st
  cur : CurIs s i r
  cnt : s.repeatCnt = c0
  ferr_eq : s.ferr = fe
  crcf_eq : s.crcf = ce

theorem PS.effect {st : MasterSt} {i : Nat} {r : MReq} {c0 : U8} {fe ce : Flag} {s s' : Master} {op : MOp} {o : List MOut}
    (h : PS st i r c0 fe ce s) (he : Effect s s' op o) (hst : st ≠ .idle) (hop : op ≠ .frameErr) : PS st i r c0 fe ce s' :=
  ⟨he.st.trans h.st_eq, he.curIs (by rw [h.st_eq]; exact hst) h.cur, he.cnt.trans h.cnt,
    by rw [he.ferr', if_neg hop]; exact h.ferr_eq, he.crcf.trans h.crcf_eq⟩

theorem PS.effect' {st : MasterSt} {i : Nat} {r : MReq} {c0 : U8} {fe ce : Flag} {s s' : Master} {op : MOp} {o : List MOut}
    (h : PS st i r c0 fe ce s) (he : Effect s s' op o) (hst : st ≠ .idle) : PS st i r c0 (feAfter fe [op]) ce s' := by
  refine ⟨he.st.trans h.st_eq, he.curIs (by rw [h.st_eq]; exact hst) h.cur, he.cnt.trans h.cnt, ?_, he.crcf.trans h.crcf_eq⟩
  rw [he.ferr']
  unfold feAfter
  by_cases k : op = .frameErr
  · subst k; simp
  · rw [if_neg k, if_neg (by simpa using fun e => k e.symm)]; exact h.ferr_eq

theorem feAfter_append (fe : Flag) (a b : List MOp) : feAfter fe (a ++ b) = feAfter (feAfter fe a) b := by
  unfold feAfter
  by_cases h1 : MOp.frameErr ∈ a <;> by_cases h2 : MOp.frameErr ∈ b <;> simp [h1, h2]

theorem feAfter_nil (fe : Flag) : feAfter fe [] = fe := by simp [feAfter]

theorem noise_ne {op : MOp} (h : op.noise) : op ≠ .frameErr ∧ op ≠ .t15 ∧ op ≠ .t35 ∧ op ≠ .txDone ∧ ∀ b, op ≠ .rxByte b := by
  refine ⟨?_, ?_, ?_, ?_, ?_⟩
  · rintro rfl; exact h
  · rintro rfl; exact h
  · rintro rfl; exact h
  · rintro rfl; exact h
  · rintro b rfl; exact h

/-- Phase 1: transmitting. -/
structure P1 (i : Nat) (r : MReq) (c0 : U8) (fe ce τ : Flag) (s : Master) : Prop extends PS .transmitting i r c0 fe ce s where
  txf_eq : s.txf = .set
  t15_eq : s.t15 = τ

theorem phase1 {cfg : Config} (hw : cfg.MWF) {i : Nat} {r : MReq} {c0 : U8} {fe ce τ : Flag} {s : Master} {g : Ghost}
    (hi : MInv cfg s g) (h : P1 i r c0 fe ce τ s) (w : List MOp) (hn : ∀ op ∈ w, op.noise) :
    ∃ s' tr g', masterRun cfg s w = .ok (s', tr) ∧ outs tr = [] ∧ MInv cfg s' g' ∧ P1 i r c0 fe ce τ s' := by
  refine run_phase hw (fun _ s => P1 i r c0 fe ce τ s) w (fun op hop => (hn op hop).contract) ?_ hi h
  intro pre op suf s g e hi h
  have hno := hn op (by rw [← e]; simp)
  by_cases hp : op = .poll
  · subst hp
    refine ⟨s, [], ?_, rfl, h⟩
    simp only [masterStep, masterPoll, h.st_eq, masterTransmitting]
    rw [if_neg (by rw [h.txf_eq]; decide)]
  · obtain ⟨s', o, g', k1, k2, -⟩ := step_effect hw hi hp hno.contract
    obtain ⟨n1, n2, n3, n4, n5⟩ := noise_ne hno
    exact ⟨s', o, k1, k2.outs, ⟨h.toPS.effect k2 (by decide) n1, by rw [k2.txf', if_neg n4]; exact h.txf_eq, by rw [k2.t15', if_neg n2]; exact h.t15_eq⟩⟩

/-- Phase 2: transmission complete, not yet noticed. -/
structure P2 (i : Nat) (r : MReq) (c0 : U8) (fe ce τ : Flag) (s : Master) : Prop extends PS .transmitting i r c0 fe ce s where
  txf_eq : s.txf = .cleared
  t15_eq : s.t15 = τ

theorem phase12 {cfg : Config} (hw : cfg.MWF) {i : Nat} {r : MReq} {c0 : U8} {fe ce τ : Flag} {s : Master} {g : Ghost}
    (hi : MInv cfg s g) (h : P1 i r c0 fe ce τ s) :
    ∃ s' o g', masterStep cfg s .txDone = .ok (s', o) ∧ outs [(MOp.txDone, o)] = [] ∧ MInv cfg s' g' ∧ P2 i r c0 fe ce τ s' := by
  obtain ⟨s', o, g', k1, k2, k3⟩ := step_effect hw hi (op := .txDone) (by simp) (by simp)
  exact ⟨s', o, g', k1, k2.outs, k3, ⟨h.toPS.effect k2 (by decide) (by simp), by rw [k2.txf']; rfl, by rw [k2.t15', if_neg (by simp)]; exact h.t15_eq⟩⟩

theorem phase2 {cfg : Config} (hw : cfg.MWF) {i : Nat} {r : MReq} {c0 : U8} {fe ce τ : Flag} {s : Master} {g : Ghost}
    (hi : MInv cfg s g) (h : P2 i r c0 fe ce τ s) (w : List MOp) (hn : ∀ op ∈ w, op.quiet) :
    ∃ s' tr g', masterRun cfg s w = .ok (s', tr) ∧ outs tr = [] ∧ MInv cfg s' g' ∧ P2 i r c0 fe ce τ s' := by
  refine run_phase hw (fun _ s => P2 i r c0 fe ce τ s) w (fun op hop => (hn op hop).1.contract) ?_ hi h
  intro pre op suf s g e hi h
  have hno := hn op (by rw [← e]; simp)
  obtain ⟨s', o, g', k1, k2, -⟩ := step_effect hw hi hno.2 hno.1.contract
  obtain ⟨n1, n2, n3, n4, n5⟩ := noise_ne hno.1
  exact ⟨s', o, k1, k2.outs, ⟨h.toPS.effect k2 (by decide) n1, by rw [k2.txf', if_neg n4]; exact h.txf_eq, by rw [k2.t15', if_neg n2]; exact h.t15_eq⟩⟩

/-- Phase 3: waiting since `k` ticks; `f` has been received so far. -/
structure P3 (cfg : Config) (i : Nat) (r : MReq) (c0 : U8) (fe ce : Flag) (k : Nat) (f : List U8) (s : Master) : Prop
    extends PS .waiting i r c0 fe ce s where
  t15_eq : s.t15 = .cleared
  timer_eq : s.timer = cfg.respTimeout - k
  len : (s.msgs i).respLen.toNat = f.length
  bytes : (s.msgs i).resp.bytes 0 f.length = f

theorem step_inv_of {cfg : Config} (hw : cfg.MWF) {s s' : Master} {g : Ghost} {op : MOp} {o : List MOut} (hi : MInv cfg s g)
    (hc : (∀ m, op ≠ .init m) ∧ ∀ r, op = .request r → QtyOk r → DataOk r) (h : masterStep cfg s op = .ok (s', o)) :
    ∃ g', MInv cfg s' g' := by
  rcases masterStep_inv hw hi op hc.1 hc.2 with ⟨s1, o1, g1, j1, j2, -⟩ | ⟨-, j1, -⟩
  · rw [h] at j1; cases j1; exact ⟨g1, j2⟩
  · rw [h] at j1; cases j1

theorem phase23 {cfg : Config} (hw : cfg.MWF) {i : Nat} {r : MReq} {c0 : U8} {fe ce : Flag} {s : Master} {g : Ghost}
    (hi : MInv cfg s g) (h : P2 i r c0 fe ce .cleared s) :
    ∃ s' g', masterStep cfg s .poll = .ok (s', []) ∧ MInv cfg s' g' ∧ P3 cfg i r c0 fe ce 0 [] s' := by
  have hst : masterStep cfg s .poll = .ok
      ({ s with msgs := setMsg s.msgs i { s.msgs i with respLen := 0 }, timer := cfg.respTimeout, st := .waiting }, []) := by
    simp only [masterStep, masterPoll, h.st_eq, masterTransmitting]
    rw [if_pos h.txf_eq, clearRespLen_ok h.cur.1]
    rfl
  obtain ⟨g', hg⟩ := step_inv_of hw hi (by simp) hst
  refine ⟨_, g', hst, hg, ⟨⟨rfl, ⟨h.cur.1, h.cur.2.1, ?_, h.cur.2.2.2⟩, h.cnt, h.ferr_eq, h.crcf_eq⟩, h.t15_eq, by simp, ?_, ?_⟩⟩
  · exact (SameReq.set s.msgs i { s.msgs i with respLen := 0 } rfl rfl).holds h.cur.2.2.1
  · simp [setMsg_same]
  · simp [Buf.bytes]

/-- Phase 4: end of frame signalled, not yet noticed; the frame is `f`. -/
structure P4 (cfg : Config) (i : Nat) (r : MReq) (c0 : U8) (fe ce : Flag) (k : Nat) (f : List U8) (s : Master) : Prop extends PS .waiting i r c0 fe ce s where
  t15_eq : s.t15 = .set
  timer_eq : s.timer = cfg.respTimeout - k
  len : (s.msgs i).respLen.toNat = f.length
  bytes : (s.msgs i).resp.bytes 0 f.length = f

/-- The same with a 1.5-char event left over from before: the master will check a response at once. -/
theorem phase24 {cfg : Config} (hw : cfg.MWF) {i : Nat} {r : MReq} {c0 : U8} {fe ce : Flag} {s : Master} {g : Ghost}
    (hi : MInv cfg s g) (h : P2 i r c0 fe ce .set s) :
    ∃ s' g', masterStep cfg s .poll = .ok (s', []) ∧ MInv cfg s' g' ∧ P4 cfg i r c0 fe ce 0 [] s' := by
  have hst : masterStep cfg s .poll = .ok
      ({ s with msgs := setMsg s.msgs i { s.msgs i with respLen := 0 }, timer := cfg.respTimeout, st := .waiting }, []) := by
    simp only [masterStep, masterPoll, h.st_eq, masterTransmitting]
    rw [if_pos h.txf_eq, clearRespLen_ok h.cur.1]
    rfl
  obtain ⟨g', hg⟩ := step_inv_of hw hi (by simp) hst
  refine ⟨_, g', hst, hg, ⟨⟨rfl, ⟨h.cur.1, h.cur.2.1, ?_, h.cur.2.2.2⟩, h.cnt, h.ferr_eq, h.crcf_eq⟩, h.t15_eq, by simp, ?_, ?_⟩⟩
  · exact (SameReq.set s.msgs i { s.msgs i with respLen := 0 } rfl rfl).holds h.cur.2.2.1
  · simp [setMsg_same]
  · simp [Buf.bytes]

theorem tickCount_append (a b : List MOp) : tickCount (a ++ b) = tickCount a + tickCount b := by simp [tickCount]

theorem tickCount_one (op : MOp) : tickCount [op] = if op = .tick then 1 else 0 := by
  unfold tickCount
  by_cases h : op = .tick <;> simp [h]

theorem mBytes_append (a b : List MOp) : mBytes (a ++ b) = mBytes a ++ mBytes b := by simp [mBytes]

/-- An operation (no poll, no event) while waiting. -/
theorem P3.step {cfg : Config} {i : Nat} {r : MReq} {c0 : U8} {fe ce : Flag} {k : Nat} {f : List U8} {s s' : Master} {op : MOp}
    {o : List MOut} (h : P3 cfg i r c0 fe ce k f s) (he : Effect s s' op o) (h2 : op ≠ .t15)
    (hl : (f ++ mBytes [op]).length ≤ 255) : P3 cfg i r c0 (feAfter fe [op]) ce (k + tickCount [op]) (f ++ mBytes [op]) s' := by
  have hm := he.msg i h.cur.1 h.cur.2.1 (by rw [h.st_eq]; decide)
  refine ⟨h.toPS.effect' he (by decide), by rw [he.t15', if_neg h2]; exact h.t15_eq, ?_, ?_, ?_⟩
  · rw [he.timer, h.timer_eq, tickCount_one]; omega
  · rw [hm]
    rw [List.length_append] at hl
    have := h.len
    cases op with
    | rxByte b =>
      simp [mBytes] at hl this ⊢
      omega
    | _ => simpa [mBytes] using this
  · rw [hm]
    have hb := h.bytes
    have := h.len
    cases op with
    | rxByte b =>
      rw [show mBytes [MOp.rxByte b] = [b] from rfl, List.length_append, List.length_singleton]
      simp only
      rw [this, Buf.bytes_set_last, hb]
    | _ => simpa [mBytes] using hb

theorem phase3 {cfg : Config} (hw : cfg.MWF) {i : Nat} {r : MReq} {c0 : U8} {fe ce : Flag} {k : Nat} {f : List U8} {s : Master} {g : Ghost}
    (hi : MInv cfg s g) (h : P3 cfg i r c0 fe ce k f s) (w : List MOp) (hn : ∀ op ∈ w, op.rxNoise)
    (ht : k + tickCount w + 1 < cfg.respTimeout) (hl : (f ++ mBytes w).length ≤ 255) :
    ∃ s' tr g', masterRun cfg s w = .ok (s', tr) ∧ outs tr = [] ∧ MInv cfg s' g' ∧
      P3 cfg i r c0 (feAfter fe w) ce (k + tickCount w) (f ++ mBytes w) s' := by
  refine run_phase hw (fun pre s => P3 cfg i r c0 (feAfter fe pre) ce (k + tickCount pre) (f ++ mBytes pre) s) w (fun op hop => (hn op hop).contract) ?_ hi
    (by simpa [tickCount, mBytes, feAfter] using h)
  intro pre op suf s g e hi h
  have hno := hn op (by rw [← e]; simp)
  have htp : tickCount pre ≤ tickCount w := by rw [← e, tickCount_append]; omega
  by_cases hp : op = .poll
  · subst hp
    refine ⟨s, [], ?_, rfl, ?_⟩
    · simp only [masterStep, masterPoll, h.st_eq, masterWaiting]
      rw [if_neg (by rw [h.t15_eq]; decide), if_neg (by rw [h.timer_eq]; omega)]
    · rw [tickCount_append, mBytes_append, feAfter_append]
      simpa [mBytes, tickCount, feAfter] using h
  · obtain ⟨s', o, g', k1, k2, -⟩ := step_effect hw hi hp hno.contract
    refine ⟨s', o, k1, k2.outs, ?_⟩
    rw [tickCount_append, mBytes_append, feAfter_append, ← Nat.add_assoc, ← List.append_assoc]
    refine h.step k2 ?_ ?_
    · rintro rfl; rcases hno with hno | ⟨b, hb⟩ | hb | hb
      · exact hno
      · cases hb
      · cases hb
      · cases hb
    · rw [show pre ++ op :: suf = (pre ++ [op]) ++ suf by simp] at e
      rw [← e, mBytes_append, mBytes_append, List.length_append, List.length_append, List.length_append] at hl
      rw [List.length_append, List.length_append]
      omega

theorem phase34 {cfg : Config} (hw : cfg.MWF) {i : Nat} {r : MReq} {c0 : U8} {fe ce : Flag} {k : Nat} {f : List U8} {s : Master} {g : Ghost}
    (hi : MInv cfg s g) (h : P3 cfg i r c0 fe ce k f s) :
    ∃ s' o g', masterStep cfg s .t15 = .ok (s', o) ∧ outs [(MOp.t15, o)] = [] ∧ MInv cfg s' g' ∧ P4 cfg i r c0 fe ce k f s' := by
  obtain ⟨s', o, g', k1, k2, k3⟩ := step_effect hw hi (op := .t15) (by simp) (by simp)
  have hm := k2.msg i h.cur.1 h.cur.2.1 (by rw [h.st_eq]; decide)
  exact ⟨s', o, g', k1, k2.outs, k3, ⟨h.toPS.effect k2 (by decide) (by simp), by rw [k2.t15']; rfl, by rw [k2.timer, h.timer_eq]; simp, by rw [hm]; exact h.len, by rw [hm]; exact h.bytes⟩⟩

theorem MOp.lateNoise.ne {op : MOp} (h : op.lateNoise) : op ≠ .poll := by
  rcases h with h | ⟨b, rfl⟩ | rfl | rfl | rfl
  · exact h.2
  all_goals simp

theorem MOp.lateNoise.contract {op : MOp} (h : op.lateNoise) : (∀ m, op ≠ .init m) ∧ ∀ r, op = .request r → QtyOk r → DataOk r := by
  rcases h with h | ⟨b, rfl⟩ | rfl | rfl | rfl
  · exact h.1.contract
  all_goals simp

theorem MOp.tailNoise.contract {op : MOp} (h : op.tailNoise) : (∀ m, op ≠ .init m) ∧ ∀ r, op = .request r → QtyOk r → DataOk r := by
  rcases h with h | ⟨b, rfl⟩ | rfl
  · exact h.contract
  · simp
  · simp

theorem MOp.tailNoise.ne {op : MOp} (h : op.tailNoise) : op ≠ .t35 ∧ op ≠ .t15 := by
  rcases h with h | ⟨b, rfl⟩ | rfl
  · exact ⟨(noise_ne h).2.2.1, (noise_ne h).2.1⟩
  · simp
  · simp

theorem phase4 {cfg : Config} (hw : cfg.MWF) {i : Nat} {r : MReq} {c0 : U8} {fe ce : Flag} {k : Nat} {f : List U8} {s : Master} {g : Ghost}
    (hi : MInv cfg s g) (h : P4 cfg i r c0 fe ce k f s) (w : List MOp) (hn : ∀ op ∈ w, op.lateNoise) (hl : (f ++ mBytes w).length ≤ 255) :
    ∃ s' tr g', masterRun cfg s w = .ok (s', tr) ∧ outs tr = [] ∧ MInv cfg s' g' ∧
      P4 cfg i r c0 (feAfter fe w) ce (k + tickCount w) (f ++ mBytes w) s' := by
  refine run_phase hw (fun pre s => P4 cfg i r c0 (feAfter fe pre) ce (k + tickCount pre) (f ++ mBytes pre) s) w (fun op hop => (hn op hop).contract) ?_ hi
    (by simpa [tickCount, mBytes, feAfter] using h)
  intro pre op suf s g e hi h
  have hno := hn op (by rw [← e]; simp)
  obtain ⟨s', o, g', k1, k2, -⟩ := step_effect hw hi hno.ne hno.contract
  have hm := k2.msg i h.cur.1 h.cur.2.1 (by rw [h.st_eq]; decide)
  have hl' : ((f ++ mBytes pre) ++ mBytes [op]).length ≤ 255 := by
    rw [show pre ++ op :: suf = (pre ++ [op]) ++ suf by simp] at e
    rw [← e, mBytes_append, mBytes_append, List.length_append, List.length_append, List.length_append] at hl
    rw [List.length_append, List.length_append]
    omega
  refine ⟨s', o, k1, k2.outs, ?_⟩
  rw [tickCount_append, mBytes_append, feAfter_append, ← Nat.add_assoc, ← List.append_assoc]
  refine ⟨h.toPS.effect' k2 (by decide), by rw [k2.t15', h.t15_eq]; split <;> rfl, by rw [k2.timer, h.timer_eq, tickCount_one]; omega, ?_, ?_⟩
  · rw [hm]
    rw [List.length_append] at hl'
    have := h.len
    cases op with
    | rxByte b =>
      simp [mBytes] at hl' this ⊢
      omega
    | _ => simpa [mBytes] using this
  · rw [hm]
    have hb := h.bytes
    have := h.len
    cases op with
    | rxByte b =>
      rw [show mBytes [MOp.rxByte b] = [b] from rfl, List.length_append, List.length_singleton]
      simp only
      rw [this, Buf.bytes_set_last, hb]
    | _ => simpa [mBytes] using hb

theorem mBytes_quiet {w : List MOp} (h : ∀ op ∈ w, op.noise) : mBytes w = [] := by
  induction w with
  | nil => rfl
  | cons op w ih =>
    have h0 := noise_ne (h op (List.mem_cons_self ..))
    have := ih fun o ho => h o (List.mem_cons_of_mem _ ho)
    unfold mBytes at this ⊢
    cases op <;> first | exact absurd rfl (h0.2.2.2.2 _) | exact this

/-- Phase 5: a frame from the requested slave has been checked; its end is not yet signalled; `e` more bytes have come since. `ce` already
includes the result of the check. -/
structure P5 (i : Nat) (r : MReq) (c0 : U8) (fe ce : Flag) (f : List U8) (e : Nat) (s : Master) : Prop extends PS .received i r c0 fe ce s where
  t15_eq : s.t15 = .cleared
  t35_eq : s.t35 = .cleared
  len : (s.msgs i).respLen.toNat = f.length + e
  bytes : (s.msgs i).resp.bytes 0 f.length = f

theorem P4.first {i : Nat} {r : MReq} {c0 : U8} {fe ce : Flag} {cfg : Config} {k : Nat} {f : List U8} {s : Master} (h : P4 cfg i r c0 fe ce k f s) (hf : f ≠ []) :
    (s.msgs i).resp 0 = f.getD 0 0 := by
  have hl : 0 < f.length := List.length_pos_iff.2 hf
  have h2 := congrArg (fun l => l[0]?) h.bytes
  rw [List.getElem?_eq_getElem (by simpa using hl)] at h2
  simp only [Buf.bytes_getElem, Nat.zero_add] at h2
  rw [List.getD_eq_getElem?_getD, ← h2]
  rfl

/-- The check of a frame from the requested slave. -/
theorem phase45 {cfg : Config} (hw : cfg.MWF) {i : Nat} {r : MReq} {c0 : U8} {fe ce : Flag} {f : List U8} {s : Master} {g : Ghost}
    {k : Nat} (hi : MInv cfg s g) (h : P4 cfg i r c0 fe ce k f s) (hf : f ≠ []) (hsl : f.getD 0 0 = reqSlave r) :
    ∃ s' g', masterStep cfg s .poll = .ok (s', []) ∧ MInv cfg s' g' ∧
      ((CrcCorrect f ∧ P5 i r c0 fe ce f 0 s') ∨ (¬ CrcCorrect f ∧ P5 i r c0 fe .set f 0 s')) := by
  have hb : (s.msgs i).resp.bytes 0 (s.msgs i).respLen.toNat = f := by rw [h.len]; exact h.bytes
  have hp : masterPoll cfg s = masterRecv s := by
    simp only [masterPoll, h.st_eq, masterWaiting]
    rw [if_pos h.t15_eq]
  have he := masterRecv_eq h.cur.1 hi.data h.cur.2.2.1
  rw [if_neg (by rw [h.first hf, hsl]; simp), hb] at he
  by_cases hc : CrcCorrect f
  · rw [if_neg (by rw [Classical.not_not]; exact (crc16_eq_zero_iff f).2 hc)] at he
    have hst : masterStep cfg s .poll = .ok ({ s with t15 := .cleared, t35 := .cleared, timer := 0, st := .received }, []) := by
      simp only [masterStep]; rw [hp, he]
    obtain ⟨g', hg⟩ := step_inv_of hw hi (by simp) hst
    exact ⟨_, g', hst, hg, .inl ⟨hc, ⟨rfl, h.cur, h.cnt, h.ferr_eq, h.crcf_eq⟩, rfl, rfl, h.len, h.bytes⟩⟩
  · rw [if_pos (fun e => hc ((crc16_eq_zero_iff f).1 e))] at he
    have hst : masterStep cfg s .poll = .ok ({ s with t15 := .cleared, t35 := .cleared, timer := 0, crcf := .set, st := .received }, []) := by
      simp only [masterStep]; rw [hp, he]
    obtain ⟨g', hg⟩ := step_inv_of hw hi (by simp) hst
    exact ⟨_, g', hst, hg, .inr ⟨hc, ⟨rfl, h.cur, h.cnt, h.ferr_eq, rfl⟩, rfl, rfl, h.len, h.bytes⟩⟩

theorem phase5 {cfg : Config} (hw : cfg.MWF) {i : Nat} {r : MReq} {c0 : U8} {fe ce : Flag} {f : List U8} {s : Master} {g : Ghost}
    (hi : MInv cfg s g) (h : P5 i r c0 fe ce f 0 s) (w : List MOp) (hn : ∀ op ∈ w, op.tailNoise) (hl : f.length + (mBytes w).length ≤ 255) :
    ∃ s' tr g', masterRun cfg s w = .ok (s', tr) ∧ outs tr = [] ∧ MInv cfg s' g' ∧ P5 i r c0 (feAfter fe w) ce f (mBytes w).length s' := by
  refine run_phase hw (fun pre s => P5 i r c0 (feAfter fe pre) ce f (mBytes pre).length s) w (fun op hop => (hn op hop).contract) ?_ hi
    (by simpa [mBytes, feAfter] using h)
  intro pre op suf s g e hi h
  have hno := hn op (by rw [← e]; simp)
  rw [feAfter_append, mBytes_append, List.length_append]
  by_cases hp : op = .poll
  · subst hp
    refine ⟨s, [], ?_, rfl, by simpa [mBytes, feAfter] using h⟩
    simp only [masterStep, masterPoll, h.st_eq, masterReceived]
    have := h.t35_eq
    rw [if_neg (by simp [this]), if_neg (by simp [this]), if_neg (by simp [this])]
  · obtain ⟨s', o, g', k1, k2, -⟩ := step_effect hw hi hp hno.contract
    have hm := k2.msg i h.cur.1 h.cur.2.1 (by rw [h.st_eq]; decide)
    have hl' : f.length + ((mBytes pre).length + (mBytes [op]).length) ≤ 255 := by
      rw [show pre ++ op :: suf = (pre ++ [op]) ++ suf by simp] at e
      rw [← e, mBytes_append, mBytes_append, List.length_append, List.length_append] at hl
      omega
    refine ⟨s', o, k1, k2.outs, ⟨h.toPS.effect' k2 (by decide), by rw [k2.t15', if_neg hno.ne.2]; exact h.t15_eq, by rw [k2.t35', if_neg hno.ne.1]; exact h.t35_eq, ?_, ?_⟩⟩
    · rw [hm]
      have := h.len
      cases op with
      | rxByte b =>
        simp [mBytes] at hl' this ⊢
        omega
      | _ => simpa [mBytes] using this
    · rw [hm]
      have hb := h.bytes
      have := h.len
      cases op with
      | rxByte b =>
        simp only
        rw [this, Buf.bytes_set_out _ _ (by omega)]
        exact hb
      | _ => exact hb

/-- Phase 6: the 3.5-char event has arrived. -/
structure P6 (i : Nat) (r : MReq) (c0 : U8) (fe ce : Flag) (f : List U8) (s : Master) : Prop extends PS .received i r c0 fe ce s where
  t15_eq : s.t15 = .cleared
  t35_eq : s.t35 = .set
  bytes : (s.msgs i).resp.bytes 0 f.length = f

theorem phase56 {cfg : Config} (hw : cfg.MWF) {i : Nat} {r : MReq} {c0 : U8} {fe ce : Flag} {f : List U8} {s : Master} {g : Ghost}
    {e : Nat} (hi : MInv cfg s g) (h : P5 i r c0 fe ce f e s) :
    ∃ s' o g', masterStep cfg s .t35 = .ok (s', o) ∧ outs [(MOp.t35, o)] = [] ∧ MInv cfg s' g' ∧ P6 i r c0 fe ce f s' := by
  obtain ⟨s', o, g', k1, k2, k3⟩ := step_effect hw hi (op := .t35) (by simp) (by simp)
  have hm := k2.msg i h.cur.1 h.cur.2.1 (by rw [h.st_eq]; decide)
  exact ⟨s', o, g', k1, k2.outs, k3, ⟨h.toPS.effect k2 (by decide) (by simp), by rw [k2.t15', if_neg (by simp)]; exact h.t15_eq, by rw [k2.t35']; rfl, by rw [hm]; exact h.bytes⟩⟩

theorem phase6 {cfg : Config} (hw : cfg.MWF) {i : Nat} {r : MReq} {c0 : U8} {fe ce : Flag} {f : List U8} {s : Master} {g : Ghost}
    (hi : MInv cfg s g) (h : P6 i r c0 fe ce f s) (w : List MOp) (hn : ∀ op ∈ w, op.quiet) :
    ∃ s' tr g', masterRun cfg s w = .ok (s', tr) ∧ outs tr = [] ∧ MInv cfg s' g' ∧ P6 i r c0 fe ce f s' := by
  refine run_phase hw (fun _ s => P6 i r c0 fe ce f s) w (fun op hop => (hn op hop).1.contract) ?_ hi h
  intro pre op suf s g e hi h
  have hno := hn op (by rw [← e]; simp)
  obtain ⟨s', o, g', k1, k2, -⟩ := step_effect hw hi hno.2 hno.1.contract
  obtain ⟨n1, n2, n3, n4, n5⟩ := noise_ne hno.1
  have hm := k2.msg i h.cur.1 h.cur.2.1 (by rw [h.st_eq]; decide)
  have hm' : s'.msgs i = s.msgs i := by
    rw [hm]; cases op <;> first | rfl | exact absurd rfl (n5 _)
  exact ⟨s', o, k1, k2.outs, ⟨h.toPS.effect k2 (by decide) n1, by rw [k2.t15', if_neg n2]; exact h.t15_eq, by rw [k2.t35', if_neg n3]; exact h.t35_eq, by rw [hm']; exact h.bytes⟩⟩

/-- A frame from another slave is dropped; the wait goes on. -/
theorem phase43 {cfg : Config} (hw : cfg.MWF) {i : Nat} {r : MReq} {c0 : U8} {fe ce : Flag} {f : List U8} {s : Master} {g : Ghost}
    {k : Nat} (hi : MInv cfg s g) (h : P4 cfg i r c0 fe ce k f s) (hf : f ≠ []) (hsl : f.getD 0 0 ≠ reqSlave r) :
    ∃ s' g', masterStep cfg s .poll = .ok (s', []) ∧ MInv cfg s' g' ∧ P3 cfg i r c0 fe ce k [] s' := by
  have hp : masterPoll cfg s = masterRecv s := by
    simp only [masterPoll, h.st_eq, masterWaiting]
    rw [if_pos h.t15_eq]
  have he := masterRecv_eq h.cur.1 hi.data h.cur.2.2.1
  rw [if_pos (by rw [h.first hf]; exact Ne.symm hsl)] at he
  have hst : masterStep cfg s .poll = .ok ({ s with t15 := .cleared, t35 := .cleared, msgs := setMsg s.msgs i { s.msgs i with respLen := 0 } }, []) := by
    simp only [masterStep]; rw [hp, he]
  obtain ⟨g', hg⟩ := step_inv_of hw hi (by simp) hst
  refine ⟨_, g', hst, hg, ⟨⟨h.st_eq, ⟨h.cur.1, h.cur.2.1, ?_, h.cur.2.2.2⟩, h.cnt, h.ferr_eq, h.crcf_eq⟩, rfl, h.timer_eq, ?_, ?_⟩⟩
  · exact (SameReq.set s.msgs i { s.msgs i with respLen := 0 } rfl rfl).holds h.cur.2.2.1
  · simp [setMsg_same]
  · simp [Buf.bytes]

/-- Sequencing of runs. -/
theorem run_seq {cfg : Config} {s s1 s2 : Master} {w1 w2 : List MOp} {t1 t2 : MTrace} (h1 : masterRun cfg s w1 = .ok (s1, t1))
    (h2 : masterRun cfg s1 w2 = .ok (s2, t2)) : masterRun cfg s (w1 ++ w2) = .ok (s2, t1 ++ t2) := by
  induction w1 generalizing s t1 with
  | nil => cases h1; exact h2
  | cons op w1 ih =>
    simp only [masterRun] at h1
    obtain ⟨⟨sa, oa⟩, k1, h1⟩ := bind_ok h1
    obtain ⟨⟨sb, ob⟩, k2, h1⟩ := bind_ok h1
    simp only [pure_eq, Except.ok.injEq, Prod.mk.injEq] at h1
    obtain ⟨rfl, rfl⟩ := h1
    simp only [List.cons_append, masterRun, k1, ok_bind, ih k2]
    rfl

theorem run_one {cfg : Config} {s s1 : Master} {op : MOp} {o : List MOut} (h : masterStep cfg s op = .ok (s1, o)) :
    masterRun cfg s [op] = .ok (s1, [(op, o)]) := by
  simp only [masterRun, h, ok_bind]; rfl

end Modbus
