import Verif.Spec.DeviceSchedule
import Verif.Props.MasterExchange

/-! Proofs about the master together with its driver. -/

namespace Modbus

open Spec

/-! ### Refinement: what the library experiences inside the device -/

/-- Operations of the main program are operations of the main program. -/
def HMOp.proper : HMOp → Prop
  | .main op => op.isMain = true
  | _ => True

theorem masterStep_irq {cfg : Config} {s s' : Master} {op : MOp} {o : List MOut} (hm : op.isMain = false)
    (h : masterStep cfg s op = .ok (s', o)) : o = [] := by
  cases op <;> first | (cases hm; done) | skip
  all_goals simp only [masterStep] at h
  all_goals first
    | (cases h; rfl)
    | (obtain ⟨a, -, h2⟩ := bind_ok h; cases h2; rfl)

theorem masterSends_lib {s s' : MasterSys} {o : List MOut} {o' : List HMOut} (h : masterSends s o = .ok (s', o')) :
    libOuts o' = o ∧ s'.lib = s.lib := by
  induction o generalizing s o' with
  | nil => cases h; exact ⟨rfl, rfl⟩
  | cons x o ih =>
    cases x with
    | ret c =>
      simp only [masterSends] at h
      obtain ⟨⟨s1, o1⟩, h1, h2⟩ := bind_ok h
      cases h2
      have := ih h1
      exact ⟨by rw [← this.1]; rfl, this.2⟩
    | event e =>
      simp only [masterSends] at h
      obtain ⟨⟨s1, o1⟩, h1, h2⟩ := bind_ok h
      cases h2
      have := ih h1
      exact ⟨by rw [← this.1]; rfl, this.2⟩
    | send f =>
      simp only [masterSends] at h
      obtain ⟨⟨s1, o1⟩, h1, h2⟩ := bind_ok h
      obtain ⟨⟨s2, o2⟩, h3, h4⟩ := bind_ok h2
      cases h4
      have hu : libOuts o1 = [] ∧ s1.lib = s.lib := by
        unfold masterUsartSend at h1
        split at h1
        · cases h1
        · split at h1
          · obtain ⟨b, -, h5⟩ := bind_ok h1
            cases h5; exact ⟨rfl, rfl⟩
          · cases h1; exact ⟨rfl, rfl⟩
      obtain ⟨i1, i2⟩ := ih h3
      refine ⟨?_, i2.trans hu.2⟩
      show libOuts (HMOut.lib (.send f) :: (o1 ++ o2)) = _
      have e : libOuts (o1 ++ o2) = o := by
        unfold libOuts at *
        rw [List.filterMap_append, hu.1, i1, List.nil_append]
      rw [← e]; rfl

/-- Relation between an event of the device (or several) and what the library experiences. -/
structure Refines (cfg : Config) (l l' : Master) (ops : List HMOp) (htr : HMTrace) (mops : List MOp) (tr : MTrace) : Prop where
  run : masterRun cfg l mops = .ok (l', tr)
  main : tr.filter (fun x => x.1.isMain) = mainTrace htr
  bytes : mBytes mops = hmBytes ops
  t35 : mops.count .t35 = ops.count .timer
  irq : ∀ x ∈ tr, x.1.isMain = false → x.2 = []

theorem Refines.append {cfg : Config} {l l1 l2 : Master} {ops1 ops2 : List HMOp} {h1 h2 : HMTrace} {m1 m2 : List MOp} {t1 t2 : MTrace}
    (a : Refines cfg l l1 ops1 h1 m1 t1) (b : Refines cfg l1 l2 ops2 h2 m2 t2) :
    Refines cfg l l2 (ops1 ++ ops2) (h1 ++ h2) (m1 ++ m2) (t1 ++ t2) := by
  refine ⟨?_, ?_, ?_, ?_, ?_⟩
  · rw [masterRun_append, a.run]; simp only [ok_bind, b.run, pure_eq]
  · rw [List.filter_append, a.main, b.main]; simp [mainTrace]
  · unfold mBytes hmBytes
    rw [List.filterMap_append, List.filterMap_append]
    exact congr (congrArg _ a.bytes) b.bytes
  · rw [List.count_append, List.count_append, a.t35, b.t35]
  · intro x hx
    rcases List.mem_append.1 hx with hx | hx
    · exact a.irq x hx
    · exact b.irq x hx

theorem Refines.nil (cfg : Config) (l : Master) : Refines cfg l l [] [] [] [] :=
  ⟨rfl, rfl, rfl, rfl, by simp⟩

/-- A step of the library inside an interrupt handler. -/
theorem run_irq {cfg : Config} {l l' : Master} {op : MOp} {o : List MOut} (hm : op.isMain = false) (h : masterStep cfg l op = .ok (l', o)) :
    masterRun cfg l [op] = .ok (l', [(op, [])]) := by
  have := masterStep_irq hm h
  subst this
  exact run_one h

theorem sysStep_refines {cfg : Config} {s s' : MasterSys} {op : HMOp} {o : List HMOut} (hp : op.proper)
    (h : masterSysStep cfg s op = .ok (s', o)) : ∃ mops tr, Refines cfg s.lib s'.lib [op] [(op, o)] mops tr := by
  cases op with
  | main op =>
    have hp' : ¬ op.isMain = false := by rw [show op.isMain = true from hp]; simp
    simp only [masterSysStep, hp', if_false] at h
    obtain ⟨⟨l, o1⟩, h1, h2⟩ := bind_ok h
    obtain ⟨e1, e2⟩ := masterSends_lib h2
    refine ⟨[op], [(op, o1)], ?_, ?_, ?_, ?_, ?_⟩
    · rw [e2]; exact run_one h1
    · have : op.isMain = true := hp
      simp [mainTrace, e1, this]
    · cases op <;> first | (cases hp; done) | rfl
    · cases op <;> first | (cases hp; done) | rfl
    · intro x hx
      rw [List.mem_singleton.1 hx]
      intro hf; exact absurd hf hp'
  | rto =>
    cases h
    exact ⟨[], [], rfl, rfl, rfl, rfl, by simp⟩
  | timer =>
    simp only [masterSysStep] at h
    obtain ⟨⟨l, o1⟩, h1, h2⟩ := bind_ok h
    cases h2
    refine ⟨[.t35], [(.t35, [])], run_irq rfl h1, rfl, rfl, rfl, by simp⟩
  | usart rx txe =>
    simp only [masterSysStep] at h
    obtain ⟨s1, h1, h⟩ := bind_ok h
    obtain ⟨⟨s2, o2⟩, h2, h⟩ := bind_ok h
    obtain ⟨s3, h3, h⟩ := bind_ok h
    obtain rfl : s3 = s' := congrArg (fun x => (match x with | Except.ok y => y.1 | Except.error _ => s3 : MasterSys)) h
    cases h
    -- first part
    have p1 : ∃ m t, masterRun cfg s.lib m = .ok (s1.lib, t) ∧ t.filter (fun x => x.1.isMain) = [] ∧ mBytes m = hmBytes [.usart rx txe] ∧ m.count .t35 = 0 ∧
        ∀ x ∈ t, x.1.isMain = false → x.2 = [] := by
      cases rx with
      | none => cases h1; exact ⟨[], [], rfl, rfl, rfl, rfl, by simp⟩
      | some b =>
        simp only [masterIrqRx] at h1
        obtain ⟨⟨l, o1⟩, h4, h1⟩ := bind_ok h1
        simp only at h1
        split at h1
        · obtain ⟨⟨l', o1'⟩, h5, h1⟩ := bind_ok h1
          cases h1
          exact ⟨[.rxByte b] ++ [.frameErr], _, run_seq (run_irq rfl h4) (run_irq rfl h5), rfl, rfl, by simp, by simp⟩
        · cases h1
          exact ⟨[.rxByte b], _, run_irq rfl h4, rfl, rfl, by simp, by simp⟩
    have p2 : ∃ m t, masterRun cfg s1.lib m = .ok (s2.lib, t) ∧ t.filter (fun x => x.1.isMain) = [] ∧ mBytes m = [] ∧ m.count .t35 = 0 ∧
        ∀ x ∈ t, x.1.isMain = false → x.2 = [] := by
      unfold masterIrqTx at h2
      split at h2
      · split at h2
        · obtain ⟨b, -, h2⟩ := bind_ok h2
          cases h2; exact ⟨[], [], rfl, rfl, rfl, rfl, by simp⟩
        · obtain ⟨⟨l, o1⟩, h4, h2⟩ := bind_ok h2
          cases h2
          exact ⟨[.txDone], _, run_irq rfl h4, rfl, rfl, by simp, by simp⟩
      · cases h2; exact ⟨[], [], rfl, rfl, rfl, rfl, by simp⟩
    have p3 : ∃ m t, masterRun cfg s2.lib m = .ok (s3.lib, t) ∧ t.filter (fun x => x.1.isMain) = [] ∧ mBytes m = [] ∧ m.count .t35 = 0 ∧
        ∀ x ∈ t, x.1.isMain = false → x.2 = [] := by
      unfold masterIrqRto at h3
      split at h3
      · obtain ⟨⟨l, o1⟩, h4, h3⟩ := bind_ok h3
        cases h3
        exact ⟨[.t15], _, run_irq rfl h4, rfl, rfl, by simp, by simp⟩
      · cases h3; exact ⟨[], [], rfl, rfl, rfl, rfl, by simp⟩
    obtain ⟨m1, t1, a1, a2, a3, a4, a5⟩ := p1
    obtain ⟨m2, t2, b1, b2, b3, b4, b5⟩ := p2
    obtain ⟨m3, t3, c1, c2, c3, c4, c5⟩ := p3
    refine ⟨m1 ++ m2 ++ m3, t1 ++ t2 ++ t3, run_seq (run_seq a1 b1) c1, ?_, ?_, ?_, ?_⟩
    · rw [List.filter_append, List.filter_append, a2, b2, c2]; rfl
    · rw [mBytes_append, mBytes_append, a3, b3, c3]; simp
    · rw [List.count_append, List.count_append, a4, b4, c4]; rfl
    · intro x hx
      rcases List.mem_append.1 hx with hx | hx
      · rcases List.mem_append.1 hx with hx | hx
        · exact a5 x hx
        · exact b5 x hx
      · exact c5 x hx

theorem sysRun_refines {cfg : Config} {ops : List HMOp} {s s' : MasterSys} {htr : HMTrace} (hp : ∀ op ∈ ops, op.proper)
    (h : masterSysRun cfg s ops = .ok (s', htr)) : ∃ mops tr, Refines cfg s.lib s'.lib ops htr mops tr := by
  induction ops generalizing s htr with
  | nil => cases h; exact ⟨[], [], .nil _ _⟩
  | cons op ops ih =>
    simp only [masterSysRun] at h
    obtain ⟨⟨s1, o1⟩, h1, h⟩ := bind_ok h
    obtain ⟨⟨s2, o2⟩, h2, h⟩ := bind_ok h
    cases h
    obtain ⟨m1, t1, r1⟩ := sysStep_refines (hp op (List.mem_cons_self ..)) h1
    obtain ⟨m2, t2, r2⟩ := ih (fun op ho => hp op (List.mem_cons_of_mem _ ho)) h2
    exact ⟨_, _, r1.append r2⟩

/-- Accepted requests and outputs depend only on the main program's part of a trace. -/
theorem accepted_filter (tr : MTrace) : accepted (tr.filter fun x => x.1.isMain) = accepted tr := by
  induction tr with
  | nil => rfl
  | cons x tr ih =>
    obtain ⟨op, o⟩ := x
    cases op <;> simp [accepted, List.filter_cons, MOp.isMain] at ih ⊢ <;> first | exact ih | skip
    rename_i r
    rw [List.filterMap_cons, List.filterMap_cons, ih]

theorem flat_filter {tr : MTrace} (h : ∀ x ∈ tr, x.1.isMain = false → x.2 = []) :
    (tr.filter fun x => x.1.isMain).flatMap Prod.snd = tr.flatMap Prod.snd := by
  induction tr with
  | nil => rfl
  | cons x tr ih =>
    have ih := ih fun y hy => h y (List.mem_cons_of_mem _ hy)
    cases hx : x.1.isMain with
    | true => rw [List.filter_cons_of_pos (by simpa using hx)]; simp [ih]
    | false =>
      rw [List.filter_cons_of_neg (by simp [hx]), ih, List.flatMap_cons, h x (List.mem_cons_self ..) hx]; rfl

theorem Refines.accepted {cfg : Config} {l l' : Master} {ops : List HMOp} {htr : HMTrace} {mops : List MOp} {tr : MTrace}
    (h : Refines cfg l l' ops htr mops tr) : Spec.accepted tr = Spec.accepted (mainTrace htr) := by
  rw [← h.main, accepted_filter]

theorem Refines.flat {cfg : Config} {l l' : Master} {ops : List HMOp} {htr : HMTrace} {mops : List MOp} {tr : MTrace}
    (h : Refines cfg l l' ops htr mops tr) : tr.flatMap Prod.snd = (mainTrace htr).flatMap Prod.snd := by
  rw [← h.main, flat_filter h.irq]

/-! ### The transmitter -/

/-- Events that can happen after initialisation: the main program does not initialise again and hands over proper arrays. -/
def HMOp.legal : HMOp → Prop
  | .main (.init _) => False
  | .main op => op.isMain = true ∧ ∀ r, op = .request r → QtyOk r → DataOk r
  | _ => True

theorem HMOp.legal.proper {op : HMOp} (h : op.legal) : op.proper := by
  cases op with
  | main op => cases op <;> first | exact h.elim | exact h.1
  | _ => trivial

/-- The frames a master device's library hands to the driver. -/
def mframes (tr : HMTrace) : List (List U8) := sends (mainTrace tr)

/-- The invariant of the transmitter: the driver's pointers, the library's flag and buffer, the frames handed over so far and the line. -/
structure MWInv (cfg : Config) (s : MasterSys) (fs : List (List U8)) (w : List U8) : Prop where
  inv : ∃ g, MInv cfg s.lib g
  le : s.cur ≤ s.last
  busy : s.cur < s.last → s.lib.st = .transmitting ∧ s.lib.txf = .set ∧ s.lib.msgBuf = some s.txMsg ∧ s.last < 256
  hist : (fs = [] ∧ w = [] ∧ s.cur = s.last) ∨
    ∃ done f, fs = done ++ [f] ∧ w = done.flatten ++ f.take (s.cur + 1) ∧ f.length = s.last + 1 ∧
      (s.cur < s.last → (s.lib.msgs s.txMsg).req.bytes 0 (s.last + 1) = f)

theorem MWInv.complete {cfg : Config} {s : MasterSys} {fs : List (List U8)} {w : List U8} (h : MWInv cfg s fs w) (hc : s.cur = s.last) :
    w = fs.flatten := by
  rcases h.hist with ⟨h1, h2, -⟩ | ⟨done, f, h1, h2, h3, -⟩
  · rw [h1, h2]; rfl
  · rw [h1, h2, hc, List.take_of_length_le (by omega)]; simp

theorem MWInv.idle {cfg : Config} {s : MasterSys} {fs : List (List U8)} {w : List U8} (h : MWInv cfg s fs w)
    (hs : s.lib.st ≠ .transmitting ∨ s.lib.txf ≠ .set) : s.cur = s.last := by
  rcases Nat.lt_or_ge s.cur s.last with h1 | h1
  · have := h.busy h1
    rcases hs with hs | hs
    · exact absurd this.1 hs
    · exact absurd this.2.1 hs
  · exact Nat.le_antisymm h.le h1

theorem MWInv.keep {cfg : Config} {s s' : MasterSys} {fs : List (List U8)} {w : List U8} (h : MWInv cfg s fs w) (hl : ∃ g, MInv cfg s'.lib g)
    (h1 : s'.cur = s.cur) (h2 : s'.last = s.last) (h4 : s'.txMsg = s.txMsg)
    (h3 : s.cur < s.last → s'.lib.st = s.lib.st ∧ s'.lib.txf = s.lib.txf ∧ s'.lib.msgBuf = s.lib.msgBuf ∧
      (s'.lib.msgs s.txMsg).req = (s.lib.msgs s.txMsg).req) : MWInv cfg s' fs w := by
  refine ⟨hl, by rw [h1, h2]; exact h.le, ?_, ?_⟩
  · rw [h1, h2, h4]; intro hc
    have := h.busy hc
    rw [(h3 hc).1, (h3 hc).2.1, (h3 hc).2.2.1]; exact this
  · rw [h1, h2, h4]
    rcases h.hist with h5 | ⟨done, f, a, b, c, d⟩
    · exact .inl h5
    · exact .inr ⟨done, f, a, b, c, fun hc => by rw [(h3 hc).2.2.2]; exact d hc⟩

/-- A library step other than a poll. -/
theorem MWInv.event {cfg : Config} (hw : cfg.MWF) {s : MasterSys} {fs : List (List U8)} {w : List U8} (h : MWInv cfg s fs w) (op : MOp)
    (h1 : op ≠ .poll) (h2 : ∀ m, op ≠ .init m) (hd : ∀ r, op = .request r → QtyOk r → DataOk r) (h3 : op = .txDone → s.cur = s.last)
    (g r : Bool) :
    ∃ l o, masterStep cfg s.lib op = .ok (l, o) ∧ (∀ f, MOut.send f ∉ o) ∧ MWInv cfg { s with lib := l, gap := g, rtof := r } fs w := by
  obtain ⟨gh, hi⟩ := h.inv
  rcases masterStep_inv hw hi op h2 hd with ⟨l, o, gh', k1, k2, k3⟩ | ⟨k, -, -⟩
  · refine ⟨l, o, k1, ?_, ?_⟩
    · cases k3 <;> first | (exact absurd rfl h1) | simp
    · have e := masterStep_effect hw hi h1 h2 k1
      refine h.keep ⟨gh', k2⟩ rfl rfl rfl fun hc => ?_
      have hb := h.busy hc
      refine ⟨e.st, ?_, e.msgBuf, ?_⟩
      · rw [e.txf', if_neg]
        intro ht
        exact absurd (h3 ht) (Nat.ne_of_lt hc)
      · have hcur := hi.cur
        cases hg : gh.cur with
        | none => rw [hg] at hcur; rw [hcur.1] at hb; exact absurd hb.1 (by simp)
        | some x =>
          obtain ⟨i, r', c'⟩ := x
          rw [hg] at hcur
          obtain ⟨c1, c2, -⟩ := hcur
          have hij : i = s.txMsg := by rw [c1] at hb; exact Option.some.inj hb.2.2.1
          subst hij
          have := e.msg s.txMsg c1 c2 (by rw [hb.1]; simp)
          rw [show (l.msgs s.txMsg) = _ from this]
          cases op <;> rfl
  · exact absurd k h1

theorem masterSend_inv {s s' : Master} {o : List MOut} (h : masterSend s = .ok (s', o)) :
    ∃ i, s.msgBuf = some i ∧ s' = { s with rxTarget := some i, txf := .set, st := .transmitting } ∧
      o = [.send ((s.msgs i).req.bytes 0 (s.msgs i).reqLen.toNat)] := by
  unfold masterSend at h
  split at h
  · cases h
  · split at h
    · cases h
    · rename_i i hi
      split at h
      · cases h
      · cases h; exact ⟨i, hi, rfl, rfl⟩

/-- A poll that hands a frame to the driver. -/
theorem poll_send {cfg : Config} {s s' : Master} {o : List MOut} {f : List U8} (h : masterPoll cfg s = .ok (s', o)) (hf : .send f ∈ o) :
    (s.st = .idle ∨ s.st = .repeatRequest) ∧ s'.st = .transmitting ∧ s'.txf = .set ∧ ∃ i, s'.msgBuf = some i ∧
      f = (s'.msgs i).req.bytes 0 (s'.msgs i).reqLen.toNat ∧ o = [.send f] := by
  unfold masterPoll at h
  cases hs : s.st with
  | idle =>
    simp only [hs] at h
    unfold masterIdle at h
    split at h
    · obtain ⟨⟨x, tq⟩, -, h⟩ := bind_ok h
      obtain ⟨i, e1, e2, e3⟩ := masterSend_inv h
      subst e2 e3
      obtain rfl := by simpa using hf
      exact ⟨.inl rfl, rfl, rfl, i, e1, rfl, rfl⟩
    · cases h; cases hf
  | repeatRequest =>
    simp only [hs] at h
    obtain ⟨i, e1, e2, e3⟩ := masterSend_inv h
    subst e2 e3
    obtain rfl := by simpa using hf
    exact ⟨.inr rfl, rfl, rfl, i, e1, rfl, rfl⟩
  | transmitting =>
    simp only [hs] at h
    unfold masterTransmitting at h
    split at h
    · obtain ⟨a, -, h⟩ := bind_ok h
      cases h; cases hf
    · cases h; cases hf
  | waiting =>
    simp only [hs] at h
    unfold masterWaiting at h
    split at h
    · unfold masterRecv at h
      obtain ⟨a1, -, h⟩ := bind_ok h
      obtain ⟨a2, -, h⟩ := bind_ok h
      obtain ⟨a3, -, h⟩ := bind_ok h
      split at h
      · cases h; cases hf
      · split at h
        · obtain ⟨a4, -, h⟩ := bind_ok h
          cases h; cases hf
        · cases h; cases hf
    · split at h
      · obtain ⟨a1, -, h⟩ := bind_ok h
        obtain ⟨a2, -, h⟩ := bind_ok h
        cases h; simp at hf
      · cases h; cases hf
  | received =>
    simp only [hs] at h
    unfold masterReceived at h
    split at h
    · unfold masterFrameError at h
      simp only at h
      split at h
      · obtain ⟨a1, -, h⟩ := bind_ok h
        cases h; cases hf
      · obtain ⟨a1, -, h⟩ := bind_ok h
        obtain ⟨a2, -, h⟩ := bind_ok h
        cases h; simp at hf
    · split at h
      · unfold masterCrcError at h
        simp only at h
        split at h
        · obtain ⟨a1, -, h⟩ := bind_ok h
          cases h; cases hf
        · obtain ⟨a1, -, h⟩ := bind_ok h
          obtain ⟨a2, -, h⟩ := bind_ok h
          cases h; simp at hf
      · split at h
        · unfold masterCorrect at h
          obtain ⟨a1, -, h⟩ := bind_ok h
          obtain ⟨a2, -, h⟩ := bind_ok h
          cases h; simp at hf
        · cases h; cases hf

/-- Without a frame for the driver, nothing happens to it. -/
theorem masterSends_none (s : MasterSys) (o : List MOut) (h : ∀ f, MOut.send f ∉ o) : masterSends s o = .ok (s, o.map .lib) := by
  induction o with
  | nil => rfl
  | cons x o ih =>
    have ih := ih fun f hf => h f (List.mem_cons_of_mem _ hf)
    cases x with
    | send f => exact absurd (List.mem_cons_self ..) (h f)
    | ret c => simp only [masterSends, ih, ok_bind, pure_eq, List.map_cons]
    | event e => simp only [masterSends, ih, ok_bind, pure_eq, List.map_cons]

theorem mwire_append (a b : HMTrace) : mwire (a ++ b) = mwire a ++ mwire b := by simp [mwire]

theorem mframes_append (a b : HMTrace) : mframes (a ++ b) = mframes a ++ mframes b := by simp [mframes, mainTrace, sends]

theorem mwire_lib (op : HMOp) (o : List MOut) : mwire [(op, o.map .lib)] = [] := by
  simp [mwire]

theorem libOuts_map (o : List MOut) : libOuts (o.map .lib) = o := by
  induction o with
  | nil => rfl
  | cons x o ih => unfold libOuts at *; simp [ih]

theorem mframes_none (op : MOp) (o : List MOut) (h : ∀ f, MOut.send f ∉ o) : mframes [(.main op, o.map .lib)] = [] := by
  simp only [mframes, mainTrace, List.filterMap_cons, List.filterMap_nil, libOuts_map, sends, List.flatMap_cons, List.flatMap_nil, List.append_nil]
  induction o with
  | nil => rfl
  | cons x o ih =>
    have ih := ih fun f hf => h f (List.mem_cons_of_mem _ hf)
    cases x with
    | send f => exact absurd (List.mem_cons_self ..) (h f)
    | ret c => simpa using ih
    | event e => simpa using ih

/-- `send` of the driver. -/
theorem masterSends_send {s : MasterSys} {i : Nat} {f : List U8} (hm : s.lib.msgBuf = some i) (hl : 0 < (s.lib.msgs i).reqLen.toNat)  :
    masterSends s [.send f] = .ok ({ s with txMsg := i, cur := 0, last := (s.lib.msgs i).reqLen.toNat - 1, gap := false, rtof := false },
      [.lib (.send f), .tdr ((s.lib.msgs i).req 0)]) := by
  simp only [masterSends, masterUsartSend, hm, hl, if_true, rd_ok _ (show 0 < 256 by decide), ok_bind, pure_eq]
  rfl

/-- The main program polls. -/
theorem MWInv.poll {cfg : Config} (hw : cfg.MWF) {s : MasterSys} {fs : List (List U8)} {w : List U8} (h : MWInv cfg s fs w) :
    (∃ s' o, masterSysStep cfg s (.main .poll) = .ok (s', o) ∧
      MWInv cfg s' (fs ++ mframes [(.main .poll, o)]) (w ++ mwire [(.main .poll, o)])) ∨
      masterStep cfg s.lib .poll = .error .oobRead := by
  obtain ⟨g, hi⟩ := h.inv
  rcases masterStep_inv hw hi .poll (by simp) (by simp) with ⟨l, o, g', k1, k2, k3⟩ | ⟨-, k, -⟩
  · refine .inl ?_
    have hstep : ∀ s' o', masterSends { s with lib := l } o = .ok (s', o') → masterSysStep cfg s (.main .poll) = .ok (s', o') := by
      intro s' o' hs
      simp only [masterSysStep, show ¬ (MOp.isMain .poll = false) by decide, if_false, k1, ok_bind]
      exact hs
    by_cases hsend : ∃ f, MOut.send f ∈ o
    · obtain ⟨f, hf⟩ := hsend
      obtain ⟨a1, a2, a3, i, a4, a5, a6⟩ := poll_send (show masterPoll cfg s.lib = .ok (l, o) from k1) hf
      have hidle : s.cur = s.last := h.idle (.inl (by rcases a1 with e | e <;> rw [e] <;> simp))
      have hwf := h.complete hidle
      have hne : f.length ≠ 0 := by
        subst a6
        have hcur := k2.cur
        cases hg : g'.cur with
        | none => rw [hg] at hcur; rw [hcur.1] at a2; exact absurd a2 (by simp)
        | some x =>
          obtain ⟨j, r', c'⟩ := x
          rw [hg] at hcur
          obtain ⟨c1, -, c3, -⟩ := hcur
          rw [a4] at c1
          obtain rfl := Option.some.inj c1
          rw [a5, c3]
          simp [reqFrame, rtuFrame]
      have hlen : f.length = (l.msgs i).reqLen.toNat := by rw [a5, Buf.bytes_length]
      have hpos : 0 < (l.msgs i).reqLen.toNat := by omega
      subst a6
      refine ⟨_, _, hstep _ _ (masterSends_send a4 hpos), ⟨g', k2⟩, Nat.zero_le _, fun _ => ⟨a2, a3, a4, ?_⟩, .inr ⟨fs, f, ?_, ?_, ?_, fun _ => ?_⟩⟩
      · show (l.msgs i).reqLen.toNat - 1 < 256
        have := (l.msgs i).reqLen.isLt
        omega
      · rfl
      · show w ++ [(l.msgs i).req 0] = _
        rw [hwf]
        congr 1
        rw [a5]
        obtain ⟨n, hn⟩ : ∃ n, (l.msgs i).reqLen.toNat = n + 1 := ⟨_, (Nat.succ_pred_eq_of_pos hpos).symm⟩
        rw [hn, Buf.bytes_succ]; rfl
      · show f.length = (l.msgs i).reqLen.toNat - 1 + 1
        omega
      · show (l.msgs i).req.bytes 0 ((l.msgs i).reqLen.toNat - 1 + 1) = f
        rw [Nat.sub_add_cancel hpos]; exact a5.symm
    · have hno : ∀ f, MOut.send f ∉ o := fun f hf => hsend ⟨f, hf⟩
      refine ⟨_, _, hstep _ _ (masterSends_none _ _ hno), ?_⟩
      rw [mframes_none _ _ hno, mwire_lib, List.append_nil, List.append_nil]
      refine h.keep ⟨g', k2⟩ rfl rfl rfl fun hc => ?_
      have hb := h.busy hc
      have : l = s.lib := by
        have k := k1
        simp only [masterStep, masterPoll, hb.1, masterTransmitting, hb.2.1] at k
        rw [if_neg (by simp)] at k
        cases k; rfl
      rw [this]
      exact ⟨rfl, rfl, rfl, rfl⟩
  · exact .inr k

theorem MWInv.rx {cfg : Config} (hw : cfg.MWF) {s : MasterSys} {fs : List (List U8)} {w : List U8} (h : MWInv cfg s fs w) (b : Option U8) :
    ∃ s', masterIrqRx cfg s b = .ok s' ∧ MWInv cfg s' fs w := by
  cases b with
  | none => exact ⟨s, rfl, h⟩
  | some b =>
    obtain ⟨l, o, h1, -, h2⟩ := h.event hw (.rxByte b) (by simp) (by simp) (by simp) (by simp) s.gap s.rtof
    simp only [masterIrqRx, h1, ok_bind]
    cases hg : s.gap with
    | false => exact ⟨_, rfl, by rw [hg] at h2; exact h2⟩
    | true =>
      obtain ⟨l', o', h3, -, h4⟩ := h2.event hw .frameErr (by simp) (by simp) (by simp) (by simp) s.gap s.rtof
      simp only at h3
      simp only [if_true, h3, ok_bind, pure_eq]
      exact ⟨_, rfl, by rw [hg] at h4; exact h4⟩

theorem MWInv.tx {cfg : Config} (hw : cfg.MWF) {s : MasterSys} {fs : List (List U8)} {w : List U8} (h : MWInv cfg s fs w) (t : Bool) :
    ∃ s' o, masterIrqTx cfg s t = .ok (s', o) ∧ ∀ op, MWInv cfg s' fs (w ++ mwire [(op, o)]) := by
  cases t with
  | false => exact ⟨s, [], rfl, fun op => by rw [show mwire [(op, [])] = [] from rfl, List.append_nil]; exact h⟩
  | true =>
    by_cases hlt : s.cur < s.last
    · have hb := h.busy hlt
      simp only [masterIrqTx, if_true, hlt, rd_ok (s.lib.msgs s.txMsg).req (show s.cur + 1 < 256 by omega), ok_bind, pure_eq]
      refine ⟨_, _, rfl, fun op => ⟨h.inv, hlt, fun hl => hb, ?_⟩⟩
      rcases h.hist with ⟨-, -, h3⟩ | ⟨done, f, a, b, c, d⟩
      · omega
      · refine .inr ⟨done, f, a, ?_, c, fun _ => d hlt⟩
        rw [b, List.append_assoc]
        congr 1
        show f.take (s.cur + 1) ++ [(s.lib.msgs s.txMsg).req (s.cur + 1)] = f.take (s.cur + 1 + 1)
        rw [List.take_succ_eq_append_getElem (l := f) (i := s.cur + 1) (by omega)]
        have := d hlt
        subst this
        simp
    · obtain ⟨l, o, h1, -, h2⟩ := h.event hw .txDone (by simp) (by simp) (by simp) (fun _ => Nat.le_antisymm h.le (by omega)) s.gap s.rtof
      simp only [masterIrqTx, if_true, hlt, if_false, h1, ok_bind, pure_eq]
      exact ⟨_, [], rfl, fun op => by rw [show mwire [(op, [])] = [] from rfl, List.append_nil]; exact h2⟩

theorem mframes_irq {op : HMOp} (h : ∀ m, op ≠ .main m) (o : List HMOut) : mframes [(op, o)] = [] := by
  cases op with
  | main m => exact absurd rfl (h m)
  | _ => rfl

theorem MWInv.step {cfg : Config} (hw : cfg.MWF) {s : MasterSys} {fs : List (List U8)} {w : List U8} (h : MWInv cfg s fs w) (op : HMOp) (hl : op.legal) :
    (∃ s' o, masterSysStep cfg s op = .ok (s', o) ∧ MWInv cfg s' (fs ++ mframes [(op, o)]) (w ++ mwire [(op, o)])) ∨
      (op = .main .poll ∧ masterStep cfg s.lib .poll = .error .oobRead) := by
  cases op with
  | main op =>
    by_cases hp : op = .poll
    · subst hp
      rcases h.poll hw with k | k
      · exact .inl k
      · exact .inr ⟨rfl, k⟩
    · refine .inl ?_
      have hl' : (∀ m, op ≠ .init m) ∧ op.isMain = true ∧ ∀ r, op = .request r → QtyOk r → DataOk r := by
        cases op <;> first | exact hl.elim | exact ⟨by simp, hl⟩
      obtain ⟨l, o, h1, hno, h2⟩ := h.event hw op hp hl'.1 hl'.2.2 (by rintro rfl; exact absurd hl'.2.1 (by decide)) s.gap s.rtof
      refine ⟨{ s with lib := l }, o.map .lib, ?_, ?_⟩
      · simp only [masterSysStep, hl'.2.1, h1, ok_bind]
        cases op <;> first | exact absurd rfl (hl'.1 _) | exact masterSends_none _ _ hno
      · rw [mframes_none _ _ hno, mwire_lib, List.append_nil, List.append_nil]; exact h2
  | rto =>
    refine .inl ⟨_, _, rfl, ?_⟩
    rw [mframes_irq (by simp), show mwire [(HMOp.rto, [])] = [] from rfl, List.append_nil, List.append_nil]
    exact h.keep h.inv rfl rfl rfl fun _ => ⟨rfl, rfl, rfl, rfl⟩
  | usart b t =>
    refine .inl ?_
    obtain ⟨s1, h1, i1⟩ := h.rx hw b
    obtain ⟨s2, o2, h2, i2⟩ := i1.tx hw t
    have i2 : MWInv cfg s2 (fs ++ mframes [(.usart b t, o2)]) (w ++ mwire [(.usart b t, o2)]) := by
      rw [mframes_irq (by simp), List.append_nil]; exact i2 _
    by_cases hr : s2.rtof = true
    · obtain ⟨l, o, h3, -, i3⟩ := i2.event hw .t15 (by simp) (by simp) (by simp) (by simp) true false
      refine ⟨_, o2, ?_, i3⟩
      simp only [masterSysStep, h1, h2, ok_bind, masterIrqRto, hr, if_true, h3, pure_eq]
    · refine ⟨s2, o2, ?_, i2⟩
      simp only [masterSysStep, h1, h2, ok_bind, masterIrqRto, hr, pure_eq]
      rfl
  | timer =>
    refine .inl ?_
    obtain ⟨l, o, h1, -, h2⟩ := h.event hw .t35 (by simp) (by simp) (by simp) (by simp) false s.rtof
    refine ⟨{ s with lib := l, gap := false }, [], by simp only [masterSysStep, h1, ok_bind, pure_eq], ?_⟩
    rw [mframes_irq (by simp), show mwire [(HMOp.timer, [])] = [] from rfl, List.append_nil, List.append_nil]
    exact h2

theorem MWInv.run {cfg : Config} (hw : cfg.MWF) (ops : List HMOp) : ∀ {s : MasterSys} {fs : List (List U8)} {w : List U8}, MWInv cfg s fs w →
    (∀ op ∈ ops, op.legal) →
    (∃ s' tr, masterSysRun cfg s ops = .ok (s', tr) ∧ MWInv cfg s' (fs ++ mframes tr) (w ++ mwire tr)) ∨
      ∃ pre post s' tr, ops = pre ++ .main .poll :: post ∧ masterSysRun cfg s pre = .ok (s', tr) ∧ MWInv cfg s' (fs ++ mframes tr) (w ++ mwire tr) ∧
        masterStep cfg s'.lib .poll = .error .oobRead := by
  induction ops with
  | nil => intro s fs w h _; exact .inl ⟨s, [], rfl, by simpa [mframes, mainTrace, sends, mwire] using h⟩
  | cons op ops ih =>
    intro s fs w h hl
    rcases h.step hw op (hl op (List.mem_cons_self ..)) with ⟨s1, o1, h1, i1⟩ | ⟨rfl, h1⟩
    · have e : ∀ tr, mframes ((op, o1) :: tr) = mframes [(op, o1)] ++ mframes tr ∧ mwire ((op, o1) :: tr) = mwire [(op, o1)] ++ mwire tr :=
        fun tr => ⟨mframes_append [(op, o1)] tr, mwire_append [(op, o1)] tr⟩
      rcases ih i1 (fun op ho => hl op (List.mem_cons_of_mem _ ho)) with ⟨s2, t2, h2, i2⟩ | ⟨pre, post, s2, t2, e1, h2, i2, h3⟩
      · refine .inl ⟨s2, (op, o1) :: t2, by simp only [masterSysRun, h1, ok_bind, h2, pure_eq], ?_⟩
        rw [(e t2).1, (e t2).2, ← List.append_assoc, ← List.append_assoc]; exact i2
      · refine .inr ⟨op :: pre, post, s2, (op, o1) :: t2, by rw [e1]; rfl, by simp only [masterSysRun, h1, ok_bind, h2, pure_eq], ?_, h3⟩
        rw [(e t2).1, (e t2).2, ← List.append_assoc, ← List.append_assoc]; exact i2
    · exact .inr ⟨[], ops, s, [], rfl, rfl, by simpa [mframes, mainTrace, sends, mwire] using h, h1⟩

end Modbus
