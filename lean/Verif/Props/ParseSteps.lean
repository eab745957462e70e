import Verif.Proofs.ParseStepsPoll
import Verif.Props.Preempt

/-! C81: the slave with interrupts between any two reads of the request buffer (`Model/ParseSteps.lean`). -/

namespace Modbus

/-! ### The poll -/

/-- A poll during which the request being examined is not disturbed: either no byte arrives during the poll; or the bytes
arriving fit into the buffer behind those already there and, when the poll is about to answer a request (a frame has been accepted), this request is as long as
its function code calls for. (In the states "transmitting" and "unknown" the poll does not look at the request.) -/
def Undisturbed (s : Slave) (ints : List (List SEv)) : Prop :=
  srx ints.flatten = [] ∨
  s.reqLen.toNat + (srx ints.flatten).length ≤ 256 ∧
    (s.st = .msgReceived → s.ferr = .cleared → frameLenFor (s.req 1) (s.req 6) ≤ s.reqLen.toNat) ∨
  s.st = .transmitting ∨ s.st = .unknown

theorem same_idle (cfg : Config) {s : Slave} {ints : List (List SEv)} (hs : s.subscribed = true) (hr : Room s ints) :
    SameAs cfg slaveIdleF slaveIdleP ints s := by
  unfold slaveIdleF slaveIdleP
  refine SameAs.test hs (fun _ => ?_) fun _ => SameAs.refl ..
  refine SameAs.assign (by exact hs) ?_
  refine same_recv cfg (by exact hs) ?_
  exact hr.tail.tail

/-- The positions that matter for the answer are kept, and the parser reads no other. -/
def ParseKept (cfg : Config) (P : Nat → Prop) (s : Slave) (ints : List (List SEv)) : Prop :=
  Kept P s ints ∧ ∀ p : Pdu, (∀ i, P i → p.req i = s.req i) → (parseRequestR cfg p).Reads P p.req

theorem ParseKept.tail {cfg : Config} {P : Nat → Prop} {s : Slave} {ints : List (List SEv)} (h : ParseKept cfg P s ints) :
    ParseKept cfg P (slaveAfter s (ints.headD [])) ints.tail :=
  ⟨h.1.tail, fun p hp => h.2 p fun i hi => (hp i hi).trans (h.1.head i hi)⟩

theorem same_answer (cfg : Config) (hc : cfg.WF) {P : Nat → Prop} {s : Slave} {ints : List (List SEv)} (hs : s.subscribed = true)
    (hk : ParseKept cfg P s ints) : SameAs cfg (slaveAnswerF cfg) (slaveAnswerP cfg) ints s :=
  same_parse cfg hc _ hs hk.1 hk.2

theorem same_received (cfg : Config) (hc : cfg.WF) {s : Slave} {ints : List (List SEv)} (hs : s.subscribed = true)
    (hk : s.ferr = .cleared → ∃ P, ParseKept cfg P s ints) : SameAs cfg (slaveMsgReceivedF cfg) (slaveMsgReceivedP cfg) ints s := by
  have second : ∀ (s : Slave) (ints : List (List SEv)), s.subscribed = true → (s.ferr = .cleared → ∃ P, ParseKept cfg P s ints) →
      SameAs cfg (test (fun s => s.ferr = .cleared) (test (fun s => s.t35 = .set) (slaveAnswerF cfg) .done) .done)
        (test (fun s => s.ferr = .cleared) (test (fun s => s.t35 = .set) (slaveAnswerP cfg) .done) .done) ints s := by
    intro s ints hs hk
    refine SameAs.test hs (fun hf => ?_) fun _ => SameAs.refl ..
    have hf0 : s.ferr = .cleared := by
      have := of_decide_eq_true hf
      rw [slaveAfter_ferr] at this
      cases hh : hasEv SEv.frameErr (ints.headD []) with
      | true => rw [hh] at this; cases this
      | false => rw [hh] at this; exact this
    obtain ⟨P, hP⟩ := hk hf0
    refine SameAs.test (by exact hs) (fun _ => ?_) fun _ => SameAs.refl ..
    exact same_answer cfg hc (by exact hs) hP.tail.tail
  have tail : ∀ (s : Slave) (ints : List (List SEv)), (s.ferr = .cleared → ∃ P, ParseKept cfg P s ints) →
      (slaveAfter s (ints.headD [])).ferr = .cleared → ∃ P, ParseKept cfg P (slaveAfter s (ints.headD [])) ints.tail := by
    intro s ints hk hf
    have hf0 : s.ferr = .cleared := by
      rw [slaveAfter_ferr] at hf
      cases hh : hasEv SEv.frameErr (ints.headD []) with
      | true => rw [hh] at hf; cases hf
      | false => rw [hh] at hf; exact hf
    obtain ⟨P, hP⟩ := hk hf0
    exact ⟨P, hP.tail⟩
  unfold slaveMsgReceivedF slaveMsgReceivedP
  refine SameAs.test hs (fun hf => ?_) fun _ => second _ _ (by exact hs) (tail s ints hk)
  refine SameAs.test (by exact hs) (fun _ => SameAs.refl ..) fun _ => second _ _ (by exact hs) (tail _ _ (tail s ints hk))

/-- An undisturbed poll is a poll of `Model/Preempt.lean`. -/
theorem same_poll (cfg : Config) (hc : cfg.WF) {s : Slave} {ints : List (List SEv)} (hs : s.subscribed = true)
    (hu : Undisturbed s ints) : SameAs cfg (slavePollF cfg) (slavePollP cfg) ints s := by
  unfold slavePollF slavePollP
  refine SameAs.step hs _ fun a s' o e => ?_
  cases e
  rw [slaveAfter_st]
  have hRoom : s.st = .idle ∨ s.st = .msgReceived → Room s ints := fun hst => by
    rcases hu with h | h | h | h
    · exact .inl h
    · exact .inr h.1
    · rw [h] at hst; rcases hst with h | h <;> cases h
    · rw [h] at hst; rcases hst with h | h <;> cases h
  cases hst : s.st with
  | idle => exact same_idle cfg (by exact hs) (hRoom (.inl hst)).tail
  | msgReceived =>
    refine same_received cfg hc (by exact hs) fun hf => ?_
    have hf0 : s.ferr = .cleared := by
      rw [slaveAfter_ferr] at hf
      cases hh : hasEv SEv.frameErr (ints.headD []) with
      | true => rw [hh] at hf; cases hf
      | false => rw [hh] at hf; exact hf
    rcases hu with h | h | h | h
    · exact ⟨_, (show ParseKept cfg _ s ints from ⟨Kept.noRx h, fun p _ => reads_all _ _⟩).tail⟩
    · have hl := h.2 hst hf0
      refine ⟨_, (show ParseKept cfg (· < s.reqLen.toNat) s ints from ⟨(Room.kept (.inr h.1) (Nat.le_refl _)), fun p hp => ?_⟩).tail⟩
      have h1 : 1 < s.reqLen.toNat := by
        unfold frameLenFor at hl
        repeat' split at hl
        all_goals omega
      refine reads_parse cfg p _ ?_
      rw [hp 1 h1]
      by_cases hm : s.req 1 = 15 ∨ s.req 1 = 16
      · have h6 : 6 < s.reqLen.toNat := by
          rcases hm with e | e <;>
          · rw [e] at hl
            have : 9 + (s.req 6).toNat ≤ s.reqLen.toNat := hl
            omega
        rw [hp 6 h6]; exact hl
      · unfold frameLenFor at hl ⊢
        rw [if_neg hm] at hl ⊢
        exact hl
    · rw [hst] at h; cases h
    · rw [hst] at h; cases h
  | transmitting => exact SameAs.refl ..
  | unknown => exact SameAs.refl ..

/-! ### Executions -/

/-- Every poll of the execution is undisturbed. -/
def slaveUndisturbed (cfg : Config) : Slave → List SPOp → Prop
  | _, [] => True
  | s, p :: ops =>
    (∀ ints, p = .pollWith ints → Undisturbed s ints) ∧ ∀ s' out, slaveFStep cfg s p = .ok (s', out) → slaveUndisturbed cfg s' ops

theorem SAsAtomic.flat {ints ints' : List (List SEv)} {ops : List SOp} (h : SAsAtomic ints' ops) (e : ints'.flatten = ints.flatten) :
    SAsAtomic ints ops := by
  unfold SAsAtomic at h ⊢
  rwa [e] at h

theorem SExpands.some (pops : List SPOp) : ∃ a, SExpands pops a := by
  induction pops with
  | nil => exact ⟨[], .nil⟩
  | cons p pops ih =>
    obtain ⟨a, ha⟩ := ih
    cases p with
    | op o => exact ⟨_, .op ha⟩
    | pollWith ints => exact ⟨_, .poll (asAtomic_none ints) ha⟩

/-- C81, what holds: an execution all of whose polls are undisturbed is an execution in which polls are not interrupted at all and the
interrupts occur before or after them, however the interrupts fall between the reads of the request buffer. Missing with respect to the full property: polls during which
a byte arrives while a request shorter than its function code calls for is being answered (see `C81_overrun_violated`), or more bytes than fit. -/
theorem C81_linearise_partial (cfg : Config) (hc : cfg.WF) (pops : List SPOp) : ∀ (s : Slave), s.subscribed = true → s.msgPtr = true →
    slaveUndisturbed cfg s pops → ∃ ops, SExpands pops ops ∧ slaveFRun cfg s pops = slaveRun cfg s ops := by
  induction pops with
  | nil => intro s _ _ _; exact ⟨[], .nil, rfl⟩
  | cons p pops ih =>
    intro s hs hm hu
    have one : ∃ ops, slaveFStep cfg s p = slaveRun cfg s ops ∧ ∀ a, SExpands pops a → SExpands (p :: pops) (ops ++ a) := by
      cases p with
      | op o =>
        refine ⟨[o], ?_, fun a ha => .op ha⟩
        show slaveStep cfg s o = _
        simp only [slaveRun]
        cases slaveStep cfg s o with
        | error u => rfl
        | ok x => exact congrArg Except.ok (Prod.ext rfl (List.append_nil _).symm)
      | pollWith ints =>
        obtain ⟨ints', e1, e2⟩ := same_poll cfg hc hs (hu.1 ints rfl)
        obtain ⟨ops, h1, h2⟩ := slave_poll_reduces cfg s hs hm ints'
        exact ⟨ops, e2.trans h2, fun a ha => .poll (h1.flat e1) ha⟩
    obtain ⟨ops, h1, h2⟩ := one
    cases hp : slaveFStep cfg s p with
    | error u =>
      obtain ⟨a, ha⟩ := SExpands.some pops
      refine ⟨ops ++ a, h2 a ha, ?_⟩
      simp only [slaveFRun]
      rw [slaveRun_append', ← h1, hp]
      rfl
    | ok x =>
      obtain ⟨s', o⟩ := x
      have hk := slaveRun_keeps (h1.symm.trans hp) hs hm
      obtain ⟨a, ha, he⟩ := ih s' hk.1 hk.2 (hu.2 s' o hp)
      refine ⟨ops ++ a, h2 a ha, ?_⟩
      simp only [slaveFRun]
      rw [slaveRun_append', ← h1, hp]
      simp only [okBind, he]
      rfl

/-- From initialisation on. -/
theorem slaveF_from_init (cfg : Config) (hc : cfg.WF) (s : Slave) (id : U8) (pops : List SPOp)
    (hu : slaveUndisturbed cfg s (.op (.init .rtu id) :: pops)) :
    ∃ ops, SExpands pops ops ∧ slaveFRun cfg s (.op (.init .rtu id) :: pops) = slaveRun cfg s (.init .rtu id :: ops) := by
  obtain ⟨ops, h1, h2⟩ := C81_linearise_partial cfg hc pops (slaveInit s .rtu id) rfl rfl (hu.2 _ _ rfl)
  refine ⟨ops, h1, ?_⟩
  simp only [slaveFRun, slaveRun]
  show ((Except.ok (slaveInit s .rtu id, []) : C (Slave × List SOut)) >>= _) = ((Except.ok (slaveInit s .rtu id, []) : C (Slave × List SOut)) >>= _)
  simp only [okBind, h2]

/-- C81, no undefined behaviour: in an execution whose polls are undisturbed (and whose registrations are within the tables). -/
theorem C81_no_undefined_behaviour_partial (cfg : Config) (hc : cfg.WF) (s : Slave) (id : U8) (pops : List SPOp)
    (hl : ∀ p ∈ pops, p.legal cfg) (hu : slaveUndisturbed cfg s (.op (.init .rtu id) :: pops)) :
    ∃ s' o, slaveFRun cfg s (.op (.init .rtu id) :: pops) = .ok (s', o) := by
  obtain ⟨ops, h1, h2⟩ := slaveF_from_init cfg hc s id pops hu
  obtain ⟨s', o, h⟩ := C27_no_undefined_behaviour cfg hc s id ops (h1.legal hl)
  exact ⟨s', o, h2.trans h⟩

/-- Bytes arrive only between polls: then every poll is undisturbed, whatever the other interrupts do. -/
theorem C81_quiet_polls_undisturbed (cfg : Config) (pops : List SPOp)
    (h : ∀ ints, SPOp.pollWith ints ∈ pops → srx ints.flatten = []) : ∀ s, slaveUndisturbed cfg s pops := by
  induction pops with
  | nil => intro s; trivial
  | cons p pops ih =>
    intro s
    exact ⟨fun ints e => .inl (h ints (by rw [e]; exact List.mem_cons_self ..)),
      fun s' _ _ => ih (fun ints hi => h ints (List.mem_cons_of_mem _ hi)) s'⟩

/-! ### Executions with any interrupts: at most one answer per accepted frame -/

/-- What a piece of a poll may still hand to the driver: each output is paid for out of the state (`φ`) or out of the tokens `n` held by the piece (a
negative number is a debt, to be settled before the end).
`K` is what is known about the state when it starts. -/
def Pays (φ : Slave → Nat) : SProg → (Slave → Prop) → Int → Prop
  | .done, _, n => 0 ≤ n
  | .step _ f k, K, n =>
    (∀ s l, K s → K (slaveAfter s l)) ∧
    ∀ s a s' o, K s → f s = .ok (a, s', o) → s'.subscribed = s.subscribed ∧
      ∃ K' : Slave → Prop, ∃ n' : Int, K' s' ∧ (o.length : Int) + φ s' + n' ≤ φ s + n ∧ Pays φ (k a) K' n'

theorem Pays.run {cfg : Config} {φ : Slave → Nat} {w : SEv → Nat} (hφ : ∀ s l, φ (slaveAfter s l) ≤ φ s + (l.map w).sum)
    (p : SProg) : ∀ {K : Slave → Prop} {n : Int} {s s' : Slave} {o : List SOut} {ints : List (List SEv)}, Pays φ p K n →
      s.subscribed = true → K s → runProg (slaveInt cfg) p ints s = .ok (s', o) →
      (o.length : Int) + φ s' ≤ φ s + n + (ints.flatten.map w).sum ∧ s'.subscribed = true := by
  induction p with
  | done =>
    intro K n s s' o ints hn hs _ hr
    have hn : 0 ≤ n := hn
    simp only [runProg, runInts_slave cfg s hs, okBind, pureOk, Except.ok.injEq, Prod.mk.injEq] at hr
    rw [← hr.1, ← hr.2]
    have := hφ s ints.flatten
    exact ⟨by simp only [List.length_nil]; omega, hs⟩
  | step r f k ih =>
    intro K n s s' o ints h hs hk hr
    rw [runProg_head cfg hs] at hr
    obtain ⟨x, hx, hr⟩ := bind_ok hr
    obtain ⟨a, s1, o1⟩ := x
    obtain ⟨hsub, K', n', hk', hle, hp⟩ := h.2 _ a s1 o1 (h.1 s _ hk) hx
    cases hr1 : runProg (slaveInt cfg) (k a) ints.tail s1 with
    | error u => rw [hr1] at hr; cases hr
    | ok y =>
      rw [hr1] at hr
      have hr : (Except.ok (y.1, o1 ++ y.2) : C (Slave × List SOut)) = .ok (s', o) := hr
      simp only [Except.ok.injEq, Prod.mk.injEq] at hr
      obtain ⟨h1, h2⟩ := ih a hp (hsub.trans hs) hk' hr1
      rw [← hr.1, ← hr.2]
      have := hφ s (ints.headD [])
      rw [flatten_split ints, List.map_append, List.sum_append, List.length_append]
      exact ⟨by omega, h2⟩

/-- `K` is not affected by interrupts. -/
def Lasts (K : Slave → Prop) : Prop := ∀ s l, K s → K (slaveAfter s l)

theorem Pays.mono {φ : Slave → Nat} {p : SProg} {K K' : Slave → Prop} {n m : Int} (hK : Lasts K') (h : Pays φ p K n) (hi : ∀ s, K' s → K s)
    (hn : n ≤ m) : Pays φ p K' m := by
  cases p with
  | done => exact Int.le_trans h hn
  | step r f k =>
    refine ⟨hK, fun s a s' o hk hf => ?_⟩
    obtain ⟨h1, K2, n2, h2, h3, h4⟩ := h.2 s a s' o (hi s hk) hf
    exact ⟨h1, K2, n2, h2, by omega, h4⟩

theorem Pays.assign {φ : Slave → Nat} {f : Slave → Slave} {p : SProg} {K K' : Slave → Prop} {n n' : Int} (hK : Lasts K)
    (hsub : ∀ s, (f s).subscribed = s.subscribed) (hk : ∀ s, K s → K' (f s)) (hn : ∀ s, K s → (φ (f s) : Int) + n' ≤ φ s + n) (h : Pays φ p K' n') :
    Pays φ (assign f p) K n :=
  ⟨hK, fun s a s' o hs e => by
    cases e
    exact ⟨hsub s, K', n', hk s hs, by simpa using hn s hs, h⟩⟩

theorem Pays.assignC {φ : Slave → Nat} {f : Slave → C Slave} {p : SProg} {K K' : Slave → Prop} {n n' : Int} (hK : Lasts K)
    (hf : ∀ s s', K s → f s = .ok s' → s'.subscribed = s.subscribed ∧ K' s' ∧ (φ s' : Int) + n' ≤ φ s + n) (h : Pays φ p K' n') :
    Pays φ (assignC f p) K n :=
  ⟨hK, fun s a s' o hs e => by
    obtain ⟨s1, e1, e2⟩ := bind_ok e
    simp only [pureOk, Except.ok.injEq, Prod.mk.injEq] at e2
    rw [← e2.2.1, ← e2.2.2]
    obtain ⟨h1, h2, h3⟩ := hf s s1 hs e1
    exact ⟨h1, K', n', h2, by simpa using h3, h⟩⟩

theorem Pays.test {φ : Slave → Nat} {c : Slave → Bool} {p q : SProg} {K K1 K2 : Slave → Prop} {n : Int} (hK : Lasts K)
    (h1 : ∀ s, K s → c s = true → K1 s) (h2 : ∀ s, K s → c s = false → K2 s) (hp : Pays φ p K1 n) (hq : Pays φ q K2 n) :
    Pays φ (test c p q) K n :=
  ⟨hK, fun s a s' o hs e => by
    cases e
    cases hc : c s with
    | true => exact ⟨rfl, K1, n, h1 s hs hc, by simp, hp⟩
    | false => exact ⟨rfl, K2, n, h2 s hs hc, by simp, hq⟩⟩

/-- Reading the request pays for nothing and costs nothing. -/
theorem Pays.toProg {φ : Slave → Nat} {α : Type} {k : α → SProg} {K : Slave → Prop} {n : Int} (hK : Lasts K) (h : ∀ a, Pays φ (k a) K n) :
    ∀ m : ReqM α, Pays φ (m.toProg k) K n := by
  intro m
  induction m with
  | ret a => exact h a
  | err u => exact ⟨hK, fun s a s' o _ e => by cases e⟩
  | rd i f ih =>
    refine ⟨hK, fun s a s' o hs e => ?_⟩
    cases e
    exact ⟨rfl, K, n, hs, by simp, ih _⟩

/-- Pending 3.5 character events. -/
def pend35 (s : Slave) : Nat := if s.t35 = .set then 1 else 0
/-- Pending 1.5 character events, and a frame already examined. -/
def pend15 (s : Slave) : Nat := (if s.t15 = .set then 1 else 0) + if s.st = .msgReceived then 1 else 0

/-- Number of occurrences. -/
def evW (e x : SEv) : Nat := if x = e then 1 else 0

theorem evW_sum (e : SEv) (l : List SEv) : (l.map (evW e)).sum = l.count e := by
  induction l with
  | nil => rfl
  | cons x l ih =>
    rw [List.map_cons, List.sum_cons, ih, List.count_cons]
    unfold evW
    by_cases h : x = e <;> simp [h, Nat.add_comm]

theorem mark_pend (e : SEv) (l : List SEv) (f : Flag) :
    (if mark (hasEv e l) f = .set then 1 else 0) ≤ (if f = .set then 1 else 0) + l.count e := by
  by_cases h : e ∈ l
  · have := List.count_pos_iff.2 h
    split <;> omega
  · have : hasEv e l = false := decide_eq_false h
    rw [this]
    unfold mark
    simp

theorem pend35_after (s : Slave) (l : List SEv) : pend35 (slaveAfter s l) ≤ pend35 s + (l.map (evW .t35)).sum := by
  rw [evW_sum]
  unfold pend35
  rw [slaveAfter_t35]
  exact mark_pend _ _ _

theorem pend15_after (s : Slave) (l : List SEv) : pend15 (slaveAfter s l) ≤ pend15 s + (l.map (evW .t15)).sum := by
  rw [evW_sum]
  unfold pend15
  rw [slaveAfter_t15, slaveAfter_st]
  have := mark_pend .t15 l s.t15
  omega

theorem slaveFrame_same {s s' : Slave} (h : slaveFrame s = .ok s') :
    s'.subscribed = s.subscribed ∧ s'.t15 = s.t15 ∧ s'.t35 = s.t35 ∧ s'.st = s.st := by
  unfold slaveFrame at h
  split at h
  · obtain ⟨x, -, h⟩ := bind_ok h
    cases h
    exact ⟨rfl, rfl, rfl, rfl⟩
  · cases h

theorem slaveParse_same {cfg : Config} {s s' : Slave} (h : slaveParse cfg s = .ok s') :
    s'.subscribed = s.subscribed ∧ s'.t15 = s.t15 ∧ s'.t35 = s.t35 ∧ s'.st = s.st := by
  unfold slaveParse at h
  split at h
  · cases h; exact ⟨rfl, rfl, rfl, rfl⟩
  · obtain ⟨x, -, h⟩ := bind_ok h
    cases h
    exact ⟨rfl, rfl, rfl, rfl⟩

theorem reqLen0_same {s s' : Slave} (h : slaveReqLen0 s = .ok s') :
    s'.subscribed = s.subscribed ∧ s'.t15 = s.t15 ∧ s'.t35 = s.t35 ∧ s'.st = s.st := by
  unfold slaveReqLen0 at h
  split at h
  · cases h; exact ⟨rfl, rfl, rfl, rfl⟩
  · cases h

theorem respLen0_same {s s' : Slave} (h : slaveRespLen0 s = .ok s') :
    s'.subscribed = s.subscribed ∧ s'.t15 = s.t15 ∧ s'.t35 = s.t35 ∧ s'.st = s.st := by
  unfold slaveRespLen0 at h
  split at h
  · cases h; exact ⟨rfl, rfl, rfl, rfl⟩
  · cases h

/-- `pend15` or `pend35`. -/
def pend (w : Bool) (s : Slave) : Nat := if w then pend15 s else pend35 s

theorem pend_congr (w : Bool) {s t : Slave} (h : t.t15 = s.t15 ∧ t.t35 = s.t35 ∧ t.st = s.st) : pend w t = pend w s := by
  unfold pend pend15 pend35
  rw [h.1, h.2.1, h.2.2]

/-- Known: the state, and (if asked for) that the 3.5 or the 1.5 character flag is set. -/
def Knows (st : SlaveSt) (b15 b35 : Bool) (s : Slave) : Prop := s.st = st ∧ (b15 = true → s.t15 = .set) ∧ (b35 = true → s.t35 = .set)

theorem lasts_knows (st : SlaveSt) (b15 b35 : Bool) : Lasts (Knows st b15 b35) := by
  intro s l h
  exact ⟨h.1, fun hb => by rw [slaveAfter_t15, h.2.1 hb, mark_set], fun hb => by rw [slaveAfter_t35, h.2.2 hb, mark_set]⟩

theorem knows_congr {st : SlaveSt} {b15 b35 : Bool} {s t : Slave} (h : t.t15 = s.t15 ∧ t.t35 = s.t35 ∧ t.st = s.st)
    (hk : Knows st b15 b35 s) : Knows st b15 b35 t := by
  unfold Knows at hk ⊢
  rwa [h.1, h.2.1, h.2.2]

/-- A step that does not touch flags or state. -/
theorem Pays.neutral {w : Bool} {f : Slave → C Slave} {p : SProg} {st : SlaveSt} {b15 b35 : Bool} {n : Int}
    (hf : ∀ s s', f s = .ok s' → s'.subscribed = s.subscribed ∧ s'.t15 = s.t15 ∧ s'.t35 = s.t35 ∧ s'.st = s.st)
    (h : Pays (pend w) p (Knows st b15 b35) n) : Pays (pend w) (Modbus.assignC f p) (Knows st b15 b35) n :=
  Pays.assignC (lasts_knows _ _ _) (fun s s' hk e => by
    obtain ⟨h1, h2⟩ := hf s s' e
    exact ⟨h1, knows_congr h2 hk, by rw [pend_congr w h2]; exact Int.le_refl _⟩) h

theorem Pays.neutral' {w : Bool} {f : Slave → Slave} {p : SProg} {st : SlaveSt} {b15 b35 : Bool} {n : Int}
    (hf : ∀ s, (f s).subscribed = s.subscribed ∧ (f s).t15 = s.t15 ∧ (f s).t35 = s.t35 ∧ (f s).st = s.st)
    (h : Pays (pend w) p (Knows st b15 b35) n) : Pays (pend w) (Modbus.assign f p) (Knows st b15 b35) n :=
  Pays.assign (lasts_knows _ _ _) (fun s => (hf s).1) (fun s hk => knows_congr (hf s).2 hk)
    (fun s _ => by rw [pend_congr w (hf s).2]; exact Int.le_refl _) h

theorem pays_clear35 (w : Bool) (st : SlaveSt) (p : SProg) (b15 : Bool) (n : Int) (h : Pays (pend w) p (Knows st b15 false) n) :
    Pays (pend w) (assign (fun s => { s with t35 := .cleared }) p) (Knows st b15 true) (if w then n else n - 1) :=
  Pays.assign (lasts_knows _ _ _) (fun _ => rfl) (fun s hk => ⟨hk.1, hk.2.1, fun h => by cases h⟩) (fun s hk => by
    have := hk.2.2 rfl
    cases w <;> simp [pend, pend15, pend35, this] <;> omega) h

theorem pays_clear35' (w : Bool) (st : SlaveSt) (p : SProg) (b15 b : Bool) (n : Int) (h : Pays (pend w) p (Knows st b15 false) n) :
    Pays (pend w) (assign (fun s => { s with t35 := .cleared }) p) (Knows st b15 b) n :=
  Pays.assign (lasts_knows _ _ _) (fun _ => rfl) (fun s hk => ⟨hk.1, hk.2.1, fun h => by cases h⟩) (fun s hk => by
    cases w <;> simp [pend, pend15, pend35] <;> (try split) <;> omega) h

theorem pays_clear15' (w : Bool) (st : SlaveSt) (p : SProg) (b b35 : Bool) (n : Int) (h : Pays (pend w) p (Knows st false b35) n) :
    Pays (pend w) (assign (fun s => { s with t15 := .cleared }) p) (Knows st b b35) n :=
  Pays.assign (lasts_knows _ _ _) (fun _ => rfl) (fun s hk => ⟨hk.1, (fun h => by cases h), hk.2.2⟩) (fun s hk => by
    cases w <;> simp [pend, pend15, pend35] <;> (try split) <;> omega) h

/-- A change of state to one that holds nothing. -/
theorem pays_st (w : Bool) {st st' : SlaveSt} (hst : st' ≠ .msgReceived) (p : SProg) (b15 b35 : Bool) (n : Int)
    (h : Pays (pend w) p (Knows st' b15 b35) n) :
    Pays (pend w) (assign (fun s => { s with st := st' }) p) (Knows st b15 b35) n :=
  Pays.assign (lasts_knows _ _ _) (fun _ => rfl) (fun s hk => ⟨rfl, hk.2⟩) (fun s hk => by
    cases w <;> simp [pend, pend15, pend35, hst] <;> (try split) <;> omega) h

theorem pays_answerTail (w : Bool) :
    Pays (pend w)
      (assignC slaveFrame
        (.step free (fun s => do let o ← slaveDriverSend s; return ((), s, o)) fun _ =>
          assign (fun s => { s with txf := .set })
            (assign (fun s => { s with st := .transmitting })
              (assign (fun s => { s with t35 := .cleared }) .done))))
      (Knows .msgReceived false true) 0 := by
  refine Pays.neutral (fun s s' => slaveFrame_same) ?_
  refine ⟨lasts_knows _ _ _, fun s a s' o hk e => ?_⟩
  obtain ⟨o1, e1, e2⟩ := bind_ok e
  simp only [pureOk, Except.ok.injEq, Prod.mk.injEq] at e2
  have ho : o.length = 1 := by
    rw [← e2.2.2]
    unfold slaveDriverSend at e1
    repeat' split at e1
    · cases e1
    · cases e1
    · cases e1; rfl
  rw [← e2.2.1]
  refine ⟨rfl, Knows .msgReceived false true, -1, hk, by rw [ho]; omega, ?_⟩
  refine Pays.neutral' (fun s => ⟨rfl, rfl, rfl, rfl⟩) ?_
  refine Pays.assign (lasts_knows _ _ _) (K' := Knows .transmitting false true) (n' := if w then 0 else -1) (fun _ => rfl)
    (fun s hk => ⟨rfl, hk.2⟩) (fun s hk => ?_) ?_
  · have := hk.1
    cases w <;> simp [pend, pend15, pend35, this]
    omega
  · cases w with
    | true => exact pays_clear35' true _ _ _ _ _ (Int.le_refl _)
    | false => exact pays_clear35 false .transmitting .done false 0 (Int.le_refl _)

theorem pays_received (w : Bool) (ans : SProg) (ha : Pays (pend w) ans (Knows .msgReceived false true) 0) :
    Pays (pend w)
      (test (fun s => s.ferr = .set) (test (fun s => s.t35 = .set) slaveDropP
          (test (fun s => s.ferr = .cleared) (test (fun s => s.t35 = .set) ans .done) .done))
        (test (fun s => s.ferr = .cleared) (test (fun s => s.t35 = .set) ans .done) .done))
      (Knows .msgReceived false false) 0 := by
  have second : Pays (pend w) (test (fun s => s.ferr = .cleared) (test (fun s => s.t35 = .set) ans .done) .done)
      (Knows .msgReceived false false) 0 := by
    refine Pays.test (K2 := Knows .msgReceived false false) (lasts_knows _ _ _) (fun s hk _ => hk) (fun s hk _ => hk) ?_ (Int.le_refl _)
    exact Pays.test (K2 := Knows .msgReceived false false) (lasts_knows _ _ _) (fun s hk ht => ⟨hk.1, hk.2.1, fun _ => of_decide_eq_true ht⟩)
      (fun s hk _ => hk) ha (Int.le_refl _)
  refine Pays.test (lasts_knows _ _ _) (fun s hk _ => hk) (fun s hk _ => hk) ?_ second
  refine Pays.test (K1 := Knows .msgReceived false false) (lasts_knows _ _ _) (fun s hk _ => hk) (fun s hk _ => hk) ?_ second
  unfold slaveDropP
  refine Pays.neutral (fun s s' => reqLen0_same) ?_
  refine pays_st w (by decide) _ _ _ _ ?_
  refine Pays.neutral' (fun s => ⟨rfl, rfl, rfl, rfl⟩) ?_
  exact pays_clear35' w _ _ _ _ _ (Int.le_refl _)

theorem pays_afterRecv (w : Bool) (r : Ret) : Pays (pend w) (afterRecv r) (Knows .idle false false) (if w then 1 else 0) := by
  have last : Pays (pend w) (assign (fun s => { s with st := .msgReceived }) .done) (Knows .idle false false) (if w then 1 else 0) := by
    refine Pays.assign (lasts_knows _ _ _) (K' := Knows .msgReceived false false) (n' := 0) (fun _ => rfl) (fun s hk => ⟨rfl, hk.2⟩)
      (fun s hk => ?_) (Int.le_refl _)
    have := hk.1
    cases w <;> simp [pend, pend15, pend35, this]
  unfold afterRecv
  split
  · exact Pays.neutral' (fun s => ⟨rfl, rfl, rfl, rfl⟩) last
  · exact last

theorem pays_idle (w : Bool) (q : SProg) (hq : Pays (pend w) q (Knows .idle false false) (if w then 1 else 0)) :
    Pays (pend w) (test (fun s => s.t15 = .set) (assign (fun s => { s with t15 := .cleared }) q) .done) (Knows .idle false false) 0 := by
  refine Pays.test (K1 := Knows .idle true false) (K2 := Knows .idle false false) (lasts_knows _ _ _)
    (fun s hk ht => ⟨hk.1, fun _ => of_decide_eq_true ht, hk.2.2⟩) (fun s hk _ => hk) ?_ (Int.le_refl _)
  refine Pays.assign (lasts_knows _ _ _) (fun _ => rfl) (fun s hk => ⟨hk.1, (fun h => by cases h), hk.2.2⟩) (fun s hk => ?_) hq
  have h1 := hk.1
  have h2 := hk.2.1 rfl
  cases w <;> simp [pend, pend15, pend35, h1, h2]

theorem pays_transmitting (w : Bool) : Pays (pend w) slaveTransmittingP (Knows .transmitting false false) 0 := by
  unfold slaveTransmittingP
  refine Pays.test (K1 := Knows .transmitting false false) (K2 := Knows .transmitting false false) (lasts_knows _ _ _)
    (fun s hk _ => hk) (fun s hk _ => hk) ?_ (Int.le_refl _)
  refine pays_st w (by decide) _ _ _ _ ?_
  exact Pays.neutral (fun s s' => respLen0_same) (Pays.neutral (fun s s' => reqLen0_same) (show (0 : Int) ≤ 0 from Int.le_refl _))

theorem pays_default (w : Bool) : Pays (pend w) slaveDefaultP (Knows .unknown false false) 0 := by
  unfold slaveDefaultP
  refine pays_st w (by decide) _ _ _ _ ?_
  refine pays_clear15' w _ _ _ _ _ ?_
  refine pays_clear35' w _ _ _ _ _ ?_
  refine Pays.neutral' (fun s => ⟨rfl, rfl, rfl, rfl⟩) ?_
  refine Pays.neutral' (fun s => ⟨rfl, rfl, rfl, rfl⟩) ?_
  exact Pays.neutral (fun s s' => respLen0_same) (Pays.neutral (fun s s' => reqLen0_same) (show (0 : Int) ≤ 0 from Int.le_refl _))

theorem pays_recvF (w : Bool) :
    Pays (pend w)
      (.step free (fun s => if s.msgPtr = false ∨ s.dataSet = false then .error .nullDeref else .ok ((s.reqLen, s.id), s, []))
        fun x => (rtuRecvR x.1 x.2).toProg afterRecv) (Knows .idle false false) (if w then 1 else 0) := by
  refine ⟨lasts_knows _ _ _, fun s a s' o hk e => ?_⟩
  dsimp only at e
  split at e
  · cases e
  · cases e
    exact ⟨rfl, _, _, hk, by simp, Pays.toProg (lasts_knows _ _ _) (pays_afterRecv w) _⟩

theorem pays_recvP (w : Bool) :
    Pays (pend w)
      (.step free (fun s => if s.msgPtr then do let r ← rtuRecv s.reqData s.reqLen s.id; return (r, s, []) else .error .nullDeref) afterRecv)
      (Knows .idle false false) (if w then 1 else 0) := by
  refine ⟨lasts_knows _ _ _, fun s a s' o hk e => ?_⟩
  dsimp only at e
  split at e
  · obtain ⟨r, -, e⟩ := bind_ok e
    cases e
    exact ⟨rfl, _, _, hk, by simp, pays_afterRecv w _⟩
  · cases e

theorem pays_answerF (w : Bool) (cfg : Config) : Pays (pend w) (slaveAnswerF cfg) (Knows .msgReceived false true) 0 := by
  unfold slaveAnswerF slaveParseF
  refine ⟨lasts_knows _ _ _, fun s a s' o hk e => ?_⟩
  cases e
  refine ⟨rfl, Knows .msgReceived false true, 0, hk, by simp, ?_⟩
  split
  · exact pays_answerTail w
  · refine Pays.toProg (lasts_knows _ _ _) (fun r => ?_) _
    exact Pays.neutral' (fun s => ⟨rfl, rfl, rfl, rfl⟩) (pays_answerTail w)

theorem pays_answerP (w : Bool) (cfg : Config) : Pays (pend w) (slaveAnswerP cfg) (Knows .msgReceived false true) 0 :=
  Pays.neutral (fun s s' => slaveParse_same) (pays_answerTail w)

theorem pays_poll (w : Bool) (i m : SProg) (hi : Pays (pend w) i (Knows .idle false false) 0) (hm : Pays (pend w) m (Knows .msgReceived false false) 0)
    (k : SlaveSt → SProg) (h1 : k .idle = i) (h2 : k .msgReceived = m) (h3 : k .transmitting = slaveTransmittingP) (h4 : k .unknown = slaveDefaultP) :
    Pays (pend w) (.step free (fun s => .ok (s.st, s, [])) k) (fun _ => True) 0 := by
  refine ⟨fun _ _ _ => trivial, fun s a s' o _ e => ?_⟩
  cases e
  refine ⟨rfl, Knows s.st false false, 0, ⟨rfl, (fun h => by cases h), (fun h => by cases h)⟩, by simp, ?_⟩
  cases s.st with
  | idle => rw [h1]; exact hi
  | msgReceived => rw [h2]; exact hm
  | transmitting => rw [h3]; exact pays_transmitting w
  | unknown => rw [h4]; exact pays_default w

theorem pays_pollF (w : Bool) (cfg : Config) : Pays (pend w) (slavePollF cfg) (fun _ => True) 0 :=
  pays_poll w _ _ (pays_idle w _ (pays_recvF w)) (pays_received w _ (pays_answerF w cfg)) _ rfl rfl rfl rfl

theorem pays_pollP (w : Bool) (cfg : Config) : Pays (pend w) (slavePollP cfg) (fun _ => True) 0 :=
  pays_poll w _ _ (pays_idle w _ (pays_recvP w)) (pays_received w _ (pays_answerP w cfg)) _ rfl rfl rfl rfl

/-- The event `pend w` counts. -/
def pendEv (w : Bool) : SEv := if w then .t15 else .t35

theorem pend_after (w : Bool) (s : Slave) (l : List SEv) : pend w (slaveAfter s l) ≤ pend w s + (l.map (evW (pendEv w))).sum := by
  cases w
  · exact pend35_after s l
  · exact pend15_after s l

theorem fstep_pays (w : Bool) {cfg : Config} {s s' : Slave} {p : SPOp} {o : List SOut} (hs : s.subscribed = true)
    (h : slaveFStep cfg s p = .ok (s', o)) :
    o.length + pend w s' ≤ pend w s + p.events.count (pendEv w).op ∧ s'.subscribed = true := by
  have ev : ∀ e : SEv, slaveStep cfg s e.op = .ok (s', o) → o.length + pend w s' ≤ pend w s + [e.op].count (pendEv w).op ∧ s'.subscribed = true := by
    intro e he
    rw [slaveStep_int cfg s hs] at he
    simp only [Except.ok.injEq, Prod.mk.injEq] at he
    rw [← he.1, ← he.2]
    have := pend_after w s [e]
    have hc : [e.op].count (pendEv w).op = evW (pendEv w) e := by
      cases w <;> cases e <;> rfl
    simp only [List.map_cons, List.map_nil, List.sum_cons, List.sum_nil] at this
    exact ⟨by rw [hc]; simp only [List.length_nil]; omega, hs⟩
  have mem : ∀ m : AppMem, pend w { s with mem := m } = pend w s := fun m => pend_congr w ⟨rfl, rfl, rfl⟩
  cases p with
  | op o1 =>
    have h : slaveStep cfg s o1 = .ok (s', o) := h
    show o.length + pend w s' ≤ pend w s + [o1].count (pendEv w).op ∧ s'.subscribed = true
    cases o1 with
    | t15 => exact ev .t15 h
    | t35 => exact ev .t35 h
    | frameErr => exact ev .frameErr h
    | txDone => exact ev .txDone h
    | rxByte b => exact ev (.rxByte b) h
    | init mode id =>
      cases h
      refine ⟨?_, ?_⟩
      · cases w <;> simp [slaveInit, pend, pend15, pend35]
      · simp [slaveInit, hs]
    | poll =>
      have h : slavePoll cfg s = .ok (s', o) := h
      rw [← slave_uninterrupted] at h
      obtain ⟨h1, h2⟩ := Pays.run (pend_after w) _ (pays_pollP w cfg) hs trivial h
      simp only [List.flatten_nil, List.map_nil, List.sum_nil] at h1
      exact ⟨by omega, h2⟩
    | register tab adr q =>
      obtain ⟨m, -, h⟩ := bind_ok h
      cases h
      exact ⟨by rw [mem]; simp, hs⟩
    | appBool q v => cases h; exact ⟨by rw [mem]; simp, hs⟩
    | appReg q v => cases h; exact ⟨by rw [mem]; simp, hs⟩
  | pollWith ints =>
    have h : runProg (slaveInt cfg) (slavePollF cfg) ints s = .ok (s', o) := h
    obtain ⟨h1, h2⟩ := Pays.run (pend_after w) _ (pays_pollF w cfg) hs trivial h
    rw [evW_sum] at h1
    have hc : (SPOp.pollWith ints).events.count (pendEv w).op = ints.flatten.count (pendEv w) := by
      show (ints.flatten.map SEv.op).count (pendEv w).op = _
      generalize ints.flatten = l
      induction l with
      | nil => rfl
      | cons e l ih =>
        rw [List.map_cons, List.count_cons, List.count_cons, ih]
        congr 1
        cases w <;> cases e <;> rfl
    rw [hc]
    exact ⟨by omega, h2⟩

theorem frun_pays (w : Bool) {cfg : Config} : ∀ (pops : List SPOp) {s s' : Slave} {o : List SOut}, s.subscribed = true →
    slaveFRun cfg s pops = .ok (s', o) → o.length + pend w s' ≤ pend w s + (pops.flatMap SPOp.events).count (pendEv w).op
  | [], s, s', o, _, h => by cases h; simp
  | p :: pops, s, s', o, hs, h => by
    simp only [slaveFRun] at h
    obtain ⟨⟨s1, o1⟩, h1, h⟩ := bind_ok h
    obtain ⟨⟨s2, o2⟩, h2, h⟩ := bind_ok h
    simp only [pureOk, Except.ok.injEq, Prod.mk.injEq] at h
    obtain ⟨e1, e2⟩ := fstep_pays w hs h1
    have := frun_pays w pops e2 h2
    rw [← h.1, ← h.2, List.flatMap_cons, List.count_append, List.length_append]
    omega

/-- C81, unconditionally: whatever interrupts occur between the reads of the request buffer, and whatever arrives, the slave (as long as it
does not run into undefined behaviour) hands at most one answer to the driver per 1.5 character event and per 3.5 character event. -/
theorem C81_one_response_per_frame (cfg : Config) (s0 : Slave) (id : U8) (pops : List SPOp) (s : Slave) (o : List SOut)
    (h : slaveFRun cfg s0 (.op (.init .rtu id) :: pops) = .ok (s, o)) :
    o.length ≤ (pops.flatMap SPOp.events).count .t15 ∧ o.length ≤ (pops.flatMap SPOp.events).count .t35 := by
  simp only [slaveFRun] at h
  obtain ⟨⟨s1, o1⟩, h1, h⟩ := bind_ok h
  obtain ⟨⟨s2, o2⟩, h2, h⟩ := bind_ok h
  cases h1
  simp only [pureOk, Except.ok.injEq, Prod.mk.injEq] at h
  rw [← h.2, List.nil_append]
  have a := frun_pays true pops rfl h2
  have b := frun_pays false pops rfl h2
  have za : pend true (slaveInit s0 .rtu id) = 0 := rfl
  have zb : pend false (slaveInit s0 .rtu id) = 0 := rfl
  rw [za] at a
  rw [zb] at b
  have ea : (pendEv true).op = SOp.t15 := rfl
  have eb : (pendEv false).op = SOp.t35 := rfl
  rw [ea] at a
  rw [eb] at b
  exact ⟨by omega, by omega⟩

end Modbus
