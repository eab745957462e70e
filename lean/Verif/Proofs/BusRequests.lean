import Verif.Props.BusTimed
import Verif.Props.DeviceMasterTimed

/-! The requests of the master's application on the timed bus. -/

namespace Modbus

open Spec

/-! ### What a request frame determines -/

theorem Agree.symm {r r' : Request} (h : Agree r r') : Agree r' r := by
  cases h with
  | refl => exact .refl _
  | coils a q bc v w h => exact .coils a q bc w v fun i hi => (h i hi).symm
  | regs a q bc v w h => exact .regs a q bc w v fun i hi => (h i hi).symm

theorem word_inj {a b : U16} (h1 : (BitVec.ofNat 8 (a.toNat / 256) : U8) = BitVec.ofNat 8 (b.toNat / 256))
    (h2 : (BitVec.ofNat 8 a.toNat : U8) = BitVec.ofNat 8 b.toNat) : a = b := by
  have e := word_be a
  rw [h1, h2, word_be] at e
  exact BitVec.eq_of_toNat_eq e.symm

theorem same_frame {r r' : MReq} (h : reqFrame r = reqFrame r') (hq : QtyOk r) (hd : DataOk r) (hq' : QtyOk r') (hd' : DataOk r') :
    reqSlave r = reqSlave r' ∧ reqAdr r = reqAdr r' ∧ reqField r = reqField r' ∧
    (∀ l m, respond l m (asRequest r) = respond l m (asRequest r')) ∧ (∀ l m, effect l m (asRequest r) = effect l m (asRequest r')) ∧
    ∀ l m, outcome l m r = outcome l m r' := by
  have a1 := frameRequest_reqFrame r hq hd
  have a2 := frameRequest_reqFrame r' hq' hd'
  rw [← h] at a2
  have hb := h
  rw [reqFrame_bytes, reqFrame_bytes] at hb
  simp only [List.cons.injEq] at hb
  obtain ⟨b1, b2, b3, b4, b5, b6, -⟩ := hb
  have e1 := word_inj b3 b4
  have e2 := word_inj b5 b6
  have hex : ∀ l m, exceptionFor l m (asRequest r) = exceptionFor l m (asRequest r') := fun l m => by
    rw [← a1.exception, ← a2.exception]
  refine ⟨b1, e1, e2, fun l m => by rw [← a1.respond, ← a2.respond], fun l m => by rw [← a1.effect, ← a2.effect], fun l m => ?_⟩
  have hx : ∀ c, exceptionEvent r (reqSlave r) (reqFc r) c = exceptionEvent r' (reqSlave r') (reqFc r') c := by
    intro c
    unfold exceptionEvent
    rw [b1, b2, e1, e2]
  unfold outcome
  rw [hex l m]
  cases exceptionFor l m (asRequest r') with
  | some c => exact hx c
  | none =>
    cases r <;> cases r' <;> simp only [reqFc, reqSlave, reqAdr, reqField] at b1 b2 e1 e2 <;> first
      | (exact absurd b2 (by decide))
      | (subst b1 e1 e2; rfl)
      | (subst b1 e1; rfl)

theorem outcome_ne_nil {l : Limits} {m : AppMem} {r : MReq} (hq : QtyOk r) : outcome l m r ≠ [] := by
  unfold outcome
  cases exceptionFor l m (asRequest r) with
  | some c => cases r <;> simp [exceptionEvent, reqFc]
  | none =>
    cases r <;> simp only [QtyOk] at hq <;> simp <;> omega

theorem outcome_reports {l : Limits} {m : AppMem} {r : MReq} : ∀ e ∈ outcome l m r, isErrorReport e = false := by
  unfold outcome
  cases exceptionFor l m (asRequest r) with
  | some c => cases r <;> simp [exceptionEvent, reqFc, isErrorReport]
  | none =>
    cases r <;> simp [isErrorReport] <;> (intros; subst_vars; rfl)

/-! ### The bookkeeping of a device -/

section
variable {cfg : Config} {x : MDeviceTimed}

theorem run_irq_ghost (hw : cfg.MWF) (ops : List MOp) : ∀ {s s' : Master} {g : Ghost} {tr : MTrace}, (∀ p ∈ ops, p.isMain = false) →
    MInv cfg s g → masterRun cfg s ops = .ok (s', tr) → MInv cfg s' g := by
  induction ops with
  | nil => intro s s' g tr _ hi h; cases h; exact hi
  | cons op ops ih =>
    intro s s' g tr ho hi h
    obtain ⟨s1, o, t2, k1, k2, -⟩ := run_cons_inv h
    have hop := ho op List.mem_cons_self
    rcases masterStep_inv hw hi op (by rintro m rfl; cases hop) (by rintro r rfl; cases hop) with ⟨s2, o2, g2, j1, j2, j3⟩ | ⟨rfl, -⟩
    · rw [k1] at j1; cases j1
      refine ih (fun p hp => ho p (List.mem_cons_of_mem _ hp)) ?_ k2
      cases j3 with
      | silent => exact j2
      | _ => cases hop
    · cases hop

/-- What a step of the device is to its library's bookkeeping. -/
structure DevGhost (cfg : Config) (x : MDeviceTimed) (n : Nat) (g g' : Ghost) : Prop where
  main : ∀ op, x.op n = .main op → GStep cfg g op (libOuts (x.out n)) g' ∧ masterStep cfg (x.st n).lib op = .ok ((x.st (n + 1)).lib, libOuts (x.out n))
  other : (∀ op, x.op n ≠ .main op) → g' = g ∧ libOuts (x.out n) = []

theorem Spec.MDeviceTimed.Exec.ghost_step (hw : cfg.MWF) (hx : x.Exec cfg) {n : Nat} {g : Ghost} (hi : MInv cfg (x.st n).lib g) (hg : g.Sound) :
    ∃ g', MInv cfg (x.st (n + 1)).lib g' ∧ g'.Sound ∧ DevGhost cfg x n g g' := by
  have hst := hx.step n
  have hle := hx.legal n
  have irq : (∀ op, x.op n ≠ .main op) → (∀ p ∈ evOps (x.st n) (x.op n), p.isMain = false) → ∃ g', MInv cfg (x.st (n + 1)).lib g' ∧ g'.Sound ∧ DevGhost cfg x n g g' := by
    intro h h2
    have hr := evTrace_run hle.proper hst
    refine ⟨g, run_irq_ghost hw _ h2 hi hr, hg, fun op ho => absurd ho (h op), fun _ => ⟨rfl, ?_⟩⟩
    have := not_main_out hx h
    unfold libOuts
    rw [List.filterMap_eq_nil_iff]
    intro o ho
    cases o with
    | lib z => exact absurd ho (this z)
    | tdr b => rfl
  cases hop : x.op n with
  | rto => exact irq (by rw [hop]; simp) (by rw [hop]; intro p hp; cases hp)
  | timer => exact irq (by rw [hop]; simp) (by rw [hop]; intro p hp; simp only [evOps, List.mem_singleton] at hp; subst hp; rfl)
  | usart rx t => exact irq (by rw [hop]; simp) (by rw [hop]; intro p hp; exact (evOps_usart hp).1)
  | main op =>
    rw [hop] at hst hle
    have hm : op.isMain = true := hle.proper
    have hi2 : ∀ m, op ≠ .init m := by rintro m rfl; exact hle
    have hd : ∀ r, op = .request r → QtyOk r → DataOk r := by
      rintro r rfl
      exact hx.main n _ hop
    simp only [masterSysStep, show ¬ (op.isMain = false) by rw [hm]; decide] at hst
    obtain ⟨⟨l, o1⟩, k1, k2⟩ := bind_ok hst
    obtain ⟨e1, e2⟩ := masterSends_lib k2
    have e1 : libOuts (x.out n) = o1 := e1
    have e2 : (x.st (n + 1)).lib = l := e2
    rcases masterStep_inv hw hi op hi2 hd with ⟨s2, o2, g2, j1, j2, j3⟩ | ⟨-, j1, -⟩
    · rw [k1] at j1; cases j1
      refine ⟨g2, by rw [e2]; exact j2, j3.sound hg hd, fun op' ho => ?_, fun h => absurd hop (h op)⟩
      rw [hop] at ho; cases ho
      rw [e1, e2]
      exact ⟨j3, k1⟩
    · rw [k1] at j1; cases j1

theorem Spec.MDeviceTimed.Exec.ghosts (hw : cfg.MWF) (hx : x.Exec cfg) : ∃ g : Nat → Ghost, g 0 = Ghost.fresh cfg ∧
    ∀ n, MInv cfg (x.st n).lib (g n) ∧ (g n).Sound ∧ DevGhost cfg x n (g n) (g (n + 1)) := by
  classical
  have h0 : MInv cfg (x.st 0).lib (Ghost.fresh cfg) ∧ (Ghost.fresh cfg).Sound := by
    have h0 := libTrace_init hx.init
    obtain ⟨l, h1, h2⟩ := masterInit_inv hw MasterSys.powerOn.lib
    simp only [masterStep] at h0
    rw [h1] at h0
    simp only [ok_bind, pure_eq, Except.ok.injEq, Prod.mk.injEq] at h0
    rw [← h0.1]
    exact ⟨h2, ⟨(fun r hr => nomatch hr), (fun i r c h => nomatch h)⟩⟩
  let next : (n : Nat) → { g : Ghost // MInv cfg (x.st n).lib g ∧ g.Sound } → { g : Ghost // MInv cfg (x.st (n + 1)).lib g ∧ g.Sound } :=
    fun n g => ⟨Classical.choose (hx.ghost_step hw g.2.1 g.2.2), (Classical.choose_spec (hx.ghost_step hw g.2.1 g.2.2)).1,
      (Classical.choose_spec (hx.ghost_step hw g.2.1 g.2.2)).2.1⟩
  let gs : (n : Nat) → { g : Ghost // MInv cfg (x.st n).lib g ∧ g.Sound } := fun n => Nat.rec ⟨_, h0⟩ next n
  refine ⟨fun n => (gs n).1, rfl, fun n => ⟨(gs n).2.1, (gs n).2.2, ?_⟩⟩
  exact (Classical.choose_spec (hx.ghost_step hw (gs n).2.1 (gs n).2.2)).2.2

end

/-! ### Requests and rounds -/

section
variable {cfgM cfgS : Config} {id : U8} {τ : BusTimes} {x : MDeviceTimed} {y : DeviceTimed} {P : Nat → Nat} {g : Nat → Ghost}

/-- What every transmission leads to. -/
def Each (cfgM cfgS : Config) (id : U8) (τ : BusTimes) (x : MDeviceTimed) (y : DeviceTimed) (P : Nat → Nat) : Prop :=
  ∀ a, x.Sends a → ∃ r b, x.out a = [.lib (.send (reqFrame r)), .tdr b] ∧ QtyOk r ∧ DataOk r ∧
    (reqSlave r = id → ExecutedAt cfgS.limits id x y a (P a) r ∧ ∃ v, ReportedAt x a v (outcome cfgS.limits (y.st (P a)).lib.mem r) ∧
      y.time (P a) ≤ x.time v ∧ x.time v ≤ x.time a + τ.round) ∧
    (reqSlave r ≠ id → ∃ v fc, ReportedAt x a v [.timeoutErr ⟨reqSlave r, fc, reqAdr r, reqField r, .timeout⟩] ∧
      x.time v ≤ x.time a + 256 * τ.e + 2 * τ.Pm + (cfgM.respTimeout - 1) * τ.D)

/-- The entry a transmission leads to. -/
theorem Each.entry (h : Each cfgM cfgS id τ x y P) {a : Nat} {r : MReq} {b : U8} (ho : x.out a = [.lib (.send (reqFrame r)), .tdr b]) (hq : QtyOk r)
    (hd : DataOk r) : ∃ v evs, evs ≠ [] ∧ BusTx.Ok cfgS.limits id x y P ⟨a, v, ⟨r, 1, evs⟩⟩ ∧ x.time v ≤ x.time a + τ.most cfgM.respTimeout := by
  obtain ⟨r', b', h1, h2, h3, h4, h5⟩ := h a ⟨_, by rw [ho]; exact List.mem_cons_self ..⟩
  rw [ho] at h1
  simp only [List.cons.injEq, HMOut.lib.injEq, MOut.send.injEq, HMOut.tdr.injEq, and_true] at h1
  obtain ⟨e1, e2, e3, e4, e5, e6⟩ := same_frame h1.1 hq hd h2 h3
  unfold BusTimes.most
  by_cases hr : reqSlave r = id
  · obtain ⟨E, v, R, t1, t2⟩ := h4 (by rw [← e1]; exact hr)
    refine ⟨v, outcome cfgS.limits (y.st (P a)).lib.mem r, outcome_ne_nil hq, ⟨⟨b, ho⟩, rfl, ?_, fun _ => ⟨?_, t1, rfl⟩, fun h => absurd hr h⟩, by omega⟩
    · rw [e6]; exact R
    · refine ⟨E.poll, E.later, ?_, ?_⟩
      · show _ = effect _ _ (asRequest r)
        rw [e5]; exact E.effect
      · show ∃ b, y.out (P a) = [.send (rtuFrame id (encodeResponse (respond _ _ (asRequest r)))), .tdr b]
        rw [e4]; exact E.response
  · obtain ⟨v, fc, R, t⟩ := h5 (by rw [← e1]; exact hr)
    refine ⟨v, _, by simp, ⟨⟨b, ho⟩, rfl, R, fun h => absurd h hr, fun _ => ⟨fc, ?_⟩⟩, by omega⟩
    rw [e1, e2, e3]

/-- What the transmissions lead to: each to an outcome that is fine (`Ok`), reported at most `M` later. -/
structure Outcomes (x : MDeviceTimed) (Ok : BusTx → Prop) (M : Nat) : Prop where
  entry : ∀ {a : Nat} {r : MReq} {b : U8}, x.out a = [.lib (.send (reqFrame r)), .tdr b] → QtyOk r → DataOk r →
    ∃ v evs, evs ≠ [] ∧ Ok ⟨a, v, ⟨r, 1, evs⟩⟩ ∧ x.time v ≤ x.time a + M
  reported : ∀ d, Ok d → ReportedAt x d.start d.stop d.tx.evs
  tx : ∀ d, Ok d → d.tx.Ok 0

variable {Ok : BusTx → Prop} {M : Nat}

/-- Where the requests are at event `n`. -/
structure BusInv (Ok : BusTx → Prop) (x : MDeviceTimed) (n : Nat) (g : Ghost) (done : List BusTx) : Prop where
  order : accepted (mainTrace (x.trace n)) = (done.map BusTx.tx).map Tx.req ++ ((g.cur.map fun c => (c.2.1, c.2.2)).map Prod.fst).toList ++ g.pend
  output : outs (mainTrace (x.trace n)) = (done.map BusTx.tx).flatMap Tx.outs ++ curOuts (g.cur.map fun c => (c.2.1, c.2.2))
  ok : ∀ d ∈ done, d.stop < n ∧ Ok d
  sorted : done.Pairwise fun d d' => d.stop < d'.start
  cur : ∀ i r c, g.cur = some (i, r, c) → c = 1 ∧ ∃ a b, a < n ∧ x.out a = [.lib (.send (reqFrame r)), .tdr b] ∧ (∀ k, a < k → k < n → x.Silent k) ∧
    ∀ d ∈ done, d.stop < a
  qty : ∀ d ∈ done, QtyOk d.tx.req
  starts : ∀ a, a < n → x.Sends a → (∃ d ∈ done, d.start = a) ∨ (g.cur ≠ none ∧ ∀ k, a < k → k < n → x.Silent k)

theorem outs_silent {op : MOp} {k : Nat} (h : outs [(op, libOuts (x.out k))] = []) : x.Silent k := by
  intro o ho
  have hm : o ∈ libOuts (x.out k) := List.mem_filterMap.2 ⟨_, ho, rfl⟩
  cases hi : isOut o with
  | false => rfl
  | true =>
    have : o ∈ outs [(op, libOuts (x.out k))] := List.mem_filter.2 ⟨by simpa using hm, hi⟩
    rw [h] at this; cases this

theorem libOuts_nil_silent {k : Nat} (h : libOuts (x.out k) = []) : x.Silent k := by
  intro o ho
  have hm : o ∈ libOuts (x.out k) := List.mem_filterMap.2 ⟨_, ho, rfl⟩
  rw [h] at hm; cases hm

theorem reported_loud {a v : Nat} {evs : List MEvent} (h : ReportedAt x a v evs) (hn : evs ≠ []) : ¬ x.Silent v := by
  intro hs
  cases evs with
  | nil => exact hn rfl
  | cons e es => exact absurd (hs (.event e) (by rw [h.callbacks]; simp)) (by simp [isOut])

theorem reported_lib {a v : Nat} {evs : List MEvent} (h : ReportedAt x a v evs) : libOuts (x.out v) = evs.map .event := by
  rw [h.callbacks]
  clear h
  unfold libOuts
  induction evs with
  | nil => rfl
  | cons e es ih => simpa using ih

/-- Callbacks end a transaction. -/
theorem reported_finish {a v : Nat} {evs : List MEvent} (h : ReportedAt x a v evs) (hn : evs ≠ []) {g g' : Ghost} (D : DevGhost cfgM x v g g') :
    (∃ i r c, g.cur = some (i, r, c)) ∧ g'.cur = none := by
  have hG := (D.main _ h.poll).1
  rw [reported_lib h] at hG
  generalize ho : evs.map MOut.event = o at hG
  generalize hop : MOp.poll = op at hG
  cases evs with
  | nil => exact absurd rfl hn
  | cons e es =>
    cases hG with
    | finish r i c evs' hc hf => exact ⟨⟨i, r, c, hc⟩, rfl⟩
    | _ => simp at ho

/-- No transaction is started without a transmission. -/
theorem none_kept {n : Nat} {g g' : Ghost} (D : DevGhost cfgM x n g g') (h : g.cur = none) (hs : ¬ x.Sends n) : g'.cur = none := by
  cases hop : x.op n with
  | main op =>
    have hG := (D.main _ hop).1
    have key : ∀ f, libOuts (x.out n) ≠ [.send f] := by
      intro f hf
      have : MOut.send f ∈ libOuts (x.out n) := by rw [hf]; exact List.mem_cons_self ..
      obtain ⟨o, ho, he⟩ := List.mem_filterMap.1 this
      cases o with
      | lib z => cases he; exact hs ⟨f, ho⟩
      | tdr b => cases he
    generalize libOuts (x.out n) = o at hG key
    cases hG with
    | accept => exact h
    | full => exact h
    | refuse => exact h
    | start r => exact absurd rfl (key _)
    | again r => exact absurd rfl (key _)
    | finish => rfl
    | silent => exact h
  | rto => rw [(D.other (by rw [hop]; simp)).1]; exact h
  | timer => rw [(D.other (by rw [hop]; simp)).1]; exact h
  | usart rx t => rw [(D.other (by rw [hop]; simp)).1]; exact h

theorem none_until {m v : Nat} (hg : ∀ n, DevGhost cfgM x n (g n) (g (n + 1))) (h : (g m).cur = none) (hmv : m ≤ v)
    (hs : ∀ k, m ≤ k → k < v → ¬ x.Sends k) : (g v).cur = none := by
  induction hmv with
  | refl => exact h
  | step hle ih =>
    refine none_kept (hg _) (ih fun k k1 k2 => hs k k1 (by omega)) (hs _ hle (by omega))

theorem mainTrace_step (n : Nat) : (∀ op, x.op n = .main op → mainTrace (x.trace (n + 1)) = mainTrace (x.trace n) ++ [(op, libOuts (x.out n))]) ∧
    ((∀ op, x.op n ≠ .main op) → mainTrace (x.trace (n + 1)) = mainTrace (x.trace n)) := by
  rw [x.trace_succ, mainTrace_append]
  constructor
  · intro op ho
    simp [mainTrace, ho]
  · intro h
    cases hop : x.op n with
    | main op => exact absurd hop (h op)
    | _ => simp [mainTrace]

theorem accepted_append' (a b : MTrace) : accepted (a ++ b) = accepted a ++ accepted b := List.filterMap_append ..

theorem outs_append' (a b : MTrace) : outs (a ++ b) = outs a ++ outs b := by
  unfold outs
  rw [List.flatMap_append, List.filter_append]

theorem outs_events (op : MOp) (evs : List MEvent) : outs [(op, evs.map .event)] = evs.map .event := by
  unfold outs
  rw [List.filter_eq_self.2]
  · simp
  · intro o ho
    simp only [List.flatMap_cons, List.flatMap_nil, List.append_nil, List.mem_map] at ho
    obtain ⟨e, -, rfl⟩ := ho
    rfl

theorem bus_inv_zero (h0 : g 0 = Ghost.fresh cfgM) : BusInv Ok x 0 (g 0) [] := by
  refine ⟨?_, ?_, (fun d hd => nomatch hd), .nil, (fun i r c h => ?_), (fun d hd => nomatch hd), fun a ha => absurd ha (Nat.not_lt_zero a)⟩
  · rw [h0]; rfl
  · rw [h0]; rfl
  · rw [h0] at h; cases h

theorem bus_inv_step (hE : Outcomes x Ok M) (hx : x.Exec cfgM) (hw : cfgM.MWF)
    (hg : ∀ n, MInv cfgM (x.st n).lib (g n) ∧ (g n).Sound ∧ DevGhost cfgM x n (g n) (g (n + 1)))
    {n : Nat} {done : List BusTx} (I : BusInv Ok x n (g n) done) : ∃ done', done <+: done' ∧ BusInv Ok x (n + 1) (g (n + 1)) done' := by
    obtain ⟨hm, hso, D⟩ := hg n
    have keep : x.Silent n → (g (n + 1)).cur = (g n).cur →
        (accepted (mainTrace (x.trace (n + 1))) = (done.map BusTx.tx).map Tx.req ++ (((g (n + 1)).cur.map fun c => (c.2.1, c.2.2)).map Prod.fst).toList ++
          (g (n + 1)).pend) → outs (mainTrace (x.trace (n + 1))) = outs (mainTrace (x.trace n)) →
          ∃ done', done <+: done' ∧ BusInv Ok x (n + 1) (g (n + 1)) done' := by
      intro h1 h2 h3 h4
      have sil : ∀ {a}, (∀ k, a < k → k < n → x.Silent k) → ∀ k, a < k → k < n + 1 → x.Silent k := by
        intro a i3 k k1 k2
        by_cases hk : k = n
        · subst hk; exact h1
        · exact i3 k k1 (by omega)
      refine ⟨done, List.prefix_refl _, h3, by rw [h4, h2]; exact I.output, fun d hd => ⟨by have := (I.ok d hd).1; omega, (I.ok d hd).2⟩, I.sorted,
        (fun i r c h => ?_), I.qty, fun a ha hs => ?_⟩
      · rw [h2] at h
        obtain ⟨hc, a, b, i1, i2, i3, i4⟩ := I.cur i r c h
        exact ⟨hc, a, b, by omega, i2, sil i3, i4⟩
      · have han : a < n := by
          rcases Nat.lt_succ_iff_lt_or_eq.1 ha with h | h
          · exact h
          · subst h; exact absurd h1 (fun h => send_loud hs h)
        rcases I.starts a han hs with h | ⟨h, h'⟩
        · exact .inl h
        · exact .inr ⟨by rw [h2]; exact h, sil h'⟩
    cases hop : x.op n with
    | main op =>
      have hG := (D.main _ hop).1
      have hT := (mainTrace_step (x := x) n).1 op hop
      generalize hlo : libOuts (x.out n) = o at hG hT
      generalize hg' : g (n + 1) = g' at hG
      have hio := I.order
      cases hG with
      | accept r i fl h hq =>
        have hsil := outs_silent (x := x) (k := n) (op := .request r) (by rw [hlo]; rfl)
        refine hg' ▸ keep hsil (by rw [hg']) ?_ ?_
        · rw [hT, accepted_append', hio, hg']
          simp [accepted]
        · rw [hT, outs_append']; simp [outs, isOut]
      | full r h =>
        have hsil := outs_silent (x := x) (k := n) (op := .request r) (by rw [hlo]; rfl)
        refine hg' ▸ keep hsil (by rw [hg']) ?_ ?_
        · rw [hT, accepted_append', hio, hg']
          simp [accepted]
        · rw [hT, outs_append']; simp [outs, isOut]
      | refuse r i fl h hq =>
        have hsil := outs_silent (x := x) (k := n) (op := .request r) (by rw [hlo]; rfl)
        refine hg' ▸ keep hsil (by rw [hg']) ?_ ?_
        · rw [hT, accepted_append', hio, hg']
          simp [accepted]
        · rw [hT, outs_append']; simp [outs, isOut]
      | silent _ h =>
        have hsil := libOuts_nil_silent (x := x) (k := n) hlo
        refine hg' ▸ keep hsil (by rw [hg']) ?_ ?_
        · rw [hT, accepted_append', hio, hg']
          cases op <;> simp [accepted]
        · rw [hT, outs_append']; simp [outs]
      | start r i tl rest hc ht hp =>
        have hs : x.Sends n := by
          have : MOut.send (reqFrame r) ∈ libOuts (x.out n) := by rw [hlo]; exact List.mem_cons_self ..
          obtain ⟨o, ho, he⟩ := List.mem_filterMap.1 this
          cases o with
          | lib z => cases he; exact ⟨_, ho⟩
          | tdr b => cases he
        obtain ⟨r', F⟩ := hx.sends hw hs
        obtain ⟨b, hb⟩ := F.out
        have hbr : x.out n = [.lib (.send (reqFrame r)), .tdr b] := by
          rw [hb] at hlo
          simp only [libOuts, List.filterMap_cons, List.filterMap_nil, List.cons.injEq, MOut.send.injEq, and_true] at hlo
          rw [hb, hlo]
        refine ⟨done, List.prefix_refl _, ?_, ?_, fun d hd => ⟨by have := (I.ok d hd).1; omega, (I.ok d hd).2⟩, I.sorted, (fun i' r'' c h => ?_), I.qty,
          fun a ha hsa => ?_⟩
        · rw [hT, accepted_append', hio, hc, hp]
          simp [accepted]
        · rw [hT, outs_append', I.output, hc]
          simp [outs, isOut, curOuts]
        · cases h
          exact ⟨rfl, n, b, by omega, hbr, fun k k1 k2 => by omega, fun d hd => (I.ok d hd).1⟩
        · rcases Nat.lt_succ_iff_lt_or_eq.1 ha with h | h
          · rcases I.starts a h hsa with h | ⟨h, -⟩
            · exact .inl h
            · exact absurd hc h
          · exact .inr ⟨by simp, fun k k1 k2 => by omega⟩
      | again r i c hc hle =>
        exfalso
        obtain ⟨-, a, b, i1, i2, i3, i4⟩ := I.cur i r c hc
        obtain ⟨hq, hd⟩ := hso.2 i r c hc
        obtain ⟨v, evs, hne, hok, -⟩ := hE.entry i2 hq hd
        have hR : ReportedAt x a v evs := hE.reported _ hok
        have hav := hR.after
        have hs : ¬ x.Silent n := by
          intro h
          have hl : MOut.send (reqFrame r) ∈ libOuts (x.out n) := by rw [hlo]; exact List.mem_cons_self ..
          obtain ⟨o, ho, he⟩ := List.mem_filterMap.1 hl
          cases o with
          | lib z => cases he; exact absurd (h _ ho) (by simp [isOut])
          | tdr b => cases he
        rcases Nat.lt_trichotomy v n with h | h | h
        · exact reported_loud hR hne (i3 v hav h)
        · subst h
          rw [reported_lib hR] at hlo
          cases evs with
          | nil => exact hne rfl
          | cons e es => simp at hlo
        · exact hs (hR.between n i1 h)
      | finish r i c evs' hc hf =>
        obtain ⟨hc1, a, b, i1, i2, i3, i4⟩ := I.cur i r c hc
        subst hc1
        obtain ⟨hq, hd⟩ := hso.2 i r 1 hc
        obtain ⟨v, evs, hne, hok, -⟩ := hE.entry i2 hq hd
        have hR : ReportedAt x a v evs := hE.reported _ hok
        have hav := hR.after
        rcases Nat.lt_trichotomy v n with h | h | h
        · exact absurd (i3 v hav h) (reported_loud hR hne)
        · subst h
          rw [reported_lib hR] at hlo
          have hev : evs = evs' := by
            refine List.map_inj_right (f := MOut.event) (fun a b h => by injection h) |>.1 hlo
          subst hev
          refine ⟨done ++ [⟨a, v, ⟨r, 1, evs⟩⟩], List.prefix_append .., ?_, ?_, ?_, ?_, (fun i' r' c' h => by cases h), ?_, fun a' ha' hsa => ?_⟩
          · rw [hT, accepted_append', hio, hc]
            have : accepted [(MOp.poll, evs.map MOut.event)] = [] := by simp [accepted]
            rw [this]
            simp
          · rw [hT, outs_append', outs_events, I.output, hc]
            simp [curOuts, Tx.outs]
          · intro d hd'
            rcases List.mem_append.1 hd' with h | h
            · exact ⟨by have := (I.ok d h).1; omega, (I.ok d h).2⟩
            · obtain rfl := List.mem_singleton.1 h
              exact ⟨Nat.lt_succ_self _, hok⟩
          · rw [List.pairwise_append]
            refine ⟨I.sorted, List.pairwise_singleton .., fun d hd' d' h => ?_⟩
            obtain rfl := List.mem_singleton.1 h
            exact i4 d hd'
          · intro d hd'
            rcases List.mem_append.1 hd' with h | h
            · exact I.qty d h
            · obtain rfl := List.mem_singleton.1 h
              exact hq
          · have hav' : a' < v := by
              rcases Nat.lt_succ_iff_lt_or_eq.1 ha' with h | h
              · exact h
              · subst h
                obtain ⟨f, hf⟩ := hsa
                rw [hR.callbacks] at hf
                simp at hf
            rcases I.starts a' hav' hsa with ⟨d, h, h'⟩ | ⟨-, h⟩
            · exact .inl ⟨d, List.mem_append_left _ h, h'⟩
            · refine .inl ⟨_, List.mem_append_right _ (List.mem_singleton.2 rfl), ?_⟩
              show a = a'
              have hsa0 : x.Sends a := ⟨_, by rw [i2]; exact List.mem_cons_self ..⟩
              rcases Nat.lt_trichotomy a a' with k | k | k
              · exact absurd (i3 a' k hav') (fun z => send_loud hsa z)
              · exact k
              · exact absurd (h a k i1) (fun z => send_loud hsa0 z)
        · exfalso
          have hcn : (g (n + 1)).cur = none := by rw [hg']
          have := none_until (fun k => (hg k).2.2) hcn (show n + 1 ≤ v by omega) (fun k k1 k2 hs => by
            exact send_loud hs (hR.between k (by omega) k2))
          obtain ⟨⟨i', r', c', h'⟩, -⟩ := reported_finish hR hne (hg v).2.2
          rw [this] at h'; cases h'
    | _ =>
      obtain ⟨e1, e2⟩ := D.other (by rw [hop]; simp)
      have hT := (mainTrace_step (x := x) n).2 (by rw [hop]; simp)
      refine keep (libOuts_nil_silent e2) (by rw [e1]) (by rw [hT, I.order, e1]) (by rw [hT])

/-- The finished requests at all events: a list that grows. -/
theorem bus_inv_seq (hE : Outcomes x Ok M) (hx : x.Exec cfgM) (hw : cfgM.MWF) (h0 : g 0 = Ghost.fresh cfgM)
    (hg : ∀ n, MInv cfgM (x.st n).lib (g n) ∧ (g n).Sound ∧ DevGhost cfgM x n (g n) (g (n + 1))) :
    ∃ D : Nat → List BusTx, (∀ n, D n <+: D (n + 1)) ∧ ∀ n, BusInv Ok x n (g n) (D n) := by
  classical
  let next : (n : Nat) → { d : List BusTx // BusInv Ok x n (g n) d } → { d : List BusTx // BusInv Ok x (n + 1) (g (n + 1)) d } :=
    fun n d => ⟨Classical.choose (bus_inv_step hE hx hw hg d.2), (Classical.choose_spec (bus_inv_step hE hx hw hg d.2)).2⟩
  let ds : (n : Nat) → { d : List BusTx // BusInv Ok x n (g n) d } := fun n => Nat.rec ⟨[], bus_inv_zero h0⟩ next n
  exact ⟨fun n => (ds n).1, fun n => (Classical.choose_spec (bus_inv_step hE hx hw hg (ds n).2)).1, fun n => (ds n).2⟩

theorem bus_inv (hE : Outcomes x Ok M) (hx : x.Exec cfgM) (hw : cfgM.MWF) (h0 : g 0 = Ghost.fresh cfgM) (hg : ∀ n, MInv cfgM (x.st n).lib (g n) ∧ (g n).Sound ∧ DevGhost cfgM x n (g n) (g (n + 1)))
    (n : Nat) : ∃ done, BusInv Ok x n (g n) done := by
  obtain ⟨D, -, h⟩ := bus_inv_seq hE hx hw h0 hg
  exact ⟨_, h n⟩

theorem Spec.MDeviceTimed.accepted_mono (x : MDeviceTimed) {m n : Nat} (h : m ≤ n) : accepted (mainTrace (x.trace m)) <+: accepted (mainTrace (x.trace n)) := by
  rw [x.trace_split h, mainTrace_append, accepted_append']
  exact List.prefix_append ..

theorem BusInv.count {n : Nat} {g : Ghost} {done : List BusTx} (I : BusInv Ok x n g done) :
    done.length + g.open' = (accepted (mainTrace (x.trace n))).length := by
  rw [I.order]
  unfold Ghost.open' Ghost.curIdx
  cases g.cur <;> simp <;> omega

/-- The bookkeeping makes transactions. -/
theorem BusInv.transactions (hE : Outcomes x Ok M) {q : Nat} {g : Ghost} (hg : g.Sound) {done : List BusTx} (I : BusInv Ok x q g done) :
    Transactions 0 (mainTrace (x.trace q)) (done.map BusTx.tx) (g.cur.map fun c => (c.2.1, c.2.2)) g.pend := by
  refine ⟨I.order, I.output, ?_, ?_, ?_⟩
  · intro t ht
    obtain ⟨d, hd, rfl⟩ := List.mem_map.1 ht
    exact hE.tx d (I.ok d hd).2
  · intro r c h
    cases hcur : g.cur with
    | none => rw [hcur] at h; cases h
    | some cu =>
      obtain ⟨i, r', c'⟩ := cu
      rw [hcur] at h
      obtain ⟨hc1, -⟩ := I.cur i r' c' hcur
      simp only [Option.map_some, Option.some.injEq, Prod.mk.injEq] at h
      omega
  · intro r hr
    rw [I.order] at hr
    rcases List.mem_append.1 hr with hr | hr
    · rcases List.mem_append.1 hr with hr | hr
      · obtain ⟨t, ht, rfl⟩ := List.mem_map.1 hr
        obtain ⟨d, hd, rfl⟩ := List.mem_map.1 ht
        exact I.qty d hd
      · cases hcur : g.cur with
        | none => rw [hcur] at hr; cases hr
        | some cu =>
          obtain ⟨i, r', c'⟩ := cu
          rw [hcur] at hr
          simp only [Option.map_some, Option.toList_some, List.mem_singleton] at hr
          rw [hr]
          exact (hg.2 i r' c' hcur).1
    · exact (hg.1 r hr).1

/-- Every request is finished in time, with an outcome that is fine. -/
theorem every_request_seq (hw : cfgM.MWF) (hx : x.Exec cfgM) (hE : Outcomes x Ok M) {Pm : Nat} (g0 : g 0 = Ghost.fresh cfgM)
    (hg : ∀ n, MInv cfgM (x.st n).lib (g n) ∧ (g n).Sound ∧ DevGhost cfgM x n (g n) (g (n + 1))) {D : Nat → List BusTx} (hD : ∀ n, BusInv Ok x n (g n) (D n))
    (hp : ∀ n, ∃ m, n < m ∧ x.op m = .main .poll ∧ x.time m ≤ x.time n + Pm) (n : Nat) :
    ∃ m, n ≤ m ∧ x.time m ≤ x.time n + cfgM.queueItems * (M + Pm) ∧
      ∀ q, m < q → accepted (mainTrace (x.trace n)) <+: (D q).map (fun d => d.tx.req) := by
  have hI : ∀ n, ∃ done, BusInv Ok x n (g n) done := fun n => ⟨_, hD n⟩
  -- finished requests
  let F : Nat → Nat := fun n => Nat.rec 0 (fun n f => f + if (g n).cur ≠ none ∧ (g (n + 1)).cur = none then 1 else 0) n
  have hF : ∀ n, F (n + 1) = F n + if (g n).cur ≠ none ∧ (g (n + 1)).cur = none then 1 else 0 := fun n => rfl
  have hacc : ∀ n, (accepted (mainTrace (x.trace n))).length = F n + (g n).open' := by
    intro n
    induction n with
    | zero => rw [g0]; rfl
    | succ n ih =>
      rw [hF]
      by_cases hop : ∃ op, x.op n = .main op
      · obtain ⟨op, hop⟩ := hop
        have := gstep_count ((hg n).2.2.main op hop).1
        rw [(mainTrace_step (x := x) n).1 op hop, accepted_snoc]
        omega
      · have hop : ∀ op, x.op n ≠ .main op := fun op h => hop ⟨op, h⟩
        rw [(mainTrace_step (x := x) n).2 hop, ((hg n).2.2.other hop).1, if_neg (by rintro ⟨h1, h2⟩; exact h1 h2)]
        exact ih
  have hlen : ∀ {n done}, BusInv Ok x n (g n) done → done.length = F n := by
    intro n done I
    have h1 := I.count
    have h2 := hacc n
    omega
  have hFm : ∀ {a b}, a ≤ b → F a ≤ F b := by
    intro a b h
    induction h with
    | refl => exact Nat.le_refl _
    | step _ ih => exact Nat.le_trans ih (by rw [hF]; omega)
  -- a running transaction is finished in time
  have busy : ∀ {n}, (g n).cur ≠ none → ∃ v, n ≤ v ∧ x.time v ≤ x.time (n - 1) + M ∧ F n + 1 ≤ F (v + 1) := by
    intro n hn
    obtain ⟨done, I⟩ := hI n
    cases hcur : (g n).cur with
    | none => exact absurd hcur hn
    | some cu =>
      obtain ⟨i, r, c⟩ := cu
      obtain ⟨-, a, b, a1, a2, a3, -⟩ := I.cur i r c hcur
      obtain ⟨hq, hd⟩ := (hg n).2.1.2 i r c hcur
      obtain ⟨v, evs, hne, hok, ht⟩ := hE.entry a2 hq hd
      have hR : ReportedAt x a v evs := hE.reported _ hok
      have hnv : n ≤ v := Classical.byContradiction fun h => reported_loud hR hne (a3 v hR.after (by omega))
      obtain ⟨⟨i', r', c', f1⟩, f2⟩ := reported_finish hR hne (hg v).2.2
      refine ⟨v, hnv, ?_, ?_⟩
      · have := hx.time_le (show a ≤ n - 1 by omega)
        omega
      · rw [hF, if_pos ⟨by rw [f1]; simp, f2⟩]
        have := hFm hnv
        omega
  -- progress
  have key : ∀ d q, n ≤ q + 1 → (accepted (mainTrace (x.trace n))).length ≤ F (q + 1) + d →
      ∃ m, q ≤ m ∧ x.time m ≤ x.time q + d * (M + Pm) ∧ (accepted (mainTrace (x.trace n))).length ≤ F (m + 1) := by
    intro d
    induction d with
    | zero => intro q _ h; exact ⟨q, Nat.le_refl _, by omega, h⟩
    | succ d ih =>
      intro q hq h
      have hmul : (d + 1) * (M + Pm) = d * (M + Pm) + (M + Pm) := by
        rw [Nat.add_mul]; omega
      by_cases hle : (accepted (mainTrace (x.trace n))).length ≤ F (q + 1) + d
      · obtain ⟨m, m1, m2, m3⟩ := ih q hq hle
        exact ⟨m, m1, by omega, m3⟩
      have hfin : ∀ k, q < k → x.time (k - 1) ≤ x.time q + Pm → (g k).cur ≠ none →
          ∃ m, q ≤ m ∧ x.time m ≤ x.time q + (d + 1) * (M + Pm) ∧ (accepted (mainTrace (x.trace n))).length ≤ F (m + 1) := by
        intro k k1 k2 k3
        obtain ⟨v, c1, c2, c3⟩ := busy k3
        have hFk := hFm (show q + 1 ≤ k by omega)
        obtain ⟨m, m1, m2, m3⟩ := ih v (by omega) (by omega)
        exact ⟨m, by omega, by omega, m3⟩
      by_cases hidle : (g (q + 1)).cur = none
      · obtain ⟨p, c1, c2, c3⟩ := hp q
        by_cases hs : ∃ k, q < k ∧ k ≤ p ∧ (g k).cur ≠ none
        · obtain ⟨k, k1, k2, k3⟩ := hs
          exact hfin k k1 (by have := hx.time_le (show k - 1 ≤ p by omega); omega) k3
        · have hnone : ∀ k, q < k → k ≤ p → (g k).cur = none := fun k k1 k2 => Classical.byContradiction fun h => hs ⟨k, k1, k2, h⟩
          have hFp : ∀ k, q + 1 + k ≤ p → F (q + 1 + k) = F (q + 1) := by
            intro k
            induction k with
            | zero => intro _; rfl
            | succ k ihk =>
              intro hk
              rw [← Nat.add_assoc, hF, if_neg (fun e => e.1 (hnone _ (by omega) (by omega))), ihk (by omega), Nat.add_zero]
          have hFp' := hFp (p - (q + 1)) (by omega)
          rw [show q + 1 + (p - (q + 1)) = p by omega] at hFp'
          have hgp := hnone p c1 (Nat.le_refl _)
          have hpend : (g p).pend ≠ [] := by
            intro e
            have h1 := hacc p
            have h2 := (x.accepted_mono (show n ≤ p by omega)).length_le
            unfold Ghost.open' Ghost.curIdx at h1
            rw [hgp, e] at h1
            simp at h1
            omega
          obtain ⟨r, rest, hr⟩ : ∃ r rest, (g p).pend = r :: rest := by
            cases hpp : (g p).pend with
            | nil => exact absurd hpp hpend
            | cons r rest => exact ⟨r, rest, rfl⟩
          obtain ⟨s', i, k1, k2, -⟩ := poll_idle_send hw (hg p).1 ((hg p).1.idle_iff.2 hgp) hr
          have hst : (g (p + 1)).cur ≠ none := by
            have := ((hg p).2.2.main _ c2).2
            have k1' : masterStep cfgM (x.st p).lib .poll = _ := k1
            rw [this] at k1'
            simp only [Except.ok.injEq, Prod.mk.injEq] at k1'
            intro h
            have := (hg (p + 1)).1.idle_iff.2 h
            rw [k1'.1, k2] at this
            cases this
          exact hfin (p + 1) (by omega) (by simpa using c3) hst
      · exact hfin (q + 1) (Nat.lt_succ_self _) (by simp) hidle
  obtain ⟨m, m1, m2, m3⟩ : ∃ m, n ≤ m ∧ x.time m ≤ x.time n + cfgM.queueItems * (M + Pm) ∧
      (accepted (mainTrace (x.trace n))).length ≤ F (m + 1) := by
    cases n with
    | zero =>
      refine ⟨0, Nat.le_refl _, by omega, ?_⟩
      rw [show accepted (mainTrace (x.trace 0)) = [] from rfl]; exact Nat.zero_le _
    | succ q =>
      have ho : (g (q + 1)).open' ≤ cfgM.queueItems := by
        have h1 := (hg (q + 1)).1.lengths
        have h2 := (hg (q + 1)).1.pend.length
        unfold Ghost.open'
        omega
      obtain ⟨m, m1, m2, m3⟩ := key (g (q + 1)).open' q (Nat.le_refl _) (by rw [hacc]; omega)
      have hmul := Nat.mul_le_mul_right (M + Pm) ho
      have ht := hx.time_le (show q ≤ q + 1 by omega)
      by_cases hmq : m = q
      · subst hmq
        refine ⟨m + 1, Nat.le_refl _, by omega, Nat.le_trans m3 (hFm (show m + 1 ≤ m + 1 + 1 by omega))⟩
      · exact ⟨m, by omega, by omega, m3⟩
  refine ⟨m, m1, m2, fun q hq => ?_⟩
  have I := hD q
  have hdl := hlen I
  have hp := x.accepted_mono (show n ≤ q by omega)
  rw [I.order] at hp
  have hle : (accepted (mainTrace (x.trace n))).length ≤ (((D q).map BusTx.tx).map Tx.req).length := by
    simp only [List.length_map]
    have := hFm (show m + 1 ≤ q from hq)
    omega
  rw [List.append_assoc] at hp
  have h5 := List.prefix_of_prefix_length_le hp (List.prefix_append ..) hle
  rw [List.map_map] at h5
  exact h5

/-- Every request is finished in time, with an outcome that is fine. -/
theorem every_request (hw : cfgM.MWF) (hx : x.Exec cfgM) (hE : Outcomes x Ok M) {Pm : Nat}
    (hp : ∀ n, ∃ m, n < m ∧ x.op m = .main .poll ∧ x.time m ≤ x.time n + Pm) (n : Nat) :
    ∃ m, n ≤ m ∧ x.time m ≤ x.time n + cfgM.queueItems * (M + Pm) ∧
      ∀ q, m < q → ∃ (done : List BusTx) (cur : Option (MReq × Nat)) (queued : List MReq),
        Transactions 0 (mainTrace (x.trace q)) (done.map BusTx.tx) cur queued ∧
        accepted (mainTrace (x.trace n)) <+: done.map (fun d => d.tx.req) ∧
        (∀ d ∈ done, d.stop < q ∧ Ok d) ∧ done.Pairwise fun d d' => d.stop < d'.start := by
  obtain ⟨g, g0, hg⟩ := hx.ghosts hw
  obtain ⟨D, -, hD⟩ := bus_inv_seq hE hx hw g0 hg
  obtain ⟨m, m1, m2, m3⟩ := every_request_seq hw hx hE g0 hg hD hp n
  exact ⟨m, m1, m2, fun q hq => ⟨D q, _, _, (hD q).transactions hE (hg q).2.1, m3 q hq, (hD q).ok, (hD q).sorted⟩⟩

theorem Each.outcomes (h : Each cfgM cfgS id τ x y P) : Outcomes x (BusTx.Ok cfgS.limits id x y P) (τ.most cfgM.respTimeout) := by
  refine ⟨h.entry, fun d hok => hok.reported, fun d hok => ⟨Nat.le_of_eq hok.once.symm, Nat.le_of_eq hok.once, ?_⟩⟩
  by_cases hr : reqSlave d.tx.req = id
  · left
    rw [(hok.mine hr).2.2]
    exact outcome_reports
  · obtain ⟨fc, he⟩ := hok.other hr
    exact .inr ⟨_, he, rfl, fun h => by cases h⟩

end

end Modbus
