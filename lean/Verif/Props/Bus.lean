import Verif.Props.DriverSession

/-! C66: a bus with one master device and any number of slave devices. -/

namespace Modbus

open Spec

/-- Noise is dropped by a slave device. -/
theorem noise_dropped {cfg : Config} (hc : cfg.WF) {id : U8} (xs : List HExchange) :
    (∀ x ∈ xs, x.WF cfg ∧ (hbytes x.gap ≠ [] ∨ (¬ CrcCorrect x.frame ∨ x.frame.getD 0 0 ≠ id) ∧ x.frame.length ≤ 255)) → ∀ {sl : SlaveSys}, HSync sl →
    sl.lib.id = id → ∃ sl', slaveSysRun cfg sl (xs.flatMap HExchange.opsSilent) = .ok (sl', []) ∧ HSync sl' ∧ sl'.lib.id = id ∧
      sl'.lib.mem = appMem sl.lib.mem (mainOps (xs.flatMap HExchange.opsSilent)) := by
  induction xs with
  | nil => intro _ sl hs hi; exact ⟨sl, rfl, hs, hi, rfl⟩
  | cons x xs ih =>
    intro h sl hs hi
    obtain ⟨h1, h2⟩ := h x (List.mem_cons_self ..)
    obtain ⟨s1, a1, a2, a3, a4⟩ := C59_bad_exchange_dropped cfg hc sl hs x ⟨h1, by rw [hi]; exact h2⟩
    obtain ⟨s2, b1, b2, b3, b4⟩ := ih (fun y hy => h y (List.mem_cons_of_mem _ hy)) a2 (a3.trans hi)
    refine ⟨s2, ?_, b2, b3, ?_⟩
    · rw [List.flatMap_cons]
      have := sysRun_append _ a1 b1
      simpa using this
    · rw [b4, a4, List.flatMap_cons, mainOps_append, appMem_append]

/-- A slave device during an attempt: it always runs through, and does what is prescribed. -/
theorem ear_run {cfg : Config} (hc : cfg.WF) {id : U8} {r : MReq} (hq : QtyOk r) (hd : DataOk r) {e : Ear} (he : e.Wf cfg id r) {sl : SlaveSys} (hs : HSync sl)
    (hi : sl.lib.id = id) : ∃ sl' o m, slaveSysRun cfg sl e.ops = .ok (sl', o) ∧ HSync sl' ∧ sl'.lib.id = id ∧
      Attends cfg.limits r sl.lib.mem e m sl'.lib.mem ∧ (e.req = none → wire o = []) ∧
      ∀ mem, m = some mem → wire o = rtuFrame (reqSlave r) (encodeResponse (respond cfg.limits mem (asRequest r))) := by
  obtain ⟨noise, req⟩ := e
  obtain ⟨s1, a1, a2, a3, a4⟩ := noise_dropped hc noise he.noise hs hi
  cases req with
  | none =>
    have ho : (Ear.mk noise none).ops = noise.flatMap HExchange.opsSilent := List.append_nil _
    refine ⟨s1, [], none, by rw [ho]; exact a1, a2, a3, ?_, fun _ => rfl, fun _ h => by cases h⟩
    rw [a4, ← ho]
    exact .unheard rfl
  | some x =>
    obtain ⟨b1, b2, b3⟩ := he.req x rfl
    obtain ⟨pre, post, s2, o, c1, c2, c3, c4, c5, c6, c7⟩ := slave_device_side hc a2 (a3.trans b1) hq hd b2 b3
    have hsplit : (Ear.mk noise (some x)).ops = (noise.flatMap HExchange.opsSilent ++ pre) ++ .main .poll :: post := by
      show _ ++ x.ops = _
      rw [c1, List.append_assoc]
    have hmem : appMem s1.lib.mem (mainOps pre) = appMem sl.lib.mem (mainOps (noise.flatMap HExchange.opsSilent ++ pre)) := by
      rw [a4, mainOps_append, appMem_append]
    refine ⟨s2, o, some (appMem sl.lib.mem (mainOps (noise.flatMap HExchange.opsSilent ++ pre))), ?_, c5, c6.trans a3, ?_, (fun h => by cases h), ?_⟩
    · exact sysRun_append _ a1 c3
    · rw [c7, hmem]
      exact .heard rfl hsplit (List.mem_append_right _ c2)
    · intro mem hm
      cases hm
      rw [c4, hmem]

theorem slavesRun_attends {ι : Type} {cfg : ι → Config} (hc : ∀ i, (cfg i).WF) {id : ι → U8} {r : MReq} (hq : QtyOk r) (hd : DataOk r) {sl sl' : ι → SlaveSys}
    (hs : BusReady id sl) {e : ι → Ear} {o : ι → List HOut} (h : SlavesRun cfg id r sl e sl' o) :
    BusReady id sl' ∧ ∃ at' : ι → Option AppMem, (∀ i, Attends (cfg i).limits r (sl i).lib.mem (e i) (at' i) (sl' i).lib.mem) ∧
      (∀ i, (e i).req = none → wire (o i) = []) ∧
      ∀ i mem, at' i = some mem → wire (o i) = rtuFrame (reqSlave r) (encodeResponse (respond (cfg i).limits mem (asRequest r))) := by
  have key : ∀ i, HSync (sl' i) ∧ (sl' i).lib.id = id i ∧ ∃ m, Attends (cfg i).limits r (sl i).lib.mem (e i) m (sl' i).lib.mem ∧
      ((e i).req = none → wire (o i) = []) ∧
      ∀ mem, m = some mem → wire (o i) = rtuFrame (reqSlave r) (encodeResponse (respond (cfg i).limits mem (asRequest r))) := by
    intro i
    obtain ⟨s1, o1, m, a1, a2, a3, a4, a5, a6⟩ := ear_run (hc i) hq hd (h i).1 (hs.sync i) (hs.ids i)
    rw [(h i).2] at a1
    simp only [Except.ok.injEq, Prod.mk.injEq] at a1
    obtain ⟨rfl, rfl⟩ := a1
    exact ⟨a2, a3, m, a4, a5, a6⟩
  refine ⟨⟨fun i => (key i).1, fun i => (key i).2.1⟩, fun i => Classical.choose (key i).2.2, fun i => ?_, fun i => ?_, fun i => ?_⟩
  · exact (Classical.choose_spec (key i).2.2).1
  · exact (Classical.choose_spec (key i).2.2).2.1
  · exact (Classical.choose_spec (key i).2.2).2.2

theorem slavesRuns_attends {ι : Type} {cfg : ι → Config} (hc : ∀ i, (cfg i).WF) {id : ι → U8} {r : MReq} (hq : QtyOk r) (hd : DataOk r) {sl sl' : ι → SlaveSys}
    {es : List (ι → Ear)} (h : SlavesRuns cfg id r sl es sl') : BusReady id sl →
    BusReady id sl' ∧ AttendsAll (fun i => (cfg i).limits) r (fun i => (sl i).lib.mem) es (fun i => (sl' i).lib.mem) := by
  induction h with
  | nil sl => intro hs; exact ⟨hs, .nil _⟩
  | cons h hl ih =>
    intro hs
    obtain ⟨a1, at', a2, -⟩ := slavesRun_attends hc hq hd hs h
    obtain ⟨b1, b2⟩ := ih a1
    exact ⟨b1, .cons a2 b2⟩

/-- The slaves' side of a session determines which responses are good, and what they tell. -/
theorem busSession_told {ι : Type} {cfg : ι → Config} (hc : ∀ i, (cfg i).WF) {id : ι → U8} {sl sl' : ι → SlaveSys} {bs : List (BusRound ι)}
    (h : BusSession cfg id sl bs sl') : BusReady id sl → (∀ b ∈ bs, QtyOk b.round.req ∧ DataOk b.round.req) →
    BusReady id sl' ∧ (∀ b ∈ bs, ∀ f, b.told = .response f → GoodResponse b.round.req f) ∧
      ∀ txs, SessionTold (bs.map fun b => (b.round, b.told)) txs →
        BusTold (fun i => (cfg i).limits) id (fun i => (sl i).lib.mem) bs txs (fun i => (sl' i).lib.mem) := by
  induction h with
  | nil sl =>
    intro hs _
    refine ⟨hs, (fun b hb => by cases hb), fun txs ht => ?_⟩
    cases ht
    exact .nil _
  | @cons sl sl1 sl2 sl3 b bs o hf hn hl hr hb ih =>
    intro hs hv
    obtain ⟨hq, hd⟩ := hv b (List.mem_cons_self ..)
    obtain ⟨a1, a2⟩ := slavesRuns_attends hc hq hd hf hs
    obtain ⟨b1, at', b2, b3, b4⟩ := slavesRun_attends hc hq hd a1 hl
    obtain ⟨c1, c2, c3⟩ := ih b1 fun x hx => hv x (List.mem_cons_of_mem _ hx)
    have key : ∀ f, b.told = .response f → ∃ i mem, id i = reqSlave b.round.req ∧ at' i = some mem ∧ GoodResponse b.round.req f ∧
        responseEvents b.round.req f = outcome (cfg i).limits mem b.round.req := by
      intro f he
      obtain ⟨i, k1, k2⟩ := hr f he
      obtain ⟨x, hx⟩ := Option.isSome_iff_exists.1 k1
      have hid := ((hl i).1.req x hx).1
      have hat := b2 i
      cases hm : at' i with
      | none =>
        rw [hm] at hat
        generalize (sl2 i).lib.mem = m2 at hat
        cases hat with
        | unheard h => rw [hx] at h; cases h
      | some mem =>
        have hw := b4 i mem hm
        obtain ⟨g1, g2⟩ := response_outcome (l := (cfg i).limits) (m := mem) b.round.req hq
        rw [← hw, ← k2] at g1 g2
        exact ⟨i, mem, hid, hm, g1, g2⟩
    refine ⟨c1, ?_, ?_⟩
    · intro x hx f he
      rcases List.mem_cons.1 hx with rfl | hx
      · obtain ⟨_, _, _, _, g, _⟩ := key f he
        exact g
      · exact c2 x hx f he
    · intro txs ht
      cases ht with
      | cons t1 t2 t3 t4 =>
        refine .cons t1 t2 a2 b2 t3 (fun f he => ?_) (c3 _ t4)
        obtain ⟨i, mem, k1, k2, -, k3⟩ := key f he
        refine ⟨i, mem, k1, k2, ?_⟩
        rw [← k3]
        rw [he] at t3
        exact t3

/-- Good responses may be named afterwards. -/
theorem session_good {T R : Nat} {fe ce fe' ce' : Bool} {l : List (HRound × Told)} (h : HSessionWith (fun _ _ => True) T R fe ce l fe' ce') :
    (∀ x ∈ l, ∀ f, x.2 = .response f → GoodResponse x.1.req f) → HSession T R fe ce l fe' ce' := by
  induction h with
  | nil fe ce => intro _; exact .nil _ _
  | cons h hrest ih =>
    intro hg
    refine .cons ?_ (ih fun x hx => hg x (List.mem_cons_of_mem _ hx))
    have hg0 := hg _ (List.mem_cons_self ..)
    cases h with
    | answered hb hf hR hl ha hgap hr => exact .answered hb hf hR hl ha hgap (hg0 _ rfl)
    | gaveUp hb hf hR hl ha h1 h2 h3 => exact .gaveUp hb hf hR hl ha h1 h2 h3
    | timedOut hb hf hR hl ht h1 => exact .timedOut hb hf hR hl ht h1

/-- Accepted requests have proper data. -/
theorem accepted_data {cfg : Config} {ops : List HMOp} (hl : ∀ op ∈ ops, op.legal) {s s' : MasterSys} {htr : HMTrace} (h : masterSysRun cfg s ops = .ok (s', htr)) :
    ∀ r ∈ accepted (mainTrace htr), QtyOk r → DataOk r := by
  intro r hr
  unfold accepted at hr
  obtain ⟨⟨op, o⟩, h1, h2⟩ := List.mem_filterMap.1 hr
  have hop : op = .request r := by
    revert h2
    split
    · rename_i heq
      intro e
      cases e
      exact (Prod.mk.inj heq).1
    · intro e; cases e
  subst hop
  have hm : HMOp.main (.request r) ∈ ops := by
    obtain ⟨⟨y, o'⟩, k1, k2⟩ := List.mem_filterMap.1 h1
    have : y = .main (.request r) := by
      cases y <;> simp at k2
      rw [k2.1]
    subst this
    rw [← mainTrace_ops h]
    exact List.mem_map.2 ⟨_, k1, rfl⟩
  exact (hl _ hm).2 r rfl

/-- **C66.** A bus with one master device and any number of slave devices. In any history of an initialised master device that has come to rest with
no event pending, with `queued` the accepted requests not yet served, and with all slaves synchronised (any configurations, IDs and memories): let the
first requests be attempted one after the other, the slaves hearing what `Ear.Wf` allows in each attempt, and let the responses the
master takes as undamaged be those of the addressed slave. Then the master's application is told for each request, in order, exactly the prescribed outcome
for the addressed slave's memory at the moment of processing (or a communication error or a timeout, as the attempts were); every slave's memory
is changed exactly by the requests it heard and by its own application; all slaves are synchronised again; the line carries from the master
exactly the frames of the requests, once per attempt. -/
theorem C66_bus {cfgM : Config} (hw : cfgM.MWF) {ops : List HMOp} (hl : ∀ op ∈ ops, op.legal) {s : MasterSys} {htr : HMTrace}
    (h : masterSysRun cfgM MasterSys.powerOn (.main (.init .rtu) :: ops) = .ok (s, htr)) {fe ce : Bool} (hs : Standing fe ce s.lib) :
    ∃ done queued, Transactions cfgM.repeatMax (mainTrace htr) done none queued ∧
      ∀ {ι : Type} {cfg : ι → Config} {id : ι → U8} {sl sl' : ι → SlaveSys} {bs : List (BusRound ι)} {fe' ce' : Bool},
        (∀ i, (cfg i).WF) → BusReady id sl →
        HSessionWith (fun _ _ => True) cfgM.respTimeout cfgM.repeatMax fe ce (bs.map fun b => (b.round, b.told)) fe' ce' →
        BusSession cfg id sl bs sl' → (bs.map fun b => b.round.req) <+: queued →
        ∃ s' htr' txs, masterSysRun cfgM s (bs.flatMap fun b => b.round.ops) = .ok (s', htr') ∧
          BusTold (fun i => (cfg i).limits) id (fun i => (sl i).lib.mem) bs txs (fun i => (sl' i).lib.mem) ∧
          outs (mainTrace htr') = txs.flatMap Tx.outs ∧
          mwire htr' = (txs.flatMap fun t => List.replicate t.count (reqFrame t.req)).flatten ∧
          BusReady id sl' ∧ Standing fe' ce' s'.lib ∧
          Transactions cfgM.repeatMax (mainTrace (htr ++ htr')) (done ++ txs) none (queued.drop bs.length ++ accepted (mainTrace htr')) := by
  obtain ⟨done, queued, h1, h2⟩ := C65_session hw hl h hs
  refine ⟨done, queued, h1, ?_⟩
  intro ι cfg id sl sl' bs fe' ce' hc hb hsess hbus hpre
  have hval : ∀ b ∈ bs, QtyOk b.round.req ∧ DataOk b.round.req := by
    intro b hm
    have hq : b.round.req ∈ queued := hpre.subset (List.mem_map.2 ⟨b, hm, rfl⟩)
    have hacc : b.round.req ∈ accepted (mainTrace htr) := by
      rw [h1.order]
      exact List.mem_append_right _ hq
    have hQ := h1.valid _ hacc
    refine ⟨hQ, ?_⟩
    simp only [masterSysRun] at h
    obtain ⟨⟨s0, o0⟩, k0, h⟩ := bind_ok h
    obtain ⟨⟨s2, t2⟩, k2, h⟩ := bind_ok h
    cases h
    have : accepted (mainTrace ((HMOp.main (.init .rtu), o0) :: t2)) = accepted (mainTrace t2) := rfl
    rw [this] at hacc
    exact accepted_data hl k2 _ hacc hQ
  obtain ⟨a1, a2, a3⟩ := busSession_told hc hbus hb hval
  have hgood : HSession cfgM.respTimeout cfgM.repeatMax fe ce (bs.map fun b => (b.round, b.told)) fe' ce' := by
    refine session_good hsess ?_
    intro x hx f he
    obtain ⟨b, hm, rfl⟩ := List.mem_map.1 hx
    exact a2 b hm f he
  obtain ⟨s', htr', txs, b1, b2, b3, b4, b5, b6⟩ := h2 hgood (by rw [List.map_map]; exact hpre)
  rw [List.flatMap_map] at b1
  rw [List.length_map] at b6
  exact ⟨s', htr', txs, b1, a3 _ b2, b3, b4, a1, b5, b6⟩

/-- No attempt makes a synchronised slave get stuck: for all that the slaves can hear in an attempt there are their runs. -/
theorem C66_slaves_progress {ι : Type} {cfg : ι → Config} (hc : ∀ i, (cfg i).WF) {id : ι → U8} {r : MReq} (hq : QtyOk r) (hd : DataOk r) {sl : ι → SlaveSys}
    (hs : BusReady id sl) {e : ι → Ear} (he : ∀ i, (e i).Wf (cfg i) (id i) r) : ∃ sl' o, SlavesRun cfg id r sl e sl' o ∧ BusReady id sl' := by
  have key : ∀ i, ∃ x : SlaveSys × List HOut, slaveSysRun (cfg i) (sl i) (e i).ops = .ok x := by
    intro i
    obtain ⟨s1, o1, m, a1, -⟩ := ear_run (hc i) hq hd (he i) (hs.sync i) (hs.ids i)
    exact ⟨(s1, o1), a1⟩
  have hrun : SlavesRun cfg id r sl e (fun i => (Classical.choose (key i)).1) (fun i => (Classical.choose (key i)).2) :=
    fun i => ⟨he i, Classical.choose_spec (key i)⟩
  exact ⟨_, _, hrun, (slavesRun_attends hc hq hd hs hrun).1⟩

/-! ### Non-vacuity -/

/-- The slaves' memories after slave `i` has processed `r`. -/
def memStep {ι : Type} [DecidableEq ι] (l : ι → Limits) (m : ι → AppMem) (i : ι) (r : MReq) : ι → AppMem :=
  fun j => if j = i then effect (l i) (m i) (asRequest r) else m j

/-- What the master device puts out when requests are served one after the other from memories `m`. -/
def busOutputs {ι : Type} [DecidableEq ι] (l : ι → Limits) : (ι → AppMem) → List (ι × MReq) → List MOut
  | _, [] => []
  | m, (i, r) :: rs => .send (reqFrame r) :: (outcome (l i) (m i) r).map .event ++ busOutputs l (memStep l m i r) rs

/-- Slave `i` hears the request, all others hear a frame that does not concern them. -/
def simpleEar {ι : Type} [DecidableEq ι] (i : ι) (r : MReq) (j : ι) : Ear :=
  if j = i then ⟨[], some (simpleHX (reqFrame r))⟩ else ⟨[simpleHX (reqFrame r)], none⟩

theorem simpleEar_wf {ι : Type} [DecidableEq ι] {cfg : ι → Config} {id : ι → U8} (hinj : ∀ i j, id i = id j → i = j) {i : ι} {r : MReq} (hi : id i = reqSlave r)
    (hq : QtyOk r) (hd : DataOk r) (j : ι) : (simpleEar i r j).Wf (cfg j) (id j) r := by
  have hf := simpleHX_frame (reqFrame r)
  have hg := reqFrame_good r hq hd
  unfold simpleEar
  split
  · rename_i h
    subst h
    refine ⟨(fun x hx => by cases hx), fun x hx => ?_⟩
    cases hx
    exact ⟨hi, simpleHX_timed _ _, hf⟩
  · rename_i h
    refine ⟨fun x hx => ?_, fun x hx => by cases hx⟩
    rw [List.mem_singleton.1 hx, hf]
    refine ⟨(simpleHX_timed _ _).toWF, .inr ⟨.inr ?_, hg.len⟩⟩
    rw [hg.addressed]
    intro he
    exact h (hinj j i (by rw [hi]; exact he.symm))

theorem simpleEar_mainOps {ι : Type} [DecidableEq ι] (i : ι) (r : MReq) (j : ι) : ∀ op ∈ mainOps (simpleEar i r j).ops, op = .poll := by
  have h1 := simpleHX_mainOps (reqFrame r)
  have h2 : ∀ op ∈ mainOps (simpleHX (reqFrame r)).opsSilent, op = .poll := by
    intro op ho
    refine h1 op ?_
    unfold HExchange.ops
    unfold HExchange.opsSilent at ho
    rw [mainOps_append, mainOps_append]
    exact List.mem_append_left _ (List.mem_append_left _ ho)
  unfold simpleEar
  split
  · exact h1
  · intro op ho
    refine h2 op ?_
    have e : (Ear.mk [simpleHX (reqFrame r)] none).ops = (simpleHX (reqFrame r)).opsSilent := by
      show (_ ++ []) ++ [] = _
      rw [List.append_nil, List.append_nil]
    rw [e] at ho
    exact ho

/-- The simplest transaction: one attempt, slave `i` answers `f`. -/
def simpleRound {ι : Type} [DecidableEq ι] (i : ι) (r : MReq) (f : List U8) : BusRound ι :=
  BusRound.mk (HRound.mk r [] [] (.answer (simpleHA r f))) (.response (simpleHA r f).resp.frame) [] (simpleEar i r)

/-- With the simplest schedule, any requests to slaves on the bus can be served. -/
theorem simple_session_shape {ι : Type} [DecidableEq ι] {cfg : ι → Config} (hc : ∀ i, (cfg i).WF) {id : ι → U8} (hinj : ∀ i j, id i = id j → i = j) {T R : Nat} (hT : 2 ≤ T)
    (l : List (ι × MReq)) : (∀ x ∈ l, id x.1 = reqSlave x.2 ∧ QtyOk x.2 ∧ DataOk x.2) → ∀ {sl : ι → SlaveSys}, BusReady id sl →
    ∃ bs sl', BusSession cfg id sl bs sl' ∧ HSessionWith (fun _ _ => True) T R false false (bs.map fun b => (b.round, b.told)) false false ∧
      (bs.map fun b => b.round.req) = l.map Prod.snd ∧
      (∀ txs m', BusTold (fun i => (cfg i).limits) id (fun i => (sl i).lib.mem) bs txs m' →
        txs.flatMap Tx.outs = busOutputs (fun i => (cfg i).limits) (fun i => (sl i).lib.mem) l) ∧ ∀ b ∈ bs, ∃ i r f, b = simpleRound i r f := by
  induction l with
  | nil =>
    intro _ sl hs
    refine ⟨[], sl, .nil _, .nil _ _, rfl, ?_, fun b hb => nomatch hb⟩
    intro txs m' h
    cases h
    rfl
  | cons x l ih =>
    intro hx sl hs
    obtain ⟨i, r⟩ := x
    obtain ⟨hi, hq, hd⟩ := hx (i, r) (List.mem_cons_self ..)
    replace hi : id i = reqSlave r := hi
    have hw := simpleEar_wf (cfg := cfg) hinj hi hq hd
    obtain ⟨sl1, o, a1, a2⟩ := C66_slaves_progress hc hq hd hs hw
    obtain ⟨-, at', a3, -, a4⟩ := slavesRun_attends hc hq hd hs a1
    have hmem : ∀ m, ∀ pre : List HOp, (∀ op ∈ mainOps pre, op ∈ mainOps (simpleEar i r i).ops) → appMem m (mainOps pre) = m :=
      fun m pre hp => appMem_polls _ (fun op ho => simpleEar_mainOps i r i op (hp op ho)) m
    have hei : simpleEar i r i = ⟨[], some (simpleHX (reqFrame r))⟩ := if_pos rfl
    have step : ∀ j m (mm : Option AppMem) m', Attends (cfg j).limits r m (simpleEar i r j) mm m' →
        (j = i → mm = some m ∧ m' = effect (cfg i).limits m (asRequest r)) ∧ (j ≠ i → m' = m) := by
      intro j m mm m' h
      cases h with
      | unheard h =>
        refine ⟨fun e => ?_, fun _ => appMem_polls _ (simpleEar_mainOps i r j) m⟩
        rw [e, hei] at h
        cases h
      | heard h hsplit ht =>
        rename_i pre post
        have hpo := simpleEar_mainOps i r j
        rw [hsplit, mainOps_append] at hpo
        have e1 : ∀ m, appMem m (mainOps pre) = m := appMem_polls _ fun op ho => hpo op (List.mem_append_left _ ho)
        have e2 : ∀ m, appMem m (mainOps post) = m := appMem_polls _ fun op ho => hpo op (List.mem_append_right _ (List.mem_cons_of_mem _ ho))
        rw [e1, e2]
        refine ⟨fun e => by subst e; exact ⟨rfl, rfl⟩, fun e => ?_⟩
        rw [show simpleEar i r j = ⟨[simpleHX (reqFrame r)], none⟩ from if_neg e] at h
        cases h
    have hat : at' i = some (sl i).lib.mem := ((step i _ _ _ (a3 i)).1 rfl).1
    have hwire := a4 i _ hat
    obtain ⟨hgood, hout⟩ := response_outcome (l := (cfg i).limits) (m := (sl i).lib.mem) r hq
    rw [← hwire] at hgood hout
    obtain ⟨bs, sl', b1, b2, b3, b4, b5⟩ := ih (fun y hy => hx y (List.mem_cons_of_mem _ hy)) a2
    have hne : wire (o i) ≠ [] := by rw [hwire]; simp [rtuFrame]
    have hfr : (simpleHA r (wire (o i))).resp.frame = wire (o i) := simpleHA_frame _ _
    refine ⟨simpleRound i r (wire (o i)) :: bs, sl', ?_, ?_, ?_, ?_, ?_⟩
    · refine .cons (.nil _) rfl a1 (fun f he => ⟨i, by show (simpleEar i r i).req.isSome = true; rw [hei]; rfl, ?_⟩) b1
      injection he with he
      rw [← he, hfr]
    · exact .cons (fe1 := false) (ce1 := false) (.answered (fun op ho => nomatch ho) (.nil _ _) (Nat.zero_le _) rfl (simpleHA_wf hT hne hgood.len_le hgood.slave)
        (simpleHA_gapped _ _) trivial) b2
    · rw [List.map_cons, List.map_cons, b3]
      rfl
    · intro txs m' h
      cases h with
      | cons hr hcnt hf hl he ho hrest =>
        rename_i m1 m2 at2 t ts
        generalize hm0 : (fun i => (sl i).lib.mem) = m0 at hf
        cases hf
        subst hm0
        have hm2 : m2 = fun j => (sl1 j).lib.mem := by
          funext j
          have k1 := step j _ _ _ (hl j)
          have k2 := step j _ _ _ (a3 j)
          by_cases e : j = i
          · rw [(k1.1 e).2, (k2.1 e).2]
          · rw [k1.2 e, k2.2 e]
        subst hm2
        have hs1 : (fun j => (sl1 j).lib.mem) = memStep (fun i => (cfg i).limits) (fun i => (sl i).lib.mem) i r := by
          funext j
          have k2 := step j _ _ _ (a3 j)
          unfold memStep
          by_cases e : j = i
          · rw [if_pos e, (k2.1 e).2, e]
          · rw [if_neg e, k2.2 e]
        have hevs : t.evs = outcome (cfg i).limits (sl i).lib.mem r := by
          rw [← hout]
          have : t.evs = responseEvents r (simpleHA r (wire (o i))).resp.frame := he
          rw [this, hfr]
        have hto : t.outs = .send (reqFrame r) :: (outcome (cfg i).limits (sl i).lib.mem r).map .event := by
          unfold Tx.outs
          rw [hr, hcnt, hevs]
          rfl
        rw [List.flatMap_cons, b4 _ _ hrest, hto, hs1]
        rfl
    · intro b hb
      rcases List.mem_cons.1 hb with rfl | hb
      · exact ⟨i, r, _, rfl⟩
      · exact b5 b hb

theorem simple_session {ι : Type} [DecidableEq ι] {cfg : ι → Config} (hc : ∀ i, (cfg i).WF) {id : ι → U8} (hinj : ∀ i j, id i = id j → i = j) {T R : Nat} (hT : 2 ≤ T)
    (l : List (ι × MReq)) (hx : ∀ x ∈ l, id x.1 = reqSlave x.2 ∧ QtyOk x.2 ∧ DataOk x.2) {sl : ι → SlaveSys} (hs : BusReady id sl) :
    ∃ bs sl', BusSession cfg id sl bs sl' ∧ HSessionWith (fun _ _ => True) T R false false (bs.map fun b => (b.round, b.told)) false false ∧
      (bs.map fun b => b.round.req) = l.map Prod.snd ∧
      ∀ txs m', BusTold (fun i => (cfg i).limits) id (fun i => (sl i).lib.mem) bs txs m' →
        txs.flatMap Tx.outs = busOutputs (fun i => (cfg i).limits) (fun i => (sl i).lib.mem) l := by
  obtain ⟨bs, sl', h1, h2, h3, h4, -⟩ := simple_session_shape hc hinj hT (R := R) l hx hs
  exact ⟨bs, sl', h1, h2, h3, h4⟩

/-- Non-vacuity of C66, and its simplest reading: on a bus with distinct slave IDs, any requests to slaves on the bus that are queued can be served, and the
master's application sees exactly what an atomic, sequential execution of the requests on the slaves' memories yields. -/
theorem bus_simple {cfgM : Config} (hw : cfgM.MWF) (hT : 2 ≤ cfgM.respTimeout) {ops : List HMOp} (hl : ∀ op ∈ ops, op.legal) {s : MasterSys} {htr : HMTrace}
    (h : masterSysRun cfgM MasterSys.powerOn (.main (.init .rtu) :: ops) = .ok (s, htr)) (hs : Standing false false s.lib) :
    ∃ done queued, Transactions cfgM.repeatMax (mainTrace htr) done none queued ∧
      ∀ {ι : Type} [DecidableEq ι] {cfg : ι → Config} {id : ι → U8} {sl : ι → SlaveSys} (l : List (ι × MReq)), (∀ i, (cfg i).WF) →
        (∀ i j, id i = id j → i = j) → BusReady id sl → (∀ x ∈ l, id x.1 = reqSlave x.2) → l.map Prod.snd <+: queued →
        ∃ bs sl' s' htr', BusSession cfg id sl bs sl' ∧ masterSysRun cfgM s (bs.flatMap fun b => b.round.ops) = .ok (s', htr') ∧
          outs (mainTrace htr') = busOutputs (fun i => (cfg i).limits) (fun i => (sl i).lib.mem) l := by
  obtain ⟨done, queued, h1, h2⟩ := C66_bus hw hl h hs
  refine ⟨done, queued, h1, ?_⟩
  intro ι _ cfg id sl l hc hinj hb hid hpre
  have hval : ∀ x ∈ l, id x.1 = reqSlave x.2 ∧ QtyOk x.2 ∧ DataOk x.2 := by
    intro x hx
    have hacc : x.2 ∈ accepted (mainTrace htr) := by
      rw [h1.order]
      exact List.mem_append_right _ (hpre.subset (List.mem_map.2 ⟨x, hx, rfl⟩))
    have hQ := h1.valid _ hacc
    refine ⟨hid x hx, hQ, ?_⟩
    simp only [masterSysRun] at h
    obtain ⟨⟨s0, o0⟩, k0, h⟩ := bind_ok h
    obtain ⟨⟨s2, t2⟩, k2, h⟩ := bind_ok h
    cases h
    exact accepted_data hl k2 _ (show _ ∈ accepted (mainTrace t2) from hacc) hQ
  obtain ⟨bs, sl', a1, a2, a3, a4⟩ := simple_session hc hinj (R := cfgM.repeatMax) hT l hval hb
  obtain ⟨s', htr', txs, b1, b2, b3, -⟩ := h2 hc hb a2 a1 (by rw [a3]; exact hpre)
  exact ⟨bs, sl', s', htr', a1, b1, by rw [b3, a4 _ _ b2]⟩

/-- The same from initialisation: after `init` and any calls of the main program other than polls, all accepted requests can be served. -/
theorem bus_from_init {cfgM : Config} (hw : cfgM.MWF) (hT : 2 ≤ cfgM.respTimeout) {ops : List MOp} (ho : ∀ op ∈ ops, op.quiet) :
    ∃ s htr, masterSysRun cfgM MasterSys.powerOn (.main (.init .rtu) :: ops.map .main) = .ok (s, htr) ∧
      ∀ {ι : Type} [DecidableEq ι] {cfg : ι → Config} {id : ι → U8} {sl : ι → SlaveSys} (l : List (ι × MReq)), (∀ i, (cfg i).WF) →
        (∀ i j, id i = id j → i = j) → BusReady id sl → (∀ x ∈ l, id x.1 = reqSlave x.2) → l.map Prod.snd = accepted (mainTrace htr) →
        ∃ bs sl' s' htr', BusSession cfg id sl bs sl' ∧ masterSysRun cfgM s (bs.flatMap fun b => b.round.ops) = .ok (s', htr') ∧
          outs (mainTrace htr') = busOutputs (fun i => (cfg i).limits) (fun i => (sl i).lib.mem) l := by
  obtain ⟨l0, h1, h2, h3⟩ := sysInit_ok hw MasterSys.powerOn
  obtain ⟨sa, k1, k2⟩ := standing_init hw Master.powerOn
  simp only [masterRun, show masterStep cfgM Master.powerOn (.init .rtu) = .ok (l0, []) from h3, ok_bind, pure_eq, Except.ok.injEq, Prod.mk.injEq] at k1
  obtain ⟨rfl, -⟩ := k1
  obtain ⟨s1, t1, a1, a2, a3⟩ := before_run (s := { MasterSys.powerOn with lib := l0, gap := false }) hw ops ho h2 k2
  have hrun : masterSysRun cfgM MasterSys.powerOn (.main (.init .rtu) :: ops.map .main) = .ok (s1, (.main (.init .rtu), []) :: t1) := by
    simp only [masterSysRun, h1, ok_bind, a1, pure_eq]
  obtain ⟨done, queued, b1, b2⟩ := bus_simple hw hT (legal_of (mainNoise_before ho)) hrun a3
  refine ⟨s1, _, hrun, ?_⟩
  intro ι _ cfg id sl l hc hinj hb hid hp
  have hd : done = [] := by
    refine done_nil b1.done_ok ?_
    have := b1.output
    simp only [curOuts, List.append_nil] at this
    rw [← this]
    exact a2
  subst hd
  have hq : accepted (mainTrace ((HMOp.main (.init .rtu), []) :: t1)) = queued := by simpa using b1.order
  exact b2 l hc hinj hb hid (by rw [hp, hq]; exact List.prefix_refl _)

/-- Memory with holding register 5 registered. -/
def reg5Mem : AppMem := { AppMem.empty with hregs := fun i => if i = 5 then some 0 else none }

/-- Two slaves with IDs 9 and 8; the value written to slave 9 is read back from it, slave 8 is unaffected. -/
example : ∃ s htr s' htr', masterSysRun threeCfg MasterSys.powerOn [.main (.init .rtu), .main (.request (.writeSingleReg 5 9 0x1234)),
      .main (.request (.readHoldingReg 5 1 9)), .main (.request (.readHoldingReg 5 1 8))] = .ok (s, htr) ∧
    ∃ (bs : List (BusRound Bool)) (sl sl' : Bool → SlaveSys), BusSession (fun _ => Config.default) (fun b => if b then 9 else 8) sl bs sl' ∧
      masterSysRun threeCfg s (bs.flatMap fun b => b.round.ops) = .ok (s', htr') ∧
      outs (mainTrace htr') = [.send (reqFrame (.writeSingleReg 5 9 0x1234)), .event (.hregWrite 9 5 1), .send (reqFrame (.readHoldingReg 5 1 9)),
        .event (.hregRead 9 5 0x1234), .send (reqFrame (.readHoldingReg 5 1 8)), .event (.hregRead 8 5 0)] := by
  obtain ⟨s, htr, h1, h2⟩ := bus_from_init threeCfg_wf (by decide)
    (ops := [.request (.writeSingleReg 5 9 0x1234), .request (.readHoldingReg 5 1 9), .request (.readHoldingReg 5 1 8)]) (by
      intro op ho
      simp only [List.mem_cons, List.not_mem_nil, or_false] at ho
      rcases ho with rfl | rfl | rfl
      · exact ⟨fun _ => trivial, by simp⟩
      · exact ⟨fun _ => trivial, by simp⟩
      · exact ⟨fun _ => trivial, by simp⟩)
  have hacc : accepted (mainTrace htr) = [.writeSingleReg 5 9 0x1234, .readHoldingReg 5 1 9, .readHoldingReg 5 1 8] := by
    have e : acceptedOf (masterSysRun threeCfg MasterSys.powerOn [.main (.init .rtu), .main (.request (.writeSingleReg 5 9 0x1234)),
      .main (.request (.readHoldingReg 5 1 9)), .main (.request (.readHoldingReg 5 1 8))]) =
        [.writeSingleReg 5 9 0x1234, .readHoldingReg 5 1 9, .readHoldingReg 5 1 8] := by decide +kernel
    rw [← e]
    exact (congrArg acceptedOf h1).symm
  obtain ⟨sa, i1, i2, i3, i4⟩ := hsync_after_init Config.default reg5Mem 9
  obtain ⟨sb, j1, j2, j3, j4⟩ := hsync_after_init Config.default reg5Mem 8
  obtain ⟨bs, sl', s', htr', k1, k2, k3⟩ := h2 (ι := Bool) (cfg := fun _ => Config.default) (id := fun b => if b then 9 else 8) (sl := fun b => if b then sa else sb)
    [(true, .writeSingleReg 5 9 0x1234), (true, .readHoldingReg 5 1 9), (false, .readHoldingReg 5 1 8)] (fun _ => by decide) (by decide)
    ⟨fun b => by cases b; exact j2; exact i2, fun b => by cases b; exact j3; exact i3⟩ (by decide) (by rw [hacc]; rfl)
  refine ⟨s, htr, s', htr', h1, bs, _, sl', k1, k2, ?_⟩
  rw [k3]
  have hm : (fun b : Bool => (if b = true then sa else sb).lib.mem) = fun _ => reg5Mem := by
    funext b
    cases b
    · exact j4
    · exact i4
  rw [hm]
  decide +kernel

end Modbus
