import Verif.Proofs.DriverMasterTransaction
import Verif.Props.DriverMaster
import Verif.Props.MasterLive
import Verif.Proofs.EndToEnd
import Verif.Spec.Session

/-! C62: transactions of a master device. -/

namespace Modbus

open Spec

/-- The device right after the start of a transmission. -/
structure D1 (i : Nat) (r : MReq) (c0 : U8) (fe ce : Flag) (s : MasterSys) : Prop where
  lib : P1 i r c0 fe ce .cleared s.lib
  cur : s.cur = 0
  last : s.last + 1 = (reqFrame r).length
  lt : s.last < 256
  gap : s.gap = false
  rtof : s.rtof = false

/-- A poll that transmits. -/
theorem sys_send {cfg : Config} {s : MasterSys} {l : Master} {i : Nat} {r : MReq} {c0 : U8} {fe ce : Flag}
    (h : masterStep cfg s.lib .poll = .ok (l, [.send (reqFrame r)])) (hp : P1 i r c0 fe ce .cleared l) :
    ∃ s1 o, masterSysStep cfg s (.main .poll) = .ok (s1, o) ∧ s1.lib = l ∧ D1 i r c0 fe ce s1 ∧ libOuts o = [.send (reqFrame r)] := by
  have hlen : (l.msgs i).reqLen.toNat = (reqFrame r).length := by
    have := congrArg List.length (show (l.msgs i).req.bytes 0 (l.msgs i).reqLen.toNat = reqFrame r from hp.cur.2.2.1)
    simpa using this
  have hpos : 0 < (reqFrame r).length := by rw [reqFrame_length]; omega
  have hlt := (l.msgs i).reqLen.isLt
  refine ⟨{ s with lib := l, txMsg := i, cur := 0, last := (l.msgs i).reqLen.toNat - 1, gap := false, rtof := false }, [.lib (.send (reqFrame r)), .tdr ((l.msgs i).req 0)],
    ?_, rfl, ⟨hp, rfl, by simp only; omega, by simp only; omega, rfl, rfl⟩, rfl⟩
  have hm : ¬ (MOp.isMain .poll = false) := by decide
  simp only [masterSysStep, hm, h, ok_bind]
  exact masterSends_send (s := { s with lib := l, gap := s.gap }) hp.cur.1 (by rw [hlen]; exact hpos)

theorem outs_main {tr : MTrace} (h : ∀ x ∈ tr, x.1.isMain = false → x.2 = []) : outs (tr.filter fun x => x.1.isMain) = outs tr := by
  unfold outs; rw [flat_filter h]

theorem outs_filter_nil {tr : MTrace} (h : outs tr = []) : outs (tr.filter fun x => x.1.isMain) = [] := by
  unfold outs at *
  rw [List.filter_eq_nil_iff] at *
  intro a ha
  obtain ⟨x, hx, hxa⟩ := List.mem_flatMap.1 ha
  exact h a (List.mem_flatMap.2 ⟨x, (List.mem_filter.1 hx).1, hxa⟩)

/-- One attempt up to the last poll. -/
theorem device_attempt {cfg : Config} (hw : cfg.MWF) {i : Nat} {r : MReq} {c0 : U8} {fe ce : Flag} {s : MasterSys} {g : Ghost}
    (hi : MInv cfg s.lib g) (h : D1 i r c0 fe ce s) {a : HMAttempt} (ha : a.Wf cfg.respTimeout r) :
    ∃ s' htr g', masterSysRun cfg s a.init = .ok (s', htr) ∧ outs (mainTrace htr) = [] ∧ MInv cfg s'.lib g' ∧
      ((CrcCorrect a.resp.frame ∧ P6 i r c0 (if a.gapped then .set else fe) ce a.resp.frame s'.lib) ∨
       (¬ CrcCorrect a.resp.frame ∧ P6 i r c0 (if a.gapped then .set else fe) .set a.resp.frame s'.lib)) := by
  obtain ⟨l, tr, g', k1, k2, k3, k4⟩ := attempt_init hw hi h.lib (a.lib_wf ha)
  obtain ⟨s', htr, q1, q2, q3, q4⟩ := sim_attempt ha h.cur h.last h.lt h.gap h.rtof hi.drv k1 (noSend_of_outs k2)
  refine ⟨s', htr, g', q1, by rw [q4]; exact outs_filter_nil k2, by rw [q2]; exact k3, ?_⟩
  rw [a.lib_resp ha] at k4
  rw [q2]
  have e : (if a.lib.broken then Flag.set else fe) = if a.gapped then .set else fe := by
    by_cases hb : a.gapped = true
    · rw [if_pos hb, if_pos ((a.lib_broken ha).2 hb)]
    · rw [if_neg hb, if_neg fun k => hb ((a.lib_broken ha).1 k)]
  rw [e] at k4
  exact k4

/-- The last poll of a failed attempt and the next one. -/
theorem device_again {cfg : Config} (hw : cfg.MWF) {i : Nat} {r : MReq} {c0 : U8} {fe ce : Flag} {f : List U8} {s : MasterSys} {g : Ghost}
    (hi : MInv cfg s.lib g) (h : P6 i r c0 fe ce f s.lib) (he : fe = .set ∨ ce = .set) (hR : c0.toNat + 1 ≤ cfg.repeatMax) :
    ∃ s' htr g', masterSysRun cfg s [.main .poll, .main .poll] = .ok (s', htr) ∧ outs (mainTrace htr) = [.send (reqFrame r)] ∧ MInv cfg s'.lib g' ∧
      D1 i r (c0 + 1) (if fe = .set then .cleared else fe) (if fe = .set then ce else .cleared) s' := by
  obtain ⟨l2, g', a1, a2, a3⟩ := final_repeat hw hi h he hR
  obtain ⟨l1, o1, t1, b1, b2, b3⟩ := run_cons_inv a1
  obtain ⟨l3, o3, t3, c1, c2, c3⟩ := run_cons_inv b2
  cases c2
  subst c3
  simp only [silentPoll, sent, List.cons.injEq, Prod.mk.injEq, true_and, and_true] at b3
  obtain ⟨rfl, rfl⟩ := b3
  have s1 := sys_main (s := s) (op := .poll) rfl (by simp) b1 (by simp)
  obtain ⟨s2, o, d1, d2, d3, d4⟩ := sys_send (s := { s with lib := l1 }) c1 a3
  refine ⟨s2, [(HMOp.main .poll, [])] ++ [(HMOp.main .poll, o)], g', sysM_append _ (sysM_one s1) (sysM_one d1), ?_, by rw [d2]; exact a2, d3⟩
  rw [mainTrace_append, outs_append]
  show [] ++ outs [(MOp.poll, libOuts o)] = _
  rw [d4]
  rfl

/-- Failed attempts. -/
theorem device_failed {cfg : Config} (hw : cfg.MWF) {i : Nat} {r : MReq} {as : List HMAttempt} {fe ce fe' ce' : Bool}
    (hf : HFailed cfg.respTimeout r fe ce as fe' ce') :
    ∀ {c0 : U8} {s : MasterSys} {g : Ghost}, MInv cfg s.lib g → D1 i r c0 (flagOf fe) (flagOf ce) s → c0.toNat + as.length ≤ cfg.repeatMax →
    ∃ s' htr g', masterSysRun cfg s (hretries as) = .ok (s', htr) ∧ outs (mainTrace htr) = List.replicate as.length (.send (reqFrame r)) ∧
      MInv cfg s'.lib g' ∧ D1 i r (c0 + BitVec.ofNat 8 as.length) (flagOf fe') (flagOf ce') s' := by
  have hcn : ∀ {c0 : U8} {n : Nat}, c0.toNat + (n + 1) ≤ cfg.repeatMax → (c0 + 1).toNat = c0.toNat + 1 := by
    intro c0 n hl
    have := hw.rle
    rw [BitVec.toNat_add]
    exact Nat.mod_eq_of_lt (by simp; omega)
  have hadd : ∀ {c0 : U8} {n : Nat}, c0 + BitVec.ofNat 8 (n + 1) = c0 + 1 + BitVec.ofNat 8 n := by
    intro c0 n
    apply BitVec.eq_of_toNat_eq
    simp
    omega
  have glue : ∀ {a : HMAttempt} {as : List HMAttempt} {c0 c1 : U8} {fl cl fl' cl' : Flag} {s : MasterSys} {g : Ghost} {fe ce : Flag} {fl2 cl2 : Flag},
      MInv cfg s.lib g → D1 i r c0 fe ce s → a.Wf cfg.respTimeout r → (fl = .set ∨ cl = .set) → c0.toNat + 1 ≤ cfg.repeatMax →
      (∀ s' : MasterSys, ((CrcCorrect a.resp.frame ∧ P6 i r c0 (if a.gapped then .set else fe) ce a.resp.frame s'.lib) ∨
       (¬ CrcCorrect a.resp.frame ∧ P6 i r c0 (if a.gapped then .set else fe) .set a.resp.frame s'.lib)) → P6 i r c0 fl cl a.resp.frame s'.lib) →
      fl' = (if fl = .set then .cleared else fl) → cl' = (if fl = .set then cl else .cleared) →
      (∀ {s : MasterSys} {g : Ghost}, MInv cfg s.lib g → D1 i r (c0 + 1) fl' cl' s →
        ∃ s' htr g', masterSysRun cfg s (hretries as) = .ok (s', htr) ∧ outs (mainTrace htr) = List.replicate as.length (.send (reqFrame r)) ∧
          MInv cfg s'.lib g' ∧ D1 i r c1 fl2 cl2 s') →
      ∃ s' htr g', masterSysRun cfg s (hretries (a :: as)) = .ok (s', htr) ∧ outs (mainTrace htr) = List.replicate (a :: as).length (.send (reqFrame r)) ∧
        MInv cfg s'.lib g' ∧ D1 i r c1 fl2 cl2 s' := by
    intro a as c0 c1 fl cl fl' cl' s g fe ce fl2 cl2 hi h ha he hR hP e1 e2 ih
    obtain ⟨s1, t1, g1, k1, k2, k3, k4⟩ := device_attempt hw hi h ha
    obtain ⟨s2, t2, g2, m1, m2, m3, m4⟩ := device_again hw k3 (hP s1 k4) he hR
    rw [← e1, ← e2] at m4
    obtain ⟨s3, t3, g3, n1, n2, n3, n4⟩ := ih m3 m4
    refine ⟨s3, t1 ++ (t2 ++ t3), g3, ?_, ?_, n3, n4⟩
    · have := sysM_append _ k1 (sysM_append _ m1 n1)
      rw [← this]
      simp [hretries, HMAttempt.ops]
    · rw [mainTrace_append, mainTrace_append, outs_append, outs_append, k2, m2, n2]
      rfl
  induction hf with
  | nil fe ce =>
    intro c0 s g hi h _
    exact ⟨s, [], g, rfl, rfl, hi, by simpa using h⟩
  | @frame fe ce ce1 fe' ce' a as ha h1 h2 h3 ih =>
    intro c0 s g hi h hl
    simp only [List.length_cons] at hl
    rw [List.length_cons, hadd]
    refine glue (fl := .set) (cl := flagOf ce1) hi h ha (.inl rfl) (by omega) ?_ rfl rfl ?_
    · intro s' k4
      have hfe : (if a.gapped then Flag.set else flagOf fe) = .set := by
        rcases h1 with h1 | h1
        · rw [h1]; split <;> rfl
        · rw [h1]; rfl
      rw [hfe] at k4
      rcases k4 with ⟨hc, k4⟩ | ⟨hc, k4⟩
      · have : ce1 = ce := bool_eq (h2.trans ⟨fun e => e.resolve_right (fun k => k hc), .inl⟩)
        rw [this]; exact k4
      · have : ce1 = true := h2.2 (.inr hc)
        rw [this]; exact k4
    · intro s g hi h
      exact ih hi h (by rw [hcn hl]; omega)
  | @crc ce fe' ce' a as ha h1 h2 h3 ih =>
    intro c0 s g hi h hl
    simp only [List.length_cons] at hl
    rw [List.length_cons, hadd]
    refine glue (fl := .cleared) (cl := .set) hi h ha (.inr rfl) (by omega) ?_ rfl rfl ?_
    · intro s' k4
      rw [h1] at k4
      rcases k4 with ⟨hc, k4⟩ | ⟨hc, k4⟩
      · have : ce = true := h2.resolve_right (fun e => e hc)
        rw [this] at k4; exact k4
      · exact k4
    · intro s g hi h
      exact ih hi h (by rw [hcn hl]; omega)

/-! ### The line -/

theorem MOp.noise.legal {op : MOp} (h : op.noise) : (HMOp.main op).legal := by
  cases op with
  | request r => exact ⟨rfl, by rintro _ ⟨⟩; exact h⟩
  | poll => exact ⟨rfl, by simp⟩
  | tick => exact ⟨rfl, by simp⟩
  | _ => exact h.elim

theorem legal_of {ops : List HMOp} (h : MainNoise ops) : ∀ op ∈ ops, op.legal := by
  intro op ho
  cases op with
  | main op => exact (h op ho).legal
  | _ => trivial

theorem MainNoise.append {a b : List HMOp} (h1 : MainNoise a) (h2 : MainNoise b) : MainNoise (a ++ b) := by
  intro x hx
  rcases List.mem_append.1 hx with k | k
  · exact h1 x k
  · exact h2 x k

theorem mainNoise_poll : MainNoise [.main .poll] := by
  intro x hx
  cases List.mem_singleton.1 hx
  trivial

theorem HMAttempt.mainNoise {T : Nat} {r : MReq} {a : HMAttempt} (ha : a.Wf T r) : MainNoise a.init := by
  intro x hx
  simp only [HMAttempt.init, HMAttempt.line, List.mem_append, List.mem_cons, List.mem_flatMap, reduceCtorEq, false_or, HMOp.main.injEq] at hx
  rcases hx with ((k | k) | rfl | ((⟨y, k1, k2⟩ | k) | k)) | k
  · exact ha.tx _ k
  · exact (ha.w2 _ k).1
  · trivial
  · exact HMHeard.mainNoise (ha.others y k1).1 x k2
  · exact HMHeard.mainNoise ha.resp.1 x k
  · exact ha.w4 _ k
  · exact (ha.w5 _ k).1

theorem HFailed.mainNoise {T : Nat} {r : MReq} {fe ce fe' ce' : Bool} {as : List HMAttempt} (h : HFailed T r fe ce as fe' ce') :
    MainNoise (hretries as) := by
  induction h with
  | nil => intro x hx; cases hx
  | frame ha _ _ _ ih =>
    rw [hretries, List.flatMap_cons, HMAttempt.ops]
    exact (((HMAttempt.mainNoise ha).append mainNoise_poll).append mainNoise_poll).append ih
  | crc ha _ _ _ ih =>
    rw [hretries, List.flatMap_cons, HMAttempt.ops]
    exact (((HMAttempt.mainNoise ha).append mainNoise_poll).append mainNoise_poll).append ih

theorem sends_outs (tr : MTrace) : sends tr = (outs tr).filterMap fun o =>
    match o with
    | .send b => some b
    | _ => none := by
  unfold sends outs
  rw [List.filterMap_filter]
  congr 1
  funext o
  cases o <;> rfl

/-- What a device at rest puts on the line until it is at rest again are the frames its library hands over, complete. -/
theorem line_of_frames {cfg : Config} (hw : cfg.MWF) {ops : List HMOp} (hl : ∀ op ∈ ops, op.legal) {s : MasterSys} {htr : HMTrace}
    (h : masterSysRun cfg MasterSys.powerOn (.main (.init .rtu) :: ops) = .ok (s, htr)) (hs : s.lib.st = .idle)
    {ops' : List HMOp} (hl' : ∀ op ∈ ops', op.legal) {s' : MasterSys} {htr' : HMTrace} (h' : masterSysRun cfg s ops' = .ok (s', htr'))
    (hs' : s'.lib.st = .idle) : mwire htr' = (mframes htr').flatten := by
  obtain ⟨l, h1, h2, h3⟩ := sysInit_ok hw MasterSys.powerOn
  have h0 : MWInv cfg { MasterSys.powerOn with lib := l, gap := false } [] [] :=
    ⟨⟨_, h2⟩, Nat.le_refl _, fun h => absurd h (Nat.lt_irrefl _), .inl ⟨rfl, rfl, rfl⟩⟩
  simp only [masterSysRun, h1, ok_bind] at h
  obtain ⟨⟨sx, tx⟩, k1, k2⟩ := bind_ok h
  cases k2
  have q2 := h0.run_ok hw hl k1
  have r2 := q2.run_ok hw hl' h'
  have e1 := q2.complete (q2.idle (.inl (by rw [hs]; decide)))
  have e2 := r2.complete (r2.idle (.inl (by rw [hs']; decide)))
  rw [e1, List.nil_append, List.flatten_append] at e2
  exact List.append_cancel_left e2

theorem last_events (l : List MEvent) : mwire [(HMOp.main .poll, l.map fun e => HMOut.lib (.event e))] = [] ∧
    mframes [(HMOp.main .poll, l.map fun e => HMOut.lib (.event e))] = [] := by
  have e : (l.map fun e => HMOut.lib (.event e)) = (l.map MOut.event).map HMOut.lib := by rw [List.map_map]; rfl
  rw [e]
  refine ⟨mwire_lib _ _, mframes_none _ _ ?_⟩
  intro f hfm
  obtain ⟨e, -, he⟩ := List.mem_map.1 hfm
  cases he

theorem sends_replicate {tr : MTrace} {n : Nat} {f : List U8} (h : outs tr = List.replicate n (.send f)) : sends tr = List.replicate n f := by
  rw [sends_outs, h]
  clear h
  induction n with
  | zero => rfl
  | succ n ih => rw [List.replicate_succ, List.replicate_succ, ← ih]; rfl

/-- The invariant of the library in a device after initialisation. -/
theorem device_inv {cfg : Config} (hw : cfg.MWF) {ops : List HMOp} (hl : ∀ op ∈ ops, op.legal) {s : MasterSys} {htr : HMTrace}
    (h : masterSysRun cfg MasterSys.powerOn (.main (.init .rtu) :: ops) = .ok (s, htr)) : ∃ g, MInv cfg s.lib g := by
  obtain ⟨l, h1, h2, h3⟩ := sysInit_ok hw MasterSys.powerOn
  have h0 : MWInv cfg { MasterSys.powerOn with lib := l, gap := false } [] [] :=
    ⟨⟨_, h2⟩, Nat.le_refl _, fun h => absurd h (Nat.lt_irrefl _), .inl ⟨rfl, rfl, rfl⟩⟩
  simp only [masterSysRun, h1, ok_bind] at h
  obtain ⟨⟨sx, tx⟩, k1, k2⟩ := bind_ok h
  cases k2
  exact (h0.run_ok hw hl k1).inv

/-- The poll of a device that transmits. -/
theorem device_start {cfg : Config} (hw : cfg.MWF) {s s1 : MasterSys} {g : Ghost} {o : List HMOut} (hi : MInv cfg s.lib g) {fe ce : Bool} (hs : Standing fe ce s.lib)
    {r : MReq} (hq : QtyOk r) (hp : masterSysStep cfg s (.main .poll) = .ok (s1, o)) (ho : libOuts o = [.send (reqFrame r)]) :
    ∃ i g1, MInv cfg s1.lib g1 ∧ D1 i r 0 (flagOf fe) (flagOf ce) s1 := by
  have hp0 := hp
  simp only [masterSysStep, show ¬ (MOp.isMain .poll = false) by decide] at hp
  obtain ⟨⟨l, o1⟩, k1, k2⟩ := bind_ok hp
  obtain ⟨e1, e2⟩ := masterSends_lib k2
  rw [ho] at e1
  subst e1
  obtain ⟨i, g1, a1, a2⟩ := start_P1 hw hi hs k1 hq
  obtain ⟨s2, o2, b1, b2, b3, b4⟩ := sys_send k1 a2
  rw [hp0] at b1
  cases b1
  exact ⟨i, g1, by rw [b2]; exact a1, b3⟩

/-- **C62**, transactions that succeed. In any history of an initialised device that has reached a state with no event pending (but possibly an
error left over) and whose next poll transmits a request `r`: after any number `≤ R` of failed attempts (a gap in the response, or a wrong CRC) and
a last attempt without a gap whose response is good (all interrupts, polls, ticks, further requests, frames of other slaves in any order the
schedules allow), the device has put the frame of the request on the line, once per attempt, complete and unaltered, and nothing else; and the last poll
makes exactly the callbacks which the response prescribes. -/
theorem C62_device_transaction {cfg : Config} (hw : cfg.MWF) {ops : List HMOp} (hl : ∀ op ∈ ops, op.legal) {s s1 : MasterSys} {htr : HMTrace}
    (h : masterSysRun cfg MasterSys.powerOn (.main (.init .rtu) :: ops) = .ok (s, htr)) {fe ce : Bool} (hs : Standing fe ce s.lib)
    {r : MReq} (hq : QtyOk r) {o : List HMOut} (hp : masterSysStep cfg s (.main .poll) = .ok (s1, o)) (ho : libOuts o = [.send (reqFrame r)])
    {as : List HMAttempt} (hf : HFailed cfg.respTimeout r fe ce as false false) (hlen : as.length ≤ cfg.repeatMax) {a : HMAttempt}
    (ha : a.Wf cfg.respTimeout r) (hg : a.gapped = false) (hgood : GoodResponse r a.resp.frame) :
    ∃ s' htr', masterSysRun cfg s (.main .poll :: hretries as ++ a.init ++ [.main .poll]) =
        .ok (s', htr' ++ [(.main .poll, (responseEvents r a.resp.frame).map fun e => .lib (.event e))]) ∧
      mwire htr' = (List.replicate (as.length + 1) (reqFrame r)).flatten ∧
      outs (mainTrace htr') = List.replicate (as.length + 1) (.send (reqFrame r)) ∧ Standing false false s'.lib := by
  obtain ⟨g, hi⟩ := device_inv hw hl h
  obtain ⟨i, g1, a1, a2⟩ := device_start hw hi hs hq hp ho
  obtain ⟨s2, t2, g2, b1, b2, b3, b4⟩ := device_failed hw hf a1 a2 (by simpa using hlen)
  obtain ⟨s3, t3, g3, c1, c2, c3, c4⟩ := device_attempt hw b3 b4 ha
  rw [hg] at c4
  rcases c4 with ⟨hc, c4⟩ | ⟨hc, c4⟩
  · obtain ⟨l4, g4, d1, d2, d3⟩ := final_ok hw c3 c4 hgood
    have hnos : ∀ f, MOut.send f ∉ (responseEvents r a.resp.frame).map MOut.event := by
      intro f hfm
      obtain ⟨e, -, he⟩ := List.mem_map.1 hfm
      cases he
    have hlast := sys_main (s := s3) (op := .poll) rfl (by simp) d1 hnos
    rw [List.map_map] at hlast
    have hrun : masterSysRun cfg s (.main .poll :: hretries as ++ a.init ++ [.main .poll]) = .ok ({ s3 with lib := l4 },
        ([(HMOp.main .poll, o)] ++ t2 ++ t3) ++ [(HMOp.main .poll, (responseEvents r a.resp.frame).map fun e => .lib (.event e))]) := by
      have := sysM_append _ (sysM_append _ (sysM_append _ (sysM_one hp) b1) c1) (sysM_one hlast)
      exact this
    have houts : outs (mainTrace ([(HMOp.main .poll, o)] ++ t2 ++ t3)) = List.replicate (as.length + 1) (.send (reqFrame r)) := by
      rw [mainTrace_append, mainTrace_append, outs_append, outs_append, b2, c2, List.append_nil]
      show outs [(MOp.poll, libOuts o)] ++ _ = _
      rw [ho]
      rfl
    have hnoise : MainNoise (.main .poll :: hretries as ++ a.init ++ [.main .poll]) :=
      ((mainNoise_poll.append hf.mainNoise).append (HMAttempt.mainNoise ha)).append mainNoise_poll
    have hline := line_of_frames hw hl h hs.st (legal_of hnoise) hrun d3.st
    rw [mwire_append, mframes_append, (last_events _).1, (last_events _).2, List.append_nil, List.append_nil] at hline
    refine ⟨_, _, hrun, ?_, houts, ⟨d3.st, d3.t15, d3.ferr, d3.crcf⟩⟩
    rw [hline]
    exact congrArg List.flatten (sends_replicate houts)
  · exact absurd hgood.crc hc

/-- **C62**, transactions that fail: if all `R + 1` attempts fail, the device puts the frame of the request on the line `R + 1` times and nothing else, and
the last poll makes exactly one callback, a communication error report for the addressed slave. -/
theorem C62_device_failure {cfg : Config} (hw : cfg.MWF) {ops : List HMOp} (hl : ∀ op ∈ ops, op.legal) {s s1 : MasterSys} {htr : HMTrace}
    (h : masterSysRun cfg MasterSys.powerOn (.main (.init .rtu) :: ops) = .ok (s, htr)) {fe ce : Bool} (hs : Standing fe ce s.lib)
    {r : MReq} (hq : QtyOk r) {o : List HMOut} (hp : masterSysStep cfg s (.main .poll) = .ok (s1, o)) (ho : libOuts o = [.send (reqFrame r)])
    {as : List HMAttempt} {fe1 ce1 fe2 ce2 : Bool} (hf : HFailed cfg.respTimeout r fe ce as fe1 ce1) (hlen : as.length = cfg.repeatMax) {a : HMAttempt}
    (ha : a.Wf cfg.respTimeout r) (h1 : fe2 = true ↔ fe1 = true ∨ a.gapped = true)
    (h2 : ce2 = true ↔ ce1 = true ∨ ¬ CrcCorrect a.resp.frame) (hbad : fe2 = true ∨ ce2 = true) :
    ∃ s' htr' rep, masterSysRun cfg s (.main .poll :: hretries as ++ a.init ++ [.main .poll]) =
        .ok (s', htr' ++ [(.main .poll, [.lib (.event (.commErr rep))])]) ∧
      mwire htr' = (List.replicate (cfg.repeatMax + 1) (reqFrame r)).flatten ∧
      outs (mainTrace htr') = List.replicate (cfg.repeatMax + 1) (.send (reqFrame r)) ∧ rep.slave = reqSlave r ∧
      rep.err = (if fe2 = true then .frame else .crc) ∧ Standing fe2 ce2 s'.lib := by
  obtain ⟨g, hi⟩ := device_inv hw hl h
  obtain ⟨i, g1, a1, a2⟩ := device_start hw hi hs hq hp ho
  obtain ⟨s2, t2, g2, b1, b2, b3, b4⟩ := device_failed hw hf a1 a2 (by simpa using Nat.le_of_eq hlen)
  obtain ⟨s3, t3, g3, c1, c2, c3, c4⟩ := device_attempt hw b3 b4 ha
  have hfe : (if a.gapped then Flag.set else flagOf fe1) = flagOf fe2 := by
    by_cases hb : a.gapped = true
    · rw [if_pos hb, h1.2 (.inr hb)]; rfl
    · rw [if_neg hb]
      have : fe2 = fe1 := bool_eq (h1.trans ⟨fun e => e.resolve_right hb, .inl⟩)
      rw [this]
  have hP : P6 i r (0 + BitVec.ofNat 8 as.length) (flagOf fe2) (flagOf ce2) a.resp.frame s3.lib := by
    rw [hfe] at c4
    rcases c4 with ⟨hc, c4⟩ | ⟨hc, c4⟩
    · have : ce2 = ce1 := bool_eq (h2.trans ⟨fun e => e.resolve_right (fun k => k hc), .inl⟩)
      rw [this]; exact c4
    · rw [h2.2 (.inr hc)]; exact c4
  have hR := hw.rle
  obtain ⟨l4, g4, fc, d1, -, d2, d3, d4, d5, d6⟩ := final_fail hw c3 hP (by rw [flagOf_set, flagOf_set]; exact hbad)
    (by simp; omega) ha.resp.1.some
  have hlast := sys_main (s := s3) (op := .poll) rfl (by simp) d1 (by simp)
  have hrun := sysM_append _ (sysM_append _ (sysM_append _ (sysM_one hp) b1) c1) (sysM_one hlast)
  have houts : outs (mainTrace ([(HMOp.main .poll, o)] ++ t2 ++ t3)) = List.replicate (cfg.repeatMax + 1) (.send (reqFrame r)) := by
    rw [mainTrace_append, mainTrace_append, outs_append, outs_append, b2, c2, List.append_nil, hlen]
    show outs [(MOp.poll, libOuts o)] ++ _ = _
    rw [ho]
    rfl
  have hnoise : MainNoise (.main .poll :: hretries as ++ a.init ++ [.main .poll]) :=
    ((mainNoise_poll.append hf.mainNoise).append (HMAttempt.mainNoise ha)).append mainNoise_poll
  have hline := line_of_frames hw hl h hs.st (legal_of hnoise) hrun d3
  rw [mwire_append, mframes_append, mwire_lib, mframes_none _ _ (by simp), List.append_nil, List.append_nil] at hline
  refine ⟨_, _, _, hrun, ?_, houts, ha.resp.2, ?_, ⟨d3, d4, d5, d6⟩⟩
  · rw [hline]
    exact congrArg List.flatten (sends_replicate houts)
  · simp only [flagOf_set]

end Modbus
