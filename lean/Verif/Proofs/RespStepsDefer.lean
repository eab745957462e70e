import Verif.Proofs.RespStepsPoll
import Verif.Proofs.RespStepsKept
import Verif.Proofs.ParseStepsPoll
import Verif.Proofs.MasterHist

/-! Interrupts that do not influence what a poll of the master does: they may as well occur after it. -/

namespace Modbus
variable {α : Type}

theorem mflatten_split (ints : List (List MEv)) : ints.flatten = ints.headD [] ++ ints.tail.flatten := by
  cases ints <;> rfl

theorem mrunProg_head (cfg : Config) {s : Master} (hd : s.drv = true) (hs : s.dataSet = true) (r : Master → MEv → Bool)
    (f : Master → C (α × Master × List MOut)) (k : α → MProg) (ints : List (List MEv)) :
    runProg (masterInt cfg) (.step r f k) ints s =
      (f (masterAfter s (ints.headD [])) >>= fun x => addOut x.2.2 (runProg (masterInt cfg) (k x.1) ints.tail x.2.1)) := by
  simp only [runProg, runInts_master cfg s hd hs, okBind]
  refine bind_congr_ok fun x _ => ?_
  cases runProg (masterInt cfg) (k x.1) ints.tail x.2.1 <;> rfl

theorem mrunProg_done (cfg : Config) {s : Master} (hd : s.drv = true) (hs : s.dataSet = true) (ints : List (List MEv)) :
    runProg (ω := MOut) (masterInt cfg) .done ints s = .ok (masterAfter s ints.flatten, []) := by
  simp only [runProg, runInts_master cfg s hd hs, okBind]
  rfl

/-- Interrupts that arrive before a piece of program may be given to its first step. -/
theorem mrunProg_push (cfg : Config) (p : MProg) {s : Master} (hd : s.drv = true) (hs : s.dataSet = true) (l : List MEv) (ints : List (List MEv)) :
    runProg (masterInt cfg) p ints (masterAfter s l) = runProg (masterInt cfg) p ((l ++ ints.headD []) :: ints.tail) s := by
  cases p with
  | done =>
    rw [mrunProg_done cfg (by exact hd) (by exact hs), mrunProg_done cfg hd hs, masterAfter_append, mflatten_split ints]
    simp only [List.flatten_cons, List.append_assoc]
  | step r f k =>
    rw [mrunProg_head cfg (by exact hd) (by exact hs), mrunProg_head cfg hd hs, masterAfter_append]
    rfl

/-- However the interrupts `F` are spread over the steps of `p`, the result is that of `p` without interrupts followed by `F`. -/
def Defers (cfg : Config) (p : MProg) (s : Master) (F : List MEv) : Prop :=
  ∀ ints : List (List MEv), ints.flatten = F →
    runProg (masterInt cfg) p ints s = (runProg (masterInt cfg) p [] s >>= fun x => .ok (masterAfter x.1 F, x.2))

theorem masterAfter_nil' (s : Master) : masterAfter s [] = s := by
  have := runInts_master Config.default { s with drv := true, dataSet := true } rfl rfl []
  have h : (masterAfter { s with drv := true, dataSet := true } []) = { s with drv := true, dataSet := true } := (Except.ok.inj this).symm
  have e : ∀ t u : Master, t = u → { t with drv := s.drv, dataSet := s.dataSet } = { u with drv := s.drv, dataSet := s.dataSet } := by rintro t _ rfl; rfl
  exact e _ _ h

theorem Defers.done (cfg : Config) {s : Master} (hd : s.drv = true) (hs : s.dataSet = true) (F : List MEv) : Defers cfg .done s F := by
  rintro ints rfl
  rw [mrunProg_done cfg hd hs, mrunProg_done cfg hd hs]
  simp only [okBind, List.flatten_nil, masterAfter_nil']

/-- A step that commutes with the interrupts arriving before it. -/
theorem Defers.step {cfg : Config} {s : Master} {F : List MEv} (hd : s.drv = true) (hs : s.dataSet = true) (r : Master → MEv → Bool)
    {f : Master → C (α × Master × List MOut)} {k : α → MProg}
    (hf : ∀ h, h <+: F → f (masterAfter s h) = (f s >>= fun x => .ok (x.1, masterAfter x.2.1 h, x.2.2)))
    (hk : ∀ x, f s = .ok x → x.2.1.drv = true ∧ x.2.1.dataSet = true ∧ Defers cfg (k x.1) x.2.1 F) : Defers cfg (.step r f k) s F := by
  intro ints e
  rw [mrunProg_head cfg hd hs, mrunProg_head cfg hd hs]
  have hp : ints.headD [] <+: F := ⟨ints.tail.flatten, by rw [← mflatten_split, e]⟩
  rw [hf _ hp]
  simp only [List.headD_nil, List.tail_nil, masterAfter_nil']
  cases hx : f s with
  | error u => rfl
  | ok x =>
    obtain ⟨h1, h2, h3⟩ := hk x hx
    simp only [okBind]
    rw [mrunProg_push cfg _ h1 h2, h3 _ (by rw [List.flatten_cons, List.append_assoc, ← mflatten_split, ← mflatten_split, e])]
    cases runProg (masterInt cfg) (k x.1) [] x.2.1 <;> rfl

theorem Defers.assign {cfg : Config} {s : Master} {F : List MEv} (hd : s.drv = true) (hs : s.dataSet = true) {f : Master → Master} {p : MProg}
    (hf : ∀ h, f (masterAfter s h) = masterAfter (f s) h) (h1 : (f s).drv = true) (h2 : (f s).dataSet = true) (hp : Defers cfg p (f s) F) :
    Defers cfg (assign f p) s F := by
  refine Defers.step hd hs _ (fun h _ => ?_) fun x hx => ?_
  · simp only [okBind, hf]
  · cases hx; exact ⟨h1, h2, hp⟩

theorem Defers.assignC {cfg : Config} {s : Master} {F : List MEv} (hd : s.drv = true) (hs : s.dataSet = true) {f : Master → C Master} {p : MProg}
    (hf : ∀ h, f (masterAfter s h) = (f s >>= fun t => .ok (masterAfter t h)))
    (h1 : ∀ t, f s = .ok t → t.drv = true ∧ t.dataSet = true ∧ Defers cfg p t F) : Defers cfg (assignC f p) s F := by
  refine Defers.step hd hs _ (fun h _ => ?_) fun x hx => ?_
  · rw [hf]; cases f s <;> rfl
  · obtain ⟨t, e1, e2⟩ := bind_ok hx
    cases e2
    exact h1 _ e1

theorem Defers.test {cfg : Config} {s : Master} {F : List MEv} (hd : s.drv = true) (hs : s.dataSet = true) {c : Master → Bool} {p q : MProg}
    (hc : ∀ h, h <+: F → c (masterAfter s h) = c s) (hp : c s = true → Defers cfg p s F) (hq : c s = false → Defers cfg q s F) :
    Defers cfg (test c p q) s F := by
  refine Defers.step hd hs _ (fun h hh => ?_) fun x hx => ?_
  · simp only [okBind, hc h hh]
  · cases hx
    refine ⟨hd, hs, ?_⟩
    cases h : c s
    · simpa using hq h
    · simpa using hp h

/-- The end of a transaction. -/
theorem defers_end {cfg : Config} {s : Master} (F : List MEv) (hd : s.drv = true) (hs : s.dataSet = true) : Defers cfg (masterProcessEndP cfg) s F := by
  refine Defers.assign hd hs (fun h => rfl) hd hs (Defers.assignC (s := { s with repeatCnt := 0 }) hd hs (fun h => ?_) fun t ht => ?_)
  · show (s.freeQ.push cfg.queueItems s.msgBuf >>= _) = (s.freeQ.push cfg.queueItems s.msgBuf >>= _) >>= _
    cases s.freeQ.push cfg.queueItems s.msgBuf <;> rfl
  · obtain ⟨y, -, e⟩ := bind_ok ht
    cases e
    refine ⟨hd, hs, ?_⟩
    refine Defers.assign ?_ ?_ (fun h => rfl) ?_ ?_ (Defers.done cfg ?_ ?_ F)
    all_goals first | exact hd | exact hs

/-- The positions `P` of the response buffer of message `i` keep their contents while the interrupts `F` arrive. -/
def MKept (P : Nat → Prop) (i : Nat) (s : Master) (F : List MEv) : Prop :=
  ∀ l, l <+: F → ∀ p, P p → ((masterAfter s l).msgs i).resp p = (s.msgs i).resp p

/-- Reading such positions, and calling the application. -/
theorem defers_toProg {cfg : Config} {P : Nat → Prop} {i : Nat} {k : α → MProg} {s : Master} {F : List MEv} (hd : s.drv = true)
    (hs : s.dataSet = true) (hm : MKept P i s F) (hk : ∀ a, Defers cfg (k a) s F) :
    ∀ m : RespM α, m.Reads P (s.msgs i).resp → Defers cfg (m.toProg i k) s F
  | .ret a, _ => hk a
  | .err u, _ => Defers.step hd hs _ (fun _ _ => rfl) fun _ hx => by cases hx
  | .rd j f, hr => by
    refine Defers.step hd hs _ (fun h hh => ?_) fun x hx => ?_
    · simp only [okBind, hm h hh j hr.1]
    · cases hx
      exact ⟨hd, hs, defers_toProg hd hs hm hk _ hr.2⟩
  | .emit e m, hr => by
    refine Defers.step hd hs _ (fun h hh => rfl) fun x hx => ?_
    cases hx
    exact ⟨hd, hs, defers_toProg hd hs hm hk m hr⟩

/-- Bytes are stored behind the response received so far. -/
theorem mkept_room {s : Master} {i : Nat} {F : List MEv} {n : Nat} (h : mrx F = [] ∨ n ≤ (s.msgs i).respLen.toNat ∧ (s.msgs i).respLen.toNat + (mrx F).length ≤ 256) :
    MKept (· < n) i s F := by
  intro l hl p hp
  show ((rxMsgs s.rxTarget s.msgs (mrx l)) i).resp p = _
  cases ht : s.rxTarget with
  | none => rfl
  | some j =>
    by_cases hj : i = j
    · subst hj
      simp only [rxMsgs, if_true]
      refine rxRun_kept (mrx l) _ _ n ?_ p hp
      obtain ⟨r, rfl⟩ := hl
      have e : mrx (l ++ r) = mrx l ++ mrx r := by simp [mrx]
      rw [e] at h
      rcases h with h | ⟨h1, h2⟩
      · exact .inl (List.append_eq_nil_iff.1 h).1
      · rw [List.length_append] at h2
        exact .inr ⟨h1, by omega⟩
    · simp [rxMsgs, hj]

/-- The response handed to the application. -/
theorem defers_correct {cfg : Config} {s : Master} {F : List MEv} (hd : s.drv = true) (hs : s.dataSet = true)
    (hk : ∀ i, s.msgBuf = some i → ∃ P, MKept P i s F ∧ (readSlaveRespR (s.msgs i)).Reads P (s.msgs i).resp) : Defers cfg (masterCorrectF cfg) s F := by
  have hn : ¬ (RET_OK ≠ checkNullPtr s.dataSet) := by rw [hs]; decide
  intro ints e
  have hp : ints.headD [] <+: F := ⟨ints.tail.flatten, by rw [← mflatten_split, e]⟩
  unfold masterCorrectF
  rw [mrunProg_head cfg hd hs, mrunProg_head cfg hd hs]
  simp only [okBind, List.headD_nil, List.tail_nil, masterAfter_nil', addOut_nil]
  have h1 : (masterAfter s (ints.headD [])).msgBuf = s.msgBuf := rfl
  have h2 : (masterAfter s (ints.headD [])).dataSet = s.dataSet := rfl
  rw [h1, h2]
  have hflat : ((ints.headD [] ++ ints.tail.headD []) :: ints.tail.tail).flatten = F := by
    rw [List.flatten_cons, List.append_assoc, ← mflatten_split, ← mflatten_split, e]
  cases hb : s.msgBuf with
  | none =>
    dsimp only
    rw [mrunProg_push cfg _ hd hs, defers_end F hd hs _ hflat]
  | some i =>
    dsimp only
    rw [if_neg hn]
    dsimp only
    have hreq : ((masterAfter s (ints.headD [])).msgs i).req = (s.msgs i).req := rxMsgs_req _ _ _ _
    rw [if_neg hn]
    dsimp only
    rw [respR_congr hreq, mrunProg_push cfg _ hd hs]
    obtain ⟨P, k1, k2⟩ := hk i hb
    exact defers_toProg hd hs k1 (fun _ => defers_end F hd hs) _ k2 _ hflat

theorem mark_keeps {l F : List MEv} (e : MEv) (h : l <+: F) (hn : e ∉ F) (f : Flag) : mark (hasEv e l) f = f := by
  have : hasEv e l = false := by
    obtain ⟨r, rfl⟩ := h
    exact decide_eq_false fun hx => hn (List.mem_append_left _ hx)
  rw [this]; rfl

/-- A poll that finds a complete response without errors. -/
theorem defers_received {cfg : Config} {s : Master} {F : List MEv} (hd : s.drv = true) (hs : s.dataSet = true) (hf : s.ferr = .cleared)
    (hc : s.crcf = .cleared) (ht : s.t35 = .set) (hn : .frameErr ∉ F)
    (hk : ∀ i, s.msgBuf = some i → ∃ P, MKept P i s F ∧ (readSlaveRespR (s.msgs i)).Reads P (s.msgs i).resp) : Defers cfg (masterReceivedF cfg) s F := by
  have ef : ∀ h, h <+: F → (masterAfter s h).ferr = s.ferr := fun h hh => mark_keeps _ hh hn _
  have et : ∀ h, (masterAfter s h).t35 = s.t35 := fun h => by
    show mark _ s.t35 = _
    rw [ht]; cases hasEv MEv.t35 h <;> rfl
  have h3 : Defers cfg (masterReceived3F cfg) s F := by
    refine Defers.test hd hs (fun h hh => by rw [ef h hh]) (fun _ => Defers.test hd hs (fun h _ => rfl) (fun _ => Defers.test hd hs (fun h _ => by rw [et h])
      (fun _ => defers_correct hd hs hk) fun _ => Defers.done cfg hd hs F) fun _ => Defers.done cfg hd hs F) fun _ => Defers.done cfg hd hs F
  refine Defers.test hd hs (fun h hh => by rw [ef h hh]) (fun e => ?_) fun _ => Defers.test hd hs (fun h _ => rfl) (fun e => ?_) fun _ => h3
  · rw [hf] at e; cases e
  · rw [hc] at e; cases e

theorem defers_pollF {cfg : Config} {s : Master} {F : List MEv} (hd : s.drv = true) (hs : s.dataSet = true) (hst : s.st = .received)
    (h : Defers cfg (masterReceivedF cfg) s F) : Defers cfg (masterPollF cfg) s F := by
  refine Defers.step hd hs _ (fun h _ => rfl) fun x hx => ?_
  cases hx
  refine ⟨hd, hs, ?_⟩
  dsimp only
  rw [hst]
  exact h

/-! ### The verdict about a response -/

/-- Up to the flags and the timer, `u` is `s` after the interrupts `l`. -/
structure Reached (s : Master) (l : List MEv) (u : Master) : Prop where
  msgs : u.msgs = (masterAfter s l).msgs
  rxTarget : u.rxTarget = s.rxTarget
  st : u.st = s.st
  crcf : u.crcf = s.crcf
  msgBuf : u.msgBuf = s.msgBuf
  drv : u.drv = s.drv
  dataSet : u.dataSet = s.dataSet

theorem Reached.nil (s : Master) : Reached s [] s := ⟨by rw [masterAfter_nil'], rfl, rfl, rfl, rfl, rfl, rfl⟩

theorem Reached.after {s u : Master} {l : List MEv} (h : Reached s l u) (k : List MEv) : Reached s (l ++ k) (masterAfter u k) := by
  refine ⟨?_, h.rxTarget, h.st, h.crcf, h.msgBuf, h.drv, h.dataSet⟩
  rw [← masterAfter_append]
  show rxMsgs u.rxTarget u.msgs (mrx k) = rxMsgs (masterAfter s l).rxTarget (masterAfter s l).msgs (mrx k)
  rw [h.msgs, h.rxTarget]; rfl

/-- Reading kept positions of a response. -/
theorem toMProg_kept (cfg : Config) (P : Nat → Prop) (i : Nat) (k : α → MProg) : ∀ (m : ReqM α) (s : Master) (ints : List (List MEv)), s.drv = true → s.dataSet = true →
    m.Reads P (s.msgs i).resp → MKept P i s ints.flatten →
    ∃ l ints', l ++ ints'.flatten = ints.flatten ∧
      runProg (masterInt cfg) (m.toMProg i k) ints s = (m.run (s.msgs i).resp >>= fun a => runProg (masterInt cfg) (k a) ints' (masterAfter s l))
  | .ret a, s, ints, hd, hs, _, _ => ⟨[], ints, rfl, by rw [masterAfter_nil']; rfl⟩
  | .err u, s, ints, hd, hs, _, _ => ⟨[], ints, rfl, by
      show runProg (masterInt cfg) (.step free _ _) ints s = _
      rw [mrunProg_head cfg hd hs]
      rfl⟩
  | .rd j f, s, ints, hd, hs, hr, hk => by
    have hh : ints.headD [] <+: ints.flatten := ⟨ints.tail.flatten, (mflatten_split ints).symm⟩
    have hv := hk _ hh
    have hc := reads_congr (b' := ((masterAfter s (ints.headD [])).msgs i).resp) hv (f ((s.msgs i).resp j)) hr.2
    have hk' : MKept P i (masterAfter s (ints.headD [])) ints.tail.flatten := by
      intro l hl p hp
      rw [masterAfter_append, hv p hp]
      refine hk _ ?_ p hp
      rw [mflatten_split]
      exact (List.prefix_append_right_inj _).2 hl
    obtain ⟨l, ints', e1, e2⟩ := toMProg_kept cfg P i k (f ((s.msgs i).resp j)) (masterAfter s (ints.headD [])) ints.tail hd hs hc.1 hk'
    refine ⟨ints.headD [] ++ l, ints', by rw [List.append_assoc, e1, ← mflatten_split], ?_⟩
    show runProg (masterInt cfg) (.step free _ _) ints s = _
    rw [mrunProg_head cfg hd hs]
    simp only [okBind, addOut_nil]
    rw [hv j hr.1, e2, hc.2.1, masterAfter_append]
    rfl

end Modbus
