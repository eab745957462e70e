import Verif.Proofs.MasterStmt

/-! Master device statement by statement: the driver's pointers and the line during a poll. -/

namespace Modbus

open Spec

/-- The request buffer the driver reads. -/
def MasterDev.buf (d : MasterDev) : Buf := (d.sys.lib.msgs d.sys.txMsg).req

/-- Nothing is being transmitted, the line carries all frames. -/
def Q0 (d : MasterDev) (o : List HMOut) : Prop :=
  d.lastMsg = d.sys.txMsg ∧ d.sys.cur = d.sys.last ∧ lineOf o = (handed o).flatten

/-- The last frame is being transmitted, up to the byte the pointer points to. -/
def Q1 (d : MasterDev) (o : List HMOut) : Prop :=
  d.lastMsg = d.sys.txMsg ∧ d.sys.cur < d.sys.last ∧ d.sys.last < 256 ∧ d.sys.lib.msgBuf = some d.sys.txMsg ∧
    ∃ done : List (List U8), handed o = done ++ [d.buf.bytes 0 (d.sys.last + 1)] ∧ lineOf o = done.flatten ++ d.buf.bytes 0 (d.sys.cur + 1)

/-- One of them, with `R` in the second case. -/
def Line (R : Master → Prop) (d : MasterDev) (o : List HMOut) : Prop := Q0 d o ∨ (Q1 d o ∧ R d.sys.lib)

/-- `R` does not depend on what interrupts other than the end of a transmission do. -/
def Steady (R : Master → Prop) : Prop := ∀ s l, R s → .txDone ∉ l → R (masterAfter s l)

theorem bytes_next (b : Buf) (n : Nat) : b.bytes 0 (n + 1) = b.bytes 0 n ++ [b n] := by
  rw [Buf.bytes_add, Buf.bytes_succ, Nat.zero_add]; rfl

theorem after_txf {s : Master} {l : List MEv} (h : .txDone ∉ l) : (masterAfter s l).txf = s.txf := by
  have : hasEv .txDone l = false := by simp [hasEv, h]
  simp only [masterAfter, this, unmark, Bool.false_eq_true, if_false]

theorem handed_tdr (o : List HMOut) (b : U8) : handed (o ++ [.tdr b]) = handed o := by simp [handed]

theorem line_tdr (o : List HMOut) (b : U8) : lineOf (o ++ [.tdr b]) = lineOf o ++ [b] := by simp [lineOf]

theorem q0_eff {d d' : MasterDev} {e : HMOp} {o o1 : List HMOut} (h : Q0 d o) (ef : IntEff d e d' o1) : Q0 d' (o ++ o1) := by
  obtain ⟨h1, h2, h3⟩ := h
  rcases ef.tx with ⟨t1, t2⟩ | ⟨-, t, -⟩
  · rw [t2, List.append_nil]
    exact ⟨by rw [ef.lastMsg, ef.txMsg]; exact h1, by rw [t1, ef.last]; exact h2, h3⟩
  · exact absurd t (by unfold More; omega)

theorem q1_eff {R : Master → Prop} (hR : Steady R) {d d' : MasterDev} {e : HMOp} {o o1 : List HMOut} (h : Q1 d o) (hr : R d.sys.lib)
    (ef : IntEff d e d' o1) : Line R d' (o ++ o1) := by
  obtain ⟨h1, h2, h3, h4, done, h5, h6⟩ := h
  have hm : More d := .inr ⟨h1.symm, h2⟩
  obtain ⟨l, e1, e2⟩ := ef.lib
  have hnt : MEv.txDone ∉ l := fun h => e2 h hm
  have hr' : R d'.sys.lib := by rw [e1]; exact hR _ _ hr hnt
  have hb : d'.buf = d.buf := by unfold MasterDev.buf; rw [ef.txMsg, e1]; exact after_req _ _ _
  have hmb : d'.sys.lib.msgBuf = some d'.sys.txMsg := by rw [e1, ef.txMsg]; exact h4
  have hlm : d'.lastMsg = d'.sys.txMsg := by rw [ef.lastMsg, ef.txMsg]; exact h1
  rcases ef.tx with ⟨t1, t2⟩ | ⟨-, -, t1, t2⟩
  · rw [t2, List.append_nil]
    refine .inr ⟨⟨hlm, by rw [t1, ef.last]; exact h2, by rw [ef.last]; exact h3, hmb, done, ?_, ?_⟩, hr'⟩
    · rw [hb, ef.last]; exact h5
    · rw [hb, t1]; exact h6
  · have hline : lineOf (o ++ o1) = done.flatten ++ d.buf.bytes 0 (d.sys.cur + 1 + 1) := by
      rw [t2, line_tdr, h6, bytes_next d.buf (d.sys.cur + 1), List.append_assoc]; rfl
    have hhand : handed (o ++ o1) = done ++ [d.buf.bytes 0 (d.sys.last + 1)] := by rw [t2, handed_tdr]; exact h5
    rcases Nat.lt_or_ge (d.sys.cur + 1) d.sys.last with hc | hc
    · refine .inr ⟨⟨hlm, by rw [t1, ef.last]; exact hc, by rw [ef.last]; exact h3, hmb, done, ?_, ?_⟩, hr'⟩
      · rw [hb, ef.last]; exact hhand
      · rw [hb, t1]; exact hline
    · have hc : d.sys.cur + 1 = d.sys.last := by omega
      refine .inl ⟨hlm, by rw [t1, ef.last]; exact hc, ?_⟩
      rw [hline, hhand, hc, List.flatten_append]; simp

theorem line_stable {cfg : Config} {R : Master → Prop} (hR : Steady R) : Stable cfg True free (Line R) := by
  intro d o e d0 hi hd hs _
  have h := devInt_eff (cfg := cfg) hd hs e
  cases hx : masterDevInt cfg d e with
  | error er =>
    rw [hx] at h
    obtain ⟨-, h1, h2⟩ := h
    exfalso
    rcases hi with ⟨k1, k2, -⟩ | ⟨⟨k1, k2, k3, -⟩, -⟩
    · unfold More at h1; omega
    · omega
  | ok y =>
    obtain ⟨d', o1⟩ := y
    rw [hx] at h
    rcases hi with hi | ⟨hi, hr⟩
    · exact .inl (q0_eff hi h)
    · exact q1_eff hR hi hr h

theorem q0_stable {cfg : Config} : Stable cfg True free Q0 := by
  intro d o e d0 hi hd hs _
  have h := devInt_eff (cfg := cfg) hd hs e
  cases hx : masterDevInt cfg d e with
  | error er =>
    rw [hx] at h
    obtain ⟨-, h1, h2⟩ := h
    obtain ⟨k1, k2, -⟩ := hi
    unfold More at h1; omega
  | ok y =>
    obtain ⟨d', o1⟩ := y
    rw [hx] at h
    exact q0_eff hi h

/-- Claims about undisturbed executions only. -/
theorem Stable.imp {cfg : Config} {U : Prop} {r : MasterDev → HMOp → Bool} {L : MasterDev → List HMOut → Prop} (h : Stable cfg True r L) :
    Stable cfg U r (fun d o => U → L d o) := by
  intro d o e d0 hi hd hs hr
  by_cases u : U
  · have h1 := h d o e d0 (hi u) hd hs (fun _ => hr u)
    cases hx : masterDevInt cfg d e with
    | error er => rw [hx] at h1; exact absurd trivial h1
    | ok y =>
      obtain ⟨d', o1⟩ := y
      rw [hx] at h1
      exact fun _ => h1
  · cases hx : masterDevInt cfg d e with
    | error er => exact u
    | ok y => exact fun hu => absurd hu u

/-- The library is waiting for the end of the transmission. -/
def Trans (s : Master) : Prop := s.txf = .set ∧ s.st = .transmitting

theorem steady_true : Steady fun _ => True := fun _ _ _ _ => trivial
theorem steady_txf : Steady fun s => s.txf = .set := fun _ _ h hn => (after_txf hn).trans h
theorem steady_trans : Steady Trans := fun _ _ h hn => ⟨(after_txf hn).trans h.1, h.2⟩

/-- What holds between polls. -/
def LineU (U : Prop) (d : MasterDev) (o : List HMOut) : Prop := U → Line Trans d o

/-! ### Library code that sends nothing -/

/-- It keeps the driver and hands nothing to it. -/
def Plain : MProg → Prop
  | .done => True
  | .step _ f k => ∀ s a s' o, f s = .ok (a, s', o) → s.drv = true → s.dataSet = true →
      s'.drv = true ∧ s'.dataSet = true ∧ (∀ g, MOut.send g ∉ o) ∧ Plain (k a)

theorem handed_lib {o : List MOut} (h : ∀ g, MOut.send g ∉ o) : handed (o.map .lib) = [] := by
  induction o with
  | nil => rfl
  | cons x o ih =>
    have ih := ih fun g hg => h g (List.mem_cons_of_mem _ hg)
    cases x with
    | send g => exact absurd (List.mem_cons_self ..) (h g)
    | ret c => simpa [handed] using ih
    | event e => simpa [handed] using ih

theorem q0_lib {d : MasterDev} {o : List HMOut} (h : Q0 d o) (l : Master) {o1 : List MOut} (hn : ∀ g, MOut.send g ∉ o1) :
    Q0 { d with sys := { d.sys with lib := l } } (o ++ o1.map .lib) := by
  obtain ⟨h1, h2, h3⟩ := h
  refine ⟨h1, h2, ?_⟩
  rw [lineOf_append, handed_append, lineOf_lib, handed_lib hn, List.append_nil, List.append_nil]
  exact h3

theorem tr_lift {cfg : Config} {U : Prop} {p : MProg} (hp : Plain p) : Tr cfg U (LineU U) (liftP p) p (fun d o => U → Q0 d o) := by
  induction p with
  | done => exact tr_done q0_stable.imp fun d o h u => .inl (h u)
  | step r f k ih =>
    refine tr_lib q0_stable.imp fun d o hi hd hs => ?_
    cases hf : f d.sys.lib with
    | error e => rfl
    | ok x =>
      obtain ⟨a, l, o1⟩ := x
      obtain ⟨h1, h2, h3, h4⟩ := hp _ _ _ _ hf hd hs
      refine ⟨a, ?_, h1, h2, (fun d o => U → Q0 d o), fun u => q0_lib (hi u) l h3, ih a h4⟩
      rw [libOuts_map]

/-! ### `send` -/

/-- The frame of length `n` in message `i` has been handed over. -/
def Handed (i n : Nat) (d : MasterDev) (o : List HMOut) : Prop :=
  d.sys.lib.msgBuf = some i ∧ n ≤ 256 ∧ ∃ done : List (List U8), handed o = done ++ [(d.sys.lib.msgs i).req.bytes 0 n] ∧ lineOf o = done.flatten

theorem handed_eff {i n : Nat} {d d' : MasterDev} {e : HMOp} {o o1 : List HMOut} (h : Handed i n d o) (ef : IntEff d e d' o1) (ho : o1 = []) :
    Handed i n d' (o ++ o1) := by
  obtain ⟨h1, h2, done, h3, h4⟩ := h
  obtain ⟨l, e1, -⟩ := ef.lib
  rw [ho, List.append_nil]
  refine ⟨by rw [e1]; exact h1, h2, done, ?_, h4⟩
  rw [e1, after_req]; exact h3

/-- Before the first assignment. -/
def A1 (i n : Nat) (d : MasterDev) (o : List HMOut) : Prop := d.lastMsg = d.sys.txMsg ∧ d.sys.cur = d.sys.last ∧ Handed i n d o
/-- Before the second one. -/
def A2 (i n : Nat) (d : MasterDev) (o : List HMOut) : Prop := d.sys.txMsg = i ∧ d.sys.cur = 0 ∧ Handed i n d o
/-- Before the third one. -/
def A3 (i n : Nat) (d : MasterDev) (o : List HMOut) : Prop := d.lastMsg = i ∧ d.sys.last = n - 1 ∧ A2 i n d o

theorem a1_stable {cfg : Config} {i n : Nat} : Stable cfg True free (A1 i n) := by
  intro d o e d0 hi hd hs _
  obtain ⟨k1, k2, k3⟩ := hi
  have h := devInt_eff (cfg := cfg) hd hs e
  have hm : ¬ More d := by unfold More; omega
  cases hx : masterDevInt cfg d e with
  | error er =>
    rw [hx] at h
    exact absurd h.2.1 hm
  | ok y =>
    obtain ⟨d', o1⟩ := y
    rw [hx] at h
    have h : IntEff d e d' o1 := h
    rcases h.tx with ⟨t1, t2⟩ | ⟨-, t, -⟩
    · exact ⟨by rw [h.lastMsg, h.txMsg]; exact k1, by rw [t1, h.last]; exact k2, handed_eff k3 h t2⟩
    · exact absurd t hm

/-- The mark of the driver's assignments. -/
def markTx : MasterDev → HMOp → Bool := fun _ e => e.isTxe

theorem marked_eff {cfg : Config} {d : MasterDev} (hd : d.sys.lib.drv = true) (hs : d.sys.lib.dataSet = true) {e : HMOp} (h : e.isTxe = false) :
    ∃ d' , masterDevInt cfg d e = .ok (d', []) ∧ IntEff d e d' [] ∧ d'.sys.cur = d.sys.cur := by
  have h1 := devInt_eff (cfg := cfg) hd hs e
  cases hx : masterDevInt cfg d e with
  | error er =>
    rw [hx] at h1
    rw [h1.1] at h
    cases h
  | ok y =>
    obtain ⟨d', o1⟩ := y
    rw [hx] at h1
    have h1 : IntEff d e d' o1 := h1
    rcases h1.tx with ⟨t1, t2⟩ | ⟨t, -⟩
    · subst t2
      exact ⟨d', rfl, h1, t1⟩
    · rw [t] at h; cases h

theorem a2_eff {i n : Nat} {d d' : MasterDev} {e : HMOp} {o : List HMOut} (h : A2 i n d o) (ef : IntEff d e d' []) (hc : d'.sys.cur = d.sys.cur) :
    A2 i n d' (o ++ []) := by
  obtain ⟨k1, k2, k3⟩ := h
  exact ⟨by rw [ef.txMsg]; exact k1, by rw [hc]; exact k2, handed_eff k3 ef rfl⟩

theorem a2_stable {cfg : Config} {i n : Nat} : Stable cfg True markTx (A2 i n) := by
  intro d o e d0 hi hd hs hr
  obtain ⟨d', h1, h2, h3⟩ := marked_eff (cfg := cfg) hd hs (hr trivial)
  rw [h1]
  exact a2_eff hi h2 h3

theorem a3_stable {cfg : Config} {i n : Nat} : Stable cfg True markTx (A3 i n) := by
  intro d o e d0 hi hd hs hr
  obtain ⟨d', h1, h2, h3⟩ := marked_eff (cfg := cfg) hd hs (hr trivial)
  rw [h1]
  exact ⟨by rw [h2.lastMsg]; exact hi.1, by rw [h2.last]; exact hi.2.1, a2_eff hi.2.2 h2 h3⟩

/-- The rest of the library's function after the driver's. -/
theorem tr_afterSend {cfg : Config} {U : Prop} :
    Tr cfg U (LineU U)
      (liftP (assignC masterEnableRx (assign (fun s => { s with txf := .set }) (assign (fun s => { s with st := .transmitting }) .done))))
      (assignC masterEnableRx (assign (fun s => { s with txf := .set }) (assign (fun s => { s with st := .transmitting }) .done)))
      (fun d o => U → Line (fun _ => True) d o) := by
  refine tr_lib (line_stable steady_true).imp fun d o hi hd hs => ?_
  cases hm : d.sys.lib.msgBuf with
  | none =>
    have he : masterEnableRx d.sys.lib = .error .nullDeref := by
      unfold masterEnableRx; rw [hd, hm]; rfl
    simp only [he, error_bind]
  | some i =>
    have he := masterEnableRx_ok hd hm
    simp only [he, ok_bind, pure_eq, List.map_nil, List.append_nil]
    refine ⟨(), rfl, hd, hs, (fun d o => U → Line (fun _ => True) d o), fun u => ?_, ?_⟩
    · rcases hi u with h | ⟨h, -⟩
      · exact .inl h
      · exact .inr ⟨h, trivial⟩
    refine tr_lib (line_stable steady_true).imp fun d o hi hd hs => ?_
    simp only [pure_eq, ok_bind, List.map_nil, List.append_nil]
    refine ⟨(), rfl, hd, hs, (fun d o => U → Line (fun s => s.txf = .set) d o), fun u => ?_, ?_⟩
    · rcases hi u with h | ⟨h, -⟩
      · exact .inl h
      · exact .inr ⟨h, rfl⟩
    refine tr_lib (line_stable steady_txf).imp fun d o hi hd hs => ?_
    simp only [pure_eq, ok_bind, List.map_nil, List.append_nil]
    refine ⟨(), rfl, hd, hs, (fun d o => U → Line Trans d o), fun u => ?_, ?_⟩
    · rcases hi u with h | ⟨h, h2⟩
      · exact .inl h
      · exact .inr ⟨h, h2, rfl⟩
    exact tr_done (line_stable steady_trans).imp fun d o h => h

theorem tr_tail {cfg : Config} {U : Prop} {Post : MasterDev → List HMOut → Prop} {k : DProg} {p : MProg}
    (hk : Tr cfg U Post k p (fun d o => U → Line (fun _ => True) d o)) :
    Tr cfg U Post (masterUsartTailP k) p (fun d o => U → Line (fun _ => True) d o) := by
  have same : ∀ {d : MasterDev} {o : List HMOut} (g r : Bool), Line (fun _ => True) d o →
      Line (fun _ => True) { d with sys := { d.sys with gap := g, rtof := r } } (o ++ []) := by
    intro d o g r h
    rw [List.append_nil]
    rcases h with h | ⟨h, -⟩
    · exact .inl h
    · exact .inr ⟨h, trivial⟩
  refine tr_drv (Inv' := fun d o => U → Line (fun _ => True) d o) (line_stable steady_true).imp
    (fun d o hi _ _ => ⟨_, [], rfl, rfl, rfl, fun u => same false d.sys.rtof (hi u)⟩) ?_
  refine tr_drv (Inv' := fun d o => U → Line (fun _ => True) d o) (line_stable steady_true).imp
    (fun d o hi _ _ => ⟨_, [], rfl, rfl, rfl, fun u => same d.sys.gap d.sys.rtof (hi u)⟩) ?_
  exact tr_drv (Inv' := fun d o => U → Line (fun _ => True) d o) (line_stable steady_true).imp
    (fun d o hi _ _ => ⟨_, [], rfl, rfl, rfl, fun u => same d.sys.gap false (hi u)⟩) hk

/-- The driver's `send`. -/
theorem tr_usart {cfg : Config} {U : Prop} {Post : MasterDev → List HMOut → Prop} {k : DProg} {p : MProg} {i n : Nat}
    (hk : Tr cfg U Post k p (fun d o => U → Line (fun _ => True) d o)) :
    Tr cfg U Post (masterUsartSendP i n k) p (fun d o => U → A1 i n d o) := by
  unfold masterUsartSendP
  split
  · rename_i hn
    refine tr_drv (Inv' := fun d o => U → A2 i n d o) a1_stable.imp (fun d o hi _ _ => ⟨_, [], rfl, rfl, rfl, fun u => ?_⟩) ?_
    · rw [List.append_nil]
      exact ⟨rfl, rfl, (hi u).2.2⟩
    refine tr_drv (Inv' := fun d o => U → A3 i n d o) (Stable.imp (r := markTx) a2_stable) (fun d o hi _ _ => ⟨_, [], rfl, rfl, rfl, fun u => ?_⟩) ?_
    · rw [List.append_nil]
      exact ⟨rfl, rfl, hi u⟩
    refine tr_drv (Inv' := fun d o => U → Line (fun _ => True) d o) (Stable.imp (r := markTx) a3_stable)
      (fun d o hi _ _ => ⟨d, [.tdr ((d.sys.lib.msgs i).req 0)], ?_, rfl, rfl, fun u => ?_⟩) ?_
    · simp only [rd_ok (d.sys.lib.msgs i).req (show 0 < 256 by decide), ok_bind, pure_eq]
    · obtain ⟨k1, k2, k3, k4, k5, k6, done, k7, k8⟩ := hi u
      have hb : d.buf = (d.sys.lib.msgs i).req := by unfold MasterDev.buf; rw [k3]
      have hline : lineOf (o ++ [.tdr ((d.sys.lib.msgs i).req 0)]) = done.flatten ++ d.buf.bytes 0 (d.sys.cur + 1) := by
        rw [line_tdr, k8, hb, k4, bytes_next]; rfl
      have hh : handed (o ++ [.tdr ((d.sys.lib.msgs i).req 0)]) = done ++ [d.buf.bytes 0 (d.sys.last + 1)] := by
        rw [handed_tdr, k7, hb, k2, Nat.sub_add_cancel hn]
      rcases Nat.lt_or_ge 0 (n - 1) with hc | hc
      · refine .inr ⟨⟨k1.trans k3.symm, by rw [k4, k2]; exact hc, by rw [k2]; omega, by rw [k3]; exact k5, done, hh, hline⟩, trivial⟩
      · refine .inl ⟨k1.trans k3.symm, by rw [k4, k2]; omega, ?_⟩
        rw [hline, hh, k2, k4, show n - 1 = 0 by omega, List.flatten_append]; simp
    refine tr_drv (Inv' := fun d o => U → Line (fun _ => True) d o) (line_stable steady_true).imp
      (fun d o hi _ _ => ⟨d, [], rfl, rfl, rfl, fun u => by rw [List.append_nil]; exact hi u⟩) ?_
    exact tr_tail hk
  · rename_i hn
    have hn : n = 0 := by omega
    subst hn
    have h := tr_tail hk
    intro ints d o hi hd hs hr
    refine h ints d o (fun u => ?_) hd hs hr
    obtain ⟨k1, k2, k3, k4, done, k7, k8⟩ := hi u
    refine .inl ⟨k1, k2, ?_⟩
    rw [k8, k7, List.flatten_append]
    simp [Buf.bytes]

/-- `modbus_master_send_req_from_msg_buf`. -/
theorem tr_send {cfg : Config} {U : Prop} : Tr cfg U (LineU U) masterDevSendP masterSendP (fun d o => U → Q0 d o) := by
  refine tr_lib q0_stable.imp fun d o hi hd hs => ?_
  cases hm : d.sys.lib.msgBuf with
  | none =>
    have he : masterDrvSend d.sys.lib = .error .nullDeref := by unfold masterDrvSend; rw [hd, hm]; rfl
    simp only [he, error_bind]
  | some i =>
    have he : masterDrvSend d.sys.lib = .ok [.send ((d.sys.lib.msgs i).req.bytes 0 (d.sys.lib.msgs i).reqLen.toNat)] := by
      unfold masterDrvSend; rw [hd, hm, hs]; rfl
    have ha : masterSendArgs d.sys.lib = .ok (i, (d.sys.lib.msgs i).reqLen.toNat) := by unfold masterSendArgs; rw [hm]
    simp only [he, ha, ok_bind, pure_eq]
    refine ⟨(), rfl, hd, hs, (fun d' o => U → A1 i (d.sys.lib.msgs i).reqLen.toNat d' o), fun u => ?_, tr_usart tr_afterSend⟩
    obtain ⟨k1, k2, k3⟩ := hi u
    refine ⟨k1, k2, hm, Nat.le_of_lt (d.sys.lib.msgs i).reqLen.isLt, handed o, ?_, ?_⟩
    · rw [handed_append]; rfl
    · rw [lineOf_append, lineOf_lib, List.append_nil]; exact k3

theorem tr_idle {cfg : Config} {U : Prop} : Tr cfg U (LineU U) (masterDevIdleP cfg) (masterIdleP cfg) (fun d o => U → Q0 d o) := by
  refine tr_lib q0_stable.imp fun d o hi hd hs => ?_
  refine ⟨d.sys.lib.txQ.available, rfl, hd, hs, (fun d o => U → Q0 d o), by simpa using hi, ?_⟩
  by_cases hav : d.sys.lib.txQ.available = true
  · simp only [hav, if_true]
    refine tr_lib q0_stable.imp fun d o hi hd hs => ?_
    cases hp : d.sys.lib.txQ.pop cfg.queueItems with
    | error e => simp only [hp, error_bind]
    | ok x =>
      obtain ⟨x, tq⟩ := x
      simp only [hp, ok_bind, pure_eq]
      exact ⟨(), rfl, hd, hs, (fun d o => U → Q0 d o), fun u => by rw [List.append_nil]; exact hi u, tr_send⟩
  · simp only [hav]
    exact tr_done (Post := LineU U) q0_stable.imp fun d o h u => Or.inl (h u)

/-! ### The other states -/

theorem plain_assign {f : Master → Master} {k : MProg} (h : ∀ s, (f s).drv = s.drv ∧ (f s).dataSet = s.dataSet) (hk : Plain k) : Plain (assign f k) := by
  intro s a s' o e hd hs
  cases e
  exact ⟨(h s).1.trans hd, (h s).2.trans hs, nofun, hk⟩

theorem plain_assignC {f : Master → C Master} {k : MProg} (h : ∀ s s', f s = .ok s' → s'.drv = s.drv ∧ s'.dataSet = s.dataSet) (hk : Plain k) :
    Plain (assignC f k) := by
  intro s a s' o e hd hs
  obtain ⟨t, e1, e2⟩ := bind_ok e
  cases e2
  exact ⟨(h _ _ e1).1.trans hd, (h _ _ e1).2.trans hs, nofun, hk⟩

theorem plain_test {c : Master → Bool} {p q : MProg} (hp : Plain p) (hq : Plain q) : Plain (test c p q) := by
  intro s a s' o e hd hs
  cases e
  refine ⟨hd, hs, nofun, ?_⟩
  show Plain (if c s = true then p else q)
  split
  · exact hp
  · exact hq

/-- A step that reads. -/
theorem plain_read {α : Type} {r : Master → MEv → Bool} {f : Master → C (α × Master × List MOut)} {k : α → MProg}
    (h : ∀ s a s' o, f s = .ok (a, s', o) → s' = s ∧ ∀ g, MOut.send g ∉ o) (hk : ∀ a, Plain (k a)) : Plain (.step r f k) := by
  intro s a s' o e hd hs
  obtain ⟨rfl, h2⟩ := h _ _ _ _ e
  exact ⟨hd, hs, h2, hk a⟩

theorem clear_keeps (s s' : Master) (h : clearRespLen s = .ok s') : s'.drv = s.drv ∧ s'.dataSet = s.dataSet := by
  unfold clearRespLen at h
  split at h
  · cases h
  · cases h; exact ⟨rfl, rfl⟩

theorem plain_processEnd (cfg : Config) : Plain (masterProcessEndP cfg) := by
  refine plain_assign (fun s => ⟨rfl, rfl⟩) (plain_assignC (fun s s' h => ?_) (plain_assign (fun s => ⟨rfl, rfl⟩) trivial))
  obtain ⟨x, -, h⟩ := bind_ok h
  cases h
  exact ⟨rfl, rfl⟩

/-- Two reads, nothing else. -/
theorem read2 {α β : Type} {f : Master → C α} {g : α → C β} {s s' : Master} {a : β} {o : List MOut}
    (h : (do let m ← f s; let x ← g m; return (x, s, []) : C (β × Master × List MOut)) = .ok (a, s', o)) : s' = s ∧ ∀ g, MOut.send g ∉ o := by
  obtain ⟨m, -, h⟩ := bind_ok h
  obtain ⟨x, -, h⟩ := bind_ok h
  cases h
  exact ⟨rfl, nofun⟩

theorem plain_timeout (cfg : Config) : Plain (masterTimeoutP cfg) := by
  refine plain_read (fun s a s' o h => read2 h) fun x1 => plain_read (fun s a s' o h => read2 h) fun x2 =>
    plain_read (fun s a s' o h => read2 h) fun x3 => plain_read (fun s a s' o h => read2 h) fun x4 => plain_read (fun s a s' o h => ?_) fun _ => plain_processEnd cfg
  cases h
  exact ⟨rfl, by simp⟩

theorem plain_recv : Plain masterRecvP := by
  refine plain_read (fun s a s' o h => read2 h) fun id => plain_assign (fun s => ⟨rfl, rfl⟩) (plain_assign (fun s => ⟨rfl, rfl⟩)
    (plain_read (fun s a s' o h => read2 h) fun r => ?_))
  split
  · exact plain_assign (fun s => ⟨rfl, rfl⟩) (plain_assign (fun s => ⟨rfl, rfl⟩) (plain_assign (fun s => ⟨rfl, rfl⟩) trivial))
  · split
    · exact plain_assignC clear_keeps trivial
    · exact plain_assign (fun s => ⟨rfl, rfl⟩) (plain_assign (fun s => ⟨rfl, rfl⟩) trivial)

theorem plain_waiting (cfg : Config) : Plain (masterWaitingP cfg) := plain_test plain_recv (plain_test (plain_timeout cfg) trivial)

theorem plain_correct (cfg : Config) : Plain (masterCorrectP cfg) := by
  refine plain_read (fun s a s' o h => ?_) fun _ => plain_processEnd cfg
  obtain ⟨ev, -, h⟩ := bind_ok h
  cases h
  exact ⟨rfl, by simp⟩

theorem plain_comm (cfg : Config) (e : RespErr) : Plain (masterCommP cfg e) := by
  refine plain_read (fun s a s' o h => read2 h) fun x1 => plain_read (fun s a s' o h => read2 h) fun x2 => plain_read (fun s a s' o h => ?_) fun _ => plain_processEnd cfg
  cases h
  exact ⟨rfl, by simp⟩

theorem plain_crc (cfg : Config) : Plain (masterCrcErrorP cfg) :=
  plain_assign (fun _ => ⟨rfl, rfl⟩) (plain_test (plain_assign (fun _ => ⟨rfl, rfl⟩) (plain_assign (fun _ => ⟨rfl, rfl⟩) (plain_assignC clear_keeps trivial)))
    (plain_comm cfg _))

theorem plain_frame (cfg : Config) : Plain (masterFrameErrorP cfg) :=
  plain_assign (fun _ => ⟨rfl, rfl⟩) (plain_test (plain_assign (fun _ => ⟨rfl, rfl⟩) (plain_assign (fun _ => ⟨rfl, rfl⟩) (plain_assignC clear_keeps trivial)))
    (plain_comm cfg _))

theorem plain_received3 (cfg : Config) : Plain (masterReceived3P cfg) :=
  plain_test (plain_test (plain_test (plain_correct cfg) trivial) trivial) trivial

theorem plain_received (cfg : Config) : Plain (masterReceivedP cfg) := by
  refine plain_test (plain_test (plain_frame cfg) (plain_read (fun s a s' o h => ?_) fun b => ?_))
    (plain_test (plain_test (plain_crc cfg) (plain_received3 cfg)) (plain_received3 cfg))
  · cases h; exact ⟨rfl, nofun⟩
  · split
    · refine plain_read (fun s a s' o h => ?_) fun b => ?_
      · cases h; exact ⟨rfl, nofun⟩
      · split
        · exact plain_crc cfg
        · exact plain_received3 cfg
    · exact plain_received3 cfg

theorem tr_transmitting {cfg : Config} {U : Prop} : Tr cfg U (LineU U) (liftP (masterTransmittingP cfg)) (masterTransmittingP cfg) (LineU U) := by
  refine tr_lib (line_stable steady_trans).imp fun d o hi hd hs => ?_
  refine ⟨_, rfl, hd, hs, ?_⟩
  by_cases hc : d.sys.lib.txf = .cleared
  · refine ⟨(fun d o => U → Q0 d o), fun u => ?_, ?_⟩
    · rcases hi u with h | ⟨-, h, -⟩
      · exact q0_lib (o1 := []) h d.sys.lib nofun
      · rw [h] at hc; cases hc
    · simp only [hc, decide_true, if_true]
      exact tr_lift (plain_assignC clear_keeps (plain_assign (fun _ => ⟨rfl, rfl⟩) (plain_assign (fun _ => ⟨rfl, rfl⟩) trivial)))
  · refine ⟨LineU U, fun u => ?_, ?_⟩
    · simp only [List.map_nil, List.append_nil]
      exact hi u
    · simp only [hc, decide_false, Bool.false_eq_true, if_false]
      exact tr_done (line_stable steady_trans).imp fun d o h => h

/-- A poll. -/
theorem tr_poll {cfg : Config} {U : Prop} : Tr cfg U (LineU U) (masterDevPollP cfg) (masterPollP cfg) (LineU U) := by
  refine tr_lib (line_stable steady_trans).imp fun d o hi hd hs => ?_
  refine ⟨d.sys.lib.st, rfl, hd, hs, ?_⟩
  have hq : d.sys.lib.st ≠ .transmitting → U → Q0 d (o ++ []) := by
    intro hst u
    rw [List.append_nil]
    rcases hi u with h | ⟨-, -, h⟩
    · exact h
    · exact absurd h hst
  cases hst : d.sys.lib.st with
  | idle => exact ⟨(fun d o => U → Q0 d o), hq (by rw [hst]; nofun), tr_idle⟩
  | repeatRequest => exact ⟨(fun d o => U → Q0 d o), hq (by rw [hst]; nofun), tr_send⟩
  | transmitting => exact ⟨LineU U, fun u => by rw [List.append_nil]; exact hi u, tr_transmitting⟩
  | waiting => exact ⟨(fun d o => U → Q0 d o), hq (by rw [hst]; nofun), tr_lift (plain_waiting cfg)⟩
  | received => exact ⟨(fun d o => U → Q0 d o), hq (by rw [hst]; nofun), tr_lift (plain_received cfg)⟩

end Modbus
