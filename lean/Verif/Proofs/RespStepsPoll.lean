import Verif.Proofs.RespSteps

/-! A master poll interrupted between any two reads of the response buffer is an atomic poll up to what interrupts write. -/

namespace Modbus
open Spec
variable {α β : Type}

/-- Statements about every continuation of `s` hold of every continuation of a like state. -/
theorem wp_sim {E : UB → Prop} {Q : Master → List MOut → Prop} {p : MProg} {s t : Master} {o : List MOut} (h : MSim s t) (hp : wp E p s o Q) : wp E p t o Q := by
  cases p with
  | done => exact fun u hu => hp u (h.trans hu)
  | step r f k => exact fun u hu => hp u (h.trans hu)

/-- Reading a response and calling the application, the bytes read being arbitrary. -/
theorem wp_toProg {E : UB → Prop} {Q : Master → List MOut → Prop} {i : Nat} {m : RespM α} {k : α → MProg} :
    ∀ {s : Master} {o : List MOut}, s.drv = true → s.dataSet = true → Kn s →
    (∀ a l, m.Torn (.ok (a, l)) → wp E (k a) s (o ++ l.map .event) Q) → (∀ e, m.Torn (.error e) → E e) → wp E (m.toProg i k) s o Q := by
  induction m with
  | ret a =>
    intro s o hd hs hk h1 h2
    have := h1 a [] rfl
    rwa [List.map_nil, List.append_nil] at this
  | err u => intro s o hd hs hk h1 h2 t ht; exact h2 u rfl
  | rd j f ih =>
    intro s o hd hs hk h1 h2 t ht
    refine ⟨ht.drv.trans hd, ht.dataSet.trans hs, ht.kn, ?_⟩
    rw [List.append_nil]
    exact ih _ (ht.drv.trans hd) (ht.dataSet.trans hs) ht.kn (fun a l hh => wp_sim ht (h1 a l ⟨_, hh⟩)) fun e hh => h2 e ⟨_, hh⟩
  | emit e m ih =>
    intro s o hd hs hk h1 h2 t ht
    refine ⟨ht.drv.trans hd, ht.dataSet.trans hs, ht.kn, ?_⟩
    refine ih (ht.drv.trans hd) (ht.dataSet.trans hs) ht.kn (fun a l hh => ?_) fun x hh => h2 x ⟨_, hh, rfl⟩
    have := h1 a (e :: l) ⟨_, hh, rfl⟩
    rw [List.append_assoc]
    exact wp_sim ht this

/-- The possible results when every read may give any byte. -/
def ReqM.Torn : ReqM α → C α → Prop
  | .ret a, r => r = .ok a
  | .err u, r => r = .error u
  | .rd _ k, r => ∃ b, (k b).Torn r

theorem wp_toMProg {E : UB → Prop} {Q : Master → List MOut → Prop} {i : Nat} {m : ReqM α} {k : α → MProg} :
    ∀ {s : Master} {o : List MOut}, s.drv = true → s.dataSet = true → Kn s →
    (∀ a, m.Torn (.ok a) → wp E (k a) s o Q) → (∀ e, m.Torn (.error e) → E e) → wp E (m.toMProg i k) s o Q := by
  induction m with
  | ret a => intro s o hd hs hk h1 h2; exact h1 a rfl
  | err u => intro s o hd hs hk h1 h2 t ht; exact h2 u rfl
  | rd j f ih =>
    intro s o hd hs hk h1 h2 t ht
    refine ⟨ht.drv.trans hd, ht.dataSet.trans hs, ht.kn, ?_⟩
    rw [List.append_nil]
    exact ih _ (ht.drv.trans hd) (ht.dataSet.trans hs) ht.kn (fun a hh => wp_sim ht (h1 a ⟨_, hh⟩)) fun e hh => h2 e ⟨_, hh⟩

theorem torn_crc : ∀ (n pos : Nat) (c : U16) {r : C Ret} {f : U16 → ReqM Ret}, pos + n ≤ 256 → (crcLoopR n pos c >>= f).Torn r → ∃ c', (f c').Torn r
  | 0, _, c, r, f, _, h => ⟨c, h⟩
  | n + 1, pos, c, r, f, hp, h => by
    have e : crcLoopR (n + 1) pos c = .rd pos fun x => crcLoopR n (pos + 1) (crcByte c x) := by
      show (rdReq pos >>= fun x => crcLoopR n (pos + 1) (crcByte c x)) = _
      unfold rdReq
      rw [if_pos (show pos < rtuBufferSize by unfold rtuBufferSize; omega)]
      rfl
    rw [e] at h
    obtain ⟨x, h⟩ := h
    exact torn_crc n (pos + 1) _ (by omega) h

/-- Whatever the bytes read, the result of the receive check is one of three. -/
theorem torn_recv {len id : U8} {r : C Ret} (h : (rtuRecvR len id).Torn r) : r = .ok RET_ERROR_SLAVE_ID ∨ r = .ok RET_ERROR_CRC ∨ r = .ok RET_OK := by
  obtain ⟨x, h⟩ := h
  have h : (if id ≠ x then (pure RET_ERROR_SLAVE_ID : ReqM Ret) else do
      let crc ← crcLoopR len.toNat 0 0xFFFF
      if crc ≠ 0 then return RET_ERROR_CRC else return RET_OK).Torn r := h
  split at h
  · exact .inl h
  · obtain ⟨c, h⟩ := torn_crc _ _ _ (by have := len.isLt; omega) h
    split at h
    · exact .inr (.inl h)
    · exact .inr (.inr h)

/-- Each of the three results is that of some response. -/
theorem recv_realised (id : U8) {r : Ret} (h : r = RET_ERROR_SLAVE_ID ∨ r = RET_ERROR_CRC ∨ r = RET_OK) :
    ∃ (resp : Buf) (len : U8), rtuRecv (some resp) len id = .ok r := by
  rcases h with rfl | rfl | rfl
  · refine ⟨fun _ => ~~~id, 0, ?_⟩
    have : ∀ x : U8, x ≠ ~~~x := by decide
    rw [rtuRecv_eq, if_pos (this id)]
  · refine ⟨fun _ => id, 0, ?_⟩
    rw [rtuRecv_eq, if_neg (by simp), if_pos]
    exact crc16_short.1
  · refine ⟨framed (fun _ => id) 1 id, 3, ?_⟩
    have h0 : framed (fun _ => id) 1 id 0 = id := by
      unfold framed
      rw [Buf.set_ne _ _ (by decide), Buf.set_ne _ _ (by decide), Buf.set_same]
    rw [rtuRecv_eq, if_neg (by simp [h0]), if_neg]
    refine fun hh => hh ((crc16_eq_zero_iff _).2 ?_)
    show CrcCorrect ((framed (fun _ => id) 1 id).bytes 0 (1 + 2))
    rw [framed_frame]
    exact ⟨_, rfl⟩

/-- What follows the receive check, from a state whose response gives its result. -/
theorem afterRecv_explained {cfg : Config} {s t : Master} {i : Nat} {r : Ret} (g : MSim s t) (hd : t.drv = true) (hs : t.dataSet = true)
    (hm : t.msgBuf = some i) (hr : rtuRecv (some (t.msgs i).resp) (t.msgs i).respLen ((t.msgs i).req 0) = .ok r) :
    wp (fun e => ∃ s1, MSim s s1 ∧ masterWaiting cfg s1 = .error e) (masterAfterRecvP r) t []
      (fun s' o' => ∃ s1 u o1, MSim s s1 ∧ masterWaiting cfg s1 = .ok (u, o1) ∧ o' = [] ++ o1 ∧ MSim u s') := by
  have atom : masterWaiting cfg { t with t15 := .set } = masterRecv { t with t15 := .set } := if_pos rfl
  have hs1 : MSim s { t with t15 := .set } := g.right rfl rfl rfl rfl rfl rfl rfl rfl rfl (SameReq.rfl' _) ⟨nofun, g.kn.2⟩
  have hcm : curMsg { t with t15 := .set } = .ok (t.msgs i) := curMsg_ok (s := { t with t15 := .set }) hm hs
  have hre : masterRecv { t with t15 := .set } = (do
      let r ← rtuRecv (some (t.msgs i).resp) (t.msgs i).respLen ((t.msgs i).req 0)
      if RET_ERROR_CRC = r then return ({ t with t15 := .cleared, t35 := .cleared, timer := 0, crcf := .set, st := .received }, [])
      else if RET_ERROR_SLAVE_ID = r then
        let s ← clearRespLen { t with t15 := .cleared, t35 := .cleared }
        return (s, [])
      else return ({ t with t15 := .cleared, t35 := .cleared, timer := 0, st := .received }, [])) := by
    unfold masterRecv
    rw [hcm, okBind, rd_zero, okBind]
  rw [hr, okBind] at hre
  unfold masterAfterRecvP
  by_cases c1 : RET_ERROR_CRC = r
  · rw [if_pos c1] at hre ⊢
    refine wp_assign fun t6 h6 => ⟨h6.drv.trans hd, h6.dataSet.trans hs, h6.kn, wp_assign fun t7 h7 => ?_⟩
    have h7' : MSim t t7 := h6.trans (h7.left rfl rfl rfl rfl rfl rfl rfl rfl rfl (SameReq.rfl' _))
    refine ⟨h7'.drv.trans hd, h7'.dataSet.trans hs, h7'.kn, wp_assign fun t8 h8 => ?_⟩
    have h8' : MSim { t with crcf := .set } t8 := (h7'.setCrcf .set).trans h8
    refine ⟨h8'.drv.trans hd, h8'.dataSet.trans hs, h8'.kn, fun t9 h9 => ?_⟩
    refine ⟨_, _, [], hs1, atom.trans hre, rfl, ?_⟩
    exact ((h8'.setSt .received).trans h9).left rfl rfl rfl rfl rfl rfl rfl rfl rfl (SameReq.rfl' _)
  · rw [if_neg c1] at hre ⊢
    by_cases c2 : RET_ERROR_SLAVE_ID = r
    · rw [if_pos c2] at hre ⊢
      intro t6 h6
      have hm6 := h6.msgBuf.trans hm
      simp only [clearRespLen_ok hm6, okBind, pureOk, List.append_nil]
      refine ⟨h6.drv.trans hd, h6.dataSet.trans hs, h6.kn, fun t7 h7 => ?_⟩
      rw [clearRespLen_ok (s := { t with t15 := .cleared, t35 := .cleared }) hm] at hre
      simp only [okBind, pureOk] at hre
      refine ⟨_, _, [], hs1, atom.trans hre, rfl, ?_⟩
      have g6 := h6.right (u := { t6 with msgs := setMsg t6.msgs i { t6.msgs i with respLen := 0 } }) rfl rfl rfl rfl rfl rfl rfl rfl rfl
        (SameReq.set _ _ _ rfl rfl) h6.kn
      exact (g6.trans h7).left rfl rfl rfl rfl rfl rfl rfl rfl rfl (SameReq.set _ _ _ rfl rfl)
    · rw [if_neg c2] at hre ⊢
      refine wp_assign fun t6 h6 => ⟨h6.drv.trans hd, h6.dataSet.trans hs, h6.kn, wp_assign fun t7 h7 => ?_⟩
      have h7' : MSim t t7 := h6.trans (h7.left rfl rfl rfl rfl rfl rfl rfl rfl rfl (SameReq.rfl' _))
      refine ⟨h7'.drv.trans hd, h7'.dataSet.trans hs, h7'.kn, fun t8 h8 => ?_⟩
      refine ⟨_, _, [], hs1, atom.trans hre, rfl, ?_⟩
      exact ((h7'.setSt .received).trans h8).left rfl rfl rfl rfl rfl rfl rfl rfl rfl (SameReq.rfl' _)

theorem recvF_explained {cfg : Config} {s : Master} (hd : s.drv = true) (hs : s.dataSet = true) :
    Explains (masterWaiting cfg) masterRecvF s [] := by
  have atom : ∀ t : Master, masterWaiting cfg { t with t15 := .set } = masterRecv { t with t15 := .set } := fun t => if_pos rfl
  refine wp_read (f := fun s => do let m ← curMsg s; rd m.req idxSlaveAdr) (fun s => by simp only [bind_assoc]) hd hs fun t2 h2 d2 s2 => ?_
  cases hm : s.msgBuf with
  | none =>
    have hm2 := h2.msgBuf.trans hm
    have hc : curMsg t2 = .error .nullDeref := by unfold curMsg; rw [hm2]
    simp only [hc, errBind]
    refine ⟨{ t2 with t15 := .set }, h2.right rfl rfl rfl rfl rfl rfl rfl rfl rfl (SameReq.rfl' _) ⟨nofun, h2.kn.2⟩, ?_⟩
    rw [atom]
    have hc : curMsg { t2 with t15 := .set } = .error .nullDeref := by unfold curMsg; simp only [hm2]
    simp only [masterRecv, hc, errBind]
  | some i =>
    simp only [curMsg_ok (h2.msgBuf.trans hm) s2, okBind, rd_zero]
    refine wp_assign fun t3 h3 => ⟨h3.drv.trans d2, h3.dataSet.trans s2, ⟨nofun, h3.kn.2⟩, wp_assign fun t4 h4 => ?_⟩
    have h4' : MSim t2 t4 := h3.trans (h4.left rfl rfl rfl rfl rfl rfl rfl rfl rfl (SameReq.rfl' _))
    refine ⟨h4'.drv.trans d2, h4'.dataSet.trans s2, ⟨h4'.kn.1, nofun, h4'.kn.2.2⟩, ?_⟩
    intro t5 h5
    have d5 := h5.drv.trans (h4'.drv.trans d2)
    have s5 := h5.dataSet.trans (h4'.dataSet.trans s2)
    have h5' : MSim t2 t5 := h4'.trans (h5.left rfl rfl rfl rfl rfl rfl rfl rfl rfl (SameReq.rfl' _))
    have g5 : MSim s t5 := h2.trans h5'
    have hm5 : t5.msgBuf = some i := g5.msgBuf.trans hm
    have hid : (t2.msgs i).req 0 = (t5.msgs i).req 0 := by rw [(h5'.req i).1]
    simp only [curMsg_ok hm5 s5, okBind, hm5, pureOk, List.append_nil]
    refine ⟨d5, s5, g5.kn, wp_toMProg d5 s5 g5.kn (fun r hr => ?_) fun e he => ?_⟩
    · rw [hid] at hr
      have hr' : r = RET_ERROR_SLAVE_ID ∨ r = RET_ERROR_CRC ∨ r = RET_OK := by
        rcases torn_recv hr with h | h | h <;> cases h <;> simp
      obtain ⟨resp, len, he⟩ := recv_realised ((t5.msgs i).req 0) hr'
      have hsame : SameReq t5.msgs (setMsg t5.msgs i { t5.msgs i with resp := resp, respLen := len }) := SameReq.set _ _ _ rfl rfl
      have gA : MSim t5 { t5 with msgs := setMsg t5.msgs i { t5.msgs i with resp := resp, respLen := len } } :=
        ⟨rfl, rfl, rfl, rfl, rfl, rfl, rfl, rfl, rfl, hsame, g5.kn⟩
      refine wp_sim ((MSim.refl g5.kn).left (s := t5) (s' := { t5 with msgs := setMsg t5.msgs i { t5.msgs i with resp := resp, respLen := len } })
        rfl rfl rfl rfl rfl rfl rfl rfl rfl hsame) ?_
      refine afterRecv_explained (i := i) (g5.trans gA) d5 s5 hm5 ?_
      simp only [setMsg_same]
      exact he
    · rcases torn_recv he with h | h | h <;> cases h

theorem waitingF_explained {cfg : Config} {s : Master} (hd : s.drv = true) (hs : s.dataSet = true) :
    Explains (masterWaiting cfg) (masterWaitingF cfg) s [] := by
  refine wp_test hd hs fun t1 h1 d1 s1 => ⟨fun _ => (recvF_explained d1 s1).of_sim h1, fun c1 => wp_test d1 s1 fun t2 h2 d2 s2 =>
    ⟨fun _ => (timeout_explained d2 s2).of_sim (h1.trans h2), fun c2 t3 h3 => ?_⟩⟩
  have c1 : t1.t15 ≠ .set := by simpa using c1
  have c2 : t2.timer ≠ 1 := by simpa using c2
  have g2 := h1.trans h2
  refine ⟨{ t2 with t15 := t1.t15 }, { t2 with t15 := t1.t15 }, [], g2.right rfl rfl rfl rfl rfl rfl rfl rfl rfl (SameReq.rfl' _) ⟨h1.kn.1, h2.kn.2⟩, ?_, rfl,
    h3.left rfl rfl rfl rfl rfl rfl rfl rfl rfl (SameReq.rfl' _)⟩
  exact (if_neg c1).trans (if_neg c2)

/-- The end of the transaction after the callbacks `ev`, explained by a state whose response gives them. -/
theorem endAfter_explained {cfg : Config} {s sA t : Master} {ev : List MEvent} (gA : MSim s sA) (g : MSim sA t) (hd : t.drv = true) (hs : t.dataSet = true)
    (hc : sA.crcf = .cleared) (hev : correctEvents sA = .ok ev) :
    wp (fun e => ∃ s1, MSim s s1 ∧ masterReceived cfg s1 = .error e) (masterProcessEndP cfg) t (ev.map .event)
      (fun s' o' => ∃ s1 u o1, MSim s s1 ∧ masterReceived cfg s1 = .ok (u, o1) ∧ o' = [] ++ o1 ∧ MSim u s') := by
  have hs1 : MSim s { sA with ferr := .cleared, t35 := .set } := gA.right rfl rfl rfl rfl rfl rfl rfl rfl rfl (SameReq.rfl' _) ⟨gA.kn.1, nofun, nofun, gA.kn.2.2.2⟩
  have atom : masterReceived cfg { sA with ferr := .cleared, t35 := .set } = (do
      let ev ← correctEvents sA
      let s ← masterProcessEnd cfg { sA with ferr := .cleared, t35 := .set }
      return (s, ev.map .event)) :=
    (if_neg (by simp)).trans ((if_neg (by simp [hc])).trans (if_pos ⟨rfl, hc, rfl⟩))
  rw [hev, okBind, processEnd_flags] at atom
  refine wp_processEnd hd hs ?_
  have k := processEnd_sim (cfg := cfg) g
  cases hp : masterProcessEnd cfg sA with
  | error e =>
    rw [hp] at atom k
    rw [k]
    exact ⟨_, hs1, atom⟩
  | ok u =>
    rw [hp] at atom k
    obtain ⟨u', k1, k2, k3⟩ := k
    rw [k1]
    intro t' ht'
    exact ⟨_, _, _, hs1, atom, rfl, (k3 _ ht').left rfl rfl rfl rfl rfl rfl rfl rfl rfl (SameReq.rfl' _)⟩

theorem correctF_explained {cfg : Config} {s : Master} (hd : s.drv = true) (hs : s.dataSet = true) (hc : s.crcf = .cleared) :
    Explains (masterReceived cfg) (masterCorrectF cfg) s [] := by
  intro t1 h1
  have d1 := h1.drv.trans hd
  have s1 := h1.dataSet.trans hs
  have c1 := h1.crcf.trans hc
  simp only [List.append_nil]
  refine ⟨d1, s1, h1.kn, ?_⟩
  cases hm : t1.msgBuf with
  | none =>
    simp only
    exact endAfter_explained (ev := []) h1 (MSim.refl h1.kn) d1 s1 c1 (by unfold correctEvents; rw [hm])
  | some i =>
    have hn : ¬ (RET_OK ≠ checkNullPtr t1.dataSet) := by rw [s1]; decide
    simp only [if_neg hn]
    have mk : ∀ resp : Buf, SameReq t1.msgs (setMsg t1.msgs i { t1.msgs i with resp := resp }) := fun resp => SameReq.set _ _ _ rfl rfl
    have ev : ∀ resp : Buf, correctEvents { t1 with msgs := setMsg t1.msgs i { t1.msgs i with resp := resp } } = respEvents { t1.msgs i with resp := resp } := by
      intro resp
      simp only [correctEvents, hm, setMsg_same, s1, respEvents]
    have gA : ∀ resp : Buf, MSim t1 { t1 with msgs := setMsg t1.msgs i { t1.msgs i with resp := resp } } :=
      fun resp => ⟨rfl, rfl, rfl, rfl, rfl, rfl, rfl, rfl, rfl, mk resp, h1.kn⟩
    have gB : ∀ resp : Buf, MSim { t1 with msgs := setMsg t1.msgs i { t1.msgs i with resp := resp } } t1 := fun resp =>
      (MSim.refl h1.kn).left (s := t1) (s' := { t1 with msgs := setMsg t1.msgs i { t1.msgs i with resp := resp } }) rfl rfl rfl rfl rfl rfl rfl rfl rfl (mk resp)
    refine wp_toProg d1 s1 h1.kn (fun a l hl => ?_) fun e he => ?_
    · obtain ⟨resp, hresp⟩ := torn_explained hl
      exact endAfter_explained (h1.trans (gA resp)) (gB resp) d1 s1 c1 ((ev resp).trans hresp)
    · obtain ⟨resp, hresp⟩ := torn_explained he
      refine ⟨{ t1 with msgs := setMsg t1.msgs i { t1.msgs i with resp := resp }, ferr := .cleared, t35 := .set },
        (h1.trans (gA resp)).right rfl rfl rfl rfl rfl rfl rfl rfl rfl (SameReq.rfl' _) ⟨h1.kn.1, nofun, nofun, h1.kn.2.2.2⟩, ?_⟩
      have := (ev resp).trans hresp
      generalize hA : ({ t1 with msgs := setMsg t1.msgs i { t1.msgs i with resp := resp } } : Master) = sA at this
      have hcA : sA.crcf = .cleared := by rw [← hA]; exact c1
      have eA : ({ t1 with msgs := setMsg t1.msgs i { t1.msgs i with resp := resp }, ferr := .cleared, t35 := .set } : Master) = { sA with ferr := .cleared, t35 := .set } := by rw [← hA]
      rw [eA]
      refine (if_neg (by simp)).trans ((if_neg (by simp [hcA])).trans ((if_pos ⟨rfl, hcA, rfl⟩).trans ?_))
      show (do
        let ev ← correctEvents sA
        let s ← masterProcessEnd cfg { sA with ferr := .cleared, t35 := .set }
        return (s, ev.map MOut.event)) = _
      rw [this]
      rfl

theorem received3F_explained {cfg : Config} {s : Master} (hd : s.drv = true) (hs : s.dataSet = true) :
    Explains (masterReceived cfg) (masterReceived3F cfg) s [] := by
  refine wp_test hd hs fun t1 h1 d1 s1 => ⟨fun _ => wp_test d1 s1 fun t2 h2 d2 s2 => ⟨fun c2 => wp_test d2 s2 fun t3 h3 d3 s3 =>
    ⟨fun _ => ?_, fun _ => received_nop (h1.trans (h2.trans h3)) _⟩, fun _ => received_nop (h1.trans h2) _⟩, fun _ => received_nop h1 _⟩
  have c2 : t2.crcf = .cleared := by simpa using c2
  exact (correctF_explained d3 s3 (h3.crcf.trans c2)).of_sim (h1.trans (h2.trans h3))

theorem receivedF_explained {cfg : Config} {s : Master} (hd : s.drv = true) (hs : s.dataSet = true) :
    Explains (masterReceived cfg) (masterReceivedF cfg) s [] := by
  have crc : ∀ t, MSim s t → t.drv = true → t.dataSet = true → t.crcf = .set → _ :=
    fun t h d ds hc => (crcError_explained (cfg := cfg) d ds hc).of_sim h
  have rest : ∀ t, MSim s t → t.drv = true → t.dataSet = true → _ :=
    fun t h d ds => (received3F_explained (cfg := cfg) d ds).of_sim h
  refine wp_test hd hs fun t1 h1 d1 s1 => ⟨fun _ => wp_test d1 s1 fun t2 h2 d2 s2 => ⟨fun _ => (frameError_explained d2 s2).of_sim (h1.trans h2), fun _ => ?_⟩,
    fun _ => wp_test d1 s1 fun t2 h2 d2 s2 => ⟨fun c2 => wp_test d2 s2 fun t3 h3 d3 s3 => ⟨fun _ => ?_, fun _ => rest t3 (h1.trans (h2.trans h3)) d3 s3⟩,
      fun _ => rest t2 (h1.trans h2) d2 s2⟩⟩
  · intro t3 h3
    have d3 := h3.drv.trans d2
    have s3 := h3.dataSet.trans s2
    have g3 := h1.trans (h2.trans h3)
    simp only [List.append_nil]
    refine ⟨d3, s3, h3.kn, ?_⟩
    by_cases hc : t3.crcf = .set
    · rw [if_pos (by simpa using hc)]
      intro t4 h4
      have d4 := h4.drv.trans d3
      have s4 := h4.dataSet.trans s3
      simp only [List.append_nil]
      refine ⟨d4, s4, h4.kn, ?_⟩
      split
      · exact crc t4 (g3.trans h4) d4 s4 (h4.crcf.trans hc)
      · exact rest t4 (g3.trans h4) d4 s4
    · rw [if_neg (by simpa using hc)]
      exact rest t3 g3 d3 s3
  · have c2 : t2.crcf = .set := by simpa using c2
    exact crc t3 (h1.trans (h2.trans h3)) d3 s3 (h3.crcf.trans c2)

/-- **A poll interrupted between any two reads of the response is an atomic one up to what interrupts write.** -/
theorem pollF_explained {cfg : Config} {s : Master} (hd : s.drv = true) (hs : s.dataSet = true) :
    Explains (masterPoll cfg) (masterPollF cfg) s [] := by
  intro t1 h1
  have d1 := h1.drv.trans hd
  have s1 := h1.dataSet.trans hs
  simp only [List.append_nil]
  refine ⟨d1, s1, h1.kn, ?_⟩
  have key : ∀ (f : Master → C (Master × List MOut)) (p : MProg), (∀ t, MSim t1 t → masterPoll cfg t = f t) → Explains f p t1 [] →
      Explains (masterPoll cfg) p t1 [] := by
    intro f p hf hp
    refine wp_mono ?_ ?_ hp
    · rintro e ⟨s1, k1, k2⟩
      exact ⟨s1, k1, (hf _ k1).trans k2⟩
    · rintro s' o ⟨s1, u, o1, k1, k2, k3⟩
      exact ⟨s1, u, o1, k1, (hf _ k1).trans k2, k3⟩
  refine Explains.of_sim h1 ?_
  cases hst : t1.st with
  | idle => exact key _ _ (fun t ht => by simp only [masterPoll, ht.st, hst]) (idle_explained d1 s1)
  | repeatRequest => exact key _ _ (fun t ht => by simp only [masterPoll, ht.st, hst]) (send_explained d1 s1 h1.kn)
  | transmitting => exact key _ _ (fun t ht => by simp only [masterPoll, ht.st, hst]) (transmitting_explained d1 s1)
  | waiting => exact key _ _ (fun t ht => by simp only [masterPoll, ht.st, hst]) (waitingF_explained d1 s1)
  | received => exact key _ _ (fun t ht => by simp only [masterPoll, ht.st, hst]) (receivedF_explained d1 s1)

/-- The same about the execution. -/
theorem pollF_with_explained {cfg : Config} {s : Master} (hd : s.drv = true) (hs : s.dataSet = true) (hk : Kn s) (ints : List (List MEv)) :
    (∃ s1 t s' o, MSim s s1 ∧ masterPoll cfg s1 = .ok (t, o) ∧ MSim t s' ∧ masterFStep cfg s (.pollWith ints) = .ok (s', o)) ∨
      ∃ s1 e, MSim s s1 ∧ masterPoll cfg s1 = .error e ∧ masterFStep cfg s (.pollWith ints) = .error e := by
  have h := wp_sound (cfg := cfg) _ ints s [] hd hs hk (pollF_explained (cfg := cfg) hd hs)
  simp only [masterFStep]
  cases hr : runProg (masterInt cfg) (masterPollF cfg) ints s with
  | error e =>
    rw [hr] at h
    obtain ⟨s1, h1, h2⟩ := h
    exact .inr ⟨s1, e, h1, h2, rfl⟩
  | ok x =>
    obtain ⟨s', o⟩ := x
    rw [hr] at h
    obtain ⟨s1, t, o1, h1, h2, h3, h4⟩ := h
    simp only [List.nil_append] at h3
    subst h3
    exact .inl ⟨s1, t, s', o, h1, h2, h4, rfl⟩

end Modbus
