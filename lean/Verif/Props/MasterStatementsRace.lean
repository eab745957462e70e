import Verif.Props.MasterStatements

/-! C79, the excluded moment of the driver's `send`. -/

namespace Modbus

open Spec

/-! ### The excluded moment -/


theorem ro_step {σ ω ε α : Type} {int : σ → ε → C (σ × List ω)} {r : σ → ε → Bool} {f : σ → C (α × σ × List ω)} {k : α → Prog σ ω ε} {ints : List (List ε)}
    {s s1 s2 s3 : σ} {o1 o2 o3 : List ω} {a : α} (h1 : runIntsO int s (ints.headD []) = .ok (s1, o1)) (h2 : f s1 = .ok (a, s2, o2))
    (h3 : runProgO int (k a) ints.tail s2 = .ok (s3, o3)) : runProgO int (.step r f k) ints s = .ok (s3, o1 ++ (o2 ++ o3)) := by
  simp only [runProgO, h1, h2, h3, ok_bind, pure_eq]

/-- **C79**: whatever the history, if the master is idle and a request is queued, a byte received between the second and the third assignment of the
driver's `send` makes the driver write the second byte of the request frame, the function code, to the line before the first, the slave's address. -/
theorem C79_bytes_swapped_violated {cfg : Config} (hw : cfg.MWF) {ops : List MDOp} (hl : ∀ op ∈ ops, MDOp.legal op) {d : MasterDev} {tr : MDTrace}
    (h : masterDevRun cfg MasterDev.powerOn (.op (.main (.init .rtu)) :: ops) = .ok (d, tr)) (hst : d.sys.lib.st = .idle)
    (hq : d.sys.lib.txQ.items ≠ 0) (b : U8) :
    ∃ d' o, ∃ r ∈ accepted (callTrace tr), masterDevStep cfg d (.pollWith (lateByteInts b)) = .ok (d', o) ∧ handed o = [reqFrame r] ∧
      lineOf o = [reqFc r, reqSlave r] ∧ ∃ tl, reqFrame r = reqSlave r :: reqFc r :: tl := by
  have hh := stmt_history (U := False) hw hl (fun u => u.elim)
  rw [h] at hh
  obtain ⟨-, ⟨g, hi, hsub⟩, -⟩ := hh
  have htl : g.tl ≠ [] := by
    intro e
    have := hi.tx.items_eq
    rw [e] at this
    exact hq (BitVec.eq_of_toNat_eq this)
  obtain ⟨i, tl, htl⟩ : ∃ i tl, g.tl = i :: tl := by
    cases hx : g.tl with
    | nil => exact absurd hx htl
    | cons i tl => exact ⟨i, tl, rfl⟩
  have hpend := hi.pend
  obtain ⟨r, rest, hp⟩ : ∃ r rest, g.pend = r :: rest := by
    cases hx : g.pend with
    | nil => rw [htl, hx] at hpend; exact absurd hpend (by simp [PendOk])
    | cons r rest => exact ⟨r, rest, rfl⟩
  rw [htl, hp] at hpend
  have hold : (d.sys.lib.msgs i).req.bytes 0 (d.sys.lib.msgs i).reqLen.toNat = reqFrame r := hpend.1.1
  have htx := hi.tx
  rw [htl] at htx
  have hav : d.sys.lib.txQ.available = true := by rw [htx.available]; rfl
  obtain ⟨q', hpop, -⟩ := htx.pop_cons hw.qle
  obtain ⟨ftl, hf⟩ := reqFrame_eq r
  have hn : 6 ≤ (d.sys.lib.msgs i).reqLen.toNat := by
    have := congrArg List.length hold
    rw [Buf.bytes_length, hf] at this
    simp only [List.length_cons] at this
    omega
  generalize hN : (d.sys.lib.msgs i).reqLen.toNat = N at *
  have hb01 : (d.sys.lib.msgs i).req 0 = reqSlave r ∧ (d.sys.lib.msgs i).req 1 = reqFc r := by
    obtain ⟨k, rfl⟩ : ∃ k, N = k + 2 := ⟨N - 2, by omega⟩
    rw [hf, Buf.bytes_succ, Buf.bytes_succ] at hold
    obtain ⟨e1, e2⟩ := List.cons.inj hold
    exact ⟨e1, (List.cons.inj e2).1⟩
  -- the device just before the interrupt
  let lib : Master := { d.sys.lib with msgBuf := some i, txQ := q' }
  let d1 : MasterDev := { sys := { d.sys with lib := lib, txMsg := i, cur := 0, last := N - 1 }, lastMsg := i }
  obtain ⟨l1, n1, h1⟩ := irqRx_after (cfg := cfg) (s := d1.sys) hi.drv hi.data (some b)
  obtain ⟨l3, ga, rt, n3, h3⟩ := irqRto_after (cfg := cfg) (s := { d1.sys with lib := masterAfter lib l1, cur := 1 }) hi.drv hi.data
  let lib2 := masterAfter (masterAfter lib l1) l3
  have hreq : ∀ s : Master, ∀ l, ((masterAfter s l).msgs i).req = (s.msgs i).req := fun s l => after_req s l i
  have hb1 : ((masterAfter lib l1).msgs i).req 1 = reqFc r := by rw [hreq]; exact hb01.2
  have hb0 : (lib2.msgs i).req 0 = reqSlave r := by
    show ((masterAfter (masterAfter lib l1) l3).msgs i).req 0 = _
    rw [hreq, hreq]; exact hb01.1
  have hint : masterDevInt cfg d1 (.usart (some b) true) =
      .ok ({ sys := { d1.sys with lib := lib2, cur := 1, gap := ga, rtof := rt }, lastMsg := i }, [.tdr (reqFc r)]) := by
    simp only [masterDevInt, h1, ok_bind]
    have : masterDevTx cfg { d1 with sys := { d1.sys with lib := masterAfter d1.sys.lib l1 } } true =
        .ok ({ sys := { d1.sys with lib := masterAfter lib l1, cur := 1 }, lastMsg := i }, [.tdr (reqFc r)]) := by
      unfold masterDevTx
      rw [if_pos rfl, if_pos (.inr ⟨rfl, show 0 < N - 1 by omega⟩)]
      have hrd : rd ((masterAfter lib l1).msgs i).req (0 + 1) = .ok (reqFc r) := by rw [rd_ok _ (show 0 + 1 < 256 by decide), hb1]
      exact (congrArg (· >>= _) hrd).trans rfl
    rw [this]
    simp only [ok_bind, h3, pure_eq]
    rfl
  have hdrv2 : lib2.drv = true := hi.drv
  have hmb2 : lib2.msgBuf = some i := rfl
  have hen : masterEnableRx lib2 = .ok { lib2 with rxTarget := some i } := by
    unfold masterEnableRx
    rw [if_neg (by rw [hdrv2]; simp), hmb2]
  let lib3 : Master := { lib2 with rxTarget := some i, txf := .set, st := .transmitting }
  refine ⟨{ sys := { d1.sys with lib := lib3, cur := 1, gap := false, rtof := false }, lastMsg := i },
    [.lib (.send (reqFrame r)), .tdr (reqFc r), .tdr (reqSlave r)], r, hsub (by rw [hp]; exact List.mem_cons_self ..), ?_, rfl, rfl, _, hf⟩
  have hsend : masterDrvSend lib = .ok [.send (reqFrame r)] := by
    unfold masterDrvSend
    rw [if_neg (by rw [show lib.drv = true from hi.drv]; simp)]
    show (if lib.dataSet = false then _ else _) = _
    rw [if_neg (by rw [show lib.dataSet = true from hi.data]; simp), ← hold, ← hN]
  have hargs : masterSendArgs lib = .ok (i, N) := by
    show Except.ok (i, (lib.msgs i).reqLen.toNat) = _
    rw [← hN]
  have hnpos : 0 < N := by omega
  -- from the end
  let d2 : MasterDev := { sys := { d1.sys with lib := lib2, cur := 1, gap := ga, rtof := rt }, lastMsg := i }
  have tail : runProgO (masterDevInt cfg)
      (drvAssign id (masterUsartTailP (liftP (assignC masterEnableRx (assign (fun s => { s with txf := .set }) (assign (fun s => { s with st := .transmitting }) .done))))))
      [] d2 = .ok ({ sys := { d1.sys with lib := lib3, cur := 1, gap := false, rtof := false }, lastMsg := i }, []) := by
    refine ro_step (o3 := []) (o2 := []) (o1 := []) rfl rfl ?_
    refine ro_step (o3 := []) (o2 := []) (o1 := []) rfl rfl ?_
    refine ro_step (o3 := []) (o2 := []) (o1 := []) rfl rfl ?_
    refine ro_step (o3 := []) (o2 := []) (o1 := []) rfl rfl ?_
    refine ro_step (o3 := []) (o2 := []) (o1 := []) (a := ()) (s2 := { sys := { d1.sys with lib := { lib2 with rxTarget := some i }, cur := 1, gap := false, rtof := false }, lastMsg := i }) rfl ?_ ?_
    · show (do let (a, l, o) ← (do let s ← masterEnableRx lib2; return ((), s, [])); return (a, _, o.map HMOut.lib)) = _
      rw [hen]; rfl
    · refine ro_step (o3 := []) (o2 := []) (o1 := []) rfl rfl ?_
      refine ro_step (o3 := []) (o2 := []) (o1 := []) rfl rfl ?_
      rfl
  have usart : runProgO (masterDevInt cfg) (masterUsartSendP i N
      (liftP (assignC masterEnableRx (assign (fun s => { s with txf := .set }) (assign (fun s => { s with st := .transmitting }) .done)))))
      [[], [], [.usart (some b) true]] { sys := { d.sys with lib := lib }, lastMsg := d.lastMsg } =
      .ok ({ sys := { d1.sys with lib := lib3, cur := 1, gap := false, rtof := false }, lastMsg := i }, [.tdr (reqFc r), .tdr (reqSlave r)]) := by
    unfold masterUsartSendP
    rw [if_pos hnpos]
    refine ro_step (o3 := [HMOut.tdr (reqFc r), .tdr (reqSlave r)]) (o2 := []) (o1 := []) rfl rfl ?_
    refine ro_step (o3 := [HMOut.tdr (reqFc r), .tdr (reqSlave r)]) (o2 := []) (o1 := []) rfl rfl ?_
    refine ro_step (o3 := []) (o2 := [HMOut.tdr (reqSlave r)]) (o1 := [HMOut.tdr (reqFc r)]) (s1 := d2) (s2 := d2) (a := ()) ?_ ?_ tail
    · show runIntsO (masterDevInt cfg) d1 [.usart (some b) true] = _
      simp only [runIntsO, hint, ok_bind, pure_eq]
      rfl
    · have hrd : rd (lib2.msgs i).req 0 = .ok (reqSlave r) := by rw [rd_ok _ (show 0 < 256 by decide), hb0]
      show (do let (d, o) ← (do let b ← rd (lib2.msgs i).req 0; return (d2, [HMOut.tdr b])); return ((), d, o)) = _
      rw [hrd]; rfl
  show runProgO (masterDevInt cfg) (masterDevPollP cfg) (lateByteInts b) d = _
  unfold masterDevPollP
  refine ro_step (o3 := [HMOut.lib (.send (reqFrame r)), .tdr (reqFc r), .tdr (reqSlave r)]) (o2 := []) (o1 := []) (s2 := d) (a := MasterSt.idle) rfl (by rw [hst]) ?_
  show runProgO (masterDevInt cfg) (masterDevIdleP cfg) _ d = _
  unfold masterDevIdleP
  refine ro_step (o3 := [HMOut.lib (.send (reqFrame r)), .tdr (reqFc r), .tdr (reqSlave r)]) (o2 := []) (o1 := []) (s2 := d) (a := true) rfl (by show Except.ok (d.sys.lib.txQ.available, d, []) = _; rw [hav]) ?_
  show runProgO (masterDevInt cfg) (assignC _ _) _ d = _
  refine ro_step (o3 := [HMOut.lib (.send (reqFrame r)), .tdr (reqFc r), .tdr (reqSlave r)]) (o2 := []) (o1 := []) (a := ())
    (s2 := { sys := { d.sys with lib := lib }, lastMsg := d.lastMsg }) rfl (by simp only [hpop, ok_bind, pure_eq]; rfl) ?_
  unfold masterDevSendP
  refine ro_step (o3 := [HMOut.tdr (reqFc r), .tdr (reqSlave r)]) (o2 := [HMOut.lib (.send (reqFrame r))]) (o1 := []) (a := (i, N))
    (s2 := { sys := { d.sys with lib := lib }, lastMsg := d.lastMsg }) rfl ?_ ?_
  rotate_left
  · exact usart
  show (do let o ← masterDrvSend lib; let x ← masterSendArgs lib; return (x, _, o.map HMOut.lib)) = _
  rw [hsend, hargs]; rfl

end Modbus
