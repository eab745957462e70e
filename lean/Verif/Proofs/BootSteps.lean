import Verif.Proofs.Boot

/-! The slave device during its initialisation: statements, hardware events and calls; the whole history. -/

namespace Modbus

open Spec

variable {cfg : Config} {Q E : Prop}

theorem Follows.mid {d d' : SlaveBoot} {l : Slave} (f : Follows d l) (h1 : d'.lib.req = d.lib.req) (h2 : d'.lib.reqLen = d.lib.reqLen)
    (h3 : d'.lib.resp = d.lib.resp) (h4 : d'.lib.respLen = d.lib.respLen) (h5 : d'.lib.mem = d.lib.mem) (h6 : d'.todo ≠ []) : Follows d' l :=
  ⟨f.live, f.req.trans h1.symm, f.reqLen.trans h2.symm, f.resp.trans h3.symm, f.respLen.trans h4.symm, f.mem.trans h5.symm, fun h => absurd h h6⟩

/-- Calling a callback exactly if the flag is to be set. -/
def survivors (a b c : Flag) : List SOp :=
  (if a = .set then [.t15] else []) ++ ((if b = .set then [.t35] else []) ++ (if c = .set then [.frameErr] else []))

theorem run_survivors {l : Slave} (hs : l.subscribed = true) (h1 : l.t15 = .cleared) (h2 : l.t35 = .cleared) (h3 : l.ferr = .cleared) {a b c : Flag}
    (ha : a = .cleared ∨ a = .set ∧ Q) (hb : b = .cleared ∨ b = .set ∧ E) (hc : c = .cleared ∨ c = .set ∧ Q) :
    slaveRun cfg l (survivors a b c) = .ok ({ l with t15 := a, t35 := b, ferr := c }, []) := by
  obtain ⟨id, st, drv, mp, ds, sub, req, rl, resp, pl, x, y, z, w, mem⟩ := l
  dsimp only at hs h1 h2 h3
  subst hs h1 h2 h3
  rcases ha with rfl | ⟨rfl, -⟩ <;> rcases hb with rfl | ⟨rfl, -⟩ <;> rcases hc with rfl | ⟨rfl, -⟩ <;> rfl

theorem legal_survivors {a b c : Flag} (ha : a = .cleared ∨ a = .set ∧ Q) (hb : b = .cleared ∨ b = .set ∧ E) (hc : c = .cleared ∨ c = .set ∧ Q) :
    ∀ op ∈ survivors a b c, op.legal cfg ∧ op.Why Q E := by
  intro op ho
  simp only [survivors, List.mem_append] at ho
  rcases ho with ho | ho | ho
  · rcases ha with rfl | ⟨rfl, hq⟩
    · cases ho
    · cases List.mem_singleton.1 ho; exact ⟨trivial, hq⟩
  · rcases hb with rfl | ⟨rfl, hq⟩
    · cases ho
    · cases List.mem_singleton.1 ho; exact ⟨trivial, hq⟩
  · rcases hc with rfl | ⟨rfl, hq⟩
    · cases ho
    · cases List.mem_singleton.1 ho; exact ⟨trivial, hq⟩

theorem bytes_survivors {a b c : Flag} : bytesOf (survivors a b c) = [] := by
  cases a <;> cases b <;> cases c <;> rfl

theorem calls_survivors {a b c : Flag} : (survivors a b c).filter SOp.isCall = [] := by
  cases a <;> cases b <;> cases c <;> rfl

theorem boot_next {d : SlaveBoot} {l : Slave} {k : Nat} {id : U8} (f : Follows d l) (p : BPhase Q E d k id) (s : BSafe Q E d) {x : InitStmt} {t : List InitStmt}
    (h : d.todo = x :: t) : Adv cfg Q E d l [] [] [] { d.exec x with todo := t } := by
  have hk := p.le
  have hlt : k < 19 := by
    rcases Nat.lt_or_ge k 19 with h' | h'
    · exact h'
    · have : k = 19 := by omega
      subst this
      have := p.todo
      rw [h] at this
      cases this
  have ht := p.todo
  rw [h] at ht
  have hcase : k = 0 ∨ k = 1 ∨ k = 2 ∨ k = 3 ∨ k = 4 ∨ k = 5 ∨ k = 6 ∨ k = 7 ∨ k = 8 ∨ k = 9 ∨ k = 10 ∨ k = 11 ∨ k = 12 ∨ k = 13 ∨ k = 14 ∨
      k = 15 ∨ k = 16 ∨ k = 17 ∨ k = 18 := by omega
  rcases hcase with rfl | rfl | rfl | rfl | rfl | rfl | rfl | rfl | rfl | rfl | rfl | rfl | rfl | rfl | rfl | rfl | rfl | rfl | rfl
  -- buffers
  · obtain ⟨rfl, rfl⟩ := List.cons.inj ht
    exact ⟨[], l, 1, id, (fun _ h => nomatch h), rfl, List.sublist_append_left _ _, rfl, f.mid rfl rfl rfl rfl rfl (fun h => nomatch h),
      { p with todo := rfl, le := by omega, data := fun _ => rfl, msg := by omega, drv := by omega, rx := by omega, tx := by omega, t15 := by omega,
               t35 := by omega, err := by omega, ident := by omega, st := by omega, f15 := by omega, f35 := by omega, ferr := by omega },
      { s with tx := fun h => ⟨(s.tx h).1, rfl⟩ }⟩
  -- msgPtr
  · obtain ⟨rfl, rfl⟩ := List.cons.inj ht
    exact ⟨[], l, 2, id, (fun _ h => nomatch h), rfl, List.sublist_append_left _ _, rfl, f.mid rfl rfl rfl rfl rfl (fun h => nomatch h),
      { p with todo := rfl, le := by omega, data := fun _ => p.data (by omega), msg := fun _ => rfl, drv := by omega, rx := by omega, tx := by omega,
               t15 := by omega, t35 := by omega, err := by omega, ident := by omega, st := by omega, f15 := by omega, f35 := by omega, ferr := by omega },
      { s with tx := s.tx }⟩
  -- getDriver
  · obtain ⟨rfl, rfl⟩ := List.cons.inj ht
    exact ⟨[], l, 3, id, (fun _ h => nomatch h), rfl, List.sublist_append_left _ _, rfl, f.mid rfl rfl rfl rfl rfl (fun h => nomatch h),
      { p with todo := rfl, le := by omega, data := fun _ => p.data (by omega), msg := fun _ => p.msg (by omega), drv := fun _ => rfl, rx := by omega,
               tx := by omega, t15 := by omega, t35 := by omega, err := by omega, ident := by omega, st := by omega, f15 := by omega, f35 := by omega,
               ferr := by omega },
      { s with tx := s.tx }⟩
  -- uartOn
  · obtain ⟨rfl, rfl⟩ := List.cons.inj ht
    exact ⟨[], l, 4, id, (fun _ h => nomatch h), rfl, List.sublist_append_left _ _, rfl, f.mid rfl rfl rfl rfl rfl (fun h => nomatch h),
      { p with todo := rfl, le := by omega, data := fun _ => p.data (by omega), msg := fun _ => p.msg (by omega), drv := fun _ => p.drv (by omega),
               rx := by omega, tx := by omega, t15 := by omega, t35 := by omega, err := by omega, ident := by omega, st := by omega, f15 := by omega,
               f35 := by omega, ferr := by omega },
      { s with tx := s.tx }⟩
  -- nvicUsart
  · obtain ⟨rfl, rfl⟩ := List.cons.inj ht
    exact ⟨[], l, 5, id, (fun _ h => nomatch h), rfl, List.sublist_append_left _ _, rfl, f.mid rfl rfl rfl rfl rfl (fun h => nomatch h),
      { p with todo := rfl, le := by omega, data := fun _ => p.data (by omega), msg := fun _ => p.msg (by omega), drv := fun _ => p.drv (by omega),
               rx := by omega, tx := by omega, t15 := by omega, t35 := by omega, err := by omega, ident := by omega, st := by omega, f15 := by omega,
               f35 := by omega, ferr := by omega },
      { s with tx := s.tx }⟩
  -- nvicTimer
  · obtain ⟨rfl, rfl⟩ := List.cons.inj ht
    exact ⟨[], l, 6, id, (fun _ h => nomatch h), rfl, List.sublist_append_left _ _, rfl, f.mid rfl rfl rfl rfl rfl (fun h => nomatch h),
      { p with todo := rfl, le := by omega, data := fun _ => p.data (by omega), msg := fun _ => p.msg (by omega), drv := fun _ => p.drv (by omega),
               rx := by omega, tx := by omega, t15 := by omega, t35 := by omega, err := by omega, ident := by omega, st := by omega, f15 := by omega,
               f35 := by omega, ferr := by omega },
      { s with tx := s.tx }⟩
  -- gapClear
  · obtain ⟨rfl, rfl⟩ := List.cons.inj ht
    exact ⟨[], l, 7, id, (fun _ h => nomatch h), rfl, List.sublist_append_left _ _, rfl, f.mid rfl rfl rfl rfl rfl (fun h => nomatch h),
      { p with todo := rfl, le := by omega, data := fun _ => p.data (by omega), msg := fun _ => p.msg (by omega), drv := fun _ => p.drv (by omega),
               rx := by omega, tx := by omega, t15 := by omega, t35 := by omega, err := by omega, ident := by omega, st := by omega, f15 := by omega,
               f35 := by omega, ferr := by omega },
      { s with gap := (fun h => nomatch h) }⟩
  -- rxPtr
  · obtain ⟨rfl, rfl⟩ := List.cons.inj ht
    exact ⟨[], l, 8, id, (fun _ h => nomatch h), rfl, List.sublist_append_left _ _, rfl, f.mid rfl rfl rfl rfl rfl (fun h => nomatch h),
      { p with todo := rfl, le := by omega, data := fun _ => p.data (by omega), msg := fun _ => p.msg (by omega), drv := fun _ => p.drv (by omega),
               rx := fun _ => rfl, tx := by omega, t15 := by omega, t35 := by omega, err := by omega, ident := by omega, st := by omega, f15 := by omega,
               f35 := by omega, ferr := by omega },
      { s with tx := fun h => ⟨rfl, (s.tx h).2⟩ }⟩
  -- rxEnable
  · obtain ⟨rfl, rfl⟩ := List.cons.inj ht
    exact ⟨[], l, 9, id, (fun _ h => nomatch h), rfl, List.sublist_append_left _ _, rfl, f.mid rfl rfl rfl rfl rfl (fun h => nomatch h),
      { p with todo := rfl, le := by omega, data := fun _ => p.data (by omega), msg := fun _ => p.msg (by omega), drv := fun _ => p.drv (by omega),
               rx := fun _ => p.rx (by omega), tx := by omega, t15 := by omega, t35 := by omega, err := by omega, ident := by omega, st := by omega,
               f15 := by omega, f35 := by omega, ferr := by omega },
      { s with tx := s.tx }⟩
  -- subTx
  · obtain ⟨rfl, rfl⟩ := List.cons.inj ht
    exact ⟨[], l, 10, id, (fun _ h => nomatch h), rfl, List.sublist_append_left _ _, rfl, f.mid rfl rfl rfl rfl rfl (fun h => nomatch h),
      { p with todo := rfl, le := by omega, data := fun _ => p.data (by omega), msg := fun _ => p.msg (by omega), drv := fun _ => p.drv (by omega),
               rx := fun _ => p.rx (by omega), tx := fun _ => rfl, t15 := by omega, t35 := by omega, err := by omega, ident := by omega, st := by omega,
               f15 := by omega, f35 := by omega, ferr := by omega },
      { s with tx := fun _ => ⟨p.rx (by omega), p.data (by omega)⟩, err := fun h => ⟨rfl, (s.err h).2⟩, rdr := fun _ => rfl, txeie := fun _ => rfl,
               heard := fun _ => rfl, cen := fun _ => rfl }⟩
  -- subT15
  · obtain ⟨rfl, rfl⟩ := List.cons.inj ht
    exact ⟨[], l, 11, id, (fun _ h => nomatch h), rfl, List.sublist_append_left _ _, rfl, f.mid rfl rfl rfl rfl rfl (fun h => nomatch h),
      { p with todo := rfl, le := by omega, data := fun _ => p.data (by omega), msg := fun _ => p.msg (by omega), drv := fun _ => p.drv (by omega),
               rx := fun _ => p.rx (by omega), tx := fun _ => p.tx (by omega), t15 := fun _ => rfl, t35 := by omega, err := by omega, ident := by omega,
               st := by omega, f15 := by omega, f35 := by omega, ferr := by omega },
      { s with err := fun h => ⟨(s.err h).1, rfl, (s.err h).2.2⟩ }⟩
  -- subT35
  · obtain ⟨rfl, rfl⟩ := List.cons.inj ht
    exact ⟨[], l, 12, id, (fun _ h => nomatch h), rfl, List.sublist_append_left _ _, rfl, f.mid rfl rfl rfl rfl rfl (fun h => nomatch h),
      { p with todo := rfl, le := by omega, data := fun _ => p.data (by omega), msg := fun _ => p.msg (by omega), drv := fun _ => p.drv (by omega),
               rx := fun _ => p.rx (by omega), tx := fun _ => p.tx (by omega), t15 := fun _ => p.t15 (by omega), t35 := fun _ => rfl, err := by omega,
               ident := by omega, st := by omega, f15 := by omega, f35 := by omega, ferr := by omega },
      { s with err := fun h => ⟨(s.err h).1, (s.err h).2.1, rfl⟩ }⟩
  -- subErr
  · obtain ⟨rfl, rfl⟩ := List.cons.inj ht
    exact ⟨[], l, 13, id, (fun _ h => nomatch h), rfl, List.sublist_append_left _ _, rfl, f.mid rfl rfl rfl rfl rfl (fun h => nomatch h),
      { p with todo := rfl, le := by omega, data := fun _ => p.data (by omega), msg := fun _ => p.msg (by omega), drv := fun _ => p.drv (by omega),
               rx := fun _ => p.rx (by omega), tx := fun _ => p.tx (by omega), t15 := fun _ => p.t15 (by omega), t35 := fun _ => p.t35 (by omega),
               err := fun _ => ⟨rfl, rfl⟩, ident := by omega, st := by omega, f15 := by omega, f35 := by omega, ferr := by omega },
      { s with err := fun _ => ⟨p.tx (by omega), p.t15 (by omega), p.t35 (by omega)⟩, rtof := fun h => ⟨rfl, (s.rtof h).2⟩, uif := fun h => ⟨rfl, (s.uif h).2⟩,
               gap := fun h => ⟨rfl, (s.gap h).2⟩ }⟩
  -- setId
  · obtain ⟨rfl, rfl⟩ := List.cons.inj ht
    exact ⟨[], l, 14, id, (fun _ h => nomatch h), rfl, List.sublist_append_left _ _, rfl, f.mid rfl rfl rfl rfl rfl (fun h => nomatch h),
      { p with todo := rfl, le := by omega, data := fun _ => p.data (by omega), msg := fun _ => p.msg (by omega), drv := fun _ => p.drv (by omega),
               rx := fun _ => p.rx (by omega), tx := fun _ => p.tx (by omega), t15 := fun _ => p.t15 (by omega), t35 := fun _ => p.t35 (by omega),
               err := fun _ => p.err (by omega), ident := fun _ _ => rfl, st := by omega, f15 := by omega, f35 := by omega, ferr := by omega },
      { s with tx := s.tx }⟩
  -- stIdle
  · obtain ⟨rfl, rfl⟩ := List.cons.inj ht
    exact ⟨[], l, 15, id, (fun _ h => nomatch h), rfl, List.sublist_append_left _ _, rfl, f.mid rfl rfl rfl rfl rfl (fun h => nomatch h),
      { p with todo := rfl, le := by omega, data := fun _ => p.data (by omega), msg := fun _ => p.msg (by omega), drv := fun _ => p.drv (by omega),
               rx := fun _ => p.rx (by omega), tx := fun _ => p.tx (by omega), t15 := fun _ => p.t15 (by omega), t35 := fun _ => p.t35 (by omega),
               err := fun _ => p.err (by omega), ident := fun _ _ => p.ident (by omega) (by omega), st := fun _ _ => rfl, f15 := by omega,
               f35 := by omega, ferr := by omega },
      { s with tx := s.tx }⟩
  -- clrT15
  · obtain ⟨rfl, rfl⟩ := List.cons.inj ht
    exact ⟨[], l, 16, id, (fun _ h => nomatch h), rfl, List.sublist_append_left _ _, rfl, f.mid rfl rfl rfl rfl rfl (fun h => nomatch h),
      { p with todo := rfl, le := by omega, data := fun _ => p.data (by omega), msg := fun _ => p.msg (by omega), drv := fun _ => p.drv (by omega),
               rx := fun _ => p.rx (by omega), tx := fun _ => p.tx (by omega), t15 := fun _ => p.t15 (by omega), t35 := fun _ => p.t35 (by omega),
               err := fun _ => p.err (by omega), ident := fun _ _ => p.ident (by omega) (by omega), st := fun _ _ => p.st (by omega) (by omega),
               f15 := (fun _ _ => .inl rfl), f35 := by omega, ferr := by omega },
      { s with tx := s.tx }⟩
  -- clrT35
  · obtain ⟨rfl, rfl⟩ := List.cons.inj ht
    exact ⟨[], l, 17, id, (fun _ h => nomatch h), rfl, List.sublist_append_left _ _, rfl, f.mid rfl rfl rfl rfl rfl (fun h => nomatch h),
      { p with todo := rfl, le := by omega, data := fun _ => p.data (by omega), msg := fun _ => p.msg (by omega), drv := fun _ => p.drv (by omega),
               rx := fun _ => p.rx (by omega), tx := fun _ => p.tx (by omega), t15 := fun _ => p.t15 (by omega), t35 := fun _ => p.t35 (by omega),
               err := fun _ => p.err (by omega), ident := fun _ _ => p.ident (by omega) (by omega), st := fun _ _ => p.st (by omega) (by omega),
               f15 := fun _ _ => p.f15 (by omega) (by omega), f35 := (fun _ _ => .inl rfl), ferr := by omega },
      { s with tx := s.tx }⟩
  -- clrErr
  · obtain ⟨rfl, rfl⟩ := List.cons.inj ht
    exact ⟨[], l, 18, id, (fun _ h => nomatch h), rfl, List.sublist_append_left _ _, rfl, f.mid rfl rfl rfl rfl rfl (fun h => nomatch h),
      { p with todo := rfl, le := by omega, data := fun _ => p.data (by omega), msg := fun _ => p.msg (by omega), drv := fun _ => p.drv (by omega),
               rx := fun _ => p.rx (by omega), tx := fun _ => p.tx (by omega), t15 := fun _ => p.t15 (by omega), t35 := fun _ => p.t35 (by omega),
               err := fun _ => p.err (by omega), ident := fun _ _ => p.ident (by omega) (by omega), st := fun _ _ => p.st (by omega) (by omega),
               f15 := fun _ _ => p.f15 (by omega) (by omega), f35 := fun _ _ => p.f35 (by omega) (by omega), ferr := (fun _ _ => .inl rfl) },
      { s with tx := s.tx }⟩
  -- clrTx
  · obtain ⟨rfl, rfl⟩ := List.cons.inj ht
    have a1 := p.f15 (by omega) (by omega)
    have a2 := p.f35 (by omega) (by omega)
    have a3 := p.ferr (by omega) (by omega)
    have hrun : slaveRun cfg l (.init .rtu id :: survivors d.lib.t15 d.lib.t35 d.lib.ferr) =
        .ok ({ slaveInit l .rtu id with t15 := d.lib.t15, t35 := d.lib.t35, ferr := d.lib.ferr }, []) := by
      rw [slaveRun_cons_ok (o := []) (s1 := slaveInit l .rtu id) rfl, run_survivors rfl rfl rfl rfl a1 a2 a3]
      rfl
    have hlib : ({ d.lib with txf := .cleared } : Slave) = { slaveInit l .rtu id with t15 := d.lib.t15, t35 := d.lib.t35, ferr := d.lib.ferr } := by
      have e1 := p.data (by omega)
      have e2 := p.msg (by omega)
      have e3 := p.drv (by omega)
      have e4 := (p.err (by omega)).2
      have e5 := p.ident (by omega) (by omega)
      have e6 := p.st (by omega) (by omega)
      have g1 := f.req
      have g2 := f.reqLen
      have g3 := f.resp
      have g4 := f.respLen
      have g5 := f.mem
      revert e1 e2 e3 e4 e5 e6 g1 g2 g3 g4 g5
      obtain ⟨id', st, drv, mp, ds, sub, req, rl, resp, pl, x, y, z, w, mem⟩ := d.lib
      dsimp only
      intro e1 e2 e3 e4 e5 e6 g1 g2 g3 g4 g5
      subst e1 e2 e3 e4 e5 e6 g1 g2 g3 g4 g5
      rfl
    refine ⟨_, _, 19, id, ?_, hrun, ?_, ?_, ?_,
      { p with todo := rfl, le := by omega, data := fun _ => p.data (by omega), msg := fun _ => p.msg (by omega), drv := fun _ => p.drv (by omega),
               rx := fun _ => p.rx (by omega), tx := fun _ => p.tx (by omega), t15 := fun _ => p.t15 (by omega), t35 := fun _ => p.t35 (by omega),
               err := fun _ => p.err (by omega), ident := by omega, st := by omega, f15 := by omega, f35 := by omega, ferr := by omega },
      { s with tx := s.tx }⟩
    · intro op ho
      rcases List.mem_cons.1 ho with rfl | ho
      · exact ⟨rfl, trivial⟩
      · exact legal_survivors a1 a2 a3 op ho
    · show List.Sublist (bytesOf (survivors _ _ _) ++ _) _
      rw [bytes_survivors]
      exact List.sublist_append_left _ _
    · show List.filter _ (survivors _ _ _) = _
      exact calls_survivors
    · refine ⟨⟨rfl, rfl, rfl, rfl⟩, f.req, f.reqLen, f.resp, f.respLen, f.mem, fun _ => hlib⟩

/-- Sending frames: only the transmitter changes. -/
theorem boot_sends (os : List SOut) : ∀ d : SlaveBoot, d.last < 256 →
    ∃ d' o, bootSends d os = .ok (d', o) ∧ frames o = os.map SOut.bytes ∧ d'.last < 256 ∧ d'.lib = d.lib ∧ d'.rxMsg = d.rxMsg ∧ d'.cbTx = d.cbTx ∧
      d'.cbT15 = d.cbT15 ∧ d'.cbT35 = d.cbT35 ∧ d'.cbErr = d.cbErr ∧ d'.gap = d.gap ∧ d'.todo = d.todo ∧ d'.hw.rdr = d.hw.rdr ∧
      d'.hw.heard = d.hw.heard ∧ d'.hw.rtof = d.hw.rtof ∧ d'.hw.cen = d.hw.cen ∧ d'.hw.uif = d.hw.uif := by
  induction os with
  | nil => intro d hl; exact ⟨d, [], rfl, rfl, hl, rfl, rfl, rfl, rfl, rfl, rfl, rfl, rfl, rfl, rfl, rfl, rfl, rfl⟩
  | cons x os ih =>
    intro d hl
    cases x with
    | send g =>
      have hn := d.lib.respLen.isLt
      by_cases h0 : 0 < d.lib.respLen.toNat
      · obtain ⟨d', o, h1, h2, h3⟩ := ih { d with cur := 0, last := d.lib.respLen.toNat - 1, hw := { d.hw with txe := false, txeie := true } }
          (by show d.lib.respLen.toNat - 1 < 256; omega)
        refine ⟨d', .send g :: [.tdr (d.lib.resp 0)] ++ o, ?_, ?_, h3⟩
        · simp only [bootSends, bootUsartSend, if_pos h0, rd_ok d.lib.resp (show 0 < 256 by omega), ok_bind, pure_eq]
          rw [h1]; rfl
        · show g :: frames o = _
          rw [h2]; rfl
      · obtain ⟨d', o, h1, h2, h3⟩ := ih d hl
        refine ⟨d', .send g :: [] ++ o, ?_, ?_, h3⟩
        · simp only [bootSends, bootUsartSend, if_neg h0, ok_bind]
          rw [h1]; rfl
        · show g :: frames o = _
          rw [h2]; rfl

theorem boot_main (hc : cfg.WF) {d : SlaveBoot} {l : Slave} {k : Nat} {id : U8} (f : Follows d l) (p : BPhase Q E d k id) (s : BSafe Q E d) {op : SOp}
    (hop : op.legal cfg) (ht : d.todo = []) (hcall : op.isCall = true) :
    ∃ d' o os, bootStep cfg d (.main op) = .ok (d', o) ∧ frames o = os.map SOut.bytes ∧ Adv cfg Q E d l os [] [op] d' := by
  obtain ⟨l1, os, h1, hl1⟩ := live_step cfg hc l f.live op hop
  have hd := f.done ht
  have hk : k = 19 := by
    have := p.todo
    rw [ht] at this
    have := congrArg List.length this
    rw [List.length_drop] at this
    have e : (slaveInitStmts id).length = 19 := rfl
    have h19 := p.le
    rw [e, List.length_nil] at this
    omega
  subst hk
  obtain ⟨d', o, h2, h3, h4, e1, e2, e3, e4, e5, e6, e7, e8, e9, e10, e11, e12, e13⟩ := boot_sends os { d with lib := l1 } s.last
  dsimp only at e1 e2 e3 e4 e5 e6 e7 e8 e9 e10 e11 e12 e13
  refine ⟨d', o, os, ?_, h3, [op], l1, 19, id, ?_, ?_, ?_, ?_, ?_, ?_, ?_⟩
  · show (if _ then _ else _) = _
    rw [if_pos ⟨ht, hcall⟩, hd, h1, ok_bind]
    exact h2
  · intro x hx
    simp only [List.mem_cons, List.not_mem_nil, or_false] at hx
    subst hx; exact ⟨hop, by cases x <;> first | trivial | cases hcall⟩
  · rw [slaveRun_cons_ok h1]
    show Except.ok (l1, os ++ []) = _
    rw [List.append_nil]
  · have : bytesOf [op] = [] := by cases op <;> first | rfl | cases hcall
    rw [this, e9]
    exact List.sublist_append_left _ _
  · show List.filter _ [op] = _
    rw [List.filter_cons_of_pos hcall]; rfl
  · exact ⟨hl1, by rw [e1], by rw [e1], by rw [e1], by rw [e1], by rw [e1], fun _ => e1⟩
  · constructor
    · exact e8.trans p.todo
    · exact p.le
    · intro _; rw [e1]; exact hl1.dataSet
    · intro _; rw [e1]; exact hl1.msgPtr
    · intro _; rw [e1]; exact hl1.drv
    · intro _; rw [e2]; exact p.rx (by omega)
    · intro _; rw [e3]; exact p.tx (by omega)
    · intro _; rw [e4]; exact p.t15 (by omega)
    · intro _; rw [e5]; exact p.t35 (by omega)
    · intro _; rw [e1, e6]; exact ⟨(p.err (by omega)).1, hl1.sub⟩
    all_goals omega
  · have hx := p.tx (by omega)
    have he := (p.err (by omega)).1
    constructor
    · intro _; rw [e2, e1]; exact ⟨(s.tx hx).1, hl1.dataSet⟩
    · intro _; rw [e3, e4, e5]; exact s.err he
    · intro _; rw [e3]; exact hx
    · intro _; rw [e3]; exact hx
    · intro _; rw [e3]; exact hx
    · intro _; rw [e3]; exact hx
    · intro h; rw [e6]; rw [e11] at h; exact s.rtof h
    · intro h; rw [e6]; rw [e13] at h; exact s.uif h
    · intro h; rw [e6]; rw [e7] at h; exact s.gap h
    · exact h4

theorem boot_hw {d : SlaveBoot} {l : Slave} {k : Nat} {id : U8} (f : Follows d l) (p : BPhase Q E d k id) (s : BSafe Q E d) {e : HwEv}
    (ht : BootTimely d (.hw e)) (hq : e = .quiet → Q) (he : e = .expire → E) : Adv cfg Q E d l [] (BootArrived (.hw e)) [] { d with hw := hwStep d.hw e } := by
  have f' : ∀ h, Follows { d with hw := h } l := fun _ => ⟨f.live, f.req, f.reqLen, f.resp, f.respLen, f.mem, f.done⟩
  have p' : ∀ h, BPhase Q E { d with hw := h } k id := fun _ => { p with todo := p.todo }
  cases e with
  | char b =>
    show Adv cfg Q E d l [] _ [] { d with hw := if _ then _ else _ }
    by_cases h : d.hw.ue = true
    · have hx : d.cbTx = true := ht h
      rw [if_pos h]
      exact .refl (List.sublist_append_right _ _) (f' _) (p' _) { s with rdr := fun _ => hx, heard := fun _ => hx }
    · rw [if_neg h]
      exact .refl (List.sublist_append_left _ _) (f' _) (p' _) { s with last := s.last }
  | quiet =>
    show Adv cfg Q E d l [] _ [] { d with hw := if _ then _ else _ }
    by_cases h : d.hw.heard = true
    · have hx : d.cbErr = true := ht h
      rw [if_pos h]
      exact .refl (List.sublist_append_left _ _) (f' _) (p' _) { s with rtof := fun _ => ⟨hx, hq rfl⟩, heard := (fun h => nomatch h) }
    · rw [if_neg h]
      exact .refl (List.sublist_append_left _ _) (f' _) (p' _) { s with last := s.last }
  | shift => exact .refl (List.sublist_append_left _ _) (f' _) (p' _) { s with last := s.last }
  | expire =>
    show Adv cfg Q E d l [] _ [] { d with hw := if _ then _ else _ }
    by_cases h : d.hw.cen = true
    · have hx : d.cbErr = true := ht h
      rw [if_pos h]
      exact .refl (List.sublist_append_left _ _) (f' _) (p' _) { s with uif := fun _ => ⟨hx, he rfl⟩, cen := (fun h => nomatch h) }
    · rw [if_neg h]
      exact .refl (List.sublist_append_left _ _) (f' _) (p' _) { s with last := s.last }

/-- One event. -/
theorem boot_step (hc : cfg.WF) {d : SlaveBoot} {l : Slave} {k : Nat} {id : U8} (f : Follows d l) (p : BPhase Q E d k id) (s : BSafe Q E d) {op : BOp}
    (hl : BootLegal (SOp.legal cfg) op) (ht : BootTimely d op) (hq : op = .hw .quiet → Q) (hx : op = .hw .expire → E) :
    ∃ d' o os calls, bootStep cfg d op = .ok (d', o) ∧ frames o = os.map SOut.bytes ∧ calls.Sublist (BootCalled op) ∧
      Adv cfg Q E d l os (BootArrived op) calls d' := by
  have keep : ∀ new, Adv cfg Q E d l [] new [] d := fun _ => .refl (List.sublist_append_left _ _) f p s
  cases op with
  | init id' =>
    show ∃ d' o os calls, Except.ok (if d.todo = [] then { d with todo := slaveInitStmts id' } else d, []) = .ok (d', o) ∧ _
    by_cases h : d.todo = []
    · rw [if_pos h]
      refine ⟨_, [], [], [], rfl, rfl, List.nil_sublist _, .refl (k := 0) (id := id') (List.sublist_append_left _ _)
        (f.mid rfl rfl rfl rfl rfl (fun h => nomatch h)) ?_ { s with last := s.last }⟩
      constructor
      · rfl
      all_goals omega
    · rw [if_neg h]
      exact ⟨_, [], [], [], rfl, rfl, List.nil_sublist _, keep _⟩
  | next =>
    cases h : d.todo with
    | nil =>
      refine ⟨d, [], [], [], ?_, rfl, List.nil_sublist _, keep _⟩
      show (match d.todo with | [] => _ | s :: t => _) = _
      rw [h]
    | cons x t =>
      refine ⟨{ d.exec x with todo := t }, [], [], [], ?_, rfl, List.nil_sublist _, boot_next f p s h⟩
      show (match d.todo with | [] => _ | s :: t => _) = _
      rw [h]
  | main op =>
    by_cases h : d.todo = [] ∧ op.isCall = true
    · obtain ⟨d', o, os, h1, h2, h3⟩ := boot_main hc f p s hl h.1 h.2
      exact ⟨d', o, os, [op], h1, h2, List.Sublist.refl _, h3⟩
    · refine ⟨d, [], [], [], ?_, rfl, List.nil_sublist _, keep _⟩
      show (if _ then _ else _) = _
      rw [if_neg h]
  | hw e => exact ⟨_, [], [], [], rfl, rfl, List.nil_sublist _, boot_hw f p s ht (fun h => hq (h ▸ rfl)) (fun h => hx (h ▸ rfl))⟩
  | usart =>
    by_cases h : d.hw.irqU = true
    · obtain ⟨d', o, h1, h2, h3⟩ := boot_usart (cfg := cfg) f p s h
      refine ⟨d', o, [], [], ?_, h2, List.nil_sublist _, h3⟩
      show (if _ then _ else _) = _
      rw [if_pos h, h1]
    · refine ⟨d, [], [], [], ?_, rfl, List.nil_sublist _, keep _⟩
      show (if _ then _ else _) = _
      rw [if_neg h]
  | timer =>
    by_cases h : (d.hw.nvicT && d.hw.uif) = true
    · obtain ⟨d', h1, h3⟩ := boot_timer (cfg := cfg) f p s (Bool.and_eq_true_iff.1 h).2
      refine ⟨d', [], [], [], ?_, rfl, List.nil_sublist _, h3⟩
      show (if _ then _ else _) = _
      rw [if_pos h, h1]; rfl
    · refine ⟨d, [], [], [], ?_, rfl, List.nil_sublist _, keep _⟩
      show (if _ then _ else _) = _
      rw [if_neg h]

/-- A history. -/
theorem boot_run (hc : cfg.WF) (ops : List BOp) : ∀ (d : SlaveBoot) (l : Slave) (k : Nat) (id : U8), Follows d l → BPhase Q E d k id → BSafe Q E d →
    (∀ op ∈ ops, BootLegal (SOp.legal cfg) op) → BootInTime cfg d ops → (.hw .quiet ∈ ops → Q) → (.hw .expire ∈ ops → E) →
    ∃ d' o os calls, bootRun cfg d ops = .ok (d', o) ∧ frames o = os.map SOut.bytes ∧ calls.Sublist (ops.flatMap BootCalled) ∧
      Adv cfg Q E d l os (ops.flatMap BootArrived) calls d' := by
  induction ops with
  | nil =>
    intro d l k id f p s _ _ _ _
    exact ⟨d, [], [], [], rfl, rfl, List.Sublist.refl _, .refl (List.sublist_append_left _ _) f p s⟩
  | cons op ops ih =>
    intro d l k id f p s hl ht hq hx
    obtain ⟨d1, o1, os1, c1, h1, g1, q1, s1, l1, k1, id1, a1, b1, y1, z1, f1, p1, i1⟩ :=
      boot_step hc f p s (hl op (List.mem_cons_self ..)) ht.1 (fun h => hq (h ▸ List.mem_cons_self ..))
        (fun h => hx (h ▸ List.mem_cons_self ..))
    obtain ⟨d2, o2, os2, c2, h2, g2, q2, s2, l2, k2, id2, a2, b2, y2, z2, f2, p2, i2⟩ :=
      ih d1 l1 k1 id1 f1 p1 i1 (fun x hx => hl x (List.mem_cons_of_mem _ hx)) (ht.2 d1 o1 h1)
        (fun h => hq (List.mem_cons_of_mem _ h)) (fun h => hx (List.mem_cons_of_mem _ h))
    refine ⟨d2, o1 ++ o2, os1 ++ os2, c1 ++ c2, ?_, ?_, ?_, s1 ++ s2, l2, k2, id2, ?_, slaveRun_append_ok b1 b2, ?_, ?_, f2, p2, i2⟩
    · rw [bootRun, h1, ok_bind]
      dsimp only
      rw [h2]; rfl
    · rw [frames_append, g1, g2, List.map_append]
    · rw [List.flatMap_cons]
      exact q1.append q2
    · intro x hx
      rcases List.mem_append.1 hx with hx | hx
      · exact a1 x hx
      · exact a2 x hx
    · rw [bytesOf_append, List.flatMap_cons, ← List.append_assoc d.hw.rdr.toList, List.append_assoc (bytesOf s1)]
      refine (List.Sublist.append (List.Sublist.refl (bytesOf s1)) y2).trans ?_
      rw [← List.append_assoc]
      exact List.Sublist.append y1 (List.Sublist.refl _)
    · rw [List.filter_append, z1, z2]

end Modbus
