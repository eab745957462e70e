import Verif.Proofs.DriverMasterExchange
import Verif.Props.MasterExchange

/-! Transactions of a master device, simulated by transactions of its library. -/

namespace Modbus

open Spec

/-! ### The transmission -/

/-- While the request is transmitted. -/
theorem sim_tx {cfg : Config} (ops : List HMOp) : ∀ {s : MasterSys} {l : Master} {tr : MTrace}, s.rtof = false → s.last < 256 →
    s.cur + ops.count (.usart none true) = s.last → (∀ op ∈ ops, op.noise) →
    masterRun cfg s.lib (libOps s.gap false ops) = .ok (l, tr) → NoSend tr →
    ∃ s' htr, masterSysRun cfg s ops = .ok (s', htr) ∧ s'.lib = l ∧ s'.cur = s'.last ∧ s'.gap = s.gap ∧ s'.rtof = false ∧
      l.drv = s.lib.drv ∧ mainTrace htr = tr.filter fun x => x.1.isMain := by
  induction ops with
  | nil => intro s l tr hr _ hc _ h _; cases h; exact ⟨s, [], rfl, rfl, by simpa using hc, rfl, hr, rfl, rfl⟩
  | cons op ops ih =>
    intro s l tr hr hl hc hp h hn
    have hp1 := hp op (List.mem_cons_self ..)
    have hp2 : ∀ op ∈ ops, op.noise := fun op ho => hp op (List.mem_cons_of_mem _ ho)
    cases op with
    | rto => exact hp1.elim
    | timer => exact hp1.elim
    | main op =>
      obtain ⟨l1, o, t2, k1, k2, rfl⟩ := run_cons_inv (show masterRun cfg s.lib (op :: libOps s.gap false ops) = _ from h)
      have hf : ∀ f, MOut.send f ∉ o := hn _ (List.mem_cons_self ..)
      have hop : op.noise := hp1
      have hm : op.isMain = true := by cases op <;> first | rfl | exact hop.elim
      have hi : ∀ m, op ≠ .init m := hop.contract.1
      have hk := step_keeps hi (noise_ne hop).2.2.2.1 k1 hf
      have hstep := sys_main hm hi k1 hf
      obtain ⟨s2, t3, a1, a2, a3, a4, a5, a6, a7⟩ := ih (s := { s with lib := l1 }) hr hl (by simpa using hc) hp2
        k2 (fun x hx => hn x (List.mem_cons_of_mem _ hx))
      refine ⟨s2, (.main op, o.map .lib) :: t3, by simp only [masterSysRun, hstep, ok_bind, a1, pure_eq], a2, a3, a4, a5, a6.trans hk.1, ?_⟩
      rw [List.filter_cons_of_pos (by simpa using hm), ← a7]
      simp [mainTrace, libOuts_map]
    | usart b t =>
      cases b with
      | some b => exact hp1.elim
      | none =>
        have h' : masterRun cfg s.lib (libOps s.gap false ops) = .ok (l, tr) := by
          simpa [libOps] using h
        cases t with
        | false =>
          have hstep : masterSysStep cfg s (.usart none false) = .ok (s, []) := by
            have r2 : masterIrqTx cfg s false = .ok (s, []) := rfl
            have r3 : masterIrqRto cfg s = .ok s := if_neg (by simp [hr])
            simp only [masterSysStep, masterIrqRx, ok_bind, r2, r3, pure_eq]
          obtain ⟨s2, t3, a1, a2, a3, a4, a5, a6, a7⟩ := ih hr hl (by simpa using hc) hp2 h' hn
          refine ⟨s2, (.usart none false, []) :: t3, by simp only [masterSysRun, hstep, ok_bind, a1, pure_eq], a2, a3, a4, a5, a6, ?_⟩
          rw [← a7]; simp [mainTrace]
        | true =>
          rw [List.count_cons_self] at hc
          have hstep : masterSysStep cfg s (.usart none true) =
              .ok ({ s with cur := s.cur + 1 }, [.tdr ((s.lib.msgs s.txMsg).req (s.cur + 1))]) := by
            have r2 : masterIrqTx cfg s true = .ok ({ s with cur := s.cur + 1 }, [.tdr ((s.lib.msgs s.txMsg).req (s.cur + 1))]) := by
              unfold masterIrqTx
              rw [if_pos rfl, if_pos (by omega), rd_ok _ (by omega)]
              rfl
            have r3 : masterIrqRto cfg { s with cur := s.cur + 1 } = .ok { s with cur := s.cur + 1 } := if_neg (by simp [hr])
            simp only [masterSysStep, masterIrqRx, ok_bind, r2, r3, pure_eq]
          obtain ⟨s2, t3, a1, a2, a3, a4, a5, a6, a7⟩ := ih (s := { s with cur := s.cur + 1 }) hr hl (by simp only; omega) hp2 h' hn
          refine ⟨s2, (.usart none true, [.tdr ((s.lib.msgs s.txMsg).req (s.cur + 1))]) :: t3, by simp only [masterSysRun, hstep, ok_bind, a1, pure_eq],
            a2, a3, a4, a5, a6, ?_⟩
          rw [← a7]; simp [mainTrace]

/-- The last transmit interrupt. -/
theorem sim_txDone {cfg : Config} {s : MasterSys} {l : Master} {o : List MOut} (hr : s.rtof = false) (hc : s.cur = s.last) (hd : s.lib.drv = true)
    (h : masterStep cfg s.lib .txDone = .ok (l, o)) :
    masterSysStep cfg s (.usart none true) = .ok ({ s with lib := l }, []) ∧ Calm { s with lib := l } ∧ o = [] := by
  have ho := masterStep_irq rfl h
  subst ho
  have hl : l = { s.lib with txf := .cleared } := by
    simp only [masterStep, if_pos hd] at h
    cases h
    rfl
  refine ⟨?_, ⟨hc, by rw [hl], by rw [hl]; exact hd⟩, rfl⟩
  have r2 : masterIrqTx cfg s true = .ok ({ s with lib := l }, []) := by
    unfold masterIrqTx
    rw [if_pos rfl, if_neg (by omega), h]
    rfl
  have r3 : masterIrqRto cfg { s with lib := l } = .ok { s with lib := l } := if_neg (by simp [hr])
  simp only [masterSysStep, masterIrqRx, ok_bind, r2, r3, pure_eq]

/-! ### The library's view of an attempt -/

/-- The library's view of a frame, and of the flags after it. -/
def HMHeard.lib (g : Bool) (h : HMHeard) : Heard :=
  { rx := libOps g false h.rx ++ h.mid ++ h.fb.toList.flatMap fun b => .rxByte b :: if gapAfter g false h.rx then [.frameErr] else [],
    w := libOps true false h.w }

theorem libOps_main (g p : Bool) (l : List MOp) : libOps g p (l.map .main) = l := by
  induction l with
  | nil => rfl
  | cons x l ih => rw [List.map_cons, libOps, ih]

theorem gapAfter_main (g p : Bool) (l : List MOp) : gapAfter g p (l.map .main) = g := by
  induction l with
  | nil => rfl
  | cons x l ih => rw [List.map_cons, gapAfter, ih]

theorem silent_main (p : Bool) (l : List MOp) : silent p (l.map .main) = p := by
  induction l with
  | nil => rfl
  | cons x l ih => exact ih

theorem silent_rx {l : List HMOp} (h : ∀ op ∈ l, op.rxNoise) : silent false l = false := by
  induction l with
  | nil => rfl
  | cons op l ih =>
    have h1 := h op (List.mem_cons_self ..)
    have := ih fun x hx => h x (List.mem_cons_of_mem _ hx)
    cases op <;> first | exact h1.elim | exact this

theorem HMHeard.lib_ops {h : HMHeard} (hh : h.Wf) (g : Bool) :
    libOps g false h.ops = (h.lib g).ops ∧ silent false h.ops = false := by
  have hs := silent_rx hh.rx
  unfold HMHeard.ops
  constructor
  · simp only [libOps_append, List.append_assoc, List.cons_append, hs, libOps, libOps_main, gapAfter_main, silent_main,
      hh.settled, Heard.ops, HMHeard.lib, if_true, Bool.or_true, List.nil_append]
  · simp only [silent_append, List.append_assoc, List.cons_append, hs, silent, silent_main, hh.settled]

/-- The library's view of a sequence of frames. -/
def libOthers (g : Bool) : List HMHeard → List Heard
  | [] => []
  | h :: l => h.lib g :: libOthers (gapAfter g false h.ops) l

theorem libOthers_ops {l : List HMHeard} (hl : ∀ h ∈ l, h.Wf) : ∀ g, libOps g false (l.flatMap HMHeard.ops) = (libOthers g l).flatMap Heard.ops ∧
    silent false (l.flatMap HMHeard.ops) = false := by
  induction l with
  | nil => intro g; exact ⟨rfl, rfl⟩
  | cons h l ih =>
    intro g
    obtain ⟨a1, a2⟩ := HMHeard.lib_ops (hl h (List.mem_cons_self ..)) g
    obtain ⟨b1, b2⟩ := ih (fun x hx => hl x (List.mem_cons_of_mem _ hx)) (gapAfter g false h.ops)
    rw [List.flatMap_cons, libOps_append, silent_append, a1, a2, b1, b2]
    exact ⟨rfl, rfl⟩

/-- The library's view of an attempt. -/
def HMAttempt.lib (a : HMAttempt) : Attempt :=
  { w1 := libOps false false a.tx, w2 := libOps false false a.w2, others := libOthers false a.others,
    resp := a.resp.lib (gapAfter false false (a.others.flatMap HMHeard.ops)),
    w4 := libOps (gapAfter false false (a.others.flatMap HMHeard.ops ++ a.resp.ops)) false a.w4, w5 := libOps false false a.w5 }

theorem silent_noise {l : List HMOp} (h : ∀ op ∈ l, op.noise) : ∀ p, silent p l = false ∨ silent p l = p := by
  induction l with
  | nil => intro p; exact .inr rfl
  | cons op l ih =>
    intro p
    have h1 := h op (List.mem_cons_self ..)
    have := ih fun x hx => h x (List.mem_cons_of_mem _ hx)
    cases op with
    | rto => exact h1.elim
    | timer => exact h1.elim
    | main op => exact this p
    | usart b t => exact (this false).elim .inl .inl

theorem gapAfter_noise {l : List HMOp} (h : ∀ op ∈ l, op.noise) : ∀ g, gapAfter g false l = g := by
  induction l with
  | nil => intro p; rfl
  | cons op l ih =>
    intro g
    have h1 := h op (List.mem_cons_self ..)
    have := ih fun x hx => h x (List.mem_cons_of_mem _ hx)
    cases op with
    | rto => exact h1.elim
    | timer => exact h1.elim
    | main op => exact this g
    | usart b t => rw [gapAfter, Bool.or_false]; exact this g

theorem HMOp.quiet.noise {op : HMOp} (h : op.quiet) : op.noise := by
  cases op with
  | main op => exact h.1
  | rto => exact h
  | timer => exact h
  | usart b t => cases b <;> exact h

theorem HMOp.tail.rxNoise {op : HMOp} (h : op.tail) : op.rxNoise := by
  cases op <;> first | exact h | exact h.elim

theorem MOp.noise.plain {op : MOp} (h : op.noise) : (HMOp.main op).plain :=
  ⟨by cases op <;> first | rfl | exact h.elim, h.contract.1⟩

theorem HMOp.rxNoise.plain {op : HMOp} (h : op.rxNoise) : op.plain := by
  cases op with
  | main op => exact MOp.noise.plain h
  | _ => trivial

theorem HMOp.late.plain {op : HMOp} (h : op.late) : op.plain := by
  cases op with
  | main op => exact MOp.noise.plain h.1
  | _ => trivial

theorem HMHeard.Wf.plain {h : HMHeard} (hh : h.Wf) : ∀ op ∈ h.ops, op.plain := by
  intro op ho
  simp only [HMHeard.ops, List.mem_append, List.mem_cons, List.mem_map, List.not_mem_nil, or_false] at ho
  rcases ho with ((k | rfl | ⟨x, k, rfl⟩) | rfl | k) | rfl
  · exact (hh.rx op k).plain
  · trivial
  · exact (hh.mid x k).plain
  · trivial
  · exact (hh.w op k).plain
  · exact ⟨rfl, by simp⟩

theorem HMOp.noise.rxNoise {op : HMOp} (h : op.noise) : op.rxNoise := by
  cases op with
  | main op => exact h
  | rto => exact h.elim
  | timer => exact h.elim
  | usart b t => trivial

theorem HMAttempt.lib_line {T : Nat} {r : MReq} {a : HMAttempt} (ha : a.Wf T r) : libOps false false a.line =
    a.lib.others.flatMap Heard.ops ++ a.lib.resp.ops ++ a.lib.w4 ∧ silent false a.line = false := by
  obtain ⟨b1, b2⟩ := libOthers_ops (fun h hh => (ha.others h hh).1) false
  obtain ⟨c1, c2⟩ := HMHeard.lib_ops ha.resp.1 (gapAfter false false (a.others.flatMap HMHeard.ops))
  have c3 := silent_rx fun op ho => (ha.w4 op ho).rxNoise
  unfold HMAttempt.line
  constructor
  · simp only [libOps_append, silent_append, gapAfter_append, b1, b2, c1, c2, HMAttempt.lib]
  · simp only [silent_append, b2, c2, c3]

theorem HMAttempt.lib_init {T : Nat} {r : MReq} {a : HMAttempt} (ha : a.Wf T r) :
    a.lib.init = libOps false false a.tx ++ .txDone :: libOps false false (a.w2 ++ .main .poll :: a.line ++ .timer :: a.w5) := by
  obtain ⟨b1, b2⟩ := HMAttempt.lib_line ha
  have c1 := gapAfter_noise (fun op ho => (ha.w2 op ho).noise) false
  have c2 := silent_rx fun op ho => (ha.w2 op ho).noise.rxNoise
  simp only [Attempt.init, libOps_append, libOps, List.append_assoc, List.cons_append, c1, c2, b1, b2, silent, gapAfter, HMAttempt.lib]

/-! ### The library's view is well-formed -/

theorem mem_libOps {ops : List HMOp} {x : MOp} : ∀ {g p : Bool}, x ∈ libOps g p ops →
    .main x ∈ ops ∨ ((∃ b, x = .rxByte b) ∨ x = .frameErr) ∧ (∃ b t, HMOp.usart (some b) t ∈ ops) ∨ x = .t35 ∧ .timer ∈ ops ∨ x = .t15 ∧ (p = true ∨ .rto ∈ ops) := by
  induction ops with
  | nil => intro g p h; cases h
  | cons op ops ih =>
    intro g p h
    have mono : ∀ {p' : Bool}, (.main x ∈ ops ∨ ((∃ b, x = .rxByte b) ∨ x = .frameErr) ∧ (∃ b t, HMOp.usart (some b) t ∈ ops) ∨ x = .t35 ∧ .timer ∈ ops ∨
        x = .t15 ∧ (p' = true ∨ .rto ∈ ops)) → (p' = true → p = true ∨ .rto ∈ op :: ops) →
        .main x ∈ op :: ops ∨ ((∃ b, x = .rxByte b) ∨ x = .frameErr) ∧ (∃ b t, HMOp.usart (some b) t ∈ op :: ops) ∨ x = .t35 ∧ .timer ∈ op :: ops ∨
        x = .t15 ∧ (p = true ∨ .rto ∈ op :: ops) := by
      intro p' h hp
      rcases h with h | ⟨h1, b, t, h2⟩ | ⟨h1, h2⟩ | ⟨h1, h2⟩
      · exact .inl (List.mem_cons_of_mem _ h)
      · exact .inr (.inl ⟨h1, b, t, List.mem_cons_of_mem _ h2⟩)
      · exact .inr (.inr (.inl ⟨h1, List.mem_cons_of_mem _ h2⟩))
      · rcases h2 with h2 | h2
        · exact .inr (.inr (.inr ⟨h1, hp h2⟩))
        · exact .inr (.inr (.inr ⟨h1, .inr (List.mem_cons_of_mem _ h2)⟩))
    cases op with
    | main op =>
      rcases List.mem_cons.1 h with rfl | h
      · exact .inl (List.mem_cons_self ..)
      · exact mono (ih h) .inl
    | rto => exact mono (ih h) fun _ => .inr (List.mem_cons_self ..)
    | timer =>
      rcases List.mem_cons.1 h with rfl | h
      · exact .inr (.inr (.inl ⟨rfl, List.mem_cons_self ..⟩))
      · exact mono (ih h) .inl
    | usart b t =>
      rw [libOps] at h
      rcases List.mem_append.1 h with h | h
      · rcases List.mem_append.1 h with h | h
        · cases b with
          | none => cases h
          | some b =>
            simp only [Option.toList_some, List.flatMap_cons, List.flatMap_nil, List.append_nil] at h
            rcases List.mem_cons.1 h with rfl | h
            · exact .inr (.inl ⟨.inl ⟨b, rfl⟩, b, t, List.mem_cons_self ..⟩)
            · have : x = .frameErr := by
                cases g
                · cases h
                · exact List.mem_singleton.1 h
              exact .inr (.inl ⟨.inr this, b, t, List.mem_cons_self ..⟩)
        · cases hp : p with
          | false => rw [hp] at h; cases h
          | true => rw [hp] at h; exact .inr (.inr (.inr ⟨List.mem_singleton.1 h, .inl rfl⟩))
      · exact mono (ih h) (by simp)

/-- All calls of the main program are polls, ticks or requests. -/
def MainNoise (ops : List HMOp) : Prop := ∀ x, .main x ∈ ops → x.noise

theorem MainNoise.tail {op : HMOp} {ops : List HMOp} (h : MainNoise (op :: ops)) : MainNoise ops := fun x hx => h x (List.mem_cons_of_mem _ hx)

theorem libOps_bytes {ops : List HMOp} (h : MainNoise ops) : ∀ g p, mBytes (libOps g p ops) = hmBytes ops := by
  induction ops with
  | nil => intro g p; rfl
  | cons op ops ih =>
    intro g p
    have ih := ih h.tail
    cases op with
    | main op =>
      have h1 := h op (List.mem_cons_self ..)
      rw [libOps, show op :: libOps g p ops = [op] ++ libOps g p ops from rfl, mBytes_append, ih,
        mBytes_quiet (by intro x hx; rw [List.mem_singleton.1 hx]; exact h1)]
      rfl
    | rto => exact ih g true
    | timer => exact ih false p
    | usart b t =>
      rw [libOps, mBytes_append, mBytes_append, ih]
      cases b <;> cases g <;> cases p <;> rfl

theorem libOps_ticks (ops : List HMOp) : ∀ g p, tickCount (libOps g p ops) = hmTicks ops := by
  induction ops with
  | nil => intro g p; rfl
  | cons op ops ih =>
    intro g p
    cases op with
    | main op =>
      rw [libOps, show op :: libOps g p ops = [op] ++ libOps g p ops from rfl, tickCount_append, ih, tickCount_one]
      unfold hmTicks
      rw [List.count_cons]
      by_cases h : op = .tick <;> simp [h] <;> omega
    | rto =>
      rw [libOps, ih]
      simp [hmTicks]
    | timer =>
      rw [libOps, show MOp.t35 :: libOps false p ops = [MOp.t35] ++ libOps false p ops from rfl, tickCount_append, ih, tickCount_one]
      simp [hmTicks]
    | usart b t =>
      rw [libOps, tickCount_append, tickCount_append, ih]
      have : hmTicks (HMOp.usart b t :: ops) = hmTicks ops := by simp [hmTicks]
      rw [this]
      cases b <;> cases g <;> cases p <;> simp [tickCount]

theorem libOps_frameErr {ops : List HMOp} (h : MainNoise ops) : ∀ g p, .frameErr ∈ libOps g p ops ↔ lateByte g p ops = true := by
  induction ops with
  | nil => intro g p; simp [libOps, lateByte]
  | cons op ops ih =>
    intro g p
    have ih := ih h.tail
    cases op with
    | main op =>
      have h1 := (noise_ne (h op (List.mem_cons_self ..))).1
      rw [libOps, lateByte, List.mem_cons, ih]
      simp [Ne.symm h1]
    | rto => exact ih g true
    | timer =>
      rw [libOps, lateByte, List.mem_cons, ih]
      simp
    | usart b t =>
      rw [libOps, List.mem_append, List.mem_append, ih]
      cases b <;> cases g <;> cases p <;> simp [lateByte]

/-- **Simulation of an attempt.** -/
theorem sim_attempt {cfg : Config} {T : Nat} {r : MReq} {a : HMAttempt} (ha : a.Wf T r) {s : MasterSys} {l : Master} {tr : MTrace}
    (hc : s.cur = 0) (hl : s.last + 1 = (reqFrame r).length) (hlt : s.last < 256) (hg : s.gap = false) (hr : s.rtof = false) (hd : s.lib.drv = true)
    (h : masterRun cfg s.lib a.lib.init = .ok (l, tr)) (hn : NoSend tr) :
    ∃ s' htr, masterSysRun cfg s a.init = .ok (s', htr) ∧ s'.lib = l ∧ Calm s' ∧ mainTrace htr = tr.filter fun x => x.1.isMain := by
  rw [a.lib_init ha] at h
  obtain ⟨l1, t1, t2, q1, q2, rfl, n1, n2⟩ := run_app_inv h hn
  obtain ⟨s1, h1, a1, a2, a3, a4, a5, a6, a7⟩ := sim_tx a.tx hr hlt (by have := ha.txIrqs; omega) ha.tx (by rw [hg]; exact q1) n1
  obtain ⟨l2, o2, t3, q3, q4, rfl⟩ := run_cons_inv q2
  rw [← a2] at q3
  obtain ⟨b1, b2, rfl⟩ := sim_txDone a5 a3 (by rw [a2, a6]; exact hd) q3
  have hplain : ∀ op ∈ a.w2 ++ .main .poll :: a.line ++ .timer :: a.w5, op.plain := by
    intro op ho
    simp only [HMAttempt.line, List.mem_append, List.mem_cons, List.mem_flatMap] at ho
    rcases ho with (k | rfl | ((⟨x, k1, k2⟩ | k) | k)) | rfl | k
    · exact (ha.w2 op k).noise.rxNoise.plain
    · exact ⟨rfl, by simp⟩
    · exact (ha.others x k1).1.plain op k2
    · exact ha.resp.1.plain op k
    · exact (ha.w4 op k).rxNoise.plain
    · trivial
    · exact (ha.w5 op k).noise.rxNoise.plain
  obtain ⟨s3, h3, c1, c2, c3, -, -, c4⟩ := sim_calm (a.w2 ++ .main .poll :: a.line ++ .timer :: a.w5) b2 hplain (by rw [a4, hg, a5]; exact q4)
    (fun x hx => n2 x (List.mem_cons_of_mem _ hx))
  refine ⟨s3, h1 ++ ([(.usart none true, [])] ++ h3), ?_, c2, c3, ?_⟩
  · have := sysM_append _ a1 (sysM_append _ (sysM_one b1) c1)
    rw [← this]
    simp [HMAttempt.init]
  · rw [mainTrace_append, mainTrace_append, a7, c4, List.filter_append, List.filter_cons_of_neg (by simp [MOp.isMain])]
    rfl

theorem fb_bytes (b : Option U8) (g : Bool) : mBytes (b.toList.flatMap fun b => .rxByte b :: if g then [.frameErr] else []) = b.toList := by
  cases b <;> cases g <;> rfl

theorem fb_ticks (b : Option U8) (g : Bool) : tickCount (b.toList.flatMap fun b => .rxByte b :: if g then [.frameErr] else []) = 0 := by
  cases b <;> cases g <;> rfl

theorem mem_fb {b : Option U8} {g : Bool} {x : MOp} (h : x ∈ b.toList.flatMap fun b => .rxByte b :: if g then [.frameErr] else []) :
    (∃ b, x = .rxByte b) ∨ x = .frameErr := by
  cases b with
  | none => cases h
  | some b =>
    simp only [Option.toList_some, List.flatMap_cons, List.flatMap_nil, List.append_nil] at h
    rcases List.mem_cons.1 h with rfl | h
    · exact .inl ⟨b, rfl⟩
    · cases g
      · cases h
      · exact .inr (List.mem_singleton.1 h)

theorem mainNoise_rx {l : List HMOp} (h : ∀ op ∈ l, op.rxNoise) : MainNoise l := fun x hx => h _ hx

theorem mainNoise_late {l : List HMOp} (h : ∀ op ∈ l, op.late) : MainNoise l := fun x hx => (h _ hx).1

theorem HMHeard.lib_frame {h : HMHeard} (hh : h.Wf) (g : Bool) : (h.lib g).frame = h.frame := by
  unfold Heard.frame HMHeard.lib HMHeard.frame
  simp only
  rw [mBytes_append, mBytes_append, libOps_bytes (mainNoise_rx hh.rx), libOps_bytes (mainNoise_late hh.w), fb_bytes, mBytes_quiet hh.mid, List.append_nil]

theorem HMHeard.lib_ticks (h : HMHeard) (g : Bool) : (h.lib g).ticks = h.ticks := by
  unfold Heard.ticks HMHeard.lib HMHeard.ticks
  simp only
  rw [tickCount_append, tickCount_append, libOps_ticks, libOps_ticks, fb_ticks]
  omega

theorem HMHeard.lib_wf {h : HMHeard} (hh : h.Wf) (g : Bool) : (h.lib g).Wf := by
  refine ⟨?_, ?_, by rw [h.lib_frame hh]; exact hh.some, by rw [h.lib_frame hh]; exact hh.le⟩
  · intro op ho
    simp only [HMHeard.lib] at ho
    rcases List.mem_append.1 ho with ho | ho
    · rcases List.mem_append.1 ho with ho | ho
      · rcases mem_libOps ho with k | ⟨k | k, -⟩ | ⟨k, -⟩ | ⟨k, k1⟩
        · exact .inl (hh.rx _ k)
        · exact .inr (.inl k)
        · exact .inr (.inr (.inr k))
        · exact .inr (.inr (.inl k))
        · rcases k1 with k1 | k1
          · cases k1
          · exact (hh.rx _ k1).elim
      · exact .inl (hh.mid op ho)
    · rcases mem_fb ho with k | k
      · exact .inr (.inl k)
      · exact .inr (.inr (.inr k))
  · intro op ho
    simp only [HMHeard.lib] at ho
    rcases mem_libOps ho with k | ⟨k | k, -⟩ | ⟨k, -⟩ | ⟨k, -⟩
    · exact .inl (hh.w _ k)
    · exact .inr (.inl k)
    · exact .inr (.inr (.inr (.inr k)))
    · exact .inr (.inr (.inr (.inl k)))
    · exact .inr (.inr (.inl k))

theorem libOthers_wf {P : List U8 → Prop} {l : List HMHeard} : (∀ h ∈ l, h.Wf ∧ P h.frame) → ∀ g, ∀ x ∈ libOthers g l, x.Wf ∧ P x.frame := by
  induction l with
  | nil => intro _ g x hx; cases hx
  | cons h l ih =>
    intro hl g x hx
    rcases List.mem_cons.1 hx with rfl | hx
    · have := hl h (List.mem_cons_self ..)
      exact ⟨h.lib_wf this.1 g, by rw [h.lib_frame this.1]; exact this.2⟩
    · exact ih (fun y hy => hl y (List.mem_cons_of_mem _ hy)) _ x hx

theorem libOthers_ticks (l : List HMHeard) : ∀ g, ((libOthers g l).map Heard.ticks).sum = (l.map HMHeard.ticks).sum := by
  induction l with
  | nil => intro g; rfl
  | cons h l ih => intro g; rw [libOthers, List.map_cons, List.map_cons, List.sum_cons, List.sum_cons, ih, h.lib_ticks]

theorem libOps_noise {l : List HMOp} (h : ∀ op ∈ l, op.noise) : ∀ op ∈ libOps false false l, op.noise := by
  intro op ho
  rcases mem_libOps ho with k | ⟨-, b, t, k⟩ | ⟨-, k⟩ | ⟨-, k | k⟩
  · exact h _ k
  · exact (h _ k).elim
  · exact (h _ k).elim
  · cases k
  · exact (h _ k).elim

theorem libOps_quiet {l : List HMOp} (h : ∀ op ∈ l, op.quiet) : ∀ op ∈ libOps false false l, op.quiet := by
  intro op ho
  rcases mem_libOps ho with k | ⟨-, b, t, k⟩ | ⟨-, k⟩ | ⟨-, k | k⟩
  · exact h _ k
  · exact (h _ k).elim
  · exact (h _ k).elim
  · cases k
  · exact (h _ k).elim

theorem HMAttempt.lib_resp {T : Nat} {r : MReq} {a : HMAttempt} (ha : a.Wf T r) : a.lib.resp.frame = a.resp.frame :=
  HMHeard.lib_frame ha.resp.1 _

theorem HMAttempt.lib_wf {T : Nat} {r : MReq} {a : HMAttempt} (ha : a.Wf T r) : a.lib.Wf T r := by
  refine ⟨libOps_noise ha.tx, libOps_quiet ha.w2, libOthers_wf (P := fun f => f.getD 0 0 ≠ reqSlave r) ha.others _,
    ⟨HMHeard.lib_wf ha.resp.1 _, by rw [a.lib_resp ha]; exact ha.resp.2⟩, ?_, ?_, ?_, libOps_quiet ha.w5⟩
  · have h1 := libOthers_ticks a.others false
    have h2 := a.resp.lib_ticks (gapAfter false false (a.others.flatMap HMHeard.ops))
    have h3 := ha.time
    show ((libOthers false a.others).map Heard.ticks).sum + (a.resp.lib _).ticks + 1 < T
    rw [h1, h2]
    exact h3
  · intro op ho
    rcases mem_libOps ho with k | ⟨k | k, -⟩ | ⟨k, k1⟩ | ⟨k, k1⟩
    · exact .inl (ha.w4 _ k)
    · exact .inr (.inl k)
    · exact .inr (.inr k)
    · exact (ha.w4 _ k1).elim
    · rcases k1 with k1 | k1
      · cases k1
      · exact (ha.w4 _ k1).elim
  · rw [a.lib_resp ha]
    show _ + (mBytes (libOps _ false a.w4)).length ≤ 255
    rw [libOps_bytes (mainNoise_rx fun op ho => (ha.w4 op ho).rxNoise)]
    exact ha.room

theorem HMHeard.mainNoise {h : HMHeard} (hh : h.Wf) : MainNoise h.ops := by
  intro x hx
  simp only [HMHeard.ops, List.mem_append, List.mem_cons, List.mem_map, List.not_mem_nil, or_false, HMOp.main.injEq, reduceCtorEq, false_or] at hx
  rcases hx with ((k | ⟨y, k, rfl⟩) | k) | rfl
  · exact hh.rx _ k
  · exact hh.mid y k
  · exact (hh.w _ k).1
  · trivial

theorem HMAttempt.lib_broken {T : Nat} {r : MReq} {a : HMAttempt} (ha : a.Wf T r) : a.lib.broken ↔ a.gapped = true := by
  unfold Attempt.broken HMAttempt.gapped
  rw [← (a.lib_line ha).1]
  refine libOps_frameErr ?_ false false
  intro x hx
  simp only [HMAttempt.line, List.mem_append, List.mem_flatMap] at hx
  rcases hx with (⟨y, k1, k2⟩ | k) | k
  · exact HMHeard.mainNoise (ha.others y k1).1 x k2
  · exact HMHeard.mainNoise ha.resp.1 x k
  · exact ha.w4 _ k

end Modbus
