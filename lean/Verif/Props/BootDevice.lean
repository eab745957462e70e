import Verif.Props.Boot
import Verif.Proofs.BootDevice

/-! C90, continued: a slave device that has been initialised on a live line is the slave device of `Model/Driver.lean`, driver and all, and hears its line. -/

namespace Modbus

open Spec

/-- **C90**, the whole device. After an initialisation in time (`BootInTime`), whatever happens then (no condition on the line any more), until the next
initialisation: the device does exactly what the device of `Model/Driver.lean` does at the corresponding events (`bootSeen`), with the same outputs, the bytes written to the
line included, and the same library, driver pointers and flags afterwards. The main program makes no call while the UART requests an interrupt. -/
theorem C90_device_partial (cfg : Config) (hc : cfg.WF) (mem : AppMem) (id : U8) (pre : List BOp) (hl : ∀ op ∈ pre, BootLegal (SOp.legal cfg) op)
    (ht : BootInTime cfg (SlaveBoot.powerOn mem) (.init id :: pre)) (d : SlaveBoot) (o : List HOut)
    (h : bootRun cfg (SlaveBoot.powerOn mem) (.init id :: pre) = .ok (d, o)) (hd : d.todo = []) (ops : List BOp)
    (hl' : ∀ op ∈ ops, BootLegal (SOp.legal cfg) op) (hi : ∀ op ∈ ops, ∀ i, op ≠ .init i) (hw : BootWaits cfg d ops) :
    ∃ d' o', bootRun cfg d ops = .ok (d', o') ∧ slaveSysRun cfg d.sys (bootSeen cfg d ops) = .ok (d'.sys, o') := by
  obtain ⟨l, k, id', f, p, s, b⟩ := boot_reach hc hl ht h
  have hk := todo_phase p hd
  subst hk
  obtain ⟨d', o', -, -, h1, h2, -⟩ := bd_sim_run hc ops d l id' f p s b hd hl' hi hw
  exact ⟨d', o', h1, h2⟩

/-- **C90**, the device hears its line: after an initialisation in time a byte that is received is in the request buffer of the library as soon as the UART's
handler has run, the 1.5 characters of silence after it set the library's flag, and so do the 3.5 characters. -/
theorem C90_hears_partial (cfg : Config) (hc : cfg.WF) (mem : AppMem) (id : U8) (pre : List BOp) (hl : ∀ op ∈ pre, BootLegal (SOp.legal cfg) op)
    (ht : BootInTime cfg (SlaveBoot.powerOn mem) (.init id :: pre)) (d : SlaveBoot) (o : List HOut)
    (h : bootRun cfg (SlaveBoot.powerOn mem) (.init id :: pre) = .ok (d, o)) (hd : d.todo = []) (b : U8) :
    ∃ d1 o1, bootRun cfg d [.hw (.char b), .usart] = .ok (d1, o1) ∧ d1.lib.req = d.lib.req.set d.lib.reqLen.toNat b ∧
      d1.lib.reqLen = d.lib.reqLen + 1 ∧
      (∃ d2 o2, bootRun cfg d1 [.hw .quiet, .usart] = .ok (d2, o2) ∧ d2.lib.t15 = .set ∧ d2.lib.req = d1.lib.req ∧ d2.lib.reqLen = d1.lib.reqLen) ∧
      (∃ d2 o2, bootRun cfg d1 [.hw .expire, .timer] = .ok (d2, o2) ∧ d2.lib.t35 = .set ∧ d2.lib.req = d1.lib.req ∧ d2.lib.reqLen = d1.lib.reqLen) := by
  obtain ⟨l, k, id', f, p, s, n⟩ := boot_reach hc hl ht h
  have hk := todo_phase p hd
  subst hk
  have hue : d.hw.ue = true := n.ue.resolve_left (by rw [hd]; exact fun h => nomatch h)
  have hnu : d.hw.nvicU = true := n.nvicU.resolve_left (by rw [hd]; exact fun h => nomatch h)
  have hnt : d.hw.nvicT = true := n.nvicT.resolve_left (by rw [hd]; exact fun h => nomatch h)
  have hrx : d.hw.rxneie = true := n.rxneie.resolve_left (by rw [hd]; exact fun h => nomatch h)
  obtain ⟨da, oa, _, _, ha, -, -, -, la, ka, ia, -, -, -, -, fa, pa, sa⟩ :=
    boot_step (op := .hw (.char b)) hc f p s trivial (timely_after p (by omega) _) (fun _ => trivial) (fun _ => trivial)
  have hda := todo_step (op := .hw (.char b)) hd (fun _ h => nomatch h) ha
  have hka := todo_phase pa hda
  subst hka
  have hha : da.hw = { d.hw with rdr := some b, heard := true } ∧ da.lib = d.lib := by
    rw [bootStep, hwStep, if_pos hue] at ha
    obtain ⟨rfl, -⟩ := Prod.mk.inj (Except.ok.inj ha)
    exact ⟨rfl, rfl⟩
  obtain ⟨e1, e2⟩ := hha
  have hirq : da.hw.irqU = true := by rw [e1]; simp [UartHw.irqU, hnu, hrx]
  obtain ⟨d1, o1, _, _, h1, -, -, -, l1, k1, i1, -, -, -, -, f1, p1, s1⟩ :=
    boot_step (op := .usart) hc fa pa sa trivial trivial (fun _ => trivial) (fun _ => trivial)
  have hd1 := todo_step (op := .usart) hda (fun _ h => nomatch h) h1
  have hk1 := todo_phase p1 hd1
  subst hk1
  have hon : SameOn da d1 ∧ d1.lib.req = d.lib.req.set d.lib.reqLen.toNat b ∧ d1.lib.reqLen = d.lib.reqLen + 1 ∧ d1.hw.cen = true ∧ d1.hw.heard = true := by
    rw [bootStep, if_pos hirq] at h1
    have g0 := bd_on_usart h1
    unfold bootIrqUsart at h1
    obtain ⟨dx, x1, h1⟩ := bind_ok h1
    obtain ⟨⟨dy, oy⟩, x2, h1⟩ := bind_ok h1
    obtain ⟨rfl, -⟩ := Prod.mk.inj (Except.ok.inj h1)
    obtain ⟨a1, a2, -, a4, a5, -, -⟩ := bd_val_rx (b := b) (by rw [e1]) x1
    obtain ⟨b1, b2, -, b4, b5, -, -⟩ := bd_val_tx x2
    obtain ⟨c1, c2, c3, -⟩ := bd_val_rto dy
    refine ⟨g0, ?_, ?_, ?_, ?_⟩
    · rw [c1, b1, a1, e2]
    · rw [c2, b2, a2, e2]
    · rw [c3, b4, a4]
    · rw [c3, b5, a5, e1]
  obtain ⟨t0, t1, t2, t3, t4⟩ := hon
  have hnu1 : d1.hw.nvicU = true := t0.2.2.1.trans (by rw [e1]; exact hnu)
  have hnt1 : d1.hw.nvicT = true := t0.2.2.2.1.trans (by rw [e1]; exact hnt)
  refine ⟨d1, oa ++ (o1 ++ []), ?_, t1, t2, ?_, ?_⟩
  · rw [bootRun, ha, ok_bind]
    dsimp only
    rw [bootRun, h1]; rfl
  · obtain ⟨db, ob, _, _, hb, -, -, -, lb, kb, ib, -, -, -, -, fb, pb, sb⟩ :=
      boot_step (op := .hw .quiet) hc f1 p1 s1 trivial (timely_after p1 (by omega) _) (fun _ => trivial) (fun _ => trivial)
    have hdb := todo_step (op := .hw .quiet) hd1 (fun _ h => nomatch h) hb
    have hkb := todo_phase pb hdb
    subst hkb
    have q : db.hw = { d1.hw with rtof := true, heard := false } ∧ db.lib = d1.lib ∧ db.cbT15 = d1.cbT15 := by
      rw [bootStep, hwStep, if_pos t4] at hb
      obtain ⟨rfl, -⟩ := Prod.mk.inj (Except.ok.inj hb)
      exact ⟨rfl, rfl, rfl⟩
    obtain ⟨q1, q2, q3⟩ := q
    have hirqb : db.hw.irqU = true := by rw [q1]; simp [UartHw.irqU, hnu1]
    obtain ⟨d2, o2, _, _, h2, -, -, -, l2, k2, i2, -, -, -, -, f2, p2, s2⟩ :=
      boot_step (op := .usart) hc fb pb sb trivial trivial (fun _ => trivial) (fun _ => trivial)
    refine ⟨d2, ob ++ (o2 ++ []), ?_, ?_⟩
    · rw [bootRun, hb, ok_bind]
      dsimp only
      rw [bootRun, h2]; rfl
    · have hnone : db.hw.rdr = none := by
        have : d1.hw.rdr = none := by
          rw [bootStep, if_pos hirq] at h1
          unfold bootIrqUsart at h1
          obtain ⟨dx, x1, h1⟩ := bind_ok h1
          obtain ⟨⟨dy, oy⟩, x2, h1⟩ := bind_ok h1
          obtain ⟨rfl, -⟩ := Prod.mk.inj (Except.ok.inj h1)
          rw [(bd_val_rto dy).2.2.1, (bd_val_tx x2).2.2.1, (bd_val_rx (b := b) (by rw [e1]) x1).2.2.1]
        rw [q1]; exact this
      rw [bootStep, if_pos hirqb] at h2
      unfold bootIrqUsart at h2
      obtain ⟨dx, x1, h2⟩ := bind_ok h2
      obtain ⟨⟨dy, oy⟩, x2, h2⟩ := bind_ok h2
      obtain ⟨rfl, -⟩ := Prod.mk.inj (Except.ok.inj h2)
      unfold bootIrqRx at x1
      rw [hnone] at x1
      obtain rfl := Except.ok.inj x1
      obtain ⟨b1, b2, -, -, -, b6, b7⟩ := bd_val_tx x2
      obtain ⟨c1, c2, -, c4⟩ := bd_val_rto dy
      refine ⟨c4 ?_ ?_, ?_, ?_⟩
      · rw [b6, q1]
      · rw [b7, q3]; exact p1.t15 (by omega)
      · rw [c1, b1, q2]
      · rw [c2, b2, q2]
  · refine ⟨{ d1 with lib := { d1.lib with t35 := .set }, gap := false, hw := { d1.hw with uif := false, cen := false, rtof := false } }, [], ?_, rfl, rfl, rfl⟩
    rw [bootRun, bootStep, hwStep, if_pos t3, ok_bind]
    dsimp only
    rw [bootRun, bootStep]
    dsimp only
    rw [hnt1]
    show ((bootIrqTimer _ >>= _) >>= _) >>= _ = _
    unfold bootIrqTimer
    rw [if_pos (show d1.cbT35 = true from p1.t35 (by omega))]
    rfl

/-! ### Non-vacuity: a device just initialised, and a request afterwards -/

def BOp.isMainB : BOp → Bool
  | .main _ => true
  | _ => false

/-- `BootWaits`, decided. -/
def bootWaitsB (cfg : Config) : SlaveBoot → List BOp → Bool
  | _, [] => true
  | d, op :: ops => (!op.isMainB || !d.hw.irqU) && (match bootStep cfg d op with | .ok x => bootWaitsB cfg x.1 ops | .error _ => true)

theorem bootWaitsB_sound {cfg : Config} (ops : List BOp) : ∀ d, bootWaitsB cfg d ops = true → BootWaits cfg d ops := by
  induction ops with
  | nil => intro d _; trivial
  | cons op ops ih =>
    intro d h
    rw [bootWaitsB, Bool.and_eq_true] at h
    refine ⟨fun ⟨x, hx⟩ => ?_, fun d' o hs => ih d' ?_⟩
    · subst hx; simpa [BOp.isMainB] using h.1
    · have := h.2
      rw [hs] at this
      exact this

/-- A request, served; the silence after it; the response, sent. -/
def bootAfter : List BOp :=
  bootRx sampleFrame ++ [.hw .quiet, .usart, .hw .expire, .timer, .main .poll, .main .poll, .main .poll, .main .poll, .main .poll] ++
  List.replicate 3 (.hw .shift) ++ [.usart, .hw .shift, .usart]

def bootWaitsAfter (r : C (SlaveBoot × List HOut)) : Option (Bool × Bool × Nat) :=
  match r with
  | .ok x => some (bootWaitsB Config.default x.1 bootAfter, x.1.todo.isEmpty, (bootSeen Config.default x.1 bootAfter).length)
  | .error _ => none

example : bootWaitsAfter (bootRun Config.default (SlaveBoot.powerOn sampleMem) (.init 1 :: List.replicate 19 .next)) = some (true, true, 18) := by
  decide +kernel

example : bootOuts (bootRun Config.default (SlaveBoot.powerOn sampleMem) (.init 1 :: (List.replicate 19 .next ++ bootAfter))) =
    some ([rtuFrame 1 [3, 2, 0x03, 0xE8]], [1, 3, 2], true) := by decide +kernel

example : BootInTime Config.default (SlaveBoot.powerOn sampleMem) (.init 1 :: List.replicate 19 .next) := bootInTimeB_sound _ _ (by decide +kernel)

end Modbus
