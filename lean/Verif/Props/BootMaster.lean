import Verif.Proofs.BootMasterRun

/-! C91: the master device from power-on, on a line that may carry traffic before its first request. -/

namespace Modbus

open Spec

/-- **C91** is false of the code: from the moment the UART and its interrupt are enabled (statement 7 of the initialisation), and as long as the master has
not handed a frame to the driver, one byte followed by 1.5 characters of silence makes the UART's handler store the byte through a NULL pointer. Whatever
has happened before. -/
theorem C91_noise_before_first_request_violated (cfg : Config) (ops : List MBOp) (d : MasterBoot) (o : List HMOut) (b : U8)
    (h : mbootRun cfg .powerOn ops = .ok (d, o)) (hn : 7 ≤ ops.count .next) (hs : ∀ f, HMOut.lib (.send f) ∉ o) :
    mbootRun cfg d [.hw (.char b), .hw .quiet, .usart] = .error .nullDeref := by
  obtain ⟨a, t⟩ := mbootRun_after (n := 0) .powerOn h
  rw [Nat.zero_add] at a
  have hu := a.ue (by omega)
  have hv := a.nvic (by omega)
  have ht : d.lib.rxTarget = none := by
    rcases t with t | ⟨f, t⟩
    · exact t
    · exact absurd t (hs f)
  simp only [mbootRun, ok_bind, mbootStep, hwStep, hu, if_true, UartHw.irqU, hv, Bool.or_true, Bool.and_true, mbootIrqUsart, mbootIrqRx, ht]
  rfl

/-- **C91**, what holds. If no silence of 1.5 characters ends a reception before the master's first request (`MBootInTime`), then whatever arrives on the
line during the initialisation and after it, the device does what the library does in a history that begins with its initialisation: exactly the calls the
main program makes after the last statement of the initialisation, bytes that arrived, and the same outputs. The only way it can end early is the poll of
C43. Missing: the same without `MBootInTime`; it is false. -/
theorem C91_quiet_before_first_request_partial (cfg : Config) (hw : cfg.MWF) (ops : List MBOp) (hl : ∀ op ∈ ops, MBootLegal op)
    (ht : MBootInTime cfg .powerOn ops) :
    (∃ d o mops l tr, mbootRun cfg .powerOn ops = .ok (d, o) ∧ OpsOk mops ∧
      masterRun cfg Master.powerOn (.init .rtu :: mops) = .ok (l, (.init .rtu, []) :: tr) ∧ (d.todo = [] → d.lib = l) ∧
      tr.flatMap Prod.snd = libOuts o ∧ (mBytes mops).Sublist (ops.flatMap MBootArrived) ∧
      mops.filter MOp.isCall = ((afterNext 21 ops).flatMap MBootCalled).filter MOp.isCall) ∨
    (∃ pre post d o, ops = pre ++ .main .poll :: post ∧ mbootRun cfg .powerOn pre = .ok (d, o) ∧ d.todo = [] ∧
      masterStep cfg d.lib .poll = .error .oobRead) := by
  obtain ⟨l0, h0, -⟩ := masterInit_inv hw Master.powerOn
  rcases mboot_mid_run hw h0 ops _ 0 (.powerOn cfg) hl ht with ⟨d, o, mops, l, tr, a1, a2, a3, a4, a5, a6, a7⟩ | k
  · refine .inl ⟨d, o, mops, l, tr, a1, a2, ?_, a4, a5, (List.sublist_append_left _ _).trans a6, a7⟩
    simp only [masterRun, masterStep, h0, ok_bind, a3, pure_eq]
  · exact .inr k

/-! ### Non-vacuity -/

/-- `MBootTimely`, decided. -/
def mbootTimelyB (d : MasterBoot) : MBOp → Bool
  | .hw .quiet => !d.hw.heard || d.lib.rxTarget.isSome
  | _ => true

/-- `MBootInTime`, decided. -/
def mbootInTimeB (cfg : Config) : MasterBoot → List MBOp → Bool
  | _, [] => true
  | d, op :: ops => mbootTimelyB d op && (match mbootStep cfg d op with
    | .ok x => mbootInTimeB cfg x.1 ops
    | .error _ => true)

theorem mbootInTimeB_ok {cfg : Config} (ops : List MBOp) : ∀ {d : MasterBoot}, mbootInTimeB cfg d ops = true → MBootInTime cfg d ops := by
  induction ops with
  | nil => intro d _; trivial
  | cons op ops ih =>
    intro d h
    rw [mbootInTimeB, Bool.and_eq_true] at h
    refine ⟨?_, ?_⟩
    · have h1 := h.1
      cases op with
      | hw e =>
        cases e with
        | quiet =>
          intro hd hn
          have h1 : (!d.hw.heard || d.lib.rxTarget.isSome) = true := h1
          rw [hd, hn] at h1
          cases h1
        | _ => trivial
      | _ => trivial
    · intro d' o he
      have h2 := h.2
      rw [he] at h2
      exact ih h2

/-- A master that receives a byte while it initialises, sends a request after some more noise, and hears part of an answer. -/
def mbootSample : List MBOp :=
  List.replicate 6 .next ++ [.hw (.char 0x55), .usart] ++ List.replicate 10 .next ++ [.main .tick, .hw (.char 0xaa), .usart] ++ List.replicate 5 .next ++
    [.hw (.char 0x77), .usart, .main (.request (.readHoldingReg 0 1 7)), .main .poll, .usart, .hw .shift, .usart, .hw .quiet, .hw .shift, .usart, .usart]

theorem mbootSample_inTime : MBootInTime smallCfg .powerOn mbootSample := mbootInTimeB_ok _ (by decide +kernel)

theorem mbootSample_legal : ∀ op ∈ mbootSample, MBootLegal op := by
  intro op ho
  cases op with
  | main op =>
    cases op with
    | request r =>
      have : r = .readHoldingReg 0 1 7 := by
        simp only [mbootSample, List.mem_append, List.mem_replicate, List.mem_cons] at ho
        simpa using ho
      subst this
      exact fun _ => trivial
    | _ => trivial
  | _ => trivial

/-- The noise before the request was stored when the receive interrupt was enabled, and the request goes out. -/
example : (match mbootRun smallCfg .powerOn mbootSample with
    | .ok (d, o) => decide (d.todo = [] ∧ d.lib.st = .transmitting ∧ (d.lib.msgs 0).resp 0 = 0x77 ∧ (d.lib.msgs 0).respLen = 1 ∧ d.cur = 2) && o.length == 5
    | .error _ => false) = true := by decide +kernel

/-- It is the violation's hypothesis that fails: one poll earlier, the same device is lost. -/
example (b : U8) : mbootRun smallCfg .powerOn (List.replicate 7 .next ++ [.hw (.char b), .hw .quiet, .usart]) = .error .nullDeref := rfl

end Modbus
