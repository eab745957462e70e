import Verif.Proofs.BootSteps

/-! **C90**: initialising a slave device on a line that carries traffic. -/

namespace Modbus

open Spec

/-- **C90**, what holds. If no character is complete before the library has subscribed the end of transmission, and no silence has passed before it has
subscribed the last callback (`BootInTime`), then whatever arrives on the line during and after the initialisation, at whatever statement, and however often
the device is initialised again, nothing undefined happens: the device does what the library does in some history of its own, with the calls the main program
made and with bytes that arrived; it takes the line to be silent, or a byte to be out of time, only if there has been a silence. Missing: the same without `BootInTime`; it is false (`C90_byte_during_init_violated`). -/
theorem C90_init_in_time_partial (cfg : Config) (hc : cfg.WF) (mem : AppMem) (id : U8) (ops : List BOp)
    (hl : ∀ op ∈ ops, BootLegal (SOp.legal cfg) op) (ht : BootInTime cfg (SlaveBoot.powerOn mem) (.init id :: ops)) :
    ∃ d o, bootRun cfg (SlaveBoot.powerOn mem) (.init id :: ops) = .ok (d, o) ∧
      ∃ sops l os, (∀ op ∈ sops, op.legal cfg) ∧ slaveRun cfg (Slave.powerOn mem) (.init .rtu id :: sops) = .ok (l, os) ∧
        frames o = os.map SOut.bytes ∧ (d.todo = [] → d.lib = l) ∧ (bytesOf sops).Sublist (ops.flatMap BootArrived) ∧
        (sops.filter SOp.isCall).Sublist (ops.flatMap BootCalled) ∧
        (.t15 ∈ sops → .hw .quiet ∈ ops) ∧ (.t35 ∈ sops → .hw .expire ∈ ops) ∧ (.frameErr ∈ sops → .hw .quiet ∈ ops) := by
  have f : Follows { SlaveBoot.powerOn mem with todo := slaveInitStmts id } (slaveInit (Slave.powerOn mem) .rtu id) :=
    ⟨⟨rfl, rfl, rfl, rfl⟩, rfl, rfl, rfl, rfl, rfl, (fun h => nomatch h)⟩
  have p : BPhase (.hw .quiet ∈ ops) (.hw .expire ∈ ops) { SlaveBoot.powerOn mem with todo := slaveInitStmts id } 0 id := by
    constructor
    · rfl
    all_goals omega
  have s : BSafe (.hw .quiet ∈ ops) (.hw .expire ∈ ops) { SlaveBoot.powerOn mem with todo := slaveInitStmts id } := by
    constructor
    case last => exact Nat.succ_pos _
    case rdr => exact fun h => absurd rfl h
    all_goals exact fun h => nomatch h
  obtain ⟨d, o, os, calls, h1, h2, h3, sops, l, k, id', g1, g2, g3, g4, g5, -, -⟩ := boot_run hc ops _ _ _ _ f p s hl (ht.2 _ _ rfl) (fun h => h) (fun h => h)
  refine ⟨d, o, ?_, sops, l, os, fun op h => (g1 op h).1, ?_, h2, g5.done, ?_, ?_, (fun h => (g1 _ h).2), (fun h => (g1 _ h).2), (fun h => (g1 _ h).2)⟩
  · rw [bootRun]
    show (bootRun cfg { SlaveBoot.powerOn mem with todo := slaveInitStmts id } ops >>= _) = _
    rw [h1]; rfl
  · rw [slaveRun_cons_ok (o := []) (s1 := slaveInit (Slave.powerOn mem) .rtu id) rfl, g2]; rfl
  · exact (List.sublist_append_left _ _).trans g3
  · rw [g4]; exact h3

/-- **C90** is false of the code: the UART is switched on (statement 4) and its receive interrupt enabled (statement 9) before the end of transmission is
subscribed (statement 10). A byte received at any point in between is served as soon as the receive interrupt is enabled, and since the transmit register is
empty the handler goes on to call the callback that is still NULL. The device is lost before its initialisation has ended. -/
theorem C90_byte_during_init_violated (cfg : Config) (mem : AppMem) (id b : U8) (i : Nat) (h1 : 4 ≤ i) (h2 : i ≤ 9) :
    bootRun cfg (SlaveBoot.powerOn mem) (.init id :: List.replicate i .next ++ .hw (.char b) :: List.replicate (9 - i) .next ++ [.usart]) =
      .error .nullDeref := by
  have : i = 4 ∨ i = 5 ∨ i = 6 ∨ i = 7 ∨ i = 8 ∨ i = 9 := by omega
  rcases this with rfl | rfl | rfl | rfl | rfl | rfl <;> rfl

/-- The second half of the condition cannot be left out either: a byte after the end of transmission has been subscribed, then 3.5 characters of silence before
that callback is subscribed. -/
theorem C90_timer_during_init_violated (cfg : Config) (mem : AppMem) (id b : U8) :
    bootRun cfg (SlaveBoot.powerOn mem) (.init id :: List.replicate 10 .next ++ [.hw (.char b), .usart, .hw .expire, .timer]) = .error .nullDeref := by
  rfl

/-- Nor can 1.5 characters of silence: the byte after them is out of time, and the callback for this is the last one to be subscribed. -/
theorem C90_gap_during_init_violated (cfg : Config) (mem : AppMem) (id b c : U8) :
    bootRun cfg (SlaveBoot.powerOn mem)
      (.init id :: List.replicate 12 .next ++ [.hw (.char b), .usart, .hw .quiet, .usart, .hw (.char c), .usart]) = .error .nullDeref := by
  rfl

/-! ### Non-vacuity -/

/-- `BootTimely`, decided. -/
def bootTimelyB (d : SlaveBoot) : BOp → Bool
  | .hw (.char _) => !d.hw.ue || d.cbTx
  | .hw .quiet => !d.hw.heard || d.cbErr
  | .hw .expire => !d.hw.cen || d.cbErr
  | _ => true

/-- `BootInTime`, decided. -/
def bootInTimeB (cfg : Config) : SlaveBoot → List BOp → Bool
  | _, [] => true
  | d, op :: ops => bootTimelyB d op && (match bootStep cfg d op with | .ok x => bootInTimeB cfg x.1 ops | .error _ => true)

theorem bootTimelyB_sound {d : SlaveBoot} {op : BOp} (h : bootTimelyB d op = true) : BootTimely d op := by
  cases op with
  | hw e =>
    cases e with
    | char b => intro hu; simpa [bootTimelyB, hu] using h
    | quiet => intro hu; simpa [bootTimelyB, hu] using h
    | expire => intro hu; simpa [bootTimelyB, hu] using h
    | shift => trivial
  | _ => trivial

theorem bootInTimeB_sound {cfg : Config} (ops : List BOp) : ∀ d, bootInTimeB cfg d ops = true → BootInTime cfg d ops := by
  induction ops with
  | nil => intro d _; trivial
  | cons op ops ih =>
    intro d h
    rw [bootInTimeB, Bool.and_eq_true] at h
    refine ⟨bootTimelyB_sound h.1, fun d' o hs => ih d' ?_⟩
    have := h.2
    rw [hs] at this
    exact this

/-- Bytes that arrive, each served at once. -/
def bootRx (l : List U8) : List BOp := l.flatMap fun b => [.hw (.char b), .usart]

/-- The end of a frame: 1.5 characters, a poll, 3.5 characters, a poll. -/
def bootEnd : List BOp := [.hw .quiet, .usart, .main .poll, .hw .expire, .timer, .main .poll]

/-- The device is initialised in the middle of somebody's frame: two of its bytes are complete before the UART is on, two more during the initialisation
(after the tenth and the eleventh statement), one after it. Then a request for the device, which it answers; then it is initialised again, with another address,
while a request for the new address arrives, and answers that, too. -/
def bootSample : List BOp :=
  [.next, .hw (.char 0x11), .next, .next, .hw (.char 0x22)] ++ List.replicate 7 .next ++ bootRx [0x33] ++ [.next] ++ bootRx [0x44] ++
  List.replicate 8 .next ++ bootRx [0x55] ++ bootEnd ++ bootRx sampleFrame ++ bootEnd ++ List.replicate 7 (.usart) ++
  [.hw .shift, .usart, .hw .shift, .usart, .hw .shift, .usart, .hw .shift, .usart, .hw .shift, .usart, .hw .shift, .usart, .hw .shift, .usart, .main .poll] ++
  [.init 2] ++ bootRx [2, 3, 0] ++ List.replicate 10 .next ++ bootRx [0, 0, 1] ++ List.replicate 9 .next ++ bootRx [0x84, 0x39] ++ bootEnd

theorem bootSample_inTime : BootInTime Config.default (SlaveBoot.powerOn sampleMem) (.init 1 :: bootSample) :=
  bootInTimeB_sound _ _ (by decide +kernel)

theorem bootSample_legal : ∀ op ∈ bootSample, BootLegal (SOp.legal Config.default) op := by
  have k : ∀ op ∈ bootSample, ∀ x, op = .main x → x = .poll := by
    have : ∀ op ∈ bootSample, (match op with | .main x => decide (x = .poll) | _ => true) = true := by decide +kernel
    intro op ho x hx
    subst hx
    simpa using this _ ho
  intro op ho
  cases op with
  | main x => cases k _ ho x rfl; trivial
  | _ => trivial

/-- The frames and the line of a run without undefined behaviour. -/
def bootOuts (r : C (SlaveBoot × List HOut)) : Option (List (List U8) × List U8 × Bool) :=
  match r with
  | .ok x => some (frames x.2, wire x.2, x.1.todo.isEmpty)
  | .error _ => none

example : bootOuts (bootRun Config.default (SlaveBoot.powerOn sampleMem) (.init 1 :: bootSample)) =
    some ([rtuFrame 1 [3, 2, 0x03, 0xE8], rtuFrame 2 [3, 2, 0x03, 0xE8]], rtuFrame 1 [3, 2, 0x03, 0xE8] ++ [2], true) := by decide +kernel

end Modbus
