import Verif.Model.Driver

/-! The example slave program: `examples/STM32G070RB_MODBUS_SLAVE/Core/Src/main.c` on top of library and driver (`Model/Driver.lean`).

The main program goes through its statements in order; interrupts come between any two of them. Each call of the library is atomic (the
finer grain is that of `Model/Preempt.lean`). While RTOF is set the main program does not advance (see `slaveSysStep`). -/

namespace Modbus

/-- `&coil_data[i]`. `examples/STM32G070RB_MODBUS_SLAVE/Core/Src/main.c:33`. -/
def xCoil (i : Nat) : Ptr := i
/-- `&din_data[i]`, among the Boolean variables. `examples/STM32G070RB_MODBUS_SLAVE/Core/Src/main.c:34`. -/
def xDin (i : Nat) : Ptr := 20 + i
/-- `&LED_status`. `examples/STM32G070RB_MODBUS_SLAVE/Core/Src/main.c:39`. -/
def xLed : Ptr := 40
/-- `&hreg_data[i]`. `examples/STM32G070RB_MODBUS_SLAVE/Core/Src/main.c:35`. -/
def xHreg (i : Nat) : Ptr := i
/-- `&inreg_data[i]`, among the 16 bit variables. `examples/STM32G070RB_MODBUS_SLAVE/Core/Src/main.c:36`. -/
def xInreg (i : Nat) : Ptr := 20 + i

/-- Initial values of the Boolean variables, `main.c:33-34`, `:39`: `coil_data`, `din_data`, `LED_status`. -/
def xBools : List Bool :=
  [true, false, true, false, false, true, false, true, true, true, false, false, false, true, true, true, true, false, false, true] ++
  [true, true, true, true, false, false, false, true, true, true, false, false, false, true, true, true, true, false, false, true] ++ [false]

/-- Initial values of the 16 bit variables, `main.c:35-36`: `hreg_data`, `inreg_data`. -/
def xRegs : List U16 :=
  [2001, 2002, 2003, 2004, 2005, 2006, 2007, 2008, 2009, 2010, 3001, 3002, 3003, 3004, 3005, 3006, 3007, 3008, 3009, 3010] ++
  [60, 61, 62, 4204, 4205, 4206, 4207, 4208, 4209, 4210, 4301, 4302, 4303, 4304, 4305, 4306, 4307, 4308, 4309, 4310]

/-- The variables at power-on; nothing is registered. `examples/STM32G070RB_MODBUS_SLAVE/Core/Src/main.c:33-39`. -/
def xInitMem : AppMem :=
  { AppMem.empty with bools := fun p => xBools.getD p false, regs := fun p => xRegs.getD p 0 }

/-- The body of the loop of `register_modbus_data`, `main.c:63-69`. -/
def xRegister (i : Nat) : List SOp :=
  [.register .coils (BitVec.ofNat 16 i) (some (xCoil i)), .register .dins (BitVec.ofNat 16 i) (some (xDin i)),
   .register .hregs (BitVec.ofNat 16 i) (some (xHreg i)), .register .inregs (BitVec.ofNat 16 i) (some (xInreg i))]

/-- `register_modbus_data`, `main.c:61-71`. -/
def xRegistrations : List SOp := (List.range 20).flatMap xRegister ++ [.register .coils 21 (some xLed)]

/-- The program and its device. `examples/STM32G070RB_MODBUS_SLAVE/Core/Src/main.c:45-82`. -/
structure XSlave where
  sys : SlaveSys
  /-- the output pin of the LED, `LED_driver.c:20-27`; `LED_init` (clock and mode of the pin) is not modelled -/
  led : Bool
  /-- what is left of the part of `main` before the loop, `main.c:49-50` -/
  todo : List SOp
  /-- the next statement in the loop is `update_LED` (`main.c:57`), not `check_modbus_request` (`main.c:55`) -/
  turn : Bool

/-- Power-on; `Slave_ID` is 1 (`main.c:37`). -/
def XSlave.powerOn : XSlave :=
  { sys := SlaveSys.powerOn xInitMem, led := false, todo := .init .rtu 1 :: xRegistrations, turn := false }

/-- What happens in the system. `examples/STM32G070RB_MODBUS_SLAVE/Core/Src/main.c:45-59`. -/
inductive XOp where
  /-- the main program is given the time for its next statement -/
  | main
  /-- the hardware sets RTOF -/
  | rto
  /-- `MODBUS_USART_IRQHandler` -/
  | usart (rx : Option U8) (txe : Bool)
  /-- `MODBUS_TIMER_IRQHandler` -/
  | timer
  deriving DecidableEq

/-- What happens to the device, and what it puts out. Modelling infrastructure, no C counterpart. -/
abbrev XTrace := List HOp × List HOut

/-- One event of the device. Modelling infrastructure, no C counterpart. -/
def xDevice (cfg : Config) (s : XSlave) (op : HOp) : C (XSlave × XTrace) := do
  let (m, o) ← slaveSysStep cfg s.sys op
  return ({ s with sys := m }, ([op], o))

/-- One event. `update_LED` is `main.c:72-82`. -/
def xStep (cfg : Config) (s : XSlave) : XOp → C (XSlave × XTrace)
  | .main =>
    if s.sys.rtof then .ok (s, ([], []))
    else
      match s.todo with
      | op :: rest => xDevice cfg { s with todo := rest } (.main op)
      | [] =>
        if s.turn then .ok ({ s with led := s.sys.lib.mem.bools xLed, turn := false }, ([], []))
        else xDevice cfg { s with turn := true } (.main .poll)
  | .rto => xDevice cfg s .rto
  | .usart rx txe => xDevice cfg s (.usart rx txe)
  | .timer => xDevice cfg s .timer

/-- An execution. Modelling infrastructure, no C counterpart. -/
def xRun (cfg : Config) : XSlave → List XOp → C (XSlave × XTrace)
  | s, [] => .ok (s, ([], []))
  | s, op :: ops => do
    let (s, tr) ← xStep cfg s op
    let (s, tr') ← xRun cfg s ops
    return (s, (tr.1 ++ tr'.1, tr.2 ++ tr'.2))

/-- `main`, `main.c:45-59`. There are no interrupts before `modbus_slave_init`. -/
def xMain (cfg : Config) (ops : List XOp) : C (XSlave × XTrace) := xRun cfg XSlave.powerOn (.main :: ops)

end Modbus
