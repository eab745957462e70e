import Verif.Model.Driver

/-! Initialisation of the example drivers: `slave_usart_init` (slave driver `:71-79`) and `master_usart_init` (master driver `:70-77`), the
same code. Constants are those of `examples/STM32G070RB_MODBUS_SLAVE/Core/Inc/modbus_driver_config.h` and
`Drivers/CMSIS/Device/stm32g070xx.h`. Simplification: a register keeps what is written to it. (The hardware moreover ignores writes to some of these
fields while the UART is enabled, so a second initialisation takes over even less than here.) -/

namespace Modbus

/-- `parity_t`, `src/modbus_public_type.h:39-44`. -/
inductive Parity where
  | none
  | odd
  | even
  deriving DecidableEq, Repr

/-- The registers written. `examples/STM32G070RB_MODBUS_SLAVE/Core/Src/modbus_driver_interface.c:165-250`. -/
structure HwRegs where
  /-- `RCC->IOPENR` -/
  iopenr : BitVec 32
  /-- `RCC->APBENR1` -/
  apbenr1 : BitVec 32
  /-- `GPIOA->MODER` -/
  moder : BitVec 32
  /-- `GPIOA->AFR[0]` -/
  afrl : BitVec 32
  /-- `USART2->CR1` -/
  cr1 : BitVec 32
  cr2 : BitVec 32
  cr3 : BitVec 32
  brr : BitVec 32
  rtor : BitVec 32
  /-- `TIM7->CR1` -/
  timCr1 : BitVec 32
  timDier : BitVec 32
  timPsc : BitVec 32
  timArr : BitVec 32

/-- Reset values (reference manual): all 0 except `MODER` of port A. Hardware, no C counterpart. -/
def HwRegs.reset : HwRegs :=
  { iopenr := 0, apbenr1 := 0, moder := 0xEBFFFFFF, afrl := 0, cr1 := 0, cr2 := 0, cr3 := 0, brr := 0, rtor := 0, timCr1 := 0, timDier := 0,
    timPsc := 0, timArr := 0 }

/-- `USART_GPIO_init`, slave driver `:165-175`, master driver `:171-181`. At `:173` the mask of the transmit pin occurs twice and that of the receive
pin is missing. -/
def gpioInit (r : HwRegs) : HwRegs :=
  { r with
    iopenr := r.iopenr ||| 0x1
    moder := (r.moder &&& ~~~(0x30 ||| 0xC0 ||| 0xC)) ||| (0x20 ||| 0x80 ||| 0x8)
    afrl := (r.afrl &&& ~~~(0xF00 ||| 0xF00 ||| 0xF0)) ||| (0x100 ||| 0x1000 ||| 0x10) }

/-- The parity setting in `CR1`, slave driver `:182-195`, master driver `:188-201`. -/
def parityCr1 (c : BitVec 32) : Parity → BitVec 32
  | .none => c &&& ~~~(0x400 ||| 0x200 ||| 0x1000)
  | .odd => c ||| (0x400 ||| 0x200 ||| 0x1000)
  | .even => (c &&& ~~~0x200) ||| (0x400 ||| 0x1000)

/-- Two stop bits without parity, slave driver `:185`. -/
def parityCr2 (c : BitVec 32) : Parity → BitVec 32
  | .none => c ||| 0x2000
  | _ => c

/-- `USART_module_config`, slave driver `:176-206`, master driver `:182-212`; clock 64 MHz. -/
def usartConfig (r : HwRegs) (baud : BitVec 32) (p : Parity) : C HwRegs :=
  if baud = 0 then .error .divZero
  else .ok { r with
    apbenr1 := r.apbenr1 ||| 0x20000
    cr1 := (parityCr1 (r.cr1 ||| (0x4 ||| 0x8 ||| 0x4000000)) p ||| (0x1000000 ||| 0x80000)) ||| 0x1
    cr2 := parityCr2 r.cr2 p ||| 0x800000
    cr3 := r.cr3 ||| (0x1000 ||| 0x4000)
    brr := 64000000 / baud
    rtor := r.rtor ||| rtorValue baud }

/-- `TIMER7_init`, slave driver `:230-241`, master driver `:234-246`; clock 64 MHz. -/
def timerInit (r : HwRegs) (baud : BitVec 32) : C HwRegs := do
  let a ← arrValue baud
  return { r with
    apbenr1 := r.apbenr1 ||| 0x20
    timCr1 := r.timCr1 ||| 0x8 ||| 0x4
    timDier := 0x1
    timPsc := 64000000 / 1000000 - 1
    timArr := a }

/-- `slave_usart_init` / `master_usart_init` without the gap flag (`Model/Driver.lean` has it) and without the interrupt controller
(`USART_set_and_enable_interrupts`, `USART_set_and_enable_global_interrupts`: `NVIC_SetPriority`, `NVIC_EnableIRQ`).
`examples/STM32G070RB_MODBUS_SLAVE/Core/Src/modbus_driver_interface.c:71-79`, `examples/STM32G070RB_MODBUS_MASTER/Drivers/STM32G0_Drivers/modbus_driver_interface.c:70-77`. -/
def driverInit (r : HwRegs) (baud : BitVec 32) (p : Parity) : C HwRegs := do
  let r ← usartConfig (gpioInit r) baud p
  timerInit r baud

/-- One initialisation after the other. Modelling infrastructure, no C counterpart. -/
def driverInits : HwRegs → List (BitVec 32 × Parity) → C HwRegs
  | r, [] => .ok r
  | r, (baud, p) :: l => do
    let r ← driverInit r baud p
    driverInits r l

end Modbus
