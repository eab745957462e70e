import Verif.Model.BufRw

/-! Model of `src/slave_internall/modbus_slave_data.c`: the four tables of pointers to application
variables, and the application variables themselves. -/

namespace Modbus

/-- Abstract address of an application variable. Modelling infrastructure, no C counterpart (C: `modbus_coil_disin_t *`, `modbus_reg_t *`). -/
abbrev Ptr := Nat

/-- A table of pointers to application variables; `none` is NULL. `src/slave_internall/modbus_slave_data.c:15-18`. -/
abbrev Table := Nat → Option Ptr

/-- The four tables (`src/slave_internall/modbus_slave_data.c:15-18`) and the application variables
they may point to. Boolean variables (coils, discrete inputs) and 16 bit variables (registers) live in
two heaps; several table entries may point to the same variable.
Simplification: registered pointers are assumed to point to live objects of the right type, and a
`bool` object holds 0 or 1. -/
structure AppMem where
  /-- `Slave_Coils` -/
  coils : Table
  /-- `Slave_Discrete_Inputs` -/
  dins : Table
  /-- `Slave_Holding_Registers` -/
  hregs : Table
  /-- `Slave_Input_Registers` -/
  inregs : Table
  /-- `modbus_coil_disin_t` variables of the application -/
  bools : Ptr → Bool
  /-- `modbus_reg_t` variables of the application -/
  regs : Ptr → U16

/-- Memory with nothing registered (static arrays are zero initialised) and all variables 0. `src/slave_internall/modbus_slave_data.c:15-18`. -/
def AppMem.empty : AppMem :=
  { coils := fun _ => none, dins := fun _ => none, hregs := fun _ => none, inregs := fun _ => none,
    bools := fun _ => false, regs := fun _ => 0 }

/-- Read of a table entry; outside the array it is UB. `src/slave_internall/modbus_slave_data.c:61-64` and the other accesses. -/
def tabRd (size : Nat) (t : Table) (adr : U16) : C (Option Ptr) :=
  if adr.toNat < size then .ok (t adr.toNat) else .error .oobRead

/-- `register_app_data_to_modbus_coils_din_table` / `register_app_data_to_modbus_reg_table`,
`src/slave_internall/modbus_slave_data.c:30-33` and `:45-48`: an unchecked array store. -/
def registerAt (size : Nat) (t : Table) (adr : U16) (p : Option Ptr) : C Table :=
  if adr.toNat < size then .ok (fun a => if a = adr.toNat then p else t a) else .error .oobWrite

/-- `get_coil_din_state`, `src/slave_internall/modbus_slave_data.c:60-68`. -/
def getCoilDinState (size : Nat) (t : Table) (bools : Ptr → Bool) (adr : U16) : C Ret := do
  match ← tabRd size t adr with
  | some p => return (if bools p then 1 else 0)
  | none => return RET_ERROR

/-- `set_coil_state`, `src/slave_internall/modbus_slave_data.c:80-91`. -/
def setCoilState (size : Nat) (t : Table) (bools : Ptr → Bool) (adr : U16) (v : Bool) :
    C (Ret × (Ptr → Bool)) := do
  match ← tabRd size t adr with
  | some p => return (RET_OK, fun q => if q = p then v else bools q)
  | none => return (RET_ERROR, bools)

/-- `get_register_state`, `src/slave_internall/modbus_slave_data.c:103-113`. -/
def getRegisterState (size : Nat) (t : Table) (regs : Ptr → U16) (adr : U16) : C Ret := do
  match ← tabRd size t adr with
  | some p => return ((regs p).toNat : Int)
  | none => return RET_ERROR

/-- `set_register_value`, `src/slave_internall/modbus_slave_data.c:128-139`. -/
def setRegisterValue (size : Nat) (t : Table) (regs : Ptr → U16) (adr : U16) (v : U16) :
    C (Ret × (Ptr → U16)) := do
  match ← tabRd size t adr with
  | some p => return (RET_OK, fun q => if q = p then v else regs q)
  | none => return (RET_ERROR, regs)

end Modbus
