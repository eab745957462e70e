import Verif.Model.SlaveData

/-! Specification of the Modbus application protocol as seen by a server (slave) with the eight supported
function codes: decode a request PDU, respond, encode the response PDU. Written without any reference to the
code's buffers, loops or helper functions. `Table`, `Ptr` and `AppMem` are only the vocabulary for "which
application variable is registered at which address, and what values the variables have".

PDU byte 0 is the function code. All multi-byte fields are big-endian. -/

namespace Modbus.Spec

open Modbus (U8 U16 Table Ptr AppMem)

/-- Big-endian pair of bytes as a number. -/
def word (hi lo : U8) : Nat := hi.toNat * 256 + lo.toNat

/-- A 16 bit value as two bytes, most significant first. -/
def beBytes (v : Nat) : List U8 := [BitVec.ofNat 8 (v / 256), BitVec.ofNat 8 v]

inductive BitTab where | coils | dins
  deriving DecidableEq, Repr
inductive RegTab where | hregs | inregs
  deriving DecidableEq, Repr

/-- The pointer table of a kind of bits. -/
def BitTab.table (m : AppMem) : BitTab → Table
  | .coils => m.coils
  | .dins => m.dins
/-- The pointer table of a kind of registers. -/
def RegTab.table (m : AppMem) : RegTab → Table
  | .hregs => m.hregs
  | .inregs => m.inregs

/-- Number of configured items of each kind. -/
structure Limits where
  coils : Nat
  dins : Nat
  hregs : Nat
  inregs : Nat

def BitTab.limit (l : Limits) : BitTab → Nat
  | .coils => l.coils
  | .dins => l.dins
def RegTab.limit (l : Limits) : RegTab → Nat
  | .hregs => l.hregs
  | .inregs => l.inregs

/-- Decoded request PDU. -/
inductive Request where
  | readBits (tab : BitTab) (adr qty : Nat)
  | readRegs (tab : RegTab) (adr qty : Nat)
  | writeCoil (adr value : Nat)
  | writeReg (adr value : Nat)
  | writeCoils (adr qty byteCount : Nat) (value : Nat → Bool)
  | writeRegs (adr qty byteCount : Nat) (value : Nat → U16)
  | unsupported (fc : U8)

/-- Function codes. -/
def BitTab.fc : BitTab → U8
  | .coils => 1
  | .dins => 2
def RegTab.fc : RegTab → U8
  | .hregs => 3
  | .inregs => 4

/-- Decode a request PDU given as a function from byte position to byte. Bit `i` of a write-coils payload is
bit `i % 8` of payload byte `i / 8`; register `i` is the `i`-th big-endian pair. -/
def decodeRequest (p : Nat → U8) : Request :=
  let adr := word (p 1) (p 2)
  let second := word (p 3) (p 4)
  match (p 0).toNat with
  | 1 => .readBits .coils adr second
  | 2 => .readBits .dins adr second
  | 3 => .readRegs .hregs adr second
  | 4 => .readRegs .inregs adr second
  | 5 => .writeCoil adr second
  | 6 => .writeReg adr second
  | 15 => .writeCoils adr second (p 5).toNat (fun i => (p (6 + i / 8)).getLsbD (i % 8))
  | 16 => .writeRegs adr second (p 5).toNat (fun i => BitVec.ofNat 16 (word (p (6 + 2 * i)) (p (7 + 2 * i))))
  | _ => .unsupported (p 0)

/-- Function code of a request. -/
def Request.fc : Request → U8
  | .readBits t _ _ => t.fc
  | .readRegs t _ _ => t.fc
  | .writeCoil _ _ => 5
  | .writeReg _ _ => 6
  | .writeCoils _ _ _ _ => 15
  | .writeRegs _ _ _ _ => 16
  | .unsupported fc => fc

/-- Response PDU. -/
inductive Response where
  | bits (fc : U8) (values : List Bool)
  | regs (fc : U8) (values : List U16)
  | echo (fc : U8) (adr value : Nat)
  | exception (fc : U8) (code : U8)
  deriving DecidableEq, Repr

/-- Pack bits into bytes, eight per byte, first bit least significant, padding zero. -/
def packBits (vals : List Bool) : List U8 :=
  (List.range ((vals.length + 7) / 8)).map fun k =>
    BitVec.ofNat 8 (((List.range 8).map fun j => if vals.getD (8 * k + j) false then 2 ^ j else 0).sum)

/-- Encode a response PDU. -/
def encodeResponse : Response → List U8
  | .bits fc vals => fc :: BitVec.ofNat 8 ((vals.length + 7) / 8) :: packBits vals
  | .regs fc vals => fc :: BitVec.ofNat 8 (2 * vals.length) :: vals.flatMap (fun v => beBytes v.toNat)
  | .echo fc adr v => fc :: (beBytes adr ++ beBytes v)
  | .exception fc code => [fc ||| 0x80, code]

/-- All of the `qty` addresses from `adr` on have a variable registered. -/
def allRegistered (t : Table) (adr qty : Nat) : Prop := ∀ i, i < qty → (t (adr + i)).isSome

instance (t : Table) (adr qty : Nat) : Decidable (allRegistered t adr qty) :=
  inferInstanceAs (Decidable (∀ i, i < qty → (t (adr + i)).isSome))

/-- Which exception, if any, a request must be answered with. The order of the tests is the precedence:
illegal function (1), illegal quantity or value (3), illegal address range (2), inconsistent byte count (3),
unregistered item (4). -/
def exceptionFor (l : Limits) (m : AppMem) : Request → Option U8
  | .unsupported _ => some 1
  | .readBits t adr qty =>
    if qty = 0 ∨ 2000 < qty then some 3
    else if t.limit l < adr + qty then some 2
    else if allRegistered (t.table m) adr qty then none else some 4
  | .readRegs t adr qty =>
    if qty = 0 ∨ 125 < qty then some 3
    else if t.limit l < adr + qty then some 2
    else if allRegistered (t.table m) adr qty then none else some 4
  | .writeCoil adr v =>
    if v ≠ 0x0000 ∧ v ≠ 0xFF00 then some 3
    else if l.coils ≤ adr then some 2
    else if (m.coils adr).isSome then none else some 4
  | .writeReg adr _ =>
    if l.hregs ≤ adr then some 2
    else if (m.hregs adr).isSome then none else some 4
  | .writeCoils adr qty bc _ =>
    if qty = 0 ∨ 1968 < qty then some 3
    else if l.coils < adr + qty then some 2
    else if bc ≠ (qty + 7) / 8 then some 3
    else if allRegistered m.coils adr qty then none else some 4
  | .writeRegs adr qty bc _ =>
    if qty = 0 ∨ 123 < qty then some 3
    else if l.hregs < adr + qty then some 2
    else if bc ≠ 2 * qty then some 3
    else if allRegistered m.hregs adr qty then none else some 4

/-- Value of the Boolean variable registered at an address. -/
def bitAt (t : Table) (bools : Ptr → Bool) (a : Nat) : Bool :=
  match t a with
  | some p => bools p
  | none => false

/-- Value of the register variable registered at an address. -/
def regAt (t : Table) (regs : Ptr → U16) (a : Nat) : U16 :=
  match t a with
  | some p => regs p
  | none => 0

/-- The normal (non exception) response. -/
def normalResponse (m : AppMem) : Request → Response
  | .readBits t adr qty => .bits t.fc ((List.range qty).map fun i => bitAt (t.table m) m.bools (adr + i))
  | .readRegs t adr qty => .regs t.fc ((List.range qty).map fun i => regAt (t.table m) m.regs (adr + i))
  | .writeCoil adr v => .echo 5 adr v
  | .writeReg adr v => .echo 6 adr v
  | .writeCoils adr qty _ _ => .echo 15 adr qty
  | .writeRegs adr qty _ _ => .echo 16 adr qty
  | .unsupported fc => .exception fc 1

/-- The response to a request. -/
def respond (l : Limits) (m : AppMem) (r : Request) : Response :=
  match exceptionFor l m r with
  | some code => .exception r.fc code
  | none => normalResponse m r

/-- Store `n` consecutive elements, in increasing address order. -/
def storeAll {α : Type} (t : Table) (adr : Nat) (value : Nat → α) (heap : Ptr → α) : Nat → (Ptr → α)
  | 0 => heap
  | n + 1 =>
    let h := storeAll t adr value heap n
    match t (adr + n) with
    | some p => fun q => if q = p then value n else h q
    | none => h

/-- Length of the initial run of registered addresses within the range. -/
def registeredPrefix (t : Table) (adr qty : Nat) : Nat :=
  ((List.range qty).takeWhile fun i => (t (adr + i)).isSome).length

/-- The effect of a request on the application variables. Requests refused with exception 1, 2 or 3 have no
effect. A multiple write stores the elements up to the first unregistered address (all of them if there
is none); this is what the code does, see C17. -/
def effect (l : Limits) (m : AppMem) (r : Request) : AppMem :=
  match r with
  | .writeCoil adr v =>
    if exceptionFor l m r = none then
      { m with bools := storeAll m.coils adr (fun _ => decide (v ≠ 0)) m.bools 1 }
    else m
  | .writeReg adr v =>
    if exceptionFor l m r = none then
      { m with regs := storeAll m.hregs adr (fun _ => BitVec.ofNat 16 v) m.regs 1 }
    else m
  | .writeCoils adr qty _ value =>
    if exceptionFor l m r = none ∨ exceptionFor l m r = some 4 then
      { m with bools := storeAll m.coils adr value m.bools (registeredPrefix m.coils adr qty) }
    else m
  | .writeRegs adr qty _ value =>
    if exceptionFor l m r = none ∨ exceptionFor l m r = some 4 then
      { m with regs := storeAll m.hregs adr value m.regs (registeredPrefix m.hregs adr qty) }
    else m
  | _ => m

end Modbus.Spec
