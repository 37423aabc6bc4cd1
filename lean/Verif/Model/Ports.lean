/-
The I/O registers of the ATmega that the display, the buttons and the heater output share
(ports B, C and D), with a record of the writes.
-/
namespace Verif

/-- data direction and output registers of ports B, C, D -/
inductive Reg where
  | ddrB | portB | ddrC | portC | ddrD | portD
  deriving DecidableEq, Repr

/-- values of these registers; `txen` is the transmitter enable bit TXEN0 of UCSR0B (while it is
    set the UART owns pin PD1, debug_uart.c:218) -/
structure PortVals where
  ddrB : BitVec 8
  portB : BitVec 8
  ddrC : BitVec 8
  portC : BitVec 8
  ddrD : BitVec 8
  portD : BitVec 8
  txen : Bool
  deriving DecidableEq, Repr

def PortVals.get (p : PortVals) : Reg → BitVec 8
  | .ddrB => p.ddrB | .portB => p.portB | .ddrC => p.ddrC
  | .portC => p.portC | .ddrD => p.ddrD | .portD => p.portD

def PortVals.set (p : PortVals) (r : Reg) (v : BitVec 8) : PortVals :=
  match r with
  | .ddrB => { p with ddrB := v } | .portB => { p with portB := v }
  | .ddrC => { p with ddrC := v } | .portC => { p with portC := v }
  | .ddrD => { p with ddrD := v } | .portD => { p with portD := v }

/-- all registers are 0 after reset -/
def PortVals.reset : PortVals :=
  { ddrB := 0, portB := 0, ddrC := 0, portC := 0, ddrD := 0, portD := 0, txen := false }

/-- one write: the register, the values of all registers before, and the value written -/
structure PortWrite where
  reg : Reg
  before : PortVals
  value : BitVec 8
  deriving DecidableEq, Repr

/-- the registers and the record (ghost, newest first) of every write -/
structure Ports where
  v : PortVals
  log : List PortWrite
  deriving DecidableEq, Repr

/-- `SFR_BYTE(r) = v` (util.h:216-217) -/
def Ports.write (p : Ports) (r : Reg) (x : BitVec 8) : Ports :=
  { v := p.v.set r x, log := { reg := r, before := p.v, value := x } :: p.log }

/-- `SFR_BYTE(r) |= m` -/
def Ports.orBits (p : Ports) (r : Reg) (m : BitVec 8) : Ports := p.write r (p.v.get r ||| m)

/-- `SFR_BYTE(r) &= (uint8_t)~m` -/
def Ports.clrBits (p : Ports) (r : Reg) (m : BitVec 8) : Ports := p.write r (p.v.get r &&& ~~~m)

end Verif
