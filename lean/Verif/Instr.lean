import Verif.Helpers

/-!
# Instruction objects

`Instruction` of `cmdis/decoder.py` and its subclasses in `cmdis/instructions.py`, as
data. The attributes handlers and constructors set are optional fields; reading one that
was never set raises `AttributeError`, and `hasattr` asks whether it is set.
-/

namespace Verif

/-- `SetFlags`, `instructions.py` 29-32. -/
inductive SetFlags where
  | always | never | notInITBlock
deriving DecidableEq, Repr

/-- The functions `operator.and_`, `operator.xor` and `operator.or_` passed as `op`,
`instructions.py` 105-113. -/
inductive BitFn where
  | and | xor | or
deriving DecidableEq, Repr

/-- The instruction classes. `instruction` is the base class. -/
inductive Klass where
  | instruction | addSub | bitOp | bitClear | shiftOp | reverseSubtract | multiply | addressToRegister
  | extend | byteReverse | move | shiftedMoveNegate | compare | test | branch | load | store | loadLiteral
  | push | pop | loadMultiple | storeMultiple | changeProcessorState | moveFromSpecial | moveToSpecial
deriving DecidableEq, Repr

/-- The operand classes of `formatter.py` 21-185 but for `MemoryAccessOperand`. `immAttr`
is an `ImmediateOperand` that holds the instruction's `imm32` object itself, as
`instructions.py` 130 and 139 build it; every other operand holds a value of its own or
an object that is never changed. -/
inductive Op1 where
  | reg (r : Nat) (wback : Bool)
  | reglist (l : BS)
  | imm (v : Int) (hideIfZero : Bool)
  | immAttr
  | label (offset : Int)
  | shift (type : SRType) (amount : Nat)
  | barrier (option : Nat)
  | cps (affectPri affectFault : Bool)
  | special (spec : BS) (mask : Option BS)
deriving DecidableEq, Repr

/-- An operand; `mem` is a `MemoryAccessOperand`, whose `wback` argument is never given. -/
inductive Operand where
  | one (o : Op1)
  | mem (l : List Op1)
deriving DecidableEq, Repr

/-- An instruction object, `decoder.py` 28-64. `cond` is the key of the entry of
`CONDITIONS` it holds. -/
structure Instr where
  klass : Klass
  mnemonic : Str
  word : Nat
  is32 : Bool
  address : Int := 0
  operands : List Operand := []
  setflags : Option SetFlags := none
  useCarry : Option Bool := none
  sub : Option Bool := none
  op : Option BitFn := none
  type : Option SRType := none
  shiftT : Option SRType := none
  shiftN : Option Nat := none
  d : Option Nat := none
  n : Option Nat := none
  m : Option Nat := none
  t : Option Nat := none
  imm32 : Option BS := none
  carry : Option BS := none
  rotation : Option Nat := none
  width : Option Nat := none
  signed : Option Bool := none
  negate : Option Bool := none
  add : Option Bool := none
  index : Option Bool := none
  wback : Option Bool := none
  memsize : Option Nat := none
  registers : Option BS := none
  unalignedAllowed : Option Bool := none
  cond : Option Nat := none
  withLink : Option Bool := none
  pcDelta : Option Int := none
  enable : Option Bool := none
  affectPri : Option Bool := none
  affectFault : Option Bool := none
  sysm : Option BS := none
  mask : Option BS := none
deriving DecidableEq, Repr

/-- Reading an attribute. -/
def attr {α : Type} : Option α → PyRes α
  | some a => .ok a
  | none => .error .attributeError

/-- `klass(mnemonic, word, is32bit)`: the constructors at `decoder.py` 29-34 and
`instructions.py` 37-39, 61-64, 356-358, 448-450, 552-556, 614-617, 637-640, 714-716. -/
def Klass.new (k : Klass) (mnemonic : Str) (word : Nat) (is32 : Bool) : Instr :=
  let i : Instr := { klass := k, mnemonic, word, is32 }
  match k with
  | .addSub => { i with setflags := some .never, useCarry := some false, sub := some false }
  | .bitOp | .bitClear | .shiftOp | .reverseSubtract | .multiply | .extend | .shiftedMoveNegate =>
      { i with setflags := some .never }
  | .move => { i with setflags := some .never, negate := some false }
  | .compare => { i with negate := some true }
  | .branch => { i with withLink := some false, cond := some 15, pcDelta := some 0 }
  | .load | .store => { i with memsize := some 32, signed := some false }
  | .loadLiteral => { i with memsize := some 32, signed := some false, add := some true }
  | _ => i

/-- `size`, `decoder.py` 40-42. -/
def Instr.size (i : Instr) : Nat := if i.is32 then 4 else 2

/-- `bytes`, `decoder.py` 52-54. -/
def Instr.bytes (i : Instr) : List Nat := (List.range i.size).map fun k => (i.word >>> (8 * k)) &&& 0xff

/-- A keyword argument of the decorator, set as an attribute at `decoder.py` 232-233. -/
inductive Kw where
  | useCarry (b : Bool)
  | sub (b : Bool)
  | op (f : BitFn)
  | type (t : SRType)
  | add (b : Bool)
  | width (n : Nat)
  | signed (b : Bool)
  | negate (b : Bool)
  | memsize (n : Nat)
deriving DecidableEq, Repr

/-- `setattr(i, k, v)`. -/
def Kw.set (i : Instr) : Kw → Instr
  | .useCarry b => { i with useCarry := some b }
  | .sub b => { i with sub := some b }
  | .op f => { i with op := some f }
  | .type t => { i with type := some t }
  | .add b => { i with add := some b }
  | .width n => { i with width := some n }
  | .signed b => { i with signed := some b }
  | .negate b => { i with negate := some b }
  | .memsize n => { i with memsize := some n }

end Verif
