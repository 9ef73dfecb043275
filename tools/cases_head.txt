import Verif.Thumb
import Verif.Handlers
import Verif.Exec

/-!
# What the program makes of each encoding

`Act.Of` says that an instruction object carries the attributes for an action. `Case` is
an encoding of `Verif/Thumb.lean` together with what decoding it in the program gives: the
action where it is not the one of the manual, the exception, and the operands shown.
`Verif/Lemmas/Rows.lean` proves the table.
-/

namespace Verif
open BS
namespace Thumb

/-- The object has these flag settings outside IT blocks. -/
def FlagsOf (i : Instr) (flags : Bool) : Prop := ∃ s, i.setflags = some s ∧ Exec.wantsFlags s = flags

/-- The second operand: an immediate, or the register. -/
def Src.Of (i : Instr) : Src → Prop
  | .reg m => i.imm32 = none ∧ i.m = some m ∧ m < 16
  | .imm v => i.m = none ∧ i.imm32 = some (ofBV v)

/-- The offset of a load or store. -/
def Off.Of (i : Instr) : Off → Prop
  | .imm v => i.imm32 = some (ofBV v)
  | .reg m s => i.imm32 = none ∧ i.m = some m ∧ m < 16 ∧ i.shiftT = some s.1 ∧ i.shiftN = some s.2

/-- A register attribute. -/
def IsReg (r : Option Nat) (k : Nat) : Prop := r = some k ∧ k < 16

/-- The attributes of the object are those of the action. -/
def Act.Of (i : Instr) : Act → Prop
  | .addSub sub carry flags d n src => i.klass = .addSub ∧ i.sub = some sub ∧ i.useCarry = some carry ∧
      FlagsOf i flags ∧ IsReg i.d d ∧ IsReg i.n n ∧ src.Of i
  | .rsb flags d n imm => i.klass = .reverseSubtract ∧ FlagsOf i flags ∧ IsReg i.d d ∧ IsReg i.n n ∧
      i.imm32 = some (ofBV imm)
  | .logic f flags d n m => i.klass = .bitOp ∧ i.op = some f ∧ FlagsOf i flags ∧ IsReg i.d d ∧ IsReg i.n n ∧ IsReg i.m m
  | .bic flags d n m => i.klass = .bitClear ∧ FlagsOf i flags ∧ IsReg i.d d ∧ IsReg i.n n ∧ IsReg i.m m
  | .shiftImm t flags d m k => i.klass = .shiftOp ∧ i.type = some t ∧ i.shiftN = some k ∧ FlagsOf i flags ∧
      IsReg i.d d ∧ IsReg i.n m
  | .shiftReg t flags d n m => i.klass = .shiftOp ∧ i.type = some t ∧ i.shiftN = none ∧ FlagsOf i flags ∧
      IsReg i.d d ∧ IsReg i.n n ∧ IsReg i.m m
  | .mul flags d n m => i.klass = .multiply ∧ FlagsOf i flags ∧ IsReg i.d d ∧ IsReg i.n n ∧ IsReg i.m m
  | .adr add d imm => i.klass = .addressToRegister ∧ i.add = some add ∧ IsReg i.d d ∧ i.imm32 = some (ofBV imm)
  | .extend sgn width rotation d m => i.klass = .extend ∧ i.signed = some sgn ∧ i.width = some width ∧
      i.rotation = some rotation ∧ IsReg i.d d ∧ IsReg i.m m
  | .rev kind d m => i.klass = .byteReverse ∧ i.width = some (if kind = .rev then 4 else 2) ∧
      (kind = .rev ∨ i.signed = some (decide (kind = .revsh))) ∧ IsReg i.d d ∧ IsReg i.m m
  | .mov neg flags d src => i.klass = .move ∧ i.negate = some neg ∧ FlagsOf i flags ∧ IsReg i.d d ∧ src.Of i
  | .mvnShift flags d m s => i.klass = .shiftedMoveNegate ∧ FlagsOf i flags ∧ IsReg i.d d ∧ IsReg i.m m ∧
      i.shiftT = some s.1 ∧ i.shiftN = some s.2
  | .cmp sub n src => i.klass = .compare ∧ i.negate = some sub ∧ IsReg i.n n ∧ src.Of i
  | .tst n m s => i.klass = .test ∧ IsReg i.n n ∧ IsReg i.m m ∧ i.shiftT = some s.1 ∧ i.shiftN = some s.2
  | .branch cond offset => i.klass = .branch ∧ i.cond = some cond ∧ i.withLink = some false ∧ i.pcDelta = some 0 ∧
      i.m = none ∧ i.imm32 = some (ofBV offset)
  | .bl offset => i.klass = .branch ∧ i.cond = some 15 ∧ i.withLink = some true ∧ i.pcDelta = some 0 ∧
      i.m = none ∧ i.imm32 = some (ofBV offset)
  | .blx m => i.klass = .branch ∧ i.cond = some 15 ∧ i.withLink = some true ∧ i.pcDelta = some (-2) ∧ IsReg i.m m
  | .bx m => i.klass = .branch ∧ i.cond = some 15 ∧ i.withLink = some false ∧ i.pcDelta = some 0 ∧ IsReg i.m m
  | .load size sgn t n off => i.klass = .load ∧ i.memsize = some size ∧ i.signed = some sgn ∧ IsReg i.t t ∧ IsReg i.n n ∧
      i.index = some true ∧ i.add = some true ∧ i.wback = some false ∧ off.Of i
  | .store size t n off => i.klass = .store ∧ i.memsize = some size ∧ IsReg i.t t ∧ IsReg i.n n ∧
      i.index = some true ∧ i.add = some true ∧ off.Of i
  | .loadLit size sgn add t imm => i.klass = .loadLiteral ∧ i.memsize = some size ∧ i.signed = some sgn ∧
      i.add = some add ∧ IsReg i.t t ∧ i.imm32 = some (ofBV imm)
  | .push r => i.klass = .push ∧ i.registers = some (ofBV r)
  | .pop r => i.klass = .pop ∧ i.registers = some (ofBV r)
  | .ldm n wback r => i.klass = .loadMultiple ∧ IsReg i.n n ∧ i.wback = some wback ∧ i.registers = some (ofBV r)
  | .stm n wback r => i.klass = .storeMultiple ∧ IsReg i.n n ∧ i.wback = some wback ∧ i.registers = some (ofBV r)
  | .cps enable pri fault => i.klass = .changeProcessorState ∧ i.enable = some enable ∧ i.affectPri = some pri ∧
      i.affectFault = some fault
  | .mrs d s => i.klass = .moveFromSpecial ∧ IsReg i.d d ∧ i.sysm = some (ofBV s)
  | .msr n k s => i.klass = .moveToSpecial ∧ IsReg i.n n ∧ i.mask = some (ofBV k) ∧ i.sysm = some (ofBV s)
  | .plain => i.klass = .instruction

end Thumb

open Thumb Handler

/-- An encoding and what decoding it gives: if `raises` has a value that exception, else
an object for `act` with the operands `ops`. -/
structure Case where
  enc : Enc
  act : (Char → Nat) → Act := enc.act
  raises : (Char → Nat) → Option PyErr := fun _ => none
  ops : (Char → Nat) → List Operand

namespace Case

