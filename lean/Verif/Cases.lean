import Verif.Thumb
import Verif.Handlers
import Verif.Exec

/-!
# What the program makes of each encoding

`Act.Of` says that an instruction object carries the attributes for an action. `Case` is
an encoding of `Verif/Thumb.lean` together with what decoding it in the program gives: the
action where it is not the one of the manual, the exception, and the operands shown.
`Verif/Lemmas/Rows.lean` proves the table.
-/

namespace Verif
open BS
namespace Thumb

/-- The object has these flag settings outside IT blocks. -/
def FlagsOf (i : Instr) (flags : Bool) : Prop := ∃ s, i.setflags = some s ∧ Exec.wantsFlags s = flags

/-- The second operand: an immediate, or the register. -/
def Src.Of (i : Instr) : Src → Prop
  | .reg m => i.imm32 = none ∧ i.m = some m ∧ m < 16
  | .imm v => i.m = none ∧ i.imm32 = some (ofBV v)

/-- The offset of a load or store. -/
def Off.Of (i : Instr) : Off → Prop
  | .imm v => i.imm32 = some (ofBV v)
  | .reg m s => i.imm32 = none ∧ i.m = some m ∧ m < 16 ∧ i.shiftT = some s.1 ∧ i.shiftN = some s.2

/-- A register attribute. -/
def IsReg (r : Option Nat) (k : Nat) : Prop := r = some k ∧ k < 16

/-- The attributes of the object are those of the action. -/
def Act.Of (i : Instr) : Act → Prop
  | .addSub sub carry flags d n src => i.klass = .addSub ∧ i.sub = some sub ∧ i.useCarry = some carry ∧
      FlagsOf i flags ∧ IsReg i.d d ∧ IsReg i.n n ∧ src.Of i
  | .rsb flags d n imm => i.klass = .reverseSubtract ∧ FlagsOf i flags ∧ IsReg i.d d ∧ IsReg i.n n ∧
      i.imm32 = some (ofBV imm)
  | .logic f flags d n m => i.klass = .bitOp ∧ i.op = some f ∧ FlagsOf i flags ∧ IsReg i.d d ∧ IsReg i.n n ∧ IsReg i.m m
  | .bic flags d n m => i.klass = .bitClear ∧ FlagsOf i flags ∧ IsReg i.d d ∧ IsReg i.n n ∧ IsReg i.m m
  | .shiftImm t flags d m k => i.klass = .shiftOp ∧ i.type = some t ∧ i.shiftN = some k ∧ FlagsOf i flags ∧
      IsReg i.d d ∧ IsReg i.n m
  | .shiftReg t flags d n m => i.klass = .shiftOp ∧ i.type = some t ∧ i.shiftN = none ∧ FlagsOf i flags ∧
      IsReg i.d d ∧ IsReg i.n n ∧ IsReg i.m m
  | .mul flags d n m => i.klass = .multiply ∧ FlagsOf i flags ∧ IsReg i.d d ∧ IsReg i.n n ∧ IsReg i.m m
  | .adr add d imm => i.klass = .addressToRegister ∧ i.add = some add ∧ IsReg i.d d ∧ i.imm32 = some (ofBV imm)
  | .extend sgn width rotation d m => i.klass = .extend ∧ i.signed = some sgn ∧ i.width = some width ∧
      i.rotation = some rotation ∧ IsReg i.d d ∧ IsReg i.m m
  | .rev kind d m => i.klass = .byteReverse ∧ i.width = some (if kind = .rev then 4 else 2) ∧
      (kind = .rev ∨ i.signed = some (decide (kind = .revsh))) ∧ IsReg i.d d ∧ IsReg i.m m
  | .mov neg flags d src _ => i.klass = .move ∧ i.negate = some neg ∧ FlagsOf i flags ∧ IsReg i.d d ∧ src.Of i
  | .mvnShift flags d m s => i.klass = .shiftedMoveNegate ∧ FlagsOf i flags ∧ IsReg i.d d ∧ IsReg i.m m ∧
      i.shiftT = some s.1 ∧ i.shiftN = some s.2
  | .cmp sub n src => i.klass = .compare ∧ i.negate = some sub ∧ IsReg i.n n ∧ src.Of i
  | .tst n m s => i.klass = .test ∧ IsReg i.n n ∧ IsReg i.m m ∧ i.shiftT = some s.1 ∧ i.shiftN = some s.2
  | .branch cond offset => i.klass = .branch ∧ i.cond = some cond ∧ i.withLink = some false ∧ i.pcDelta = some 0 ∧
      i.m = none ∧ i.imm32 = some (ofBV offset)
  | .bl offset => i.klass = .branch ∧ i.cond = some 15 ∧ i.withLink = some true ∧ i.pcDelta = some 0 ∧
      i.m = none ∧ i.imm32 = some (ofBV offset)
  | .blx m => i.klass = .branch ∧ i.cond = some 15 ∧ i.withLink = some true ∧ i.pcDelta = some (-2) ∧ IsReg i.m m
  | .bx m => i.klass = .branch ∧ i.cond = some 15 ∧ i.withLink = some false ∧ i.pcDelta = some 0 ∧ IsReg i.m m
  | .load size sgn t n off => i.klass = .load ∧ i.memsize = some size ∧ i.signed = some sgn ∧ IsReg i.t t ∧ IsReg i.n n ∧
      i.index = some true ∧ i.add = some true ∧ i.wback = some false ∧ off.Of i
  | .store size t n off => i.klass = .store ∧ i.memsize = some size ∧ IsReg i.t t ∧ IsReg i.n n ∧
      i.index = some true ∧ i.add = some true ∧ off.Of i
  | .loadLit size sgn add t imm => i.klass = .loadLiteral ∧ i.memsize = some size ∧ i.signed = some sgn ∧
      i.add = some add ∧ IsReg i.t t ∧ i.imm32 = some (ofBV imm)
  | .push r => i.klass = .push ∧ i.registers = some (ofBV r)
  | .pop r => i.klass = .pop ∧ i.registers = some (ofBV r)
  | .ldm n wback r => i.klass = .loadMultiple ∧ IsReg i.n n ∧ i.wback = some wback ∧ i.registers = some (ofBV r)
  | .stm n wback r => i.klass = .storeMultiple ∧ IsReg i.n n ∧ i.wback = some wback ∧ i.registers = some (ofBV r)
  | .cps enable pri fault => i.klass = .changeProcessorState ∧ i.enable = some enable ∧ i.affectPri = some pri ∧
      i.affectFault = some fault
  | .mrs d s => i.klass = .moveFromSpecial ∧ IsReg i.d d ∧ i.sysm = some (ofBV s)
  | .msr n k s => i.klass = .moveToSpecial ∧ IsReg i.n n ∧ i.mask = some (ofBV k) ∧ i.sysm = some (ofBV s)
  | .plain => i.klass = .instruction

end Thumb

open Thumb Handler

/-- An encoding and what decoding it gives: if `raises` has a value that exception, else
an object for `act` with the operands `ops`. -/
structure Case where
  enc : Enc
  act : (Char → Nat) → Act := enc.act
  raises : (Char → Nat) → Option PyErr := fun _ => none
  ops : (Char → Nat) → List Operand

namespace Case

def bics : Case :=
  { enc := Thumb.bics,
    ops := fun f => [rg (f 'd'), rg (f 'm')] }

def orrs : Case :=
  { enc := Thumb.orrs,
    ops := fun f => [rg (f 'd'), rg (f 'm')] }

def rorsReg : Case :=
  { enc := Thumb.rorsReg,
    ops := fun f => [rg (f 'd'), rg (f 'm')] }

def sbcs : Case :=
  { enc := Thumb.sbcs,
    ops := fun f => [rg (f 'd'), rg (f 'm')] }

def adcs : Case :=
  { enc := Thumb.adcs,
    ops := fun f => [rg (f 'd'), rg (f 'm')] }

def asrsReg : Case :=
  { enc := Thumb.asrsReg,
    ops := fun f => [rg (f 'd'), rg (f 'm')] }

def lsrsReg : Case :=
  { enc := Thumb.lsrsReg,
    ops := fun f => [rg (f 'd'), rg (f 'm')] }

def lslsReg : Case :=
  { enc := Thumb.lslsReg,
    ops := fun f => [rg (f 'd'), rg (f 'm')] }

def eors : Case :=
  { enc := Thumb.eors,
    ops := fun f => [rg (f 'd'), rg (f 'm')] }

def ands : Case :=
  { enc := Thumb.ands,
    ops := fun f => [rg (f 'd'), rg (f 'm')] }

def subsImmT1 : Case :=
  { enc := Thumb.subsImmT1,
    ops := fun f => [rg (f 'd'), rg (f 'n'), .one .immAttr] }

def addsImmT1 : Case :=
  { enc := Thumb.addsImmT1,
    ops := fun f => [rg (f 'd'), rg (f 'n'), .one .immAttr] }

def subsImmT2 : Case :=
  { enc := Thumb.subsImmT2,
    ops := fun f => [rg (f 'd'), .one .immAttr] }

def addsImmT2 : Case :=
  { enc := Thumb.addsImmT2,
    ops := fun f => [rg (f 'd'), .one .immAttr] }

def subsReg : Case :=
  { enc := Thumb.subsReg,
    ops := fun f => [rg (f 'd'), rg (f 'n'), rg (f 'm')] }

def addsReg : Case :=
  { enc := Thumb.addsReg,
    ops := fun f => [rg (f 'd'), rg (f 'n'), rg (f 'm')] }

def addRegT2 : Case :=
  { enc := Thumb.addRegT2,
    ops := fun f => [rg (f 'd'), rg (f 'm')] }

def addSpImmT1 : Case :=
  { enc := Thumb.addSpImmT1,
    ops := fun f => [rg (f 'd'), rg 13, im ((4 * f 'i' : Nat) : Int)] }

def addSpRegT1 : Case :=
  { enc := Thumb.addSpRegT1,
    ops := fun f => [rg (f 'd'), rg 13, rg (f 'd')] }

def addSpRegT2 : Case :=
  { enc := Thumb.addSpRegT2,
    raises := fun f => if f 'm' = 13 then some .decodeError else none,
    ops := fun f => [rg 13, rg (f 'm')] }

def subSpImm : Case :=
  { enc := Thumb.subSpImm,
    ops := fun f => [rg 13, im ((4 * f 'i' : Nat) : Int)] }

def addSpImmT2 : Case :=
  { enc := Thumb.addSpImmT2,
    ops := fun f => [rg 13, im ((4 * f 'i' : Nat) : Int)] }

def asrsImm : Case :=
  { enc := Thumb.asrsImm,
    ops := fun f => [rg (f 'd'), rg (f 'm'), im ((if f 'i' = 0 then 32 else f 'i' : Nat) : Int)] }

def lsrsImm : Case :=
  { enc := Thumb.lsrsImm,
    ops := fun f => [rg (f 'd'), rg (f 'm'), im ((if f 'i' = 0 then 32 else f 'i' : Nat) : Int)] }

def lslsImm : Case :=
  { enc := Thumb.lslsImm,
    ops := fun f => [rg (f 'd'), rg (f 'm'), im ((f 'i' : Nat) : Int)] }

def rsbs : Case :=
  { enc := Thumb.rsbs,
    ops := fun f => [rg (f 'd'), rg (f 'n'), im 0] }

def rsbW : Case :=
  { enc := Thumb.rsbW,
    raises := fun f => if Thumb.rsbW.ok f then none else some .unpredictable,
    ops := fun f => [rg (f 'd'), rg (f 'n'), im (((expand (f 'i')).toNat : Nat) : Int)] }

def muls : Case :=
  { enc := Thumb.muls,
    ops := fun f => [rg (f 'd'), rg (f 'n'), rg (f 'd')] }

def mulW : Case :=
  { enc := Thumb.mulW,
    raises := fun f => if Thumb.mulW.ok f then none else some .unpredictable,
    ops := fun f => [rg (f 'd'), rg (f 'n'), rg (f 'm')] }

def adrT1 : Case :=
  { enc := Thumb.adrT1,
    ops := fun f => [rg (f 'd'), .one (.label ((4 * f 'i' : Nat) : Int))] }

def adrAddW : Case :=
  { enc := Thumb.adrAddW,
    ops := fun f => [rg (f 'd'), .one (.label ((f 'i' : Nat) : Int))] }

def adrSubW : Case :=
  { enc := Thumb.adrSubW,
    ops := fun f => [rg (f 'd'), .one (.label ((f 'i' : Nat) : Int))] }

def uxtb : Case :=
  { enc := Thumb.uxtb,
    ops := fun f => [rg (f 'd'), rg (f 'm')] }

def uxth : Case :=
  { enc := Thumb.uxth,
    ops := fun f => [rg (f 'd'), rg (f 'm')] }

def sxtb : Case :=
  { enc := Thumb.sxtb,
    ops := fun f => [rg (f 'd'), rg (f 'm')] }

def sxth : Case :=
  { enc := Thumb.sxth,
    ops := fun f => [rg (f 'd'), rg (f 'm')] }

def uxtbW : Case :=
  { enc := Thumb.uxtbW,
    ops := fun f => [rg (f 'd'), rg (f 'm')] ++ (if f 'r' ≠ 0 then [.one (.shift .ror (8 * f 'r'))] else []) }

def uxthW : Case :=
  { enc := Thumb.uxthW,
    ops := fun f => [rg (f 'd'), rg (f 'm')] ++ (if f 'r' ≠ 0 then [.one (.shift .ror (8 * f 'r'))] else []) }

def sxtbW : Case :=
  { enc := Thumb.sxtbW,
    ops := fun f => [rg (f 'd'), rg (f 'm')] ++ (if f 'r' ≠ 0 then [.one (.shift .ror (8 * f 'r'))] else []) }

def sxthW : Case :=
  { enc := Thumb.sxthW,
    ops := fun f => [rg (f 'd'), rg (f 'm')] ++ (if f 'r' ≠ 0 then [.one (.shift .ror (8 * f 'r'))] else []) }

def revsh : Case :=
  { enc := Thumb.revsh,
    ops := fun f => [rg (f 'd'), rg (f 'm')] }

def rev16 : Case :=
  { enc := Thumb.rev16,
    ops := fun f => [rg (f 'd'), rg (f 'm')] }

def rev : Case :=
  { enc := Thumb.rev,
    ops := fun f => [rg (f 'd'), rg (f 'm')] }

def revshW : Case :=
  { enc := Thumb.revshW,
    raises := fun f => if Thumb.revshW.ok f then none else some .unpredictable,
    ops := fun f => [rg (f 'd'), rg (f 'm')] }

def rev16W : Case :=
  { enc := Thumb.rev16W,
    raises := fun f => if Thumb.rev16W.ok f then none else some .unpredictable,
    ops := fun f => [rg (f 'd'), rg (f 'm')] }

def revW : Case :=
  { enc := Thumb.revW,
    raises := fun f => if Thumb.revW.ok f then none else some .unpredictable,
    ops := fun f => [rg (f 'd'), rg (f 'm')] }

def movReg : Case :=
  { enc := Thumb.movReg,
    ops := fun f => [rg (f 'd'), rg (f 'm')] }

def movsReg : Case :=
  { enc := Thumb.movsReg,
    ops := fun f => [rg (f 'd'), rg (f 'm')] }

def movRegW : Case :=
  { enc := Thumb.movRegW,
    ops := fun f => [rg (f 'd'), rg (f 'm')] }

def movsImm : Case :=
  { enc := Thumb.movsImm,
    ops := fun f => [rg (f 'd'), im ((f 'i' : Nat) : Int)] }

def movImmW : Case :=
  { enc := Thumb.movImmW,
    ops := fun f => [rg (f 'd'), im (((expand (f 'i')).toNat : Nat) : Int)] }

def movw : Case :=
  { enc := Thumb.movw,
    ops := fun f => [rg (f 'd'), im ((4096 * f 'i' + 2048 * f 'j' + 256 * f 'k' + f 'l' : Nat) : Int)] }

def mvns : Case :=
  { enc := Thumb.mvns,
    ops := fun f => [rg (f 'd'), rg (f 'm')] }

def mvnW : Case :=
  { enc := Thumb.mvnW,
    ops := fun f => [rg (f 'd'), rg (f 'm'), .one (.shift (immShift (f 't') (f 'i')).1 (immShift (f 't') (f 'i')).2)] }

def cmpImm : Case :=
  { enc := Thumb.cmpImm,
    ops := fun f => [rg (f 'n'), im ((f 'i' : Nat) : Int)] }

def cmnReg : Case :=
  { enc := Thumb.cmnReg,
    act := fun f => .cmp false (f 'n') (.reg (f 'n')),
    ops := fun f => [rg (f 'n'), rg (f 'n')] }

def cmpRegT1 : Case :=
  { enc := Thumb.cmpRegT1,
    act := fun f => .cmp true (f 'n') (.reg (f 'n')),
    ops := fun f => [rg (f 'n'), rg (f 'n')] }

def cmpRegT2 : Case :=
  { enc := Thumb.cmpRegT2,
    act := fun f => .cmp true (f 'n') (.reg (f 'n' % 8)),
    ops := fun f => [rg (f 'n'), rg (f 'n' % 8)] }

def cmnImm : Case :=
  { enc := Thumb.cmnImm,
    ops := fun f => [rg (f 'n'), im (((expand (f 'i')).toNat : Nat) : Int)] }

def cmpImmW : Case :=
  { enc := Thumb.cmpImmW,
    ops := fun f => [rg (f 'n'), im (((expand (f 'i')).toNat : Nat) : Int)] }

def tst : Case :=
  { enc := Thumb.tst,
    ops := fun f => [rg (f 'n'), rg (f 'm')] }

def tstW : Case :=
  { enc := Thumb.tstW,
    raises := fun f => if Thumb.tstW.ok f then none else some .unpredictable,
    ops := fun f => [rg (f 'n'), rg (f 'm')] ++ (if (immShift (f 't') (f 'i')).2 ≠ 0 then
      [.one (.shift (immShift (f 't') (f 'i')).1 (immShift (f 't') (f 'i')).2)] else []) }

def bCond : Case :=
  { enc := Thumb.bCond,
    act := fun f => .branch (f 'c') (C17.spoil (signed 9 (2 * f 'i'))),
    ops := fun f => [.one (.label (signed 9 (2 * f 'i')).toInt)] }

def b : Case :=
  { enc := Thumb.b,
    act := fun f => .branch 15 (C17.spoil (signed 12 (2 * f 'i'))),
    ops := fun f => [.one (.label (signed 12 (2 * f 'i')).toInt)] }

def bl : Case :=
  { enc := Thumb.bl,
    act := fun f => .bl (C17.spoil (blOffset (f 's') (f 'j') (f 'k') (f 'i'))),
    ops := fun f => [.one (.label (blOffset (f 's') (f 'j') (f 'k') (f 'i')).toInt)] }

def blx : Case :=
  { enc := Thumb.blx,
    ops := fun f => [rg (f 'm')] }

def bx : Case :=
  { enc := Thumb.bx,
    ops := fun f => [rg (f 'm')] }

def ldrshReg : Case :=
  { enc := Thumb.ldrshReg,
    ops := fun f => memOps (f 't') [.reg (f 'n') false, .reg (f 'm') false] }

def ldrbReg : Case :=
  { enc := Thumb.ldrbReg,
    ops := fun f => memOps (f 't') [.reg (f 'n') false, .reg (f 'm') false] }

def ldrhReg : Case :=
  { enc := Thumb.ldrhReg,
    ops := fun f => memOps (f 't') [.reg (f 'n') false, .reg (f 'm') false] }

def ldrReg : Case :=
  { enc := Thumb.ldrReg,
    ops := fun f => memOps (f 't') [.reg (f 'n') false, .reg (f 'm') false] }

def ldrsbReg : Case :=
  { enc := Thumb.ldrsbReg,
    ops := fun f => memOps (f 't') [.reg (f 'n') false, .reg (f 'm') false] }

def strbReg : Case :=
  { enc := Thumb.strbReg,
    ops := fun f => memOps (f 't') [.reg (f 'n') false, .reg (f 'm') false] }

def strhReg : Case :=
  { enc := Thumb.strhReg,
    ops := fun f => memOps (f 't') [.reg (f 'n') false, .reg (f 'm') false] }

def strReg : Case :=
  { enc := Thumb.strReg,
    ops := fun f => memOps (f 't') [.reg (f 'n') false, .reg (f 'm') false] }

def strRegW : Case :=
  { enc := Thumb.strRegW,
    raises := fun f => if f 'n' = 15 then some .decodeError else none,
    ops := fun f => memOps (f 't') [.reg (f 'n') false, .reg (f 'm') false, .shift .lsl (f 'i')] }

def strhRegW : Case :=
  { enc := Thumb.strhRegW,
    raises := fun f => if f 'n' = 15 then some .decodeError else none,
    ops := fun f => memOps (f 't') [.reg (f 'n') false, .reg (f 'm') false, .shift .lsl (f 'i')] }

def strbRegW : Case :=
  { enc := Thumb.strbRegW,
    raises := fun f => if f 'n' = 15 then some .decodeError else none,
    ops := fun f => memOps (f 't') [.reg (f 'n') false, .reg (f 'm') false, .shift .lsl (f 'i')] }

def ldrshRegW : Case :=
  { enc := Thumb.ldrshRegW,
    raises := fun f => if f 'n' = 15 then some .decodeError else none,
    ops := fun f => memOps (f 't') [.reg (f 'n') false, .reg (f 'm') false, .shift .lsl (f 'i')] }

def ldrsbRegW : Case :=
  { enc := Thumb.ldrsbRegW,
    raises := fun f => if f 'n' = 15 then some .decodeError else none,
    ops := fun f => memOps (f 't') [.reg (f 'n') false, .reg (f 'm') false, .shift .lsl (f 'i')] }

def ldrRegW : Case :=
  { enc := Thumb.ldrRegW,
    raises := fun f => if f 'n' = 15 then some .decodeError else none,
    ops := fun f => memOps (f 't') [.reg (f 'n') false, .reg (f 'm') false, .shift .lsl (f 'i')] }

def ldrhRegW : Case :=
  { enc := Thumb.ldrhRegW,
    raises := fun f => if f 'n' = 15 then some .decodeError else none,
    ops := fun f => memOps (f 't') [.reg (f 'n') false, .reg (f 'm') false, .shift .lsl (f 'i')] }

def ldrbRegW : Case :=
  { enc := Thumb.ldrbRegW,
    raises := fun f => if f 'n' = 15 then some .decodeError else none,
    ops := fun f => memOps (f 't') [.reg (f 'n') false, .reg (f 'm') false, .shift .lsl (f 'i')] }

def ldrhImm : Case :=
  { enc := Thumb.ldrhImm,
    ops := fun f => memOps (f 't') [.reg (f 'n') false, .imm ((2 * f 'i' : Nat) : Int) true] }

def strhImm : Case :=
  { enc := Thumb.strhImm,
    ops := fun f => memOps (f 't') [.reg (f 'n') false, .imm ((2 * f 'i' : Nat) : Int) true] }

def ldrbImm : Case :=
  { enc := Thumb.ldrbImm,
    ops := fun f => memOps (f 't') [.reg (f 'n') false, .imm ((f 'i' : Nat) : Int) true] }

def strbImm : Case :=
  { enc := Thumb.strbImm,
    ops := fun f => memOps (f 't') [.reg (f 'n') false, .imm ((f 'i' : Nat) : Int) true] }

def ldrImm : Case :=
  { enc := Thumb.ldrImm,
    ops := fun f => memOps (f 't') [.reg (f 'n') false, .imm ((4 * f 'i' : Nat) : Int) true] }

def strImm : Case :=
  { enc := Thumb.strImm,
    ops := fun f => memOps (f 't') [.reg (f 'n') false, .imm ((4 * f 'i' : Nat) : Int) true] }

def ldrLit : Case :=
  { enc := Thumb.ldrLit,
    ops := fun f => memOps (f 't') [.reg 15 false, .imm ((4 * f 'i' : Nat) : Int) false] }

def ldrsbLitW : Case :=
  { enc := Thumb.ldrsbLitW,
    raises := fun f => if f 't' = 15 then some .decodeError else none,
    ops := fun f => memOps (f 't') [.reg 15 false, .imm (if f 'u' = 1 then (f 'i' : Int) else -(f 'i' : Int)) true] }

def ldrshLitW : Case :=
  { enc := Thumb.ldrshLitW,
    raises := fun f => if f 't' = 15 then some .decodeError else none,
    ops := fun f => memOps (f 't') [.reg 15 false, .imm (if f 'u' = 1 then (f 'i' : Int) else -(f 'i' : Int)) true] }

def ldrbLitW : Case :=
  { enc := Thumb.ldrbLitW,
    raises := fun f => if f 't' = 15 then some .decodeError else none,
    ops := fun f => memOps (f 't') [.reg 15 false, .imm (if f 'u' = 1 then (f 'i' : Int) else -(f 'i' : Int)) true] }

def ldrhLitW : Case :=
  { enc := Thumb.ldrhLitW,
    raises := fun f => if f 't' = 15 then some .decodeError else none,
    ops := fun f => memOps (f 't') [.reg 15 false, .imm (if f 'u' = 1 then (f 'i' : Int) else -(f 'i' : Int)) true] }

def ldrLitW : Case :=
  { enc := Thumb.ldrLitW,
    raises := fun f => if f 't' = 15 then some .decodeError else none,
    ops := fun f => memOps (f 't') [.reg 15 false, .imm (if f 'u' = 1 then (f 'i' : Int) else -(f 'i' : Int)) true] }

def ldrSp : Case :=
  { enc := Thumb.ldrSp,
    ops := fun f => memOps (f 't') [.reg 13 false, .imm ((4 * f 'i' : Nat) : Int) true] }

def strSp : Case :=
  { enc := Thumb.strSp,
    ops := fun f => memOps (f 't') [.reg 13 false, .imm ((4 * f 'i' : Nat) : Int) true] }

def push : Case :=
  { enc := Thumb.push,
    raises := fun f => if Thumb.push.ok f then none else some .unpredictable,
    ops := fun f => [.one (.reglist (ofBV (regs 0 (f 'm') (f 'r'))))] }

def pushW : Case :=
  { enc := Thumb.pushW,
    raises := fun f => some .nameError,
    ops := fun _ => [] }

def pushOne : Case :=
  { enc := Thumb.pushOne,
    raises := fun f => if Thumb.pushOne.ok f then none else some .unpredictable,
    ops := fun f => [.one (.reglist (ofBV (single (f 't'))))] }

def pop : Case :=
  { enc := Thumb.pop,
    raises := fun f => if Thumb.pop.ok f then none else some .unpredictable,
    ops := fun f => [.one (.reglist (ofBV (regs (f 'p') 0 (f 'r'))))] }

def popW : Case :=
  { enc := Thumb.popW,
    raises := fun f => if Thumb.popW.ok f then none else some .unpredictable,
    ops := fun f => [.one (.reglist (ofBV (regs (f 'p') (f 'm') (f 'r'))))] }

def popOne : Case :=
  { enc := Thumb.popOne,
    ops := fun f => [.one (.reglist (ofBV (single (f 't'))))] }

def ldm : Case :=
  { enc := Thumb.ldm,
    raises := fun f => if Thumb.ldm.ok f then none else some .unpredictable,
    ops := fun f => multiOps (f 'n') (!(f 'r').testBit (f 'n')) (ofBV (regs 0 0 (f 'r'))) }

def stm : Case :=
  { enc := Thumb.stm,
    raises := fun f => if Thumb.stm.ok f then none else some .unpredictable,
    ops := fun f => multiOps (f 'n') true (ofBV (regs 0 0 (f 'r'))) }

def stmW : Case :=
  { enc := Thumb.stmW,
    raises := fun f => if Thumb.stmW.ok f then none else some .unpredictable,
    ops := fun f => multiOps (f 'n') (f 'w' = 1) (ofBV (regs 0 (f 'm') (f 'r'))) }

def ldmW : Case :=
  { enc := Thumb.ldmW,
    raises := fun f => if f 'w' = 1 ∧ f 'n' = 13 then some .decodeError else if Thumb.ldmW.ok f then none else some .unpredictable,
    ops := fun f => multiOps (f 'n') (f 'w' = 1) (ofBV (regs (f 'p') (f 'm') (f 'r'))) }

def cps : Case :=
  { enc := Thumb.cps,
    raises := fun f => if Thumb.cps.ok f then none else some .unpredictable,
    ops := fun f => [.one (.cps (f 'p' = 1) (f 'f' = 1))] }

def bkpt : Case :=
  { enc := Thumb.bkpt,
    ops := fun f => [im ((f 'i' : Nat) : Int)] }

def mrs : Case :=
  { enc := Thumb.mrs,
    raises := fun f => if Thumb.mrs.ok f then none else some .unpredictable,
    ops := fun f => [rg (f 'd'), .one (.special (ofBV (BitVec.ofNat 8 (f 's'))) none)] }

def msr : Case :=
  { enc := Thumb.msr,
    raises := fun f => if Thumb.msr.ok f then none else some .unpredictable,
    ops := fun f => [.one (.special (ofBV (BitVec.ofNat 8 (f 's'))) (some (ofBV (BitVec.ofNat 2 (f 'k'))))), rg (f 'n')] }

def sev : Case :=
  { enc := Thumb.sev,
    ops := fun _ => [] }

def wfi : Case :=
  { enc := Thumb.wfi,
    ops := fun _ => [] }

def wfe : Case :=
  { enc := Thumb.wfe,
    ops := fun _ => [] }

def yield : Case :=
  { enc := Thumb.yield,
    ops := fun _ => [] }

def nop : Case :=
  { enc := Thumb.nop,
    ops := fun _ => [] }

def isb : Case :=
  { enc := Thumb.isb,
    ops := fun f => [.one (.barrier (f 'o'))] }

def dmb : Case :=
  { enc := Thumb.dmb,
    ops := fun f => [.one (.barrier (f 'o'))] }

def dsb : Case :=
  { enc := Thumb.dsb,
    ops := fun f => [.one (.barrier (f 'o'))] }

def svc : Case :=
  { enc := Thumb.svc,
    ops := fun f => [im ((f 'i' : Nat) : Int)] }

def udf : Case :=
  { enc := Thumb.udf,
    ops := fun f => [im ((f 'i' : Nat) : Int)] }

def udfW : Case :=
  { enc := Thumb.udfW,
    ops := fun f => [im ((4096 * f 'i' + f 'k' : Nat) : Int)] }

/-- All of them, in the order of the table. -/
def all : List Case := [
  bics, orrs, rorsReg, sbcs, adcs, asrsReg, lsrsReg, lslsReg, eors, ands, subsImmT1, addsImmT1, subsImmT2,
  addsImmT2, subsReg, addsReg, addRegT2, addSpImmT1, addSpRegT1, addSpRegT2, subSpImm, addSpImmT2, asrsImm,
  lsrsImm, lslsImm, rsbs, rsbW, muls, mulW, adrT1, adrAddW, adrSubW, uxtb, uxth, sxtb, sxth, uxtbW, uxthW,
  sxtbW, sxthW, revsh, rev16, rev, revshW, rev16W, revW, movReg, movsReg, movRegW, movsImm, movImmW, movw,
  mvns, mvnW, cmpImm, cmnReg, cmpRegT1, cmpRegT2, cmnImm, cmpImmW, tst, tstW, bCond, b, bl, blx, bx, ldrshReg,
  ldrbReg, ldrhReg, ldrReg, ldrsbReg, strbReg, strhReg, strReg, strRegW, strhRegW, strbRegW, ldrshRegW,
  ldrsbRegW, ldrRegW, ldrhRegW, ldrbRegW, ldrhImm, strhImm, ldrbImm, strbImm, ldrImm, strImm, ldrLit,
  ldrsbLitW, ldrshLitW, ldrbLitW, ldrhLitW, ldrLitW, ldrSp, strSp, push, pushW, pushOne, pop, popW, popOne,
  ldm, stm, stmW, ldmW, cps, bkpt, mrs, msr, sev, wfi, wfe, yield, nop, isb, dmb, dsb, svc, udf, udfW]

end Case
end Verif
