import Verif.Instr

/-!
# The handlers of `cmdis/instructions.py`

Each decorated function as a value of `Handler`. `params` are its parameters after `i`,
`run` its body on the arguments in that order.
-/

namespace Verif
open BS

/-- The decorated functions, in file order. Where a name is used twice in the file, the
second has a suffix. -/
inductive Handler where
  | adc | addImmT1 | addImmT2 | addRegT1 | addRegT2 | addSpPlusImmT1 | addSpPlusRegT1 | addSpPlusRegT2
  | addSpPlusImmT2 | shiftImmT1 | rsb | rsbW | mulT1 | mulT2 | adrT1 | adrT2 | extend | extend2 | rev | revW
  | mov0 | mov0S | movRegT3 | mov1 | mov2 | movw | mvn | mvnw | cmp1 | cmp3 | cmp4 | cmp2 | tst | tstW
  | bT1 | bT2 | blT1 | blxT1 | bxT1 | ldrStrReg | ldrStrRegT2 | ldrStrImm | ldrLiteral | ldrLiteralW | ldrStrImmT2
  | pushT1 | pushT2 | pushT3 | popT1 | popT2 | popT3 | stmLdmT1 | stmT2 | ldmT2 | cps | bkpt | mrs | msr | nop
  | barrier | udfT1 | udfT2
deriving DecidableEq, Repr

namespace Handler

/-- The parameter names of a handler. -/
def params : Handler → List Str
  | adc => [c! "Rm", c! "Rdn"]
  | addImmT1 => [c! "imm3", c! "Rn", c! "Rd"]
  | addImmT2 => [c! "Rdn", c! "imm8"]
  | addRegT1 => [c! "Rm", c! "Rn", c! "Rd"]
  | addRegT2 => [c! "DN", c! "Rm", c! "Rdn"]
  | addSpPlusImmT1 => [c! "Rd", c! "imm8"]
  | addSpPlusRegT1 => [c! "DM", c! "Rdm"]
  | addSpPlusRegT2 => [c! "Rm"]
  | addSpPlusImmT2 => [c! "imm7"]
  | shiftImmT1 => [c! "stype", c! "imm5", c! "Rm", c! "Rd"]
  | rsb => [c! "Rn", c! "Rd"]
  | rsbW => [c! "im", c! "S", c! "Rn", c! "imm3", c! "Rd", c! "imm8"]
  | mulT1 => [c! "Rn", c! "Rdm"]
  | mulT2 => [c! "Rn", c! "Rd", c! "Rm"]
  | adrT1 => [c! "Rd", c! "imm8"]
  | adrT2 => [c! "im", c! "imm3", c! "Rd", c! "imm8"]
  | extend => [c! "Rm", c! "Rd"]
  | extend2 => [c! "Rm", c! "rotate", c! "Rd"]
  | rev => [c! "Rm", c! "Rd"]
  | revW => [c! "Rm1", c! "Rd", c! "Rm2"]
  | mov0 => [c! "D", c! "Rm", c! "Rd"]
  | mov0S => [c! "Rm", c! "Rd"]
  | movRegT3 => [c! "S", c! "Rd", c! "Rm"]
  | mov1 => [c! "Rd", c! "imm8"]
  | mov2 => [c! "im", c! "S", c! "imm3", c! "Rd", c! "imm8"]
  | movw => [c! "im", c! "imm4", c! "imm3", c! "Rd", c! "imm8"]
  | mvn => [c! "Rm", c! "Rd"]
  | mvnw => [c! "S", c! "imm3", c! "Rd", c! "imm2", c! "type", c! "Rm"]
  | cmp1 => [c! "Rn", c! "imm8"]
  | cmp3 => [c! "Rm", c! "Rn"]
  | cmp4 => [c! "N", c! "Rm", c! "Rn"]
  | cmp2 => [c! "im", c! "Rn", c! "imm3", c! "imm8"]
  | tst => [c! "Rm", c! "Rn"]
  | tstW => [c! "Rn", c! "imm3", c! "imm2", c! "type", c! "Rm"]
  | bT1 => [c! "cond", c! "imm8"]
  | bT2 => [c! "imm11"]
  | blT1 => [c! "S", c! "imm10", c! "J1", c! "J2", c! "imm11"]
  | blxT1 => [c! "Rm"]
  | bxT1 => [c! "Rm"]
  | ldrStrReg => [c! "Rm", c! "Rn", c! "Rt"]
  | ldrStrRegT2 => [c! "Rn", c! "Rt", c! "imm2", c! "Rm"]
  | ldrStrImm => [c! "imm5", c! "Rn", c! "Rt"]
  | ldrLiteral => [c! "Rt", c! "imm8"]
  | ldrLiteralW => [c! "U", c! "Rt", c! "imm12"]
  | ldrStrImmT2 => [c! "Rt", c! "imm8"]
  | pushT1 => [c! "M", c! "reglist"]
  | pushT2 => [c! "M", c! "reglist"]
  | pushT3 => [c! "Rt"]
  | popT1 => [c! "P", c! "reglist"]
  | popT2 => [c! "P", c! "M", c! "reglist"]
  | popT3 => [c! "Rt"]
  | stmLdmT1 => [c! "Rn", c! "reglist"]
  | stmT2 => [c! "W", c! "Rn", c! "M", c! "reglist"]
  | ldmT2 => [c! "W", c! "Rn", c! "P", c! "M", c! "reglist"]
  | cps => [c! "im", c! "I", c! "F"]
  | bkpt => [c! "imm8"]
  | mrs => [c! "Rd", c! "SYSm"]
  | msr => [c! "Rn", c! "mask", c! "SYSm"]
  | nop => []
  | barrier => [c! "option"]
  | udfT1 => [c! "imm8"]
  | udfT2 => [c! "imm4", c! "imm12"]

/-- `RegisterOperand(r)`. -/
def rg (r : Nat) : Operand := .one (.reg r false)
/-- `ImmediateOperand(v)` of an integer. -/
def im (v : Int) : Operand := .one (.imm v false)

/-- `(SetFlags.Never, SetFlags.Always)[k]`. -/
def neverAlways (k : Nat) : PyRes SetFlags :=
  match k with
  | 0 => .ok .never
  | 1 => .ok .always
  | _ => .error .indexError

/-- `(0, 8, 16, 24)[k]`. -/
def rotations (k : Nat) : PyRes Nat :=
  match k with
  | 0 => .ok 0
  | 1 => .ok 8
  | 2 => .ok 16
  | 3 => .ok 24
  | _ => .error .indexError

/-- The names in `CONDITIONS`, `instructions.py` 532-549; other keys raise `KeyError`. -/
def condName (k : Nat) : PyRes Str :=
  match k with
  | 0 => .ok (c! "eq")
  | 1 => .ok (c! "ne")
  | 2 => .ok (c! "cs")
  | 3 => .ok (c! "cc")
  | 4 => .ok (c! "mi")
  | 5 => .ok (c! "pl")
  | 6 => .ok (c! "vs")
  | 7 => .ok (c! "vc")
  | 8 => .ok (c! "hi")
  | 9 => .ok (c! "ls")
  | 10 => .ok (c! "ge")
  | 11 => .ok (c! "lt")
  | 12 => .ok (c! "gt")
  | 13 => .ok (c! "le")
  | 14 => .ok []
  | 15 => .ok []
  | _ => .error .keyError

/-- `k in (13, 15)`. -/
def spOrPc (k : Nat) : Bool := k = 13 || k = 15

/-- The values of SYSm accepted by `mrs` and `msr`, `instructions.py` 973 and 984. -/
def sysmValues : List Nat := [0, 1, 2, 3, 5, 6, 7, 8, 9, 16, 17, 18, 19, 20]

/-- `raise e` if the condition holds. -/
def raiseIf (c : Bool) (e : PyErr) : PyRes Unit := if c then .error e else .ok ()

/-- `LabelOperand(i.imm32.signed)` after `i.imm32 = v`: reading `signed` may change the
object the instruction holds. -/
def labelSigned (v : BS) (i : Instr) : Instr :=
  let (s, v') := v.signed
  { i with imm32 := some v', operands := [.one (.label s)] }

/-- The operands `[RegisterOperand(i.t), MemoryAccessOperand(...)]`. -/
def memOps (t : Nat) (l : List Op1) : List Operand := [rg t, .mem l]

/-- The operands of the load and store multiple handlers. -/
def multiOps (n : Nat) (wback : Bool) (regs : BS) : List Operand := [.one (.reg n wback), .one (.reglist regs)]

/-- The bodies of the handlers. A wrong number of arguments cannot happen; it would be a
`TypeError`. The comments give the lines of `instructions.py`. -/
def run : Handler → List BS → Instr → PyRes Instr
  -- 115-121
  | adc, [Rm, Rdn], i =>
      .ok { i with d := some Rdn.unsigned, n := some Rdn.unsigned, m := some Rm.unsigned,
                   setflags := some .notInITBlock, operands := [rg Rdn.unsigned, rg Rm.unsigned] }
  -- 125-130
  | addImmT1, [imm3, Rn, Rd], i => do
      let imm ← imm3.zeroExtend 32
      .ok { i with d := some Rd.unsigned, n := some Rn.unsigned, setflags := some .notInITBlock,
                   imm32 := some imm, operands := [rg Rd.unsigned, rg Rn.unsigned, .one .immAttr] }
  -- 134-139
  | addImmT2, [Rdn, imm8], i => do
      let imm ← imm8.zeroExtend 32
      .ok { i with d := some Rdn.unsigned, n := some Rdn.unsigned, setflags := some .notInITBlock,
                   imm32 := some imm, operands := [rg Rdn.unsigned, .one .immAttr] }
  -- 143-148
  | addRegT1, [Rm, Rn, Rd], i =>
      .ok { i with d := some Rd.unsigned, n := some Rn.unsigned, m := some Rm.unsigned,
                   setflags := some .notInITBlock,
                   operands := [rg Rd.unsigned, rg Rn.unsigned, rg Rm.unsigned] }
  -- 151-155
  | addRegT2, [DN, Rm, Rdn], i =>
      let d := (DN.concat Rdn).unsigned
      .ok { i with d := some d, n := some d, m := some Rm.unsigned, operands := [rg d, rg Rm.unsigned] }
  -- 158-162
  | addSpPlusImmT1, [Rd, imm8], i => do
      let imm ← (← imm8.mod (.str (c! "00"))).zeroExtend 32
      .ok { i with d := some Rd.unsigned, n := some 13, imm32 := some imm,
                   operands := [rg Rd.unsigned, rg 13, im imm.unsigned] }
  -- 165-170
  | addSpPlusRegT1, [DM, Rdm], i =>
      let d := (DM.concat Rdm).unsigned
      .ok { i with d := some d, n := some 13, m := some d, setflags := some .never,
                   operands := [rg d, rg 13, rg d] }
  -- 173-180
  | addSpPlusRegT2, [Rm], i => do
      raiseIf (← Rm.isStr (c! "1101")) .decodeError
      .ok { i with d := some 13, n := some 13, m := some Rm.unsigned, setflags := some .never,
                   operands := [rg 13, rg Rm.unsigned] }
  -- 184-188
  | addSpPlusImmT2, [imm7], i => do
      let imm ← (← imm7.mod (.str (c! "00"))).zeroExtend 32
      .ok { i with d := some 13, n := some 13, imm32 := some imm, operands := [rg 13, im imm.unsigned] }
  -- 193-198
  | shiftImmT1, [stype, imm5, Rm, Rd], i => do
      let (_, sn) ← decodeImmShift stype imm5
      .ok { i with d := some Rd.unsigned, n := some Rm.unsigned, shiftN := some sn,
                   setflags := some .notInITBlock, operands := [rg Rd.unsigned, rg Rm.unsigned, im sn] }
  -- 210-215
  | rsb, [Rn, Rd], i => do
      let z ← zeros 32
      .ok { i with d := some Rd.unsigned, n := some Rn.unsigned, setflags := some .notInITBlock,
                   imm32 := some z, operands := [rg Rd.unsigned, rg Rn.unsigned, im z.unsigned] }
  -- 218-226
  | rsbW, [imb, S, Rn, imm3, Rd, imm8], i => do
      let d := Rd.unsigned
      let n := Rn.unsigned
      raiseIf (spOrPc d || spOrPc n) .unpredictable
      let s ← S.isStr (c! "1")
      let imm ← thumbExpandImm ((imb.concat imm3).concat imm8)
      .ok { i with d := some d, n := some n, setflags := some (if s then .always else .never),
                   mnemonic := i.mnemonic ++ (if s then c! "s.w" else c! ".w"),
                   imm32 := some imm, operands := [rg d, rg n, im imm.unsigned] }
  -- 240-245
  | mulT1, [Rn, Rdm], i =>
      .ok { i with d := some Rdm.unsigned, n := some Rn.unsigned, m := some Rdm.unsigned,
                   setflags := some .notInITBlock,
                   operands := [rg Rdm.unsigned, rg Rn.unsigned, rg Rdm.unsigned] }
  -- 248-255
  | mulT2, [Rn, Rd, Rm], i => do
      let d := Rd.unsigned
      let n := Rn.unsigned
      let m := Rm.unsigned
      raiseIf (spOrPc d || spOrPc n || spOrPc m) .unpredictable
      .ok { i with d := some d, n := some n, m := some m, setflags := some .never,
                   operands := [rg d, rg n, rg m] }
  -- 266-270
  | adrT1, [Rd, imm8], i => do
      let imm ← (← imm8.mod (.str (c! "00"))).zeroExtend 32
      .ok { i with d := some Rd.unsigned, imm32 := some imm, add := some true,
                   operands := [rg Rd.unsigned, .one (.label imm.unsigned)] }
  -- 274-277
  | adrT2, [imb, imm3, Rd, imm8], i => do
      let imm ← ((imb.concat imm3).concat imm8).zeroExtend 32
      .ok { i with d := some Rd.unsigned, imm32 := some imm,
                   operands := [rg Rd.unsigned, .one (.label imm.unsigned)] }
  -- 295-299
  | extend, [Rm, Rd], i =>
      .ok { i with m := some Rm.unsigned, d := some Rd.unsigned, rotation := some 0,
                   operands := [rg Rd.unsigned, rg Rm.unsigned] }
  -- 305-311
  | extend2, [Rm, rotate, Rd], i => do
      let r ← rotations rotate.unsigned
      .ok { i with m := some Rm.unsigned, d := some Rd.unsigned, rotation := some r,
                   operands := [rg Rd.unsigned, rg Rm.unsigned]
                     ++ (if r ≠ 0 then [.one (.shift .ror r)] else []) }
  -- 338-341
  | rev, [Rm, Rd], i =>
      .ok { i with m := some Rm.unsigned, d := some Rd.unsigned, operands := [rg Rd.unsigned, rg Rm.unsigned] }
  -- 346-351
  | revW, [Rm1, Rd, Rm2], i => do
      let (ne, _) ← Rm1.neOp (.bs Rm2)
      raiseIf ne .unpredictable
      .ok { i with m := some Rm1.unsigned, d := some Rd.unsigned, operands := [rg Rd.unsigned, rg Rm1.unsigned] }
  -- 374-378
  | mov0, [D, Rm, Rd], i =>
      let d := (D.concat Rd).unsigned
      .ok { i with m := some Rm.unsigned, d := some d, setflags := some .never, operands := [rg d, rg Rm.unsigned] }
  -- 381-385
  | mov0S, [Rm, Rd], i =>
      .ok { i with m := some Rm.unsigned, d := some Rd.unsigned, setflags := some .always,
                   operands := [rg Rd.unsigned, rg Rm.unsigned] }
  -- 388-393
  | movRegT3, [S, Rd, Rm], i => do
      let sf ← neverAlways S.unsigned
      .ok { i with mnemonic := i.mnemonic ++ (if S.nonzero then c! "s.w" else c! ".w"),
                   d := some Rd.unsigned, m := some Rm.unsigned, setflags := some sf,
                   operands := [rg Rd.unsigned, rg Rm.unsigned] }
  -- 396-400
  | mov1, [Rd, imm8], i => do
      let imm ← imm8.zeroExtend 32
      .ok { i with d := some Rd.unsigned, setflags := some .notInITBlock, imm32 := some imm,
                   operands := [rg Rd.unsigned, im imm.unsigned] }
  -- 404-409
  | mov2, [imb, S, imm3, Rd, imm8], i => do
      let sf ← neverAlways S.unsigned
      let (imm, c) ← thumbExpandImmC ((imb.concat imm3).concat imm8) bit0
      .ok { i with mnemonic := i.mnemonic ++ (if S.nonzero then c! "s.w" else c! ".w"),
                   d := some Rd.unsigned, setflags := some sf, imm32 := some imm, carry := some c,
                   operands := [rg Rd.unsigned, im imm.unsigned] }
  -- 413-417
  | movw, [imb, imm4, imm3, Rd, imm8], i => do
      let imm ← (((imm4.concat imb).concat imm3).concat imm8).zeroExtend 32
      .ok { i with d := some Rd.unsigned, setflags := some .never, imm32 := some imm,
                   operands := [rg Rd.unsigned, im imm.unsigned] }
  -- 421-425
  | mvn, [Rm, Rd], i =>
      .ok { i with d := some Rd.unsigned, m := some Rm.unsigned, setflags := some .notInITBlock,
                   operands := [rg Rd.unsigned, rg Rm.unsigned] }
  -- 437-443
  | mvnw, [S, imm3, Rd, imm2, type, Rm], i => do
      let sf ← neverAlways S.unsigned
      let (st, sn) ← decodeImmShift type (imm3.concat imm2)
      .ok { i with mnemonic := i.mnemonic ++ (if S.nonzero then c! "s.w" else c! ".w"),
                   d := some Rd.unsigned, m := some Rm.unsigned, setflags := some sf,
                   shiftT := some st, shiftN := some sn,
                   operands := [rg Rd.unsigned, rg Rm.unsigned, .one (.shift st sn)] }
  -- 470-473
  | cmp1, [Rn, imm8], i => do
      let imm ← imm8.zeroExtend 32
      .ok { i with n := some Rn.unsigned, imm32 := some imm, operands := [rg Rn.unsigned, im imm.unsigned] }
  -- 478-481: the second register is `Rn` again
  | cmp3, [_Rm, Rn], i =>
      .ok { i with n := some Rn.unsigned, m := some Rn.unsigned, operands := [rg Rn.unsigned, rg Rn.unsigned] }
  -- 485-488: the second register is the low part of the first
  | cmp4, [N, _Rm, Rn], i =>
      let n := (N.concat Rn).unsigned
      .ok { i with n := some n, m := some Rn.unsigned, operands := [rg n, rg Rn.unsigned] }
  -- 493-496
  | cmp2, [imb, Rn, imm3, imm8], i => do
      let imm ← thumbExpandImm ((imb.concat imm3).concat imm8)
      .ok { i with n := some Rn.unsigned, imm32 := some imm, operands := [rg Rn.unsigned, im imm.unsigned] }
  -- 510-515
  | tst, [Rm, Rn], i =>
      .ok { i with n := some Rn.unsigned, m := some Rm.unsigned, shiftT := some .none, shiftN := some 0,
                   operands := [rg Rn.unsigned, rg Rm.unsigned] }
  -- 518-526
  | tstW, [Rn, imm3, imm2, type, Rm], i => do
      let n := Rn.unsigned
      let m := Rm.unsigned
      let (st, sn) ← decodeImmShift type (imm3.concat imm2)
      raiseIf (spOrPc n || spOrPc m) .unpredictable
      .ok { i with n := some n, m := some m, shiftT := some st, shiftN := some sn,
                   operands := [rg n, rg m] ++ (if sn ≠ 0 then [.one (.shift st sn)] else []) }
  -- 577-581
  | bT1, [cond, imm8], i => do
      let name ← condName cond.unsigned
      let imm ← (← imm8.mod (.str (c! "0"))).signExtend 32
      .ok (labelSigned imm { i with cond := some cond.unsigned, mnemonic := 'b' :: name })
  -- 585-588
  | bT2, [imm11], i => do
      let imm ← (← imm11.mod (.str (c! "0"))).signExtend 32
      .ok (labelSigned imm i)
  -- 591-596
  | blT1, [S, imm10, J1, J2, imm11], i => do
      let i1 := (← J1.xor (.bs S)).invert
      let i2 := (← J2.xor (.bs S)).invert
      let v ← ((((S.concat i1).concat i2).concat imm10).concat imm11).mod (.str (c! "0"))
      let imm ← v.signExtend 32
      .ok (labelSigned imm { i with withLink := some true })
  -- 599-604
  | blxT1, [Rm], i =>
      .ok { i with m := some Rm.unsigned, withLink := some true, pcDelta := some (-2), operands := [rg Rm.unsigned] }
  -- 607-609
  | bxT1, [Rm], i => .ok { i with m := some Rm.unsigned, operands := [rg Rm.unsigned] }
  -- 660-669
  | ldrStrReg, [Rm, Rn, Rt], i =>
      .ok { i with t := some Rt.unsigned, n := some Rn.unsigned, m := some Rm.unsigned,
                   index := some true, add := some true, wback := some false,
                   shiftT := some .none, shiftN := some 0,
                   operands := memOps Rt.unsigned [.reg Rn.unsigned false, .reg Rm.unsigned false] }
  -- 679-691
  | ldrStrRegT2, [Rn, Rt, imm2, Rm], i => do
      raiseIf (Rn.unsigned = 15) .decodeError
      .ok { i with t := some Rt.unsigned, n := some Rn.unsigned, m := some Rm.unsigned,
                   index := some true, add := some true, wback := some false,
                   shiftT := some .lsl, shiftN := some imm2.unsigned,
                   operands := memOps Rt.unsigned
                     [.reg Rn.unsigned false, .reg Rm.unsigned false, .shift .lsl imm2.unsigned] }
  -- 699-711
  | ldrStrImm, [imm5, Rn, Rt], i => do
      let size ← attr i.memsize
      let v ← if size = 32 then imm5.imod (.str (c! "00")) else if size = 16 then imm5.imod (.str (c! "0")) else .ok imm5
      let imm ← v.zeroExtend 32
      .ok { i with t := some Rt.unsigned, n := some Rn.unsigned, imm32 := some imm,
                   index := some true, add := some true, wback := some false,
                   operands := memOps Rt.unsigned [.reg Rn.unsigned false, .imm imm.unsigned true] }
  -- 730-734
  | ldrLiteral, [Rt, imm8], i => do
      let imm ← (← imm8.mod (.str (c! "00"))).zeroExtend 32
      .ok { i with t := some Rt.unsigned, imm32 := some imm,
                   operands := memOps Rt.unsigned [.reg 15 false, .imm imm.unsigned false] }
  -- 741-749
  | ldrLiteralW, [U, Rt, imm12], i => do
      raiseIf (Rt.unsigned = 15) .decodeError
      let imm ← imm12.zeroExtend 32
      let a ← U.isStr (c! "1")
      .ok { i with t := some Rt.unsigned, imm32 := some imm, add := some a,
                   operands := memOps Rt.unsigned
                     [.reg 15 false, .imm (if a then (imm.unsigned : Int) else -(imm.unsigned : Int)) true] }
  -- 753-761
  | ldrStrImmT2, [Rt, imm8], i => do
      let imm ← (← imm8.mod (.str (c! "00"))).zeroExtend 32
      .ok { i with t := some Rt.unsigned, n := some 13, imm32 := some imm,
                   index := some true, add := some true, wback := some false,
                   operands := memOps Rt.unsigned [.reg 13 false, .imm imm.unsigned true] }
  -- 789-794
  | pushT1, [M, reglist], i => do
      let regs := (← (bit0.concat M).mod (.str (c! "000000"))).concat reglist
      raiseIf (regs.bitCount = 0) .unpredictable
      .ok { i with registers := some regs, unalignedAllowed := some false, operands := [.one (.reglist regs)] }
  -- 797-802: `reglsit` is not a name
  | pushT2, [_M, _reglist], _ => .error .nameError
  -- 805-811
  | pushT3, [Rt], i => do
      let regs ← (← zeros 16).setItem Rt.unsigned (.int 1)
      raiseIf (spOrPc Rt.unsigned) .unpredictable
      .ok { i with registers := some regs, unalignedAllowed := some true, operands := [.one (.reglist regs)] }
  -- 814-818
  | popT1, [P, reglist], i => do
      let regs := (← P.mod (.str (c! "0000000"))).concat reglist
      raiseIf (regs.bitCount = 0) .unpredictable
      .ok { i with registers := some regs, operands := [.one (.reglist regs)] }
  -- 821-825
  | popT2, [P, M, reglist], i => do
      let regs := (← (P.concat M).mod (.str (c! "0"))).concat reglist
      let p ← P.isStr (c! "1")
      let m ← M.isStr (c! "1")
      raiseIf (regs.bitCount < 2 || (p && m)) .unpredictable
      .ok { i with registers := some regs, operands := [.one (.reglist regs)] }
  -- 828-831
  | popT3, [Rt], i => do
      let regs ← (← zeros 16).setItem Rt.unsigned (.int 1)
      .ok { i with registers := some regs, operands := [.one (.reglist regs)] }
  -- 865-871
  | stmLdmT1, [Rn, reglist], i => do
      let n := Rn.unsigned
      let regs := zero8.concat reglist
      let z ← (← regs.getItem n).isStr (c! "0")
      let w := i.mnemonic = c! "stm" || z
      raiseIf (regs.bitCount < 1) .unpredictable
      .ok { i with n := some n, registers := some regs, wback := some w, operands := multiOps n w regs }
  -- 874-882
  | stmT2, [W, Rn, M, reglist], i => do
      let n := Rn.unsigned
      let regs := ((bit0.concat M).concat bit0).concat reglist
      let w ← W.isStr (c! "1")
      raiseIf (n = 15 || regs.bitCount < 2) .unpredictable
      let b ← (← regs.getItem n).isStr (c! "1")
      raiseIf (w && b) .unpredictable
      .ok { i with n := some n, registers := some regs, wback := some w, operands := multiOps n w regs }
  -- 885-895
  | ldmT2, [W, Rn, P, M, reglist], i => do
      let w ← W.isStr (c! "1")
      let sp ← Rn.isStr (c! "1101")
      raiseIf (w && sp) .decodeError
      let n := Rn.unsigned
      let regs := (← (P.concat M).mod (.str (c! "0"))).concat reglist
      let p ← P.isStr (c! "1")
      let m ← M.isStr (c! "1")
      raiseIf (n = 15 || regs.bitCount < 2 || (p && m)) .unpredictable
      let b ← (← regs.getItem n).isStr (c! "1")
      raiseIf (w && b) .unpredictable
      .ok { i with n := some n, registers := some regs, wback := some w, operands := multiOps n w regs }
  -- 915-922
  | cps, [imb, I, F], i => do
      let (i0, _) ← I.eqOp (.int 0)
      let (f0, _) ← F.eqOp (.int 0)
      raiseIf (truthy i0 && truthy f0) .unpredictable
      let en ← imb.isStr (c! "0")
      let pri ← I.isStr (c! "1")
      let fault ← F.isStr (c! "1")
      .ok { i with enable := some en, mnemonic := i.mnemonic ++ (if en then c! "ie" else c! "id"),
                   affectPri := some pri, affectFault := some fault, operands := [.one (.cps pri fault)] }
  -- 925-927
  | bkpt, [imm8], i => do
      let imm ← imm8.zeroExtend 32
      .ok { i with imm32 := some imm, operands := [im imm.unsigned] }
  -- 970-975
  | mrs, [Rd, SYSm], i => do
      raiseIf (spOrPc Rd.unsigned || !(sysmValues.contains SYSm.unsigned)) .unpredictable
      .ok { i with d := some Rd.unsigned, sysm := some SYSm,
                   operands := [rg Rd.unsigned, .one (.special SYSm none)] }
  -- 978-986
  | msr, [Rn, mask, SYSm], i => do
      let z ← mask.isStr (c! "00")
      let (ne, _) ← mask.neOp (.str (c! "10"))
      raiseIf (z || (ne && !(SYSm.unsigned < 4))) .unpredictable
      raiseIf (spOrPc Rn.unsigned || !(sysmValues.contains SYSm.unsigned)) .unpredictable
      .ok { i with n := some Rn.unsigned, sysm := some SYSm, mask := some mask,
                   operands := [.one (.special SYSm (some mask)), rg Rn.unsigned] }
  -- 995-996
  | nop, [], i => .ok i
  -- 1003-1004
  | barrier, [option], i => .ok { i with operands := [.one (.barrier option.unsigned)] }
  -- 1011-1013
  | udfT1, [imm8], i => do
      let imm ← imm8.zeroExtend 32
      .ok { i with imm32 := some imm, operands := [im imm.unsigned] }
  -- 1016-1018
  | udfT2, [imm4, imm12], i => do
      let imm ← (imm4.concat imm12).zeroExtend 32
      .ok { i with imm32 := some imm, operands := [im imm.unsigned] }
  | _, _, _ => .error .typeError

end Handler
end Verif
