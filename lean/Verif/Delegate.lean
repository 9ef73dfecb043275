import Verif.Exec
import Verif.Program

/-!
# `cmdis/model.py` with any delegate

A `CpuModel` works on an object with the methods of `CpuModelDelegate` (`model.py` 293-310). `Machine` and
`Exec` model it with the delegate that the project ships; here it is modelled with any delegate whatever. The
definitions are those of `Machine` and `Exec`, with the calls of the delegate left open; that they are the
same for the shipped delegate is `C90.shipped`.

Simplification: `write_memory_block` and `read_memory_block` (`model.py` 269-275), which only the console
uses, are not part of the interface here. A delegate that returns an object which is no number, text, list
or `None` makes the constructor raise, as in `BS.init`.
-/

namespace Verif
open BS

/-- Code that uses a delegate with states `σ` and may raise. -/
def Run (σ α : Type) : Type := σ → PyRes α × σ

namespace Run

/-- Sequencing; an exception ends the computation and keeps the state. -/
def bind {σ α β : Type} (x : Run σ α) (f : α → Run σ β) : Run σ β := fun s =>
  match x s with
  | (.ok a, s') => f a s'
  | (.error e, s') => (.error e, s')

instance {σ : Type} : Monad (Run σ) where
  pure a := fun s => (.ok a, s)
  bind := bind

end Run

/-- The methods of a delegate, `model.py` 294-310, on objects with state `σ`. A register is the number of
`register_name_to_index`, or `None`; addresses and values are integers. -/
class Delegate (σ : Type) where
  readRegister : Option Int → Run σ PyVal
  writeRegister : Option Int → Int → Run σ Unit
  readMemory : Int → Nat → Run σ PyVal
  writeMemory : Int → Int → Nat → Run σ Unit

/-- The shipped delegate, `mock_cpu.py` 37-86. -/
instance : Delegate Machine where
  readRegister k := fun s => match delegateReadRegister k s with
    | (.ok v, s') => (.ok (.int v), s')
    | (.error e, s') => (.error e, s')
  writeRegister := delegateWriteRegister
  readMemory := delegateReadMemory
  writeMemory := delegateWriteMemory

/-- An object of the base class `CpuModelDelegate`, `model.py` 294-310, whose methods do nothing. -/
structure BaseDelegate where

instance : Delegate BaseDelegate where
  readRegister _ := pure .none
  writeRegister _ _ := pure ()
  readMemory _ _ := pure .none
  writeMemory _ _ _ := pure ()

namespace Any
open Exec

variable {σ : Type} [Delegate σ]

/-- A computation that does not touch the delegate. -/
def py {α : Type} (x : PyRes α) : Run σ α := fun s => (x, s)

/-- `CpuModel.read_register(reg)`, `model.py` 225-228. -/
def readRegister (reg : RegArg) : Run σ BS := do
  let v ← Delegate.readRegister (registerIndex reg)
  py (init v)

/-- `CpuModel.write_register(reg, value)`, `model.py` 230-235. -/
def writeRegister (reg : RegArg) (value : Num) : Run σ Unit :=
  Delegate.writeRegister (registerIndex reg) value.toInt

/-- `CpuModel.read_memory(addr, size)`, `model.py` 237-241. -/
def readMemory (addr : Num) (size : Nat := 32) : Run σ BS := do
  let v ← Delegate.readMemory addr.toInt size
  py (init v (some size))

/-- `CpuModel.write_memory(addr, value, size)`, `model.py` 243-249. -/
def writeMemory (addr value : Num) (size : Nat := 32) : Run σ Unit :=
  Delegate.writeMemory addr.toInt value.toInt size

/-- `RegistersInterface.__getitem__`, `model.py` 32-36: the first index is added twice. -/
def getIndexed (first last key : Int) : Run σ BS :=
  let index := first + key
  if first + index > last then py (.error .keyError)
  else readRegister (.idx (first + index))

/-- `RegistersInterface.__setitem__`, `model.py` 38-42. -/
def setIndexed (first last key : Int) (value : Num) : Run σ Unit :=
  let index := first + key
  if index > last then py (.error .keyError)
  else writeRegister (.idx index) value

/-- `cpu.r[key]`, `model.py` 110 and 217-219. -/
def getR (key : Int) : Run σ BS := getIndexed 0 15 key

/-- `cpu.r[key] = value`. -/
def setR (key : Int) (value : Num) : Run σ Unit := setIndexed 0 15 key value

/-- `cpu.s[key]`, `model.py` 111 and 221-223. -/
def getS (key : Int) : Run σ BS := getIndexed 0x40 0x5f key

/-- `cpu.s[key] = value`. -/
def setS (key : Int) (value : Num) : Run σ Unit := setIndexed 0x40 0x5f key value

/-- `cpu.pc`, `model.py` 148-150. -/
def getPc : Run σ BS := readRegister (.name (c! "pc"))

/-- `cpu.pc = value`, `model.py` 152-154. -/
def setPc (value : Num) : Run σ Unit := writeRegister (.name (c! "pc")) value

/-- `cpu.pc_for_instr`, `model.py` 157-159. -/
def pcForInstr : Run σ BS := do
  let p ← readRegister (.name (c! "pc"))
  py (p.add (.int 4))

/-- `cpu.lr = value`, `model.py` 165-167. -/
def setLr (value : Num) : Run σ Unit := writeRegister (.name (c! "lr")) value

/-- `cpu.sp`, `model.py` 169-171. -/
def getSp : Run σ BS := readRegister (.name (c! "sp"))

/-- `cpu.sp = value`, `model.py` 173-175. -/
def setSp (value : Num) : Run σ Unit := writeRegister (.name (c! "sp")) value

/-- `cpu.msp`, `model.py` 177-179. -/
def getMsp : Run σ BS := readRegister (.name (c! "msp"))

/-- `cpu.psp`, `model.py` 185-187. -/
def getPsp : Run σ BS := readRegister (.name (c! "psp"))

/-- `cpu.control`, `model.py` 193-195. -/
def getControl : Run σ BS := readRegister (.name (c! "control"))

/-- `cpu.is_privileged`, `model.py` 197-199. -/
def isPrivileged : Run σ Bool := do
  let c ← getControl
  let b ← py (c.getItem 0)
  py (b.isStr (c! "0"))

/-- `cpu.xpsr`, `model.py` 201-203. -/
def getXpsr : Run σ BS := readRegister (.name (c! "xpsr"))

/-- `cpu.xpsr = value`, `model.py` 205-207. -/
def setXpsr (value : Num) : Run σ Unit := writeRegister (.name (c! "xpsr")) value

/-- `cpu.ipsr`, `model.py` 213-215. -/
def getIpsr : Run σ BS := do
  let x ← getXpsr
  py (x.slice 0 6)

/-- A flag of `cpu.apsr`, `model.py` 44-91; the argument is `N_BIT` 31, `Z_BIT` 30,
`C_BIT` 29 or `V_BIT` 28. -/
def getFlag (bit : Int) : Run σ BS := do
  let x ← getXpsr
  py (x.getItem bit)

/-- The flag setters, `model.py` 57-61, 67-71, 77-81 and 87-91. -/
def setFlag (bit : Int) (value : PyVal) : Run σ Unit := do
  let x ← getXpsr
  let b ← py (init value (some 1))
  let x' ← py (x.setItem bit (.bs b))
  setXpsr (.bs x')

/-- `cpu.pc += self.size`. -/
def advance (i : Instr) : Run σ Unit := do
  let p ← getPc
  let p' ← py (p.iadd (.int i.size))
  setPc (.bs p')

/-- Setting one flag if a value is given. -/
def setFlagOpt (bit : Int) : Option BS → Run σ Unit
  | some v => setFlag bit (.bs v)
  | none => pure ()

/-- `DataProcessing._set_flags`, `instructions.py` 41-55. -/
def setFlags (i : Instr) (result : BS) (carry overflow : Option BS) : Run σ Unit := do
  let sf ← py (attr i.setflags)
  if wantsFlags sf then do
    let n ← py (result.getItem 31)
    setFlag 31 (.bs n)
    setFlag 30 (.bs result.isZeroBit)
    setFlagOpt 29 carry
    setFlagOpt 28 overflow
  else pure ()

/-- `cpu.r[self.x]`. -/
def readReg (r : Option Nat) : Run σ BS := do
  let k ← py (attr r)
  getR k

/-- `cpu.r[self.x] = v`. -/
def writeReg (r : Option Nat) (v : BS) : Run σ Unit := do
  let k ← py (attr r)
  setR k (.bs v)

/-- `self.imm32 if hasattr(self, 'imm32') else cpu.r[self.m]`. -/
def immOrReg (i : Instr) : Run σ BS :=
  match i.imm32 with
  | some v => pure v
  | none => readReg i.m

/-- The carry in of `AddSub`, `instructions.py` 71 and 75. -/
def carryIn (useCarry sub : Bool) : Run σ BS :=
  if useCarry then getFlag 29 else pure (if sub then bit1 else bit0)

/-- `AddSub._eval`, `instructions.py` 66-78. -/
def addSub (i : Instr) : Run σ Instr := do
  let sub ← py (attr i.sub)
  let x ← readReg i.n
  let y ← immOrReg i
  let useCarry ← py (attr i.useCarry)
  let c ← carryIn useCarry sub
  let r ← py (addWithCarry x (if sub then y.invert else y) c)
  let i := withImm i r.y
  writeReg i.d r.result
  setFlags i r.result (some r.carry) (some r.overflow)
  advance i
  pure i

/-- `BitOp._eval`, `instructions.py` 81-85. -/
def bitOp (i : Instr) : Run σ Instr := do
  let f ← py (attr i.op)
  let x ← readReg i.n
  let y ← readReg i.m
  let r ← py (applyOp f x y)
  writeReg i.d r
  setFlags i r none none
  advance i
  pure i

/-- `BitClear._eval`, `instructions.py` 88-92. -/
def bitClear (i : Instr) : Run σ Instr := do
  let x ← readReg i.n
  let y ← readReg i.m
  let r ← py (x.and (.bs y.invert))
  writeReg i.d r
  setFlags i r none none
  advance i
  pure i

/-- The amount of a shift, `instructions.py` 97-100. -/
def shiftAmount (i : Instr) : Run σ Nat :=
  match i.shiftN with
  | some k => pure k
  | none => do
    let m ← readReg i.m
    let lo ← py (m.slice 0 8)
    pure lo.unsigned

/-- `ShiftOp._eval`, `instructions.py` 95-103. -/
def shiftOp (i : Instr) : Run σ Instr := do
  let amount ← shiftAmount i
  let x ← readReg i.n
  let ty ← py (attr i.type)
  let c ← getFlag 29
  let (r, carry) ← py (shiftC x ty amount c)
  writeReg i.d r
  setFlags i r (some carry) none
  advance i
  pure i

/-- `ReverseSubtract._eval`, `instructions.py` 203-207. -/
def reverseSubtract (i : Instr) : Run σ Instr := do
  let x ← readReg i.n
  let y ← py (attr i.imm32)
  let r ← py (addWithCarry x.invert y bit1)
  let i := withImm i r.y
  writeReg i.d r.result
  setFlags i r.result (some r.carry) (some r.overflow)
  advance i
  pure i

/-- `Multiply._eval`, `instructions.py` 231-237. -/
def multiply (i : Instr) : Run σ Instr := do
  let x ← readReg i.n
  let y ← readReg i.m
  let r ← py (init (.int (x.signed.1 * y.signed.1)) (some 32))
  writeReg i.d r
  setFlags i r none none
  advance i
  pure i

/-- `AddressToRegister._eval`, `instructions.py` 260-263. -/
def addressToRegister (i : Instr) : Run σ Instr := do
  let add ← py (attr i.add)
  let p ← pcForInstr
  let base ← py (align p 4)
  let imm ← py (attr i.imm32)
  let r ← py (if add then base.add (.bs imm) else base.sub (.bs imm))
  writeReg i.d r
  advance i
  pure i

/-- `Extend._eval`, `instructions.py` 282-289. -/
def extend (i : Instr) : Run σ Instr := do
  let m ← readReg i.m
  let rot ← py (attr i.rotation)
  let full ← py (ror m rot)
  let w ← py (attr i.width)
  let low ← py (full.slice 0 w)
  let sgn ← py (attr i.signed)
  let r ← py (if sgn then low.signExtend 32 else low.zeroExtend 32)
  writeReg i.d r
  advance i
  pure i

/-- `ByteReverse._eval`, `instructions.py` 316-333. -/
def byteReverse (i : Instr) : Run σ Instr := do
  let m ← readReg i.m
  let w ← py (attr i.width)
  let r ← py (reversedBytes w i.signed m)
  writeReg i.d r
  advance i
  pure i

/-- The operand of `Move` and the object afterwards, `instructions.py` 361-366. -/
def moveOperand (i : Instr) : Run σ (BS × Instr) :=
  match i.m with
  | some k => do
    let v ← getR k
    pure (v, if k = 15 then { i with setflags := some .never } else i)
  | none => do
    let v ← py (attr i.imm32)
    pure (v, i)

/-- `Move._eval`, `instructions.py` 360-371. -/
def move (i : Instr) : Run σ Instr := do
  let (v, i) ← moveOperand i
  let neg ← py (attr i.negate)
  let r := if neg then v.invert else v
  let i := if neg ∧ i.m = none then withImm i r else i
  writeReg i.d r
  let c ← getFlag 29
  setFlags i r (some c) none
  advance i
  pure i

/-- `ShiftedMoveNegate._eval`, `instructions.py` 428-433: `i` is not a name in a method. -/
def shiftedMoveNegate (_ : Instr) : Run σ Instr := py (.error .nameError)

/-- The operand of `Compare`, `instructions.py` 453-456. -/
def cmpOperand (i : Instr) : Run σ BS :=
  match i.m with
  | some k => getR k
  | none => py (attr i.imm32)

/-- `Compare._eval`, `instructions.py` 452-467. -/
def compare (i : Instr) : Run σ Instr := do
  let v ← cmpOperand i
  let neg ← py (attr i.negate)
  let x ← readReg i.n
  let r ← py (addWithCarry x (if neg then v.invert else v) (if neg then bit1 else bit0))
  let i := if i.m = none then withImm i r.y else i
  let n ← py (r.result.getItem 31)
  setFlag 31 (.bs n)
  setFlag 30 (.bs r.result.isZeroBit)
  setFlag 29 (.bs r.carry)
  setFlag 28 (.bs r.overflow)
  advance i
  pure i

/-- `Test._eval`, `instructions.py` 501-507. -/
def test (i : Instr) : Run σ Instr := do
  let m ← readReg i.m
  let st ← py (attr i.shiftT)
  let sn ← py (attr i.shiftN)
  let c ← getFlag 29
  let (shifted, carry) ← py (shiftC m st sn c)
  let x ← readReg i.n
  let r ← py (x.and (.bs shifted))
  let n ← py (r.getItem 31)
  setFlag 31 (.bs n)
  setFlag 30 (.bs r.isZeroBit)
  setFlag 29 (.bs carry)
  advance i
  pure i

/-- `apsr.x == k`. -/
def flagIs (bit : Int) (k : Int) : Run σ Bool := do
  let f ← getFlag bit
  let (r, _) ← py (f.eqOp (.int k))
  pure (truthy r)

/-- `apsr.n == apsr.v`. -/
def flagsEqual : Run σ Bool := do
  let n ← getFlag 31
  let v ← getFlag 28
  let (r, _) ← py (n.eqOp (.bs v))
  pure (truthy r)

/-- `apsr.n != apsr.v`. -/
def flagsDiffer : Run σ Bool := do
  let n ← getFlag 31
  let v ← getFlag 28
  let (r, _) ← py (n.neOp (.bs v))
  pure r

/-- The expressions in `CONDITIONS`, `instructions.py` 532-549. -/
def condHolds (k : Nat) : Run σ Bool :=
  match k with
  | 0 => flagIs 30 1
  | 1 => flagIs 30 0
  | 2 => flagIs 29 1
  | 3 => flagIs 29 0
  | 4 => flagIs 31 1
  | 5 => flagIs 31 0
  | 6 => flagIs 28 1
  | 7 => flagIs 28 0
  | 8 => do if ← flagIs 29 1 then flagIs 30 0 else pure false
  | 9 => do if ← flagIs 29 0 then pure true else flagIs 30 1
  | 10 => flagsEqual
  | 11 => flagsDiffer
  | 12 => do if ← flagIs 30 0 then flagsEqual else pure false
  | 13 => do if ← flagIs 30 1 then pure true else flagsDiffer
  | _ => pure true

/-- `cpu.lr = next_instr | 1` if the branch has a link, `instructions.py` 562-563. -/
def linkIf (link : Bool) (next : BS) : Run σ Unit :=
  if link then do
    let l ← py (next.or (.int 1))
    setLr (.bs l)
  else pure ()

/-- The assignment of the target, `instructions.py` 565-572. -/
def jump (i : Instr) (next : BS) : Run σ Unit :=
  match i.m with
  | some k => do
    let v ← getR k
    let t ← py (v.copy.setItem 0 (.int 0))
    setPc (.bs t)
  | none => do
    let imm ← py (attr i.imm32)
    let t ← py (next.add (.bs imm))
    setPc (.bs t)

/-- `Branch._eval`, `instructions.py` 558-574. -/
def branch (i : Instr) : Run σ Instr := do
  let cond ← py (attr i.cond)
  if ← condHolds cond then do
    let p ← pcForInstr
    let delta ← py (attr i.pcDelta)
    let next ← py (p.add (.int delta))
    let link ← py (attr i.withLink)
    linkIf link next
    jump i next
    pure i
  else do
    advance i
    pure i

/-- The offset of a load or store, `instructions.py` 620-623 and 643-646. -/
def memOffset (i : Instr) : Run σ BS :=
  match i.imm32 with
  | some v => pure v
  | none => do
    let m ← readReg i.m
    let st ← py (attr i.shiftT)
    let sn ← py (attr i.shiftN)
    let c ← getFlag 29
    py (shift m st sn c)

/-- The base plus or minus the offset, `instructions.py` 624 and 647. -/
def offsetAddr (i : Instr) (off : BS) : Run σ BS := do
  let add ← py (attr i.add)
  let b ← readReg i.n
  py (if add then b.add (.bs off) else b.sub (.bs off))

/-- The address used, `instructions.py` 625 and 648. -/
def accessAddr (i : Instr) (oa : BS) : Run σ BS := do
  if ← py (attr i.index) then pure oa else readReg i.n

/-- A register write that depends on a condition, such as the write back. -/
def writeIf (b : Bool) (r : Option Nat) (v : BS) : Run σ Unit := if b then writeReg r v else pure ()

/-- `Load._eval`, `instructions.py` 619-634. -/
def load (i : Instr) : Run σ Instr := do
  let off ← memOffset i
  let oa ← offsetAddr i off
  let a ← accessAddr i oa
  let size ← py (attr i.memsize)
  let data ← readMemory (.bs a) size
  let wb ← py (attr i.wback)
  writeIf wb i.n oa
  let sgn ← py (attr i.signed)
  let v ← py (extendData sgn data)
  writeReg i.t v
  advance i
  pure i

/-- `Store._eval`, `instructions.py` 642-650. -/
def store (i : Instr) : Run σ Instr := do
  let off ← memOffset i
  let oa ← offsetAddr i off
  let a ← accessAddr i oa
  let t ← readReg i.t
  let size ← py (attr i.memsize)
  let v ← py (t.slice 0 size)
  writeMemory (.bs a) (.bs v) size
  advance i
  pure i

/-- `LoadLiteral._eval`, `instructions.py` 718-727. -/
def loadLiteral (i : Instr) : Run σ Instr := do
  let p ← pcForInstr
  let base ← py (align p 4)
  let add ← py (attr i.add)
  let imm ← py (attr i.imm32)
  let a ← py (if add then base.add (.bs imm) else base.sub (.bs imm))
  let size ← py (attr i.memsize)
  let data ← readMemory (.bs a) size
  let sgn ← py (attr i.signed)
  let v ← py (extendData sgn data)
  writeReg i.t v
  advance i
  pure i

/-- The loop of `Push` and `StoreMultiple`, `instructions.py` 769-772 and 852-858:
the registers still to visit, and the address reached. -/
def storeLoop (regs : BS) : List Nat → BS → Run σ BS
  | [], a => pure a
  | k :: ks, a => do
    let b ← py (regs.getItem k)
    if b.nonzero then do
      let v ← getR k
      writeMemory (.bs a) (.bs v) 32
      let a' ← py (a.iadd (.int 4))
      storeLoop regs ks a'
    else storeLoop regs ks a

/-- The loop of `Pop` and `LoadMultiple`, `instructions.py` 779-782 and 838-841. -/
def loadLoop (regs : BS) : List Nat → BS → Run σ BS
  | [], a => pure a
  | k :: ks, a => do
    let b ← py (regs.getItem k)
    if b.nonzero then do
      let v ← readMemory (.bs a) 32
      setR k (.bs v)
      let a' ← py (a.iadd (.int 4))
      loadLoop regs ks a'
    else loadLoop regs ks a

/-- `Push._eval`, `instructions.py` 766-773. -/
def push (i : Instr) : Run σ Instr := do
  let sp ← getSp
  let regs ← py (attr i.registers)
  let a ← py (sp.sub (.int (4 * regs.bitCount)))
  setSp (.bs a)
  let _ ← storeLoop regs (List.range 15) a
  advance i
  pure i

/-- The last lines of `Pop` and `LoadMultiple`, `instructions.py` 783-786 and 842-845. -/
def loadPc (i : Instr) (regs a : BS) : Run σ Unit := do
  let b ← py (regs.getItem 15)
  if b.nonzero then do
    let v ← readMemory (.bs a) 32
    setPc (.bs v)
  else advance i

/-- `Pop._eval`, `instructions.py` 776-786. -/
def pop (i : Instr) : Run σ Instr := do
  let a ← getSp
  let sp ← getSp
  let regs ← py (attr i.registers)
  let sp' ← py (sp.iadd (.int (4 * regs.bitCount)))
  setSp (.bs sp')
  let a' ← loadLoop regs (List.range 15) a
  loadPc i regs a'
  pure i

/-- The write back of `LoadMultiple`, `instructions.py` 846-847. -/
def ldmWriteBack (i : Instr) (regs : BS) (wb : Bool) : Run σ Unit :=
  if wb then do
    let n ← py (attr i.n)
    let b ← py (regs.getItem n)
    let out ← py (b.isStr (c! "0"))
    if out then do
      let v ← getR n
      let v' ← py (v.iadd (.int (4 * regs.bitCount)))
      setR n (.bs v')
    else pure ()
  else pure ()

/-- `LoadMultiple._eval`, `instructions.py` 836-847. -/
def loadMultiple (i : Instr) : Run σ Instr := do
  let a ← readReg i.n
  let regs ← py (attr i.registers)
  let a' ← loadLoop regs (List.range 15) a
  loadPc i regs a'
  let wb ← py (attr i.wback)
  ldmWriteBack i regs wb
  pure i

/-- `StoreMultiple._eval`, `instructions.py` 850-861. -/
def storeMultiple (i : Instr) : Run σ Instr := do
  let a ← readReg i.n
  let regs ← py (attr i.registers)
  let a' ← storeLoop regs (List.range 15) a
  let wb ← py (attr i.wback)
  writeIf wb i.n a'
  advance i
  pure i

/-- `cpu.write_register(CORE_REGISTER[name], v)`. -/
def writeCore (name : Str) (v : Int) : Run σ Unit :=
  match coreRegister.lookup name with
  | some k => writeRegister (.idx k) (.int v)
  | none => py (.error .keyError)

/-- `cpu.read_register(CORE_REGISTER[name])`. -/
def readCore (name : Str) : Run σ BS :=
  match coreRegister.lookup name with
  | some k => readRegister (.idx k)
  | none => py (.error .keyError)

/-- `write_register` if the mask is affected. -/
def writeCoreIf (b : Bool) (name : Str) (v : Int) : Run σ Unit := if b then writeCore name v else pure ()

/-- `ChangeProcessorState._eval`, `instructions.py` 900-912. -/
def changeProcessorState (i : Instr) : Run σ Instr := do
  let en ← py (attr i.enable)
  let v : Int := if en then 0 else 1
  let pri ← py (attr i.affectPri)
  writeCoreIf pri (c! "primask") v
  let fault ← py (attr i.affectFault)
  writeCoreIf fault (c! "faultmask") v
  advance i
  pure i

/-- The IPSR bits, `instructions.py` 935-936. -/
def mrsIpsr (r : BS) (wanted : Bool) : Run σ BS :=
  if wanted then do
    let ip ← getIpsr
    let lo ← py (ip.slice 0 9)
    py (put r 0 9 (.bs lo))
  else pure r

/-- The xPSR branch of `MoveFromSpecial._eval`, `instructions.py` 934-943. `cpu.apsr` is
an object without `__getitem__`. -/
def mrsPsr (sysm r : BS) : Run σ BS := do
  let b0 ← py (bitIs sysm 0 (c! "1"))
  let r ← mrsIpsr r b0
  let b1 ← py (bitIs sysm 1 (c! "1"))
  let r ← py (mrsEpsr r b1)
  let b2 ← py (bitIs sysm 2 (c! "0"))
  if b2 then py (.error .typeError) else pure r

/-- The stack pointer branch, `instructions.py` 944-949. -/
def mrsSp (sysm r : BS) : Run σ BS := do
  let priv ← isPrivileged
  if priv then do
    let isMsp ← py (fieldIs sysm 0 3 (c! "000"))
    if isMsp then getMsp
    else do
      let isPsp ← py (fieldIs sysm 0 3 (c! "001"))
      if isPsp then getPsp else pure r
  else pure r

/-- `cpu.read_register(CORE_REGISTER[name])[0] if cpu.is_privileged else 0`, assigned to
`r[0]`. -/
def mrsBit (name : Str) (r : BS) : Run σ BS := do
  let priv ← isPrivileged
  if priv then do
    let v ← readCore name
    let b ← py (v.getItem 0)
    py (r.setItem 0 (.bs b))
  else py (r.setItem 0 (.int 0))

/-- `cpu.read_register(CORE_REGISTER['basepri'])[0:8] if cpu.is_privileged else 0`,
assigned to `r[0:8]`. -/
def mrsBasepri (r : BS) : Run σ BS := do
  let priv ← isPrivileged
  if priv then do
    let v ← readCore (c! "basepri")
    let b ← py (v.slice 0 8)
    py (put r 0 8 (.bs b))
  else py (put r 0 8 (.int 0))

/-- `cpu.control[0:2]`, assigned to `r[0:2]`; `has_fp_ext` is false. -/
def mrsControl (r : BS) : Run σ BS := do
  let v ← getControl
  let b ← py (v.slice 0 2)
  py (put r 0 2 (.bs b))

/-- The mask and CONTROL branch, `instructions.py` 950-961. -/
def mrsMask (sysm r : BS) : Run σ BS := do
  let b0 ← py (fieldIs sysm 0 3 (c! "000"))
  if b0 then mrsBit (c! "primask") r
  else do
    let b1 ← py (isBasepri sysm)
    if b1 then mrsBasepri r
    else do
      let b3 ← py (fieldIs sysm 0 3 (c! "011"))
      if b3 then mrsBit (c! "faultmask") r
      else do
        let b4 ← py (fieldIs sysm 0 3 (c! "100"))
        if b4 then mrsControl r else pure r

/-- The value `MoveFromSpecial` reads, `instructions.py` 933-961. -/
def mrsValue (sysm z : BS) : Run σ BS := do
  let g0 ← py (fieldIs sysm 3 8 (c! "00000"))
  if g0 then mrsPsr sysm z
  else do
    let g1 ← py (fieldIs sysm 3 8 (c! "00001"))
    if g1 then mrsSp sysm z
    else do
      let g2 ← py (fieldIs sysm 3 8 (c! "00010"))
      if g2 then mrsMask sysm z else pure z

/-- `MoveFromSpecial._eval`, `instructions.py` 932-963. -/
def moveFromSpecial (i : Instr) : Run σ Instr := do
  let z ← py (zeros 32)
  let sysm ← py (attr i.sysm)
  let r ← mrsValue sysm z
  writeReg i.d r
  advance i
  pure i

/-- `_eval` of the base class, `decoder.py` 56-57, and of `MoveToSpecial`,
`instructions.py` 966-967. -/
def plain (i : Instr) : Run σ Instr := do
  advance i
  pure i

/-- `execute(cpu)`, `decoder.py` 59-60: the `_eval` method of the class. -/
def eval (i : Instr) : Run σ Instr :=
  match i.klass with
  | .instruction => plain i
  | .addSub => addSub i
  | .bitOp => bitOp i
  | .bitClear => bitClear i
  | .shiftOp => shiftOp i
  | .reverseSubtract => reverseSubtract i
  | .multiply => multiply i
  | .addressToRegister => addressToRegister i
  | .extend => extend i
  | .byteReverse => byteReverse i
  | .move => move i
  | .shiftedMoveNegate => shiftedMoveNegate i
  | .compare => compare i
  | .test => test i
  | .branch => branch i
  | .load => load i
  | .store => store i
  | .loadLiteral => loadLiteral i
  | .push => push i
  | .pop => pop i
  | .loadMultiple => loadMultiple i
  | .storeMultiple => storeMultiple i
  | .changeProcessorState => changeProcessorState i
  | .moveFromSpecial => moveFromSpecial i
  | .moveToSpecial => plain i

/-- `CpuModel.execute(instructions)`, `model.py` 131-133. -/
def executeAll : List Instr → Run σ Unit
  | [] => pure ()
  | i :: rest => do
    let _ ← eval i
    executeAll rest

end Any
end Verif
