import Verif.Instr
import Verif.Machine

/-!
# Execution: the `_eval` methods of `cmdis/decoder.py` and `cmdis/instructions.py`

`eval i` runs the instruction on the machine and returns the instruction object as
execution leaves it: `~self.imm32`, `imm32.signed` and the assignment to `setflags` in
`Move` change it. Simplification: when an exception is raised the changes to the
instruction object are not recorded; the methods that change it raise nothing afterwards.

The registers, the memory and the flags are read in the order Python evaluates them.
-/

namespace Verif
open BS

namespace Exec

/-- `cpu.pc += self.size`. -/
def advance (i : Instr) : CpuM Unit := do
  let p ← getPc
  let p' ← py (p.iadd (.int i.size))
  setPc (.bs p')

/-- The decision at `instructions.py` 42-47; `cpu.in_it_block` is always false
(`model.py` 136-138). -/
def wantsFlags : SetFlags → Bool
  | .always => true
  | .never => false
  | .notInITBlock => true

/-- Setting one flag if a value is given. -/
def setFlagOpt (bit : Int) : Option BS → CpuM Unit
  | some v => setFlag bit (.bs v)
  | none => pure ()

/-- `DataProcessing._set_flags`, `instructions.py` 41-55. -/
def setFlags (i : Instr) (result : BS) (carry overflow : Option BS) : CpuM Unit := do
  let sf ← py (attr i.setflags)
  if wantsFlags sf then do
    let n ← py (result.getItem 31)
    setFlag 31 (.bs n)
    setFlag 30 (.bs result.isZeroBit)
    setFlagOpt 29 carry
    setFlagOpt 28 overflow
  else pure ()

/-- `cpu.r[self.x]`. -/
def readReg (r : Option Nat) : CpuM BS := do
  let k ← py (attr r)
  getR k

/-- `cpu.r[self.x] = v`. -/
def writeReg (r : Option Nat) (v : BS) : CpuM Unit := do
  let k ← py (attr r)
  setR k (.bs v)

/-- `self.imm32 if hasattr(self, 'imm32') else cpu.r[self.m]`. -/
def immOrReg (i : Instr) : CpuM BS :=
  match i.imm32 with
  | some v => pure v
  | none => readReg i.m

/-- The instruction after the object `imm32` became `v`, if it has one. -/
def withImm (i : Instr) (v : BS) : Instr :=
  match i.imm32 with
  | some _ => { i with imm32 := some v }
  | none => i

/-- The carry in of `AddSub`, `instructions.py` 71 and 75. -/
def carryIn (useCarry sub : Bool) : CpuM BS :=
  if useCarry then getFlag 29 else pure (if sub then bit1 else bit0)

/-- `AddSub._eval`, `instructions.py` 66-78. -/
def addSub (i : Instr) : CpuM Instr := do
  let sub ← py (attr i.sub)
  let x ← readReg i.n
  let y ← immOrReg i
  let useCarry ← py (attr i.useCarry)
  let c ← carryIn useCarry sub
  let r ← py (addWithCarry x (if sub then y.invert else y) c)
  let i := withImm i r.y
  writeReg i.d r.result
  setFlags i r.result (some r.carry) (some r.overflow)
  advance i
  pure i

/-- `self.op(a, b)`. -/
def applyOp (f : BitFn) (a b : BS) : PyRes BS :=
  match f with
  | .and => a.and (.bs b)
  | .xor => a.xor (.bs b)
  | .or => a.or (.bs b)

/-- `BitOp._eval`, `instructions.py` 81-85. -/
def bitOp (i : Instr) : CpuM Instr := do
  let f ← py (attr i.op)
  let x ← readReg i.n
  let y ← readReg i.m
  let r ← py (applyOp f x y)
  writeReg i.d r
  setFlags i r none none
  advance i
  pure i

/-- `BitClear._eval`, `instructions.py` 88-92. -/
def bitClear (i : Instr) : CpuM Instr := do
  let x ← readReg i.n
  let y ← readReg i.m
  let r ← py (x.and (.bs y.invert))
  writeReg i.d r
  setFlags i r none none
  advance i
  pure i

/-- The amount of a shift, `instructions.py` 97-100. -/
def shiftAmount (i : Instr) : CpuM Nat :=
  match i.shiftN with
  | some k => pure k
  | none => do
    let m ← readReg i.m
    let lo ← py (m.slice 0 8)
    pure lo.unsigned

/-- `ShiftOp._eval`, `instructions.py` 95-103. -/
def shiftOp (i : Instr) : CpuM Instr := do
  let amount ← shiftAmount i
  let x ← readReg i.n
  let ty ← py (attr i.type)
  let c ← getFlag 29
  let (r, carry) ← py (shiftC x ty amount c)
  writeReg i.d r
  setFlags i r (some carry) none
  advance i
  pure i

/-- `ReverseSubtract._eval`, `instructions.py` 203-207. -/
def reverseSubtract (i : Instr) : CpuM Instr := do
  let x ← readReg i.n
  let y ← py (attr i.imm32)
  let r ← py (addWithCarry x.invert y bit1)
  let i := withImm i r.y
  writeReg i.d r.result
  setFlags i r.result (some r.carry) (some r.overflow)
  advance i
  pure i

/-- `Multiply._eval`, `instructions.py` 231-237. -/
def multiply (i : Instr) : CpuM Instr := do
  let x ← readReg i.n
  let y ← readReg i.m
  let r ← py (init (.int (x.signed.1 * y.signed.1)) (some 32))
  writeReg i.d r
  setFlags i r none none
  advance i
  pure i

/-- `AddressToRegister._eval`, `instructions.py` 260-263. -/
def addressToRegister (i : Instr) : CpuM Instr := do
  let add ← py (attr i.add)
  let p ← pcForInstr
  let base ← py (align p 4)
  let imm ← py (attr i.imm32)
  let r ← py (if add then base.add (.bs imm) else base.sub (.bs imm))
  writeReg i.d r
  advance i
  pure i

/-- `Extend._eval`, `instructions.py` 282-289. -/
def extend (i : Instr) : CpuM Instr := do
  let m ← readReg i.m
  let rot ← py (attr i.rotation)
  let full ← py (ror m rot)
  let w ← py (attr i.width)
  let low ← py (full.slice 0 w)
  let sgn ← py (attr i.signed)
  let r ← py (if sgn then low.signExtend 32 else low.zeroExtend 32)
  writeReg i.d r
  advance i
  pure i

/-- `result[a:b] = value`. -/
def put (r : BS) (a b : Int) (v : PyVal) : PyRes BS := r.setSlice ⟨some a, some b, none⟩ v

/-- The byte moves of `ByteReverse._eval`, `instructions.py` 319-331. -/
def reversedBytes (width : Nat) (sgn : Option Bool) (m : BS) : PyRes BS := do
  let z ← zeros 32
  if width = 4 then do
    let z ← put z 24 32 (.bs (← m.slice 0 8))
    let z ← put z 16 24 (.bs (← m.slice 8 16))
    let z ← put z 8 16 (.bs (← m.slice 16 24))
    put z 0 8 (.bs (← m.slice 24 32))
  else if width = 2 then do
    if ← attr sgn then do
      let z ← put z 8 32 (.bs (← (← m.slice 0 8).signExtend 24))
      put z 0 8 (.bs (← m.slice 8 16))
    else do
      let z ← put z 24 32 (.bs (← m.slice 16 24))
      let z ← put z 16 24 (.bs (← m.slice 24 32))
      let z ← put z 8 16 (.bs (← m.slice 0 8))
      put z 0 8 (.bs (← m.slice 8 16))
  else .ok z

/-- `ByteReverse._eval`, `instructions.py` 316-333. -/
def byteReverse (i : Instr) : CpuM Instr := do
  let m ← readReg i.m
  let w ← py (attr i.width)
  let r ← py (reversedBytes w i.signed m)
  writeReg i.d r
  advance i
  pure i

/-- The operand of `Move` and the object afterwards, `instructions.py` 361-366. -/
def moveOperand (i : Instr) : CpuM (BS × Instr) :=
  match i.m with
  | some k => do
    let v ← getR k
    pure (v, if k = 15 then { i with setflags := some .never } else i)
  | none => do
    let v ← py (attr i.imm32)
    pure (v, i)

/-- `Move._eval`, `instructions.py` 360-371. -/
def move (i : Instr) : CpuM Instr := do
  let (v, i) ← moveOperand i
  let neg ← py (attr i.negate)
  let r := if neg then v.invert else v
  let i := if neg ∧ i.m = none then withImm i r else i
  writeReg i.d r
  let c ← getFlag 29
  setFlags i r (some c) none
  advance i
  pure i

/-- `ShiftedMoveNegate._eval`, `instructions.py` 428-433: `i` is not a name in a method. -/
def shiftedMoveNegate (_ : Instr) : CpuM Instr := py (.error .nameError)

/-- The operand of `Compare`, `instructions.py` 453-456. -/
def cmpOperand (i : Instr) : CpuM BS :=
  match i.m with
  | some k => getR k
  | none => py (attr i.imm32)

/-- `Compare._eval`, `instructions.py` 452-467. -/
def compare (i : Instr) : CpuM Instr := do
  let v ← cmpOperand i
  let neg ← py (attr i.negate)
  let x ← readReg i.n
  let r ← py (addWithCarry x (if neg then v.invert else v) (if neg then bit1 else bit0))
  let i := if i.m = none then withImm i r.y else i
  let n ← py (r.result.getItem 31)
  setFlag 31 (.bs n)
  setFlag 30 (.bs r.result.isZeroBit)
  setFlag 29 (.bs r.carry)
  setFlag 28 (.bs r.overflow)
  advance i
  pure i

/-- `Test._eval`, `instructions.py` 501-507. -/
def test (i : Instr) : CpuM Instr := do
  let m ← readReg i.m
  let st ← py (attr i.shiftT)
  let sn ← py (attr i.shiftN)
  let c ← getFlag 29
  let (shifted, carry) ← py (shiftC m st sn c)
  let x ← readReg i.n
  let r ← py (x.and (.bs shifted))
  let n ← py (r.getItem 31)
  setFlag 31 (.bs n)
  setFlag 30 (.bs r.isZeroBit)
  setFlag 29 (.bs carry)
  advance i
  pure i

/-- `apsr.x == k`. -/
def flagIs (bit : Int) (k : Int) : CpuM Bool := do
  let f ← getFlag bit
  let (r, _) ← py (f.eqOp (.int k))
  pure (truthy r)

/-- `apsr.n == apsr.v`. -/
def flagsEqual : CpuM Bool := do
  let n ← getFlag 31
  let v ← getFlag 28
  let (r, _) ← py (n.eqOp (.bs v))
  pure (truthy r)

/-- `apsr.n != apsr.v`. -/
def flagsDiffer : CpuM Bool := do
  let n ← getFlag 31
  let v ← getFlag 28
  let (r, _) ← py (n.neOp (.bs v))
  pure r

/-- The expressions in `CONDITIONS`, `instructions.py` 532-549. -/
def condHolds (k : Nat) : CpuM Bool :=
  match k with
  | 0 => flagIs 30 1
  | 1 => flagIs 30 0
  | 2 => flagIs 29 1
  | 3 => flagIs 29 0
  | 4 => flagIs 31 1
  | 5 => flagIs 31 0
  | 6 => flagIs 28 1
  | 7 => flagIs 28 0
  | 8 => do if ← flagIs 29 1 then flagIs 30 0 else pure false
  | 9 => do if ← flagIs 29 0 then pure true else flagIs 30 1
  | 10 => flagsEqual
  | 11 => flagsDiffer
  | 12 => do if ← flagIs 30 0 then flagsEqual else pure false
  | 13 => do if ← flagIs 30 1 then pure true else flagsDiffer
  | _ => pure true

/-- `cpu.lr = next_instr | 1` if the branch has a link, `instructions.py` 562-563. -/
def linkIf (link : Bool) (next : BS) : CpuM Unit :=
  if link then do
    let l ← py (next.or (.int 1))
    setLr (.bs l)
  else pure ()

/-- The assignment of the target, `instructions.py` 565-572. -/
def jump (i : Instr) (next : BS) : CpuM Unit :=
  match i.m with
  | some k => do
    let v ← getR k
    let t ← py (v.copy.setItem 0 (.int 0))
    setPc (.bs t)
  | none => do
    let imm ← py (attr i.imm32)
    let t ← py (next.add (.bs imm))
    setPc (.bs t)

/-- `Branch._eval`, `instructions.py` 558-574. -/
def branch (i : Instr) : CpuM Instr := do
  let cond ← py (attr i.cond)
  if ← condHolds cond then do
    let p ← pcForInstr
    let delta ← py (attr i.pcDelta)
    let next ← py (p.add (.int delta))
    let link ← py (attr i.withLink)
    linkIf link next
    jump i next
    pure i
  else do
    advance i
    pure i

/-- The offset of a load or store, `instructions.py` 620-623 and 643-646. -/
def memOffset (i : Instr) : CpuM BS :=
  match i.imm32 with
  | some v => pure v
  | none => do
    let m ← readReg i.m
    let st ← py (attr i.shiftT)
    let sn ← py (attr i.shiftN)
    let c ← getFlag 29
    py (shift m st sn c)

/-- The base plus or minus the offset, `instructions.py` 624 and 647. -/
def offsetAddr (i : Instr) (off : BS) : CpuM BS := do
  let add ← py (attr i.add)
  let b ← readReg i.n
  py (if add then b.add (.bs off) else b.sub (.bs off))

/-- The address used, `instructions.py` 625 and 648. -/
def accessAddr (i : Instr) (oa : BS) : CpuM BS := do
  if ← py (attr i.index) then pure oa else readReg i.n

/-- The extension of loaded data, `instructions.py` 629-632 and 722-725. -/
def extendData (sgn : Bool) (data : BS) : PyRes BS := if sgn then data.signExtend 32 else data.zeroExtend 32

/-- A register write that depends on a condition, such as the write back. -/
def writeIf (b : Bool) (r : Option Nat) (v : BS) : CpuM Unit := if b then writeReg r v else pure ()

/-- `Load._eval`, `instructions.py` 619-634. -/
def load (i : Instr) : CpuM Instr := do
  let off ← memOffset i
  let oa ← offsetAddr i off
  let a ← accessAddr i oa
  let size ← py (attr i.memsize)
  let data ← readMemory (.bs a) size
  let wb ← py (attr i.wback)
  writeIf wb i.n oa
  let sgn ← py (attr i.signed)
  let v ← py (extendData sgn data)
  writeReg i.t v
  advance i
  pure i

/-- `Store._eval`, `instructions.py` 642-650. -/
def store (i : Instr) : CpuM Instr := do
  let off ← memOffset i
  let oa ← offsetAddr i off
  let a ← accessAddr i oa
  let t ← readReg i.t
  let size ← py (attr i.memsize)
  let v ← py (t.slice 0 size)
  writeMemory (.bs a) (.bs v) size
  advance i
  pure i

/-- `LoadLiteral._eval`, `instructions.py` 718-727. -/
def loadLiteral (i : Instr) : CpuM Instr := do
  let p ← pcForInstr
  let base ← py (align p 4)
  let add ← py (attr i.add)
  let imm ← py (attr i.imm32)
  let a ← py (if add then base.add (.bs imm) else base.sub (.bs imm))
  let size ← py (attr i.memsize)
  let data ← readMemory (.bs a) size
  let sgn ← py (attr i.signed)
  let v ← py (extendData sgn data)
  writeReg i.t v
  advance i
  pure i

/-- The loop of `Push` and `StoreMultiple`, `instructions.py` 769-772 and 852-858:
the registers still to visit, and the address reached. -/
def storeLoop (regs : BS) : List Nat → BS → CpuM BS
  | [], a => pure a
  | k :: ks, a => do
    let b ← py (regs.getItem k)
    if b.nonzero then do
      let v ← getR k
      writeMemory (.bs a) (.bs v) 32
      let a' ← py (a.iadd (.int 4))
      storeLoop regs ks a'
    else storeLoop regs ks a

/-- The loop of `Pop` and `LoadMultiple`, `instructions.py` 779-782 and 838-841. -/
def loadLoop (regs : BS) : List Nat → BS → CpuM BS
  | [], a => pure a
  | k :: ks, a => do
    let b ← py (regs.getItem k)
    if b.nonzero then do
      let v ← readMemory (.bs a) 32
      setR k (.bs v)
      let a' ← py (a.iadd (.int 4))
      loadLoop regs ks a'
    else loadLoop regs ks a

/-- `Push._eval`, `instructions.py` 766-773. -/
def push (i : Instr) : CpuM Instr := do
  let sp ← getSp
  let regs ← py (attr i.registers)
  let a ← py (sp.sub (.int (4 * regs.bitCount)))
  setSp (.bs a)
  let _ ← storeLoop regs (List.range 15) a
  advance i
  pure i

/-- The last lines of `Pop` and `LoadMultiple`, `instructions.py` 783-786 and 842-845. -/
def loadPc (i : Instr) (regs a : BS) : CpuM Unit := do
  let b ← py (regs.getItem 15)
  if b.nonzero then do
    let v ← readMemory (.bs a) 32
    setPc (.bs v)
  else advance i

/-- `Pop._eval`, `instructions.py` 776-786. -/
def pop (i : Instr) : CpuM Instr := do
  let a ← getSp
  let sp ← getSp
  let regs ← py (attr i.registers)
  let sp' ← py (sp.iadd (.int (4 * regs.bitCount)))
  setSp (.bs sp')
  let a' ← loadLoop regs (List.range 15) a
  loadPc i regs a'
  pure i

/-- The write back of `LoadMultiple`, `instructions.py` 846-847. -/
def ldmWriteBack (i : Instr) (regs : BS) (wb : Bool) : CpuM Unit :=
  if wb then do
    let n ← py (attr i.n)
    let b ← py (regs.getItem n)
    let out ← py (b.isStr (c! "0"))
    if out then do
      let v ← getR n
      let v' ← py (v.iadd (.int (4 * regs.bitCount)))
      setR n (.bs v')
    else pure ()
  else pure ()

/-- `LoadMultiple._eval`, `instructions.py` 836-847. -/
def loadMultiple (i : Instr) : CpuM Instr := do
  let a ← readReg i.n
  let regs ← py (attr i.registers)
  let a' ← loadLoop regs (List.range 15) a
  loadPc i regs a'
  let wb ← py (attr i.wback)
  ldmWriteBack i regs wb
  pure i

/-- `StoreMultiple._eval`, `instructions.py` 850-861. -/
def storeMultiple (i : Instr) : CpuM Instr := do
  let a ← readReg i.n
  let regs ← py (attr i.registers)
  let a' ← storeLoop regs (List.range 15) a
  let wb ← py (attr i.wback)
  writeIf wb i.n a'
  advance i
  pure i

/-- `cpu.write_register(CORE_REGISTER[name], v)`. -/
def writeCore (name : Str) (v : Int) : CpuM Unit :=
  match coreRegister.lookup name with
  | some k => writeRegister (.idx k) (.int v)
  | none => py (.error .keyError)

/-- `cpu.read_register(CORE_REGISTER[name])`. -/
def readCore (name : Str) : CpuM BS :=
  match coreRegister.lookup name with
  | some k => readRegister (.idx k)
  | none => py (.error .keyError)

/-- `write_register` if the mask is affected. -/
def writeCoreIf (b : Bool) (name : Str) (v : Int) : CpuM Unit := if b then writeCore name v else pure ()

/-- `ChangeProcessorState._eval`, `instructions.py` 900-912. -/
def changeProcessorState (i : Instr) : CpuM Instr := do
  let en ← py (attr i.enable)
  let v : Int := if en then 0 else 1
  let pri ← py (attr i.affectPri)
  writeCoreIf pri (c! "primask") v
  let fault ← py (attr i.affectFault)
  writeCoreIf fault (c! "faultmask") v
  advance i
  pure i

/-- `self.SYSm[a:b] == s`. -/
def fieldIs (b : BS) (i j : Int) (s : Str) : PyRes Bool := do (← b.slice i j).isStr s

/-- `self.SYSm[k] == s`. -/
def bitIs (b : BS) (k : Int) (s : Str) : PyRes Bool := do (← b.getItem k).isStr s

/-- The IPSR bits, `instructions.py` 935-936. -/
def mrsIpsr (r : BS) (wanted : Bool) : CpuM BS :=
  if wanted then do
    let ip ← getIpsr
    let lo ← py (ip.slice 0 9)
    py (put r 0 9 (.bs lo))
  else pure r

/-- The EPSR bits, `instructions.py` 937-939. -/
def mrsEpsr (r : BS) (wanted : Bool) : PyRes BS :=
  if wanted then do
    let r ← put r 24 27 (.str (c! "000"))
    put r 10 16 (.str (c! "000000"))
  else .ok r

/-- The xPSR branch of `MoveFromSpecial._eval`, `instructions.py` 934-943. `cpu.apsr` is
an object without `__getitem__`. -/
def mrsPsr (sysm r : BS) : CpuM BS := do
  let b0 ← py (bitIs sysm 0 (c! "1"))
  let r ← mrsIpsr r b0
  let b1 ← py (bitIs sysm 1 (c! "1"))
  let r ← py (mrsEpsr r b1)
  let b2 ← py (bitIs sysm 2 (c! "0"))
  if b2 then py (.error .typeError) else pure r

/-- The stack pointer branch, `instructions.py` 944-949. -/
def mrsSp (sysm r : BS) : CpuM BS := do
  let priv ← isPrivileged
  if priv then do
    let isMsp ← py (fieldIs sysm 0 3 (c! "000"))
    if isMsp then getMsp
    else do
      let isPsp ← py (fieldIs sysm 0 3 (c! "001"))
      if isPsp then getPsp else pure r
  else pure r

/-- `cpu.read_register(CORE_REGISTER[name])[0] if cpu.is_privileged else 0`, assigned to
`r[0]`. -/
def mrsBit (name : Str) (r : BS) : CpuM BS := do
  let priv ← isPrivileged
  if priv then do
    let v ← readCore name
    let b ← py (v.getItem 0)
    py (r.setItem 0 (.bs b))
  else py (r.setItem 0 (.int 0))

/-- `cpu.read_register(CORE_REGISTER['basepri'])[0:8] if cpu.is_privileged else 0`,
assigned to `r[0:8]`. -/
def mrsBasepri (r : BS) : CpuM BS := do
  let priv ← isPrivileged
  if priv then do
    let v ← readCore (c! "basepri")
    let b ← py (v.slice 0 8)
    py (put r 0 8 (.bs b))
  else py (put r 0 8 (.int 0))

/-- `cpu.control[0:2]`, assigned to `r[0:2]`; `has_fp_ext` is false. -/
def mrsControl (r : BS) : CpuM BS := do
  let v ← getControl
  let b ← py (v.slice 0 2)
  py (put r 0 2 (.bs b))

/-- `self.SYSm[0:3] in ('001', '010')`. -/
def isBasepri (sysm : BS) : PyRes Bool := do
  if ← fieldIs sysm 0 3 (c! "001") then .ok true else fieldIs sysm 0 3 (c! "010")

/-- The mask and CONTROL branch, `instructions.py` 950-961. -/
def mrsMask (sysm r : BS) : CpuM BS := do
  let b0 ← py (fieldIs sysm 0 3 (c! "000"))
  if b0 then mrsBit (c! "primask") r
  else do
    let b1 ← py (isBasepri sysm)
    if b1 then mrsBasepri r
    else do
      let b3 ← py (fieldIs sysm 0 3 (c! "011"))
      if b3 then mrsBit (c! "faultmask") r
      else do
        let b4 ← py (fieldIs sysm 0 3 (c! "100"))
        if b4 then mrsControl r else pure r

/-- The value `MoveFromSpecial` reads, `instructions.py` 933-961. -/
def mrsValue (sysm z : BS) : CpuM BS := do
  let g0 ← py (fieldIs sysm 3 8 (c! "00000"))
  if g0 then mrsPsr sysm z
  else do
    let g1 ← py (fieldIs sysm 3 8 (c! "00001"))
    if g1 then mrsSp sysm z
    else do
      let g2 ← py (fieldIs sysm 3 8 (c! "00010"))
      if g2 then mrsMask sysm z else pure z

/-- `MoveFromSpecial._eval`, `instructions.py` 932-963. -/
def moveFromSpecial (i : Instr) : CpuM Instr := do
  let z ← py (zeros 32)
  let sysm ← py (attr i.sysm)
  let r ← mrsValue sysm z
  writeReg i.d r
  advance i
  pure i

/-- `_eval` of the base class, `decoder.py` 56-57, and of `MoveToSpecial`,
`instructions.py` 966-967. -/
def plain (i : Instr) : CpuM Instr := do
  advance i
  pure i

end Exec

open Exec in
/-- `execute(cpu)`, `decoder.py` 59-60: the `_eval` method of the class. -/
def Instr.eval (i : Instr) : CpuM Instr :=
  match i.klass with
  | .instruction => plain i
  | .addSub => addSub i
  | .bitOp => bitOp i
  | .bitClear => bitClear i
  | .shiftOp => shiftOp i
  | .reverseSubtract => reverseSubtract i
  | .multiply => multiply i
  | .addressToRegister => addressToRegister i
  | .extend => extend i
  | .byteReverse => byteReverse i
  | .move => move i
  | .shiftedMoveNegate => shiftedMoveNegate i
  | .compare => compare i
  | .test => test i
  | .branch => branch i
  | .load => load i
  | .store => store i
  | .loadLiteral => loadLiteral i
  | .push => push i
  | .pop => pop i
  | .loadMultiple => loadMultiple i
  | .storeMultiple => storeMultiple i
  | .changeProcessorState => changeProcessorState i
  | .moveFromSpecial => moveFromSpecial i
  | .moveToSpecial => plain i

end Verif
