import Verif.Bitstring
import Verif.Utilities
import Verif.Registers

/-!
# `cmdis/mock_cpu.py` and `cmdis/model.py`

A `Machine` is a `CpuModel` whose delegate is a `MockCpuModelDelegate`, the only
delegate the project ships; `Delegate` has the same for any delegate. Not modelled: a `CpuModel` without delegate, the unused
`mode` property. `dump` and `__repr__` are in `Dump`.

Operations that read or change the machine live in `CpuM`. An exception keeps the
changes made before it, as in Python.
-/

namespace Verif
open BS

/-- `MemBuffer`, `mock_cpu.py` 23; `stop` is the field `end`, the last address. -/
structure Region where
  start : Int
  stop : Int
  data : List Nat
deriving DecidableEq, Repr

/-- The state of a `MockCpuModelDelegate`, `mock_cpu.py` 25-31. `_regs` is a
dictionary whose keys are register indices or `None` (the key `none`), which a write
to an unknown register name creates. -/
structure Machine where
  regs : Option Int → Option Int
  mem : List Region

/-- Code that uses the machine and may raise. -/
def CpuM (α : Type) : Type := Machine → PyRes α × Machine

namespace CpuM

/-- Sequencing; an exception ends the computation and keeps the state. -/
def bind {α β : Type} (x : CpuM α) (f : α → CpuM β) : CpuM β := fun s =>
  match x s with
  | (.ok a, s') => f a s'
  | (.error e, s') => (.error e, s')

instance : Monad CpuM where
  pure a := fun s => (.ok a, s)
  bind := bind

end CpuM

/-- A computation that does not touch the machine. -/
def py {α : Type} (x : PyRes α) : CpuM α := fun s => (x, s)

/-- A number as passed to the register and memory API: a bitstring or an integer. -/
inductive Num where
  | bs (b : BS)
  | int (v : Int)
deriving DecidableEq, Repr

/-- `value.unsigned` if the value is a bitstring, `model.py` 232-233, 238-239 and 244-247. -/
def Num.toInt : Num → Int
  | .bs b => b.unsigned
  | .int v => v

/-- A new delegate, `mock_cpu.py` 26-31. -/
def Machine.new : Machine where
  regs k := match k with
    | none => none
    | some i => if i = 16 then some 0x01000000 else if i ∈ coreIndices then some 0 else none
  mem := []

/-- `add_memory(start, length)`, `mock_cpu.py` 33-35; `bytearray` refuses a negative length. -/
def addMemory (start length : Int) : CpuM Unit := fun s =>
  if length < 0 then (.error .valueError, s)
  else (.ok (), { s with mem := s.mem ++ [⟨start, start + length - 1, List.replicate length.toNat 0⟩] })

/-- The `_regs[k] = v` of a dictionary. -/
def setKey (k : Option Int) (v : Int) (s : Machine) : Machine :=
  { s with regs := fun j => if j = k then some v else s.regs j }

/-- `MockCpuModelDelegate.read_register(reg)`, `mock_cpu.py` 37-38. -/
def delegateReadRegister (reg : Option Int) : CpuM Int := fun s =>
  match s.regs reg with
  | some v => (.ok v, s)
  | none => (.error .keyError, s)

/-- The masking of a written value, `mock_cpu.py` 42-47. -/
def maskReg (reg : Option Int) (value : Int) : Int :=
  if reg = some (-3) ∨ reg = some (-1) then pyAnd value 1
  else if reg = some (-2) then pyAnd value 0xff
  else if reg = some 13 ∨ reg = some 17 ∨ reg = some 18 then pyAnd value (pyNot 3)
  else value

/-- `spsel`, `mock_cpu.py` 51: computed from the *index* of CONTROL, -4, not from its value. -/
def spsel : Int := pyAnd (-4) 2 / 2

/-- `MockCpuModelDelegate.write_register(reg, value)`, `mock_cpu.py` 40-59. -/
def delegateWriteRegister (reg : Option Int) (value : Int) : CpuM Unit := fun s =>
  let v := maskReg reg value
  let s1 := setKey reg v s
  if reg = some 13 then
    if spsel ≠ 0 then (.ok (), setKey (some 18) v s1) else (.ok (), setKey (some 17) v s1)
  else if (reg = some 17 ∧ spsel = 0) ∨ (reg = some 18 ∧ spsel = 1) then
    (.ok (), setKey (some 13) v s1)
  else (.ok (), s1)

/-- `m.start <= addr <= m.end`, `mock_cpu.py` 63. -/
def Region.has (m : Region) (addr : Int) : Bool := m.start ≤ addr && addr ≤ m.stop

/-- `_find_mem(addr)`, `mock_cpu.py` 61-65: the first region that contains the address,
and the offset in it. -/
def findMem (mem : List Region) (addr : Int) : Option (Region × Nat) :=
  (mem.find? (·.has addr)).map fun m => (m, (addr - m.start).toNat)

/-- `data[i:i+n]` of a byte array, for `i >= 0`. -/
def getBytes (data : List Nat) (i n : Nat) : List Nat := (data.drop i).take n

/-- `data[i:i+n] = new` for `i >= 0`. A slice that reaches past the end is replaced as a
whole, so that the array grows. -/
def putBytes (data : List Nat) (i n : Nat) (new : List Nat) : List Nat :=
  data.take i ++ new ++ data.drop (i + n)

/-- The memory after `data[offset:offset+n] = new` in the region found for `addr`. -/
def updMem (addr : Int) (n : Nat) (new : List Nat) : List Region → List Region
  | [] => []
  | m :: t =>
    if m.has addr then { m with data := putBytes m.data (addr - m.start).toNat n new } :: t
    else m :: updMem addr n new t

/-- An integer result as a Python value. -/
def intResult : PyRes Nat → PyRes PyVal
  | .ok v => .ok (.int v)
  | .error e => .error e

/-- `MockCpuModelDelegate.read_memory(addr, size)`, `mock_cpu.py` 67-76: one byte comes
back as a byte array, halfwords and words as integers. Slices near the end of a region
are short and make `bytes_to_le16/32` raise `IndexError`. -/
def delegateReadMemory (addr : Int) (size : Nat) : CpuM PyVal := fun s =>
  match findMem s.mem addr with
  | none => (.ok (.int 0), s)
  | some (m, off) =>
    if size = 8 then (.ok (.bytes (getBytes m.data off 1)), s)
    else if size = 16 then (intResult (bytesToLe16 (getBytes m.data off 2)), s)
    else if size = 32 then (intResult (bytesToLe32 (getBytes m.data off 4)), s)
    else (.ok (.int 0), s)

/-- `MockCpuModelDelegate.write_memory(addr, value, size)`, `mock_cpu.py` 78-86. A byte
array refuses elements outside 0..255. -/
def delegateWriteMemory (addr value : Int) (size : Nat) : CpuM Unit := fun s =>
  match findMem s.mem addr with
  | none => (.ok (), s)
  | some _ =>
    if size = 8 then
      if 0 ≤ value ∧ value < 256 then (.ok (), { s with mem := updMem addr 1 [value.toNat] s.mem })
      else (.error .valueError, s)
    else if size = 16 then (.ok (), { s with mem := updMem addr 2 (le16ToBytes value) s.mem })
    else if size = 32 then (.ok (), { s with mem := updMem addr 4 (le32ToBytes value) s.mem })
    else (.ok (), s)

/-- `write_memory_block(addr, data)`, `mock_cpu.py` 88-91 and `model.py` 269-271, for
bytes `data`. -/
def writeMemoryBlock (addr : Int) (data : List Nat) : CpuM Unit := fun s =>
  match findMem s.mem addr with
  | none => (.ok (), s)
  | some _ => (.ok (), { s with mem := updMem addr data.length data s.mem })

/-- `read_memory_block(addr, length)`, `mock_cpu.py` 93-96 and `model.py` 273-275, for a
non-negative length; `None` if the address is not mapped. -/
def readMemoryBlock (addr : Int) (length : Nat) : CpuM (Option (List Nat)) := fun s =>
  match findMem s.mem addr with
  | none => (.ok none, s)
  | some (m, off) => (.ok (some (getBytes m.data off length)), s)

/-- `CpuModel.read_register(reg)`, `model.py` 225-228. -/
def readRegister (reg : RegArg) : CpuM BS := do
  let v ← delegateReadRegister (registerIndex reg)
  py (init (.int v))

/-- `CpuModel.write_register(reg, value)`, `model.py` 230-235. -/
def writeRegister (reg : RegArg) (value : Num) : CpuM Unit :=
  delegateWriteRegister (registerIndex reg) value.toInt

/-- `CpuModel.read_memory(addr, size)`, `model.py` 237-241. -/
def readMemory (addr : Num) (size : Nat := 32) : CpuM BS := do
  let v ← delegateReadMemory addr.toInt size
  py (init v (some size))

/-- `CpuModel.write_memory(addr, value, size)`, `model.py` 243-249. -/
def writeMemory (addr value : Num) (size : Nat := 32) : CpuM Unit :=
  delegateWriteMemory addr.toInt value.toInt size

/-- `RegistersInterface.__getitem__`, `model.py` 32-36: the first index is added twice. -/
def getIndexed (first last key : Int) : CpuM BS :=
  let index := first + key
  if first + index > last then py (.error .keyError)
  else readRegister (.idx (first + index))

/-- `RegistersInterface.__setitem__`, `model.py` 38-42. -/
def setIndexed (first last key : Int) (value : Num) : CpuM Unit :=
  let index := first + key
  if index > last then py (.error .keyError)
  else writeRegister (.idx index) value

/-- `cpu.r[key]`, `model.py` 110 and 217-219. -/
def getR (key : Int) : CpuM BS := getIndexed 0 15 key
/-- `cpu.r[key] = value`. -/
def setR (key : Int) (value : Num) : CpuM Unit := setIndexed 0 15 key value
/-- `cpu.s[key]`, `model.py` 111 and 221-223. -/
def getS (key : Int) : CpuM BS := getIndexed 0x40 0x5f key
/-- `cpu.s[key] = value`. -/
def setS (key : Int) (value : Num) : CpuM Unit := setIndexed 0x40 0x5f key value

/-- `cpu.pc`, `model.py` 148-150. -/
def getPc : CpuM BS := readRegister (.name (c! "pc"))
/-- `cpu.pc = value`, `model.py` 152-154. -/
def setPc (value : Num) : CpuM Unit := writeRegister (.name (c! "pc")) value
/-- `cpu.pc_for_instr`, `model.py` 157-159. -/
def pcForInstr : CpuM BS := do
  let p ← readRegister (.name (c! "pc"))
  py (p.add (.int 4))
/-- `cpu.lr = value`, `model.py` 165-167. -/
def setLr (value : Num) : CpuM Unit := writeRegister (.name (c! "lr")) value
/-- `cpu.sp`, `model.py` 169-171. -/
def getSp : CpuM BS := readRegister (.name (c! "sp"))
/-- `cpu.sp = value`, `model.py` 173-175. -/
def setSp (value : Num) : CpuM Unit := writeRegister (.name (c! "sp")) value
/-- `cpu.msp`, `model.py` 177-179. -/
def getMsp : CpuM BS := readRegister (.name (c! "msp"))
/-- `cpu.psp`, `model.py` 185-187. -/
def getPsp : CpuM BS := readRegister (.name (c! "psp"))
/-- `cpu.control`, `model.py` 193-195. -/
def getControl : CpuM BS := readRegister (.name (c! "control"))
/-- `cpu.is_privileged`, `model.py` 197-199. -/
def isPrivileged : CpuM Bool := do
  let c ← getControl
  let b ← py (c.getItem 0)
  py (b.isStr (c! "0"))
/-- `cpu.xpsr`, `model.py` 201-203. -/
def getXpsr : CpuM BS := readRegister (.name (c! "xpsr"))
/-- `cpu.xpsr = value`, `model.py` 205-207. -/
def setXpsr (value : Num) : CpuM Unit := writeRegister (.name (c! "xpsr")) value
/-- `cpu.ipsr`, `model.py` 213-215. -/
def getIpsr : CpuM BS := do
  let x ← getXpsr
  py (x.slice 0 6)

/-- A flag of `cpu.apsr`, `model.py` 44-91; the argument is `N_BIT` 31, `Z_BIT` 30,
`C_BIT` 29 or `V_BIT` 28. -/
def getFlag (bit : Int) : CpuM BS := do
  let x ← getXpsr
  py (x.getItem bit)

/-- The flag setters, `model.py` 57-61, 67-71, 77-81 and 87-91. -/
def setFlag (bit : Int) (value : PyVal) : CpuM Unit := do
  let x ← getXpsr
  let b ← py (init value (some 1))
  let x' ← py (x.setItem bit (.bs b))
  setXpsr (.bs x')

end Verif
