import Verif.Instr
import Verif.Registers
import Verif.Utilities

/-!
# The formatter

Model of `cmdis/formatter.py`. Formatting an operand gives its text (`None` if it is not
shown) and the comments it adds. It also gives the operand afterwards: comparing the mask
of a special register with -1 changes that bitstring.

Simplification: what a call that raises leaves in the formatter and in the operands is not
modelled; `format` sets the attributes of the formatter again when it is called (206-207).
-/

namespace Verif

/-- `"%d" % v` (base 10) and `"%x" % v` (base 16). -/
def intText (base : Nat) (v : Int) : Str :=
  if v < 0 then '-' :: BS.natText base v.natAbs else BS.natText base v.natAbs

/-- `"%+d" % v`. -/
def plusText (v : Int) : Str := if v < 0 then intText 10 v else '+' :: intText 10 v

/-- `"%04x" % v` for natural numbers. -/
def hex4 (v : Nat) : Str := List.replicate (4 - (BS.natText 16 v).length) '0' ++ BS.natText 16 v

/-- `"{0:<n}".format(s)`. -/
def padRight (n : Nat) (s : Str) : Str := s ++ List.replicate (n - s.length) ' '

/-- `sep.join(l)`. -/
def joinWith (sep : Str) (l : List Str) : Str := sep.intercalate l

/-- `add_reg_range`, `formatter.py` 45-52. -/
def addRegRange (start stop : Int) (regs : List Str) : PyRes (List Str) :=
  if start ≠ -1 then
    if start = stop then do
      let s ← coreRegisterName start
      .ok (regs ++ [s])
    else do
      let s ← coreRegisterName start
      let e ← coreRegisterName stop
      .ok (regs ++ [s ++ c! "-" ++ e])
  else .ok regs

/-- The loop of `ReglistOperand.format`, `formatter.py` 54-63, with the bits that are
left, the number of the next one, `startRange`, `endRange` and `regs`. -/
def reglistLoop : List Nat → Nat → Int → Int → List Str → PyRes (List Str)
  | [], _, start, stop, regs => addRegRange start stop regs
  | b :: t, n, start, stop, regs =>
    if b ≠ 0 then reglistLoop t (n + 1) (if start = -1 then n else start) n regs
    else do
      let regs ← addRegRange start stop regs
      reglistLoop t (n + 1) (-1) (-1) regs

/-- `ReglistOperand.format`, `formatter.py` 40-65. -/
def reglistText (l : BS) : PyRes Str := do
  let regs ← reglistLoop l.iter 0 (-1) (-1) []
  .ok (c! "{" ++ joinWith (c! ",") regs ++ c! "}")

/-- `RegisterOperand.format`, `formatter.py` 30-34. -/
def regText (r : Nat) (wback : Bool) : PyRes Str := do
  let s ← coreRegisterName r
  .ok (s ++ (if wback then c! "!" else []))

/-- `ImmediateOperand.format` of an integer, `formatter.py` 72-80: text and comments. -/
def immText (v : Int) (hideIfZero : Bool) : Option Str × List Str :=
  if v = 0 ∧ hideIfZero then (none, [])
  else (some (c! "#" ++ intText 10 v), if v > 9 then [c! "0x" ++ intText 16 v] else [])

/-- The same of a bitstring: `"%d"` and `"%x"` take the number `__int__` gives. -/
def immBitsText (b : BS) : PyRes (Option Str × List Str) := do
  let (big, _) ← b.gtOp (.int 9)
  .ok (some (c! "#" ++ intText 10 b.value), if big then [c! "0x" ++ intText 16 b.value] else [])

/-- `LabelOperand.format`, `formatter.py` 86-91. -/
def labelText (address offset : Int) : Str × List Str :=
  (c! "." ++ plusText (offset + 4), [c! "0x" ++ intText 16 (address + 4 + offset)])

/-- `OP_NAMES`, `formatter.py` 94-99, by `SRType.value`. -/
def shiftName : SRType → Str
  | .none => c! "None"
  | .lsl => c! "LSL"
  | .lsr => c! "LSR"
  | .asr => c! "ASR"
  | .ror => c! "ROR"
  | .rrx => c! "RRX"

/-- `ShiftRotateOperand.format`, `formatter.py` 105-108. -/
def shiftText (type : SRType) (amount : Nat) : Option Str :=
  if type = .none then none else some (shiftName type ++ c! " #" ++ intText 10 amount)

/-- `BarrierOperand.format`, `formatter.py` 114-118. -/
def barrierText (option : Nat) : Str := if option = 15 then c! "sy" else c! "#" ++ intText 10 option

/-- `CpsOperand.format`, `formatter.py` 142-148. -/
def cpsText (pri fault : Bool) : Str := (if pri then c! "i" else []) ++ (if fault then c! "f" else [])

/-- The names of the program status registers, `formatter.py` 160-173. -/
def psrName (lower : BS) : PyRes Str := do
  if ← lower.isStr (c! "000") then .ok (c! "APSR")
  else if ← lower.isStr (c! "001") then .ok (c! "IAPSR")
  else if ← lower.isStr (c! "010") then .ok (c! "EAPSR")
  else if ← lower.isStr (c! "011") then .ok (c! "XPSR")
  else if ← lower.isStr (c! "101") then .ok (c! "IPSR")
  else if ← lower.isStr (c! "110") then .ok (c! "EPSR")
  else if ← lower.isStr (c! "111") then .ok (c! "IEPSR")
  else .ok []

/-- The suffixes, `formatter.py` 175-180. -/
def maskName (mask : BS) : PyRes Str := do
  if ← mask.isStr (c! "10") then .ok (c! "_nzcvq")
  else if ← mask.isStr (c! "01") then .ok (c! "_g")
  else if ← mask.isStr (c! "11") then .ok (c! "_nzcvqg")
  else .ok []

/-- `SpecialRegisterOperand.format`, `formatter.py` 155-197: the text and the mask
afterwards. `none` is the default mask, the integer -1. Line 174 compares the mask with
-1, which is where it may change; the lines after it see the changed object. -/
def specialText (spec : BS) (mask : Option BS) : PyRes (Str × Option BS) := do
  let upper ← spec.slice 3 8
  let lower ← spec.slice 0 3
  if ← upper.isStr (c! "00000") then
    let name ← psrName lower
    let (small, _) ← lower.ltOp (.int 4)
    match mask with
    | none => .ok (name, none)
    | some m =>
      if BS.truthy small then
        let (ne, m') ← m.neOp (.int (-1))
        if ne then
          let suffix ← maskName m'
          .ok (name ++ suffix, some m')
        else .ok (name, some m')
      else .ok (name, some m)
  else if ← upper.isStr (c! "00001") then
    if ← lower.isStr (c! "000") then .ok (c! "MSP", mask)
    else if ← lower.isStr (c! "001") then .ok (c! "PSP", mask)
    else .ok ([], mask)
  else if ← upper.isStr (c! "00010") then
    if ← lower.isStr (c! "000") then .ok (c! "PRIMASK", mask)
    else if ← lower.isStr (c! "001") then .ok (c! "BASEPRI", mask)
    else if ← lower.isStr (c! "010") then .ok (c! "BASEPRI_MAX", mask)
    else if ← lower.isStr (c! "011") then .ok (c! "FAULTMASK", mask)
    else if ← lower.isStr (c! "100") then .ok (c! "CONTROL", mask)
    else .ok ([], mask)
  else .ok ([], mask)

/-- What formatting an operand gives. -/
structure Shown (α : Type) where
  text : Option Str
  comments : List Str
  after : α
deriving DecidableEq, Repr

/-- `o.format(formatter)` for the operands of the instruction `i`. -/
def Op1.format (i : Instr) : Op1 → PyRes (Shown Op1)
  | .reg r wback => do
    let s ← regText r wback
    .ok ⟨some s, [], .reg r wback⟩
  | .reglist l => do
    let s ← reglistText l
    .ok ⟨some s, [], .reglist l⟩
  | .imm v hide => let (s, c) := immText v hide; .ok ⟨s, c, .imm v hide⟩
  | .immAttr => do
    let b ← attr i.imm32
    let (s, c) ← immBitsText b
    .ok ⟨s, c, .immAttr⟩
  | .label offset => let (s, c) := labelText i.address offset; .ok ⟨some s, c, .label offset⟩
  | .shift type amount => .ok ⟨shiftText type amount, [], .shift type amount⟩
  | .barrier option => .ok ⟨some (barrierText option), [], .barrier option⟩
  | .cps pri fault => .ok ⟨some (cpsText pri fault), [], .cps pri fault⟩
  | .special spec mask => do
    let (s, m) ← specialText spec mask
    .ok ⟨some s, [], .special spec m⟩

/-- The loops over operands, `formatter.py` 126-130 and 218-222: the texts that are shown,
all comments, the operands afterwards. -/
def formatEach {α : Type} (f : α → PyRes (Shown α)) : List α → PyRes (List Str × List Str × List α)
  | [] => .ok ([], [], [])
  | o :: t => do
    let x ← f o
    let (ss, cs, os) ← formatEach f t
    .ok (x.text.toList ++ ss, x.comments ++ cs, x.after :: os)

/-- `format` of an operand; `MemoryAccessOperand.format`, `formatter.py` 125-135, where
`wback` is never given. -/
def Operand.format (i : Instr) : Operand → PyRes (Shown Operand)
  | .one o => do
    let x ← o.format i
    .ok ⟨x.text, x.comments, .one x.after⟩
  | .mem l => do
    let (ss, cs, os) ← formatEach (Op1.format i) l
    .ok ⟨some (c! "[" ++ joinWith (c! ", ") ss ++ c! "]"), cs, .mem os⟩

/-- The mask a special register operand holds, if there is one. -/
def Operand.mask? : Operand → Option BS
  | .one (.special _ m) => m
  | _ => none

/-- The encoding in hexadecimal, `formatter.py` 209-214. -/
def byteString (b : List Nat) : PyRes Str := do
  let hw1 ← bytesToLe16 b 0
  if b.length = 4 then
    let hw2 ← bytesToLe16 b 2
    .ok (hex4 hw1 ++ c! " " ++ hex4 hw2)
  else .ok (hex4 hw1)

/-- `Formatter.format(instruction)`, `formatter.py` 205-230: the text and the instruction
afterwards. The mask of a special register operand is the object in the attribute `mask`
(`instructions.py` 981 and 986), which changes with it. -/
def Instr.format (i : Instr) : PyRes (Str × Instr) := do
  let bs ← byteString i.bytes
  let (ss, cs, os) ← formatEach (Operand.format i) i.operands
  let result := padRight 12 bs ++ c! " " ++ padRight 8 i.mnemonic ++ joinWith (c! ", ") ss
  let i' := { i with operands := os, mask := (os.findSome? Operand.mask?).or i.mask }
  if cs = [] then .ok (result, i')
  else .ok (padRight 36 result ++ c! " ; " ++ joinWith (c! " ") cs, i')

end Verif
