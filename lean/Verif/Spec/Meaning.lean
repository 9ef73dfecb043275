import Verif.Spec.Assembly

/-!
# What assembly text means

A specification, not part of the model: the action that a mnemonic and its operands stand for,
by the manual's syntax. Encodings play no part in it.
-/

namespace Verif
namespace Thumb

/-- A register or a constant as the last operand. -/
def source : Item → Option Src
  | .one (.reg m false) => some (.reg m)
  | .one (.num v) => some (.imm (BitVec.ofInt 32 v))
  | _ => none

/-- A register as the last operand. -/
def sourceReg : Item → Option Nat
  | .one (.reg m false) => some m
  | _ => none

/-- `d, n, x` or `d, x`, which means `d, d, x`. -/
def threeOf (mk : Nat → Nat → Item → Option Act) : List Item → Option Act
  | [.one (.reg d false), .one (.reg n false), x] => mk d n x
  | [.one (.reg d false), x] => mk d d x
  | _ => none

/-- `d, x`. -/
def twoOf (mk : Nat → Item → Option Act) : List Item → Option Act
  | [.one (.reg d false), x] => mk d x
  | _ => none

/-- `d, m` or `d, m, shift`. -/
def shiftedOf (mk : Nat → Nat → SRType × Nat → Option Act) : List Item → Option Act
  | [.one (.reg d false), .one (.reg m false)] => mk d m (.lsl, 0)
  | [.one (.reg d false), .one (.reg m false), .one (.shift t k)] => mk d m (t, k)
  | _ => none

/-- A label as the only operand: the offset from the address of the instruction plus 4. -/
def labelOf (mk : Word → Act) : List Item → Option Act
  | [.one (.label x)] => some (mk (BitVec.ofInt 32 (x - 4)))
  | _ => none

/-- One register. -/
def oneOf (mk : Nat → Act) : List Item → Option Act
  | [.one (.reg m false)] => some (mk m)
  | _ => none

/-- The offset in brackets. -/
def offset : List Piece → Option Off
  | [] => some (.imm 0#32)
  | [.num v] => some (.imm (BitVec.ofInt 32 v))
  | [.reg m false] => some (.reg m (.lsl, 0))
  | [.reg m false, .shift t k] => some (.reg m (t, k))
  | _ => none

/-- `t, [n, offset]`. With a constant and PC this is a literal. -/
def loadOf (size : Nat) (sgn : Bool) : List Item → Option Act
  | [.one (.reg t false), .mem [.reg 15 false]] => some (.loadLit size sgn true t 0#32)
  | [.one (.reg t false), .mem [.reg 15 false, .num v]] => some (.loadLit size sgn (0 ≤ v) t (w32 v.natAbs))
  | [.one (.reg t false), .mem (.reg n false :: o)] => (offset o).map (.load size sgn t n)
  | _ => none

def storeOf (size : Nat) : List Item → Option Act
  | [.one (.reg t false), .mem (.reg n false :: o)] => (offset o).map (.store size t n)
  | _ => none

/-- The list of these registers. -/
def listOf (l : List Nat) : BitVec 16 := l.foldr (fun k r => BitVec.twoPow 16 k ||| r) 0#16

/-- `{registers}`. -/
def regsOf (mk : BitVec 16 → Act) : List Item → Option Act
  | [.one (.regs l)] => some (mk (listOf l))
  | _ => none

/-- `n, {registers}` or `n!, {registers}`. -/
def manyOf (mk : Nat → Bool → BitVec 16 → Act) : List Item → Option Act
  | [.one (.reg n wback), .one (.regs l)] => some (mk n wback (listOf l))
  | _ => none

/-- The distance of a label from the word-aligned address of the instruction plus 4; labels further away
cannot be reached. -/
def adrOf (a : Int) : List Item → Option Act
  | [.one (.reg d false), .one (.label x)] =>
    let k := a + x - (a + 4) / 4 * 4
    if k.natAbs < 4096 then some (.adr (0 ≤ k) d (w32 k.natAbs)) else none
  | _ => none

def cpsOf (enable : Bool) : List Item → Option Act
  | [.one (.word s)] => some (.cps enable (s.contains 'i') (s.contains 'f'))
  | _ => none

/-- The special register with this name. -/
def specialNamed (s : Str) : Option (BitVec 8) := ((List.range 21).map (BitVec.ofNat 8)).find? fun k => specialName k = s ∧ s ≠ []

def mrsOf : List Item → Option Act
  | [.one (.reg d false), .one (.word s)] => (specialNamed s).map (.mrs d)
  | _ => none

/-- A special register as a destination: APSR and its combinations with the bits that are written. -/
def msrNamed (s : Str) : Option (BitVec 2 × BitVec 8) :=
  ([1, 2, 3].flatMap fun k => (List.range 21).map fun r => (BitVec.ofNat 2 k, BitVec.ofNat 8 r)).find? fun p =>
    specialName p.2 ≠ [] ∧ (p.2.toNat < 4 ∨ p.1 = 2#2) ∧ specialName p.2 ++ (if p.2.toNat < 4 then bitsName p.1 else []) = s

def msrOf : List Item → Option Act
  | [.one (.word s), .one (.reg n false)] => (msrNamed s).map fun p => .msr n p.1 p.2
  | _ => none

/-- The carry of a modified constant (`ThumbExpandImm_C`): its top bit, if it is rotated; a byte that is
repeated, or stands in the low bits, leaves C. -/
def constantCarry (v : Word) : Option Bool :=
  let b := v.extractLsb' 0 8
  let h := v.extractLsb' 8 8
  if v = b.setWidth 32 ∨ v = 0#8 ++ b ++ 0#8 ++ b ∨ v = h ++ 0#8 ++ h ++ 0#8 ∨ v = b ++ b ++ b ++ b then none
  else some v.msb

/-- MOV and MVN. -/
def movOf (neg flags : Bool) : List Item → Option Act :=
  twoOf fun d x => (source x).map fun
    | .reg m => .mov neg flags d (.reg m)
    | .imm v => .mov neg flags d (.imm v) (constantCarry v)

def addSubOf (sub carry flags : Bool) : List Item → Option Act :=
  threeOf fun d n x => (source x).map (.addSub sub carry flags d n)

def logicOf (f : BitFn) : List Item → Option Act := threeOf fun d n x => (sourceReg x).map (.logic f true d n)

/-- Shifts by a constant or by a register. -/
def shiftOf (t : SRType) : List Item → Option Act :=
  threeOf fun d n x => (source x).map fun
    | .reg m => .shiftReg t true d n m
    | .imm v => .shiftImm t true d n v.toNat

def rsbOf (flags : Bool) : List Item → Option Act :=
  threeOf fun d n x => (source x).bind fun
    | .reg _ => none
    | .imm v => some (.rsb flags d n v)

def mulOf (flags : Bool) : List Item → Option Act := threeOf fun d n x => (sourceReg x).map (.mul flags d n)

/-- Extending a register, which may be rotated first. -/
def extendOf (sgn : Bool) (width : Nat) : List Item → Option Act :=
  shiftedOf fun d m s => if s.1 = .ror ∨ s = (.lsl, 0) then some (.extend sgn width s.2 d m) else none

def revOf (kind : RevKind) : List Item → Option Act := twoOf fun d x => (sourceReg x).map (.rev kind d)

def cmpOf (sub : Bool) : List Item → Option Act := twoOf fun n x => (source x).map (.cmp sub n)

/-- What the mnemonics mean, given the address of the instruction and the operands. -/
def forms : List (Str × (Int → List Item → Option Act)) := [
  (c! "adds", fun _ => addSubOf false false true), (c! "subs", fun _ => addSubOf true false true),
  (c! "adcs", fun _ => addSubOf false true true), (c! "sbcs", fun _ => addSubOf true true true),
  (c! "add", fun _ => addSubOf false false false), (c! "sub", fun _ => addSubOf true false false),
  (c! "ands", fun _ => logicOf .and), (c! "eors", fun _ => logicOf .xor), (c! "orrs", fun _ => logicOf .or),
  (c! "bics", fun _ => threeOf fun d n x => (sourceReg x).map (.bic true d n)),
  (c! "lsls", fun _ => shiftOf .lsl), (c! "lsrs", fun _ => shiftOf .lsr), (c! "asrs", fun _ => shiftOf .asr),
  (c! "rors", fun _ => shiftOf .ror),
  (c! "rsbs", fun _ => rsbOf true), (c! "rsb.w", fun _ => rsbOf false), (c! "rsbs.w", fun _ => rsbOf true),
  (c! "muls", fun _ => mulOf true), (c! "mul", fun _ => mulOf false),
  (c! "adr", adrOf), (c! "adr.w", adrOf),
  (c! "uxtb", fun _ => extendOf false 8), (c! "uxth", fun _ => extendOf false 16),
  (c! "sxtb", fun _ => extendOf true 8), (c! "sxth", fun _ => extendOf true 16),
  (c! "uxtb.w", fun _ => extendOf false 8), (c! "uxth.w", fun _ => extendOf false 16),
  (c! "sxtb.w", fun _ => extendOf true 8), (c! "sxth.w", fun _ => extendOf true 16),
  (c! "rev", fun _ => revOf .rev), (c! "rev16", fun _ => revOf .rev16), (c! "revsh", fun _ => revOf .revsh),
  (c! "rev.w", fun _ => revOf .rev), (c! "rev16.w", fun _ => revOf .rev16), (c! "revsh.w", fun _ => revOf .revsh),
  (c! "mov", fun _ => movOf false false), (c! "movs", fun _ => movOf false true),
  (c! "mov.w", fun _ => movOf false false), (c! "movs.w", fun _ => movOf false true),
  (c! "movw", fun _ => movOf false false), (c! "mvns", fun _ => movOf true true),
  (c! "mvn.w", fun _ => shiftedOf fun d m s => some (.mvnShift false d m s)),
  (c! "mvns.w", fun _ => shiftedOf fun d m s => some (.mvnShift true d m s)),
  (c! "cmp", fun _ => cmpOf true), (c! "cmp.w", fun _ => cmpOf true), (c! "cmn", fun _ => cmpOf false),
  (c! "tst", fun _ => shiftedOf fun n m s => some (.tst n m s)), (c! "tst.w", fun _ => shiftedOf fun n m s => some (.tst n m s)),
  (c! "beq", fun _ => labelOf (.branch 0)), (c! "bne", fun _ => labelOf (.branch 1)),
  (c! "bcs", fun _ => labelOf (.branch 2)), (c! "bcc", fun _ => labelOf (.branch 3)),
  (c! "bmi", fun _ => labelOf (.branch 4)), (c! "bpl", fun _ => labelOf (.branch 5)),
  (c! "bvs", fun _ => labelOf (.branch 6)), (c! "bvc", fun _ => labelOf (.branch 7)),
  (c! "bhi", fun _ => labelOf (.branch 8)), (c! "bls", fun _ => labelOf (.branch 9)),
  (c! "bge", fun _ => labelOf (.branch 10)), (c! "blt", fun _ => labelOf (.branch 11)),
  (c! "bgt", fun _ => labelOf (.branch 12)), (c! "ble", fun _ => labelOf (.branch 13)),
  (c! "b", fun _ => labelOf (.branch 15)), (c! "bl", fun _ => labelOf .bl),
  (c! "blx", fun _ => oneOf .blx), (c! "bx", fun _ => oneOf .bx),
  (c! "ldr", fun _ => loadOf 32 false), (c! "ldrb", fun _ => loadOf 8 false), (c! "ldrh", fun _ => loadOf 16 false),
  (c! "ldrsb", fun _ => loadOf 8 true), (c! "ldrsh", fun _ => loadOf 16 true),
  (c! "ldr.w", fun _ => loadOf 32 false), (c! "ldrb.w", fun _ => loadOf 8 false), (c! "ldrh.w", fun _ => loadOf 16 false),
  (c! "ldrsb.w", fun _ => loadOf 8 true), (c! "ldrsh.w", fun _ => loadOf 16 true),
  (c! "str", fun _ => storeOf 32), (c! "strb", fun _ => storeOf 8), (c! "strh", fun _ => storeOf 16),
  (c! "str.w", fun _ => storeOf 32), (c! "strb.w", fun _ => storeOf 8), (c! "strh.w", fun _ => storeOf 16),
  (c! "push", fun _ => regsOf .push), (c! "push.w", fun _ => regsOf .push),
  (c! "pop", fun _ => regsOf .pop), (c! "pop.w", fun _ => regsOf .pop),
  (c! "ldm", fun _ => manyOf .ldm), (c! "ldm.w", fun _ => manyOf .ldm),
  (c! "stm", fun _ => manyOf .stm), (c! "stm.w", fun _ => manyOf .stm),
  (c! "cpsie", fun _ => cpsOf true), (c! "cpsid", fun _ => cpsOf false),
  (c! "mrs", fun _ => mrsOf), (c! "msr", fun _ => msrOf),
  (c! "bkpt", fun _ _ => some .plain), (c! "svc", fun _ _ => some .plain), (c! "udf", fun _ _ => some .plain),
  (c! "udf.w", fun _ _ => some .plain), (c! "isb", fun _ _ => some .plain), (c! "dmb", fun _ _ => some .plain),
  (c! "dsb", fun _ _ => some .plain), (c! "sev", fun _ _ => some .plain), (c! "wfi", fun _ _ => some .plain),
  (c! "wfe", fun _ _ => some .plain), (c! "yield", fun _ _ => some .plain), (c! "nop", fun _ _ => some .plain)]

/-- The form of a mnemonic. -/
def form (mnem : Str) : Option (Int → List Item → Option Act) := (forms.find? fun p => p.1 = mnem).map (·.2)

/-- What a mnemonic with operands means at an address. -/
def meaning (a : Int) (mnem : Str) (l : List Item) : Option Act := (form mnem).bind fun g => g a l

/-- One way to write shifts by zero. -/
def plainShift (s : SRType × Nat) : SRType × Nat := if s.1 = .none ∨ (s.2 = 0 ∧ s.1 ≠ .rrx) then (.lsl, 0) else s

def Off.normal : Off → Off
  | .imm v => .imm v
  | .reg m s => .reg m (plainShift s)

/-- One way to write actions that differ only in how they say the same: shifts by zero, subtracting zero, the
carry of an instruction that sets no flags, and the mask of MSR if there is nothing to choose. -/
def Act.normal : Act → Act
  | .adr add d imm => .adr (add || imm == 0#32) d imm
  | .loadLit size sgn add t imm => .loadLit size sgn (add || imm == 0#32) t imm
  | .mov neg false d src _ => .mov neg false d src
  | .mvnShift flags d m s => .mvnShift flags d m (plainShift s)
  | .tst n m s => .tst n m (plainShift s)
  | .load size sgn t n off => .load size sgn t n off.normal
  | .store size t n off => .store size t n off.normal
  | act => act

example : meaning 0 (c! "adds") [R 1, R 2, N 5] = some (.addSub false false true 1 2 (.imm 5#32)) := by decide +kernel
example : meaning 0 (c! "ldr.w") [R 1, .mem [.reg 2 false, .reg 3 false, .shift .lsl 2]] = some (.load 32 false 1 2 (.reg 3 (.lsl, 2))) := by
  decide +kernel
example : meaning 2 (c! "adr") [R 0, .one (.label 6)] = some (.adr true 0 4#32) := by decide +kernel
example : meaning 0 (c! "msr") [.one (.word (c! "APSR_nzcvq")), R 0] = some (.msr 0 2#2 0#8) := by decide +kernel
example : meaning 0 (c! "movs.w") [R 0, N 0x80000000] = some (.mov false true 0 (.imm 0x80000000#32) (some true)) := by decide +kernel
example : meaning 0 (c! "foo") [] = none := by decide +kernel

end Thumb
end Verif
