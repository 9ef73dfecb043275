import Verif.Arm
import Verif.Instr
import Verif.Props.C16to20

/-!
# The Thumb encodings, from the Arm architecture manual

A specification, not part of the model: each encoding as the bit diagram of the manual
(first halfword, then second), what it means (`Act`) and when it is that encoding (`ok`).
Letters in a diagram are fields; the bits of a field may be apart, its value is read from
left to right.
-/

namespace Verif
namespace Thumb

/-- A second operand. -/
inductive Src where
  | reg (m : Nat)
  | imm (v : Word)
deriving DecidableEq, Repr

/-- An offset of a load or store: a constant or a shifted register. -/
inductive Off where
  | imm (v : Word)
  | reg (m : Nat) (shift : SRType × Nat)
deriving DecidableEq, Repr

/-- The byte reversals. -/
inductive RevKind where
  | rev | rev16 | revsh
deriving DecidableEq, Repr

/-- What an instruction does, in terms of registers and constants.

`addSub sub carry flags d n src`; `cmp sub n src` is CMP for `sub`, else CMN; `mov neg
flags d src`; `branch cond offset` relative to PC. -/
inductive Act where
  | addSub (sub carry flags : Bool) (d n : Nat) (src : Src)
  | rsb (flags : Bool) (d n : Nat) (imm : Word)
  | logic (f : BitFn) (flags : Bool) (d n m : Nat)
  | bic (flags : Bool) (d n m : Nat)
  | shiftImm (t : SRType) (flags : Bool) (d m k : Nat)
  | shiftReg (t : SRType) (flags : Bool) (d n m : Nat)
  | mul (flags : Bool) (d n m : Nat)
  | adr (add : Bool) (d : Nat) (imm : Word)
  | extend (signed : Bool) (width rotation d m : Nat)
  | rev (kind : RevKind) (d m : Nat)
  /-- `carry` is the new C if the instruction sets flags; `none`: C is left. -/
  | mov (neg flags : Bool) (d : Nat) (src : Src) (carry : Option Bool := none)
  | mvnShift (flags : Bool) (d m : Nat) (shift : SRType × Nat)
  | cmp (sub : Bool) (n : Nat) (src : Src)
  | tst (n m : Nat) (shift : SRType × Nat)
  | branch (cond : Nat) (offset : Word)
  | bl (offset : Word)
  | blx (m : Nat)
  | bx (m : Nat)
  | load (size : Nat) (signed : Bool) (t n : Nat) (off : Off)
  | store (size : Nat) (t n : Nat) (off : Off)
  | loadLit (size : Nat) (signed add : Bool) (t : Nat) (imm : Word)
  | push (regs : BitVec 16)
  | pop (regs : BitVec 16)
  | ldm (n : Nat) (wback : Bool) (regs : BitVec 16)
  | stm (n : Nat) (wback : Bool) (regs : BitVec 16)
  | cps (enable pri fault : Bool)
  | mrs (d : Nat) (sysm : BitVec 8)
  | msr (n : Nat) (mask : BitVec 2) (sysm : BitVec 8)
  | plain
deriving DecidableEq, Repr

/-- The letter of a diagram at a bit of the word: the first halfword is the low one. -/
def letter (pat : Str) (k : Nat) : Char := (pat[if k < 16 then 15 - k else 47 - k]?).getD '?'

/-- Whether a word has the fixed bits of a diagram. -/
def fits (pat : Str) (w : Nat) : Bool :=
  (List.range pat.length).all fun k =>
    !(letter pat k == '0' && w.testBit k) && !(letter pat k == '1' && !w.testBit k)

/-- The bits of the word that belong to a field, from left to right in the diagram. -/
def places (pat : Str) (c : Char) : List Nat :=
  ((List.range 16).reverse ++ ((List.range 16).map (16 + ·)).reverse).filter fun k => letter pat k = c

/-- The number with these bits, the first one highest. -/
def bitsValue (w : Nat) (ps : List Nat) : Nat := ps.foldl (fun v k => 2 * v + (w.testBit k).toNat) 0

/-- The value of a field. -/
def field (pat : Str) (w : Nat) (c : Char) : Nat := bitsValue w (places pat c)

/-- An encoding. -/
structure Enc where
  pat : Str
  mnem : (Char → Nat) → Str
  act : (Char → Nat) → Act
  ok : (Char → Nat) → Bool := fun _ => true

/-- The word is this encoding. -/
def Enc.Is (e : Enc) (w : Nat) : Prop := w < 2 ^ e.pat.length ∧ fits e.pat w = true ∧ e.ok (field e.pat w) = true

/-- A constant as a word. -/
def w32 (n : Nat) : Word := BitVec.ofNat 32 n

/-- `ThumbExpandImm` of i:imm3:imm8. -/
def expand (n : Nat) : Word := (C19.armExpand (BitVec.ofNat 12 n) false).1

/-- The carry `ThumbExpandImm_C` gives: that of the rotation, or none if the constant is not
rotated, which leaves C (`C47.expand_carry`). -/
def expandCarry (n : Nat) : Option Bool :=
  if n < 1024 then none else some (C19.armExpand (BitVec.ofNat 12 n) false).2

/-- `DecodeImmShift`. -/
def immShift (t i : Nat) : SRType × Nat := C18.armImmShift (BitVec.ofNat 2 t) (BitVec.ofNat 5 i)

/-- An `n`-bit number with its sign. -/
def signed (n v : Nat) : Word := (BitVec.ofNat n v).signExtend 32

/-- The offset of BL: S:I1:I2:imm10:imm11:0 with I1 = NOT(J1 EOR S), I2 = NOT(J2 EOR S). -/
def blOffset (s j1 j2 i : Nat) : Word :=
  signed 25 (s * 2 ^ 24 + (if j1 = s then 1 else 0) * 2 ^ 23 + (if j2 = s then 1 else 0) * 2 ^ 22 + i * 2)

/-- A register list: P, M and the low registers. -/
def regs (p m r : Nat) : BitVec 16 := BitVec.ofNat 16 (p * 2 ^ 15 + m * 2 ^ 14 + r)

/-- The list of one register. -/
def single (t : Nat) : BitVec 16 := BitVec.ofNat 16 (2 ^ t)

/-- The number of registers in a list. -/
def count (r : BitVec 16) : Nat := ((List.range 16).filter fun k => r.getLsbD k).length

/-- Neither SP nor PC. -/
def plainReg (r : Nat) : Bool := r ≠ 13 && r ≠ 15

/-- The special registers of MRS and MSR. -/
def special (s : Nat) : Bool := s ≤ 3 || (5 ≤ s && s ≤ 9) || (16 ≤ s && s ≤ 20)

/-- The suffix of the 32-bit forms that may set flags. -/
def dotW (s : Nat) : Str := if s = 1 then c! "s.w" else c! ".w"

/-- The condition names. -/
def condText (c : Nat) : Str :=
  [c! "eq", c! "ne", c! "cs", c! "cc", c! "mi", c! "pl", c! "vs", c! "vc", c! "hi", c! "ls", c! "ge", c! "lt",
    c! "gt", c! "le"].getD c []

def bics : Enc :=
  { pat := c! "0100001110mmmddd", mnem := fun _ => c! "bics",
    act := fun f => .bic true (f 'd') (f 'd') (f 'm') }

def orrs : Enc :=
  { pat := c! "0100001100mmmddd", mnem := fun _ => c! "orrs",
    act := fun f => .logic .or true (f 'd') (f 'd') (f 'm') }

def rorsReg : Enc :=
  { pat := c! "0100000111mmmddd", mnem := fun _ => c! "rors",
    act := fun f => .shiftReg .ror true (f 'd') (f 'd') (f 'm') }

def sbcs : Enc :=
  { pat := c! "0100000110mmmddd", mnem := fun _ => c! "sbcs",
    act := fun f => .addSub true true true (f 'd') (f 'd') (.reg (f 'm')) }

def adcs : Enc :=
  { pat := c! "0100000101mmmddd", mnem := fun _ => c! "adcs",
    act := fun f => .addSub false true true (f 'd') (f 'd') (.reg (f 'm')) }

def asrsReg : Enc :=
  { pat := c! "0100000100mmmddd", mnem := fun _ => c! "asrs",
    act := fun f => .shiftReg .asr true (f 'd') (f 'd') (f 'm') }

def lsrsReg : Enc :=
  { pat := c! "0100000011mmmddd", mnem := fun _ => c! "lsrs",
    act := fun f => .shiftReg .lsr true (f 'd') (f 'd') (f 'm') }

def lslsReg : Enc :=
  { pat := c! "0100000010mmmddd", mnem := fun _ => c! "lsls",
    act := fun f => .shiftReg .lsl true (f 'd') (f 'd') (f 'm') }

def eors : Enc :=
  { pat := c! "0100000001mmmddd", mnem := fun _ => c! "eors",
    act := fun f => .logic .xor true (f 'd') (f 'd') (f 'm') }

def ands : Enc :=
  { pat := c! "0100000000mmmddd", mnem := fun _ => c! "ands",
    act := fun f => .logic .and true (f 'd') (f 'd') (f 'm') }

def subsImmT1 : Enc :=
  { pat := c! "0001111iiinnnddd", mnem := fun _ => c! "subs",
    act := fun f => .addSub true false true (f 'd') (f 'n') (.imm (w32 (f 'i'))) }

def addsImmT1 : Enc :=
  { pat := c! "0001110iiinnnddd", mnem := fun _ => c! "adds",
    act := fun f => .addSub false false true (f 'd') (f 'n') (.imm (w32 (f 'i'))) }

def subsImmT2 : Enc :=
  { pat := c! "00111dddiiiiiiii", mnem := fun _ => c! "subs",
    act := fun f => .addSub true false true (f 'd') (f 'd') (.imm (w32 (f 'i'))) }

def addsImmT2 : Enc :=
  { pat := c! "00110dddiiiiiiii", mnem := fun _ => c! "adds",
    act := fun f => .addSub false false true (f 'd') (f 'd') (.imm (w32 (f 'i'))) }

def subsReg : Enc :=
  { pat := c! "0001101mmmnnnddd", mnem := fun _ => c! "subs",
    act := fun f => .addSub true false true (f 'd') (f 'n') (.reg (f 'm')) }

def addsReg : Enc :=
  { pat := c! "0001100mmmnnnddd", mnem := fun _ => c! "adds",
    act := fun f => .addSub false false true (f 'd') (f 'n') (.reg (f 'm')) }

def addRegT2 : Enc :=
  { pat := c! "01000100dmmmmddd", mnem := fun _ => c! "add",
    act := fun f => .addSub false false false (f 'd') (f 'd') (.reg (f 'm')),
    ok := fun f => f 'd' ≠ 13 ∧ f 'm' ≠ 13 }

def addSpImmT1 : Enc :=
  { pat := c! "10101dddiiiiiiii", mnem := fun _ => c! "add",
    act := fun f => .addSub false false false (f 'd') 13 (.imm (w32 (4 * f 'i'))) }

def addSpRegT1 : Enc :=
  { pat := c! "01000100d1101ddd", mnem := fun _ => c! "add",
    act := fun f => .addSub false false false (f 'd') 13 (.reg (f 'd')) }

def addSpRegT2 : Enc :=
  { pat := c! "010001001mmmm101", mnem := fun _ => c! "add",
    act := fun f => .addSub false false false 13 13 (.reg (f 'm')),
    ok := fun f => f 'm' ≠ 13 }

def subSpImm : Enc :=
  { pat := c! "101100001iiiiiii", mnem := fun _ => c! "sub",
    act := fun f => .addSub true false false 13 13 (.imm (w32 (4 * f 'i'))) }

def addSpImmT2 : Enc :=
  { pat := c! "101100000iiiiiii", mnem := fun _ => c! "add",
    act := fun f => .addSub false false false 13 13 (.imm (w32 (4 * f 'i'))) }

def asrsImm : Enc :=
  { pat := c! "00010iiiiimmmddd", mnem := fun _ => c! "asrs",
    act := fun f => .shiftImm .asr true (f 'd') (f 'm') (if f 'i' = 0 then 32 else f 'i') }

def lsrsImm : Enc :=
  { pat := c! "00001iiiiimmmddd", mnem := fun _ => c! "lsrs",
    act := fun f => .shiftImm .lsr true (f 'd') (f 'm') (if f 'i' = 0 then 32 else f 'i') }

def lslsImm : Enc :=
  { pat := c! "00000iiiiimmmddd", mnem := fun _ => c! "lsls",
    act := fun f => .shiftImm .lsl true (f 'd') (f 'm') (f 'i'),
    ok := fun f => f 'i' ≠ 0 }

def rsbs : Enc :=
  { pat := c! "0100001001nnnddd", mnem := fun _ => c! "rsbs",
    act := fun f => .rsb true (f 'd') (f 'n') 0#32 }

def rsbW : Enc :=
  { pat := c! "11110i01110snnnn0iiiddddiiiiiiii", mnem := fun f => c! "rsb" ++ dotW (f 's'),
    act := fun f => .rsb (f 's' = 1) (f 'd') (f 'n') (expand (f 'i')),
    ok := fun f => plainReg (f 'd') ∧ plainReg (f 'n') }

def muls : Enc :=
  { pat := c! "0100001101nnnddd", mnem := fun _ => c! "muls",
    act := fun f => .mul true (f 'd') (f 'n') (f 'd') }

def mulW : Enc :=
  { pat := c! "111110110000nnnn1111dddd0000mmmm", mnem := fun _ => c! "mul",
    act := fun f => .mul false (f 'd') (f 'n') (f 'm'),
    ok := fun f => plainReg (f 'd') ∧ plainReg (f 'n') ∧ plainReg (f 'm') }

def adrT1 : Enc :=
  { pat := c! "10100dddiiiiiiii", mnem := fun _ => c! "adr",
    act := fun f => .adr true (f 'd') (w32 (4 * f 'i')) }

def adrAddW : Enc :=
  { pat := c! "11110i10000011110iiiddddiiiiiiii", mnem := fun _ => c! "adr.w",
    act := fun f => .adr true (f 'd') (w32 (f 'i')) }

def adrSubW : Enc :=
  { pat := c! "11110i10101011110iiiddddiiiiiiii", mnem := fun _ => c! "adr.w",
    act := fun f => .adr false (f 'd') (w32 (f 'i')) }

def uxtb : Enc :=
  { pat := c! "1011001011mmmddd", mnem := fun _ => c! "uxtb",
    act := fun f => .extend false 8 0 (f 'd') (f 'm') }

def uxth : Enc :=
  { pat := c! "1011001010mmmddd", mnem := fun _ => c! "uxth",
    act := fun f => .extend false 16 0 (f 'd') (f 'm') }

def sxtb : Enc :=
  { pat := c! "1011001001mmmddd", mnem := fun _ => c! "sxtb",
    act := fun f => .extend true 8 0 (f 'd') (f 'm') }

def sxth : Enc :=
  { pat := c! "1011001000mmmddd", mnem := fun _ => c! "sxth",
    act := fun f => .extend true 16 0 (f 'd') (f 'm') }

def uxtbW : Enc :=
  { pat := c! "11111010010111111111dddd10rrmmmm", mnem := fun _ => c! "uxtb.w",
    act := fun f => .extend false 8 (8 * f 'r') (f 'd') (f 'm') }

def uxthW : Enc :=
  { pat := c! "11111010000111111111dddd10rrmmmm", mnem := fun _ => c! "uxth.w",
    act := fun f => .extend false 16 (8 * f 'r') (f 'd') (f 'm') }

def sxtbW : Enc :=
  { pat := c! "11111010010011111111dddd10rrmmmm", mnem := fun _ => c! "sxtb.w",
    act := fun f => .extend true 8 (8 * f 'r') (f 'd') (f 'm') }

def sxthW : Enc :=
  { pat := c! "11111010000011111111dddd10rrmmmm", mnem := fun _ => c! "sxth.w",
    act := fun f => .extend true 16 (8 * f 'r') (f 'd') (f 'm') }

def revsh : Enc :=
  { pat := c! "1011101011mmmddd", mnem := fun _ => c! "revsh",
    act := fun f => .rev .revsh (f 'd') (f 'm') }

def rev16 : Enc :=
  { pat := c! "1011101001mmmddd", mnem := fun _ => c! "rev16",
    act := fun f => .rev .rev16 (f 'd') (f 'm') }

def rev : Enc :=
  { pat := c! "1011101000mmmddd", mnem := fun _ => c! "rev",
    act := fun f => .rev .rev (f 'd') (f 'm') }

def revshW : Enc :=
  { pat := c! "111110101001mmmm1111dddd1011kkkk", mnem := fun _ => c! "revsh.w",
    act := fun f => .rev .revsh (f 'd') (f 'm'),
    ok := fun f => f 'm' = f 'k' }

def rev16W : Enc :=
  { pat := c! "111110101001mmmm1111dddd1001kkkk", mnem := fun _ => c! "rev16.w",
    act := fun f => .rev .rev16 (f 'd') (f 'm'),
    ok := fun f => f 'm' = f 'k' }

def revW : Enc :=
  { pat := c! "111110101001mmmm1111dddd1000kkkk", mnem := fun _ => c! "rev.w",
    act := fun f => .rev .rev (f 'd') (f 'm'),
    ok := fun f => f 'm' = f 'k' }

def movReg : Enc :=
  { pat := c! "01000110dmmmmddd", mnem := fun _ => c! "mov",
    act := fun f => .mov false false (f 'd') (.reg (f 'm')) }

def movsReg : Enc :=
  { pat := c! "0000000000mmmddd", mnem := fun _ => c! "movs",
    act := fun f => .mov false true (f 'd') (.reg (f 'm')) }

def movRegW : Enc :=
  { pat := c! "11101010010s11110000dddd0000mmmm", mnem := fun f => c! "mov" ++ dotW (f 's'),
    act := fun f => .mov false (f 's' = 1) (f 'd') (.reg (f 'm')) }

def movsImm : Enc :=
  { pat := c! "00100dddiiiiiiii", mnem := fun _ => c! "movs",
    act := fun f => .mov false true (f 'd') (.imm (w32 (f 'i'))) }

def movImmW : Enc :=
  { pat := c! "11110i00010s11110iiiddddiiiiiiii", mnem := fun f => c! "mov" ++ dotW (f 's'),
    act := fun f => .mov false (f 's' = 1) (f 'd') (.imm (expand (f 'i'))) (expandCarry (f 'i')) }

def movw : Enc :=
  { pat := c! "11110j100100iiii0kkkddddllllllll", mnem := fun _ => c! "movw",
    act := fun f => .mov false false (f 'd') (.imm (w32 (4096 * f 'i' + 2048 * f 'j' + 256 * f 'k' + f 'l'))) }

def mvns : Enc :=
  { pat := c! "0100001111mmmddd", mnem := fun _ => c! "mvns",
    act := fun f => .mov true true (f 'd') (.reg (f 'm')) }

def mvnW : Enc :=
  { pat := c! "11101010011s11110iiiddddiittmmmm", mnem := fun f => c! "mvn" ++ dotW (f 's'),
    act := fun f => .mvnShift (f 's' = 1) (f 'd') (f 'm') (immShift (f 't') (f 'i')) }

def cmpImm : Enc :=
  { pat := c! "00101nnniiiiiiii", mnem := fun _ => c! "cmp",
    act := fun f => .cmp true (f 'n') (.imm (w32 (f 'i'))) }

def cmnReg : Enc :=
  { pat := c! "0100001011mmmnnn", mnem := fun _ => c! "cmn",
    act := fun f => .cmp false (f 'n') (.reg (f 'm')) }

def cmpRegT1 : Enc :=
  { pat := c! "0100001010mmmnnn", mnem := fun _ => c! "cmp",
    act := fun f => .cmp true (f 'n') (.reg (f 'm')) }

def cmpRegT2 : Enc :=
  { pat := c! "01000101nmmmmnnn", mnem := fun _ => c! "cmp",
    act := fun f => .cmp true (f 'n') (.reg (f 'm')) }

def cmnImm : Enc :=
  { pat := c! "11110i010001nnnn0iii1111iiiiiiii", mnem := fun _ => c! "cmn",
    act := fun f => .cmp false (f 'n') (.imm (expand (f 'i'))) }

def cmpImmW : Enc :=
  { pat := c! "11110i011011nnnn0iii1111iiiiiiii", mnem := fun _ => c! "cmp.w",
    act := fun f => .cmp true (f 'n') (.imm (expand (f 'i'))) }

def tst : Enc :=
  { pat := c! "0100001000mmmnnn", mnem := fun _ => c! "tst",
    act := fun f => .tst (f 'n') (f 'm') (.none, 0) }

def tstW : Enc :=
  { pat := c! "111010100001nnnn0iii1111iittmmmm", mnem := fun _ => c! "tst.w",
    act := fun f => .tst (f 'n') (f 'm') (immShift (f 't') (f 'i')),
    ok := fun f => plainReg (f 'n') ∧ plainReg (f 'm') }

def bCond : Enc :=
  { pat := c! "1101cccciiiiiiii", mnem := fun f => 'b' :: condText (f 'c'),
    act := fun f => .branch (f 'c') (signed 9 (2 * f 'i')),
    ok := fun f => f 'c' < 14 }

def b : Enc :=
  { pat := c! "11100iiiiiiiiiii", mnem := fun _ => c! "b",
    act := fun f => .branch 15 (signed 12 (2 * f 'i')) }

def bl : Enc :=
  { pat := c! "11110siiiiiiiiii11j1kiiiiiiiiiii", mnem := fun _ => c! "bl",
    act := fun f => .bl (blOffset (f 's') (f 'j') (f 'k') (f 'i')) }

def blx : Enc :=
  { pat := c! "010001111mmmm000", mnem := fun _ => c! "blx",
    act := fun f => .blx (f 'm') }

def bx : Enc :=
  { pat := c! "010001110mmmm000", mnem := fun _ => c! "bx",
    act := fun f => .bx (f 'm') }

def ldrshReg : Enc :=
  { pat := c! "0101111mmmnnnttt", mnem := fun _ => c! "ldrsh",
    act := fun f => .load 16 true (f 't') (f 'n') (.reg (f 'm') (.none, 0)) }

def ldrbReg : Enc :=
  { pat := c! "0101110mmmnnnttt", mnem := fun _ => c! "ldrb",
    act := fun f => .load 8 false (f 't') (f 'n') (.reg (f 'm') (.none, 0)) }

def ldrhReg : Enc :=
  { pat := c! "0101101mmmnnnttt", mnem := fun _ => c! "ldrh",
    act := fun f => .load 16 false (f 't') (f 'n') (.reg (f 'm') (.none, 0)) }

def ldrReg : Enc :=
  { pat := c! "0101100mmmnnnttt", mnem := fun _ => c! "ldr",
    act := fun f => .load 32 false (f 't') (f 'n') (.reg (f 'm') (.none, 0)) }

def ldrsbReg : Enc :=
  { pat := c! "0101011mmmnnnttt", mnem := fun _ => c! "ldrsb",
    act := fun f => .load 8 true (f 't') (f 'n') (.reg (f 'm') (.none, 0)) }

def strbReg : Enc :=
  { pat := c! "0101010mmmnnnttt", mnem := fun _ => c! "strb",
    act := fun f => .store 8 (f 't') (f 'n') (.reg (f 'm') (.none, 0)) }

def strhReg : Enc :=
  { pat := c! "0101001mmmnnnttt", mnem := fun _ => c! "strh",
    act := fun f => .store 16 (f 't') (f 'n') (.reg (f 'm') (.none, 0)) }

def strReg : Enc :=
  { pat := c! "0101000mmmnnnttt", mnem := fun _ => c! "str",
    act := fun f => .store 32 (f 't') (f 'n') (.reg (f 'm') (.none, 0)) }

def strRegW : Enc :=
  { pat := c! "111110000100nnnntttt000000iimmmm", mnem := fun _ => c! "str.w",
    act := fun f => .store 32 (f 't') (f 'n') (.reg (f 'm') (.lsl, f 'i')),
    ok := fun f => f 'n' ≠ 15 }

def strhRegW : Enc :=
  { pat := c! "111110000010nnnntttt000000iimmmm", mnem := fun _ => c! "strh.w",
    act := fun f => .store 16 (f 't') (f 'n') (.reg (f 'm') (.lsl, f 'i')),
    ok := fun f => f 'n' ≠ 15 }

def strbRegW : Enc :=
  { pat := c! "111110000000nnnntttt000000iimmmm", mnem := fun _ => c! "strb.w",
    act := fun f => .store 8 (f 't') (f 'n') (.reg (f 'm') (.lsl, f 'i')),
    ok := fun f => f 'n' ≠ 15 }

def ldrshRegW : Enc :=
  { pat := c! "111110010011nnnntttt000000iimmmm", mnem := fun _ => c! "ldrsh.w",
    act := fun f => .load 16 true (f 't') (f 'n') (.reg (f 'm') (.lsl, f 'i')),
    ok := fun f => f 'n' ≠ 15 ∧ f 't' ≠ 15 }

def ldrsbRegW : Enc :=
  { pat := c! "111110010001nnnntttt000000iimmmm", mnem := fun _ => c! "ldrsb.w",
    act := fun f => .load 8 true (f 't') (f 'n') (.reg (f 'm') (.lsl, f 'i')),
    ok := fun f => f 'n' ≠ 15 ∧ f 't' ≠ 15 }

def ldrRegW : Enc :=
  { pat := c! "111110000101nnnntttt000000iimmmm", mnem := fun _ => c! "ldr.w",
    act := fun f => .load 32 false (f 't') (f 'n') (.reg (f 'm') (.lsl, f 'i')),
    ok := fun f => f 'n' ≠ 15 }

def ldrhRegW : Enc :=
  { pat := c! "111110000011nnnntttt000000iimmmm", mnem := fun _ => c! "ldrh.w",
    act := fun f => .load 16 false (f 't') (f 'n') (.reg (f 'm') (.lsl, f 'i')),
    ok := fun f => f 'n' ≠ 15 ∧ f 't' ≠ 15 }

def ldrbRegW : Enc :=
  { pat := c! "111110000001nnnntttt000000iimmmm", mnem := fun _ => c! "ldrb.w",
    act := fun f => .load 8 false (f 't') (f 'n') (.reg (f 'm') (.lsl, f 'i')),
    ok := fun f => f 'n' ≠ 15 ∧ f 't' ≠ 15 }

def ldrhImm : Enc :=
  { pat := c! "10001iiiiinnnttt", mnem := fun _ => c! "ldrh",
    act := fun f => .load 16 false (f 't') (f 'n') (.imm (w32 (2 * f 'i'))) }

def strhImm : Enc :=
  { pat := c! "10000iiiiinnnttt", mnem := fun _ => c! "strh",
    act := fun f => .store 16 (f 't') (f 'n') (.imm (w32 (2 * f 'i'))) }

def ldrbImm : Enc :=
  { pat := c! "01111iiiiinnnttt", mnem := fun _ => c! "ldrb",
    act := fun f => .load 8 false (f 't') (f 'n') (.imm (w32 (f 'i'))) }

def strbImm : Enc :=
  { pat := c! "01110iiiiinnnttt", mnem := fun _ => c! "strb",
    act := fun f => .store 8 (f 't') (f 'n') (.imm (w32 (f 'i'))) }

def ldrImm : Enc :=
  { pat := c! "01101iiiiinnnttt", mnem := fun _ => c! "ldr",
    act := fun f => .load 32 false (f 't') (f 'n') (.imm (w32 (4 * f 'i'))) }

def strImm : Enc :=
  { pat := c! "01100iiiiinnnttt", mnem := fun _ => c! "str",
    act := fun f => .store 32 (f 't') (f 'n') (.imm (w32 (4 * f 'i'))) }

def ldrLit : Enc :=
  { pat := c! "01001tttiiiiiiii", mnem := fun _ => c! "ldr",
    act := fun f => .loadLit 32 false true (f 't') (w32 (4 * f 'i')) }

def ldrsbLitW : Enc :=
  { pat := c! "11111001u0011111ttttiiiiiiiiiiii", mnem := fun _ => c! "ldrsb.w",
    act := fun f => .loadLit 8 true (f 'u' = 1) (f 't') (w32 (f 'i')),
    ok := fun f => f 't' ≠ 15 }

def ldrshLitW : Enc :=
  { pat := c! "11111001u0111111ttttiiiiiiiiiiii", mnem := fun _ => c! "ldrsh.w",
    act := fun f => .loadLit 16 true (f 'u' = 1) (f 't') (w32 (f 'i')),
    ok := fun f => f 't' ≠ 15 }

def ldrbLitW : Enc :=
  { pat := c! "11111000u0011111ttttiiiiiiiiiiii", mnem := fun _ => c! "ldrb.w",
    act := fun f => .loadLit 8 false (f 'u' = 1) (f 't') (w32 (f 'i')),
    ok := fun f => f 't' ≠ 15 }

def ldrhLitW : Enc :=
  { pat := c! "11111000u0111111ttttiiiiiiiiiiii", mnem := fun _ => c! "ldrh.w",
    act := fun f => .loadLit 16 false (f 'u' = 1) (f 't') (w32 (f 'i')),
    ok := fun f => f 't' ≠ 15 }

def ldrLitW : Enc :=
  { pat := c! "11111000u1011111ttttiiiiiiiiiiii", mnem := fun _ => c! "ldr.w",
    act := fun f => .loadLit 32 false (f 'u' = 1) (f 't') (w32 (f 'i')),
    ok := fun f => f 't' ≠ 15 }

def ldrSp : Enc :=
  { pat := c! "10011tttiiiiiiii", mnem := fun _ => c! "ldr",
    act := fun f => .load 32 false (f 't') 13 (.imm (w32 (4 * f 'i'))) }

def strSp : Enc :=
  { pat := c! "10010tttiiiiiiii", mnem := fun _ => c! "str",
    act := fun f => .store 32 (f 't') 13 (.imm (w32 (4 * f 'i'))) }

def push : Enc :=
  { pat := c! "1011010mrrrrrrrr", mnem := fun _ => c! "push",
    act := fun f => .push (regs 0 (f 'm') (f 'r')),
    ok := fun f => f 'm' ≠ 0 ∨ f 'r' ≠ 0 }

def pushW : Enc :=
  { pat := c! "11101001001011010m0rrrrrrrrrrrrr", mnem := fun _ => c! "push.w",
    act := fun f => .push (regs 0 (f 'm') (f 'r')) }

def pushOne : Enc :=
  { pat := c! "1111100001001101tttt110100000100", mnem := fun _ => c! "push.w",
    act := fun f => .push (single (f 't')),
    ok := fun f => plainReg (f 't') }

def pop : Enc :=
  { pat := c! "1011110prrrrrrrr", mnem := fun _ => c! "pop",
    act := fun f => .pop (regs (f 'p') 0 (f 'r')),
    ok := fun f => f 'p' ≠ 0 ∨ f 'r' ≠ 0 }

def popW : Enc :=
  { pat := c! "1110100010111101pm0rrrrrrrrrrrrr", mnem := fun _ => c! "pop.w",
    act := fun f => .pop (regs (f 'p') (f 'm') (f 'r')),
    ok := fun f => 2 ≤ count (regs (f 'p') (f 'm') (f 'r')) ∧ ¬ (f 'p' = 1 ∧ f 'm' = 1) }

def popOne : Enc :=
  { pat := c! "1111100001011101tttt101100000100", mnem := fun _ => c! "pop.w",
    act := fun f => .pop (single (f 't')) }

def ldm : Enc :=
  { pat := c! "11001nnnrrrrrrrr", mnem := fun _ => c! "ldm",
    act := fun f => .ldm (f 'n') (!(f 'r').testBit (f 'n')) (regs 0 0 (f 'r')),
    ok := fun f => f 'r' ≠ 0 }

def stm : Enc :=
  { pat := c! "11000nnnrrrrrrrr", mnem := fun _ => c! "stm",
    act := fun f => .stm (f 'n') true (regs 0 0 (f 'r')),
    ok := fun f => f 'r' ≠ 0 }

def stmW : Enc :=
  { pat := c! "1110100010w0nnnn0m0rrrrrrrrrrrrr", mnem := fun _ => c! "stm.w",
    act := fun f => .stm (f 'n') (f 'w' = 1) (regs 0 (f 'm') (f 'r')),
    ok := fun f => f 'n' ≠ 15 ∧ 2 ≤ count (regs 0 (f 'm') (f 'r')) ∧ ¬ (f 'w' = 1 ∧ (regs 0 (f 'm') (f 'r')).getLsbD (f 'n') = true) }

def ldmW : Enc :=
  { pat := c! "1110100010w1nnnnpm0rrrrrrrrrrrrr", mnem := fun _ => c! "ldm.w",
    act := fun f => .ldm (f 'n') (f 'w' = 1) (regs (f 'p') (f 'm') (f 'r')),
    ok := fun f => ¬ (f 'w' = 1 ∧ f 'n' = 13) ∧ f 'n' ≠ 15 ∧ 2 ≤ count (regs (f 'p') (f 'm') (f 'r')) ∧ ¬ (f 'p' = 1 ∧ f 'm' = 1) ∧
      ¬ (f 'w' = 1 ∧ (regs (f 'p') (f 'm') (f 'r')).getLsbD (f 'n') = true) }

def cps : Enc :=
  { pat := c! "10110110011e00pf", mnem := fun f => c! "cps" ++ (if f 'e' = 0 then c! "ie" else c! "id"),
    act := fun f => .cps (f 'e' = 0) (f 'p' = 1) (f 'f' = 1),
    ok := fun f => f 'p' ≠ 0 ∨ f 'f' ≠ 0 }

def bkpt : Enc :=
  { pat := c! "10111110iiiiiiii", mnem := fun _ => c! "bkpt",
    act := fun _ => .plain }

def mrs : Enc :=
  { pat := c! "11110011111011111000ddddssssssss", mnem := fun _ => c! "mrs",
    act := fun f => .mrs (f 'd') (BitVec.ofNat 8 (f 's')),
    ok := fun f => plainReg (f 'd') ∧ special (f 's') }

def msr : Enc :=
  { pat := c! "111100111000nnnn1000kk00ssssssss", mnem := fun _ => c! "msr",
    act := fun f => .msr (f 'n') (BitVec.ofNat 2 (f 'k')) (BitVec.ofNat 8 (f 's')),
    ok := fun f => plainReg (f 'n') ∧ special (f 's') ∧ f 'k' ≠ 0 ∧ (f 'k' = 2 ∨ f 's' < 4) }

def sev : Enc :=
  { pat := c! "1011111101000000", mnem := fun _ => c! "sev",
    act := fun _ => .plain }

def wfi : Enc :=
  { pat := c! "1011111100110000", mnem := fun _ => c! "wfi",
    act := fun _ => .plain }

def wfe : Enc :=
  { pat := c! "1011111100100000", mnem := fun _ => c! "wfe",
    act := fun _ => .plain }

def yield : Enc :=
  { pat := c! "1011111100010000", mnem := fun _ => c! "yield",
    act := fun _ => .plain }

def nop : Enc :=
  { pat := c! "1011111100000000", mnem := fun _ => c! "nop",
    act := fun _ => .plain }

def isb : Enc :=
  { pat := c! "1111001110111111100011110110oooo", mnem := fun _ => c! "isb",
    act := fun _ => .plain }

def dmb : Enc :=
  { pat := c! "1111001110111111100011110101oooo", mnem := fun _ => c! "dmb",
    act := fun _ => .plain }

def dsb : Enc :=
  { pat := c! "1111001110111111100011110100oooo", mnem := fun _ => c! "dsb",
    act := fun _ => .plain }

def svc : Enc :=
  { pat := c! "11011111iiiiiiii", mnem := fun _ => c! "svc",
    act := fun _ => .plain }

def udf : Enc :=
  { pat := c! "11011110iiiiiiii", mnem := fun _ => c! "udf",
    act := fun _ => .plain }

def udfW : Enc :=
  { pat := c! "111101111111iiii1010kkkkkkkkkkkk", mnem := fun _ => c! "udf.w",
    act := fun _ => .plain }

/-- All encodings, in the order of the table of the program. -/
def encodings : List Enc := [
  bics, orrs, rorsReg, sbcs, adcs, asrsReg, lsrsReg, lslsReg, eors, ands, subsImmT1, addsImmT1, subsImmT2,
  addsImmT2, subsReg, addsReg, addRegT2, addSpImmT1, addSpRegT1, addSpRegT2, subSpImm, addSpImmT2,
  asrsImm, lsrsImm, lslsImm, rsbs, rsbW, muls, mulW, adrT1, adrAddW, adrSubW, uxtb, uxth, sxtb, sxth,
  uxtbW, uxthW, sxtbW, sxthW, revsh, rev16, rev, revshW, rev16W, revW, movReg, movsReg, movRegW, movsImm,
  movImmW, movw, mvns, mvnW, cmpImm, cmnReg, cmpRegT1, cmpRegT2, cmnImm, cmpImmW, tst, tstW, bCond, b, bl,
  blx, bx, ldrshReg, ldrbReg, ldrhReg, ldrReg, ldrsbReg, strbReg, strhReg, strReg, strRegW, strhRegW,
  strbRegW, ldrshRegW, ldrsbRegW, ldrRegW, ldrhRegW, ldrbRegW, ldrhImm, strhImm, ldrbImm, strbImm, ldrImm,
  strImm, ldrLit, ldrsbLitW, ldrshLitW, ldrbLitW, ldrhLitW, ldrLitW, ldrSp, strSp, push, pushW, pushOne,
  pop, popW, popOne, ldm, stm, stmW, ldmW, cps, bkpt, mrs, msr, sev, wfi, wfe, yield, nop, isb, dmb, dsb,
  svc, udf, udfW]

end Thumb
end Verif
