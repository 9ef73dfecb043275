import re
exec(open('/verif/tools/thumb.py').read())
head='''import Verif.Arm
import Verif.Instr
import Verif.Props.C16to20

/-!
# The Thumb encodings, from the Arm architecture manual

A specification, not part of the model: each encoding as the bit diagram of the manual
(first halfword, then second), what it means (`Act`) and when it is that encoding (`ok`).
Letters in a diagram are fields; the bits of a field may be apart, its value is read from
left to right.
-/

namespace Verif
namespace Thumb

/-- A second operand. -/
inductive Src where
  | reg (m : Nat)
  | imm (v : Word)
deriving DecidableEq, Repr

/-- An offset of a load or store: a constant or a shifted register. -/
inductive Off where
  | imm (v : Word)
  | reg (m : Nat) (shift : SRType × Nat)
deriving DecidableEq, Repr

/-- The byte reversals. -/
inductive RevKind where
  | rev | rev16 | revsh
deriving DecidableEq, Repr

/-- What an instruction does, in terms of registers and constants.

`addSub sub carry flags d n src`; `cmp sub n src` is CMP for `sub`, else CMN; `mov neg
flags d src`; `branch cond offset` relative to PC. -/
inductive Act where
  | addSub (sub carry flags : Bool) (d n : Nat) (src : Src)
  | rsb (flags : Bool) (d n : Nat) (imm : Word)
  | logic (f : BitFn) (flags : Bool) (d n m : Nat)
  | bic (flags : Bool) (d n m : Nat)
  | shiftImm (t : SRType) (flags : Bool) (d m k : Nat)
  | shiftReg (t : SRType) (flags : Bool) (d n m : Nat)
  | mul (flags : Bool) (d n m : Nat)
  | adr (add : Bool) (d : Nat) (imm : Word)
  | extend (signed : Bool) (width rotation d m : Nat)
  | rev (kind : RevKind) (d m : Nat)
  | mov (neg flags : Bool) (d : Nat) (src : Src)
  | mvnShift (flags : Bool) (d m : Nat) (shift : SRType × Nat)
  | cmp (sub : Bool) (n : Nat) (src : Src)
  | tst (n m : Nat) (shift : SRType × Nat)
  | branch (cond : Nat) (offset : Word)
  | bl (offset : Word)
  | blx (m : Nat)
  | bx (m : Nat)
  | load (size : Nat) (signed : Bool) (t n : Nat) (off : Off)
  | store (size : Nat) (t n : Nat) (off : Off)
  | loadLit (size : Nat) (signed add : Bool) (t : Nat) (imm : Word)
  | push (regs : BitVec 16)
  | pop (regs : BitVec 16)
  | ldm (n : Nat) (wback : Bool) (regs : BitVec 16)
  | stm (n : Nat) (wback : Bool) (regs : BitVec 16)
  | cps (enable pri fault : Bool)
  | mrs (d : Nat) (sysm : BitVec 8)
  | msr (n : Nat) (mask : BitVec 2) (sysm : BitVec 8)
  | plain
deriving DecidableEq, Repr

/-- The letter of a diagram at a bit of the word: the first halfword is the low one. -/
def letter (pat : Str) (k : Nat) : Char := (pat[if k < 16 then 15 - k else 47 - k]?).getD '?'

/-- Whether a word has the fixed bits of a diagram. -/
def fits (pat : Str) (w : Nat) : Bool :=
  (List.range pat.length).all fun k =>
    !(letter pat k == '0' && w.testBit k) && !(letter pat k == '1' && !w.testBit k)

/-- The bits of the word that belong to a field, from left to right in the diagram. -/
def places (pat : Str) (c : Char) : List Nat :=
  ((List.range 16).reverse ++ ((List.range 16).map (16 + ·)).reverse).filter fun k => letter pat k = c

/-- The number with these bits, the first one highest. -/
def bitsValue (w : Nat) (ps : List Nat) : Nat := ps.foldl (fun v k => 2 * v + (w.testBit k).toNat) 0

/-- The value of a field. -/
def field (pat : Str) (w : Nat) (c : Char) : Nat := bitsValue w (places pat c)

/-- An encoding. -/
structure Enc where
  pat : Str
  mnem : (Char → Nat) → Str
  act : (Char → Nat) → Act
  ok : (Char → Nat) → Bool := fun _ => true

/-- The word is this encoding. -/
def Enc.Is (e : Enc) (w : Nat) : Prop := w < 2 ^ e.pat.length ∧ fits e.pat w = true ∧ e.ok (field e.pat w) = true

/-- A constant as a word. -/
def w32 (n : Nat) : Word := BitVec.ofNat 32 n

/-- `ThumbExpandImm` of i:imm3:imm8. -/
def expand (n : Nat) : Word := (C19.armExpand (BitVec.ofNat 12 n) false).1

/-- `DecodeImmShift`. -/
def immShift (t i : Nat) : SRType × Nat := C18.armImmShift (BitVec.ofNat 2 t) (BitVec.ofNat 5 i)

/-- An `n`-bit number with its sign. -/
def signed (n v : Nat) : Word := (BitVec.ofNat n v).signExtend 32

/-- The offset of BL: S:I1:I2:imm10:imm11:0 with I1 = NOT(J1 EOR S), I2 = NOT(J2 EOR S). -/
def blOffset (s j1 j2 i : Nat) : Word :=
  signed 25 (s * 2 ^ 24 + (if j1 = s then 1 else 0) * 2 ^ 23 + (if j2 = s then 1 else 0) * 2 ^ 22 + i * 2)

/-- A register list: P, M and the low registers. -/
def regs (p m r : Nat) : BitVec 16 := BitVec.ofNat 16 (p * 2 ^ 15 + m * 2 ^ 14 + r)

/-- The list of one register. -/
def single (t : Nat) : BitVec 16 := BitVec.ofNat 16 (2 ^ t)

/-- The number of registers in a list. -/
def count (r : BitVec 16) : Nat := ((List.range 16).filter fun k => r.getLsbD k).length

/-- Neither SP nor PC. -/
def plainReg (r : Nat) : Bool := r ≠ 13 && r ≠ 15

/-- The special registers of MRS and MSR. -/
def special (s : Nat) : Bool := s ≤ 3 || (5 ≤ s && s ≤ 9) || (16 ≤ s && s ≤ 20)

/-- The suffix of the 32-bit forms that may set flags. -/
def dotW (s : Nat) : Str := if s = 1 then c! "s.w" else c! ".w"

/-- The condition names. -/
def condText (c : Nat) : Str :=
  [c! "eq", c! "ne", c! "cs", c! "cc", c! "mi", c! "pl", c! "vs", c! "vc", c! "hi", c! "ls", c! "ge", c! "lt",
    c! "gt", c! "le"].getD c []
'''
def imm(a):
    # wrap constants
    out=''; i=0
    while True:
        j=a.find('.imm (',i)
        if j<0: return out+a[i:]
        k=j+6; d=1
        while d: d+= {'(':1,')':-1}.get(a[k],0); k+=1
        inner=a[j+6:k-1]
        out+=a[i:j]+'.imm ('+(inner if inner.startswith('expand') else 'w32 (%s)'%inner)+')'
        i=k
def act(a):
    a=imm(a)
    if a.startswith('.rsb') and a.endswith(' 0'): a=a[:-2]+' 0#32'
    if a.startswith('.adr') or a.startswith('.loadLit'):
        k=a.rindex(' (',0,len(a)) if a.endswith(')') else 0
        # last paren group
        d=0;k=len(a)
        while True:
            k-=1; d+={')':1,'(':-1}.get(a[k],0)
            if d==0: break
        a=a[:k]+'(w32 '+a[k:]+')'
    if a.startswith('.mrs'): a=".mrs (f 'd') (BitVec.ofNat 8 (f 's'))"
    if a.startswith('.msr'): a=".msr (f 'n') (BitVec.ofNat 2 (f 'k')) (BitVec.ofNat 8 (f 's'))"
    return ('fun f => ' if "f '" in a else 'fun _ => ')+a
names=[r[0] for r in rows]
assert len(set(names))==len(names)
print(head)
for nm,pat,mn,a,ok in rows:
    print('def %s : Enc :='%nm)
    print('  { pat := c! "%s", mnem := %s,\n    act := %s%s }\n'%(pat,mn,act(a),'' if ok is None else ',\n    ok := fun f => %s'%ok))
lines=[];cur='  '
for n in names:
    if len(cur)+len(n)>105: lines.append(cur.rstrip()); cur='  '
    cur+=n+', '
lines.append(cur.rstrip(', '))
print('/-- All encodings, in the order of the table of the program. -/\ndef encodings : List Enc := [\n'+'\n'.join(lines)+']\n\nend Thumb\nend Verif')
