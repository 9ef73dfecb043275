import Verif.Spec.Text
import Verif.Thumb

/-!
# Reading assembly text

A specification, not part of the model: how a person reads the operands of an instruction,
and which operands the manual's syntax gives to an instruction.
-/

namespace Verif

/-- An operand as it is read. `reg r bang` is a register, `bang` if an exclamation mark
follows it; `label x` is the place `x` bytes after this instruction; `word` is any other
name. -/
inductive Piece where
  | reg (r : Nat) (bang : Bool)
  | regs (l : List Nat)
  | num (v : Int)
  | label (x : Int)
  | shift (t : SRType) (k : Nat)
  | word (s : Str)
deriving DecidableEq, Repr

/-- An operand or a list of them in square brackets. -/
inductive Item where
  | one (p : Piece)
  | mem (l : List Piece)
deriving DecidableEq, Repr

namespace Reader

/-- The shift with this name. -/
def shiftNamed (s : Str) : Option SRType :=
  if s = c! "LSL" then some .lsl
  else if s = c! "LSR" then some .lsr
  else if s = c! "ASR" then some .asr
  else if s = c! "ROR" then some .ror
  else if s = c! "RRX" then some .rrx
  else none

/-- A number after `#`. -/
def hashed : Str → Option Nat
  | '#' :: t => nat 10 t
  | _ => none

/-- A shift: a name, a space, `#` and a number. -/
def shift (s : Str) : Option Piece :=
  match split ' ' s with
  | [a, b] =>
    match shiftNamed a, hashed b with
    | some t, some k => some (.shift t k)
    | _, _ => none
  | _ => none

/-- A register with or without an exclamation mark. -/
def register (s : Str) : Option Piece :=
  match reg s with
  | some r => some (.reg r false)
  | none => if s.getLast? = some '!' then (reg s.dropLast).map fun r => .reg r true else none

/-- An operand without brackets. -/
def piece : Str → Option Piece
  | '#' :: t => (int 10 t).map .num
  | '.' :: t => (int 10 t).map .label
  | '{' :: t => (reglist ('{' :: t)).map .regs
  | s =>
    match shift s with
    | some p => some p
    | none => some ((register s).getD (.word s))

/-- Without a space in front. -/
def trim : Str → Str
  | ' ' :: t => t
  | s => s

/-- All of them, if all can be read. -/
def allRead {α : Type} (f : Str → Option α) : List Str → Option (List α)
  | [] => some []
  | s :: t =>
    match f s, allRead f t with
    | some a, some l => some (a :: l)
    | _, _ => none

/-- An operand. -/
def item : Str → Option Item
  | '[' :: t =>
    if t.getLast? = some ']' then (allRead piece ((split ',' t.dropLast).map trim)).map .mem else none
  | s => (piece s).map .one

/-- A hexadecimal number with `0x`. -/
def hex : Str → Option Int
  | '0' :: 'x' :: t => int 16 t
  | _ => none

/-- Cutting at the commas that are not in brackets. -/
def cut : Bool → Str → List Str
  | _, [] => [[]]
  | inside, x :: t =>
    if x = ',' ∧ inside = false then [] :: cut false t
    else
      match cut (if x = '[' ∨ x = '{' then true else if x = ']' ∨ x = '}' then false else inside) t with
      | [] => [[x]]
      | h :: r => (x :: h) :: r

/-- Without spaces at the end. -/
def trimEnd (s : Str) : Str := (s.reverse.dropWhile (· = ' ')).reverse

/-- The operands. -/
def items (s : Str) : Option (List Item) := if s = [] then some [] else allRead item ((cut false s).map trim)

/-- A line: the halfwords of the encoding, the mnemonic, the operands and the numbers in the
comment. -/
structure Line where
  words : List Nat
  mnemonic : Str
  operands : List Item
  notes : List Int
deriving DecidableEq, Repr

/-- The numbers in a comment. -/
def notes (s : Str) : Option (List Int) := allRead hex (split ' ' (trim s))

/-- The part before the comment: the encoding in the first twelve columns, a space, the
mnemonic in eight columns, the operands. -/
def body (s : Str) (notes : List Int) : Option Line :=
  match allRead (nat 16) (split ' ' (trimEnd (s.take 12))), items (trimEnd (s.drop 21)) with
  | some words, some operands => some ⟨words, trimEnd ((s.drop 13).take 8), operands, notes⟩
  | _, _ => none

/-- A line. -/
def line (s : Str) : Option Line :=
  match split ';' s with
  | [a] => body a []
  | [a, b] =>
    match notes b with
    | some l => body a l
    | none => none
  | _ => none

example : line (c! "1c4b         adds    r3, r1, #1") = some ⟨[0x1c4b], c! "adds", [.one (.reg 3 false), .one (.reg 1 false), .one (.num 1)], []⟩ := by
  decide
example : line (c! "f8d1 2010    ldr.w   r2, [r1, #16]        ; 0x10") =
    some ⟨[0xf8d1, 0x2010], c! "ldr.w", [.one (.reg 2 false), .mem [.reg 1 false, .num 16]], [16]⟩ := by
  decide

example : item (c! "[r1, #4]") = some (.mem [.reg 1 false, .num 4]) := by decide
example : item (c! "[sp, r2, LSL #3]") = some (.mem [.reg 13 false, .reg 2 false, .shift .lsl 3]) := by decide
example : item (c! "r3!") = some (.one (.reg 3 true)) := by decide
example : item (c! ".-8") = some (.one (.label (-8))) := by decide
example : item (c! "PRIMASK") = some (.one (.word (c! "PRIMASK"))) := by decide
example : item (c! "r16") = some (.one (.word (c! "r16"))) := by decide
example : hex (c! "0x1f") = some 31 := by decide

end Reader

namespace Thumb

/-- A register operand. -/
abbrev R (r : Nat) : Item := .one (.reg r false)
/-- A number operand. -/
abbrev N (v : Int) : Item := .one (.num v)
/-- A shift operand. -/
abbrev S (s : SRType × Nat) : Item := .one (.shift s.1 s.2)

/-- The second operand. -/
def Src.item : Src → Item
  | .reg m => R m
  | .imm v => N v.toNat

/-- The registers of a list. -/
def members (l : BitVec 16) : List Nat := (List.range 16).filter fun r => l.getLsbD r

/-- The offset; a zero constant and a shift by zero may be left out. -/
def Off.Written : Off → List Piece → Prop
  | .imm v, l => l = [.num v.toNat] ∨ (v = 0#32 ∧ l = [])
  | .reg m s, l => l = [.reg m false, .shift s.1 s.2] ∨ (s.2 = 0 ∧ l = [.reg m false])

/-- Three registers; the second may be left out if it is the first. -/
def Three (d n : Nat) (last : Item) (l : List Item) : Prop := l = [R d, R n, last] ∨ (d = n ∧ l = [R d, last])

/-- A shift by zero may be left out. -/
def Shifted (l : List Item) (first : List Item) (s : SRType × Nat) : Prop := l = first ++ [S s] ∨ (s.2 = 0 ∧ l = first)

/-- The special registers by number. -/
def specialName (s : BitVec 8) : Str :=
  match s.toNat with
  | 0 => c! "APSR" | 1 => c! "IAPSR" | 2 => c! "EAPSR" | 3 => c! "XPSR"
  | 5 => c! "IPSR" | 6 => c! "EPSR" | 7 => c! "IEPSR" | 8 => c! "MSP" | 9 => c! "PSP"
  | 16 => c! "PRIMASK" | 17 => c! "BASEPRI" | 18 => c! "BASEPRI_MAX" | 19 => c! "FAULTMASK" | 20 => c! "CONTROL"
  | _ => []

/-- The bits of APSR that are written. -/
def bitsName (k : BitVec 2) : Str :=
  match k.toNat with
  | 1 => c! "_g"
  | 2 => c! "_nzcvq"
  | 3 => c! "_nzcvqg"
  | _ => []

/-- What CPS changes. -/
def cpsName (pri fault : Bool) : Str :=
  match pri, fault with
  | true, true => c! "if"
  | true, false => c! "i"
  | false, true => c! "f"
  | false, false => []

/-- The operands of the instructions that do nothing to the registers. -/
def Hint (e : Enc) (f : Char → Nat) (l : List Item) : Prop :=
  if e.mnem f ∈ [c! "bkpt", c! "svc", c! "udf"] then l = [N (f 'i')]
  else if e.mnem f = c! "udf.w" then l = [N (4096 * f 'i' + f 'k' : Nat)]
  else if e.mnem f ∈ [c! "isb", c! "dmb", c! "dsb"] then l = [if f 'o' = 15 then .one (.word (c! "sy")) else N (f 'o')]
  else l = []

/-- The operands of the instruction `e` with the fields `f` at the address `a`. -/
def Written (e : Enc) (f : Char → Nat) (a : Int) (l : List Item) : Prop :=
  match e.act f with
  | .addSub _ _ _ d n src => Three d n src.item l
  | .rsb _ d n imm => Three d n (N imm.toNat) l
  | .logic _ _ d n m => Three d n (R m) l
  | .bic _ d n m => Three d n (R m) l
  | .shiftImm _ _ d m k => l = [R d, R m, N k]
  | .shiftReg _ _ d n m => Three d n (R m) l
  | .mul _ d n m => Three d n (R m) l
  | .adr add d imm => ∃ x, l = [R d, .one (.label x)] ∧
      a + x = (a + 4) / 4 * 4 + (if add then (imm.toNat : Int) else -(imm.toNat : Int))
  | .extend _ _ rotation d m => Shifted l [R d, R m] (.ror, rotation)
  | .rev _ d m => l = [R d, R m]
  | .mov _ _ d src _ => l = [R d, src.item]
  | .mvnShift _ d m s => Shifted l [R d, R m] s
  | .cmp _ n src => l = [R n, src.item]
  | .tst n m s => Shifted l [R n, R m] s
  | .branch _ offset => l = [.one (.label (offset.toInt + 4))]
  | .bl offset => l = [.one (.label (offset.toInt + 4))]
  | .blx m => l = [R m]
  | .bx m => l = [R m]
  | .load _ _ t n off => ∃ o, off.Written o ∧ l = [R t, .mem (.reg n false :: o)]
  | .store _ t n off => ∃ o, off.Written o ∧ l = [R t, .mem (.reg n false :: o)]
  | .loadLit _ _ add t imm => l = [R t, .mem [.reg 15 false, .num (if add then (imm.toNat : Int) else -(imm.toNat : Int))]] ∨
      (imm = 0#32 ∧ l = [R t, .mem [.reg 15 false]])
  | .push r => l = [.one (.regs (members r))]
  | .pop r => l = [.one (.regs (members r))]
  | .ldm n wback r => l = [.one (.reg n wback), .one (.regs (members r))]
  | .stm n wback r => l = [.one (.reg n wback), .one (.regs (members r))]
  | .cps _ pri fault => l = [.one (.word (cpsName pri fault))]
  | .mrs d s => l = [R d, .one (.word (specialName s))]
  | .msr n k s => l = [.one (.word (specialName s ++ (if s.toNat < 4 then bitsName k else []))), R n]
  | .plain => Hint e f l

end Thumb

/-- The numbers in the comment: numbers above 9, and the addresses of labels. -/
def Piece.noted (a : Int) : Piece → List Int
  | .num v => if 9 < v then [v] else []
  | .label x => [a + x]
  | _ => []

def Item.noted (a : Int) : Item → List Int
  | .one p => Piece.noted a p
  | .mem l => l.flatMap (Piece.noted a)

end Verif
