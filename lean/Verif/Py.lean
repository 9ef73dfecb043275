/-!
# Python primitives

The parts of Python 2.7 the modelled code relies on: exceptions, the bit
operators on integers of either sign, and slice bounds. Strings are modelled as
lists of characters.
-/

namespace Verif

/-- Text. Python `str`; only ASCII is used by the modelled code. -/
abbrev Str := List Char

/-- `c! "abc"` is the list of characters of a literal. -/
syntax "c! " str : term

open Lean in
macro_rules
  | `(c! $s:str) => do
    let cs := s.getString.toList.map fun c => Syntax.mkCharLit c
    let ts : Array (TSyntax `term) := (cs.map fun c => (⟨c.raw⟩ : TSyntax `term)).toArray
    `(([$ts,*] : List Char))

/-- The exceptions the library can raise. `UndefinedInstructionError`, `DecodeError` and
`UnpredictableError` are those of `decoder.py` 71-84; the others are Python's own. -/
inductive PyErr where
  | valueError
  | typeError
  | assertionError
  | indexError
  | keyError
  | attributeError
  | nameError
  | zeroDivisionError
  | undefinedInstruction
  | decodeError
  | unpredictable
deriving DecidableEq, Repr

/-- Python expressions that may raise. -/
abbrev PyRes := Except PyErr

instance {α : Type} [DecidableEq α] : DecidableEq (PyRes α)
  | .ok a, .ok b => if h : a = b then .isTrue (by rw [h]) else .isFalse (by intro h'; cases h'; exact h rfl)
  | .error a, .error b => if h : a = b then .isTrue (by rw [h]) else .isFalse (by intro h'; cases h'; exact h rfl)
  | .ok _, .error _ => .isFalse (by intro h; cases h)
  | .error _, .ok _ => .isFalse (by intro h; cases h)

/-- `c in string.whitespace`; also C's `isspace`. -/
def isSpace (c : Char) : Bool := c = ' ' || c = '\t' || c = '\n' || c = '\r' || c = '\x0b' || c = '\x0c'

/-- `m & ~n` on non-negative integers. -/
def natAndNot (m n : Nat) : Nat := m ^^^ (m &&& n)

/-- Python's `&` on integers: infinite two's complement. -/
def pyAnd : Int → Int → Int
  | .ofNat m, .ofNat n => .ofNat (m &&& n)
  | .ofNat m, .negSucc n => .ofNat (natAndNot m n)
  | .negSucc m, .ofNat n => .ofNat (natAndNot n m)
  | .negSucc m, .negSucc n => .negSucc (m ||| n)

/-- Python's `|` on integers. -/
def pyOr : Int → Int → Int
  | .ofNat m, .ofNat n => .ofNat (m ||| n)
  | .ofNat m, .negSucc n => .negSucc (natAndNot n m)
  | .negSucc m, .ofNat n => .negSucc (natAndNot m n)
  | .negSucc m, .negSucc n => .negSucc (m &&& n)

/-- Python's `^` on integers. -/
def pyXor : Int → Int → Int
  | .ofNat m, .ofNat n => .ofNat (m ^^^ n)
  | .ofNat m, .negSucc n => .negSucc (m ^^^ n)
  | .negSucc m, .ofNat n => .negSucc (m ^^^ n)
  | .negSucc m, .negSucc n => .ofNat (m ^^^ n)

/-- Python's `~` on integers. -/
def pyNot (v : Int) : Int := -v - 1

/-- Python's `v << n`; a negative amount raises `ValueError`. -/
def pyShl (v n : Int) : PyRes Int :=
  if n < 0 then .error .valueError else .ok (v * 2 ^ n.toNat)

/-- Python's `v >> n` (floor); a negative amount raises `ValueError`. -/
def pyShr (v n : Int) : PyRes Int :=
  if n < 0 then .error .valueError else .ok (v / 2 ^ n.toNat)

/-- `v & (2**w - 1)` for an integer of either sign, as a natural number. The
result of `&` with a non-negative operand is non-negative. -/
def maskTo (v : Int) (w : Nat) : Nat := (pyAnd v ((2 : Int) ^ w - 1)).toNat

/-- A slice object `start:stop:step`; `none` is an omitted part. -/
structure PySlice where
  start : Option Int
  stop : Option Int
  step : Option Int
deriving DecidableEq, Repr

/-- `slice.indices(length)` (CPython `PySlice_AdjustIndices`): the concrete start,
stop and step; a zero step raises `ValueError`. -/
def PySlice.indices (s : PySlice) (len : Nat) : PyRes (Int × Int × Int) :=
  let n : Int := len
  let step := s.step.getD 1
  if step = 0 then .error .valueError
  else
    let lo : Int := if step < 0 then -1 else 0
    let hi : Int := if step < 0 then n - 1 else n
    let clip (v : Int) : Int :=
      if v < 0 then (if v + n < lo then lo else v + n)
      else (if v > hi then hi else v)
    let start := match s.start with
      | none => if step < 0 then hi else lo
      | some v => clip v
    let stop := match s.stop with
      | none => if step < 0 then lo else hi
      | some v => clip v
    .ok (start, stop, step)

end Verif
