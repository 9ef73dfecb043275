import Verif.Py

/-!
# `cmdis/bitstring.py`

A bitstring object has the three slots `_width`, `_value` and `_mask`. Python
methods that change the object return the changed object here; methods that
change an object *and* return something else return both.
-/

namespace Verif

/-- The slots of a `bitstring` object (`bitstring.py` 23-24). All three hold
non-negative integers: every assignment to `_value` is masked or built from
non-negative parts, and a negative width makes the constructor raise. -/
structure BS where
  width : Nat
  value : Nat
  mask : Nat
deriving DecidableEq, Repr

/-- Argument types the methods distinguish. `seq` is a list or tuple of
non-negative integers (Simplification: elements that are negative or not integers
are not modelled), `bytes` a `bytearray`, `other` an object of any other type. -/
inductive PyVal where
  | none
  | bs (b : BS)
  | int (v : Int)
  | str (s : Str)
  | seq (l : List Nat)
  | bytes (l : List Nat)
  | other
deriving DecidableEq, Repr

namespace BS

/-- Masking and storing, `bitstring.py` 60-62, with the width already chosen. -/
def ofInt (v : Int) (w : Nat) : BS :=
  { width := w, value := maskTo v w, mask := 2 ^ w - 1 }

/-- The characters 0 and 1. -/
def isBit (c : Char) : Bool := c = '0' || c = '1'

/-- The number a text of 0 and 1 denotes, read on after `acc`. -/
def bitsNumber (s : Str) (acc : Nat) : Nat := s.foldl (fun a c => 2 * a + (if c = '1' then 1 else 0)) acc

/-- The sign of a number: whether it is negative, and the rest. -/
def takeSign : Str → Bool × Str
  | '-' :: t => (true, t)
  | '+' :: t => (false, t)
  | s => (false, s)

/-- A prefix `0b` or `0B` is skipped if a digit follows. -/
def skip0b : Str → Str
  | '0' :: b :: d :: t => if (b = 'b' || b = 'B') && isBit d then d :: t else '0' :: b :: d :: t
  | s => s

/-- `int(s, base=2)` of Python 2 (`bitstring.py` 41): blanks, a sign, blanks, a prefix `0b`,
digits, blanks. -/
def intBase2 (s : Str) : PyRes Int :=
  let (neg, s) := takeSign (s.dropWhile isSpace)
  let s := skip0b (s.dropWhile isSpace)
  let digits := s.takeWhile isBit
  if digits = [] ∨ ¬ (s.dropWhile isBit).all isSpace then .error .valueError
  else .ok (if neg then -(bitsNumber digits 0 : Int) else bitsNumber digits 0)

/-- `functools.reduce(lambda x,y: (x << 1) | y, val)` (`bitstring.py` 46); an empty
sequence raises `TypeError`. -/
def reduceSeq : List Nat → PyRes Nat
  | [] => .error .typeError
  | x :: xs => .ok (xs.foldl (fun a y => (a <<< 1) ||| y) x)

/-- The loop over a bytearray, `bitstring.py` 50-52. -/
def bytesValue : List Nat → Nat → Nat → Nat
  | [], _, acc => acc
  | b :: t, i, acc => bytesValue t (i + 1) (acc ||| (b <<< (i * 8)))

/-- Width and value before masking, by argument type (`bitstring.py` 28-54). -/
def initRaw : PyVal → PyRes (Nat × Int)
  | .none => .ok (0, 0)
  | .bs b => .ok (b.width, b.value)
  | .int v => .ok (if v > 2 ^ 32 then 64 else 32, v)
  | .str s => do
      let v ← intBase2 s
      .ok (s.length, v)
  | .seq l => do
      let v ← reduceSeq l
      .ok (l.length, v)
  | .bytes l => .ok (l.length * 8, bytesValue l 0 0)
  | .other => .error .typeError

/-- `bitstring(val, width)`, `bitstring.py` 26-62. A negative width raises
`ValueError` at `1 << self._width`. -/
def init (val : PyVal) (width : Option Int := none) : PyRes BS := do
  let (w0, v) ← initRaw val
  let w : Int := width.getD w0
  if w < 0 then .error .valueError
  else .ok (ofInt v w.toNat)

/-- The `value` setter, `bitstring.py` 68-70. -/
def setValue (b : BS) (v : Int) : BS :=
  { b with value := (pyAnd v b.mask).toNat }

/-- The `unsigned` property, `bitstring.py` 85-87. -/
def unsigned (b : BS) : Nat := b.value

/-- `inverted`, `bitstring.py` 89-91: a new object. -/
def inverted (b : BS) : BS := ofInt (natAndNot b.mask b.value) b.width

/-- `invert()`, `bitstring.py` 323-325: the object after the call, which is also
the object returned. `__invert__` (512-513), that is `~b`, is the same call. -/
def invert (b : BS) : BS := inverted b

/-- `signed`, `bitstring.py` 72-83: the number returned and the object afterwards.
When the top bit is set line 80 calls `self.invert()`, which changes the object. -/
def signed (b : BS) : Int × BS :=
  if b.width < 2 then (0, b)
  else
    let w1 := b.width - 1
    let s := (b.value >>> w1) &&& 1
    if s ≠ 0 then
      let b' := b.invert
      (-((b'.value &&& (2 ^ w1 - 1) : Nat) : Int) - 1, b')
    else
      (((b.value &&& (2 ^ w1 - 1) : Nat) : Int), b)

/-- The `width` setter, `bitstring.py` 103-107. Simplification: a negative width
raises `ValueError` here without recording that `_width` was already assigned. -/
def setWidth (b : BS) (w : Int) : PyRes BS :=
  if w < 0 then .error .valueError
  else .ok { width := w.toNat, value := b.value &&& (2 ^ w.toNat - 1), mask := 2 ^ w.toNat - 1 }

/-- The digit `str((v >> i) & 1)`. -/
def bitChar (v i : Nat) : Char := if (v >>> i) &&& 1 = 1 then '1' else '0'

/-- The loop of `binary_string`, `bitstring.py` 113-118: bit `i` is put in front. -/
def binaryLoop (v : Nat) : Nat → Str
  | 0 => []
  | n + 1 => bitChar v n :: binaryLoop v n

/-- `binary_string`, `bitstring.py` 113-118. -/
def binaryString (b : BS) : Str := binaryLoop b.value b.width

/-- `reversed`, `bitstring.py` 93-97. -/
def reversed (b : BS) : PyRes BS :=
  init (.str b.binaryString.reverse) (some b.width)

/-- `reverse()`, `bitstring.py` 301-303: the object afterwards. -/
def reverse (b : BS) : PyRes BS := reversed b

/-- `bytes`, `bitstring.py` 120-125. -/
def bytes (b : BS) : List Nat :=
  (List.range ((b.width + 7) / 8)).map fun i => (b.value >>> (i * 8)) &&& 0xff

/-- Text of a natural number in a base, without prefix and without leading zeros. -/
def natText (base n : Nat) : Str := Nat.toDigits base n

/-- `base_string(base)`, `bitstring.py` 127-141, for Python 2: `oct(n)` has one
leading `0`, and `oct(0)` is `"0"`, so that `[1:]` leaves nothing. -/
def baseString (b : BS) (base : Nat) : PyRes Str :=
  if base = 2 then .ok (natText 10 b.width ++ c! "'b" ++ b.binaryString)
  else if base = 8 then
    .ok (natText 10 b.width ++ c! "'o" ++ (if b.value = 0 then [] else natText 8 b.value))
  else if base = 10 then .ok (natText 10 b.width ++ c! "'d" ++ natText 10 b.value)
  else if base = 16 then .ok (natText 10 b.width ++ c! "'h" ++ natText 16 b.value)
  else .error .valueError

/-- `__repr__`, `bitstring.py` 143-144. `__hash__` (146-147) is a function of it. -/
def repr (b : BS) : Str := natText 10 b.width ++ c! "'b" ++ b.binaryString

/-- `__hex__`, `bitstring.py` 515-516: `"%d'h%0*x"`. -/
def hexText (b : BS) : Str :=
  let d := natText 16 b.value
  natText 10 b.width ++ c! "'h" ++ (List.replicate ((b.width + 3) / 4 - d.length) '0' ++ d)

/-- `__eq__`, `bitstring.py` 149-160: the answer (`none` is `NotImplemented`) and
the object afterwards. -/
def eqOp (b : BS) (o : PyVal) : PyRes (Option Bool × BS) :=
  match o with
  | .int v =>
      if v < 0 then
        let (s, b') := b.signed
        .ok (some (s == v), b')
      else .ok (some ((b.value : Int) == v), b)
  | .str s => do
      let c ← init (.str s)
      .ok (some (b.width == c.width && b.value == c.value), b)
  | .bs c => .ok (some (b.width == c.width && b.value == c.value), b)
  | _ => .ok (none, b)

/-- Truth value of what a comparison method returned: `NotImplemented` is true. -/
def truthy : Option Bool → Bool
  | some x => x
  | none => true

/-- `__ne__`, `bitstring.py` 162-163. -/
def neOp (b : BS) (o : PyVal) : PyRes (Bool × BS) := do
  let (r, b') ← b.eqOp o
  .ok (!truthy r, b')

/-- The comparison of two bitstrings, `bitstring.py` 175-176. -/
def ltBS (b c : BS) : Bool :=
  if b.value = c.value then b.width < c.width else b.value < c.value

/-- `__lt__`, `bitstring.py` 165-177. -/
def ltOp (b : BS) (o : PyVal) : PyRes (Option Bool × BS) :=
  match o with
  | .int v =>
      if v < 0 then
        let (s, b') := b.signed
        .ok (some (decide (s < v)), b')
      else .ok (some (decide ((b.value : Int) < v)), b)
  | .str s => do
      let c ← init (.str s)
      .ok (some (ltBS b c), b)
  | .bs c => .ok (some (ltBS b c), b)
  | _ => .ok (none, b)

/-- `__le__`, `bitstring.py` 179-180: `or` returns the first operand if it is true,
otherwise the second, evaluated on the object as the first left it. -/
def leOp (b : BS) (o : PyVal) : PyRes (Option Bool × BS) := do
  let (r, b') ← b.eqOp o
  if truthy r then .ok (r, b') else b'.ltOp o

/-- `__gt__`, `bitstring.py` 182-183. -/
def gtOp (b : BS) (o : PyVal) : PyRes (Bool × BS) := do
  let (r, b') ← b.leOp o
  .ok (!truthy r, b')

/-- `__ge__`, `bitstring.py` 185-186. -/
def geOp (b : BS) (o : PyVal) : PyRes (Bool × BS) := do
  let (r, b') ← b.ltOp o
  .ok (!truthy r, b')

/-- `b == "..."` where the text is a literal of 0 and 1, as the library uses it:
the answer alone (comparing with a string never changes the object). -/
def isStr (b : BS) (s : Str) : PyRes Bool := do
  let (r, _) ← b.eqOp (.str s)
  .ok (truthy r)

/-- `__nonzero__`, `bitstring.py` 188-189. -/
def nonzero (b : BS) : Bool := b.value ≠ 0

/-- `get_bit`, `bitstring.py` 200-203. -/
def getBit (b : BS) (pos : Int) : PyRes BS :=
  let p := if pos < 0 then (b.width : Int) + pos else pos
  if p < 0 then .error .valueError
  else .ok (ofInt (((b.value >>> p.toNat) &&& 1 : Nat) : Int) 1)

/-- `get_bit_value`, `bitstring.py` 205-206. -/
def getBitValue (b : BS) (pos : Int) : PyRes Nat :=
  if pos < 0 then .error .valueError
  else .ok ((b.value >>> pos.toNat) &&& 1)

/-- The loop of `bit_count`, `bitstring.py` 208-214. The first argument
bounds the number of rounds. -/
def bitCountLoop : Nat → Nat → Nat → Nat
  | 0, _, count => count
  | fuel + 1, v, count => if v = 0 then count else bitCountLoop fuel (v >>> 1) (count + (v &&& 1))

/-- `bit_count`, `bitstring.py` 208-214. The loop ends after
one round per binary digit of the value, so the bound is never reached. -/
def bitCount (b : BS) : Nat := bitCountLoop (b.value.log2 + 1) b.value 0

/-- `is_zero`, `bitstring.py` 216-217. -/
def isZero (b : BS) : Bool := b.value = 0

/-- `is_ones`, `bitstring.py` 219-220. -/
def isOnes (b : BS) : Bool := b.value = b.mask

/-- The module object `bit0`, `bitstring.py` 518. -/
def bit0 : BS := ⟨1, 0, 1⟩

/-- The module object `bit1`, `bitstring.py` 519. -/
def bit1 : BS := ⟨1, 1, 1⟩

/-- `is_zero_bit`, `bitstring.py` 222-223. -/
def isZeroBit (b : BS) : BS := if b.isZero then bit1 else bit0

/-- `is_ones_bit`, `bitstring.py` 225-226. -/
def isOnesBit (b : BS) : BS := if b.isOnes then bit1 else bit0

/-- The loop of `lowest_set_bit`: `n` is the loop variable, `v` the shifted value,
the first argument the number of rounds left. -/
def lowestLoop : Nat → Nat → Nat → Option Nat
  | 0, _, _ => none
  | k + 1, n, v => if v &&& 1 ≠ 0 then some n else lowestLoop k (n + 1) (v >>> 1)

/-- `lowest_set_bit`, `bitstring.py` 228-234. -/
def lowestSetBit (b : BS) : Nat := (lowestLoop b.width 0 b.value).getD b.width

/-- The loop of `highest_set_bit`; the argument is one more than the loop variable. -/
def highestLoop (v : Nat) : Nat → Int
  | 0 => -1
  | n + 1 => if (v >>> n) &&& 1 ≠ 0 then (n : Int) else highestLoop v n

/-- `highest_set_bit`, `bitstring.py` 236-240. -/
def highestSetBit (b : BS) : Int := highestLoop b.value b.width

/-- `bitstring(self)`: the copy made by the binary operators. -/
def copy (b : BS) : BS := ofInt b.value b.width

/-- `__imod__` with a bitstring, `bitstring.py` 476-480. -/
def iconcat (b c : BS) : BS :=
  { width := b.width + c.width,
    value := (b.value <<< c.width) ||| c.value,
    mask := 2 ^ (b.width + c.width) - 1 }

/-- `b % c` for bitstrings, `bitstring.py` 347-350 and 475-480. -/
def concat (b c : BS) : BS := b.copy.iconcat c

/-- `__imod__`, `bitstring.py` 475-490. An unsupported type gives `NotImplemented`
and leaves the object alone. -/
def imod (b : BS) (o : PyVal) : PyRes BS :=
  match o with
  | .bs c => .ok (b.iconcat c)
  | .str s => do .ok (b.iconcat (← init (.str s)))
  | .int v =>
      if v = 0 ∨ v = 1 then do .ok (b.iconcat (← init (.int v) (some 1)))
      else .error .valueError
  | .seq l => do .ok (b.iconcat (← init (.seq l)))
  | _ => .ok b

/-- `__mod__`, `bitstring.py` 347-350. The result of `__imod__` is ignored, so an
unsupported operand gives an unchanged copy. -/
def mod (b : BS) (o : PyVal) : PyRes BS := b.copy.imod o

/-- The loop of slice reading, `bitstring.py` 245-249. The first argument bounds the
number of rounds; `sliceLoop_fuel` shows that the bound used is never reached. -/
def sliceLoop (b : BS) (stop step : Int) : Nat → Int → BS → PyRes BS
  | 0, _, result => .ok result
  | fuel + 1, i, result =>
      if (if step > 0 then i < stop else i > stop) then do
        let bit ← b.getBit i
        sliceLoop b stop step fuel (i + step) (bit.concat result)
      else .ok result

/-- `b[start:stop:step]`, `bitstring.py` 243-250. -/
def getSlice (b : BS) (s : PySlice) : PyRes BS := do
  let (start, stop, step) ← s.indices b.width
  sliceLoop b stop step (stop - start).natAbs start (ofInt 0 0)

/-- `b[i:j]` with both bounds given. -/
def slice (b : BS) (i j : Int) : PyRes BS := b.getSlice ⟨some i, some j, none⟩

/-- `b[k]`, `bitstring.py` 251-252. -/
def getItem (b : BS) (k : Int) : PyRes BS := b.getBit k

/-- The value assigned to a slice, `bitstring.py` 261-266. -/
def setSliceArg : PyVal → PyRes BS
  | .int v => init (.int v)
  | .str t => init (.str t)
  | .bs c => .ok c
  | _ => .error .typeError

/-- `b[start:stop:step] = value`, `bitstring.py` 257-270: the object afterwards. -/
def setSlice (b : BS) (s : PySlice) (value : PyVal) : PyRes BS := do
  let (start, stop, step) ← s.indices b.width
  if step ≠ 1 then .error .valueError
  else
    let v ← setSliceArg value
    if stop < start then .error .valueError
    else
      let mask := (2 ^ (stop - start).toNat - 1) <<< start.toNat
      .ok { b with value := natAndNot b.value mask ||| ((v.value <<< start.toNat) &&& mask) }

/-- The value assigned to a single bit, `bitstring.py` 276-281. -/
def setItemArg : PyVal → PyRes Int
  | .bs c => if c.width ≠ 1 then .error .valueError else .ok (c.value : Int)
  | .int v => .ok v
  | _ => .error .typeError

/-- `b[k] = value`, `bitstring.py` 272-285: the object afterwards. -/
def setItem (b : BS) (key : Int) (value : PyVal) : PyRes BS := do
  if key ≥ b.width then .error .indexError
  else
    let v ← setItemArg value
    let k := if key < 0 then (b.width : Int) + key else key
    if k < 0 then .error .valueError
    else
      let mask := natAndNot b.mask (1 <<< k.toNat)
      .ok { b with value := (b.value &&& mask) ||| ((pyAnd v 1).toNat <<< k.toNat) }

/-- `__iter__`, `bitstring.py` 290-292: the bits from the lowest. -/
def iter (b : BS) : List Nat := (List.range b.width).map fun i => (b.value >>> i) &&& 1

/-- `sign_extend`, `bitstring.py` 305-314. -/
def signExtend (b : BS) (w : Int) : PyRes BS :=
  if w < b.width then .error .valueError
  else if w = b.width then .ok b
  else if b.width = 0 then .error .valueError
  else do
    let s := (b.value >>> (b.width - 1)) &&& 1
    let d := w.toNat - b.width
    let e ← init (.seq (List.replicate d s))
    .ok (e.concat b)

/-- `zero_extend`, `bitstring.py` 316-321. -/
def zeroExtend (b : BS) (w : Int) : PyRes BS :=
  if w < b.width then .error .valueError
  else if w = b.width then .ok b
  else init (.bs b) (some w)

/-- The operand of an arithmetic method as an integer; `none` means
`NotImplemented` (`bitstring.py` 424-431 and the same lines of the others). -/
def operand : PyVal → PyRes (Option Int)
  | .bs c => .ok (some c.value)
  | .int v => .ok (some v)
  | .str s => do .ok (some ((← init (.str s)).value : Int))
  | _ => .ok none

/-- `__iadd__`, `bitstring.py` 423-434. -/
def iadd (b : BS) (o : PyVal) : PyRes BS := do
  match ← operand o with
  | some v => .ok { b with value := (pyAnd (b.value + v) b.mask).toNat }
  | none => .ok b

/-- `__isub__`, `bitstring.py` 436-447. -/
def isub (b : BS) (o : PyVal) : PyRes BS := do
  match ← operand o with
  | some v => .ok { b with value := (pyAnd (b.value - v) b.mask).toNat }
  | none => .ok b

/-- `__imul__`, `bitstring.py` 449-460. -/
def imul (b : BS) (o : PyVal) : PyRes BS := do
  match ← operand o with
  | some v => .ok { b with value := (pyAnd (b.value * v) b.mask).toNat }
  | none => .ok b

/-- `__ifloordiv__`, `bitstring.py` 462-473. Python's `//` rounds down. -/
def ifloordiv (b : BS) (o : PyVal) : PyRes BS := do
  match ← operand o with
  | some v =>
      if v = 0 then .error .zeroDivisionError
      else .ok { b with value := (pyAnd (Int.fdiv b.value v) b.mask).toNat }
  | none => .ok b

/-- `__add__`, `bitstring.py` 327-330. -/
def add (b : BS) (o : PyVal) : PyRes BS := b.copy.iadd o
/-- `__sub__`, `bitstring.py` 332-335. -/
def sub (b : BS) (o : PyVal) : PyRes BS := b.copy.isub o
/-- `__mul__`, `bitstring.py` 337-340. -/
def mul (b : BS) (o : PyVal) : PyRes BS := b.copy.imul o
/-- `__floordiv__`, `bitstring.py` 342-345. -/
def floordiv (b : BS) (o : PyVal) : PyRes BS := b.copy.ifloordiv o

/-- `b << n` for an integer, `bitstring.py` 352-358. -/
def shl (b : BS) (n : Int) : PyRes BS := do .ok (ofInt (← pyShl b.value n) b.width)

/-- `b >> n` for an integer, `bitstring.py` 360-366. -/
def shr (b : BS) (n : Int) : PyRes BS := do .ok (ofInt (← pyShr b.value n) b.width)

/-- Width and integer operand of `&`, `|`, `^`; `wide` says whether a bitstring
operand widens the result (`|` and `^` do, `&` does not: `bitstring.py` 372). -/
def bitOperand (b : BS) (wide : Bool) : PyVal → PyRes (Nat × Int)
  | .bs c => .ok (if wide then max b.width c.width else b.width, c.value)
  | .int v => .ok (b.width, v)
  | .str s => do .ok (b.width, (← init (.str s)).value)
  | _ => .error .typeError

/-- `__and__`, `bitstring.py` 368-377. -/
def and (b : BS) (o : PyVal) : PyRes BS := do
  let (w, v) ← b.bitOperand false o
  .ok (ofInt (pyAnd b.value v) w)

/-- `__xor__`, `bitstring.py` 379-387. -/
def xor (b : BS) (o : PyVal) : PyRes BS := do
  let (w, v) ← b.bitOperand true o
  .ok (ofInt (pyXor b.value v) w)

/-- `__or__`, `bitstring.py` 389-397. -/
def or (b : BS) (o : PyVal) : PyRes BS := do
  let (w, v) ← b.bitOperand true o
  .ok (ofInt (pyOr b.value v) w)

/-- `other + b` and the other reflected operators, `bitstring.py` 399-421. -/
def radd (b : BS) (o : PyVal) : PyRes BS := do (← init o).add (.bs b)
/-- `__rsub__`, `bitstring.py` 402-403. -/
def rsub (b : BS) (o : PyVal) : PyRes BS := do (← init o).sub (.bs b)
/-- `__rmul__`, `bitstring.py` 405-406. -/
def rmul (b : BS) (o : PyVal) : PyRes BS := do (← init o).mul (.bs b)
/-- `__rfloordiv__`, `bitstring.py` 408-409. -/
def rfloordiv (b : BS) (o : PyVal) : PyRes BS := do (← init o).floordiv (.bs b)
/-- `__rmod__`, `bitstring.py` 411-412. -/
def rmod (b : BS) (o : PyVal) : PyRes BS := do (← init o).mod (.bs b)
/-- `__rand__`, `bitstring.py` 414-415. -/
def rand (b : BS) (o : PyVal) : PyRes BS := do (← init o).and (.bs b)
/-- `__rxor__`, `bitstring.py` 417-418. -/
def rxor (b : BS) (o : PyVal) : PyRes BS := do (← init o).xor (.bs b)
/-- `__ror__`, `bitstring.py` 420-421. -/
def ror (b : BS) (o : PyVal) : PyRes BS := do (← init o).or (.bs b)

/-- `zeros(count)`, `bitstring.py` 521-522. A count below 1 gives the empty string,
on which `int` raises `ValueError`. -/
def zeros (n : Int) : PyRes BS := init (.str (List.replicate n.toNat '0'))

/-- `ones(count)`, `bitstring.py` 524-525. -/
def ones (n : Int) : PyRes BS := init (.str (List.replicate n.toNat '1'))

end BS
end Verif
