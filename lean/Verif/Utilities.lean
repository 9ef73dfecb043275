import Verif.Py

/-!
# `cmdis/utilities.py`

Byte lists are lists of natural numbers; the code assumes each is below 256.
-/

namespace Verif

/-- The loop of `hamming_weight`, `utilities.py` 18-23; the first argument bounds
the rounds. -/
def hammingLoop : Nat → Nat → Nat → Nat
  | 0, _, weight => weight
  | fuel + 1, v, weight => if v ≠ 0 then hammingLoop fuel (v >>> 1) (weight + (v &&& 1)) else weight

/-- `hamming_weight(v)`, `utilities.py` 18-23, for `v >= 0`. The loop halves `v`, so
`log2 v + 1` rounds suffice. Simplification: for a negative `v` the Python loop does
not end (`v >>= 1` stops at -1); negative arguments are not modelled. -/
def hammingWeight (v : Nat) : Nat := hammingLoop (v.log2 + 1) v 0

/-- `data[i]` for `i >= 0`: `IndexError` past the end. -/
def byteAt (data : List Nat) (i : Nat) : PyRes Nat :=
  match data[i]? with
  | some b => .ok b
  | none => .error .indexError

/-- `bytes_to_le16(data, offset)`, `utilities.py` 28-29. -/
def bytesToLe16 (data : List Nat) (offset : Nat := 0) : PyRes Nat := do
  let b0 ← byteAt data offset
  let b1 ← byteAt data (offset + 1)
  .ok (b0 ||| (b1 <<< 8))

/-- `bytes_to_le32(data, offset)`, `utilities.py` 34-35. -/
def bytesToLe32 (data : List Nat) (offset : Nat := 0) : PyRes Nat := do
  let b0 ← byteAt data offset
  let b1 ← byteAt data (offset + 1)
  let b2 ← byteAt data (offset + 2)
  let b3 ← byteAt data (offset + 3)
  .ok (b0 ||| (b1 <<< 8) ||| (b2 <<< 16) ||| (b3 <<< 24))

/-- One byte `(value >> 8*i) & 0xff` of an integer of either sign. -/
def leByte (value : Int) (i : Nat) : Nat := (pyAnd (value / 2 ^ (i * 8)) 0xff).toNat

/-- `le16_to_bytes(value)`, `utilities.py` 40-41. -/
def le16ToBytes (value : Int) : List Nat := (List.range 2).map (leByte value)

/-- `le32_to_bytes(value)`, `utilities.py` 46-47. -/
def le32ToBytes (value : Int) : List Nat := (List.range 4).map (leByte value)

/-- `byteListToU32leList(data)`, `utilities.py` 49-57. `len(data) / 4` is an integer
division under Python 2; a tail of fewer than four bytes is dropped. -/
def byteListToU32leList : List Nat → List Nat
  | b0 :: b1 :: b2 :: b3 :: t =>
      (b0 ||| (b1 <<< 8) ||| (b2 <<< 16) ||| (b3 <<< 24)) :: byteListToU32leList t
  | _ => []

/-- `u32leListToByteList(data)`, `utilities.py` 59-67. -/
def u32leListToByteList (data : List Int) : List Nat :=
  data.flatMap fun x => [leByte x 0, leByte x 1, leByte x 2, leByte x 3]

/-- `u16leListToByteList(data)`, `utilities.py` 69-74. -/
def u16leListToByteList (data : List Int) : List Nat :=
  data.flatMap fun h => [leByte h 0, leByte h 1]

/-- `byteListToU16leList(byteData)`, `utilities.py` 76-81: `IndexError` on an odd length. -/
def byteListToU16leList : List Nat → PyRes (List Nat)
  | [] => .ok []
  | [_] => .error .indexError
  | b0 :: b1 :: t => do
      let r ← byteListToU16leList t
      .ok ((b0 ||| (b1 <<< 8)) :: r)

/-- `wmask(n)`, `utilities.py` 96-97, for `n >= 0`. -/
def wmask (n : Nat) : Nat := (1 <<< n) - 1

/-- An argument of `bitmask`: a pair, a list, or a single position. -/
inductive MaskArg where
  | range (msb lsb : Int)
  | list (l : List Int)
  | bit (b : Int)
deriving DecidableEq, Repr

/-- `range(lo, hi)`. -/
def pyRange (lo hi : Int) : List Int := (List.range (hi - lo).toNat).map fun (k : Nat) => lo + k

/-- `mask |= 1 << b` for each position; a negative position raises `ValueError`. -/
def setBitsIn : List Int → Nat → PyRes Nat
  | [], mask => .ok mask
  | b :: t, mask => if b < 0 then .error .valueError else setBitsIn t (mask ||| (1 <<< b.toNat))

/-- The positions an argument of `bitmask` names. -/
def MaskArg.positions : MaskArg → List Int
  | .range msb lsb => pyRange lsb (msb + 1)
  | .list l => l
  | .bit b => [b]

/-- The loop over the arguments of `bitmask`. -/
def bitmaskLoop : List MaskArg → Nat → PyRes Nat
  | [], mask => .ok mask
  | a :: t, mask => do
      let mask' ← setBitsIn a.positions mask
      bitmaskLoop t mask'

/-- `bitmask(*args)`, `utilities.py` 121-134. Simplification: arguments of other
types, which the Python code skips, are not modelled. -/
def bitmask (args : List MaskArg) : PyRes Nat := bitmaskLoop args 0

/-- `invert32(value)`, `utilities.py` 137-138. -/
def invert32 (value : Int) : Int := pyAnd 0xffffffff (pyNot value)

/-- `lsb or msb`: an `lsb` that is `None` *or zero* is replaced by `msb`. -/
def lsbOr (msb : Int) : Option Int → Int
  | none => msb
  | some l => if l = 0 then msb else l

/-- `bfx(value, msb, lsb)`, `utilities.py` 141-144. -/
def bfx (value msb : Int) (lsb : Option Int := none) : PyRes Int := do
  let l := lsbOr msb lsb
  let mask ← bitmask [.range msb l]
  pyShr (pyAnd value mask) l

/-- `bfi(value, field, msb, lsb)`, `utilities.py` 147-152. -/
def bfi (value field msb : Int) (lsb : Option Int := none) : PyRes Int := do
  let l := lsbOr msb lsb
  let mask ← bitmask [.range msb l]
  let f ← pyShl field l
  .ok (pyOr (pyAnd value (pyNot mask)) (pyAnd f mask))

/-- `u32BEToFloat32BE(data)`, `utilities.py` 83-86, with any type for floats. The first line
looks up `struct`, which the module does not import, before `data` is used. -/
def u32BEToFloat32BE (Float32 : Type) (_ : Int) : PyRes Float32 := .error .nameError

/-- `float32beToU32be(data)`, `utilities.py` 88-91; as above. -/
def float32beToU32be (Float32 : Type) (_ : Float32) : PyRes Int := .error .nameError

end Verif
