import Verif.Helpers

/-!
# Bitstring objects and references to them

`Bitstring.lean` treats a bitstring as a value. Here the operations that change an object
are written once more, statement by statement, for references: `self` and `other` may be the
same object, and a statement sees what the statements before it changed.

Only operands that are bitstrings are of interest; for all other operands there is one object.
-/

namespace Verif
open BS

/-- The bitstring objects of a program, by identity. -/
abbrev Objects := Nat → BS

/-- An assignment to the slots of one object. -/
def Objects.put (h : Objects) (r : Nat) (b : BS) : Objects := fun k => if k = r then b else h k

namespace Objects

/-- `self._width = w`. -/
def setWidthSlot (h : Objects) (r w : Nat) : Objects := h.put r { h r with width := w }
/-- `self._value = v`. -/
def setValueSlot (h : Objects) (r v : Nat) : Objects := h.put r { h r with value := v }
/-- `self._mask = m`. -/
def setMaskSlot (h : Objects) (r m : Nat) : Objects := h.put r { h r with mask := m }

/-- `self.set(other)`, `bitstring.py` 294-299. -/
def set (h : Objects) (self other : Nat) : Objects :=
  let h := h.setWidthSlot self (h other).width
  let h := h.setMaskSlot self (h other).mask
  h.setValueSlot self (h other).value

/-- `self.set(b)` for a new object `b`. -/
def setNew (h : Objects) (self : Nat) (b : BS) : Objects := h.put self b

/-- `self += other`, `bitstring.py` 423-434. The two statements that change the value are
one here, because the value between them can exceed the mask, or be negative for `-=`;
nothing reads it in between. -/
def iadd (h : Objects) (self other : Nat) : Objects :=
  let value := (h other).unsigned
  h.setValueSlot self (pyAnd ((h self).value + value) (h self).mask).toNat

/-- `self -= other`, `bitstring.py` 436-447. -/
def isub (h : Objects) (self other : Nat) : Objects :=
  let value := (h other).unsigned
  h.setValueSlot self (pyAnd ((h self).value - value) (h self).mask).toNat

/-- `self *= other`, `bitstring.py` 449-460. -/
def imul (h : Objects) (self other : Nat) : Objects :=
  let value := (h other).unsigned
  h.setValueSlot self (pyAnd ((h self).value * value) (h self).mask).toNat

/-- `self //= other`, `bitstring.py` 462-473. -/
def ifloordiv (h : Objects) (self other : Nat) : PyRes Objects :=
  let value := (h other).unsigned
  if value = 0 then .error .zeroDivisionError
  else .ok (h.setValueSlot self (pyAnd (Int.fdiv (h self).value value) (h self).mask).toNat)

/-- `self %= other`, `bitstring.py` 475-480. -/
def imod (h : Objects) (self other : Nat) : Objects :=
  let h := h.setWidthSlot self ((h self).width + (h other).width)
  let h := h.setMaskSlot self (2 ^ (h self).width - 1)
  h.setValueSlot self (((h self).value <<< (h other).width) ||| (h other).value)

/-- `self &= other`, `bitstring.py` 499-501 and 368-377. -/
def iand (h : Objects) (self other : Nat) : PyRes Objects := do
  .ok (h.setNew self (← (h self).and (.bs (h other))))

/-- `self ^= other`, `bitstring.py` 503-505 and 379-387. -/
def ixor (h : Objects) (self other : Nat) : PyRes Objects := do
  .ok (h.setNew self (← (h self).xor (.bs (h other))))

/-- `self |= other`, `bitstring.py` 507-509 and 389-397. -/
def ior (h : Objects) (self other : Nat) : PyRes Objects := do
  .ok (h.setNew self (← (h self).or (.bs (h other))))

/-- `self[start:stop:step] = other`, `bitstring.py` 257-270. Everything that raises comes
before the first assignment. -/
def setSlice (h : Objects) (self : Nat) (s : PySlice) (other : Nat) : PyRes Objects := do
  let (start, stop, step) ← s.indices (h self).width
  if step ≠ 1 then .error .valueError
  else if stop < start then .error .valueError
  else
    let mask := (2 ^ (stop - start).toNat - 1) <<< start.toNat
    let h := h.setValueSlot self (natAndNot (h self).value mask)
    .ok (h.setValueSlot self ((h self).value ||| (((h other).value <<< start.toNat) &&& mask)))

/-- `self[key] = other`, `bitstring.py` 272-285. -/
def setItem (h : Objects) (self : Nat) (key : Int) (other : Nat) : PyRes Objects :=
  if key ≥ (h self).width then .error .indexError
  else if (h other).width ≠ 1 then .error .valueError
  else
    let value := (h other).unsigned
    let k := if key < 0 then ((h self).width : Int) + key else key
    if k < 0 then .error .valueError
    else
      let mask := natAndNot (h self).mask (1 <<< k.toNat)
      .ok (h.setValueSlot self (((h self).value &&& mask) ||| ((pyAnd value 1).toNat <<< k.toNat)))

/-- `self.signed`, `bitstring.py` 72-83: the number and the objects afterwards. -/
def signed (h : Objects) (self : Nat) : Int × Objects :=
  ((h self).signed.1, h.put self (h self).signed.2)

/-- `AddWithCarry(x, y, carry_in)`, `helpers.py` 40-47: the new object `result`, carry,
overflow, and the objects afterwards. -/
def addWithCarry (h : Objects) (x y carryIn : Nat) : PyRes (BS × BS × BS × Objects) :=
  if (h x).width ≠ (h y).width then .error .assertionError
  else
    let unsignedSum := (h x).unsigned + (h y).unsigned + (h carryIn).unsigned
    let (xs, h) := h.signed x
    let (ys, h) := h.signed y
    let signedSum := xs + ys + (h carryIn).unsigned
    let result := ofInt unsignedSum (h x).width
    let carry := if result.unsigned = unsignedSum then bit0 else bit1
    let (rs, result) := result.signed
    let overflow := if rs = signedSum then bit0 else bit1
    .ok (result, carry, overflow, h)

end Objects

/-- The three slots after a statement failed; the width can be negative. -/
structure Slots where
  width : Int
  value : Nat
  mask : Nat
deriving DecidableEq, Repr

/-- `b.width = w`, `bitstring.py` 103-107: the error, if any, and the slots afterwards. The
width is assigned before `1 << self._width` can raise. -/
def setWidthSlots (b : BS) (w : Int) : PyRes Unit × Slots :=
  if w < 0 then (.error .valueError, ⟨w, b.value, b.mask⟩)
  else (.ok (), ⟨w, b.value &&& (2 ^ w.toNat - 1), 2 ^ w.toNat - 1⟩)

end Verif
