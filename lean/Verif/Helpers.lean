import Verif.Bitstring

/-!
# `cmdis/helpers.py`
-/

namespace Verif
open BS

/-- `SRType`, `helpers.py` 22-28. -/
inductive SRType where
  | none | lsl | lsr | asr | ror | rrx
deriving DecidableEq, Repr

/-- `Align(value, alignment)` for an integer value, `helpers.py` 30-36. -/
def alignInt (value alignment : Int) : PyRes Int :=
  if alignment = 0 then .error .assertionError
  else .ok (pyAnd value (pyNot (alignment - 1)))

/-- `Align(value, alignment)` for a bitstring, `helpers.py` 30-36. -/
def align (value : BS) (alignment : Int) : PyRes BS :=
  if alignment = 0 then .error .assertionError
  else do
    let m ← init (.int (alignment - 1)) (some value.width)
    value.and (.bs m.invert)

/-- What `AddWithCarry` returns, together with the two argument objects as the call
leaves them. -/
structure AddResult where
  result : BS
  carry : BS
  overflow : BS
  x : BS
  y : BS
deriving DecidableEq, Repr

/-- `AddWithCarry(x, y, carry_in)`, `helpers.py` 40-47. Reading `x.signed`, `y.signed`
and `result.signed` complements the object if it is negative. Simplification: `x` and
`y` are different objects, as at every call in the library. -/
def addWithCarry (x y carryIn : BS) : PyRes AddResult :=
  if x.width ≠ y.width then .error .assertionError
  else
    let unsignedSum := x.unsigned + y.unsigned + carryIn.unsigned
    let (xs, x') := x.signed
    let (ys, y') := y.signed
    let signedSum := xs + ys + carryIn.unsigned
    let result := ofInt unsignedSum x.width
    let carry := if result.unsigned = unsignedSum then bit0 else bit1
    let (rs, result') := result.signed
    let overflow := if rs = signedSum then bit0 else bit1
    .ok ⟨result', carry, overflow, x', y'⟩

/-- `LSL_C(x, shift)`, `helpers.py` 49-54. -/
def lslC (x : BS) (shift : Int) : PyRes (BS × BS) :=
  if shift ≤ 0 then .error .assertionError
  else do
    let z ← zeros shift
    let ext := x.concat z
    let result ← ext.slice 0 x.width
    let carry ← ext.getItem x.width
    .ok (result, carry)

/-- `LSL(x, shift)`, `helpers.py` 56-57. -/
def lsl (x : BS) (shift : Int) : PyRes BS := x.shl shift

/-- `LSR_C(x, shift)`, `helpers.py` 59-64. -/
def lsrC (x : BS) (shift : Int) : PyRes (BS × BS) :=
  if shift ≤ 0 then .error .assertionError
  else do
    let ext ← x.zeroExtend (shift + x.width)
    let result ← ext.slice shift (shift + x.width)
    let carry ← ext.getItem (shift - 1)
    .ok (result, carry)

/-- `LSR(x, shift)`, `helpers.py` 66-67. -/
def lsr (x : BS) (shift : Int) : PyRes BS := x.shr shift

/-- `ASR_C(x, shift)`, `helpers.py` 69-74. -/
def asrC (x : BS) (shift : Int) : PyRes (BS × BS) :=
  if shift ≤ 0 then .error .assertionError
  else do
    let ext ← x.signExtend (shift + x.width)
    let result ← ext.slice shift (shift + x.width)
    let carry ← ext.getItem (shift - 1)
    .ok (result, carry)

/-- `ASR(x, shift)`, `helpers.py` 76-82: a zero shift reads the undefined name `c`. -/
def asr (x : BS) (shift : Int) : PyRes BS :=
  if shift < 0 then .error .assertionError
  else if shift = 0 then .error .nameError
  else do
    let (r, _) ← asrC x shift
    .ok r

/-- `ROR_C(x, shift)`, `helpers.py` 84-89. Python's `%` by a positive width is the
non-negative remainder. -/
def rorC (x : BS) (shift : Int) : PyRes (BS × BS) :=
  if shift = 0 then .error .assertionError
  else if x.width = 0 then .error .zeroDivisionError
  else do
    let m := shift % (x.width : Int)
    let a ← lsr x m
    let b ← lsl x (x.width - m)
    let result ← a.or (.bs b)
    let carry ← result.getItem (x.width - 1)
    .ok (result, carry)

/-- `ROR(x, shift)`, `helpers.py` 91-96. -/
def ror (x : BS) (shift : Int) : PyRes BS :=
  if shift = 0 then .ok x
  else do
    let (r, _) ← rorC x shift
    .ok r

/-- `RRX_C(x, carry_in)`, `helpers.py` 98-101. -/
def rrxC (x carryIn : BS) : PyRes (BS × BS) := do
  let hi ← x.slice 1 x.width
  let carry ← x.getItem 0
  .ok (carryIn.concat hi, carry)

/-- `RRX(x, carry_in)`, `helpers.py` 103-105. -/
def rrx (x carryIn : BS) : PyRes BS := do
  let (r, _) ← rrxC x carryIn
  .ok r

/-- `Shift_C(value, type, amount, carry_in)`, `helpers.py` 107-124. -/
def shiftC (value : BS) (type : SRType) (amount : Int) (carryIn : BS) : PyRes (BS × BS) :=
  if type = .rrx ∧ amount ≠ 1 then .error .assertionError
  else if amount = 0 ∨ type = .none then .ok (value, carryIn)
  else match type with
    | .lsl => lslC value amount
    | .lsr => lsrC value amount
    | .asr => asrC value amount
    | .ror => rorC value amount
    | .rrx => rrxC value carryIn
    | .none => .ok (value, carryIn)

/-- `Shift(value, type, amount, carry_in)`, `helpers.py` 126-128. -/
def shift (value : BS) (type : SRType) (amount : Int) (carryIn : BS) : PyRes BS := do
  let (r, _) ← shiftC value type amount carryIn
  .ok r

/-- `32 if imm5 == '00000' else imm5.unsigned`, `helpers.py` 136 and 139. -/
def imm5Or32 (imm5 : BS) : PyRes Nat := do
  if ← imm5.isStr (c! "00000") then .ok 32 else .ok imm5.unsigned

/-- `DecodeImmShift(type, imm5)`, `helpers.py` 130-149. -/
def decodeImmShift (type imm5 : BS) : PyRes (SRType × Nat) := do
  if ← type.isStr (c! "00") then .ok (.lsl, imm5.unsigned)
  else if ← type.isStr (c! "01") then do .ok (.lsr, ← imm5Or32 imm5)
  else if ← type.isStr (c! "10") then do .ok (.asr, ← imm5Or32 imm5)
  else if ← type.isStr (c! "11") then
    if ← imm5.isStr (c! "00000") then .ok (.rrx, 1) else .ok (.ror, imm5.unsigned)
  else .error .valueError

/-- The bitstring literal `'00000000'`. -/
def zero8 : BS := ⟨8, 0, 255⟩

/-- The first branch of `ThumbExpandImm_C`, `helpers.py` 153-164. In the last case
none of the four comparisons holds and `imm32` is unbound at the `return`
(`UnboundLocalError`, a `NameError`). -/
def thumbExpandByte (imm12 : BS) : PyRes BS := do
  let hi ← imm12.slice 8 10
  let lo ← imm12.slice 0 8
  if ← hi.isStr (c! "00") then lo.zeroExtend 32
  else if ← hi.isStr (c! "01") then .ok (((zero8.concat lo).concat zero8).concat lo)
  else if ← hi.isStr (c! "10") then .ok (((lo.concat zero8).concat lo).concat zero8)
  else if ← hi.isStr (c! "11") then .ok (((lo.concat lo).concat lo).concat lo)
  else .error .nameError

/-- The second branch of `ThumbExpandImm_C`, `helpers.py` 166-167. -/
def thumbExpandRotated (imm12 : BS) : PyRes (BS × BS) := do
  let lo ← imm12.slice 0 7
  let v ← (bit1.concat lo).zeroExtend 32
  let s ← imm12.slice 7 12
  rorC v s.unsigned

/-- `ThumbExpandImm_C(imm12, carry_in)`, `helpers.py` 152-168. -/
def thumbExpandImmC (imm12 carryIn : BS) : PyRes (BS × BS) := do
  let top ← imm12.slice 10 12
  if ← top.isStr (c! "00") then do .ok (← thumbExpandByte imm12, carryIn)
  else thumbExpandRotated imm12

/-- `ThumbExpandImm(imm12)`, `helpers.py` 170-173. -/
def thumbExpandImm (imm12 : BS) : PyRes BS := do
  let (r, _) ← thumbExpandImmC imm12 bit0
  .ok r

end Verif
