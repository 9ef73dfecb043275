import Verif.Exec
import Verif.Format
import Verif.Disasm
import Verif.Lemmas.Table

/-!
# The project's own tests, on the model: vocabulary

The tests in `/repo/test` were written against the Python code. The modules in this
directory transcribe them, with the same names and the same numbers, and the kernel runs
them on the model. A test that the code passes and the model does not would show that
the model is wrong.
-/

namespace Verif.Suite
open Verif BS

/-- `assert x`. -/
def assert (x : PyRes Bool) : CpuM Unit := do
  if ← py x then pure () else py (.error .assertionError)

/-- `b == v` for a bitstring and any other value. -/
def same (b : BS) (v : PyVal) : PyRes Bool := do .ok (truthy (← b.eqOp v).1)

/-- `a == b` for values that are not bitstrings. -/
def equal {α : Type} [DecidableEq α] (a b : α) : PyRes Bool := .ok (decide (a = b))

/-- The state of `format_bits`, `test_instructions.py` 33-78. -/
structure Bits where
  state : Nat := 0
  result : Str := []
  ident : Str := []
  width : Str := []

/-- `bitstring(kwargs[ident], width).binary_string`. -/
def Bits.field (b : Bits) (kwargs : List (Str × PyVal)) (width : Nat) : PyRes Bits :=
  match kwargs.lookup b.ident with
  | none => .error .keyError
  | some v => do
    let s ← init v (some (width : Int))
    .ok { b with result := b.result ++ s.binaryString, state := 0 }

/-- One character of `format_bits`. -/
def Bits.step (kwargs : List (Str × PyVal)) (b : Bits) (c : Char) : PyRes Bits :=
  match b.state with
  | 0 =>
    if c = '{' then .ok { b with state := 1, ident := [], width := [] }
    else if c = '0' || c = '1' || c = ',' then .ok { b with result := b.result ++ [c] }
    else if isLetter c then .ok { b with state := 3 }
    else .ok b
  | 1 =>
    if isLetter c || isDigit c then .ok { b with ident := b.ident ++ [c] }
    else if c = ':' then .ok { b with state := 2 }
    else if c = '}' then b.field kwargs 1
    else .error .valueError
  | 2 =>
    if isDigit c then .ok { b with width := b.width ++ [c] }
    else if c = '}' then b.field kwargs (intBase10 b.width)
    else .error .valueError
  | _ => if c = '=' then .ok { b with state := 0 } else .ok b

/-- `format_bits(bits, **kwargs)`. -/
def formatBits (kwargs : List (Str × PyVal)) : Str → Bits → PyRes Str
  | [], b => .ok b.result
  | c :: t, b => do formatBits kwargs t (← b.step kwargs c)

/-- `fmt16(bits, **kwargs)`, `test_instructions.py` 80-83. -/
def fmt16 (bits : Str) (kwargs : List (Str × PyVal) := []) : PyRes (List Nat) := do
  let hw1 ← init (.str (← formatBits kwargs bits {}))
  .ok hw1.bytes

/-- `fmt32(bits, **kwargs)`, `test_instructions.py` 85-90. -/
def fmt32 (bits : Str) (kwargs : List (Str × PyVal) := []) : PyRes (List Nat) := do
  let s ← formatBits kwargs bits {}
  let hw1 ← init (.str (s.takeWhile (· ≠ ',')))
  let hw2 ← init (.str ((s.dropWhile (· ≠ ',')).drop 1))
  .ok (hw1.bytes ++ hw2.bytes)

/-- `decoder.decode(data)`. -/
def decoded (ts : Trees) (data : PyRes (List Nat)) : CpuM Instr := do
  py (ts.decode (← py data) 0).1

/-- `print(fmt.format(i))`. -/
def shown (i : Instr) : CpuM Instr := do
  let (_, i) ← py i.format
  pure i

/-- The fixture `cpu`, `test_instructions.py` 92-100, on these pieces of memory. -/
def fixture : List (Int × Int) → CpuM Unit
  | [] => do
    setPc (.int 0x8000)
    setSp (.int 0x20004000)
  | (start, length) :: t => do
    addMemory start length
    fixture t

/-- The memory of the fixture. -/
def whole : List (Int × Int) := [(0, 0x10000), (0x20000000, 0x8000)]

/-- The pieces of that memory the tests use. Simplification: the kernel takes ten seconds
for one access in the whole memory, so that the theorems below are about these
pieces, and `#guard` runs the same tests on the whole memory. -/
def pieces : List (Int × Int) := [
  (0x240, 0xa0), (0x1000, 0x140), (0x7ff0, 0x30), (0x20000000, 0x20), (0x20001000, 0x40), (0x20003fc0, 0x80)]

/-- A test passes if it ends without an exception. -/
def passes (memory : List (Int × Int)) (test : CpuM Unit) : Bool :=
  match (do fixture memory; test : CpuM Unit) Machine.new with
  | (.ok _, _) => true
  | (.error _, _) => false

/-- All tests pass. -/
def allPass (memory : List (Int × Int)) (tests : List (CpuM Unit)) : Bool := tests.all (passes memory)

end Verif.Suite
