import Verif.Table

/-!
# The disassembler

Model of `cmdis/disasm.py`. A generator is the list of what it yields and the exception it
ends with, if any. The caller is assumed not to change the instructions it is given, nor
the data, between two steps.
-/

namespace Verif

/-- What a generator gives: the values yielded, then a normal end or an exception. -/
abbrev Yields := List Instr × Option PyErr

/-- One value, then more. -/
def Yields.cons (i : Instr) (y : Yields) : Yields := (i :: y.1, y.2)

/-- The loop of `Disassembler.disasm`, `disasm.py` 31-46, with the trees of the decoder,
which lookups may change. `fuel` bounds the number of iterations; `disasm` gives one for
every byte, and every iteration advances by at least two. -/
def disasmLoop : Nat → Trees → List Nat → Int → Int → Nat → Yields
  | 0, _, _, _, _, _ => ([], none)
  | fuel + 1, ts, data, endAddress, address, offset =>
    if address < endAddress then
      match ts.decode (data.drop offset) address with
      | (.error .undefinedInstruction, _) =>
        if endAddress - address < 4 then ([], none) else ([], some .undefinedInstruction)
      | (.error e, _) => ([], some e)
      | (.ok i, ts') => (disasmLoop fuel ts' data endAddress (address + i.size) (offset + i.size)).cons i
    else ([], none)

/-- `Disassembler.disasm(data, address)`, `disasm.py` 27-46. -/
def disasm (ts : Trees) (data : List Nat) (address : Int) : Yields :=
  disasmLoop (data.length + 1) ts data (address + data.length) address 0

end Verif
