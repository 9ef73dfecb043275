import Verif.Exec
import Verif.Disasm

/-!
# Executing several instructions

`cmdis/model.py` 131-133 and `cmdis/decoder.py` 59-60.

Simplification: the instruction objects in the list are different ones, so that what an
execution does to its object is not seen later.
-/

namespace Verif

/-- `CpuModel.execute(instructions)`, `model.py` 131-133. -/
def executeAll : List Instr → CpuM Unit
  | [] => pure ()
  | i :: rest => do
    let _ ← i.eval
    executeAll rest

/-- The same object executed `n` times, each time as the last execution left it. -/
def executeTimes : Nat → Instr → CpuM Instr
  | 0, i => pure i
  | n + 1, i => do
    let i' ← i.eval
    executeTimes n i'

end Verif
