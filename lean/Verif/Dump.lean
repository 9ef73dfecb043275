import Verif.Console

/-!
# `CpuModel.dump` and `CpuModel.__repr__`

Simplification: lines that `dump` prints before a register read raises are not modelled.
-/

namespace Verif

/-- `"%08x" % b` of a bitstring takes the number `__int__` gives. -/
def hex8 (b : BS) : Str := hexPad 8 b.value

/-- A line of `dump`: four labels with their values. -/
def dumpLine (l0 : Str) (v0 : BS) (l1 : Str) (v1 : BS) (l2 : Str) (v2 : BS) (l3 : Str) (v3 : BS) : Str :=
  l0 ++ hex8 v0 ++ l1 ++ hex8 v1 ++ l2 ++ hex8 v2 ++ l3 ++ hex8 v3

/-- `dump()`, `model.py` 277-285: the four lines printed. -/
def dumpCpu : CpuM (List Str) := do
  let a0 ← getR 0
  let a1 ← getR 4
  let a2 ← getR 8
  let a3 ← getR 12
  let b0 ← getR 1
  let b1 ← getR 5
  let b2 ← getR 9
  let b3 ← getSp
  let c0 ← getR 2
  let c1 ← getR 6
  let c2 ← getR 10
  let c3 ← readRegister (.name (c! "lr"))
  let d0 ← getR 3
  let d1 ← getR 7
  let d2 ← getR 11
  let d3 ← getPc
  pure [dumpLine (c! "r0=") a0 (c! "    r4=") a1 (c! "    r8 =") a2 (c! "   r12=") a3,
    dumpLine (c! "r1=") b0 (c! "    r5=") b1 (c! "    r9 =") b2 (c! "   sp =") b3,
    dumpLine (c! "r2=") c0 (c! "    r6=") c1 (c! "    r10=") c2 (c! "   lr =") c3,
    dumpLine (c! "r3=") d0 (c! "    r7=") d1 (c! "    r11=") d2 (c! "   pc =") d3]

/-- `"%x" % (self.r[i].unsigned)` for these registers, `model.py` 290. -/
def shownRegs : List Nat → CpuM (List Str)
  | [] => pure []
  | k :: t => do
    let v ← getR k
    let l ← shownRegs t
    pure (intText 16 v.unsigned :: l)

/-- `__repr__()`, `model.py` 287-290. `name` is the name of the class and `ident` the text of
`hex(id(self))`. -/
def reprCpu (name ident : Str) : CpuM Str := do
  let pc ← getPc
  let xpsr ← getXpsr
  let regs ← shownRegs (List.range 15)
  pure (c! "<" ++ name ++ c! "@" ++ ident ++ c! " pc=" ++ intText 16 pc.value ++ c! " xpsr=" ++ intText 16 xpsr.value ++
    c! " rN=[" ++ joinWith (c! " ") regs ++ c! "]>")

end Verif
