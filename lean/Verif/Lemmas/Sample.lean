import Verif.Exec
import Verif.Disasm
import Verif.Lemmas.Table

/-!
# Running concrete bytes

For the examples beside the properties.
-/

namespace Verif

/-- A machine with these registers, all others zero. -/
def sample (regs : List (Int × Int)) (mem : List Region := []) : Machine where
  regs k := match k with
    | some i => match regs.find? (·.1 == i) with
      | some (_, v) => some v
      | none => some 0
    | none => none
  mem := mem

/-- The machine after decoding and executing an instruction, if there is no exception. -/
def ran (bytes : List Nat) (s : Machine) : Option Machine :=
  match (trees.decode bytes 0).1 with
  | .ok i => match i.eval s with
    | (.ok _, s') => some s'
    | _ => none
  | _ => none

/-- Some of its registers. -/
def ranRegs (bytes : List Nat) (s : Machine) (ks : List Int) : Option (List (Option Int)) :=
  (ran bytes s).map fun s' => ks.map fun k => s'.regs (some k)

/-- The bytes of its memory. -/
def ranMem (bytes : List Nat) (s : Machine) : Option (List (List Nat)) :=
  (ran bytes s).map fun s' => s'.mem.map (·.data)

end Verif
