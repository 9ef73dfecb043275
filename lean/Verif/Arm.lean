import Verif.Machine
import Verif.Lemmas.BV

/-!
# Reference machine state

`Arm` is the specification's view of a machine: registers are 32-bit words indexed
like `CORE_REGISTER`. `Arm.conc` is the corresponding `Machine`. `Flat` is memory as a
partial map from addresses to bytes.
-/

namespace Verif

/-- A 32-bit word. -/
abbrev Word := BitVec 32

/-- A machine all of whose registers hold words. `extra` holds entries of the register
dictionary that belong to no register. -/
@[ext] structure Arm where
  reg : Int → Word
  extra : Option Int → Option Int
  mem : List Region

/-- The machine with these registers and this memory. -/
def Arm.conc (a : Arm) : Machine where
  regs k := match k with
    | some i => if i ∈ coreIndices then some ((a.reg i).toNat : Int) else a.extra (some i)
    | none => a.extra none
  mem := a.mem

/-- What a register keeps of a written word: PRIMASK and FAULTMASK one bit, BASEPRI
eight, the stack pointers all but the two lowest. -/
def keepBits (k : Int) (v : Word) : Word :=
  if k = -3 ∨ k = -1 then v &&& 1#32
  else if k = -2 then v &&& 0xff#32
  else if k = 13 ∨ k = 17 ∨ k = 18 then v &&& 0xfffffffc#32
  else v

/-- Writing a register; SP (13) and MSP (17) are the same register. -/
def Arm.set (a : Arm) (k : Int) (v : Word) : Arm :=
  { a with reg := fun j =>
      if j = k ∨ (k = 13 ∧ j = 17) ∨ (k = 17 ∧ j = 13) then keepBits k v else a.reg j }

/-- A word with one bit replaced. -/
def withBit (x : Word) (i : Nat) (b : Bool) : Word :=
  if b then x ||| (1#32 <<< i) else x &&& ~~~(1#32 <<< i)

/-- Memory as bytes at addresses. -/
abbrev Flat := Int → Option Nat

/-- The byte at an address. -/
def flat (mem : List Region) : Flat := fun x =>
  match mem.find? (·.has x) with
  | some m => m.data[(x - m.start).toNat]?
  | none => none

/-- Regions as `add_memory` creates them: as many bytes as addresses, and no address in
two regions. -/
def MemOK (mem : List Region) : Prop :=
  (∀ m ∈ mem, (m.data.length : Int) = m.stop - m.start + 1 ∧ ∀ b ∈ m.data, b < 256) ∧
  mem.Pairwise fun m n => ∀ x, ¬ (m.has x = true ∧ n.has x = true)

/-- The `n` addresses from `x` lie in one region. -/
def Inside (mem : List Region) (x : Int) (n : Nat) : Prop :=
  ∃ m ∈ mem, m.start ≤ x ∧ x + n - 1 ≤ m.stop

/-- Byte `i` of a number, counted from the lowest. -/
def byteOf (v : Int) (i : Nat) : Nat := (v / 256 ^ i % 256).toNat

/-- Writing `n` bytes of a number, lowest first. -/
def flatWrite (f : Flat) (x : Int) (n : Nat) (v : Int) : Flat := fun y =>
  if x ≤ y ∧ y < x + n then some (byteOf v (y - x).toNat) else f y

end Verif
