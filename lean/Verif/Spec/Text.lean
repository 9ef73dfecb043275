import Verif.Py

/-!
# Reading text

A specification, not part of the model: how a person reads the numbers and register lists
in the text of an instruction.
-/

namespace Verif
namespace Reader

/-- The value of a digit. -/
def digit (c : Char) : Option Nat :=
  if '0' ≤ c ∧ c ≤ '9' then some (c.toNat - '0'.toNat)
  else if 'a' ≤ c ∧ c ≤ 'f' then some (c.toNat - 'a'.toNat + 10)
  else none

/-- Reading on after the digits read so far gave `v`. -/
def digits (base : Nat) : Nat → Str → Option Nat
  | v, [] => some v
  | v, c :: t =>
    match digit c with
    | some d => if d < base then digits base (base * v + d) t else none
    | none => none

/-- A natural number. -/
def nat (base : Nat) (s : Str) : Option Nat := if s = [] then none else digits base 0 s

/-- A number with an optional minus or plus sign. -/
def int (base : Nat) : Str → Option Int
  | '-' :: t => (nat base t).map fun (v : Nat) => -(v : Int)
  | '+' :: t => (nat base t).map fun (v : Nat) => (v : Int)
  | s => (nat base s).map fun (v : Nat) => (v : Int)

/-- Cutting a text at each `c`. -/
def split (c : Char) : Str → List Str
  | [] => [[]]
  | x :: t =>
    if x = c then [] :: split c t
    else match split c t with
      | [] => [[x]]
      | h :: r => (x :: h) :: r

/-- The names of the sixteen registers, in order. -/
def regNames : List Str :=
  [c! "r0", c! "r1", c! "r2", c! "r3", c! "r4", c! "r5", c! "r6", c! "r7", c! "r8", c! "r9", c! "r10", c! "r11", c! "r12",
   c! "sp", c! "lr", c! "pc"]

/-- The number of a register. -/
def reg (s : Str) : Option Nat := if s ∈ regNames then some (regNames.idxOf s) else none

/-- A register or a range of registers. -/
def range (s : Str) : Option (List Nat) :=
  match split '-' s with
  | [a] => (reg a).map fun r => [r]
  | [a, b] =>
    match reg a, reg b with
    | some r, some q => if r < q then some (List.range' r (q + 1 - r)) else none
    | _, _ => none
  | _ => none

/-- The registers and ranges, one after the other. -/
def ranges : List Str → Option (List Nat)
  | [] => some []
  | s :: t =>
    match range s, ranges t with
    | some a, some b => some (a ++ b)
    | _, _ => none

/-- A register list in braces. -/
def reglist : Str → Option (List Nat)
  | '{' :: t =>
    if t.getLast? = some '}' then
      if t.dropLast = [] then some [] else ranges (split ',' t.dropLast)
    else none
  | _ => none

example : nat 10 (c! "120") = some 120 := by decide
example : nat 16 (c! "ff") = some 255 := by decide
example : int 10 (c! "-8") = some (-8) := by decide
example : reglist (c! "{r0,r4-r7,lr}") = some [0, 4, 5, 6, 7, 14] := by decide

end Reader
end Verif
