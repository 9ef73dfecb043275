import Verif.Spec.Text

/-!
# Typed text

A specification, not part of the model: the words, commands and numbers in what is typed
at the simulator's console.
-/

namespace Verif
namespace Typed

/-- Blanks. -/
def Blank (c : Char) : Prop := c ∈ [' ', '\t', '\n', '\r', '\x0b', '\x0c']

instance (c : Char) : Decidable (Blank c) := inferInstanceAs (Decidable (_ ∈ _))

/-- The text consists of these words with blanks before, between and after them. -/
inductive WordsOf : Str → List Str → Prop where
  | none {s : Str} : (∀ c ∈ s, Blank c) → WordsOf s []
  | word {pre a rest : Str} {l : List Str} : (∀ c ∈ pre, Blank c) → a ≠ [] → (∀ c ∈ a, ¬ Blank c) →
      (∀ c ∈ rest.head?, Blank c) → WordsOf rest l → WordsOf (pre ++ (a ++ rest)) (a :: l)

/-- Capital letters mean the same as small ones. -/
def small (s : Str) : Str := s.map Char.toLower

/-- The text is the command with this name and these arguments. -/
def Says (cmd name : Str) (args : List Str) : Prop := ∃ a, WordsOf cmd (a :: args) ∧ small a = name

/-- The line consists of these commands with semicolons between them. -/
inductive Parts : Str → List Str → Prop where
  | last {a : Str} : ';' ∉ a → Parts a [a]
  | more {a t : Str} {l : List Str} : ';' ∉ a → Parts t l → Parts (a ++ ';' :: t) (a :: l)

/-- The text without blanks at its ends. -/
inductive Stripped : Str → Str → Prop where
  | empty {s : Str} : (∀ c ∈ s, Blank c) → Stripped s []
  | full {pre t post : Str} : (∀ c ∈ pre, Blank c) → (∀ c ∈ post, Blank c) → t ≠ [] → (∀ c ∈ t.head?, ¬ Blank c) →
      (∀ c ∈ t.getLast?, ¬ Blank c) → Stripped (pre ++ (t ++ post)) t

/-- A number without sign as Python writes it: decimal, `0x`, `0o`, `0b`, or octal with a
leading zero only. -/
inductive Numeral : Str → Nat → Prop where
  | decimal {s : Str} {v : Nat} : s.head? ≠ some '0' → Reader.nat 10 s = some v → Numeral s v
  | hex {s : Str} {v : Nat} : Reader.nat 16 s = some v → Numeral ('0' :: 'x' :: s) v
  | binary {s : Str} {v : Nat} : Reader.nat 2 s = some v → Numeral ('0' :: 'b' :: s) v
  | octal {s : Str} {v : Nat} : Reader.nat 8 s = some v → Numeral ('0' :: 'o' :: s) v
  | oldOctal {s : Str} {v : Nat} : Reader.nat 8 ('0' :: s) = some v → Numeral ('0' :: s) v

/-- A number with or without sign. -/
inductive Number : Str → Int → Prop where
  | plain {s : Str} {v : Nat} : Numeral s v → Number s v
  | plus {s : Str} {v : Nat} : Numeral s v → Number ('+' :: s) v
  | minus {s : Str} {v : Nat} : Numeral s v → Number ('-' :: s) (-v)

/-- A long integer literal of Python 2: a number with a prefix that is too large for a C
`long`, with an `l` at its end. -/
def Long (s : Str) (v : Int) : Prop :=
  ∃ t n, s = t ++ ['l'] ∧ t.head? = some '0' ∧ Numeral t n ∧ 2 ^ 63 ≤ n ∧ v = (n : Int)

/-- An argument as it is read: capital letters like small ones, without underscores. -/
def plain (arg : Str) : Str := small (arg.filter (· ≠ '_'))

/-- An option that `disasm` does not have: a word that begins with `-`, before the word
`--`, other than `-`, `-c`, `-cc` and so on, `--center` and its beginnings. -/
def BadOption (a : Str) : Prop :=
  a.head? = some '-' ∧ 1 < a.length ∧ ¬ (∀ c ∈ a.tail, c = 'c') ∧ ¬ (2 < a.length ∧ a <+: c! "--center")

instance (a : Str) : Decidable (BadOption a) := inferInstanceAs (Decidable (_ ∧ _))

/-- There is such an option among the arguments. -/
def BadOptions (args : List Str) : Prop := ∃ a ∈ args.takeWhile (· ≠ c! "--"), BadOption a

example : WordsOf (c! " Read8  0x10 4") [c! "Read8", c! "0x10", c! "4"] :=
  .word (pre := c! " ") (a := c! "Read8") (rest := c! "  0x10 4") (by decide) (by decide) (by decide) (by decide)
    (.word (pre := c! "  ") (a := c! "0x10") (rest := c! " 4") (by decide) (by decide) (by decide) (by decide)
      (.word (pre := c! " ") (a := c! "4") (rest := []) (by decide) (by decide) (by decide) (by decide) (.none (by decide))))
example : Parts (c! "r0; step;") [c! "r0", c! " step", []] :=
  .more (a := c! "r0") (by decide) (.more (a := c! " step") (by decide) (.last (by decide)))
example : Number (c! "-0x1f") (-31) := .minus (.hex (by decide))
example : Number (c! "017") 15 := .plain (.oldOctal (by decide))
example : BadOptions [c! "-4"] := ⟨_, .head _, by decide⟩

end Typed
end Verif
