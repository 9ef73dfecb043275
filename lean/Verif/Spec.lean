import Verif.Bitstring

/-!
# Instruction format strings: `parse_spec` and `process_fmt` of `cmdis/decoder.py`
-/

namespace Verif
open BS

/-- An element of the list `parse_spec` returns: the integer 0 or 1, a pair of a name and
a width, or a pair of a name and a bitstring. -/
inductive Elem where
  | bit (b : Bool)
  | field (name : Str) (size : Nat)
  | fixed (name : Str) (value : BS)
deriving DecidableEq, Repr

/-- `c in string.ascii_letters`. -/
def isLetter (c : Char) : Bool := ('a' ≤ c && c ≤ 'z') || ('A' ≤ c && c ≤ 'Z')
/-- `c in string.digits`. -/
def isDigit (c : Char) : Bool := '0' ≤ c && c ≤ '9'
/-- `int(s)` for a text of decimal digits. -/
def intBase10 (s : Str) : Nat := s.foldl (fun a c => 10 * a + (c.toNat - '0'.toNat)) 0

/-- The local variables of `parse_spec`, `decoder.py` 297-303. -/
structure ParseState where
  result : List Elem
  state : Nat
  ident : Str
  bitcount : Str
  bits : Str
  expecting : Bool
deriving DecidableEq, Repr

/-- `if ident: result.append((ident, 1)); ident = ''`, `decoder.py` 310-312 and 316-318. -/
def flushIdent (p : ParseState) : ParseState :=
  if p.ident = [] then p else { p with result := p.result ++ [.field p.ident 1], ident := [] }

/-- State 0, `decoder.py` 308-326. -/
def parse0 (p : ParseState) (c : Char) : PyRes ParseState :=
  if c = '0' ∨ c = '1' then
    let q := flushIdent p
    .ok { q with result := q.result ++ [.bit (c = '1')], expecting := false }
  else if isLetter c then .ok { flushIdent p with ident := [c], state := 1 }
  else if c = '(' ∧ p.expecting = true then .ok { p with state := 2 }
  else if isSpace c then .ok p
  else .error .valueError

/-- `result.append((ident, int(bitcount)))` and back to state 0, `decoder.py` 354-358 and
366-370. -/
def closeField (p : ParseState) : ParseState :=
  { p with result := p.result ++ [.field p.ident (intBase10 p.bitcount)], ident := [], bitcount := [], state := 0 }

/-- The body of the loop for one character, `decoder.py` 307-385. In state 1 a character
that cannot continue the name is looked at again in state 0 (`i -= 1`, 334-337). -/
def parseStep (p : ParseState) (c : Char) : PyRes ParseState :=
  if p.state = 0 then parse0 p c
  else if p.state = 1 then
    if c = '(' then .ok { p with state := 2 }
    else if c = '=' then .ok { p with bits := [], state := 5 }
    else if isLetter c || isDigit c then .ok { p with ident := p.ident ++ [c] }
    else parse0 { p with state := 0, expecting := true } c
  else if p.state = 2 then
    if isDigit c then .ok { p with bitcount := [c], state := 3 }
    else if c = ')' then .ok { p with bitcount := ['1'], state := 0 }
    else if isSpace c then .ok p
    else .error .valueError
  else if p.state = 3 then
    if c = ')' then .ok (closeField p)
    else if !isDigit c then .ok { p with state := 4 }
    else .ok { p with bitcount := p.bitcount ++ [c] }
  else if p.state = 4 then
    if c = ')' then .ok (closeField p)
    else if isSpace c then .ok p
    else .error .valueError
  else
    if c = '0' ∨ c = '1' then .ok { p with bits := p.bits ++ [c] }
    else do
      let v ← init (.str p.bits)
      .ok { p with result := p.result ++ [.fixed p.ident v], bits := [], ident := [], state := 0 }

/-- The loop over the characters. -/
def parseLoop : Str → ParseState → PyRes ParseState
  | [], p => .ok p
  | c :: t, p => do
      let q ← parseStep p c
      parseLoop t q

/-- What follows the loop, `decoder.py` 387-395. -/
def parseEnd (p : ParseState) : PyRes (List Elem) :=
  if p.ident = [] then .ok p.result
  else if p.bits ≠ [] then do
    let v ← init (.str p.bits)
    .ok (p.result ++ [.fixed p.ident v])
  else
    let n := if p.bitcount = [] then 1 else intBase10 p.bitcount
    .ok (p.result ++ [.field p.ident n])

/-- `parse_spec(spec)`, `decoder.py` 296-395. -/
def parseSpec (spec : Str) : PyRes (List Elem) := do
  let p ← parseLoop spec ⟨[], 0, [], [], [], false⟩
  parseEnd p

/-- Where a field is in the instruction word: the default arguments `i` and `size` of the
function built at `decoder.py` 263. -/
structure FieldPos where
  name : Str
  off : Nat
  size : Nat
deriving DecidableEq, Repr

/-- Mask, match and fields, the results of `process_fmt`. -/
structure Fmt where
  mask : Nat
  mtch : Nat
  fields : List FieldPos
deriving DecidableEq, Repr

/-- `d[name] = f` for a dictionary in insertion order. -/
def setField (d : List FieldPos) (f : FieldPos) : List FieldPos :=
  if d.any (·.name = f.name) then d.map fun g => if g.name = f.name then f else g else d ++ [f]

/-- The loop of `process_fmt`, `decoder.py` 248-266: `i` is the position reached. The
shifts are `1 << (i+offset)`: `+` binds tighter than `<<`. -/
def processLoop (offset : Nat) : List Elem → Nat → Fmt → Nat × Fmt
  | [], i, r => (i, r)
  | .bit b :: t, i, r =>
      processLoop offset t (i + 1)
        { r with mask := r.mask ||| (1 <<< (i + offset)), mtch := r.mtch ||| (b.toNat <<< (i + offset)) }
  | .field n s :: t, i, r =>
      processLoop offset t (i + s) { r with fields := setField r.fields ⟨n, i + offset, s⟩ }
  | .fixed n v :: t, i, r =>
      processLoop offset t (i + v.width)
        { mask := r.mask ||| (v.mask <<< (i + offset)), mtch := r.mtch ||| (v.unsigned <<< (i + offset)),
          fields := setField r.fields ⟨n, i + offset, v.width⟩ }

/-- `process_fmt(fmt, offset)`, `decoder.py` 243-268; `fmt` is the parsed list reversed. -/
def processFmt (fmt : List Elem) (offset : Nat := 0) : PyRes Fmt :=
  let (i, r) := processLoop offset fmt 0 ⟨0, 0, []⟩
  if i = 16 then .ok r else .error .assertionError

/-- The function stored for a field, `lambda b: bitstring(b >> i, size)`, `decoder.py` 263. -/
def FieldPos.read (f : FieldPos) (word : Nat) : PyRes BS := BS.init (.int ((word >>> f.off : Nat) : Int)) (some (f.size : Int))

/-- `Decoder.check(word)`, `decoder.py` 220-221. -/
def Fmt.check (f : Fmt) (word : Nat) : Bool := (word &&& f.mask) == f.mtch

/-- The part of `Decoder.__init__` that reads the format strings, `decoder.py` 206-218:
the format, and `is32bit`. -/
def specFmt (spec : Str) (spec2 : Option Str) : PyRes (Fmt × Bool) := do
  let f ← parseSpec spec
  let r ← processFmt f.reverse
  match spec2 with
  | none => .ok (r, false)
  | some s2 => do
    let f2 ← parseSpec s2
    let r2 ← processFmt f2.reverse 16
    .ok (⟨r.mask ||| r2.mask, r.mtch ||| r2.mtch, r2.fields.foldl setField r.fields⟩, true)

end Verif
