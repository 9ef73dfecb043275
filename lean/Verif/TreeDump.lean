import Verif.Decoder
import Verif.Format

/-!
# `DecoderTree.dump` and `Decoder.__repr__` of `cmdis/decoder.py`

Simplifications: `dump` is modelled for trees that have been built, as importing `disasm.py` does (without
`build()` it would call itself without end). Python's order of dictionary keys and its `id` are parameters.
-/

namespace Verif

/-- A line that `dump` prints. -/
inductive DumpLine where
  /-- `16-bit instructions:` or `32-bit instructions:`, `decoder.py` 178 and 180. -/
  | title (is32 : Bool)
  /-- The mask of a node, `decoder.py` 184. -/
  | mask (depth mask : Nat)
  /-- A decoder of a leaf, `decoder.py` 187. -/
  | entry (depth index : Nat) (d : Dec)
  /-- A key of the dictionary of a node, `decoder.py` 190. -/
  | key (depth index key : Nat)
deriving DecidableEq

/-- `"  " * depth`. -/
def indent (depth : Nat) : Str := (List.replicate depth (c! "  ")).flatten

/-- `repr` of a list of strings without quotes and control characters. -/
def listRepr (l : List Str) : Str := c! "[" ++ joinWith (c! ", ") (l.map fun s => c! "'" ++ s ++ c! "'") ++ c! "]"

/-- `Decoder.__repr__`, `decoder.py` 240-241. `ident` is `id(self)`, `order` the order in which a dictionary has its
keys. -/
def Dec.repr (ident : Nat) (order : List Str → List Str) (d : Dec) : Str :=
  c! "<Decoder@0x" ++ intText 16 ident ++ c! " " ++ d.mnemonic ++ c! " " ++ intText 16 d.fmt.mask ++ c! "/" ++
    intText 16 d.fmt.mtch ++ c! " " ++ listRepr (order (d.fmt.fields.map (·.name))) ++ c! ">"

/-- The text of a line: the arguments of `print` with a space between them. -/
def DumpLine.text (ident : Dec → Nat) (order : List Str → List Str) : DumpLine → Str
  | .title b => if b then c! "32-bit instructions:" else c! "16-bit instructions:"
  | .mask depth m => joinWith (c! " ") [indent depth, c! "0x" ++ intText 16 m, c! "=>"]
  | .entry depth i d => joinWith (c! " ") [indent depth, intText 10 i, c! ":", d.repr (ident d) order]
  | .key depth i k => joinWith (c! " ") [indent depth, intText 10 i, c! ":", c! "0x" ++ intText 16 k]

/-- The loop over the keys, `decoder.py` 189-191; `child` is the call for the value of a key. -/
def dumpKeys (child : Nat → List DumpLine × PyRes Unit) (depth : Nat) : Nat → List Nat → List DumpLine × PyRes Unit
  | _, [] => ([], .ok ())
  | i, k :: t =>
    match child k with
    | (l, .error e) => (.key depth i k :: l, .error e)
    | (l, .ok _) =>
      let r := dumpKeys child depth (i + 1) t
      (.key depth i k :: l ++ r.1, r.2)

/-- `dump(t, depth)`, `decoder.py` 182-191: the lines printed, and whether an exception ends it. The value that a
failed lookup has left is an empty list, which has no `mask`. -/
def Tree.dump (order : List Nat → List Nat) (depth : Nat) : Tree → List DumpLine × PyRes Unit
  | .hole => ([], .error .attributeError)
  | .leaf ds => (.mask depth 0 :: ds.zipIdx.map fun p => .entry (depth + 1) p.2 p.1, .ok ())
  | .node m keys child =>
    let r := dumpKeys (fun k => (child k).dump order (depth + 2)) (depth + 1) 0 (order keys)
    (.mask depth m :: r.1, r.2)

/-- `dump()`, `decoder.py` 176-181. -/
def Trees.dump (ts : Trees) (order : List Nat → List Nat) : List DumpLine × PyRes Unit :=
  match ts.t16.dump order 0 with
  | (l, .error e) => (.title false :: l, .error e)
  | (l, .ok _) =>
    let r := ts.t32.dump order 0
    (.title false :: l ++ .title true :: r.1, r.2)

end Verif
