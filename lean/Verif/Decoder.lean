import Verif.Handlers
import Verif.Spec
import Verif.Utilities

/-!
# `Decoder` and `DecoderTree` of `cmdis/decoder.py`
-/

namespace Verif

/-- The arguments of one call of `instr`, `decoder.py` 272-276. -/
structure Row where
  mnemonic : Str
  klass : Klass
  handler : Handler
  spec : Str
  spec2 : Option Str
  kwargs : List Kw
deriving DecidableEq, Repr

/-- A `Decoder` object. -/
structure Dec where
  mnemonic : Str
  klass : Klass
  handler : Handler
  kwargs : List Kw
  is32 : Bool
  fmt : Fmt
deriving DecidableEq, Repr

/-- `Decoder.__init__`, `decoder.py` 198-218. -/
def Row.compile (r : Row) : PyRes Dec := do
  let (f, b) ← specFmt r.spec r.spec2
  .ok ⟨r.mnemonic, r.klass, r.handler, r.kwargs, b, f⟩

/-- The decoders registered when `instructions.py` is imported; an exception would end
the import. -/
def compileAll : List Row → PyRes (List Dec)
  | [] => .ok []
  | r :: t => do
    let d ← r.compile
    let ds ← compileAll t
    .ok (d :: ds)

namespace Dec

/-- `check(word)`, `decoder.py` 220-221. -/
def check (d : Dec) (word : Nat) : Bool := d.fmt.check word

/-- The dictionary of field values, `decoder.py` 225-227. -/
def readAll (word : Nat) : List FieldPos → PyRes (List (Str × BS))
  | [] => .ok []
  | f :: t => do
    let v ← f.read word
    let vs ← readAll word t
    .ok ((f.name, v) :: vs)

/-- Binding of keyword arguments to parameters: an unexpected or a missing name is a
`TypeError`. -/
def bindArgs (attrs : List (Str × BS)) : List Str → PyRes (List BS)
  | [] => .ok []
  | p :: ps => match attrs.lookup p with
    | none => .error .typeError
    | some v => do
      let vs ← bindArgs attrs ps
      .ok (v :: vs)

/-- The call `self._handler(i, **attrs)`, `decoder.py` 236. -/
def call (h : Handler) (i : Instr) (attrs : List (Str × BS)) : PyRes Instr :=
  if attrs.all (fun a => h.params.contains a.1) then do
    let args ← bindArgs attrs h.params
    h.run args i
  else .error .typeError

/-- The instruction object before the handler is called, `decoder.py` 230-233. -/
def fresh (d : Dec) (word : Nat) (address : Int) : Instr :=
  d.kwargs.foldl Kw.set { d.klass.new d.mnemonic word d.is32 with address := address }

/-- `decode(word, address)`, `decoder.py` 223-238. -/
def decode (d : Dec) (word : Nat) (address : Int) : PyRes Instr := do
  let attrs ← readAll word d.fmt.fields
  call d.handler (d.fresh word address) attrs

/-- The sort key `hamming_weight(d._mask)`. -/
def weight (d : Dec) : Nat := hammingWeight d.fmt.mask

end Dec

/-! ### The tree -/

/-- Insertion before the first element whose key is not larger. -/
def insertDec (d : Dec) : List Dec → List Dec
  | [] => [d]
  | e :: t => if d.weight < e.weight then e :: insertDec d t else d :: e :: t

/-- `sorted(decoders, key=..., reverse=True)`, `decoder.py` 149: a stable sort, decoders
with equal keys keep their order. -/
def sortDecs : List Dec → List Dec
  | [] => []
  | d :: t => insertDec d (sortDecs t)

/-- `functools.reduce(lambda a, b: a & b, ...)`, `decoder.py` 156, for a list that is not
empty. -/
def commonMask : List Dec → Nat
  | [] => 0
  | d :: t => t.foldl (fun a e => a &&& e.fmt.mask) d.fmt.mask

/-- The keys of the dictionary built at `decoder.py` 161-163, in order of insertion. -/
def groupKeys (cm : Nat) : List Dec → List Nat
  | [] => []
  | d :: t => (d.fmt.mtch &&& cm) :: (groupKeys cm t).filter (· ≠ d.fmt.mtch &&& cm)

/-- The decoders of one group. -/
def group (cm k : Nat) (ds : List Dec) : List Dec := ds.filter fun d => d.fmt.mtch &&& cm = k

/-- A `DecoderTreeNode`, `decoder.py` 66-69. A node with mask 0 is a `leaf`; the
dictionary of a `node` is given by its keys and the value at each key. `hole` is the
empty list a `defaultdict` creates when a missing key is looked up. -/
inductive Tree where
  | leaf (ds : List Dec)
  | node (mask : Nat) (keys : List Nat) (child : Nat → Tree)
  | hole

/-- `_build_tree(decoders)`, `decoder.py` 146-174. The first argument bounds the depth;
every group is smaller than the whole, so the number of decoders is enough. -/
def buildTree : Nat → List Dec → Tree
  | 0, ds => .leaf ds
  | fuel + 1, ds =>
    let s := sortDecs ds
    if s.length < 2 then .leaf s
    else
      let cm := commonMask s
      if cm = 0 then .leaf s
      else
        let keys := groupKeys cm s
        if keys.length = 1 then .leaf s
        else .node cm keys fun k => buildTree fuel (group cm k s)

/-- `build()` for one of the two lists, `decoder.py` 108-110. -/
def build (ds : List Dec) : Tree := buildTree ds.length ds

/-- The loop over the decoders of a leaf, `decoder.py` 136-144. -/
def tryAll (word : Nat) (address : Int) : List Dec → PyRes Instr
  | [] => .error .undefinedInstruction
  | d :: t =>
    if d.check word then
      match d.decode word address with
      | .error .decodeError => tryAll word address t
      | r => r
    else tryAll word address t

/-- The loop of `DecoderTree.decode`, `decoder.py` 128-144, with the tree as the lookup
leaves it. A missing key is created by the `defaultdict`, so `KeyError` is never raised;
the new value is an empty list, whose `mask` raises `AttributeError`. -/
def Tree.walk (word : Nat) (address : Int) : Tree → PyRes Instr × Tree
  | .leaf ds => (tryAll word address ds, .leaf ds)
  | .hole => (.error .attributeError, .hole)
  | .node mask keys child =>
    let k := word &&& mask
    if k ∈ keys then
      let (r, t) := (child k).walk word address
      (r, .node mask keys fun j => if j = k then t else child j)
    else (.error .attributeError, .node mask (keys ++ [k]) fun j => if j = k then .hole else child j)

/-- The two trees of a `DecoderTree`. -/
structure Trees where
  t16 : Tree
  t32 : Tree

/-- `hw1 & 0xf800 in (0xf800, 0xf000, 0xe800)`, `decoder.py` 93-94 and 117. -/
def is32bit (hw1 : Nat) : Bool := [0xf800, 0xf000, 0xe800].contains (hw1 &&& 0xf800)

/-- `DecoderTree.decode(data, dataAddress)`, `decoder.py` 112-144: the result, and the
trees afterwards. -/
def Trees.decode (ts : Trees) (data : List Nat) (address : Int) : PyRes Instr × Trees :=
  if data.length < 2 then (.error .assertionError, ts)
  else match bytesToLe16 data with
    | .error e => (.error e, ts)
    | .ok hw1 =>
      if is32bit hw1 then
        if data.length < 4 then (.error .undefinedInstruction, ts)
        else match bytesToLe16 data 2 with
          | .error e => (.error e, ts)
          | .ok hw2 =>
            let (r, t) := ts.t32.walk (hw1 ||| (hw2 <<< 16)) address
            (r, { ts with t32 := t })
      else
        let (r, t) := ts.t16.walk hw1 address
        (r, { ts with t16 := t })

/-- `add_decoder` for every decoder and `build()`, `decoder.py` 102-110. -/
def buildTrees (ds : List Dec) : Trees :=
  ⟨build (ds.filter fun d => !d.is32), build (ds.filter fun d => d.is32)⟩

end Verif
