# Formal model of flit/cmdis in Lean 4

`/repo/cmdis` is a Thumb disassembler and simulator in Python 2.7. This directory holds a
model of it in Lean 4 and proofs about that model. `properties.jsonl` lists the properties in
English, `MANIFEST.json` names the theorems for each, `lean/Verif/Props` contains them.

## Layout

The model follows the source function by function; every definition cites its lines.

| Lean module | Python source |
| --- | --- |
| `Py` | Python itself: exceptions, `& \| ^ ~ << >>` on integers of either sign, slices, text |
| `Bitstring` | `bitstring.py` |
| `Objects` | `bitstring.py` and `AddWithCarry` again, with objects instead of values |
| `Helpers` | `helpers.py` |
| `Utilities` | `utilities.py` |
| `Registers` | `registers.py` |
| `Machine` | `model.py`, `mock_cpu.py` |
| `Delegate` | `model.py` and the `eval` methods again, for any delegate |
| `Dump` | `model.py`: `dump`, `__repr__` |
| `Spec` | `decoder.py`: `parse_spec`, `process_fmt` |
| `Instr` | the instruction object: classes of `instructions.py`, operands of `formatter.py` |
| `Handlers` | the decode functions of `instructions.py` |
| `Table` | the `@instr` decorators of `instructions.py` (written by `tools/table.py` from the text) |
| `Decoder` | `decoder.py`: `Decoder`, `DecoderTree`, `Instruction` |
| `TreeDump` | `decoder.py`: `DecoderTree.dump`, `Decoder.__repr__` |
| `Exec` | the `eval` methods of `instructions.py` |
| `Disasm`, `Program` | `disasm.py`, `CpuModel.execute` |
| `Format` | `formatter.py` |
| `Console` | `__main__.py` |
| `Interrupt` | `SimConsole.run` again, with Ctrl-C at the prompt |

Specifications. They are written from the Arm v7-M manual or from the English property and
do not use the functions of the model.

| Lean module | Contents |
| --- | --- |
| `Thumb` | the 122 encodings: bit pattern, conditions on the fields, what the manual says the word does |
| `Arm` | the manual's pseudocode functions on `BitVec` |
| `Ref` | the manual's effect of each instruction on registers, flags and a flat memory |
| `Spec/Text` | readers of binary, octal, hexadecimal, decimal text |
| `Spec/Assembly` | a reader of assembly lines and the manual's operands for each encoding |
| `Spec/Meaning` | what a mnemonic with its operands means, without encodings |
| `Spec/Console` | numbers, names, command lines as the console should read them |

`Cases` is an intermediate table: what the *code* makes of each encoding, as actions on bit
vectors. `Lemmas/Rows` proves that it is what the model does, `Lemmas/Agree` compares it with
`Thumb` word by word. `Lemmas/*` are auxiliary, `Props/*` the property theorems with an
example beside each. `Suite/*` are the project's own tests, run on the model.

## Reference semantics

* Python 2.7 (print statements; `setup.py` runs 2to3 for Python 3). Strings are lists of
  ASCII characters, integers are unbounded.
* Exceptions are values. Machine code of the model has type
  `Machine → Except PyErr α × Machine`, so that what an exception leaves behind is visible.
* Objects are passed by reference in Python. Where the code changes an object that is still in
  use (`bitstring.signed` and `~x` complement the object, an instruction object changes while it
  is executed or formatted), the model returns the changed object and its users store it back.
* Memory is a list of regions with their bytes, as in `MockCpuModelDelegate`. Proofs abstract
  it to a map from addresses to bytes.
* The decoder tree holds the real table in source order; the tree of the model is built by the
  same insertions as `build()` and evaluated by the kernel.

## How the proofs go

* Bitstrings: each operation is rewritten as arithmetic on natural numbers or as a `BitVec`
  operation, at every width. Invariants are inductions over sequences of operations.
* Decoder: induction over the tree for every table of decoders, then the real table.
* Encodings: a theorem per encoding that all its words are selected and decode to an action
  with the fields as parameters. Fields are variables; nothing is enumerated there.
* Execution: the exact effect of every action, on every state. From it come an iff with the
  manual's effect, the frame properties, and the errors.
* Programs, listings, console sessions: induction over the list.
* Finite domains (4096 modified immediates, the table of 122 encodings, shift types) are
  evaluated completely by the kernel (`decide +kernel`), never sampled.
* If the code contradicts the property, the property keeps its wording, the witness is a
  theorem (`…_wrong`, `…_fails`, `full_claim_false`), and the `_partial` theorem gives the
  part that holds, where possible with the exact condition as an iff.

## Trusted base

* Lean's kernel (4.33.0). No `sorry`, no axioms of our own, no `native_decide`, no `bv_decide`;
  Mathlib is not imported. The table below gives the axioms of each property's theorems:
  `propext`, `Classical.choice` and `Quot.sound` are Lean's standard ones.
* That the model says what the Python code does. It was read, not run. As a check, `Suite/*`
  transcribes the project's own tests (`/repo/test`, all four files) and the kernel runs them
  on the model. They pass, except `test_rsb_t1` and `test_b_t1_cc_neg`, which must fail on the
  code as well because of the `signed` defect below, and two tests that Python never runs
  because a later function has the same name (`test_append`, `test_push_t2`).
* That the theorems notice errors. `seeded/LOG.jsonl` records wrong programs tried against
  them (`seeded/run.py`).
* That `Thumb`, `Arm` and `Ref` say what the manual says.
* Python's own library: `optparse`, `str.split`, `int(s, 0)` and `%`/`format` are modelled by
  hand for the arguments that occur.

Not modelled: `CpuModel` without a delegate; `mode`; `__delitem__`; `__repr__` of objects
other than bitstrings, decoders and the CPU; the number that
`hash` returns; text outside ASCII; the program's command line and log level,
`KeyboardInterrupt` during a command, the prompt; what Python code after `$` does (it is a parameter); the
wording of messages that contain the text of an exception; time and memory limits.

## Where the code is wrong

Found by proofs that did not close. Each has a witness theorem.

Bitstrings and helpers
* `signed` of a negative bitstring complements the object; so do comparisons with negative
  integers, and `AddWithCarry` does it to its operands and to a negative result (C07, C14, C17).
* Bitstrings equal numbers and texts that hash differently, and `==` is not transitive through numbers (C97).
* `~x` changes `x` (C07). `x <= n` is `x == n` for negative `n` (C14).
* `b %= b` leaves a value out of range, `b[i:j] = b` clears the slice, `AddWithCarry(x, x, c)`
  has a wrong overflow for negative `x`; a failed assignment of a negative width is stored
  (C01, C85).
* `bfx`, `bfi` take a zero `lsb` as missing (C22). The conversions of floats raise `NameError`
  (C87).

Machine
* `spsel` is a constant index, so the process stack is never used (C27). Reading `cpu.s[k]`
  raises `KeyError` (C30).
* A read across the end of a region raises `IndexError`, a write makes the region grow (C25).

Decoding
* PUSH.W raises `NameError` in its decode function. Words without encoding can raise
  `AttributeError`, a single last byte `AssertionError` (C36, C42). After that `DecoderTree.dump`
  raises `AttributeError` too (C95).
* CMP and CMN (register) decode the wrong registers; backward branches have a complemented
  offset (C38, C50).
* The memory hints PLD and PLI (register) decode as loads to PC; `ldr.w pc, [pc, #n]` is taken
  for undefined (C82). 28 encodings take registers for which the manual calls them unpredictable,
  among them `cmp` of two low registers in its long form and `blx pc` (C83).

Execution
* ADD, SUB, RSB, CMP, CMN with negative results are complemented (C43, C48), so conditional
  branches after CMP go wrong (C49).
* MVN.W raises `NameError`; MOVS.W immediate does not set C; PC as operand is read without the
  offset and PC as destination is advanced again (C47, C81).
* BLX LR jumps to the return address (C51). POP and LDM do not clear bit 0 of a loaded PC (C55)
  and have changed registers if they raise midway (C62).
* SVC, BKPT and UDF go on to the next instruction, PUSH, POP, LDM and STM accept addresses that are
  no multiples of four, and branches never leave Thumb state (C89).
* MSR does nothing, CPS ignores the privilege, MRS of most xPSR combinations raises
  `TypeError` (C58).
* CMP.W, CMN.W, RSB.W change their constant when executed (C61).

Formatting
* ADR labels are neither aligned nor subtracted (C65). Formatting MSR changes the mask, so its
  suffix can be wrong (C74).

Console
* A bad option of `disasm` ends the whole program (C67). `disasm -4` is one.
* `write16` and `write32` refuse values above 255 (C69).
* `read16` and `read32` count values instead of bytes: from the second line on the address in front
  of the line is wrong (C88).
* `step` decodes the following halfword too and refuses to execute if that one fails (C70).
* `reset` always fails: it is called with one argument and has two (C71).
* `wreg` with a name that is no register says nothing, and values above 2**32 are stored as they
  are (C76).
* `disasm` loses the listing if a word fails with another exception, and fails itself if there
  is nothing to list (C78).
* `status` and `stat` are in the help and do not exist; `map` exists and is not in the help (C79).
* A repeated line is not split at semicolons (C80). After a semicolon and a blank, the `$` of Python
  code is taken for a part of the code (C109).

## Properties

Axioms: p = `propext`, c = `Classical.choice`, q = `Quot.sound`; the union over the theorems of the
property. Notes on what is missing from partial ones are in `MANIFEST.json`.

| | Title | Modelled in | How it is proved | Status | Theorems | Axioms |
| --- | --- | --- | --- | --- | --- | --- |
| C01 | bitstring stays in range | `Bitstring` | Each operation of the class rewritten in arithmetic form; induction over any sequence of operations on any bitstring (the invariant value < 2^width, mask = 2^width-1). | partial | 4 | p c q |
| C02 | binary string round trip | `Bitstring` | Parser and printer related bit by bit, for every width. | proved | 6 | p c q |
| C03 | concatenation | `Bitstring` | Arithmetic form of `+`/concat; associativity and slices of the parts follow. | proved | 5 | p c q |
| C04 | slice read | `Bitstring` | Bits of a slice by `Nat.testBit`, for every bound, negative ones and steps included as Python resolves them. | proved | 4 | p c q |
| C05 | bit and slice assignment | `Bitstring` | Bits of the changed object by `Nat.testBit`: written ones and all others. | proved | 9 | p c q |
| C06 | signed value | `Bitstring` | Two's complement value against Lean's `BitVec.toInt`. | proved | 2 | p c q |
| C07 | observers do not modify | `Bitstring` | The model returns the object after the call. Exact condition for `unchanged`, and counterexamples to the claim. | partial | 8 | p c q |
| C08 | modular arithmetic | `Bitstring` | Equal to `BitVec` addition, subtraction, multiplication at every width. | proved | 10 | p c q |
| C09 | bitwise operations and shifts | `Bitstring` | Equal to `BitVec` operations at every width. | proved | 9 | p c q |
| C10 | extension | `Bitstring` | `zero_extend`/`sign_extend` against `BitVec.setWidth`/`signExtend`. | proved | 4 | p c q |
| C11 | bit reversal | `Bitstring` | Bit i of the result is bit width-1-i; involution. | proved | 3 | p c q |
| C12 | bit queries | `Bitstring` | Counting functions against counts over the list of bits. | proved | 7 | p c q |
| C13 | bytes round trip | `Bitstring` | Bytes by division; round trip by induction on the number of bytes. | proved | 3 | p c q |
| C14 | order and equality laws | `Bitstring` | Comparisons against the order on numbers, every pair of operands; the failing cases have their own theorem. | partial | 9 | p c q |
| C15 | textual forms are faithful | `Bitstring` | Digits read back by a separate reader (`Spec/Text`). | proved | 5 | p c q |
| C16 | shift helpers | `Helpers` | Shifts against `BitVec` shifts with carry, every width and amount. | proved | 7 | p c q |
| C17 | AddWithCarry | `Helpers` | Against sums of integers (unsigned and signed) at width 32; the complemented results are characterised. | partial | 5 | p c q |
| C18 | immediate shift decoding | `Helpers` | All type/amount pairs, against a table from the manual. | proved | 4 | p c q |
| C19 | ThumbExpandImm | `Helpers` | All 4096 constants against the manual's definition, kernel evaluation over the whole domain. | proved | 2 | p c q |
| C20 | Align | `Helpers` | Division and multiplication. | proved | 3 | p c q |
| C21 | little-endian conversions | `Utilities` | Induction on the list of words/bytes. | proved | 8 | p c q |
| C22 | bit fields | `Utilities` | Bit positions; the zero lsb case separately. | partial | 8 | p c q |
| C23 | hamming weight | `Utilities` | Number of set bits by induction on the loop. | proved | 2 | p c q |
| C24 | memory read after write | `Machine` | Memory regions abstracted to a flat map from addresses to bytes; reads and writes are map operations. | proved | 6 | p c q |
| C25 | unmapped and edge accesses | `Machine` | Same abstraction; case split on where the access lies. | partial | 10 | p c q |
| C26 | block access agrees with word access | `Machine` | Same abstraction, for all lengths by induction. | proved | 6 | p c q |
| C27 | stack pointer banking | `Registers, Machine` | Invariant over histories of register writes. | partial | 3 | p c q |
| C28 | register write isolation | `Registers, Machine` | Every register index, every value. | proved | 9 | p c q |
| C29 | flag isolation | `Registers, Machine` | Bits of xPSR by `getLsbD`. | proved | 4 | p c q |
| C30 | register file indexing | `Registers, Machine` | Every index. | partial | 7 | p c q |
| C31 | registers stay 32 bit | `Exec` | Invariant of `eval` for every action, lifted to lists of objects. | proved | 4 | p c q |
| C32 | spec parsing | `Spec` | Induction over the text of the spec, with a separate grammar. | proved | 3 | p c q |
| C33 | mask, match and fields partition the word | `Spec, Decoder` | Induction over the list of elements. | proved | 4 | p c q |
| C34 | the tree finds what a linear search finds | `Decoder` | Induction over the tree, for every table of decoders. | proved | 5 | p c q |
| C35 | registration order is irrelevant | `Decoder` | Permutation of the table gives the same tree, by sortedness. | proved | 3 | p c q |
| C36 | undecodable words are reported as undefined | `Decoder, Table` | C34 instantiated with the real table; all errors enumerated from the handlers. | partial | 5 | p c q |
| C37 | decoding has no memory | `Decoder` | Decoding leaves the tree as it was. | proved | 1 | p q |
| C38 | encode then decode | `Decoder, Table, Handlers` | For each of the 122 encodings a theorem that its words are selected and decode to the action the manual gives; two tables (`Thumb` from the manual, `Cases` from the code) compared. | partial | 5 | p c q |
| C39 | instruction bytes and size | `Instr` | From C38. | proved | 2 | p c q |
| C40 | disassembly covers the input | `Disasm` | Induction over the bytes. | proved | 2 | p c q |
| C41 | disassembly composes | `Disasm` | Induction over the bytes. | proved | 2 | p c q |
| C42 | disassembly ends without an internal error | `Disasm` | Induction over the bytes with the error list of C36. | partial | 3 | p c q |
| C43 | add and subtract | `Exec` | Exact effect of each class, then an iff with the reference semantics `Ref`. | partial | 6 | p c q |
| C44 | logical operations | `Exec` | Exact effect equals the reference. | proved | 3 | p c q |
| C45 | shift instructions | `Exec` | Exact effect equals the reference. | proved | 3 | p c q |
| C46 | multiply | `Exec` | Exact effect equals the reference. | proved | 2 | p c q |
| C47 | moves | `Exec` | Exact effect equals the reference; witnesses for the failures. | partial | 8 | p c q |
| C48 | compare and test | `Exec` | Exact effect, iff with the reference. | partial | 4 | p c q |
| C49 | conditional branches | `Exec` | Conditions against relations of integers, through the flags of the reference. | partial | 5 | p c q |
| C50 | branch targets | `Exec` | Targets as integers; iff with the reference. | partial | 5 | p c q |
| C51 | calls return | `Exec` | Two executions in a row. | partial | 4 | p c q |
| C52 | loads and stores | `Exec` | Flat memory; complete case split on where the access lies. | partial | 10 | p c q |
| C53 | store then load | `Exec` | Two executions in a row on flat memory. | proved | 3 | p c q |
| C54 | push then pop | `Exec` | Induction over the register list. | proved | 3 | p c q |
| C55 | load and store multiple | `Exec` | Induction over the register list, for words inside memory and for words anywhere (zero or lost outside memory, IndexError for a load across the end of a region). | partial | 10 | p c q |
| C56 | extend and byte reversal | `Exec` | Exact effect equals the reference; byte positions by `BitVec`. | proved | 7 | p c q |
| C57 | pc relative addresses | `Exec` | Alignment by division; flat memory. | partial | 4 | p c q |
| C58 | system instructions | `Exec` | Exact effect for each, iff with the reference. | partial | 8 | p c q |
| C59 | instructions change only their destinations | `Exec` | Frame theorem for every action, by cases on the action. | proved | 4 | p c q |
| C60 | pc advances by the size | `Exec` | From the exact effects. | proved | 2 | p c q |
| C61 | re-execution | `Exec` | The object after execution (`Act.leaves`), exact condition for unchanged. | partial | 6 | p c q |
| C62 | failed instructions leave the state alone | `Exec` | Failing executions by cases on the action. | partial | 6 | p c q |
| C63 | register list text | `Format` | A separate reader of register lists inverts the writer, by induction over the runs of bits. | proved | 3 | p c q |
| C64 | formatting always succeeds | `Format` | Every operand of every decoded instruction formats; columns and halfwords. | proved | 3 | p c q |
| C65 | label text | `Format` | From C74 and the reference semantics. | partial | 3 | p c q |
| C66 | immediate text | `Format` | From C74. | partial | 1 | p c q |
| C67 | console survives bad input | `Console` | Every path of the command processor; the exceptions each command can raise. | partial | 5 | p c q |
| C68 | console argument conversion | `Console` | Against a separate grammar of numbers and names. | proved | 6 | p c q |
| C69 | console memory commands | `Console` | Flat memory; induction over the values. | partial | 6 | p c q |
| C70 | console step | `Console` | Refinement of the reference semantics through C72. | partial | 6 | p c q |
| C71 | console reset | `Console` | The reset path and the failing command. | partial | 5 | p c q |
| C72 | decode and execute | `Decoder, Exec` | C38 combined with the refinement of `Ref` for every action. | partial | 1 | p c q |
| C73 | programs | `Disasm, Exec` | Induction over the program, C40 and C72. | partial | 2 | p c q |
| C74 | text reads back | `Format` | A separate reader of assembly text (`Spec/Assembly`) applied to the text; one theorem per encoding against the manual's syntax. | partial | 2 | p c q |
| C75 | inspection commands | `Console` | Preservation proved for each method and composed over commands, lines and sessions. | proved | 4 | p q |
| C76 | console wreg | `Console, Machine` | Through C28 and the specification of values in C68. | partial | 5 | p c q |
| C77 | console reg | `Console` | Evaluation through the reading of registers; the numbers shown are read back. | proved | 5 | p c q |
| C78 | console listing | `Console, Disasm, Format` | Induction on the instructions; C74 for each line. | partial | 6 | p c q |
| C79 | console help | `Console` | Evaluation of both tables; the dispatch for every word. | partial | 6 | p q |
| C80 | repeating a line | `Console` | Induction on the empty lines. | partial | 4 | p q |
| C81 | exact domain of the simulator | `Thumb, Ref, Exec, Decoder` | Each action's exact effect against the manual's; then the words that decode to another action, one by one. | partial | 3 | p c q |
| C82 | exact domain of the decoder | `Thumb, Decoder, Table, Cases` | Evaluation of all pairs of diagrams; the twelve that overlap by their fields; search lemmas for the rest. For halfwords the diagrams as masks, byte by byte: decodes16_iff, undefined16_iff, unpredictable16_iff and attribute_error16_iff give the outcome by ranges of numbers, and coverage16 compares them with the manual. | partial | 15 | p c q |
| C83 | unpredictable encodings are refused | `Thumb, Decoder, Table` | The manual's rules as a table; rule by rule against the conditions of C82, then the iff of C82. | partial | 5 | p c q |
| C84 | relocation | `Decoder, Disasm, Exec, Format` | The address is stored by decode and read only by labels; induction over the disassembly; effect of C31 for execution. | proved | 5 | p c q |
| C85 | operations on one object | `Objects` | A second model with references; equal to the values of Bitstring if the objects differ, computed exactly if they are one. | partial | 8 | p c q |
| C86 | dump and repr of the CPU | `Dump, Machine` | Reads of the 16 registers; digits read back by the reader of Spec/Text. | proved | 2 | p c q |
| C87 | float conversion round trip | `Utilities` | By definition: the name struct is unbound. | partial | 2 | none |
| C88 | addresses in a memory dump | `Console, Lemmas/Console` | C69.read gives the lines; induction over the dump shows that line j begins 16*j bytes after the address and says x + 16/n*j. Reading the number back is unique, so that the claim holds exactly for bytes or the first line. | partial | 4 | p c q |
| C89 | exceptions of the processor are signalled | `Exec, Lemmas/Effect, Lemmas/Words` | eval_exact reduces an exception to one of memory: a read raises exactly past the end of a region (where_is), induction over the list of registers. The Thumb bit by C59.psr. Traps by C72. | partial | 5 | p c q |
| C90 | only the delegate's answers matter | `Delegate, Lemmas/Delegate, Lemmas/Shipped` | A second copy of the machine and of the eval methods, for any state with the four calls. A relation preserved by the four calls is preserved by every function (one lemma per function); equality with the shipped machine likewise. | proved | 7 | p c q |
| C91 | memory is accessed as the architecture says | `Delegate, Lemmas/Traced, Lemmas/Effect` | A delegate that records memory accesses. Classes without memory are silent (one lemma per function); for the others the accesses are computed along eval, by induction over the list of registers, and compared with those of the manual. | partial | 4 | p c q |
| C92 | the ways to read a bit agree | `Bitstring, Lemmas/Bitstring` | (v >> i) & 1 is testBit; each function is unfolded to it. | proved | 5 | p c q |
| C93 | the text means what the instruction does | `Spec/Meaning, Spec/Assembly, Lemmas/Meaning, Lemmas/Written` | A table of mnemonics with readers of operands; one lemma per form of syntax shows that reading what the manual's syntax writes gives the action back, for each of the 123 encodings. With C74 this covers the text the program makes; the readers are inverted for the words whose text is wrong. | partial | 4 | p c q |
| C94 | the simulator does what its listing says | `Spec/Meaning, Lemmas/Meaning, Props/C93, Props/C81` | C93 and C81 together for the words with the right text; for CMP, CMN, ADR and MSR the text shown is read and compared with what the code does. | partial | 2 | p c q |
| C95 | the dump of the decoder tree | `TreeDump, Decoder, Lemmas/Decoder, Props/C82Attr` | A reader of dump lines keeps the masks and keys above each line; it is shown to give the paths of the tree, by induction on the tree. Induction on building gives the permutation and the fixed bits, and comparing with the walk gives decoding. | partial | 5 | p c q |
| C96 | an instruction depends on its operands only | `Exec, Lemmas/Effect, Lemmas/MemApart, Lemmas/Depends, Props/C59to62` | The exact effect of every action is compared in two states: a relation says that every register and bit became equal or stayed as it was in both, and is kept by each write. Sequences by induction. Memory: the effect on it is a list of writes, and the list is the same in both. | proved | 4 | p c q |
| C97 | equality and hash agree | `Bitstring, Props/C11to15` | Equality of bitstrings is equality of width and value; the text that is hashed is longer than any text that compares equal; two numbers of the same width with the same signed value are the same. | partial | 6 | p c q |
| C98 | independent instructions can be exchanged | `Exec, Lemmas/Effect, Lemmas/Changes, Lemmas/MemApart, Lemmas/Depends, Lemmas/Commute, Props/C59to62, Props/C96` | C96 says what the second does after the first, C59 what the first leaves alone; the exact effect shows that another PC changes nothing else. Registers, bits of xPSR and memory are compared one by one. Writes to different bytes can be exchanged, and do not change what is read elsewhere (MemApart). | proved | 4 | p c q |
| C99 | a copy loop copies | `Console, Disasm, Exec, Ref, Lemmas/Refine, Props/C49to51, Props/C70, Props/C81` | An invariant for the state in front of each instruction of the loop (registers, the routine in memory, every address of memory holds a byte); one pass is seven single steps of C70, the rest is induction over the number of bytes. | partial | 3 | p c q |
| C100 | bit 0 of PC does not matter | `Exec, Console, Lemmas/Effect, Lemmas/Commute, Props/C49to51, Props/C59to62, Props/C70, Props/C81` | The exact effect of every action is compared in the two states: what does not name PC does the same and goes on; addresses computed from PC are aligned; calls set bit 0 of LR anyway; the sum of PC and an even offset keeps the difference. Then induction over programs and step commands. | partial | 5 | p c q |
| C101 | functions return with the registers they save | `Exec, Console, Props/C49to51, Props/C52to55, Props/C70, Props/C99` | The words PUSH leaves (C54) are still in the frame at the end, so POP takes the same registers back; the return address is even because calls are. Induction over code with calls in it. | partial | 5 | p c q |
| C102 | numbers of several words are added and subtracted | `Exec, Program, Props/C43to48` | Induction over the instructions: the carry of the first is the carry of the rest, and the sum divided by 2^32 is the sum of the rest with that carry. | partial | 4 | p c q |
| C103 | instructions that undo each other or do the same as others | `Exec, Program, Props/C43to48, Props/C56to58` | The exact results of C43 to C47 and C56 one after the other, and laws of 32-bit words. | partial | 10 | p c q |
| C104 | the narrow and the wide form of an instruction do the same | `Instr, Exec, Handlers, Table, Decoder` | The exact effect of every action depends on the size of the object only through PC (effect_longer), and not on how the action is written (effect_normal). That the two words of each pair stand for the same action is shown by finding their fields by division (Lemmas/Wide). | proved | 4 | p c q |
| C105 | loads and stores do what smaller ones do together | `Instr, Exec, Machine` | The exact effects of the actions are composed (run_all), and a relation of states that differ at most in PC is kept by every load and store (loads_near, stores_near), by induction on the list. | proved | 5 | p c q |
| C106 | a file is simulated from reset to the last step | `Console, Machine, Disasm, Exec, Decoder` | The start (C71), the steps (C70), the lines (C80) and the loop (C99) are composed; the state after the start is given in full (vectors_begins). | partial | 3 | p c q |
| C107 | loops that compute | `Console, Exec, Decoder, Machine` | Induction over n, and over the text; each turn is a run of the reference machine, which the step command follows (C70). | proved | 2 | p c q |
| C108 | what no session can change | `Console, Exec, Delegate, Machine` | The invariant is kept by the writing calls of the delegate. An instruction touches the machine only through these calls (C90, with equality and the invariant as the relation), and so do the commands; induction over the lines. | proved | 4 | p c q |
| C109 | a session is made of its commands | `Console` | Every command commutes with putting output in front (one lemma per handler). Cutting and joining by induction over the lines; left out lines by C75 and C67. | partial | 6 | p c q |
| C110 | a program that is typed runs as one from a file | `Console, Startup` | The machine at the start is computed exactly (start_exact), the three commands are run on the empty one (write_run, wreg_run), then C109 for lines and output. | proved | 2 | p c q |
| C111 | compiled expressions compute their value | `Program, Disasm, Exec, Console` | Induction over the expression with the stack as invariant; PUSH and POP by C54, whole programs by C73 (program_exact_partial), files by C106 (simulates_exact_partial). | partial | 5 | p c q |
| C112 | compiled assignments give every variable its value | `Program, Disasm, Exec, Console` | Induction over the assignments with C111 for each expression; disassembled programs by C73 (program_exact_partial), files by C106 (simulates_exact_partial). | partial | 5 | p c q |
| C113 | compiled programs with conditions and loops compute what they mean | `Console, Program, Exec` | Induction over the evaluation of the program (relation Evals, with the number of steps Takes; file_steps); expressions by C111, assignments by C112, the session by C106 (simulates_exact_partial). never_ends: by induction over the number of steps and the program (progress). factorial_file is an instance for every number of eight bits, with 25 * n + 17 steps. | partial | 5 | p c q |

## Axioms of each theorem

No axioms (4 theorems):
`C49.opposite`, `C68.bases`, `C87.always_fails`, `C87.full_claim_false`.

`propext` (35 theorems):
`C06.signed_narrow`, `C07.signed_not_pure`, `C07.comparison_not_pure`, `C08.floordiv_zero`, `C09.shift_negative`, `C10.extend_refuses`, `C11.reversed_empty`, `C12.zero_forms`, `C14.le_negative_int_wrong`, `C14.compare_text`, `C14.unsupported_ne_false`, `C15.octal_zero_has_no_digit`, `C16.shift_domain`, `C17.widths_must_agree`, `C20.align_zero`, `C22.full_claim_false`, `C25.default_size`, `C28.read_no_effect`, `C28.case_insensitive`, `C28.names`, `C28.name_roundtrip`, `C30.r_beyond`, `C60.size_of`, `C79.documented_exist_partial`, `C79.existing_documented_partial`, `C84.text_relocates`, `C85.full_claim_false`, `C85.add_distinct`, `C90.shipped`, `C90.shipped_all`, `C90.alike`, `C90.alike_all`, `C90.logging`, `C90.default_size`, `C97.full_claim_false`.

`propext`, `Quot.sound` (83 theorems):
`C85.concat_self_in_range`, `C02.binary_string_digits`, `C02.bad_string_refused`, `C02.numeral_unique`, `C03.concat_other`, `C05.slice_assignment_step`, `C05.bit_assignment_other`, `C05.assignment_types`, `C07.comparison_pure_partial`, `C12.is_zero_iff`, `C12.lowest_set_bit_spec`, `C12.highest_set_bit_spec`, `C12.iter_bits`, `C14.eq_is_equality`, `C18.decode_imm_shift`, `C21.odd_refused`, `C24.byte_refused`, `C25.write_unmapped`, `C25.read_past_end`, `C25.full_claim_false`, `C26.block_read`, `C26.word_is_block`, `C26.block_unmapped`, `C27.spsel_ignored`, `C28.write_unknown`, `C28.read_unknown`, `C30.s_beyond`, `C30.s_read_fails`, `C34.depth_suffices`, `C36.not_only_undefined`, `C36.wrong_arguments`, `C37.no_memory`, `C42.internal_errors`, `C46.no_flags`, `C47.expand_carry`, `C47.movs_w_not_rotated`, `C48.no_register_changes`, `C49.after_cmp_partial`, `C56.rev_bytes`, `C56.rev16_bytes`, `C56.own_inverse`, `C61.steady_encodings`, `C62.pop_ldm_fail`, `C69.full_claim_false`, `C69.negative_length`, `C71.command_fails`, `C71.full_claim_false`, `C75.inspection`, `C75.output_grows`, `C75.session_keeps`, `C75.log`, `C77.reg_unknown`, `C79.unknown`, `C79.known`, `C79.help`, `C79.full_claim_false`, `C80.repeats_partial`, `C80.not_split`, `C80.nothing_to_repeat`, `C80.full_claim_false`, `C83.some_missed`, `C84.decode_relocates`, `C84.text_up_to_comment`, `C85.concat_self`, `C85.slice_self`, `C88.address_right_iff_partial`, `C88.full_claim_false`, `C89.full_claim_false`, `C92.get_bit`, `C92.get_bit_value`, `C92.above_width`, `C95.every_decoder_partial`, `C95.program_dump`, `C97.bitstrings_partial`, `C97.symmetric`, `C97.text_hash`, `C109.output_ignored`, `C109.cut`, `C109.semicolons_partial`, `C109.full_claim_false`, `C109.interrupts`, `C111.full_claim_false`, `C112.full_claim_false`.

`propext`, `Classical.choice`, `Quot.sound` (422 theorems):
`C01.bitstring_in_range_partial`, `C01.full_claim_false`, `C01.width_slots`, `C02.binary_string_round_trip`, `C02.string_round_trip`, `C02.numeral_accepted`, `C03.concat_bits`, `C03.concat_number`, `C03.concat_assoc`, `C03.concat_slices`, `C04.slice_reads_selected_bits`, `C04.slice_total`, `C04.plain_slice`, `C04.index_reads_bit`, `C05.slice_assignment`, `C05.slice_assignment_any`, `C05.slice_assignment_int`, `C05.bit_assignment`, `C05.slice_assignment_read`, `C05.slice_assignment_number`, `C06.signed_is_twos_complement`, `C07.signed_effect`, `C07.signed_twice`, `C07.signed_pure_partial`, `C07.invert_operator_changes_operand`, `C07.invert_twice`, `C08.add_mod`, `C08.sub_mod`, `C08.mul_mod`, `C08.floordiv_mod`, `C08.inplace_agrees`, `C08.unsupported_operand_ignored`, `C08.add_sub_cancel`, `C08.reflected_mod`, `C08.reflected_div`, `C09.and_bits`, `C09.or_bits`, `C09.xor_bits`, `C09.or_xor_int_bits`, `C09.invert_bits`, `C09.shl_bits`, `C09.shr_bits`, `C09.reflected_bits`, `C10.zero_extend_value`, `C10.sign_extend_value`, `C10.extend_bits`, `C11.reversed_bits`, `C11.reversed_twice`, `C12.bit_count_is_number_of_set_bits`, `C12.is_ones_iff`, `C13.bytes_are_little_endian`, `C13.bytes_round_trip`, `C13.from_bytes`, `C14.lt_is_strict_total_order`, `C14.derived_comparisons`, `C14.compare_nonneg_int`, `C14.compare_negative_int_partial`, `C14.le_negative_int_is_eq`, `C15.repr_injective`, `C15.base_string_injective`, `C15.hex_text`, `C15.hex_text_injective`, `C16.lsl_c_spec`, `C16.lsr_c_spec`, `C16.asr_c_spec`, `C16.ror_c_spec`, `C16.rrx_c_spec`, `C16.plain_shifts`, `C17.carry_and_overflow`, `C17.result_partial`, `C17.result_wrong`, `C17.operands_spoiled`, `C18.decode_imm_shift_refuses`, `C18.shift_c_spec`, `C18.decoded_shift_succeeds`, `C19.thumb_expand_imm_c`, `C19.thumb_expand_imm`, `C20.align_int`, `C20.align_bitstring`, `C21.le16_roundtrip`, `C21.le32_roundtrip`, `C21.le_bytes`, `C21.words32`, `C21.words16`, `C21.bytes_words32`, `C21.bytes_words16`, `C22.bitmask_spec`, `C22.bfx_partial`, `C22.bfx_zero`, `C22.bfi_partial`, `C22.bfi_zero`, `C22.wmask_spec`, `C22.invert32_spec`, `C23.hamming_weight_spec`, `C23.hamming_weight_ends`, `C24.write_spec`, `C24.read_spec`, `C24.read_after_write`, `C24.read_elsewhere`, `C24.history`, `C25.read_unmapped`, `C25.other_size`, `C25.inside_partial`, `C25.byte_access`, `C25.write_past_end`, `C25.past_end_read_back`, `C26.block_write`, `C26.block_roundtrip`, `C26.block_bytes`, `C27.sp_is_msp_partial`, `C27.psp_aligned`, `C28.write_spec`, `C28.read_after_write`, `C28.read_other`, `C29.set_flag`, `C29.read_back`, `C29.set_flag_int`, `C29.history`, `C30.r_read_write_partial`, `C30.r_other`, `C30.s_write`, `C30.r_negative`, `C31.decoded_act`, `C31.one`, `C31.program`, `C31.repeated`, `C32.parse_text`, `C32.fixed_value`, `C32.refuses`, `C33.covers`, `C33.check_iff`, `C33.encode_check`, `C33.fields_determine`, `C34.tree_is_linear_search`, `C34.tree_is_linear_search_of_match`, `C34.order_exists`, `C34.tree_finds`, `C35.order_irrelevant`, `C35.table_order_irrelevant`, `C35.rows_order_irrelevant`, `C36.errors_partial`, `C36.undefined_partial`, `C36.decoded_matches`, `C38.encode_then_decode_partial`, `C38.encode_then_decode_iff`, `C38.push_w_fails`, `C38.cmp_reg_compares_itself`, `C38.branch_back_complemented`, `C39.bytes_and_size`, `C39.later_bytes_ignored`, `C40.covers`, `C40.history_irrelevant`, `C41.composes`, `C41.start_address_shifts`, `C42.ends`, `C42.errors_partial`, `C43.add_sub_exact`, `C43.reverse_subtract_exact`, `C43.add_sub_right_iff_partial`, `C43.reverse_subtract_right_iff_partial`, `C43.sums`, `C43.subtraction_flags`, `C44.logic_right`, `C44.bit_clear_right`, `C44.only_n_and_z`, `C45.shift_immediate_right`, `C45.shift_register_right`, `C45.conditions_hold`, `C46.multiply_right`, `C47.move_right_partial`, `C47.move_from_pc`, `C47.move_to_pc`, `C47.shifted_negate_fails`, `C47.movs_w_carry`, `C47.move_right_iff_partial`, `C48.compare_exact`, `C48.compare_right_iff_partial`, `C48.test_right`, `C49.taken_iff`, `C49.relations`, `C49.cmp_then_branch`, `C50.b_target`, `C50.conditional_target`, `C50.bl_target`, `C50.target_right_iff_partial`, `C50.offsets`, `C51.blx_right_partial`, `C51.blx_lr`, `C51.bx_right`, `C51.call_returns`, `C52.load_right_partial`, `C52.load_unmapped`, `C52.load_past_end`, `C52.store_right_partial`, `C52.store_unmapped`, `C52.store_past_end`, `C52.cases_complete`, `C52.load_changes`, `C52.store_changes`, `C52.values`, `C53.store_load`, `C53.store_load_next`, `C53.word_back`, `C54.push`, `C54.pop_after_push`, `C54.push_pop`, `C55.store_multiple_partial`, `C55.load_multiple_partial`, `C55.pop_pc`, `C55.pop_pc_right_iff_partial`, `C55.load_multiple_pc`, `C55.store_multiple_anywhere`, `C55.push_anywhere`, `C55.load_multiple_anywhere`, `C55.pop_anywhere`, `C55.loaded_unique`, `C56.extend_right`, `C56.extended_value`, `C56.reverse_right`, `C56.revsh_value`, `C57.adr_right`, `C57.literal_right_partial`, `C57.literal_unmapped`, `C57.literal_past_end`, `C58.cps_exact`, `C58.cps_right_iff_partial`, `C58.mrs_right`, `C58.mrs_apsr_fails`, `C58.mrs_ipsr`, `C58.mrs_right_iff_partial`, `C58.msr_exact`, `C58.msr_right_iff_partial`, `C59.registers`, `C59.psr`, `C59.memory`, `C59.memory_same`, `C60.pc_advances`, `C61.unchanged_iff`, `C61.again`, `C61.again_mov_pc`, `C61.steady_again`, `C61.cmp_twice`, `C62.which`, `C62.memory_same`, `C62.unchanged_partial`, `C62.load_raises_iff`, `C62.pop_moves_sp`, `C63.ranges`, `C63.reads_back`, `C63.injective`, `C64.always`, `C64.again`, `C64.executes_the_same`, `C65.branch`, `C65.bl`, `C65.adr_partial`, `C66.immediates`, `C67.command_ends_partial`, `C67.survives_partial`, `C67.full_claim_false`, `C67.line_ends_partial`, `C67.run_ends_partial`, `C68.value_iff`, `C68.no_value`, `C68.number_value`, `C68.register_value`, `C68.unmapped`, `C69.write_partial`, `C69.write_refused`, `C69.read`, `C69.write_then_read_partial`, `C106.step_exact_partial`, `C70.step_partial`, `C70.steps_partial`, `C70.at_most_one`, `C70.disturbed`, `C70.full_claim_false`, `C71.reset_partial`, `C71.start_loads`, `C71.stack_mapped`, `C72.decode_execute_partial`, `C73.program_partial`, `C73.program_exact_partial`, `C74.decoded_line`, `C74.line_of`, `C76.wreg_partial`, `C76.too_large`, `C76.unknown_register`, `C76.refused`, `C76.full_claim_false`, `C77.reg_one`, `C77.register_command`, `C77.reg_all`, `C77.reg_columns`, `C78.listing_partial`, `C78.undefined_listing`, `C78.lost_listing`, `C78.empty_listing`, `C78.full_claim_false`, `C78.unmapped`, `C81.execute_iff`, `C81.decode_execute_iff_partial`, `C81.same_flags_self`, `C82.one_encoding`, `C82.decodes_iff`, `C82.unpredictable_iff`, `C82.name_error_iff`, `C82.otherwise_undefined_partial`, `C82.hint_loads_pc`, `C82.ldr_pc_literal_undefined`, `C82.attribute_error_iff`, `C82.undefined_iff`, `C82.attribute_error16_iff`, `C82.unpredictable16_iff`, `C82.decodes16_iff`, `C82.undefined16_iff`, `C82.coverage16`, `C82.coverage32`, `C83.refused_is_unpredictable`, `C83.missed_decodes`, `C83.refused_iff_partial`, `C83.decoded_unpredictable_iff`, `C84.disasm_relocates`, `C84.execute_relocates`, `C85.distinct`, `C85.same_object_partial`, `C85.add_self`, `C86.dump_shows`, `C86.repr_shows`, `C88.lines`, `C88.address_text`, `C89.trap_goes_on`, `C89.raises_iff`, `C89.multiple_goes_on`, `C89.thumb_bit_kept`, `C90.decode_execute_partial`, `C91.trace_exact`, `C91.trace`, `C91.trace_any`, `C91.decode_trace_partial`, `C92.all_agree`, `C92.iter_injective`, `C93.normal_run`, `C93.written_means`, `C93.text_means_iff_partial`, `C93.same_text_same_effect_partial`, `C94.follows_iff_partial`, `C94.full_claim_false`, `C95.decode_by_dump`, `C95.dump_after`, `C95.full_claim_false`, `C96.depends`, `C96.memory`, `C96.confined`, `C96.program`, `C97.transitive_iff`, `C97.lost_key`, `C98.exchange`, `C98.exchange_apart`, `C98.exchange_in_program`, `C98.exchange_apart_in_program`, `C99.copies_partial`, `C99.full_claim_false`, `C99.no_direct_loop_partial`, `C100.execute_partial`, `C100.program_partial`, `C100.step_partial`, `C100.steps_partial`, `C100.full_claim_false`, `C101.returns`, `C101.call_returns`, `C101.nested`, `C101.session_partial`, `C101.pop_pc_partial`, `C102.addition_exact`, `C102.subtraction_exact`, `C102.addition_right_iff_partial`, `C102.subtraction_right_iff_partial`, `C103.reverse_twice`, `C103.complement_twice`, `C103.exclusive_or_twice`, `C103.exchange`, `C103.rotate_back`, `C103.add_then_subtract_iff_partial`, `C103.negate_twice_iff_partial`, `C103.shifts_extend`, `C103.multiply_by_power`, `C103.clear_is_and_not`, `C104.same_action`, `C104.narrow_wide`, `C104.mvn_wide`, `C104.push_wide`, `C105.load_multiple`, `C105.store_multiple`, `C105.load_signed`, `C105.load_literal`, `C105.register_offset`, `C106.simulates_partial`, `C106.file_copies_partial`, `C106.simulates_exact_partial`, `C107.factorial`, `C107.text_end`, `C108.session_preserves`, `C108.always`, `C108.lookups`, `C108.words_always`, `C109.without`, `C110.typed_program`, `C110.padding`, `C111.expression_exact`, `C111.expression_partial`, `C111.file_exact`, `C111.file_computes_partial`, `C112.assignments_exact`, `C112.assignments_partial`, `C112.file_exact`, `C112.file_assigns_partial`, `C113.file_steps`, `C113.file_exact`, `C113.file_program_partial`, `C113.never_ends`, `C113.full_claim_false`.

## Wrong programs

405 attempts with edits of the model (`seeded/LOG.jsonl`): 385 made at least one theorem fail, 19 did not, 1 ended undecided by the time limit.
