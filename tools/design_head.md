# Formal model of flit/cmdis in Lean 4

`/repo/cmdis` is a Thumb disassembler and simulator in Python 2.7. This directory holds a
model of it in Lean 4 and proofs about that model. `properties.jsonl` lists the properties in
English, `MANIFEST.json` names the theorems for each, `lean/Verif/Props` contains them.

## Layout

The model follows the source function by function; every definition cites its lines.

| Lean module | Python source |
| --- | --- |
| `Py` | Python itself: exceptions, `& \| ^ ~ << >>` on integers of either sign, slices, text |
| `Bitstring` | `bitstring.py` |
| `Objects` | `bitstring.py` and `AddWithCarry` again, with objects instead of values |
| `Helpers` | `helpers.py` |
| `Utilities` | `utilities.py` |
| `Registers` | `registers.py` |
| `Machine` | `model.py`, `mock_cpu.py` |
| `Delegate` | `model.py` and the `eval` methods again, for any delegate |
| `Dump` | `model.py`: `dump`, `__repr__` |
| `Spec` | `decoder.py`: `parse_spec`, `process_fmt` |
| `Instr` | the instruction object: classes of `instructions.py`, operands of `formatter.py` |
| `Handlers` | the decode functions of `instructions.py` |
| `Table` | the `@instr` decorators of `instructions.py` (written by `tools/table.py` from the text) |
| `Decoder` | `decoder.py`: `Decoder`, `DecoderTree`, `Instruction` |
| `TreeDump` | `decoder.py`: `DecoderTree.dump`, `Decoder.__repr__` |
| `Exec` | the `eval` methods of `instructions.py` |
| `Disasm`, `Program` | `disasm.py`, `CpuModel.execute` |
| `Format` | `formatter.py` |
| `Console` | `__main__.py` |
| `Interrupt` | `SimConsole.run` again, with Ctrl-C at the prompt |

Specifications. They are written from the Arm v7-M manual or from the English property and
do not use the functions of the model.

| Lean module | Contents |
| --- | --- |
| `Thumb` | the 122 encodings: bit pattern, conditions on the fields, what the manual says the word does |
| `Arm` | the manual's pseudocode functions on `BitVec` |
| `Ref` | the manual's effect of each instruction on registers, flags and a flat memory |
| `Spec/Text` | readers of binary, octal, hexadecimal, decimal text |
| `Spec/Assembly` | a reader of assembly lines and the manual's operands for each encoding |
| `Spec/Meaning` | what a mnemonic with its operands means, without encodings |
| `Spec/Console` | numbers, names, command lines as the console should read them |

`Cases` is an intermediate table: what the *code* makes of each encoding, as actions on bit
vectors. `Lemmas/Rows` proves that it is what the model does, `Lemmas/Agree` compares it with
`Thumb` word by word. `Lemmas/*` are auxiliary, `Props/*` the property theorems with an
example beside each. `Suite/*` are the project's own tests, run on the model.

## Reference semantics

* Python 2.7 (print statements; `setup.py` runs 2to3 for Python 3). Strings are lists of
  ASCII characters, integers are unbounded.
* Exceptions are values. Machine code of the model has type
  `Machine → Except PyErr α × Machine`, so that what an exception leaves behind is visible.
* Objects are passed by reference in Python. Where the code changes an object that is still in
  use (`bitstring.signed` and `~x` complement the object, an instruction object changes while it
  is executed or formatted), the model returns the changed object and its users store it back.
* Memory is a list of regions with their bytes, as in `MockCpuModelDelegate`. Proofs abstract
  it to a map from addresses to bytes.
* The decoder tree holds the real table in source order; the tree of the model is built by the
  same insertions as `build()` and evaluated by the kernel.

## How the proofs go

* Bitstrings: each operation is rewritten as arithmetic on natural numbers or as a `BitVec`
  operation, at every width. Invariants are inductions over sequences of operations.
* Decoder: induction over the tree for every table of decoders, then the real table.
* Encodings: a theorem per encoding that all its words are selected and decode to an action
  with the fields as parameters. Fields are variables; nothing is enumerated there.
* Execution: the exact effect of every action, on every state. From it come an iff with the
  manual's effect, the frame properties, and the errors.
* Programs, listings, console sessions: induction over the list.
* Finite domains (4096 modified immediates, the table of 122 encodings, shift types) are
  evaluated completely by the kernel (`decide +kernel`), never sampled.
* If the code contradicts the property, the property keeps its wording, the witness is a
  theorem (`…_wrong`, `…_fails`, `full_claim_false`), and the `_partial` theorem gives the
  part that holds, where possible with the exact condition as an iff.

## Trusted base

* Lean's kernel (4.33.0). No `sorry`, no axioms of our own, no `native_decide`, no `bv_decide`;
  Mathlib is not imported. The table below gives the axioms of each property's theorems:
  `propext`, `Classical.choice` and `Quot.sound` are Lean's standard ones.
* That the model says what the Python code does. It was read, not run. As a check, `Suite/*`
  transcribes the project's own tests (`/repo/test`, all four files) and the kernel runs them
  on the model. They pass, except `test_rsb_t1` and `test_b_t1_cc_neg`, which must fail on the
  code as well because of the `signed` defect below, and two tests that Python never runs
  because a later function has the same name (`test_append`, `test_push_t2`).
* That the theorems notice errors. `seeded/LOG.jsonl` records wrong programs tried against
  them (`seeded/run.py`).
* That `Thumb`, `Arm` and `Ref` say what the manual says.
* Python's own library: `optparse`, `str.split`, `int(s, 0)` and `%`/`format` are modelled by
  hand for the arguments that occur.

Not modelled: `CpuModel` without a delegate; `mode`; `__delitem__`; `__repr__` of objects
other than bitstrings, decoders and the CPU; the number that
`hash` returns; text outside ASCII; the program's command line and log level,
`KeyboardInterrupt` during a command, the prompt; what Python code after `$` does (it is a parameter); the
wording of messages that contain the text of an exception; time and memory limits.

## Where the code is wrong

Found by proofs that did not close. Each has a witness theorem.

Bitstrings and helpers
* `signed` of a negative bitstring complements the object; so do comparisons with negative
  integers, and `AddWithCarry` does it to its operands and to a negative result (C07, C14, C17).
* Bitstrings equal numbers and texts that hash differently, and `==` is not transitive through numbers (C97).
* `~x` changes `x` (C07). `x <= n` is `x == n` for negative `n` (C14).
* `b %= b` leaves a value out of range, `b[i:j] = b` clears the slice, `AddWithCarry(x, x, c)`
  has a wrong overflow for negative `x`; a failed assignment of a negative width is stored
  (C01, C85).
* `bfx`, `bfi` take a zero `lsb` as missing (C22). The conversions of floats raise `NameError`
  (C87).

Machine
* `spsel` is a constant index, so the process stack is never used (C27). Reading `cpu.s[k]`
  raises `KeyError` (C30).
* A read across the end of a region raises `IndexError`, a write makes the region grow (C25).

Decoding
* PUSH.W raises `NameError` in its decode function. Words without encoding can raise
  `AttributeError`, a single last byte `AssertionError` (C36, C42). After that `DecoderTree.dump`
  raises `AttributeError` too (C95).
* CMP and CMN (register) decode the wrong registers; backward branches have a complemented
  offset (C38, C50).
* The memory hints PLD and PLI (register) decode as loads to PC; `ldr.w pc, [pc, #n]` is taken
  for undefined (C82). 28 encodings take registers for which the manual calls them unpredictable,
  among them `cmp` of two low registers in its long form and `blx pc` (C83).

Execution
* ADD, SUB, RSB, CMP, CMN with negative results are complemented (C43, C48), so conditional
  branches after CMP go wrong (C49).
* MVN.W raises `NameError`; MOVS.W immediate does not set C; PC as operand is read without the
  offset and PC as destination is advanced again (C47, C81).
* BLX LR jumps to the return address (C51). POP and LDM do not clear bit 0 of a loaded PC (C55)
  and have changed registers if they raise midway (C62).
* SVC, BKPT and UDF go on to the next instruction, PUSH, POP, LDM and STM accept addresses that are
  no multiples of four, and branches never leave Thumb state (C89).
* MSR does nothing, CPS ignores the privilege, MRS of most xPSR combinations raises
  `TypeError` (C58).
* CMP.W, CMN.W, RSB.W change their constant when executed (C61).

Formatting
* ADR labels are neither aligned nor subtracted (C65). Formatting MSR changes the mask, so its
  suffix can be wrong (C74).

Console
* A bad option of `disasm` ends the whole program (C67). `disasm -4` is one.
* `write16` and `write32` refuse values above 255 (C69).
* `read16` and `read32` count values instead of bytes: from the second line on the address in front
  of the line is wrong (C88).
* `step` decodes the following halfword too and refuses to execute if that one fails (C70).
* `reset` always fails: it is called with one argument and has two (C71).
* `wreg` with a name that is no register says nothing, and values above 2**32 are stored as they
  are (C76).
* `disasm` loses the listing if a word fails with another exception, and fails itself if there
  is nothing to list (C78).
* `status` and `stat` are in the help and do not exist; `map` exists and is not in the help (C79).
* A repeated line is not split at semicolons (C80). After a semicolon and a blank, the `$` of Python
  code is taken for a part of the code (C109).

