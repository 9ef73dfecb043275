{
 "C01": [
  "Bitstring",
  "Each operation of the class rewritten in arithmetic form; induction over any sequence of operations on any bitstring (the invariant value < 2^width, mask = 2^width-1)."
 ],
 "C02": [
  "Bitstring",
  "Parser and printer related bit by bit, for every width."
 ],
 "C03": [
  "Bitstring",
  "Arithmetic form of `+`/concat; associativity and slices of the parts follow."
 ],
 "C04": [
  "Bitstring",
  "Bits of a slice by `Nat.testBit`, for every bound, negative ones and steps included as Python resolves them."
 ],
 "C05": [
  "Bitstring",
  "Bits of the changed object by `Nat.testBit`: written ones and all others."
 ],
 "C06": [
  "Bitstring",
  "Two's complement value against Lean's `BitVec.toInt`."
 ],
 "C07": [
  "Bitstring",
  "The model returns the object after the call. Exact condition for `unchanged`, and counterexamples to the claim."
 ],
 "C08": [
  "Bitstring",
  "Equal to `BitVec` addition, subtraction, multiplication at every width."
 ],
 "C09": [
  "Bitstring",
  "Equal to `BitVec` operations at every width."
 ],
 "C10": [
  "Bitstring",
  "`zero_extend`/`sign_extend` against `BitVec.setWidth`/`signExtend`."
 ],
 "C11": [
  "Bitstring",
  "Bit i of the result is bit width-1-i; involution."
 ],
 "C12": [
  "Bitstring",
  "Counting functions against counts over the list of bits."
 ],
 "C13": [
  "Bitstring",
  "Bytes by division; round trip by induction on the number of bytes."
 ],
 "C14": [
  "Bitstring",
  "Comparisons against the order on numbers, every pair of operands; the failing cases have their own theorem."
 ],
 "C15": [
  "Bitstring",
  "Digits read back by a separate reader (`Spec/Text`)."
 ],
 "C16": [
  "Helpers",
  "Shifts against `BitVec` shifts with carry, every width and amount."
 ],
 "C17": [
  "Helpers",
  "Against sums of integers (unsigned and signed) at width 32; the complemented results are characterised."
 ],
 "C18": [
  "Helpers",
  "All type/amount pairs, against a table from the manual."
 ],
 "C19": [
  "Helpers",
  "All 4096 constants against the manual's definition, kernel evaluation over the whole domain."
 ],
 "C20": [
  "Helpers",
  "Division and multiplication."
 ],
 "C21": [
  "Utilities",
  "Induction on the list of words/bytes."
 ],
 "C22": [
  "Utilities",
  "Bit positions; the zero lsb case separately."
 ],
 "C23": [
  "Utilities",
  "Number of set bits by induction on the loop."
 ],
 "C24": [
  "Machine",
  "Memory regions abstracted to a flat map from addresses to bytes; reads and writes are map operations."
 ],
 "C25": [
  "Machine",
  "Same abstraction; case split on where the access lies."
 ],
 "C26": [
  "Machine",
  "Same abstraction, for all lengths by induction."
 ],
 "C27": [
  "Registers, Machine",
  "Invariant over histories of register writes."
 ],
 "C28": [
  "Registers, Machine",
  "Every register index, every value."
 ],
 "C29": [
  "Registers, Machine",
  "Bits of xPSR by `getLsbD`."
 ],
 "C30": [
  "Registers, Machine",
  "Every index."
 ],
 "C31": [
  "Exec",
  "Invariant of `eval` for every action, lifted to lists of objects."
 ],
 "C32": [
  "Spec",
  "Induction over the text of the spec, with a separate grammar."
 ],
 "C33": [
  "Spec, Decoder",
  "Induction over the list of elements."
 ],
 "C34": [
  "Decoder",
  "Induction over the tree, for every table of decoders."
 ],
 "C35": [
  "Decoder",
  "Permutation of the table gives the same tree, by sortedness."
 ],
 "C36": [
  "Decoder, Table",
  "C34 instantiated with the real table; all errors enumerated from the handlers."
 ],
 "C37": [
  "Decoder",
  "Decoding leaves the tree as it was."
 ],
 "C38": [
  "Decoder, Table, Handlers",
  "For each of the 122 encodings a theorem that its words are selected and decode to the action the manual gives; two tables (`Thumb` from the manual, `Cases` from the code) compared."
 ],
 "C39": [
  "Instr",
  "From C38."
 ],
 "C40": [
  "Disasm",
  "Induction over the bytes."
 ],
 "C41": [
  "Disasm",
  "Induction over the bytes."
 ],
 "C42": [
  "Disasm",
  "Induction over the bytes with the error list of C36."
 ],
 "C43": [
  "Exec",
  "Exact effect of each class, then an iff with the reference semantics `Ref`."
 ],
 "C44": [
  "Exec",
  "Exact effect equals the reference."
 ],
 "C45": [
  "Exec",
  "Exact effect equals the reference."
 ],
 "C46": [
  "Exec",
  "Exact effect equals the reference."
 ],
 "C47": [
  "Exec",
  "Exact effect equals the reference; witnesses for the failures."
 ],
 "C48": [
  "Exec",
  "Exact effect, iff with the reference."
 ],
 "C49": [
  "Exec",
  "Conditions against relations of integers, through the flags of the reference."
 ],
 "C50": [
  "Exec",
  "Targets as integers; iff with the reference."
 ],
 "C51": [
  "Exec",
  "Two executions in a row."
 ],
 "C52": [
  "Exec",
  "Flat memory; complete case split on where the access lies."
 ],
 "C53": [
  "Exec",
  "Two executions in a row on flat memory."
 ],
 "C54": [
  "Exec",
  "Induction over the register list."
 ],
 "C55": [
  "Exec",
  "Induction over the register list, for words inside memory and for words anywhere (zero or lost outside memory, IndexError for a load across the end of a region)."
 ],
 "C56": [
  "Exec",
  "Exact effect equals the reference; byte positions by `BitVec`."
 ],
 "C57": [
  "Exec",
  "Alignment by division; flat memory."
 ],
 "C58": [
  "Exec",
  "Exact effect for each, iff with the reference."
 ],
 "C59": [
  "Exec",
  "Frame theorem for every action, by cases on the action."
 ],
 "C60": [
  "Exec",
  "From the exact effects."
 ],
 "C61": [
  "Exec",
  "The object after execution (`Act.leaves`), exact condition for unchanged."
 ],
 "C62": [
  "Exec",
  "Failing executions by cases on the action."
 ],
 "C63": [
  "Format",
  "A separate reader of register lists inverts the writer, by induction over the runs of bits."
 ],
 "C64": [
  "Format",
  "Every operand of every decoded instruction formats; columns and halfwords."
 ],
 "C65": [
  "Format",
  "From C74 and the reference semantics."
 ],
 "C66": [
  "Format",
  "From C74."
 ],
 "C67": [
  "Console",
  "Every path of the command processor; the exceptions each command can raise."
 ],
 "C68": [
  "Console",
  "Against a separate grammar of numbers and names."
 ],
 "C69": [
  "Console",
  "Flat memory; induction over the values."
 ],
 "C70": [
  "Console",
  "Refinement of the reference semantics through C72."
 ],
 "C71": [
  "Console",
  "The reset path and the failing command."
 ],
 "C72": [
  "Decoder, Exec",
  "C38 combined with the refinement of `Ref` for every action."
 ],
 "C73": [
  "Disasm, Exec",
  "Induction over the program, C40 and C72."
 ],
 "C74": [
  "Format",
  "A separate reader of assembly text (`Spec/Assembly`) applied to the text; one theorem per encoding against the manual's syntax."
 ],
 "C75": [
  "Console",
  "Preservation proved for each method and composed over commands, lines and sessions."
 ],
 "C76": [
  "Console, Machine",
  "Through C28 and the specification of values in C68."
 ],
 "C77": [
  "Console",
  "Evaluation through the reading of registers; the numbers shown are read back."
 ],
 "C78": [
  "Console, Disasm, Format",
  "Induction on the instructions; C74 for each line."
 ],
 "C79": [
  "Console",
  "Evaluation of both tables; the dispatch for every word."
 ],
 "C80": [
  "Console",
  "Induction on the empty lines."
 ],
 "C81": [
  "Thumb, Ref, Exec, Decoder",
  "Each action's exact effect against the manual's; then the words that decode to another action, one by one."
 ],
 "C82": [
  "Thumb, Decoder, Table, Cases",
  "Evaluation of all pairs of diagrams; the twelve that overlap by their fields; search lemmas for the rest. For halfwords the diagrams as masks, byte by byte: decodes16_iff, undefined16_iff, unpredictable16_iff and attribute_error16_iff give the outcome by ranges of numbers, and coverage16 compares them with the manual."
 ],
 "C83": [
  "Thumb, Decoder, Table",
  "The manual's rules as a table; rule by rule against the conditions of C82, then the iff of C82."
 ],
 "C84": [
  "Decoder, Disasm, Exec, Format",
  "The address is stored by decode and read only by labels; induction over the disassembly; effect of C31 for execution."
 ],
 "C85": [
  "Objects",
  "A second model with references; equal to the values of Bitstring if the objects differ, computed exactly if they are one."
 ],
 "C86": [
  "Dump, Machine",
  "Reads of the 16 registers; digits read back by the reader of Spec/Text."
 ],
 "C87": [
  "Utilities",
  "By definition: the name struct is unbound."
 ],
 "C88": [
  "Console, Lemmas/Console",
  "C69.read gives the lines; induction over the dump shows that line j begins 16*j bytes after the address and says x + 16/n*j. Reading the number back is unique, so that the claim holds exactly for bytes or the first line."
 ],
 "C89": [
  "Exec, Lemmas/Effect, Lemmas/Words",
  "eval_exact reduces an exception to one of memory: a read raises exactly past the end of a region (where_is), induction over the list of registers. The Thumb bit by C59.psr. Traps by C72."
 ],
 "C90": [
  "Delegate, Lemmas/Delegate, Lemmas/Shipped",
  "A second copy of the machine and of the eval methods, for any state with the four calls. A relation preserved by the four calls is preserved by every function (one lemma per function); equality with the shipped machine likewise."
 ],
 "C91": [
  "Delegate, Lemmas/Traced, Lemmas/Effect",
  "A delegate that records memory accesses. Classes without memory are silent (one lemma per function); for the others the accesses are computed along eval, by induction over the list of registers, and compared with those of the manual."
 ],
 "C92": [
  "Bitstring, Lemmas/Bitstring",
  "(v >> i) & 1 is testBit; each function is unfolded to it."
 ],
 "C93": [
  "Spec/Meaning, Spec/Assembly, Lemmas/Meaning, Lemmas/Written",
  "A table of mnemonics with readers of operands; one lemma per form of syntax shows that reading what the manual's syntax writes gives the action back, for each of the 123 encodings. With C74 this covers the text the program makes; the readers are inverted for the words whose text is wrong."
 ],
 "C94": [
  "Spec/Meaning, Lemmas/Meaning, Props/C93, Props/C81",
  "C93 and C81 together for the words with the right text; for CMP, CMN, ADR and MSR the text shown is read and compared with what the code does."
 ],
 "C95": [
  "TreeDump, Decoder, Lemmas/Decoder, Props/C82Attr",
  "A reader of dump lines keeps the masks and keys above each line; it is shown to give the paths of the tree, by induction on the tree. Induction on building gives the permutation and the fixed bits, and comparing with the walk gives decoding."
 ],
 "C96": [
  "Exec, Lemmas/Effect, Lemmas/MemApart, Lemmas/Depends, Props/C59to62",
  "The exact effect of every action is compared in two states: a relation says that every register and bit became equal or stayed as it was in both, and is kept by each write. Sequences by induction. Memory: the effect on it is a list of writes, and the list is the same in both."
 ],
 "C97": [
  "Bitstring, Props/C11to15",
  "Equality of bitstrings is equality of width and value; the text that is hashed is longer than any text that compares equal; two numbers of the same width with the same signed value are the same."
 ],
 "C98": [
  "Exec, Lemmas/Effect, Lemmas/Changes, Lemmas/MemApart, Lemmas/Depends, Lemmas/Commute, Props/C59to62, Props/C96",
  "C96 says what the second does after the first, C59 what the first leaves alone; the exact effect shows that another PC changes nothing else. Registers, bits of xPSR and memory are compared one by one. Writes to different bytes can be exchanged, and do not change what is read elsewhere (MemApart)."
 ],
 "C99": [
  "Console, Disasm, Exec, Ref, Lemmas/Refine, Props/C49to51, Props/C70, Props/C81",
  "An invariant for the state in front of each instruction of the loop (registers, the routine in memory, every address of memory holds a byte); one pass is seven single steps of C70, the rest is induction over the number of bytes."
 ],
 "C100": [
  "Exec, Console, Lemmas/Effect, Lemmas/Commute, Props/C49to51, Props/C59to62, Props/C70, Props/C81",
  "The exact effect of every action is compared in the two states: what does not name PC does the same and goes on; addresses computed from PC are aligned; calls set bit 0 of LR anyway; the sum of PC and an even offset keeps the difference. Then induction over programs and step commands."
 ],
 "C101": [
  "Exec, Console, Props/C49to51, Props/C52to55, Props/C70, Props/C99",
  "The words PUSH leaves (C54) are still in the frame at the end, so POP takes the same registers back; the return address is even because calls are. Induction over code with calls in it."
 ],
 "C102": [
  "Exec, Program, Props/C43to48",
  "Induction over the instructions: the carry of the first is the carry of the rest, and the sum divided by 2^32 is the sum of the rest with that carry."
 ],
 "C103": [
  "Exec, Program, Props/C43to48, Props/C56to58",
  "The exact results of C43 to C47 and C56 one after the other, and laws of 32-bit words."
 ],
 "C104": [
  "Instr, Exec, Handlers, Table, Decoder",
  "The exact effect of every action depends on the size of the object only through PC (effect_longer), and not on how the action is written (effect_normal). That the two words of each pair stand for the same action is shown by finding their fields by division (Lemmas/Wide)."
 ],
 "C105": [
  "Instr, Exec, Machine",
  "The exact effects of the actions are composed (run_all), and a relation of states that differ at most in PC is kept by every load and store (loads_near, stores_near), by induction on the list."
 ],
 "C106": [
  "Console, Machine, Disasm, Exec, Decoder",
  "The start (C71), the steps (C70), the lines (C80) and the loop (C99) are composed; the state after the start is given in full (vectors_begins)."
 ],
 "C107": [
  "Console, Exec, Decoder, Machine",
  "Induction over n, and over the text; each turn is a run of the reference machine, which the step command follows (C70)."
 ],
 "C108": [
  "Console, Exec, Delegate, Machine",
  "The invariant is kept by the writing calls of the delegate. An instruction touches the machine only through these calls (C90, with equality and the invariant as the relation), and so do the commands; induction over the lines."
 ],
 "C109": [
  "Console",
  "Every command commutes with putting output in front (one lemma per handler). Cutting and joining by induction over the lines; left out lines by C75 and C67."
 ],
 "C110": [
  "Console, Startup",
  "The machine at the start is computed exactly (start_exact), the three commands are run on the empty one (write_run, wreg_run), then C109 for lines and output."
 ],
 "C111": [
  "Program, Disasm, Exec, Console",
  "Induction over the expression with the stack as invariant; PUSH and POP by C54, whole programs by C73 (program_exact_partial), files by C106 (simulates_exact_partial)."
 ],
 "C112": [
  "Program, Disasm, Exec, Console",
  "Induction over the assignments with C111 for each expression; disassembled programs by C73 (program_exact_partial), files by C106 (simulates_exact_partial)."
 ],
 "C113": [
  "Console, Program, Exec",
  "Induction over the evaluation of the program (relation Evals, with the number of steps Takes; file_steps); expressions by C111, assignments by C112, the session by C106 (simulates_exact_partial). never_ends: by induction over the number of steps and the program (progress). factorial_file is an instance for every number of eight bits, with 25 * n + 17 steps."
 ]
}
