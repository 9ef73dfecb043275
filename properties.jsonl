{"id": "C01", "title": "bitstring stays in range", "statement": "Whatever operations have been applied to a bitstring, its value is at least 0 and below 2**width and its mask is 2**width-1.", "quantifier": "every constructor argument of a supported type and every finite sequence of mutating or value-producing operations", "why_tests_cant": "Sequences of operations are unbounded; a single operation that forgets to mask breaks every later one.", "anchors": ["cmdis/bitstring.py:bitstring"]}
{"id": "C02", "title": "binary string round trip", "statement": "bitstring(b.binary_string) equals b for every non-empty b, and bitstring(s).binary_string equals s for every non-empty string s of 0 and 1. Other strings are accepted exactly if Python reads them as a binary number.", "quantifier": "every bitstring of width at least 1, every non-empty 0/1 string", "why_tests_cant": "The values and widths are unbounded, so a test can only sample them.", "anchors": ["cmdis/bitstring.py:bitstring.binary_string", "cmdis/bitstring.py:bitstring.__init__"]}
{"id": "C03", "title": "concatenation", "statement": "a % b has width a.width+b.width and holds the bits of a above the bits of b; concatenation is associative and slicing recovers both parts.", "quantifier": "all bitstrings a, b, c", "why_tests_cant": "The values and widths are unbounded, so a test can only sample them.", "anchors": ["cmdis/bitstring.py:bitstring.__imod__", "cmdis/bitstring.py:bitstring.__mod__"]}
{"id": "C04", "title": "slice read", "statement": "b[i:j] has width j-i and its bit k is bit i+k of b; for every start, stop and step it holds exactly the bits whose positions a Python slice selects, in order.", "quantifier": "all bitstrings and all slice triples, including negative and omitted bounds and negative steps", "why_tests_cant": "The values and widths are unbounded, so a test can only sample them.", "anchors": ["cmdis/bitstring.py:bitstring.__getitem__"]}
{"id": "C05", "title": "bit and slice assignment", "statement": "After b[k]=v or b[i:j]=v, reading the same place returns v (its low bits; a number assigned to a slice counts as 32 bits, or as 64 bits above 2**32), every other bit is unchanged and the width is unchanged; positions outside, bounds in the wrong order, other steps and other types are refused.", "quantifier": "all bitstrings, positions, slices (also with negative or omitted bounds) and values", "why_tests_cant": "The values and widths are unbounded, so a test can only sample them.", "anchors": ["cmdis/bitstring.py:bitstring.__setitem__"]}
{"id": "C06", "title": "signed value", "statement": "b.signed is the two's complement reading of b: congruent to the value mod 2**width and in [-2**(width-1), 2**(width-1)).", "quantifier": "all bitstrings of width at least 2", "why_tests_cant": "The values and widths are unbounded, so a test can only sample them.", "anchors": ["cmdis/bitstring.py:bitstring.signed"]}
{"id": "C07", "title": "observers do not modify", "statement": "Reading b.signed, comparing b with an integer, or computing ~b leaves b itself as it was, so repeating the observation gives the same answer.", "quantifier": "all bitstrings and all integers", "why_tests_cant": "The fault shows only for some values and only on a second observation.", "anchors": ["cmdis/bitstring.py:bitstring.signed", "cmdis/bitstring.py:bitstring.__invert__", "cmdis/bitstring.py:bitstring.__eq__", "cmdis/bitstring.py:bitstring.__lt__", "cmdis/bitstring.py:bitstring.__le__"]}
{"id": "C08", "title": "modular arithmetic", "statement": "b + x, b - x, b * x and b // x have b's width and the value of the integer operation reduced mod 2**width; the in-place forms agree with the others; division by zero raises.", "quantifier": "all bitstrings b and operands that are bitstrings, integers or 0/1 strings", "why_tests_cant": "The values and widths are unbounded, so a test can only sample them.", "anchors": ["cmdis/bitstring.py:bitstring.__iadd__", "cmdis/bitstring.py:bitstring.__isub__", "cmdis/bitstring.py:bitstring.__imul__", "cmdis/bitstring.py:bitstring.__ifloordiv__", "cmdis/bitstring.py:bitstring.__add__", "cmdis/bitstring.py:bitstring.__sub__", "cmdis/bitstring.py:bitstring.__mul__", "cmdis/bitstring.py:bitstring.__floordiv__", "cmdis/bitstring.py:bitstring.__radd__", "cmdis/bitstring.py:bitstring.__rsub__", "cmdis/bitstring.py:bitstring.__rmul__", "cmdis/bitstring.py:bitstring.__rfloordiv__"]}
{"id": "C09", "title": "bitwise operations and shifts", "statement": "&, |, ^, ~, << and >> act bit by bit; << and >> keep the width and drop bits that leave it.", "quantifier": "all bitstrings, integer operands and shift amounts", "why_tests_cant": "The values and widths are unbounded, so a test can only sample them.", "anchors": ["cmdis/bitstring.py:bitstring.__and__", "cmdis/bitstring.py:bitstring.__or__", "cmdis/bitstring.py:bitstring.__xor__", "cmdis/bitstring.py:bitstring.__lshift__", "cmdis/bitstring.py:bitstring.__rshift__", "cmdis/bitstring.py:bitstring.invert"]}
{"id": "C10", "title": "extension", "statement": "zero_extend(w) keeps the unsigned value and sign_extend(w) keeps the signed value; both give width w and refuse w below the current width.", "quantifier": "all bitstrings and all target widths", "why_tests_cant": "The values and widths are unbounded, so a test can only sample them.", "anchors": ["cmdis/bitstring.py:bitstring.zero_extend", "cmdis/bitstring.py:bitstring.sign_extend"]}
{"id": "C11", "title": "bit reversal", "statement": "b.reversed has bit k equal to bit width-1-k of b, and reversing twice gives b back.", "quantifier": "all bitstrings of width at least 1", "why_tests_cant": "The values and widths are unbounded, so a test can only sample them.", "anchors": ["cmdis/bitstring.py:bitstring.reversed", "cmdis/bitstring.py:bitstring.reverse"]}
{"id": "C12", "title": "bit queries", "statement": "bit_count is the number of set bits, lowest_set_bit and highest_set_bit the extreme set positions (width and -1 if none), is_zero and is_ones mean no bit and every bit is set.", "quantifier": "all bitstrings", "why_tests_cant": "The values and widths are unbounded, so a test can only sample them.", "anchors": ["cmdis/bitstring.py:bitstring.bit_count", "cmdis/bitstring.py:bitstring.lowest_set_bit", "cmdis/bitstring.py:bitstring.highest_set_bit", "cmdis/bitstring.py:bitstring.is_zero", "cmdis/bitstring.py:bitstring.is_ones"]}
{"id": "C13", "title": "bytes round trip", "statement": "b.bytes is the little-endian list of ceil(width/8) bytes of b and bitstring(b.bytes, b.width) equals b.", "quantifier": "all bitstrings", "why_tests_cant": "The values and widths are unbounded, so a test can only sample them.", "anchors": ["cmdis/bitstring.py:bitstring.bytes", "cmdis/bitstring.py:bitstring.__init__"]}
{"id": "C14", "title": "order and equality laws", "statement": "On bitstrings == is equality of width and value, < is a strict total order, <=, > and >= agree with it and != is the negation of ==; against an integer the comparisons are those of the signed or unsigned value.", "quantifier": "all pairs and triples of bitstrings, all integers", "why_tests_cant": "The values and widths are unbounded, so a test can only sample them.", "anchors": ["cmdis/bitstring.py:bitstring.__eq__", "cmdis/bitstring.py:bitstring.__lt__", "cmdis/bitstring.py:bitstring.__le__", "cmdis/bitstring.py:bitstring.__gt__", "cmdis/bitstring.py:bitstring.__ge__", "cmdis/bitstring.py:bitstring.__ne__"]}
{"id": "C15", "title": "textual forms are faithful", "statement": "repr, base_string(2/8/10/16) and hex determine width and value, so equal hashes follow from equality and different bitstrings print differently.", "quantifier": "all bitstrings and the four bases", "why_tests_cant": "The values and widths are unbounded, so a test can only sample them.", "anchors": ["cmdis/bitstring.py:bitstring.base_string", "cmdis/bitstring.py:bitstring.__repr__", "cmdis/bitstring.py:bitstring.__hash__", "cmdis/bitstring.py:bitstring.__hex__"]}
{"id": "C16", "title": "shift helpers", "statement": "LSL_C, LSR_C, ASR_C, ROR_C and RRX_C return the shifted or rotated value and the last bit shifted out, as in the Arm pseudocode.", "quantifier": "every width, value and positive shift amount, including amounts at and above the width", "why_tests_cant": "The values and widths are unbounded, so a test can only sample them.", "anchors": ["cmdis/helpers.py:LSL_C", "cmdis/helpers.py:LSR_C", "cmdis/helpers.py:ASR_C", "cmdis/helpers.py:ROR_C", "cmdis/helpers.py:RRX_C", "cmdis/helpers.py:ASR"]}
{"id": "C17", "title": "AddWithCarry", "statement": "AddWithCarry(x,y,c) returns (x+y+c) mod 2**N, the unsigned carry out and the signed overflow.", "quantifier": "every width N at least 2, all operands and both carry values", "why_tests_cant": "The values and widths are unbounded, so a test can only sample them.", "anchors": ["cmdis/helpers.py:AddWithCarry"]}
{"id": "C18", "title": "immediate shift decoding", "statement": "DecodeImmShift gives the Arm shift type and amount for every type and imm5, and Shift_C never fails on what it returns.", "quantifier": "all type/imm5 pairs and all 32-bit values", "why_tests_cant": "The pairing of two functions must be consistent on the whole table and for all values shifted.", "anchors": ["cmdis/helpers.py:DecodeImmShift", "cmdis/helpers.py:Shift_C"]}
{"id": "C19", "title": "ThumbExpandImm", "statement": "ThumbExpandImm_C expands every 12-bit constant as the Arm pseudocode says, with the carry out passed through or taken from bit 31, and always yields 32 bits.", "quantifier": "all 4096 constants and both carries", "why_tests_cant": "No test exercises the function at all.", "anchors": ["cmdis/helpers.py:ThumbExpandImm_C", "cmdis/helpers.py:ThumbExpandImm"]}
{"id": "C20", "title": "Align", "statement": "Align(v,a) for a power of two a is the largest multiple of a not above v, for integers and bitstrings.", "quantifier": "all values, widths and powers of two", "why_tests_cant": "The values and widths are unbounded, so a test can only sample them.", "anchors": ["cmdis/helpers.py:Align"]}
{"id": "C21", "title": "little-endian conversions", "statement": "Converting words to bytes and back is the identity on 16- and 32-bit values and on lists of them, and each byte list is 2 or 4 times as long as the word list.", "quantifier": "all values and list lengths", "why_tests_cant": "The values and widths are unbounded, so a test can only sample them.", "anchors": ["cmdis/utilities.py:bytes_to_le16", "cmdis/utilities.py:bytes_to_le32", "cmdis/utilities.py:le16_to_bytes", "cmdis/utilities.py:le32_to_bytes", "cmdis/utilities.py:byteListToU32leList", "cmdis/utilities.py:u32leListToByteList", "cmdis/utilities.py:byteListToU16leList", "cmdis/utilities.py:u16leListToByteList"]}
{"id": "C22", "title": "bit fields", "statement": "bfx(v,msb,lsb) is the field of v, bfi(v,f,msb,lsb) replaces exactly that field, and bitmask sets exactly the positions listed.", "quantifier": "all values, fields and positions msb >= lsb >= 0", "why_tests_cant": "The values and widths are unbounded, so a test can only sample them.", "anchors": ["cmdis/utilities.py:bfx", "cmdis/utilities.py:bfi", "cmdis/utilities.py:bitmask", "cmdis/utilities.py:wmask", "cmdis/utilities.py:invert32"]}
{"id": "C23", "title": "hamming weight", "statement": "hamming_weight(v) is the number of one bits of v and returns for every v >= 0.", "quantifier": "all non-negative integers", "why_tests_cant": "Termination and correctness on unbounded integers.", "anchors": ["cmdis/utilities.py:hamming_weight"]}
{"id": "C24", "title": "memory read after write", "statement": "After a write of 8, 16 or 32 bits inside a region, reading the same place returns the value, every byte outside the written range is unchanged, and the bytes are little-endian.", "quantifier": "all memory maps, addresses, values and all histories of writes", "why_tests_cant": "Histories and overlaps are unbounded.", "anchors": ["cmdis/mock_cpu.py:MockCpuModelDelegate.read_memory", "cmdis/mock_cpu.py:MockCpuModelDelegate.write_memory", "cmdis/model.py:CpuModel.read_memory", "cmdis/model.py:CpuModel.write_memory"]}
{"id": "C25", "title": "unmapped and edge accesses", "statement": "Reads of unmapped addresses return 0 and writes to them change nothing, as do accesses of a size other than 8, 16 and 32 bits, and without a size a word is meant; an access that starts in a region never fails and never changes the size of memory.", "quantifier": "all memory maps and addresses", "why_tests_cant": "The failing addresses are the last few of a region.", "anchors": ["cmdis/mock_cpu.py:MockCpuModelDelegate._find_mem", "cmdis/mock_cpu.py:MockCpuModelDelegate.read_memory", "cmdis/mock_cpu.py:MockCpuModelDelegate.write_memory"]}
{"id": "C26", "title": "block access agrees with word access", "statement": "read_memory_block returns what write_memory_block stored, and its bytes are those the 8-bit reads return.", "quantifier": "all maps, addresses and block lengths", "why_tests_cant": "The values and widths are unbounded, so a test can only sample them.", "anchors": ["cmdis/mock_cpu.py:MockCpuModelDelegate.write_memory_block", "cmdis/mock_cpu.py:MockCpuModelDelegate.read_memory_block"]}
{"id": "C27", "title": "stack pointer banking", "statement": "SP always reads the same as MSP or PSP, whichever CONTROL.SPSEL selects, and is a multiple of 4.", "quantifier": "all histories of register writes", "why_tests_cant": "The aliasing must survive every interleaving of writes.", "anchors": ["cmdis/mock_cpu.py:MockCpuModelDelegate.write_register", "cmdis/model.py:CpuModel.sp", "cmdis/model.py:CpuModel.msp", "cmdis/model.py:CpuModel.psp"]}
{"id": "C28", "title": "register write isolation", "statement": "Writing a register changes that register to the masked value and no other (except the banked alias); reads have no effect.", "quantifier": "all registers, values and histories", "why_tests_cant": "All pairs of registers and all values.", "anchors": ["cmdis/mock_cpu.py:MockCpuModelDelegate.write_register", "cmdis/mock_cpu.py:MockCpuModelDelegate.read_register", "cmdis/model.py:CpuModel.write_register", "cmdis/registers.py:register_name_to_index"]}
{"id": "C29", "title": "flag isolation", "statement": "Setting one of the N, Z, C, V flags changes exactly that bit of xPSR and reading it back gives the value set.", "quantifier": "all xPSR values, flags and values", "why_tests_cant": "All 2**32 register values.", "anchors": ["cmdis/model.py:ApsrAlias", "cmdis/model.py:ApsrAlias.n", "cmdis/model.py:ApsrAlias.z", "cmdis/model.py:ApsrAlias.c", "cmdis/model.py:ApsrAlias.v"]}
{"id": "C30", "title": "register file indexing", "statement": "cpu.r[k] and cpu.s[k] read what was last written to the same index and raise KeyError beyond the last register.", "quantifier": "all indices and values", "why_tests_cant": "No test touches the float bank.", "anchors": ["cmdis/model.py:RegistersInterface"]}
{"id": "C31", "title": "registers stay 32 bit", "statement": "From a state in which all registers hold 32-bit values, executing any decodable instruction sequence leaves all registers holding 32-bit values.", "quantifier": "all programs and states", "why_tests_cant": "Unbounded programs.", "anchors": ["cmdis/instructions.py", "cmdis/model.py:CpuModel.execute"]}
{"id": "C32", "title": "spec parsing", "statement": "parse_spec of the text of any list of fixed bits, named fields with or without a width, and fixed named values returns that list, with any spacing the grammar allows.", "quantifier": "all field lists and spacings", "why_tests_cant": "The parser is a hand written state machine with states that swallow characters.", "anchors": ["cmdis/decoder.py:parse_spec"]}
{"id": "C33", "title": "mask, match and fields partition the word", "statement": "For each specification the fixed bits and the fields cover every bit exactly once: a word matches if and only if it is the encoding of its own fields, and fields are read back unchanged.", "quantifier": "all format strings of 16 or 32 bits and all words", "why_tests_cant": "The values and widths are unbounded, so a test can only sample them.", "anchors": ["cmdis/decoder.py:Decoder.process_fmt", "cmdis/decoder.py:Decoder.check", "cmdis/decoder.py:Decoder.decode"]}
{"id": "C34", "title": "the tree finds what a linear search finds", "statement": "Decoding through the tree gives the same decoder as trying all decoders in order of decreasing number of fixed bits.", "quantifier": "all decoder sets and all words", "why_tests_cant": "Depends on the tree built from an arbitrary table.", "anchors": ["cmdis/decoder.py:DecoderTree._build_tree", "cmdis/decoder.py:DecoderTree.decode", "cmdis/decoder.py:DecoderTree.add_decoder", "cmdis/decoder.py:DecoderTree.build"]}
{"id": "C35", "title": "registration order is irrelevant", "statement": "The instruction a word decodes to does not depend on the order in which the encodings are registered: the more specific encoding wins.", "quantifier": "all permutations of the table and all words", "why_tests_cant": "There are more than 100! orders.", "anchors": ["cmdis/decoder.py:DecoderTree._build_tree", "cmdis/decoder.py:instr"]}
{"id": "C36", "title": "undecodable words are reported as undefined", "statement": "If no encoding matches, decode raises UndefinedInstructionError, and it raises nothing else but UnpredictableError.", "quantifier": "all byte strings of length at least 2", "why_tests_cant": "2**32 words.", "anchors": ["cmdis/decoder.py:DecoderTree.decode", "cmdis/instructions.py"]}
{"id": "C37", "title": "decoding has no memory", "statement": "The result of decoding does not depend on what was decoded before.", "quantifier": "all histories of decode calls", "why_tests_cant": "Histories are unbounded and the tree uses a defaultdict that lookups can extend.", "anchors": ["cmdis/decoder.py:DecoderTree.decode"]}
{"id": "C38", "title": "encode then decode", "statement": "For every encoding in the table and all field values that encoding accepts, the bytes of the encoding decode to that instruction with those fields.", "quantifier": "every table entry and all its field values", "why_tests_cant": "Up to 2**26 field values per entry.", "anchors": ["cmdis/instructions.py", "cmdis/decoder.py:DecoderTree.decode"]}
{"id": "C39", "title": "instruction bytes and size", "statement": "A decoded instruction's bytes are exactly the first size bytes of the input, size is 2 or 4, and its address is the one passed in; later bytes of the input do not matter.", "quantifier": "all byte strings and addresses", "why_tests_cant": "The values and widths are unbounded, so a test can only sample them.", "anchors": ["cmdis/decoder.py:Instruction.bytes", "cmdis/decoder.py:Instruction.size", "cmdis/decoder.py:DecoderTree.decode"]}
{"id": "C40", "title": "disassembly covers the input", "statement": "The instructions a disassembly yields have consecutive addresses starting at the given one, and their bytes concatenated are a prefix of the input; if it ends normally at most 3 bytes are left over.", "quantifier": "all inputs and start addresses", "why_tests_cant": "Inputs are unbounded.", "anchors": ["cmdis/disasm.py:Disassembler.disasm"]}
{"id": "C41", "title": "disassembly composes", "statement": "Disassembling a concatenation whose first part disassembles completely is disassembling the parts one after the other; the start address only shifts the addresses.", "quantifier": "all inputs and addresses", "why_tests_cant": "Inputs are unbounded.", "anchors": ["cmdis/disasm.py:Disassembler.disasm"]}
{"id": "C42", "title": "disassembly ends without an internal error", "statement": "Disassembling any byte string ends, and either stops at the end of the data or raises UndefinedInstructionError or UnpredictableError.", "quantifier": "all byte strings", "why_tests_cant": "Inputs are unbounded.", "anchors": ["cmdis/disasm.py:Disassembler.disasm", "cmdis/decoder.py:DecoderTree.decode"]}
{"id": "C43", "title": "add and subtract", "statement": "ADD, ADC, SUB, SBC and RSB put the 32-bit result in the destination and set N, Z, C and V from it.", "quantifier": "all operand values, registers, immediates and flags", "why_tests_cant": "2**65 operand combinations.", "anchors": ["cmdis/instructions.py:AddSub", "cmdis/instructions.py:ReverseSubtract", "cmdis/helpers.py:AddWithCarry", "cmdis/instructions.py:adc", "cmdis/instructions.py:add_imm_t1", "cmdis/instructions.py:add_imm_t2", "cmdis/instructions.py:add_reg_t1", "cmdis/instructions.py:add_reg_t2", "cmdis/instructions.py:add_sp_plus_imm_t1", "cmdis/instructions.py:add_sp_plus_reg_t1", "cmdis/instructions.py:add_sp_plus_reg_t2", "cmdis/instructions.py:add_sp_plus_imm_t2", "cmdis/instructions.py:rsb", "cmdis/instructions.py:rsb_w"]}
{"id": "C44", "title": "logical operations", "statement": "AND, EOR, ORR, BIC compute the bitwise result, set N and Z and leave C and V.", "quantifier": "all operands and registers", "why_tests_cant": "2**64 operands.", "anchors": ["cmdis/instructions.py:BitOp", "cmdis/instructions.py:BitClear", "cmdis/instructions.py:DataProcessing._set_flags"]}
{"id": "C45", "title": "shift instructions", "statement": "LSL, LSR, ASR, ROR by immediate and by register give the Arm result and carry, the register amount being its low byte.", "quantifier": "all operands, amounts and registers", "why_tests_cant": "2**64 operands.", "anchors": ["cmdis/instructions.py:ShiftOp", "cmdis/instructions.py:shift_imm_t1"]}
{"id": "C46", "title": "multiply", "statement": "MUL puts the low 32 bits of the product in the destination and sets N and Z only in the flag setting form.", "quantifier": "all operands", "why_tests_cant": "2**64 operands.", "anchors": ["cmdis/instructions.py:Multiply", "cmdis/instructions.py:mul_t1", "cmdis/instructions.py:mul_t2"]}
{"id": "C47", "title": "moves", "statement": "MOV, MOVS, MOVW, MVN copy (or complement) the register or immediate and set N and Z only in the flag setting forms, leaving C and V.", "quantifier": "all operands, registers and immediates", "why_tests_cant": "2**32 operands.", "anchors": ["cmdis/instructions.py:Move", "cmdis/instructions.py:ShiftedMoveNegate", "cmdis/instructions.py:mov0", "cmdis/instructions.py:mov_reg_t3", "cmdis/instructions.py:mov1", "cmdis/instructions.py:mov2", "cmdis/instructions.py:movw", "cmdis/instructions.py:mvn", "cmdis/instructions.py:mvnw"]}
{"id": "C48", "title": "compare and test", "statement": "CMP, CMN and TST set the flags from the comparison of the two operands named in the instruction and change no register.", "quantifier": "all operands", "why_tests_cant": "2**64 operands.", "anchors": ["cmdis/instructions.py:Compare", "cmdis/instructions.py:Test", "cmdis/instructions.py:cmp3", "cmdis/instructions.py:cmp4", "cmdis/instructions.py:cmp1", "cmdis/instructions.py:cmp2", "cmdis/instructions.py:tst", "cmdis/instructions.py:tst_w"]}
{"id": "C49", "title": "conditional branches", "statement": "A conditional branch is taken exactly when its condition holds; opposite conditions are complementary; after a comparison GE/LT/HI/LS/EQ... decide the signed or unsigned relation of the operands.", "quantifier": "all flag states, conditions and compared values", "why_tests_cant": "All values.", "anchors": ["cmdis/instructions.py:CONDITIONS", "cmdis/instructions.py:Branch"]}
{"id": "C50", "title": "branch targets", "statement": "A taken branch goes to the address of the instruction plus 4 plus the encoded signed offset, for forward and backward offsets.", "quantifier": "all offsets and pc values", "why_tests_cant": "All offsets of B (T1, T2) and BL.", "anchors": ["cmdis/instructions.py:Branch", "cmdis/instructions.py:b_t1", "cmdis/instructions.py:b_t2", "cmdis/instructions.py:bl_t1"]}
{"id": "C51", "title": "calls return", "statement": "BL and BLX put the address of the following instruction with bit 0 set in LR, and BX LR then continues there.", "quantifier": "all pc values, targets and offsets", "why_tests_cant": "All values.", "anchors": ["cmdis/instructions.py:Branch", "cmdis/instructions.py:blx_t1", "cmdis/instructions.py:bx_t1"]}
{"id": "C52", "title": "loads and stores", "statement": "LDR/STR variants access base plus offset (mod 2**32) with the size of the mnemonic, extend the loaded value with zeros or its sign and change only the destination register, or only the addressed bytes.", "quantifier": "all bases, offsets, sizes and memory contents", "why_tests_cant": "All values.", "anchors": ["cmdis/instructions.py:Load", "cmdis/instructions.py:Store", "cmdis/instructions.py:ldr_str_reg", "cmdis/instructions.py:ldr_str_reg_t2", "cmdis/instructions.py:ldr_str_imm", "cmdis/instructions.py:ldr_str_imm_t2"]}
{"id": "C53", "title": "store then load", "statement": "Storing a register and loading it back from the same address with the same size gives the low bits of the register, sign or zero extended.", "quantifier": "all addresses inside memory, registers and values", "why_tests_cant": "All values.", "anchors": ["cmdis/instructions.py:Load", "cmdis/instructions.py:Store"]}
{"id": "C54", "title": "push then pop", "statement": "PUSH of a register list followed by POP of the same list restores the listed registers and SP, with the lowest register at the lowest address.", "quantifier": "every register list, SP and memory map that holds the stack area", "why_tests_cant": "2**9 lists times all states.", "anchors": ["cmdis/instructions.py:Push", "cmdis/instructions.py:Pop", "cmdis/instructions.py:push_t1", "cmdis/instructions.py:push_t2", "cmdis/instructions.py:push_t3", "cmdis/instructions.py:pop_t1", "cmdis/instructions.py:pop_t2", "cmdis/instructions.py:pop_t3"]}
{"id": "C55", "title": "load and store multiple", "statement": "STM and PUSH store the listed registers at consecutive words from the base, LDM and POP load them, and the base is written back exactly when the encoding says so. Bytes outside memory are lost when stored, words outside memory load as zero, and a load across the end of a region raises IndexError with the registers before it loaded.", "quantifier": "every list, base and state", "why_tests_cant": "All lists and states.", "anchors": ["cmdis/instructions.py:LoadMultiple", "cmdis/instructions.py:StoreMultiple", "cmdis/instructions.py:stm_ldm_t1", "cmdis/instructions.py:stm_t2"]}
{"id": "C56", "title": "extend and byte reversal", "statement": "SXTB/SXTH/UXTB/UXTH and REV/REV16/REVSH compute the Arm result; REV and REV16 are their own inverses.", "quantifier": "all operands and rotations", "why_tests_cant": "2**32 operands.", "anchors": ["cmdis/instructions.py:Extend", "cmdis/instructions.py:ByteReverse", "cmdis/instructions.py:extend", "cmdis/instructions.py:extend2", "cmdis/instructions.py:rev"]}
{"id": "C57", "title": "pc relative addresses", "statement": "ADR and LDR (literal) use Align(PC+4,4) plus or minus the offset.", "quantifier": "all pc values and offsets", "why_tests_cant": "All values.", "anchors": ["cmdis/instructions.py:AddressToRegister", "cmdis/instructions.py:LoadLiteral", "cmdis/instructions.py:adr_t1", "cmdis/instructions.py:adr_t2", "cmdis/instructions.py:ldr_literal"]}
{"id": "C58", "title": "system instructions", "statement": "CPS sets or clears PRIMASK/FAULTMASK as named, and MRS reads the named special register.", "quantifier": "all special registers and states", "why_tests_cant": "All states.", "anchors": ["cmdis/instructions.py:ChangeProcessorState", "cmdis/instructions.py:MoveFromSpecial", "cmdis/instructions.py:MoveToSpecial", "cmdis/instructions.py:cps", "cmdis/instructions.py:mrs", "cmdis/instructions.py:msr", "cmdis/model.py:CpuModel.is_privileged", "cmdis/model.py:CpuModel.ipsr"]}
{"id": "C59", "title": "instructions change only their destinations", "statement": "Executing an instruction changes only its destination registers, the flags it defines, PC, and for stores the addressed bytes.", "quantifier": "all instructions and states", "why_tests_cant": "All pairs of instruction and untouched location.", "anchors": ["cmdis/instructions.py"]}
{"id": "C60", "title": "pc advances by the size", "statement": "Every instruction that is not a taken branch or a load to PC advances PC by its size (mod 2**32).", "quantifier": "all instructions and states", "why_tests_cant": "All states.", "anchors": ["cmdis/instructions.py", "cmdis/decoder.py:Instruction._eval", "cmdis/model.py:CpuModel.pc"]}
{"id": "C61", "title": "re-execution", "statement": "Executing an instruction does not change the instruction object: executing it again from the same CPU state has the same effect.", "quantifier": "all instructions and states", "why_tests_cant": "The change is visible only on the second execution and only for some immediates.", "anchors": ["cmdis/instructions.py", "cmdis/bitstring.py:bitstring.invert"]}
{"id": "C62", "title": "failed instructions leave the state alone", "statement": "If executing an instruction raises, registers and memory are as before.", "quantifier": "all instructions and states", "why_tests_cant": "Depends on where memory ends.", "anchors": ["cmdis/instructions.py", "cmdis/mock_cpu.py"]}
{"id": "C63", "title": "register list text", "statement": "The text of a register list names exactly the registers in the list, in ascending order, as maximal ranges.", "quantifier": "all 16 bit lists", "why_tests_cant": "2**16 lists and a stateful run detection.", "anchors": ["cmdis/formatter.py:ReglistOperand", "cmdis/formatter.py:ReglistOperand.add_reg_range"]}
{"id": "C64", "title": "formatting always succeeds", "statement": "Formatting any decodable instruction returns a text that starts with its encoding in hex and its mnemonic.", "quantifier": "all words that decode", "why_tests_cant": "2**32 words.", "anchors": ["cmdis/formatter.py:Formatter.format", "cmdis/formatter.py"]}
{"id": "C65", "title": "label text", "statement": "The address shown in the comment of a branch or ADR is the address the instruction uses.", "quantifier": "all encodings and addresses", "why_tests_cant": "All offsets and addresses.", "anchors": ["cmdis/formatter.py:LabelOperand", "cmdis/instructions.py"]}
{"id": "C66", "title": "immediate text", "statement": "The decimal immediate shown is the value the instruction uses.", "quantifier": "all immediates", "why_tests_cant": "All values.", "anchors": ["cmdis/formatter.py:ImmediateOperand", "cmdis/formatter.py:MemoryAccessOperand"]}
{"id": "C67", "title": "console survives bad input", "statement": "Whatever line is typed, processing a command ends normally or with the exit request: no other exception leaves the command processor.", "quantifier": "all command lines and states", "why_tests_cant": "Unbounded text.", "anchors": ["cmdis/__main__.py:SimConsole.process_command", "cmdis/__main__.py:SimConsole.process_command_line"]}
{"id": "C68", "title": "console argument conversion", "statement": "convert_value accepts decimal, hex, octal and binary numbers and register names in any case, with underscores ignored.", "quantifier": "all arguments and register states", "why_tests_cant": "Unbounded text.", "anchors": ["cmdis/__main__.py:SimTool.convert_value"]}
{"id": "C69", "title": "console memory commands", "statement": "write8/16/32 store each value given at consecutive places of the stated size, and a following read of the same size shows the values.", "quantifier": "all addresses and value lists", "why_tests_cant": "Unbounded lists.", "anchors": ["cmdis/__main__.py:SimTool.do_write", "cmdis/__main__.py:SimTool.do_read", "cmdis/__main__.py:SimTool.handle_read8", "cmdis/__main__.py:SimTool.handle_read16", "cmdis/__main__.py:SimTool.handle_read32", "cmdis/__main__.py:SimTool.handle_write8", "cmdis/__main__.py:SimTool.handle_write16", "cmdis/__main__.py:SimTool.handle_write32"]}
{"id": "C70", "title": "console step", "statement": "step executes exactly the instruction at PC.", "quantifier": "all machine states", "why_tests_cant": "All states; the instruction after it is decoded too.", "anchors": ["cmdis/__main__.py:SimTool.handle_step"]}
{"id": "C71", "title": "console reset", "statement": "The reset command loads PC and SP from the vector table.", "quantifier": "all memory contents", "why_tests_cant": "All states.", "anchors": ["cmdis/__main__.py:SimTool.reset_sim", "cmdis/__main__.py:SimTool.handle_reset"]}
{"id": "C72", "title": "decode and execute", "statement": "Decoding the bytes of an instruction and executing the object has the effect the Arm manual gives for that instruction.", "quantifier": "every encoding of the instruction set, every valid word of it, all bytes following it, all machine states", "why_tests_cant": "All words of all encodings times all states; decoding and execution can each look right while their combination is wrong.", "anchors": ["cmdis/decoder.py:DecoderTree.decode", "cmdis/instructions.py", "cmdis/model.py:CpuModel.execute"]}
{"id": "C73", "title": "programs", "statement": "Disassembling a sequence of instructions and executing the objects in order leaves the registers and memory that the Arm manual gives for the instructions one after the other.", "quantifier": "all finite sequences of valid words of all encodings, all machine states", "why_tests_cant": "Sequences are unbounded; instruction boundaries and states interact.", "anchors": ["cmdis/disasm.py:Disassembler.disasm", "cmdis/model.py:CpuModel.execute"]}
{"id": "C74", "title": "text reads back", "statement": "Reading the text of a formatted instruction by the manual's assembler syntax gives the mnemonic, registers, constants, shifts, register lists and labels that the manual gives the encoding.", "quantifier": "every encoding of the instruction set, every valid word of it, all addresses", "why_tests_cant": "Hundreds of millions of words; a wrong operand is plausible text and goes unnoticed.", "anchors": ["cmdis/formatter.py:Formatter.format", "cmdis/formatter.py", "cmdis/instructions.py"]}
{"id": "C75", "title": "inspection commands", "statement": "A console command that is not step, wreg, a write command or a Python expression leaves all registers and all memory as they are, whatever its arguments; and no command takes back output already shown.", "quantifier": "all commands and argument texts, all machine states, all sessions", "why_tests_cant": "Argument texts are unbounded; a read that disturbs the state goes unnoticed.", "anchors": ["cmdis/__main__.py:SimConsole.process_command", "cmdis/__main__.py:SimTool.do_read", "cmdis/__main__.py:SimTool.handle_disasm", "cmdis/__main__.py:SimTool.handle_reg", "cmdis/__main__.py:SimTool.handle_log"]}
{"id": "C76", "title": "console wreg", "statement": "wreg REG VALUE sets the register to the value modulo 2**32 and changes no other register (but the stack pointer's other name) and no memory; a name that is no register and a text that is no value are refused.", "quantifier": "all register names, all value texts, all machine states", "why_tests_cant": "All values and states; negative and large values are rarely typed.", "anchors": ["cmdis/__main__.py:SimTool.handle_write_reg", "cmdis/__main__.py:SimTool.convert_value"]}
{"id": "C77", "title": "console reg", "statement": "reg NAME and NAME show the contents of that register, reg alone shows those of all core and special registers, and nothing changes.", "quantifier": "all register names, all register contents", "why_tests_cant": "A swapped row or a sign error shows only for some contents.", "anchors": ["cmdis/__main__.py:SimTool.handle_reg", "cmdis/__main__.py:SimTool.dump_registers"]}
{"id": "C78", "title": "console listing", "statement": "disasm ADDR LEN shows one line for each instruction that stands in memory from ADDR on, with its address, a mark at PC, and the text of the instruction.", "quantifier": "all sequences of valid words of all encodings in memory, all addresses and lengths, all forms of the arguments", "why_tests_cant": "Sequences are unbounded; the end of the range can cut an instruction.", "anchors": ["cmdis/__main__.py:SimTool.handle_disasm", "cmdis/__main__.py:SimTool.print_disasm"]}
{"id": "C79", "title": "console help", "statement": "The commands that help lists are the commands the console accepts; any other word is reported as unrecognized and does nothing.", "quantifier": "all words", "why_tests_cant": "All texts; a table of names and a table of methods diverge unnoticed.", "anchors": ["cmdis/__main__.py:COMMAND_INFO", "cmdis/__main__.py:SimConsole.list_commands", "cmdis/__main__.py:SimTool.command_list"]}
{"id": "C80", "title": "repeating a line", "statement": "An empty line does the same as typing the last line again.", "quantifier": "all sessions, all lines, all machine states", "why_tests_cant": "Sessions are unbounded.", "anchors": ["cmdis/__main__.py:SimConsole.run", "cmdis/__main__.py:SimConsole.process_command_line"]}
{"id": "C81", "title": "exact domain of the simulator", "statement": "Decoding a valid word and executing the object gives exactly the registers and the memory that the manual says.", "quantifier": "all valid words of all encodings, all following bytes, all machine states with the accessed words in memory, all uses of PC that the manual defines", "why_tests_cant": "2^32 words times all register files; the condition under which an instruction happens to be right is invisible to single runs.", "anchors": ["cmdis/decoder.py:DecoderTree.decode", "cmdis/instructions.py"]}
{"id": "C82", "title": "exact domain of the decoder", "statement": "The encodings of the table do not overlap; bytes decode if and only if they start with a valid word of one of them; UnpredictableError is raised if and only if the word breaks a rule of its encoding, and everything else is UndefinedInstructionError.", "quantifier": "all byte sequences", "why_tests_cant": "2^32 words; overlapping diagrams are only met by special fields.", "anchors": ["cmdis/decoder.py:DecoderTree.decode", "cmdis/instructions.py"]}
{"id": "C83", "title": "unpredictable encodings are refused", "statement": "Decoding raises UnpredictableError if and only if the ARMv7-M manual calls the word UNPREDICTABLE (outside of IT blocks).", "quantifier": "all byte sequences", "why_tests_cant": "The rules restrict register fields of 46 encodings; tests use sensible registers.", "anchors": ["cmdis/instructions.py", "cmdis/decoder.py:DecoderTree.decode"]}
{"id": "C84", "title": "relocation", "statement": "The address at which bytes are decoded, disassembled or executed matters only where it is shown: decoding gives the same object but for its address, disassembling the same list shifted, executing the same effect and exceptions, and the text is the same up to the comment with a label.", "quantifier": "all byte sequences, all pairs of addresses, all machine states", "why_tests_cant": "A dependence on the address can show up at any address for any of 2**32 words.", "anchors": ["cmdis/decoder.py:Decoder.decode", "cmdis/disasm.py:Disassembler", "cmdis/formatter.py:Formatter"]}
{"id": "C85", "title": "operations on one object", "statement": "An in-place operation b op= b, an assignment b[i:j] = b, b.set(b), and AddWithCarry(x, x, c) give the same as with an operand that is another object of equal value, and operations leave other objects alone.", "quantifier": "all bitstrings, all in-place operations, all slices", "why_tests_cant": "Tests use different objects; a result depends on the order in which attributes are written and read.", "anchors": ["cmdis/bitstring.py:bitstring.__imod__", "cmdis/bitstring.py:bitstring.__setitem__", "cmdis/bitstring.py:bitstring.set", "cmdis/helpers.py:AddWithCarry"]}
{"id": "C86", "title": "dump and repr of the CPU", "statement": "dump() prints R0 to R12, SP, LR and PC each once with eight hexadecimal digits of its value, and repr(cpu) shows PC, xPSR and R0 to R14 in hexadecimal; both change nothing.", "quantifier": "all machine states", "why_tests_cant": "Register values are arbitrary words; the tests do not look at printed text.", "anchors": ["cmdis/model.py:CpuModel.dump", "cmdis/model.py:CpuModel.__repr__"]}
{"id": "C87", "title": "float conversion round trip", "statement": "float32beToU32be(u32BEToFloat32BE(n)) is n for every word that is not a NaN.", "quantifier": "all 32-bit words", "why_tests_cant": "There are 2**32 words, and no test calls these functions.", "anchors": ["cmdis/utilities.py:u32BEToFloat32BE", "cmdis/utilities.py:float32beToU32be"]}
{"id": "C88", "title": "addresses in a memory dump", "statement": "In the output of read8, read16 and read32 the number in front of each line is the address of the first value on that line.", "quantifier": "all addresses, lengths, and memory contents; all three commands; every line of the dump", "why_tests_cant": "No test runs the console; the number is right on the first line and for bytes, so that short dumps and byte dumps look right.", "anchors": ["cmdis/__main__.py:dumpHexData", "cmdis/__main__.py:SimTool.do_read"]}
{"id": "C89", "title": "exceptions of the processor are signalled", "statement": "An instruction that makes the processor take an exception does not simply go on: SVC, BKPT and UDF, PUSH, POP, LDM and STM at addresses that are no multiples of four, and branches to addresses that select ARM state.", "quantifier": "all words of these encodings, all machine states and memories", "why_tests_cant": "The tests execute 16 instructions in one state, none of them traps, and an exception that does not happen is not seen by a test that checks registers.", "anchors": ["cmdis/instructions.py:bkpt", "cmdis/instructions.py:udf_t1", "cmdis/instructions.py:udf_t2", "cmdis/instructions.py:ldm_t2", "cmdis/instructions.py:bx_t1", "cmdis/decoder.py:Instruction._eval"]}
{"id": "C90", "title": "only the delegate's answers matter", "statement": "Executing instructions on two CPUs whose delegates answer every call alike gives the same results, whatever the delegates do inside; with the delegate the project ships this is the simulator of the other properties, and a delegate that records its calls changes nothing.", "quantifier": "all delegates (all types of states and all implementations of the four calls), all instruction objects and lists of them, all states", "why_tests_cant": "A statement about every possible implementation of an interface; the tests use the one shipped.", "anchors": ["cmdis/model.py:CpuModelDelegate.read_register", "cmdis/model.py:CpuModelDelegate.write_register", "cmdis/model.py:CpuModelDelegate.read_memory", "cmdis/model.py:CpuModelDelegate.write_memory", "cmdis/model.py:CpuModel.read_register", "cmdis/model.py:CpuModel.write_register", "cmdis/model.py:CpuModel.read_memory", "cmdis/model.py:CpuModel.write_memory"]}
{"id": "C91", "title": "memory is accessed as the architecture says", "statement": "An instruction makes exactly the memory accesses the manual says, with the same addresses, sizes, directions and values, in increasing order of addresses for lists of registers; nothing is read twice and nothing else is touched.", "quantifier": "all words of all encodings, all machine states in which the addresses are in memory", "why_tests_cant": "Superfluous or reordered reads do not show in registers or memory afterwards, which is all the tests look at.", "anchors": ["cmdis/instructions.py:Load._eval", "cmdis/instructions.py:Store._eval", "cmdis/instructions.py:Push._eval", "cmdis/instructions.py:Pop._eval", "cmdis/instructions.py:LoadMultiple._eval", "cmdis/instructions.py:StoreMultiple._eval", "cmdis/model.py:CpuModel.read_memory", "cmdis/model.py:CpuModel.write_memory"]}
{"id": "C92", "title": "the ways to read a bit agree", "statement": "b[i], b[i-width], b[i:i+1], b.get_bit(i), b.get_bit_value(i), the i-th element when iterating and the i-th digit of binary_string from the right are the same bit at every position; positions below -width are refused, get_bit_value refuses every negative one, positions above the width read as 0 and cannot be assigned.", "quantifier": "all bitstrings, all positions", "why_tests_cant": "Widths, values and positions are unbounded.", "anchors": ["cmdis/bitstring.py:bitstring.get_bit", "cmdis/bitstring.py:bitstring.get_bit_value", "cmdis/bitstring.py:bitstring.__getitem__", "cmdis/bitstring.py:bitstring.__iter__", "cmdis/bitstring.py:bitstring.binary_string", "cmdis/bitstring.py:bitstring.__setitem__"]}
{"id": "C93", "title": "the text means what the instruction does", "statement": "The mnemonic and the operands shown for an instruction stand, by the manual's syntax and without looking at the encoding, for the action the instruction has according to the manual; hence two words with the same text at the same address do the same.", "quantifier": "all valid words of all encodings, all addresses, all machine states", "why_tests_cant": "Text tests compare a handful of strings with expected strings; that no two of 2^32 words with different effects share a text, at any address, needs a proof over all pairs.", "anchors": ["cmdis/formatter.py:Formatter.format", "cmdis/instructions.py", "cmdis/decoder.py:DecoderTree.decode"]}
{"id": "C94", "title": "the simulator does what its listing says", "statement": "Executing a decoded instruction does what the line shown for it says: the mnemonic and the operands, read by the manual's syntax at the address of the instruction, stand for an action, and executing the object changes the machine as that action does.", "quantifier": "all valid words of all encodings, all addresses, all machine states", "why_tests_cant": "The operands shown and the attributes executed are set separately in each decoding function; a test of one never notices that the other differs, and both can be wrong in the same way.", "anchors": ["cmdis/formatter.py:Formatter.format", "cmdis/instructions.py", "cmdis/decoder.py:Instruction.execute"]}
{"id": "C95", "title": "the dump of the decoder tree", "statement": "The dump of the decoder tree lists every registered decoder exactly once, and the keys above a decoder are its fixed bits under the masks above it, so that following the dump finds for a word the decoder the program takes; printing it never fails.", "quantifier": "all lists of decoders, all words, all orders of dictionary keys, all histories of decoded words", "why_tests_cant": "The tree depends on all decoders at once and on what was decoded before; a test looks at one tree in one state and cannot compare a printout with the decoding of 2^32 words.", "anchors": ["cmdis/decoder.py:DecoderTree.dump", "cmdis/decoder.py:DecoderTree._build_tree", "cmdis/decoder.py:Decoder.__repr__"]}
{"id": "C96", "title": "an instruction depends on its operands only", "statement": "Executing an instruction in two states that agree on PC, the registers it names as operands, the flags it uses and the bytes it reads from memory, ends alike in both: the same exception or none, the same object left, the same value in every register and flag that is changed; with the same regions, also every byte of memory has become equal in both or stayed as it was in both. Registers and flags that no instruction of a program looks at influence neither how it ends nor the other registers, the flags or memory.", "quantifier": "all instructions, all pairs of states with 32-bit registers, all sets of registers and flags, all sequences of instructions", "why_tests_cant": "The statement compares two executions for all pairs of states; a test compares a few chosen pairs, and a stray read of a register or flag shows only when exactly that one differs.", "anchors": ["cmdis/instructions.py:AddSub._eval", "cmdis/instructions.py:ShiftOp._eval", "cmdis/instructions.py:StoreMultiple._eval", "cmdis/instructions.py:MoveFromSpecial._eval", "cmdis/model.py:CpuModel.execute"]}
{"id": "C97", "title": "equality and hash agree", "statement": "Bitstrings, numbers and texts that compare equal have equal hashes, and == among them is reflexive, symmetric and transitive, as dictionaries and sets need.", "quantifier": "all bitstrings, numbers and texts, all hash functions of numbers and texts", "why_tests_cant": "The contract is about all pairs and triples of values of three types and about hash functions a test cannot vary; a dictionary test passes as long as its few keys are of one type.", "anchors": ["cmdis/bitstring.py:bitstring.__eq__", "cmdis/bitstring.py:bitstring.__hash__", "cmdis/bitstring.py:bitstring.__repr__"]}
{"id": "C98", "title": "independent instructions can be exchanged", "statement": "Two instructions of which neither looks at what the other changes, that do not change the same registers or flags and have nothing to do with PC, have the same effect in either order if both end normally and, in the state in which they are executed, no byte is stored by both or loaded by one and stored by the other; exchanging them as neighbours in a program does not change what the program does.", "quantifier": "all pairs of instructions, all states with 32-bit registers, all programs around them", "why_tests_cant": "The number of pairs of instructions times states is out of reach; a hidden shared state (a flag, an alias such as SP and MSP, an object changed in passing) shows only for particular pairs.", "anchors": ["cmdis/model.py:CpuModel.execute", "cmdis/instructions.py:AddSub._eval", "cmdis/instructions.py:Store._eval", "cmdis/instructions.py:StoreMultiple._eval", "cmdis/instructions.py:LoadMultiple._eval"]}
{"id": "C99", "title": "a copy loop copies", "statement": "Stepping with the console through a loop that copies bytes (load, store, increment both pointers, decrement the counter, leave when it is zero, return to the beginning) copies exactly the given number of bytes in 7 instructions per byte, changes nothing else in memory and leaves the loop at its end; the loop may return to its beginning with a branch or with BX.", "quantifier": "all numbers of bytes, all contents of memory, all places of the routine, the source and the destination that do not overlap wrongly", "why_tests_cant": "The number of iterations is not bounded, and the copied bytes, the addresses and the flags interact over all of them; tests run single instructions or a few short programs.", "anchors": ["cmdis/__main__.py:SimTool.handle_step", "cmdis/instructions.py:Branch", "cmdis/instructions.py:AddSub._eval", "cmdis/instructions.py:Load._eval", "cmdis/instructions.py:Store._eval"]}
{"id": "C100", "title": "bit 0 of PC does not matter", "statement": "Executing an instruction, or stepping with the console, in two states that are the same except for bit 0 of PC gives the same result, the same output and states that are again the same except for bit 0 of PC; so it does not matter that a return address has bit 0 set.", "quantifier": "all instructions, all pairs of states that differ in bit 0 of PC only, all numbers of steps", "why_tests_cant": "The bit is carried along through all following instructions; a test sees it only where an address is computed from PC or an exception depends on it.", "anchors": ["cmdis/__main__.py:SimTool.handle_step", "cmdis/instructions.py:Branch", "cmdis/instructions.py:LoadMultiple._eval", "cmdis/instructions.py:LoadLiteral", "cmdis/instructions.py:AddSub._eval"]}
{"id": "C101", "title": "functions return with the registers they save", "statement": "After a call with BL or BLX of a function that begins with `push {..., lr}`, leaves SP and its frame as they were, and ends with `pop.w {..., lr}` and `bx lr` or with `pop {..., pc}` of the same registers, the simulator is at the instruction after the call, SP and the saved registers are as before the call, and the memory from SP upwards is unchanged; also if the function calls other such functions, to any depth.", "quantifier": "all register lists, all bodies of any length and all depths of calls, all states with room on the stack, all numbers of steps", "why_tests_cant": "The registers, the stack and the code between entry and end are arbitrary; tests run single instructions and never a whole function.", "anchors": ["cmdis/instructions.py:Push._eval", "cmdis/instructions.py:Pop._eval", "cmdis/instructions.py:Branch", "cmdis/__main__.py:SimTool.handle_step", "cmdis/model.py:CpuModel"]}
{"id": "C102", "title": "numbers of several words are added and subtracted", "statement": "`adds` and then `adcs` for each further word, on any number of words in registers, put the words of the sum of the two numbers in the destinations and the carry of the whole addition in C; `subs` and then `sbcs` put the words of the difference there, and C is set if and only if nothing is borrowed.", "quantifier": "all numbers of words, all registers R0 to R12 whose destinations are not used again, all operand values and states", "why_tests_cant": "The carry runs through any number of instructions; the tests evaluate single instructions, and there are 2**64 operands for every word.", "anchors": ["cmdis/instructions.py:AddSub", "cmdis/helpers.py:AddWithCarry", "cmdis/model.py:CpuModel"]}
{"id": "C103", "title": "instructions that undo each other or do the same as others", "statement": "REV, REV16, MVN and EOR executed twice, rotations whose amounts add up to a multiple of 32, ADD and then SUB of the same operand, and RSB #0 twice give the register back; three EORs exchange two registers; two shifts extend as UXTB, UXTH, SXTB and SXTH do; MULS by a power of two shifts as LSLS does; BICS clears what MVNS and ANDS clear. Nothing else changes except PC and the flags.", "quantifier": "all operand values, registers R0 to R12 and states", "why_tests_cant": "Each law relates two or three executions for all 2**64 operand values; the tests execute single instructions with fixed operands.", "anchors": ["cmdis/instructions.py:ByteReverse", "cmdis/instructions.py:BitOp", "cmdis/instructions.py:BitClear", "cmdis/instructions.py:AddSub", "cmdis/instructions.py:ReverseSubtract", "cmdis/instructions.py:Multiply", "cmdis/instructions.py:Extend", "cmdis/instructions.py:Move", "cmdis/model.py:CpuModel.execute"]}
{"id": "C104", "title": "the narrow and the wide form of an instruction do the same", "statement": "For every 16-bit word of RSBS #0, ADR, the extensions, the reversals, MOV, MOVS, CMP with a constant, TST, the loads and stores with a register offset, LDR of a literal, PUSH of one register, POP, LDM, STM and UDF that has a 32-bit form: both are decoded, and executing both in the same state raises the same exception and leaves the same state, or ends normally with the same memory and the same registers but PC, which is two further after the 32-bit form, or the same if it was popped. The 32-bit form of MVN raises NameError when it is executed, and that of PUSH of a list when it is decoded.", "quantifier": "all 16-bit words of these instructions with their 32-bit form, all addresses, following bytes and states with 32-bit registers", "why_tests_cant": "Compares about 20,000 pairs of encodings in all states; the tests execute each encoding by itself, with a few words, and MVN.W not at all.", "anchors": ["cmdis/instructions.py:ReverseSubtract", "cmdis/instructions.py:AddressToRegister", "cmdis/instructions.py:Extend", "cmdis/instructions.py:ByteReverse", "cmdis/instructions.py:Move", "cmdis/instructions.py:ShiftedMoveNegate", "cmdis/instructions.py:Compare", "cmdis/instructions.py:Test", "cmdis/instructions.py:Load", "cmdis/instructions.py:Store", "cmdis/instructions.py:Push", "cmdis/instructions.py:Pop", "cmdis/instructions.py:LoadMultiple", "cmdis/instructions.py:StoreMultiple", "cmdis/decoder.py:Decoder.decode"]}
{"id": "C105", "title": "loads and stores do what smaller ones do together", "statement": "LDM without write-back, of any list without PC and without the base register, ends as LDR of the registers one by one from consecutive words; STM without write-back ends as STR of the registers one by one; LDRSB and LDRSH end as LDRB and SXTB, LDRH and SXTH; a load from a literal that ends normally ends as ADR and a load from the register; a load or store with a register as its offset ends as the one with a constant that is the shifted register. To end alike is to raise the same exception or none and to leave the same memory and the same registers but PC, also where words lie outside memory.", "quantifier": "all objects of these instructions, all register lists, all states with 32-bit registers and all memories", "why_tests_cant": "Compares sequences of different instructions in all states and with all 2^15 lists; the tests execute each instruction by itself in one state.", "anchors": ["cmdis/instructions.py:Load", "cmdis/instructions.py:Store", "cmdis/instructions.py:LoadLiteral", "cmdis/instructions.py:LoadMultiple", "cmdis/instructions.py:StoreMultiple", "cmdis/instructions.py:Extend", "cmdis/instructions.py:Adr", "cmdis/mock_cpu.py:MockCpuModelDelegate.read_memory", "cmdis/mock_cpu.py:MockCpuModelDelegate.write_memory"]}
{"id": "C106", "title": "a file is simulated from reset to the last step", "statement": "If the program is started with a binary file and the lines typed are n step commands, several in a line or repeated by empty lines, then it ends with exit code 0, the registers and the memory are those that the manual gives after n instructions from reset with the vector table of the file, and it prints PC, SP and one line for each instruction. A file with a program that copies n bytes within the simulated memory does copy them in 7 * n + 4 steps, whatever else it contains.", "quantifier": "all files below 0x1fff8000 bytes, all sequences of lines that are step commands, all programs whose instructions are executed as in the manual; all destinations, sources, numbers of bytes and contents for the program that copies", "why_tests_cant": "Joins the start, the console, the decoder and the simulator, with no bound on the number of steps; the tests start neither the program nor the console.", "anchors": ["cmdis/__main__.py:SimTool.run", "cmdis/__main__.py:SimTool.create_sim", "cmdis/__main__.py:SimTool.reset_sim", "cmdis/__main__.py:SimConsole.run", "cmdis/__main__.py:SimTool.handle_step", "cmdis/disasm.py:Disassembler.disasm", "cmdis/model.py:CpuModel.execute"]}
{"id": "C107", "title": "loops that compute", "statement": "A loop of four instructions that multiplies r1 by r0 and counts r0 down leaves n! modulo 2 ^ 32 in r1 after 4 * n - 1 step commands. A loop that looks for the zero at the end of a text takes r1 past it after 5 * n + 4 step commands for a text of n bytes. Both leave the memory as it was, and each step prints one line.", "quantifier": "all n from 1 to 2 ^ 31; all texts that end below 2 ^ 31; all places of the routines; all other registers and all memory", "why_tests_cant": "The number of steps is unbounded and depends on a register or on the memory; the tests execute single instructions.", "anchors": ["cmdis/__main__.py:SimTool.handle_step", "cmdis/model.py:CpuModel.execute", "cmdis/instructions.py:Multiply", "cmdis/instructions.py:Compare", "cmdis/helpers.py:AddWithCarry"]}
{"id": "C108", "title": "what no session can change", "statement": "From the start of the simulator to the end of any session, whatever is typed and however the commands fail: every register of the table exists and can be read; SP equals MSP; SP, MSP and PSP are multiples of 4; PRIMASK and FAULTMASK are 0 or 1 and BASEPRI is below 256; the memory map is the one of the start; every mapped address holds a byte. More generally, a property of the machine that each single write of a register or of memory keeps is kept by every session. All registers hold 32-bit words at all times, as long as no number outside 0 .. 2 ^ 32 - 1 is typed as the value of wreg; such a number is kept as it is.", "quantifier": "all binary files; all sequences of lines without Python code, or with Python code that keeps the property; all instructions that are stepped, also undefined ones and ones that raise", "why_tests_cant": "A statement about all reachable states: it quantifies over sessions of any length and over every program that can be stepped. The tests look at single instructions.", "anchors": ["cmdis/__main__.py:SimTool.run", "cmdis/__main__.py:SimConsole.run", "cmdis/__main__.py:SimConsole.process_command", "cmdis/__main__.py:SimTool.create_sim", "cmdis/__main__.py:SimTool.reset_sim", "cmdis/__main__.py:SimTool.handle_write_reg", "cmdis/__main__.py:SimTool.do_write", "cmdis/__main__.py:SimTool.handle_step", "cmdis/mock_cpu.py:MockCpuModelDelegate.write_register", "cmdis/mock_cpu.py:MockCpuModelDelegate.write_memory", "cmdis/mock_cpu.py:MockCpuModelDelegate.write_memory_block"]}
{"id": "C109", "title": "a session is made of its commands", "statement": "What was printed before has no influence on a session. A session can be cut after any line: the rest does what it does as a session of its own on the machine that the first part leaves, and what follows `exit` is not read. Commands on one line with semicolons between them do the same as on lines of their own. Lines whose commands only show something can be left out without any effect on the machine. Ctrl-C at the prompt only prints an empty line.", "quantifier": "all sequences of lines, all machines, all output before; Python code that neither reads nor takes back the output", "why_tests_cant": "A statement about pairs of sessions of any length. No test runs the console, and a test could only compare a few sessions.", "anchors": ["cmdis/__main__.py:SimConsole.run", "cmdis/__main__.py:SimConsole.process_command_line", "cmdis/__main__.py:SimConsole.process_command", "cmdis/__main__.py:SimTool.handle_python"]}
{"id": "C110", "title": "a program that is typed runs as one from a file", "statement": "Without a file, typing the bytes of a program with `write` at address 0 and its start and stack with `wreg pc` and `wreg sp` gives the machine that starting with the file gives: any session that follows ends in the same way and with the same machine. Zeros at the end of a file of at most 64 KiB make no difference to anything.", "quantifier": "all programs of at most 64 KiB whose stack and start are in memory and whose stack needs no larger RAM; all notations of the numbers; all further lines; Python code that neither reads nor takes back the output", "why_tests_cant": "Relates two ways through the tool, start-up and commands, for every program and every session after it. No test runs the tool.", "anchors": ["cmdis/__main__.py:SimTool.create_sim", "cmdis/__main__.py:SimTool.reset_sim", "cmdis/__main__.py:SimTool.handle_write8", "cmdis/__main__.py:SimTool.do_write", "cmdis/__main__.py:SimTool.handle_write_reg", "cmdis/__main__.py:SimConsole.run"]}
{"id": "C111", "title": "compiled expressions compute their value", "statement": "The stack code of an expression built from constants, registers, complement, AND, OR, XOR, product, sum and difference, translated with `push {r0}` and `pop {r1}` around the operands, disassembled and executed, leaves the value of the expression modulo 2 ^ 32 in R0. R2 to R14 and all memory except the words it needs under SP stay as they were. The same holds for a binary file with that code, started and stepped through at the prompt.", "quantifier": "all expressions of any size and depth, all register contents, all memories with enough room under SP", "why_tests_cant": "Programs of unbounded length whose stack use grows with the expression. Tests execute single instructions.", "anchors": ["cmdis/model.py:CpuModel.execute", "cmdis/disasm.py:Disassembler.disasm", "cmdis/instructions.py:Push", "cmdis/instructions.py:Pop", "cmdis/instructions.py:Multiply", "cmdis/instructions.py:Move", "cmdis/instructions.py:BitOp", "cmdis/helpers.py:AddWithCarry"]}
{"id": "C112", "title": "compiled assignments give every variable its value", "statement": "The code of a sequence of assignments to R2 to R12, each the stack code of an expression followed by `mov rk, r0`, disassembled and executed, gives every one of these registers the value that the assignments one after the other give it. SP, LR and all memory except the stack words needed stay as they were. A binary file with that code, started and stepped through at the prompt, does the same from registers that are zero.", "quantifier": "all sequences of assignments of any length, all expressions, all register contents, all memories with enough room under SP; all files with such code", "why_tests_cant": "Programs of unbounded length with data flow between the statements. Tests execute single instructions.", "anchors": ["cmdis/model.py:CpuModel.execute", "cmdis/disasm.py:Disassembler.disasm", "cmdis/instructions.py:Move", "cmdis/instructions.py:Push", "cmdis/instructions.py:Pop", "cmdis/helpers.py:AddWithCarry"]}
{"id": "C113", "title": "compiled programs with conditions and loops compute what they mean", "statement": "For a small language with assignments to R2 to R12, sequences, conditions and loops: a binary file with the Thumb code of a program, loaded with the simulator and stepped through at the prompt, ends, after a number of steps that is computed from the program, with every variable having the value the program gives it, starting from zero. PC is then just after the code, and of the memory only the stack may have changed. A program that does not end is executed for any number of steps.", "quantifier": "all programs of the language (ending ones for the values, others for any number of steps) whose code fits below 65280, all files with such code, all initial stack pointers with enough RAM under them", "why_tests_cant": "Programs of any structure and executions of any length; jumps, stack and flags have to work together. Tests execute single instructions.", "anchors": ["cmdis/__main__.py:SimConsole.run", "cmdis/model.py:CpuModel.execute", "cmdis/instructions.py:Branch", "cmdis/instructions.py:Test", "cmdis/instructions.py:Push", "cmdis/instructions.py:Pop", "cmdis/instructions.py:Move", "cmdis/helpers.py:AddWithCarry"]}
