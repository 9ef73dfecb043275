{
 "C07": [
  "partial",
  "False as stated: `signed` of a negative bitstring and `~x` complement the object, and so do comparisons with negative integers (signed_not_pure, comparison_not_pure, invert_operator_changes_operand). Proved exactly when the observers are pure, and what they leave behind otherwise."
 ],
 "C14": [
  "partial",
  "`==`, `!=`, `<`, `>=` proved in full. `<=` and `>` against a negative integer are wrong in the code: le_negative_int_wrong is the witness, le_negative_int_is_eq the exact behaviour."
 ],
 "C15": [
  "proved",
  "The hash is hash(repr(b)); only the repr part is modelled. The octal form of zero has an empty digit string under Python 2."
 ],
 "C17": [
  "partial",
  "AddWithCarry's carry and overflow are exact, but its result is complemented whenever it is negative as a signed number and its operands are complemented when negative; result_partial covers the non-negative results, result_wrong the exact deviation."
 ],
 "C22": [
  "partial",
  "False for lsb = 0: `lsb or msb` treats a zero lsb as missing (full_claim_false). Proved for every lsb > 0, with the exact behaviour for lsb = 0."
 ],
 "C25": [
  "partial",
  "Proved for unmapped addresses, for accesses inside a region and for all byte accesses. False for accesses that reach past the end of a region: read_past_end (IndexError) and write_past_end (the buffer grows) give the exact behaviour, full_claim_false a witness."
 ],
 "C27": [
  "partial",
  "Proved: SP equals MSP and is a multiple of 4 after every history. False with CONTROL.SPSEL set: the bank is computed from the constant index of CONTROL (spsel_ignored)."
 ],
 "C30": [
  "partial",
  "Proved for cpu.r; cpu.s writes proved, but every cpu.s read raises KeyError because the first index is added twice (s_read_fails)."
 ],
 "C34": [
  "proved",
  "When no decoder matches, the tree can end in AttributeError (a key created by defaultdict) where the linear search says undefined; missing_child states that case exactly, it is judged under C36."
 ],
 "C36": [
  "partial",
  "False as stated: a word that matches no encoding can raise AttributeError, PUSH.W always raises NameError (not_only_undefined). errors_partial lists every error with the words that can raise it. Which words raise AttributeError is determined in C82 (attribute_error_iff)."
 ],
 "C38": [
  "partial",
  "Proved for every encoding and every field value except those named in Wrong: PUSH.W does not decode, CMP and CMN (register) compare the wrong registers, backward branches have a complemented offset. encode_then_decode_iff shows that these are exactly the exceptions."
 ],
 "C42": [
  "partial",
  "Ending is proved. The error claim is false: a last single byte (AssertionError), a word without encoding (AttributeError) and PUSH.W (NameError); errors_partial shows there is no other way, internal_errors the witnesses."
 ],
 "C40": [
  "proved",
  "The parts of the property about odd trailing bytes are judged under C42."
 ],
 "C43": [
  "partial",
  "False for negative results and for PC as operand or destination: the sum is complemented (add_sub_exact, reverse_subtract_exact give the exact result). add_sub_right_iff_partial and reverse_subtract_right_iff_partial give the exact condition under which the instruction is right, for all registers other than PC."
 ],
 "C44": [
  "proved",
  "For all registers but PC, which the manual makes unpredictable in these instructions."
 ],
 "C45": [
  "proved",
  "For all registers but PC, which the manual makes unpredictable in these instructions."
 ],
 "C46": [
  "proved",
  "For all registers but PC, which the manual makes unpredictable in these instructions."
 ],
 "C47": [
  "partial",
  "Proved for MOV, MOVS, MOVW, MVN with registers other than PC. MVN.W raises NameError (shifted_negate_fails), MOVS.W with a rotated immediate does not set C (movs_w_carry, move_right_iff_partial), and PC as source or destination is wrong (move_from_pc, move_to_pc)."
 ],
 "C48": [
  "partial",
  "TST proved. CMP and CMN are right exactly when the difference is not negative (compare_right_iff_partial); compare_exact gives the flags in all cases. CMP T1 and CMN (register) decode to the wrong registers, see C38."
 ],
 "C49": [
  "partial",
  "Taken exactly when the condition holds, complementary conditions and the relations are proved. After a CMP executed by the program only the conditions of stillRight decide the right relation when the difference is negative (after_cmp_partial)."
 ],
 "C50": [
  "partial",
  "Proved for all forward offsets; backward branches go to the target computed from the complemented offset (target_right_iff_partial)."
 ],
 "C51": [
  "partial",
  "BL and BX proved, BLX proved for every register other than LR; BLX LR goes to the return address instead of the old LR (blx_lr)."
 ],
 "C52": [
  "partial",
  "Proved for registers other than PC and addresses inside memory; the emulator's memory has no content elsewhere: load_unmapped, load_past_end, store_unmapped and store_past_end give the exact behaviour there, cases_complete shows there are no other cases."
 ],
 "C53": [
  "proved",
  "For all registers but PC, which the manual makes unpredictable in these instructions."
 ],
 "C54": [
  "proved",
  "For lists without SP and PC, the same list for PUSH and POP. Popping PC instead of LR is judged under C55."
 ],
 "C55": [
  "partial",
  "LDM and POP with PC in the list do not clear bit 0 (pop_pc, pop_pc_right_iff_partial, load_multiple_pc). Otherwise proved with all words inside memory, STM for every list, LDM for lists without SP and PC (no encoding of LDM lists SP); store_multiple_anywhere, push_anywhere, load_multiple_anywhere and pop_anywhere give the exact behaviour for words anywhere."
 ],
 "C56": [
  "proved",
  "For all registers but PC, which the manual makes unpredictable in these instructions."
 ],
 "C57": [
  "partial",
  "ADR proved; LDR (literal) proved inside memory, with exact behaviour elsewhere. PC as destination is unpredictable for ADR; for LDR.W it is never decoded (C82.ldr_pc_literal_undefined)."
 ],
 "C58": [
  "partial",
  "False as stated: CPS ignores privilege, MRS of APSR combinations raises TypeError and of IPSR loses three bits, MSR does nothing. Each has an exact statement and an iff."
 ],
 "C31": [
  "proved",
  "For every list of decoded objects and every state with 32-bit registers, also when an exception ends the program; and for one object executed any number of times. CpuModel.execute is modelled with distinct objects."
 ],
 "C59": [
  "proved",
  "Registers and flags for every action and operand, also when the execution raises. Memory for every action without PC as base or offset of a store."
 ],
 "C60": [
  "proved",
  "For every action that ends normally, is not a taken branch and does not have PC among its destinations."
 ],
 "C61": [
  "partial",
  "The claim fails: unchanged_iff says exactly when the object stays the same. It holds for all but three encodings (steady_encodings, steady_again) and fails for CMP.W, CMN.W and RSB.W with constants that have bit 31 set; cmp_twice shows the wrong flags."
 ],
 "C62": [
  "partial",
  "Proved for all instructions but POP and LDM; memory for all. The claim fails for POP and LDM that reach past the end of memory (pop_ldm_fail, pop_moves_sp)."
 ],
 "C72": [
  "partial",
  "For all encodings and words except those decoded wrongly (C38), with no operand PC, and states meeting Fine (addresses inside memory, sums not negative); instructions the program gets wrong in general are excluded by Fine. C81 gives the exact condition."
 ],
 "C73": [
  "partial",
  "Under the conditions of C72 in the state each instruction is executed in; program_exact_partial drops those on sums and says what is computed when they are negative. execute goes through the list in order, so branches change PC but not what is executed next."
 ],
 "C65": [
  "partial",
  "Holds for branches and BL. The address shown for ADR is right exactly if the instruction is at a multiple of four and nothing is subtracted: the code neither aligns PC nor negates the offset."
 ],
 "C74": [
  "partial",
  "The text always reads back as one line. The operands are the manual's exactly if the word is not one of Misread: CMP/CMN register operands, ADR labels as in C65, and the suffix of MSR. PUSH.W is not decoded."
 ],
 "C66": [
  "partial",
  "All valid words of all encodings that are decoded; PUSH.W is not decoded."
 ],
 "C67": [
  "partial",
  "False as stated: a bad option to `disasm` ends the program (C67.full_claim_false). Proved: a typed command ends the program exactly when it is `exit` or `quit`, `disasm` with a bad option, or Python code that ends it; every other line leaves the console running. Python code after `$` is a parameter of the model."
 ],
 "C69": [
  "partial",
  "False as stated: write16 and write32 refuse values above 255 (C69.full_claim_false). Proved: what write stores for values up to 255, that other values are refused with the memory unchanged, what read shows, and that a read after a write shows the values written."
 ],
 "C70": [
  "partial",
  "False as stated: step decodes the following halfword too and does nothing if that raises an error (C70.full_claim_false). Proved: if the following halfword decodes, is undefined, or is not in memory, step executes the instruction at PC as the manual says, for the states and instructions of C72; any number of steps; and step executes at most one instruction. Where sums are negative it executes what the code really computes (C106.step_exact_partial)."
 ],
 "C71": [
  "partial",
  "False as stated: the reset command always fails with a TypeError and changes nothing (C71.command_fails, full_claim_false). Proved: the reset routine itself, which runs at the start, loads PC and SP from the vector table."
 ],
 "C76": [
  "partial",
  "False as stated: values above 2**32 make the register read as 64 bits (C76.too_large, full_claim_false) and a name that is no register is accepted silently (C76.unknown_register). Proved for all values up to 2**32, also negative ones, and all registers; and that other wrong arguments change nothing."
 ],
 "C78": [
  "partial",
  "False as stated: a word whose decoding fails with another exception than UndefinedInstructionError loses the whole listing (C78.lost_listing, full_claim_false), a range without instructions reports an IndexError (C78.empty_listing). Proved for all sequences of valid words but PUSH.W, ending at the end of the range, within an instruction, or at an undefined word."
 ],
 "C79": [
  "partial",
  "False as stated: status and stat are listed and not accepted, map is accepted and not listed (C79.full_claim_false). Proved for all other names; any other word is reported."
 ],
 "C80": [
  "partial",
  "False as stated: a repeated line is not split at semicolons (C80.not_split, full_claim_false). Proved for all lines with one command, and any number of empty lines."
 ],
 "C81": [
  "partial",
  "the claim is false; decode_execute_iff_partial gives the exact condition (RightWord) for every word and state. LDR.W to PC from a literal, which is never decoded, is in C82. Uses of PC that the manual leaves open, and accesses outside memory (C62), are not covered"
 ],
 "C82": [
  "partial",
  "decodes_iff, unpredictable_iff, name_error_iff, attribute_error_iff and undefined_iff are exact and together determine the kind of every outcome. The claim itself fails in these points: PUSH.W raises NameError, memory hints decode as loads to PC, LDR.W to PC from a literal is undefined, and words outside the listed groups raise AttributeError. The rules are those the program checks"
 ],
 "C83": [
  "partial",
  "refused_is_unpredictable is proved in full. The converse is false: 28 encodings have rules the program does not know, and the byte reversals check half of theirs; refused_iff_partial and decoded_unpredictable_iff say exactly which words are let through."
 ],
 "C01": [
  "partial",
  "False as stated: b %= b leaves a value out of range, and a negative width is stored although its assignment raises (C01.full_claim_false, C85.concat_self_in_range). Proved for every sequence of operations in which the operand of %= is another object and no exception is swallowed."
 ],
 "C85": [
  "partial",
  "False for %=, slice assignment and AddWithCarry with a negative operand (C85.full_claim_false); for these the exact result is proved (concat_self, slice_self, add_self). Proved for all other operations, and in full for different objects."
 ],
 "C87": [
  "partial",
  "False: both functions raise NameError on every argument (C87.always_fails)."
 ],
 "C88": [
  "partial",
  "False for read16 and read32 beyond the first line (C88.full_claim_false); the printed number is determined exactly for every line (C88.lines) and the domain is exact (address_right_iff_partial)."
 ],
 "C89": [
  "partial",
  "False in all parts (C89.full_claim_false): traps step over themselves, no access is refused for its alignment, and the Thumb bit never changes; proved for all words and states. raises_iff determines exactly when executing raises a Python exception."
 ],
 "C91": [
  "partial",
  "decode_trace_partial excludes the words decoded wrongly and operands that are the PC, as C72 does. trace_exact gives the accesses for every action and state, in memory or not."
 ],
 "C93": [
  "partial",
  "false for the words of Misread (CMP and CMN of registers, ADR, MSR APSR; text_means_iff_partial says exactly which), and PUSH.W with a list is not decoded. Proved for all other words; same_text_same_effect_partial for pairs of them."
 ],
 "C94": [
  "partial",
  "False for backward branches, ADR and the instructions that C81 excludes (full_claim_false). follows_iff_partial gives the exact condition; it leaves out PUSH.W, which is not decoded, ADR to SP and what C81 leaves out."
 ],
 "C95": [
  "partial",
  "Proved for a tree just built (every_decoder_partial, decode_by_dump, program_dump). False after a word without an entry has been decoded: the lookup leaves an empty list in the tree and dump raises AttributeError (full_claim_false); dump_after says exactly when."
 ],
 "C97": [
  "partial",
  "Proved among bitstrings (bitstrings_partial) and symmetry for all (symmetric). False with numbers or texts (full_claim_false): transitive_iff says when transitivity holds, text_hash that texts are never hashed alike, lost_key that a comparison with a negative number changes the key and its hash."
 ],
 "C99": [
  "partial",
  "False as stated: a branch backwards goes forwards, so that no loop can be made with B, a conditional branch or BL (no_direct_loop_partial), and pointers from 2 ^ 31 on are complemented (full_claim_false). Proved: with BX and addresses below 2 ^ 31, for any number of bytes, content and places (copies_partial)."
 ],
 "C100": [
  "partial",
  "False as stated for branches backwards (full_claim_false: they add an odd number and go to different places) and for instructions that name PC as an operand. Proved for all other instructions (execute_partial, blind), for programs (program_partial) and for any number of step commands (step_partial, steps_partial)."
 ],
 "C101": [
  "partial",
  "With `pop.w {..., lr}; bx lr` proved for every function, call and depth (returns, call_returns, nested, session_partial), except for calls backwards with BL and for BLX of LR, which go elsewhere (C50, C51). With `pop {..., pc}` the claim is false in one point: PC keeps bit 0 of the return address (pop_pc_partial, which proves the rest); what follows is not affected by that bit (C100)."
 ],
 "C102": [
  "partial",
  "The carry is right for all numbers (addition_exact, subtraction_exact). The words are right if and only if none of them has its highest bit set (addition_right_iff_partial, subtraction_right_iff_partial), because AddWithCarry complements negative results (C17)."
 ],
 "C103": [
  "partial",
  "The laws are proved except those of ADD, SUB and RSB, which complement negative results (C43): add_then_subtract_iff_partial and negate_twice_iff_partial say exactly when they hold."
 ],
 "C106": [
  "partial",
  "Instructions that are executed otherwise than in the manual (C70, C72) are not covered by simulates_partial; simulates_exact_partial covers negative results, with what is really computed. For the program that copies, addresses from 2 ^ 31 on (C99) are not covered."
 ],
 "C109": [
  "partial",
  "Output, cutting and leaving out are proved in full for sessions as stated. Semicolons (semicolons_partial) fail for empty parts and for Python code that is not at the start of the line, where the `$` is not removed (full_claim_false)."
 ],
 "C111": [
  "partial",
  "False as stated because AddWithCarry complements negative results (C17); full_claim_false is a witness. expression_exact gives what is computed for every expression; it is the value if no sum or difference has its highest bit set (expression_partial; file_exact and file_computes_partial for files)."
 ],
 "C112": [
  "partial",
  "False as stated because AddWithCarry complements negative results (C17); full_claim_false is a witness. assignments_exact gives what is computed in every case; it is the right value if no sum or difference has its highest bit set (assignments_partial; file_exact and file_assigns_partial for files)."
 ],
 "C113": [
  "partial",
  "False as stated because AddWithCarry complements negative results (C17); full_claim_false is a witness. file_exact gives what is computed for every program that ends with these complements; it is what the program means if no sum or difference has its highest bit set (file_program_partial). Backward branches are decoded wrongly (C99), so the code jumps backwards with BX and an absolute address."
 ]
}
