{
 "claims": [
  {
   "property": "C01",
   "status": "partial",
   "theorems": [
    "Verif.C01.bitstring_in_range_partial",
    "Verif.C85.concat_self_in_range",
    "Verif.C01.full_claim_false",
    "Verif.C01.width_slots"
   ],
   "note": "False as stated: b %= b leaves a value out of range, and a negative width is stored although its assignment raises (C01.full_claim_false, C85.concat_self_in_range). Proved for every sequence of operations in which the operand of %= is another object and no exception is swallowed."
  },
  {
   "property": "C02",
   "status": "proved",
   "theorems": [
    "Verif.C02.binary_string_round_trip",
    "Verif.C02.string_round_trip",
    "Verif.C02.binary_string_digits",
    "Verif.C02.numeral_accepted",
    "Verif.C02.bad_string_refused",
    "Verif.C02.numeral_unique"
   ],
   "note": ""
  },
  {
   "property": "C03",
   "status": "proved",
   "theorems": [
    "Verif.C03.concat_bits",
    "Verif.C03.concat_number",
    "Verif.C03.concat_assoc",
    "Verif.C03.concat_slices",
    "Verif.C03.concat_other"
   ],
   "note": ""
  },
  {
   "property": "C04",
   "status": "proved",
   "theorems": [
    "Verif.C04.slice_reads_selected_bits",
    "Verif.C04.slice_total",
    "Verif.C04.plain_slice",
    "Verif.C04.index_reads_bit"
   ],
   "note": ""
  },
  {
   "property": "C05",
   "status": "proved",
   "theorems": [
    "Verif.C05.slice_assignment",
    "Verif.C05.slice_assignment_any",
    "Verif.C05.slice_assignment_int",
    "Verif.C05.slice_assignment_step",
    "Verif.C05.bit_assignment",
    "Verif.C05.bit_assignment_other",
    "Verif.C05.slice_assignment_read",
    "Verif.C05.assignment_types",
    "Verif.C05.slice_assignment_number"
   ],
   "note": ""
  },
  {
   "property": "C06",
   "status": "proved",
   "theorems": [
    "Verif.C06.signed_is_twos_complement",
    "Verif.C06.signed_narrow"
   ],
   "note": ""
  },
  {
   "property": "C07",
   "status": "partial",
   "theorems": [
    "Verif.C07.signed_not_pure",
    "Verif.C07.signed_effect",
    "Verif.C07.signed_twice",
    "Verif.C07.signed_pure_partial",
    "Verif.C07.invert_operator_changes_operand",
    "Verif.C07.invert_twice",
    "Verif.C07.comparison_pure_partial",
    "Verif.C07.comparison_not_pure"
   ],
   "note": "False as stated: `signed` of a negative bitstring and `~x` complement the object, and so do comparisons with negative integers (signed_not_pure, comparison_not_pure, invert_operator_changes_operand). Proved exactly when the observers are pure, and what they leave behind otherwise."
  },
  {
   "property": "C08",
   "status": "proved",
   "theorems": [
    "Verif.C08.add_mod",
    "Verif.C08.sub_mod",
    "Verif.C08.mul_mod",
    "Verif.C08.floordiv_mod",
    "Verif.C08.floordiv_zero",
    "Verif.C08.inplace_agrees",
    "Verif.C08.unsupported_operand_ignored",
    "Verif.C08.add_sub_cancel",
    "Verif.C08.reflected_mod",
    "Verif.C08.reflected_div"
   ],
   "note": ""
  },
  {
   "property": "C09",
   "status": "proved",
   "theorems": [
    "Verif.C09.and_bits",
    "Verif.C09.or_bits",
    "Verif.C09.xor_bits",
    "Verif.C09.or_xor_int_bits",
    "Verif.C09.invert_bits",
    "Verif.C09.shl_bits",
    "Verif.C09.shr_bits",
    "Verif.C09.shift_negative",
    "Verif.C09.reflected_bits"
   ],
   "note": ""
  },
  {
   "property": "C10",
   "status": "proved",
   "theorems": [
    "Verif.C10.zero_extend_value",
    "Verif.C10.sign_extend_value",
    "Verif.C10.extend_bits",
    "Verif.C10.extend_refuses"
   ],
   "note": ""
  },
  {
   "property": "C11",
   "status": "proved",
   "theorems": [
    "Verif.C11.reversed_bits",
    "Verif.C11.reversed_twice",
    "Verif.C11.reversed_empty"
   ],
   "note": ""
  },
  {
   "property": "C12",
   "status": "proved",
   "theorems": [
    "Verif.C12.bit_count_is_number_of_set_bits",
    "Verif.C12.is_zero_iff",
    "Verif.C12.is_ones_iff",
    "Verif.C12.zero_forms",
    "Verif.C12.lowest_set_bit_spec",
    "Verif.C12.highest_set_bit_spec",
    "Verif.C12.iter_bits"
   ],
   "note": ""
  },
  {
   "property": "C13",
   "status": "proved",
   "theorems": [
    "Verif.C13.bytes_are_little_endian",
    "Verif.C13.bytes_round_trip",
    "Verif.C13.from_bytes"
   ],
   "note": ""
  },
  {
   "property": "C14",
   "status": "partial",
   "theorems": [
    "Verif.C14.eq_is_equality",
    "Verif.C14.lt_is_strict_total_order",
    "Verif.C14.derived_comparisons",
    "Verif.C14.compare_nonneg_int",
    "Verif.C14.compare_negative_int_partial",
    "Verif.C14.le_negative_int_wrong",
    "Verif.C14.le_negative_int_is_eq",
    "Verif.C14.compare_text",
    "Verif.C14.unsupported_ne_false"
   ],
   "note": "`==`, `!=`, `<`, `>=` proved in full. `<=` and `>` against a negative integer are wrong in the code: le_negative_int_wrong is the witness, le_negative_int_is_eq the exact behaviour."
  },
  {
   "property": "C15",
   "status": "proved",
   "theorems": [
    "Verif.C15.repr_injective",
    "Verif.C15.base_string_injective",
    "Verif.C15.octal_zero_has_no_digit",
    "Verif.C15.hex_text",
    "Verif.C15.hex_text_injective"
   ],
   "note": "The hash is hash(repr(b)); only the repr part is modelled. The octal form of zero has an empty digit string under Python 2."
  },
  {
   "property": "C16",
   "status": "proved",
   "theorems": [
    "Verif.C16.lsl_c_spec",
    "Verif.C16.lsr_c_spec",
    "Verif.C16.asr_c_spec",
    "Verif.C16.ror_c_spec",
    "Verif.C16.rrx_c_spec",
    "Verif.C16.plain_shifts",
    "Verif.C16.shift_domain"
   ],
   "note": ""
  },
  {
   "property": "C17",
   "status": "partial",
   "theorems": [
    "Verif.C17.carry_and_overflow",
    "Verif.C17.result_partial",
    "Verif.C17.result_wrong",
    "Verif.C17.operands_spoiled",
    "Verif.C17.widths_must_agree"
   ],
   "note": "AddWithCarry's carry and overflow are exact, but its result is complemented whenever it is negative as a signed number and its operands are complemented when negative; result_partial covers the non-negative results, result_wrong the exact deviation."
  },
  {
   "property": "C18",
   "status": "proved",
   "theorems": [
    "Verif.C18.decode_imm_shift",
    "Verif.C18.decode_imm_shift_refuses",
    "Verif.C18.shift_c_spec",
    "Verif.C18.decoded_shift_succeeds"
   ],
   "note": ""
  },
  {
   "property": "C19",
   "status": "proved",
   "theorems": [
    "Verif.C19.thumb_expand_imm_c",
    "Verif.C19.thumb_expand_imm"
   ],
   "note": ""
  },
  {
   "property": "C20",
   "status": "proved",
   "theorems": [
    "Verif.C20.align_int",
    "Verif.C20.align_bitstring",
    "Verif.C20.align_zero"
   ],
   "note": ""
  },
  {
   "property": "C21",
   "status": "proved",
   "theorems": [
    "Verif.C21.le16_roundtrip",
    "Verif.C21.le32_roundtrip",
    "Verif.C21.le_bytes",
    "Verif.C21.words32",
    "Verif.C21.words16",
    "Verif.C21.bytes_words32",
    "Verif.C21.bytes_words16",
    "Verif.C21.odd_refused"
   ],
   "note": ""
  },
  {
   "property": "C22",
   "status": "partial",
   "theorems": [
    "Verif.C22.bitmask_spec",
    "Verif.C22.bfx_partial",
    "Verif.C22.bfx_zero",
    "Verif.C22.bfi_partial",
    "Verif.C22.bfi_zero",
    "Verif.C22.full_claim_false",
    "Verif.C22.wmask_spec",
    "Verif.C22.invert32_spec"
   ],
   "note": "False for lsb = 0: `lsb or msb` treats a zero lsb as missing (full_claim_false). Proved for every lsb > 0, with the exact behaviour for lsb = 0."
  },
  {
   "property": "C23",
   "status": "proved",
   "theorems": [
    "Verif.C23.hamming_weight_spec",
    "Verif.C23.hamming_weight_ends"
   ],
   "note": ""
  },
  {
   "property": "C24",
   "status": "proved",
   "theorems": [
    "Verif.C24.write_spec",
    "Verif.C24.read_spec",
    "Verif.C24.read_after_write",
    "Verif.C24.read_elsewhere",
    "Verif.C24.byte_refused",
    "Verif.C24.history"
   ],
   "note": ""
  },
  {
   "property": "C25",
   "status": "partial",
   "theorems": [
    "Verif.C25.read_unmapped",
    "Verif.C25.write_unmapped",
    "Verif.C25.other_size",
    "Verif.C25.default_size",
    "Verif.C25.inside_partial",
    "Verif.C25.byte_access",
    "Verif.C25.read_past_end",
    "Verif.C25.write_past_end",
    "Verif.C25.past_end_read_back",
    "Verif.C25.full_claim_false"
   ],
   "note": "Proved for unmapped addresses, for accesses inside a region and for all byte accesses. False for accesses that reach past the end of a region: read_past_end (IndexError) and write_past_end (the buffer grows) give the exact behaviour, full_claim_false a witness."
  },
  {
   "property": "C26",
   "status": "proved",
   "theorems": [
    "Verif.C26.block_write",
    "Verif.C26.block_read",
    "Verif.C26.block_roundtrip",
    "Verif.C26.block_bytes",
    "Verif.C26.word_is_block",
    "Verif.C26.block_unmapped"
   ],
   "note": ""
  },
  {
   "property": "C27",
   "status": "partial",
   "theorems": [
    "Verif.C27.sp_is_msp_partial",
    "Verif.C27.psp_aligned",
    "Verif.C27.spsel_ignored"
   ],
   "note": "Proved: SP equals MSP and is a multiple of 4 after every history. False with CONTROL.SPSEL set: the bank is computed from the constant index of CONTROL (spsel_ignored)."
  },
  {
   "property": "C28",
   "status": "proved",
   "theorems": [
    "Verif.C28.write_spec",
    "Verif.C28.read_no_effect",
    "Verif.C28.read_after_write",
    "Verif.C28.read_other",
    "Verif.C28.write_unknown",
    "Verif.C28.read_unknown",
    "Verif.C28.case_insensitive",
    "Verif.C28.names",
    "Verif.C28.name_roundtrip"
   ],
   "note": ""
  },
  {
   "property": "C29",
   "status": "proved",
   "theorems": [
    "Verif.C29.set_flag",
    "Verif.C29.read_back",
    "Verif.C29.set_flag_int",
    "Verif.C29.history"
   ],
   "note": ""
  },
  {
   "property": "C30",
   "status": "partial",
   "theorems": [
    "Verif.C30.r_read_write_partial",
    "Verif.C30.r_other",
    "Verif.C30.r_beyond",
    "Verif.C30.s_write",
    "Verif.C30.s_beyond",
    "Verif.C30.s_read_fails",
    "Verif.C30.r_negative"
   ],
   "note": "Proved for cpu.r; cpu.s writes proved, but every cpu.s read raises KeyError because the first index is added twice (s_read_fails)."
  },
  {
   "property": "C31",
   "status": "proved",
   "theorems": [
    "Verif.C31.decoded_act",
    "Verif.C31.one",
    "Verif.C31.program",
    "Verif.C31.repeated"
   ],
   "note": "For every list of decoded objects and every state with 32-bit registers, also when an exception ends the program; and for one object executed any number of times. CpuModel.execute is modelled with distinct objects."
  },
  {
   "property": "C32",
   "status": "proved",
   "theorems": [
    "Verif.C32.parse_text",
    "Verif.C32.fixed_value",
    "Verif.C32.refuses"
   ],
   "note": ""
  },
  {
   "property": "C33",
   "status": "proved",
   "theorems": [
    "Verif.C33.covers",
    "Verif.C33.check_iff",
    "Verif.C33.encode_check",
    "Verif.C33.fields_determine"
   ],
   "note": ""
  },
  {
   "property": "C34",
   "status": "proved",
   "theorems": [
    "Verif.C34.tree_is_linear_search",
    "Verif.C34.tree_is_linear_search_of_match",
    "Verif.C34.order_exists",
    "Verif.C34.tree_finds",
    "Verif.C34.depth_suffices"
   ],
   "note": "When no decoder matches, the tree can end in AttributeError (a key created by defaultdict) where the linear search says undefined; missing_child states that case exactly, it is judged under C36."
  },
  {
   "property": "C35",
   "status": "proved",
   "theorems": [
    "Verif.C35.order_irrelevant",
    "Verif.C35.table_order_irrelevant",
    "Verif.C35.rows_order_irrelevant"
   ],
   "note": ""
  },
  {
   "property": "C36",
   "status": "partial",
   "theorems": [
    "Verif.C36.errors_partial",
    "Verif.C36.undefined_partial",
    "Verif.C36.decoded_matches",
    "Verif.C36.not_only_undefined",
    "Verif.C36.wrong_arguments"
   ],
   "note": "False as stated: a word that matches no encoding can raise AttributeError, PUSH.W always raises NameError (not_only_undefined). errors_partial lists every error with the words that can raise it. Which words raise AttributeError is determined in C82 (attribute_error_iff)."
  },
  {
   "property": "C37",
   "status": "proved",
   "theorems": [
    "Verif.C37.no_memory"
   ],
   "note": ""
  },
  {
   "property": "C38",
   "status": "partial",
   "theorems": [
    "Verif.C38.encode_then_decode_partial",
    "Verif.C38.encode_then_decode_iff",
    "Verif.C38.push_w_fails",
    "Verif.C38.cmp_reg_compares_itself",
    "Verif.C38.branch_back_complemented"
   ],
   "note": "Proved for every encoding and every field value except those named in Wrong: PUSH.W does not decode, CMP and CMN (register) compare the wrong registers, backward branches have a complemented offset. encode_then_decode_iff shows that these are exactly the exceptions."
  },
  {
   "property": "C39",
   "status": "proved",
   "theorems": [
    "Verif.C39.bytes_and_size",
    "Verif.C39.later_bytes_ignored"
   ],
   "note": ""
  },
  {
   "property": "C40",
   "status": "proved",
   "theorems": [
    "Verif.C40.covers",
    "Verif.C40.history_irrelevant"
   ],
   "note": "The parts of the property about odd trailing bytes are judged under C42."
  },
  {
   "property": "C41",
   "status": "proved",
   "theorems": [
    "Verif.C41.composes",
    "Verif.C41.start_address_shifts"
   ],
   "note": ""
  },
  {
   "property": "C42",
   "status": "partial",
   "theorems": [
    "Verif.C42.ends",
    "Verif.C42.errors_partial",
    "Verif.C42.internal_errors"
   ],
   "note": "Ending is proved. The error claim is false: a last single byte (AssertionError), a word without encoding (AttributeError) and PUSH.W (NameError); errors_partial shows there is no other way, internal_errors the witnesses."
  },
  {
   "property": "C43",
   "status": "partial",
   "theorems": [
    "Verif.C43.add_sub_exact",
    "Verif.C43.reverse_subtract_exact",
    "Verif.C43.add_sub_right_iff_partial",
    "Verif.C43.reverse_subtract_right_iff_partial",
    "Verif.C43.sums",
    "Verif.C43.subtraction_flags"
   ],
   "note": "False for negative results and for PC as operand or destination: the sum is complemented (add_sub_exact, reverse_subtract_exact give the exact result). add_sub_right_iff_partial and reverse_subtract_right_iff_partial give the exact condition under which the instruction is right, for all registers other than PC."
  },
  {
   "property": "C44",
   "status": "proved",
   "theorems": [
    "Verif.C44.logic_right",
    "Verif.C44.bit_clear_right",
    "Verif.C44.only_n_and_z"
   ],
   "note": "For all registers but PC, which the manual makes unpredictable in these instructions."
  },
  {
   "property": "C45",
   "status": "proved",
   "theorems": [
    "Verif.C45.shift_immediate_right",
    "Verif.C45.shift_register_right",
    "Verif.C45.conditions_hold"
   ],
   "note": "For all registers but PC, which the manual makes unpredictable in these instructions."
  },
  {
   "property": "C46",
   "status": "proved",
   "theorems": [
    "Verif.C46.multiply_right",
    "Verif.C46.no_flags"
   ],
   "note": "For all registers but PC, which the manual makes unpredictable in these instructions."
  },
  {
   "property": "C47",
   "status": "partial",
   "theorems": [
    "Verif.C47.move_right_partial",
    "Verif.C47.move_from_pc",
    "Verif.C47.move_to_pc",
    "Verif.C47.shifted_negate_fails",
    "Verif.C47.movs_w_carry",
    "Verif.C47.expand_carry",
    "Verif.C47.move_right_iff_partial",
    "Verif.C47.movs_w_not_rotated"
   ],
   "note": "Proved for MOV, MOVS, MOVW, MVN with registers other than PC. MVN.W raises NameError (shifted_negate_fails), MOVS.W with a rotated immediate does not set C (movs_w_carry, move_right_iff_partial), and PC as source or destination is wrong (move_from_pc, move_to_pc)."
  },
  {
   "property": "C48",
   "status": "partial",
   "theorems": [
    "Verif.C48.compare_exact",
    "Verif.C48.compare_right_iff_partial",
    "Verif.C48.test_right",
    "Verif.C48.no_register_changes"
   ],
   "note": "TST proved. CMP and CMN are right exactly when the difference is not negative (compare_right_iff_partial); compare_exact gives the flags in all cases. CMP T1 and CMN (register) decode to the wrong registers, see C38."
  },
  {
   "property": "C49",
   "status": "partial",
   "theorems": [
    "Verif.C49.taken_iff",
    "Verif.C49.opposite",
    "Verif.C49.relations",
    "Verif.C49.after_cmp_partial",
    "Verif.C49.cmp_then_branch"
   ],
   "note": "Taken exactly when the condition holds, complementary conditions and the relations are proved. After a CMP executed by the program only the conditions of stillRight decide the right relation when the difference is negative (after_cmp_partial)."
  },
  {
   "property": "C50",
   "status": "partial",
   "theorems": [
    "Verif.C50.b_target",
    "Verif.C50.conditional_target",
    "Verif.C50.bl_target",
    "Verif.C50.target_right_iff_partial",
    "Verif.C50.offsets"
   ],
   "note": "Proved for all forward offsets; backward branches go to the target computed from the complemented offset (target_right_iff_partial)."
  },
  {
   "property": "C51",
   "status": "partial",
   "theorems": [
    "Verif.C51.blx_right_partial",
    "Verif.C51.blx_lr",
    "Verif.C51.bx_right",
    "Verif.C51.call_returns"
   ],
   "note": "BL and BX proved, BLX proved for every register other than LR; BLX LR goes to the return address instead of the old LR (blx_lr)."
  },
  {
   "property": "C52",
   "status": "partial",
   "theorems": [
    "Verif.C52.load_right_partial",
    "Verif.C52.load_unmapped",
    "Verif.C52.load_past_end",
    "Verif.C52.store_right_partial",
    "Verif.C52.store_unmapped",
    "Verif.C52.store_past_end",
    "Verif.C52.cases_complete",
    "Verif.C52.load_changes",
    "Verif.C52.store_changes",
    "Verif.C52.values"
   ],
   "note": "Proved for registers other than PC and addresses inside memory; the emulator's memory has no content elsewhere: load_unmapped, load_past_end, store_unmapped and store_past_end give the exact behaviour there, cases_complete shows there are no other cases."
  },
  {
   "property": "C53",
   "status": "proved",
   "theorems": [
    "Verif.C53.store_load",
    "Verif.C53.store_load_next",
    "Verif.C53.word_back"
   ],
   "note": "For all registers but PC, which the manual makes unpredictable in these instructions."
  },
  {
   "property": "C54",
   "status": "proved",
   "theorems": [
    "Verif.C54.push",
    "Verif.C54.pop_after_push",
    "Verif.C54.push_pop"
   ],
   "note": "For lists without SP and PC, the same list for PUSH and POP. Popping PC instead of LR is judged under C55."
  },
  {
   "property": "C55",
   "status": "partial",
   "theorems": [
    "Verif.C55.store_multiple_partial",
    "Verif.C55.load_multiple_partial",
    "Verif.C55.pop_pc",
    "Verif.C55.pop_pc_right_iff_partial",
    "Verif.C55.load_multiple_pc",
    "Verif.C55.store_multiple_anywhere",
    "Verif.C55.push_anywhere",
    "Verif.C55.load_multiple_anywhere",
    "Verif.C55.pop_anywhere",
    "Verif.C55.loaded_unique"
   ],
   "note": "LDM and POP with PC in the list do not clear bit 0 (pop_pc, pop_pc_right_iff_partial, load_multiple_pc). Otherwise proved with all words inside memory, STM for every list, LDM for lists without SP and PC (no encoding of LDM lists SP); store_multiple_anywhere, push_anywhere, load_multiple_anywhere and pop_anywhere give the exact behaviour for words anywhere."
  },
  {
   "property": "C56",
   "status": "proved",
   "theorems": [
    "Verif.C56.extend_right",
    "Verif.C56.extended_value",
    "Verif.C56.reverse_right",
    "Verif.C56.rev_bytes",
    "Verif.C56.rev16_bytes",
    "Verif.C56.revsh_value",
    "Verif.C56.own_inverse"
   ],
   "note": "For all registers but PC, which the manual makes unpredictable in these instructions."
  },
  {
   "property": "C57",
   "status": "partial",
   "theorems": [
    "Verif.C57.adr_right",
    "Verif.C57.literal_right_partial",
    "Verif.C57.literal_unmapped",
    "Verif.C57.literal_past_end"
   ],
   "note": "ADR proved; LDR (literal) proved inside memory, with exact behaviour elsewhere. PC as destination is unpredictable for ADR; for LDR.W it is never decoded (C82.ldr_pc_literal_undefined)."
  },
  {
   "property": "C58",
   "status": "partial",
   "theorems": [
    "Verif.C58.cps_exact",
    "Verif.C58.cps_right_iff_partial",
    "Verif.C58.mrs_right",
    "Verif.C58.mrs_apsr_fails",
    "Verif.C58.mrs_ipsr",
    "Verif.C58.mrs_right_iff_partial",
    "Verif.C58.msr_exact",
    "Verif.C58.msr_right_iff_partial"
   ],
   "note": "False as stated: CPS ignores privilege, MRS of APSR combinations raises TypeError and of IPSR loses three bits, MSR does nothing. Each has an exact statement and an iff."
  },
  {
   "property": "C59",
   "status": "proved",
   "theorems": [
    "Verif.C59.registers",
    "Verif.C59.psr",
    "Verif.C59.memory",
    "Verif.C59.memory_same"
   ],
   "note": "Registers and flags for every action and operand, also when the execution raises. Memory for every action without PC as base or offset of a store."
  },
  {
   "property": "C60",
   "status": "proved",
   "theorems": [
    "Verif.C60.pc_advances",
    "Verif.C60.size_of"
   ],
   "note": "For every action that ends normally, is not a taken branch and does not have PC among its destinations."
  },
  {
   "property": "C61",
   "status": "partial",
   "theorems": [
    "Verif.C61.unchanged_iff",
    "Verif.C61.again",
    "Verif.C61.again_mov_pc",
    "Verif.C61.steady_again",
    "Verif.C61.steady_encodings",
    "Verif.C61.cmp_twice"
   ],
   "note": "The claim fails: unchanged_iff says exactly when the object stays the same. It holds for all but three encodings (steady_encodings, steady_again) and fails for CMP.W, CMN.W and RSB.W with constants that have bit 31 set; cmp_twice shows the wrong flags."
  },
  {
   "property": "C62",
   "status": "partial",
   "theorems": [
    "Verif.C62.which",
    "Verif.C62.memory_same",
    "Verif.C62.unchanged_partial",
    "Verif.C62.load_raises_iff",
    "Verif.C62.pop_moves_sp",
    "Verif.C62.pop_ldm_fail"
   ],
   "note": "Proved for all instructions but POP and LDM; memory for all. The claim fails for POP and LDM that reach past the end of memory (pop_ldm_fail, pop_moves_sp)."
  },
  {
   "property": "C63",
   "status": "proved",
   "theorems": [
    "Verif.C63.ranges",
    "Verif.C63.reads_back",
    "Verif.C63.injective"
   ],
   "note": ""
  },
  {
   "property": "C64",
   "status": "proved",
   "theorems": [
    "Verif.C64.always",
    "Verif.C64.again",
    "Verif.C64.executes_the_same"
   ],
   "note": ""
  },
  {
   "property": "C65",
   "status": "partial",
   "theorems": [
    "Verif.C65.branch",
    "Verif.C65.bl",
    "Verif.C65.adr_partial"
   ],
   "note": "Holds for branches and BL. The address shown for ADR is right exactly if the instruction is at a multiple of four and nothing is subtracted: the code neither aligns PC nor negates the offset."
  },
  {
   "property": "C66",
   "status": "partial",
   "theorems": [
    "Verif.C66.immediates"
   ],
   "note": "All valid words of all encodings that are decoded; PUSH.W is not decoded."
  },
  {
   "property": "C67",
   "status": "partial",
   "theorems": [
    "Verif.C67.command_ends_partial",
    "Verif.C67.survives_partial",
    "Verif.C67.full_claim_false",
    "Verif.C67.line_ends_partial",
    "Verif.C67.run_ends_partial"
   ],
   "note": "False as stated: a bad option to `disasm` ends the program (C67.full_claim_false). Proved: a typed command ends the program exactly when it is `exit` or `quit`, `disasm` with a bad option, or Python code that ends it; every other line leaves the console running. Python code after `$` is a parameter of the model."
  },
  {
   "property": "C68",
   "status": "proved",
   "theorems": [
    "Verif.C68.value_iff",
    "Verif.C68.no_value",
    "Verif.C68.number_value",
    "Verif.C68.register_value",
    "Verif.C68.bases",
    "Verif.C68.unmapped"
   ],
   "note": ""
  },
  {
   "property": "C69",
   "status": "partial",
   "theorems": [
    "Verif.C69.write_partial",
    "Verif.C69.write_refused",
    "Verif.C69.read",
    "Verif.C69.write_then_read_partial",
    "Verif.C69.full_claim_false",
    "Verif.C69.negative_length"
   ],
   "note": "False as stated: write16 and write32 refuse values above 255 (C69.full_claim_false). Proved: what write stores for values up to 255, that other values are refused with the memory unchanged, what read shows, and that a read after a write shows the values written."
  },
  {
   "property": "C70",
   "status": "partial",
   "theorems": [
    "Verif.C106.step_exact_partial",
    "Verif.C70.step_partial",
    "Verif.C70.steps_partial",
    "Verif.C70.at_most_one",
    "Verif.C70.disturbed",
    "Verif.C70.full_claim_false"
   ],
   "note": "False as stated: step decodes the following halfword too and does nothing if that raises an error (C70.full_claim_false). Proved: if the following halfword decodes, is undefined, or is not in memory, step executes the instruction at PC as the manual says, for the states and instructions of C72; any number of steps; and step executes at most one instruction. Where sums are negative it executes what the code really computes (C106.step_exact_partial)."
  },
  {
   "property": "C71",
   "status": "partial",
   "theorems": [
    "Verif.C71.reset_partial",
    "Verif.C71.command_fails",
    "Verif.C71.full_claim_false",
    "Verif.C71.start_loads",
    "Verif.C71.stack_mapped"
   ],
   "note": "False as stated: the reset command always fails with a TypeError and changes nothing (C71.command_fails, full_claim_false). Proved: the reset routine itself, which runs at the start, loads PC and SP from the vector table."
  },
  {
   "property": "C72",
   "status": "partial",
   "theorems": [
    "Verif.C72.decode_execute_partial"
   ],
   "note": "For all encodings and words except those decoded wrongly (C38), with no operand PC, and states meeting Fine (addresses inside memory, sums not negative); instructions the program gets wrong in general are excluded by Fine. C81 gives the exact condition."
  },
  {
   "property": "C73",
   "status": "partial",
   "theorems": [
    "Verif.C73.program_partial",
    "Verif.C73.program_exact_partial"
   ],
   "note": "Under the conditions of C72 in the state each instruction is executed in; program_exact_partial drops those on sums and says what is computed when they are negative. execute goes through the list in order, so branches change PC but not what is executed next."
  },
  {
   "property": "C74",
   "status": "partial",
   "theorems": [
    "Verif.C74.decoded_line",
    "Verif.C74.line_of"
   ],
   "note": "The text always reads back as one line. The operands are the manual's exactly if the word is not one of Misread: CMP/CMN register operands, ADR labels as in C65, and the suffix of MSR. PUSH.W is not decoded."
  },
  {
   "property": "C75",
   "status": "proved",
   "theorems": [
    "Verif.C75.inspection",
    "Verif.C75.output_grows",
    "Verif.C75.session_keeps",
    "Verif.C75.log"
   ],
   "note": ""
  },
  {
   "property": "C76",
   "status": "partial",
   "theorems": [
    "Verif.C76.wreg_partial",
    "Verif.C76.too_large",
    "Verif.C76.unknown_register",
    "Verif.C76.refused",
    "Verif.C76.full_claim_false"
   ],
   "note": "False as stated: values above 2**32 make the register read as 64 bits (C76.too_large, full_claim_false) and a name that is no register is accepted silently (C76.unknown_register). Proved for all values up to 2**32, also negative ones, and all registers; and that other wrong arguments change nothing."
  },
  {
   "property": "C77",
   "status": "proved",
   "theorems": [
    "Verif.C77.reg_one",
    "Verif.C77.register_command",
    "Verif.C77.reg_unknown",
    "Verif.C77.reg_all",
    "Verif.C77.reg_columns"
   ],
   "note": ""
  },
  {
   "property": "C78",
   "status": "partial",
   "theorems": [
    "Verif.C78.listing_partial",
    "Verif.C78.undefined_listing",
    "Verif.C78.lost_listing",
    "Verif.C78.empty_listing",
    "Verif.C78.full_claim_false",
    "Verif.C78.unmapped"
   ],
   "note": "False as stated: a word whose decoding fails with another exception than UndefinedInstructionError loses the whole listing (C78.lost_listing, full_claim_false), a range without instructions reports an IndexError (C78.empty_listing). Proved for all sequences of valid words but PUSH.W, ending at the end of the range, within an instruction, or at an undefined word."
  },
  {
   "property": "C79",
   "status": "partial",
   "theorems": [
    "Verif.C79.unknown",
    "Verif.C79.known",
    "Verif.C79.help",
    "Verif.C79.documented_exist_partial",
    "Verif.C79.existing_documented_partial",
    "Verif.C79.full_claim_false"
   ],
   "note": "False as stated: status and stat are listed and not accepted, map is accepted and not listed (C79.full_claim_false). Proved for all other names; any other word is reported."
  },
  {
   "property": "C80",
   "status": "partial",
   "theorems": [
    "Verif.C80.repeats_partial",
    "Verif.C80.not_split",
    "Verif.C80.nothing_to_repeat",
    "Verif.C80.full_claim_false"
   ],
   "note": "False as stated: a repeated line is not split at semicolons (C80.not_split, full_claim_false). Proved for all lines with one command, and any number of empty lines."
  },
  {
   "property": "C81",
   "status": "partial",
   "theorems": [
    "Verif.C81.execute_iff",
    "Verif.C81.decode_execute_iff_partial",
    "Verif.C81.same_flags_self"
   ],
   "note": "the claim is false; decode_execute_iff_partial gives the exact condition (RightWord) for every word and state. LDR.W to PC from a literal, which is never decoded, is in C82. Uses of PC that the manual leaves open, and accesses outside memory (C62), are not covered"
  },
  {
   "property": "C82",
   "status": "partial",
   "theorems": [
    "Verif.C82.one_encoding",
    "Verif.C82.decodes_iff",
    "Verif.C82.unpredictable_iff",
    "Verif.C82.name_error_iff",
    "Verif.C82.otherwise_undefined_partial",
    "Verif.C82.hint_loads_pc",
    "Verif.C82.ldr_pc_literal_undefined",
    "Verif.C82.attribute_error_iff",
    "Verif.C82.undefined_iff",
    "Verif.C82.attribute_error16_iff",
    "Verif.C82.unpredictable16_iff",
    "Verif.C82.decodes16_iff",
    "Verif.C82.undefined16_iff",
    "Verif.C82.coverage16",
    "Verif.C82.coverage32"
   ],
   "note": "decodes_iff, unpredictable_iff, name_error_iff, attribute_error_iff and undefined_iff are exact and together determine the kind of every outcome. The claim itself fails in these points: PUSH.W raises NameError, memory hints decode as loads to PC, LDR.W to PC from a literal is undefined, and words outside the listed groups raise AttributeError. The rules are those the program checks"
  },
  {
   "property": "C83",
   "status": "partial",
   "theorems": [
    "Verif.C83.refused_is_unpredictable",
    "Verif.C83.missed_decodes",
    "Verif.C83.refused_iff_partial",
    "Verif.C83.decoded_unpredictable_iff",
    "Verif.C83.some_missed"
   ],
   "note": "refused_is_unpredictable is proved in full. The converse is false: 28 encodings have rules the program does not know, and the byte reversals check half of theirs; refused_iff_partial and decoded_unpredictable_iff say exactly which words are let through."
  },
  {
   "property": "C84",
   "status": "proved",
   "theorems": [
    "Verif.C84.decode_relocates",
    "Verif.C84.disasm_relocates",
    "Verif.C84.execute_relocates",
    "Verif.C84.text_relocates",
    "Verif.C84.text_up_to_comment"
   ],
   "note": ""
  },
  {
   "property": "C85",
   "status": "partial",
   "theorems": [
    "Verif.C85.distinct",
    "Verif.C85.same_object_partial",
    "Verif.C85.concat_self",
    "Verif.C85.concat_self_in_range",
    "Verif.C85.slice_self",
    "Verif.C85.full_claim_false",
    "Verif.C85.add_distinct",
    "Verif.C85.add_self"
   ],
   "note": "False for %=, slice assignment and AddWithCarry with a negative operand (C85.full_claim_false); for these the exact result is proved (concat_self, slice_self, add_self). Proved for all other operations, and in full for different objects."
  },
  {
   "property": "C86",
   "status": "proved",
   "theorems": [
    "Verif.C86.dump_shows",
    "Verif.C86.repr_shows"
   ],
   "note": ""
  },
  {
   "property": "C87",
   "status": "partial",
   "theorems": [
    "Verif.C87.always_fails",
    "Verif.C87.full_claim_false"
   ],
   "note": "False: both functions raise NameError on every argument (C87.always_fails)."
  },
  {
   "property": "C88",
   "status": "partial",
   "theorems": [
    "Verif.C88.lines",
    "Verif.C88.address_right_iff_partial",
    "Verif.C88.full_claim_false",
    "Verif.C88.address_text"
   ],
   "note": "False for read16 and read32 beyond the first line (C88.full_claim_false); the printed number is determined exactly for every line (C88.lines) and the domain is exact (address_right_iff_partial)."
  },
  {
   "property": "C89",
   "status": "partial",
   "theorems": [
    "Verif.C89.trap_goes_on",
    "Verif.C89.raises_iff",
    "Verif.C89.multiple_goes_on",
    "Verif.C89.thumb_bit_kept",
    "Verif.C89.full_claim_false"
   ],
   "note": "False in all parts (C89.full_claim_false): traps step over themselves, no access is refused for its alignment, and the Thumb bit never changes; proved for all words and states. raises_iff determines exactly when executing raises a Python exception."
  },
  {
   "property": "C90",
   "status": "proved",
   "theorems": [
    "Verif.C90.shipped",
    "Verif.C90.shipped_all",
    "Verif.C90.alike",
    "Verif.C90.alike_all",
    "Verif.C90.decode_execute_partial",
    "Verif.C90.logging",
    "Verif.C90.default_size"
   ],
   "note": ""
  },
  {
   "property": "C91",
   "status": "partial",
   "theorems": [
    "Verif.C91.trace_exact",
    "Verif.C91.trace",
    "Verif.C91.trace_any",
    "Verif.C91.decode_trace_partial"
   ],
   "note": "decode_trace_partial excludes the words decoded wrongly and operands that are the PC, as C72 does. trace_exact gives the accesses for every action and state, in memory or not."
  },
  {
   "property": "C92",
   "status": "proved",
   "theorems": [
    "Verif.C92.get_bit",
    "Verif.C92.get_bit_value",
    "Verif.C92.all_agree",
    "Verif.C92.above_width",
    "Verif.C92.iter_injective"
   ],
   "note": ""
  },
  {
   "property": "C93",
   "status": "partial",
   "theorems": [
    "Verif.C93.normal_run",
    "Verif.C93.written_means",
    "Verif.C93.text_means_iff_partial",
    "Verif.C93.same_text_same_effect_partial"
   ],
   "note": "false for the words of Misread (CMP and CMN of registers, ADR, MSR APSR; text_means_iff_partial says exactly which), and PUSH.W with a list is not decoded. Proved for all other words; same_text_same_effect_partial for pairs of them."
  },
  {
   "property": "C94",
   "status": "partial",
   "theorems": [
    "Verif.C94.follows_iff_partial",
    "Verif.C94.full_claim_false"
   ],
   "note": "False for backward branches, ADR and the instructions that C81 excludes (full_claim_false). follows_iff_partial gives the exact condition; it leaves out PUSH.W, which is not decoded, ADR to SP and what C81 leaves out."
  },
  {
   "property": "C95",
   "status": "partial",
   "theorems": [
    "Verif.C95.every_decoder_partial",
    "Verif.C95.decode_by_dump",
    "Verif.C95.dump_after",
    "Verif.C95.program_dump",
    "Verif.C95.full_claim_false"
   ],
   "note": "Proved for a tree just built (every_decoder_partial, decode_by_dump, program_dump). False after a word without an entry has been decoded: the lookup leaves an empty list in the tree and dump raises AttributeError (full_claim_false); dump_after says exactly when."
  },
  {
   "property": "C96",
   "status": "proved",
   "theorems": [
    "Verif.C96.depends",
    "Verif.C96.memory",
    "Verif.C96.confined",
    "Verif.C96.program"
   ],
   "note": ""
  },
  {
   "property": "C97",
   "status": "partial",
   "theorems": [
    "Verif.C97.bitstrings_partial",
    "Verif.C97.symmetric",
    "Verif.C97.full_claim_false",
    "Verif.C97.transitive_iff",
    "Verif.C97.text_hash",
    "Verif.C97.lost_key"
   ],
   "note": "Proved among bitstrings (bitstrings_partial) and symmetry for all (symmetric). False with numbers or texts (full_claim_false): transitive_iff says when transitivity holds, text_hash that texts are never hashed alike, lost_key that a comparison with a negative number changes the key and its hash."
  },
  {
   "property": "C98",
   "status": "proved",
   "theorems": [
    "Verif.C98.exchange",
    "Verif.C98.exchange_apart",
    "Verif.C98.exchange_in_program",
    "Verif.C98.exchange_apart_in_program"
   ],
   "note": ""
  },
  {
   "property": "C99",
   "status": "partial",
   "theorems": [
    "Verif.C99.copies_partial",
    "Verif.C99.full_claim_false",
    "Verif.C99.no_direct_loop_partial"
   ],
   "note": "False as stated: a branch backwards goes forwards, so that no loop can be made with B, a conditional branch or BL (no_direct_loop_partial), and pointers from 2 ^ 31 on are complemented (full_claim_false). Proved: with BX and addresses below 2 ^ 31, for any number of bytes, content and places (copies_partial)."
  },
  {
   "property": "C100",
   "status": "partial",
   "theorems": [
    "Verif.C100.execute_partial",
    "Verif.C100.program_partial",
    "Verif.C100.step_partial",
    "Verif.C100.steps_partial",
    "Verif.C100.full_claim_false"
   ],
   "note": "False as stated for branches backwards (full_claim_false: they add an odd number and go to different places) and for instructions that name PC as an operand. Proved for all other instructions (execute_partial, blind), for programs (program_partial) and for any number of step commands (step_partial, steps_partial)."
  },
  {
   "property": "C101",
   "status": "partial",
   "theorems": [
    "Verif.C101.returns",
    "Verif.C101.call_returns",
    "Verif.C101.nested",
    "Verif.C101.session_partial",
    "Verif.C101.pop_pc_partial"
   ],
   "note": "With `pop.w {..., lr}; bx lr` proved for every function, call and depth (returns, call_returns, nested, session_partial), except for calls backwards with BL and for BLX of LR, which go elsewhere (C50, C51). With `pop {..., pc}` the claim is false in one point: PC keeps bit 0 of the return address (pop_pc_partial, which proves the rest); what follows is not affected by that bit (C100)."
  },
  {
   "property": "C102",
   "status": "partial",
   "theorems": [
    "Verif.C102.addition_exact",
    "Verif.C102.subtraction_exact",
    "Verif.C102.addition_right_iff_partial",
    "Verif.C102.subtraction_right_iff_partial"
   ],
   "note": "The carry is right for all numbers (addition_exact, subtraction_exact). The words are right if and only if none of them has its highest bit set (addition_right_iff_partial, subtraction_right_iff_partial), because AddWithCarry complements negative results (C17)."
  },
  {
   "property": "C103",
   "status": "partial",
   "theorems": [
    "Verif.C103.reverse_twice",
    "Verif.C103.complement_twice",
    "Verif.C103.exclusive_or_twice",
    "Verif.C103.exchange",
    "Verif.C103.rotate_back",
    "Verif.C103.add_then_subtract_iff_partial",
    "Verif.C103.negate_twice_iff_partial",
    "Verif.C103.shifts_extend",
    "Verif.C103.multiply_by_power",
    "Verif.C103.clear_is_and_not"
   ],
   "note": "The laws are proved except those of ADD, SUB and RSB, which complement negative results (C43): add_then_subtract_iff_partial and negate_twice_iff_partial say exactly when they hold."
  },
  {
   "property": "C104",
   "status": "proved",
   "theorems": [
    "Verif.C104.same_action",
    "Verif.C104.narrow_wide",
    "Verif.C104.mvn_wide",
    "Verif.C104.push_wide"
   ],
   "note": ""
  },
  {
   "property": "C105",
   "status": "proved",
   "theorems": [
    "Verif.C105.load_multiple",
    "Verif.C105.store_multiple",
    "Verif.C105.load_signed",
    "Verif.C105.load_literal",
    "Verif.C105.register_offset"
   ],
   "note": ""
  },
  {
   "property": "C106",
   "status": "partial",
   "theorems": [
    "Verif.C106.simulates_partial",
    "Verif.C106.file_copies_partial",
    "Verif.C106.simulates_exact_partial"
   ],
   "note": "Instructions that are executed otherwise than in the manual (C70, C72) are not covered by simulates_partial; simulates_exact_partial covers negative results, with what is really computed. For the program that copies, addresses from 2 ^ 31 on (C99) are not covered."
  },
  {
   "property": "C107",
   "status": "proved",
   "theorems": [
    "Verif.C107.factorial",
    "Verif.C107.text_end"
   ],
   "note": ""
  },
  {
   "property": "C108",
   "status": "proved",
   "theorems": [
    "Verif.C108.session_preserves",
    "Verif.C108.always",
    "Verif.C108.lookups",
    "Verif.C108.words_always"
   ],
   "note": ""
  },
  {
   "property": "C109",
   "status": "partial",
   "theorems": [
    "Verif.C109.output_ignored",
    "Verif.C109.cut",
    "Verif.C109.semicolons_partial",
    "Verif.C109.full_claim_false",
    "Verif.C109.without",
    "Verif.C109.interrupts"
   ],
   "note": "Output, cutting and leaving out are proved in full for sessions as stated. Semicolons (semicolons_partial) fail for empty parts and for Python code that is not at the start of the line, where the `$` is not removed (full_claim_false)."
  },
  {
   "property": "C110",
   "status": "proved",
   "theorems": [
    "Verif.C110.typed_program",
    "Verif.C110.padding"
   ],
   "note": ""
  },
  {
   "property": "C111",
   "status": "partial",
   "theorems": [
    "Verif.C111.expression_exact",
    "Verif.C111.expression_partial",
    "Verif.C111.full_claim_false",
    "Verif.C111.file_exact",
    "Verif.C111.file_computes_partial"
   ],
   "note": "False as stated because AddWithCarry complements negative results (C17); full_claim_false is a witness. expression_exact gives what is computed for every expression; it is the value if no sum or difference has its highest bit set (expression_partial; file_exact and file_computes_partial for files)."
  },
  {
   "property": "C112",
   "status": "partial",
   "theorems": [
    "Verif.C112.assignments_exact",
    "Verif.C112.assignments_partial",
    "Verif.C112.full_claim_false",
    "Verif.C112.file_exact",
    "Verif.C112.file_assigns_partial"
   ],
   "note": "False as stated because AddWithCarry complements negative results (C17); full_claim_false is a witness. assignments_exact gives what is computed in every case; it is the right value if no sum or difference has its highest bit set (assignments_partial; file_exact and file_assigns_partial for files)."
  },
  {
   "property": "C113",
   "status": "partial",
   "theorems": [
    "Verif.C113.file_steps",
    "Verif.C113.file_exact",
    "Verif.C113.file_program_partial",
    "Verif.C113.never_ends",
    "Verif.C113.full_claim_false"
   ],
   "note": "False as stated because AddWithCarry complements negative results (C17); full_claim_false is a witness. file_exact gives what is computed for every program that ends with these complements; it is what the program means if no sum or difference has its highest bit set (file_program_partial). Backward branches are decoded wrongly (C99), so the code jumps backwards with BX and an absolute address."
  }
 ]
}