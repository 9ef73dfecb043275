import Verif.Decoder

/-!
# The encodings of `cmdis/instructions.py`

Every `@instr` decorator as a row, in the order of registration: from the top of the file,
and within a stack of decorators from the bottom. The comment is the line of the decorator.
-/

namespace Verif

/-- The calls of `instr`. -/
def rows : List Row := [
  -- 114
  ⟨c! "bics", .bitClear, .adc, c! "010000 1110 Rm(3) Rdn(3)", none, []⟩,
  -- 113
  ⟨c! "orrs", .bitOp, .adc, c! "010000 1100 Rm(3) Rdn(3)", none, [.op .or]⟩,
  -- 112
  ⟨c! "rors", .shiftOp, .adc, c! "010000 0111 Rm(3) Rdn(3)", none, [.type .ror]⟩,
  -- 111
  ⟨c! "sbcs", .addSub, .adc, c! "010000 0110 Rm(3) Rdn(3)", none, [.sub true, .useCarry true]⟩,
  -- 110
  ⟨c! "adcs", .addSub, .adc, c! "010000 0101 Rm(3) Rdn(3)", none, [.useCarry true]⟩,
  -- 109
  ⟨c! "asrs", .shiftOp, .adc, c! "010000 0100 Rm(3) Rdn(3)", none, [.type .asr]⟩,
  -- 108
  ⟨c! "lsrs", .shiftOp, .adc, c! "010000 0011 Rm(3) Rdn(3)", none, [.type .lsr]⟩,
  -- 107
  ⟨c! "lsls", .shiftOp, .adc, c! "010000 0010 Rm(3) Rdn(3)", none, [.type .lsl]⟩,
  -- 106
  ⟨c! "eors", .bitOp, .adc, c! "010000 0001 Rm(3) Rdn(3)", none, [.op .xor]⟩,
  -- 105
  ⟨c! "ands", .bitOp, .adc, c! "010000 0000 Rm(3) Rdn(3)", none, [.op .and]⟩,
  -- 124
  ⟨c! "subs", .addSub, .addImmT1, c! "000 11 1 1 imm3(3) Rn(3) Rd(3)", none, [.sub true]⟩,
  -- 123
  ⟨c! "adds", .addSub, .addImmT1, c! "000 11 1 0 imm3(3) Rn(3) Rd(3)", none, []⟩,
  -- 133
  ⟨c! "subs", .addSub, .addImmT2, c! "001 11 Rdn(3) imm8(8)", none, [.sub true]⟩,
  -- 132
  ⟨c! "adds", .addSub, .addImmT2, c! "001 10 Rdn(3) imm8(8)", none, []⟩,
  -- 142
  ⟨c! "subs", .addSub, .addRegT1, c! "000 11 0 1 Rm(3) Rn(3) Rd(3)", none, [.sub true]⟩,
  -- 141
  ⟨c! "adds", .addSub, .addRegT1, c! "000 11 0 0 Rm(3) Rn(3) Rd(3)", none, []⟩,
  -- 150
  ⟨c! "add", .addSub, .addRegT2, c! "010001 00 DN Rm(4) Rdn(3)", none, []⟩,
  -- 157
  ⟨c! "add", .addSub, .addSpPlusImmT1, c! "1010 1 Rd(3) imm8(8)", none, []⟩,
  -- 164
  ⟨c! "add", .addSub, .addSpPlusRegT1, c! "01000100 DM 1101 Rdm(3)", none, []⟩,
  -- 172
  ⟨c! "add", .addSub, .addSpPlusRegT2, c! "01000100 1 Rm(4) 101", none, []⟩,
  -- 183
  ⟨c! "sub", .addSub, .addSpPlusImmT2, c! "1011 0000 1 imm7(7)", none, [.sub true]⟩,
  -- 182
  ⟨c! "add", .addSub, .addSpPlusImmT2, c! "1011 0000 0 imm7(7)", none, []⟩,
  -- 192
  ⟨c! "asrs", .shiftOp, .shiftImmT1, c! "000 stype=10 imm5(5) Rm(3) Rd(3)", none, [.type .asr]⟩,
  -- 191
  ⟨c! "lsrs", .shiftOp, .shiftImmT1, c! "000 stype=01 imm5(5) Rm(3) Rd(3)", none, [.type .lsr]⟩,
  -- 190
  ⟨c! "lsls", .shiftOp, .shiftImmT1, c! "000 stype=00 imm5(5) Rm(3) Rd(3)", none, [.type .lsl]⟩,
  -- 209
  ⟨c! "rsbs", .reverseSubtract, .rsb, c! "010000 1001 Rn(3) Rd(3)", none, []⟩,
  -- 217
  ⟨c! "rsb", .reverseSubtract, .rsbW, c! "11110 im 0 1110 S Rn(4)", some (c! "0 imm3(3) Rd(4) imm8(8)"), []⟩,
  -- 239
  ⟨c! "muls", .multiply, .mulT1, c! "010000 1101 Rn(3) Rdm(3)", none, []⟩,
  -- 247
  ⟨c! "mul", .multiply, .mulT2, c! "11111 0110 000 Rn(4)", some (c! "1111 Rd(4) 0000 Rm(4)"), []⟩,
  -- 265
  ⟨c! "adr", .addressToRegister, .adrT1, c! "1010 0 Rd(3) imm8(8)", none, []⟩,
  -- 273
  ⟨c! "adr.w", .addressToRegister, .adrT2, c! "11110 im 10000 0 1111", some (c! "0 imm3(3) Rd(4) imm8(8)"), [.add true]⟩,
  -- 272
  ⟨c! "adr.w", .addressToRegister, .adrT2, c! "11110 im 10101 0 1111", some (c! "0 imm3(3) Rd(4) imm8(8)"), [.add false]⟩,
  -- 294
  ⟨c! "uxtb", .extend, .extend, c! "1011 0010 11 Rm(3) Rd(3)", none, [.width 8, .signed false]⟩,
  -- 293
  ⟨c! "uxth", .extend, .extend, c! "1011 0010 10 Rm(3) Rd(3)", none, [.width 16, .signed false]⟩,
  -- 292
  ⟨c! "sxtb", .extend, .extend, c! "1011 0010 01 Rm(3) Rd(3)", none, [.width 8, .signed true]⟩,
  -- 291
  ⟨c! "sxth", .extend, .extend, c! "1011 0010 00 Rm(3) Rd(3)", none, [.width 16, .signed true]⟩,
  -- 304
  ⟨c! "uxtb.w", .extend, .extend2, c! "11111 010 0 101 1111", some (c! "1111 Rd(4) 1 0 rotate(2) Rm(4)"), [.width 8, .signed false]⟩,
  -- 303
  ⟨c! "uxth.w", .extend, .extend2, c! "11111 010 0 001 1111", some (c! "1111 Rd(4) 1 0 rotate(2) Rm(4)"), [.width 16, .signed false]⟩,
  -- 302
  ⟨c! "sxtb.w", .extend, .extend2, c! "11111 010 0 100 1111", some (c! "1111 Rd(4) 1 0 rotate(2) Rm(4)"), [.width 8, .signed true]⟩,
  -- 301
  ⟨c! "sxth.w", .extend, .extend2, c! "11111 010 0 000 1111", some (c! "1111 Rd(4) 1 0 rotate(2) Rm(4)"), [.width 16, .signed true]⟩,
  -- 337
  ⟨c! "revsh", .byteReverse, .rev, c! "1011 1010 11 Rm(3) Rd(3)", none, [.width 2, .signed true]⟩,
  -- 336
  ⟨c! "rev16", .byteReverse, .rev, c! "1011 1010 01 Rm(3) Rd(3)", none, [.width 2, .signed false]⟩,
  -- 335
  ⟨c! "rev", .byteReverse, .rev, c! "1011 1010 00 Rm(3) Rd(3)", none, [.width 4, .signed false]⟩,
  -- 345
  ⟨c! "revsh.w", .byteReverse, .revW, c! "11111 010 1 001 Rm1(4)", some (c! "1111 Rd(4) 1 011 Rm2(4)"), [.width 2, .signed true]⟩,
  -- 344
  ⟨c! "rev16.w", .byteReverse, .revW, c! "11111 010 1 001 Rm1(4)", some (c! "1111 Rd(4) 1 001 Rm2(4)"), [.width 2, .signed false]⟩,
  -- 343
  ⟨c! "rev.w", .byteReverse, .revW, c! "11111 010 1 001 Rm1(4)", some (c! "1111 Rd(4) 1 000 Rm2(4)"), [.width 4, .signed false]⟩,
  -- 373
  ⟨c! "mov", .move, .mov0, c! "010001 10 D Rm(4) Rd(3)", none, []⟩,
  -- 380
  ⟨c! "movs", .move, .mov0S, c! "000 00 00000 Rm(3) Rd(3)", none, []⟩,
  -- 387
  ⟨c! "mov", .move, .movRegT3, c! "11101 01 0010 S 1111", some (c! "0 000 Rd(4) 0000 Rm(4)"), []⟩,
  -- 395
  ⟨c! "movs", .move, .mov1, c! "001 00 Rd(3) imm8(8)", none, []⟩,
  -- 403
  ⟨c! "mov", .move, .mov2, c! "11110 im 0 0010 S 1111", some (c! "0 imm3(3) Rd(4) imm8(8)"), []⟩,
  -- 412
  ⟨c! "movw", .move, .movw, c! "11110 im 10 0 1 0 0 imm4(4)", some (c! "0 imm3(3) Rd(4) imm8(8)"), []⟩,
  -- 420
  ⟨c! "mvns", .move, .mvn, c! "010000 1111 Rm(3) Rd(3)", none, [.negate true]⟩,
  -- 436
  ⟨c! "mvn", .shiftedMoveNegate, .mvnw, c! "11101 01 0011 S 1111", some (c! "0 imm3(3) Rd(4) imm2(2) type(2) Rm(4)"), []⟩,
  -- 469
  ⟨c! "cmp", .compare, .cmp1, c! "001 01 Rn(3) imm8(8)", none, []⟩,
  -- 477
  ⟨c! "cmn", .compare, .cmp3, c! "010000 1011 Rm(3) Rn(3)", none, [.negate false]⟩,
  -- 476
  ⟨c! "cmp", .compare, .cmp3, c! "010000 1010 Rm(3) Rn(3)", none, []⟩,
  -- 484
  ⟨c! "cmp", .compare, .cmp4, c! "010001 01 N Rm(4) Rn(3)", none, []⟩,
  -- 492
  ⟨c! "cmn", .compare, .cmp2, c! "11110 im 0 1000 1 Rn(4)", some (c! "0 imm3(3) 1111 imm8(8)"), [.negate false]⟩,
  -- 491
  ⟨c! "cmp.w", .compare, .cmp2, c! "11110 im 0 1101 1 Rn(4)", some (c! "0 imm3(3) 1111 imm8(8)"), []⟩,
  -- 509
  ⟨c! "tst", .test, .tst, c! "010000 1000 Rm(3) Rn(3)", none, []⟩,
  -- 517
  ⟨c! "tst.w", .test, .tstW, c! "11101 01 0000 1 Rn(4)", some (c! "0 imm3(3) 1111 imm2(2) type(2) Rm(4)"), []⟩,
  -- 576
  ⟨c! "b", .branch, .bT1, c! "1101 cond(4) imm8(8)", none, []⟩,
  -- 584
  ⟨c! "b", .branch, .bT2, c! "11100 imm11(11)", none, []⟩,
  -- 590
  ⟨c! "bl", .branch, .blT1, c! "11110 S imm10(10)", some (c! "11 J1 1 J2 imm11(11)"), []⟩,
  -- 598
  ⟨c! "blx", .branch, .blxT1, c! "010001 11 1 Rm(4) 000", none, []⟩,
  -- 606
  ⟨c! "bx", .branch, .bxT1, c! "010001 11 0 Rm(4) 000", none, []⟩,
  -- 659
  ⟨c! "ldrsh", .load, .ldrStrReg, c! "0101 111 Rm(3) Rn(3) Rt(3)", none, [.memsize 16, .signed true]⟩,
  -- 658
  ⟨c! "ldrb", .load, .ldrStrReg, c! "0101 110 Rm(3) Rn(3) Rt(3)", none, [.memsize 8]⟩,
  -- 657
  ⟨c! "ldrh", .load, .ldrStrReg, c! "0101 101 Rm(3) Rn(3) Rt(3)", none, [.memsize 16]⟩,
  -- 656
  ⟨c! "ldr", .load, .ldrStrReg, c! "0101 100 Rm(3) Rn(3) Rt(3)", none, [.memsize 32]⟩,
  -- 655
  ⟨c! "ldrsb", .load, .ldrStrReg, c! "0101 011 Rm(3) Rn(3) Rt(3)", none, [.memsize 8, .signed true]⟩,
  -- 654
  ⟨c! "strb", .store, .ldrStrReg, c! "0101 010 Rm(3) Rn(3) Rt(3)", none, [.memsize 8]⟩,
  -- 653
  ⟨c! "strh", .store, .ldrStrReg, c! "0101 001 Rm(3) Rn(3) Rt(3)", none, [.memsize 16]⟩,
  -- 652
  ⟨c! "str", .store, .ldrStrReg, c! "0101 000 Rm(3) Rn(3) Rt(3)", none, [.memsize 32]⟩,
  -- 678
  ⟨c! "str.w", .store, .ldrStrRegT2, c! "11111 00 0 0 10 0 Rn(4)", some (c! "Rt(4) 0 00000 imm2(2) Rm(4)"), [.memsize 32]⟩,
  -- 677
  ⟨c! "strh.w", .store, .ldrStrRegT2, c! "11111 00 0 0 01 0 Rn(4)", some (c! "Rt(4) 0 00000 imm2(2) Rm(4)"), [.memsize 16]⟩,
  -- 676
  ⟨c! "strb.w", .store, .ldrStrRegT2, c! "11111 00 0 0 00 0 Rn(4)", some (c! "Rt(4) 0 00000 imm2(2) Rm(4)"), [.memsize 8]⟩,
  -- 675
  ⟨c! "ldrsh.w", .load, .ldrStrRegT2, c! "11111 00 1 0 01 1 Rn(4)", some (c! "Rt(4) 0 00000 imm2(2) Rm(4)"), [.memsize 16, .signed true]⟩,
  -- 674
  ⟨c! "ldrsb.w", .load, .ldrStrRegT2, c! "11111 00 1 0 00 1 Rn(4)", some (c! "Rt(4) 0 00000 imm2(2) Rm(4)"), [.memsize 8, .signed true]⟩,
  -- 673
  ⟨c! "ldr.w", .load, .ldrStrRegT2, c! "11111 00 0 0 10 1 Rn(4)", some (c! "Rt(4) 0 00000 imm2(2) Rm(4)"), [.memsize 32]⟩,
  -- 672
  ⟨c! "ldrh.w", .load, .ldrStrRegT2, c! "11111 00 0 0 01 1 Rn(4)", some (c! "Rt(4) 0 00000 imm2(2) Rm(4)"), [.memsize 16]⟩,
  -- 671
  ⟨c! "ldrb.w", .load, .ldrStrRegT2, c! "11111 00 0 0 00 1 Rn(4)", some (c! "Rt(4) 0 00000 imm2(2) Rm(4)"), [.memsize 8]⟩,
  -- 698
  ⟨c! "ldrh", .load, .ldrStrImm, c! "100 0 1 imm5(5) Rn(3) Rt(3)", none, [.memsize 16]⟩,
  -- 697
  ⟨c! "strh", .store, .ldrStrImm, c! "100 0 0 imm5(5) Rn(3) Rt(3)", none, [.memsize 16]⟩,
  -- 696
  ⟨c! "ldrb", .load, .ldrStrImm, c! "011 1 1 imm5(5) Rn(3) Rt(3)", none, [.memsize 8]⟩,
  -- 695
  ⟨c! "strb", .store, .ldrStrImm, c! "011 1 0 imm5(5) Rn(3) Rt(3)", none, [.memsize 8]⟩,
  -- 694
  ⟨c! "ldr", .load, .ldrStrImm, c! "011 0 1 imm5(5) Rn(3) Rt(3)", none, [.memsize 32]⟩,
  -- 693
  ⟨c! "str", .store, .ldrStrImm, c! "011 0 0 imm5(5) Rn(3) Rt(3)", none, [.memsize 32]⟩,
  -- 729
  ⟨c! "ldr", .loadLiteral, .ldrLiteral, c! "01001 Rt(3) imm8(8)", none, [.memsize 32]⟩,
  -- 740
  ⟨c! "ldrsb.w", .loadLiteral, .ldrLiteralW, c! "11111 00 1 U 00 1 1111", some (c! "Rt(4) imm12(12)"), [.memsize 8, .signed true]⟩,
  -- 739
  ⟨c! "ldrsh.w", .loadLiteral, .ldrLiteralW, c! "11111 00 1 U 01 1 1111", some (c! "Rt(4) imm12(12)"), [.memsize 16, .signed true]⟩,
  -- 738
  ⟨c! "ldrb.w", .loadLiteral, .ldrLiteralW, c! "11111 00 0 U 00 1 1111", some (c! "Rt(4) imm12(12)"), [.memsize 8]⟩,
  -- 737
  ⟨c! "ldrh.w", .loadLiteral, .ldrLiteralW, c! "11111 00 0 U 01 1 1111", some (c! "Rt(4) imm12(12)"), [.memsize 16]⟩,
  -- 736
  ⟨c! "ldr.w", .loadLiteral, .ldrLiteralW, c! "11111 00 0 U 10 1 1111", some (c! "Rt(4) imm12(12)"), [.memsize 32]⟩,
  -- 752
  ⟨c! "ldr", .load, .ldrStrImmT2, c! "1001 1 Rt(3) imm8(8)", none, [.memsize 32]⟩,
  -- 751
  ⟨c! "str", .store, .ldrStrImmT2, c! "1001 0 Rt(3) imm8(8)", none, [.memsize 32]⟩,
  -- 788
  ⟨c! "push", .push, .pushT1, c! "1011 0 10 M reglist(8)", none, []⟩,
  -- 796
  ⟨c! "push.w", .push, .pushT2, c! "11101 00 100 1 0 1101", some (c! "0 M 0 reglist(13)"), []⟩,
  -- 804
  ⟨c! "push.w", .push, .pushT3, c! "11111 00 0 0 10 0 1101", some (c! "Rt(4) 1 101 00000100"), []⟩,
  -- 813
  ⟨c! "pop", .pop, .popT1, c! "1011 1 10 P reglist(8)", none, []⟩,
  -- 820
  ⟨c! "pop.w", .pop, .popT2, c! "11101 00 010 1 1 1101", some (c! "P M 0 reglist(13)"), []⟩,
  -- 827
  ⟨c! "pop.w", .pop, .popT3, c! "11111 00 0 0 10 1 1101", some (c! "Rt(4) 1 011 00000100"), []⟩,
  -- 864
  ⟨c! "ldm", .loadMultiple, .stmLdmT1, c! "1100 1 Rn(3) reglist(8)", none, []⟩,
  -- 863
  ⟨c! "stm", .storeMultiple, .stmLdmT1, c! "1100 0 Rn(3) reglist(8)", none, []⟩,
  -- 873
  ⟨c! "stm.w", .storeMultiple, .stmT2, c! "11101 00 010 W 0 Rn(4)", some (c! "0 M 0 reglist(13)"), []⟩,
  -- 884
  ⟨c! "ldm.w", .loadMultiple, .ldmT2, c! "11101 00 010 W 1 Rn(4)", some (c! "P M 0 reglist(13)"), []⟩,
  -- 914
  ⟨c! "cps", .changeProcessorState, .cps, c! "1011 0110 011 im 0 0 I F", none, []⟩,
  -- 924
  ⟨c! "bkpt", .instruction, .bkpt, c! "1011 1110 imm8(8)", none, []⟩,
  -- 969
  ⟨c! "mrs", .moveFromSpecial, .mrs, c! "11110 0 1111 1 0 1111", some (c! "10 0 0 Rd(4) SYSm(8)"), []⟩,
  -- 977
  ⟨c! "msr", .moveToSpecial, .msr, c! "11110 0 1110 0 0 Rn(4)", some (c! "10 0 0 mask(2) 0 0 SYSm(8)"), []⟩,
  -- 994
  ⟨c! "sev", .instruction, .nop, c! "1011 1111 0100 0000", none, []⟩,
  -- 993
  ⟨c! "wfi", .instruction, .nop, c! "1011 1111 0011 0000", none, []⟩,
  -- 992
  ⟨c! "wfe", .instruction, .nop, c! "1011 1111 0010 0000", none, []⟩,
  -- 991
  ⟨c! "yield", .instruction, .nop, c! "1011 1111 0001 0000", none, []⟩,
  -- 990
  ⟨c! "nop", .instruction, .nop, c! "1011 1111 0000 0000", none, []⟩,
  -- 1002
  ⟨c! "isb", .instruction, .barrier, c! "11110 0 111 01 1 1111", some (c! "10 0 0 1111 0110 option(4)"), []⟩,
  -- 1001
  ⟨c! "dmb", .instruction, .barrier, c! "11110 0 111 01 1 1111", some (c! "10 0 0 1111 0101 option(4)"), []⟩,
  -- 1000
  ⟨c! "dsb", .instruction, .barrier, c! "11110 0 111 01 1 1111", some (c! "10 0 0 1111 0100 option(4)"), []⟩,
  -- 1010
  ⟨c! "svc", .instruction, .udfT1, c! "1101 1111 imm8(8)", none, []⟩,
  -- 1009
  ⟨c! "udf", .instruction, .udfT1, c! "1101 1110 imm8(8)", none, []⟩,
  -- 1015
  ⟨c! "udf.w", .instruction, .udfT2, c! "111 10 1111111 imm4(4)", some (c! "1 010 imm12(12)"), []⟩]

/-- The decoders registered by importing `instructions.py`. `decoders_eq` in
`Verif/Lemmas/Table.lean` shows that no format string is refused. -/
def decoders : List Dec :=
  match compileAll rows with
  | .ok l => l
  | .error _ => []

/-- `DECODER_TREE` after `build()`, `decoder.py` 193 and `disasm.py` 20-21. -/
def trees : Trees := buildTrees decoders

end Verif
