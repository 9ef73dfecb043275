import Verif.Table

/-!
# The decoder table, computed

Mask, match and fields of every encoding, checked by the kernel against the model's parser.
-/

namespace Verif

/-- The decoders in order of registration. -/
def decs : List Dec := [
  ⟨c! "bics", .bitClear, .adc, [], false, ⟨0xffc0, 0x4380,
    [⟨c! "Rdn", 0, 3⟩, ⟨c! "Rm", 3, 3⟩]⟩⟩,
  ⟨c! "orrs", .bitOp, .adc, [.op .or], false, ⟨0xffc0, 0x4300,
    [⟨c! "Rdn", 0, 3⟩, ⟨c! "Rm", 3, 3⟩]⟩⟩,
  ⟨c! "rors", .shiftOp, .adc, [.type .ror], false, ⟨0xffc0, 0x41c0,
    [⟨c! "Rdn", 0, 3⟩, ⟨c! "Rm", 3, 3⟩]⟩⟩,
  ⟨c! "sbcs", .addSub, .adc, [.sub true, .useCarry true], false, ⟨0xffc0, 0x4180,
    [⟨c! "Rdn", 0, 3⟩, ⟨c! "Rm", 3, 3⟩]⟩⟩,
  ⟨c! "adcs", .addSub, .adc, [.useCarry true], false, ⟨0xffc0, 0x4140,
    [⟨c! "Rdn", 0, 3⟩, ⟨c! "Rm", 3, 3⟩]⟩⟩,
  ⟨c! "asrs", .shiftOp, .adc, [.type .asr], false, ⟨0xffc0, 0x4100,
    [⟨c! "Rdn", 0, 3⟩, ⟨c! "Rm", 3, 3⟩]⟩⟩,
  ⟨c! "lsrs", .shiftOp, .adc, [.type .lsr], false, ⟨0xffc0, 0x40c0,
    [⟨c! "Rdn", 0, 3⟩, ⟨c! "Rm", 3, 3⟩]⟩⟩,
  ⟨c! "lsls", .shiftOp, .adc, [.type .lsl], false, ⟨0xffc0, 0x4080,
    [⟨c! "Rdn", 0, 3⟩, ⟨c! "Rm", 3, 3⟩]⟩⟩,
  ⟨c! "eors", .bitOp, .adc, [.op .xor], false, ⟨0xffc0, 0x4040,
    [⟨c! "Rdn", 0, 3⟩, ⟨c! "Rm", 3, 3⟩]⟩⟩,
  ⟨c! "ands", .bitOp, .adc, [.op .and], false, ⟨0xffc0, 0x4000,
    [⟨c! "Rdn", 0, 3⟩, ⟨c! "Rm", 3, 3⟩]⟩⟩,
  ⟨c! "subs", .addSub, .addImmT1, [.sub true], false, ⟨0xfe00, 0x1e00,
    [⟨c! "Rd", 0, 3⟩, ⟨c! "Rn", 3, 3⟩, ⟨c! "imm3", 6, 3⟩]⟩⟩,
  ⟨c! "adds", .addSub, .addImmT1, [], false, ⟨0xfe00, 0x1c00,
    [⟨c! "Rd", 0, 3⟩, ⟨c! "Rn", 3, 3⟩, ⟨c! "imm3", 6, 3⟩]⟩⟩,
  ⟨c! "subs", .addSub, .addImmT2, [.sub true], false, ⟨0xf800, 0x3800,
    [⟨c! "imm8", 0, 8⟩, ⟨c! "Rdn", 8, 3⟩]⟩⟩,
  ⟨c! "adds", .addSub, .addImmT2, [], false, ⟨0xf800, 0x3000,
    [⟨c! "imm8", 0, 8⟩, ⟨c! "Rdn", 8, 3⟩]⟩⟩,
  ⟨c! "subs", .addSub, .addRegT1, [.sub true], false, ⟨0xfe00, 0x1a00,
    [⟨c! "Rd", 0, 3⟩, ⟨c! "Rn", 3, 3⟩, ⟨c! "Rm", 6, 3⟩]⟩⟩,
  ⟨c! "adds", .addSub, .addRegT1, [], false, ⟨0xfe00, 0x1800,
    [⟨c! "Rd", 0, 3⟩, ⟨c! "Rn", 3, 3⟩, ⟨c! "Rm", 6, 3⟩]⟩⟩,
  ⟨c! "add", .addSub, .addRegT2, [], false, ⟨0xff00, 0x4400,
    [⟨c! "Rdn", 0, 3⟩, ⟨c! "Rm", 3, 4⟩, ⟨c! "DN", 7, 1⟩]⟩⟩,
  ⟨c! "add", .addSub, .addSpPlusImmT1, [], false, ⟨0xf800, 0xa800,
    [⟨c! "imm8", 0, 8⟩, ⟨c! "Rd", 8, 3⟩]⟩⟩,
  ⟨c! "add", .addSub, .addSpPlusRegT1, [], false, ⟨0xff78, 0x4468,
    [⟨c! "Rdm", 0, 3⟩, ⟨c! "DM", 7, 1⟩]⟩⟩,
  ⟨c! "add", .addSub, .addSpPlusRegT2, [], false, ⟨0xff87, 0x4485,
    [⟨c! "Rm", 3, 4⟩]⟩⟩,
  ⟨c! "sub", .addSub, .addSpPlusImmT2, [.sub true], false, ⟨0xff80, 0xb080,
    [⟨c! "imm7", 0, 7⟩]⟩⟩,
  ⟨c! "add", .addSub, .addSpPlusImmT2, [], false, ⟨0xff80, 0xb000,
    [⟨c! "imm7", 0, 7⟩]⟩⟩,
  ⟨c! "asrs", .shiftOp, .shiftImmT1, [.type .asr], false, ⟨0xf800, 0x1000,
    [⟨c! "Rd", 0, 3⟩, ⟨c! "Rm", 3, 3⟩, ⟨c! "imm5", 6, 5⟩, ⟨c! "stype", 11, 2⟩]⟩⟩,
  ⟨c! "lsrs", .shiftOp, .shiftImmT1, [.type .lsr], false, ⟨0xf800, 0x800,
    [⟨c! "Rd", 0, 3⟩, ⟨c! "Rm", 3, 3⟩, ⟨c! "imm5", 6, 5⟩, ⟨c! "stype", 11, 2⟩]⟩⟩,
  ⟨c! "lsls", .shiftOp, .shiftImmT1, [.type .lsl], false, ⟨0xf800, 0x0,
    [⟨c! "Rd", 0, 3⟩, ⟨c! "Rm", 3, 3⟩, ⟨c! "imm5", 6, 5⟩, ⟨c! "stype", 11, 2⟩]⟩⟩,
  ⟨c! "rsbs", .reverseSubtract, .rsb, [], false, ⟨0xffc0, 0x4240,
    [⟨c! "Rd", 0, 3⟩, ⟨c! "Rn", 3, 3⟩]⟩⟩,
  ⟨c! "rsb", .reverseSubtract, .rsbW, [], true, ⟨0x8000fbe0, 0xf1c0,
    [⟨c! "Rn", 0, 4⟩, ⟨c! "S", 4, 1⟩, ⟨c! "im", 10, 1⟩, ⟨c! "imm8", 16, 8⟩, ⟨c! "Rd", 24, 4⟩, ⟨c! "imm3", 28, 3⟩]⟩⟩,
  ⟨c! "muls", .multiply, .mulT1, [], false, ⟨0xffc0, 0x4340,
    [⟨c! "Rdm", 0, 3⟩, ⟨c! "Rn", 3, 3⟩]⟩⟩,
  ⟨c! "mul", .multiply, .mulT2, [], true, ⟨0xf0f0fff0, 0xf000fb00,
    [⟨c! "Rn", 0, 4⟩, ⟨c! "Rm", 16, 4⟩, ⟨c! "Rd", 24, 4⟩]⟩⟩,
  ⟨c! "adr", .addressToRegister, .adrT1, [], false, ⟨0xf800, 0xa000,
    [⟨c! "imm8", 0, 8⟩, ⟨c! "Rd", 8, 3⟩]⟩⟩,
  ⟨c! "adr.w", .addressToRegister, .adrT2, [.add true], true, ⟨0x8000fbff, 0xf20f,
    [⟨c! "im", 10, 1⟩, ⟨c! "imm8", 16, 8⟩, ⟨c! "Rd", 24, 4⟩, ⟨c! "imm3", 28, 3⟩]⟩⟩,
  ⟨c! "adr.w", .addressToRegister, .adrT2, [.add false], true, ⟨0x8000fbff, 0xf2af,
    [⟨c! "im", 10, 1⟩, ⟨c! "imm8", 16, 8⟩, ⟨c! "Rd", 24, 4⟩, ⟨c! "imm3", 28, 3⟩]⟩⟩,
  ⟨c! "uxtb", .extend, .extend, [.width 8, .signed false], false, ⟨0xffc0, 0xb2c0,
    [⟨c! "Rd", 0, 3⟩, ⟨c! "Rm", 3, 3⟩]⟩⟩,
  ⟨c! "uxth", .extend, .extend, [.width 16, .signed false], false, ⟨0xffc0, 0xb280,
    [⟨c! "Rd", 0, 3⟩, ⟨c! "Rm", 3, 3⟩]⟩⟩,
  ⟨c! "sxtb", .extend, .extend, [.width 8, .signed true], false, ⟨0xffc0, 0xb240,
    [⟨c! "Rd", 0, 3⟩, ⟨c! "Rm", 3, 3⟩]⟩⟩,
  ⟨c! "sxth", .extend, .extend, [.width 16, .signed true], false, ⟨0xffc0, 0xb200,
    [⟨c! "Rd", 0, 3⟩, ⟨c! "Rm", 3, 3⟩]⟩⟩,
  ⟨c! "uxtb.w", .extend, .extend2, [.width 8, .signed false], true, ⟨0xf0c0ffff, 0xf080fa5f,
    [⟨c! "Rm", 16, 4⟩, ⟨c! "rotate", 20, 2⟩, ⟨c! "Rd", 24, 4⟩]⟩⟩,
  ⟨c! "uxth.w", .extend, .extend2, [.width 16, .signed false], true, ⟨0xf0c0ffff, 0xf080fa1f,
    [⟨c! "Rm", 16, 4⟩, ⟨c! "rotate", 20, 2⟩, ⟨c! "Rd", 24, 4⟩]⟩⟩,
  ⟨c! "sxtb.w", .extend, .extend2, [.width 8, .signed true], true, ⟨0xf0c0ffff, 0xf080fa4f,
    [⟨c! "Rm", 16, 4⟩, ⟨c! "rotate", 20, 2⟩, ⟨c! "Rd", 24, 4⟩]⟩⟩,
  ⟨c! "sxth.w", .extend, .extend2, [.width 16, .signed true], true, ⟨0xf0c0ffff, 0xf080fa0f,
    [⟨c! "Rm", 16, 4⟩, ⟨c! "rotate", 20, 2⟩, ⟨c! "Rd", 24, 4⟩]⟩⟩,
  ⟨c! "revsh", .byteReverse, .rev, [.width 2, .signed true], false, ⟨0xffc0, 0xbac0,
    [⟨c! "Rd", 0, 3⟩, ⟨c! "Rm", 3, 3⟩]⟩⟩,
  ⟨c! "rev16", .byteReverse, .rev, [.width 2, .signed false], false, ⟨0xffc0, 0xba40,
    [⟨c! "Rd", 0, 3⟩, ⟨c! "Rm", 3, 3⟩]⟩⟩,
  ⟨c! "rev", .byteReverse, .rev, [.width 4, .signed false], false, ⟨0xffc0, 0xba00,
    [⟨c! "Rd", 0, 3⟩, ⟨c! "Rm", 3, 3⟩]⟩⟩,
  ⟨c! "revsh.w", .byteReverse, .revW, [.width 2, .signed true], true, ⟨0xf0f0fff0, 0xf0b0fa90,
    [⟨c! "Rm1", 0, 4⟩, ⟨c! "Rm2", 16, 4⟩, ⟨c! "Rd", 24, 4⟩]⟩⟩,
  ⟨c! "rev16.w", .byteReverse, .revW, [.width 2, .signed false], true, ⟨0xf0f0fff0, 0xf090fa90,
    [⟨c! "Rm1", 0, 4⟩, ⟨c! "Rm2", 16, 4⟩, ⟨c! "Rd", 24, 4⟩]⟩⟩,
  ⟨c! "rev.w", .byteReverse, .revW, [.width 4, .signed false], true, ⟨0xf0f0fff0, 0xf080fa90,
    [⟨c! "Rm1", 0, 4⟩, ⟨c! "Rm2", 16, 4⟩, ⟨c! "Rd", 24, 4⟩]⟩⟩,
  ⟨c! "mov", .move, .mov0, [], false, ⟨0xff00, 0x4600,
    [⟨c! "Rd", 0, 3⟩, ⟨c! "Rm", 3, 4⟩, ⟨c! "D", 7, 1⟩]⟩⟩,
  ⟨c! "movs", .move, .mov0S, [], false, ⟨0xffc0, 0x0,
    [⟨c! "Rd", 0, 3⟩, ⟨c! "Rm", 3, 3⟩]⟩⟩,
  ⟨c! "mov", .move, .movRegT3, [], true, ⟨0xf0f0ffef, 0xea4f,
    [⟨c! "S", 4, 1⟩, ⟨c! "Rm", 16, 4⟩, ⟨c! "Rd", 24, 4⟩]⟩⟩,
  ⟨c! "movs", .move, .mov1, [], false, ⟨0xf800, 0x2000,
    [⟨c! "imm8", 0, 8⟩, ⟨c! "Rd", 8, 3⟩]⟩⟩,
  ⟨c! "mov", .move, .mov2, [], true, ⟨0x8000fbef, 0xf04f,
    [⟨c! "S", 4, 1⟩, ⟨c! "im", 10, 1⟩, ⟨c! "imm8", 16, 8⟩, ⟨c! "Rd", 24, 4⟩, ⟨c! "imm3", 28, 3⟩]⟩⟩,
  ⟨c! "movw", .move, .movw, [], true, ⟨0x8000fbf0, 0xf240,
    [⟨c! "imm4", 0, 4⟩, ⟨c! "im", 10, 1⟩, ⟨c! "imm8", 16, 8⟩, ⟨c! "Rd", 24, 4⟩, ⟨c! "imm3", 28, 3⟩]⟩⟩,
  ⟨c! "mvns", .move, .mvn, [.negate true], false, ⟨0xffc0, 0x43c0,
    [⟨c! "Rd", 0, 3⟩, ⟨c! "Rm", 3, 3⟩]⟩⟩,
  ⟨c! "mvn", .shiftedMoveNegate, .mvnw, [], true, ⟨0x8000ffef, 0xea6f,
    [⟨c! "S", 4, 1⟩, ⟨c! "Rm", 16, 4⟩, ⟨c! "type", 20, 2⟩, ⟨c! "imm2", 22, 2⟩, ⟨c! "Rd", 24, 4⟩, ⟨c! "imm3", 28, 3⟩]⟩⟩,
  ⟨c! "cmp", .compare, .cmp1, [], false, ⟨0xf800, 0x2800,
    [⟨c! "imm8", 0, 8⟩, ⟨c! "Rn", 8, 3⟩]⟩⟩,
  ⟨c! "cmn", .compare, .cmp3, [.negate false], false, ⟨0xffc0, 0x42c0,
    [⟨c! "Rn", 0, 3⟩, ⟨c! "Rm", 3, 3⟩]⟩⟩,
  ⟨c! "cmp", .compare, .cmp3, [], false, ⟨0xffc0, 0x4280,
    [⟨c! "Rn", 0, 3⟩, ⟨c! "Rm", 3, 3⟩]⟩⟩,
  ⟨c! "cmp", .compare, .cmp4, [], false, ⟨0xff00, 0x4500,
    [⟨c! "Rn", 0, 3⟩, ⟨c! "Rm", 3, 4⟩, ⟨c! "N", 7, 1⟩]⟩⟩,
  ⟨c! "cmn", .compare, .cmp2, [.negate false], true, ⟨0x8f00fbf0, 0xf00f110,
    [⟨c! "Rn", 0, 4⟩, ⟨c! "im", 10, 1⟩, ⟨c! "imm8", 16, 8⟩, ⟨c! "imm3", 28, 3⟩]⟩⟩,
  ⟨c! "cmp.w", .compare, .cmp2, [], true, ⟨0x8f00fbf0, 0xf00f1b0,
    [⟨c! "Rn", 0, 4⟩, ⟨c! "im", 10, 1⟩, ⟨c! "imm8", 16, 8⟩, ⟨c! "imm3", 28, 3⟩]⟩⟩,
  ⟨c! "tst", .test, .tst, [], false, ⟨0xffc0, 0x4200,
    [⟨c! "Rn", 0, 3⟩, ⟨c! "Rm", 3, 3⟩]⟩⟩,
  ⟨c! "tst.w", .test, .tstW, [], true, ⟨0x8f00fff0, 0xf00ea10,
    [⟨c! "Rn", 0, 4⟩, ⟨c! "Rm", 16, 4⟩, ⟨c! "type", 20, 2⟩, ⟨c! "imm2", 22, 2⟩, ⟨c! "imm3", 28, 3⟩]⟩⟩,
  ⟨c! "b", .branch, .bT1, [], false, ⟨0xf000, 0xd000,
    [⟨c! "imm8", 0, 8⟩, ⟨c! "cond", 8, 4⟩]⟩⟩,
  ⟨c! "b", .branch, .bT2, [], false, ⟨0xf800, 0xe000,
    [⟨c! "imm11", 0, 11⟩]⟩⟩,
  ⟨c! "bl", .branch, .blT1, [], true, ⟨0xd000f800, 0xd000f000,
    [⟨c! "imm10", 0, 10⟩, ⟨c! "S", 10, 1⟩, ⟨c! "imm11", 16, 11⟩, ⟨c! "J2", 27, 1⟩, ⟨c! "J1", 29, 1⟩]⟩⟩,
  ⟨c! "blx", .branch, .blxT1, [], false, ⟨0xff87, 0x4780,
    [⟨c! "Rm", 3, 4⟩]⟩⟩,
  ⟨c! "bx", .branch, .bxT1, [], false, ⟨0xff87, 0x4700,
    [⟨c! "Rm", 3, 4⟩]⟩⟩,
  ⟨c! "ldrsh", .load, .ldrStrReg, [.memsize 16, .signed true], false, ⟨0xfe00, 0x5e00,
    [⟨c! "Rt", 0, 3⟩, ⟨c! "Rn", 3, 3⟩, ⟨c! "Rm", 6, 3⟩]⟩⟩,
  ⟨c! "ldrb", .load, .ldrStrReg, [.memsize 8], false, ⟨0xfe00, 0x5c00,
    [⟨c! "Rt", 0, 3⟩, ⟨c! "Rn", 3, 3⟩, ⟨c! "Rm", 6, 3⟩]⟩⟩,
  ⟨c! "ldrh", .load, .ldrStrReg, [.memsize 16], false, ⟨0xfe00, 0x5a00,
    [⟨c! "Rt", 0, 3⟩, ⟨c! "Rn", 3, 3⟩, ⟨c! "Rm", 6, 3⟩]⟩⟩,
  ⟨c! "ldr", .load, .ldrStrReg, [.memsize 32], false, ⟨0xfe00, 0x5800,
    [⟨c! "Rt", 0, 3⟩, ⟨c! "Rn", 3, 3⟩, ⟨c! "Rm", 6, 3⟩]⟩⟩,
  ⟨c! "ldrsb", .load, .ldrStrReg, [.memsize 8, .signed true], false, ⟨0xfe00, 0x5600,
    [⟨c! "Rt", 0, 3⟩, ⟨c! "Rn", 3, 3⟩, ⟨c! "Rm", 6, 3⟩]⟩⟩,
  ⟨c! "strb", .store, .ldrStrReg, [.memsize 8], false, ⟨0xfe00, 0x5400,
    [⟨c! "Rt", 0, 3⟩, ⟨c! "Rn", 3, 3⟩, ⟨c! "Rm", 6, 3⟩]⟩⟩,
  ⟨c! "strh", .store, .ldrStrReg, [.memsize 16], false, ⟨0xfe00, 0x5200,
    [⟨c! "Rt", 0, 3⟩, ⟨c! "Rn", 3, 3⟩, ⟨c! "Rm", 6, 3⟩]⟩⟩,
  ⟨c! "str", .store, .ldrStrReg, [.memsize 32], false, ⟨0xfe00, 0x5000,
    [⟨c! "Rt", 0, 3⟩, ⟨c! "Rn", 3, 3⟩, ⟨c! "Rm", 6, 3⟩]⟩⟩,
  ⟨c! "str.w", .store, .ldrStrRegT2, [.memsize 32], true, ⟨0xfc0fff0, 0xf840,
    [⟨c! "Rn", 0, 4⟩, ⟨c! "Rm", 16, 4⟩, ⟨c! "imm2", 20, 2⟩, ⟨c! "Rt", 28, 4⟩]⟩⟩,
  ⟨c! "strh.w", .store, .ldrStrRegT2, [.memsize 16], true, ⟨0xfc0fff0, 0xf820,
    [⟨c! "Rn", 0, 4⟩, ⟨c! "Rm", 16, 4⟩, ⟨c! "imm2", 20, 2⟩, ⟨c! "Rt", 28, 4⟩]⟩⟩,
  ⟨c! "strb.w", .store, .ldrStrRegT2, [.memsize 8], true, ⟨0xfc0fff0, 0xf800,
    [⟨c! "Rn", 0, 4⟩, ⟨c! "Rm", 16, 4⟩, ⟨c! "imm2", 20, 2⟩, ⟨c! "Rt", 28, 4⟩]⟩⟩,
  ⟨c! "ldrsh.w", .load, .ldrStrRegT2, [.memsize 16, .signed true], true, ⟨0xfc0fff0, 0xf930,
    [⟨c! "Rn", 0, 4⟩, ⟨c! "Rm", 16, 4⟩, ⟨c! "imm2", 20, 2⟩, ⟨c! "Rt", 28, 4⟩]⟩⟩,
  ⟨c! "ldrsb.w", .load, .ldrStrRegT2, [.memsize 8, .signed true], true, ⟨0xfc0fff0, 0xf910,
    [⟨c! "Rn", 0, 4⟩, ⟨c! "Rm", 16, 4⟩, ⟨c! "imm2", 20, 2⟩, ⟨c! "Rt", 28, 4⟩]⟩⟩,
  ⟨c! "ldr.w", .load, .ldrStrRegT2, [.memsize 32], true, ⟨0xfc0fff0, 0xf850,
    [⟨c! "Rn", 0, 4⟩, ⟨c! "Rm", 16, 4⟩, ⟨c! "imm2", 20, 2⟩, ⟨c! "Rt", 28, 4⟩]⟩⟩,
  ⟨c! "ldrh.w", .load, .ldrStrRegT2, [.memsize 16], true, ⟨0xfc0fff0, 0xf830,
    [⟨c! "Rn", 0, 4⟩, ⟨c! "Rm", 16, 4⟩, ⟨c! "imm2", 20, 2⟩, ⟨c! "Rt", 28, 4⟩]⟩⟩,
  ⟨c! "ldrb.w", .load, .ldrStrRegT2, [.memsize 8], true, ⟨0xfc0fff0, 0xf810,
    [⟨c! "Rn", 0, 4⟩, ⟨c! "Rm", 16, 4⟩, ⟨c! "imm2", 20, 2⟩, ⟨c! "Rt", 28, 4⟩]⟩⟩,
  ⟨c! "ldrh", .load, .ldrStrImm, [.memsize 16], false, ⟨0xf800, 0x8800,
    [⟨c! "Rt", 0, 3⟩, ⟨c! "Rn", 3, 3⟩, ⟨c! "imm5", 6, 5⟩]⟩⟩,
  ⟨c! "strh", .store, .ldrStrImm, [.memsize 16], false, ⟨0xf800, 0x8000,
    [⟨c! "Rt", 0, 3⟩, ⟨c! "Rn", 3, 3⟩, ⟨c! "imm5", 6, 5⟩]⟩⟩,
  ⟨c! "ldrb", .load, .ldrStrImm, [.memsize 8], false, ⟨0xf800, 0x7800,
    [⟨c! "Rt", 0, 3⟩, ⟨c! "Rn", 3, 3⟩, ⟨c! "imm5", 6, 5⟩]⟩⟩,
  ⟨c! "strb", .store, .ldrStrImm, [.memsize 8], false, ⟨0xf800, 0x7000,
    [⟨c! "Rt", 0, 3⟩, ⟨c! "Rn", 3, 3⟩, ⟨c! "imm5", 6, 5⟩]⟩⟩,
  ⟨c! "ldr", .load, .ldrStrImm, [.memsize 32], false, ⟨0xf800, 0x6800,
    [⟨c! "Rt", 0, 3⟩, ⟨c! "Rn", 3, 3⟩, ⟨c! "imm5", 6, 5⟩]⟩⟩,
  ⟨c! "str", .store, .ldrStrImm, [.memsize 32], false, ⟨0xf800, 0x6000,
    [⟨c! "Rt", 0, 3⟩, ⟨c! "Rn", 3, 3⟩, ⟨c! "imm5", 6, 5⟩]⟩⟩,
  ⟨c! "ldr", .loadLiteral, .ldrLiteral, [.memsize 32], false, ⟨0xf800, 0x4800,
    [⟨c! "imm8", 0, 8⟩, ⟨c! "Rt", 8, 3⟩]⟩⟩,
  ⟨c! "ldrsb.w", .loadLiteral, .ldrLiteralW, [.memsize 8, .signed true], true, ⟨0xff7f, 0xf91f,
    [⟨c! "U", 7, 1⟩, ⟨c! "imm12", 16, 12⟩, ⟨c! "Rt", 28, 4⟩]⟩⟩,
  ⟨c! "ldrsh.w", .loadLiteral, .ldrLiteralW, [.memsize 16, .signed true], true, ⟨0xff7f, 0xf93f,
    [⟨c! "U", 7, 1⟩, ⟨c! "imm12", 16, 12⟩, ⟨c! "Rt", 28, 4⟩]⟩⟩,
  ⟨c! "ldrb.w", .loadLiteral, .ldrLiteralW, [.memsize 8], true, ⟨0xff7f, 0xf81f,
    [⟨c! "U", 7, 1⟩, ⟨c! "imm12", 16, 12⟩, ⟨c! "Rt", 28, 4⟩]⟩⟩,
  ⟨c! "ldrh.w", .loadLiteral, .ldrLiteralW, [.memsize 16], true, ⟨0xff7f, 0xf83f,
    [⟨c! "U", 7, 1⟩, ⟨c! "imm12", 16, 12⟩, ⟨c! "Rt", 28, 4⟩]⟩⟩,
  ⟨c! "ldr.w", .loadLiteral, .ldrLiteralW, [.memsize 32], true, ⟨0xff7f, 0xf85f,
    [⟨c! "U", 7, 1⟩, ⟨c! "imm12", 16, 12⟩, ⟨c! "Rt", 28, 4⟩]⟩⟩,
  ⟨c! "ldr", .load, .ldrStrImmT2, [.memsize 32], false, ⟨0xf800, 0x9800,
    [⟨c! "imm8", 0, 8⟩, ⟨c! "Rt", 8, 3⟩]⟩⟩,
  ⟨c! "str", .store, .ldrStrImmT2, [.memsize 32], false, ⟨0xf800, 0x9000,
    [⟨c! "imm8", 0, 8⟩, ⟨c! "Rt", 8, 3⟩]⟩⟩,
  ⟨c! "push", .push, .pushT1, [], false, ⟨0xfe00, 0xb400,
    [⟨c! "reglist", 0, 8⟩, ⟨c! "M", 8, 1⟩]⟩⟩,
  ⟨c! "push.w", .push, .pushT2, [], true, ⟨0xa000ffff, 0xe92d,
    [⟨c! "reglist", 16, 13⟩, ⟨c! "M", 30, 1⟩]⟩⟩,
  ⟨c! "push.w", .push, .pushT3, [], true, ⟨0xfffffff, 0xd04f84d,
    [⟨c! "Rt", 28, 4⟩]⟩⟩,
  ⟨c! "pop", .pop, .popT1, [], false, ⟨0xfe00, 0xbc00,
    [⟨c! "reglist", 0, 8⟩, ⟨c! "P", 8, 1⟩]⟩⟩,
  ⟨c! "pop.w", .pop, .popT2, [], true, ⟨0x2000ffff, 0xe8bd,
    [⟨c! "reglist", 16, 13⟩, ⟨c! "M", 30, 1⟩, ⟨c! "P", 31, 1⟩]⟩⟩,
  ⟨c! "pop.w", .pop, .popT3, [], true, ⟨0xfffffff, 0xb04f85d,
    [⟨c! "Rt", 28, 4⟩]⟩⟩,
  ⟨c! "ldm", .loadMultiple, .stmLdmT1, [], false, ⟨0xf800, 0xc800,
    [⟨c! "reglist", 0, 8⟩, ⟨c! "Rn", 8, 3⟩]⟩⟩,
  ⟨c! "stm", .storeMultiple, .stmLdmT1, [], false, ⟨0xf800, 0xc000,
    [⟨c! "reglist", 0, 8⟩, ⟨c! "Rn", 8, 3⟩]⟩⟩,
  ⟨c! "stm.w", .storeMultiple, .stmT2, [], true, ⟨0xa000ffd0, 0xe880,
    [⟨c! "Rn", 0, 4⟩, ⟨c! "W", 5, 1⟩, ⟨c! "reglist", 16, 13⟩, ⟨c! "M", 30, 1⟩]⟩⟩,
  ⟨c! "ldm.w", .loadMultiple, .ldmT2, [], true, ⟨0x2000ffd0, 0xe890,
    [⟨c! "Rn", 0, 4⟩, ⟨c! "W", 5, 1⟩, ⟨c! "reglist", 16, 13⟩, ⟨c! "M", 30, 1⟩, ⟨c! "P", 31, 1⟩]⟩⟩,
  ⟨c! "cps", .changeProcessorState, .cps, [], false, ⟨0xffec, 0xb660,
    [⟨c! "F", 0, 1⟩, ⟨c! "I", 1, 1⟩, ⟨c! "im", 4, 1⟩]⟩⟩,
  ⟨c! "bkpt", .instruction, .bkpt, [], false, ⟨0xff00, 0xbe00,
    [⟨c! "imm8", 0, 8⟩]⟩⟩,
  ⟨c! "mrs", .moveFromSpecial, .mrs, [], true, ⟨0xf000ffff, 0x8000f3ef,
    [⟨c! "SYSm", 16, 8⟩, ⟨c! "Rd", 24, 4⟩]⟩⟩,
  ⟨c! "msr", .moveToSpecial, .msr, [], true, ⟨0xf300fff0, 0x8000f380,
    [⟨c! "Rn", 0, 4⟩, ⟨c! "SYSm", 16, 8⟩, ⟨c! "mask", 26, 2⟩]⟩⟩,
  ⟨c! "sev", .instruction, .nop, [], false, ⟨0xffff, 0xbf40,
    []⟩⟩,
  ⟨c! "wfi", .instruction, .nop, [], false, ⟨0xffff, 0xbf30,
    []⟩⟩,
  ⟨c! "wfe", .instruction, .nop, [], false, ⟨0xffff, 0xbf20,
    []⟩⟩,
  ⟨c! "yield", .instruction, .nop, [], false, ⟨0xffff, 0xbf10,
    []⟩⟩,
  ⟨c! "nop", .instruction, .nop, [], false, ⟨0xffff, 0xbf00,
    []⟩⟩,
  ⟨c! "isb", .instruction, .barrier, [], true, ⟨0xfff0ffff, 0x8f60f3bf,
    [⟨c! "option", 16, 4⟩]⟩⟩,
  ⟨c! "dmb", .instruction, .barrier, [], true, ⟨0xfff0ffff, 0x8f50f3bf,
    [⟨c! "option", 16, 4⟩]⟩⟩,
  ⟨c! "dsb", .instruction, .barrier, [], true, ⟨0xfff0ffff, 0x8f40f3bf,
    [⟨c! "option", 16, 4⟩]⟩⟩,
  ⟨c! "svc", .instruction, .udfT1, [], false, ⟨0xff00, 0xdf00,
    [⟨c! "imm8", 0, 8⟩]⟩⟩,
  ⟨c! "udf", .instruction, .udfT1, [], false, ⟨0xff00, 0xde00,
    [⟨c! "imm8", 0, 8⟩]⟩⟩,
  ⟨c! "udf.w", .instruction, .udfT2, [], true, ⟨0xf000fff0, 0xa000f7f0,
    [⟨c! "imm4", 0, 4⟩, ⟨c! "imm12", 16, 12⟩]⟩⟩]

/-- The 16-bit decoders, most fixed bits first. -/
def sorted16 : List Dec := [
  ⟨c! "sev", .instruction, .nop, [], false, ⟨0xffff, 0xbf40,
    []⟩⟩,
  ⟨c! "wfi", .instruction, .nop, [], false, ⟨0xffff, 0xbf30,
    []⟩⟩,
  ⟨c! "wfe", .instruction, .nop, [], false, ⟨0xffff, 0xbf20,
    []⟩⟩,
  ⟨c! "yield", .instruction, .nop, [], false, ⟨0xffff, 0xbf10,
    []⟩⟩,
  ⟨c! "nop", .instruction, .nop, [], false, ⟨0xffff, 0xbf00,
    []⟩⟩,
  ⟨c! "cps", .changeProcessorState, .cps, [], false, ⟨0xffec, 0xb660,
    [⟨c! "F", 0, 1⟩, ⟨c! "I", 1, 1⟩, ⟨c! "im", 4, 1⟩]⟩⟩,
  ⟨c! "add", .addSub, .addSpPlusRegT1, [], false, ⟨0xff78, 0x4468,
    [⟨c! "Rdm", 0, 3⟩, ⟨c! "DM", 7, 1⟩]⟩⟩,
  ⟨c! "add", .addSub, .addSpPlusRegT2, [], false, ⟨0xff87, 0x4485,
    [⟨c! "Rm", 3, 4⟩]⟩⟩,
  ⟨c! "blx", .branch, .blxT1, [], false, ⟨0xff87, 0x4780,
    [⟨c! "Rm", 3, 4⟩]⟩⟩,
  ⟨c! "bx", .branch, .bxT1, [], false, ⟨0xff87, 0x4700,
    [⟨c! "Rm", 3, 4⟩]⟩⟩,
  ⟨c! "bics", .bitClear, .adc, [], false, ⟨0xffc0, 0x4380,
    [⟨c! "Rdn", 0, 3⟩, ⟨c! "Rm", 3, 3⟩]⟩⟩,
  ⟨c! "orrs", .bitOp, .adc, [.op .or], false, ⟨0xffc0, 0x4300,
    [⟨c! "Rdn", 0, 3⟩, ⟨c! "Rm", 3, 3⟩]⟩⟩,
  ⟨c! "rors", .shiftOp, .adc, [.type .ror], false, ⟨0xffc0, 0x41c0,
    [⟨c! "Rdn", 0, 3⟩, ⟨c! "Rm", 3, 3⟩]⟩⟩,
  ⟨c! "sbcs", .addSub, .adc, [.sub true, .useCarry true], false, ⟨0xffc0, 0x4180,
    [⟨c! "Rdn", 0, 3⟩, ⟨c! "Rm", 3, 3⟩]⟩⟩,
  ⟨c! "adcs", .addSub, .adc, [.useCarry true], false, ⟨0xffc0, 0x4140,
    [⟨c! "Rdn", 0, 3⟩, ⟨c! "Rm", 3, 3⟩]⟩⟩,
  ⟨c! "asrs", .shiftOp, .adc, [.type .asr], false, ⟨0xffc0, 0x4100,
    [⟨c! "Rdn", 0, 3⟩, ⟨c! "Rm", 3, 3⟩]⟩⟩,
  ⟨c! "lsrs", .shiftOp, .adc, [.type .lsr], false, ⟨0xffc0, 0x40c0,
    [⟨c! "Rdn", 0, 3⟩, ⟨c! "Rm", 3, 3⟩]⟩⟩,
  ⟨c! "lsls", .shiftOp, .adc, [.type .lsl], false, ⟨0xffc0, 0x4080,
    [⟨c! "Rdn", 0, 3⟩, ⟨c! "Rm", 3, 3⟩]⟩⟩,
  ⟨c! "eors", .bitOp, .adc, [.op .xor], false, ⟨0xffc0, 0x4040,
    [⟨c! "Rdn", 0, 3⟩, ⟨c! "Rm", 3, 3⟩]⟩⟩,
  ⟨c! "ands", .bitOp, .adc, [.op .and], false, ⟨0xffc0, 0x4000,
    [⟨c! "Rdn", 0, 3⟩, ⟨c! "Rm", 3, 3⟩]⟩⟩,
  ⟨c! "rsbs", .reverseSubtract, .rsb, [], false, ⟨0xffc0, 0x4240,
    [⟨c! "Rd", 0, 3⟩, ⟨c! "Rn", 3, 3⟩]⟩⟩,
  ⟨c! "muls", .multiply, .mulT1, [], false, ⟨0xffc0, 0x4340,
    [⟨c! "Rdm", 0, 3⟩, ⟨c! "Rn", 3, 3⟩]⟩⟩,
  ⟨c! "uxtb", .extend, .extend, [.width 8, .signed false], false, ⟨0xffc0, 0xb2c0,
    [⟨c! "Rd", 0, 3⟩, ⟨c! "Rm", 3, 3⟩]⟩⟩,
  ⟨c! "uxth", .extend, .extend, [.width 16, .signed false], false, ⟨0xffc0, 0xb280,
    [⟨c! "Rd", 0, 3⟩, ⟨c! "Rm", 3, 3⟩]⟩⟩,
  ⟨c! "sxtb", .extend, .extend, [.width 8, .signed true], false, ⟨0xffc0, 0xb240,
    [⟨c! "Rd", 0, 3⟩, ⟨c! "Rm", 3, 3⟩]⟩⟩,
  ⟨c! "sxth", .extend, .extend, [.width 16, .signed true], false, ⟨0xffc0, 0xb200,
    [⟨c! "Rd", 0, 3⟩, ⟨c! "Rm", 3, 3⟩]⟩⟩,
  ⟨c! "revsh", .byteReverse, .rev, [.width 2, .signed true], false, ⟨0xffc0, 0xbac0,
    [⟨c! "Rd", 0, 3⟩, ⟨c! "Rm", 3, 3⟩]⟩⟩,
  ⟨c! "rev16", .byteReverse, .rev, [.width 2, .signed false], false, ⟨0xffc0, 0xba40,
    [⟨c! "Rd", 0, 3⟩, ⟨c! "Rm", 3, 3⟩]⟩⟩,
  ⟨c! "rev", .byteReverse, .rev, [.width 4, .signed false], false, ⟨0xffc0, 0xba00,
    [⟨c! "Rd", 0, 3⟩, ⟨c! "Rm", 3, 3⟩]⟩⟩,
  ⟨c! "movs", .move, .mov0S, [], false, ⟨0xffc0, 0x0,
    [⟨c! "Rd", 0, 3⟩, ⟨c! "Rm", 3, 3⟩]⟩⟩,
  ⟨c! "mvns", .move, .mvn, [.negate true], false, ⟨0xffc0, 0x43c0,
    [⟨c! "Rd", 0, 3⟩, ⟨c! "Rm", 3, 3⟩]⟩⟩,
  ⟨c! "cmn", .compare, .cmp3, [.negate false], false, ⟨0xffc0, 0x42c0,
    [⟨c! "Rn", 0, 3⟩, ⟨c! "Rm", 3, 3⟩]⟩⟩,
  ⟨c! "cmp", .compare, .cmp3, [], false, ⟨0xffc0, 0x4280,
    [⟨c! "Rn", 0, 3⟩, ⟨c! "Rm", 3, 3⟩]⟩⟩,
  ⟨c! "tst", .test, .tst, [], false, ⟨0xffc0, 0x4200,
    [⟨c! "Rn", 0, 3⟩, ⟨c! "Rm", 3, 3⟩]⟩⟩,
  ⟨c! "sub", .addSub, .addSpPlusImmT2, [.sub true], false, ⟨0xff80, 0xb080,
    [⟨c! "imm7", 0, 7⟩]⟩⟩,
  ⟨c! "add", .addSub, .addSpPlusImmT2, [], false, ⟨0xff80, 0xb000,
    [⟨c! "imm7", 0, 7⟩]⟩⟩,
  ⟨c! "add", .addSub, .addRegT2, [], false, ⟨0xff00, 0x4400,
    [⟨c! "Rdn", 0, 3⟩, ⟨c! "Rm", 3, 4⟩, ⟨c! "DN", 7, 1⟩]⟩⟩,
  ⟨c! "mov", .move, .mov0, [], false, ⟨0xff00, 0x4600,
    [⟨c! "Rd", 0, 3⟩, ⟨c! "Rm", 3, 4⟩, ⟨c! "D", 7, 1⟩]⟩⟩,
  ⟨c! "cmp", .compare, .cmp4, [], false, ⟨0xff00, 0x4500,
    [⟨c! "Rn", 0, 3⟩, ⟨c! "Rm", 3, 4⟩, ⟨c! "N", 7, 1⟩]⟩⟩,
  ⟨c! "bkpt", .instruction, .bkpt, [], false, ⟨0xff00, 0xbe00,
    [⟨c! "imm8", 0, 8⟩]⟩⟩,
  ⟨c! "svc", .instruction, .udfT1, [], false, ⟨0xff00, 0xdf00,
    [⟨c! "imm8", 0, 8⟩]⟩⟩,
  ⟨c! "udf", .instruction, .udfT1, [], false, ⟨0xff00, 0xde00,
    [⟨c! "imm8", 0, 8⟩]⟩⟩,
  ⟨c! "subs", .addSub, .addImmT1, [.sub true], false, ⟨0xfe00, 0x1e00,
    [⟨c! "Rd", 0, 3⟩, ⟨c! "Rn", 3, 3⟩, ⟨c! "imm3", 6, 3⟩]⟩⟩,
  ⟨c! "adds", .addSub, .addImmT1, [], false, ⟨0xfe00, 0x1c00,
    [⟨c! "Rd", 0, 3⟩, ⟨c! "Rn", 3, 3⟩, ⟨c! "imm3", 6, 3⟩]⟩⟩,
  ⟨c! "subs", .addSub, .addRegT1, [.sub true], false, ⟨0xfe00, 0x1a00,
    [⟨c! "Rd", 0, 3⟩, ⟨c! "Rn", 3, 3⟩, ⟨c! "Rm", 6, 3⟩]⟩⟩,
  ⟨c! "adds", .addSub, .addRegT1, [], false, ⟨0xfe00, 0x1800,
    [⟨c! "Rd", 0, 3⟩, ⟨c! "Rn", 3, 3⟩, ⟨c! "Rm", 6, 3⟩]⟩⟩,
  ⟨c! "ldrsh", .load, .ldrStrReg, [.memsize 16, .signed true], false, ⟨0xfe00, 0x5e00,
    [⟨c! "Rt", 0, 3⟩, ⟨c! "Rn", 3, 3⟩, ⟨c! "Rm", 6, 3⟩]⟩⟩,
  ⟨c! "ldrb", .load, .ldrStrReg, [.memsize 8], false, ⟨0xfe00, 0x5c00,
    [⟨c! "Rt", 0, 3⟩, ⟨c! "Rn", 3, 3⟩, ⟨c! "Rm", 6, 3⟩]⟩⟩,
  ⟨c! "ldrh", .load, .ldrStrReg, [.memsize 16], false, ⟨0xfe00, 0x5a00,
    [⟨c! "Rt", 0, 3⟩, ⟨c! "Rn", 3, 3⟩, ⟨c! "Rm", 6, 3⟩]⟩⟩,
  ⟨c! "ldr", .load, .ldrStrReg, [.memsize 32], false, ⟨0xfe00, 0x5800,
    [⟨c! "Rt", 0, 3⟩, ⟨c! "Rn", 3, 3⟩, ⟨c! "Rm", 6, 3⟩]⟩⟩,
  ⟨c! "ldrsb", .load, .ldrStrReg, [.memsize 8, .signed true], false, ⟨0xfe00, 0x5600,
    [⟨c! "Rt", 0, 3⟩, ⟨c! "Rn", 3, 3⟩, ⟨c! "Rm", 6, 3⟩]⟩⟩,
  ⟨c! "strb", .store, .ldrStrReg, [.memsize 8], false, ⟨0xfe00, 0x5400,
    [⟨c! "Rt", 0, 3⟩, ⟨c! "Rn", 3, 3⟩, ⟨c! "Rm", 6, 3⟩]⟩⟩,
  ⟨c! "strh", .store, .ldrStrReg, [.memsize 16], false, ⟨0xfe00, 0x5200,
    [⟨c! "Rt", 0, 3⟩, ⟨c! "Rn", 3, 3⟩, ⟨c! "Rm", 6, 3⟩]⟩⟩,
  ⟨c! "str", .store, .ldrStrReg, [.memsize 32], false, ⟨0xfe00, 0x5000,
    [⟨c! "Rt", 0, 3⟩, ⟨c! "Rn", 3, 3⟩, ⟨c! "Rm", 6, 3⟩]⟩⟩,
  ⟨c! "push", .push, .pushT1, [], false, ⟨0xfe00, 0xb400,
    [⟨c! "reglist", 0, 8⟩, ⟨c! "M", 8, 1⟩]⟩⟩,
  ⟨c! "pop", .pop, .popT1, [], false, ⟨0xfe00, 0xbc00,
    [⟨c! "reglist", 0, 8⟩, ⟨c! "P", 8, 1⟩]⟩⟩,
  ⟨c! "subs", .addSub, .addImmT2, [.sub true], false, ⟨0xf800, 0x3800,
    [⟨c! "imm8", 0, 8⟩, ⟨c! "Rdn", 8, 3⟩]⟩⟩,
  ⟨c! "adds", .addSub, .addImmT2, [], false, ⟨0xf800, 0x3000,
    [⟨c! "imm8", 0, 8⟩, ⟨c! "Rdn", 8, 3⟩]⟩⟩,
  ⟨c! "add", .addSub, .addSpPlusImmT1, [], false, ⟨0xf800, 0xa800,
    [⟨c! "imm8", 0, 8⟩, ⟨c! "Rd", 8, 3⟩]⟩⟩,
  ⟨c! "asrs", .shiftOp, .shiftImmT1, [.type .asr], false, ⟨0xf800, 0x1000,
    [⟨c! "Rd", 0, 3⟩, ⟨c! "Rm", 3, 3⟩, ⟨c! "imm5", 6, 5⟩, ⟨c! "stype", 11, 2⟩]⟩⟩,
  ⟨c! "lsrs", .shiftOp, .shiftImmT1, [.type .lsr], false, ⟨0xf800, 0x800,
    [⟨c! "Rd", 0, 3⟩, ⟨c! "Rm", 3, 3⟩, ⟨c! "imm5", 6, 5⟩, ⟨c! "stype", 11, 2⟩]⟩⟩,
  ⟨c! "lsls", .shiftOp, .shiftImmT1, [.type .lsl], false, ⟨0xf800, 0x0,
    [⟨c! "Rd", 0, 3⟩, ⟨c! "Rm", 3, 3⟩, ⟨c! "imm5", 6, 5⟩, ⟨c! "stype", 11, 2⟩]⟩⟩,
  ⟨c! "adr", .addressToRegister, .adrT1, [], false, ⟨0xf800, 0xa000,
    [⟨c! "imm8", 0, 8⟩, ⟨c! "Rd", 8, 3⟩]⟩⟩,
  ⟨c! "movs", .move, .mov1, [], false, ⟨0xf800, 0x2000,
    [⟨c! "imm8", 0, 8⟩, ⟨c! "Rd", 8, 3⟩]⟩⟩,
  ⟨c! "cmp", .compare, .cmp1, [], false, ⟨0xf800, 0x2800,
    [⟨c! "imm8", 0, 8⟩, ⟨c! "Rn", 8, 3⟩]⟩⟩,
  ⟨c! "b", .branch, .bT2, [], false, ⟨0xf800, 0xe000,
    [⟨c! "imm11", 0, 11⟩]⟩⟩,
  ⟨c! "ldrh", .load, .ldrStrImm, [.memsize 16], false, ⟨0xf800, 0x8800,
    [⟨c! "Rt", 0, 3⟩, ⟨c! "Rn", 3, 3⟩, ⟨c! "imm5", 6, 5⟩]⟩⟩,
  ⟨c! "strh", .store, .ldrStrImm, [.memsize 16], false, ⟨0xf800, 0x8000,
    [⟨c! "Rt", 0, 3⟩, ⟨c! "Rn", 3, 3⟩, ⟨c! "imm5", 6, 5⟩]⟩⟩,
  ⟨c! "ldrb", .load, .ldrStrImm, [.memsize 8], false, ⟨0xf800, 0x7800,
    [⟨c! "Rt", 0, 3⟩, ⟨c! "Rn", 3, 3⟩, ⟨c! "imm5", 6, 5⟩]⟩⟩,
  ⟨c! "strb", .store, .ldrStrImm, [.memsize 8], false, ⟨0xf800, 0x7000,
    [⟨c! "Rt", 0, 3⟩, ⟨c! "Rn", 3, 3⟩, ⟨c! "imm5", 6, 5⟩]⟩⟩,
  ⟨c! "ldr", .load, .ldrStrImm, [.memsize 32], false, ⟨0xf800, 0x6800,
    [⟨c! "Rt", 0, 3⟩, ⟨c! "Rn", 3, 3⟩, ⟨c! "imm5", 6, 5⟩]⟩⟩,
  ⟨c! "str", .store, .ldrStrImm, [.memsize 32], false, ⟨0xf800, 0x6000,
    [⟨c! "Rt", 0, 3⟩, ⟨c! "Rn", 3, 3⟩, ⟨c! "imm5", 6, 5⟩]⟩⟩,
  ⟨c! "ldr", .loadLiteral, .ldrLiteral, [.memsize 32], false, ⟨0xf800, 0x4800,
    [⟨c! "imm8", 0, 8⟩, ⟨c! "Rt", 8, 3⟩]⟩⟩,
  ⟨c! "ldr", .load, .ldrStrImmT2, [.memsize 32], false, ⟨0xf800, 0x9800,
    [⟨c! "imm8", 0, 8⟩, ⟨c! "Rt", 8, 3⟩]⟩⟩,
  ⟨c! "str", .store, .ldrStrImmT2, [.memsize 32], false, ⟨0xf800, 0x9000,
    [⟨c! "imm8", 0, 8⟩, ⟨c! "Rt", 8, 3⟩]⟩⟩,
  ⟨c! "ldm", .loadMultiple, .stmLdmT1, [], false, ⟨0xf800, 0xc800,
    [⟨c! "reglist", 0, 8⟩, ⟨c! "Rn", 8, 3⟩]⟩⟩,
  ⟨c! "stm", .storeMultiple, .stmLdmT1, [], false, ⟨0xf800, 0xc000,
    [⟨c! "reglist", 0, 8⟩, ⟨c! "Rn", 8, 3⟩]⟩⟩,
  ⟨c! "b", .branch, .bT1, [], false, ⟨0xf000, 0xd000,
    [⟨c! "imm8", 0, 8⟩, ⟨c! "cond", 8, 4⟩]⟩⟩]

/-- The 32-bit decoders, most fixed bits first. -/
def sorted32 : List Dec := [
  ⟨c! "push.w", .push, .pushT3, [], true, ⟨0xfffffff, 0xd04f84d,
    [⟨c! "Rt", 28, 4⟩]⟩⟩,
  ⟨c! "pop.w", .pop, .popT3, [], true, ⟨0xfffffff, 0xb04f85d,
    [⟨c! "Rt", 28, 4⟩]⟩⟩,
  ⟨c! "isb", .instruction, .barrier, [], true, ⟨0xfff0ffff, 0x8f60f3bf,
    [⟨c! "option", 16, 4⟩]⟩⟩,
  ⟨c! "dmb", .instruction, .barrier, [], true, ⟨0xfff0ffff, 0x8f50f3bf,
    [⟨c! "option", 16, 4⟩]⟩⟩,
  ⟨c! "dsb", .instruction, .barrier, [], true, ⟨0xfff0ffff, 0x8f40f3bf,
    [⟨c! "option", 16, 4⟩]⟩⟩,
  ⟨c! "mov", .move, .movRegT3, [], true, ⟨0xf0f0ffef, 0xea4f,
    [⟨c! "S", 4, 1⟩, ⟨c! "Rm", 16, 4⟩, ⟨c! "Rd", 24, 4⟩]⟩⟩,
  ⟨c! "uxtb.w", .extend, .extend2, [.width 8, .signed false], true, ⟨0xf0c0ffff, 0xf080fa5f,
    [⟨c! "Rm", 16, 4⟩, ⟨c! "rotate", 20, 2⟩, ⟨c! "Rd", 24, 4⟩]⟩⟩,
  ⟨c! "uxth.w", .extend, .extend2, [.width 16, .signed false], true, ⟨0xf0c0ffff, 0xf080fa1f,
    [⟨c! "Rm", 16, 4⟩, ⟨c! "rotate", 20, 2⟩, ⟨c! "Rd", 24, 4⟩]⟩⟩,
  ⟨c! "sxtb.w", .extend, .extend2, [.width 8, .signed true], true, ⟨0xf0c0ffff, 0xf080fa4f,
    [⟨c! "Rm", 16, 4⟩, ⟨c! "rotate", 20, 2⟩, ⟨c! "Rd", 24, 4⟩]⟩⟩,
  ⟨c! "sxth.w", .extend, .extend2, [.width 16, .signed true], true, ⟨0xf0c0ffff, 0xf080fa0f,
    [⟨c! "Rm", 16, 4⟩, ⟨c! "rotate", 20, 2⟩, ⟨c! "Rd", 24, 4⟩]⟩⟩,
  ⟨c! "mul", .multiply, .mulT2, [], true, ⟨0xf0f0fff0, 0xf000fb00,
    [⟨c! "Rn", 0, 4⟩, ⟨c! "Rm", 16, 4⟩, ⟨c! "Rd", 24, 4⟩]⟩⟩,
  ⟨c! "revsh.w", .byteReverse, .revW, [.width 2, .signed true], true, ⟨0xf0f0fff0, 0xf0b0fa90,
    [⟨c! "Rm1", 0, 4⟩, ⟨c! "Rm2", 16, 4⟩, ⟨c! "Rd", 24, 4⟩]⟩⟩,
  ⟨c! "rev16.w", .byteReverse, .revW, [.width 2, .signed false], true, ⟨0xf0f0fff0, 0xf090fa90,
    [⟨c! "Rm1", 0, 4⟩, ⟨c! "Rm2", 16, 4⟩, ⟨c! "Rd", 24, 4⟩]⟩⟩,
  ⟨c! "rev.w", .byteReverse, .revW, [.width 4, .signed false], true, ⟨0xf0f0fff0, 0xf080fa90,
    [⟨c! "Rm1", 0, 4⟩, ⟨c! "Rm2", 16, 4⟩, ⟨c! "Rd", 24, 4⟩]⟩⟩,
  ⟨c! "mrs", .moveFromSpecial, .mrs, [], true, ⟨0xf000ffff, 0x8000f3ef,
    [⟨c! "SYSm", 16, 8⟩, ⟨c! "Rd", 24, 4⟩]⟩⟩,
  ⟨c! "str.w", .store, .ldrStrRegT2, [.memsize 32], true, ⟨0xfc0fff0, 0xf840,
    [⟨c! "Rn", 0, 4⟩, ⟨c! "Rm", 16, 4⟩, ⟨c! "imm2", 20, 2⟩, ⟨c! "Rt", 28, 4⟩]⟩⟩,
  ⟨c! "strh.w", .store, .ldrStrRegT2, [.memsize 16], true, ⟨0xfc0fff0, 0xf820,
    [⟨c! "Rn", 0, 4⟩, ⟨c! "Rm", 16, 4⟩, ⟨c! "imm2", 20, 2⟩, ⟨c! "Rt", 28, 4⟩]⟩⟩,
  ⟨c! "strb.w", .store, .ldrStrRegT2, [.memsize 8], true, ⟨0xfc0fff0, 0xf800,
    [⟨c! "Rn", 0, 4⟩, ⟨c! "Rm", 16, 4⟩, ⟨c! "imm2", 20, 2⟩, ⟨c! "Rt", 28, 4⟩]⟩⟩,
  ⟨c! "ldrsh.w", .load, .ldrStrRegT2, [.memsize 16, .signed true], true, ⟨0xfc0fff0, 0xf930,
    [⟨c! "Rn", 0, 4⟩, ⟨c! "Rm", 16, 4⟩, ⟨c! "imm2", 20, 2⟩, ⟨c! "Rt", 28, 4⟩]⟩⟩,
  ⟨c! "ldrsb.w", .load, .ldrStrRegT2, [.memsize 8, .signed true], true, ⟨0xfc0fff0, 0xf910,
    [⟨c! "Rn", 0, 4⟩, ⟨c! "Rm", 16, 4⟩, ⟨c! "imm2", 20, 2⟩, ⟨c! "Rt", 28, 4⟩]⟩⟩,
  ⟨c! "ldr.w", .load, .ldrStrRegT2, [.memsize 32], true, ⟨0xfc0fff0, 0xf850,
    [⟨c! "Rn", 0, 4⟩, ⟨c! "Rm", 16, 4⟩, ⟨c! "imm2", 20, 2⟩, ⟨c! "Rt", 28, 4⟩]⟩⟩,
  ⟨c! "ldrh.w", .load, .ldrStrRegT2, [.memsize 16], true, ⟨0xfc0fff0, 0xf830,
    [⟨c! "Rn", 0, 4⟩, ⟨c! "Rm", 16, 4⟩, ⟨c! "imm2", 20, 2⟩, ⟨c! "Rt", 28, 4⟩]⟩⟩,
  ⟨c! "ldrb.w", .load, .ldrStrRegT2, [.memsize 8], true, ⟨0xfc0fff0, 0xf810,
    [⟨c! "Rn", 0, 4⟩, ⟨c! "Rm", 16, 4⟩, ⟨c! "imm2", 20, 2⟩, ⟨c! "Rt", 28, 4⟩]⟩⟩,
  ⟨c! "push.w", .push, .pushT2, [], true, ⟨0xa000ffff, 0xe92d,
    [⟨c! "reglist", 16, 13⟩, ⟨c! "M", 30, 1⟩]⟩⟩,
  ⟨c! "msr", .moveToSpecial, .msr, [], true, ⟨0xf300fff0, 0x8000f380,
    [⟨c! "Rn", 0, 4⟩, ⟨c! "SYSm", 16, 8⟩, ⟨c! "mask", 26, 2⟩]⟩⟩,
  ⟨c! "tst.w", .test, .tstW, [], true, ⟨0x8f00fff0, 0xf00ea10,
    [⟨c! "Rn", 0, 4⟩, ⟨c! "Rm", 16, 4⟩, ⟨c! "type", 20, 2⟩, ⟨c! "imm2", 22, 2⟩, ⟨c! "imm3", 28, 3⟩]⟩⟩,
  ⟨c! "pop.w", .pop, .popT2, [], true, ⟨0x2000ffff, 0xe8bd,
    [⟨c! "reglist", 16, 13⟩, ⟨c! "M", 30, 1⟩, ⟨c! "P", 31, 1⟩]⟩⟩,
  ⟨c! "adr.w", .addressToRegister, .adrT2, [.add true], true, ⟨0x8000fbff, 0xf20f,
    [⟨c! "im", 10, 1⟩, ⟨c! "imm8", 16, 8⟩, ⟨c! "Rd", 24, 4⟩, ⟨c! "imm3", 28, 3⟩]⟩⟩,
  ⟨c! "adr.w", .addressToRegister, .adrT2, [.add false], true, ⟨0x8000fbff, 0xf2af,
    [⟨c! "im", 10, 1⟩, ⟨c! "imm8", 16, 8⟩, ⟨c! "Rd", 24, 4⟩, ⟨c! "imm3", 28, 3⟩]⟩⟩,
  ⟨c! "mvn", .shiftedMoveNegate, .mvnw, [], true, ⟨0x8000ffef, 0xea6f,
    [⟨c! "S", 4, 1⟩, ⟨c! "Rm", 16, 4⟩, ⟨c! "type", 20, 2⟩, ⟨c! "imm2", 22, 2⟩, ⟨c! "Rd", 24, 4⟩, ⟨c! "imm3", 28, 3⟩]⟩⟩,
  ⟨c! "cmn", .compare, .cmp2, [.negate false], true, ⟨0x8f00fbf0, 0xf00f110,
    [⟨c! "Rn", 0, 4⟩, ⟨c! "im", 10, 1⟩, ⟨c! "imm8", 16, 8⟩, ⟨c! "imm3", 28, 3⟩]⟩⟩,
  ⟨c! "cmp.w", .compare, .cmp2, [], true, ⟨0x8f00fbf0, 0xf00f1b0,
    [⟨c! "Rn", 0, 4⟩, ⟨c! "im", 10, 1⟩, ⟨c! "imm8", 16, 8⟩, ⟨c! "imm3", 28, 3⟩]⟩⟩,
  ⟨c! "udf.w", .instruction, .udfT2, [], true, ⟨0xf000fff0, 0xa000f7f0,
    [⟨c! "imm4", 0, 4⟩, ⟨c! "imm12", 16, 12⟩]⟩⟩,
  ⟨c! "mov", .move, .mov2, [], true, ⟨0x8000fbef, 0xf04f,
    [⟨c! "S", 4, 1⟩, ⟨c! "im", 10, 1⟩, ⟨c! "imm8", 16, 8⟩, ⟨c! "Rd", 24, 4⟩, ⟨c! "imm3", 28, 3⟩]⟩⟩,
  ⟨c! "ldrsb.w", .loadLiteral, .ldrLiteralW, [.memsize 8, .signed true], true, ⟨0xff7f, 0xf91f,
    [⟨c! "U", 7, 1⟩, ⟨c! "imm12", 16, 12⟩, ⟨c! "Rt", 28, 4⟩]⟩⟩,
  ⟨c! "ldrsh.w", .loadLiteral, .ldrLiteralW, [.memsize 16, .signed true], true, ⟨0xff7f, 0xf93f,
    [⟨c! "U", 7, 1⟩, ⟨c! "imm12", 16, 12⟩, ⟨c! "Rt", 28, 4⟩]⟩⟩,
  ⟨c! "ldrb.w", .loadLiteral, .ldrLiteralW, [.memsize 8], true, ⟨0xff7f, 0xf81f,
    [⟨c! "U", 7, 1⟩, ⟨c! "imm12", 16, 12⟩, ⟨c! "Rt", 28, 4⟩]⟩⟩,
  ⟨c! "ldrh.w", .loadLiteral, .ldrLiteralW, [.memsize 16], true, ⟨0xff7f, 0xf83f,
    [⟨c! "U", 7, 1⟩, ⟨c! "imm12", 16, 12⟩, ⟨c! "Rt", 28, 4⟩]⟩⟩,
  ⟨c! "ldr.w", .loadLiteral, .ldrLiteralW, [.memsize 32], true, ⟨0xff7f, 0xf85f,
    [⟨c! "U", 7, 1⟩, ⟨c! "imm12", 16, 12⟩, ⟨c! "Rt", 28, 4⟩]⟩⟩,
  ⟨c! "stm.w", .storeMultiple, .stmT2, [], true, ⟨0xa000ffd0, 0xe880,
    [⟨c! "Rn", 0, 4⟩, ⟨c! "W", 5, 1⟩, ⟨c! "reglist", 16, 13⟩, ⟨c! "M", 30, 1⟩]⟩⟩,
  ⟨c! "movw", .move, .movw, [], true, ⟨0x8000fbf0, 0xf240,
    [⟨c! "imm4", 0, 4⟩, ⟨c! "im", 10, 1⟩, ⟨c! "imm8", 16, 8⟩, ⟨c! "Rd", 24, 4⟩, ⟨c! "imm3", 28, 3⟩]⟩⟩,
  ⟨c! "ldm.w", .loadMultiple, .ldmT2, [], true, ⟨0x2000ffd0, 0xe890,
    [⟨c! "Rn", 0, 4⟩, ⟨c! "W", 5, 1⟩, ⟨c! "reglist", 16, 13⟩, ⟨c! "M", 30, 1⟩, ⟨c! "P", 31, 1⟩]⟩⟩,
  ⟨c! "rsb", .reverseSubtract, .rsbW, [], true, ⟨0x8000fbe0, 0xf1c0,
    [⟨c! "Rn", 0, 4⟩, ⟨c! "S", 4, 1⟩, ⟨c! "im", 10, 1⟩, ⟨c! "imm8", 16, 8⟩, ⟨c! "Rd", 24, 4⟩, ⟨c! "imm3", 28, 3⟩]⟩⟩,
  ⟨c! "bl", .branch, .blT1, [], true, ⟨0xd000f800, 0xd000f000,
    [⟨c! "imm10", 0, 10⟩, ⟨c! "S", 10, 1⟩, ⟨c! "imm11", 16, 11⟩, ⟨c! "J2", 27, 1⟩, ⟨c! "J1", 29, 1⟩]⟩⟩]

set_option maxRecDepth 20000 in
/-- No format string is refused. -/
theorem compileAll_rows : compileAll rows = .ok decs := by decide +kernel

theorem decoders_eq : decoders = decs := by
  unfold decoders
  split
  · next h => rw [compileAll_rows] at h; injection h with h; exact h.symm
  · next h => rw [compileAll_rows] at h; cases h

set_option maxRecDepth 20000 in
theorem sort16 : sortDecs (decoders.filter fun d => !d.is32) = sorted16 := by
  rw [decoders_eq]; decide +kernel

set_option maxRecDepth 20000 in
theorem sort32 : sortDecs (decoders.filter fun d => d.is32) = sorted32 := by
  rw [decoders_eq]; decide +kernel

end Verif
