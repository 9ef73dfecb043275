import Verif.Suite.Basic

/-!
# `test/test_instructions.py`

Every test is a function of the decoder, with the parameters of the Python test as
arguments. `sp` and `pc` are the values the fixture gives these registers. Two functions
of the same name in one class (`test_mov_reg_t2`, `test_push_t2`) get a prime; Python
keeps only the second.

All tests pass except five. `test_rsb_t1` and both cases of `test_b_t1_cc_neg` fail because
`signed` changes the bitstring it is read from (property C07). Both cases of the first
`test_push_t2` raise the `NameError` of `push.w`, which the second `test_push_t2` hides.
-/

namespace Verif.Suite
open Verif BS

/-- `cpu.r[k] = bitstring(v)` for all pairs. -/
def regs : List (Int × Int) → CpuM Unit
  | [] => pure ()
  | (k, v) :: t => do
    setR k (.bs (← py (init (.int v))))
    regs t

/-- `cpu.r[k] = v` for all pairs. -/
def ints : List (Int × Int) → CpuM Unit
  | [] => pure ()
  | (k, v) :: t => do
    setR k (.int v)
    ints t

/-- `assert i.m == k`, and so on. -/
def isM (k : Nat) (i : Instr) : PyRes Bool := do equal (← attr i.m) k
def isN (k : Nat) (i : Instr) : PyRes Bool := do equal (← attr i.n) k
def isD (k : Nat) (i : Instr) : PyRes Bool := do equal (← attr i.d) k
def isT (k : Nat) (i : Instr) : PyRes Bool := do equal (← attr i.t) k
def isImm (v : Int) (i : Instr) : PyRes Bool := do same (← attr i.imm32) (.int v)

/-- All of them. -/
def holds (i : Instr) : List (Instr → PyRes Bool) → CpuM Unit
  | [] => pure ()
  | f :: t => do
    assert (f i)
    holds i t

/-- Decode, check attributes, print, execute. -/
def go (ts : Trees) (code : PyRes (List Nat)) (fields : List (Instr → PyRes Bool)) : CpuM Unit := do
  let i ← decoded ts code
  holds i fields
  let i ← shown i
  let _ ← i.eval

/-- Decode and print. -/
def look (ts : Trees) (code : PyRes (List Nat)) : CpuM Unit := do
  let i ← decoded ts code
  let _ ← shown i

/-- `le16_to_bytes(w)`. -/
def le16 (w : Int) : PyRes (List Nat) := .ok (le16ToBytes w)

/-- `assert cpu.r[k] == v`. -/
def reg (k v : Int) : CpuM Unit := do assert (same (← getR k) (.int v))

/-- `assert cpu.readN(addr) == v`. -/
def cell (size : Nat) (addr v : Int) : CpuM Unit := do assert (same (← readMemory (.int addr) size) (.int v))

/-- `assert cpu.apsr.x == v` for the flag at this bit. -/
def flag (bit v : Int) : CpuM Unit := do assert (same (← getFlag bit) (.int v))

def sp : Int := 0x20004000
def pc : Int := 0x8000

namespace TestAdd
variable (ts : Trees)

def test_add_sp_pl_imm_t1 := do
  go ts (le16 0b1010100100000101) [isD 1, isImm 20]
  reg 1 (sp + 20)
def test_add_sp_pl_imm_t2 := do
  go ts (le16 0b1011000000001000) [isD 13, isImm 32]
  reg 13 (sp + 32)
def test_add_sp_pl_reg_t1 (Rdm : Nat) := do
  ints [(Rdm, 200)]
  go ts (fmt16 (c! "01000100 {DM} 1101 {Rdm:3}") [(c! "DM", .int ((Rdm >>> 3) &&& 1 : Nat)), (c! "Rdm", .int Rdm)])
    [isM Rdm, isN 13, isD Rdm]
  let a ← getR Rdm
  let b ← py ((← getSp).add (.int 200))
  assert (same a (.bs b))
def test_add_sp_pl_reg_t2 (Rm : Nat) := do
  ints [(Rm, 200)]
  go ts (fmt16 (c! "01000100 1 {Rm:4} 101") [(c! "Rm", .int Rm)]) [isM Rm, isN 13, isD 13]
  reg 13 (sp + 200)
def test_add_reg_t1 := do
  regs [(2, 150), (3, 1000)]
  go ts (le16 0b0001100011010001) [isM 3, isN 2, isD 1]
  reg 1 1150
def test_add_reg_t2_r3 := do
  regs [(2, 150), (3, 1000)]
  go ts (le16 0b0100010000011010) [isM 3, isN 2, isD 2]
  reg 2 1150
def test_add_reg_t2_pc := do
  regs [(2, 1150)]
  go ts (le16 0b0100010001111010) [isM 15, isN 2, isD 2]
  reg 2 (pc + 1150)
def test_add_imm_t1 := do
  regs [(2, 200)]
  go ts (le16 0b0001110011010001) [isN 2, isD 1]
  reg 1 203
def test_add_imm_t2 := do
  regs [(1, 100)]
  go ts (le16 0b0011000101000100) [isN 1, isD 1]
  reg 1 168
def test_adc_reg_t1 (c : Int) := do
  setFlag 29 (.int c)
  regs [(7, 2), (3, 1)]
  go ts (le16 0b0100000101111011) [isM 7, isN 3, isD 3]
  reg 3 (3 + c)

def all : List (CpuM Unit) := [
  test_add_sp_pl_imm_t1 ts, test_add_sp_pl_imm_t2 ts, test_add_sp_pl_reg_t1 ts 2, test_add_sp_pl_reg_t1 ts 11,
  test_add_sp_pl_reg_t2 ts 2, test_add_sp_pl_reg_t2 ts 11, test_add_reg_t1 ts, test_add_reg_t2_r3 ts,
  test_add_reg_t2_pc ts, test_add_imm_t1 ts, test_add_imm_t2 ts, test_adc_reg_t1 ts 0, test_adc_reg_t1 ts 1]

theorem pass : allPass pieces (all trees) = true := by rw [trees, decoders_eq]; decide +kernel
#guard allPass whole (all trees)

end TestAdd

namespace TestSub
variable (ts : Trees)

def test_sub_minus_imm_t1 := do
  go ts (le16 0b1011000010000101) [isImm 20]
  reg 13 (sp - 20)
def test_sub_reg_t1 := do
  regs [(2, 150), (3, 1000)]
  go ts (le16 0b0001101010011001) [isM 2, isN 3, isD 1]
  reg 1 850
def test_sbc_reg_t1 (c : Int) := do
  setFlag 29 (.int c)
  regs [(3, 150), (1, 1000)]
  go ts (le16 0b0100000110011001) [isM 3, isN 1, isD 1]
  reg 1 (850 - (if c = 0 then 1 else 0))
def test_sub_imm_t1 := do
  regs [(2, 200)]
  go ts (le16 0b0001111011010001) [isN 2, isD 1]
  reg 1 197
def test_sub_imm_t2 := do
  regs [(2, 200)]
  go ts (le16 0b0011101001111111) [isN 2, isD 2]
  reg 2 73

def all : List (CpuM Unit) := [
  test_sub_minus_imm_t1 ts, test_sub_reg_t1 ts, test_sbc_reg_t1 ts 0, test_sbc_reg_t1 ts 1, test_sub_imm_t1 ts,
  test_sub_imm_t2 ts]

theorem pass : allPass pieces (all trees) = true := by rw [trees, decoders_eq]; decide +kernel
#guard allPass whole (all trees)

end TestSub

namespace TestReverseSubtract
variable (ts : Trees)

def test_rsb_t1 := do
  regs [(2, 200), (1, 100)]
  go ts (fmt16 (c! "010000 1001 {Rn:3} {Rd:3}") [(c! "Rn", .int 2), (c! "Rd", .int 1)]) [isN 2, isD 1]
  reg 1 (0 - 200)
def test_rsb_t2 (S : Int) := do
  regs [(2, 200), (1, 100)]
  go ts (fmt32 (c! "11110 {im} 0 1110 {S} {Rn:4}, 0 {imm3:3} {Rd:4} {imm8:8}") [(c! "im", .int 0), (c! "S", .int S),
    (c! "imm3", .int 0), (c! "imm8", .int 212), (c! "Rn", .int 2), (c! "Rd", .int 1)]) [isN 2, isD 1]
  reg 1 (212 - 200)

/-- The first of the three fails: the result -200 is negative, and `AddWithCarry` inverts it. -/
theorem pass : [test_rsb_t1 trees, test_rsb_t2 trees 0, test_rsb_t2 trees 1].map (passes pieces) = [false, true, true] := by
  rw [trees, decoders_eq]; decide +kernel

end TestReverseSubtract

namespace TestMultiply
variable (ts : Trees)

def test_mul_t1 := do
  regs [(1, 0x0c1), (2, 0x180)]
  go ts (fmt16 (c! "010000 1101 {Rn:3} {Rdm:3}") [(c! "Rn", .int 2), (c! "Rdm", .int 1)]) [isM 1, isN 2, isD 1]
  reg 1 (0x0c1 * 0x180)
def test_mul_t2 := do
  regs [(12, 0x0c1), (2, 0x180)]
  go ts (fmt32 (c! "11111 0110 000 {Rn:4}, 1111 {Rd:4} 0000 {Rm:4}") [(c! "Rn", .int 2), (c! "Rd", .int 1),
    (c! "Rm", .int 12)]) [isM 12, isN 2, isD 1]
  reg 1 (0x0c1 * 0x180)

def all : List (CpuM Unit) := [test_mul_t1 ts, test_mul_t2 ts]

theorem pass : allPass pieces (all trees) = true := by rw [trees, decoders_eq]; decide +kernel
#guard allPass whole (all trees)

end TestMultiply

namespace TestBitOps
variable (ts : Trees)

def test_and_reg_t1 := do
  regs [(4, 0x0c1), (1, 0x180)]
  go ts (le16 0b0100000000100001) [isM 4, isD 1]
  reg 1 0x080
def test_eor_reg_t1 := do
  regs [(4, 0x0c1), (1, 0x180)]
  go ts (le16 0b0100000001100001) [isM 4, isD 1]
  reg 1 0x141
def test_orr_reg_t1 := do
  regs [(4, 0x0c1), (1, 0x180)]
  go ts (le16 0b0100001100100001) [isM 4, isD 1]
  reg 1 0x1c1
def test_bic_reg_t1 := do
  regs [(4, 0x080), (1, 0x180)]
  go ts (le16 0b0100001110100001) [isM 4, isD 1]
  reg 1 0x100

def all : List (CpuM Unit) := [test_and_reg_t1 ts, test_eor_reg_t1 ts, test_orr_reg_t1 ts, test_bic_reg_t1 ts]

theorem pass : allPass pieces (all trees) = true := by rw [trees, decoders_eq]; decide +kernel
#guard allPass whole (all trees)

end TestBitOps

namespace TestShifts
variable (ts : Trees)

def test_ror_reg_t1 := do
  regs [(4, 0x108), (1, 0x7e)]
  go ts (le16 0b0100000111100001) [isM 4, isD 1]
  reg 1 0x7e000000
def test_asr_reg_t1 (r1 expected : Int) := do
  regs [(4, 0x108), (1, r1)]
  go ts (le16 0b0100000100100001) [isM 4, isD 1]
  reg 1 expected
def test_lsr_reg_t1 (r1 expected : Int) := do
  regs [(4, 0x108), (1, r1)]
  go ts (le16 0b0100000011100001) [isM 4, isD 1]
  reg 1 expected
def test_lsl_reg_t1 := do
  regs [(4, 0x108), (1, 0x7e)]
  go ts (le16 0b0100000010100001) [isM 4, isD 1]
  reg 1 0x7e00
def test_lsl_imm_t1 := do
  regs [(4, 0x108)]
  go ts (le16 0b0000000011100001) [isN 4, isD 1]
  reg 1 0x840
def test_lsr_imm_t1 := do
  regs [(4, 0x108)]
  go ts (le16 0b0000100011100001) [isN 4, isD 1]
  reg 1 0x21
def test_asr_imm_t1 (r4 expected : Int) := do
  regs [(4, r4)]
  go ts (le16 0b0001000011100001) [isN 4, isD 1]
  reg 1 expected

def all : List (CpuM Unit) := [
  test_ror_reg_t1 ts, test_asr_reg_t1 ts 0x7e00 0x7e, test_asr_reg_t1 ts 0xffff7e00 0xffffff7e,
  test_lsr_reg_t1 ts 0x7e00 0x7e, test_lsr_reg_t1 ts 0xffff7e00 0x00ffff7e, test_lsl_reg_t1 ts, test_lsl_imm_t1 ts,
  test_lsr_imm_t1 ts, test_asr_imm_t1 ts 0x7e00 0xfc0, test_asr_imm_t1 ts 0xffff7e00 0xffffefc0]

theorem pass : allPass pieces (all trees) = true := by rw [trees, decoders_eq]; decide +kernel
#guard allPass whole (all trees)

end TestShifts

namespace TestByteReverse
variable (ts : Trees)

/-- The 16-bit encodings: the register and the opcode bits are in the string. -/
def short (bits : Str) (v e : Int) := do
  regs [(2, v)]
  go ts (fmt16 bits [(c! "Rm", .int 2), (c! "Rd", .int 1)]) [isM 2, isD 1]
  reg 1 e
def long (bits : Str) (v e : Int) := do
  regs [(12, v)]
  go ts (fmt32 bits [(c! "Rm1", .int 12), (c! "Rm2", .int 12), (c! "Rd", .int 1)]) [isM 12, isD 1]
  reg 1 e
def test_rev_t1 := short ts (c! "1011 1010 00 {Rm:3} {Rd:3}")
def test_rev_t2 := long ts (c! "11111 010 1 001 {Rm1:4}, 1111 {Rd:4} 1 000 {Rm2:4}")
def test_rev16_t1 := short ts (c! "1011 1010 01 {Rm:3} {Rd:3}")
def test_rev16_t2 := long ts (c! "11111 010 1 001 {Rm1:4}, 1111 {Rd:4} 1 001 {Rm2:4}")
def test_revsh_t1 := short ts (c! "1011 1010 11 {Rm:3} {Rd:3}")
def test_revsh_t2 := long ts (c! "11111 010 1 001 {Rm1:4}, 1111 {Rd:4} 1 011 {Rm2:4}")

def all : List (CpuM Unit) := [
  test_rev_t1 ts 0x12345678 0x78563412, test_rev_t2 ts 0x12345678 0x78563412,
  test_rev16_t1 ts 0x12345678 0x34127856, test_rev16_t2 ts 0x12345678 0x34127856,
  test_revsh_t1 ts 0x12345678 0x00007856, test_revsh_t1 ts 0x000056f8 0xfffff856,
  test_revsh_t2 ts 0x12345678 0x00007856, test_revsh_t2 ts 0x000056f8 0xfffff856]

theorem pass : allPass pieces (all trees) = true := by rw [trees, decoders_eq]; decide +kernel
#guard allPass whole (all trees)

end TestByteReverse

namespace TestAdr
variable (ts : Trees)

def test_adr_t1 := do
  go ts (fmt16 (c! "1010 0 {Rd:3} {imm:8}") [(c! "Rd", .int 3), (c! "imm", .int 7)]) [isD 3]
  reg 3 (pc + 4 + 28)
/-- The 32-bit encodings, with `imm_bits[11]`, `imm_bits[8:11]` and `imm_bits[0:8]`. -/
def wide (bits : Str) (Rd : Nat) (imm : Int) := do
  let b ← py (init (.int imm))
  let im ← py (b.getItem 11)
  let imm3 ← py (b.slice 8 11)
  let imm8 ← py (b.slice 0 8)
  go ts (fmt32 bits [(c! "Rd", .int Rd), (c! "im", .bs im), (c! "imm3", .bs imm3), (c! "imm8", .bs imm8)]) [isD Rd]
def test_adr_t2 (Rd : Nat) (imm : Int) := do
  wide ts (c! "11110 {im} 10101 0 1111, 0 {imm3:3} {Rd:4} {imm8:8}") Rd imm
  reg Rd (pc + 4 - imm)
def test_adr_t3 (Rd : Nat) (imm : Int) := do
  wide ts (c! "11110 {im} 10000 0 1111, 0 {imm3:3} {Rd:4} {imm8:8}") Rd imm
  reg Rd (pc + 4 + imm)

def all : List (CpuM Unit) := [
  test_adr_t1 ts, test_adr_t2 ts 3 28, test_adr_t2 ts 12 3060, test_adr_t3 ts 3 28, test_adr_t3 ts 12 3060]

theorem pass : allPass pieces (all trees) = true := by rw [trees, decoders_eq]; decide +kernel
#guard allPass whole (all trees)

end TestAdr

namespace TestExtend
variable (ts : Trees)

/-- Two halfwords. -/
def le16x2 (a b : Int) : PyRes (List Nat) := .ok (le16ToBytes a ++ le16ToBytes b)

def test_uxtb_t1 := do
  regs [(4, 0x108)]
  go ts (le16 0b1011001011100001) [isM 4, isD 1]
  reg 1 0x08
def test_uxtb_t2 := do
  regs [(11, 0xa7002011)]
  go ts (le16x2 0b1111101001011111 0b1111000110111011) [isM 11, isD 1]
  reg 1 0xa7
def test_uxth_t1 := do
  regs [(4, 0x77108)]
  go ts (le16 0b1011001010100001) [isM 4, isD 1]
  reg 1 0x7108
def test_uxth_t2 := do
  regs [(11, 0xa7002011)]
  go ts (le16x2 0b1111101000011111 0b1111000110011011) [isM 11, isD 1]
  reg 1 0x0020
def test_sxtb_t1 (r4 expected : Int) := do
  regs [(4, r4)]
  go ts (le16 0b1011001001100001) [isM 4, isD 1]
  reg 1 expected
def test_sxtb_t2 (r4 expected : Int) := do
  regs [(11, r4)]
  go ts (le16x2 0b1111101001001111 0b1111000110011011) [isM 11, isD 1]
  reg 1 expected
def test_sxth_t1 (r4 expected : Int) := do
  regs [(4, r4)]
  go ts (le16 0b1011001000100001) [isM 4, isD 1]
  reg 1 expected
def test_sxth_t2 (r4 expected : Int) := do
  regs [(11, r4)]
  go ts (le16x2 0b1111101000001111 0b1111000110011011) [isM 11, isD 1]
  reg 1 expected

def all : List (CpuM Unit) := [
  test_uxtb_t1 ts, test_uxtb_t2 ts, test_uxth_t1 ts, test_uxth_t2 ts,
  test_sxtb_t1 ts 0x7e20 0x20, test_sxtb_t1 ts 0xfe 0xfffffffe,
  test_sxtb_t2 ts 0x7e20 0x7e, test_sxtb_t2 ts 0xfe12 0xfffffffe, test_sxtb_t2 ts 0x10fe12 0xfffffffe,
  test_sxth_t1 ts 0x117e20 0x7e20, test_sxth_t1 ts 0xffae 0xffffffae, test_sxth_t1 ts 0x18ffae 0xffffffae,
  test_sxth_t2 ts 0x197e20 0x197e, test_sxth_t2 ts 0xfebe12 0xfffffebe, test_sxth_t2 ts 0x10febe12 0xfffffebe]

theorem pass : allPass pieces (all trees) = true := by rw [trees, decoders_eq]; decide +kernel
#guard allPass whole (all trees)

end TestExtend

namespace TestMove
variable (ts : Trees)

def test_mov_imm_t1 := do
  go ts (le16 0b0010001100000111) [isImm 7, isD 3]
  reg 3 7
def test_mov_reg_t2 := do
  regs [(7, 0x1234)]
  go ts (le16 0b0000000000111011) [isM 7, isD 3]
  reg 3 0x1234
def test_mov_reg_t2' := do
  regs [(0, 0x1234)]
  go ts (le16 0b0000000000000000) [isM 0, isD 0]
  reg 0 0x1234
def test_mov_reg_t1_0 := do
  regs [(12, 0x1234)]
  go ts (le16 0b0100011001100010) [isM 12, isD 2]
  reg 2 0x1234
def test_mov_reg_t1_1 := do
  regs [(2, 0x1234)]
  go ts (le16 0b0100011010010100) [isM 2, isD 12]
  reg 12 0x1234
def test_mov_reg_t3_1 (S : Int) := do
  regs [(2, 0x1234)]
  go ts (fmt32 (c! "11101010010{S}1111,0000110000000010") [(c! "S", .int S)]) [isM 2, isD 12]
  reg 12 0x1234
def test_mvn_reg_t1 (v e : Int) := do
  ints [(7, v)]
  go ts (fmt16 (c! "010000 1111 {Rm:3} {Rd:3}") [(c! "Rm", .int 7), (c! "Rd", .int 1)]) [isM 7, isD 1]
  reg 1 e

def all : List (CpuM Unit) := [
  test_mov_imm_t1 ts, test_mov_reg_t2 ts, test_mov_reg_t2' ts, test_mov_reg_t1_0 ts, test_mov_reg_t1_1 ts,
  test_mov_reg_t3_1 ts 0, test_mov_reg_t3_1 ts 1, test_mvn_reg_t1 ts 0 0xffffffff, test_mvn_reg_t1 ts 0xffffffff 0]

theorem pass : allPass pieces (all trees) = true := by rw [trees, decoders_eq]; decide +kernel
#guard allPass whole (all trees)

end TestMove

namespace TestCompare
variable (ts : Trees)

def test_mov_t1 := do
  ints [(3, 7)]
  go ts (le16 0b0010101100000111) [isImm 7, isN 3]
  flag 30 1
  flag 31 0

def all : List (CpuM Unit) := [test_mov_t1 ts]

theorem pass : allPass pieces (all trees) = true := by rw [trees, decoders_eq]; decide +kernel
#guard allPass whole (all trees)

end TestCompare

namespace TestTest
variable (ts : Trees)

def test_tst_t1 (nv mv n z c : Int) := do
  regs [(3, nv), (7, mv)]
  go ts (fmt16 (c! "010000 1000 {Rm:3} {Rn:3}") [(c! "Rm", .int 7), (c! "Rn", .int 3)]) [isM 7, isN 3]
  flag 31 n
  flag 30 z
  flag 29 c
def test_tst_t2 (nv mv type shft n z c : Int) := do
  let b ← py (init (.int shft))
  let imm3 ← py (b.slice 2 5)
  let imm2 ← py (b.slice 0 2)
  regs [(3, nv), (7, mv)]
  go ts (fmt32 (c! "11101 01 0000 1 {Rn:4}, 0 {imm3:3} 1111 {imm2:2} {type:2} {Rm:4}") [(c! "Rm", .int 7),
    (c! "Rn", .int 3), (c! "imm3", .bs imm3), (c! "imm2", .bs imm2), (c! "type", .int type)]) [isM 7, isN 3]
  flag 31 n
  flag 30 z
  flag 29 c

def all : List (CpuM Unit) := [
  test_tst_t1 ts 0 0 0 1 0, test_tst_t1 ts 0 1 0 1 0, test_tst_t1 ts 1 1 0 0 0,
  test_tst_t1 ts 0xffffffff 0xffffffff 1 0 0,
  test_tst_t2 ts 0 0 0 0 0 1 0, test_tst_t2 ts 0 1 0 0 0 1 0, test_tst_t2 ts 1 1 0 0 0 0 0,
  test_tst_t2 ts 8 1 0 3 0 0 0, test_tst_t2 ts 1 8 1 3 0 0 0, test_tst_t2 ts 0xffffffff 0xffffffff 0 0 1 0 0]

theorem pass : allPass pieces (all trees) = true := by rw [trees, decoders_eq]; decide +kernel
#guard allPass whole (all trees)

end TestTest

namespace TestBranch
variable (ts : Trees)

def test_b_t1_eq_pos (z : Int) := do
  setFlag 30 (.int z)
  go ts (le16 0b1101000000011000) [isImm 48]
  reg 15 (if z ≠ 0 then pc + 4 + 48 else pc + 2)
/-- Decode, print, `assert i.imm32.signed == v`, which may change the object, execute. -/
def offsetIs (code : PyRes (List Nat)) (v : Int) : CpuM Unit := do
  let i ← decoded ts code
  let i ← shown i
  let b ← py (attr i.imm32)
  assert (equal b.signed.1 v)
  let _ ← { i with imm32 := some b.signed.2 }.eval
def test_b_t1_cc_neg (c : Int) := do
  setFlag 29 (.int c)
  offsetIs ts (le16 0b1101001111111100) (-8)
  reg 15 (if c ≠ 0 then pc + 2 else pc + 4 - 8)
def test_bl_t1 := do
  offsetIs ts (.ok [0x01, 0xf0, 0xaf, 0xff]) 0x1f5e
  reg 14 (pyOr (pc + 4) 1)
  reg 15 (pc + 4 + 0x1f5e)
/-- `assert cpu.pc == cpu.r[3] & ~1`. -/
def there : CpuM Unit := do
  let p ← getPc
  let r ← py ((← getR 3).and (.int (pyNot 1)))
  assert (same p (.bs r))
def test_blx_t1 := do
  ints [(3, 0x1001)]
  go ts (le16 0b0100011110011000) [isM 3]
  reg 14 (pyOr (pc + 2) 1)
  there
def test_bx_t1 := do
  ints [(3, 0x1001)]
  let lr ← getR 14
  go ts (le16 0b0100011100011000) [isM 3]
  assert (same (← getR 14) (.bs lr))
  there

def all : List (CpuM Unit) := [test_b_t1_eq_pos ts 0, test_b_t1_eq_pos ts 1, test_bl_t1 ts, test_blx_t1 ts, test_bx_t1 ts]

theorem pass : allPass pieces (all trees) = true := by rw [trees, decoders_eq]; decide +kernel
#guard allPass whole (all trees)

/-- A branch backwards: decoding has already inverted `imm32`. -/
theorem cc_neg_fails : [test_b_t1_cc_neg trees 0, test_b_t1_cc_neg trees 1].map (passes pieces) = [false, false] := by
  rw [trees, decoders_eq]; decide +kernel

end TestBranch

namespace TestLoad
variable (ts : Trees)

/-- A value of this size in memory at the address, `r0`, `r1` and `r2`, the instruction, and `r0` afterwards. -/
def loaded (size : Nat) (addr v r1 r2 : Int) (code : PyRes (List Nat)) (e : Int) := do
  writeMemory (.int addr) (.int v) size
  ints [(0, 0xa5a5a5a5), (1, r1), (2, r2)]
  go ts code [isM 2, isN 1, isT 0]
  reg 0 e
def test_ldr := loaded ts 32 0x1128 0x12345678 0x1000 0x128 (fmt16 (c! "0101 100 Rm=010 Rn=001 Rt=000")) 0x12345678
def test_ldrh := loaded ts 16 0x1128 0x1234 0x1000 0x128 (fmt16 (c! "0101 101 Rm=010 Rn=001 Rt=000")) 0x00001234
def test_ldrsh (v e : Int) := loaded ts 16 0x1128 v 0x1000 0x128 (fmt16 (c! "0101 111 Rm=010 Rn=001 Rt=000")) e
def test_ldrb := loaded ts 8 0x1129 0x77 0x1000 0x129 (fmt16 (c! "0101 110 Rm=010 Rn=001 Rt=000")) 0x00000077
def test_ldrsb (v e : Int) := loaded ts 8 0x1129 v 0x1000 0x129 (fmt16 (c! "0101 011 Rm=010 Rn=001 Rt=000")) e
def test_ldr_w := loaded ts 32 0x1008 0x12345678 0x1000 4
  (fmt32 (c! "11111 00 0 0 10 1 Rn=0001, Rt=0000 0 00000 imm2=01 Rm=0010")) 0x12345678
def test_ldrh_w := loaded ts 16 0x100a 0x1234 0x1002 4
  (fmt32 (c! "11111 00 0 0 01 1 Rn=0001, Rt=0000 0 00000 imm2=01 Rm=0010")) 0x00001234
def test_ldrsh_w (v e : Int) := loaded ts 16 0x100a v 0x1002 4
  (fmt32 (c! "11111 00 1 0 01 1 Rn=0001, Rt=0000 0 00000 imm2=01 Rm=0010")) e
def test_ldrb_w := loaded ts 8 0x1009 0x77 0x1001 4
  (fmt32 (c! "11111 00 0 0 00 1 Rn=0001, Rt=0000 0 00000 imm2=01 Rm=0010")) 0x00000077
def test_ldrsb_w (v e : Int) := loaded ts 8 0x1009 v 0x1001 4
  (fmt32 (c! "11111 00 1 0 00 1 Rn=0001, Rt=0000 0 00000 imm2=01 Rm=0010")) e
def test_ldr_literal := do
  writeMemory (.int 0x800c) (.int 0x12345678) 32
  ints [(3, 0xa5a5a5a5)]
  go ts (fmt16 (c! "01001 Rt=011 imm8=00000010")) [isT 3]
  reg 3 0x12345678
/-- The 32-bit literal loads. -/
def literal (bits : Str) (size : Nat) (v : Int) (U imm12 addr e : Int) (Rt : Nat) := do
  writeMemory (.int addr) (.int v) size
  ints [(Rt, 0xa5a5a5a5)]
  go ts (fmt32 bits [(c! "U", .int U), (c! "Rt", .int Rt), (c! "imm12", .int imm12)]) [isT Rt]
  reg Rt e
def test_ldr_literal_w (U imm12 addr : Int) := literal ts (c! "11111 00 0 {U} 10 1 1111, {Rt:4} {imm12:12}") 32 0x12345678 U imm12 addr 0x12345678
def test_ldrh_literal_w (U imm12 addr : Int) := literal ts (c! "11111 00 0 {U} 01 1 1111, {Rt:4} {imm12:12}") 32 0x12345678 U imm12 addr 0x5678
def test_ldrb_literal_w (U imm12 addr : Int) := literal ts (c! "11111 00 0 {U} 00 1 1111, {Rt:4} {imm12:12}") 32 0x12345678 U imm12 addr 0x78
def test_ldrsh_literal_w (U imm12 addr v e : Int) := literal ts (c! "11111 00 1 {U} 01 1 1111, {Rt:4} {imm12:12}") 16 v U imm12 addr e
def test_ldrsb_literal_w (U imm12 addr v e : Int) := literal ts (c! "11111 00 1 {U} 00 1 1111, {Rt:4} {imm12:12}") 8 v U imm12 addr e
/-- The loads with a base register and an immediate. -/
def offset (bits : Str) (size : Nat) (v : Int) (imm5 addr imm : Int) := do
  writeMemory (.int (addr + imm)) (.int v) size
  ints [(0, 0xa5a5a5a5), (1, addr)]
  go ts (fmt16 bits [(c! "imm5", .int imm5), (c! "Rn", .int 1), (c! "Rt", .int 0)]) [isN 1, isT 0]
  reg 0 v
def test_ldr_imm_t1 (addr imm : Int) := offset ts (c! "011 0 1 {imm5:5} {Rn:3} {Rt:3}") 32 0x12345678 (imm / 4) addr imm
def test_ldr_imm_t2 (addr imm : Int) := do
  writeMemory (.int (addr + imm)) (.int 0x12345678) 32
  ints [(13, addr), (0, 0xa5a5a5a5)]
  go ts (fmt16 (c! "1001 1 {Rt:3} {imm8:8}") [(c! "imm8", .int (imm / 4)), (c! "Rt", .int 0)]) [isT 0]
  reg 0 0x12345678
def test_ldrh_imm_t1 (addr imm : Int) := offset ts (c! "100 0 1 {imm5:5} {Rn:3} {Rt:3}") 16 0x5678 (imm / 2) addr imm
def test_ldrb_imm_t1 (addr imm : Int) := offset ts (c! "011 1 1 {imm5:5} {Rn:3} {Rt:3}") 8 0x78 imm addr imm

def registers : List (CpuM Unit) := [
  test_ldr ts, test_ldrh ts, test_ldrsh ts 0x1234 0x00001234, test_ldrsh ts 0xff68 0xffffff68, test_ldrb ts,
  test_ldrsb ts 0x12 0x00000012, test_ldrsb ts 0xf6 0xfffffff6, test_ldr_w ts, test_ldrh_w ts,
  test_ldrsh_w ts 0x1234 0x00001234, test_ldrsh_w ts 0xff68 0xffffff68, test_ldrb_w ts,
  test_ldrsb_w ts 0x12 0x00000012, test_ldrsb_w ts 0xf6 0xfffffff6, test_ldr_literal ts]

/-- With the fixture `reg4bit_nopc`. -/
def literals : List (CpuM Unit) := (List.range 15).flatMap fun Rt => [
  test_ldr_literal_w ts 1 4 0x8008 Rt, test_ldr_literal_w ts 0 16 0x7ff4 Rt,
  test_ldrh_literal_w ts 1 4 0x8008 Rt, test_ldrh_literal_w ts 0 16 0x7ff4 Rt,
  test_ldrb_literal_w ts 1 4 0x8008 Rt, test_ldrb_literal_w ts 0 16 0x7ff4 Rt,
  test_ldrsh_literal_w ts 1 4 0x8008 0x1234 0x00001234 Rt, test_ldrsh_literal_w ts 1 4 0x8008 0xff68 0xffffff68 Rt,
  test_ldrsh_literal_w ts 0 16 0x7ff4 0x1234 0x00001234 Rt, test_ldrsh_literal_w ts 0 16 0x7ff4 0xff68 0xffffff68 Rt,
  test_ldrsb_literal_w ts 1 4 0x8008 0x14 0x00000014 Rt, test_ldrsb_literal_w ts 1 4 0x8008 0xf4 0xfffffff4 Rt,
  test_ldrsb_literal_w ts 0 16 0x7ff4 0x14 0x00000014 Rt, test_ldrsb_literal_w ts 0 16 0x7ff4 0xf4 0xfffffff4 Rt]

def immediates : List (CpuM Unit) := [
  test_ldr_imm_t1 ts 0x20000000 0x0, test_ldr_imm_t1 ts 0x1000 0x48, test_ldr_imm_t1 ts 0x250 0x7c,
  test_ldr_imm_t2 ts 0x20000000 0x0, test_ldr_imm_t2 ts 0x1000 0x48, test_ldr_imm_t2 ts 0x250 0x7c,
  test_ldrh_imm_t1 ts 0x20000000 0x0, test_ldrh_imm_t1 ts 0x20000000 2, test_ldrh_imm_t1 ts 0x1000 0x18,
  test_ldrh_imm_t1 ts 0x250 0x38,
  test_ldrb_imm_t1 ts 0x20000000 0x0, test_ldrb_imm_t1 ts 0x20000000 1, test_ldrb_imm_t1 ts 0x1000 28,
  test_ldrb_imm_t1 ts 0x250 31]

theorem registers_pass : allPass pieces (registers trees) = true := by rw [trees, decoders_eq]; decide +kernel
#guard allPass whole (registers trees)
theorem immediates_pass : allPass pieces (immediates trees) = true := by rw [trees, decoders_eq]; decide +kernel
#guard allPass whole (immediates trees)
theorem literals_pass : allPass pieces (literals trees) = true := by rw [trees, decoders_eq]; decide +kernel
#guard allPass whole (literals trees)

end TestLoad

namespace TestStore
variable (ts : Trees)

def rrr (r0 r1 r2 : Int) (code : PyRes (List Nat)) := do
  ints [(0, r0), (1, r1), (2, r2)]
  go ts code []
def test_str := do
  rrr ts 0x12341234 0x1000 0x44 (fmt16 (c! "0101 000 Rm=010 Rn=001 Rt=000"))
  cell 32 0x1044 0x12341234
def test_strh := do
  rrr ts 0x12345678 0x1000 0x44 (fmt16 (c! "0101 001 Rm=010 Rn=001 Rt=000"))
  cell 16 0x1042 0
  cell 16 0x1044 0x5678
  cell 16 0x1046 0
def test_strb := do
  rrr ts 0xaa55 0x1000 0x45 (fmt16 (c! "0101 010 Rm=010 Rn=001 Rt=000"))
  cell 8 0x1044 0
  cell 8 0x1045 0x55
  cell 8 0x1046 0
def test_str_w := do
  rrr ts 0x7788aa55 0x1000 0x4 (fmt32 (c! "11111 00 0 0 10 0 Rn=0001, Rt=0000 0 00000 imm2=01 Rm=0010"))
  cell 32 0x1008 0x7788aa55
def test_strh_w := do
  rrr ts 0x12345678 0x1002 0x4 (fmt32 (c! "11111 00 0 0 01 0 Rn=0001, Rt=0000 0 00000 imm2=01 Rm=0010"))
  cell 16 0x1008 0
  cell 16 0x100a 0x5678
  cell 16 0x100c 0
def test_strb_w := do
  rrr ts 0xaa55 0x1001 0x4 (fmt32 (c! "11111 00 0 0 00 0 Rn=0001, Rt=0000 0 00000 imm2=01 Rm=0010"))
  cell 8 0x1008 0
  cell 8 0x1009 0x55
  cell 8 0x100a 0
/-- The stores with a base register and an immediate. -/
def offset (bits : Str) (size : Nat) (v e : Int) (imm5 addr imm : Int) := do
  ints [(0, v), (1, addr)]
  go ts (fmt16 bits [(c! "imm5", .int imm5), (c! "Rn", .int 1), (c! "Rt", .int 0)]) [isT 0, isN 1]
  cell size (addr + imm) e
def test_str_imm_t1 (addr imm : Int) := offset ts (c! "011 0 0 {imm5:5} {Rn:3} {Rt:3}") 32 0x12341234 0x12341234 (imm / 4) addr imm
def test_str_imm_t2 (addr imm : Int) := do
  ints [(13, addr), (0, 0x12341234)]
  go ts (fmt16 (c! "1001 0 {Rt:3} {imm8:8}") [(c! "imm8", .int (imm / 4)), (c! "Rt", .int 0)]) [isT 0]
  cell 32 (addr + imm) 0x12341234
def test_strh_imm_t1 (addr imm : Int) := offset ts (c! "100 0 0 {imm5:5} {Rn:3} {Rt:3}") 16 0x12345678 0x5678 (imm / 2) addr imm
def test_strb_imm_t1 (addr imm : Int) := offset ts (c! "011 1 0 {imm5:5} {Rn:3} {Rt:3}") 8 0x12345678 0x78 imm addr imm

def all : List (CpuM Unit) := [
  test_str ts, test_strh ts, test_strb ts, test_str_w ts, test_strh_w ts, test_strb_w ts,
  test_str_imm_t1 ts 0x20000000 0x0, test_str_imm_t1 ts 0x1000 0x48, test_str_imm_t1 ts 0x250 0x7c,
  test_str_imm_t2 ts 0x20000000 0x0, test_str_imm_t2 ts 0x1000 0x48, test_str_imm_t2 ts 0x250 0x7c,
  test_strh_imm_t1 ts 0x20000000 0x0, test_strh_imm_t1 ts 0x20000000 2, test_strh_imm_t1 ts 0x1000 0x18,
  test_strh_imm_t1 ts 0x250 0x38,
  test_strb_imm_t1 ts 0x20000000 0x0, test_strb_imm_t1 ts 0x20000000 1, test_strb_imm_t1 ts 0x1000 28,
  test_strb_imm_t1 ts 0x250 31]

theorem pass : allPass pieces (all trees) = true := by rw [trees, decoders_eq]; decide +kernel
#guard allPass whole (all trees)

end TestStore

/-- `reglist[i]` in a condition. -/
def listed (l : BS) (i : Nat) : CpuM Bool := do
  let b ← py (l.getItem i)
  pure b.nonzero

/-- The loop of the checks: the words from this address on are the values of the listed registers. -/
def inOrder (l : BS) : List Nat → Int → CpuM Unit
  | [], _ => pure ()
  | i :: t, addr => do
    if ← listed l i then
      let v ← readMemory (.int addr) 32
      let r ← getR i
      assert (same v (.bs r))
      inOrder l t (addr + 4)
    else inOrder l t addr

/-- `reglist = bitstring(s)`, then `reglist[i] = v` for all pairs. -/
def reglist (s : Str) : List (Int × Int) → CpuM BS
  | [] => py (init (.str s))
  | (i, v) :: t => do
    let l ← reglist s t
    py (l.setItem i (.int v))

namespace TestPush
variable (ts : Trees)

/-- The loop of `check_push`. -/
def down (l : BS) : List Nat → Int → CpuM Unit
  | [], _ => pure ()
  | i :: t, addr => do
    if ← listed l i then
      let v ← readMemory (.int (addr - 4)) 32
      let r ← getR i
      assert (same v (.bs r))
      down l t (addr - 4)
    else down l t addr
def check_push (l : BS) : CpuM Unit := do
  reg 13 (sp - 4 * l.bitCount)
  down l [15, 14, 13, 12, 11, 10, 9, 8, 7, 6, 5, 4, 3, 2, 1, 0] sp
def test_push_t1 (m : Int) := do
  ints ((List.range 8).map fun (i : Nat) => (i, i))
  setLr (.int 14)
  let l ← reglist (c! "0000000011111001") [(14, m)]
  let m ← py (l.getItem 14)
  let low ← py (l.slice 0 8)
  go ts (fmt16 (c! "1011 0 10 {M} {reglist:8}") [(c! "M", .bs m), (c! "reglist", .bs low)]) []
  check_push l
def test_push_t2 (m : Int) := do
  ints ((List.range 15).map fun (i : Nat) => (i, i))
  setSp (.int sp)
  let l ← reglist (c! "0000001111101011") [(14, m)]
  let m ← py (l.getItem 14)
  let low ← py (l.slice 0 13)
  go ts (fmt32 (c! "11101 00 100 1 0 1101, 0 {M} 0 {reglist:13}") [(c! "M", .bs m), (c! "reglist", .bs low)]) []
  check_push l
def test_push_t2' (Rt : Int) := do
  ints ((List.range 15).map fun (i : Nat) => (i, i))
  setSp (.int sp)
  let l ← py (zeros 16)
  let l ← py (l.setItem Rt (.int 1))
  go ts (fmt32 (c! "11111 00 0 0 10 0 1101, {Rt:4} 1 101 00000100") [(c! "Rt", .int l.lowestSetBit)]) []
  check_push l

def all : List (CpuM Unit) := [test_push_t1 ts 0, test_push_t1 ts 1] ++
  [0, 1, 2, 3, 4, 5, 6, 7, 8, 9, 10, 11, 12, 14].map (test_push_t2' ts)

theorem pass : allPass pieces (all trees) = true := by rw [trees, decoders_eq]; decide +kernel
#guard allPass whole (all trees)

/-- The hidden test. -/
theorem push_t2_fails : [test_push_t2 trees 0, test_push_t2 trees 1].map (passes pieces) = [false, false] := by
  rw [trees, decoders_eq]; decide +kernel

end TestPush

namespace TestPop
variable (ts : Trees)

/-- The loop of `setup_stack`. -/
def fill (l : BS) : List Nat → Int → CpuM Unit
  | [], _ => pure ()
  | i :: t, addr => do
    if ← listed l i then
      writeMemory (.int addr) (.int i) 32
      fill l t (addr + 4)
    else fill l t addr
def check_pop (l : BS) : CpuM Unit := do
  reg 13 (sp + 4 * l.bitCount)
  inOrder l (List.range 16) sp
def test_pop_t1 (p : Int) := do
  let l ← reglist (c! "0000000011111001") [(15, p)]
  fill l (List.range 16) sp
  let p ← py (l.getItem 15)
  let low ← py (l.slice 0 8)
  go ts (fmt16 (c! "1011 1 10 {P} {reglist:8}") [(c! "P", .bs p), (c! "reglist", .bs low)]) []
  check_pop l
def test_pop_t2 (p m : Int) := do
  let l ← reglist (c! "0000001111101011") [(15, p), (14, m)]
  fill l (List.range 16) sp
  let p ← py (l.getItem 15)
  let m ← py (l.getItem 14)
  let low ← py (l.slice 0 13)
  go ts (fmt32 (c! "11101 00 010 1 1 1101, {P} {M} 0 {reglist:13}") [(c! "P", .bs p), (c! "M", .bs m),
    (c! "reglist", .bs low)]) []
  check_pop l
def test_pop_t3 (Rt : Int) := do
  let l ← py (zeros 16)
  let l ← py (l.setItem Rt (.int 1))
  fill l (List.range 16) sp
  go ts (fmt32 (c! "11111 00 0 0 10 1 1101, {Rt:4} 1 011 00000100") [(c! "Rt", .int l.lowestSetBit)]) []
  check_pop l

def all : List (CpuM Unit) := [
  test_pop_t1 ts 0, test_pop_t1 ts 1, test_pop_t2 ts 0 0, test_pop_t2 ts 0 1, test_pop_t2 ts 1 0] ++
  [0, 1, 2, 3, 4, 5, 6, 7, 8, 9, 10, 11, 12, 14, 15].map (test_pop_t3 ts)

theorem pass : allPass pieces (all trees) = true := by rw [trees, decoders_eq]; decide +kernel
#guard allPass whole (all trees)

end TestPop

/-- `assert not wback or (cpu.r[Rn] == origAddr + 4 * reglist.bit_count())`. -/
def written (Rn : Nat) (wback : Int) (addr : Int) (l : BS) : CpuM Unit :=
  if wback = 0 then pure () else reg Rn (addr + 4 * l.bitCount)

namespace TestStoreMultiple
variable (ts : Trees)

def setup_regs : CpuM Unit := ints ([0, 1, 2, 3, 4, 5, 6, 7, 8, 9, 10, 11, 12, 14].map fun (i : Nat) => (i, i))
def test_stm_t1 := do
  setup_regs
  let l ← reglist (c! "0000000011111001") []
  ints [(2, 0x20001000)]
  let low ← py (l.slice 0 8)
  go ts (fmt16 (c! "1100 0 {Rn:3} {reglist:8}") [(c! "Rn", .int 2), (c! "reglist", .bs low)]) []
  written 2 1 0x20001000 l
  inOrder l (List.range 16) 0x20001000
def test_stm_t2 (W M : Int) := do
  setup_regs
  let l ← reglist (c! "0000001111101011") [(14, M)]
  ints [(2, 0x20001000)]
  let m ← py (l.getItem 14)
  let low ← py (l.slice 0 13)
  go ts (fmt32 (c! "11101 00 010 {W} 0 {Rn:4}, 0 {M} 0 {reglist:13}") [(c! "Rn", .int 2), (c! "W", .int W),
    (c! "M", .bs m), (c! "reglist", .bs low)]) []
  written 2 W 0x20001000 l
  inOrder l (List.range 16) 0x20001000

def all : List (CpuM Unit) := [
  test_stm_t1 ts, test_stm_t2 ts 0 0, test_stm_t2 ts 0 1, test_stm_t2 ts 1 0, test_stm_t2 ts 1 1]

theorem pass : allPass pieces (all trees) = true := by rw [trees, decoders_eq]; decide +kernel
#guard allPass whole (all trees)

end TestStoreMultiple

namespace TestLoadMultiple
variable (ts : Trees)

/-- The loop of `setup_stack`. -/
def fill (l : BS) : List Nat → Int → CpuM Unit
  | [], _ => pure ()
  | i :: t, addr => do
    if ← listed l i then
      if i = 13 ∨ i = 15 then writeMemory (.int addr) (.bs (← getR i)) 32
      else writeMemory (.int addr) (.int i) 32
      fill l t (addr + 4)
    else fill l t addr
def test_ldm_t1 (W : Int) := do
  let l ← reglist (c! "0000000011111001") [(3, if W ≠ 0 then 0 else 1)]
  ints [(3, 0x20001000)]
  fill l (List.range 16) 0x20001000
  let low ← py (l.slice 0 8)
  go ts (fmt16 (c! "1100 1 {Rn:3} {reglist:8}") [(c! "Rn", .int 3), (c! "reglist", .bs low)]) []
  written 3 W 0x20001000 l
  inOrder l (List.range 16) 0x20001000
def test_ldm_t2 (W P M : Int) := do
  let l ← reglist (c! "0000001111101011") [(14, M), (15, P)]
  ints [(2, 0x20001000)]
  fill l (List.range 16) 0x20001000
  let p ← py (l.getItem 15)
  let m ← py (l.getItem 14)
  let low ← py (l.slice 0 13)
  go ts (fmt32 (c! "11101 00 010 {W} 1 {Rn:4}, {P} {M} 0 {reglist:13}") [(c! "Rn", .int 2), (c! "W", .int W),
    (c! "P", .bs p), (c! "M", .bs m), (c! "reglist", .bs low)]) []
  written 2 W 0x20001000 l
  inOrder l (List.range 16) 0x20001000

def all : List (CpuM Unit) := [
  test_ldm_t1 ts 0, test_ldm_t1 ts 1, test_ldm_t2 ts 0 0 0, test_ldm_t2 ts 0 0 1, test_ldm_t2 ts 0 1 0,
  test_ldm_t2 ts 1 0 0, test_ldm_t2 ts 1 0 1, test_ldm_t2 ts 1 1 0]

theorem pass : allPass pieces (all trees) = true := by rw [trees, decoders_eq]; decide +kernel
#guard allPass whole (all trees)

end TestLoadMultiple

namespace TestCps
variable (ts : Trees)

/-- `CORE_REGISTER[name]`. -/
def core (name : Str) : CpuM RegArg := fun s =>
  match coreRegister.lookup name with
  | some i => (.ok (.idx i), s)
  | none => (.error .keyError, s)
/-- `assert cpu.read_register(CORE_REGISTER[name]) == v`. -/
def special (name : Str) (v : Int) : CpuM Unit := do assert (same (← readRegister (← core name)) (.int v))
def test_cps (enable : Bool) (I F : Int) := do
  let im : Int := if enable then 0 else 1
  let inv : Int := if im ≠ 0 then 0 else 1
  writeRegister (← core (c! "primask")) (.int inv)
  writeRegister (← core (c! "faultmask")) (.int inv)
  go ts (fmt16 (c! "1011 0110 011 {im} 0 0 {I} {F}") [(c! "im", .int im), (c! "I", .int I), (c! "F", .int F)]) []
  special (c! "primask") (if I ≠ 0 then im else inv)
  special (c! "faultmask") (if F ≠ 0 then im else inv)

def all : List (CpuM Unit) := [
  test_cps ts false 1 0, test_cps ts false 0 1, test_cps ts false 1 1,
  test_cps ts true 1 0, test_cps ts true 0 1, test_cps ts true 1 1]

theorem pass : allPass pieces (all trees) = true := by rw [trees, decoders_eq]; decide +kernel
#guard allPass whole (all trees)

end TestCps

namespace Others
variable (ts : Trees)

/-- `TestBkpt`. -/
def test_bkpt (imm : Int) := go ts (fmt16 (c! "1011 1110 {imm8:8}") [(c! "imm8", .int imm)]) [isImm imm]
/-- `TestNopHints`. -/
def test_hint (x : Int) := go ts (fmt16 (c! "1011 1111 {x:4} 0000") [(c! "x", .int x)]) []
/-- `TestBarriers`. -/
def test_barrier (x option : Int) :=
  go ts (fmt32 (c! "11110 0 111 01 1 1111, 10 0 0 1111 01{x:2} {option:4}") [(c! "x", .int x), (c! "option", .int option)]) []
/-- `TestSpecialRegister`. -/
def test_mrs (SYSm : Int) :=
  look ts (fmt32 (c! "11110 0 1111 1 0 1111, 10 0 0 {Rd:4} {SYSm:8}") [(c! "Rd", .int 3), (c! "SYSm", .int SYSm)])
def test_msr (SYSm : Int) :=
  look ts (fmt32 (c! "11110 0 1110 0 0 {Rn:4}, 10 0 0 {mask:2} 0 0 {SYSm:8}") [(c! "Rn", .int 3), (c! "mask", .int 2), (c! "SYSm", .int SYSm)])
/-- `TestMisc`. -/
def test_svc_t1 := look ts (fmt16 (c! "1101 1111 {imm8:8}") [(c! "imm8", .int 72)])
def test_udf_t1 := look ts (fmt16 (c! "1101 1110 {imm8:8}") [(c! "imm8", .int 60)])
def test_udf_t2 := do
  let b ← py (init (.int 1234))
  let imm4 ← py (b.slice 12 16)
  let imm12 ← py (b.slice 0 12)
  look ts (fmt32 (c! "111 10 1111111 {imm4:4}, 1 010 {imm12:12}") [(c! "imm4", .bs imm4), (c! "imm12", .bs imm12)])

def all : List (CpuM Unit) :=
  [test_bkpt ts 0, test_bkpt ts 0xab] ++ [0, 1, 2, 3, 4].map (test_hint ts) ++
  [test_barrier ts 0 15, test_barrier ts 1 15, test_barrier ts 2 15, test_barrier ts 0 8, test_barrier ts 1 9,
    test_barrier ts 2 10] ++
  [0, 1, 2, 3, 5, 6, 7, 8, 9, 16, 17, 18, 19, 20].map (test_mrs ts) ++
  [0, 1, 2, 3, 5, 6, 7, 8, 9, 16, 17, 18, 19, 20].map (test_msr ts) ++
  [test_svc_t1 ts, test_udf_t1 ts, test_udf_t2 ts]

theorem pass : allPass pieces (all trees) = true := by rw [trees, decoders_eq]; decide +kernel
#guard allPass whole (all trees)

end Others

end Verif.Suite
