import Verif.Bitstring
import Verif.Helpers
import Verif.Spec

/-!
# `test/test_bitstring.py`, `test/test_helpers.py` and `test/test_spec_parser.py`

A test is a Boolean computation that may raise. `b == x` after a call that changes `b` is
written with the object the call leaves behind. The tests for Python 2's `long` are left
out, and so is the first `test_append`, which the second one of the same name hides and
which contradicts it: `bitstring() + bitstring('0')` adds.
-/

namespace Verif.Suite
open Verif BS

/-- `bitstring(s)`. -/
def str (s : Str) : PyRes BS := init (.str s)

/-- `b == x` for a bitstring, `not (b != x)` must agree. -/
def is (b : PyRes BS) (x : PyVal) : PyRes Bool := do
  let b ← b
  .ok (truthy (← b.eqOp x).1 && !(← b.neOp x).1)

/-- `not (b == x)` and `b != x`. -/
def isnt (b : PyRes BS) (x : PyVal) : PyRes Bool := do
  let b ← b
  .ok (!truthy (← b.eqOp x).1 && (← b.neOp x).1)

/-- `b == bitstring(s)`. -/
def isBits (b : PyRes BS) (s : Str) : PyRes Bool := do is b (.bs (← str s))

/-- The width, the value and the mask of a bitstring. -/
def fields (b : PyRes BS) (width value mask : Nat) : PyRes Bool := do
  let b ← b
  .ok (b.width == width && b.value == value && b.mask == mask)

/-- `x == y` for results of other types. -/
def gives {α : Type} [DecidableEq α] (x : PyRes α) (y : α) : PyRes Bool := do .ok (decide ((← x) = y))

/-- All conditions hold and none raises. -/
def every (l : List (PyRes Bool)) : Bool := l.all fun x => match x with
  | .ok b => b
  | .error _ => false

namespace TestBitstring

theorem test_init_empty : every [fields (init .none) 0 0 0, fields (init .none (some 8)) 8 0 0xff] = true := by decide +kernel
theorem test_init_int1 : every [fields (init (.int 1) (some 1)) 1 1 1] = true := by decide +kernel
theorem test_init_int2 : every [fields (init (.int 1) (some 32)) 32 1 0xffffffff] = true := by decide +kernel
theorem test_init_int_default_width :
    every [fields (init (.int 1)) 32 1 0xffffffff, fields (init (.int (2 ^ 48))) 64 (2 ^ 48) (2 ^ 64 - 1)] = true := by
  decide +kernel
theorem test_init_int_masked : every [fields (init (.int 65535) (some 8)) 8 255 0xff] = true := by decide +kernel
theorem test_init_str :
    every [fields (init (.str (c! "100")) (some 3)) 3 4 0b111, fields (str (c! "100")) 3 4 0b111] = true := by decide +kernel
theorem test_init_large_int : every [fields (init (.int (2 ^ 127)) (some 128)) 128 (2 ^ 127) (2 ^ 128 - 1)] = true := by
  decide +kernel
theorem test_init_iter : every [
    fields (init (.seq [0, 1, 0, 0, 1])) 5 0b01001 0b11111,
    fields (init (.seq [0, 1, 0, 0, 1]) (some 5)) 5 0b01001 0b11111,
    fields (init (.seq [0, 1, 0, 0, 1]) (some 8)) 8 0b01001 0b11111111] = true := by decide +kernel
theorem test_value_setter : every [
    fields (init (.int 0)) 32 0 0xffffffff,
    fields (do .ok ((← init (.int 0)).setValue 1234)) 32 1234 0xffffffff,
    fields (do .ok ((← init (.int 0) (some 8)).setValue 1234567)) 8 135 0xff] = true := by decide +kernel
theorem test_width_setter : every [
    fields (do (← init (.int 0)).setWidth 16) 16 0 0xffff,
    fields (do (← init (.int 127) (some 16)).setWidth 8) 8 127 0xff,
    fields (do (← init (.int 1234567)).setWidth 8) 8 135 0xff,
    fields (do (← (← init (.int 1234567)).setWidth 8).setWidth 20) 20 135 (2 ^ 20 - 1)] = true := by decide +kernel
theorem test_is_zero : every [
    gives (do .ok (← str (c! "00000")).isZero) true, gives (do .ok (← str (c! "0010")).isZero) false] = true := by decide +kernel
theorem test_is_ones : every [
    gives (do .ok (← str (c! "0000")).isOnes) false, gives (do .ok (← str (c! "1111")).isOnes) true] = true := by decide +kernel
theorem test_bit_count : every [
    gives (do .ok (← str (c! "0")).bitCount) 0, gives (do .ok (← str (c! "1")).bitCount) 1,
    gives (do .ok (← init (.int 0) (some 0)).bitCount) 0, gives (do .ok (← str (c! "000000")).bitCount) 0,
    gives (do .ok (← str (c! "100000")).bitCount) 1, gives (do .ok (← str (c! "010101")).bitCount) 3,
    gives (do .ok (← str (c! "111111")).bitCount) 6] = true := by decide +kernel
theorem test_lowest_set : every [
    gives (do .ok (← str (c! "000000")).lowestSetBit) 6, gives (do .ok (← str (c! "000001")).lowestSetBit) 0,
    gives (do .ok (← str (c! "100000")).lowestSetBit) 5, gives (do .ok (← str (c! "101100")).lowestSetBit) 2] = true := by
  decide +kernel
theorem test_highest_set : every [
    gives (do .ok (← str (c! "000000")).highestSetBit) (-1), gives (do .ok (← str (c! "000001")).highestSetBit) 0,
    gives (do .ok (← str (c! "010001")).highestSetBit) 4, gives (do .ok (← str (c! "101011")).highestSetBit) 5] = true := by
  decide +kernel
theorem test_sign_extend : every [
    isBits (do (← str (c! "00001")).signExtend 8) (c! "00000001"),
    isBits (do (← str (c! "1000")).signExtend 8) (c! "11111000")] = true := by decide +kernel
theorem test_zero_extend : every [
    isBits (do (← str (c! "00001")).zeroExtend 8) (c! "00000001"),
    isBits (do (← str (c! "1000")).zeroExtend 8) (c! "00001000")] = true := by decide +kernel
theorem test_invert : every [
    isBits (do .ok (← str (c! "1")).invert) (c! "0"), isBits (do .ok (← str (c! "0")).invert) (c! "1"),
    isBits (do .ok (← str (c! "0010010")).invert) (c! "1101101")] = true := by decide +kernel
theorem test_inverted : every [
    isBits (do .ok (← str (c! "1")).inverted) (c! "0"), isBits (do .ok (← str (c! "0")).inverted) (c! "1"),
    isBits (do .ok (← str (c! "0010010")).inverted) (c! "1101101")] = true := by decide +kernel
theorem test_reverse : every [isBits (do (← str (c! "100101")).reverse) (c! "101001")] = true := by decide +kernel
theorem test_reversed : every [isBits (do (← str (c! "100101")).reversed) (c! "101001")] = true := by decide +kernel
theorem test_eq_and_neq : every [
    is (str (c! "0")) (.int 0), is (str (c! "1")) (.int 1), isBits (str (c! "0")) (c! "0"), isBits (str (c! "1")) (c! "1"),
    is (str (c! "0")) (.str (c! "0")), is (str (c! "1")) (.str (c! "1")), is (str (c! "1010")) (.str (c! "1010")),
    isBits (str (c! "000100")) (c! "000100"), is (str (c! "000100")) (.int 4),
    isnt (str (c! "0")) (.int 1), isnt (str (c! "1")) (.int 0),
    do isnt (str (c! "0")) (.bs (← str (c! "1"))), do isnt (str (c! "1")) (.bs (← str (c! "0"))),
    isnt (str (c! "0")) (.str (c! "1")), isnt (str (c! "1")) (.str (c! "0")), isnt (str (c! "1010")) (.str (c! "1110")),
    do isnt (str (c! "000100")) (.bs (← str (c! "001000"))),
    isnt (str (c! "000100")) (.int 8), isnt (str (c! "000100")) (.int 28)] = true := by decide +kernel
theorem test_append : every [
    do is (do (← str (c! "1010")).mod (.bs (← str (c! "111")))) (.str (c! "1010111")),
    is (do (← str (c! "1010")).imod (.str (c! "0011"))) (.str (c! "10100011"))] = true := by decide +kernel
/-- The hidden `test_append`: its second assertion is wrong, `+` adds. -/
theorem hidden_append : every [
    do isnt (do (← str (c! "01001")).add (.bs (← str (c! "11110")))) (.bs (← str (c! "0100111110")))] = true := by decide +kernel
theorem test_lshift : every [
    is (do (← str (c! "1100")).shl 4) (.str (c! "0000")), is (do (← str (c! "1011")).shl 3) (.str (c! "1000"))] = true := by
  decide +kernel
theorem test_rshift : every [
    is (do (← str (c! "110011")).shr 2) (.str (c! "001100")),
    is (do (← str (c! "10101011")).shr 4) (.str (c! "00001010"))] = true := by decide +kernel
theorem test_and : every [
    do is (do (← str (c! "0")).and (.bs (← str (c! "0")))) (.str (c! "0")),
    do is (do (← str (c! "1")).and (.bs (← str (c! "1")))) (.str (c! "1")),
    do is (do (← str (c! "1")).and (.bs (← str (c! "0")))) (.str (c! "0")),
    is (do (← str (c! "1001010")).and (.str (c! "0011100"))) (.str (c! "0001000")),
    is (do (← str (c! "100")).and (.int 4)) (.int 4),
    is (do (← str (c! "10011")).and (.str (c! "11111"))) (.str (c! "10011"))] = true := by decide +kernel
theorem test_or : every [
    do is (do (← str (c! "0")).or (.bs (← str (c! "0")))) (.str (c! "0")),
    do is (do (← str (c! "1")).or (.bs (← str (c! "1")))) (.str (c! "1")),
    do is (do (← str (c! "1")).or (.bs (← str (c! "0")))) (.str (c! "1")),
    is (do (← str (c! "1001010")).or (.str (c! "0011100"))) (.str (c! "1011110")),
    is (do (← str (c! "100")).or (.int 4)) (.int 4),
    is (do (← str (c! "10011")).or (.str (c! "11111"))) (.str (c! "11111"))] = true := by decide +kernel
theorem test_xor : every [
    do is (do (← str (c! "0")).xor (.bs (← str (c! "0")))) (.str (c! "0")),
    do is (do (← str (c! "1")).xor (.bs (← str (c! "1")))) (.str (c! "0")),
    do is (do (← str (c! "1")).xor (.bs (← str (c! "0")))) (.str (c! "1")),
    is (do (← str (c! "1001010")).xor (.str (c! "0011100"))) (.str (c! "1010110")),
    is (do (← str (c! "100")).xor (.int 4)) (.int 0),
    is (do (← str (c! "10011")).xor (.str (c! "11111"))) (.str (c! "01100"))] = true := by decide +kernel
theorem test_add : every [
    do is (do (← str (c! "001")).add (.bs (← str (c! "001")))) (.str (c! "010")),
    do is (do (← str (c! "110")).add (.bs (← str (c! "011")))) (.str (c! "001")),
    is (do (← str (c! "010")).add (.str (c! "001"))) (.str (c! "011")),
    is (do (← str (c! "0010")).iadd (.int 4)) (.str (c! "0110"))] = true := by decide +kernel
theorem test_sub : every [
    do is (do (← str (c! "110")).sub (.bs (← str (c! "001")))) (.str (c! "101")),
    is (do (← str (c! "001")).sub (.str (c! "001"))) (.str (c! "000")),
    is (do (← str (c! "0010")).isub (.int 4)) (.str (c! "1110"))] = true := by decide +kernel
theorem test_mul : every [
    do is (do (← str (c! "110")).mul (.bs (← str (c! "001")))) (.str (c! "110")),
    is (do (← str (c! "010")).mul (.str (c! "011"))) (.str (c! "110")),
    is (do (← str (c! "0010")).imul (.int 4)) (.str (c! "1000"))] = true := by decide +kernel
theorem test_floordiv : every [
    do is (do (← str (c! "110")).floordiv (.bs (← str (c! "001")))) (.str (c! "110")),
    is (do (← str (c! "110")).floordiv (.str (c! "010"))) (.str (c! "011")),
    is (do (← str (c! "1000")).ifloordiv (.int 4)) (.str (c! "0010"))] = true := by decide +kernel
theorem test_getitem : every [
    is (do (← str (c! "11001")).getItem 0) (.str (c! "1")), is (do (← str (c! "11001")).getItem 1) (.str (c! "0")),
    is (do (← str (c! "11001")).getItem 2) (.str (c! "0")), is (do (← str (c! "11001")).getItem (-1)) (.str (c! "1")),
    is (do (← str (c! "11001")).getItem (-2)) (.str (c! "1"))] = true := by decide +kernel
theorem test_slice : every [
    is (do (← str (c! "11001")).slice 0 1) (.str (c! "1")), is (do (← str (c! "11001")).slice 0 5) (.str (c! "11001")),
    is (do (← str (c! "11001")).slice 2 5) (.str (c! "110"))] = true := by decide +kernel
/-- The object after each assignment of `test_setitem`. -/
def items : List (Int × Int) → PyRes BS → PyRes BS
  | [], b => b
  | (k, v) :: t, b => items t (do (← b).setItem k (.int v))
theorem test_setitem : every [
    is (do (← str (c! "11001")).getItem 0) (.int 1),
    is (do (← items [(0, 0)] (str (c! "11001"))).getItem 0) (.int 0),
    is (do (← items [(0, 0), (3, 1)] (str (c! "11001"))).getItem 3) (.bs bit1),
    is (do (← items [(0, 0), (3, 1), (1, 1)] (str (c! "11001"))).getItem 1) (.str (c! "1")),
    is (items [(0, 0), (3, 1), (1, 1)] (str (c! "11001"))) (.str (c! "11010")),
    is (items [(0, 0), (3, 1), (1, 1), (-1, 0)] (str (c! "11001"))) (.str (c! "01010")),
    is (items [(0, 0), (3, 1), (1, 1), (-1, 0), (-3, 1)] (str (c! "11001"))) (.str (c! "01110"))] = true := by decide +kernel
/-- `x[i:j] = v`. -/
def put (b : PyRes BS) (i j : Int) (v : PyVal) : PyRes BS := do (← b).setSlice ⟨some i, some j, none⟩ v
theorem test_set_slice : every [
    is (put (str (c! "11001")) 0 2 (.str (c! "10"))) (.str (c! "11010")),
    do is (put (put (str (c! "11001")) 0 2 (.str (c! "10"))) 2 4 (.bs (← str (c! "00")))) (.str (c! "10010")),
    (do is (put (put (put (str (c! "11001")) 0 2 (.str (c! "10"))) 2 4 (.bs (← str (c! "00")))) 1 4 (.int 7)) (.str (c! "11110")))] = true := by decide +kernel
theorem test_bytes : every [
    gives (do .ok (← init (.int 0x563924)).bytes) [0x24, 0x39, 0x56, 0x00],
    gives (do .ok (← (← init (.int 0x563924)).setWidth 16).bytes) [0x24, 0x39],
    gives (do .ok (← (← (← init (.int 0x563924)).setWidth 16).setWidth 5).bytes) [0x04]] = true := by decide +kernel
theorem test_binary_string : every [gives (do .ok (← str (c! "100101001")).binaryString) (c! "100101001")] = true := by
  decide +kernel
theorem test_base_string : every [
    gives (do (← str (c! "100101001")).baseString 2) (c! "9'b100101001"),
    gives (do (← str (c! "100101001")).baseString 8) (c! "9'o451"),
    gives (do (← str (c! "100101001")).baseString 10) (c! "9'd297"),
    gives (do (← str (c! "100101001")).baseString 16) (c! "9'h129"),
    .ok (decide ((do (← str (c! "100101001")).baseString 3 : PyRes Str) = .error .valueError))] = true := by decide +kernel

end TestBitstring

namespace TestHelpers

/-- A shift with carry: both results against strings. -/
def both (x : PyRes (BS × BS)) (a c : Str) : PyRes Bool := do
  let (r, k) ← x
  .ok ((← is (.ok r) (.str a)) && (← is (.ok k) (.str c)))
/-- `AddWithCarry(x, y, c) == (r, 0, 0)`. -/
def sum (x y : PyRes BS) (c : BS) (r : PyVal) : PyRes Bool := do
  let s ← addWithCarry (← x) (← y) c
  .ok ((← is (.ok s.result) r) && (← is (.ok s.carry) (.int 0)) && (← is (.ok s.overflow) (.int 0)))

theorem align_ints : every [
    gives (alignInt 0x1001 4) 0x1000, gives (alignInt 0x1003 4) 0x1000, gives (alignInt 0x1003 2) 0x1002,
    gives (alignInt 0x1007 16) 0x1000] = true := by decide +kernel
/-- `Align(bitstring(v), a) == bitstring(e)`. -/
def aligned (v a e : Int) : PyRes Bool := do is (do align (← init (.int v)) a) (.bs (← init (.int e)))
theorem align_bits : every [
    aligned 0x1001 4 0x1000, aligned 0x1003 4 0x1000, aligned 0x1003 2 0x1002, aligned 0x1007 16 0x1000] = true := by decide +kernel
theorem add_with_carry : every [
    sum (str (c! "00000")) (str (c! "00000")) bit0 (.int 0), sum (str (c! "00001")) (str (c! "00000")) bit0 (.int 1),
    sum (str (c! "00001")) (str (c! "00001")) bit0 (.int 2), sum (str (c! "00101")) (str (c! "00011")) bit0 (.str (c! "01000")),
    sum (str (c! "00000")) (str (c! "00000")) bit1 (.str (c! "00001")),
    sum (init (.int 5432)) (init (.int 143223)) bit0 (.int 148655)] = true := by decide +kernel
theorem lsl_c : every [
    both (do lslC (← str (c! "1001")) 1) (c! "0010") (c! "1"),
    both (do lslC (← str (c! "0001")) 1) (c! "0010") (c! "0")] = true := by decide +kernel
theorem lsr_c : every [
    both (do lsrC (← str (c! "1001")) 1) (c! "0100") (c! "1"),
    both (do lsrC (← str (c! "0100")) 1) (c! "0010") (c! "0")] = true := by decide +kernel
theorem asr_c : every [
    both (do asrC (← str (c! "1001000")) 1) (c! "1100100") (c! "0"),
    both (do asrC (← str (c! "0100000")) 1) (c! "0010000") (c! "0"),
    both (do asrC (← str (c! "0100001")) 1) (c! "0010000") (c! "1"),
    both (do asrC (← str (c! "1001001")) 1) (c! "1100100") (c! "1"),
    both (do asrC (← str (c! "1001001")) 4) (c! "1111100") (c! "1")] = true := by decide +kernel
theorem ror_c : every [
    both (do rorC (← str (c! "1001")) 1) (c! "1100") (c! "1"),
    both (do rorC (← str (c! "0100")) 1) (c! "0010") (c! "0")] = true := by decide +kernel
theorem rrx_c : every [
    both (do rrxC (← str (c! "1001")) bit0) (c! "0100") (c! "1"),
    both (do rrxC (← str (c! "0100")) bit1) (c! "1010") (c! "0"),
    both (do rrxC (← str (c! "0111")) bit1) (c! "1011") (c! "1"),
    both (do rrxC (← str (c! "0110")) bit0) (c! "0011") (c! "0")] = true := by decide +kernel
/-- `DecodeImmShift(bitstring(t), bitstring(i))`. -/
def imm (t i : Str) : PyRes (SRType × Nat) := do decodeImmShift (← str t) (← str i)
theorem decode_imm_shift : every [
    gives (imm (c! "00") (c! "00000")) (.lsl, 0), gives (imm (c! "00") (c! "00001")) (.lsl, 1),
    gives (imm (c! "00") (c! "11111")) (.lsl, 31), gives (imm (c! "01") (c! "00000")) (.lsr, 32),
    gives (imm (c! "01") (c! "00001")) (.lsr, 1), gives (imm (c! "01") (c! "11111")) (.lsr, 31),
    gives (imm (c! "10") (c! "00000")) (.asr, 32), gives (imm (c! "10") (c! "00001")) (.asr, 1),
    gives (imm (c! "10") (c! "11111")) (.asr, 31), gives (imm (c! "11") (c! "00000")) (.rrx, 1),
    gives (imm (c! "11") (c! "00001")) (.ror, 1), gives (imm (c! "11") (c! "11111")) (.ror, 31)] = true := by decide +kernel

end TestHelpers

namespace TestParser

/-- `0` and `1` in the result. -/
def digits (s : Str) : List Elem := s.map fun c => .bit (c = '1')

theorem test_a : parseSpec (c! "0010 0 1") = .ok (digits (c! "001001")) := by decide +kernel
theorem test_b : parseSpec (c! "0110 1 Rd(3) imm8(8)") =
    .ok (digits (c! "01101") ++ [.field (c! "Rd") 3, .field (c! "imm8") 8]) := by decide +kernel
theorem test_c : parseSpec (c! "0110 S imm8(8)") =
    .ok (digits (c! "0110") ++ [.field (c! "S") 1, .field (c! "imm8") 8]) := by decide +kernel
theorem test_d : parseSpec (c! "0110 imm8(8) S") =
    .ok (digits (c! "0110") ++ [.field (c! "imm8") 8, .field (c! "S") 1]) := by decide +kernel
theorem test_e : parseSpec (c! "0110 S() imm8(8)") =
    .ok (digits (c! "0110") ++ [.field (c! "S") 1, .field (c! "imm8") 8]) := by decide +kernel
theorem test_f : parseSpec (c! "0110 imm8(8) S()") =
    .ok (digits (c! "0110") ++ [.field (c! "imm8") 8, .field (c! "S") 1]) := by decide +kernel
theorem test_g : parseSpec (c! "0110 imm8(8) S() 11 00") =
    .ok (digits (c! "0110") ++ [.field (c! "imm8") 8, .field (c! "S") 1] ++ digits (c! "1100")) := by decide +kernel
theorem test_h : parseSpec (c! "Q imm7(7) S(1)") =
    .ok [.field (c! "Q") 1, .field (c! "imm7") 7, .field (c! "S") 1] := by decide +kernel
theorem test_i : parseSpec (c! "Q imm7 ( 7 ) S ( 1 )") =
    .ok [.field (c! "Q") 1, .field (c! "imm7") 7, .field (c! "S") 1] := by decide +kernel
theorem test_j : parseSpec (c! "Q( ) imm12 ( 12 ) S") =
    .ok [.field (c! "Q") 1, .field (c! "imm12") 12, .field (c! "S") 1] := by decide +kernel
theorem test_k : parseSpec (c! " Q( ) imm12 ( 12 ) S  ") =
    .ok [.field (c! "Q") 1, .field (c! "imm12") 12, .field (c! "S") 1] := by decide +kernel
theorem test_l : parseSpec (c! "0001 foo=0100 imm8(8)") =
    .ok (digits (c! "0001") ++ [.fixed (c! "foo") ⟨4, 4, 15⟩, .field (c! "imm8") 8]) := by decide +kernel
theorem test_m : parseSpec (c! "0001 foo=0 imm8(8)") =
    .ok (digits (c! "0001") ++ [.fixed (c! "foo") ⟨1, 0, 1⟩, .field (c! "imm8") 8]) := by decide +kernel
theorem test_n : parseSpec (c! "0001 foo=1 imm8(8)") =
    .ok (digits (c! "0001") ++ [.fixed (c! "foo") ⟨1, 1, 1⟩, .field (c! "imm8") 8]) := by decide +kernel
theorem test_o : parseSpec (c! "0001 foo=1 imm8(8) baz=100") =
    .ok (digits (c! "0001") ++ [.fixed (c! "foo") ⟨1, 1, 1⟩, .field (c! "imm8") 8, .fixed (c! "baz") ⟨3, 4, 7⟩]) := by
  decide +kernel

end TestParser

end Verif.Suite
