import Verif.Utilities
import Verif.Props.C06to10
import Verif.Props.C11to15

/-!
# C21 to C23: the helper functions of `utilities.py`

Words and bytes are related arithmetically (`v % 2^16`, `256 * b1 + b0`), bit fields
through `C09.intBit`, the bits of an integer of either sign.
-/

namespace Verif

namespace C21

theorem leByte_eq (v : Int) (i : Nat) : leByte v i = (v / 2 ^ (i * 8) % 256).toNat := by
  unfold leByte
  have := maskTo_eq (v / 2 ^ (i * 8)) 8
  rw [maskTo] at this
  exact this

theorem leByte_lt (v : Int) (i : Nat) : leByte v i < 256 := by
  rw [leByte_eq]
  have h0 := Int.emod_nonneg (v / 2 ^ (i * 8)) (show (256 : Int) ≠ 0 by decide)
  have h1 := Int.emod_lt_of_pos (v / 2 ^ (i * 8)) (show (0 : Int) < 256 by decide)
  omega

theorem or_shift {a b n : Nat} (h : a < 2 ^ n) : a ||| (b <<< n) = a + b * 2 ^ n := by
  rw [Nat.or_comm, ← Nat.shiftLeft_add_eq_or_of_lt h, Nat.shiftLeft_eq, Nat.add_comm]

theorem word16 {b0 b1 : Nat} (h : b0 < 256) : b0 ||| (b1 <<< 8) = b0 + 256 * b1 := by
  rw [or_shift (n := 8) (by omega)]; omega

theorem word32 {b0 b1 b2 b3 : Nat} (h0 : b0 < 256) (h1 : b1 < 256) (h2 : b2 < 256) :
    b0 ||| (b1 <<< 8) ||| (b2 <<< 16) ||| (b3 <<< 24) = b0 + 256 * b1 + 65536 * b2 + 16777216 * b3 := by
  rw [or_shift (n := 8) (by omega), or_shift (n := 16) (by omega), or_shift (n := 24) (by omega)]; omega

theorem leByte0 (v : Int) : (leByte v 0 : Int) = v % 256 := by
  rw [leByte_eq]; simp; omega
theorem leByte1 (v : Int) : (leByte v 1 : Int) = v / 256 % 256 := by
  rw [leByte_eq]; simp; omega
theorem leByte2 (v : Int) : (leByte v 2 : Int) = v / 65536 % 256 := by
  rw [leByte_eq]; simp; omega
theorem leByte3 (v : Int) : (leByte v 3 : Int) = v / 16777216 % 256 := by
  rw [leByte_eq]; simp; omega

theorem bytes16 (v : Int) : leByte v 0 ||| (leByte v 1 <<< 8) = (v % 2 ^ 16).toNat := by
  rw [word16 (leByte_lt v 0)]
  have := leByte0 v; have := leByte1 v; omega

theorem bytes32 (v : Int) : leByte v 0 ||| (leByte v 1 <<< 8) ||| (leByte v 2 <<< 16) ||| (leByte v 3 <<< 24)
    = (v % 2 ^ 32).toNat := by
  rw [word32 (leByte_lt v 0) (leByte_lt v 1) (leByte_lt v 2)]
  have := leByte0 v; have := leByte1 v; have := leByte2 v; have := leByte3 v; omega

/-- **C21.** Writing a value as 2 bytes anywhere in a buffer and reading them back
gives the value modulo `2^16`, so a 16-bit value comes back unchanged. -/
theorem le16_roundtrip (v : Int) (pre suf : List Nat) :
    bytesToLe16 (pre ++ le16ToBytes v ++ suf) pre.length = .ok (v % 2 ^ 16).toNat := by
  have h0 : (pre ++ le16ToBytes v ++ suf)[pre.length]? = some (leByte v 0) := by simp [le16ToBytes, List.range_succ_eq_map]
  have h1 : (pre ++ le16ToBytes v ++ suf)[pre.length + 1]? = some (leByte v 1) := by
    simp [le16ToBytes, List.range_succ_eq_map, List.getElem?_append]
  unfold bytesToLe16 byteAt
  rw [h0, h1]
  simp only [okBind]
  rw [bytes16]

/-- **C21.** Likewise for 4 bytes and 32 bits. -/
theorem le32_roundtrip (v : Int) (pre suf : List Nat) :
    bytesToLe32 (pre ++ le32ToBytes v ++ suf) pre.length = .ok (v % 2 ^ 32).toNat := by
  have h0 : (pre ++ le32ToBytes v ++ suf)[pre.length]? = some (leByte v 0) := by simp [le32ToBytes, List.range_succ_eq_map]
  have h1 : (pre ++ le32ToBytes v ++ suf)[pre.length + 1]? = some (leByte v 1) := by
    simp [le32ToBytes, List.range_succ_eq_map, List.getElem?_append]
  have h2 : (pre ++ le32ToBytes v ++ suf)[pre.length + 2]? = some (leByte v 2) := by
    simp [le32ToBytes, List.range_succ_eq_map, List.getElem?_append]
  have h3 : (pre ++ le32ToBytes v ++ suf)[pre.length + 3]? = some (leByte v 3) := by
    simp [le32ToBytes, List.range_succ_eq_map, List.getElem?_append]
  unfold bytesToLe32 byteAt
  rw [h0, h1, h2, h3]
  simp only [okBind]
  rw [bytes32]

/-- **C21.** The bytes really are bytes, least significant first. -/
theorem le_bytes (v : Int) :
    (le16ToBytes v).map Int.ofNat = [v % 256, v / 256 % 256] ∧
    (le32ToBytes v).map Int.ofNat = [v % 256, v / 256 % 256, v / 65536 % 256, v / 16777216 % 256] := by
  have h0 := leByte0 v; have h1 := leByte1 v; have h2 := leByte2 v; have h3 := leByte3 v
  constructor <;> simp [le16ToBytes, le32ToBytes, List.range_succ_eq_map, h0, h1, h2, h3]

/-- **C21.** A list of words converted to bytes and back is the list, each word taken
modulo `2^32`; the byte list is four times as long. -/
theorem words32 (l : List Int) :
    byteListToU32leList (u32leListToByteList l) = l.map (fun v => (v % 2 ^ 32).toNat) ∧
    (u32leListToByteList l).length = 4 * l.length := by
  induction l with
  | nil => exact ⟨rfl, rfl⟩
  | cons v t ih =>
    constructor
    · show (_ ||| _) :: byteListToU32leList (u32leListToByteList t) = _
      rw [ih.1, bytes32]; rfl
    · simp only [u32leListToByteList, List.flatMap_cons, List.length_append, List.length_cons] at ih ⊢
      rw [ih.2]; simp only [List.length_nil]; omega

/-- **C21.** Likewise for halfwords. -/
theorem words16 (l : List Int) :
    byteListToU16leList (u16leListToByteList l) = .ok (l.map fun v => (v % 2 ^ 16).toNat) ∧
    (u16leListToByteList l).length = 2 * l.length := by
  induction l with
  | nil => exact ⟨rfl, rfl⟩
  | cons v t ih =>
    constructor
    · show (byteListToU16leList (u16leListToByteList t) >>= fun r => .ok (_ :: r)) = _
      rw [ih.1, okBind, bytes16]; rfl
    · simp only [u16leListToByteList, List.flatMap_cons, List.length_append, List.length_cons] at ih ⊢
      rw [ih.2]; simp only [List.length_nil]; omega

theorem leByte_word32 {b0 b1 b2 b3 : Nat} (h0 : b0 < 256) (h1 : b1 < 256) (h2 : b2 < 256) (h3 : b3 < 256) :
    let v : Int := (b0 ||| (b1 <<< 8) ||| (b2 <<< 16) ||| (b3 <<< 24) : Nat)
    leByte v 0 = b0 ∧ leByte v 1 = b1 ∧ leByte v 2 = b2 ∧ leByte v 3 = b3 := by
  intro v
  have hv : v = ((b0 + 256 * b1 + 65536 * b2 + 16777216 * b3 : Nat) : Int) := by
    show ((_ : Nat) : Int) = _
    rw [word32 h0 h1 h2]
  have e0 := leByte0 v; have e1 := leByte1 v; have e2 := leByte2 v; have e3 := leByte3 v
  rw [hv] at e0 e1 e2 e3
  rw [hv]
  omega

theorem leByte_word16 {b0 b1 : Nat} (h0 : b0 < 256) (h1 : b1 < 256) :
    let v : Int := (b0 ||| (b1 <<< 8) : Nat)
    leByte v 0 = b0 ∧ leByte v 1 = b1 := by
  intro v
  have hv : v = ((b0 + 256 * b1 : Nat) : Int) := by
    show ((_ : Nat) : Int) = _
    rw [word16 h0]
  have e0 := leByte0 v; have e1 := leByte1 v
  rw [hv] at e0 e1
  rw [hv]
  omega

/-- **C21.** Bytes to words and back: the bytes, less a tail of `length mod 4`. -/
theorem bytes_words32 (n : Nat) : ∀ l : List Nat, l.length < n → (∀ b ∈ l, b < 256) →
    u32leListToByteList ((byteListToU32leList l).map Int.ofNat) = l.take (l.length / 4 * 4) ∧
    (byteListToU32leList l).length = l.length / 4 := by
  induction n with
  | zero => intro l h; omega
  | succ n ih =>
    intro l hl hb
    match l with
    | [] => exact ⟨rfl, rfl⟩
    | [_] => simp [byteListToU32leList, u32leListToByteList]
    | [_, _] => simp [byteListToU32leList, u32leListToByteList]
    | [_, _, _] => simp [byteListToU32leList, u32leListToByteList]
    | b0 :: b1 :: b2 :: b3 :: t =>
      have ht : t.length < n := by simp only [List.length_cons] at hl; omega
      have := ih t ht (fun b h => hb b (by simp [h]))
      have hw := leByte_word32 (hb b0 (by simp)) (hb b1 (by simp)) (hb b2 (by simp)) (hb b3 (by simp))
      have hlen : (b0 :: b1 :: b2 :: b3 :: t).length / 4 = t.length / 4 + 1 := by
        simp only [List.length_cons]; omega
      rw [hlen]
      constructor
      · simp only [byteListToU32leList, List.map_cons, u32leListToByteList, List.flatMap_cons]
        have h1 := this.1
        unfold u32leListToByteList at h1
        rw [h1]
        simp only at hw
        simp only [Int.ofNat_eq_natCast]
        rw [hw.1, hw.2.1, hw.2.2.1, hw.2.2.2]
        rw [show (t.length / 4 + 1) * 4 = t.length / 4 * 4 + 4 by omega]
        rfl
      · simp only [byteListToU32leList, List.length_cons]; rw [this.2]

/-- **C21.** An even number of bytes to halfwords and back. -/
theorem bytes_words16 (n : Nat) : ∀ l : List Nat, l.length < n → (∀ b ∈ l, b < 256) → l.length % 2 = 0 →
    ∃ ws, byteListToU16leList l = .ok ws ∧ u16leListToByteList (ws.map Int.ofNat) = l := by
  induction n with
  | zero => intro l h; omega
  | succ n ih =>
    intro l hl hb he
    match l with
    | [] => exact ⟨[], rfl, rfl⟩
    | [_] => simp at he
    | b0 :: b1 :: t =>
      simp only [List.length_cons] at hl he
      obtain ⟨ws, h1, h2⟩ := ih t (by omega) (fun b h => hb b (by simp [h])) (by omega)
      refine ⟨(b0 ||| (b1 <<< 8)) :: ws, ?_, ?_⟩
      · simp only [byteListToU16leList, h1, okBind]
      · have hw := leByte_word16 (hb b0 (by simp)) (hb b1 (by simp))
        simp only [List.map_cons, u16leListToByteList, List.flatMap_cons, Int.ofNat_eq_natCast]
        unfold u16leListToByteList at h2
        rw [hw.1, hw.2]
        rw [h2]; rfl

/-- **C21.** An odd number of bytes is refused by the halfword conversion. -/
theorem odd_refused (n : Nat) : ∀ l : List Nat, l.length < n → l.length % 2 = 1 →
    byteListToU16leList l = .error .indexError := by
  induction n with
  | zero => intro l h; omega
  | succ n ih =>
    intro l hl ho
    match l with
    | [] => simp at ho
    | [_] => rfl
    | b0 :: b1 :: t =>
      simp only [List.length_cons] at hl ho
      simp only [byteListToU16leList, ih t (by omega) (by omega), errBind]

example : le32ToBytes 0x12345678 = [0x78, 0x56, 0x34, 0x12] ∧
    bytesToLe16 [1, 0x34, 0x12] 1 = .ok 0x1234 ∧ byteListToU32leList [1, 0, 0, 0, 9] = [1] := by decide

end C21

namespace C22
open C09

theorem intBit_ext {a b : Int} (h : ∀ k, intBit a k = intBit b k) : a = b := by
  cases a with
  | ofNat m =>
    cases b with
    | ofNat n =>
      have : m = n := Nat.eq_of_testBit_eq fun i => by
        have := h i; rwa [intBit_ofNat', intBit_ofNat'] at this
      rw [this]
    | negSucc n =>
      have := h (m + n)
      rw [intBit_ofNat', intBit_negSucc, Nat.testBit_lt_two_pow, Nat.testBit_lt_two_pow] at this
      · simp at this
      · exact Nat.lt_of_lt_of_le Nat.lt_two_pow_self (Nat.pow_le_pow_right (by decide) (Nat.le_add_left _ _))
      · exact Nat.lt_of_lt_of_le Nat.lt_two_pow_self (Nat.pow_le_pow_right (by decide) (Nat.le_add_right _ _))
  | negSucc m =>
    cases b with
    | ofNat n =>
      have := h (m + n)
      rw [intBit_ofNat', intBit_negSucc, Nat.testBit_lt_two_pow, Nat.testBit_lt_two_pow] at this
      · simp at this
      · exact Nat.lt_of_lt_of_le Nat.lt_two_pow_self (Nat.pow_le_pow_right (by decide) (Nat.le_add_left _ _))
      · exact Nat.lt_of_lt_of_le Nat.lt_two_pow_self (Nat.pow_le_pow_right (by decide) (Nat.le_add_right _ _))
    | negSucc n =>
      have : m = n := Nat.eq_of_testBit_eq fun i => by
        have := h i; rw [intBit_negSucc, intBit_negSucc] at this
        cases h1 : m.testBit i <;> cases h2 : n.testBit i <;> simp_all
      rw [this]

theorem intBit_div (v : Int) (l k : Nat) : intBit (v / 2 ^ l) k = intBit v (l + k) := by
  unfold intBit
  rw [Int.ediv_ediv_of_nonneg (by
    have := Nat.two_pow_pos l
    have e : ((2 ^ l : Nat) : Int) = (2 : Int) ^ l := by simp
    omega), ← Int.pow_add]

theorem intBit_mod (v : Int) (n k : Nat) : intBit (v % 2 ^ n) k = (decide (k < n) && intBit v k) := by
  have h := testBit_maskTo v n k
  rw [maskTo_eq] at h
  have hp : (2 : Int) ^ n ≠ 0 := by
    have := Nat.two_pow_pos n
    have e : ((2 ^ n : Nat) : Int) = (2 : Int) ^ n := by simp
    omega
  have e : ((v % 2 ^ n).toNat : Int) = v % 2 ^ n := Int.toNat_of_nonneg (Int.emod_nonneg v hp)
  rw [← e, intBit_ofNat, h]

theorem intBit_mul (v : Int) (l k : Nat) : intBit (v * 2 ^ l) k = (decide (l ≤ k) && intBit v (k - l)) := by
  have hpos : ∀ n : Nat, (0 : Int) < 2 ^ n := fun n => by
    have := Nat.two_pow_pos n
    have e : ((2 ^ n : Nat) : Int) = (2 : Int) ^ n := by simp
    omega
  unfold intBit
  by_cases h : l ≤ k
  · obtain ⟨d, rfl⟩ : ∃ d, k = l + d := ⟨k - l, by omega⟩
    rw [Int.pow_add, ← Int.ediv_ediv_of_nonneg (Int.le_of_lt (hpos l)), Int.mul_ediv_cancel _ (by have := hpos l; omega)]
    simp [show l + d - l = d by omega]
  · obtain ⟨d, rfl⟩ : ∃ d, l = k + (d + 1) := ⟨l - k - 1, by omega⟩
    rw [Int.pow_add, Int.mul_comm ((2 : Int) ^ k), ← Int.mul_assoc, Int.mul_ediv_cancel _ (by have := hpos k; omega),
      Int.pow_succ, ← Int.mul_assoc, Int.mul_emod_left]
    simp [show ¬ k + (d + 1) ≤ k by omega]

theorem setBitsIn_ok : ∀ (l : List Int) (m : Nat), (∀ b ∈ l, 0 ≤ b) →
    ∃ r, setBitsIn l m = .ok r ∧ ∀ k : Nat, r.testBit k = (m.testBit k || decide ((k : Int) ∈ l))
  | [], m, _ => ⟨m, rfl, by simp⟩
  | b :: t, m, h => by
    have hb := h b (by simp)
    obtain ⟨r, h1, h2⟩ := setBitsIn_ok t (m ||| (1 <<< b.toNat)) (fun x hx => h x (by simp [hx]))
    refine ⟨r, by simp only [setBitsIn]; rw [if_neg (by omega), h1], ?_⟩
    intro k
    rw [h2 k, Nat.testBit_or, Nat.one_shiftLeft, Nat.testBit_two_pow]
    have : (b.toNat = k) ↔ ((k : Int) = b) := by omega
    simp only [this, List.mem_cons, Bool.decide_or, Bool.or_assoc]

theorem setBitsIn_err : ∀ (l : List Int) (m : Nat), (∃ b ∈ l, b < 0) → setBitsIn l m = .error .valueError
  | [], _, h => by obtain ⟨_, h, _⟩ := h; simp at h
  | b :: t, m, h => by
    simp only [setBitsIn]
    by_cases hb : b < 0
    · rw [if_pos hb]
    · rw [if_neg hb]
      apply setBitsIn_err
      obtain ⟨x, hx, h0⟩ := h
      rcases List.mem_cons.1 hx with rfl | hx
      · exact absurd h0 hb
      · exact ⟨x, hx, h0⟩

theorem bitmaskLoop_ok : ∀ (args : List MaskArg) (m : Nat), (∀ a ∈ args, ∀ b ∈ a.positions, 0 ≤ b) →
    ∃ r, bitmaskLoop args m = .ok r ∧
      ∀ k : Nat, r.testBit k = (m.testBit k || decide (∃ a ∈ args, (k : Int) ∈ a.positions))
  | [], m, _ => ⟨m, rfl, by simp⟩
  | a :: t, m, h => by
    obtain ⟨r, h1, h2⟩ := setBitsIn_ok a.positions m (h a (by simp))
    obtain ⟨r', h3, h4⟩ := bitmaskLoop_ok t r (fun x hx => h x (by simp [hx]))
    refine ⟨r', by simp only [bitmaskLoop, h1, okBind, h3], ?_⟩
    intro k
    rw [h4 k, h2 k]
    simp [List.mem_cons, Bool.decide_or, Bool.or_assoc]

theorem mem_pyRange {lo hi x : Int} : x ∈ pyRange lo hi ↔ lo ≤ x ∧ x < hi := by
  unfold pyRange
  simp only [List.mem_map, List.mem_range]
  constructor
  · rintro ⟨k, h, rfl⟩; omega
  · intro h; exact ⟨(x - lo).toNat, by omega, by omega⟩

/-- The positions named by an argument of `bitmask`, written out. -/
def Names : MaskArg → Int → Prop
  | .range msb lsb, k => lsb ≤ k ∧ k ≤ msb
  | .list l, k => k ∈ l
  | .bit b, k => k = b

theorem names_iff (a : MaskArg) (k : Int) : k ∈ a.positions ↔ Names a k := by
  cases a with
  | range msb lsb => simp only [MaskArg.positions, Names, mem_pyRange]; omega
  | list l => exact Iff.rfl
  | bit b => simp [MaskArg.positions, Names]

/-- **C22.** `bitmask` sets exactly the positions its arguments list. -/
theorem bitmask_spec (args : List MaskArg) (h : ∀ a ∈ args, ∀ k, Names a k → 0 ≤ k) :
    ∃ r, bitmask args = .ok r ∧ ∀ k : Nat, r.testBit k = true ↔ ∃ a ∈ args, Names a k := by
  obtain ⟨r, h1, h2⟩ := bitmaskLoop_ok args 0 (fun a ha b hb => h a ha b ((names_iff a b).1 hb))
  refine ⟨r, h1, fun k => ?_⟩
  rw [h2 k]
  simp [names_iff]

theorem mask_of_range {msb lsb : Nat} : ∃ r : Nat, bitmask [.range (msb : Int) (lsb : Int)] = .ok r ∧
    ∀ k : Nat, r.testBit k = (decide (lsb ≤ k) && decide (k ≤ msb)) := by
  obtain ⟨r, h1, h2⟩ := bitmask_spec [.range (msb : Int) (lsb : Int)] (by
    intro a ha k hk
    have : a = .range msb lsb := by simpa using ha
    subst this
    unfold Names at hk; omega)
  refine ⟨r, h1, fun k => ?_⟩
  rw [Bool.eq_iff_iff, h2 k]
  simp [Names]

/-- **C22.** `bfx` with a non-zero `lsb` is the field. Missing from the full claim:
`lsb = 0`, where it is false (`bfx_zero`). -/
theorem bfx_partial (v : Int) (msb lsb : Nat) (h0 : lsb ≠ 0) (h : lsb ≤ msb) :
    bfx v msb (some lsb) = .ok (v / 2 ^ lsb % 2 ^ (msb - lsb + 1)) := by
  obtain ⟨r, h1, h2⟩ := mask_of_range (msb := msb) (lsb := lsb)
  unfold bfx
  rw [show lsbOr msb (some (lsb : Int)) = lsb by simp only [lsbOr]; rw [if_neg (by omega)]]
  simp only [h1, okBind, pyShr]
  rw [if_neg (by omega), Int.toNat_natCast]
  congr 1
  apply intBit_ext
  intro k
  rw [intBit_div, intBit_and, intBit_ofNat, h2, intBit_mod, intBit_div]
  by_cases hk : k < msb - lsb + 1
  · simp [hk, show lsb ≤ lsb + k by omega, show lsb + k ≤ msb by omega]
  · simp [hk, show ¬ (lsb + k ≤ msb) by omega]

/-- **C22.** Without an `lsb`, and also with `lsb = 0`, `bfx` is the single bit `msb`. -/
theorem bfx_zero (v : Int) (msb : Nat) :
    bfx v msb none = .ok (v / 2 ^ msb % 2) ∧ bfx v msb (some 0) = .ok (v / 2 ^ msb % 2) := by
  have key : bfx v msb none = .ok (v / 2 ^ msb % 2) := by
    obtain ⟨r, h1, h2⟩ := mask_of_range (msb := msb) (lsb := msb)
    unfold bfx
    rw [show lsbOr msb none = (msb : Int) from rfl]
    simp only [h1, okBind, pyShr]
    rw [if_neg (by omega), Int.toNat_natCast]
    congr 1
    apply intBit_ext
    intro k
    have := intBit_mod (v / 2 ^ msb) 1 k
    rw [show (2 : Int) ^ 1 = 2 from rfl] at this
    rw [intBit_div, intBit_and, intBit_ofNat, h2, this, intBit_div]
    by_cases hk : k < 1
    · simp [show k = 0 by omega]
    · simp [hk, show ¬ (msb + k ≤ msb) by omega]
  exact ⟨key, key⟩

/-- **C22.** `bfi` with a non-zero `lsb` replaces exactly the field: inside it the bits
are those of `field`, outside those of `value`. Missing: `lsb = 0` (`bfi_zero`). -/
theorem bfi_partial (v f : Int) (msb lsb : Nat) (h0 : lsb ≠ 0) :
    ∃ r, bfi v f msb (some lsb) = .ok r ∧
      ∀ k, intBit r k = if lsb ≤ k ∧ k ≤ msb then intBit f (k - lsb) else intBit v k := by
  obtain ⟨m, h1, h2⟩ := mask_of_range (msb := msb) (lsb := lsb)
  refine ⟨pyOr (pyAnd v (pyNot m)) (pyAnd (f * 2 ^ lsb) m), ?_, ?_⟩
  · unfold bfi
    rw [show lsbOr msb (some (lsb : Int)) = lsb by simp only [lsbOr]; rw [if_neg (by omega)]]
    simp only [h1, okBind, pyShl]
    rw [if_neg (by omega), okBind, Int.toNat_natCast]
  · intro k
    have hnot : intBit (pyNot (m : Int)) k = !m.testBit k := by
      rw [show pyNot (m : Int) = Int.negSucc m by unfold pyNot; omega, intBit_negSucc]
    rw [intBit_or, intBit_and, intBit_and, hnot, intBit_ofNat, h2, intBit_mul]
    by_cases h3 : lsb ≤ k <;> by_cases h4 : k ≤ msb <;> simp [h3, h4]

/-- **C22.** With `lsb = 0` `bfi` replaces the single bit `msb` by the low bit of the
field and drops the rest. -/
theorem bfi_zero (v f : Int) (msb : Nat) :
    bfi v f msb (some 0) = bfi v f msb none ∧ ∃ r, bfi v f msb none = .ok r ∧
      ∀ k, intBit r k = if k = msb then intBit f 0 else intBit v k := by
  refine ⟨rfl, ?_⟩
  obtain ⟨m, h1, h2⟩ := mask_of_range (msb := msb) (lsb := msb)
  refine ⟨pyOr (pyAnd v (pyNot m)) (pyAnd (f * 2 ^ msb) m), ?_, ?_⟩
  · unfold bfi
    rw [show lsbOr msb none = (msb : Int) from rfl]
    simp only [h1, okBind, pyShl]
    rw [if_neg (by omega), okBind, Int.toNat_natCast]
  · intro k
    have hnot : intBit (pyNot (m : Int)) k = !m.testBit k := by
      rw [show pyNot (m : Int) = Int.negSucc m by unfold pyNot; omega, intBit_negSucc]
    rw [intBit_or, intBit_and, intBit_and, hnot, intBit_ofNat, h2, intBit_mul]
    by_cases h3 : k = msb
    · subst h3; simp
    · by_cases h4 : msb ≤ k
      · simp [h3, h4, show ¬ k ≤ msb by omega]
      · simp [h3, h4]

/-- **C22.** The full claim is false: `bfx(0xff, 7, 0)` should be `0xff` and is 1, and
`bfi(0, 0xff, 7, 0)` should be `0xff` and is `0x80`. -/
theorem full_claim_false : bfx 0xff 7 (some 0) = .ok 1 ∧ bfi 0 0xff 7 (some 0) = .ok 0x80 := by decide

/-- **C22.** `wmask(n)` has exactly the bits below `n` set. -/
theorem wmask_spec (n k : Nat) : (wmask n).testBit k = decide (k < n) := by
  unfold wmask
  rw [Nat.one_shiftLeft, Nat.testBit_two_pow_sub_one]

example : wmask 12 = 0xfff ∧ wmask 0 = 0 := by decide

/-- **C22.** `invert32` complements the low 32 bits and clears the rest. -/
theorem invert32_spec (v : Int) (k : Nat) : intBit (invert32 v) k = (decide (k < 32) && !intBit v k) := by
  unfold invert32
  have h1 : intBit (0xffffffff : Int) k = decide (k < 32) := by
    have : (0xffffffff : Int) = ((2 ^ 32 - 1 : Nat) : Int) := by decide
    rw [this, intBit_ofNat, Nat.testBit_two_pow_sub_one]
  have h2 : intBit (pyNot v) k = !intBit v k := by
    cases v with
    | ofNat m =>
      rw [show pyNot (Int.ofNat m) = Int.negSucc m by unfold pyNot; simp only [Int.ofNat_eq_natCast]; omega,
        intBit_negSucc, intBit_ofNat']
    | negSucc m =>
      rw [show pyNot (Int.negSucc m) = Int.ofNat m by unfold pyNot; simp only [Int.ofNat_eq_natCast]; omega,
        intBit_negSucc, intBit_ofNat']; simp
  rw [intBit_and, h1, h2]

example : bfx 0xabcd 11 (some 4) = .ok 0xbc ∧ bfi 0xabcd 0x12 11 (some 4) = .ok 0xa12d ∧
    bitmask [.range 7 4, .bit 0, .list [9, 10]] = .ok 0x6f1 := by decide

end C22

namespace C23
open C12 (bitCountLoop_spec)

theorem hammingLoop_eq : ∀ fuel v c, hammingLoop fuel v c = BS.bitCountLoop fuel v c
  | 0, _, _ => rfl
  | fuel + 1, v, c => by
    unfold hammingLoop BS.bitCountLoop
    by_cases h : v = 0
    · simp [h]
    · simp [h, hammingLoop_eq fuel]

/-- **C23.** The weight is the number of one bits: for any bound `n` on the length of
`v`, the number of positions below `n` that are set. -/
theorem hamming_weight_spec (v n : Nat) (h : v < 2 ^ n) :
    hammingWeight v = ((List.range n).filter fun k => v.testBit k).length := by
  unfold hammingWeight
  rw [hammingLoop_eq]
  by_cases h0 : v = 0
  · subst h0
    rw [List.filter_eq_nil_iff.2 (by simp)]; rfl
  · have h1 : v < 2 ^ (v.log2 + 1) := Nat.lt_log2_self
    have h2 : v.log2 + 1 ≤ n := by
      have := Nat.log2_lt h0 |>.2 h
      omega
    have := bitCountLoop_spec (v.log2 + 1) (v.log2 + 1) v 0 h1 (Nat.le_refl _)
    rw [this, Nat.zero_add]
    obtain ⟨d, rfl⟩ : ∃ d, n = v.log2 + 1 + d := ⟨n - (v.log2 + 1), by omega⟩
    generalize hL : v.log2 + 1 = L at *
    rw [List.range_add, List.filter_append, List.length_append]
    have : ((List.range d).map (L + ·)).filter (fun k => v.testBit k) = [] := by
      rw [List.filter_eq_nil_iff]
      intro x hx
      simp only [List.mem_map] at hx
      obtain ⟨a, -, rfl⟩ := hx
      rw [Nat.testBit_lt_two_pow]
      · simp
      · exact Nat.lt_of_lt_of_le h1 (Nat.pow_le_pow_right (by decide) (by omega))
    rw [this]; simp

/-- **C23.** The loop really ends: giving it more rounds changes nothing. -/
theorem hamming_weight_ends (v fuel : Nat) (h : v.log2 + 1 ≤ fuel) : hammingLoop fuel v 0 = hammingWeight v := by
  by_cases h0 : v = 0
  · subst h0
    cases fuel with
    | zero => rfl
    | succ n => simp [hammingLoop, hammingWeight]
  · unfold hammingWeight
    rw [hammingLoop_eq, hammingLoop_eq, bitCountLoop_spec (v.log2 + 1) fuel v 0 Nat.lt_log2_self h,
      bitCountLoop_spec (v.log2 + 1) _ v 0 Nat.lt_log2_self (Nat.le_refl _)]

example : hammingWeight 0xf0f1 = 9 := by decide

end C23
end Verif
