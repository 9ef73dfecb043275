import Verif.Props.C88

/-!
# C92: the ways to read a bit; the hexadecimal text of a bitstring (C15); `log` (C75)
-/

namespace Verif
open BS

namespace C92

theorem and_one_eq (n i : Nat) : (n >>> i) &&& 1 = (n.testBit i).toNat := by
  rw [Nat.testBit, Nat.and_comm, Nat.one_and_eq_mod_two]
  rcases Nat.mod_two_eq_zero_or_one (n >>> i) with h | h <;> simp [h]

/-- The 1-bit string with that bit. -/
def one (x : Bool) : BS := ⟨1, x.toNat, 1⟩

/-- **C92.** `b[k]` and `b.get_bit(k)` succeed exactly for `k ≥ -width`. They give the bit at `k`, or at
`width + k` if `k` is negative; above the width they give 0. -/
theorem get_bit (b : BS) (h : b.WF) (k : Int) :
    b.getItem k = b.getBit k ∧
    (k < -(b.width : Int) → b.getBit k = .error .valueError) ∧
    (-(b.width : Int) ≤ k → k < 0 → b.getBit k = .ok (one (b.value.testBit (b.width + k).toNat))) ∧
    (0 ≤ k → k < b.width → b.getBit k = .ok (one (b.value.testBit k.toNat))) ∧
    ((b.width : Int) ≤ k → b.getBit k = .ok (one false)) := by
  have key : ∀ i : Nat, ofInt (((b.value >>> i) &&& 1 : Nat) : Int) 1 = one (b.value.testBit i) := by
    intro i
    rw [and_one_eq]
    cases b.value.testBit i <;> decide
  refine ⟨rfl, fun h1 => ?_, fun h1 h2 => ?_, fun h1 h2 => ?_, fun h1 => ?_⟩
  · unfold getBit
    simp only [if_pos (show k < 0 by omega)]
    rw [if_pos (by omega)]
  · unfold getBit
    simp only [if_pos h2]
    rw [if_neg (by omega), key]
  · unfold getBit
    simp only [if_neg (Int.not_lt.2 h1)]
    rw [key]
  · unfold getBit
    simp only [if_neg (show ¬ k < 0 by omega)]
    rw [key, Nat.testBit_lt_two_pow]
    exact Nat.lt_of_lt_of_le h.1 (Nat.pow_le_pow_right (by decide) (by omega))

/-- **C92.** `b.get_bit_value(k)` gives the same bit as a number, but does not count from the top: every
negative position is refused. -/
theorem get_bit_value (b : BS) (k : Int) :
    (0 ≤ k → b.getBitValue k = .ok (b.value.testBit k.toNat).toNat) ∧ (k < 0 → b.getBitValue k = .error .valueError) := by
  refine ⟨fun h => ?_, fun h => ?_⟩
  · rw [getBitValue, if_neg (Int.not_lt.2 h), and_one_eq]
  · rw [getBitValue, if_pos h]

/-- **C92.** Iterating gives the bits from the lowest one, the text shows them from the highest one, and the
slice of one bit is that bit: all of them agree with `b[i]` at every position of the bitstring. -/
theorem all_agree (b : BS) (h : b.WF) :
    b.iter.length = b.width ∧ b.binaryString.length = b.width ∧
    ∀ i : Nat, i < b.width → ∃ x : Bool,
      b.getItem i = .ok (one x) ∧ b.getItem ((i : Int) - b.width) = .ok (one x) ∧ b.slice i (i + 1 : Nat) = .ok (one x) ∧
      b.getBitValue i = .ok x.toNat ∧ b.iter[i]? = some x.toNat ∧
      b.binaryString[b.width - 1 - i]? = some (if x then '1' else '0') := by
  have hl := binaryString_length b
  refine ⟨by simp [iter], hl, fun i hi => ⟨b.value.testBit i, ?_, ?_, ?_, ?_, ?_, ?_⟩⟩
  · exact (get_bit b h i).2.2.2.1 (by omega) (by omega)
  · have := (get_bit b h ((i : Int) - b.width)).2.2.1 (by omega) (by omega)
    rw [show ((b.width : Int) + ((i : Int) - b.width)).toNat = i by omega] at this
    exact this
  · rw [slice_eq b i (i + 1) (by omega) (by omega)]
    congr 1
    unfold bv one
    simp only [Nat.add_sub_cancel_left]
    congr 1
    rw [Nat.pow_one, ← Nat.shiftRight_eq_div_pow, ← and_one_eq, Nat.and_one_is_mod]
  · exact (get_bit_value b i).1 (by omega)
  · unfold iter
    rw [List.getElem?_map, List.getElem?_range hi]
    simp only [Option.map_some, Option.some.injEq]
    exact and_one_eq _ _
  · have hk : b.width - 1 - i < b.binaryString.length := by omega
    have hb := (C02.binary_string_digits b).2 _ hk
    have hm := binaryLoop_bits b.value b.width _ (List.getElem_mem hk)
    rw [show b.width - 1 - (b.width - 1 - i) = i by omega] at hb
    rw [List.getElem?_eq_getElem hk]
    congr 1
    cases hx : b.value.testBit i
    · rw [hx] at hb
      rcases hm with hm | hm
      · exact hm
      · exact absurd (hb.1 hm) (by simp)
    · exact hb.2 hx

/-- **C92.** Reading and assigning differ above the width: `b[k]` is 0, `b[k] = 1` raises `IndexError`. -/
theorem above_width (b : BS) (h : b.WF) (k : Int) (hk : (b.width : Int) ≤ k) (v : PyVal) :
    b.getItem k = .ok (one false) ∧ b.setItem k v = .error .indexError := by
  refine ⟨(get_bit b h k).2.2.2.2 hk, ?_⟩
  unfold setItem
  rw [if_pos hk]

/-- **C92.** The bits determine the bitstring. -/
theorem iter_injective (a b : BS) (ha : a.WF) (hb : b.WF) : a.iter = b.iter ↔ a = b := by
  refine ⟨fun h => ?_, fun h => by rw [h]⟩
  obtain ⟨la, _, fa⟩ := all_agree a ha
  obtain ⟨lb, _, fb⟩ := all_agree b hb
  have hw : a.width = b.width := by rw [← la, ← lb, h]
  refine ext_bv ha hb hw (Nat.eq_of_testBit_eq fun i => ?_)
  by_cases hi : i < a.width
  · have e : a.iter[i]? = b.iter[i]? := by rw [h]
    unfold iter at e
    rw [List.getElem?_map, List.getElem?_range hi, List.getElem?_map, List.getElem?_range (hw ▸ hi)] at e
    simp only [Option.map_some, Option.some.injEq, and_one_eq] at e
    revert e
    cases a.value.testBit i <;> cases b.value.testBit i <;> simp
  · have hp : 2 ^ a.width ≤ 2 ^ i := Nat.pow_le_pow_right (by decide) (by omega)
    rw [Nat.testBit_lt_two_pow (Nat.lt_of_lt_of_le ha.1 hp), Nat.testBit_lt_two_pow (Nat.lt_of_lt_of_le hb.1 (hw ▸ hp))]

/-- 0b01101 from below and from above. -/
example : (bv 5 13).iter = [1, 0, 1, 1, 0] ∧ (bv 5 13).getItem (-1) = .ok (one false) ∧ (bv 5 13).getItem 3 = .ok (one true) ∧
    (bv 5 13).getItem 77 = .ok (one false) ∧ (bv 5 13).getBitValue (-1) = .error .valueError := by decide

end C92

namespace C15
open Console C69

/-- **C15.** `hex(b)` is the width in decimal, `'h`, and the value in hexadecimal with one digit for every
four bits begun, leading zeros included. -/
theorem hex_text (b : BS) (h : b.WF) :
    ∃ w d, b.hexText = w ++ '\'' :: 'h' :: d ∧ Reader.nat 10 w = some b.width ∧ Reader.nat 16 d = some b.value ∧
      d.length = max 1 ((b.width + 3) / 4) := by
  refine ⟨natText 10 b.width, hexPad ((b.width + 3) / 4) b.value, ?_, ?_, nat_hexPad _ _, ?_⟩
  · rw [hexPad_nat]
    unfold hexText
    simp
  · exact Reader.nat_natText (by decide) (by decide) _
  · by_cases hw : b.width = 0
    · have : b.value = 0 := by
        have := h.1
        rw [hw] at this
        omega
      rw [hw, this]
      rfl
    · rw [hexPad_length _ (by omega)]
      · omega
      · refine Nat.lt_of_lt_of_le h.1 ?_
        rw [show (16 : Nat) = 2 ^ 4 from rfl, ← Nat.pow_mul]
        exact Nat.pow_le_pow_right (by decide) (by omega)

theorem quote_digits {w : Str} {n : Nat} (h : Reader.nat 10 w = some n) : '\'' ∉ w := by
  have key : ∀ (s : Str) (v : Nat), '\'' ∈ s → Reader.digits 10 v s = none := by
    intro s
    induction s with
    | nil => intro v h; simp at h
    | cons c t ih =>
      intro v h
      rw [Reader.digits]
      split
      · next d hd =>
        split
        · rcases List.mem_cons.1 h with rfl | h
          · rw [show Reader.digit '\'' = none from by decide] at hd
            cases hd
          · exact ih _ h
        · rfl
      · rfl
  intro hq
  unfold Reader.nat at h
  split at h
  · cases h
  · rw [key w 0 hq] at h
    cases h

/-- **C15.** So it determines the bitstring. -/
theorem hex_text_injective (a b : BS) (ha : a.WF) (hb : b.WF) : a.hexText = b.hexText ↔ a = b := by
  refine ⟨fun h => ?_, fun h => by rw [h]⟩
  obtain ⟨w, d, h1, h2, h3, _⟩ := hex_text a ha
  obtain ⟨w', d', g1, g2, g3, _⟩ := hex_text b hb
  rw [h1, g1] at h
  obtain ⟨rfl, h'⟩ := split_at_quote (quote_digits h2) (quote_digits g2) h
  obtain rfl := List.tail_eq_of_cons_eq h'
  rw [g3] at h3
  rw [h2] at g2
  exact ext_bv ha hb (Option.some.inj g2) (Option.some.inj h3).symm

example : (bv 13 0x2f).hexText = c! "13'h002f" ∧ (bv 0 0).hexText = c! "0'h0" := by decide

end C15
end Verif
