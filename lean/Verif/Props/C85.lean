import Verif.Objects
import Verif.Props.C01
import Verif.Props.C16to20

/-!
# C85: operands that are the same object
-/

namespace Verif
open BS

namespace C85

theorem put_self (h : Objects) (r : Nat) (b : BS) : (h.put r b) r = b := by simp [Objects.put]

theorem put_ne (h : Objects) {r k : Nat} (b : BS) (hk : k ≠ r) : (h.put r b) k = h k := by simp [Objects.put, hk]

theorem put_put (h : Objects) (r : Nat) (a b : BS) : (h.put r a).put r b = h.put r b := by
  funext k
  by_cases hk : k = r <;> simp [Objects.put, hk]

/-! ### Different objects: the operations on values -/

/-- **C85.** With an operand that is another object, the operations on objects are the
operations on values: the object gets that value and no other object changes. -/
theorem distinct (h : Objects) (r o : Nat) (hne : o ≠ r) :
    h.set r o = h.put r (h o) ∧
    (.ok (h.iadd r o) : PyRes Objects) = ((h r).iadd (.bs (h o))).map (h.put r) ∧
    (.ok (h.isub r o) : PyRes Objects) = ((h r).isub (.bs (h o))).map (h.put r) ∧
    (.ok (h.imul r o) : PyRes Objects) = ((h r).imul (.bs (h o))).map (h.put r) ∧
    h.ifloordiv r o = ((h r).ifloordiv (.bs (h o))).map (h.put r) ∧
    (.ok (h.imod r o) : PyRes Objects) = ((h r).imod (.bs (h o))).map (h.put r) ∧
    h.iand r o = ((h r).and (.bs (h o))).map (h.put r) ∧
    h.ixor r o = ((h r).xor (.bs (h o))).map (h.put r) ∧
    h.ior r o = ((h r).or (.bs (h o))).map (h.put r) ∧
    (∀ s, h.setSlice r s o = ((h r).setSlice s (.bs (h o))).map (h.put r)) ∧
    (∀ k, h.setItem r k o = ((h r).setItem k (.bs (h o))).map (h.put r)) := by
  refine ⟨?_, rfl, rfl, rfl, ?_, ?_, ?_, ?_, ?_, ?_, ?_⟩
  · simp [Objects.set, Objects.setWidthSlot, Objects.setMaskSlot, Objects.setValueSlot, put_self, put_put, put_ne _ _ hne]
  · simp only [Objects.ifloordiv, BS.ifloordiv, operand, bind, Except.bind, BS.unsigned]
    by_cases hz : (h o).value = 0
    · simp [hz, Except.map]
    · simp [hz, Except.map, Objects.setValueSlot]
  · simp [Objects.imod, BS.imod, iconcat, Objects.setWidthSlot, Objects.setMaskSlot, Objects.setValueSlot, put_self, put_put, put_ne _ _ hne, Except.map]
  · simp only [Objects.iand]; cases (h r).and (.bs (h o)) <;> rfl
  · simp only [Objects.ixor]; cases (h r).xor (.bs (h o)) <;> rfl
  · simp only [Objects.ior]; cases (h r).or (.bs (h o)) <;> rfl
  · intro s
    simp only [Objects.setSlice, BS.setSlice]
    cases s.indices (h r).width with
    | error e => rfl
    | ok p =>
      obtain ⟨start, stop, step⟩ := p
      simp only [bind, Except.bind, setSliceArg]
      split
      · rfl
      · split
        · rfl
        · simp [Objects.setValueSlot, put_self, put_put, put_ne _ _ hne, Except.map]
  · intro k
    simp only [Objects.setItem, BS.setItem, setItemArg, bind, Except.bind, BS.unsigned]
    by_cases h1 : k ≥ (h r).width
    · rw [if_pos h1, if_pos h1]; rfl
    · rw [if_neg h1, if_neg h1]
      by_cases h2 : (h o).width ≠ 1
      · rw [if_pos h2, if_pos h2]; rfl
      · rw [if_neg h2, if_neg h2]
        simp only
        generalize (if k < 0 then ((h r).width : Int) + k else k) = q
        by_cases h3 : q < 0
        · rw [if_pos h3, if_pos h3]; rfl
        · rw [if_neg h3, if_neg h3]; rfl

/-! ### The same object -/

/-- **C85.** `+=`, `-=`, `*=`, `//=`, `&=`, `^=`, `|=`, `set` and the assignment of a single bit
do not mind if the operand is the object itself. -/
theorem same_object_partial (h : Objects) (r : Nat) :
    h.set r r = h ∧
    (.ok (h.iadd r r) : PyRes Objects) = ((h r).iadd (.bs (h r))).map (h.put r) ∧
    (.ok (h.isub r r) : PyRes Objects) = ((h r).isub (.bs (h r))).map (h.put r) ∧
    (.ok (h.imul r r) : PyRes Objects) = ((h r).imul (.bs (h r))).map (h.put r) ∧
    h.ifloordiv r r = ((h r).ifloordiv (.bs (h r))).map (h.put r) ∧
    h.iand r r = ((h r).and (.bs (h r))).map (h.put r) ∧
    h.ixor r r = ((h r).xor (.bs (h r))).map (h.put r) ∧
    h.ior r r = ((h r).or (.bs (h r))).map (h.put r) ∧
    (∀ k, h.setItem r k r = ((h r).setItem k (.bs (h r))).map (h.put r)) := by
  refine ⟨?_, rfl, rfl, rfl, ?_, ?_, ?_, ?_, ?_⟩
  · simp only [Objects.set, Objects.setWidthSlot, Objects.setMaskSlot, Objects.setValueSlot, put_self, put_put]
    funext k
    by_cases hk : k = r
    · subst hk; exact put_self ..
    · exact put_ne _ _ hk
  · simp only [Objects.ifloordiv, BS.ifloordiv, operand, bind, Except.bind, BS.unsigned]
    by_cases hz : (h r).value = 0
    · simp [hz, Except.map]
    · simp [hz, Except.map, Objects.setValueSlot]
  · simp only [Objects.iand]; cases (h r).and (.bs (h r)) <;> rfl
  · simp only [Objects.ixor]; cases (h r).xor (.bs (h r)) <;> rfl
  · simp only [Objects.ior]; cases (h r).or (.bs (h r)) <;> rfl
  · intro k
    simp only [Objects.setItem, BS.setItem, setItemArg, bind, Except.bind, BS.unsigned]
    by_cases h1 : k ≥ (h r).width
    · rw [if_pos h1, if_pos h1]; rfl
    · rw [if_neg h1, if_neg h1]
      by_cases h2 : (h r).width ≠ 1
      · rw [if_pos h2, if_pos h2]; rfl
      · rw [if_neg h2, if_neg h2]
        simp only
        generalize (if k < 0 then ((h r).width : Int) + k else k) = q
        by_cases h3 : q < 0
        · rw [if_pos h3, if_pos h3]; rfl
        · rw [if_neg h3, if_neg h3]; rfl

/-- **C85.** `b %= b` shifts by the width it has just doubled. -/
theorem concat_self (h : Objects) (r : Nat) :
    h.imod r r = h.put r ⟨2 * (h r).width, (h r).value * 2 ^ (2 * (h r).width) ||| (h r).value, 2 ^ (2 * (h r).width) - 1⟩ := by
  simp [Objects.imod, Objects.setWidthSlot, Objects.setMaskSlot, Objects.setValueSlot, put_self, put_put, Nat.shiftLeft_eq, Nat.two_mul]

/-- **C01, C85.** After `b %= b` the value is out of range, unless it was zero. -/
theorem concat_self_in_range (h : Objects) (r : Nat) (hw : (h r).WF) :
    ((h.imod r r) r).WF ↔ (h r).value = 0 := by
  rw [concat_self, put_self]
  constructor
  · rintro ⟨h1, -⟩
    simp only at h1
    have h2 : (h r).value * 2 ^ (2 * (h r).width) ≤ (h r).value * 2 ^ (2 * (h r).width) ||| (h r).value := Nat.left_le_or
    have h3 := Nat.two_pow_pos (2 * (h r).width)
    rcases Nat.eq_zero_or_pos (h r).value with h0 | h0
    · exact h0
    · have : 1 * 2 ^ (2 * (h r).width) ≤ (h r).value * 2 ^ (2 * (h r).width) := Nat.mul_le_mul_right _ h0
      omega
  · intro h0
    rw [h0]
    exact ⟨by simp [Nat.two_pow_pos], rfl⟩

/-- **C85.** `b[i:j] = b` clears the slice before it reads the operand: it assigns the bits
of `b` without that slice. -/
theorem slice_self (h : Objects) (r : Nat) (s : PySlice) (start stop : Int) (hs : s.indices (h r).width = .ok (start, stop, 1)) (hle : start ≤ stop) :
    h.setSlice r s r =
      ((h r).setSlice s (.bs { h r with value := natAndNot (h r).value ((2 ^ (stop - start).toNat - 1) <<< start.toNat) })).map (h.put r) := by
  simp only [Objects.setSlice, BS.setSlice, hs, bind, Except.bind, setSliceArg]
  rw [if_neg (by simp), if_neg (by omega), if_neg (by simp), if_neg (by omega)]
  simp [Objects.setValueSlot, put_self, put_put, Except.map]

/-- **C85.** The property fails for `%=`, for slices and for `AddWithCarry`: `b %= b` of
`0b1` holds 5 in two bits, `b[0:2] = b` clears the two bits, and -1 + -1 in four bits
reports an overflow. -/
theorem full_claim_false :
    Objects.imod (fun _ => bv 1 1) 0 0 0 = ⟨2, 5, 3⟩ ∧ (bv 1 1).imod (.bs (bv 1 1)) = .ok ⟨2, 3, 3⟩ ∧
    (Objects.setSlice (fun _ => bv 4 7) 0 ⟨some 0, some 2, none⟩ 0).map (· 0) = .ok ⟨4, 4, 15⟩ ∧
    (bv 4 7).setSlice ⟨some 0, some 2, none⟩ (.bs (bv 4 7)) = .ok ⟨4, 7, 15⟩ ∧
    ((Objects.addWithCarry (fun k => if k = 2 then bv 1 0 else bv 4 15) 0 0 2).map fun p => p.2.2.1) = .ok bit1 ∧
    ((Objects.addWithCarry (fun k => if k = 2 then bv 1 0 else bv 4 15) 0 1 2).map fun p => p.2.2.1) = .ok bit0 := by
  decide +kernel

/-! ### AddWithCarry -/

/-- **C85.** With three different objects `AddWithCarry` is the function on values. -/
theorem add_distinct (h : Objects) (x y c : Nat) (hxy : y ≠ x) (hcx : c ≠ x) (hcy : c ≠ y) :
    h.addWithCarry x y c = (addWithCarry (h x) (h y) (h c)).map fun r =>
      (r.result, r.carry, r.overflow, (h.put x r.x).put y r.y) := by
  unfold Objects.addWithCarry addWithCarry
  by_cases hw : (h x).width ≠ (h y).width
  · rw [if_pos hw, if_pos hw]; rfl
  · rw [if_neg hw, if_neg hw]
    have hsw : (h x).signed.2.width = (h x).width := by
      unfold BS.signed
      split
      · rfl
      · dsimp only; split <;> rfl
    simp only [Objects.signed, put_ne _ _ hxy, put_ne _ _ hcy, put_ne _ _ hcx, put_ne _ _ (Ne.symm hxy), put_self, hsw, Except.map]

theorem not_msb_of_msb {w : Nat} {v : BitVec w} (hw : 0 < w) (h : v.msb = true) : (~~~v).msb = false := by
  rw [BitVec.msb_not, h]
  simp

/-- **C85.** With one object as both operands, result and carry are those of equal operands,
and so is the overflow if the operand is not negative. For a negative operand the exact sum
is taken to be `carry - 1`. -/
theorem add_self {w : Nat} (v : BitVec w) (c : Bool) (hw : 2 ≤ w) (h : Objects) (x k : Nat) (hkx : k ≠ x)
    (hx : h x = ofBV v) (hk : h k = ofBit c) :
    ∃ r, addWithCarry (ofBV v) (ofBV v) (ofBit c) = .ok r ∧
      h.addWithCarry x x k = .ok (r.result, r.carry,
        (if v.msb then (if (BitVec.ofNat w (v.toNat + v.toNat + c.toNat)).toInt = c.toNat - 1 then bit0 else bit1) else r.overflow),
        h.put x r.x) := by
  have hr : ofInt (((v.toNat + v.toNat + c.toNat : Nat)) : Int) w = ofBV (C17.sum v v c) := by
    rw [ofInt_nat, bv_eq_ofBV]; rfl
  have hsp : ∀ z : BitVec w, (if z.msb then ofBV (~~~z) else ofBV z) = ofBV (C17.spoil z) := by
    intro z; unfold C17.spoil; split <;> rfl
  have hss : C17.spoil (C17.spoil v) = C17.spoil v := by
    unfold C17.spoil
    cases hm : v.msb with
    | false => simp [hm]
    | true => simp [not_msb_of_msb (by omega) hm]
  have hi : v.toInt + (C17.spoil v).toInt = if v.msb then -1 else v.toInt + v.toInt := by
    unfold C17.spoil
    cases hm : v.msb with
    | false => simp
    | true =>
      rw [if_pos rfl, if_pos rfl, BitVec.toInt_eq_msb_cond, BitVec.toInt_eq_msb_cond, hm, not_msb_of_msb (by omega) hm, BitVec.toNat_not]
      have := v.isLt
      simp only [if_true]
      simp only [Bool.false_eq_true, if_false]
      omega
  have he : addWithCarry (ofBV v) (ofBV v) (ofBit c) = .ok ⟨ofBV (C17.spoil (C17.sum v v c)), ofBit (C17.carryOut v v c),
      (if (C17.sum v v c).toInt = v.toInt + v.toInt + c.toNat then bit0 else bit1), ofBV (C17.spoil v), ofBV (C17.spoil v)⟩ := by
    rw [C17.add_with_carry_exact v v c hw]
    congr 2
    by_cases h : C17.overflow v v c = false
    · rw [if_pos ((C17.sum_toInt_eq_iff v v c hw).2 h), h]; rfl
    · rw [if_neg (fun h' => h ((C17.sum_toInt_eq_iff v v c hw).1 h'))]
      simp only [Bool.not_eq_false] at h
      rw [h]; rfl
  have hc : (if (C17.sum v v c).toNat = v.toNat + v.toNat + c.toNat then bit0 else bit1) = ofBit (C17.carryOut v v c) := by
    have h1 := C17.add_with_carry_exact v v c hw
    unfold addWithCarry at h1
    simp only [ofBV_width, ne_eq, not_true, if_false, signed_ofBV _ hw, unsigned, ofBV_value, ofBit_value, hr, hsp,
      Except.ok.injEq, AddResult.mk.injEq] at h1
    exact h1.2.1
  refine ⟨_, he, ?_⟩
  unfold Objects.addWithCarry
  simp only [Objects.signed, put_self, put_ne _ _ hkx, put_put, hx, hk, ofBV_width, ne_eq, not_true, if_false, signed_ofBV _ hw,
    unsigned, ofBV_value, ofBit_value, hr, hsp, hss, hc, hi]
  cases hm : v.msb with
  | false => rfl
  | true =>
    have : ((if true = true then -1 else v.toInt + v.toInt) + (c.toNat : Int)) = c.toNat - 1 := by rw [if_pos rfl]; omega
    rw [this]; rfl

end C85

namespace C01

/-- **C01.** Two ways out of the range: `b %= b` (`C85.concat_self`), and a negative width,
which is stored before the error is raised. -/
theorem full_claim_false :
    (∃ (h : Objects), (∀ k, Made (h k)) ∧ ¬ (((h.imod 0 0) 0).value < 2 ^ ((h.imod 0 0) 0).width)) ∧
    (∀ (b : BS) (w : Int), w < 0 → setWidthSlots b w = (.error .valueError, ⟨w, b.value, b.mask⟩)) := by
  refine ⟨⟨fun _ => bv 1 1, fun _ => (made_iff_wf _).mpr (bv_wf _ _), by decide +kernel⟩, fun b w hw => ?_⟩
  rw [setWidthSlots, if_pos hw]

/-- **C01.** A width that is not negative is stored with a value in range. -/
theorem width_slots (b : BS) (w : Nat) : ∃ b', b.setWidth w = .ok b' ∧ b'.WF ∧
    setWidthSlots b w = (.ok (), ⟨b'.width, b'.value, b'.mask⟩) := by
  refine ⟨⟨w, b.value &&& (2 ^ w - 1), 2 ^ w - 1⟩, ?_, ⟨?_, rfl⟩, ?_⟩
  · rw [BS.setWidth, if_neg (by omega), Int.toNat_natCast]
  · show _ &&& _ < _
    rw [Nat.and_two_pow_sub_one_eq_mod]
    exact Nat.mod_lt _ (Nat.two_pow_pos _)
  · rw [setWidthSlots, if_neg (by omega), Int.toNat_natCast]

end C01
end Verif
