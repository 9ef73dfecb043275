import Verif.Lemmas.Bitstring

/-!
# Bitstrings and bit vectors

`ofBV x` is the bitstring object holding the bit vector `x`. The specifications are
written with Lean's `BitVec`; these lemmas carry the model's operations over.
-/

namespace Verif.BS

/-- `bitstring(v, w)` for an integer. -/
theorem init_int_width (v : Int) (w : Nat) : init (.int v) (some (w : Int)) = .ok (ofInt v w) := by
  show (if (w : Int) < 0 then Except.error PyErr.valueError else Except.ok (ofInt v (w : Int).toNat)) = _
  rw [if_neg (by omega), Int.toNat_natCast]

/-- The bitstring object of a bit vector. -/
def ofBV {w : Nat} (x : BitVec w) : BS := ⟨w, x.toNat, 2 ^ w - 1⟩

/-- A one bit bitstring. -/
def ofBit (b : Bool) : BS := ⟨1, b.toNat, 1⟩

@[simp] theorem ofBV_width {w : Nat} (x : BitVec w) : (ofBV x).width = w := rfl
@[simp] theorem ofBV_value {w : Nat} (x : BitVec w) : (ofBV x).value = x.toNat := rfl
@[simp] theorem ofBV_mask {w : Nat} (x : BitVec w) : (ofBV x).mask = 2 ^ w - 1 := rfl
@[simp] theorem ofBit_width (b : Bool) : (ofBit b).width = 1 := rfl
@[simp] theorem ofBit_value (b : Bool) : (ofBit b).value = b.toNat := rfl

theorem ofBV_wf {w : Nat} (x : BitVec w) : (ofBV x).WF := ⟨x.isLt, rfl⟩

theorem ofBit_wf (b : Bool) : (ofBit b).WF := by cases b <;> exact ⟨by decide, rfl⟩

theorem ofBit_eq_ofBV (b : Bool) : ofBit b = ofBV (BitVec.ofBool b) := by cases b <;> rfl

theorem ofBV_eq_bv {w : Nat} (x : BitVec w) : ofBV x = bv w x.toNat := by
  simp only [ofBV, bv, Nat.mod_eq_of_lt x.isLt]

theorem bv_eq_ofBV (w v : Nat) : bv w v = ofBV (BitVec.ofNat w v) := by
  simp only [ofBV, bv, BitVec.toNat_ofNat]

theorem ofBV_inj {w : Nat} {x y : BitVec w} : ofBV x = ofBV y ↔ x = y := by
  constructor
  · intro h; exact BitVec.eq_of_toNat_eq (congrArg value h)
  · rintro rfl; rfl

/-- Every well formed bitstring holds a bit vector. -/
theorem WF.exists_bv {b : BS} (h : b.WF) : ∃ x : BitVec b.width, b = ofBV x :=
  ⟨BitVec.ofNat _ b.value, by rw [← bv_eq_ofBV]; exact h.eq_bv⟩

theorem WF.eq_ofBV {b : BS} (h : b.WF) {w : Nat} (hw : b.width = w) : b = ofBV (BitVec.ofNat w b.value) := by
  subst hw; rw [← bv_eq_ofBV]; exact h.eq_bv

theorem bv_eq_of_bits {w v : Nat} {y : BitVec w} (h : ∀ k, k < w → v.testBit k = y.getLsbD k) :
    bv w v = ofBV y := by
  rw [bv_eq_ofBV, ofBV_inj]
  apply BitVec.eq_of_getLsbD_eq
  intro k hk
  rw [BitVec.getLsbD_ofNat, h k hk]; simp [hk]

theorem bv1_eq {v : Nat} : bv 1 v = ofBit (v.testBit 0) := by
  rw [Nat.testBit_zero]
  unfold bv ofBit
  have : v % 2 = 0 ∨ v % 2 = 1 := by omega
  rcases this with h | h <;> simp [h]

theorem bv1_div {v i : Nat} : bv 1 (v / 2 ^ i) = ofBit (v.testBit i) := by
  rw [bv1_eq, Nat.testBit_div_two_pow]; simp

theorem bv1_div_mod {v i : Nat} : bv 1 (v / 2 ^ i % 2) = ofBit (v.testBit i) := by
  have := bv_mod 1 (v / 2 ^ i)
  rw [Nat.pow_one] at this
  rw [this, bv1_div]

theorem getItem_ofBV {w : Nat} (x : BitVec w) (i : Nat) : (ofBV x).getItem (i : Int) = .ok (ofBit (x.getLsbD i)) := by
  rw [getItem, getBit_nat, bv1_div_mod]; rfl

theorem getItem_nat (b : BS) (i : Nat) : b.getItem (i : Int) = .ok (ofBit (b.value.testBit i)) := by
  rw [getItem, getBit_nat, bv1_div_mod]

theorem slice_ofBV {w : Nat} (x : BitVec w) (i j : Nat) (hij : i ≤ j) (hj : j ≤ w) :
    (ofBV x).slice i j = .ok (ofBV (x.extractLsb' i (j - i))) := by
  rw [slice_eq _ _ _ hij hj]
  congr 1
  apply bv_eq_of_bits
  intro k hk
  rw [Nat.testBit_div_two_pow, ofBV_value, BitVec.testBit_toNat, BitVec.getLsbD_extractLsb']
  simp [hk, Nat.add_comm]

theorem concat_ofBV {w u : Nat} (x : BitVec w) (y : BitVec u) : (ofBV x).concat (ofBV y) = ofBV (x ++ y) := by
  rw [concat_wf_eq (ofBV_wf x) (ofBV_wf y)]
  apply bv_eq_of_bits
  intro k hk
  simp only [ofBV_width, ofBV_value]
  rw [testBit_mul_add _ _ _ _ y.isLt, BitVec.getLsbD_append, BitVec.testBit_toNat, BitVec.testBit_toNat]

theorem zeroExtend_ofBV {w : Nat} (x : BitVec w) (u : Nat) (h : w ≤ u) :
    (ofBV x).zeroExtend u = .ok (ofBV (x.setWidth u)) := by
  rw [zeroExtend_eq (ofBV_wf x) u h, bv_eq_ofBV]
  congr 2
  apply BitVec.eq_of_toNat_eq; simp

theorem msb_iff {w : Nat} (x : BitVec w) (hw : 0 < w) : x.msb = true ↔ 2 ^ (w - 1) ≤ x.toNat := by
  rw [BitVec.msb_eq_decide]; simp

theorem signExtend_ofBV {w : Nat} (x : BitVec w) (u : Nat) (h : w ≤ u) (hw : 0 < w) :
    (ofBV x).signExtend u = .ok (ofBV (x.signExtend u)) := by
  rw [signExtend_eq (ofBV_wf x) u h hw, bv_eq_ofBV]
  congr 2
  apply BitVec.eq_of_toNat_eq
  rw [BitVec.toNat_signExtend, BitVec.toNat_ofNat, BitVec.toNat_setWidth]
  show (x.toNat + if 2 ^ (w - 1) ≤ x.toNat then 2 ^ u - 2 ^ w else 0) % 2 ^ u = _
  have hx := x.isLt
  have hp : 2 ^ w ≤ 2 ^ u := Nat.pow_le_pow_right (by decide) h
  by_cases hm : x.msb = true
  · rw [if_pos ((msb_iff x hw).1 hm), if_pos hm]
    rw [Nat.mod_eq_of_lt (by omega), Nat.mod_eq_of_lt (by omega)]
  · rw [if_neg (fun h' => hm ((msb_iff x hw).2 h')), if_neg hm]
    simp

theorem and_ofBV {w : Nat} (x y : BitVec w) : (ofBV x).and (.bs (ofBV y)) = .ok (ofBV (x &&& y)) := by
  rw [and_bs, bv_eq_ofBV]; congr 2
  apply BitVec.eq_of_toNat_eq
  simp only [ofBV_width, ofBV_value, BitVec.toNat_ofNat, BitVec.toNat_and]
  exact Nat.mod_eq_of_lt (Nat.and_lt_two_pow _ y.isLt)

theorem or_ofBV {w : Nat} (x y : BitVec w) : (ofBV x).or (.bs (ofBV y)) = .ok (ofBV (x ||| y)) := by
  rw [or_bs]; simp only [ofBV_width, ofBV_value, Nat.max_self]
  rw [bv_eq_ofBV]; congr 2
  apply BitVec.eq_of_toNat_eq
  simp only [BitVec.toNat_ofNat, BitVec.toNat_or]
  exact Nat.mod_eq_of_lt (Nat.or_lt_two_pow x.isLt y.isLt)

theorem xor_ofBV {w : Nat} (x y : BitVec w) : (ofBV x).xor (.bs (ofBV y)) = .ok (ofBV (x ^^^ y)) := by
  rw [xor_bs]; simp only [ofBV_width, ofBV_value, Nat.max_self]
  rw [bv_eq_ofBV]; congr 2
  apply BitVec.eq_of_toNat_eq
  simp only [BitVec.toNat_ofNat, BitVec.toNat_xor]
  exact Nat.mod_eq_of_lt (Nat.xor_lt_two_pow x.isLt y.isLt)

theorem invert_ofBV {w : Nat} (x : BitVec w) : (ofBV x).invert = ofBV (~~~x) := by
  rw [invert, inverted_wf_eq (ofBV_wf x), bv_eq_ofBV]; congr 1
  apply BitVec.eq_of_toNat_eq
  simp only [ofBV_width, ofBV_value, BitVec.toNat_ofNat, BitVec.toNat_not]
  have := Nat.two_pow_pos w
  exact Nat.mod_eq_of_lt (by omega)

theorem inverted_ofBV {w : Nat} (x : BitVec w) : (ofBV x).inverted = ofBV (~~~x) := invert_ofBV x

theorem ofInt_ofBV (v : Int) (w : Nat) : ofInt v w = ofBV (BitVec.ofInt w v) := by
  rw [ofInt_eq, bv_eq_ofBV]; congr 1
  apply BitVec.eq_of_toNat_eq
  rw [BitVec.toNat_ofNat, BitVec.toNat_ofInt]
  have : ((2 ^ w : Nat) : Int) = (2 : Int) ^ w := by simp
  rw [this]
  apply Nat.mod_eq_of_lt
  have := maskTo_lt v w
  rwa [maskTo_eq] at this

theorem add_ofBV {w : Nat} (x y : BitVec w) : (ofBV x).add (.bs (ofBV y)) = .ok (ofBV (x + y)) := by
  rw [add, copy_wf (ofBV_wf x), iadd_some (ofBV_wf x) rfl]
  simp only [ofBV_width, ofBV_value]
  have : (x.toNat : Int) + (y.toNat : Int) = ((x.toNat + y.toNat : Nat) : Int) := by simp
  rw [this, ofInt_nat, bv_eq_ofBV]; congr 2

theorem sub_ofBV {w : Nat} (x y : BitVec w) : (ofBV x).sub (.bs (ofBV y)) = .ok (ofBV (x - y)) := by
  rw [sub, copy_wf (ofBV_wf x), isub_some (ofBV_wf x) rfl]
  simp only [ofBV_width, ofBV_value]
  rw [ofInt_ofBV]; congr 2
  rw [Int.sub_eq_add_neg, BitVec.ofInt_add, BitVec.ofInt_neg]
  simp [BitVec.sub_eq_add_neg]

/-- `b + n` for an integer. -/
theorem add_int_ofBV {w : Nat} (x : BitVec w) (n : Int) :
    (ofBV x).add (.int n) = .ok (ofBV (x + BitVec.ofInt w n)) := by
  rw [add, copy_wf (ofBV_wf x), iadd_some (ofBV_wf x) rfl]
  simp only [ofBV_width, ofBV_value]
  rw [ofInt_ofBV]; congr 2
  rw [BitVec.ofInt_add]; simp

theorem sub_int_ofBV {w : Nat} (x : BitVec w) (n : Int) :
    (ofBV x).sub (.int n) = .ok (ofBV (x - BitVec.ofInt w n)) := by
  rw [sub, copy_wf (ofBV_wf x), isub_some (ofBV_wf x) rfl]
  simp only [ofBV_width, ofBV_value]
  rw [ofInt_ofBV]; congr 2
  rw [Int.sub_eq_add_neg, BitVec.ofInt_add, BitVec.ofInt_neg]
  simp [BitVec.sub_eq_add_neg]

/-- `b += n`: `__iadd__` agrees with `__add__`. -/
theorem iadd_eq_add {b : BS} (h : b.WF) (o : PyVal) : b.iadd o = b.add o := by
  rw [add, copy_wf h]

theorem signed_ofBV {w : Nat} (x : BitVec w) (hw : 2 ≤ w) :
    (ofBV x).signed = (x.toInt, if x.msb then ofBV (~~~x) else ofBV x) := by
  have hm := msb_iff x (by omega)
  by_cases h : x.msb = true
  · rw [signed_neg (ofBV_wf x) hw (hm.1 h), if_pos h, inverted_ofBV]
    rw [BitVec.toInt_eq_msb_cond, if_pos h]
    simp
  · rw [signed_nonneg (ofBV_wf x) hw (fun h' => h (hm.2 h')), if_neg h]
    rw [BitVec.toInt_eq_msb_cond, if_neg h]
    rfl

end Verif.BS
