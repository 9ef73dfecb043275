import Verif.Props.C02to05

/-!
# C06 to C10: sign, purity, arithmetic, bitwise operations, extension
-/

namespace Verif
open BS

namespace C06

/-- **C06.** `b.signed` is the two's complement reading of `b`: it is congruent to the
value mod `2^width` and lies in `[-2^(width-1), 2^(width-1))`, which no other
integer does. -/
theorem signed_is_twos_complement (b : BS) (h : b.WF) (hw : 2 ≤ b.width) :
    (b.signed.1 % 2 ^ b.width = b.value) ∧
    (-(2 ^ (b.width - 1)) ≤ b.signed.1) ∧ (b.signed.1 < 2 ^ (b.width - 1)) := by
  have hp : (2 : Int) ^ b.width = 2 * 2 ^ (b.width - 1) := by
    rw [← Int.pow_succ']; congr 1; omega
  have hq : ((2 ^ (b.width - 1) : Nat) : Int) = (2 : Int) ^ (b.width - 1) := by simp
  have hc : ((2 ^ b.width : Nat) : Int) = (2 : Int) ^ b.width := by simp
  have h1 : (b.value : Int) < 2 ^ b.width := by rw [← hc]; exact_mod_cast h.1
  by_cases hn : b.neg
  · rw [signed_neg h hw hn]
    unfold neg at hn
    dsimp only
    refine ⟨?_, by omega, by omega⟩
    rw [Int.sub_emod, Int.emod_self, Int.sub_zero, Int.emod_emod, Int.emod_eq_of_lt (by omega) h1]
  · rw [signed_nonneg h hw hn]
    unfold neg at hn
    dsimp only
    refine ⟨Int.emod_eq_of_lt (by omega) h1, by omega, by omega⟩

/-- **C06.** Bitstrings of width 0 and 1 read as zero. -/
theorem signed_narrow (b : BS) (hw : b.width < 2) : b.signed.1 = 0 := by rw [signed_small hw]

example : (bv 8 0x80).signed.1 = -128 ∧ (bv 8 0x7f).signed.1 = 127 ∧ (bv 2 3).signed.1 = -1 := by decide

end C06

namespace C07

/-- What the library's users rely on: reading does not change what is read. -/
def SignedPure : Prop := ∀ b : BS, b.WF → b.signed.2 = b

/-- **C07.** The claim is false: reading `signed` of `0b1000` turns it into `0b0111`. -/
theorem signed_not_pure : ¬ SignedPure := by
  intro h
  have := h (bv 4 8) (bv_wf _ _)
  revert this; decide

/-- **C07, exactly.** Reading `signed` complements a bitstring whose top bit is set
and leaves any other alone. -/
theorem signed_effect (b : BS) (h : b.WF) (hw : 2 ≤ b.width) :
    b.signed.2.width = b.width ∧
    b.signed.2.value = if 2 ^ (b.width - 1) ≤ b.value then 2 ^ b.width - 1 - b.value else b.value := by
  by_cases hn : b.neg
  · rw [signed_neg h hw hn]
    unfold neg at hn
    rw [if_pos hn]
    exact ⟨inverted_width b, inverted_value h⟩
  · rw [signed_nonneg h hw hn]
    unfold neg at hn
    rw [if_neg hn]
    exact ⟨rfl, rfl⟩

/-- **C07.** So the second reading of a negative bitstring is always wrong: it is the
complement of the first, and never negative. -/
theorem signed_twice (b : BS) (h : b.WF) (hw : 2 ≤ b.width) (hn : b.signed.1 < 0) :
    b.signed.2.signed.1 = -1 - b.signed.1 ∧ 0 ≤ b.signed.2.signed.1 := by
  by_cases hneg : b.neg
  · have e := signed_neg h hw hneg
    have hp : 2 ^ b.width = 2 * 2 ^ (b.width - 1) := by
      rw [← Nat.pow_succ']; congr 1; omega
    have hc : ((2 ^ b.width : Nat) : Int) = (2 : Int) ^ b.width := by simp
    have h1 := h.1
    have hneg' := hneg
    unfold neg at hneg'
    have hnn : ¬ b.inverted.neg := by
      unfold neg; rw [inverted_width, inverted_value h]; omega
    rw [e]
    dsimp only
    rw [signed_nonneg (inverted_wf b) (by rw [inverted_width]; exact hw) hnn, inverted_value h]
    dsimp only
    omega
  · rw [signed_nonneg h hw hneg] at hn
    simp only at hn; omega

/-- **C07, the part that holds.** Reading `signed` of a bitstring whose top bit is
clear changes nothing. What is missing: bitstrings with the top bit set. -/
theorem signed_pure_partial (b : BS) (h : b.WF) (hn : b.width < 2 ∨ 0 ≤ b.signed.1) : b.signed.2 = b := by
  by_cases hw : b.width < 2
  · rw [signed_small hw]
  · by_cases hneg : b.neg
    · rw [signed_neg h (by omega) hneg] at hn
      have hc : ((2 ^ b.width : Nat) : Int) = (2 : Int) ^ b.width := by simp
      have := h.1
      simp only at hn; omega
    · rw [signed_nonneg h (by omega) hneg]

/-- **C07.** `~b` changes `b` itself, always (unless it has no bits): the claim that
`~b` leaves `b` alone is false for every `b`. -/
theorem invert_operator_changes_operand (b : BS) (h : b.WF) (hw : b.width ≠ 0) : b.invert ≠ b := by
  intro e
  have hv : b.inverted.value = b.value := congrArg BS.value e
  rw [inverted_value h] at hv
  have hp : 2 ^ b.width = 2 * 2 ^ (b.width - 1) := by
    rw [← Nat.pow_succ']; congr 1; omega
  have := h.1
  omega

/-- **C07.** Twice `~` is the identity on the object. -/
theorem invert_twice (b : BS) (h : b.WF) : b.invert.invert = b := inverted_inverted h

/-- **C07.** Comparing with a non-negative integer, a 0/1 text or a bitstring leaves
the object alone. -/
theorem comparison_pure_partial (b : BS) (o : PyVal) (ho : ∀ v, o = .int v → 0 ≤ v) :
    (∀ r, b.eqOp o = .ok r → r.2 = b) ∧ (∀ r, b.ltOp o = .ok r → r.2 = b) ∧
    (∀ r, b.leOp o = .ok r → r.2 = b) := by
  have heq : ∀ r, b.eqOp o = .ok r → r.2 = b := by
    intro r hr
    unfold eqOp at hr
    split at hr
    · rename_i v
      have := ho v rfl
      rw [if_neg (by omega)] at hr
      cases hr; rfl
    · obtain ⟨c, _, hr⟩ := bindOk.1 hr
      cases hr; rfl
    · cases hr; rfl
    · cases hr; rfl
  have hlt : ∀ r, b.ltOp o = .ok r → r.2 = b := by
    intro r hr
    unfold ltOp at hr
    split at hr
    · rename_i v
      have := ho v rfl
      rw [if_neg (by omega)] at hr
      cases hr; rfl
    · obtain ⟨c, _, hr⟩ := bindOk.1 hr
      cases hr; rfl
    · cases hr; rfl
    · cases hr; rfl
  refine ⟨heq, hlt, ?_⟩
  intro r hr
  unfold leOp at hr
  obtain ⟨p, hp, hr⟩ := bindOk.1 hr
  dsimp only at hr
  split at hr
  · cases hr; exact heq p hp
  · rw [heq p hp] at hr; exact hlt r hr

/-- **C07.** Comparing with a negative integer changes a negative bitstring, and then
the same comparison gives another answer. -/
theorem comparison_not_pure :
    ∃ (b : BS) (r r' : Option Bool × BS), b.WF ∧ b.eqOp (.int (-8)) = .ok r ∧ r.1 = some true ∧
      r.2.eqOp (.int (-8)) = .ok r' ∧ r'.1 = some false :=
  ⟨bv 4 8, (some true, bv 4 7), (some false, bv 4 7), bv_wf _ _, by decide, rfl, by decide, rfl⟩

example : ∃ b : BS, b.WF ∧ 2 ≤ b.width ∧ b.signed.1 < 0 := ⟨bv 4 8, bv_wf _ _, by decide, by decide⟩
example : ∃ b : BS, b.WF ∧ 0 ≤ b.signed.1 ∧ b.value ≠ 0 := ⟨bv 4 7, bv_wf _ _, by decide, by decide⟩

end C07

namespace C08

/-- The integer an operand stands for. -/
def Operand (o : PyVal) (v : Int) : Prop :=
  o = .int v ∨ (∃ c, o = .bs c ∧ v = c.value) ∨
  (∃ s c, o = .str s ∧ init (.str s) = .ok c ∧ v = c.value)

theorem operand_of {o : PyVal} {v : Int} (h : Operand o v) : operand o = .ok (some v) := by
  rcases h with rfl | ⟨c, rfl, rfl⟩ | ⟨s, c, rfl, hc, rfl⟩
  · rfl
  · rfl
  · simp only [operand, hc, okBind]

theorem ofInt_value (v : Int) (w : Nat) : ((ofInt v w).value : Int) = v % 2 ^ w := by
  show ((maskTo v w : Nat) : Int) = _
  rw [maskTo_eq]
  have hp : (0 : Int) < 2 ^ w := by
    have : ((2 ^ w : Nat) : Int) = (2 : Int) ^ w := by simp
    rw [← this]; have := Nat.two_pow_pos w; omega
  have := Int.emod_nonneg v (Int.ne_of_gt hp)
  omega

/-- **C08.** Addition is addition mod `2^width`. -/
theorem add_mod (b : BS) (h : b.WF) (o : PyVal) (v : Int) (ho : Operand o v) :
    ∃ r, b.add o = .ok r ∧ r.WF ∧ r.width = b.width ∧ (r.value : Int) = (b.value + v) % 2 ^ b.width := by
  refine ⟨ofInt (b.value + v) b.width, ?_, ofInt_wf _ _, rfl, ofInt_value _ _⟩
  rw [BS.add, copy_wf h, iadd_some h (operand_of ho)]

/-- **C08.** Subtraction is subtraction mod `2^width`. -/
theorem sub_mod (b : BS) (h : b.WF) (o : PyVal) (v : Int) (ho : Operand o v) :
    ∃ r, b.sub o = .ok r ∧ r.WF ∧ r.width = b.width ∧ (r.value : Int) = (b.value - v) % 2 ^ b.width := by
  refine ⟨ofInt (b.value - v) b.width, ?_, ofInt_wf _ _, rfl, ofInt_value _ _⟩
  rw [BS.sub, copy_wf h, isub_some h (operand_of ho)]

/-- **C08.** Multiplication is multiplication mod `2^width`. -/
theorem mul_mod (b : BS) (h : b.WF) (o : PyVal) (v : Int) (ho : Operand o v) :
    ∃ r, b.mul o = .ok r ∧ r.WF ∧ r.width = b.width ∧ (r.value : Int) = (b.value * v) % 2 ^ b.width := by
  refine ⟨ofInt (b.value * v) b.width, ?_, ofInt_wf _ _, rfl, ofInt_value _ _⟩
  rw [BS.mul, copy_wf h, imul_some h (operand_of ho)]

/-- **C08.** Division rounds down and is reduced mod `2^width`: the quotient `q` is the
integer with `b = v * q + m` where the remainder `m` lies between 0 and `v`. -/
theorem floordiv_mod (b : BS) (h : b.WF) (o : PyVal) (v : Int) (ho : Operand o v) (hv : v ≠ 0) :
    ∃ r q m, b.floordiv o = .ok r ∧ r.WF ∧ r.width = b.width ∧
      (b.value : Int) = v * q + m ∧ (0 < v → 0 ≤ m ∧ m < v) ∧ (v < 0 → v < m ∧ m ≤ 0) ∧
      (r.value : Int) = q % 2 ^ b.width := by
  refine ⟨ofInt (Int.fdiv b.value v) b.width, Int.fdiv b.value v, Int.fmod b.value v, ?_, ofInt_wf _ _, rfl,
    ?_, ?_, ?_, ofInt_value _ _⟩
  · rw [BS.floordiv, copy_wf h, ifloordiv_some h (operand_of ho) hv]
  · exact (Int.mul_fdiv_add_fmod _ _).symm
  · intro hp; exact ⟨Int.fmod_nonneg_of_pos _ hp, Int.fmod_lt_of_pos _ hp⟩
  · intro hn
    have e : Int.fmod (b.value : Int) v = _ := Int.fmod_eq_emod
    have h1 := Int.emod_nonneg (b.value : Int) hv
    have h2 := Int.emod_lt (b.value : Int) hv
    have h3 : (v ∣ (b.value : Int)) ↔ (b.value : Int) % v = 0 := Int.dvd_iff_emod_eq_zero
    rw [e]
    split
    · rename_i h4
      rcases h4 with h4 | h4
      · omega
      · rw [h3] at h4; omega
    · rename_i h4
      have : ¬ (v ∣ (b.value : Int)) := fun hd => h4 (Or.inr hd)
      rw [h3] at this
      omega

/-- **C08.** Division by zero raises. -/
theorem floordiv_zero (b : BS) (o : PyVal) (ho : Operand o 0) :
    b.floordiv o = .error .zeroDivisionError := by
  rw [BS.floordiv, BS.ifloordiv, operand_of ho, okBind]; rfl

/-- **C08.** The in-place forms leave in the object what the others return. -/
theorem inplace_agrees (b : BS) (h : b.WF) (o : PyVal) :
    b.iadd o = b.add o ∧ b.isub o = b.sub o ∧ b.imul o = b.mul o ∧ b.ifloordiv o = b.floordiv o := by
  simp only [BS.add, BS.sub, BS.mul, BS.floordiv, copy_wf h, and_self]

/-- **C08.** An operand of another type is not refused, as it is for Python's own
numbers: the methods quietly return the left operand. -/
theorem unsupported_operand_ignored (b : BS) (h : b.WF) :
    b.add .none = .ok b ∧ b.sub .other = .ok b ∧ b.mul .other = .ok b ∧ b.floordiv .other = .ok b := by
  simp only [BS.add, BS.sub, BS.mul, BS.floordiv, copy_wf h]
  exact ⟨rfl, rfl, rfl, rfl⟩

/-- **C08.** Addition is commutative on bitstrings of the same width, and subtracting
what was added gives the value back. -/
theorem add_sub_cancel (b : BS) (h : b.WF) (o : PyVal) (v : Int) (ho : Operand o v) :
    ∃ r, b.add o = .ok r ∧ r.sub o = .ok b := by
  obtain ⟨r, e, hw, hwd, hv⟩ := add_mod b h o v ho
  refine ⟨r, e, ?_⟩
  obtain ⟨r', e', hw', hwd', hv'⟩ := sub_mod r hw o v ho
  rw [e']
  congr 1
  apply ext_bv hw' h (by omega)
  have hc : ((2 ^ b.width : Nat) : Int) = (2 : Int) ^ b.width := by simp
  have h1 := h.1
  rw [hwd, hv, Int.emod_sub_emod, Int.add_sub_cancel,
    Int.emod_eq_of_lt (by omega) (by omega)] at hv'
  omega

example : (bv 8 200).add (.int 100) = .ok (bv 8 44) ∧ (bv 8 3).sub (.bs (bv 4 5)) = .ok (bv 8 254) ∧
    (bv 8 7).floordiv (.int (-2)) = .ok (bv 8 252) ∧ Operand (.int 100) 100 :=
  ⟨by decide, by decide, by decide, Or.inl rfl⟩

/-- The width a number gets when it stands to the left of an operator. -/
def intWidth (n : Int) : Nat := if n > 2 ^ 32 then 64 else 32

theorem init_int (n : Int) : init (.int n) = .ok (ofInt n (intWidth n)) := by
  have h : initRaw (.int n) = .ok (intWidth n, n) := rfl
  unfold init
  rw [h, okBind]
  have h2 : ¬ ((none : Option Int).getD (intWidth n) < 0) := by simp only [Option.getD_none]; omega
  simp only [if_neg h2]
  rfl

/-- **C08.** With a number on the left, `n + b`, `n - b`, `n * b`: the result of the
arithmetic modulo two to the width the number gets (32, or 64 above `2^32`). -/
theorem reflected_mod (b : BS) (n : Int) :
    (∃ r, b.radd (.int n) = .ok r ∧ r.WF ∧ r.width = intWidth n ∧ (r.value : Int) = (n + b.value) % 2 ^ intWidth n) ∧
    (∃ r, b.rsub (.int n) = .ok r ∧ r.WF ∧ r.width = intWidth n ∧ (r.value : Int) = (n - b.value) % 2 ^ intWidth n) ∧
    (∃ r, b.rmul (.int n) = .ok r ∧ r.WF ∧ r.width = intWidth n ∧ (r.value : Int) = (n * b.value) % 2 ^ intWidth n) := by
  have hb : Operand (.bs b) b.value := .inr (.inl ⟨b, rfl, rfl⟩)
  have hv : ((ofInt n (intWidth n)).value : Int) = n % 2 ^ intWidth n := ofInt_value _ _
  refine ⟨?_, ?_, ?_⟩
  · obtain ⟨r, e, h1, h2, h3⟩ := add_mod _ (ofInt_wf n (intWidth n)) _ _ hb
    refine ⟨r, by rw [BS.radd, init_int, okBind]; exact e, h1, h2, ?_⟩
    rw [h3, hv]
    exact Int.emod_add_emod ..
  · obtain ⟨r, e, h1, h2, h3⟩ := sub_mod _ (ofInt_wf n (intWidth n)) _ _ hb
    refine ⟨r, by rw [BS.rsub, init_int, okBind]; exact e, h1, h2, ?_⟩
    rw [h3, hv]
    exact Int.emod_sub_emod ..
  · obtain ⟨r, e, h1, h2, h3⟩ := mul_mod _ (ofInt_wf n (intWidth n)) _ _ hb
    refine ⟨r, by rw [BS.rmul, init_int, okBind]; exact e, h1, h2, ?_⟩
    rw [h3, hv]
    show n % 2 ^ intWidth n * b.value % 2 ^ intWidth n = _
    rw [Int.mul_emod, Int.emod_emod, ← Int.mul_emod]

/-- **C08.** `n // b` divides the number reduced to its width, rounding down. -/
theorem reflected_div (b : BS) (n : Int) (hb : b.value ≠ 0) :
    ∃ r, b.rfloordiv (.int n) = .ok r ∧ r.WF ∧ r.width = intWidth n ∧ (r.value : Int) = n % 2 ^ intWidth n / b.value := by
  have ho : Operand (.bs b) b.value := .inr (.inl ⟨b, rfl, rfl⟩)
  have hv : ((ofInt n (intWidth n)).value : Int) = n % 2 ^ intWidth n := ofInt_value _ _
  refine ⟨ofInt (Int.fdiv (ofInt n (intWidth n)).value b.value) (intWidth n), ?_, ofInt_wf _ _, rfl, ?_⟩
  · rw [BS.rfloordiv, init_int, okBind, BS.floordiv, copy_wf (ofInt_wf _ _),
      ifloordiv_some (ofInt_wf _ _) (operand_of ho) (by omega)]
    rfl
  · rw [ofInt_value, hv, Int.fdiv_eq_ediv_of_nonneg _ (by omega)]
    have h0 : (0 : Int) < 2 ^ intWidth n := Int.pow_pos (by decide)
    have h1 := Int.emod_nonneg n (Int.ne_of_gt h0)
    have h2 := Int.emod_lt_of_pos n h0
    apply Int.emod_eq_of_lt
    · exact Int.ediv_nonneg h1 (by omega)
    · exact Int.lt_of_le_of_lt (Int.ediv_le_self _ h1) h2

example : (bv 8 3).rsub (.int 10) = .ok (bv 32 7) ∧ (bv 8 10).rsub (.int 3) = .ok (bv 32 0xfffffff9) ∧
    (bv 8 3).rfloordiv (.int 10) = .ok (bv 32 3) := by decide

end C08

namespace C09

/-- Bit `i` of an integer in two's complement. -/
def intBit (v : Int) (i : Nat) : Bool := decide (v / 2 ^ i % 2 = 1)

theorem intBit_ofNat (n i : Nat) : intBit (n : Int) i = n.testBit i := by
  unfold intBit
  rw [Nat.testBit_eq_decide_div_mod_eq]
  have : (n : Int) / 2 ^ i % 2 = ((n / 2 ^ i % 2 : Nat) : Int) := by simp
  rw [this]
  simp only [decide_eq_decide]
  omega

theorem intBit_negSucc (n i : Nat) : intBit (Int.negSucc n) i = !n.testBit i := by
  unfold intBit
  rw [Nat.testBit_eq_decide_div_mod_eq]
  have hp : (0 : Int) < 2 ^ i := Int.pow_pos (by decide)
  have e : Int.negSucc n / 2 ^ i = -((n / 2 ^ i : Nat) : Int) - 1 := by
    rw [Int.negSucc_ediv _ hp]
    have : ((n / 2 ^ i : Nat) : Int) = (n : Int) / 2 ^ i := by simp
    rw [this]; show -((n : Int) / 2 ^ i + 1) = _; omega
  rw [e]
  generalize n / 2 ^ i = q
  have h2 : q % 2 = 0 ∨ q % 2 = 1 := by omega
  rcases h2 with h2 | h2
  · have : (-(q : Int) - 1) % 2 = 1 := by omega
    simp [this, h2]
  · have : (-(q : Int) - 1) % 2 = 0 := by omega
    simp [this, h2]

theorem intBit_ofNat' (n i : Nat) : intBit (Int.ofNat n) i = n.testBit i := intBit_ofNat n i

theorem intBit_and (a b : Int) (i : Nat) : intBit (pyAnd a b) i = (intBit a i && intBit b i) := by
  cases a with
  | ofNat m => cases b with
    | ofNat n => simp only [pyAnd, intBit_ofNat', Nat.testBit_and]
    | negSucc n => simp only [pyAnd, intBit_ofNat', intBit_negSucc, testBit_natAndNot]
  | negSucc m => cases b with
    | ofNat n =>
      simp only [pyAnd, intBit_ofNat', intBit_negSucc, testBit_natAndNot, Bool.and_comm]
    | negSucc n => simp only [pyAnd, intBit_negSucc, Nat.testBit_or, Bool.not_or]

theorem intBit_or (a b : Int) (i : Nat) : intBit (pyOr a b) i = (intBit a i || intBit b i) := by
  cases a with
  | ofNat m => cases b with
    | ofNat n => simp only [pyOr, intBit_ofNat', Nat.testBit_or]
    | negSucc n =>
      simp only [pyOr, intBit_ofNat', intBit_negSucc, testBit_natAndNot]
      cases m.testBit i <;> cases n.testBit i <;> rfl
  | negSucc m => cases b with
    | ofNat n =>
      simp only [pyOr, intBit_ofNat', intBit_negSucc, testBit_natAndNot]
      cases m.testBit i <;> cases n.testBit i <;> rfl
    | negSucc n => simp only [pyOr, intBit_negSucc, Nat.testBit_and, Bool.not_and]

theorem intBit_xor (a b : Int) (i : Nat) : intBit (pyXor a b) i = (intBit a i ^^ intBit b i) := by
  cases a with
  | ofNat m => cases b with
    | ofNat n => simp only [pyXor, intBit_ofNat', Nat.testBit_xor]
    | negSucc n =>
      simp only [pyXor, intBit_ofNat', intBit_negSucc, Nat.testBit_xor]
      cases m.testBit i <;> cases n.testBit i <;> rfl
  | negSucc m => cases b with
    | ofNat n =>
      simp only [pyXor, intBit_ofNat', intBit_negSucc, Nat.testBit_xor]
      cases m.testBit i <;> cases n.testBit i <;> rfl
    | negSucc n =>
      simp only [pyXor, intBit_ofNat', intBit_negSucc, Nat.testBit_xor]
      cases m.testBit i <;> cases n.testBit i <;> rfl

theorem testBit_maskTo (v : Int) (w k : Nat) :
    (maskTo v w).testBit k = (decide (k < w) && intBit v k) := by
  have h : intBit ((maskTo v w : Nat) : Int) k = (maskTo v w).testBit k := intBit_ofNat _ _
  rw [← h]
  have : ((maskTo v w : Nat) : Int) = pyAnd v ((2 : Int) ^ w - 1) := by
    unfold maskTo
    rw [intMask]
    cases v <;> simp only [pyAnd, Int.ofNat_eq_natCast, Int.toNat_natCast]
  rw [this, intBit_and, intMask, intBit_ofNat', Nat.testBit_two_pow_sub_one, Bool.and_comm]

/-- **C09.** `&` works bit by bit and keeps the left operand's width; the right operand
may be a bitstring, an integer of either sign, or a 0/1 text. -/
theorem and_bits (b : BS) (h : b.WF) (o : PyVal) (v : Int) (ho : C08.Operand o v) :
    ∃ r, b.and o = .ok r ∧ r.WF ∧ r.width = b.width ∧
      ∀ k, r.value.testBit k = (b.value.testBit k && intBit v k) := by
  have e : b.and o = .ok (ofInt (pyAnd b.value v) b.width) := by
    rcases ho with rfl | ⟨c, rfl, rfl⟩ | ⟨s, c, rfl, hc, rfl⟩
    · rfl
    · rfl
    · simp only [BS.and, bitOperand, hc, okBind]
  refine ⟨_, e, ofInt_wf _ _, rfl, ?_⟩
  intro k
  show (maskTo _ _).testBit k = _
  rw [testBit_maskTo, intBit_and, intBit_ofNat]
  by_cases hk : k < b.width
  · simp [hk]
  · rw [testBit_of_ge h (by omega)]; simp

/-- **C09.** `|` works bit by bit. With a bitstring the result is as wide as the wider
operand, otherwise as wide as the left one. -/
theorem or_bits (b c : BS) (hb : b.WF) (hc : c.WF) :
    ∃ r, b.or (.bs c) = .ok r ∧ r.WF ∧ r.width = max b.width c.width ∧
      ∀ k, r.value.testBit k = (b.value.testBit k || c.value.testBit k) := by
  refine ⟨_, or_bs b c, bv_wf _ _, rfl, ?_⟩
  intro k
  rw [bv_value, Nat.testBit_mod_two_pow, Nat.testBit_or]
  by_cases hk : k < max b.width c.width
  · simp [hk]
  · rw [testBit_of_ge hb (by omega), testBit_of_ge hc (by omega)]; simp

/-- **C09.** `^` works bit by bit. -/
theorem xor_bits (b c : BS) (hb : b.WF) (hc : c.WF) :
    ∃ r, b.xor (.bs c) = .ok r ∧ r.WF ∧ r.width = max b.width c.width ∧
      ∀ k, r.value.testBit k = (b.value.testBit k ^^ c.value.testBit k) := by
  refine ⟨_, xor_bs b c, bv_wf _ _, rfl, ?_⟩
  intro k
  rw [bv_value, Nat.testBit_mod_two_pow, Nat.testBit_xor]
  by_cases hk : k < max b.width c.width
  · simp [hk]
  · rw [testBit_of_ge hb (by omega), testBit_of_ge hc (by omega)]; simp

/-- **C09.** `|` and `^` with an integer: bit by bit within the left operand's width. -/
theorem or_xor_int_bits (b : BS) (v : Int) :
    (∃ r, b.or (.int v) = .ok r ∧ r.WF ∧ r.width = b.width ∧
      ∀ k, k < b.width → r.value.testBit k = (b.value.testBit k || intBit v k)) ∧
    (∃ r, b.xor (.int v) = .ok r ∧ r.WF ∧ r.width = b.width ∧
      ∀ k, k < b.width → r.value.testBit k = (b.value.testBit k ^^ intBit v k)) := by
  refine ⟨⟨_, rfl, ofInt_wf _ _, rfl, ?_⟩, ⟨_, rfl, ofInt_wf _ _, rfl, ?_⟩⟩
  · intro k hk
    show (maskTo _ _).testBit k = _
    rw [testBit_maskTo, intBit_or, intBit_ofNat]; simp [hk]
  · intro k hk
    show (maskTo _ _).testBit k = _
    rw [testBit_maskTo, intBit_xor, intBit_ofNat]; simp [hk]

/-- **C09.** The complement flips every bit. -/
theorem invert_bits (b : BS) (h : b.WF) :
    b.inverted.width = b.width ∧ b.invert = b.inverted ∧
      ∀ k, k < b.width → b.inverted.value.testBit k = !b.value.testBit k := by
  refine ⟨rfl, rfl, ?_⟩
  intro k hk
  have e : 2 ^ b.width - 1 - b.value = 2 ^ b.width - (b.value + 1) := by omega
  rw [inverted_value h, e, Nat.testBit_two_pow_sub_succ h.1]
  simp [hk]

/-- **C09.** `<<` moves bits up and drops those that leave the width. -/
theorem shl_bits (b : BS) (n : Nat) :
    ∃ r, b.shl n = .ok r ∧ r.WF ∧ r.width = b.width ∧
      ∀ k, r.value.testBit k = (decide (k < b.width) && (decide (n ≤ k) && b.value.testBit (k - n))) := by
  refine ⟨_, shl_nat b n, bv_wf _ _, rfl, ?_⟩
  intro k
  rw [bv_value, Nat.testBit_mod_two_pow, ← Nat.shiftLeft_eq, Nat.testBit_shiftLeft]

/-- **C09.** `>>` moves bits down and fills with zeros. -/
theorem shr_bits (b : BS) (h : b.WF) (n : Nat) :
    ∃ r, b.shr n = .ok r ∧ r.WF ∧ r.width = b.width ∧
      ∀ k, r.value.testBit k = b.value.testBit (k + n) := by
  refine ⟨_, shr_nat b n, bv_wf _ _, rfl, ?_⟩
  intro k
  rw [bv_value, Nat.testBit_mod_two_pow, Nat.testBit_div_two_pow]
  by_cases hk : k < b.width
  · simp [hk]
  · rw [testBit_of_ge h (by omega)]; simp

/-- **C09.** Shifting by a negative amount raises. -/
theorem shift_negative (b : BS) (n : Int) (hn : n < 0) :
    b.shl n = .error .valueError ∧ b.shr n = .error .valueError := by
  constructor
  · simp only [shl, pyShl]; rw [if_pos hn]; rfl
  · simp only [shr, pyShr]; rw [if_pos hn]; rfl

example : (bv 4 0b1100).and (.int (-6)) = .ok (bv 4 0b1000) ∧
    (bv 4 0b1100).xor (.bs (bv 6 0b101010)) = .ok (bv 6 0b100110) ∧
    (bv 4 0b1100).shl 1 = .ok (bv 4 0b1000) ∧ (bv 4 0b1100).inverted = bv 4 0b0011 := by decide

/-- **C09.** With a number on the left the operators work bit by bit on the number, taken
with the width it gets. -/
theorem reflected_bits (b : BS) (h : b.WF) (n : Int) :
    (∃ r, b.rand (.int n) = .ok r ∧ r.WF ∧ r.width = C08.intWidth n ∧
      ∀ k, k < C08.intWidth n → r.value.testBit k = (intBit n k && b.value.testBit k)) ∧
    (∃ r, b.rxor (.int n) = .ok r ∧ r.WF ∧ r.width = max (C08.intWidth n) b.width ∧
      ∀ k, k < C08.intWidth n → r.value.testBit k = (intBit n k ^^ b.value.testBit k)) ∧
    (∃ r, b.ror (.int n) = .ok r ∧ r.WF ∧ r.width = max (C08.intWidth n) b.width ∧
      ∀ k, k < C08.intWidth n → r.value.testBit k = (intBit n k || b.value.testBit k)) := by
  have hk : ∀ k, k < C08.intWidth n → (ofInt n (C08.intWidth n)).value.testBit k = intBit n k := by
    intro k hk
    show (maskTo _ _).testBit k = _
    rw [testBit_maskTo]
    simp [hk]
  refine ⟨?_, ?_, ?_⟩
  · obtain ⟨r, e, h1, h2, h3⟩ := and_bits _ (ofInt_wf n (C08.intWidth n)) (.bs b) b.value (.inr (.inl ⟨b, rfl, rfl⟩))
    refine ⟨r, by rw [BS.rand, C08.init_int, okBind]; exact e, h1, h2, fun k hk' => ?_⟩
    rw [h3, hk k hk', intBit_ofNat]
  · obtain ⟨r, e, h1, h2, h3⟩ := xor_bits _ b (ofInt_wf n (C08.intWidth n)) h
    exact ⟨r, by rw [BS.rxor, C08.init_int, okBind]; exact e, h1, h2, fun k hk' => by rw [h3, hk k hk']⟩
  · obtain ⟨r, e, h1, h2, h3⟩ := or_bits _ b (ofInt_wf n (C08.intWidth n)) h
    exact ⟨r, by rw [BS.ror, C08.init_int, okBind]; exact e, h1, h2, fun k hk' => by rw [h3, hk k hk']⟩

example : (bv 4 0b1100).rand (.int 0b1010) = .ok (bv 32 0b1000) ∧ (bv 4 0b1100).rxor (.int 0b1010) = .ok (bv 32 0b110) := by decide

end C09

namespace C10

/-- **C10.** `zero_extend` keeps the unsigned value. -/
theorem zero_extend_value (b : BS) (h : b.WF) (w : Nat) (hw : b.width ≤ w) :
    ∃ r, b.zeroExtend w = .ok r ∧ r.WF ∧ r.width = w ∧ r.unsigned = b.unsigned := by
  refine ⟨_, zeroExtend_eq h w hw, bv_wf _ _, rfl, ?_⟩
  show _ % _ = _
  exact Nat.mod_eq_of_lt (Nat.lt_of_lt_of_le h.1 (Nat.pow_le_pow_right (by decide) hw))

/-- **C10.** `sign_extend` keeps the signed value. -/
theorem sign_extend_value (b : BS) (h : b.WF) (w : Nat) (hw : b.width ≤ w) (h2 : 2 ≤ b.width) :
    ∃ r, b.signExtend w = .ok r ∧ r.WF ∧ r.width = w ∧ r.signed.1 = b.signed.1 := by
  refine ⟨_, signExtend_eq h w hw (by omega), bv_wf _ _, rfl, ?_⟩
  have hpw : 2 ^ b.width = 2 * 2 ^ (b.width - 1) := by
    rw [← Nat.pow_succ']; congr 1; omega
  have hpw' : 2 ^ w = 2 * 2 ^ (w - 1) := by
    rw [← Nat.pow_succ']; congr 1; omega
  have hmono : 2 ^ b.width ≤ 2 ^ w := Nat.pow_le_pow_right (by decide) hw
  have hc : ((2 ^ b.width : Nat) : Int) = (2 : Int) ^ b.width := by simp
  have hc' : ((2 ^ w : Nat) : Int) = (2 : Int) ^ w := by simp
  have h1 := h.1
  by_cases hn : b.neg
  · rw [signed_neg h h2 hn]
    unfold neg at hn
    rw [if_pos hn]
    have hlt : b.value + (2 ^ w - 2 ^ b.width) < 2 ^ w := by omega
    have hneg : (bv w (b.value + (2 ^ w - 2 ^ b.width))).neg := by
      unfold neg; rw [bv_value, bv_width, Nat.mod_eq_of_lt hlt]; omega
    rw [signed_neg (bv_wf _ _) (by rw [bv_width]; omega) hneg, bv_value, bv_width, Nat.mod_eq_of_lt hlt]
    dsimp only
    omega
  · rw [signed_nonneg h h2 hn]
    unfold neg at hn
    rw [if_neg hn, Nat.add_zero]
    have hlt : b.value < 2 ^ w := by omega
    have hneg : ¬ (bv w b.value).neg := by
      unfold neg; rw [bv_value, bv_width, Nat.mod_eq_of_lt hlt]; omega
    rw [signed_nonneg (bv_wf _ _) (by rw [bv_width]; omega) hneg, bv_value, Nat.mod_eq_of_lt hlt]

/-- **C10.** Bit by bit: the low bits stay, the new ones copy the top bit (for
`zero_extend`, are zero). -/
theorem extend_bits (b : BS) (h : b.WF) (w : Nat) (hw : b.width ≤ w) (h0 : 0 < b.width) :
    (∃ r, b.signExtend w = .ok r ∧ ∀ k, k < w →
      r.value.testBit k = b.value.testBit (min k (b.width - 1))) ∧
    (∃ r, b.zeroExtend w = .ok r ∧ ∀ k, r.value.testBit k = b.value.testBit k) := by
  constructor
  · refine ⟨_, signExtend_eq h w hw h0, ?_⟩
    intro k hk
    have h1 := h.1
    have hpw : 2 ^ b.width = 2 * 2 ^ (b.width - 1) := by
      rw [← Nat.pow_succ']; congr 1; omega
    have htop : b.value.testBit (b.width - 1) = decide (2 ^ (b.width - 1) ≤ b.value) := by
      rw [Nat.testBit_eq_decide_div_mod_eq]
      have hq := Nat.two_pow_pos (b.width - 1)
      simp only [decide_eq_decide]
      generalize 2 ^ (b.width - 1) = p at *
      by_cases hle : p ≤ b.value
      · have e : b.value / p = 1 := by
          rw [Nat.div_eq_iff hq]; omega
        rw [e]; simp [hle]
      · rw [Nat.div_eq_of_lt (by omega)]; simp; omega
    rw [bv_value, Nat.testBit_mod_two_pow]
    simp only [hk, decide_true, Bool.true_and]
    by_cases hle : 2 ^ (b.width - 1) ≤ b.value
    · rw [if_pos hle]
      have e : 2 ^ w - 2 ^ b.width = (2 ^ (w - b.width) - 1) * 2 ^ b.width := by
        rw [Nat.sub_mul, ← Nat.pow_add, Nat.one_mul]
        congr 2; omega
      rw [Nat.add_comm, e, testBit_mul_add _ _ _ _ h1, Nat.testBit_two_pow_sub_one]
      by_cases hkb : k < b.width
      · rw [if_pos hkb, Nat.min_eq_left (by omega)]
      · rw [if_neg hkb, Nat.min_eq_right (by omega), htop]
        simp [hle]; omega
    · rw [if_neg hle, Nat.add_zero]
      by_cases hkb : k < b.width
      · rw [Nat.min_eq_left (by omega)]
      · rw [Nat.min_eq_right (by omega), htop, testBit_of_ge h (by omega)]
        simp [hle]
  · refine ⟨_, zeroExtend_eq h w hw, ?_⟩
    intro k
    rw [bv_value, Nat.testBit_mod_two_pow]
    by_cases hk : k < w
    · simp [hk]
    · rw [testBit_of_ge h (by omega)]; simp

/-- **C10.** Narrowing is refused. -/
theorem extend_refuses (b : BS) (w : Int) (hw : w < b.width) :
    b.signExtend w = .error .valueError ∧ b.zeroExtend w = .error .valueError := by
  constructor
  · unfold signExtend; rw [if_pos hw]
  · unfold zeroExtend; rw [if_pos hw]

example : (bv 4 0b1010).signExtend 8 = .ok (bv 8 0b11111010) ∧ (bv 4 0b1010).zeroExtend 8 = .ok (bv 8 0b1010) ∧
    (bv 8 0b11111010).signed.1 = -6 := by decide

end C10
namespace C05

/-- **C05.** A number assigned to a slice counts as 32 bits, or as 64 bits if it is above
`2^32`: these bits of it are assigned, and zeros above them. -/
theorem slice_assignment_number (b : BS) (s : PySlice) (start stop : Int) (hs : s.indices b.width = .ok (start, stop, 1)) (hle : start ≤ stop)
    (v : Int) : ∃ r, b.setSlice s (.int v) = .ok r ∧ r.width = b.width ∧ r.mask = b.mask ∧
      ∀ k : Nat, r.value.testBit k = if start ≤ k ∧ k < stop
        then decide ((k - start).toNat < C08.intWidth v) && C09.intBit v (k - start).toNat else b.value.testBit k := by
  have e : b.setSlice s (.int v) = b.setSlice s (.bs (ofInt v (C08.intWidth v))) := by
    simp only [setSlice, setSliceArg, C08.init_int]
  obtain ⟨r, h1, h2, h3, h4⟩ := (slice_assignment_any b s start stop hs (ofInt v (C08.intWidth v))).1 hle
  refine ⟨r, e.trans h1, h2, h3, fun k => ?_⟩
  rw [h4]
  split
  · show (maskTo _ _).testBit _ = _
    rw [C09.testBit_maskTo]
  · rfl

/-- So a negative number assigned to more than 32 bits is not extended: `b[0:40] = -1`. -/
example : (bv 40 0).setSlice ⟨some 0, some 40, none⟩ (.int (-1)) = .ok (bv 40 0xffffffff) ∧
    (bv 40 0).setSlice ⟨some 0, some 32, none⟩ (.int (-2)) = .ok (bv 40 0xfffffffe) := by decide

end C05

end Verif
