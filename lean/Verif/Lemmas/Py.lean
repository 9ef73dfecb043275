import Verif.Py

/-! Lemmas about Python's integer operators. -/

namespace Verif

/-- What it takes for a sequence of two computations to succeed. -/
theorem bindOk {α β : Type} {x : PyRes α} {f : α → PyRes β} {r : β} :
    (x >>= f) = .ok r ↔ ∃ a, x = .ok a ∧ f a = .ok r := by
  cases x with
  | error e => simp [bind, Except.bind]
  | ok a => simp [bind, Except.bind]

@[simp] theorem okBind {α β : Type} (a : α) (f : α → PyRes β) : ((Except.ok a : PyRes α) >>= f) = f a := rfl
@[simp] theorem errBind {α β : Type} (e : PyErr) (f : α → PyRes β) :
    ((Except.error e : PyRes α) >>= f) = .error e := rfl

theorem testBit_natAndNot (m n i : Nat) :
    (natAndNot m n).testBit i = (m.testBit i && !n.testBit i) := by
  unfold natAndNot
  rw [Nat.testBit_xor, Nat.testBit_and]
  cases m.testBit i <;> cases n.testBit i <;> rfl

theorem natAndNot_le (m n : Nat) : natAndNot m n ≤ m := by
  apply Nat.le_of_testBit
  intro i h
  rw [testBit_natAndNot] at h
  cases hm : m.testBit i <;> simp_all

theorem natAndNot_mask (w m : Nat) : natAndNot (2 ^ w - 1) m = 2 ^ w - 1 - m % 2 ^ w := by
  have h : m % 2 ^ w < 2 ^ w := Nat.mod_lt _ (Nat.two_pow_pos w)
  have e : 2 ^ w - 1 - m % 2 ^ w = 2 ^ w - (m % 2 ^ w + 1) := by omega
  rw [e]
  apply Nat.eq_of_testBit_eq
  intro i
  rw [testBit_natAndNot, Nat.testBit_two_pow_sub_succ h, Nat.testBit_two_pow_sub_one,
    Nat.testBit_mod_two_pow]
  cases decide (i < w) <;> cases m.testBit i <;> rfl

theorem intMask (w : Nat) : (2 : Int) ^ w - 1 = Int.ofNat (2 ^ w - 1) := by
  have h : 0 < 2 ^ w := Nat.two_pow_pos w
  have : ((2 ^ w : Nat) : Int) = (2 : Int) ^ w := by simp
  rw [← this]
  simp only [Int.ofNat_eq_natCast]
  omega

/-- Masking with `2**w - 1` is reduction mod `2**w`, for integers of either sign. -/
theorem maskTo_eq (v : Int) (w : Nat) : maskTo v w = (v % 2 ^ w).toNat := by
  have hp : 0 < 2 ^ w := Nat.two_pow_pos w
  have hc : ((2 ^ w : Nat) : Int) = (2 : Int) ^ w := by simp
  unfold maskTo
  rw [intMask]
  cases v with
  | ofNat m =>
    simp only [pyAnd, Nat.and_two_pow_sub_one_eq_mod, Int.ofNat_eq_natCast, Int.toNat_natCast]
    rw [← hc, ← Int.natCast_emod, Int.toNat_natCast]
  | negSucc m =>
    simp only [pyAnd, natAndNot_mask, Int.ofNat_eq_natCast, Int.toNat_natCast]
    rw [← hc]
    have h : m % 2 ^ w < 2 ^ w := Nat.mod_lt _ hp
    have e : (Int.negSucc m) % ((2 ^ w : Nat) : Int) = ((2 ^ w - 1 - m % 2 ^ w : Nat) : Int) := by
      rw [Int.negSucc_emod _ (by omega)]
      have : ((m : Int) % ((2 ^ w : Nat) : Int)) = ((m % 2 ^ w : Nat) : Int) := by
        rw [Int.natCast_emod]
      rw [this]; omega
    rw [e, Int.toNat_natCast]

theorem maskTo_nat (n w : Nat) : maskTo (n : Int) w = n % 2 ^ w := by
  rw [maskTo_eq]
  have hc : ((2 ^ w : Nat) : Int) = (2 : Int) ^ w := by simp
  rw [← hc, ← Int.natCast_emod, Int.toNat_natCast]

theorem maskTo_lt (v : Int) (w : Nat) : maskTo v w < 2 ^ w := by
  rw [maskTo_eq]
  have hp : (0 : Int) < 2 ^ w := by
    have : ((2 ^ w : Nat) : Int) = (2 : Int) ^ w := by simp
    rw [← this]; have := Nat.two_pow_pos w; omega
  have h1 := Int.emod_lt_of_pos v hp
  have h2 := Int.emod_nonneg v (Int.ne_of_gt hp)
  have hc : ((2 ^ w : Nat) : Int) = (2 : Int) ^ w := by simp
  omega

/-- `&` with the mask of a bitstring. -/
theorem pyAnd_mask (v : Int) (w : Nat) : (pyAnd v ((2 ^ w - 1 : Nat) : Int)).toNat = maskTo v w := by
  unfold maskTo; rw [intMask]; rfl

theorem pyAnd_one (v : Int) : (pyAnd v 1).toNat = (v % 2).toNat := by
  have := maskTo_eq v 1
  unfold maskTo at this
  simpa using this

end Verif
