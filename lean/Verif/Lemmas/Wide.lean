import Verif.Props.C36to39
import Verif.Spec.Meaning

/-!
# The narrow and the wide words of instructions

For C104. The proofs find the fields of both words by division.
-/

set_option linter.unusedSimpArgs false

namespace Verif
open BS Thumb

namespace C104

/-- The next instruction is not the one that follows, if this does not depend on the state. -/
def goes : Act → Option Bool
  | .branch _ _ => none
  | .bl _ | .blx _ | .bx _ => some true
  | .pop r | .ldm _ _ r => some (r.getLsbD 15)
  | _ => some false

/-! ### The encodings that have a narrow and a wide form -/

/-- The words from `first` on that are narrow forms, with the wide form of each. -/
structure Family where
  narrow : Enc
  wide : Enc
  first : Nat
  count : Nat
  /-- The wide form; the second halfword is the high one. -/
  word : Nat → Nat
  /-- The narrow forms that have a wide one. -/
  only : Nat → Bool := fun _ => true

/-- Two halfwords. -/
def both (x y : Nat) : Nat := x + 65536 * y

/-- The number of registers among the low eight. -/
def members (w : Nat) : Nat := ((List.range 8).filter fun k => (w % 256).testBit k).length

/-- The register is in the list. -/
abbrev inList (w n : Nat) : Prop := (w % 256).testBit n = true

/-- The number of the only register of a list. -/
def member (w : Nat) : Nat := ((List.range 8).find? fun k => (w % 256).testBit k).getD 0

/-- The encodings with a narrow and a wide form. Some have two ways to be wide, or only some of the words have a wide form. -/
def families : List Family :=
  [{ narrow := Thumb.rsbs, wide := Thumb.rsbW, first := 0x4240, count := 64, word := fun w => both (0xf1d0 + w / 8 % 8) (w % 8 * 256) },
   { narrow := Thumb.adrT1, wide := Thumb.adrAddW, first := 0xa000, count := 2048, word := fun w => both (0xf20f) (w % 256 / 64 * 4096 + w / 256 % 8 * 256 + w % 64 * 4) },
   { narrow := Thumb.uxtb, wide := Thumb.uxtbW, first := 0xb2c0, count := 64, word := fun w => both (0xfa5f) (0xf080 + w % 8 * 256 + w / 8 % 8) },
   { narrow := Thumb.uxth, wide := Thumb.uxthW, first := 0xb280, count := 64, word := fun w => both (0xfa1f) (0xf080 + w % 8 * 256 + w / 8 % 8) },
   { narrow := Thumb.sxtb, wide := Thumb.sxtbW, first := 0xb240, count := 64, word := fun w => both (0xfa4f) (0xf080 + w % 8 * 256 + w / 8 % 8) },
   { narrow := Thumb.sxth, wide := Thumb.sxthW, first := 0xb200, count := 64, word := fun w => both (0xfa0f) (0xf080 + w % 8 * 256 + w / 8 % 8) },
   { narrow := Thumb.rev, wide := Thumb.revW, first := 0xba00, count := 64, word := fun w => both (0xfa90 + w / 8 % 8) (0xf080 + w % 8 * 256 + w / 8 % 8) },
   { narrow := Thumb.rev16, wide := Thumb.rev16W, first := 0xba40, count := 64, word := fun w => both (0xfa90 + w / 8 % 8) (0xf090 + w % 8 * 256 + w / 8 % 8) },
   { narrow := Thumb.revsh, wide := Thumb.revshW, first := 0xbac0, count := 64, word := fun w => both (0xfa90 + w / 8 % 8) (0xf0b0 + w % 8 * 256 + w / 8 % 8) },
   { narrow := Thumb.movReg, wide := Thumb.movRegW, first := 0x4600, count := 256, word := fun w => both (0xea4f) ((w / 128 % 2 * 8 + w % 8) * 256 + w / 8 % 16) },
   { narrow := Thumb.movsReg, wide := Thumb.movRegW, first := 0, count := 64, word := fun w => both (0xea5f) (w % 8 * 256 + w / 8 % 8) },
   { narrow := Thumb.movsImm, wide := Thumb.movImmW, first := 0x2000, count := 2048, word := fun w => both (0xf05f) (w / 256 % 8 * 256 + w % 256) },
   { narrow := Thumb.cmpImm, wide := Thumb.cmpImmW, first := 0x2800, count := 2048, word := fun w => both (0xf1b0 + w / 256 % 8) (0x0f00 + w % 256) },
   { narrow := Thumb.tst, wide := Thumb.tstW, first := 0x4200, count := 64, word := fun w => both (0xea10 + w % 8) (0x0f00 + w / 8 % 8) },
   { narrow := Thumb.strReg, wide := Thumb.strRegW, first := 0x5000, count := 512, word := fun w => both (0xf840 + w / 8 % 8) (w % 8 * 4096 + w / 64 % 8) },
   { narrow := Thumb.strhReg, wide := Thumb.strhRegW, first := 0x5200, count := 512, word := fun w => both (0xf820 + w / 8 % 8) (w % 8 * 4096 + w / 64 % 8) },
   { narrow := Thumb.strbReg, wide := Thumb.strbRegW, first := 0x5400, count := 512, word := fun w => both (0xf800 + w / 8 % 8) (w % 8 * 4096 + w / 64 % 8) },
   { narrow := Thumb.ldrsbReg, wide := Thumb.ldrsbRegW, first := 0x5600, count := 512, word := fun w => both (0xf910 + w / 8 % 8) (w % 8 * 4096 + w / 64 % 8) },
   { narrow := Thumb.ldrReg, wide := Thumb.ldrRegW, first := 0x5800, count := 512, word := fun w => both (0xf850 + w / 8 % 8) (w % 8 * 4096 + w / 64 % 8) },
   { narrow := Thumb.ldrhReg, wide := Thumb.ldrhRegW, first := 0x5a00, count := 512, word := fun w => both (0xf830 + w / 8 % 8) (w % 8 * 4096 + w / 64 % 8) },
   { narrow := Thumb.ldrbReg, wide := Thumb.ldrbRegW, first := 0x5c00, count := 512, word := fun w => both (0xf810 + w / 8 % 8) (w % 8 * 4096 + w / 64 % 8) },
   { narrow := Thumb.ldrshReg, wide := Thumb.ldrshRegW, first := 0x5e00, count := 512, word := fun w => both (0xf930 + w / 8 % 8) (w % 8 * 4096 + w / 64 % 8) },
   { narrow := Thumb.ldrLit, wide := Thumb.ldrLitW, first := 0x4800, count := 2048, word := fun w => both (0xf8df) (w / 256 % 8 * 4096 + w % 256 * 4) },
   { narrow := Thumb.push, wide := Thumb.pushOne, first := 0xb400, count := 256, word := fun w => both (0xf84d) (member w * 4096 + 0x0d04),
     only := fun w => decide (members w = 1) },
   { narrow := Thumb.push, wide := Thumb.pushOne, first := 0xb500, count := 1, word := fun _ => both (0xf84d) (0xed04) },
   { narrow := Thumb.pop, wide := Thumb.popW, first := 0xbc00, count := 512, word := fun w => both (0xe8bd) (w / 256 % 2 * 32768 + w % 256),
     only := fun w => decide (2 ≤ members w + w / 256 % 2) },
   { narrow := Thumb.pop, wide := Thumb.popOne, first := 0xbc00, count := 256, word := fun w => both (0xf85d) (member w * 4096 + 0x0b04),
     only := fun w => decide (members w = 1) },
   { narrow := Thumb.pop, wide := Thumb.popOne, first := 0xbd00, count := 1, word := fun _ => both (0xf85d) (0xfb04) },
   { narrow := Thumb.stm, wide := Thumb.stmW, first := 0xc000, count := 2048, word := fun w => both (0xe8a0 + w / 256 % 8) (w % 256),
     only := fun w => decide (2 ≤ members w ∧ ¬ inList w (w / 256 % 8)) },
   { narrow := Thumb.ldm, wide := Thumb.ldmW, first := 0xc800, count := 2048, word := fun w => both (0xe8b0 + w / 256 % 8) (w % 256),
     only := fun w => decide (2 ≤ members w ∧ ¬ inList w (w / 256 % 8)) },
   { narrow := Thumb.ldm, wide := Thumb.ldmW, first := 0xc800, count := 2048, word := fun w => both (0xe890 + w / 256 % 8) (w % 256),
     only := fun w => decide (2 ≤ members w ∧ inList w (w / 256 % 8)) },
   { narrow := Thumb.udf, wide := Thumb.udfW, first := 0xde00, count := 256, word := fun w => both (0xf7f0) (0xa000 + w % 256) }]

/-- POP of PC. -/
def popsPc (w : Nat) : Bool := 0xbd00 ≤ w && w < 0xbe00

/-- A narrow word and a wide one are what they should be, and stand for the same action. -/
def Pair (e e' : Enc) (w v : Nat) : Prop :=
  e.Is w ∧ e'.Is v ∧ (e.act (field e.pat w)).normal = (e'.act (field e'.pat v)).normal ∧
    goes (e.act (field e.pat w)) = some (popsPc w)

/-- The bits from `k + n` down to `k`. -/
def run (p : Nat × Nat) : List Nat := (List.range p.2).reverse.map (p.1 + ·)

/-- The number of these bits, one run after the other. -/
def val (l : List (Nat × Nat)) (w : Nat) : Nat := l.foldl (fun v p => v * 2 ^ p.2 + w / 2 ^ p.1 % 2 ^ p.2) 0

theorem foldl_run (w k : Nat) : ∀ (n v : Nat),
    (run (k, n)).foldl (fun v k => 2 * v + (w.testBit k).toNat) v = v * 2 ^ n + w / 2 ^ k % 2 ^ n
  | 0, v => by simp [run, Nat.mod_one]
  | n + 1, v => by
    have hr : run (k, n + 1) = (k + n) :: run (k, n) := by simp [run, List.range_succ]
    rw [hr, List.foldl_cons, foldl_run w k n, Nat.mod_pow_succ, Nat.testBit_eq_decide_div_mod_eq, Nat.div_div_eq_div_mul, ← Nat.pow_add]
    have : (decide (w / 2 ^ (k + n) % 2 = 1)).toNat = w / 2 ^ (k + n) % 2 := by
      rcases Nat.mod_two_eq_zero_or_one (w / 2 ^ (k + n)) with h | h <;> simp [h]
    rw [this, Nat.pow_succ, Nat.add_mul, Nat.mul_comm 2 v, Nat.mul_assoc, Nat.mul_comm 2 (2 ^ n), Nat.mul_comm (2 ^ n) (_ % 2)]
    omega

theorem foldl_runs (w : Nat) : ∀ (l : List (Nat × Nat)) (v : Nat),
    (l.flatMap run).foldl (fun v k => 2 * v + (w.testBit k).toNat) v = l.foldl (fun v p => v * 2 ^ p.2 + w / 2 ^ p.1 % 2 ^ p.2) v
  | [], _ => rfl
  | p :: l, v => by
    rw [List.flatMap_cons, List.foldl_append, foldl_run w p.1 p.2 v, foldl_runs w l]
    rfl

/-- The value of a field by division. -/
theorem field_of {pat : Str} {c : Char} (l : List (Nat × Nat)) (h : places pat c = l.flatMap run) (w : Nat) : field pat w c = val l w := by
  unfold field bitsValue
  rw [h, foldl_runs]
  rfl

/-- The same of two halfwords, if no run crosses from one to the other. -/
def val2 (l : List (Nat × Nat)) (x y : Nat) : Nat :=
  l.foldl (fun v p => v * 2 ^ p.2 + (if 16 ≤ p.1 then y / 2 ^ (p.1 - 16) else x / 2 ^ p.1) % 2 ^ p.2) 0

theorem both_half {x y k n : Nat} (h : 16 ≤ k ∨ k + n ≤ 16) (hx : x < 65536) :
    both x y / 2 ^ k % 2 ^ n = (if 16 ≤ k then y / 2 ^ (k - 16) else x / 2 ^ k) % 2 ^ n := by
  unfold both
  split
  · rename_i hk
    rw [show (2 : Nat) ^ k = 65536 * 2 ^ (k - 16) by rw [show (65536 : Nat) = 2 ^ 16 from rfl, ← Nat.pow_add]; congr 1; omega,
      ← Nat.div_div_eq_div_mul, show (x + 65536 * y) / 65536 = y by omega]
  · have e : 65536 * y = 2 ^ k * (2 ^ n * (2 ^ (16 - k - n) * y)) := by
      rw [← Nat.mul_assoc, ← Nat.mul_assoc, ← Nat.pow_add, ← Nat.pow_add, show k + n + (16 - k - n) = 16 by omega]
    rw [e, Nat.add_mul_div_left _ _ (Nat.two_pow_pos k), Nat.add_mul_mod_self_left]

theorem field_both {pat : Str} {c : Char} (l : List (Nat × Nat)) (h : places pat c = l.flatMap run)
    (hl : ∀ p ∈ l, 16 ≤ p.1 ∨ p.1 + p.2 ≤ 16) (x y : Nat) (hx : x < 65536) : field pat (both x y) c = val2 l x y := by
  rw [field_of l h]
  unfold val val2
  clear h
  generalize 0 = v
  induction l generalizing v with
  | nil => rfl
  | cons p l ih =>
    rw [List.foldl_cons, List.foldl_cons, both_half (hl p List.mem_cons_self) hx]
    exact ih (fun q hq => hl q (List.mem_cons_of_mem _ hq)) _

/-- The word has these values in these bits. -/
def agree (w : Nat) (l : List (Nat × Nat × Nat)) : Bool := l.all fun p => decide (w / 2 ^ p.1 % 2 ^ p.2.1 = p.2.2)

/-- The same of two halfwords. -/
def Agree2 (x y : Nat) : List (Nat × Nat × Nat) → Prop
  | [] => True
  | p :: l => (if 16 ≤ p.1 then y / 2 ^ (p.1 - 16) else x / 2 ^ p.1) % 2 ^ p.2.1 = p.2.2 ∧ Agree2 x y l

theorem agree_both {x y : Nat} : ∀ {l : List (Nat × Nat × Nat)}, (∀ p ∈ l, 16 ≤ p.1 ∨ p.1 + p.2.1 ≤ 16) → x < 65536 →
    Agree2 x y l → agree (both x y) l = true
  | [], _, _, _ => rfl
  | p :: l, hl, hx, h => by
    unfold agree
    rw [List.all_cons, Bool.and_eq_true]
    refine ⟨decide_eq_true ?_, agree_both (fun q hq => hl q (List.mem_cons_of_mem _ hq)) hx h.2⟩
    rw [both_half (hl p List.mem_cons_self) hx]
    exact h.1

/-- The fixed bits of the diagram are among these. -/
def covers (pat : Str) (l : List (Nat × Nat × Nat)) : Bool := (List.range pat.length).all fun k =>
  (letter pat k != '0' || l.any fun p => p.1 ≤ k && k < p.1 + p.2.1 && !p.2.2.testBit (k - p.1)) &&
    (letter pat k != '1' || l.any fun p => p.1 ≤ k && k < p.1 + p.2.1 && p.2.2.testBit (k - p.1))

theorem agree_bit {w : Nat} {l : List (Nat × Nat × Nat)} (h : agree w l = true) {p : Nat × Nat × Nat} (hp : p ∈ l) {k : Nat}
    (h1 : p.1 ≤ k) (h2 : k < p.1 + p.2.1) : w.testBit k = p.2.2.testBit (k - p.1) := by
  have := of_decide_eq_true (List.all_eq_true.1 h p hp)
  rw [← this, Nat.testBit_mod_two_pow, Nat.testBit_div_two_pow, Nat.sub_add_cancel h1]
  simp
  omega

theorem fits_of {pat : Str} (l : List (Nat × Nat × Nat)) (h : covers pat l = true) {w : Nat} (hw : agree w l = true) : fits pat w = true := by
  unfold fits
  rw [List.all_eq_true]
  intro k hk
  have hc := List.all_eq_true.1 h k hk
  simp only [Bool.and_eq_true, Bool.or_eq_true, bne_iff_ne, ne_eq, List.any_eq_true, decide_eq_true_eq] at hc
  obtain ⟨h0, h1⟩ := hc
  by_cases q0 : letter pat k = '0'
  · obtain ⟨p, hp, ⟨a, b⟩, c⟩ := h0.resolve_left (fun h => h q0)
    rw [agree_bit hw hp a b]
    simp_all
  · by_cases q1 : letter pat k = '1'
    · obtain ⟨p, hp, ⟨a, b⟩, c⟩ := h1.resolve_left (fun h => h q1)
      rw [agree_bit hw hp a b]
      simp_all
    · simp [q0, q1]

theorem member_lt (w : Nat) : member w < 8 := by
  unfold member
  cases h : (List.range 8).find? fun k => (w % 256).testBit k with
  | none => decide
  | some k => exact List.mem_range.1 (List.mem_of_find?_eq_some h)

theorem expand_small (k : Nat) : expand (k % 256) = w32 (k % 256) := by
  have h : ∀ k < 256, expand k = w32 k := by decide +kernel
  exact h _ (Nat.mod_lt _ (by decide))

theorem expand_zero : expand 0 = 0#32 := by decide +kernel

theorem immShift_zero : immShift 0 0 = (.lsl, 0) := by decide +kernel

theorem expandCarry_small (k : Nat) : expandCarry (k % 256) = none := if_pos (by omega)

theorem members_mod (w : Nat) : members (w % 256) = members w := by unfold members; rw [Nat.mod_mod]

theorem member_mod (w : Nat) : member (w % 256) = member w := by unfold member; rw [Nat.mod_mod]

/-- Lists of the low registers. -/
theorem lists : ∀ r < 256, (members r = 1 → r ≠ 0 ∧ regs 0 0 r = single (member r)) ∧
    (2 ≤ members r → r ≠ 0 ∧ 2 ≤ count (regs 0 0 r)) ∧ (1 ≤ members r → 2 ≤ count (regs 1 0 r)) ∧
    (regs 0 0 r).getLsbD 15 = false ∧ (regs 1 0 r).getLsbD 15 = true ∧
    ∀ n < 8, (regs 0 0 r).getLsbD n = r.testBit n := by decide +kernel


theorem wide0d : ∀ m d : Nat, m < 8 → d < 8 → field Thumb.rsbW.pat (both (0xf1d0 + m) (d * 256)) 'd' = d := by
    intro m d hm hd
    refine (field_both [(24, 4)] (by decide +kernel) (by decide) _ _ (by omega)).trans ?_
    simp only [val2, List.foldl_cons, List.foldl_nil, Nat.reduceLeDiff, Nat.reduceSub, Nat.reducePow, reduceIte] <;> omega
theorem wide0i : ∀ m d : Nat, m < 8 → d < 8 → field Thumb.rsbW.pat (both (0xf1d0 + m) (d * 256)) 'i' = 0 := by
    intro m d hm hd
    refine (field_both [(10, 1), (28, 3), (16, 8)] (by decide +kernel) (by decide) _ _ (by omega)).trans ?_
    simp only [val2, List.foldl_cons, List.foldl_nil, Nat.reduceLeDiff, Nat.reduceSub, Nat.reducePow, reduceIte] <;> omega
theorem wide0n : ∀ m d : Nat, m < 8 → d < 8 → field Thumb.rsbW.pat (both (0xf1d0 + m) (d * 256)) 'n' = m := by
    intro m d hm hd
    refine (field_both [(0, 4)] (by decide +kernel) (by decide) _ _ (by omega)).trans ?_
    simp only [val2, List.foldl_cons, List.foldl_nil, Nat.reduceLeDiff, Nat.reduceSub, Nat.reducePow, reduceIte] <;> omega
theorem wide0s : ∀ m d : Nat, m < 8 → d < 8 → field Thumb.rsbW.pat (both (0xf1d0 + m) (d * 256)) 's' = 1 := by
    intro m d hm hd
    refine (field_both [(4, 1)] (by decide +kernel) (by decide) _ _ (by omega)).trans ?_
    simp only [val2, List.foldl_cons, List.foldl_nil, Nat.reduceLeDiff, Nat.reduceSub, Nat.reducePow, reduceIte] <;> omega
theorem wide0fits : ∀ m d : Nat, m < 8 → d < 8 → fits Thumb.rsbW.pat (both (0xf1d0 + m) (d * 256)) = true := by
    intro m d hm hd
    refine fits_of [(31, 1, 0), (11, 5, 30), (5, 5, 14)] (by decide +kernel) (agree_both (by decide) (by omega) ?_)
    simp only [Agree2, Nat.reduceLeDiff, Nat.reduceSub, Nat.reducePow, reduceIte]
    refine ⟨?_, ?_, ?_, trivial⟩ <;> first | trivial | omega

theorem pair0 {w : Nat} (h1 : 0x4240 ≤ w) (h2 : w < 0x4280) : Pair Thumb.rsbs Thumb.rsbW w (both (0xf1d0 + w / 8 % 8) (w % 8 * 256)) := by
  have nd : field Thumb.rsbs.pat w 'd' = w % 8 := (field_of [(0, 3)] (by decide +kernel) w).trans (by simp only [val, List.foldl]; omega)
  have nn : field Thumb.rsbs.pat w 'n' = w / 8 % 8 := (field_of [(3, 3)] (by decide +kernel) w).trans (by simp only [val, List.foldl]; omega)
  have fn : fits Thumb.rsbs.pat w = true := fits_of [(6, 10, 265)] (by decide +kernel) (by simp only [agree, List.all_cons, List.all_nil, Bool.and_true, Bool.and_eq_true, decide_eq_true_eq]; omega)
  have wd := wide0d (w / 8 % 8) (w % 8) (by omega) (by omega)
  have wi := wide0i (w / 8 % 8) (w % 8) (by omega) (by omega)
  have wn := wide0n (w / 8 % 8) (w % 8) (by omega) (by omega)
  have ws := wide0s (w / 8 % 8) (w % 8) (by omega) (by omega)
  have fw := wide0fits (w / 8 % 8) (w % 8) (by omega) (by omega)
  have hp : popsPc w = false := by simp only [popsPc, Bool.and_eq_false_iff, decide_eq_false_iff_not]; omega
  refine ⟨⟨show w < 2 ^ 16 by omega, fn, ?_⟩, ⟨show both _ _ < 2 ^ 32 by unfold both; omega, fw, ?_⟩, ?_, ?_⟩
  all_goals clear fn fw; generalize field Thumb.rsbs.pat w = g at *; generalize field Thumb.rsbW.pat _ = g' at *
  · rfl
  · simp [Thumb.rsbW, wd, wi, wn, ws, plainReg] <;> omega
  · simp [Thumb.rsbs, nd, nn, Thumb.rsbW, wd, wi, wn, ws, Act.normal, Off.normal, plainShift, expand_small, expandCarry_small, immShift_zero, expand_zero, plainReg]
  · simp [Thumb.rsbs, nd, nn, goes, hp]

theorem wide1d : ∀ h a l : Nat, h < 4 → a < 8 → l < 64 → field Thumb.adrAddW.pat (both (0xf20f) (h * 4096 + a * 256 + l * 4)) 'd' = a := by
    intro h a l hh ha hl
    refine (field_both [(24, 4)] (by decide +kernel) (by decide) _ _ (by omega)).trans ?_
    simp only [val2, List.foldl_cons, List.foldl_nil, Nat.reduceLeDiff, Nat.reduceSub, Nat.reducePow, reduceIte] <;> omega
theorem wide1i : ∀ h a l : Nat, h < 4 → a < 8 → l < 64 → field Thumb.adrAddW.pat (both (0xf20f) (h * 4096 + a * 256 + l * 4)) 'i' = h * 256 + l * 4 := by
    intro h a l hh ha hl
    refine (field_both [(10, 1), (28, 3), (16, 8)] (by decide +kernel) (by decide) _ _ (by omega)).trans ?_
    simp only [val2, List.foldl_cons, List.foldl_nil, Nat.reduceLeDiff, Nat.reduceSub, Nat.reducePow, reduceIte] <;> omega
theorem wide1fits : ∀ h a l : Nat, h < 4 → a < 8 → l < 64 → fits Thumb.adrAddW.pat (both (0xf20f) (h * 4096 + a * 256 + l * 4)) = true := by
    intro h a l hh ha hl
    refine fits_of [(31, 1, 0), (11, 5, 30), (0, 10, 527)] (by decide +kernel) (agree_both (by decide) (by omega) ?_)
    simp only [Agree2, Nat.reduceLeDiff, Nat.reduceSub, Nat.reducePow, reduceIte]
    refine ⟨?_, ?_, ?_, trivial⟩ <;> first | trivial | omega

theorem pair1 {w : Nat} (h1 : 0xa000 ≤ w) (h2 : w < 0xa800) : Pair Thumb.adrT1 Thumb.adrAddW w (both (0xf20f) (w % 256 / 64 * 4096 + w / 256 % 8 * 256 + w % 64 * 4)) := by
  have nd : field Thumb.adrT1.pat w 'd' = w / 256 % 8 := (field_of [(8, 3)] (by decide +kernel) w).trans (by simp only [val, List.foldl]; omega)
  have ni : field Thumb.adrT1.pat w 'i' = w % 256 := (field_of [(0, 8)] (by decide +kernel) w).trans (by simp only [val, List.foldl]; omega)
  have fn : fits Thumb.adrT1.pat w = true := fits_of [(11, 5, 20)] (by decide +kernel) (by simp only [agree, List.all_cons, List.all_nil, Bool.and_true, Bool.and_eq_true, decide_eq_true_eq]; omega)
  have wd := wide1d (w % 256 / 64) (w / 256 % 8) (w % 64) (by omega) (by omega) (by omega)
  have wi := wide1i (w % 256 / 64) (w / 256 % 8) (w % 64) (by omega) (by omega) (by omega)
  have fw := wide1fits (w % 256 / 64) (w / 256 % 8) (w % 64) (by omega) (by omega) (by omega)
  rw [show w % 256 / 64 * 256 + w % 64 * 4 = 4 * (w % 256) by omega] at wi
  have hp : popsPc w = false := by simp only [popsPc, Bool.and_eq_false_iff, decide_eq_false_iff_not]; omega
  refine ⟨⟨show w < 2 ^ 16 by omega, fn, ?_⟩, ⟨show both _ _ < 2 ^ 32 by unfold both; omega, fw, ?_⟩, ?_, ?_⟩
  all_goals clear fn fw; generalize field Thumb.adrT1.pat w = g at *; generalize field Thumb.adrAddW.pat _ = g' at *
  · rfl
  · rfl
  · simp [Thumb.adrT1, nd, ni, Thumb.adrAddW, wd, wi, Act.normal, Off.normal, plainShift, expand_small, expandCarry_small, immShift_zero, expand_zero, plainReg]
  · simp [Thumb.adrT1, nd, ni, goes, hp]

theorem wide2d : ∀ m d : Nat, m < 8 → d < 8 → field Thumb.uxtbW.pat (both (0xfa5f) (0xf080 + d * 256 + m)) 'd' = d := by
    intro m d hm hd
    refine (field_both [(24, 4)] (by decide +kernel) (by decide) _ _ (by omega)).trans ?_
    simp only [val2, List.foldl_cons, List.foldl_nil, Nat.reduceLeDiff, Nat.reduceSub, Nat.reducePow, reduceIte] <;> omega
theorem wide2m : ∀ m d : Nat, m < 8 → d < 8 → field Thumb.uxtbW.pat (both (0xfa5f) (0xf080 + d * 256 + m)) 'm' = m := by
    intro m d hm hd
    refine (field_both [(16, 4)] (by decide +kernel) (by decide) _ _ (by omega)).trans ?_
    simp only [val2, List.foldl_cons, List.foldl_nil, Nat.reduceLeDiff, Nat.reduceSub, Nat.reducePow, reduceIte] <;> omega
theorem wide2r : ∀ m d : Nat, m < 8 → d < 8 → field Thumb.uxtbW.pat (both (0xfa5f) (0xf080 + d * 256 + m)) 'r' = 0 := by
    intro m d hm hd
    refine (field_both [(20, 2)] (by decide +kernel) (by decide) _ _ (by omega)).trans ?_
    simp only [val2, List.foldl_cons, List.foldl_nil, Nat.reduceLeDiff, Nat.reduceSub, Nat.reducePow, reduceIte] <;> omega
theorem wide2fits : ∀ m d : Nat, m < 8 → d < 8 → fits Thumb.uxtbW.pat (both (0xfa5f) (0xf080 + d * 256 + m)) = true := by
    intro m d hm hd
    refine fits_of [(28, 4, 15), (22, 2, 2), (0, 16, 64095)] (by decide +kernel) (agree_both (by decide) (by omega) ?_)
    simp only [Agree2, Nat.reduceLeDiff, Nat.reduceSub, Nat.reducePow, reduceIte]
    refine ⟨?_, ?_, ?_, trivial⟩ <;> first | trivial | omega

theorem pair2 {w : Nat} (h1 : 0xb2c0 ≤ w) (h2 : w < 0xb300) : Pair Thumb.uxtb Thumb.uxtbW w (both (0xfa5f) (0xf080 + w % 8 * 256 + w / 8 % 8)) := by
  have nd : field Thumb.uxtb.pat w 'd' = w % 8 := (field_of [(0, 3)] (by decide +kernel) w).trans (by simp only [val, List.foldl]; omega)
  have nm : field Thumb.uxtb.pat w 'm' = w / 8 % 8 := (field_of [(3, 3)] (by decide +kernel) w).trans (by simp only [val, List.foldl]; omega)
  have fn : fits Thumb.uxtb.pat w = true := fits_of [(6, 10, 715)] (by decide +kernel) (by simp only [agree, List.all_cons, List.all_nil, Bool.and_true, Bool.and_eq_true, decide_eq_true_eq]; omega)
  have wd := wide2d (w / 8 % 8) (w % 8) (by omega) (by omega)
  have wm := wide2m (w / 8 % 8) (w % 8) (by omega) (by omega)
  have wr := wide2r (w / 8 % 8) (w % 8) (by omega) (by omega)
  have fw := wide2fits (w / 8 % 8) (w % 8) (by omega) (by omega)
  have hp : popsPc w = false := by simp only [popsPc, Bool.and_eq_false_iff, decide_eq_false_iff_not]; omega
  refine ⟨⟨show w < 2 ^ 16 by omega, fn, ?_⟩, ⟨show both _ _ < 2 ^ 32 by unfold both; omega, fw, ?_⟩, ?_, ?_⟩
  all_goals clear fn fw; generalize field Thumb.uxtb.pat w = g at *; generalize field Thumb.uxtbW.pat _ = g' at *
  · rfl
  · rfl
  · simp [Thumb.uxtb, nd, nm, Thumb.uxtbW, wd, wm, wr, Act.normal, Off.normal, plainShift, expand_small, expandCarry_small, immShift_zero, expand_zero, plainReg]
  · simp [Thumb.uxtb, nd, nm, goes, hp]

theorem wide3d : ∀ m d : Nat, m < 8 → d < 8 → field Thumb.uxthW.pat (both (0xfa1f) (0xf080 + d * 256 + m)) 'd' = d := by
    intro m d hm hd
    refine (field_both [(24, 4)] (by decide +kernel) (by decide) _ _ (by omega)).trans ?_
    simp only [val2, List.foldl_cons, List.foldl_nil, Nat.reduceLeDiff, Nat.reduceSub, Nat.reducePow, reduceIte] <;> omega
theorem wide3m : ∀ m d : Nat, m < 8 → d < 8 → field Thumb.uxthW.pat (both (0xfa1f) (0xf080 + d * 256 + m)) 'm' = m := by
    intro m d hm hd
    refine (field_both [(16, 4)] (by decide +kernel) (by decide) _ _ (by omega)).trans ?_
    simp only [val2, List.foldl_cons, List.foldl_nil, Nat.reduceLeDiff, Nat.reduceSub, Nat.reducePow, reduceIte] <;> omega
theorem wide3r : ∀ m d : Nat, m < 8 → d < 8 → field Thumb.uxthW.pat (both (0xfa1f) (0xf080 + d * 256 + m)) 'r' = 0 := by
    intro m d hm hd
    refine (field_both [(20, 2)] (by decide +kernel) (by decide) _ _ (by omega)).trans ?_
    simp only [val2, List.foldl_cons, List.foldl_nil, Nat.reduceLeDiff, Nat.reduceSub, Nat.reducePow, reduceIte] <;> omega
theorem wide3fits : ∀ m d : Nat, m < 8 → d < 8 → fits Thumb.uxthW.pat (both (0xfa1f) (0xf080 + d * 256 + m)) = true := by
    intro m d hm hd
    refine fits_of [(28, 4, 15), (22, 2, 2), (0, 16, 64031)] (by decide +kernel) (agree_both (by decide) (by omega) ?_)
    simp only [Agree2, Nat.reduceLeDiff, Nat.reduceSub, Nat.reducePow, reduceIte]
    refine ⟨?_, ?_, ?_, trivial⟩ <;> first | trivial | omega

theorem pair3 {w : Nat} (h1 : 0xb280 ≤ w) (h2 : w < 0xb2c0) : Pair Thumb.uxth Thumb.uxthW w (both (0xfa1f) (0xf080 + w % 8 * 256 + w / 8 % 8)) := by
  have nd : field Thumb.uxth.pat w 'd' = w % 8 := (field_of [(0, 3)] (by decide +kernel) w).trans (by simp only [val, List.foldl]; omega)
  have nm : field Thumb.uxth.pat w 'm' = w / 8 % 8 := (field_of [(3, 3)] (by decide +kernel) w).trans (by simp only [val, List.foldl]; omega)
  have fn : fits Thumb.uxth.pat w = true := fits_of [(6, 10, 714)] (by decide +kernel) (by simp only [agree, List.all_cons, List.all_nil, Bool.and_true, Bool.and_eq_true, decide_eq_true_eq]; omega)
  have wd := wide3d (w / 8 % 8) (w % 8) (by omega) (by omega)
  have wm := wide3m (w / 8 % 8) (w % 8) (by omega) (by omega)
  have wr := wide3r (w / 8 % 8) (w % 8) (by omega) (by omega)
  have fw := wide3fits (w / 8 % 8) (w % 8) (by omega) (by omega)
  have hp : popsPc w = false := by simp only [popsPc, Bool.and_eq_false_iff, decide_eq_false_iff_not]; omega
  refine ⟨⟨show w < 2 ^ 16 by omega, fn, ?_⟩, ⟨show both _ _ < 2 ^ 32 by unfold both; omega, fw, ?_⟩, ?_, ?_⟩
  all_goals clear fn fw; generalize field Thumb.uxth.pat w = g at *; generalize field Thumb.uxthW.pat _ = g' at *
  · rfl
  · rfl
  · simp [Thumb.uxth, nd, nm, Thumb.uxthW, wd, wm, wr, Act.normal, Off.normal, plainShift, expand_small, expandCarry_small, immShift_zero, expand_zero, plainReg]
  · simp [Thumb.uxth, nd, nm, goes, hp]

theorem wide4d : ∀ m d : Nat, m < 8 → d < 8 → field Thumb.sxtbW.pat (both (0xfa4f) (0xf080 + d * 256 + m)) 'd' = d := by
    intro m d hm hd
    refine (field_both [(24, 4)] (by decide +kernel) (by decide) _ _ (by omega)).trans ?_
    simp only [val2, List.foldl_cons, List.foldl_nil, Nat.reduceLeDiff, Nat.reduceSub, Nat.reducePow, reduceIte] <;> omega
theorem wide4m : ∀ m d : Nat, m < 8 → d < 8 → field Thumb.sxtbW.pat (both (0xfa4f) (0xf080 + d * 256 + m)) 'm' = m := by
    intro m d hm hd
    refine (field_both [(16, 4)] (by decide +kernel) (by decide) _ _ (by omega)).trans ?_
    simp only [val2, List.foldl_cons, List.foldl_nil, Nat.reduceLeDiff, Nat.reduceSub, Nat.reducePow, reduceIte] <;> omega
theorem wide4r : ∀ m d : Nat, m < 8 → d < 8 → field Thumb.sxtbW.pat (both (0xfa4f) (0xf080 + d * 256 + m)) 'r' = 0 := by
    intro m d hm hd
    refine (field_both [(20, 2)] (by decide +kernel) (by decide) _ _ (by omega)).trans ?_
    simp only [val2, List.foldl_cons, List.foldl_nil, Nat.reduceLeDiff, Nat.reduceSub, Nat.reducePow, reduceIte] <;> omega
theorem wide4fits : ∀ m d : Nat, m < 8 → d < 8 → fits Thumb.sxtbW.pat (both (0xfa4f) (0xf080 + d * 256 + m)) = true := by
    intro m d hm hd
    refine fits_of [(28, 4, 15), (22, 2, 2), (0, 16, 64079)] (by decide +kernel) (agree_both (by decide) (by omega) ?_)
    simp only [Agree2, Nat.reduceLeDiff, Nat.reduceSub, Nat.reducePow, reduceIte]
    refine ⟨?_, ?_, ?_, trivial⟩ <;> first | trivial | omega

theorem pair4 {w : Nat} (h1 : 0xb240 ≤ w) (h2 : w < 0xb280) : Pair Thumb.sxtb Thumb.sxtbW w (both (0xfa4f) (0xf080 + w % 8 * 256 + w / 8 % 8)) := by
  have nd : field Thumb.sxtb.pat w 'd' = w % 8 := (field_of [(0, 3)] (by decide +kernel) w).trans (by simp only [val, List.foldl]; omega)
  have nm : field Thumb.sxtb.pat w 'm' = w / 8 % 8 := (field_of [(3, 3)] (by decide +kernel) w).trans (by simp only [val, List.foldl]; omega)
  have fn : fits Thumb.sxtb.pat w = true := fits_of [(6, 10, 713)] (by decide +kernel) (by simp only [agree, List.all_cons, List.all_nil, Bool.and_true, Bool.and_eq_true, decide_eq_true_eq]; omega)
  have wd := wide4d (w / 8 % 8) (w % 8) (by omega) (by omega)
  have wm := wide4m (w / 8 % 8) (w % 8) (by omega) (by omega)
  have wr := wide4r (w / 8 % 8) (w % 8) (by omega) (by omega)
  have fw := wide4fits (w / 8 % 8) (w % 8) (by omega) (by omega)
  have hp : popsPc w = false := by simp only [popsPc, Bool.and_eq_false_iff, decide_eq_false_iff_not]; omega
  refine ⟨⟨show w < 2 ^ 16 by omega, fn, ?_⟩, ⟨show both _ _ < 2 ^ 32 by unfold both; omega, fw, ?_⟩, ?_, ?_⟩
  all_goals clear fn fw; generalize field Thumb.sxtb.pat w = g at *; generalize field Thumb.sxtbW.pat _ = g' at *
  · rfl
  · rfl
  · simp [Thumb.sxtb, nd, nm, Thumb.sxtbW, wd, wm, wr, Act.normal, Off.normal, plainShift, expand_small, expandCarry_small, immShift_zero, expand_zero, plainReg]
  · simp [Thumb.sxtb, nd, nm, goes, hp]

theorem wide5d : ∀ m d : Nat, m < 8 → d < 8 → field Thumb.sxthW.pat (both (0xfa0f) (0xf080 + d * 256 + m)) 'd' = d := by
    intro m d hm hd
    refine (field_both [(24, 4)] (by decide +kernel) (by decide) _ _ (by omega)).trans ?_
    simp only [val2, List.foldl_cons, List.foldl_nil, Nat.reduceLeDiff, Nat.reduceSub, Nat.reducePow, reduceIte] <;> omega
theorem wide5m : ∀ m d : Nat, m < 8 → d < 8 → field Thumb.sxthW.pat (both (0xfa0f) (0xf080 + d * 256 + m)) 'm' = m := by
    intro m d hm hd
    refine (field_both [(16, 4)] (by decide +kernel) (by decide) _ _ (by omega)).trans ?_
    simp only [val2, List.foldl_cons, List.foldl_nil, Nat.reduceLeDiff, Nat.reduceSub, Nat.reducePow, reduceIte] <;> omega
theorem wide5r : ∀ m d : Nat, m < 8 → d < 8 → field Thumb.sxthW.pat (both (0xfa0f) (0xf080 + d * 256 + m)) 'r' = 0 := by
    intro m d hm hd
    refine (field_both [(20, 2)] (by decide +kernel) (by decide) _ _ (by omega)).trans ?_
    simp only [val2, List.foldl_cons, List.foldl_nil, Nat.reduceLeDiff, Nat.reduceSub, Nat.reducePow, reduceIte] <;> omega
theorem wide5fits : ∀ m d : Nat, m < 8 → d < 8 → fits Thumb.sxthW.pat (both (0xfa0f) (0xf080 + d * 256 + m)) = true := by
    intro m d hm hd
    refine fits_of [(28, 4, 15), (22, 2, 2), (0, 16, 64015)] (by decide +kernel) (agree_both (by decide) (by omega) ?_)
    simp only [Agree2, Nat.reduceLeDiff, Nat.reduceSub, Nat.reducePow, reduceIte]
    refine ⟨?_, ?_, ?_, trivial⟩ <;> first | trivial | omega

theorem pair5 {w : Nat} (h1 : 0xb200 ≤ w) (h2 : w < 0xb240) : Pair Thumb.sxth Thumb.sxthW w (both (0xfa0f) (0xf080 + w % 8 * 256 + w / 8 % 8)) := by
  have nd : field Thumb.sxth.pat w 'd' = w % 8 := (field_of [(0, 3)] (by decide +kernel) w).trans (by simp only [val, List.foldl]; omega)
  have nm : field Thumb.sxth.pat w 'm' = w / 8 % 8 := (field_of [(3, 3)] (by decide +kernel) w).trans (by simp only [val, List.foldl]; omega)
  have fn : fits Thumb.sxth.pat w = true := fits_of [(6, 10, 712)] (by decide +kernel) (by simp only [agree, List.all_cons, List.all_nil, Bool.and_true, Bool.and_eq_true, decide_eq_true_eq]; omega)
  have wd := wide5d (w / 8 % 8) (w % 8) (by omega) (by omega)
  have wm := wide5m (w / 8 % 8) (w % 8) (by omega) (by omega)
  have wr := wide5r (w / 8 % 8) (w % 8) (by omega) (by omega)
  have fw := wide5fits (w / 8 % 8) (w % 8) (by omega) (by omega)
  have hp : popsPc w = false := by simp only [popsPc, Bool.and_eq_false_iff, decide_eq_false_iff_not]; omega
  refine ⟨⟨show w < 2 ^ 16 by omega, fn, ?_⟩, ⟨show both _ _ < 2 ^ 32 by unfold both; omega, fw, ?_⟩, ?_, ?_⟩
  all_goals clear fn fw; generalize field Thumb.sxth.pat w = g at *; generalize field Thumb.sxthW.pat _ = g' at *
  · rfl
  · rfl
  · simp [Thumb.sxth, nd, nm, Thumb.sxthW, wd, wm, wr, Act.normal, Off.normal, plainShift, expand_small, expandCarry_small, immShift_zero, expand_zero, plainReg]
  · simp [Thumb.sxth, nd, nm, goes, hp]

theorem wide6d : ∀ m d : Nat, m < 8 → d < 8 → field Thumb.revW.pat (both (0xfa90 + m) (0xf080 + d * 256 + m)) 'd' = d := by
    intro m d hm hd
    refine (field_both [(24, 4)] (by decide +kernel) (by decide) _ _ (by omega)).trans ?_
    simp only [val2, List.foldl_cons, List.foldl_nil, Nat.reduceLeDiff, Nat.reduceSub, Nat.reducePow, reduceIte] <;> omega
theorem wide6k : ∀ m d : Nat, m < 8 → d < 8 → field Thumb.revW.pat (both (0xfa90 + m) (0xf080 + d * 256 + m)) 'k' = m := by
    intro m d hm hd
    refine (field_both [(16, 4)] (by decide +kernel) (by decide) _ _ (by omega)).trans ?_
    simp only [val2, List.foldl_cons, List.foldl_nil, Nat.reduceLeDiff, Nat.reduceSub, Nat.reducePow, reduceIte] <;> omega
theorem wide6m : ∀ m d : Nat, m < 8 → d < 8 → field Thumb.revW.pat (both (0xfa90 + m) (0xf080 + d * 256 + m)) 'm' = m := by
    intro m d hm hd
    refine (field_both [(0, 4)] (by decide +kernel) (by decide) _ _ (by omega)).trans ?_
    simp only [val2, List.foldl_cons, List.foldl_nil, Nat.reduceLeDiff, Nat.reduceSub, Nat.reducePow, reduceIte] <;> omega
theorem wide6fits : ∀ m d : Nat, m < 8 → d < 8 → fits Thumb.revW.pat (both (0xfa90 + m) (0xf080 + d * 256 + m)) = true := by
    intro m d hm hd
    refine fits_of [(28, 4, 15), (20, 4, 8), (4, 12, 4009)] (by decide +kernel) (agree_both (by decide) (by omega) ?_)
    simp only [Agree2, Nat.reduceLeDiff, Nat.reduceSub, Nat.reducePow, reduceIte]
    refine ⟨?_, ?_, ?_, trivial⟩ <;> first | trivial | omega

theorem pair6 {w : Nat} (h1 : 0xba00 ≤ w) (h2 : w < 0xba40) : Pair Thumb.rev Thumb.revW w (both (0xfa90 + w / 8 % 8) (0xf080 + w % 8 * 256 + w / 8 % 8)) := by
  have nd : field Thumb.rev.pat w 'd' = w % 8 := (field_of [(0, 3)] (by decide +kernel) w).trans (by simp only [val, List.foldl]; omega)
  have nm : field Thumb.rev.pat w 'm' = w / 8 % 8 := (field_of [(3, 3)] (by decide +kernel) w).trans (by simp only [val, List.foldl]; omega)
  have fn : fits Thumb.rev.pat w = true := fits_of [(6, 10, 744)] (by decide +kernel) (by simp only [agree, List.all_cons, List.all_nil, Bool.and_true, Bool.and_eq_true, decide_eq_true_eq]; omega)
  have wd := wide6d (w / 8 % 8) (w % 8) (by omega) (by omega)
  have wk := wide6k (w / 8 % 8) (w % 8) (by omega) (by omega)
  have wm := wide6m (w / 8 % 8) (w % 8) (by omega) (by omega)
  have fw := wide6fits (w / 8 % 8) (w % 8) (by omega) (by omega)
  have hp : popsPc w = false := by simp only [popsPc, Bool.and_eq_false_iff, decide_eq_false_iff_not]; omega
  refine ⟨⟨show w < 2 ^ 16 by omega, fn, ?_⟩, ⟨show both _ _ < 2 ^ 32 by unfold both; omega, fw, ?_⟩, ?_, ?_⟩
  all_goals clear fn fw; generalize field Thumb.rev.pat w = g at *; generalize field Thumb.revW.pat _ = g' at *
  · rfl
  · simp [Thumb.revW, wd, wk, wm]
  · simp [Thumb.rev, nd, nm, Thumb.revW, wd, wk, wm, Act.normal, Off.normal, plainShift, expand_small, expandCarry_small, immShift_zero, expand_zero, plainReg]
  · simp [Thumb.rev, nd, nm, goes, hp]

theorem wide7d : ∀ m d : Nat, m < 8 → d < 8 → field Thumb.rev16W.pat (both (0xfa90 + m) (0xf090 + d * 256 + m)) 'd' = d := by
    intro m d hm hd
    refine (field_both [(24, 4)] (by decide +kernel) (by decide) _ _ (by omega)).trans ?_
    simp only [val2, List.foldl_cons, List.foldl_nil, Nat.reduceLeDiff, Nat.reduceSub, Nat.reducePow, reduceIte] <;> omega
theorem wide7k : ∀ m d : Nat, m < 8 → d < 8 → field Thumb.rev16W.pat (both (0xfa90 + m) (0xf090 + d * 256 + m)) 'k' = m := by
    intro m d hm hd
    refine (field_both [(16, 4)] (by decide +kernel) (by decide) _ _ (by omega)).trans ?_
    simp only [val2, List.foldl_cons, List.foldl_nil, Nat.reduceLeDiff, Nat.reduceSub, Nat.reducePow, reduceIte] <;> omega
theorem wide7m : ∀ m d : Nat, m < 8 → d < 8 → field Thumb.rev16W.pat (both (0xfa90 + m) (0xf090 + d * 256 + m)) 'm' = m := by
    intro m d hm hd
    refine (field_both [(0, 4)] (by decide +kernel) (by decide) _ _ (by omega)).trans ?_
    simp only [val2, List.foldl_cons, List.foldl_nil, Nat.reduceLeDiff, Nat.reduceSub, Nat.reducePow, reduceIte] <;> omega
theorem wide7fits : ∀ m d : Nat, m < 8 → d < 8 → fits Thumb.rev16W.pat (both (0xfa90 + m) (0xf090 + d * 256 + m)) = true := by
    intro m d hm hd
    refine fits_of [(28, 4, 15), (20, 4, 9), (4, 12, 4009)] (by decide +kernel) (agree_both (by decide) (by omega) ?_)
    simp only [Agree2, Nat.reduceLeDiff, Nat.reduceSub, Nat.reducePow, reduceIte]
    refine ⟨?_, ?_, ?_, trivial⟩ <;> first | trivial | omega

theorem pair7 {w : Nat} (h1 : 0xba40 ≤ w) (h2 : w < 0xba80) : Pair Thumb.rev16 Thumb.rev16W w (both (0xfa90 + w / 8 % 8) (0xf090 + w % 8 * 256 + w / 8 % 8)) := by
  have nd : field Thumb.rev16.pat w 'd' = w % 8 := (field_of [(0, 3)] (by decide +kernel) w).trans (by simp only [val, List.foldl]; omega)
  have nm : field Thumb.rev16.pat w 'm' = w / 8 % 8 := (field_of [(3, 3)] (by decide +kernel) w).trans (by simp only [val, List.foldl]; omega)
  have fn : fits Thumb.rev16.pat w = true := fits_of [(6, 10, 745)] (by decide +kernel) (by simp only [agree, List.all_cons, List.all_nil, Bool.and_true, Bool.and_eq_true, decide_eq_true_eq]; omega)
  have wd := wide7d (w / 8 % 8) (w % 8) (by omega) (by omega)
  have wk := wide7k (w / 8 % 8) (w % 8) (by omega) (by omega)
  have wm := wide7m (w / 8 % 8) (w % 8) (by omega) (by omega)
  have fw := wide7fits (w / 8 % 8) (w % 8) (by omega) (by omega)
  have hp : popsPc w = false := by simp only [popsPc, Bool.and_eq_false_iff, decide_eq_false_iff_not]; omega
  refine ⟨⟨show w < 2 ^ 16 by omega, fn, ?_⟩, ⟨show both _ _ < 2 ^ 32 by unfold both; omega, fw, ?_⟩, ?_, ?_⟩
  all_goals clear fn fw; generalize field Thumb.rev16.pat w = g at *; generalize field Thumb.rev16W.pat _ = g' at *
  · rfl
  · simp [Thumb.rev16W, wd, wk, wm]
  · simp [Thumb.rev16, nd, nm, Thumb.rev16W, wd, wk, wm, Act.normal, Off.normal, plainShift, expand_small, expandCarry_small, immShift_zero, expand_zero, plainReg]
  · simp [Thumb.rev16, nd, nm, goes, hp]

theorem wide8d : ∀ m d : Nat, m < 8 → d < 8 → field Thumb.revshW.pat (both (0xfa90 + m) (0xf0b0 + d * 256 + m)) 'd' = d := by
    intro m d hm hd
    refine (field_both [(24, 4)] (by decide +kernel) (by decide) _ _ (by omega)).trans ?_
    simp only [val2, List.foldl_cons, List.foldl_nil, Nat.reduceLeDiff, Nat.reduceSub, Nat.reducePow, reduceIte] <;> omega
theorem wide8k : ∀ m d : Nat, m < 8 → d < 8 → field Thumb.revshW.pat (both (0xfa90 + m) (0xf0b0 + d * 256 + m)) 'k' = m := by
    intro m d hm hd
    refine (field_both [(16, 4)] (by decide +kernel) (by decide) _ _ (by omega)).trans ?_
    simp only [val2, List.foldl_cons, List.foldl_nil, Nat.reduceLeDiff, Nat.reduceSub, Nat.reducePow, reduceIte] <;> omega
theorem wide8m : ∀ m d : Nat, m < 8 → d < 8 → field Thumb.revshW.pat (both (0xfa90 + m) (0xf0b0 + d * 256 + m)) 'm' = m := by
    intro m d hm hd
    refine (field_both [(0, 4)] (by decide +kernel) (by decide) _ _ (by omega)).trans ?_
    simp only [val2, List.foldl_cons, List.foldl_nil, Nat.reduceLeDiff, Nat.reduceSub, Nat.reducePow, reduceIte] <;> omega
theorem wide8fits : ∀ m d : Nat, m < 8 → d < 8 → fits Thumb.revshW.pat (both (0xfa90 + m) (0xf0b0 + d * 256 + m)) = true := by
    intro m d hm hd
    refine fits_of [(28, 4, 15), (20, 4, 11), (4, 12, 4009)] (by decide +kernel) (agree_both (by decide) (by omega) ?_)
    simp only [Agree2, Nat.reduceLeDiff, Nat.reduceSub, Nat.reducePow, reduceIte]
    refine ⟨?_, ?_, ?_, trivial⟩ <;> first | trivial | omega

theorem pair8 {w : Nat} (h1 : 0xbac0 ≤ w) (h2 : w < 0xbb00) : Pair Thumb.revsh Thumb.revshW w (both (0xfa90 + w / 8 % 8) (0xf0b0 + w % 8 * 256 + w / 8 % 8)) := by
  have nd : field Thumb.revsh.pat w 'd' = w % 8 := (field_of [(0, 3)] (by decide +kernel) w).trans (by simp only [val, List.foldl]; omega)
  have nm : field Thumb.revsh.pat w 'm' = w / 8 % 8 := (field_of [(3, 3)] (by decide +kernel) w).trans (by simp only [val, List.foldl]; omega)
  have fn : fits Thumb.revsh.pat w = true := fits_of [(6, 10, 747)] (by decide +kernel) (by simp only [agree, List.all_cons, List.all_nil, Bool.and_true, Bool.and_eq_true, decide_eq_true_eq]; omega)
  have wd := wide8d (w / 8 % 8) (w % 8) (by omega) (by omega)
  have wk := wide8k (w / 8 % 8) (w % 8) (by omega) (by omega)
  have wm := wide8m (w / 8 % 8) (w % 8) (by omega) (by omega)
  have fw := wide8fits (w / 8 % 8) (w % 8) (by omega) (by omega)
  have hp : popsPc w = false := by simp only [popsPc, Bool.and_eq_false_iff, decide_eq_false_iff_not]; omega
  refine ⟨⟨show w < 2 ^ 16 by omega, fn, ?_⟩, ⟨show both _ _ < 2 ^ 32 by unfold both; omega, fw, ?_⟩, ?_, ?_⟩
  all_goals clear fn fw; generalize field Thumb.revsh.pat w = g at *; generalize field Thumb.revshW.pat _ = g' at *
  · rfl
  · simp [Thumb.revshW, wd, wk, wm]
  · simp [Thumb.revsh, nd, nm, Thumb.revshW, wd, wk, wm, Act.normal, Off.normal, plainShift, expand_small, expandCarry_small, immShift_zero, expand_zero, plainReg]
  · simp [Thumb.revsh, nd, nm, goes, hp]

theorem wide9d : ∀ p n d : Nat, p < 2 → n < 16 → d < 8 → field Thumb.movRegW.pat (both (0xea4f) ((p * 8 + d) * 256 + n)) 'd' = (p) * 8 + d := by
    intro p n d hp hn hd
    refine (field_both [(24, 4)] (by decide +kernel) (by decide) _ _ (by omega)).trans ?_
    simp only [val2, List.foldl_cons, List.foldl_nil, Nat.reduceLeDiff, Nat.reduceSub, Nat.reducePow, reduceIte] <;> omega
theorem wide9m : ∀ p n d : Nat, p < 2 → n < 16 → d < 8 → field Thumb.movRegW.pat (both (0xea4f) ((p * 8 + d) * 256 + n)) 'm' = n := by
    intro p n d hp hn hd
    refine (field_both [(16, 4)] (by decide +kernel) (by decide) _ _ (by omega)).trans ?_
    simp only [val2, List.foldl_cons, List.foldl_nil, Nat.reduceLeDiff, Nat.reduceSub, Nat.reducePow, reduceIte] <;> omega
theorem wide9s : ∀ p n d : Nat, p < 2 → n < 16 → d < 8 → field Thumb.movRegW.pat (both (0xea4f) ((p * 8 + d) * 256 + n)) 's' = 0 := by
    intro p n d hp hn hd
    refine (field_both [(4, 1)] (by decide +kernel) (by decide) _ _ (by omega)).trans ?_
    simp only [val2, List.foldl_cons, List.foldl_nil, Nat.reduceLeDiff, Nat.reduceSub, Nat.reducePow, reduceIte] <;> omega
theorem wide9fits : ∀ p n d : Nat, p < 2 → n < 16 → d < 8 → fits Thumb.movRegW.pat (both (0xea4f) ((p * 8 + d) * 256 + n)) = true := by
    intro p n d hp hn hd
    refine fits_of [(28, 4, 0), (20, 4, 0), (5, 11, 1874), (0, 4, 15)] (by decide +kernel) (agree_both (by decide) (by omega) ?_)
    simp only [Agree2, Nat.reduceLeDiff, Nat.reduceSub, Nat.reducePow, reduceIte]
    refine ⟨?_, ?_, ?_, ?_, trivial⟩ <;> first | trivial | omega

theorem pair9 {w : Nat} (h1 : 0x4600 ≤ w) (h2 : w < 0x4700) : Pair Thumb.movReg Thumb.movRegW w (both (0xea4f) ((w / 128 % 2 * 8 + w % 8) * 256 + w / 8 % 16)) := by
  have nd : field Thumb.movReg.pat w 'd' = (w / 128 % 2) * 8 + w % 8 := (field_of [(7, 1), (0, 3)] (by decide +kernel) w).trans (by simp only [val, List.foldl]; omega)
  have nm : field Thumb.movReg.pat w 'm' = w / 8 % 16 := (field_of [(3, 4)] (by decide +kernel) w).trans (by simp only [val, List.foldl]; omega)
  have fn : fits Thumb.movReg.pat w = true := fits_of [(8, 8, 70)] (by decide +kernel) (by simp only [agree, List.all_cons, List.all_nil, Bool.and_true, Bool.and_eq_true, decide_eq_true_eq]; omega)
  have wd := wide9d (w / 128 % 2) (w / 8 % 16) (w % 8) (by omega) (by omega) (by omega)
  have wm := wide9m (w / 128 % 2) (w / 8 % 16) (w % 8) (by omega) (by omega) (by omega)
  have ws := wide9s (w / 128 % 2) (w / 8 % 16) (w % 8) (by omega) (by omega) (by omega)
  have fw := wide9fits (w / 128 % 2) (w / 8 % 16) (w % 8) (by omega) (by omega) (by omega)
  have hp : popsPc w = false := by simp only [popsPc, Bool.and_eq_false_iff, decide_eq_false_iff_not]; omega
  refine ⟨⟨show w < 2 ^ 16 by omega, fn, ?_⟩, ⟨show both _ _ < 2 ^ 32 by unfold both; omega, fw, ?_⟩, ?_, ?_⟩
  all_goals clear fn fw; generalize field Thumb.movReg.pat w = g at *; generalize field Thumb.movRegW.pat _ = g' at *
  · rfl
  · rfl
  · simp [Thumb.movReg, nd, nm, Thumb.movRegW, wd, wm, ws, Act.normal, Off.normal, plainShift, expand_small, expandCarry_small, immShift_zero, expand_zero, plainReg]
  · simp [Thumb.movReg, nd, nm, goes, hp]

theorem wide10d : ∀ m d : Nat, m < 8 → d < 8 → field Thumb.movRegW.pat (both (0xea5f) (d * 256 + m)) 'd' = d := by
    intro m d hm hd
    refine (field_both [(24, 4)] (by decide +kernel) (by decide) _ _ (by omega)).trans ?_
    simp only [val2, List.foldl_cons, List.foldl_nil, Nat.reduceLeDiff, Nat.reduceSub, Nat.reducePow, reduceIte] <;> omega
theorem wide10m : ∀ m d : Nat, m < 8 → d < 8 → field Thumb.movRegW.pat (both (0xea5f) (d * 256 + m)) 'm' = m := by
    intro m d hm hd
    refine (field_both [(16, 4)] (by decide +kernel) (by decide) _ _ (by omega)).trans ?_
    simp only [val2, List.foldl_cons, List.foldl_nil, Nat.reduceLeDiff, Nat.reduceSub, Nat.reducePow, reduceIte] <;> omega
theorem wide10s : ∀ m d : Nat, m < 8 → d < 8 → field Thumb.movRegW.pat (both (0xea5f) (d * 256 + m)) 's' = 1 := by
    intro m d hm hd
    refine (field_both [(4, 1)] (by decide +kernel) (by decide) _ _ (by omega)).trans ?_
    simp only [val2, List.foldl_cons, List.foldl_nil, Nat.reduceLeDiff, Nat.reduceSub, Nat.reducePow, reduceIte] <;> omega
theorem wide10fits : ∀ m d : Nat, m < 8 → d < 8 → fits Thumb.movRegW.pat (both (0xea5f) (d * 256 + m)) = true := by
    intro m d hm hd
    refine fits_of [(28, 4, 0), (20, 4, 0), (5, 11, 1874), (0, 4, 15)] (by decide +kernel) (agree_both (by decide) (by omega) ?_)
    simp only [Agree2, Nat.reduceLeDiff, Nat.reduceSub, Nat.reducePow, reduceIte]
    refine ⟨?_, ?_, ?_, ?_, trivial⟩ <;> first | trivial | omega

theorem pair10 {w : Nat} (h1 : 0 ≤ w) (h2 : w < 0x40) : Pair Thumb.movsReg Thumb.movRegW w (both (0xea5f) (w % 8 * 256 + w / 8 % 8)) := by
  have nd : field Thumb.movsReg.pat w 'd' = w % 8 := (field_of [(0, 3)] (by decide +kernel) w).trans (by simp only [val, List.foldl]; omega)
  have nm : field Thumb.movsReg.pat w 'm' = w / 8 % 8 := (field_of [(3, 3)] (by decide +kernel) w).trans (by simp only [val, List.foldl]; omega)
  have fn : fits Thumb.movsReg.pat w = true := fits_of [(6, 10, 0)] (by decide +kernel) (by simp only [agree, List.all_cons, List.all_nil, Bool.and_true, Bool.and_eq_true, decide_eq_true_eq]; omega)
  have wd := wide10d (w / 8 % 8) (w % 8) (by omega) (by omega)
  have wm := wide10m (w / 8 % 8) (w % 8) (by omega) (by omega)
  have ws := wide10s (w / 8 % 8) (w % 8) (by omega) (by omega)
  have fw := wide10fits (w / 8 % 8) (w % 8) (by omega) (by omega)
  have hp : popsPc w = false := by simp only [popsPc, Bool.and_eq_false_iff, decide_eq_false_iff_not]; omega
  refine ⟨⟨show w < 2 ^ 16 by omega, fn, ?_⟩, ⟨show both _ _ < 2 ^ 32 by unfold both; omega, fw, ?_⟩, ?_, ?_⟩
  all_goals clear fn fw; generalize field Thumb.movsReg.pat w = g at *; generalize field Thumb.movRegW.pat _ = g' at *
  · rfl
  · rfl
  · simp [Thumb.movsReg, nd, nm, Thumb.movRegW, wd, wm, ws, Act.normal, Off.normal, plainShift, expand_small, expandCarry_small, immShift_zero, expand_zero, plainReg]
  · simp [Thumb.movsReg, nd, nm, goes, hp]

theorem wide11d : ∀ a b : Nat, a < 8 → b < 256 → field Thumb.movImmW.pat (both (0xf05f) (a * 256 + b)) 'd' = a := by
    intro a b ha hb
    refine (field_both [(24, 4)] (by decide +kernel) (by decide) _ _ (by omega)).trans ?_
    simp only [val2, List.foldl_cons, List.foldl_nil, Nat.reduceLeDiff, Nat.reduceSub, Nat.reducePow, reduceIte] <;> omega
theorem wide11i : ∀ a b : Nat, a < 8 → b < 256 → field Thumb.movImmW.pat (both (0xf05f) (a * 256 + b)) 'i' = b := by
    intro a b ha hb
    refine (field_both [(10, 1), (28, 3), (16, 8)] (by decide +kernel) (by decide) _ _ (by omega)).trans ?_
    simp only [val2, List.foldl_cons, List.foldl_nil, Nat.reduceLeDiff, Nat.reduceSub, Nat.reducePow, reduceIte] <;> omega
theorem wide11s : ∀ a b : Nat, a < 8 → b < 256 → field Thumb.movImmW.pat (both (0xf05f) (a * 256 + b)) 's' = 1 := by
    intro a b ha hb
    refine (field_both [(4, 1)] (by decide +kernel) (by decide) _ _ (by omega)).trans ?_
    simp only [val2, List.foldl_cons, List.foldl_nil, Nat.reduceLeDiff, Nat.reduceSub, Nat.reducePow, reduceIte] <;> omega
theorem wide11fits : ∀ a b : Nat, a < 8 → b < 256 → fits Thumb.movImmW.pat (both (0xf05f) (a * 256 + b)) = true := by
    intro a b ha hb
    refine fits_of [(31, 1, 0), (11, 5, 30), (5, 5, 2), (0, 4, 15)] (by decide +kernel) (agree_both (by decide) (by omega) ?_)
    simp only [Agree2, Nat.reduceLeDiff, Nat.reduceSub, Nat.reducePow, reduceIte]
    refine ⟨?_, ?_, ?_, ?_, trivial⟩ <;> first | trivial | omega

theorem pair11 {w : Nat} (h1 : 0x2000 ≤ w) (h2 : w < 0x2800) : Pair Thumb.movsImm Thumb.movImmW w (both (0xf05f) (w / 256 % 8 * 256 + w % 256)) := by
  have nd : field Thumb.movsImm.pat w 'd' = w / 256 % 8 := (field_of [(8, 3)] (by decide +kernel) w).trans (by simp only [val, List.foldl]; omega)
  have ni : field Thumb.movsImm.pat w 'i' = w % 256 := (field_of [(0, 8)] (by decide +kernel) w).trans (by simp only [val, List.foldl]; omega)
  have fn : fits Thumb.movsImm.pat w = true := fits_of [(11, 5, 4)] (by decide +kernel) (by simp only [agree, List.all_cons, List.all_nil, Bool.and_true, Bool.and_eq_true, decide_eq_true_eq]; omega)
  have wd := wide11d (w / 256 % 8) (w % 256) (by omega) (by omega)
  have wi := wide11i (w / 256 % 8) (w % 256) (by omega) (by omega)
  have ws := wide11s (w / 256 % 8) (w % 256) (by omega) (by omega)
  have fw := wide11fits (w / 256 % 8) (w % 256) (by omega) (by omega)
  have hp : popsPc w = false := by simp only [popsPc, Bool.and_eq_false_iff, decide_eq_false_iff_not]; omega
  refine ⟨⟨show w < 2 ^ 16 by omega, fn, ?_⟩, ⟨show both _ _ < 2 ^ 32 by unfold both; omega, fw, ?_⟩, ?_, ?_⟩
  all_goals clear fn fw; generalize field Thumb.movsImm.pat w = g at *; generalize field Thumb.movImmW.pat _ = g' at *
  · rfl
  · rfl
  · simp [Thumb.movsImm, nd, ni, Thumb.movImmW, wd, wi, ws, Act.normal, Off.normal, plainShift, expand_small, expandCarry_small, immShift_zero, expand_zero, plainReg]
  · simp [Thumb.movsImm, nd, ni, goes, hp]

theorem wide12i : ∀ a b : Nat, a < 8 → b < 256 → field Thumb.cmpImmW.pat (both (0xf1b0 + a) (0x0f00 + b)) 'i' = b := by
    intro a b ha hb
    refine (field_both [(10, 1), (28, 3), (16, 8)] (by decide +kernel) (by decide) _ _ (by omega)).trans ?_
    simp only [val2, List.foldl_cons, List.foldl_nil, Nat.reduceLeDiff, Nat.reduceSub, Nat.reducePow, reduceIte] <;> omega
theorem wide12n : ∀ a b : Nat, a < 8 → b < 256 → field Thumb.cmpImmW.pat (both (0xf1b0 + a) (0x0f00 + b)) 'n' = a := by
    intro a b ha hb
    refine (field_both [(0, 4)] (by decide +kernel) (by decide) _ _ (by omega)).trans ?_
    simp only [val2, List.foldl_cons, List.foldl_nil, Nat.reduceLeDiff, Nat.reduceSub, Nat.reducePow, reduceIte] <;> omega
theorem wide12fits : ∀ a b : Nat, a < 8 → b < 256 → fits Thumb.cmpImmW.pat (both (0xf1b0 + a) (0x0f00 + b)) = true := by
    intro a b ha hb
    refine fits_of [(31, 1, 0), (24, 4, 15), (11, 5, 30), (4, 6, 27)] (by decide +kernel) (agree_both (by decide) (by omega) ?_)
    simp only [Agree2, Nat.reduceLeDiff, Nat.reduceSub, Nat.reducePow, reduceIte]
    refine ⟨?_, ?_, ?_, ?_, trivial⟩ <;> first | trivial | omega

theorem pair12 {w : Nat} (h1 : 0x2800 ≤ w) (h2 : w < 0x3000) : Pair Thumb.cmpImm Thumb.cmpImmW w (both (0xf1b0 + w / 256 % 8) (0x0f00 + w % 256)) := by
  have ni : field Thumb.cmpImm.pat w 'i' = w % 256 := (field_of [(0, 8)] (by decide +kernel) w).trans (by simp only [val, List.foldl]; omega)
  have nn : field Thumb.cmpImm.pat w 'n' = w / 256 % 8 := (field_of [(8, 3)] (by decide +kernel) w).trans (by simp only [val, List.foldl]; omega)
  have fn : fits Thumb.cmpImm.pat w = true := fits_of [(11, 5, 5)] (by decide +kernel) (by simp only [agree, List.all_cons, List.all_nil, Bool.and_true, Bool.and_eq_true, decide_eq_true_eq]; omega)
  have wi := wide12i (w / 256 % 8) (w % 256) (by omega) (by omega)
  have wn := wide12n (w / 256 % 8) (w % 256) (by omega) (by omega)
  have fw := wide12fits (w / 256 % 8) (w % 256) (by omega) (by omega)
  have hp : popsPc w = false := by simp only [popsPc, Bool.and_eq_false_iff, decide_eq_false_iff_not]; omega
  refine ⟨⟨show w < 2 ^ 16 by omega, fn, ?_⟩, ⟨show both _ _ < 2 ^ 32 by unfold both; omega, fw, ?_⟩, ?_, ?_⟩
  all_goals clear fn fw; generalize field Thumb.cmpImm.pat w = g at *; generalize field Thumb.cmpImmW.pat _ = g' at *
  · rfl
  · rfl
  · simp [Thumb.cmpImm, ni, nn, Thumb.cmpImmW, wi, wn, Act.normal, Off.normal, plainShift, expand_small, expandCarry_small, immShift_zero, expand_zero, plainReg]
  · simp [Thumb.cmpImm, ni, nn, goes, hp]

theorem wide13i : ∀ d m : Nat, d < 8 → m < 8 → field Thumb.tstW.pat (both (0xea10 + d) (0x0f00 + m)) 'i' = 0 := by
    intro d m hd hm
    refine (field_both [(28, 3), (22, 2)] (by decide +kernel) (by decide) _ _ (by omega)).trans ?_
    simp only [val2, List.foldl_cons, List.foldl_nil, Nat.reduceLeDiff, Nat.reduceSub, Nat.reducePow, reduceIte] <;> omega
theorem wide13m : ∀ d m : Nat, d < 8 → m < 8 → field Thumb.tstW.pat (both (0xea10 + d) (0x0f00 + m)) 'm' = m := by
    intro d m hd hm
    refine (field_both [(16, 4)] (by decide +kernel) (by decide) _ _ (by omega)).trans ?_
    simp only [val2, List.foldl_cons, List.foldl_nil, Nat.reduceLeDiff, Nat.reduceSub, Nat.reducePow, reduceIte] <;> omega
theorem wide13n : ∀ d m : Nat, d < 8 → m < 8 → field Thumb.tstW.pat (both (0xea10 + d) (0x0f00 + m)) 'n' = d := by
    intro d m hd hm
    refine (field_both [(0, 4)] (by decide +kernel) (by decide) _ _ (by omega)).trans ?_
    simp only [val2, List.foldl_cons, List.foldl_nil, Nat.reduceLeDiff, Nat.reduceSub, Nat.reducePow, reduceIte] <;> omega
theorem wide13t : ∀ d m : Nat, d < 8 → m < 8 → field Thumb.tstW.pat (both (0xea10 + d) (0x0f00 + m)) 't' = 0 := by
    intro d m hd hm
    refine (field_both [(20, 2)] (by decide +kernel) (by decide) _ _ (by omega)).trans ?_
    simp only [val2, List.foldl_cons, List.foldl_nil, Nat.reduceLeDiff, Nat.reduceSub, Nat.reducePow, reduceIte] <;> omega
theorem wide13fits : ∀ d m : Nat, d < 8 → m < 8 → fits Thumb.tstW.pat (both (0xea10 + d) (0x0f00 + m)) = true := by
    intro d m hd hm
    refine fits_of [(31, 1, 0), (24, 4, 15), (4, 12, 3745)] (by decide +kernel) (agree_both (by decide) (by omega) ?_)
    simp only [Agree2, Nat.reduceLeDiff, Nat.reduceSub, Nat.reducePow, reduceIte]
    refine ⟨?_, ?_, ?_, trivial⟩ <;> first | trivial | omega

theorem pair13 {w : Nat} (h1 : 0x4200 ≤ w) (h2 : w < 0x4240) : Pair Thumb.tst Thumb.tstW w (both (0xea10 + w % 8) (0x0f00 + w / 8 % 8)) := by
  have nm : field Thumb.tst.pat w 'm' = w / 8 % 8 := (field_of [(3, 3)] (by decide +kernel) w).trans (by simp only [val, List.foldl]; omega)
  have nn : field Thumb.tst.pat w 'n' = w % 8 := (field_of [(0, 3)] (by decide +kernel) w).trans (by simp only [val, List.foldl]; omega)
  have fn : fits Thumb.tst.pat w = true := fits_of [(6, 10, 264)] (by decide +kernel) (by simp only [agree, List.all_cons, List.all_nil, Bool.and_true, Bool.and_eq_true, decide_eq_true_eq]; omega)
  have wi := wide13i (w % 8) (w / 8 % 8) (by omega) (by omega)
  have wm := wide13m (w % 8) (w / 8 % 8) (by omega) (by omega)
  have wn := wide13n (w % 8) (w / 8 % 8) (by omega) (by omega)
  have wt := wide13t (w % 8) (w / 8 % 8) (by omega) (by omega)
  have fw := wide13fits (w % 8) (w / 8 % 8) (by omega) (by omega)
  have hp : popsPc w = false := by simp only [popsPc, Bool.and_eq_false_iff, decide_eq_false_iff_not]; omega
  refine ⟨⟨show w < 2 ^ 16 by omega, fn, ?_⟩, ⟨show both _ _ < 2 ^ 32 by unfold both; omega, fw, ?_⟩, ?_, ?_⟩
  all_goals clear fn fw; generalize field Thumb.tst.pat w = g at *; generalize field Thumb.tstW.pat _ = g' at *
  · rfl
  · simp [Thumb.tstW, wi, wm, wn, wt, plainReg] <;> omega
  · simp [Thumb.tst, nm, nn, Thumb.tstW, wi, wm, wn, wt, Act.normal, Off.normal, plainShift, expand_small, expandCarry_small, immShift_zero, expand_zero, plainReg]
  · simp [Thumb.tst, nm, nn, goes, hp]

theorem wide14i : ∀ m o d : Nat, m < 8 → o < 8 → d < 8 → field Thumb.strRegW.pat (both (0xf840 + m) (d * 4096 + o)) 'i' = 0 := by
    intro m o d hm ho hd
    refine (field_both [(20, 2)] (by decide +kernel) (by decide) _ _ (by omega)).trans ?_
    simp only [val2, List.foldl_cons, List.foldl_nil, Nat.reduceLeDiff, Nat.reduceSub, Nat.reducePow, reduceIte] <;> omega
theorem wide14m : ∀ m o d : Nat, m < 8 → o < 8 → d < 8 → field Thumb.strRegW.pat (both (0xf840 + m) (d * 4096 + o)) 'm' = o := by
    intro m o d hm ho hd
    refine (field_both [(16, 4)] (by decide +kernel) (by decide) _ _ (by omega)).trans ?_
    simp only [val2, List.foldl_cons, List.foldl_nil, Nat.reduceLeDiff, Nat.reduceSub, Nat.reducePow, reduceIte] <;> omega
theorem wide14n : ∀ m o d : Nat, m < 8 → o < 8 → d < 8 → field Thumb.strRegW.pat (both (0xf840 + m) (d * 4096 + o)) 'n' = m := by
    intro m o d hm ho hd
    refine (field_both [(0, 4)] (by decide +kernel) (by decide) _ _ (by omega)).trans ?_
    simp only [val2, List.foldl_cons, List.foldl_nil, Nat.reduceLeDiff, Nat.reduceSub, Nat.reducePow, reduceIte] <;> omega
theorem wide14t : ∀ m o d : Nat, m < 8 → o < 8 → d < 8 → field Thumb.strRegW.pat (both (0xf840 + m) (d * 4096 + o)) 't' = d := by
    intro m o d hm ho hd
    refine (field_both [(28, 4)] (by decide +kernel) (by decide) _ _ (by omega)).trans ?_
    simp only [val2, List.foldl_cons, List.foldl_nil, Nat.reduceLeDiff, Nat.reduceSub, Nat.reducePow, reduceIte] <;> omega
theorem wide14fits : ∀ m o d : Nat, m < 8 → o < 8 → d < 8 → fits Thumb.strRegW.pat (both (0xf840 + m) (d * 4096 + o)) = true := by
    intro m o d hm ho hd
    refine fits_of [(22, 6, 0), (4, 12, 3972)] (by decide +kernel) (agree_both (by decide) (by omega) ?_)
    simp only [Agree2, Nat.reduceLeDiff, Nat.reduceSub, Nat.reducePow, reduceIte]
    refine ⟨?_, ?_, trivial⟩ <;> first | trivial | omega

theorem pair14 {w : Nat} (h1 : 0x5000 ≤ w) (h2 : w < 0x5200) : Pair Thumb.strReg Thumb.strRegW w (both (0xf840 + w / 8 % 8) (w % 8 * 4096 + w / 64 % 8)) := by
  have nm : field Thumb.strReg.pat w 'm' = w / 64 % 8 := (field_of [(6, 3)] (by decide +kernel) w).trans (by simp only [val, List.foldl]; omega)
  have nn : field Thumb.strReg.pat w 'n' = w / 8 % 8 := (field_of [(3, 3)] (by decide +kernel) w).trans (by simp only [val, List.foldl]; omega)
  have nt : field Thumb.strReg.pat w 't' = w % 8 := (field_of [(0, 3)] (by decide +kernel) w).trans (by simp only [val, List.foldl]; omega)
  have fn : fits Thumb.strReg.pat w = true := fits_of [(9, 7, 40)] (by decide +kernel) (by simp only [agree, List.all_cons, List.all_nil, Bool.and_true, Bool.and_eq_true, decide_eq_true_eq]; omega)
  have wi := wide14i (w / 8 % 8) (w / 64 % 8) (w % 8) (by omega) (by omega) (by omega)
  have wm := wide14m (w / 8 % 8) (w / 64 % 8) (w % 8) (by omega) (by omega) (by omega)
  have wn := wide14n (w / 8 % 8) (w / 64 % 8) (w % 8) (by omega) (by omega) (by omega)
  have wt := wide14t (w / 8 % 8) (w / 64 % 8) (w % 8) (by omega) (by omega) (by omega)
  have fw := wide14fits (w / 8 % 8) (w / 64 % 8) (w % 8) (by omega) (by omega) (by omega)
  have hp : popsPc w = false := by simp only [popsPc, Bool.and_eq_false_iff, decide_eq_false_iff_not]; omega
  refine ⟨⟨show w < 2 ^ 16 by omega, fn, ?_⟩, ⟨show both _ _ < 2 ^ 32 by unfold both; omega, fw, ?_⟩, ?_, ?_⟩
  all_goals clear fn fw; generalize field Thumb.strReg.pat w = g at *; generalize field Thumb.strRegW.pat _ = g' at *
  · rfl
  · simp [Thumb.strRegW, wi, wm, wn, wt, plainReg] <;> omega
  · simp [Thumb.strReg, nm, nn, nt, Thumb.strRegW, wi, wm, wn, wt, Act.normal, Off.normal, plainShift, expand_small, expandCarry_small, immShift_zero, expand_zero, plainReg]
  · simp [Thumb.strReg, nm, nn, nt, goes, hp]

theorem wide15i : ∀ m o d : Nat, m < 8 → o < 8 → d < 8 → field Thumb.strhRegW.pat (both (0xf820 + m) (d * 4096 + o)) 'i' = 0 := by
    intro m o d hm ho hd
    refine (field_both [(20, 2)] (by decide +kernel) (by decide) _ _ (by omega)).trans ?_
    simp only [val2, List.foldl_cons, List.foldl_nil, Nat.reduceLeDiff, Nat.reduceSub, Nat.reducePow, reduceIte] <;> omega
theorem wide15m : ∀ m o d : Nat, m < 8 → o < 8 → d < 8 → field Thumb.strhRegW.pat (both (0xf820 + m) (d * 4096 + o)) 'm' = o := by
    intro m o d hm ho hd
    refine (field_both [(16, 4)] (by decide +kernel) (by decide) _ _ (by omega)).trans ?_
    simp only [val2, List.foldl_cons, List.foldl_nil, Nat.reduceLeDiff, Nat.reduceSub, Nat.reducePow, reduceIte] <;> omega
theorem wide15n : ∀ m o d : Nat, m < 8 → o < 8 → d < 8 → field Thumb.strhRegW.pat (both (0xf820 + m) (d * 4096 + o)) 'n' = m := by
    intro m o d hm ho hd
    refine (field_both [(0, 4)] (by decide +kernel) (by decide) _ _ (by omega)).trans ?_
    simp only [val2, List.foldl_cons, List.foldl_nil, Nat.reduceLeDiff, Nat.reduceSub, Nat.reducePow, reduceIte] <;> omega
theorem wide15t : ∀ m o d : Nat, m < 8 → o < 8 → d < 8 → field Thumb.strhRegW.pat (both (0xf820 + m) (d * 4096 + o)) 't' = d := by
    intro m o d hm ho hd
    refine (field_both [(28, 4)] (by decide +kernel) (by decide) _ _ (by omega)).trans ?_
    simp only [val2, List.foldl_cons, List.foldl_nil, Nat.reduceLeDiff, Nat.reduceSub, Nat.reducePow, reduceIte] <;> omega
theorem wide15fits : ∀ m o d : Nat, m < 8 → o < 8 → d < 8 → fits Thumb.strhRegW.pat (both (0xf820 + m) (d * 4096 + o)) = true := by
    intro m o d hm ho hd
    refine fits_of [(22, 6, 0), (4, 12, 3970)] (by decide +kernel) (agree_both (by decide) (by omega) ?_)
    simp only [Agree2, Nat.reduceLeDiff, Nat.reduceSub, Nat.reducePow, reduceIte]
    refine ⟨?_, ?_, trivial⟩ <;> first | trivial | omega

theorem pair15 {w : Nat} (h1 : 0x5200 ≤ w) (h2 : w < 0x5400) : Pair Thumb.strhReg Thumb.strhRegW w (both (0xf820 + w / 8 % 8) (w % 8 * 4096 + w / 64 % 8)) := by
  have nm : field Thumb.strhReg.pat w 'm' = w / 64 % 8 := (field_of [(6, 3)] (by decide +kernel) w).trans (by simp only [val, List.foldl]; omega)
  have nn : field Thumb.strhReg.pat w 'n' = w / 8 % 8 := (field_of [(3, 3)] (by decide +kernel) w).trans (by simp only [val, List.foldl]; omega)
  have nt : field Thumb.strhReg.pat w 't' = w % 8 := (field_of [(0, 3)] (by decide +kernel) w).trans (by simp only [val, List.foldl]; omega)
  have fn : fits Thumb.strhReg.pat w = true := fits_of [(9, 7, 41)] (by decide +kernel) (by simp only [agree, List.all_cons, List.all_nil, Bool.and_true, Bool.and_eq_true, decide_eq_true_eq]; omega)
  have wi := wide15i (w / 8 % 8) (w / 64 % 8) (w % 8) (by omega) (by omega) (by omega)
  have wm := wide15m (w / 8 % 8) (w / 64 % 8) (w % 8) (by omega) (by omega) (by omega)
  have wn := wide15n (w / 8 % 8) (w / 64 % 8) (w % 8) (by omega) (by omega) (by omega)
  have wt := wide15t (w / 8 % 8) (w / 64 % 8) (w % 8) (by omega) (by omega) (by omega)
  have fw := wide15fits (w / 8 % 8) (w / 64 % 8) (w % 8) (by omega) (by omega) (by omega)
  have hp : popsPc w = false := by simp only [popsPc, Bool.and_eq_false_iff, decide_eq_false_iff_not]; omega
  refine ⟨⟨show w < 2 ^ 16 by omega, fn, ?_⟩, ⟨show both _ _ < 2 ^ 32 by unfold both; omega, fw, ?_⟩, ?_, ?_⟩
  all_goals clear fn fw; generalize field Thumb.strhReg.pat w = g at *; generalize field Thumb.strhRegW.pat _ = g' at *
  · rfl
  · simp [Thumb.strhRegW, wi, wm, wn, wt, plainReg] <;> omega
  · simp [Thumb.strhReg, nm, nn, nt, Thumb.strhRegW, wi, wm, wn, wt, Act.normal, Off.normal, plainShift, expand_small, expandCarry_small, immShift_zero, expand_zero, plainReg]
  · simp [Thumb.strhReg, nm, nn, nt, goes, hp]

theorem wide16i : ∀ m o d : Nat, m < 8 → o < 8 → d < 8 → field Thumb.strbRegW.pat (both (0xf800 + m) (d * 4096 + o)) 'i' = 0 := by
    intro m o d hm ho hd
    refine (field_both [(20, 2)] (by decide +kernel) (by decide) _ _ (by omega)).trans ?_
    simp only [val2, List.foldl_cons, List.foldl_nil, Nat.reduceLeDiff, Nat.reduceSub, Nat.reducePow, reduceIte] <;> omega
theorem wide16m : ∀ m o d : Nat, m < 8 → o < 8 → d < 8 → field Thumb.strbRegW.pat (both (0xf800 + m) (d * 4096 + o)) 'm' = o := by
    intro m o d hm ho hd
    refine (field_both [(16, 4)] (by decide +kernel) (by decide) _ _ (by omega)).trans ?_
    simp only [val2, List.foldl_cons, List.foldl_nil, Nat.reduceLeDiff, Nat.reduceSub, Nat.reducePow, reduceIte] <;> omega
theorem wide16n : ∀ m o d : Nat, m < 8 → o < 8 → d < 8 → field Thumb.strbRegW.pat (both (0xf800 + m) (d * 4096 + o)) 'n' = m := by
    intro m o d hm ho hd
    refine (field_both [(0, 4)] (by decide +kernel) (by decide) _ _ (by omega)).trans ?_
    simp only [val2, List.foldl_cons, List.foldl_nil, Nat.reduceLeDiff, Nat.reduceSub, Nat.reducePow, reduceIte] <;> omega
theorem wide16t : ∀ m o d : Nat, m < 8 → o < 8 → d < 8 → field Thumb.strbRegW.pat (both (0xf800 + m) (d * 4096 + o)) 't' = d := by
    intro m o d hm ho hd
    refine (field_both [(28, 4)] (by decide +kernel) (by decide) _ _ (by omega)).trans ?_
    simp only [val2, List.foldl_cons, List.foldl_nil, Nat.reduceLeDiff, Nat.reduceSub, Nat.reducePow, reduceIte] <;> omega
theorem wide16fits : ∀ m o d : Nat, m < 8 → o < 8 → d < 8 → fits Thumb.strbRegW.pat (both (0xf800 + m) (d * 4096 + o)) = true := by
    intro m o d hm ho hd
    refine fits_of [(22, 6, 0), (4, 12, 3968)] (by decide +kernel) (agree_both (by decide) (by omega) ?_)
    simp only [Agree2, Nat.reduceLeDiff, Nat.reduceSub, Nat.reducePow, reduceIte]
    refine ⟨?_, ?_, trivial⟩ <;> first | trivial | omega

theorem pair16 {w : Nat} (h1 : 0x5400 ≤ w) (h2 : w < 0x5600) : Pair Thumb.strbReg Thumb.strbRegW w (both (0xf800 + w / 8 % 8) (w % 8 * 4096 + w / 64 % 8)) := by
  have nm : field Thumb.strbReg.pat w 'm' = w / 64 % 8 := (field_of [(6, 3)] (by decide +kernel) w).trans (by simp only [val, List.foldl]; omega)
  have nn : field Thumb.strbReg.pat w 'n' = w / 8 % 8 := (field_of [(3, 3)] (by decide +kernel) w).trans (by simp only [val, List.foldl]; omega)
  have nt : field Thumb.strbReg.pat w 't' = w % 8 := (field_of [(0, 3)] (by decide +kernel) w).trans (by simp only [val, List.foldl]; omega)
  have fn : fits Thumb.strbReg.pat w = true := fits_of [(9, 7, 42)] (by decide +kernel) (by simp only [agree, List.all_cons, List.all_nil, Bool.and_true, Bool.and_eq_true, decide_eq_true_eq]; omega)
  have wi := wide16i (w / 8 % 8) (w / 64 % 8) (w % 8) (by omega) (by omega) (by omega)
  have wm := wide16m (w / 8 % 8) (w / 64 % 8) (w % 8) (by omega) (by omega) (by omega)
  have wn := wide16n (w / 8 % 8) (w / 64 % 8) (w % 8) (by omega) (by omega) (by omega)
  have wt := wide16t (w / 8 % 8) (w / 64 % 8) (w % 8) (by omega) (by omega) (by omega)
  have fw := wide16fits (w / 8 % 8) (w / 64 % 8) (w % 8) (by omega) (by omega) (by omega)
  have hp : popsPc w = false := by simp only [popsPc, Bool.and_eq_false_iff, decide_eq_false_iff_not]; omega
  refine ⟨⟨show w < 2 ^ 16 by omega, fn, ?_⟩, ⟨show both _ _ < 2 ^ 32 by unfold both; omega, fw, ?_⟩, ?_, ?_⟩
  all_goals clear fn fw; generalize field Thumb.strbReg.pat w = g at *; generalize field Thumb.strbRegW.pat _ = g' at *
  · rfl
  · simp [Thumb.strbRegW, wi, wm, wn, wt, plainReg] <;> omega
  · simp [Thumb.strbReg, nm, nn, nt, Thumb.strbRegW, wi, wm, wn, wt, Act.normal, Off.normal, plainShift, expand_small, expandCarry_small, immShift_zero, expand_zero, plainReg]
  · simp [Thumb.strbReg, nm, nn, nt, goes, hp]

theorem wide17i : ∀ m o d : Nat, m < 8 → o < 8 → d < 8 → field Thumb.ldrsbRegW.pat (both (0xf910 + m) (d * 4096 + o)) 'i' = 0 := by
    intro m o d hm ho hd
    refine (field_both [(20, 2)] (by decide +kernel) (by decide) _ _ (by omega)).trans ?_
    simp only [val2, List.foldl_cons, List.foldl_nil, Nat.reduceLeDiff, Nat.reduceSub, Nat.reducePow, reduceIte] <;> omega
theorem wide17m : ∀ m o d : Nat, m < 8 → o < 8 → d < 8 → field Thumb.ldrsbRegW.pat (both (0xf910 + m) (d * 4096 + o)) 'm' = o := by
    intro m o d hm ho hd
    refine (field_both [(16, 4)] (by decide +kernel) (by decide) _ _ (by omega)).trans ?_
    simp only [val2, List.foldl_cons, List.foldl_nil, Nat.reduceLeDiff, Nat.reduceSub, Nat.reducePow, reduceIte] <;> omega
theorem wide17n : ∀ m o d : Nat, m < 8 → o < 8 → d < 8 → field Thumb.ldrsbRegW.pat (both (0xf910 + m) (d * 4096 + o)) 'n' = m := by
    intro m o d hm ho hd
    refine (field_both [(0, 4)] (by decide +kernel) (by decide) _ _ (by omega)).trans ?_
    simp only [val2, List.foldl_cons, List.foldl_nil, Nat.reduceLeDiff, Nat.reduceSub, Nat.reducePow, reduceIte] <;> omega
theorem wide17t : ∀ m o d : Nat, m < 8 → o < 8 → d < 8 → field Thumb.ldrsbRegW.pat (both (0xf910 + m) (d * 4096 + o)) 't' = d := by
    intro m o d hm ho hd
    refine (field_both [(28, 4)] (by decide +kernel) (by decide) _ _ (by omega)).trans ?_
    simp only [val2, List.foldl_cons, List.foldl_nil, Nat.reduceLeDiff, Nat.reduceSub, Nat.reducePow, reduceIte] <;> omega
theorem wide17fits : ∀ m o d : Nat, m < 8 → o < 8 → d < 8 → fits Thumb.ldrsbRegW.pat (both (0xf910 + m) (d * 4096 + o)) = true := by
    intro m o d hm ho hd
    refine fits_of [(22, 6, 0), (4, 12, 3985)] (by decide +kernel) (agree_both (by decide) (by omega) ?_)
    simp only [Agree2, Nat.reduceLeDiff, Nat.reduceSub, Nat.reducePow, reduceIte]
    refine ⟨?_, ?_, trivial⟩ <;> first | trivial | omega

theorem pair17 {w : Nat} (h1 : 0x5600 ≤ w) (h2 : w < 0x5800) : Pair Thumb.ldrsbReg Thumb.ldrsbRegW w (both (0xf910 + w / 8 % 8) (w % 8 * 4096 + w / 64 % 8)) := by
  have nm : field Thumb.ldrsbReg.pat w 'm' = w / 64 % 8 := (field_of [(6, 3)] (by decide +kernel) w).trans (by simp only [val, List.foldl]; omega)
  have nn : field Thumb.ldrsbReg.pat w 'n' = w / 8 % 8 := (field_of [(3, 3)] (by decide +kernel) w).trans (by simp only [val, List.foldl]; omega)
  have nt : field Thumb.ldrsbReg.pat w 't' = w % 8 := (field_of [(0, 3)] (by decide +kernel) w).trans (by simp only [val, List.foldl]; omega)
  have fn : fits Thumb.ldrsbReg.pat w = true := fits_of [(9, 7, 43)] (by decide +kernel) (by simp only [agree, List.all_cons, List.all_nil, Bool.and_true, Bool.and_eq_true, decide_eq_true_eq]; omega)
  have wi := wide17i (w / 8 % 8) (w / 64 % 8) (w % 8) (by omega) (by omega) (by omega)
  have wm := wide17m (w / 8 % 8) (w / 64 % 8) (w % 8) (by omega) (by omega) (by omega)
  have wn := wide17n (w / 8 % 8) (w / 64 % 8) (w % 8) (by omega) (by omega) (by omega)
  have wt := wide17t (w / 8 % 8) (w / 64 % 8) (w % 8) (by omega) (by omega) (by omega)
  have fw := wide17fits (w / 8 % 8) (w / 64 % 8) (w % 8) (by omega) (by omega) (by omega)
  have hp : popsPc w = false := by simp only [popsPc, Bool.and_eq_false_iff, decide_eq_false_iff_not]; omega
  refine ⟨⟨show w < 2 ^ 16 by omega, fn, ?_⟩, ⟨show both _ _ < 2 ^ 32 by unfold both; omega, fw, ?_⟩, ?_, ?_⟩
  all_goals clear fn fw; generalize field Thumb.ldrsbReg.pat w = g at *; generalize field Thumb.ldrsbRegW.pat _ = g' at *
  · rfl
  · simp [Thumb.ldrsbRegW, wi, wm, wn, wt, plainReg] <;> omega
  · simp [Thumb.ldrsbReg, nm, nn, nt, Thumb.ldrsbRegW, wi, wm, wn, wt, Act.normal, Off.normal, plainShift, expand_small, expandCarry_small, immShift_zero, expand_zero, plainReg]
  · simp [Thumb.ldrsbReg, nm, nn, nt, goes, hp]

theorem wide18i : ∀ m o d : Nat, m < 8 → o < 8 → d < 8 → field Thumb.ldrRegW.pat (both (0xf850 + m) (d * 4096 + o)) 'i' = 0 := by
    intro m o d hm ho hd
    refine (field_both [(20, 2)] (by decide +kernel) (by decide) _ _ (by omega)).trans ?_
    simp only [val2, List.foldl_cons, List.foldl_nil, Nat.reduceLeDiff, Nat.reduceSub, Nat.reducePow, reduceIte] <;> omega
theorem wide18m : ∀ m o d : Nat, m < 8 → o < 8 → d < 8 → field Thumb.ldrRegW.pat (both (0xf850 + m) (d * 4096 + o)) 'm' = o := by
    intro m o d hm ho hd
    refine (field_both [(16, 4)] (by decide +kernel) (by decide) _ _ (by omega)).trans ?_
    simp only [val2, List.foldl_cons, List.foldl_nil, Nat.reduceLeDiff, Nat.reduceSub, Nat.reducePow, reduceIte] <;> omega
theorem wide18n : ∀ m o d : Nat, m < 8 → o < 8 → d < 8 → field Thumb.ldrRegW.pat (both (0xf850 + m) (d * 4096 + o)) 'n' = m := by
    intro m o d hm ho hd
    refine (field_both [(0, 4)] (by decide +kernel) (by decide) _ _ (by omega)).trans ?_
    simp only [val2, List.foldl_cons, List.foldl_nil, Nat.reduceLeDiff, Nat.reduceSub, Nat.reducePow, reduceIte] <;> omega
theorem wide18t : ∀ m o d : Nat, m < 8 → o < 8 → d < 8 → field Thumb.ldrRegW.pat (both (0xf850 + m) (d * 4096 + o)) 't' = d := by
    intro m o d hm ho hd
    refine (field_both [(28, 4)] (by decide +kernel) (by decide) _ _ (by omega)).trans ?_
    simp only [val2, List.foldl_cons, List.foldl_nil, Nat.reduceLeDiff, Nat.reduceSub, Nat.reducePow, reduceIte] <;> omega
theorem wide18fits : ∀ m o d : Nat, m < 8 → o < 8 → d < 8 → fits Thumb.ldrRegW.pat (both (0xf850 + m) (d * 4096 + o)) = true := by
    intro m o d hm ho hd
    refine fits_of [(22, 6, 0), (4, 12, 3973)] (by decide +kernel) (agree_both (by decide) (by omega) ?_)
    simp only [Agree2, Nat.reduceLeDiff, Nat.reduceSub, Nat.reducePow, reduceIte]
    refine ⟨?_, ?_, trivial⟩ <;> first | trivial | omega

theorem pair18 {w : Nat} (h1 : 0x5800 ≤ w) (h2 : w < 0x5a00) : Pair Thumb.ldrReg Thumb.ldrRegW w (both (0xf850 + w / 8 % 8) (w % 8 * 4096 + w / 64 % 8)) := by
  have nm : field Thumb.ldrReg.pat w 'm' = w / 64 % 8 := (field_of [(6, 3)] (by decide +kernel) w).trans (by simp only [val, List.foldl]; omega)
  have nn : field Thumb.ldrReg.pat w 'n' = w / 8 % 8 := (field_of [(3, 3)] (by decide +kernel) w).trans (by simp only [val, List.foldl]; omega)
  have nt : field Thumb.ldrReg.pat w 't' = w % 8 := (field_of [(0, 3)] (by decide +kernel) w).trans (by simp only [val, List.foldl]; omega)
  have fn : fits Thumb.ldrReg.pat w = true := fits_of [(9, 7, 44)] (by decide +kernel) (by simp only [agree, List.all_cons, List.all_nil, Bool.and_true, Bool.and_eq_true, decide_eq_true_eq]; omega)
  have wi := wide18i (w / 8 % 8) (w / 64 % 8) (w % 8) (by omega) (by omega) (by omega)
  have wm := wide18m (w / 8 % 8) (w / 64 % 8) (w % 8) (by omega) (by omega) (by omega)
  have wn := wide18n (w / 8 % 8) (w / 64 % 8) (w % 8) (by omega) (by omega) (by omega)
  have wt := wide18t (w / 8 % 8) (w / 64 % 8) (w % 8) (by omega) (by omega) (by omega)
  have fw := wide18fits (w / 8 % 8) (w / 64 % 8) (w % 8) (by omega) (by omega) (by omega)
  have hp : popsPc w = false := by simp only [popsPc, Bool.and_eq_false_iff, decide_eq_false_iff_not]; omega
  refine ⟨⟨show w < 2 ^ 16 by omega, fn, ?_⟩, ⟨show both _ _ < 2 ^ 32 by unfold both; omega, fw, ?_⟩, ?_, ?_⟩
  all_goals clear fn fw; generalize field Thumb.ldrReg.pat w = g at *; generalize field Thumb.ldrRegW.pat _ = g' at *
  · rfl
  · simp [Thumb.ldrRegW, wi, wm, wn, wt, plainReg] <;> omega
  · simp [Thumb.ldrReg, nm, nn, nt, Thumb.ldrRegW, wi, wm, wn, wt, Act.normal, Off.normal, plainShift, expand_small, expandCarry_small, immShift_zero, expand_zero, plainReg]
  · simp [Thumb.ldrReg, nm, nn, nt, goes, hp]

theorem wide19i : ∀ m o d : Nat, m < 8 → o < 8 → d < 8 → field Thumb.ldrhRegW.pat (both (0xf830 + m) (d * 4096 + o)) 'i' = 0 := by
    intro m o d hm ho hd
    refine (field_both [(20, 2)] (by decide +kernel) (by decide) _ _ (by omega)).trans ?_
    simp only [val2, List.foldl_cons, List.foldl_nil, Nat.reduceLeDiff, Nat.reduceSub, Nat.reducePow, reduceIte] <;> omega
theorem wide19m : ∀ m o d : Nat, m < 8 → o < 8 → d < 8 → field Thumb.ldrhRegW.pat (both (0xf830 + m) (d * 4096 + o)) 'm' = o := by
    intro m o d hm ho hd
    refine (field_both [(16, 4)] (by decide +kernel) (by decide) _ _ (by omega)).trans ?_
    simp only [val2, List.foldl_cons, List.foldl_nil, Nat.reduceLeDiff, Nat.reduceSub, Nat.reducePow, reduceIte] <;> omega
theorem wide19n : ∀ m o d : Nat, m < 8 → o < 8 → d < 8 → field Thumb.ldrhRegW.pat (both (0xf830 + m) (d * 4096 + o)) 'n' = m := by
    intro m o d hm ho hd
    refine (field_both [(0, 4)] (by decide +kernel) (by decide) _ _ (by omega)).trans ?_
    simp only [val2, List.foldl_cons, List.foldl_nil, Nat.reduceLeDiff, Nat.reduceSub, Nat.reducePow, reduceIte] <;> omega
theorem wide19t : ∀ m o d : Nat, m < 8 → o < 8 → d < 8 → field Thumb.ldrhRegW.pat (both (0xf830 + m) (d * 4096 + o)) 't' = d := by
    intro m o d hm ho hd
    refine (field_both [(28, 4)] (by decide +kernel) (by decide) _ _ (by omega)).trans ?_
    simp only [val2, List.foldl_cons, List.foldl_nil, Nat.reduceLeDiff, Nat.reduceSub, Nat.reducePow, reduceIte] <;> omega
theorem wide19fits : ∀ m o d : Nat, m < 8 → o < 8 → d < 8 → fits Thumb.ldrhRegW.pat (both (0xf830 + m) (d * 4096 + o)) = true := by
    intro m o d hm ho hd
    refine fits_of [(22, 6, 0), (4, 12, 3971)] (by decide +kernel) (agree_both (by decide) (by omega) ?_)
    simp only [Agree2, Nat.reduceLeDiff, Nat.reduceSub, Nat.reducePow, reduceIte]
    refine ⟨?_, ?_, trivial⟩ <;> first | trivial | omega

theorem pair19 {w : Nat} (h1 : 0x5a00 ≤ w) (h2 : w < 0x5c00) : Pair Thumb.ldrhReg Thumb.ldrhRegW w (both (0xf830 + w / 8 % 8) (w % 8 * 4096 + w / 64 % 8)) := by
  have nm : field Thumb.ldrhReg.pat w 'm' = w / 64 % 8 := (field_of [(6, 3)] (by decide +kernel) w).trans (by simp only [val, List.foldl]; omega)
  have nn : field Thumb.ldrhReg.pat w 'n' = w / 8 % 8 := (field_of [(3, 3)] (by decide +kernel) w).trans (by simp only [val, List.foldl]; omega)
  have nt : field Thumb.ldrhReg.pat w 't' = w % 8 := (field_of [(0, 3)] (by decide +kernel) w).trans (by simp only [val, List.foldl]; omega)
  have fn : fits Thumb.ldrhReg.pat w = true := fits_of [(9, 7, 45)] (by decide +kernel) (by simp only [agree, List.all_cons, List.all_nil, Bool.and_true, Bool.and_eq_true, decide_eq_true_eq]; omega)
  have wi := wide19i (w / 8 % 8) (w / 64 % 8) (w % 8) (by omega) (by omega) (by omega)
  have wm := wide19m (w / 8 % 8) (w / 64 % 8) (w % 8) (by omega) (by omega) (by omega)
  have wn := wide19n (w / 8 % 8) (w / 64 % 8) (w % 8) (by omega) (by omega) (by omega)
  have wt := wide19t (w / 8 % 8) (w / 64 % 8) (w % 8) (by omega) (by omega) (by omega)
  have fw := wide19fits (w / 8 % 8) (w / 64 % 8) (w % 8) (by omega) (by omega) (by omega)
  have hp : popsPc w = false := by simp only [popsPc, Bool.and_eq_false_iff, decide_eq_false_iff_not]; omega
  refine ⟨⟨show w < 2 ^ 16 by omega, fn, ?_⟩, ⟨show both _ _ < 2 ^ 32 by unfold both; omega, fw, ?_⟩, ?_, ?_⟩
  all_goals clear fn fw; generalize field Thumb.ldrhReg.pat w = g at *; generalize field Thumb.ldrhRegW.pat _ = g' at *
  · rfl
  · simp [Thumb.ldrhRegW, wi, wm, wn, wt, plainReg] <;> omega
  · simp [Thumb.ldrhReg, nm, nn, nt, Thumb.ldrhRegW, wi, wm, wn, wt, Act.normal, Off.normal, plainShift, expand_small, expandCarry_small, immShift_zero, expand_zero, plainReg]
  · simp [Thumb.ldrhReg, nm, nn, nt, goes, hp]

theorem wide20i : ∀ m o d : Nat, m < 8 → o < 8 → d < 8 → field Thumb.ldrbRegW.pat (both (0xf810 + m) (d * 4096 + o)) 'i' = 0 := by
    intro m o d hm ho hd
    refine (field_both [(20, 2)] (by decide +kernel) (by decide) _ _ (by omega)).trans ?_
    simp only [val2, List.foldl_cons, List.foldl_nil, Nat.reduceLeDiff, Nat.reduceSub, Nat.reducePow, reduceIte] <;> omega
theorem wide20m : ∀ m o d : Nat, m < 8 → o < 8 → d < 8 → field Thumb.ldrbRegW.pat (both (0xf810 + m) (d * 4096 + o)) 'm' = o := by
    intro m o d hm ho hd
    refine (field_both [(16, 4)] (by decide +kernel) (by decide) _ _ (by omega)).trans ?_
    simp only [val2, List.foldl_cons, List.foldl_nil, Nat.reduceLeDiff, Nat.reduceSub, Nat.reducePow, reduceIte] <;> omega
theorem wide20n : ∀ m o d : Nat, m < 8 → o < 8 → d < 8 → field Thumb.ldrbRegW.pat (both (0xf810 + m) (d * 4096 + o)) 'n' = m := by
    intro m o d hm ho hd
    refine (field_both [(0, 4)] (by decide +kernel) (by decide) _ _ (by omega)).trans ?_
    simp only [val2, List.foldl_cons, List.foldl_nil, Nat.reduceLeDiff, Nat.reduceSub, Nat.reducePow, reduceIte] <;> omega
theorem wide20t : ∀ m o d : Nat, m < 8 → o < 8 → d < 8 → field Thumb.ldrbRegW.pat (both (0xf810 + m) (d * 4096 + o)) 't' = d := by
    intro m o d hm ho hd
    refine (field_both [(28, 4)] (by decide +kernel) (by decide) _ _ (by omega)).trans ?_
    simp only [val2, List.foldl_cons, List.foldl_nil, Nat.reduceLeDiff, Nat.reduceSub, Nat.reducePow, reduceIte] <;> omega
theorem wide20fits : ∀ m o d : Nat, m < 8 → o < 8 → d < 8 → fits Thumb.ldrbRegW.pat (both (0xf810 + m) (d * 4096 + o)) = true := by
    intro m o d hm ho hd
    refine fits_of [(22, 6, 0), (4, 12, 3969)] (by decide +kernel) (agree_both (by decide) (by omega) ?_)
    simp only [Agree2, Nat.reduceLeDiff, Nat.reduceSub, Nat.reducePow, reduceIte]
    refine ⟨?_, ?_, trivial⟩ <;> first | trivial | omega

theorem pair20 {w : Nat} (h1 : 0x5c00 ≤ w) (h2 : w < 0x5e00) : Pair Thumb.ldrbReg Thumb.ldrbRegW w (both (0xf810 + w / 8 % 8) (w % 8 * 4096 + w / 64 % 8)) := by
  have nm : field Thumb.ldrbReg.pat w 'm' = w / 64 % 8 := (field_of [(6, 3)] (by decide +kernel) w).trans (by simp only [val, List.foldl]; omega)
  have nn : field Thumb.ldrbReg.pat w 'n' = w / 8 % 8 := (field_of [(3, 3)] (by decide +kernel) w).trans (by simp only [val, List.foldl]; omega)
  have nt : field Thumb.ldrbReg.pat w 't' = w % 8 := (field_of [(0, 3)] (by decide +kernel) w).trans (by simp only [val, List.foldl]; omega)
  have fn : fits Thumb.ldrbReg.pat w = true := fits_of [(9, 7, 46)] (by decide +kernel) (by simp only [agree, List.all_cons, List.all_nil, Bool.and_true, Bool.and_eq_true, decide_eq_true_eq]; omega)
  have wi := wide20i (w / 8 % 8) (w / 64 % 8) (w % 8) (by omega) (by omega) (by omega)
  have wm := wide20m (w / 8 % 8) (w / 64 % 8) (w % 8) (by omega) (by omega) (by omega)
  have wn := wide20n (w / 8 % 8) (w / 64 % 8) (w % 8) (by omega) (by omega) (by omega)
  have wt := wide20t (w / 8 % 8) (w / 64 % 8) (w % 8) (by omega) (by omega) (by omega)
  have fw := wide20fits (w / 8 % 8) (w / 64 % 8) (w % 8) (by omega) (by omega) (by omega)
  have hp : popsPc w = false := by simp only [popsPc, Bool.and_eq_false_iff, decide_eq_false_iff_not]; omega
  refine ⟨⟨show w < 2 ^ 16 by omega, fn, ?_⟩, ⟨show both _ _ < 2 ^ 32 by unfold both; omega, fw, ?_⟩, ?_, ?_⟩
  all_goals clear fn fw; generalize field Thumb.ldrbReg.pat w = g at *; generalize field Thumb.ldrbRegW.pat _ = g' at *
  · rfl
  · simp [Thumb.ldrbRegW, wi, wm, wn, wt, plainReg] <;> omega
  · simp [Thumb.ldrbReg, nm, nn, nt, Thumb.ldrbRegW, wi, wm, wn, wt, Act.normal, Off.normal, plainShift, expand_small, expandCarry_small, immShift_zero, expand_zero, plainReg]
  · simp [Thumb.ldrbReg, nm, nn, nt, goes, hp]

theorem wide21i : ∀ m o d : Nat, m < 8 → o < 8 → d < 8 → field Thumb.ldrshRegW.pat (both (0xf930 + m) (d * 4096 + o)) 'i' = 0 := by
    intro m o d hm ho hd
    refine (field_both [(20, 2)] (by decide +kernel) (by decide) _ _ (by omega)).trans ?_
    simp only [val2, List.foldl_cons, List.foldl_nil, Nat.reduceLeDiff, Nat.reduceSub, Nat.reducePow, reduceIte] <;> omega
theorem wide21m : ∀ m o d : Nat, m < 8 → o < 8 → d < 8 → field Thumb.ldrshRegW.pat (both (0xf930 + m) (d * 4096 + o)) 'm' = o := by
    intro m o d hm ho hd
    refine (field_both [(16, 4)] (by decide +kernel) (by decide) _ _ (by omega)).trans ?_
    simp only [val2, List.foldl_cons, List.foldl_nil, Nat.reduceLeDiff, Nat.reduceSub, Nat.reducePow, reduceIte] <;> omega
theorem wide21n : ∀ m o d : Nat, m < 8 → o < 8 → d < 8 → field Thumb.ldrshRegW.pat (both (0xf930 + m) (d * 4096 + o)) 'n' = m := by
    intro m o d hm ho hd
    refine (field_both [(0, 4)] (by decide +kernel) (by decide) _ _ (by omega)).trans ?_
    simp only [val2, List.foldl_cons, List.foldl_nil, Nat.reduceLeDiff, Nat.reduceSub, Nat.reducePow, reduceIte] <;> omega
theorem wide21t : ∀ m o d : Nat, m < 8 → o < 8 → d < 8 → field Thumb.ldrshRegW.pat (both (0xf930 + m) (d * 4096 + o)) 't' = d := by
    intro m o d hm ho hd
    refine (field_both [(28, 4)] (by decide +kernel) (by decide) _ _ (by omega)).trans ?_
    simp only [val2, List.foldl_cons, List.foldl_nil, Nat.reduceLeDiff, Nat.reduceSub, Nat.reducePow, reduceIte] <;> omega
theorem wide21fits : ∀ m o d : Nat, m < 8 → o < 8 → d < 8 → fits Thumb.ldrshRegW.pat (both (0xf930 + m) (d * 4096 + o)) = true := by
    intro m o d hm ho hd
    refine fits_of [(22, 6, 0), (4, 12, 3987)] (by decide +kernel) (agree_both (by decide) (by omega) ?_)
    simp only [Agree2, Nat.reduceLeDiff, Nat.reduceSub, Nat.reducePow, reduceIte]
    refine ⟨?_, ?_, trivial⟩ <;> first | trivial | omega

theorem pair21 {w : Nat} (h1 : 0x5e00 ≤ w) (h2 : w < 0x6000) : Pair Thumb.ldrshReg Thumb.ldrshRegW w (both (0xf930 + w / 8 % 8) (w % 8 * 4096 + w / 64 % 8)) := by
  have nm : field Thumb.ldrshReg.pat w 'm' = w / 64 % 8 := (field_of [(6, 3)] (by decide +kernel) w).trans (by simp only [val, List.foldl]; omega)
  have nn : field Thumb.ldrshReg.pat w 'n' = w / 8 % 8 := (field_of [(3, 3)] (by decide +kernel) w).trans (by simp only [val, List.foldl]; omega)
  have nt : field Thumb.ldrshReg.pat w 't' = w % 8 := (field_of [(0, 3)] (by decide +kernel) w).trans (by simp only [val, List.foldl]; omega)
  have fn : fits Thumb.ldrshReg.pat w = true := fits_of [(9, 7, 47)] (by decide +kernel) (by simp only [agree, List.all_cons, List.all_nil, Bool.and_true, Bool.and_eq_true, decide_eq_true_eq]; omega)
  have wi := wide21i (w / 8 % 8) (w / 64 % 8) (w % 8) (by omega) (by omega) (by omega)
  have wm := wide21m (w / 8 % 8) (w / 64 % 8) (w % 8) (by omega) (by omega) (by omega)
  have wn := wide21n (w / 8 % 8) (w / 64 % 8) (w % 8) (by omega) (by omega) (by omega)
  have wt := wide21t (w / 8 % 8) (w / 64 % 8) (w % 8) (by omega) (by omega) (by omega)
  have fw := wide21fits (w / 8 % 8) (w / 64 % 8) (w % 8) (by omega) (by omega) (by omega)
  have hp : popsPc w = false := by simp only [popsPc, Bool.and_eq_false_iff, decide_eq_false_iff_not]; omega
  refine ⟨⟨show w < 2 ^ 16 by omega, fn, ?_⟩, ⟨show both _ _ < 2 ^ 32 by unfold both; omega, fw, ?_⟩, ?_, ?_⟩
  all_goals clear fn fw; generalize field Thumb.ldrshReg.pat w = g at *; generalize field Thumb.ldrshRegW.pat _ = g' at *
  · rfl
  · simp [Thumb.ldrshRegW, wi, wm, wn, wt, plainReg] <;> omega
  · simp [Thumb.ldrshReg, nm, nn, nt, Thumb.ldrshRegW, wi, wm, wn, wt, Act.normal, Off.normal, plainShift, expand_small, expandCarry_small, immShift_zero, expand_zero, plainReg]
  · simp [Thumb.ldrshReg, nm, nn, nt, goes, hp]

theorem wide22i : ∀ a b : Nat, a < 8 → b < 256 → field Thumb.ldrLitW.pat (both (0xf8df) (a * 4096 + b * 4)) 'i' = 4 * (b) := by
    intro a b ha hb
    refine (field_both [(16, 12)] (by decide +kernel) (by decide) _ _ (by omega)).trans ?_
    simp only [val2, List.foldl_cons, List.foldl_nil, Nat.reduceLeDiff, Nat.reduceSub, Nat.reducePow, reduceIte] <;> omega
theorem wide22t : ∀ a b : Nat, a < 8 → b < 256 → field Thumb.ldrLitW.pat (both (0xf8df) (a * 4096 + b * 4)) 't' = a := by
    intro a b ha hb
    refine (field_both [(28, 4)] (by decide +kernel) (by decide) _ _ (by omega)).trans ?_
    simp only [val2, List.foldl_cons, List.foldl_nil, Nat.reduceLeDiff, Nat.reduceSub, Nat.reducePow, reduceIte] <;> omega
theorem wide22u : ∀ a b : Nat, a < 8 → b < 256 → field Thumb.ldrLitW.pat (both (0xf8df) (a * 4096 + b * 4)) 'u' = 1 := by
    intro a b ha hb
    refine (field_both [(7, 1)] (by decide +kernel) (by decide) _ _ (by omega)).trans ?_
    simp only [val2, List.foldl_cons, List.foldl_nil, Nat.reduceLeDiff, Nat.reduceSub, Nat.reducePow, reduceIte] <;> omega
theorem wide22fits : ∀ a b : Nat, a < 8 → b < 256 → fits Thumb.ldrLitW.pat (both (0xf8df) (a * 4096 + b * 4)) = true := by
    intro a b ha hb
    refine fits_of [(8, 8, 248), (0, 7, 95)] (by decide +kernel) (agree_both (by decide) (by omega) ?_)
    simp only [Agree2, Nat.reduceLeDiff, Nat.reduceSub, Nat.reducePow, reduceIte]
    refine ⟨?_, ?_, trivial⟩ <;> first | trivial | omega

theorem pair22 {w : Nat} (h1 : 0x4800 ≤ w) (h2 : w < 0x5000) : Pair Thumb.ldrLit Thumb.ldrLitW w (both (0xf8df) (w / 256 % 8 * 4096 + w % 256 * 4)) := by
  have ni : field Thumb.ldrLit.pat w 'i' = w % 256 := (field_of [(0, 8)] (by decide +kernel) w).trans (by simp only [val, List.foldl]; omega)
  have nt : field Thumb.ldrLit.pat w 't' = w / 256 % 8 := (field_of [(8, 3)] (by decide +kernel) w).trans (by simp only [val, List.foldl]; omega)
  have fn : fits Thumb.ldrLit.pat w = true := fits_of [(11, 5, 9)] (by decide +kernel) (by simp only [agree, List.all_cons, List.all_nil, Bool.and_true, Bool.and_eq_true, decide_eq_true_eq]; omega)
  have wi := wide22i (w / 256 % 8) (w % 256) (by omega) (by omega)
  have wt := wide22t (w / 256 % 8) (w % 256) (by omega) (by omega)
  have wu := wide22u (w / 256 % 8) (w % 256) (by omega) (by omega)
  have fw := wide22fits (w / 256 % 8) (w % 256) (by omega) (by omega)
  have hp : popsPc w = false := by simp only [popsPc, Bool.and_eq_false_iff, decide_eq_false_iff_not]; omega
  refine ⟨⟨show w < 2 ^ 16 by omega, fn, ?_⟩, ⟨show both _ _ < 2 ^ 32 by unfold both; omega, fw, ?_⟩, ?_, ?_⟩
  all_goals clear fn fw; generalize field Thumb.ldrLit.pat w = g at *; generalize field Thumb.ldrLitW.pat _ = g' at *
  · rfl
  · simp [Thumb.ldrLitW, wi, wt, wu, plainReg] <;> omega
  · simp [Thumb.ldrLit, ni, nt, Thumb.ldrLitW, wi, wt, wu, Act.normal, Off.normal, plainShift, expand_small, expandCarry_small, immShift_zero, expand_zero, plainReg]
  · simp [Thumb.ldrLit, ni, nt, goes, hp]

theorem wide23t : ∀ t : Nat, t < 8 → field Thumb.pushOne.pat (both (0xf84d) (t * 4096 + 0x0d04)) 't' = t := by
    intro t ht
    refine (field_both [(28, 4)] (by decide +kernel) (by decide) _ _ (by omega)).trans ?_
    simp only [val2, List.foldl_cons, List.foldl_nil, Nat.reduceLeDiff, Nat.reduceSub, Nat.reducePow, reduceIte] <;> omega
theorem wide23fits : ∀ t : Nat, t < 8 → fits Thumb.pushOne.pat (both (0xf84d) (t * 4096 + 0x0d04)) = true := by
    intro t ht
    refine fits_of [(16, 12, 3332), (0, 16, 63565)] (by decide +kernel) (agree_both (by decide) (by omega) ?_)
    simp only [Agree2, Nat.reduceLeDiff, Nat.reduceSub, Nat.reducePow, reduceIte]
    refine ⟨?_, ?_, trivial⟩ <;> first | trivial | omega

theorem pair23 {w : Nat} (h1 : 0xb400 ≤ w) (h2 : w < 0xb500) (h3 : members w = 1) : Pair Thumb.push Thumb.pushOne w (both (0xf84d) (member w * 4096 + 0x0d04)) := by
  have hm := member_lt w
  have nm : field Thumb.push.pat w 'm' = w / 256 % 2 := (field_of [(8, 1)] (by decide +kernel) w).trans (by simp only [val, List.foldl]; omega)
  have nr : field Thumb.push.pat w 'r' = w % 256 := (field_of [(0, 8)] (by decide +kernel) w).trans (by simp only [val, List.foldl]; omega)
  have fn : fits Thumb.push.pat w = true := fits_of [(9, 7, 90)] (by decide +kernel) (by simp only [agree, List.all_cons, List.all_nil, Bool.and_true, Bool.and_eq_true, decide_eq_true_eq]; omega)
  have wt := wide23t (member w) (by omega)
  have fw := wide23fits (member w) (by omega)
  have hp : popsPc w = false := by simp only [popsPc, Bool.and_eq_false_iff, decide_eq_false_iff_not]; omega
  refine ⟨⟨show w < 2 ^ 16 by omega, fn, ?_⟩, ⟨show both _ _ < 2 ^ 32 by unfold both; omega, fw, ?_⟩, ?_, ?_⟩
  all_goals clear fn fw; generalize field Thumb.push.pat w = g at *; generalize field Thumb.pushOne.pat _ = g' at *
  · have hl := lists (w % 256) (by omega); rw [members_mod, member_mod] at hl; have q : w / 256 % 2 = 0 := by omega
    simp [Thumb.push, nm, nr, q, (hl.1 h3).1]
  · simp [Thumb.pushOne, wt, plainReg] <;> omega
  · have hl := lists (w % 256) (by omega); rw [members_mod, member_mod] at hl; have q : w / 256 % 2 = 0 := by omega
    simp [Thumb.push, nm, nr, Thumb.pushOne, wt, q, Act.normal, (hl.1 h3).2]
  · simp [Thumb.push, nm, nr, goes, hp]

theorem wide24t : field Thumb.pushOne.pat (both (0xf84d) (0xed04)) 't' = 14 := by
    refine (field_both [(28, 4)] (by decide +kernel) (by decide) _ _ (by omega)).trans ?_
    simp only [val2, List.foldl_cons, List.foldl_nil, Nat.reduceLeDiff, Nat.reduceSub, Nat.reducePow, reduceIte] <;> omega
theorem wide24fits : fits Thumb.pushOne.pat (both (0xf84d) (0xed04)) = true := by
    refine fits_of [(16, 12, 3332), (0, 16, 63565)] (by decide +kernel) (agree_both (by decide) (by omega) ?_)
    simp only [Agree2, Nat.reduceLeDiff, Nat.reduceSub, Nat.reducePow, reduceIte]
    refine ⟨?_, ?_, trivial⟩ <;> first | trivial | omega

theorem pair24 {w : Nat} (h1 : 0xb500 ≤ w) (h2 : w < 0xb501) : Pair Thumb.push Thumb.pushOne w (both (0xf84d) (0xed04)) := by
  have nm : field Thumb.push.pat w 'm' = w / 256 % 2 := (field_of [(8, 1)] (by decide +kernel) w).trans (by simp only [val, List.foldl]; omega)
  have nr : field Thumb.push.pat w 'r' = w % 256 := (field_of [(0, 8)] (by decide +kernel) w).trans (by simp only [val, List.foldl]; omega)
  have fn : fits Thumb.push.pat w = true := fits_of [(9, 7, 90)] (by decide +kernel) (by simp only [agree, List.all_cons, List.all_nil, Bool.and_true, Bool.and_eq_true, decide_eq_true_eq]; omega)
  have wt := wide24t  
  have fw := wide24fits  
  have hp : popsPc w = false := by simp only [popsPc, Bool.and_eq_false_iff, decide_eq_false_iff_not]; omega
  refine ⟨⟨show w < 2 ^ 16 by omega, fn, ?_⟩, ⟨show both _ _ < 2 ^ 32 by unfold both; omega, fw, ?_⟩, ?_, ?_⟩
  all_goals clear fn fw; generalize field Thumb.push.pat w = g at *; generalize field Thumb.pushOne.pat _ = g' at *
  · simp [Thumb.push, nm, nr]; omega
  · simp [Thumb.pushOne, wt, plainReg] <;> omega
  · obtain rfl : w = 0xb500 := by omega
    simp only [Thumb.push, nm, nr, Thumb.pushOne, wt, Act.normal]; decide +kernel
  · simp [Thumb.push, nm, nr, goes, hp]

theorem wide25m : ∀ q b : Nat, q < 2 → b < 256 → field Thumb.popW.pat (both (0xe8bd) (q * 32768 + b)) 'm' = 0 := by
    intro q b hq hb
    refine (field_both [(30, 1)] (by decide +kernel) (by decide) _ _ (by omega)).trans ?_
    simp only [val2, List.foldl_cons, List.foldl_nil, Nat.reduceLeDiff, Nat.reduceSub, Nat.reducePow, reduceIte] <;> omega
theorem wide25p : ∀ q b : Nat, q < 2 → b < 256 → field Thumb.popW.pat (both (0xe8bd) (q * 32768 + b)) 'p' = q := by
    intro q b hq hb
    refine (field_both [(31, 1)] (by decide +kernel) (by decide) _ _ (by omega)).trans ?_
    simp only [val2, List.foldl_cons, List.foldl_nil, Nat.reduceLeDiff, Nat.reduceSub, Nat.reducePow, reduceIte] <;> omega
theorem wide25r : ∀ q b : Nat, q < 2 → b < 256 → field Thumb.popW.pat (both (0xe8bd) (q * 32768 + b)) 'r' = b := by
    intro q b hq hb
    refine (field_both [(16, 13)] (by decide +kernel) (by decide) _ _ (by omega)).trans ?_
    simp only [val2, List.foldl_cons, List.foldl_nil, Nat.reduceLeDiff, Nat.reduceSub, Nat.reducePow, reduceIte] <;> omega
theorem wide25fits : ∀ q b : Nat, q < 2 → b < 256 → fits Thumb.popW.pat (both (0xe8bd) (q * 32768 + b)) = true := by
    intro q b hq hb
    refine fits_of [(29, 1, 0), (0, 16, 59581)] (by decide +kernel) (agree_both (by decide) (by omega) ?_)
    simp only [Agree2, Nat.reduceLeDiff, Nat.reduceSub, Nat.reducePow, reduceIte]
    refine ⟨?_, ?_, trivial⟩ <;> first | trivial | omega

theorem pair25 {w : Nat} (h1 : 0xbc00 ≤ w) (h2 : w < 0xbe00) (h3 : 2 ≤ members w + w / 256 % 2) : Pair Thumb.pop Thumb.popW w (both (0xe8bd) (w / 256 % 2 * 32768 + w % 256)) := by
  have np : field Thumb.pop.pat w 'p' = w / 256 % 2 := (field_of [(8, 1)] (by decide +kernel) w).trans (by simp only [val, List.foldl]; omega)
  have nr : field Thumb.pop.pat w 'r' = w % 256 := (field_of [(0, 8)] (by decide +kernel) w).trans (by simp only [val, List.foldl]; omega)
  have fn : fits Thumb.pop.pat w = true := fits_of [(9, 7, 94)] (by decide +kernel) (by simp only [agree, List.all_cons, List.all_nil, Bool.and_true, Bool.and_eq_true, decide_eq_true_eq]; omega)
  have wm := wide25m (w / 256 % 2) (w % 256) (by omega) (by omega)
  have wp := wide25p (w / 256 % 2) (w % 256) (by omega) (by omega)
  have wr := wide25r (w / 256 % 2) (w % 256) (by omega) (by omega)
  have fw := wide25fits (w / 256 % 2) (w % 256) (by omega) (by omega)
  refine ⟨⟨show w < 2 ^ 16 by omega, fn, ?_⟩, ⟨show both _ _ < 2 ^ 32 by unfold both; omega, fw, ?_⟩, ?_, ?_⟩
  all_goals clear fn fw; generalize field Thumb.pop.pat w = g at *; generalize field Thumb.popW.pat _ = g' at *
  · have hl := lists (w % 256) (by omega); rw [members_mod, member_mod] at hl; rcases (by omega : w / 256 % 2 = 0 ∨ w / 256 % 2 = 1) with q | q
    · simp [Thumb.pop, np, nr, q, (hl.2.1 (by omega)).1]
    · simp [Thumb.pop, np, nr, q]
  · have hl := lists (w % 256) (by omega); rw [members_mod, member_mod] at hl; rcases (by omega : w / 256 % 2 = 0 ∨ w / 256 % 2 = 1) with q | q
    · simp [Thumb.popW, wm, wp, wr, q, (hl.2.1 (by omega)).2]
    · simp [Thumb.popW, wm, wp, wr, q, hl.2.2.1 (by omega)]
  · simp [Thumb.pop, np, nr, Thumb.popW, wm, wp, wr, Act.normal, Off.normal, plainShift, expand_small, expandCarry_small, immShift_zero, expand_zero, plainReg]
  · have hl := lists (w % 256) (by omega); rw [members_mod, member_mod] at hl; rcases (by omega : w / 256 % 2 = 0 ∨ w / 256 % 2 = 1) with q | q
    · have hp : popsPc w = false := by simp [popsPc]; omega
      simp only [Thumb.pop, np, nr, q, goes, hp, hl.2.2.2.1]
    · have hp : popsPc w = true := by simp [popsPc]; omega
      simp only [Thumb.pop, np, nr, q, goes, hp, hl.2.2.2.2.1]

theorem wide26t : ∀ t : Nat, t < 8 → field Thumb.popOne.pat (both (0xf85d) (t * 4096 + 0x0b04)) 't' = t := by
    intro t ht
    refine (field_both [(28, 4)] (by decide +kernel) (by decide) _ _ (by omega)).trans ?_
    simp only [val2, List.foldl_cons, List.foldl_nil, Nat.reduceLeDiff, Nat.reduceSub, Nat.reducePow, reduceIte] <;> omega
theorem wide26fits : ∀ t : Nat, t < 8 → fits Thumb.popOne.pat (both (0xf85d) (t * 4096 + 0x0b04)) = true := by
    intro t ht
    refine fits_of [(16, 12, 2820), (0, 16, 63581)] (by decide +kernel) (agree_both (by decide) (by omega) ?_)
    simp only [Agree2, Nat.reduceLeDiff, Nat.reduceSub, Nat.reducePow, reduceIte]
    refine ⟨?_, ?_, trivial⟩ <;> first | trivial | omega

theorem pair26 {w : Nat} (h1 : 0xbc00 ≤ w) (h2 : w < 0xbd00) (h3 : members w = 1) : Pair Thumb.pop Thumb.popOne w (both (0xf85d) (member w * 4096 + 0x0b04)) := by
  have hm := member_lt w
  have np : field Thumb.pop.pat w 'p' = w / 256 % 2 := (field_of [(8, 1)] (by decide +kernel) w).trans (by simp only [val, List.foldl]; omega)
  have nr : field Thumb.pop.pat w 'r' = w % 256 := (field_of [(0, 8)] (by decide +kernel) w).trans (by simp only [val, List.foldl]; omega)
  have fn : fits Thumb.pop.pat w = true := fits_of [(9, 7, 94)] (by decide +kernel) (by simp only [agree, List.all_cons, List.all_nil, Bool.and_true, Bool.and_eq_true, decide_eq_true_eq]; omega)
  have wt := wide26t (member w) (by omega)
  have fw := wide26fits (member w) (by omega)
  refine ⟨⟨show w < 2 ^ 16 by omega, fn, ?_⟩, ⟨show both _ _ < 2 ^ 32 by unfold both; omega, fw, ?_⟩, ?_, ?_⟩
  all_goals clear fn fw; generalize field Thumb.pop.pat w = g at *; generalize field Thumb.popOne.pat _ = g' at *
  · have hl := lists (w % 256) (by omega); rw [members_mod, member_mod] at hl; have q : w / 256 % 2 = 0 := by omega
    simp [Thumb.pop, np, nr, q, (hl.1 h3).1]
  · rfl
  · have hl := lists (w % 256) (by omega); rw [members_mod, member_mod] at hl; have q : w / 256 % 2 = 0 := by omega
    simp [Thumb.pop, np, nr, Thumb.popOne, wt, q, Act.normal, (hl.1 h3).2]
  · have hl := lists (w % 256) (by omega); rw [members_mod, member_mod] at hl; have q : w / 256 % 2 = 0 := by omega
    have hp : popsPc w = false := by simp [popsPc]; omega
    simp only [Thumb.pop, np, nr, q, goes, hp, hl.2.2.2.1]

theorem wide27t : field Thumb.popOne.pat (both (0xf85d) (0xfb04)) 't' = 15 := by
    refine (field_both [(28, 4)] (by decide +kernel) (by decide) _ _ (by omega)).trans ?_
    simp only [val2, List.foldl_cons, List.foldl_nil, Nat.reduceLeDiff, Nat.reduceSub, Nat.reducePow, reduceIte] <;> omega
theorem wide27fits : fits Thumb.popOne.pat (both (0xf85d) (0xfb04)) = true := by
    refine fits_of [(16, 12, 2820), (0, 16, 63581)] (by decide +kernel) (agree_both (by decide) (by omega) ?_)
    simp only [Agree2, Nat.reduceLeDiff, Nat.reduceSub, Nat.reducePow, reduceIte]
    refine ⟨?_, ?_, trivial⟩ <;> first | trivial | omega

theorem pair27 {w : Nat} (h1 : 0xbd00 ≤ w) (h2 : w < 0xbd01) : Pair Thumb.pop Thumb.popOne w (both (0xf85d) (0xfb04)) := by
  have np : field Thumb.pop.pat w 'p' = w / 256 % 2 := (field_of [(8, 1)] (by decide +kernel) w).trans (by simp only [val, List.foldl]; omega)
  have nr : field Thumb.pop.pat w 'r' = w % 256 := (field_of [(0, 8)] (by decide +kernel) w).trans (by simp only [val, List.foldl]; omega)
  have fn : fits Thumb.pop.pat w = true := fits_of [(9, 7, 94)] (by decide +kernel) (by simp only [agree, List.all_cons, List.all_nil, Bool.and_true, Bool.and_eq_true, decide_eq_true_eq]; omega)
  have wt := wide27t  
  have fw := wide27fits  
  refine ⟨⟨show w < 2 ^ 16 by omega, fn, ?_⟩, ⟨show both _ _ < 2 ^ 32 by unfold both; omega, fw, ?_⟩, ?_, ?_⟩
  all_goals clear fn fw; generalize field Thumb.pop.pat w = g at *; generalize field Thumb.popOne.pat _ = g' at *
  · simp [Thumb.pop, np, nr]; omega
  · rfl
  · obtain rfl : w = 0xbd00 := by omega
    simp only [Thumb.pop, np, nr, Thumb.popOne, wt, Act.normal]; decide +kernel
  · obtain rfl : w = 0xbd00 := by omega
    simp only [Thumb.pop, np, nr, goes]; decide +kernel

theorem wide28m : ∀ a b : Nat, a < 8 → b < 256 → field Thumb.stmW.pat (both (0xe8a0 + a) (b)) 'm' = 0 := by
    intro a b ha hb
    refine (field_both [(30, 1)] (by decide +kernel) (by decide) _ _ (by omega)).trans ?_
    simp only [val2, List.foldl_cons, List.foldl_nil, Nat.reduceLeDiff, Nat.reduceSub, Nat.reducePow, reduceIte] <;> omega
theorem wide28n : ∀ a b : Nat, a < 8 → b < 256 → field Thumb.stmW.pat (both (0xe8a0 + a) (b)) 'n' = a := by
    intro a b ha hb
    refine (field_both [(0, 4)] (by decide +kernel) (by decide) _ _ (by omega)).trans ?_
    simp only [val2, List.foldl_cons, List.foldl_nil, Nat.reduceLeDiff, Nat.reduceSub, Nat.reducePow, reduceIte] <;> omega
theorem wide28r : ∀ a b : Nat, a < 8 → b < 256 → field Thumb.stmW.pat (both (0xe8a0 + a) (b)) 'r' = b := by
    intro a b ha hb
    refine (field_both [(16, 13)] (by decide +kernel) (by decide) _ _ (by omega)).trans ?_
    simp only [val2, List.foldl_cons, List.foldl_nil, Nat.reduceLeDiff, Nat.reduceSub, Nat.reducePow, reduceIte] <;> omega
theorem wide28w : ∀ a b : Nat, a < 8 → b < 256 → field Thumb.stmW.pat (both (0xe8a0 + a) (b)) 'w' = 1 := by
    intro a b ha hb
    refine (field_both [(5, 1)] (by decide +kernel) (by decide) _ _ (by omega)).trans ?_
    simp only [val2, List.foldl_cons, List.foldl_nil, Nat.reduceLeDiff, Nat.reduceSub, Nat.reducePow, reduceIte] <;> omega
theorem wide28fits : ∀ a b : Nat, a < 8 → b < 256 → fits Thumb.stmW.pat (both (0xe8a0 + a) (b)) = true := by
    intro a b ha hb
    refine fits_of [(31, 1, 0), (29, 1, 0), (6, 10, 930), (4, 1, 0)] (by decide +kernel) (agree_both (by decide) (by omega) ?_)
    simp only [Agree2, Nat.reduceLeDiff, Nat.reduceSub, Nat.reducePow, reduceIte]
    refine ⟨?_, ?_, ?_, ?_, trivial⟩ <;> first | trivial | omega

theorem pair28 {w : Nat} (h1 : 0xc000 ≤ w) (h2 : w < 0xc800) (h3 : 2 ≤ members w ∧ ¬ inList w (w / 256 % 8)) : Pair Thumb.stm Thumb.stmW w (both (0xe8a0 + w / 256 % 8) (w % 256)) := by
  have nn : field Thumb.stm.pat w 'n' = w / 256 % 8 := (field_of [(8, 3)] (by decide +kernel) w).trans (by simp only [val, List.foldl]; omega)
  have nr : field Thumb.stm.pat w 'r' = w % 256 := (field_of [(0, 8)] (by decide +kernel) w).trans (by simp only [val, List.foldl]; omega)
  have fn : fits Thumb.stm.pat w = true := fits_of [(11, 5, 24)] (by decide +kernel) (by simp only [agree, List.all_cons, List.all_nil, Bool.and_true, Bool.and_eq_true, decide_eq_true_eq]; omega)
  have wm := wide28m (w / 256 % 8) (w % 256) (by omega) (by omega)
  have wn := wide28n (w / 256 % 8) (w % 256) (by omega) (by omega)
  have wr := wide28r (w / 256 % 8) (w % 256) (by omega) (by omega)
  have ww := wide28w (w / 256 % 8) (w % 256) (by omega) (by omega)
  have fw := wide28fits (w / 256 % 8) (w % 256) (by omega) (by omega)
  have hp : popsPc w = false := by simp only [popsPc, Bool.and_eq_false_iff, decide_eq_false_iff_not]; omega
  refine ⟨⟨show w < 2 ^ 16 by omega, fn, ?_⟩, ⟨show both _ _ < 2 ^ 32 by unfold both; omega, fw, ?_⟩, ?_, ?_⟩
  all_goals clear fn fw; generalize field Thumb.stm.pat w = g at *; generalize field Thumb.stmW.pat _ = g' at *
  · have hl := lists (w % 256) (by omega); rw [members_mod, member_mod] at hl; simp [Thumb.stm, nn, nr, (hl.2.1 h3.1).1]
  · have hl := lists (w % 256) (by omega); rw [members_mod, member_mod] at hl; have hb := hl.2.2.2.2.2 _ (by omega : w / 256 % 8 < 8)
    simp [Thumb.stmW, wm, wn, wr, ww, (hl.2.1 h3.1).2]
    refine ⟨by omega, ?_⟩
    simpa using hb.trans (by simpa using h3.2)
  · simp [Thumb.stm, nn, nr, Thumb.stmW, wm, wn, wr, ww, Act.normal]
  · simp [Thumb.stm, nn, nr, goes, hp]

theorem wide29m : ∀ a b : Nat, a < 8 → b < 256 → field Thumb.ldmW.pat (both (0xe8b0 + a) (b)) 'm' = 0 := by
    intro a b ha hb
    refine (field_both [(30, 1)] (by decide +kernel) (by decide) _ _ (by omega)).trans ?_
    simp only [val2, List.foldl_cons, List.foldl_nil, Nat.reduceLeDiff, Nat.reduceSub, Nat.reducePow, reduceIte] <;> omega
theorem wide29n : ∀ a b : Nat, a < 8 → b < 256 → field Thumb.ldmW.pat (both (0xe8b0 + a) (b)) 'n' = a := by
    intro a b ha hb
    refine (field_both [(0, 4)] (by decide +kernel) (by decide) _ _ (by omega)).trans ?_
    simp only [val2, List.foldl_cons, List.foldl_nil, Nat.reduceLeDiff, Nat.reduceSub, Nat.reducePow, reduceIte] <;> omega
theorem wide29p : ∀ a b : Nat, a < 8 → b < 256 → field Thumb.ldmW.pat (both (0xe8b0 + a) (b)) 'p' = 0 := by
    intro a b ha hb
    refine (field_both [(31, 1)] (by decide +kernel) (by decide) _ _ (by omega)).trans ?_
    simp only [val2, List.foldl_cons, List.foldl_nil, Nat.reduceLeDiff, Nat.reduceSub, Nat.reducePow, reduceIte] <;> omega
theorem wide29r : ∀ a b : Nat, a < 8 → b < 256 → field Thumb.ldmW.pat (both (0xe8b0 + a) (b)) 'r' = b := by
    intro a b ha hb
    refine (field_both [(16, 13)] (by decide +kernel) (by decide) _ _ (by omega)).trans ?_
    simp only [val2, List.foldl_cons, List.foldl_nil, Nat.reduceLeDiff, Nat.reduceSub, Nat.reducePow, reduceIte] <;> omega
theorem wide29w : ∀ a b : Nat, a < 8 → b < 256 → field Thumb.ldmW.pat (both (0xe8b0 + a) (b)) 'w' = 1 := by
    intro a b ha hb
    refine (field_both [(5, 1)] (by decide +kernel) (by decide) _ _ (by omega)).trans ?_
    simp only [val2, List.foldl_cons, List.foldl_nil, Nat.reduceLeDiff, Nat.reduceSub, Nat.reducePow, reduceIte] <;> omega
theorem wide29fits : ∀ a b : Nat, a < 8 → b < 256 → fits Thumb.ldmW.pat (both (0xe8b0 + a) (b)) = true := by
    intro a b ha hb
    refine fits_of [(29, 1, 0), (6, 10, 930), (4, 1, 1)] (by decide +kernel) (agree_both (by decide) (by omega) ?_)
    simp only [Agree2, Nat.reduceLeDiff, Nat.reduceSub, Nat.reducePow, reduceIte]
    refine ⟨?_, ?_, ?_, trivial⟩ <;> first | trivial | omega

theorem pair29 {w : Nat} (h1 : 0xc800 ≤ w) (h2 : w < 0xd000) (h3 : 2 ≤ members w ∧ ¬ inList w (w / 256 % 8)) : Pair Thumb.ldm Thumb.ldmW w (both (0xe8b0 + w / 256 % 8) (w % 256)) := by
  have nn : field Thumb.ldm.pat w 'n' = w / 256 % 8 := (field_of [(8, 3)] (by decide +kernel) w).trans (by simp only [val, List.foldl]; omega)
  have nr : field Thumb.ldm.pat w 'r' = w % 256 := (field_of [(0, 8)] (by decide +kernel) w).trans (by simp only [val, List.foldl]; omega)
  have fn : fits Thumb.ldm.pat w = true := fits_of [(11, 5, 25)] (by decide +kernel) (by simp only [agree, List.all_cons, List.all_nil, Bool.and_true, Bool.and_eq_true, decide_eq_true_eq]; omega)
  have wm := wide29m (w / 256 % 8) (w % 256) (by omega) (by omega)
  have wn := wide29n (w / 256 % 8) (w % 256) (by omega) (by omega)
  have wp := wide29p (w / 256 % 8) (w % 256) (by omega) (by omega)
  have wr := wide29r (w / 256 % 8) (w % 256) (by omega) (by omega)
  have ww := wide29w (w / 256 % 8) (w % 256) (by omega) (by omega)
  have fw := wide29fits (w / 256 % 8) (w % 256) (by omega) (by omega)
  have hp : popsPc w = false := by simp only [popsPc, Bool.and_eq_false_iff, decide_eq_false_iff_not]; omega
  refine ⟨⟨show w < 2 ^ 16 by omega, fn, ?_⟩, ⟨show both _ _ < 2 ^ 32 by unfold both; omega, fw, ?_⟩, ?_, ?_⟩
  all_goals clear fn fw; generalize field Thumb.ldm.pat w = g at *; generalize field Thumb.ldmW.pat _ = g' at *
  · have hl := lists (w % 256) (by omega); rw [members_mod, member_mod] at hl; simp [Thumb.ldm, nn, nr, (hl.2.1 h3.1).1]
  · have hl := lists (w % 256) (by omega); rw [members_mod, member_mod] at hl; have hb := (hl.2.2.2.2.2 _ (by omega : w / 256 % 8 < 8)).trans (by simpa using h3.2 : _ = false)
    simp [Thumb.ldmW, wm, wn, wp, wr, ww, (hl.2.1 h3.1).2, hb]
    omega
  · have h3 := h3.2
    simp [Thumb.ldm, nn, nr, Thumb.ldmW, wm, wn, wp, wr, ww, Act.normal]
    simpa using h3
  · have hl := lists (w % 256) (by omega); rw [members_mod, member_mod] at hl; simp only [Thumb.ldm, nn, nr, goes, hp, hl.2.2.2.1]

theorem wide30m : ∀ a b : Nat, a < 8 → b < 256 → field Thumb.ldmW.pat (both (0xe890 + a) (b)) 'm' = 0 := by
    intro a b ha hb
    refine (field_both [(30, 1)] (by decide +kernel) (by decide) _ _ (by omega)).trans ?_
    simp only [val2, List.foldl_cons, List.foldl_nil, Nat.reduceLeDiff, Nat.reduceSub, Nat.reducePow, reduceIte] <;> omega
theorem wide30n : ∀ a b : Nat, a < 8 → b < 256 → field Thumb.ldmW.pat (both (0xe890 + a) (b)) 'n' = a := by
    intro a b ha hb
    refine (field_both [(0, 4)] (by decide +kernel) (by decide) _ _ (by omega)).trans ?_
    simp only [val2, List.foldl_cons, List.foldl_nil, Nat.reduceLeDiff, Nat.reduceSub, Nat.reducePow, reduceIte] <;> omega
theorem wide30p : ∀ a b : Nat, a < 8 → b < 256 → field Thumb.ldmW.pat (both (0xe890 + a) (b)) 'p' = 0 := by
    intro a b ha hb
    refine (field_both [(31, 1)] (by decide +kernel) (by decide) _ _ (by omega)).trans ?_
    simp only [val2, List.foldl_cons, List.foldl_nil, Nat.reduceLeDiff, Nat.reduceSub, Nat.reducePow, reduceIte] <;> omega
theorem wide30r : ∀ a b : Nat, a < 8 → b < 256 → field Thumb.ldmW.pat (both (0xe890 + a) (b)) 'r' = b := by
    intro a b ha hb
    refine (field_both [(16, 13)] (by decide +kernel) (by decide) _ _ (by omega)).trans ?_
    simp only [val2, List.foldl_cons, List.foldl_nil, Nat.reduceLeDiff, Nat.reduceSub, Nat.reducePow, reduceIte] <;> omega
theorem wide30w : ∀ a b : Nat, a < 8 → b < 256 → field Thumb.ldmW.pat (both (0xe890 + a) (b)) 'w' = 0 := by
    intro a b ha hb
    refine (field_both [(5, 1)] (by decide +kernel) (by decide) _ _ (by omega)).trans ?_
    simp only [val2, List.foldl_cons, List.foldl_nil, Nat.reduceLeDiff, Nat.reduceSub, Nat.reducePow, reduceIte] <;> omega
theorem wide30fits : ∀ a b : Nat, a < 8 → b < 256 → fits Thumb.ldmW.pat (both (0xe890 + a) (b)) = true := by
    intro a b ha hb
    refine fits_of [(29, 1, 0), (6, 10, 930), (4, 1, 1)] (by decide +kernel) (agree_both (by decide) (by omega) ?_)
    simp only [Agree2, Nat.reduceLeDiff, Nat.reduceSub, Nat.reducePow, reduceIte]
    refine ⟨?_, ?_, ?_, trivial⟩ <;> first | trivial | omega

theorem pair30 {w : Nat} (h1 : 0xc800 ≤ w) (h2 : w < 0xd000) (h3 : 2 ≤ members w ∧ inList w (w / 256 % 8)) : Pair Thumb.ldm Thumb.ldmW w (both (0xe890 + w / 256 % 8) (w % 256)) := by
  have nn : field Thumb.ldm.pat w 'n' = w / 256 % 8 := (field_of [(8, 3)] (by decide +kernel) w).trans (by simp only [val, List.foldl]; omega)
  have nr : field Thumb.ldm.pat w 'r' = w % 256 := (field_of [(0, 8)] (by decide +kernel) w).trans (by simp only [val, List.foldl]; omega)
  have fn : fits Thumb.ldm.pat w = true := fits_of [(11, 5, 25)] (by decide +kernel) (by simp only [agree, List.all_cons, List.all_nil, Bool.and_true, Bool.and_eq_true, decide_eq_true_eq]; omega)
  have wm := wide30m (w / 256 % 8) (w % 256) (by omega) (by omega)
  have wn := wide30n (w / 256 % 8) (w % 256) (by omega) (by omega)
  have wp := wide30p (w / 256 % 8) (w % 256) (by omega) (by omega)
  have wr := wide30r (w / 256 % 8) (w % 256) (by omega) (by omega)
  have ww := wide30w (w / 256 % 8) (w % 256) (by omega) (by omega)
  have fw := wide30fits (w / 256 % 8) (w % 256) (by omega) (by omega)
  have hp : popsPc w = false := by simp only [popsPc, Bool.and_eq_false_iff, decide_eq_false_iff_not]; omega
  refine ⟨⟨show w < 2 ^ 16 by omega, fn, ?_⟩, ⟨show both _ _ < 2 ^ 32 by unfold both; omega, fw, ?_⟩, ?_, ?_⟩
  all_goals clear fn fw; generalize field Thumb.ldm.pat w = g at *; generalize field Thumb.ldmW.pat _ = g' at *
  · have hl := lists (w % 256) (by omega); rw [members_mod, member_mod] at hl; simp [Thumb.ldm, nn, nr, (hl.2.1 h3.1).1]
  · have hl := lists (w % 256) (by omega); rw [members_mod, member_mod] at hl; have hb := hl.2.2.2.2.2 _ (by omega : w / 256 % 8 < 8)
    simp [Thumb.ldmW, wm, wn, wp, wr, ww, (hl.2.1 h3.1).2]
    omega
  · have h3 := h3.2
    simp [Thumb.ldm, nn, nr, Thumb.ldmW, wm, wn, wp, wr, ww, Act.normal]
    simpa using h3
  · have hl := lists (w % 256) (by omega); rw [members_mod, member_mod] at hl; simp only [Thumb.ldm, nn, nr, goes, hp, hl.2.2.2.1]

theorem wide31i : ∀ b : Nat, b < 256 → field Thumb.udfW.pat (both (0xf7f0) (0xa000 + b)) 'i' = 0 := by
    intro b hb
    refine (field_both [(0, 4)] (by decide +kernel) (by decide) _ _ (by omega)).trans ?_
    simp only [val2, List.foldl_cons, List.foldl_nil, Nat.reduceLeDiff, Nat.reduceSub, Nat.reducePow, reduceIte] <;> omega
theorem wide31k : ∀ b : Nat, b < 256 → field Thumb.udfW.pat (both (0xf7f0) (0xa000 + b)) 'k' = b := by
    intro b hb
    refine (field_both [(16, 12)] (by decide +kernel) (by decide) _ _ (by omega)).trans ?_
    simp only [val2, List.foldl_cons, List.foldl_nil, Nat.reduceLeDiff, Nat.reduceSub, Nat.reducePow, reduceIte] <;> omega
theorem wide31fits : ∀ b : Nat, b < 256 → fits Thumb.udfW.pat (both (0xf7f0) (0xa000 + b)) = true := by
    intro b hb
    refine fits_of [(28, 4, 10), (4, 12, 3967)] (by decide +kernel) (agree_both (by decide) (by omega) ?_)
    simp only [Agree2, Nat.reduceLeDiff, Nat.reduceSub, Nat.reducePow, reduceIte]
    refine ⟨?_, ?_, trivial⟩ <;> first | trivial | omega

theorem pair31 {w : Nat} (h1 : 0xde00 ≤ w) (h2 : w < 0xdf00) : Pair Thumb.udf Thumb.udfW w (both (0xf7f0) (0xa000 + w % 256)) := by
  have ni : field Thumb.udf.pat w 'i' = w % 256 := (field_of [(0, 8)] (by decide +kernel) w).trans (by simp only [val, List.foldl]; omega)
  have fn : fits Thumb.udf.pat w = true := fits_of [(8, 8, 222)] (by decide +kernel) (by simp only [agree, List.all_cons, List.all_nil, Bool.and_true, Bool.and_eq_true, decide_eq_true_eq]; omega)
  have wi := wide31i (w % 256) (by omega)
  have wk := wide31k (w % 256) (by omega)
  have fw := wide31fits (w % 256) (by omega)
  have hp : popsPc w = false := by simp only [popsPc, Bool.and_eq_false_iff, decide_eq_false_iff_not]; omega
  refine ⟨⟨show w < 2 ^ 16 by omega, fn, ?_⟩, ⟨show both _ _ < 2 ^ 32 by unfold both; omega, fw, ?_⟩, ?_, ?_⟩
  all_goals clear fn fw; generalize field Thumb.udf.pat w = g at *; generalize field Thumb.udfW.pat _ = g' at *
  · rfl
  · rfl
  · simp [Thumb.udf, ni, Thumb.udfW, wi, wk, Act.normal, Off.normal, plainShift, expand_small, expandCarry_small, immShift_zero, expand_zero, plainReg]
  · simp [Thumb.udf, ni, goes, hp]

theorem pairs : ∀ f ∈ families, ∀ w, f.first ≤ w → w < f.first + f.count → f.only w = true → Pair f.narrow f.wide w (f.word w) := by
  simp only [families, List.forall_mem_cons]
  refine ⟨fun w h1 h2 _ => pair0 h1 h2,
    fun w h1 h2 _ => pair1 h1 h2,
    fun w h1 h2 _ => pair2 h1 h2,
    fun w h1 h2 _ => pair3 h1 h2,
    fun w h1 h2 _ => pair4 h1 h2,
    fun w h1 h2 _ => pair5 h1 h2,
    fun w h1 h2 _ => pair6 h1 h2,
    fun w h1 h2 _ => pair7 h1 h2,
    fun w h1 h2 _ => pair8 h1 h2,
    fun w h1 h2 _ => pair9 h1 h2,
    fun w h1 h2 _ => pair10 h1 h2,
    fun w h1 h2 _ => pair11 h1 h2,
    fun w h1 h2 _ => pair12 h1 h2,
    fun w h1 h2 _ => pair13 h1 h2,
    fun w h1 h2 _ => pair14 h1 h2,
    fun w h1 h2 _ => pair15 h1 h2,
    fun w h1 h2 _ => pair16 h1 h2,
    fun w h1 h2 _ => pair17 h1 h2,
    fun w h1 h2 _ => pair18 h1 h2,
    fun w h1 h2 _ => pair19 h1 h2,
    fun w h1 h2 _ => pair20 h1 h2,
    fun w h1 h2 _ => pair21 h1 h2,
    fun w h1 h2 _ => pair22 h1 h2,
    fun w h1 h2 h3 => pair23 h1 h2 (of_decide_eq_true h3),
    fun w h1 h2 _ => pair24 h1 h2,
    fun w h1 h2 h3 => pair25 h1 h2 (of_decide_eq_true h3),
    fun w h1 h2 h3 => pair26 h1 h2 (of_decide_eq_true h3),
    fun w h1 h2 _ => pair27 h1 h2,
    fun w h1 h2 h3 => pair28 h1 h2 (of_decide_eq_true h3),
    fun w h1 h2 h3 => pair29 h1 h2 (of_decide_eq_true h3),
    fun w h1 h2 h3 => pair30 h1 h2 (of_decide_eq_true h3),
    fun w h1 h2 _ => pair31 h1 h2, fun _ h => nomatch h⟩

theorem listed : ∀ f ∈ families, f.narrow ∈ encodings ∧ f.wide ∈ encodings := by
  simp only [families, List.forall_mem_cons]
  exact ⟨⟨List.mem_of_getElem? (i := 25) rfl, List.mem_of_getElem? (i := 26) rfl⟩,
    ⟨List.mem_of_getElem? (i := 29) rfl, List.mem_of_getElem? (i := 30) rfl⟩,
    ⟨List.mem_of_getElem? (i := 32) rfl, List.mem_of_getElem? (i := 36) rfl⟩,
    ⟨List.mem_of_getElem? (i := 33) rfl, List.mem_of_getElem? (i := 37) rfl⟩,
    ⟨List.mem_of_getElem? (i := 34) rfl, List.mem_of_getElem? (i := 38) rfl⟩,
    ⟨List.mem_of_getElem? (i := 35) rfl, List.mem_of_getElem? (i := 39) rfl⟩,
    ⟨List.mem_of_getElem? (i := 42) rfl, List.mem_of_getElem? (i := 45) rfl⟩,
    ⟨List.mem_of_getElem? (i := 41) rfl, List.mem_of_getElem? (i := 44) rfl⟩,
    ⟨List.mem_of_getElem? (i := 40) rfl, List.mem_of_getElem? (i := 43) rfl⟩,
    ⟨List.mem_of_getElem? (i := 46) rfl, List.mem_of_getElem? (i := 48) rfl⟩,
    ⟨List.mem_of_getElem? (i := 47) rfl, List.mem_of_getElem? (i := 48) rfl⟩,
    ⟨List.mem_of_getElem? (i := 49) rfl, List.mem_of_getElem? (i := 50) rfl⟩,
    ⟨List.mem_of_getElem? (i := 54) rfl, List.mem_of_getElem? (i := 59) rfl⟩,
    ⟨List.mem_of_getElem? (i := 60) rfl, List.mem_of_getElem? (i := 61) rfl⟩,
    ⟨List.mem_of_getElem? (i := 74) rfl, List.mem_of_getElem? (i := 75) rfl⟩,
    ⟨List.mem_of_getElem? (i := 73) rfl, List.mem_of_getElem? (i := 76) rfl⟩,
    ⟨List.mem_of_getElem? (i := 72) rfl, List.mem_of_getElem? (i := 77) rfl⟩,
    ⟨List.mem_of_getElem? (i := 71) rfl, List.mem_of_getElem? (i := 79) rfl⟩,
    ⟨List.mem_of_getElem? (i := 70) rfl, List.mem_of_getElem? (i := 80) rfl⟩,
    ⟨List.mem_of_getElem? (i := 69) rfl, List.mem_of_getElem? (i := 81) rfl⟩,
    ⟨List.mem_of_getElem? (i := 68) rfl, List.mem_of_getElem? (i := 82) rfl⟩,
    ⟨List.mem_of_getElem? (i := 67) rfl, List.mem_of_getElem? (i := 78) rfl⟩,
    ⟨List.mem_of_getElem? (i := 89) rfl, List.mem_of_getElem? (i := 94) rfl⟩,
    ⟨List.mem_of_getElem? (i := 97) rfl, List.mem_of_getElem? (i := 99) rfl⟩,
    ⟨List.mem_of_getElem? (i := 97) rfl, List.mem_of_getElem? (i := 99) rfl⟩,
    ⟨List.mem_of_getElem? (i := 100) rfl, List.mem_of_getElem? (i := 101) rfl⟩,
    ⟨List.mem_of_getElem? (i := 100) rfl, List.mem_of_getElem? (i := 102) rfl⟩,
    ⟨List.mem_of_getElem? (i := 100) rfl, List.mem_of_getElem? (i := 102) rfl⟩,
    ⟨List.mem_of_getElem? (i := 104) rfl, List.mem_of_getElem? (i := 105) rfl⟩,
    ⟨List.mem_of_getElem? (i := 103) rfl, List.mem_of_getElem? (i := 106) rfl⟩,
    ⟨List.mem_of_getElem? (i := 103) rfl, List.mem_of_getElem? (i := 106) rfl⟩,
    ⟨List.mem_of_getElem? (i := 120) rfl, List.mem_of_getElem? (i := 121) rfl⟩, fun _ h => nomatch h⟩

end C104
end Verif
