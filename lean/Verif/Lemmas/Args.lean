import Verif.Cases
import Verif.Lemmas.Encoding
import Verif.Props.C11to15

/-!
# Handler arguments

What the expressions in the handlers give on bitstrings that are fields of a word.
-/

namespace Verif
open BS Thumb

theorem unsigned_ofBV {w : Nat} (x : BitVec w) : (ofBV x).unsigned = x.toNat := rfl
theorem nonzero_ofBV {w : Nat} (x : BitVec w) : (ofBV x).nonzero = decide (x.toNat ≠ 0) := rfl

theorem zx32 {w : Nat} (x : BitVec w) (h : w ≤ 32) : (ofBV x).zeroExtend 32 = .ok (ofBV (x.setWidth 32)) :=
  zeroExtend_ofBV x 32 h

theorem sx32 {w : Nat} (x : BitVec w) (h : w ≤ 32) (h0 : 0 < w) :
    (ofBV x).signExtend 32 = .ok (ofBV (x.signExtend 32)) := signExtend_ofBV x 32 h h0

theorem mod_str {w : Nat} (x : BitVec w) {s : Str} {n : Nat} {z : BitVec n} (h : init (.str s) = .ok (ofBV z)) :
    (ofBV x).mod (.str s) = .ok (ofBV (x ++ z)) := by
  rw [mod, copy_wf (ofBV_wf x)]
  simp only [imod, h, okBind]
  have := concat_ofBV x z
  rw [concat, copy_wf (ofBV_wf x)] at this
  rw [this]

theorem mod_0 {w : Nat} (x : BitVec w) : (ofBV x).mod (.str (c! "0")) = .ok (ofBV (x ++ 0#1)) := mod_str x rfl
theorem mod_00 {w : Nat} (x : BitVec w) : (ofBV x).mod (.str (c! "00")) = .ok (ofBV (x ++ 0#2)) := mod_str x rfl
theorem mod_6 {w : Nat} (x : BitVec w) : (ofBV x).mod (.str (c! "000000")) = .ok (ofBV (x ++ 0#6)) := mod_str x rfl
theorem mod_7 {w : Nat} (x : BitVec w) : (ofBV x).mod (.str (c! "0000000")) = .ok (ofBV (x ++ 0#7)) := mod_str x rfl

theorem imod_eq_mod {w : Nat} (x : BitVec w) (o : PyVal) : (ofBV x).imod o = (ofBV x).mod o := by
  rw [mod, copy_wf (ofBV_wf x)]

theorem isStr1 (x : BitVec 1) : (ofBV x).isStr (c! "1") = .ok (decide (x.toNat = 1)) := by revert x; decide
theorem isStr0 (x : BitVec 1) : (ofBV x).isStr (c! "0") = .ok (decide (x.toNat = 0)) := by revert x; decide
theorem isStr00 (x : BitVec 2) : (ofBV x).isStr (c! "00") = .ok (decide (x.toNat = 0)) := by revert x; decide
theorem isStrSp (x : BitVec 4) : (ofBV x).isStr (c! "1101") = .ok (decide (x.toNat = 13)) := by revert x; decide
theorem ne10 (x : BitVec 2) : (ofBV x).neOp (.str (c! "10")) = .ok (decide (x.toNat ≠ 2), ofBV x) := by revert x; decide
theorem isStrBit1 (b : Bool) : (ofBit b).isStr (c! "1") = .ok b := by revert b; decide
theorem isStrBit0 (b : Bool) : (ofBit b).isStr (c! "0") = .ok (!b) := by revert b; decide

theorem eqInt0 {w : Nat} (x : BitVec w) : (ofBV x).eqOp (.int 0) = .ok (some (decide (x.toNat = 0)), ofBV x) := by
  simp only [eqOp, Int.lt_irrefl, if_false, ofBV_value]
  congr 3
  by_cases h : x.toNat = 0 <;> simp [h]

theorem neBS {w : Nat} (x y : BitVec w) : (ofBV x).neOp (.bs (ofBV y)) = .ok (decide (x.toNat ≠ y.toNat), ofBV x) := by
  simp only [neOp, eqOp, okBind, truthy, ofBV_width, ofBV_value, beq_self_eq_true, Bool.true_and]
  congr 2
  by_cases h : x.toNat = y.toNat <;> simp [h]

theorem zeros32 : zeros 32 = .ok (ofBV 0#32) := rfl
theorem zeros16 : zeros 16 = .ok (ofBV 0#16) := rfl
theorem bit0_eq : bit0 = ofBV 0#1 := rfl
theorem zero8_eq : zero8 = ofBV 0#8 := rfl

theorem single_eq (x : BitVec 4) : (ofBV 0#16).setItem (x.toNat : Int) (.int 1) = .ok (ofBV (single x.toNat)) := by
  revert x; decide +kernel

theorem count_ofBV (x : BitVec 16) : (ofBV x).bitCount = count x := by
  rw [C12.bit_count_is_number_of_set_bits _ (ofBV_wf x)]; rfl

theorem count_zero (x : BitVec 16) : count x = 0 ↔ x = 0#16 := by
  rw [count, List.length_eq_zero_iff, List.filter_eq_nil_iff]
  constructor
  · intro h
    apply BitVec.eq_of_getLsbD_eq
    intro k hk
    have := h k (List.mem_range.mpr hk)
    simpa using this
  · rintro rfl k _; simp

theorem neverAlways_eq (x : BitVec 1) :
    Handler.neverAlways x.toNat = .ok (if x.toNat = 1 then SetFlags.always else .never) := by revert x; decide

theorem rotations_eq (x : BitVec 2) : Handler.rotations x.toNat = .ok (8 * x.toNat) := by revert x; decide

theorem condName_eq (x : BitVec 4) : Handler.condName x.toNat = .ok (condText x.toNat) := by revert x; decide

theorem dotW_eq (x : BitVec 1) : (if decide (x.toNat ≠ 0) = true then c! "s.w" else c! ".w") = dotW x.toNat := by
  revert x; decide

theorem labelSigned_eq (x : Word) (i : Instr) : Handler.labelSigned (ofBV x) i =
    { i with imm32 := some (ofBV (C17.spoil x)), operands := [.one (.label x.toInt)] } := by
  unfold Handler.labelSigned
  rw [signed_ofBV x (by decide)]
  simp only [C17.spoil]
  split <;> rfl

theorem expand_toNat {n : Nat} (x : BitVec n) (h : n = 12) : expand x.toNat = (C19.armExpand (x.cast h) false).1 := by
  subst h; simp [expand]

theorem expandImm {n : Nat} (x : BitVec n) (h : n = 12) : thumbExpandImm (ofBV x) = .ok (ofBV (expand x.toNat)) := by
  subst h; rw [(C19.thumb_expand_imm x).1, expand_toNat x rfl]; rfl

theorem expandImmC {n : Nat} (x : BitVec n) (h : n = 12) :
    ∃ c, thumbExpandImmC (ofBV x) bit0 = .ok (ofBV (expand x.toNat), c) := by
  subst h
  have := C19.thumb_expand_imm_c x false
  exact ⟨_, by rw [expand_toNat x rfl]; exact this⟩

theorem immShift_eq (t : BitVec 2) {n : Nat} (x : BitVec n) (h : n = 5) :
    decodeImmShift (ofBV t) (ofBV x) = .ok (immShift t.toNat x.toNat) := by
  subst h; rw [C18.decode_imm_shift, immShift]; simp

theorem immShift_lsl (x : BitVec 5) : (immShift (0#2).toNat x.toNat).2 = x.toNat := by revert x; decide
theorem immShift_lsr (x : BitVec 5) : (immShift (1#2).toNat x.toNat).2 = if x.toNat = 0 then 32 else x.toNat := by
  revert x; decide
theorem immShift_asr (x : BitVec 5) : (immShift (2#2).toNat x.toNat).2 = if x.toNat = 0 then 32 else x.toNat := by
  revert x; decide

theorem w32_toNat {n : Nat} (x : BitVec n) : x.setWidth 32 = w32 x.toNat := by simp [w32]

theorem scaled (n k : Nat) (x : BitVec n) (h : n + k ≤ 32) : (x ++ 0#k).setWidth 32 = w32 (2 ^ k * x.toNat) := by
  apply BitVec.eq_of_toNat_eq
  rw [BitVec.toNat_setWidth, toNat_append, w32, BitVec.toNat_ofNat, Nat.mul_comm]
  rfl

theorem scaled_toNat (n k : Nat) (x : BitVec n) (h : n + k ≤ 32) : ((x ++ 0#k).setWidth 32).toNat = 2 ^ k * x.toNat := by
  have h1 := x.isLt
  have h2 : x.toNat * 2 ^ k < 2 ^ 32 := by
    calc x.toNat * 2 ^ k < 2 ^ n * 2 ^ k := Nat.mul_lt_mul_of_pos_right h1 (Nat.two_pow_pos k)
      _ = 2 ^ (n + k) := (Nat.pow_add ..).symm
      _ ≤ _ := Nat.pow_le_pow_right (by omega) h
  rw [BitVec.toNat_setWidth, toNat_append, Nat.mod_eq_of_lt (by simpa using h2), Nat.mul_comm]; rfl

theorem setWidth_toNat {n : Nat} (x : BitVec n) (h : n ≤ 32) : (x.setWidth 32).toNat = x.toNat := by
  rw [BitVec.toNat_setWidth, Nat.mod_eq_of_lt]
  exact Nat.lt_of_lt_of_le x.isLt (Nat.pow_le_pow_right (by omega) h)

theorem scaled_4 {n : Nat} (x : BitVec n) (h : n + 2 ≤ 32) : (x ++ 0#2).setWidth 32 = w32 (4 * x.toNat) := scaled n 2 x h
theorem scaled_2 {n : Nat} (x : BitVec n) (h : n + 1 ≤ 32) : (x ++ 0#1).setWidth 32 = w32 (2 * x.toNat) := scaled n 1 x h

theorem shl_4 {n : Nat} (x : BitVec n) : (x ++ 0#2).toNat = 4 * x.toNat := by rw [toNat_append]; simp; omega
theorem shl_2 {n : Nat} (x : BitVec n) : (x ++ 0#1).toNat = 2 * x.toNat := by rw [toNat_append]; simp; omega

theorem w32_val {n : Nat} (h : n < 2 ^ 32) : (w32 n).toNat = n := by rw [w32, BitVec.toNat_ofNat, Nat.mod_eq_of_lt h]

theorem scaled_4_val {n : Nat} (x : BitVec n) (h : n + 2 ≤ 32) : (w32 (4 * x.toNat)).toNat = 4 * x.toNat := by
  rw [← scaled_4 x h]; exact scaled_toNat n 2 x h
theorem scaled_2_val {n : Nat} (x : BitVec n) (h : n + 1 ≤ 32) : (w32 (2 * x.toNat)).toNat = 2 * x.toNat := by
  rw [← scaled_2 x h]; exact scaled_toNat n 1 x h
theorem scaled_1_val {n : Nat} (x : BitVec n) (h : n ≤ 32) : (w32 x.toNat).toNat = x.toNat := by
  rw [← w32_toNat x]; exact setWidth_toNat x h

/-- The value of a field that is fixed in the diagram. -/
theorem fixed_sl {d : Dec} {pat : Str} (hp : samePat pat d = true) {w : Nat} (hf : fits pat w = true) (off size : Nat)
    {v : BitVec size} (hm : d.fmt.mask / 2 ^ off % 2 ^ size = 2 ^ size - 1) (hv : d.fmt.mtch / 2 ^ off % 2 ^ size = v.toNat) :
    sl w off size = v := by
  apply BitVec.eq_of_toNat_eq
  rw [fixed_of_check ((check_iff_fits hp w).mpr hf) off size hm, hv]

/-! ### Register lists, offsets and the rest -/

theorem regs_push (m : BitVec 1) (r : BitVec 8) : (0#1 ++ m ++ 0#6 ++ r : BitVec 16) = regs 0 m.toNat r.toNat := by
  apply BitVec.eq_of_toNat_eq
  have := m.isLt; have := r.isLt
  simp only [regs, toNat_append, BitVec.toNat_ofNat]; omega
theorem regs_pop (m : BitVec 1) (r : BitVec 8) : (m ++ 0#7 ++ r : BitVec 16) = regs m.toNat 0 r.toNat := by
  apply BitVec.eq_of_toNat_eq
  have := m.isLt; have := r.isLt
  simp only [regs, toNat_append, BitVec.toNat_ofNat]; omega
theorem regs_low (r : BitVec 8) : (0#8 ++ r : BitVec 16) = regs 0 0 r.toNat := by
  apply BitVec.eq_of_toNat_eq
  have := r.isLt
  simp only [regs, toNat_append, BitVec.toNat_ofNat]; omega
theorem regs_stm (m : BitVec 1) (r : BitVec 13) : (0#1 ++ m ++ 0#1 ++ r : BitVec 16) = regs 0 m.toNat r.toNat := by
  apply BitVec.eq_of_toNat_eq
  have := m.isLt; have := r.isLt
  simp only [regs, toNat_append, BitVec.toNat_ofNat]; omega
theorem regs_ldm (p m : BitVec 1) (r : BitVec 13) : (p ++ m ++ 0#1 ++ r : BitVec 16) = regs p.toNat m.toNat r.toNat := by
  apply BitVec.eq_of_toNat_eq
  have := p.isLt; have := m.isLt; have := r.isLt
  simp only [regs, toNat_append, BitVec.toNat_ofNat]; omega

theorem regs_zero {p m r : Nat} (hp : p < 2) (hm : m < 2) (hr : r < 2 ^ 14) :
    count (regs p m r) = 0 ↔ p = 0 ∧ m = 0 ∧ r = 0 := by
  rw [count_zero, ← BitVec.toNat_inj, regs, BitVec.toNat_ofNat, BitVec.toNat_ofNat]; omega

theorem regs_zero_m (m : BitVec 1) (r : BitVec 8) : count (regs 0 m.toNat r.toNat) = 0 ↔ m.toNat = 0 ∧ r.toNat = 0 := by
  rw [regs_zero (by omega) m.isLt (by have := r.isLt; omega)]; simp
theorem regs_zero_p (m : BitVec 1) (r : BitVec 8) : count (regs m.toNat 0 r.toNat) = 0 ↔ m.toNat = 0 ∧ r.toNat = 0 := by
  rw [regs_zero m.isLt (by omega) (by have := r.isLt; omega)]; simp
theorem regs_zero_low (r : BitVec 8) : count (regs 0 0 r.toNat) = 0 ↔ r.toNat = 0 := by
  rw [regs_zero (by omega) (by omega) (by have := r.isLt; omega)]; simp

theorem regs_bit (r : BitVec 8) (k : BitVec 3) : (regs 0 0 r.toNat).getLsbD k.toNat = r.toNat.testBit k.toNat := by
  have := k.isLt
  rw [regs, BitVec.getLsbD_ofNat]; simp; omega

theorem dotW_zero (x : BitVec 1) : (if x.toNat = 0 then ['.', 'w'] else ['s', '.', 'w']) = dotW x.toNat := by
  revert x; decide
theorem dotW_one (n : Nat) : (if n = 1 then ['s', '.', 'w'] else ['.', 'w']) = dotW n := rfl

theorem wants_always : Exec.wantsFlags .always = true := rfl
theorem wants_never : Exec.wantsFlags .never = false := rfl
theorem wants_outside : Exec.wantsFlags .notInITBlock = true := rfl
theorem wants_one (n : Nat) : Exec.wantsFlags (if n = 1 then .always else .never) = decide (n = 1) := by
  by_cases h : n = 1 <;> simp [h, Exec.wantsFlags]

theorem eight_zero {α : Type} (n : Nat) (x y : α) : (if 8 * n = 0 then x else y) = if n = 0 then x else y := by
  by_cases h : n = 0
  · simp [h]
  · rw [if_neg (by omega), if_neg h]

theorem movw_imm (a : BitVec 4) (b : BitVec 1) (c : BitVec 3) (d : BitVec 8) :
    (a ++ b ++ c ++ d).toNat = 4096 * a.toNat + 2048 * b.toNat + 256 * c.toNat + d.toNat := by
  simp only [toNat_append]; omega

theorem udf_imm (a : BitVec 4) (b : BitVec 12) : (a ++ b).toNat = 4096 * a.toNat + b.toNat := by
  simp only [toNat_append]; omega

theorem movw_val (a : BitVec 4) (b : BitVec 1) (c : BitVec 3) (d : BitVec 8) :
    (w32 (4096 * a.toNat + 2048 * b.toNat + 256 * c.toNat + d.toNat)).toNat =
      4096 * a.toNat + 2048 * b.toNat + 256 * c.toNat + d.toNat := w32_val (by omega)
theorem udf_val (a : BitVec 4) (b : BitVec 12) :
    (w32 (4096 * a.toNat + b.toNat)).toNat = 4096 * a.toNat + b.toNat := w32_val (by omega)

theorem low_reg (a : BitVec 1) (b : BitVec 3) : (a ++ b).toNat % 8 = b.toNat := by
  have := b.isLt
  simp only [toNat_append]; omega

theorem signed_9 (x : BitVec 8) : Thumb.signed 9 (2 * x.toNat) = (x ++ 0#1).signExtend 32 := by
  rw [Thumb.signed, ← shl_2, BitVec.ofNat_toNat, BitVec.setWidth_eq]
theorem signed_12 (x : BitVec 11) : Thumb.signed 12 (2 * x.toNat) = (x ++ 0#1).signExtend 32 := by
  rw [Thumb.signed, ← shl_2, BitVec.ofNat_toNat, BitVec.setWidth_eq]

theorem j_bit (j s : BitVec 1) : (~~~(j ^^^ s)).toNat = if j.toNat = s.toNat then 1 else 0 := by revert j s; decide

theorem bl_offset (s j1 j2 : BitVec 1) (x : BitVec 10) (y : BitVec 11) :
    blOffset s.toNat j1.toNat j2.toNat (x ++ y).toNat =
      (s ++ ~~~(j1 ^^^ s) ++ ~~~(j2 ^^^ s) ++ x ++ y ++ 0#1).signExtend 32 := by
  rw [blOffset, Thumb.signed]
  congr 1
  apply BitVec.eq_of_toNat_eq
  have := s.isLt; have := x.isLt; have := y.isLt
  simp only [toNat_append, j_bit, BitVec.toNat_ofNat]
  split <;> split <;> omega

theorem special_eq (x : BitVec 8) : Handler.sysmValues.contains x.toNat = special x.toNat := by
  revert x; decide +kernel

end Verif
