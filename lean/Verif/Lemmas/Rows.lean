import Verif.Lemmas.Args

/-!
# Every encoding decodes as the table says

Generated: one theorem for each of the 122 encodings, proved by unfolding the handler.
-/

namespace Verif
open BS Thumb Handler

/-- Decoding words of this encoding with `d` gives what the case says. -/
def Case.Correct (c : Case) (d : Dec) : Prop := ∀ (w : Nat) (a : Int), fits c.enc.pat w = true →
  (∀ e, c.raises (field c.enc.pat w) = some e → d.decode w a = .error e) ∧
  (c.raises (field c.enc.pat w) = none → ∃ i, d.decode w a = .ok i ∧ i.word = w ∧ i.address = a ∧ i.is32 = d.is32 ∧
    i.mnemonic = c.enc.mnem (field c.enc.pat w) ∧ (c.act (field c.enc.pat w)).Of i ∧
    i.operands = c.ops (field c.enc.pat w))

theorem reg_lt {n : Nat} (x : BitVec n) (h : n ≤ 4) : x.toNat < 16 :=
  Nat.lt_of_lt_of_le x.isLt (Nat.pow_le_pow_right (by omega) h)

theorem raises_if {c : Prop} [Decidable c] {b : Bool} {err : PyErr} {d k : PyRes Instr} {P : Prop}
    (e : d = (raiseIf b err >>= fun _ => k)) (h : b = decide c) (h2 : ¬ c → d = k → P) :
    (∀ x, (if c then some err else none) = some x → d = .error x) ∧ ((if c then some err else none) = none → P) := by
  subst h
  by_cases hc : c
  · simp only [hc, if_true, Option.some.injEq, reduceCtorEq, false_imp_iff, and_true]
    rintro x rfl; rw [e]; simp [raiseIf, hc]; try rfl
  · simp only [hc, if_false, reduceCtorEq, false_imp_iff, implies_true, true_and, true_imp_iff]
    apply h2 hc; rw [e]; simp [raiseIf, hc]; try rfl

theorem raises_unless {b c : Bool} {err : PyErr} {d k : PyRes Instr} {P : Prop}
    (e : d = (raiseIf b err >>= fun _ => k)) (h : b = !c) (h2 : c = true → d = k → P) :
    (∀ x, (if c = true then none else some err) = some x → d = .error x) ∧
    ((if c = true then none else some err) = none → P) := by
  subst h
  cases c
  · simp only [Bool.false_eq_true, if_false, Option.some.injEq, reduceCtorEq, false_imp_iff, and_true]
    rintro x rfl; rw [e]; simp [raiseIf]; try rfl
  · simp only [if_true, reduceCtorEq, false_imp_iff, implies_true, true_and, true_imp_iff]
    apply h2 rfl; rw [e]; simp [raiseIf]; try rfl

theorem raiseIf_raiseIf {a b : Bool} {err : PyErr} {k : PyRes Instr} :
    (raiseIf a err >>= fun _ => raiseIf b err >>= fun _ => k) = (raiseIf (a || b) err >>= fun _ => k) := by
  cases a <;> cases b <;> rfl

theorem raises_if_unless {c : Prop} [Decidable c] {a b ok : Bool} {e1 e2 : PyErr} {d k : PyRes Instr} {P : Prop}
    (e : d = (raiseIf a e1 >>= fun _ => raiseIf b e2 >>= fun _ => k)) (ha : a = decide c) (h : ¬ c → b = !ok)
    (h2 : ok = true → d = k → P) :
    (∀ x, (if c then some e1 else if ok = true then none else some e2) = some x → d = .error x) ∧
    ((if c then some e1 else if ok = true then none else some e2) = none → P) := by
  subst ha
  by_cases hc : c
  · simp only [hc, if_true, Option.some.injEq, reduceCtorEq, false_imp_iff, and_true]
    rintro x rfl; rw [e]; simp [raiseIf, hc]; try rfl
  · simp only [hc, if_false]
    refine raises_unless ?_ (h hc) h2
    rw [e]; simp [raiseIf, hc]; try rfl

macro "row_simp" e:ident : tactic => `(tactic|
  simp only [List.map, Handler.run, unsigned_ofBV, nonzero_ofBV, concat_ofBV, mod_0, mod_00, mod_6, mod_7, imod_eq_mod, zx32, sx32,
      isStr1, isStr0, isStr00, isStrSp, ne10, eqInt0, neBS, zeros32, zeros16, bit0_eq, zero8_eq, single_eq, count_ofBV, neverAlways_eq,
      rotations_eq, condName_eq, labelSigned_eq, expandImm, immShift_eq, immShift_lsl, immShift_lsr, immShift_asr, xor_ofBV, invert_ofBV, getItem_ofBV, isStrBit0, isStrBit1, okBind, truthy, regs_push, regs_pop, regs_low, regs_stm, regs_ldm, regs_bit, special_eq, raiseIf_raiseIf, Nat.reduceLeDiff, Nat.reduceAdd, Nat.reduceLT] at $e:ident)

macro "row_ok" e:ident : tactic => `(tactic|
  (refine ⟨_, $e, rfl, rfl, rfl, ?_, ?_, ?_⟩ <;>
    simp [Act.Of, Src.Of, Off.Of, IsReg, FlagsOf, wants_always, wants_never, wants_outside, wants_one, Dec.fresh, Klass.new, Kw.set, reg_lt, dotW_eq,
      scaled_4, scaled_2, w32_toNat, scaled_4_val, scaled_2_val, scaled_1_val, shl_4, shl_2, dotW_zero, dotW_one, movw_val, udf_val, eight_zero, movw_imm,
      udf_imm, low_reg, signed_9, signed_12, bl_offset, memOps, multiOps, im, rg]))

namespace Rows

theorem bics : Case.bics.Correct
    ⟨c! "bics", .bitClear, .adc, [], false, ⟨0xffc0, 0x4380, [⟨c! "Rdn", 0, 3⟩, ⟨c! "Rm", 3, 3⟩]⟩⟩ := by
  intro w a hf
  have e := decode_eq (d := ⟨c! "bics", .bitClear, .adc, [], false, ⟨0xffc0, 0x4380, [⟨c! "Rdn", 0, 3⟩, ⟨c! "Rm", 3, 3⟩]⟩⟩)
    (qs := [⟨c! "Rm", 3, 3⟩, ⟨c! "Rdn", 0, 3⟩]) rfl w a
  have fd := field_one (pat := Thumb.bics.pat) (c := 'd') 0 3 (by decide) w
  have fm := field_one (pat := Thumb.bics.pat) (c := 'm') 3 3 (by decide) w
  change _ ∧ _
  generalize hg : field Case.bics.enc.pat w = f
  have hg' : field Thumb.bics.pat w = f := hg
  rw [hg'] at fd fm
  row_simp e
  simp only [Case.bics, Thumb.bics, fd, fm]
  refine ⟨fun _ h => (nomatch h), fun _ => ?_⟩
  row_ok e

theorem orrs : Case.orrs.Correct
    ⟨c! "orrs", .bitOp, .adc, [.op .or], false, ⟨0xffc0, 0x4300, [⟨c! "Rdn", 0, 3⟩, ⟨c! "Rm", 3, 3⟩]⟩⟩ := by
  intro w a hf
  have e := decode_eq (d := ⟨c! "orrs", .bitOp, .adc, [.op .or], false, ⟨0xffc0, 0x4300, [⟨c! "Rdn", 0, 3⟩, ⟨c! "Rm", 3, 3⟩]⟩⟩)
    (qs := [⟨c! "Rm", 3, 3⟩, ⟨c! "Rdn", 0, 3⟩]) rfl w a
  have fd := field_one (pat := Thumb.orrs.pat) (c := 'd') 0 3 (by decide) w
  have fm := field_one (pat := Thumb.orrs.pat) (c := 'm') 3 3 (by decide) w
  change _ ∧ _
  generalize hg : field Case.orrs.enc.pat w = f
  have hg' : field Thumb.orrs.pat w = f := hg
  rw [hg'] at fd fm
  row_simp e
  simp only [Case.orrs, Thumb.orrs, fd, fm]
  refine ⟨fun _ h => (nomatch h), fun _ => ?_⟩
  row_ok e

theorem rorsReg : Case.rorsReg.Correct
    ⟨c! "rors", .shiftOp, .adc, [.type .ror], false, ⟨0xffc0, 0x41c0, [⟨c! "Rdn", 0, 3⟩, ⟨c! "Rm", 3, 3⟩]⟩⟩ := by
  intro w a hf
  have e := decode_eq (d := ⟨c! "rors", .shiftOp, .adc, [.type .ror], false, ⟨0xffc0, 0x41c0, [⟨c! "Rdn", 0, 3⟩, ⟨c! "Rm", 3, 3⟩]⟩⟩)
    (qs := [⟨c! "Rm", 3, 3⟩, ⟨c! "Rdn", 0, 3⟩]) rfl w a
  have fd := field_one (pat := Thumb.rorsReg.pat) (c := 'd') 0 3 (by decide) w
  have fm := field_one (pat := Thumb.rorsReg.pat) (c := 'm') 3 3 (by decide) w
  change _ ∧ _
  generalize hg : field Case.rorsReg.enc.pat w = f
  have hg' : field Thumb.rorsReg.pat w = f := hg
  rw [hg'] at fd fm
  row_simp e
  simp only [Case.rorsReg, Thumb.rorsReg, fd, fm]
  refine ⟨fun _ h => (nomatch h), fun _ => ?_⟩
  row_ok e

theorem sbcs : Case.sbcs.Correct
    ⟨c! "sbcs", .addSub, .adc, [.sub true, .useCarry true], false, ⟨0xffc0, 0x4180, [⟨c! "Rdn", 0, 3⟩, ⟨c! "Rm", 3, 3⟩]⟩⟩ := by
  intro w a hf
  have e := decode_eq (d := ⟨c! "sbcs", .addSub, .adc, [.sub true, .useCarry true], false, ⟨0xffc0, 0x4180, [⟨c! "Rdn", 0, 3⟩, ⟨c! "Rm", 3, 3⟩]⟩⟩)
    (qs := [⟨c! "Rm", 3, 3⟩, ⟨c! "Rdn", 0, 3⟩]) rfl w a
  have fd := field_one (pat := Thumb.sbcs.pat) (c := 'd') 0 3 (by decide) w
  have fm := field_one (pat := Thumb.sbcs.pat) (c := 'm') 3 3 (by decide) w
  change _ ∧ _
  generalize hg : field Case.sbcs.enc.pat w = f
  have hg' : field Thumb.sbcs.pat w = f := hg
  rw [hg'] at fd fm
  row_simp e
  simp only [Case.sbcs, Thumb.sbcs, fd, fm]
  refine ⟨fun _ h => (nomatch h), fun _ => ?_⟩
  row_ok e

theorem adcs : Case.adcs.Correct
    ⟨c! "adcs", .addSub, .adc, [.useCarry true], false, ⟨0xffc0, 0x4140, [⟨c! "Rdn", 0, 3⟩, ⟨c! "Rm", 3, 3⟩]⟩⟩ := by
  intro w a hf
  have e := decode_eq (d := ⟨c! "adcs", .addSub, .adc, [.useCarry true], false, ⟨0xffc0, 0x4140, [⟨c! "Rdn", 0, 3⟩, ⟨c! "Rm", 3, 3⟩]⟩⟩)
    (qs := [⟨c! "Rm", 3, 3⟩, ⟨c! "Rdn", 0, 3⟩]) rfl w a
  have fd := field_one (pat := Thumb.adcs.pat) (c := 'd') 0 3 (by decide) w
  have fm := field_one (pat := Thumb.adcs.pat) (c := 'm') 3 3 (by decide) w
  change _ ∧ _
  generalize hg : field Case.adcs.enc.pat w = f
  have hg' : field Thumb.adcs.pat w = f := hg
  rw [hg'] at fd fm
  row_simp e
  simp only [Case.adcs, Thumb.adcs, fd, fm]
  refine ⟨fun _ h => (nomatch h), fun _ => ?_⟩
  row_ok e

theorem asrsReg : Case.asrsReg.Correct
    ⟨c! "asrs", .shiftOp, .adc, [.type .asr], false, ⟨0xffc0, 0x4100, [⟨c! "Rdn", 0, 3⟩, ⟨c! "Rm", 3, 3⟩]⟩⟩ := by
  intro w a hf
  have e := decode_eq (d := ⟨c! "asrs", .shiftOp, .adc, [.type .asr], false, ⟨0xffc0, 0x4100, [⟨c! "Rdn", 0, 3⟩, ⟨c! "Rm", 3, 3⟩]⟩⟩)
    (qs := [⟨c! "Rm", 3, 3⟩, ⟨c! "Rdn", 0, 3⟩]) rfl w a
  have fd := field_one (pat := Thumb.asrsReg.pat) (c := 'd') 0 3 (by decide) w
  have fm := field_one (pat := Thumb.asrsReg.pat) (c := 'm') 3 3 (by decide) w
  change _ ∧ _
  generalize hg : field Case.asrsReg.enc.pat w = f
  have hg' : field Thumb.asrsReg.pat w = f := hg
  rw [hg'] at fd fm
  row_simp e
  simp only [Case.asrsReg, Thumb.asrsReg, fd, fm]
  refine ⟨fun _ h => (nomatch h), fun _ => ?_⟩
  row_ok e

theorem lsrsReg : Case.lsrsReg.Correct
    ⟨c! "lsrs", .shiftOp, .adc, [.type .lsr], false, ⟨0xffc0, 0x40c0, [⟨c! "Rdn", 0, 3⟩, ⟨c! "Rm", 3, 3⟩]⟩⟩ := by
  intro w a hf
  have e := decode_eq (d := ⟨c! "lsrs", .shiftOp, .adc, [.type .lsr], false, ⟨0xffc0, 0x40c0, [⟨c! "Rdn", 0, 3⟩, ⟨c! "Rm", 3, 3⟩]⟩⟩)
    (qs := [⟨c! "Rm", 3, 3⟩, ⟨c! "Rdn", 0, 3⟩]) rfl w a
  have fd := field_one (pat := Thumb.lsrsReg.pat) (c := 'd') 0 3 (by decide) w
  have fm := field_one (pat := Thumb.lsrsReg.pat) (c := 'm') 3 3 (by decide) w
  change _ ∧ _
  generalize hg : field Case.lsrsReg.enc.pat w = f
  have hg' : field Thumb.lsrsReg.pat w = f := hg
  rw [hg'] at fd fm
  row_simp e
  simp only [Case.lsrsReg, Thumb.lsrsReg, fd, fm]
  refine ⟨fun _ h => (nomatch h), fun _ => ?_⟩
  row_ok e

theorem lslsReg : Case.lslsReg.Correct
    ⟨c! "lsls", .shiftOp, .adc, [.type .lsl], false, ⟨0xffc0, 0x4080, [⟨c! "Rdn", 0, 3⟩, ⟨c! "Rm", 3, 3⟩]⟩⟩ := by
  intro w a hf
  have e := decode_eq (d := ⟨c! "lsls", .shiftOp, .adc, [.type .lsl], false, ⟨0xffc0, 0x4080, [⟨c! "Rdn", 0, 3⟩, ⟨c! "Rm", 3, 3⟩]⟩⟩)
    (qs := [⟨c! "Rm", 3, 3⟩, ⟨c! "Rdn", 0, 3⟩]) rfl w a
  have fd := field_one (pat := Thumb.lslsReg.pat) (c := 'd') 0 3 (by decide) w
  have fm := field_one (pat := Thumb.lslsReg.pat) (c := 'm') 3 3 (by decide) w
  change _ ∧ _
  generalize hg : field Case.lslsReg.enc.pat w = f
  have hg' : field Thumb.lslsReg.pat w = f := hg
  rw [hg'] at fd fm
  row_simp e
  simp only [Case.lslsReg, Thumb.lslsReg, fd, fm]
  refine ⟨fun _ h => (nomatch h), fun _ => ?_⟩
  row_ok e

theorem eors : Case.eors.Correct
    ⟨c! "eors", .bitOp, .adc, [.op .xor], false, ⟨0xffc0, 0x4040, [⟨c! "Rdn", 0, 3⟩, ⟨c! "Rm", 3, 3⟩]⟩⟩ := by
  intro w a hf
  have e := decode_eq (d := ⟨c! "eors", .bitOp, .adc, [.op .xor], false, ⟨0xffc0, 0x4040, [⟨c! "Rdn", 0, 3⟩, ⟨c! "Rm", 3, 3⟩]⟩⟩)
    (qs := [⟨c! "Rm", 3, 3⟩, ⟨c! "Rdn", 0, 3⟩]) rfl w a
  have fd := field_one (pat := Thumb.eors.pat) (c := 'd') 0 3 (by decide) w
  have fm := field_one (pat := Thumb.eors.pat) (c := 'm') 3 3 (by decide) w
  change _ ∧ _
  generalize hg : field Case.eors.enc.pat w = f
  have hg' : field Thumb.eors.pat w = f := hg
  rw [hg'] at fd fm
  row_simp e
  simp only [Case.eors, Thumb.eors, fd, fm]
  refine ⟨fun _ h => (nomatch h), fun _ => ?_⟩
  row_ok e

theorem ands : Case.ands.Correct
    ⟨c! "ands", .bitOp, .adc, [.op .and], false, ⟨0xffc0, 0x4000, [⟨c! "Rdn", 0, 3⟩, ⟨c! "Rm", 3, 3⟩]⟩⟩ := by
  intro w a hf
  have e := decode_eq (d := ⟨c! "ands", .bitOp, .adc, [.op .and], false, ⟨0xffc0, 0x4000, [⟨c! "Rdn", 0, 3⟩, ⟨c! "Rm", 3, 3⟩]⟩⟩)
    (qs := [⟨c! "Rm", 3, 3⟩, ⟨c! "Rdn", 0, 3⟩]) rfl w a
  have fd := field_one (pat := Thumb.ands.pat) (c := 'd') 0 3 (by decide) w
  have fm := field_one (pat := Thumb.ands.pat) (c := 'm') 3 3 (by decide) w
  change _ ∧ _
  generalize hg : field Case.ands.enc.pat w = f
  have hg' : field Thumb.ands.pat w = f := hg
  rw [hg'] at fd fm
  row_simp e
  simp only [Case.ands, Thumb.ands, fd, fm]
  refine ⟨fun _ h => (nomatch h), fun _ => ?_⟩
  row_ok e

theorem subsImmT1 : Case.subsImmT1.Correct
    ⟨c! "subs", .addSub, .addImmT1, [.sub true], false, ⟨0xfe00, 0x1e00, [⟨c! "Rd", 0, 3⟩, ⟨c! "Rn", 3, 3⟩, ⟨c! "imm3", 6, 3⟩]⟩⟩ := by
  intro w a hf
  have e := decode_eq (d := ⟨c! "subs", .addSub, .addImmT1, [.sub true], false, ⟨0xfe00, 0x1e00, [⟨c! "Rd", 0, 3⟩, ⟨c! "Rn", 3, 3⟩, ⟨c! "imm3", 6, 3⟩]⟩⟩)
    (qs := [⟨c! "imm3", 6, 3⟩, ⟨c! "Rn", 3, 3⟩, ⟨c! "Rd", 0, 3⟩]) rfl w a
  have fd := field_one (pat := Thumb.subsImmT1.pat) (c := 'd') 0 3 (by decide) w
  have fi := field_one (pat := Thumb.subsImmT1.pat) (c := 'i') 6 3 (by decide) w
  have fn := field_one (pat := Thumb.subsImmT1.pat) (c := 'n') 3 3 (by decide) w
  change _ ∧ _
  generalize hg : field Case.subsImmT1.enc.pat w = f
  have hg' : field Thumb.subsImmT1.pat w = f := hg
  rw [hg'] at fd fi fn
  row_simp e
  simp only [Case.subsImmT1, Thumb.subsImmT1, fd, fi, fn]
  refine ⟨fun _ h => (nomatch h), fun _ => ?_⟩
  row_ok e

theorem addsImmT1 : Case.addsImmT1.Correct
    ⟨c! "adds", .addSub, .addImmT1, [], false, ⟨0xfe00, 0x1c00, [⟨c! "Rd", 0, 3⟩, ⟨c! "Rn", 3, 3⟩, ⟨c! "imm3", 6, 3⟩]⟩⟩ := by
  intro w a hf
  have e := decode_eq (d := ⟨c! "adds", .addSub, .addImmT1, [], false, ⟨0xfe00, 0x1c00, [⟨c! "Rd", 0, 3⟩, ⟨c! "Rn", 3, 3⟩, ⟨c! "imm3", 6, 3⟩]⟩⟩)
    (qs := [⟨c! "imm3", 6, 3⟩, ⟨c! "Rn", 3, 3⟩, ⟨c! "Rd", 0, 3⟩]) rfl w a
  have fd := field_one (pat := Thumb.addsImmT1.pat) (c := 'd') 0 3 (by decide) w
  have fi := field_one (pat := Thumb.addsImmT1.pat) (c := 'i') 6 3 (by decide) w
  have fn := field_one (pat := Thumb.addsImmT1.pat) (c := 'n') 3 3 (by decide) w
  change _ ∧ _
  generalize hg : field Case.addsImmT1.enc.pat w = f
  have hg' : field Thumb.addsImmT1.pat w = f := hg
  rw [hg'] at fd fi fn
  row_simp e
  simp only [Case.addsImmT1, Thumb.addsImmT1, fd, fi, fn]
  refine ⟨fun _ h => (nomatch h), fun _ => ?_⟩
  row_ok e

theorem subsImmT2 : Case.subsImmT2.Correct
    ⟨c! "subs", .addSub, .addImmT2, [.sub true], false, ⟨0xf800, 0x3800, [⟨c! "imm8", 0, 8⟩, ⟨c! "Rdn", 8, 3⟩]⟩⟩ := by
  intro w a hf
  have e := decode_eq (d := ⟨c! "subs", .addSub, .addImmT2, [.sub true], false, ⟨0xf800, 0x3800, [⟨c! "imm8", 0, 8⟩, ⟨c! "Rdn", 8, 3⟩]⟩⟩)
    (qs := [⟨c! "Rdn", 8, 3⟩, ⟨c! "imm8", 0, 8⟩]) rfl w a
  have fd := field_one (pat := Thumb.subsImmT2.pat) (c := 'd') 8 3 (by decide) w
  have fi := field_one (pat := Thumb.subsImmT2.pat) (c := 'i') 0 8 (by decide) w
  change _ ∧ _
  generalize hg : field Case.subsImmT2.enc.pat w = f
  have hg' : field Thumb.subsImmT2.pat w = f := hg
  rw [hg'] at fd fi
  row_simp e
  simp only [Case.subsImmT2, Thumb.subsImmT2, fd, fi]
  refine ⟨fun _ h => (nomatch h), fun _ => ?_⟩
  row_ok e

theorem addsImmT2 : Case.addsImmT2.Correct
    ⟨c! "adds", .addSub, .addImmT2, [], false, ⟨0xf800, 0x3000, [⟨c! "imm8", 0, 8⟩, ⟨c! "Rdn", 8, 3⟩]⟩⟩ := by
  intro w a hf
  have e := decode_eq (d := ⟨c! "adds", .addSub, .addImmT2, [], false, ⟨0xf800, 0x3000, [⟨c! "imm8", 0, 8⟩, ⟨c! "Rdn", 8, 3⟩]⟩⟩)
    (qs := [⟨c! "Rdn", 8, 3⟩, ⟨c! "imm8", 0, 8⟩]) rfl w a
  have fd := field_one (pat := Thumb.addsImmT2.pat) (c := 'd') 8 3 (by decide) w
  have fi := field_one (pat := Thumb.addsImmT2.pat) (c := 'i') 0 8 (by decide) w
  change _ ∧ _
  generalize hg : field Case.addsImmT2.enc.pat w = f
  have hg' : field Thumb.addsImmT2.pat w = f := hg
  rw [hg'] at fd fi
  row_simp e
  simp only [Case.addsImmT2, Thumb.addsImmT2, fd, fi]
  refine ⟨fun _ h => (nomatch h), fun _ => ?_⟩
  row_ok e

theorem subsReg : Case.subsReg.Correct
    ⟨c! "subs", .addSub, .addRegT1, [.sub true], false, ⟨0xfe00, 0x1a00, [⟨c! "Rd", 0, 3⟩, ⟨c! "Rn", 3, 3⟩, ⟨c! "Rm", 6, 3⟩]⟩⟩ := by
  intro w a hf
  have e := decode_eq (d := ⟨c! "subs", .addSub, .addRegT1, [.sub true], false, ⟨0xfe00, 0x1a00, [⟨c! "Rd", 0, 3⟩, ⟨c! "Rn", 3, 3⟩, ⟨c! "Rm", 6, 3⟩]⟩⟩)
    (qs := [⟨c! "Rm", 6, 3⟩, ⟨c! "Rn", 3, 3⟩, ⟨c! "Rd", 0, 3⟩]) rfl w a
  have fd := field_one (pat := Thumb.subsReg.pat) (c := 'd') 0 3 (by decide) w
  have fm := field_one (pat := Thumb.subsReg.pat) (c := 'm') 6 3 (by decide) w
  have fn := field_one (pat := Thumb.subsReg.pat) (c := 'n') 3 3 (by decide) w
  change _ ∧ _
  generalize hg : field Case.subsReg.enc.pat w = f
  have hg' : field Thumb.subsReg.pat w = f := hg
  rw [hg'] at fd fm fn
  row_simp e
  simp only [Case.subsReg, Thumb.subsReg, fd, fm, fn]
  refine ⟨fun _ h => (nomatch h), fun _ => ?_⟩
  row_ok e

theorem addsReg : Case.addsReg.Correct
    ⟨c! "adds", .addSub, .addRegT1, [], false, ⟨0xfe00, 0x1800, [⟨c! "Rd", 0, 3⟩, ⟨c! "Rn", 3, 3⟩, ⟨c! "Rm", 6, 3⟩]⟩⟩ := by
  intro w a hf
  have e := decode_eq (d := ⟨c! "adds", .addSub, .addRegT1, [], false, ⟨0xfe00, 0x1800, [⟨c! "Rd", 0, 3⟩, ⟨c! "Rn", 3, 3⟩, ⟨c! "Rm", 6, 3⟩]⟩⟩)
    (qs := [⟨c! "Rm", 6, 3⟩, ⟨c! "Rn", 3, 3⟩, ⟨c! "Rd", 0, 3⟩]) rfl w a
  have fd := field_one (pat := Thumb.addsReg.pat) (c := 'd') 0 3 (by decide) w
  have fm := field_one (pat := Thumb.addsReg.pat) (c := 'm') 6 3 (by decide) w
  have fn := field_one (pat := Thumb.addsReg.pat) (c := 'n') 3 3 (by decide) w
  change _ ∧ _
  generalize hg : field Case.addsReg.enc.pat w = f
  have hg' : field Thumb.addsReg.pat w = f := hg
  rw [hg'] at fd fm fn
  row_simp e
  simp only [Case.addsReg, Thumb.addsReg, fd, fm, fn]
  refine ⟨fun _ h => (nomatch h), fun _ => ?_⟩
  row_ok e

theorem addRegT2 : Case.addRegT2.Correct
    ⟨c! "add", .addSub, .addRegT2, [], false, ⟨0xff00, 0x4400, [⟨c! "Rdn", 0, 3⟩, ⟨c! "Rm", 3, 4⟩, ⟨c! "DN", 7, 1⟩]⟩⟩ := by
  intro w a hf
  have e := decode_eq (d := ⟨c! "add", .addSub, .addRegT2, [], false, ⟨0xff00, 0x4400, [⟨c! "Rdn", 0, 3⟩, ⟨c! "Rm", 3, 4⟩, ⟨c! "DN", 7, 1⟩]⟩⟩)
    (qs := [⟨c! "DN", 7, 1⟩, ⟨c! "Rm", 3, 4⟩, ⟨c! "Rdn", 0, 3⟩]) rfl w a
  have fd := field_two (pat := Thumb.addRegT2.pat) (c := 'd') 7 1 0 3 (by decide) w
  have fm := field_one (pat := Thumb.addRegT2.pat) (c := 'm') 3 4 (by decide) w
  change _ ∧ _
  generalize hg : field Case.addRegT2.enc.pat w = f
  have hg' : field Thumb.addRegT2.pat w = f := hg
  rw [hg'] at fd fm
  row_simp e
  simp only [Case.addRegT2, Thumb.addRegT2, fd, fm]
  refine ⟨fun _ h => (nomatch h), fun _ => ?_⟩
  row_ok e

theorem addSpImmT1 : Case.addSpImmT1.Correct
    ⟨c! "add", .addSub, .addSpPlusImmT1, [], false, ⟨0xf800, 0xa800, [⟨c! "imm8", 0, 8⟩, ⟨c! "Rd", 8, 3⟩]⟩⟩ := by
  intro w a hf
  have e := decode_eq (d := ⟨c! "add", .addSub, .addSpPlusImmT1, [], false, ⟨0xf800, 0xa800, [⟨c! "imm8", 0, 8⟩, ⟨c! "Rd", 8, 3⟩]⟩⟩)
    (qs := [⟨c! "Rd", 8, 3⟩, ⟨c! "imm8", 0, 8⟩]) rfl w a
  have fd := field_one (pat := Thumb.addSpImmT1.pat) (c := 'd') 8 3 (by decide) w
  have fi := field_one (pat := Thumb.addSpImmT1.pat) (c := 'i') 0 8 (by decide) w
  change _ ∧ _
  generalize hg : field Case.addSpImmT1.enc.pat w = f
  have hg' : field Thumb.addSpImmT1.pat w = f := hg
  rw [hg'] at fd fi
  row_simp e
  simp only [Case.addSpImmT1, Thumb.addSpImmT1, fd, fi]
  refine ⟨fun _ h => (nomatch h), fun _ => ?_⟩
  row_ok e

theorem addSpRegT1 : Case.addSpRegT1.Correct
    ⟨c! "add", .addSub, .addSpPlusRegT1, [], false, ⟨0xff78, 0x4468, [⟨c! "Rdm", 0, 3⟩, ⟨c! "DM", 7, 1⟩]⟩⟩ := by
  intro w a hf
  have e := decode_eq (d := ⟨c! "add", .addSub, .addSpPlusRegT1, [], false, ⟨0xff78, 0x4468, [⟨c! "Rdm", 0, 3⟩, ⟨c! "DM", 7, 1⟩]⟩⟩)
    (qs := [⟨c! "DM", 7, 1⟩, ⟨c! "Rdm", 0, 3⟩]) rfl w a
  have fd := field_two (pat := Thumb.addSpRegT1.pat) (c := 'd') 7 1 0 3 (by decide) w
  change _ ∧ _
  generalize hg : field Case.addSpRegT1.enc.pat w = f
  have hg' : field Thumb.addSpRegT1.pat w = f := hg
  rw [hg'] at fd
  row_simp e
  simp only [Case.addSpRegT1, Thumb.addSpRegT1, fd]
  refine ⟨fun _ h => (nomatch h), fun _ => ?_⟩
  row_ok e

theorem addSpRegT2 : Case.addSpRegT2.Correct
    ⟨c! "add", .addSub, .addSpPlusRegT2, [], false, ⟨0xff87, 0x4485, [⟨c! "Rm", 3, 4⟩]⟩⟩ := by
  intro w a hf
  have e := decode_eq (d := ⟨c! "add", .addSub, .addSpPlusRegT2, [], false, ⟨0xff87, 0x4485, [⟨c! "Rm", 3, 4⟩]⟩⟩)
    (qs := [⟨c! "Rm", 3, 4⟩]) rfl w a
  have fm := field_one (pat := Thumb.addSpRegT2.pat) (c := 'm') 3 4 (by decide) w
  change _ ∧ _
  generalize hg : field Case.addSpRegT2.enc.pat w = f
  have hg' : field Thumb.addSpRegT2.pat w = f := hg
  rw [hg'] at fm
  row_simp e
  simp only [Case.addSpRegT2, Thumb.addSpRegT2, fm]
  refine raises_if e ?_ fun hc e => ?_
  · first | rfl | done | (rw [Bool.eq_iff_iff]; simp [spOrPc, plainReg, regs_zero_m, regs_zero_p, regs_zero_low]; try grind)
  · row_ok e

theorem subSpImm : Case.subSpImm.Correct
    ⟨c! "sub", .addSub, .addSpPlusImmT2, [.sub true], false, ⟨0xff80, 0xb080, [⟨c! "imm7", 0, 7⟩]⟩⟩ := by
  intro w a hf
  have e := decode_eq (d := ⟨c! "sub", .addSub, .addSpPlusImmT2, [.sub true], false, ⟨0xff80, 0xb080, [⟨c! "imm7", 0, 7⟩]⟩⟩)
    (qs := [⟨c! "imm7", 0, 7⟩]) rfl w a
  have fi := field_one (pat := Thumb.subSpImm.pat) (c := 'i') 0 7 (by decide) w
  change _ ∧ _
  generalize hg : field Case.subSpImm.enc.pat w = f
  have hg' : field Thumb.subSpImm.pat w = f := hg
  rw [hg'] at fi
  row_simp e
  simp only [Case.subSpImm, Thumb.subSpImm, fi]
  refine ⟨fun _ h => (nomatch h), fun _ => ?_⟩
  row_ok e

theorem addSpImmT2 : Case.addSpImmT2.Correct
    ⟨c! "add", .addSub, .addSpPlusImmT2, [], false, ⟨0xff80, 0xb000, [⟨c! "imm7", 0, 7⟩]⟩⟩ := by
  intro w a hf
  have e := decode_eq (d := ⟨c! "add", .addSub, .addSpPlusImmT2, [], false, ⟨0xff80, 0xb000, [⟨c! "imm7", 0, 7⟩]⟩⟩)
    (qs := [⟨c! "imm7", 0, 7⟩]) rfl w a
  have fi := field_one (pat := Thumb.addSpImmT2.pat) (c := 'i') 0 7 (by decide) w
  change _ ∧ _
  generalize hg : field Case.addSpImmT2.enc.pat w = f
  have hg' : field Thumb.addSpImmT2.pat w = f := hg
  rw [hg'] at fi
  row_simp e
  simp only [Case.addSpImmT2, Thumb.addSpImmT2, fi]
  refine ⟨fun _ h => (nomatch h), fun _ => ?_⟩
  row_ok e

theorem asrsImm : Case.asrsImm.Correct
    ⟨c! "asrs", .shiftOp, .shiftImmT1, [.type .asr], false, ⟨0xf800, 0x1000, [⟨c! "Rd", 0, 3⟩, ⟨c! "Rm", 3, 3⟩, ⟨c! "imm5", 6, 5⟩, ⟨c! "stype", 11, 2⟩]⟩⟩ := by
  intro w a hf
  have e := decode_eq (d := ⟨c! "asrs", .shiftOp, .shiftImmT1, [.type .asr], false, ⟨0xf800, 0x1000, [⟨c! "Rd", 0, 3⟩, ⟨c! "Rm", 3, 3⟩, ⟨c! "imm5", 6, 5⟩, ⟨c! "stype", 11, 2⟩]⟩⟩)
    (qs := [⟨c! "stype", 11, 2⟩, ⟨c! "imm5", 6, 5⟩, ⟨c! "Rm", 3, 3⟩, ⟨c! "Rd", 0, 3⟩]) rfl w a
  have fd := field_one (pat := Thumb.asrsImm.pat) (c := 'd') 0 3 (by decide) w
  have fi := field_one (pat := Thumb.asrsImm.pat) (c := 'i') 6 5 (by decide) w
  have fm := field_one (pat := Thumb.asrsImm.pat) (c := 'm') 3 3 (by decide) w
  have xstype : sl w 11 2 = 2#2 := fixed_sl (d := ⟨c! "asrs", .shiftOp, .shiftImmT1, [.type .asr], false, ⟨0xf800, 0x1000, [⟨c! "Rd", 0, 3⟩, ⟨c! "Rm", 3, 3⟩, ⟨c! "imm5", 6, 5⟩, ⟨c! "stype", 11, 2⟩]⟩⟩) rfl hf 11 2 (by decide) (by decide)
  simp only [List.map, xstype] at e
  change _ ∧ _
  generalize hg : field Case.asrsImm.enc.pat w = f
  have hg' : field Thumb.asrsImm.pat w = f := hg
  rw [hg'] at fd fi fm
  row_simp e
  simp only [Case.asrsImm, Thumb.asrsImm, fd, fi, fm]
  refine ⟨fun _ h => (nomatch h), fun _ => ?_⟩
  row_ok e

theorem lsrsImm : Case.lsrsImm.Correct
    ⟨c! "lsrs", .shiftOp, .shiftImmT1, [.type .lsr], false, ⟨0xf800, 0x800, [⟨c! "Rd", 0, 3⟩, ⟨c! "Rm", 3, 3⟩, ⟨c! "imm5", 6, 5⟩, ⟨c! "stype", 11, 2⟩]⟩⟩ := by
  intro w a hf
  have e := decode_eq (d := ⟨c! "lsrs", .shiftOp, .shiftImmT1, [.type .lsr], false, ⟨0xf800, 0x800, [⟨c! "Rd", 0, 3⟩, ⟨c! "Rm", 3, 3⟩, ⟨c! "imm5", 6, 5⟩, ⟨c! "stype", 11, 2⟩]⟩⟩)
    (qs := [⟨c! "stype", 11, 2⟩, ⟨c! "imm5", 6, 5⟩, ⟨c! "Rm", 3, 3⟩, ⟨c! "Rd", 0, 3⟩]) rfl w a
  have fd := field_one (pat := Thumb.lsrsImm.pat) (c := 'd') 0 3 (by decide) w
  have fi := field_one (pat := Thumb.lsrsImm.pat) (c := 'i') 6 5 (by decide) w
  have fm := field_one (pat := Thumb.lsrsImm.pat) (c := 'm') 3 3 (by decide) w
  have xstype : sl w 11 2 = 1#2 := fixed_sl (d := ⟨c! "lsrs", .shiftOp, .shiftImmT1, [.type .lsr], false, ⟨0xf800, 0x800, [⟨c! "Rd", 0, 3⟩, ⟨c! "Rm", 3, 3⟩, ⟨c! "imm5", 6, 5⟩, ⟨c! "stype", 11, 2⟩]⟩⟩) rfl hf 11 2 (by decide) (by decide)
  simp only [List.map, xstype] at e
  change _ ∧ _
  generalize hg : field Case.lsrsImm.enc.pat w = f
  have hg' : field Thumb.lsrsImm.pat w = f := hg
  rw [hg'] at fd fi fm
  row_simp e
  simp only [Case.lsrsImm, Thumb.lsrsImm, fd, fi, fm]
  refine ⟨fun _ h => (nomatch h), fun _ => ?_⟩
  row_ok e

theorem lslsImm : Case.lslsImm.Correct
    ⟨c! "lsls", .shiftOp, .shiftImmT1, [.type .lsl], false, ⟨0xf800, 0x0, [⟨c! "Rd", 0, 3⟩, ⟨c! "Rm", 3, 3⟩, ⟨c! "imm5", 6, 5⟩, ⟨c! "stype", 11, 2⟩]⟩⟩ := by
  intro w a hf
  have e := decode_eq (d := ⟨c! "lsls", .shiftOp, .shiftImmT1, [.type .lsl], false, ⟨0xf800, 0x0, [⟨c! "Rd", 0, 3⟩, ⟨c! "Rm", 3, 3⟩, ⟨c! "imm5", 6, 5⟩, ⟨c! "stype", 11, 2⟩]⟩⟩)
    (qs := [⟨c! "stype", 11, 2⟩, ⟨c! "imm5", 6, 5⟩, ⟨c! "Rm", 3, 3⟩, ⟨c! "Rd", 0, 3⟩]) rfl w a
  have fd := field_one (pat := Thumb.lslsImm.pat) (c := 'd') 0 3 (by decide) w
  have fi := field_one (pat := Thumb.lslsImm.pat) (c := 'i') 6 5 (by decide) w
  have fm := field_one (pat := Thumb.lslsImm.pat) (c := 'm') 3 3 (by decide) w
  have xstype : sl w 11 2 = 0#2 := fixed_sl (d := ⟨c! "lsls", .shiftOp, .shiftImmT1, [.type .lsl], false, ⟨0xf800, 0x0, [⟨c! "Rd", 0, 3⟩, ⟨c! "Rm", 3, 3⟩, ⟨c! "imm5", 6, 5⟩, ⟨c! "stype", 11, 2⟩]⟩⟩) rfl hf 11 2 (by decide) (by decide)
  simp only [List.map, xstype] at e
  change _ ∧ _
  generalize hg : field Case.lslsImm.enc.pat w = f
  have hg' : field Thumb.lslsImm.pat w = f := hg
  rw [hg'] at fd fi fm
  row_simp e
  simp only [Case.lslsImm, Thumb.lslsImm, fd, fi, fm]
  refine ⟨fun _ h => (nomatch h), fun _ => ?_⟩
  row_ok e

theorem rsbs : Case.rsbs.Correct
    ⟨c! "rsbs", .reverseSubtract, .rsb, [], false, ⟨0xffc0, 0x4240, [⟨c! "Rd", 0, 3⟩, ⟨c! "Rn", 3, 3⟩]⟩⟩ := by
  intro w a hf
  have e := decode_eq (d := ⟨c! "rsbs", .reverseSubtract, .rsb, [], false, ⟨0xffc0, 0x4240, [⟨c! "Rd", 0, 3⟩, ⟨c! "Rn", 3, 3⟩]⟩⟩)
    (qs := [⟨c! "Rn", 3, 3⟩, ⟨c! "Rd", 0, 3⟩]) rfl w a
  have fd := field_one (pat := Thumb.rsbs.pat) (c := 'd') 0 3 (by decide) w
  have fn := field_one (pat := Thumb.rsbs.pat) (c := 'n') 3 3 (by decide) w
  change _ ∧ _
  generalize hg : field Case.rsbs.enc.pat w = f
  have hg' : field Thumb.rsbs.pat w = f := hg
  rw [hg'] at fd fn
  row_simp e
  simp only [Case.rsbs, Thumb.rsbs, fd, fn]
  refine ⟨fun _ h => (nomatch h), fun _ => ?_⟩
  row_ok e

theorem rsbW : Case.rsbW.Correct
    ⟨c! "rsb", .reverseSubtract, .rsbW, [], true, ⟨0x8000fbe0, 0xf1c0, [⟨c! "Rn", 0, 4⟩, ⟨c! "S", 4, 1⟩, ⟨c! "im", 10, 1⟩, ⟨c! "imm8", 16, 8⟩, ⟨c! "Rd", 24, 4⟩, ⟨c! "imm3", 28, 3⟩]⟩⟩ := by
  intro w a hf
  have e := decode_eq (d := ⟨c! "rsb", .reverseSubtract, .rsbW, [], true, ⟨0x8000fbe0, 0xf1c0, [⟨c! "Rn", 0, 4⟩, ⟨c! "S", 4, 1⟩, ⟨c! "im", 10, 1⟩, ⟨c! "imm8", 16, 8⟩, ⟨c! "Rd", 24, 4⟩, ⟨c! "imm3", 28, 3⟩]⟩⟩)
    (qs := [⟨c! "im", 10, 1⟩, ⟨c! "S", 4, 1⟩, ⟨c! "Rn", 0, 4⟩, ⟨c! "imm3", 28, 3⟩, ⟨c! "Rd", 24, 4⟩, ⟨c! "imm8", 16, 8⟩]) rfl w a
  have fd := field_one (pat := Thumb.rsbW.pat) (c := 'd') 24 4 (by decide) w
  have fi := field_three (pat := Thumb.rsbW.pat) (c := 'i') 10 1 28 3 16 8 (by decide) w
  have fn := field_one (pat := Thumb.rsbW.pat) (c := 'n') 0 4 (by decide) w
  have fs := field_one (pat := Thumb.rsbW.pat) (c := 's') 4 1 (by decide) w
  change _ ∧ _
  generalize hg : field Case.rsbW.enc.pat w = f
  have hg' : field Thumb.rsbW.pat w = f := hg
  rw [hg'] at fd fi fn fs
  row_simp e
  simp only [Case.rsbW, Thumb.rsbW, fd, fi, fn, fs]
  refine raises_unless e ?_ fun hc e => ?_
  · first | rfl | done | (rw [Bool.eq_iff_iff]; simp [spOrPc, plainReg, regs_zero_m, regs_zero_p, regs_zero_low]; try grind)
  · row_ok e

theorem muls : Case.muls.Correct
    ⟨c! "muls", .multiply, .mulT1, [], false, ⟨0xffc0, 0x4340, [⟨c! "Rdm", 0, 3⟩, ⟨c! "Rn", 3, 3⟩]⟩⟩ := by
  intro w a hf
  have e := decode_eq (d := ⟨c! "muls", .multiply, .mulT1, [], false, ⟨0xffc0, 0x4340, [⟨c! "Rdm", 0, 3⟩, ⟨c! "Rn", 3, 3⟩]⟩⟩)
    (qs := [⟨c! "Rn", 3, 3⟩, ⟨c! "Rdm", 0, 3⟩]) rfl w a
  have fd := field_one (pat := Thumb.muls.pat) (c := 'd') 0 3 (by decide) w
  have fn := field_one (pat := Thumb.muls.pat) (c := 'n') 3 3 (by decide) w
  change _ ∧ _
  generalize hg : field Case.muls.enc.pat w = f
  have hg' : field Thumb.muls.pat w = f := hg
  rw [hg'] at fd fn
  row_simp e
  simp only [Case.muls, Thumb.muls, fd, fn]
  refine ⟨fun _ h => (nomatch h), fun _ => ?_⟩
  row_ok e

theorem mulW : Case.mulW.Correct
    ⟨c! "mul", .multiply, .mulT2, [], true, ⟨0xf0f0fff0, 0xf000fb00, [⟨c! "Rn", 0, 4⟩, ⟨c! "Rm", 16, 4⟩, ⟨c! "Rd", 24, 4⟩]⟩⟩ := by
  intro w a hf
  have e := decode_eq (d := ⟨c! "mul", .multiply, .mulT2, [], true, ⟨0xf0f0fff0, 0xf000fb00, [⟨c! "Rn", 0, 4⟩, ⟨c! "Rm", 16, 4⟩, ⟨c! "Rd", 24, 4⟩]⟩⟩)
    (qs := [⟨c! "Rn", 0, 4⟩, ⟨c! "Rd", 24, 4⟩, ⟨c! "Rm", 16, 4⟩]) rfl w a
  have fd := field_one (pat := Thumb.mulW.pat) (c := 'd') 24 4 (by decide) w
  have fm := field_one (pat := Thumb.mulW.pat) (c := 'm') 16 4 (by decide) w
  have fn := field_one (pat := Thumb.mulW.pat) (c := 'n') 0 4 (by decide) w
  change _ ∧ _
  generalize hg : field Case.mulW.enc.pat w = f
  have hg' : field Thumb.mulW.pat w = f := hg
  rw [hg'] at fd fm fn
  row_simp e
  simp only [Case.mulW, Thumb.mulW, fd, fm, fn]
  refine raises_unless e ?_ fun hc e => ?_
  · first | rfl | done | (rw [Bool.eq_iff_iff]; simp [spOrPc, plainReg, regs_zero_m, regs_zero_p, regs_zero_low]; try grind)
  · row_ok e

theorem adrT1 : Case.adrT1.Correct
    ⟨c! "adr", .addressToRegister, .adrT1, [], false, ⟨0xf800, 0xa000, [⟨c! "imm8", 0, 8⟩, ⟨c! "Rd", 8, 3⟩]⟩⟩ := by
  intro w a hf
  have e := decode_eq (d := ⟨c! "adr", .addressToRegister, .adrT1, [], false, ⟨0xf800, 0xa000, [⟨c! "imm8", 0, 8⟩, ⟨c! "Rd", 8, 3⟩]⟩⟩)
    (qs := [⟨c! "Rd", 8, 3⟩, ⟨c! "imm8", 0, 8⟩]) rfl w a
  have fd := field_one (pat := Thumb.adrT1.pat) (c := 'd') 8 3 (by decide) w
  have fi := field_one (pat := Thumb.adrT1.pat) (c := 'i') 0 8 (by decide) w
  change _ ∧ _
  generalize hg : field Case.adrT1.enc.pat w = f
  have hg' : field Thumb.adrT1.pat w = f := hg
  rw [hg'] at fd fi
  row_simp e
  simp only [Case.adrT1, Thumb.adrT1, fd, fi]
  refine ⟨fun _ h => (nomatch h), fun _ => ?_⟩
  row_ok e

theorem adrAddW : Case.adrAddW.Correct
    ⟨c! "adr.w", .addressToRegister, .adrT2, [.add true], true, ⟨0x8000fbff, 0xf20f, [⟨c! "im", 10, 1⟩, ⟨c! "imm8", 16, 8⟩, ⟨c! "Rd", 24, 4⟩, ⟨c! "imm3", 28, 3⟩]⟩⟩ := by
  intro w a hf
  have e := decode_eq (d := ⟨c! "adr.w", .addressToRegister, .adrT2, [.add true], true, ⟨0x8000fbff, 0xf20f, [⟨c! "im", 10, 1⟩, ⟨c! "imm8", 16, 8⟩, ⟨c! "Rd", 24, 4⟩, ⟨c! "imm3", 28, 3⟩]⟩⟩)
    (qs := [⟨c! "im", 10, 1⟩, ⟨c! "imm3", 28, 3⟩, ⟨c! "Rd", 24, 4⟩, ⟨c! "imm8", 16, 8⟩]) rfl w a
  have fd := field_one (pat := Thumb.adrAddW.pat) (c := 'd') 24 4 (by decide) w
  have fi := field_three (pat := Thumb.adrAddW.pat) (c := 'i') 10 1 28 3 16 8 (by decide) w
  change _ ∧ _
  generalize hg : field Case.adrAddW.enc.pat w = f
  have hg' : field Thumb.adrAddW.pat w = f := hg
  rw [hg'] at fd fi
  row_simp e
  simp only [Case.adrAddW, Thumb.adrAddW, fd, fi]
  refine ⟨fun _ h => (nomatch h), fun _ => ?_⟩
  row_ok e

theorem adrSubW : Case.adrSubW.Correct
    ⟨c! "adr.w", .addressToRegister, .adrT2, [.add false], true, ⟨0x8000fbff, 0xf2af, [⟨c! "im", 10, 1⟩, ⟨c! "imm8", 16, 8⟩, ⟨c! "Rd", 24, 4⟩, ⟨c! "imm3", 28, 3⟩]⟩⟩ := by
  intro w a hf
  have e := decode_eq (d := ⟨c! "adr.w", .addressToRegister, .adrT2, [.add false], true, ⟨0x8000fbff, 0xf2af, [⟨c! "im", 10, 1⟩, ⟨c! "imm8", 16, 8⟩, ⟨c! "Rd", 24, 4⟩, ⟨c! "imm3", 28, 3⟩]⟩⟩)
    (qs := [⟨c! "im", 10, 1⟩, ⟨c! "imm3", 28, 3⟩, ⟨c! "Rd", 24, 4⟩, ⟨c! "imm8", 16, 8⟩]) rfl w a
  have fd := field_one (pat := Thumb.adrSubW.pat) (c := 'd') 24 4 (by decide) w
  have fi := field_three (pat := Thumb.adrSubW.pat) (c := 'i') 10 1 28 3 16 8 (by decide) w
  change _ ∧ _
  generalize hg : field Case.adrSubW.enc.pat w = f
  have hg' : field Thumb.adrSubW.pat w = f := hg
  rw [hg'] at fd fi
  row_simp e
  simp only [Case.adrSubW, Thumb.adrSubW, fd, fi]
  refine ⟨fun _ h => (nomatch h), fun _ => ?_⟩
  row_ok e

theorem uxtb : Case.uxtb.Correct
    ⟨c! "uxtb", .extend, .extend, [.width 8, .signed false], false, ⟨0xffc0, 0xb2c0, [⟨c! "Rd", 0, 3⟩, ⟨c! "Rm", 3, 3⟩]⟩⟩ := by
  intro w a hf
  have e := decode_eq (d := ⟨c! "uxtb", .extend, .extend, [.width 8, .signed false], false, ⟨0xffc0, 0xb2c0, [⟨c! "Rd", 0, 3⟩, ⟨c! "Rm", 3, 3⟩]⟩⟩)
    (qs := [⟨c! "Rm", 3, 3⟩, ⟨c! "Rd", 0, 3⟩]) rfl w a
  have fd := field_one (pat := Thumb.uxtb.pat) (c := 'd') 0 3 (by decide) w
  have fm := field_one (pat := Thumb.uxtb.pat) (c := 'm') 3 3 (by decide) w
  change _ ∧ _
  generalize hg : field Case.uxtb.enc.pat w = f
  have hg' : field Thumb.uxtb.pat w = f := hg
  rw [hg'] at fd fm
  row_simp e
  simp only [Case.uxtb, Thumb.uxtb, fd, fm]
  refine ⟨fun _ h => (nomatch h), fun _ => ?_⟩
  row_ok e

theorem uxth : Case.uxth.Correct
    ⟨c! "uxth", .extend, .extend, [.width 16, .signed false], false, ⟨0xffc0, 0xb280, [⟨c! "Rd", 0, 3⟩, ⟨c! "Rm", 3, 3⟩]⟩⟩ := by
  intro w a hf
  have e := decode_eq (d := ⟨c! "uxth", .extend, .extend, [.width 16, .signed false], false, ⟨0xffc0, 0xb280, [⟨c! "Rd", 0, 3⟩, ⟨c! "Rm", 3, 3⟩]⟩⟩)
    (qs := [⟨c! "Rm", 3, 3⟩, ⟨c! "Rd", 0, 3⟩]) rfl w a
  have fd := field_one (pat := Thumb.uxth.pat) (c := 'd') 0 3 (by decide) w
  have fm := field_one (pat := Thumb.uxth.pat) (c := 'm') 3 3 (by decide) w
  change _ ∧ _
  generalize hg : field Case.uxth.enc.pat w = f
  have hg' : field Thumb.uxth.pat w = f := hg
  rw [hg'] at fd fm
  row_simp e
  simp only [Case.uxth, Thumb.uxth, fd, fm]
  refine ⟨fun _ h => (nomatch h), fun _ => ?_⟩
  row_ok e

theorem sxtb : Case.sxtb.Correct
    ⟨c! "sxtb", .extend, .extend, [.width 8, .signed true], false, ⟨0xffc0, 0xb240, [⟨c! "Rd", 0, 3⟩, ⟨c! "Rm", 3, 3⟩]⟩⟩ := by
  intro w a hf
  have e := decode_eq (d := ⟨c! "sxtb", .extend, .extend, [.width 8, .signed true], false, ⟨0xffc0, 0xb240, [⟨c! "Rd", 0, 3⟩, ⟨c! "Rm", 3, 3⟩]⟩⟩)
    (qs := [⟨c! "Rm", 3, 3⟩, ⟨c! "Rd", 0, 3⟩]) rfl w a
  have fd := field_one (pat := Thumb.sxtb.pat) (c := 'd') 0 3 (by decide) w
  have fm := field_one (pat := Thumb.sxtb.pat) (c := 'm') 3 3 (by decide) w
  change _ ∧ _
  generalize hg : field Case.sxtb.enc.pat w = f
  have hg' : field Thumb.sxtb.pat w = f := hg
  rw [hg'] at fd fm
  row_simp e
  simp only [Case.sxtb, Thumb.sxtb, fd, fm]
  refine ⟨fun _ h => (nomatch h), fun _ => ?_⟩
  row_ok e

theorem sxth : Case.sxth.Correct
    ⟨c! "sxth", .extend, .extend, [.width 16, .signed true], false, ⟨0xffc0, 0xb200, [⟨c! "Rd", 0, 3⟩, ⟨c! "Rm", 3, 3⟩]⟩⟩ := by
  intro w a hf
  have e := decode_eq (d := ⟨c! "sxth", .extend, .extend, [.width 16, .signed true], false, ⟨0xffc0, 0xb200, [⟨c! "Rd", 0, 3⟩, ⟨c! "Rm", 3, 3⟩]⟩⟩)
    (qs := [⟨c! "Rm", 3, 3⟩, ⟨c! "Rd", 0, 3⟩]) rfl w a
  have fd := field_one (pat := Thumb.sxth.pat) (c := 'd') 0 3 (by decide) w
  have fm := field_one (pat := Thumb.sxth.pat) (c := 'm') 3 3 (by decide) w
  change _ ∧ _
  generalize hg : field Case.sxth.enc.pat w = f
  have hg' : field Thumb.sxth.pat w = f := hg
  rw [hg'] at fd fm
  row_simp e
  simp only [Case.sxth, Thumb.sxth, fd, fm]
  refine ⟨fun _ h => (nomatch h), fun _ => ?_⟩
  row_ok e

theorem uxtbW : Case.uxtbW.Correct
    ⟨c! "uxtb.w", .extend, .extend2, [.width 8, .signed false], true, ⟨0xf0c0ffff, 0xf080fa5f, [⟨c! "Rm", 16, 4⟩, ⟨c! "rotate", 20, 2⟩, ⟨c! "Rd", 24, 4⟩]⟩⟩ := by
  intro w a hf
  have e := decode_eq (d := ⟨c! "uxtb.w", .extend, .extend2, [.width 8, .signed false], true, ⟨0xf0c0ffff, 0xf080fa5f, [⟨c! "Rm", 16, 4⟩, ⟨c! "rotate", 20, 2⟩, ⟨c! "Rd", 24, 4⟩]⟩⟩)
    (qs := [⟨c! "Rm", 16, 4⟩, ⟨c! "rotate", 20, 2⟩, ⟨c! "Rd", 24, 4⟩]) rfl w a
  have fd := field_one (pat := Thumb.uxtbW.pat) (c := 'd') 24 4 (by decide) w
  have fm := field_one (pat := Thumb.uxtbW.pat) (c := 'm') 16 4 (by decide) w
  have fr := field_one (pat := Thumb.uxtbW.pat) (c := 'r') 20 2 (by decide) w
  change _ ∧ _
  generalize hg : field Case.uxtbW.enc.pat w = f
  have hg' : field Thumb.uxtbW.pat w = f := hg
  rw [hg'] at fd fm fr
  row_simp e
  simp only [Case.uxtbW, Thumb.uxtbW, fd, fm, fr]
  refine ⟨fun _ h => (nomatch h), fun _ => ?_⟩
  row_ok e

theorem uxthW : Case.uxthW.Correct
    ⟨c! "uxth.w", .extend, .extend2, [.width 16, .signed false], true, ⟨0xf0c0ffff, 0xf080fa1f, [⟨c! "Rm", 16, 4⟩, ⟨c! "rotate", 20, 2⟩, ⟨c! "Rd", 24, 4⟩]⟩⟩ := by
  intro w a hf
  have e := decode_eq (d := ⟨c! "uxth.w", .extend, .extend2, [.width 16, .signed false], true, ⟨0xf0c0ffff, 0xf080fa1f, [⟨c! "Rm", 16, 4⟩, ⟨c! "rotate", 20, 2⟩, ⟨c! "Rd", 24, 4⟩]⟩⟩)
    (qs := [⟨c! "Rm", 16, 4⟩, ⟨c! "rotate", 20, 2⟩, ⟨c! "Rd", 24, 4⟩]) rfl w a
  have fd := field_one (pat := Thumb.uxthW.pat) (c := 'd') 24 4 (by decide) w
  have fm := field_one (pat := Thumb.uxthW.pat) (c := 'm') 16 4 (by decide) w
  have fr := field_one (pat := Thumb.uxthW.pat) (c := 'r') 20 2 (by decide) w
  change _ ∧ _
  generalize hg : field Case.uxthW.enc.pat w = f
  have hg' : field Thumb.uxthW.pat w = f := hg
  rw [hg'] at fd fm fr
  row_simp e
  simp only [Case.uxthW, Thumb.uxthW, fd, fm, fr]
  refine ⟨fun _ h => (nomatch h), fun _ => ?_⟩
  row_ok e

theorem sxtbW : Case.sxtbW.Correct
    ⟨c! "sxtb.w", .extend, .extend2, [.width 8, .signed true], true, ⟨0xf0c0ffff, 0xf080fa4f, [⟨c! "Rm", 16, 4⟩, ⟨c! "rotate", 20, 2⟩, ⟨c! "Rd", 24, 4⟩]⟩⟩ := by
  intro w a hf
  have e := decode_eq (d := ⟨c! "sxtb.w", .extend, .extend2, [.width 8, .signed true], true, ⟨0xf0c0ffff, 0xf080fa4f, [⟨c! "Rm", 16, 4⟩, ⟨c! "rotate", 20, 2⟩, ⟨c! "Rd", 24, 4⟩]⟩⟩)
    (qs := [⟨c! "Rm", 16, 4⟩, ⟨c! "rotate", 20, 2⟩, ⟨c! "Rd", 24, 4⟩]) rfl w a
  have fd := field_one (pat := Thumb.sxtbW.pat) (c := 'd') 24 4 (by decide) w
  have fm := field_one (pat := Thumb.sxtbW.pat) (c := 'm') 16 4 (by decide) w
  have fr := field_one (pat := Thumb.sxtbW.pat) (c := 'r') 20 2 (by decide) w
  change _ ∧ _
  generalize hg : field Case.sxtbW.enc.pat w = f
  have hg' : field Thumb.sxtbW.pat w = f := hg
  rw [hg'] at fd fm fr
  row_simp e
  simp only [Case.sxtbW, Thumb.sxtbW, fd, fm, fr]
  refine ⟨fun _ h => (nomatch h), fun _ => ?_⟩
  row_ok e

theorem sxthW : Case.sxthW.Correct
    ⟨c! "sxth.w", .extend, .extend2, [.width 16, .signed true], true, ⟨0xf0c0ffff, 0xf080fa0f, [⟨c! "Rm", 16, 4⟩, ⟨c! "rotate", 20, 2⟩, ⟨c! "Rd", 24, 4⟩]⟩⟩ := by
  intro w a hf
  have e := decode_eq (d := ⟨c! "sxth.w", .extend, .extend2, [.width 16, .signed true], true, ⟨0xf0c0ffff, 0xf080fa0f, [⟨c! "Rm", 16, 4⟩, ⟨c! "rotate", 20, 2⟩, ⟨c! "Rd", 24, 4⟩]⟩⟩)
    (qs := [⟨c! "Rm", 16, 4⟩, ⟨c! "rotate", 20, 2⟩, ⟨c! "Rd", 24, 4⟩]) rfl w a
  have fd := field_one (pat := Thumb.sxthW.pat) (c := 'd') 24 4 (by decide) w
  have fm := field_one (pat := Thumb.sxthW.pat) (c := 'm') 16 4 (by decide) w
  have fr := field_one (pat := Thumb.sxthW.pat) (c := 'r') 20 2 (by decide) w
  change _ ∧ _
  generalize hg : field Case.sxthW.enc.pat w = f
  have hg' : field Thumb.sxthW.pat w = f := hg
  rw [hg'] at fd fm fr
  row_simp e
  simp only [Case.sxthW, Thumb.sxthW, fd, fm, fr]
  refine ⟨fun _ h => (nomatch h), fun _ => ?_⟩
  row_ok e

theorem revsh : Case.revsh.Correct
    ⟨c! "revsh", .byteReverse, .rev, [.width 2, .signed true], false, ⟨0xffc0, 0xbac0, [⟨c! "Rd", 0, 3⟩, ⟨c! "Rm", 3, 3⟩]⟩⟩ := by
  intro w a hf
  have e := decode_eq (d := ⟨c! "revsh", .byteReverse, .rev, [.width 2, .signed true], false, ⟨0xffc0, 0xbac0, [⟨c! "Rd", 0, 3⟩, ⟨c! "Rm", 3, 3⟩]⟩⟩)
    (qs := [⟨c! "Rm", 3, 3⟩, ⟨c! "Rd", 0, 3⟩]) rfl w a
  have fd := field_one (pat := Thumb.revsh.pat) (c := 'd') 0 3 (by decide) w
  have fm := field_one (pat := Thumb.revsh.pat) (c := 'm') 3 3 (by decide) w
  change _ ∧ _
  generalize hg : field Case.revsh.enc.pat w = f
  have hg' : field Thumb.revsh.pat w = f := hg
  rw [hg'] at fd fm
  row_simp e
  simp only [Case.revsh, Thumb.revsh, fd, fm]
  refine ⟨fun _ h => (nomatch h), fun _ => ?_⟩
  row_ok e

theorem rev16 : Case.rev16.Correct
    ⟨c! "rev16", .byteReverse, .rev, [.width 2, .signed false], false, ⟨0xffc0, 0xba40, [⟨c! "Rd", 0, 3⟩, ⟨c! "Rm", 3, 3⟩]⟩⟩ := by
  intro w a hf
  have e := decode_eq (d := ⟨c! "rev16", .byteReverse, .rev, [.width 2, .signed false], false, ⟨0xffc0, 0xba40, [⟨c! "Rd", 0, 3⟩, ⟨c! "Rm", 3, 3⟩]⟩⟩)
    (qs := [⟨c! "Rm", 3, 3⟩, ⟨c! "Rd", 0, 3⟩]) rfl w a
  have fd := field_one (pat := Thumb.rev16.pat) (c := 'd') 0 3 (by decide) w
  have fm := field_one (pat := Thumb.rev16.pat) (c := 'm') 3 3 (by decide) w
  change _ ∧ _
  generalize hg : field Case.rev16.enc.pat w = f
  have hg' : field Thumb.rev16.pat w = f := hg
  rw [hg'] at fd fm
  row_simp e
  simp only [Case.rev16, Thumb.rev16, fd, fm]
  refine ⟨fun _ h => (nomatch h), fun _ => ?_⟩
  row_ok e

theorem rev : Case.rev.Correct
    ⟨c! "rev", .byteReverse, .rev, [.width 4, .signed false], false, ⟨0xffc0, 0xba00, [⟨c! "Rd", 0, 3⟩, ⟨c! "Rm", 3, 3⟩]⟩⟩ := by
  intro w a hf
  have e := decode_eq (d := ⟨c! "rev", .byteReverse, .rev, [.width 4, .signed false], false, ⟨0xffc0, 0xba00, [⟨c! "Rd", 0, 3⟩, ⟨c! "Rm", 3, 3⟩]⟩⟩)
    (qs := [⟨c! "Rm", 3, 3⟩, ⟨c! "Rd", 0, 3⟩]) rfl w a
  have fd := field_one (pat := Thumb.rev.pat) (c := 'd') 0 3 (by decide) w
  have fm := field_one (pat := Thumb.rev.pat) (c := 'm') 3 3 (by decide) w
  change _ ∧ _
  generalize hg : field Case.rev.enc.pat w = f
  have hg' : field Thumb.rev.pat w = f := hg
  rw [hg'] at fd fm
  row_simp e
  simp only [Case.rev, Thumb.rev, fd, fm]
  refine ⟨fun _ h => (nomatch h), fun _ => ?_⟩
  row_ok e

theorem revshW : Case.revshW.Correct
    ⟨c! "revsh.w", .byteReverse, .revW, [.width 2, .signed true], true, ⟨0xf0f0fff0, 0xf0b0fa90, [⟨c! "Rm1", 0, 4⟩, ⟨c! "Rm2", 16, 4⟩, ⟨c! "Rd", 24, 4⟩]⟩⟩ := by
  intro w a hf
  have e := decode_eq (d := ⟨c! "revsh.w", .byteReverse, .revW, [.width 2, .signed true], true, ⟨0xf0f0fff0, 0xf0b0fa90, [⟨c! "Rm1", 0, 4⟩, ⟨c! "Rm2", 16, 4⟩, ⟨c! "Rd", 24, 4⟩]⟩⟩)
    (qs := [⟨c! "Rm1", 0, 4⟩, ⟨c! "Rd", 24, 4⟩, ⟨c! "Rm2", 16, 4⟩]) rfl w a
  have fd := field_one (pat := Thumb.revshW.pat) (c := 'd') 24 4 (by decide) w
  have fk := field_one (pat := Thumb.revshW.pat) (c := 'k') 16 4 (by decide) w
  have fm := field_one (pat := Thumb.revshW.pat) (c := 'm') 0 4 (by decide) w
  change _ ∧ _
  generalize hg : field Case.revshW.enc.pat w = f
  have hg' : field Thumb.revshW.pat w = f := hg
  rw [hg'] at fd fk fm
  row_simp e
  simp only [Case.revshW, Thumb.revshW, fd, fk, fm]
  refine raises_unless e ?_ fun hc e => ?_
  · first | rfl | done | (rw [Bool.eq_iff_iff]; simp [spOrPc, plainReg, regs_zero_m, regs_zero_p, regs_zero_low]; try grind)
  · row_ok e

theorem rev16W : Case.rev16W.Correct
    ⟨c! "rev16.w", .byteReverse, .revW, [.width 2, .signed false], true, ⟨0xf0f0fff0, 0xf090fa90, [⟨c! "Rm1", 0, 4⟩, ⟨c! "Rm2", 16, 4⟩, ⟨c! "Rd", 24, 4⟩]⟩⟩ := by
  intro w a hf
  have e := decode_eq (d := ⟨c! "rev16.w", .byteReverse, .revW, [.width 2, .signed false], true, ⟨0xf0f0fff0, 0xf090fa90, [⟨c! "Rm1", 0, 4⟩, ⟨c! "Rm2", 16, 4⟩, ⟨c! "Rd", 24, 4⟩]⟩⟩)
    (qs := [⟨c! "Rm1", 0, 4⟩, ⟨c! "Rd", 24, 4⟩, ⟨c! "Rm2", 16, 4⟩]) rfl w a
  have fd := field_one (pat := Thumb.rev16W.pat) (c := 'd') 24 4 (by decide) w
  have fk := field_one (pat := Thumb.rev16W.pat) (c := 'k') 16 4 (by decide) w
  have fm := field_one (pat := Thumb.rev16W.pat) (c := 'm') 0 4 (by decide) w
  change _ ∧ _
  generalize hg : field Case.rev16W.enc.pat w = f
  have hg' : field Thumb.rev16W.pat w = f := hg
  rw [hg'] at fd fk fm
  row_simp e
  simp only [Case.rev16W, Thumb.rev16W, fd, fk, fm]
  refine raises_unless e ?_ fun hc e => ?_
  · first | rfl | done | (rw [Bool.eq_iff_iff]; simp [spOrPc, plainReg, regs_zero_m, regs_zero_p, regs_zero_low]; try grind)
  · row_ok e

theorem revW : Case.revW.Correct
    ⟨c! "rev.w", .byteReverse, .revW, [.width 4, .signed false], true, ⟨0xf0f0fff0, 0xf080fa90, [⟨c! "Rm1", 0, 4⟩, ⟨c! "Rm2", 16, 4⟩, ⟨c! "Rd", 24, 4⟩]⟩⟩ := by
  intro w a hf
  have e := decode_eq (d := ⟨c! "rev.w", .byteReverse, .revW, [.width 4, .signed false], true, ⟨0xf0f0fff0, 0xf080fa90, [⟨c! "Rm1", 0, 4⟩, ⟨c! "Rm2", 16, 4⟩, ⟨c! "Rd", 24, 4⟩]⟩⟩)
    (qs := [⟨c! "Rm1", 0, 4⟩, ⟨c! "Rd", 24, 4⟩, ⟨c! "Rm2", 16, 4⟩]) rfl w a
  have fd := field_one (pat := Thumb.revW.pat) (c := 'd') 24 4 (by decide) w
  have fk := field_one (pat := Thumb.revW.pat) (c := 'k') 16 4 (by decide) w
  have fm := field_one (pat := Thumb.revW.pat) (c := 'm') 0 4 (by decide) w
  change _ ∧ _
  generalize hg : field Case.revW.enc.pat w = f
  have hg' : field Thumb.revW.pat w = f := hg
  rw [hg'] at fd fk fm
  row_simp e
  simp only [Case.revW, Thumb.revW, fd, fk, fm]
  refine raises_unless e ?_ fun hc e => ?_
  · first | rfl | done | (rw [Bool.eq_iff_iff]; simp [spOrPc, plainReg, regs_zero_m, regs_zero_p, regs_zero_low]; try grind)
  · row_ok e

theorem movReg : Case.movReg.Correct
    ⟨c! "mov", .move, .mov0, [], false, ⟨0xff00, 0x4600, [⟨c! "Rd", 0, 3⟩, ⟨c! "Rm", 3, 4⟩, ⟨c! "D", 7, 1⟩]⟩⟩ := by
  intro w a hf
  have e := decode_eq (d := ⟨c! "mov", .move, .mov0, [], false, ⟨0xff00, 0x4600, [⟨c! "Rd", 0, 3⟩, ⟨c! "Rm", 3, 4⟩, ⟨c! "D", 7, 1⟩]⟩⟩)
    (qs := [⟨c! "D", 7, 1⟩, ⟨c! "Rm", 3, 4⟩, ⟨c! "Rd", 0, 3⟩]) rfl w a
  have fd := field_two (pat := Thumb.movReg.pat) (c := 'd') 7 1 0 3 (by decide) w
  have fm := field_one (pat := Thumb.movReg.pat) (c := 'm') 3 4 (by decide) w
  change _ ∧ _
  generalize hg : field Case.movReg.enc.pat w = f
  have hg' : field Thumb.movReg.pat w = f := hg
  rw [hg'] at fd fm
  row_simp e
  simp only [Case.movReg, Thumb.movReg, fd, fm]
  refine ⟨fun _ h => (nomatch h), fun _ => ?_⟩
  row_ok e

theorem movsReg : Case.movsReg.Correct
    ⟨c! "movs", .move, .mov0S, [], false, ⟨0xffc0, 0x0, [⟨c! "Rd", 0, 3⟩, ⟨c! "Rm", 3, 3⟩]⟩⟩ := by
  intro w a hf
  have e := decode_eq (d := ⟨c! "movs", .move, .mov0S, [], false, ⟨0xffc0, 0x0, [⟨c! "Rd", 0, 3⟩, ⟨c! "Rm", 3, 3⟩]⟩⟩)
    (qs := [⟨c! "Rm", 3, 3⟩, ⟨c! "Rd", 0, 3⟩]) rfl w a
  have fd := field_one (pat := Thumb.movsReg.pat) (c := 'd') 0 3 (by decide) w
  have fm := field_one (pat := Thumb.movsReg.pat) (c := 'm') 3 3 (by decide) w
  change _ ∧ _
  generalize hg : field Case.movsReg.enc.pat w = f
  have hg' : field Thumb.movsReg.pat w = f := hg
  rw [hg'] at fd fm
  row_simp e
  simp only [Case.movsReg, Thumb.movsReg, fd, fm]
  refine ⟨fun _ h => (nomatch h), fun _ => ?_⟩
  row_ok e

theorem movRegW : Case.movRegW.Correct
    ⟨c! "mov", .move, .movRegT3, [], true, ⟨0xf0f0ffef, 0xea4f, [⟨c! "S", 4, 1⟩, ⟨c! "Rm", 16, 4⟩, ⟨c! "Rd", 24, 4⟩]⟩⟩ := by
  intro w a hf
  have e := decode_eq (d := ⟨c! "mov", .move, .movRegT3, [], true, ⟨0xf0f0ffef, 0xea4f, [⟨c! "S", 4, 1⟩, ⟨c! "Rm", 16, 4⟩, ⟨c! "Rd", 24, 4⟩]⟩⟩)
    (qs := [⟨c! "S", 4, 1⟩, ⟨c! "Rd", 24, 4⟩, ⟨c! "Rm", 16, 4⟩]) rfl w a
  have fd := field_one (pat := Thumb.movRegW.pat) (c := 'd') 24 4 (by decide) w
  have fm := field_one (pat := Thumb.movRegW.pat) (c := 'm') 16 4 (by decide) w
  have fs := field_one (pat := Thumb.movRegW.pat) (c := 's') 4 1 (by decide) w
  change _ ∧ _
  generalize hg : field Case.movRegW.enc.pat w = f
  have hg' : field Thumb.movRegW.pat w = f := hg
  rw [hg'] at fd fm fs
  row_simp e
  simp only [Case.movRegW, Thumb.movRegW, fd, fm, fs]
  refine ⟨fun _ h => (nomatch h), fun _ => ?_⟩
  row_ok e

theorem movsImm : Case.movsImm.Correct
    ⟨c! "movs", .move, .mov1, [], false, ⟨0xf800, 0x2000, [⟨c! "imm8", 0, 8⟩, ⟨c! "Rd", 8, 3⟩]⟩⟩ := by
  intro w a hf
  have e := decode_eq (d := ⟨c! "movs", .move, .mov1, [], false, ⟨0xf800, 0x2000, [⟨c! "imm8", 0, 8⟩, ⟨c! "Rd", 8, 3⟩]⟩⟩)
    (qs := [⟨c! "Rd", 8, 3⟩, ⟨c! "imm8", 0, 8⟩]) rfl w a
  have fd := field_one (pat := Thumb.movsImm.pat) (c := 'd') 8 3 (by decide) w
  have fi := field_one (pat := Thumb.movsImm.pat) (c := 'i') 0 8 (by decide) w
  change _ ∧ _
  generalize hg : field Case.movsImm.enc.pat w = f
  have hg' : field Thumb.movsImm.pat w = f := hg
  rw [hg'] at fd fi
  row_simp e
  simp only [Case.movsImm, Thumb.movsImm, fd, fi]
  refine ⟨fun _ h => (nomatch h), fun _ => ?_⟩
  row_ok e

theorem movImmW : Case.movImmW.Correct
    ⟨c! "mov", .move, .mov2, [], true, ⟨0x8000fbef, 0xf04f, [⟨c! "S", 4, 1⟩, ⟨c! "im", 10, 1⟩, ⟨c! "imm8", 16, 8⟩, ⟨c! "Rd", 24, 4⟩, ⟨c! "imm3", 28, 3⟩]⟩⟩ := by
  intro w a hf
  have e := decode_eq (d := ⟨c! "mov", .move, .mov2, [], true, ⟨0x8000fbef, 0xf04f, [⟨c! "S", 4, 1⟩, ⟨c! "im", 10, 1⟩, ⟨c! "imm8", 16, 8⟩, ⟨c! "Rd", 24, 4⟩, ⟨c! "imm3", 28, 3⟩]⟩⟩)
    (qs := [⟨c! "im", 10, 1⟩, ⟨c! "S", 4, 1⟩, ⟨c! "imm3", 28, 3⟩, ⟨c! "Rd", 24, 4⟩, ⟨c! "imm8", 16, 8⟩]) rfl w a
  have fd := field_one (pat := Thumb.movImmW.pat) (c := 'd') 24 4 (by decide) w
  have fi := field_three (pat := Thumb.movImmW.pat) (c := 'i') 10 1 28 3 16 8 (by decide) w
  have fs := field_one (pat := Thumb.movImmW.pat) (c := 's') 4 1 (by decide) w
  change _ ∧ _
  generalize hg : field Case.movImmW.enc.pat w = f
  have hg' : field Thumb.movImmW.pat w = f := hg
  rw [hg'] at fd fi fs
  obtain ⟨c, hc⟩ := expandImmC (sl w 10 1 ++ sl w 28 3 ++ sl w 16 8) rfl
  simp only [bit0_eq] at hc
  simp only [List.map, Handler.run, concat_ofBV, bit0_eq, hc] at e
  row_simp e
  simp only [Case.movImmW, Thumb.movImmW, fd, fi, fs]
  refine ⟨fun _ h => (nomatch h), fun _ => ?_⟩
  row_ok e

theorem movw : Case.movw.Correct
    ⟨c! "movw", .move, .movw, [], true, ⟨0x8000fbf0, 0xf240, [⟨c! "imm4", 0, 4⟩, ⟨c! "im", 10, 1⟩, ⟨c! "imm8", 16, 8⟩, ⟨c! "Rd", 24, 4⟩, ⟨c! "imm3", 28, 3⟩]⟩⟩ := by
  intro w a hf
  have e := decode_eq (d := ⟨c! "movw", .move, .movw, [], true, ⟨0x8000fbf0, 0xf240, [⟨c! "imm4", 0, 4⟩, ⟨c! "im", 10, 1⟩, ⟨c! "imm8", 16, 8⟩, ⟨c! "Rd", 24, 4⟩, ⟨c! "imm3", 28, 3⟩]⟩⟩)
    (qs := [⟨c! "im", 10, 1⟩, ⟨c! "imm4", 0, 4⟩, ⟨c! "imm3", 28, 3⟩, ⟨c! "Rd", 24, 4⟩, ⟨c! "imm8", 16, 8⟩]) rfl w a
  have fd := field_one (pat := Thumb.movw.pat) (c := 'd') 24 4 (by decide) w
  have fi := field_one (pat := Thumb.movw.pat) (c := 'i') 0 4 (by decide) w
  have fj := field_one (pat := Thumb.movw.pat) (c := 'j') 10 1 (by decide) w
  have fk := field_one (pat := Thumb.movw.pat) (c := 'k') 28 3 (by decide) w
  have fl := field_one (pat := Thumb.movw.pat) (c := 'l') 16 8 (by decide) w
  change _ ∧ _
  generalize hg : field Case.movw.enc.pat w = f
  have hg' : field Thumb.movw.pat w = f := hg
  rw [hg'] at fd fi fj fk fl
  row_simp e
  simp only [Case.movw, Thumb.movw, fd, fi, fj, fk, fl]
  refine ⟨fun _ h => (nomatch h), fun _ => ?_⟩
  row_ok e

theorem mvns : Case.mvns.Correct
    ⟨c! "mvns", .move, .mvn, [.negate true], false, ⟨0xffc0, 0x43c0, [⟨c! "Rd", 0, 3⟩, ⟨c! "Rm", 3, 3⟩]⟩⟩ := by
  intro w a hf
  have e := decode_eq (d := ⟨c! "mvns", .move, .mvn, [.negate true], false, ⟨0xffc0, 0x43c0, [⟨c! "Rd", 0, 3⟩, ⟨c! "Rm", 3, 3⟩]⟩⟩)
    (qs := [⟨c! "Rm", 3, 3⟩, ⟨c! "Rd", 0, 3⟩]) rfl w a
  have fd := field_one (pat := Thumb.mvns.pat) (c := 'd') 0 3 (by decide) w
  have fm := field_one (pat := Thumb.mvns.pat) (c := 'm') 3 3 (by decide) w
  change _ ∧ _
  generalize hg : field Case.mvns.enc.pat w = f
  have hg' : field Thumb.mvns.pat w = f := hg
  rw [hg'] at fd fm
  row_simp e
  simp only [Case.mvns, Thumb.mvns, fd, fm]
  refine ⟨fun _ h => (nomatch h), fun _ => ?_⟩
  row_ok e

theorem mvnW : Case.mvnW.Correct
    ⟨c! "mvn", .shiftedMoveNegate, .mvnw, [], true, ⟨0x8000ffef, 0xea6f, [⟨c! "S", 4, 1⟩, ⟨c! "Rm", 16, 4⟩, ⟨c! "type", 20, 2⟩, ⟨c! "imm2", 22, 2⟩, ⟨c! "Rd", 24, 4⟩, ⟨c! "imm3", 28, 3⟩]⟩⟩ := by
  intro w a hf
  have e := decode_eq (d := ⟨c! "mvn", .shiftedMoveNegate, .mvnw, [], true, ⟨0x8000ffef, 0xea6f, [⟨c! "S", 4, 1⟩, ⟨c! "Rm", 16, 4⟩, ⟨c! "type", 20, 2⟩, ⟨c! "imm2", 22, 2⟩, ⟨c! "Rd", 24, 4⟩, ⟨c! "imm3", 28, 3⟩]⟩⟩)
    (qs := [⟨c! "S", 4, 1⟩, ⟨c! "imm3", 28, 3⟩, ⟨c! "Rd", 24, 4⟩, ⟨c! "imm2", 22, 2⟩, ⟨c! "type", 20, 2⟩, ⟨c! "Rm", 16, 4⟩]) rfl w a
  have fd := field_one (pat := Thumb.mvnW.pat) (c := 'd') 24 4 (by decide) w
  have fi := field_two (pat := Thumb.mvnW.pat) (c := 'i') 28 3 22 2 (by decide) w
  have fm := field_one (pat := Thumb.mvnW.pat) (c := 'm') 16 4 (by decide) w
  have fs := field_one (pat := Thumb.mvnW.pat) (c := 's') 4 1 (by decide) w
  have ft := field_one (pat := Thumb.mvnW.pat) (c := 't') 20 2 (by decide) w
  change _ ∧ _
  generalize hg : field Case.mvnW.enc.pat w = f
  have hg' : field Thumb.mvnW.pat w = f := hg
  rw [hg'] at fd fi fm fs ft
  row_simp e
  simp only [Case.mvnW, Thumb.mvnW, fd, fi, fm, fs, ft]
  refine ⟨fun _ h => (nomatch h), fun _ => ?_⟩
  row_ok e

theorem cmpImm : Case.cmpImm.Correct
    ⟨c! "cmp", .compare, .cmp1, [], false, ⟨0xf800, 0x2800, [⟨c! "imm8", 0, 8⟩, ⟨c! "Rn", 8, 3⟩]⟩⟩ := by
  intro w a hf
  have e := decode_eq (d := ⟨c! "cmp", .compare, .cmp1, [], false, ⟨0xf800, 0x2800, [⟨c! "imm8", 0, 8⟩, ⟨c! "Rn", 8, 3⟩]⟩⟩)
    (qs := [⟨c! "Rn", 8, 3⟩, ⟨c! "imm8", 0, 8⟩]) rfl w a
  have fi := field_one (pat := Thumb.cmpImm.pat) (c := 'i') 0 8 (by decide) w
  have fn := field_one (pat := Thumb.cmpImm.pat) (c := 'n') 8 3 (by decide) w
  change _ ∧ _
  generalize hg : field Case.cmpImm.enc.pat w = f
  have hg' : field Thumb.cmpImm.pat w = f := hg
  rw [hg'] at fi fn
  row_simp e
  simp only [Case.cmpImm, Thumb.cmpImm, fi, fn]
  refine ⟨fun _ h => (nomatch h), fun _ => ?_⟩
  row_ok e

theorem cmnReg : Case.cmnReg.Correct
    ⟨c! "cmn", .compare, .cmp3, [.negate false], false, ⟨0xffc0, 0x42c0, [⟨c! "Rn", 0, 3⟩, ⟨c! "Rm", 3, 3⟩]⟩⟩ := by
  intro w a hf
  have e := decode_eq (d := ⟨c! "cmn", .compare, .cmp3, [.negate false], false, ⟨0xffc0, 0x42c0, [⟨c! "Rn", 0, 3⟩, ⟨c! "Rm", 3, 3⟩]⟩⟩)
    (qs := [⟨c! "Rm", 3, 3⟩, ⟨c! "Rn", 0, 3⟩]) rfl w a
  have fm := field_one (pat := Thumb.cmnReg.pat) (c := 'm') 3 3 (by decide) w
  have fn := field_one (pat := Thumb.cmnReg.pat) (c := 'n') 0 3 (by decide) w
  change _ ∧ _
  generalize hg : field Case.cmnReg.enc.pat w = f
  have hg' : field Thumb.cmnReg.pat w = f := hg
  rw [hg'] at fm fn
  row_simp e
  simp only [Case.cmnReg, Thumb.cmnReg, fm, fn]
  refine ⟨fun _ h => (nomatch h), fun _ => ?_⟩
  row_ok e

theorem cmpRegT1 : Case.cmpRegT1.Correct
    ⟨c! "cmp", .compare, .cmp3, [], false, ⟨0xffc0, 0x4280, [⟨c! "Rn", 0, 3⟩, ⟨c! "Rm", 3, 3⟩]⟩⟩ := by
  intro w a hf
  have e := decode_eq (d := ⟨c! "cmp", .compare, .cmp3, [], false, ⟨0xffc0, 0x4280, [⟨c! "Rn", 0, 3⟩, ⟨c! "Rm", 3, 3⟩]⟩⟩)
    (qs := [⟨c! "Rm", 3, 3⟩, ⟨c! "Rn", 0, 3⟩]) rfl w a
  have fm := field_one (pat := Thumb.cmpRegT1.pat) (c := 'm') 3 3 (by decide) w
  have fn := field_one (pat := Thumb.cmpRegT1.pat) (c := 'n') 0 3 (by decide) w
  change _ ∧ _
  generalize hg : field Case.cmpRegT1.enc.pat w = f
  have hg' : field Thumb.cmpRegT1.pat w = f := hg
  rw [hg'] at fm fn
  row_simp e
  simp only [Case.cmpRegT1, Thumb.cmpRegT1, fm, fn]
  refine ⟨fun _ h => (nomatch h), fun _ => ?_⟩
  row_ok e

theorem cmpRegT2 : Case.cmpRegT2.Correct
    ⟨c! "cmp", .compare, .cmp4, [], false, ⟨0xff00, 0x4500, [⟨c! "Rn", 0, 3⟩, ⟨c! "Rm", 3, 4⟩, ⟨c! "N", 7, 1⟩]⟩⟩ := by
  intro w a hf
  have e := decode_eq (d := ⟨c! "cmp", .compare, .cmp4, [], false, ⟨0xff00, 0x4500, [⟨c! "Rn", 0, 3⟩, ⟨c! "Rm", 3, 4⟩, ⟨c! "N", 7, 1⟩]⟩⟩)
    (qs := [⟨c! "N", 7, 1⟩, ⟨c! "Rm", 3, 4⟩, ⟨c! "Rn", 0, 3⟩]) rfl w a
  have fm := field_one (pat := Thumb.cmpRegT2.pat) (c := 'm') 3 4 (by decide) w
  have fn := field_two (pat := Thumb.cmpRegT2.pat) (c := 'n') 7 1 0 3 (by decide) w
  change _ ∧ _
  generalize hg : field Case.cmpRegT2.enc.pat w = f
  have hg' : field Thumb.cmpRegT2.pat w = f := hg
  rw [hg'] at fm fn
  row_simp e
  simp only [Case.cmpRegT2, Thumb.cmpRegT2, fm, fn]
  refine ⟨fun _ h => (nomatch h), fun _ => ?_⟩
  row_ok e

theorem cmnImm : Case.cmnImm.Correct
    ⟨c! "cmn", .compare, .cmp2, [.negate false], true, ⟨0x8f00fbf0, 0xf00f110, [⟨c! "Rn", 0, 4⟩, ⟨c! "im", 10, 1⟩, ⟨c! "imm8", 16, 8⟩, ⟨c! "imm3", 28, 3⟩]⟩⟩ := by
  intro w a hf
  have e := decode_eq (d := ⟨c! "cmn", .compare, .cmp2, [.negate false], true, ⟨0x8f00fbf0, 0xf00f110, [⟨c! "Rn", 0, 4⟩, ⟨c! "im", 10, 1⟩, ⟨c! "imm8", 16, 8⟩, ⟨c! "imm3", 28, 3⟩]⟩⟩)
    (qs := [⟨c! "im", 10, 1⟩, ⟨c! "Rn", 0, 4⟩, ⟨c! "imm3", 28, 3⟩, ⟨c! "imm8", 16, 8⟩]) rfl w a
  have fi := field_three (pat := Thumb.cmnImm.pat) (c := 'i') 10 1 28 3 16 8 (by decide) w
  have fn := field_one (pat := Thumb.cmnImm.pat) (c := 'n') 0 4 (by decide) w
  change _ ∧ _
  generalize hg : field Case.cmnImm.enc.pat w = f
  have hg' : field Thumb.cmnImm.pat w = f := hg
  rw [hg'] at fi fn
  row_simp e
  simp only [Case.cmnImm, Thumb.cmnImm, fi, fn]
  refine ⟨fun _ h => (nomatch h), fun _ => ?_⟩
  row_ok e

theorem cmpImmW : Case.cmpImmW.Correct
    ⟨c! "cmp.w", .compare, .cmp2, [], true, ⟨0x8f00fbf0, 0xf00f1b0, [⟨c! "Rn", 0, 4⟩, ⟨c! "im", 10, 1⟩, ⟨c! "imm8", 16, 8⟩, ⟨c! "imm3", 28, 3⟩]⟩⟩ := by
  intro w a hf
  have e := decode_eq (d := ⟨c! "cmp.w", .compare, .cmp2, [], true, ⟨0x8f00fbf0, 0xf00f1b0, [⟨c! "Rn", 0, 4⟩, ⟨c! "im", 10, 1⟩, ⟨c! "imm8", 16, 8⟩, ⟨c! "imm3", 28, 3⟩]⟩⟩)
    (qs := [⟨c! "im", 10, 1⟩, ⟨c! "Rn", 0, 4⟩, ⟨c! "imm3", 28, 3⟩, ⟨c! "imm8", 16, 8⟩]) rfl w a
  have fi := field_three (pat := Thumb.cmpImmW.pat) (c := 'i') 10 1 28 3 16 8 (by decide) w
  have fn := field_one (pat := Thumb.cmpImmW.pat) (c := 'n') 0 4 (by decide) w
  change _ ∧ _
  generalize hg : field Case.cmpImmW.enc.pat w = f
  have hg' : field Thumb.cmpImmW.pat w = f := hg
  rw [hg'] at fi fn
  row_simp e
  simp only [Case.cmpImmW, Thumb.cmpImmW, fi, fn]
  refine ⟨fun _ h => (nomatch h), fun _ => ?_⟩
  row_ok e

theorem tst : Case.tst.Correct
    ⟨c! "tst", .test, .tst, [], false, ⟨0xffc0, 0x4200, [⟨c! "Rn", 0, 3⟩, ⟨c! "Rm", 3, 3⟩]⟩⟩ := by
  intro w a hf
  have e := decode_eq (d := ⟨c! "tst", .test, .tst, [], false, ⟨0xffc0, 0x4200, [⟨c! "Rn", 0, 3⟩, ⟨c! "Rm", 3, 3⟩]⟩⟩)
    (qs := [⟨c! "Rm", 3, 3⟩, ⟨c! "Rn", 0, 3⟩]) rfl w a
  have fm := field_one (pat := Thumb.tst.pat) (c := 'm') 3 3 (by decide) w
  have fn := field_one (pat := Thumb.tst.pat) (c := 'n') 0 3 (by decide) w
  change _ ∧ _
  generalize hg : field Case.tst.enc.pat w = f
  have hg' : field Thumb.tst.pat w = f := hg
  rw [hg'] at fm fn
  row_simp e
  simp only [Case.tst, Thumb.tst, fm, fn]
  refine ⟨fun _ h => (nomatch h), fun _ => ?_⟩
  row_ok e

theorem tstW : Case.tstW.Correct
    ⟨c! "tst.w", .test, .tstW, [], true, ⟨0x8f00fff0, 0xf00ea10, [⟨c! "Rn", 0, 4⟩, ⟨c! "Rm", 16, 4⟩, ⟨c! "type", 20, 2⟩, ⟨c! "imm2", 22, 2⟩, ⟨c! "imm3", 28, 3⟩]⟩⟩ := by
  intro w a hf
  have e := decode_eq (d := ⟨c! "tst.w", .test, .tstW, [], true, ⟨0x8f00fff0, 0xf00ea10, [⟨c! "Rn", 0, 4⟩, ⟨c! "Rm", 16, 4⟩, ⟨c! "type", 20, 2⟩, ⟨c! "imm2", 22, 2⟩, ⟨c! "imm3", 28, 3⟩]⟩⟩)
    (qs := [⟨c! "Rn", 0, 4⟩, ⟨c! "imm3", 28, 3⟩, ⟨c! "imm2", 22, 2⟩, ⟨c! "type", 20, 2⟩, ⟨c! "Rm", 16, 4⟩]) rfl w a
  have fi := field_two (pat := Thumb.tstW.pat) (c := 'i') 28 3 22 2 (by decide) w
  have fm := field_one (pat := Thumb.tstW.pat) (c := 'm') 16 4 (by decide) w
  have fn := field_one (pat := Thumb.tstW.pat) (c := 'n') 0 4 (by decide) w
  have ft := field_one (pat := Thumb.tstW.pat) (c := 't') 20 2 (by decide) w
  change _ ∧ _
  generalize hg : field Case.tstW.enc.pat w = f
  have hg' : field Thumb.tstW.pat w = f := hg
  rw [hg'] at fi fm fn ft
  row_simp e
  simp only [Case.tstW, Thumb.tstW, fi, fm, fn, ft]
  refine raises_unless e ?_ fun hc e => ?_
  · first | rfl | done | (rw [Bool.eq_iff_iff]; simp [spOrPc, plainReg, regs_zero_m, regs_zero_p, regs_zero_low]; try grind)
  · row_ok e

theorem bCond : Case.bCond.Correct
    ⟨c! "b", .branch, .bT1, [], false, ⟨0xf000, 0xd000, [⟨c! "imm8", 0, 8⟩, ⟨c! "cond", 8, 4⟩]⟩⟩ := by
  intro w a hf
  have e := decode_eq (d := ⟨c! "b", .branch, .bT1, [], false, ⟨0xf000, 0xd000, [⟨c! "imm8", 0, 8⟩, ⟨c! "cond", 8, 4⟩]⟩⟩)
    (qs := [⟨c! "cond", 8, 4⟩, ⟨c! "imm8", 0, 8⟩]) rfl w a
  have fc := field_one (pat := Thumb.bCond.pat) (c := 'c') 8 4 (by decide) w
  have fi := field_one (pat := Thumb.bCond.pat) (c := 'i') 0 8 (by decide) w
  change _ ∧ _
  generalize hg : field Case.bCond.enc.pat w = f
  have hg' : field Thumb.bCond.pat w = f := hg
  rw [hg'] at fc fi
  row_simp e
  simp only [Case.bCond, Thumb.bCond, fc, fi]
  refine ⟨fun _ h => (nomatch h), fun _ => ?_⟩
  row_ok e

theorem b : Case.b.Correct
    ⟨c! "b", .branch, .bT2, [], false, ⟨0xf800, 0xe000, [⟨c! "imm11", 0, 11⟩]⟩⟩ := by
  intro w a hf
  have e := decode_eq (d := ⟨c! "b", .branch, .bT2, [], false, ⟨0xf800, 0xe000, [⟨c! "imm11", 0, 11⟩]⟩⟩)
    (qs := [⟨c! "imm11", 0, 11⟩]) rfl w a
  have fi := field_one (pat := Thumb.b.pat) (c := 'i') 0 11 (by decide) w
  change _ ∧ _
  generalize hg : field Case.b.enc.pat w = f
  have hg' : field Thumb.b.pat w = f := hg
  rw [hg'] at fi
  row_simp e
  simp only [Case.b, Thumb.b, fi]
  refine ⟨fun _ h => (nomatch h), fun _ => ?_⟩
  row_ok e

theorem bl : Case.bl.Correct
    ⟨c! "bl", .branch, .blT1, [], true, ⟨0xd000f800, 0xd000f000, [⟨c! "imm10", 0, 10⟩, ⟨c! "S", 10, 1⟩, ⟨c! "imm11", 16, 11⟩, ⟨c! "J2", 27, 1⟩, ⟨c! "J1", 29, 1⟩]⟩⟩ := by
  intro w a hf
  have e := decode_eq (d := ⟨c! "bl", .branch, .blT1, [], true, ⟨0xd000f800, 0xd000f000, [⟨c! "imm10", 0, 10⟩, ⟨c! "S", 10, 1⟩, ⟨c! "imm11", 16, 11⟩, ⟨c! "J2", 27, 1⟩, ⟨c! "J1", 29, 1⟩]⟩⟩)
    (qs := [⟨c! "S", 10, 1⟩, ⟨c! "imm10", 0, 10⟩, ⟨c! "J1", 29, 1⟩, ⟨c! "J2", 27, 1⟩, ⟨c! "imm11", 16, 11⟩]) rfl w a
  have fi := field_two (pat := Thumb.bl.pat) (c := 'i') 0 10 16 11 (by decide) w
  have fj := field_one (pat := Thumb.bl.pat) (c := 'j') 29 1 (by decide) w
  have fk := field_one (pat := Thumb.bl.pat) (c := 'k') 27 1 (by decide) w
  have fs := field_one (pat := Thumb.bl.pat) (c := 's') 10 1 (by decide) w
  change _ ∧ _
  generalize hg : field Case.bl.enc.pat w = f
  have hg' : field Thumb.bl.pat w = f := hg
  rw [hg'] at fi fj fk fs
  row_simp e
  simp only [Case.bl, Thumb.bl, fi, fj, fk, fs]
  refine ⟨fun _ h => (nomatch h), fun _ => ?_⟩
  row_ok e

theorem blx : Case.blx.Correct
    ⟨c! "blx", .branch, .blxT1, [], false, ⟨0xff87, 0x4780, [⟨c! "Rm", 3, 4⟩]⟩⟩ := by
  intro w a hf
  have e := decode_eq (d := ⟨c! "blx", .branch, .blxT1, [], false, ⟨0xff87, 0x4780, [⟨c! "Rm", 3, 4⟩]⟩⟩)
    (qs := [⟨c! "Rm", 3, 4⟩]) rfl w a
  have fm := field_one (pat := Thumb.blx.pat) (c := 'm') 3 4 (by decide) w
  change _ ∧ _
  generalize hg : field Case.blx.enc.pat w = f
  have hg' : field Thumb.blx.pat w = f := hg
  rw [hg'] at fm
  row_simp e
  simp only [Case.blx, Thumb.blx, fm]
  refine ⟨fun _ h => (nomatch h), fun _ => ?_⟩
  row_ok e

theorem bx : Case.bx.Correct
    ⟨c! "bx", .branch, .bxT1, [], false, ⟨0xff87, 0x4700, [⟨c! "Rm", 3, 4⟩]⟩⟩ := by
  intro w a hf
  have e := decode_eq (d := ⟨c! "bx", .branch, .bxT1, [], false, ⟨0xff87, 0x4700, [⟨c! "Rm", 3, 4⟩]⟩⟩)
    (qs := [⟨c! "Rm", 3, 4⟩]) rfl w a
  have fm := field_one (pat := Thumb.bx.pat) (c := 'm') 3 4 (by decide) w
  change _ ∧ _
  generalize hg : field Case.bx.enc.pat w = f
  have hg' : field Thumb.bx.pat w = f := hg
  rw [hg'] at fm
  row_simp e
  simp only [Case.bx, Thumb.bx, fm]
  refine ⟨fun _ h => (nomatch h), fun _ => ?_⟩
  row_ok e

theorem ldrshReg : Case.ldrshReg.Correct
    ⟨c! "ldrsh", .load, .ldrStrReg, [.memsize 16, .signed true], false, ⟨0xfe00, 0x5e00, [⟨c! "Rt", 0, 3⟩, ⟨c! "Rn", 3, 3⟩, ⟨c! "Rm", 6, 3⟩]⟩⟩ := by
  intro w a hf
  have e := decode_eq (d := ⟨c! "ldrsh", .load, .ldrStrReg, [.memsize 16, .signed true], false, ⟨0xfe00, 0x5e00, [⟨c! "Rt", 0, 3⟩, ⟨c! "Rn", 3, 3⟩, ⟨c! "Rm", 6, 3⟩]⟩⟩)
    (qs := [⟨c! "Rm", 6, 3⟩, ⟨c! "Rn", 3, 3⟩, ⟨c! "Rt", 0, 3⟩]) rfl w a
  have fm := field_one (pat := Thumb.ldrshReg.pat) (c := 'm') 6 3 (by decide) w
  have fn := field_one (pat := Thumb.ldrshReg.pat) (c := 'n') 3 3 (by decide) w
  have ft := field_one (pat := Thumb.ldrshReg.pat) (c := 't') 0 3 (by decide) w
  change _ ∧ _
  generalize hg : field Case.ldrshReg.enc.pat w = f
  have hg' : field Thumb.ldrshReg.pat w = f := hg
  rw [hg'] at fm fn ft
  row_simp e
  simp only [Case.ldrshReg, Thumb.ldrshReg, fm, fn, ft]
  refine ⟨fun _ h => (nomatch h), fun _ => ?_⟩
  row_ok e

theorem ldrbReg : Case.ldrbReg.Correct
    ⟨c! "ldrb", .load, .ldrStrReg, [.memsize 8], false, ⟨0xfe00, 0x5c00, [⟨c! "Rt", 0, 3⟩, ⟨c! "Rn", 3, 3⟩, ⟨c! "Rm", 6, 3⟩]⟩⟩ := by
  intro w a hf
  have e := decode_eq (d := ⟨c! "ldrb", .load, .ldrStrReg, [.memsize 8], false, ⟨0xfe00, 0x5c00, [⟨c! "Rt", 0, 3⟩, ⟨c! "Rn", 3, 3⟩, ⟨c! "Rm", 6, 3⟩]⟩⟩)
    (qs := [⟨c! "Rm", 6, 3⟩, ⟨c! "Rn", 3, 3⟩, ⟨c! "Rt", 0, 3⟩]) rfl w a
  have fm := field_one (pat := Thumb.ldrbReg.pat) (c := 'm') 6 3 (by decide) w
  have fn := field_one (pat := Thumb.ldrbReg.pat) (c := 'n') 3 3 (by decide) w
  have ft := field_one (pat := Thumb.ldrbReg.pat) (c := 't') 0 3 (by decide) w
  change _ ∧ _
  generalize hg : field Case.ldrbReg.enc.pat w = f
  have hg' : field Thumb.ldrbReg.pat w = f := hg
  rw [hg'] at fm fn ft
  row_simp e
  simp only [Case.ldrbReg, Thumb.ldrbReg, fm, fn, ft]
  refine ⟨fun _ h => (nomatch h), fun _ => ?_⟩
  row_ok e

theorem ldrhReg : Case.ldrhReg.Correct
    ⟨c! "ldrh", .load, .ldrStrReg, [.memsize 16], false, ⟨0xfe00, 0x5a00, [⟨c! "Rt", 0, 3⟩, ⟨c! "Rn", 3, 3⟩, ⟨c! "Rm", 6, 3⟩]⟩⟩ := by
  intro w a hf
  have e := decode_eq (d := ⟨c! "ldrh", .load, .ldrStrReg, [.memsize 16], false, ⟨0xfe00, 0x5a00, [⟨c! "Rt", 0, 3⟩, ⟨c! "Rn", 3, 3⟩, ⟨c! "Rm", 6, 3⟩]⟩⟩)
    (qs := [⟨c! "Rm", 6, 3⟩, ⟨c! "Rn", 3, 3⟩, ⟨c! "Rt", 0, 3⟩]) rfl w a
  have fm := field_one (pat := Thumb.ldrhReg.pat) (c := 'm') 6 3 (by decide) w
  have fn := field_one (pat := Thumb.ldrhReg.pat) (c := 'n') 3 3 (by decide) w
  have ft := field_one (pat := Thumb.ldrhReg.pat) (c := 't') 0 3 (by decide) w
  change _ ∧ _
  generalize hg : field Case.ldrhReg.enc.pat w = f
  have hg' : field Thumb.ldrhReg.pat w = f := hg
  rw [hg'] at fm fn ft
  row_simp e
  simp only [Case.ldrhReg, Thumb.ldrhReg, fm, fn, ft]
  refine ⟨fun _ h => (nomatch h), fun _ => ?_⟩
  row_ok e

theorem ldrReg : Case.ldrReg.Correct
    ⟨c! "ldr", .load, .ldrStrReg, [.memsize 32], false, ⟨0xfe00, 0x5800, [⟨c! "Rt", 0, 3⟩, ⟨c! "Rn", 3, 3⟩, ⟨c! "Rm", 6, 3⟩]⟩⟩ := by
  intro w a hf
  have e := decode_eq (d := ⟨c! "ldr", .load, .ldrStrReg, [.memsize 32], false, ⟨0xfe00, 0x5800, [⟨c! "Rt", 0, 3⟩, ⟨c! "Rn", 3, 3⟩, ⟨c! "Rm", 6, 3⟩]⟩⟩)
    (qs := [⟨c! "Rm", 6, 3⟩, ⟨c! "Rn", 3, 3⟩, ⟨c! "Rt", 0, 3⟩]) rfl w a
  have fm := field_one (pat := Thumb.ldrReg.pat) (c := 'm') 6 3 (by decide) w
  have fn := field_one (pat := Thumb.ldrReg.pat) (c := 'n') 3 3 (by decide) w
  have ft := field_one (pat := Thumb.ldrReg.pat) (c := 't') 0 3 (by decide) w
  change _ ∧ _
  generalize hg : field Case.ldrReg.enc.pat w = f
  have hg' : field Thumb.ldrReg.pat w = f := hg
  rw [hg'] at fm fn ft
  row_simp e
  simp only [Case.ldrReg, Thumb.ldrReg, fm, fn, ft]
  refine ⟨fun _ h => (nomatch h), fun _ => ?_⟩
  row_ok e

theorem ldrsbReg : Case.ldrsbReg.Correct
    ⟨c! "ldrsb", .load, .ldrStrReg, [.memsize 8, .signed true], false, ⟨0xfe00, 0x5600, [⟨c! "Rt", 0, 3⟩, ⟨c! "Rn", 3, 3⟩, ⟨c! "Rm", 6, 3⟩]⟩⟩ := by
  intro w a hf
  have e := decode_eq (d := ⟨c! "ldrsb", .load, .ldrStrReg, [.memsize 8, .signed true], false, ⟨0xfe00, 0x5600, [⟨c! "Rt", 0, 3⟩, ⟨c! "Rn", 3, 3⟩, ⟨c! "Rm", 6, 3⟩]⟩⟩)
    (qs := [⟨c! "Rm", 6, 3⟩, ⟨c! "Rn", 3, 3⟩, ⟨c! "Rt", 0, 3⟩]) rfl w a
  have fm := field_one (pat := Thumb.ldrsbReg.pat) (c := 'm') 6 3 (by decide) w
  have fn := field_one (pat := Thumb.ldrsbReg.pat) (c := 'n') 3 3 (by decide) w
  have ft := field_one (pat := Thumb.ldrsbReg.pat) (c := 't') 0 3 (by decide) w
  change _ ∧ _
  generalize hg : field Case.ldrsbReg.enc.pat w = f
  have hg' : field Thumb.ldrsbReg.pat w = f := hg
  rw [hg'] at fm fn ft
  row_simp e
  simp only [Case.ldrsbReg, Thumb.ldrsbReg, fm, fn, ft]
  refine ⟨fun _ h => (nomatch h), fun _ => ?_⟩
  row_ok e

theorem strbReg : Case.strbReg.Correct
    ⟨c! "strb", .store, .ldrStrReg, [.memsize 8], false, ⟨0xfe00, 0x5400, [⟨c! "Rt", 0, 3⟩, ⟨c! "Rn", 3, 3⟩, ⟨c! "Rm", 6, 3⟩]⟩⟩ := by
  intro w a hf
  have e := decode_eq (d := ⟨c! "strb", .store, .ldrStrReg, [.memsize 8], false, ⟨0xfe00, 0x5400, [⟨c! "Rt", 0, 3⟩, ⟨c! "Rn", 3, 3⟩, ⟨c! "Rm", 6, 3⟩]⟩⟩)
    (qs := [⟨c! "Rm", 6, 3⟩, ⟨c! "Rn", 3, 3⟩, ⟨c! "Rt", 0, 3⟩]) rfl w a
  have fm := field_one (pat := Thumb.strbReg.pat) (c := 'm') 6 3 (by decide) w
  have fn := field_one (pat := Thumb.strbReg.pat) (c := 'n') 3 3 (by decide) w
  have ft := field_one (pat := Thumb.strbReg.pat) (c := 't') 0 3 (by decide) w
  change _ ∧ _
  generalize hg : field Case.strbReg.enc.pat w = f
  have hg' : field Thumb.strbReg.pat w = f := hg
  rw [hg'] at fm fn ft
  row_simp e
  simp only [Case.strbReg, Thumb.strbReg, fm, fn, ft]
  refine ⟨fun _ h => (nomatch h), fun _ => ?_⟩
  row_ok e

theorem strhReg : Case.strhReg.Correct
    ⟨c! "strh", .store, .ldrStrReg, [.memsize 16], false, ⟨0xfe00, 0x5200, [⟨c! "Rt", 0, 3⟩, ⟨c! "Rn", 3, 3⟩, ⟨c! "Rm", 6, 3⟩]⟩⟩ := by
  intro w a hf
  have e := decode_eq (d := ⟨c! "strh", .store, .ldrStrReg, [.memsize 16], false, ⟨0xfe00, 0x5200, [⟨c! "Rt", 0, 3⟩, ⟨c! "Rn", 3, 3⟩, ⟨c! "Rm", 6, 3⟩]⟩⟩)
    (qs := [⟨c! "Rm", 6, 3⟩, ⟨c! "Rn", 3, 3⟩, ⟨c! "Rt", 0, 3⟩]) rfl w a
  have fm := field_one (pat := Thumb.strhReg.pat) (c := 'm') 6 3 (by decide) w
  have fn := field_one (pat := Thumb.strhReg.pat) (c := 'n') 3 3 (by decide) w
  have ft := field_one (pat := Thumb.strhReg.pat) (c := 't') 0 3 (by decide) w
  change _ ∧ _
  generalize hg : field Case.strhReg.enc.pat w = f
  have hg' : field Thumb.strhReg.pat w = f := hg
  rw [hg'] at fm fn ft
  row_simp e
  simp only [Case.strhReg, Thumb.strhReg, fm, fn, ft]
  refine ⟨fun _ h => (nomatch h), fun _ => ?_⟩
  row_ok e

theorem strReg : Case.strReg.Correct
    ⟨c! "str", .store, .ldrStrReg, [.memsize 32], false, ⟨0xfe00, 0x5000, [⟨c! "Rt", 0, 3⟩, ⟨c! "Rn", 3, 3⟩, ⟨c! "Rm", 6, 3⟩]⟩⟩ := by
  intro w a hf
  have e := decode_eq (d := ⟨c! "str", .store, .ldrStrReg, [.memsize 32], false, ⟨0xfe00, 0x5000, [⟨c! "Rt", 0, 3⟩, ⟨c! "Rn", 3, 3⟩, ⟨c! "Rm", 6, 3⟩]⟩⟩)
    (qs := [⟨c! "Rm", 6, 3⟩, ⟨c! "Rn", 3, 3⟩, ⟨c! "Rt", 0, 3⟩]) rfl w a
  have fm := field_one (pat := Thumb.strReg.pat) (c := 'm') 6 3 (by decide) w
  have fn := field_one (pat := Thumb.strReg.pat) (c := 'n') 3 3 (by decide) w
  have ft := field_one (pat := Thumb.strReg.pat) (c := 't') 0 3 (by decide) w
  change _ ∧ _
  generalize hg : field Case.strReg.enc.pat w = f
  have hg' : field Thumb.strReg.pat w = f := hg
  rw [hg'] at fm fn ft
  row_simp e
  simp only [Case.strReg, Thumb.strReg, fm, fn, ft]
  refine ⟨fun _ h => (nomatch h), fun _ => ?_⟩
  row_ok e

theorem strRegW : Case.strRegW.Correct
    ⟨c! "str.w", .store, .ldrStrRegT2, [.memsize 32], true, ⟨0xfc0fff0, 0xf840, [⟨c! "Rn", 0, 4⟩, ⟨c! "Rm", 16, 4⟩, ⟨c! "imm2", 20, 2⟩, ⟨c! "Rt", 28, 4⟩]⟩⟩ := by
  intro w a hf
  have e := decode_eq (d := ⟨c! "str.w", .store, .ldrStrRegT2, [.memsize 32], true, ⟨0xfc0fff0, 0xf840, [⟨c! "Rn", 0, 4⟩, ⟨c! "Rm", 16, 4⟩, ⟨c! "imm2", 20, 2⟩, ⟨c! "Rt", 28, 4⟩]⟩⟩)
    (qs := [⟨c! "Rn", 0, 4⟩, ⟨c! "Rt", 28, 4⟩, ⟨c! "imm2", 20, 2⟩, ⟨c! "Rm", 16, 4⟩]) rfl w a
  have fi := field_one (pat := Thumb.strRegW.pat) (c := 'i') 20 2 (by decide) w
  have fm := field_one (pat := Thumb.strRegW.pat) (c := 'm') 16 4 (by decide) w
  have fn := field_one (pat := Thumb.strRegW.pat) (c := 'n') 0 4 (by decide) w
  have ft := field_one (pat := Thumb.strRegW.pat) (c := 't') 28 4 (by decide) w
  change _ ∧ _
  generalize hg : field Case.strRegW.enc.pat w = f
  have hg' : field Thumb.strRegW.pat w = f := hg
  rw [hg'] at fi fm fn ft
  row_simp e
  simp only [Case.strRegW, Thumb.strRegW, fi, fm, fn, ft]
  refine raises_if e ?_ fun hc e => ?_
  · first | rfl | done | (rw [Bool.eq_iff_iff]; simp [spOrPc, plainReg, regs_zero_m, regs_zero_p, regs_zero_low]; try grind)
  · row_ok e

theorem strhRegW : Case.strhRegW.Correct
    ⟨c! "strh.w", .store, .ldrStrRegT2, [.memsize 16], true, ⟨0xfc0fff0, 0xf820, [⟨c! "Rn", 0, 4⟩, ⟨c! "Rm", 16, 4⟩, ⟨c! "imm2", 20, 2⟩, ⟨c! "Rt", 28, 4⟩]⟩⟩ := by
  intro w a hf
  have e := decode_eq (d := ⟨c! "strh.w", .store, .ldrStrRegT2, [.memsize 16], true, ⟨0xfc0fff0, 0xf820, [⟨c! "Rn", 0, 4⟩, ⟨c! "Rm", 16, 4⟩, ⟨c! "imm2", 20, 2⟩, ⟨c! "Rt", 28, 4⟩]⟩⟩)
    (qs := [⟨c! "Rn", 0, 4⟩, ⟨c! "Rt", 28, 4⟩, ⟨c! "imm2", 20, 2⟩, ⟨c! "Rm", 16, 4⟩]) rfl w a
  have fi := field_one (pat := Thumb.strhRegW.pat) (c := 'i') 20 2 (by decide) w
  have fm := field_one (pat := Thumb.strhRegW.pat) (c := 'm') 16 4 (by decide) w
  have fn := field_one (pat := Thumb.strhRegW.pat) (c := 'n') 0 4 (by decide) w
  have ft := field_one (pat := Thumb.strhRegW.pat) (c := 't') 28 4 (by decide) w
  change _ ∧ _
  generalize hg : field Case.strhRegW.enc.pat w = f
  have hg' : field Thumb.strhRegW.pat w = f := hg
  rw [hg'] at fi fm fn ft
  row_simp e
  simp only [Case.strhRegW, Thumb.strhRegW, fi, fm, fn, ft]
  refine raises_if e ?_ fun hc e => ?_
  · first | rfl | done | (rw [Bool.eq_iff_iff]; simp [spOrPc, plainReg, regs_zero_m, regs_zero_p, regs_zero_low]; try grind)
  · row_ok e

theorem strbRegW : Case.strbRegW.Correct
    ⟨c! "strb.w", .store, .ldrStrRegT2, [.memsize 8], true, ⟨0xfc0fff0, 0xf800, [⟨c! "Rn", 0, 4⟩, ⟨c! "Rm", 16, 4⟩, ⟨c! "imm2", 20, 2⟩, ⟨c! "Rt", 28, 4⟩]⟩⟩ := by
  intro w a hf
  have e := decode_eq (d := ⟨c! "strb.w", .store, .ldrStrRegT2, [.memsize 8], true, ⟨0xfc0fff0, 0xf800, [⟨c! "Rn", 0, 4⟩, ⟨c! "Rm", 16, 4⟩, ⟨c! "imm2", 20, 2⟩, ⟨c! "Rt", 28, 4⟩]⟩⟩)
    (qs := [⟨c! "Rn", 0, 4⟩, ⟨c! "Rt", 28, 4⟩, ⟨c! "imm2", 20, 2⟩, ⟨c! "Rm", 16, 4⟩]) rfl w a
  have fi := field_one (pat := Thumb.strbRegW.pat) (c := 'i') 20 2 (by decide) w
  have fm := field_one (pat := Thumb.strbRegW.pat) (c := 'm') 16 4 (by decide) w
  have fn := field_one (pat := Thumb.strbRegW.pat) (c := 'n') 0 4 (by decide) w
  have ft := field_one (pat := Thumb.strbRegW.pat) (c := 't') 28 4 (by decide) w
  change _ ∧ _
  generalize hg : field Case.strbRegW.enc.pat w = f
  have hg' : field Thumb.strbRegW.pat w = f := hg
  rw [hg'] at fi fm fn ft
  row_simp e
  simp only [Case.strbRegW, Thumb.strbRegW, fi, fm, fn, ft]
  refine raises_if e ?_ fun hc e => ?_
  · first | rfl | done | (rw [Bool.eq_iff_iff]; simp [spOrPc, plainReg, regs_zero_m, regs_zero_p, regs_zero_low]; try grind)
  · row_ok e

theorem ldrshRegW : Case.ldrshRegW.Correct
    ⟨c! "ldrsh.w", .load, .ldrStrRegT2, [.memsize 16, .signed true], true, ⟨0xfc0fff0, 0xf930, [⟨c! "Rn", 0, 4⟩, ⟨c! "Rm", 16, 4⟩, ⟨c! "imm2", 20, 2⟩, ⟨c! "Rt", 28, 4⟩]⟩⟩ := by
  intro w a hf
  have e := decode_eq (d := ⟨c! "ldrsh.w", .load, .ldrStrRegT2, [.memsize 16, .signed true], true, ⟨0xfc0fff0, 0xf930, [⟨c! "Rn", 0, 4⟩, ⟨c! "Rm", 16, 4⟩, ⟨c! "imm2", 20, 2⟩, ⟨c! "Rt", 28, 4⟩]⟩⟩)
    (qs := [⟨c! "Rn", 0, 4⟩, ⟨c! "Rt", 28, 4⟩, ⟨c! "imm2", 20, 2⟩, ⟨c! "Rm", 16, 4⟩]) rfl w a
  have fi := field_one (pat := Thumb.ldrshRegW.pat) (c := 'i') 20 2 (by decide) w
  have fm := field_one (pat := Thumb.ldrshRegW.pat) (c := 'm') 16 4 (by decide) w
  have fn := field_one (pat := Thumb.ldrshRegW.pat) (c := 'n') 0 4 (by decide) w
  have ft := field_one (pat := Thumb.ldrshRegW.pat) (c := 't') 28 4 (by decide) w
  change _ ∧ _
  generalize hg : field Case.ldrshRegW.enc.pat w = f
  have hg' : field Thumb.ldrshRegW.pat w = f := hg
  rw [hg'] at fi fm fn ft
  row_simp e
  simp only [Case.ldrshRegW, Thumb.ldrshRegW, fi, fm, fn, ft]
  refine raises_if e ?_ fun hc e => ?_
  · first | rfl | done | (rw [Bool.eq_iff_iff]; simp [spOrPc, plainReg, regs_zero_m, regs_zero_p, regs_zero_low]; try grind)
  · row_ok e

theorem ldrsbRegW : Case.ldrsbRegW.Correct
    ⟨c! "ldrsb.w", .load, .ldrStrRegT2, [.memsize 8, .signed true], true, ⟨0xfc0fff0, 0xf910, [⟨c! "Rn", 0, 4⟩, ⟨c! "Rm", 16, 4⟩, ⟨c! "imm2", 20, 2⟩, ⟨c! "Rt", 28, 4⟩]⟩⟩ := by
  intro w a hf
  have e := decode_eq (d := ⟨c! "ldrsb.w", .load, .ldrStrRegT2, [.memsize 8, .signed true], true, ⟨0xfc0fff0, 0xf910, [⟨c! "Rn", 0, 4⟩, ⟨c! "Rm", 16, 4⟩, ⟨c! "imm2", 20, 2⟩, ⟨c! "Rt", 28, 4⟩]⟩⟩)
    (qs := [⟨c! "Rn", 0, 4⟩, ⟨c! "Rt", 28, 4⟩, ⟨c! "imm2", 20, 2⟩, ⟨c! "Rm", 16, 4⟩]) rfl w a
  have fi := field_one (pat := Thumb.ldrsbRegW.pat) (c := 'i') 20 2 (by decide) w
  have fm := field_one (pat := Thumb.ldrsbRegW.pat) (c := 'm') 16 4 (by decide) w
  have fn := field_one (pat := Thumb.ldrsbRegW.pat) (c := 'n') 0 4 (by decide) w
  have ft := field_one (pat := Thumb.ldrsbRegW.pat) (c := 't') 28 4 (by decide) w
  change _ ∧ _
  generalize hg : field Case.ldrsbRegW.enc.pat w = f
  have hg' : field Thumb.ldrsbRegW.pat w = f := hg
  rw [hg'] at fi fm fn ft
  row_simp e
  simp only [Case.ldrsbRegW, Thumb.ldrsbRegW, fi, fm, fn, ft]
  refine raises_if e ?_ fun hc e => ?_
  · first | rfl | done | (rw [Bool.eq_iff_iff]; simp [spOrPc, plainReg, regs_zero_m, regs_zero_p, regs_zero_low]; try grind)
  · row_ok e

theorem ldrRegW : Case.ldrRegW.Correct
    ⟨c! "ldr.w", .load, .ldrStrRegT2, [.memsize 32], true, ⟨0xfc0fff0, 0xf850, [⟨c! "Rn", 0, 4⟩, ⟨c! "Rm", 16, 4⟩, ⟨c! "imm2", 20, 2⟩, ⟨c! "Rt", 28, 4⟩]⟩⟩ := by
  intro w a hf
  have e := decode_eq (d := ⟨c! "ldr.w", .load, .ldrStrRegT2, [.memsize 32], true, ⟨0xfc0fff0, 0xf850, [⟨c! "Rn", 0, 4⟩, ⟨c! "Rm", 16, 4⟩, ⟨c! "imm2", 20, 2⟩, ⟨c! "Rt", 28, 4⟩]⟩⟩)
    (qs := [⟨c! "Rn", 0, 4⟩, ⟨c! "Rt", 28, 4⟩, ⟨c! "imm2", 20, 2⟩, ⟨c! "Rm", 16, 4⟩]) rfl w a
  have fi := field_one (pat := Thumb.ldrRegW.pat) (c := 'i') 20 2 (by decide) w
  have fm := field_one (pat := Thumb.ldrRegW.pat) (c := 'm') 16 4 (by decide) w
  have fn := field_one (pat := Thumb.ldrRegW.pat) (c := 'n') 0 4 (by decide) w
  have ft := field_one (pat := Thumb.ldrRegW.pat) (c := 't') 28 4 (by decide) w
  change _ ∧ _
  generalize hg : field Case.ldrRegW.enc.pat w = f
  have hg' : field Thumb.ldrRegW.pat w = f := hg
  rw [hg'] at fi fm fn ft
  row_simp e
  simp only [Case.ldrRegW, Thumb.ldrRegW, fi, fm, fn, ft]
  refine raises_if e ?_ fun hc e => ?_
  · first | rfl | done | (rw [Bool.eq_iff_iff]; simp [spOrPc, plainReg, regs_zero_m, regs_zero_p, regs_zero_low]; try grind)
  · row_ok e

theorem ldrhRegW : Case.ldrhRegW.Correct
    ⟨c! "ldrh.w", .load, .ldrStrRegT2, [.memsize 16], true, ⟨0xfc0fff0, 0xf830, [⟨c! "Rn", 0, 4⟩, ⟨c! "Rm", 16, 4⟩, ⟨c! "imm2", 20, 2⟩, ⟨c! "Rt", 28, 4⟩]⟩⟩ := by
  intro w a hf
  have e := decode_eq (d := ⟨c! "ldrh.w", .load, .ldrStrRegT2, [.memsize 16], true, ⟨0xfc0fff0, 0xf830, [⟨c! "Rn", 0, 4⟩, ⟨c! "Rm", 16, 4⟩, ⟨c! "imm2", 20, 2⟩, ⟨c! "Rt", 28, 4⟩]⟩⟩)
    (qs := [⟨c! "Rn", 0, 4⟩, ⟨c! "Rt", 28, 4⟩, ⟨c! "imm2", 20, 2⟩, ⟨c! "Rm", 16, 4⟩]) rfl w a
  have fi := field_one (pat := Thumb.ldrhRegW.pat) (c := 'i') 20 2 (by decide) w
  have fm := field_one (pat := Thumb.ldrhRegW.pat) (c := 'm') 16 4 (by decide) w
  have fn := field_one (pat := Thumb.ldrhRegW.pat) (c := 'n') 0 4 (by decide) w
  have ft := field_one (pat := Thumb.ldrhRegW.pat) (c := 't') 28 4 (by decide) w
  change _ ∧ _
  generalize hg : field Case.ldrhRegW.enc.pat w = f
  have hg' : field Thumb.ldrhRegW.pat w = f := hg
  rw [hg'] at fi fm fn ft
  row_simp e
  simp only [Case.ldrhRegW, Thumb.ldrhRegW, fi, fm, fn, ft]
  refine raises_if e ?_ fun hc e => ?_
  · first | rfl | done | (rw [Bool.eq_iff_iff]; simp [spOrPc, plainReg, regs_zero_m, regs_zero_p, regs_zero_low]; try grind)
  · row_ok e

theorem ldrbRegW : Case.ldrbRegW.Correct
    ⟨c! "ldrb.w", .load, .ldrStrRegT2, [.memsize 8], true, ⟨0xfc0fff0, 0xf810, [⟨c! "Rn", 0, 4⟩, ⟨c! "Rm", 16, 4⟩, ⟨c! "imm2", 20, 2⟩, ⟨c! "Rt", 28, 4⟩]⟩⟩ := by
  intro w a hf
  have e := decode_eq (d := ⟨c! "ldrb.w", .load, .ldrStrRegT2, [.memsize 8], true, ⟨0xfc0fff0, 0xf810, [⟨c! "Rn", 0, 4⟩, ⟨c! "Rm", 16, 4⟩, ⟨c! "imm2", 20, 2⟩, ⟨c! "Rt", 28, 4⟩]⟩⟩)
    (qs := [⟨c! "Rn", 0, 4⟩, ⟨c! "Rt", 28, 4⟩, ⟨c! "imm2", 20, 2⟩, ⟨c! "Rm", 16, 4⟩]) rfl w a
  have fi := field_one (pat := Thumb.ldrbRegW.pat) (c := 'i') 20 2 (by decide) w
  have fm := field_one (pat := Thumb.ldrbRegW.pat) (c := 'm') 16 4 (by decide) w
  have fn := field_one (pat := Thumb.ldrbRegW.pat) (c := 'n') 0 4 (by decide) w
  have ft := field_one (pat := Thumb.ldrbRegW.pat) (c := 't') 28 4 (by decide) w
  change _ ∧ _
  generalize hg : field Case.ldrbRegW.enc.pat w = f
  have hg' : field Thumb.ldrbRegW.pat w = f := hg
  rw [hg'] at fi fm fn ft
  row_simp e
  simp only [Case.ldrbRegW, Thumb.ldrbRegW, fi, fm, fn, ft]
  refine raises_if e ?_ fun hc e => ?_
  · first | rfl | done | (rw [Bool.eq_iff_iff]; simp [spOrPc, plainReg, regs_zero_m, regs_zero_p, regs_zero_low]; try grind)
  · row_ok e

theorem ldrhImm : Case.ldrhImm.Correct
    ⟨c! "ldrh", .load, .ldrStrImm, [.memsize 16], false, ⟨0xf800, 0x8800, [⟨c! "Rt", 0, 3⟩, ⟨c! "Rn", 3, 3⟩, ⟨c! "imm5", 6, 5⟩]⟩⟩ := by
  intro w a hf
  have e := decode_eq (d := ⟨c! "ldrh", .load, .ldrStrImm, [.memsize 16], false, ⟨0xf800, 0x8800, [⟨c! "Rt", 0, 3⟩, ⟨c! "Rn", 3, 3⟩, ⟨c! "imm5", 6, 5⟩]⟩⟩)
    (qs := [⟨c! "imm5", 6, 5⟩, ⟨c! "Rn", 3, 3⟩, ⟨c! "Rt", 0, 3⟩]) rfl w a
  have fi := field_one (pat := Thumb.ldrhImm.pat) (c := 'i') 6 5 (by decide) w
  have fn := field_one (pat := Thumb.ldrhImm.pat) (c := 'n') 3 3 (by decide) w
  have ft := field_one (pat := Thumb.ldrhImm.pat) (c := 't') 0 3 (by decide) w
  change _ ∧ _
  generalize hg : field Case.ldrhImm.enc.pat w = f
  have hg' : field Thumb.ldrhImm.pat w = f := hg
  rw [hg'] at fi fn ft
  row_simp e
  simp only [Case.ldrhImm, Thumb.ldrhImm, fi, fn, ft]
  refine ⟨fun _ h => (nomatch h), fun _ => ?_⟩
  row_ok e

theorem strhImm : Case.strhImm.Correct
    ⟨c! "strh", .store, .ldrStrImm, [.memsize 16], false, ⟨0xf800, 0x8000, [⟨c! "Rt", 0, 3⟩, ⟨c! "Rn", 3, 3⟩, ⟨c! "imm5", 6, 5⟩]⟩⟩ := by
  intro w a hf
  have e := decode_eq (d := ⟨c! "strh", .store, .ldrStrImm, [.memsize 16], false, ⟨0xf800, 0x8000, [⟨c! "Rt", 0, 3⟩, ⟨c! "Rn", 3, 3⟩, ⟨c! "imm5", 6, 5⟩]⟩⟩)
    (qs := [⟨c! "imm5", 6, 5⟩, ⟨c! "Rn", 3, 3⟩, ⟨c! "Rt", 0, 3⟩]) rfl w a
  have fi := field_one (pat := Thumb.strhImm.pat) (c := 'i') 6 5 (by decide) w
  have fn := field_one (pat := Thumb.strhImm.pat) (c := 'n') 3 3 (by decide) w
  have ft := field_one (pat := Thumb.strhImm.pat) (c := 't') 0 3 (by decide) w
  change _ ∧ _
  generalize hg : field Case.strhImm.enc.pat w = f
  have hg' : field Thumb.strhImm.pat w = f := hg
  rw [hg'] at fi fn ft
  row_simp e
  simp only [Case.strhImm, Thumb.strhImm, fi, fn, ft]
  refine ⟨fun _ h => (nomatch h), fun _ => ?_⟩
  row_ok e

theorem ldrbImm : Case.ldrbImm.Correct
    ⟨c! "ldrb", .load, .ldrStrImm, [.memsize 8], false, ⟨0xf800, 0x7800, [⟨c! "Rt", 0, 3⟩, ⟨c! "Rn", 3, 3⟩, ⟨c! "imm5", 6, 5⟩]⟩⟩ := by
  intro w a hf
  have e := decode_eq (d := ⟨c! "ldrb", .load, .ldrStrImm, [.memsize 8], false, ⟨0xf800, 0x7800, [⟨c! "Rt", 0, 3⟩, ⟨c! "Rn", 3, 3⟩, ⟨c! "imm5", 6, 5⟩]⟩⟩)
    (qs := [⟨c! "imm5", 6, 5⟩, ⟨c! "Rn", 3, 3⟩, ⟨c! "Rt", 0, 3⟩]) rfl w a
  have fi := field_one (pat := Thumb.ldrbImm.pat) (c := 'i') 6 5 (by decide) w
  have fn := field_one (pat := Thumb.ldrbImm.pat) (c := 'n') 3 3 (by decide) w
  have ft := field_one (pat := Thumb.ldrbImm.pat) (c := 't') 0 3 (by decide) w
  change _ ∧ _
  generalize hg : field Case.ldrbImm.enc.pat w = f
  have hg' : field Thumb.ldrbImm.pat w = f := hg
  rw [hg'] at fi fn ft
  row_simp e
  simp only [Case.ldrbImm, Thumb.ldrbImm, fi, fn, ft]
  refine ⟨fun _ h => (nomatch h), fun _ => ?_⟩
  row_ok e

theorem strbImm : Case.strbImm.Correct
    ⟨c! "strb", .store, .ldrStrImm, [.memsize 8], false, ⟨0xf800, 0x7000, [⟨c! "Rt", 0, 3⟩, ⟨c! "Rn", 3, 3⟩, ⟨c! "imm5", 6, 5⟩]⟩⟩ := by
  intro w a hf
  have e := decode_eq (d := ⟨c! "strb", .store, .ldrStrImm, [.memsize 8], false, ⟨0xf800, 0x7000, [⟨c! "Rt", 0, 3⟩, ⟨c! "Rn", 3, 3⟩, ⟨c! "imm5", 6, 5⟩]⟩⟩)
    (qs := [⟨c! "imm5", 6, 5⟩, ⟨c! "Rn", 3, 3⟩, ⟨c! "Rt", 0, 3⟩]) rfl w a
  have fi := field_one (pat := Thumb.strbImm.pat) (c := 'i') 6 5 (by decide) w
  have fn := field_one (pat := Thumb.strbImm.pat) (c := 'n') 3 3 (by decide) w
  have ft := field_one (pat := Thumb.strbImm.pat) (c := 't') 0 3 (by decide) w
  change _ ∧ _
  generalize hg : field Case.strbImm.enc.pat w = f
  have hg' : field Thumb.strbImm.pat w = f := hg
  rw [hg'] at fi fn ft
  row_simp e
  simp only [Case.strbImm, Thumb.strbImm, fi, fn, ft]
  refine ⟨fun _ h => (nomatch h), fun _ => ?_⟩
  row_ok e

theorem ldrImm : Case.ldrImm.Correct
    ⟨c! "ldr", .load, .ldrStrImm, [.memsize 32], false, ⟨0xf800, 0x6800, [⟨c! "Rt", 0, 3⟩, ⟨c! "Rn", 3, 3⟩, ⟨c! "imm5", 6, 5⟩]⟩⟩ := by
  intro w a hf
  have e := decode_eq (d := ⟨c! "ldr", .load, .ldrStrImm, [.memsize 32], false, ⟨0xf800, 0x6800, [⟨c! "Rt", 0, 3⟩, ⟨c! "Rn", 3, 3⟩, ⟨c! "imm5", 6, 5⟩]⟩⟩)
    (qs := [⟨c! "imm5", 6, 5⟩, ⟨c! "Rn", 3, 3⟩, ⟨c! "Rt", 0, 3⟩]) rfl w a
  have fi := field_one (pat := Thumb.ldrImm.pat) (c := 'i') 6 5 (by decide) w
  have fn := field_one (pat := Thumb.ldrImm.pat) (c := 'n') 3 3 (by decide) w
  have ft := field_one (pat := Thumb.ldrImm.pat) (c := 't') 0 3 (by decide) w
  change _ ∧ _
  generalize hg : field Case.ldrImm.enc.pat w = f
  have hg' : field Thumb.ldrImm.pat w = f := hg
  rw [hg'] at fi fn ft
  row_simp e
  simp only [Case.ldrImm, Thumb.ldrImm, fi, fn, ft]
  refine ⟨fun _ h => (nomatch h), fun _ => ?_⟩
  row_ok e

theorem strImm : Case.strImm.Correct
    ⟨c! "str", .store, .ldrStrImm, [.memsize 32], false, ⟨0xf800, 0x6000, [⟨c! "Rt", 0, 3⟩, ⟨c! "Rn", 3, 3⟩, ⟨c! "imm5", 6, 5⟩]⟩⟩ := by
  intro w a hf
  have e := decode_eq (d := ⟨c! "str", .store, .ldrStrImm, [.memsize 32], false, ⟨0xf800, 0x6000, [⟨c! "Rt", 0, 3⟩, ⟨c! "Rn", 3, 3⟩, ⟨c! "imm5", 6, 5⟩]⟩⟩)
    (qs := [⟨c! "imm5", 6, 5⟩, ⟨c! "Rn", 3, 3⟩, ⟨c! "Rt", 0, 3⟩]) rfl w a
  have fi := field_one (pat := Thumb.strImm.pat) (c := 'i') 6 5 (by decide) w
  have fn := field_one (pat := Thumb.strImm.pat) (c := 'n') 3 3 (by decide) w
  have ft := field_one (pat := Thumb.strImm.pat) (c := 't') 0 3 (by decide) w
  change _ ∧ _
  generalize hg : field Case.strImm.enc.pat w = f
  have hg' : field Thumb.strImm.pat w = f := hg
  rw [hg'] at fi fn ft
  row_simp e
  simp only [Case.strImm, Thumb.strImm, fi, fn, ft]
  refine ⟨fun _ h => (nomatch h), fun _ => ?_⟩
  row_ok e

theorem ldrLit : Case.ldrLit.Correct
    ⟨c! "ldr", .loadLiteral, .ldrLiteral, [.memsize 32], false, ⟨0xf800, 0x4800, [⟨c! "imm8", 0, 8⟩, ⟨c! "Rt", 8, 3⟩]⟩⟩ := by
  intro w a hf
  have e := decode_eq (d := ⟨c! "ldr", .loadLiteral, .ldrLiteral, [.memsize 32], false, ⟨0xf800, 0x4800, [⟨c! "imm8", 0, 8⟩, ⟨c! "Rt", 8, 3⟩]⟩⟩)
    (qs := [⟨c! "Rt", 8, 3⟩, ⟨c! "imm8", 0, 8⟩]) rfl w a
  have fi := field_one (pat := Thumb.ldrLit.pat) (c := 'i') 0 8 (by decide) w
  have ft := field_one (pat := Thumb.ldrLit.pat) (c := 't') 8 3 (by decide) w
  change _ ∧ _
  generalize hg : field Case.ldrLit.enc.pat w = f
  have hg' : field Thumb.ldrLit.pat w = f := hg
  rw [hg'] at fi ft
  row_simp e
  simp only [Case.ldrLit, Thumb.ldrLit, fi, ft]
  refine ⟨fun _ h => (nomatch h), fun _ => ?_⟩
  row_ok e

theorem ldrsbLitW : Case.ldrsbLitW.Correct
    ⟨c! "ldrsb.w", .loadLiteral, .ldrLiteralW, [.memsize 8, .signed true], true, ⟨0xff7f, 0xf91f, [⟨c! "U", 7, 1⟩, ⟨c! "imm12", 16, 12⟩, ⟨c! "Rt", 28, 4⟩]⟩⟩ := by
  intro w a hf
  have e := decode_eq (d := ⟨c! "ldrsb.w", .loadLiteral, .ldrLiteralW, [.memsize 8, .signed true], true, ⟨0xff7f, 0xf91f, [⟨c! "U", 7, 1⟩, ⟨c! "imm12", 16, 12⟩, ⟨c! "Rt", 28, 4⟩]⟩⟩)
    (qs := [⟨c! "U", 7, 1⟩, ⟨c! "Rt", 28, 4⟩, ⟨c! "imm12", 16, 12⟩]) rfl w a
  have fi := field_one (pat := Thumb.ldrsbLitW.pat) (c := 'i') 16 12 (by decide) w
  have ft := field_one (pat := Thumb.ldrsbLitW.pat) (c := 't') 28 4 (by decide) w
  have fu := field_one (pat := Thumb.ldrsbLitW.pat) (c := 'u') 7 1 (by decide) w
  change _ ∧ _
  generalize hg : field Case.ldrsbLitW.enc.pat w = f
  have hg' : field Thumb.ldrsbLitW.pat w = f := hg
  rw [hg'] at fi ft fu
  row_simp e
  simp only [Case.ldrsbLitW, Thumb.ldrsbLitW, fi, ft, fu]
  refine raises_if e ?_ fun hc e => ?_
  · first | rfl | done | (rw [Bool.eq_iff_iff]; simp [spOrPc, plainReg, regs_zero_m, regs_zero_p, regs_zero_low]; try grind)
  · row_ok e

theorem ldrshLitW : Case.ldrshLitW.Correct
    ⟨c! "ldrsh.w", .loadLiteral, .ldrLiteralW, [.memsize 16, .signed true], true, ⟨0xff7f, 0xf93f, [⟨c! "U", 7, 1⟩, ⟨c! "imm12", 16, 12⟩, ⟨c! "Rt", 28, 4⟩]⟩⟩ := by
  intro w a hf
  have e := decode_eq (d := ⟨c! "ldrsh.w", .loadLiteral, .ldrLiteralW, [.memsize 16, .signed true], true, ⟨0xff7f, 0xf93f, [⟨c! "U", 7, 1⟩, ⟨c! "imm12", 16, 12⟩, ⟨c! "Rt", 28, 4⟩]⟩⟩)
    (qs := [⟨c! "U", 7, 1⟩, ⟨c! "Rt", 28, 4⟩, ⟨c! "imm12", 16, 12⟩]) rfl w a
  have fi := field_one (pat := Thumb.ldrshLitW.pat) (c := 'i') 16 12 (by decide) w
  have ft := field_one (pat := Thumb.ldrshLitW.pat) (c := 't') 28 4 (by decide) w
  have fu := field_one (pat := Thumb.ldrshLitW.pat) (c := 'u') 7 1 (by decide) w
  change _ ∧ _
  generalize hg : field Case.ldrshLitW.enc.pat w = f
  have hg' : field Thumb.ldrshLitW.pat w = f := hg
  rw [hg'] at fi ft fu
  row_simp e
  simp only [Case.ldrshLitW, Thumb.ldrshLitW, fi, ft, fu]
  refine raises_if e ?_ fun hc e => ?_
  · first | rfl | done | (rw [Bool.eq_iff_iff]; simp [spOrPc, plainReg, regs_zero_m, regs_zero_p, regs_zero_low]; try grind)
  · row_ok e

theorem ldrbLitW : Case.ldrbLitW.Correct
    ⟨c! "ldrb.w", .loadLiteral, .ldrLiteralW, [.memsize 8], true, ⟨0xff7f, 0xf81f, [⟨c! "U", 7, 1⟩, ⟨c! "imm12", 16, 12⟩, ⟨c! "Rt", 28, 4⟩]⟩⟩ := by
  intro w a hf
  have e := decode_eq (d := ⟨c! "ldrb.w", .loadLiteral, .ldrLiteralW, [.memsize 8], true, ⟨0xff7f, 0xf81f, [⟨c! "U", 7, 1⟩, ⟨c! "imm12", 16, 12⟩, ⟨c! "Rt", 28, 4⟩]⟩⟩)
    (qs := [⟨c! "U", 7, 1⟩, ⟨c! "Rt", 28, 4⟩, ⟨c! "imm12", 16, 12⟩]) rfl w a
  have fi := field_one (pat := Thumb.ldrbLitW.pat) (c := 'i') 16 12 (by decide) w
  have ft := field_one (pat := Thumb.ldrbLitW.pat) (c := 't') 28 4 (by decide) w
  have fu := field_one (pat := Thumb.ldrbLitW.pat) (c := 'u') 7 1 (by decide) w
  change _ ∧ _
  generalize hg : field Case.ldrbLitW.enc.pat w = f
  have hg' : field Thumb.ldrbLitW.pat w = f := hg
  rw [hg'] at fi ft fu
  row_simp e
  simp only [Case.ldrbLitW, Thumb.ldrbLitW, fi, ft, fu]
  refine raises_if e ?_ fun hc e => ?_
  · first | rfl | done | (rw [Bool.eq_iff_iff]; simp [spOrPc, plainReg, regs_zero_m, regs_zero_p, regs_zero_low]; try grind)
  · row_ok e

theorem ldrhLitW : Case.ldrhLitW.Correct
    ⟨c! "ldrh.w", .loadLiteral, .ldrLiteralW, [.memsize 16], true, ⟨0xff7f, 0xf83f, [⟨c! "U", 7, 1⟩, ⟨c! "imm12", 16, 12⟩, ⟨c! "Rt", 28, 4⟩]⟩⟩ := by
  intro w a hf
  have e := decode_eq (d := ⟨c! "ldrh.w", .loadLiteral, .ldrLiteralW, [.memsize 16], true, ⟨0xff7f, 0xf83f, [⟨c! "U", 7, 1⟩, ⟨c! "imm12", 16, 12⟩, ⟨c! "Rt", 28, 4⟩]⟩⟩)
    (qs := [⟨c! "U", 7, 1⟩, ⟨c! "Rt", 28, 4⟩, ⟨c! "imm12", 16, 12⟩]) rfl w a
  have fi := field_one (pat := Thumb.ldrhLitW.pat) (c := 'i') 16 12 (by decide) w
  have ft := field_one (pat := Thumb.ldrhLitW.pat) (c := 't') 28 4 (by decide) w
  have fu := field_one (pat := Thumb.ldrhLitW.pat) (c := 'u') 7 1 (by decide) w
  change _ ∧ _
  generalize hg : field Case.ldrhLitW.enc.pat w = f
  have hg' : field Thumb.ldrhLitW.pat w = f := hg
  rw [hg'] at fi ft fu
  row_simp e
  simp only [Case.ldrhLitW, Thumb.ldrhLitW, fi, ft, fu]
  refine raises_if e ?_ fun hc e => ?_
  · first | rfl | done | (rw [Bool.eq_iff_iff]; simp [spOrPc, plainReg, regs_zero_m, regs_zero_p, regs_zero_low]; try grind)
  · row_ok e

theorem ldrLitW : Case.ldrLitW.Correct
    ⟨c! "ldr.w", .loadLiteral, .ldrLiteralW, [.memsize 32], true, ⟨0xff7f, 0xf85f, [⟨c! "U", 7, 1⟩, ⟨c! "imm12", 16, 12⟩, ⟨c! "Rt", 28, 4⟩]⟩⟩ := by
  intro w a hf
  have e := decode_eq (d := ⟨c! "ldr.w", .loadLiteral, .ldrLiteralW, [.memsize 32], true, ⟨0xff7f, 0xf85f, [⟨c! "U", 7, 1⟩, ⟨c! "imm12", 16, 12⟩, ⟨c! "Rt", 28, 4⟩]⟩⟩)
    (qs := [⟨c! "U", 7, 1⟩, ⟨c! "Rt", 28, 4⟩, ⟨c! "imm12", 16, 12⟩]) rfl w a
  have fi := field_one (pat := Thumb.ldrLitW.pat) (c := 'i') 16 12 (by decide) w
  have ft := field_one (pat := Thumb.ldrLitW.pat) (c := 't') 28 4 (by decide) w
  have fu := field_one (pat := Thumb.ldrLitW.pat) (c := 'u') 7 1 (by decide) w
  change _ ∧ _
  generalize hg : field Case.ldrLitW.enc.pat w = f
  have hg' : field Thumb.ldrLitW.pat w = f := hg
  rw [hg'] at fi ft fu
  row_simp e
  simp only [Case.ldrLitW, Thumb.ldrLitW, fi, ft, fu]
  refine raises_if e ?_ fun hc e => ?_
  · first | rfl | done | (rw [Bool.eq_iff_iff]; simp [spOrPc, plainReg, regs_zero_m, regs_zero_p, regs_zero_low]; try grind)
  · row_ok e

theorem ldrSp : Case.ldrSp.Correct
    ⟨c! "ldr", .load, .ldrStrImmT2, [.memsize 32], false, ⟨0xf800, 0x9800, [⟨c! "imm8", 0, 8⟩, ⟨c! "Rt", 8, 3⟩]⟩⟩ := by
  intro w a hf
  have e := decode_eq (d := ⟨c! "ldr", .load, .ldrStrImmT2, [.memsize 32], false, ⟨0xf800, 0x9800, [⟨c! "imm8", 0, 8⟩, ⟨c! "Rt", 8, 3⟩]⟩⟩)
    (qs := [⟨c! "Rt", 8, 3⟩, ⟨c! "imm8", 0, 8⟩]) rfl w a
  have fi := field_one (pat := Thumb.ldrSp.pat) (c := 'i') 0 8 (by decide) w
  have ft := field_one (pat := Thumb.ldrSp.pat) (c := 't') 8 3 (by decide) w
  change _ ∧ _
  generalize hg : field Case.ldrSp.enc.pat w = f
  have hg' : field Thumb.ldrSp.pat w = f := hg
  rw [hg'] at fi ft
  row_simp e
  simp only [Case.ldrSp, Thumb.ldrSp, fi, ft]
  refine ⟨fun _ h => (nomatch h), fun _ => ?_⟩
  row_ok e

theorem strSp : Case.strSp.Correct
    ⟨c! "str", .store, .ldrStrImmT2, [.memsize 32], false, ⟨0xf800, 0x9000, [⟨c! "imm8", 0, 8⟩, ⟨c! "Rt", 8, 3⟩]⟩⟩ := by
  intro w a hf
  have e := decode_eq (d := ⟨c! "str", .store, .ldrStrImmT2, [.memsize 32], false, ⟨0xf800, 0x9000, [⟨c! "imm8", 0, 8⟩, ⟨c! "Rt", 8, 3⟩]⟩⟩)
    (qs := [⟨c! "Rt", 8, 3⟩, ⟨c! "imm8", 0, 8⟩]) rfl w a
  have fi := field_one (pat := Thumb.strSp.pat) (c := 'i') 0 8 (by decide) w
  have ft := field_one (pat := Thumb.strSp.pat) (c := 't') 8 3 (by decide) w
  change _ ∧ _
  generalize hg : field Case.strSp.enc.pat w = f
  have hg' : field Thumb.strSp.pat w = f := hg
  rw [hg'] at fi ft
  row_simp e
  simp only [Case.strSp, Thumb.strSp, fi, ft]
  refine ⟨fun _ h => (nomatch h), fun _ => ?_⟩
  row_ok e

theorem push : Case.push.Correct
    ⟨c! "push", .push, .pushT1, [], false, ⟨0xfe00, 0xb400, [⟨c! "reglist", 0, 8⟩, ⟨c! "M", 8, 1⟩]⟩⟩ := by
  intro w a hf
  have e := decode_eq (d := ⟨c! "push", .push, .pushT1, [], false, ⟨0xfe00, 0xb400, [⟨c! "reglist", 0, 8⟩, ⟨c! "M", 8, 1⟩]⟩⟩)
    (qs := [⟨c! "M", 8, 1⟩, ⟨c! "reglist", 0, 8⟩]) rfl w a
  have fm := field_one (pat := Thumb.push.pat) (c := 'm') 8 1 (by decide) w
  have fr := field_one (pat := Thumb.push.pat) (c := 'r') 0 8 (by decide) w
  change _ ∧ _
  generalize hg : field Case.push.enc.pat w = f
  have hg' : field Thumb.push.pat w = f := hg
  rw [hg'] at fm fr
  row_simp e
  simp only [Case.push, Thumb.push, fm, fr]
  refine raises_unless e ?_ fun hc e => ?_
  · first | rfl | done | (rw [Bool.eq_iff_iff]; simp [spOrPc, plainReg, regs_zero_m, regs_zero_p, regs_zero_low]; try grind)
  · row_ok e

theorem pushW : Case.pushW.Correct
    ⟨c! "push.w", .push, .pushT2, [], true, ⟨0xa000ffff, 0xe92d, [⟨c! "reglist", 16, 13⟩, ⟨c! "M", 30, 1⟩]⟩⟩ := by
  intro w a hf
  have e := decode_eq (d := ⟨c! "push.w", .push, .pushT2, [], true, ⟨0xa000ffff, 0xe92d, [⟨c! "reglist", 16, 13⟩, ⟨c! "M", 30, 1⟩]⟩⟩)
    (qs := [⟨c! "M", 30, 1⟩, ⟨c! "reglist", 16, 13⟩]) rfl w a
  have fm := field_one (pat := Thumb.pushW.pat) (c := 'm') 30 1 (by decide) w
  have fr := field_one (pat := Thumb.pushW.pat) (c := 'r') 16 13 (by decide) w
  change _ ∧ _
  generalize hg : field Case.pushW.enc.pat w = f
  have hg' : field Thumb.pushW.pat w = f := hg
  rw [hg'] at fm fr
  row_simp e
  simp only [Case.pushW, Thumb.pushW, fm, fr]
  exact ⟨fun _ h => by cases h; exact e, fun h => nomatch h⟩

theorem pushOne : Case.pushOne.Correct
    ⟨c! "push.w", .push, .pushT3, [], true, ⟨0xfffffff, 0xd04f84d, [⟨c! "Rt", 28, 4⟩]⟩⟩ := by
  intro w a hf
  have e := decode_eq (d := ⟨c! "push.w", .push, .pushT3, [], true, ⟨0xfffffff, 0xd04f84d, [⟨c! "Rt", 28, 4⟩]⟩⟩)
    (qs := [⟨c! "Rt", 28, 4⟩]) rfl w a
  have ft := field_one (pat := Thumb.pushOne.pat) (c := 't') 28 4 (by decide) w
  change _ ∧ _
  generalize hg : field Case.pushOne.enc.pat w = f
  have hg' : field Thumb.pushOne.pat w = f := hg
  rw [hg'] at ft
  row_simp e
  simp only [Case.pushOne, Thumb.pushOne, ft]
  refine raises_unless e ?_ fun hc e => ?_
  · first | rfl | done | (rw [Bool.eq_iff_iff]; simp [spOrPc, plainReg, regs_zero_m, regs_zero_p, regs_zero_low]; try grind)
  · row_ok e

theorem pop : Case.pop.Correct
    ⟨c! "pop", .pop, .popT1, [], false, ⟨0xfe00, 0xbc00, [⟨c! "reglist", 0, 8⟩, ⟨c! "P", 8, 1⟩]⟩⟩ := by
  intro w a hf
  have e := decode_eq (d := ⟨c! "pop", .pop, .popT1, [], false, ⟨0xfe00, 0xbc00, [⟨c! "reglist", 0, 8⟩, ⟨c! "P", 8, 1⟩]⟩⟩)
    (qs := [⟨c! "P", 8, 1⟩, ⟨c! "reglist", 0, 8⟩]) rfl w a
  have fp := field_one (pat := Thumb.pop.pat) (c := 'p') 8 1 (by decide) w
  have fr := field_one (pat := Thumb.pop.pat) (c := 'r') 0 8 (by decide) w
  change _ ∧ _
  generalize hg : field Case.pop.enc.pat w = f
  have hg' : field Thumb.pop.pat w = f := hg
  rw [hg'] at fp fr
  row_simp e
  simp only [Case.pop, Thumb.pop, fp, fr]
  refine raises_unless e ?_ fun hc e => ?_
  · first | rfl | done | (rw [Bool.eq_iff_iff]; simp [spOrPc, plainReg, regs_zero_m, regs_zero_p, regs_zero_low]; try grind)
  · row_ok e

theorem popW : Case.popW.Correct
    ⟨c! "pop.w", .pop, .popT2, [], true, ⟨0x2000ffff, 0xe8bd, [⟨c! "reglist", 16, 13⟩, ⟨c! "M", 30, 1⟩, ⟨c! "P", 31, 1⟩]⟩⟩ := by
  intro w a hf
  have e := decode_eq (d := ⟨c! "pop.w", .pop, .popT2, [], true, ⟨0x2000ffff, 0xe8bd, [⟨c! "reglist", 16, 13⟩, ⟨c! "M", 30, 1⟩, ⟨c! "P", 31, 1⟩]⟩⟩)
    (qs := [⟨c! "P", 31, 1⟩, ⟨c! "M", 30, 1⟩, ⟨c! "reglist", 16, 13⟩]) rfl w a
  have fm := field_one (pat := Thumb.popW.pat) (c := 'm') 30 1 (by decide) w
  have fp := field_one (pat := Thumb.popW.pat) (c := 'p') 31 1 (by decide) w
  have fr := field_one (pat := Thumb.popW.pat) (c := 'r') 16 13 (by decide) w
  change _ ∧ _
  generalize hg : field Case.popW.enc.pat w = f
  have hg' : field Thumb.popW.pat w = f := hg
  rw [hg'] at fm fp fr
  row_simp e
  simp only [Case.popW, Thumb.popW, fm, fp, fr]
  refine raises_unless e ?_ fun hc e => ?_
  · first | rfl | done | (rw [Bool.eq_iff_iff]; simp [spOrPc, plainReg, regs_zero_m, regs_zero_p, regs_zero_low]; try grind)
  · row_ok e

theorem popOne : Case.popOne.Correct
    ⟨c! "pop.w", .pop, .popT3, [], true, ⟨0xfffffff, 0xb04f85d, [⟨c! "Rt", 28, 4⟩]⟩⟩ := by
  intro w a hf
  have e := decode_eq (d := ⟨c! "pop.w", .pop, .popT3, [], true, ⟨0xfffffff, 0xb04f85d, [⟨c! "Rt", 28, 4⟩]⟩⟩)
    (qs := [⟨c! "Rt", 28, 4⟩]) rfl w a
  have ft := field_one (pat := Thumb.popOne.pat) (c := 't') 28 4 (by decide) w
  change _ ∧ _
  generalize hg : field Case.popOne.enc.pat w = f
  have hg' : field Thumb.popOne.pat w = f := hg
  rw [hg'] at ft
  row_simp e
  simp only [Case.popOne, Thumb.popOne, ft]
  refine ⟨fun _ h => (nomatch h), fun _ => ?_⟩
  row_ok e

theorem ldm : Case.ldm.Correct
    ⟨c! "ldm", .loadMultiple, .stmLdmT1, [], false, ⟨0xf800, 0xc800, [⟨c! "reglist", 0, 8⟩, ⟨c! "Rn", 8, 3⟩]⟩⟩ := by
  intro w a hf
  have e := decode_eq (d := ⟨c! "ldm", .loadMultiple, .stmLdmT1, [], false, ⟨0xf800, 0xc800, [⟨c! "reglist", 0, 8⟩, ⟨c! "Rn", 8, 3⟩]⟩⟩)
    (qs := [⟨c! "Rn", 8, 3⟩, ⟨c! "reglist", 0, 8⟩]) rfl w a
  have fn := field_one (pat := Thumb.ldm.pat) (c := 'n') 8 3 (by decide) w
  have fr := field_one (pat := Thumb.ldm.pat) (c := 'r') 0 8 (by decide) w
  change _ ∧ _
  generalize hg : field Case.ldm.enc.pat w = f
  have hg' : field Thumb.ldm.pat w = f := hg
  rw [hg'] at fn fr
  row_simp e
  simp only [Case.ldm, Thumb.ldm, fn, fr]
  refine raises_unless e ?_ fun hc e => ?_
  · first | rfl | done | (rw [Bool.eq_iff_iff]; simp [spOrPc, plainReg, regs_zero_m, regs_zero_p, regs_zero_low]; try grind)
  · row_ok e

theorem stm : Case.stm.Correct
    ⟨c! "stm", .storeMultiple, .stmLdmT1, [], false, ⟨0xf800, 0xc000, [⟨c! "reglist", 0, 8⟩, ⟨c! "Rn", 8, 3⟩]⟩⟩ := by
  intro w a hf
  have e := decode_eq (d := ⟨c! "stm", .storeMultiple, .stmLdmT1, [], false, ⟨0xf800, 0xc000, [⟨c! "reglist", 0, 8⟩, ⟨c! "Rn", 8, 3⟩]⟩⟩)
    (qs := [⟨c! "Rn", 8, 3⟩, ⟨c! "reglist", 0, 8⟩]) rfl w a
  have fn := field_one (pat := Thumb.stm.pat) (c := 'n') 8 3 (by decide) w
  have fr := field_one (pat := Thumb.stm.pat) (c := 'r') 0 8 (by decide) w
  change _ ∧ _
  generalize hg : field Case.stm.enc.pat w = f
  have hg' : field Thumb.stm.pat w = f := hg
  rw [hg'] at fn fr
  row_simp e
  simp only [Case.stm, Thumb.stm, fn, fr]
  refine raises_unless e ?_ fun hc e => ?_
  · first | rfl | done | (rw [Bool.eq_iff_iff]; simp [spOrPc, plainReg, regs_zero_m, regs_zero_p, regs_zero_low]; try grind)
  · row_ok e

theorem stmW : Case.stmW.Correct
    ⟨c! "stm.w", .storeMultiple, .stmT2, [], true, ⟨0xa000ffd0, 0xe880, [⟨c! "Rn", 0, 4⟩, ⟨c! "W", 5, 1⟩, ⟨c! "reglist", 16, 13⟩, ⟨c! "M", 30, 1⟩]⟩⟩ := by
  intro w a hf
  have e := decode_eq (d := ⟨c! "stm.w", .storeMultiple, .stmT2, [], true, ⟨0xa000ffd0, 0xe880, [⟨c! "Rn", 0, 4⟩, ⟨c! "W", 5, 1⟩, ⟨c! "reglist", 16, 13⟩, ⟨c! "M", 30, 1⟩]⟩⟩)
    (qs := [⟨c! "W", 5, 1⟩, ⟨c! "Rn", 0, 4⟩, ⟨c! "M", 30, 1⟩, ⟨c! "reglist", 16, 13⟩]) rfl w a
  have fm := field_one (pat := Thumb.stmW.pat) (c := 'm') 30 1 (by decide) w
  have fn := field_one (pat := Thumb.stmW.pat) (c := 'n') 0 4 (by decide) w
  have fr := field_one (pat := Thumb.stmW.pat) (c := 'r') 16 13 (by decide) w
  have fw := field_one (pat := Thumb.stmW.pat) (c := 'w') 5 1 (by decide) w
  change _ ∧ _
  generalize hg : field Case.stmW.enc.pat w = f
  have hg' : field Thumb.stmW.pat w = f := hg
  rw [hg'] at fm fn fr fw
  row_simp e
  simp only [Case.stmW, Thumb.stmW, fm, fn, fr, fw]
  refine raises_unless e ?_ fun hc e => ?_
  · first | rfl | done | (rw [Bool.eq_iff_iff]; simp [spOrPc, plainReg, regs_zero_m, regs_zero_p, regs_zero_low]; try grind)
  · row_ok e

theorem ldmW : Case.ldmW.Correct
    ⟨c! "ldm.w", .loadMultiple, .ldmT2, [], true, ⟨0x2000ffd0, 0xe890, [⟨c! "Rn", 0, 4⟩, ⟨c! "W", 5, 1⟩, ⟨c! "reglist", 16, 13⟩, ⟨c! "M", 30, 1⟩, ⟨c! "P", 31, 1⟩]⟩⟩ := by
  intro w a hf
  have e := decode_eq (d := ⟨c! "ldm.w", .loadMultiple, .ldmT2, [], true, ⟨0x2000ffd0, 0xe890, [⟨c! "Rn", 0, 4⟩, ⟨c! "W", 5, 1⟩, ⟨c! "reglist", 16, 13⟩, ⟨c! "M", 30, 1⟩, ⟨c! "P", 31, 1⟩]⟩⟩)
    (qs := [⟨c! "W", 5, 1⟩, ⟨c! "Rn", 0, 4⟩, ⟨c! "P", 31, 1⟩, ⟨c! "M", 30, 1⟩, ⟨c! "reglist", 16, 13⟩]) rfl w a
  have fm := field_one (pat := Thumb.ldmW.pat) (c := 'm') 30 1 (by decide) w
  have fn := field_one (pat := Thumb.ldmW.pat) (c := 'n') 0 4 (by decide) w
  have fp := field_one (pat := Thumb.ldmW.pat) (c := 'p') 31 1 (by decide) w
  have fr := field_one (pat := Thumb.ldmW.pat) (c := 'r') 16 13 (by decide) w
  have fw := field_one (pat := Thumb.ldmW.pat) (c := 'w') 5 1 (by decide) w
  change _ ∧ _
  generalize hg : field Case.ldmW.enc.pat w = f
  have hg' : field Thumb.ldmW.pat w = f := hg
  rw [hg'] at fm fn fp fr fw
  row_simp e
  simp only [Case.ldmW, Thumb.ldmW, fm, fn, fp, fr, fw]
  refine raises_if_unless e ?_ ?_ fun hc e => ?_
  · simp
  · intro hc; rw [Bool.eq_iff_iff]; simp [hc]; grind
  · row_ok e

theorem cps : Case.cps.Correct
    ⟨c! "cps", .changeProcessorState, .cps, [], false, ⟨0xffec, 0xb660, [⟨c! "F", 0, 1⟩, ⟨c! "I", 1, 1⟩, ⟨c! "im", 4, 1⟩]⟩⟩ := by
  intro w a hf
  have e := decode_eq (d := ⟨c! "cps", .changeProcessorState, .cps, [], false, ⟨0xffec, 0xb660, [⟨c! "F", 0, 1⟩, ⟨c! "I", 1, 1⟩, ⟨c! "im", 4, 1⟩]⟩⟩)
    (qs := [⟨c! "im", 4, 1⟩, ⟨c! "I", 1, 1⟩, ⟨c! "F", 0, 1⟩]) rfl w a
  have fe := field_one (pat := Thumb.cps.pat) (c := 'e') 4 1 (by decide) w
  have ff := field_one (pat := Thumb.cps.pat) (c := 'f') 0 1 (by decide) w
  have fp := field_one (pat := Thumb.cps.pat) (c := 'p') 1 1 (by decide) w
  change _ ∧ _
  generalize hg : field Case.cps.enc.pat w = f
  have hg' : field Thumb.cps.pat w = f := hg
  rw [hg'] at fe ff fp
  row_simp e
  simp only [Case.cps, Thumb.cps, fe, ff, fp]
  refine raises_unless e ?_ fun hc e => ?_
  · first | rfl | done | (rw [Bool.eq_iff_iff]; simp [spOrPc, plainReg, regs_zero_m, regs_zero_p, regs_zero_low]; try grind)
  · row_ok e

theorem bkpt : Case.bkpt.Correct
    ⟨c! "bkpt", .instruction, .bkpt, [], false, ⟨0xff00, 0xbe00, [⟨c! "imm8", 0, 8⟩]⟩⟩ := by
  intro w a hf
  have e := decode_eq (d := ⟨c! "bkpt", .instruction, .bkpt, [], false, ⟨0xff00, 0xbe00, [⟨c! "imm8", 0, 8⟩]⟩⟩)
    (qs := [⟨c! "imm8", 0, 8⟩]) rfl w a
  have fi := field_one (pat := Thumb.bkpt.pat) (c := 'i') 0 8 (by decide) w
  change _ ∧ _
  generalize hg : field Case.bkpt.enc.pat w = f
  have hg' : field Thumb.bkpt.pat w = f := hg
  rw [hg'] at fi
  row_simp e
  simp only [Case.bkpt, Thumb.bkpt, fi]
  refine ⟨fun _ h => (nomatch h), fun _ => ?_⟩
  row_ok e

theorem mrs : Case.mrs.Correct
    ⟨c! "mrs", .moveFromSpecial, .mrs, [], true, ⟨0xf000ffff, 0x8000f3ef, [⟨c! "SYSm", 16, 8⟩, ⟨c! "Rd", 24, 4⟩]⟩⟩ := by
  intro w a hf
  have e := decode_eq (d := ⟨c! "mrs", .moveFromSpecial, .mrs, [], true, ⟨0xf000ffff, 0x8000f3ef, [⟨c! "SYSm", 16, 8⟩, ⟨c! "Rd", 24, 4⟩]⟩⟩)
    (qs := [⟨c! "Rd", 24, 4⟩, ⟨c! "SYSm", 16, 8⟩]) rfl w a
  have fd := field_one (pat := Thumb.mrs.pat) (c := 'd') 24 4 (by decide) w
  have fs := field_one (pat := Thumb.mrs.pat) (c := 's') 16 8 (by decide) w
  change _ ∧ _
  generalize hg : field Case.mrs.enc.pat w = f
  have hg' : field Thumb.mrs.pat w = f := hg
  rw [hg'] at fd fs
  row_simp e
  simp only [Case.mrs, Thumb.mrs, fd, fs]
  refine raises_unless e ?_ fun hc e => ?_
  · first | rfl | done | (rw [Bool.eq_iff_iff]; simp [spOrPc, plainReg, regs_zero_m, regs_zero_p, regs_zero_low]; try grind)
  · row_ok e

theorem msr : Case.msr.Correct
    ⟨c! "msr", .moveToSpecial, .msr, [], true, ⟨0xf300fff0, 0x8000f380, [⟨c! "Rn", 0, 4⟩, ⟨c! "SYSm", 16, 8⟩, ⟨c! "mask", 26, 2⟩]⟩⟩ := by
  intro w a hf
  have e := decode_eq (d := ⟨c! "msr", .moveToSpecial, .msr, [], true, ⟨0xf300fff0, 0x8000f380, [⟨c! "Rn", 0, 4⟩, ⟨c! "SYSm", 16, 8⟩, ⟨c! "mask", 26, 2⟩]⟩⟩)
    (qs := [⟨c! "Rn", 0, 4⟩, ⟨c! "mask", 26, 2⟩, ⟨c! "SYSm", 16, 8⟩]) rfl w a
  have fk := field_one (pat := Thumb.msr.pat) (c := 'k') 26 2 (by decide) w
  have fn := field_one (pat := Thumb.msr.pat) (c := 'n') 0 4 (by decide) w
  have fs := field_one (pat := Thumb.msr.pat) (c := 's') 16 8 (by decide) w
  change _ ∧ _
  generalize hg : field Case.msr.enc.pat w = f
  have hg' : field Thumb.msr.pat w = f := hg
  rw [hg'] at fk fn fs
  row_simp e
  simp only [Case.msr, Thumb.msr, fk, fn, fs]
  refine raises_unless e ?_ fun hc e => ?_
  · first | rfl | done | (rw [Bool.eq_iff_iff]; simp [spOrPc, plainReg, regs_zero_m, regs_zero_p, regs_zero_low]; try grind)
  · row_ok e

theorem sev : Case.sev.Correct
    ⟨c! "sev", .instruction, .nop, [], false, ⟨0xffff, 0xbf40, []⟩⟩ := by
  intro w a hf
  have e := decode_eq (d := ⟨c! "sev", .instruction, .nop, [], false, ⟨0xffff, 0xbf40, []⟩⟩)
    (qs := []) rfl w a
  row_simp e
  simp only [Case.sev, Thumb.sev]
  refine ⟨fun _ h => (nomatch h), fun _ => ?_⟩
  row_ok e

theorem wfi : Case.wfi.Correct
    ⟨c! "wfi", .instruction, .nop, [], false, ⟨0xffff, 0xbf30, []⟩⟩ := by
  intro w a hf
  have e := decode_eq (d := ⟨c! "wfi", .instruction, .nop, [], false, ⟨0xffff, 0xbf30, []⟩⟩)
    (qs := []) rfl w a
  row_simp e
  simp only [Case.wfi, Thumb.wfi]
  refine ⟨fun _ h => (nomatch h), fun _ => ?_⟩
  row_ok e

theorem wfe : Case.wfe.Correct
    ⟨c! "wfe", .instruction, .nop, [], false, ⟨0xffff, 0xbf20, []⟩⟩ := by
  intro w a hf
  have e := decode_eq (d := ⟨c! "wfe", .instruction, .nop, [], false, ⟨0xffff, 0xbf20, []⟩⟩)
    (qs := []) rfl w a
  row_simp e
  simp only [Case.wfe, Thumb.wfe]
  refine ⟨fun _ h => (nomatch h), fun _ => ?_⟩
  row_ok e

theorem yield : Case.yield.Correct
    ⟨c! "yield", .instruction, .nop, [], false, ⟨0xffff, 0xbf10, []⟩⟩ := by
  intro w a hf
  have e := decode_eq (d := ⟨c! "yield", .instruction, .nop, [], false, ⟨0xffff, 0xbf10, []⟩⟩)
    (qs := []) rfl w a
  row_simp e
  simp only [Case.yield, Thumb.yield]
  refine ⟨fun _ h => (nomatch h), fun _ => ?_⟩
  row_ok e

theorem nop : Case.nop.Correct
    ⟨c! "nop", .instruction, .nop, [], false, ⟨0xffff, 0xbf00, []⟩⟩ := by
  intro w a hf
  have e := decode_eq (d := ⟨c! "nop", .instruction, .nop, [], false, ⟨0xffff, 0xbf00, []⟩⟩)
    (qs := []) rfl w a
  row_simp e
  simp only [Case.nop, Thumb.nop]
  refine ⟨fun _ h => (nomatch h), fun _ => ?_⟩
  row_ok e

theorem isb : Case.isb.Correct
    ⟨c! "isb", .instruction, .barrier, [], true, ⟨0xfff0ffff, 0x8f60f3bf, [⟨c! "option", 16, 4⟩]⟩⟩ := by
  intro w a hf
  have e := decode_eq (d := ⟨c! "isb", .instruction, .barrier, [], true, ⟨0xfff0ffff, 0x8f60f3bf, [⟨c! "option", 16, 4⟩]⟩⟩)
    (qs := [⟨c! "option", 16, 4⟩]) rfl w a
  have fo := field_one (pat := Thumb.isb.pat) (c := 'o') 16 4 (by decide) w
  change _ ∧ _
  generalize hg : field Case.isb.enc.pat w = f
  have hg' : field Thumb.isb.pat w = f := hg
  rw [hg'] at fo
  row_simp e
  simp only [Case.isb, Thumb.isb, fo]
  refine ⟨fun _ h => (nomatch h), fun _ => ?_⟩
  row_ok e

theorem dmb : Case.dmb.Correct
    ⟨c! "dmb", .instruction, .barrier, [], true, ⟨0xfff0ffff, 0x8f50f3bf, [⟨c! "option", 16, 4⟩]⟩⟩ := by
  intro w a hf
  have e := decode_eq (d := ⟨c! "dmb", .instruction, .barrier, [], true, ⟨0xfff0ffff, 0x8f50f3bf, [⟨c! "option", 16, 4⟩]⟩⟩)
    (qs := [⟨c! "option", 16, 4⟩]) rfl w a
  have fo := field_one (pat := Thumb.dmb.pat) (c := 'o') 16 4 (by decide) w
  change _ ∧ _
  generalize hg : field Case.dmb.enc.pat w = f
  have hg' : field Thumb.dmb.pat w = f := hg
  rw [hg'] at fo
  row_simp e
  simp only [Case.dmb, Thumb.dmb, fo]
  refine ⟨fun _ h => (nomatch h), fun _ => ?_⟩
  row_ok e

theorem dsb : Case.dsb.Correct
    ⟨c! "dsb", .instruction, .barrier, [], true, ⟨0xfff0ffff, 0x8f40f3bf, [⟨c! "option", 16, 4⟩]⟩⟩ := by
  intro w a hf
  have e := decode_eq (d := ⟨c! "dsb", .instruction, .barrier, [], true, ⟨0xfff0ffff, 0x8f40f3bf, [⟨c! "option", 16, 4⟩]⟩⟩)
    (qs := [⟨c! "option", 16, 4⟩]) rfl w a
  have fo := field_one (pat := Thumb.dsb.pat) (c := 'o') 16 4 (by decide) w
  change _ ∧ _
  generalize hg : field Case.dsb.enc.pat w = f
  have hg' : field Thumb.dsb.pat w = f := hg
  rw [hg'] at fo
  row_simp e
  simp only [Case.dsb, Thumb.dsb, fo]
  refine ⟨fun _ h => (nomatch h), fun _ => ?_⟩
  row_ok e

theorem svc : Case.svc.Correct
    ⟨c! "svc", .instruction, .udfT1, [], false, ⟨0xff00, 0xdf00, [⟨c! "imm8", 0, 8⟩]⟩⟩ := by
  intro w a hf
  have e := decode_eq (d := ⟨c! "svc", .instruction, .udfT1, [], false, ⟨0xff00, 0xdf00, [⟨c! "imm8", 0, 8⟩]⟩⟩)
    (qs := [⟨c! "imm8", 0, 8⟩]) rfl w a
  have fi := field_one (pat := Thumb.svc.pat) (c := 'i') 0 8 (by decide) w
  change _ ∧ _
  generalize hg : field Case.svc.enc.pat w = f
  have hg' : field Thumb.svc.pat w = f := hg
  rw [hg'] at fi
  row_simp e
  simp only [Case.svc, Thumb.svc, fi]
  refine ⟨fun _ h => (nomatch h), fun _ => ?_⟩
  row_ok e

theorem udf : Case.udf.Correct
    ⟨c! "udf", .instruction, .udfT1, [], false, ⟨0xff00, 0xde00, [⟨c! "imm8", 0, 8⟩]⟩⟩ := by
  intro w a hf
  have e := decode_eq (d := ⟨c! "udf", .instruction, .udfT1, [], false, ⟨0xff00, 0xde00, [⟨c! "imm8", 0, 8⟩]⟩⟩)
    (qs := [⟨c! "imm8", 0, 8⟩]) rfl w a
  have fi := field_one (pat := Thumb.udf.pat) (c := 'i') 0 8 (by decide) w
  change _ ∧ _
  generalize hg : field Case.udf.enc.pat w = f
  have hg' : field Thumb.udf.pat w = f := hg
  rw [hg'] at fi
  row_simp e
  simp only [Case.udf, Thumb.udf, fi]
  refine ⟨fun _ h => (nomatch h), fun _ => ?_⟩
  row_ok e

theorem udfW : Case.udfW.Correct
    ⟨c! "udf.w", .instruction, .udfT2, [], true, ⟨0xf000fff0, 0xa000f7f0, [⟨c! "imm4", 0, 4⟩, ⟨c! "imm12", 16, 12⟩]⟩⟩ := by
  intro w a hf
  have e := decode_eq (d := ⟨c! "udf.w", .instruction, .udfT2, [], true, ⟨0xf000fff0, 0xa000f7f0, [⟨c! "imm4", 0, 4⟩, ⟨c! "imm12", 16, 12⟩]⟩⟩)
    (qs := [⟨c! "imm4", 0, 4⟩, ⟨c! "imm12", 16, 12⟩]) rfl w a
  have fi := field_one (pat := Thumb.udfW.pat) (c := 'i') 0 4 (by decide) w
  have fk := field_one (pat := Thumb.udfW.pat) (c := 'k') 16 12 (by decide) w
  change _ ∧ _
  generalize hg : field Case.udfW.enc.pat w = f
  have hg' : field Thumb.udfW.pat w = f := hg
  rw [hg'] at fi fk
  row_simp e
  simp only [Case.udfW, Thumb.udfW, fi, fk]
  refine ⟨fun _ h => (nomatch h), fun _ => ?_⟩
  row_ok e

end Rows
end Verif
