import Verif.Lemmas.Search

/-!
# Where the program and the architecture agree

Generated: one theorem for each encoding.
-/

namespace Verif
open BS Thumb Handler

/-- The encodings, and the field values of them, that the program does not decode as the
architecture says: PUSH.W always, CMP and CMN (register) unless the wrong register it compares
with happens to be the right one, and branches backwards. -/
def Wrong (e : Enc) (f : Char → Nat) : Prop :=
  e.pat = Thumb.pushW.pat ∨
  (e.pat = Thumb.cmpRegT1.pat ∧ f 'm' ≠ f 'n') ∨
  (e.pat = Thumb.cmnReg.pat ∧ f 'm' ≠ f 'n') ∨
  (e.pat = Thumb.cmpRegT2.pat ∧ f 'm' ≠ f 'n' % 8) ∨
  (e.pat = Thumb.bCond.pat ∧ 128 ≤ f 'i') ∨
  (e.pat = Thumb.b.pat ∧ 1024 ≤ f 'i') ∨
  (e.pat = Thumb.bl.pat ∧ f 's' = 1)

theorem not_wrong {e : Enc} (h : e.pat ∉ [Thumb.pushW.pat, Thumb.cmpRegT1.pat, Thumb.cmnReg.pat, Thumb.cmpRegT2.pat, Thumb.bCond.pat,
    Thumb.b.pat, Thumb.bl.pat]) (f : Char → Nat) : ¬ Wrong e f := by
  simp only [List.mem_cons, List.not_mem_nil, or_false, not_or] at h
  unfold Wrong
  rintro (h1 | ⟨h1, _⟩ | ⟨h1, _⟩ | ⟨h1, _⟩ | ⟨h1, _⟩ | ⟨h1, _⟩ | ⟨h1, _⟩)
  · exact h.1 h1
  · exact h.2.1 h1
  · exact h.2.2.1 h1
  · exact h.2.2.2.1 h1
  · exact h.2.2.2.2.1 h1
  · exact h.2.2.2.2.2.1 h1
  · exact h.2.2.2.2.2.2 h1

/-- The case is what the architecture says, unless it is one of the wrong ones; and then it
is something else. -/
def Case.Agrees (c : Case) : Prop := ∀ w, fits c.enc.pat w = true → c.enc.ok (field c.enc.pat w) = true →
  (¬ Wrong c.enc (field c.enc.pat w) → c.act (field c.enc.pat w) = c.enc.act (field c.enc.pat w) ∧
    c.raises (field c.enc.pat w) = none) ∧
  (Wrong c.enc (field c.enc.pat w) → c.raises (field c.enc.pat w) ≠ none ∨
    ∀ i, (c.act (field c.enc.pat w)).Of i → ¬ (c.enc.act (field c.enc.pat w)).Of i)

theorem agrees_of {c : Case} (hw : c.enc.pat ∉ [Thumb.pushW.pat, Thumb.cmpRegT1.pat, Thumb.cmnReg.pat, Thumb.cmpRegT2.pat, Thumb.bCond.pat,
    Thumb.b.pat, Thumb.bl.pat]) (ha : c.act = c.enc.act) (hr : ∀ f, c.enc.ok f = true → c.raises f = none) : c.Agrees := by
  intro w hf ho
  exact ⟨fun _ => ⟨by rw [ha], hr _ ho⟩, fun h => absurd h (not_wrong hw _)⟩

theorem spoil_ne {x : BitVec 32} (h : x.msb = true) : C17.spoil x ≠ x := by
  rw [C17.spoil, if_pos h]
  intro he
  have := congrArg BitVec.msb he
  simp [h] at this

theorem spoil_eq {x : BitVec 32} (h : x.msb = false) : C17.spoil x = x := by rw [C17.spoil, if_neg (by simp [h])]

theorem signed_msb {n v : Nat} (hn : 0 < n) (h32 : n < 32) (hv : v < 2 ^ n) : (Thumb.signed n v).msb = decide (2 ^ (n - 1) ≤ v) := by
  rw [Thumb.signed, BitVec.msb_signExtend, BitVec.msb_eq_decide]
  simp only [ge_iff_le, h32, decide_true, BitVec.toNat_ofNat, Nat.mod_eq_of_lt hv]
  simp
  intro h; omega

theorem branch_agrees {i : Instr} {c : Nat} {x : BitVec 32} (h : x.msb = true) (h1 : (Act.branch c (C17.spoil x)).Of i)
    (h2 : (Act.branch c x).Of i) : False := by
  simp only [Act.Of] at h1 h2
  have := h1.2.2.2.2.2.symm.trans h2.2.2.2.2.2
  injection this with this
  exact spoil_ne h (ofBV_inj.mp this)

theorem bl_agrees {i : Instr} {x : BitVec 32} (h : x.msb = true) (h1 : (Act.bl (C17.spoil x)).Of i)
    (h2 : (Act.bl x).Of i) : False := by
  simp only [Act.Of] at h1 h2
  have := h1.2.2.2.2.2.symm.trans h2.2.2.2.2.2
  injection this with this
  exact spoil_ne h (ofBV_inj.mp this)

theorem blOffset_msb {s j k i : Nat} (hs : s < 2) (hi : i < 2 ^ 21) : (blOffset s j k i).msb = decide (s = 1) := by
  rw [blOffset, signed_msb (by omega) (by omega)]
  · congr 1
    have h1 : (if j = s then 1 else 0) ≤ 1 := by split <;> omega
    have h2 : (if k = s then 1 else 0) ≤ 1 := by split <;> omega
    generalize (if j = s then 1 else 0) = a at *
    generalize (if k = s then 1 else 0) = b at *
    apply propext
    constructor <;> intro h <;> omega
  · have h1 : (if j = s then 1 else 0) ≤ 1 := by split <;> omega
    have h2 : (if k = s then 1 else 0) ≤ 1 := by split <;> omega
    generalize (if j = s then 1 else 0) = a at *
    generalize (if k = s then 1 else 0) = b at *
    omega

namespace Agree

theorem bics : Case.bics.Agrees :=
  agrees_of (by decide) rfl (by intro f; simp [Case.bics, Thumb.bics] <;> grind)

theorem orrs : Case.orrs.Agrees :=
  agrees_of (by decide) rfl (by intro f; simp [Case.orrs, Thumb.orrs] <;> grind)

theorem rorsReg : Case.rorsReg.Agrees :=
  agrees_of (by decide) rfl (by intro f; simp [Case.rorsReg, Thumb.rorsReg] <;> grind)

theorem sbcs : Case.sbcs.Agrees :=
  agrees_of (by decide) rfl (by intro f; simp [Case.sbcs, Thumb.sbcs] <;> grind)

theorem adcs : Case.adcs.Agrees :=
  agrees_of (by decide) rfl (by intro f; simp [Case.adcs, Thumb.adcs] <;> grind)

theorem asrsReg : Case.asrsReg.Agrees :=
  agrees_of (by decide) rfl (by intro f; simp [Case.asrsReg, Thumb.asrsReg] <;> grind)

theorem lsrsReg : Case.lsrsReg.Agrees :=
  agrees_of (by decide) rfl (by intro f; simp [Case.lsrsReg, Thumb.lsrsReg] <;> grind)

theorem lslsReg : Case.lslsReg.Agrees :=
  agrees_of (by decide) rfl (by intro f; simp [Case.lslsReg, Thumb.lslsReg] <;> grind)

theorem eors : Case.eors.Agrees :=
  agrees_of (by decide) rfl (by intro f; simp [Case.eors, Thumb.eors] <;> grind)

theorem ands : Case.ands.Agrees :=
  agrees_of (by decide) rfl (by intro f; simp [Case.ands, Thumb.ands] <;> grind)

theorem subsImmT1 : Case.subsImmT1.Agrees :=
  agrees_of (by decide) rfl (by intro f; simp [Case.subsImmT1, Thumb.subsImmT1] <;> grind)

theorem addsImmT1 : Case.addsImmT1.Agrees :=
  agrees_of (by decide) rfl (by intro f; simp [Case.addsImmT1, Thumb.addsImmT1] <;> grind)

theorem subsImmT2 : Case.subsImmT2.Agrees :=
  agrees_of (by decide) rfl (by intro f; simp [Case.subsImmT2, Thumb.subsImmT2] <;> grind)

theorem addsImmT2 : Case.addsImmT2.Agrees :=
  agrees_of (by decide) rfl (by intro f; simp [Case.addsImmT2, Thumb.addsImmT2] <;> grind)

theorem subsReg : Case.subsReg.Agrees :=
  agrees_of (by decide) rfl (by intro f; simp [Case.subsReg, Thumb.subsReg] <;> grind)

theorem addsReg : Case.addsReg.Agrees :=
  agrees_of (by decide) rfl (by intro f; simp [Case.addsReg, Thumb.addsReg] <;> grind)

theorem addRegT2 : Case.addRegT2.Agrees :=
  agrees_of (by decide) rfl (by intro f; simp [Case.addRegT2, Thumb.addRegT2] <;> grind)

theorem addSpImmT1 : Case.addSpImmT1.Agrees :=
  agrees_of (by decide) rfl (by intro f; simp [Case.addSpImmT1, Thumb.addSpImmT1] <;> grind)

theorem addSpRegT1 : Case.addSpRegT1.Agrees :=
  agrees_of (by decide) rfl (by intro f; simp [Case.addSpRegT1, Thumb.addSpRegT1] <;> grind)

theorem addSpRegT2 : Case.addSpRegT2.Agrees :=
  agrees_of (by decide) rfl (by intro f; simp [Case.addSpRegT2, Thumb.addSpRegT2] <;> grind)

theorem subSpImm : Case.subSpImm.Agrees :=
  agrees_of (by decide) rfl (by intro f; simp [Case.subSpImm, Thumb.subSpImm] <;> grind)

theorem addSpImmT2 : Case.addSpImmT2.Agrees :=
  agrees_of (by decide) rfl (by intro f; simp [Case.addSpImmT2, Thumb.addSpImmT2] <;> grind)

theorem asrsImm : Case.asrsImm.Agrees :=
  agrees_of (by decide) rfl (by intro f; simp [Case.asrsImm, Thumb.asrsImm] <;> grind)

theorem lsrsImm : Case.lsrsImm.Agrees :=
  agrees_of (by decide) rfl (by intro f; simp [Case.lsrsImm, Thumb.lsrsImm] <;> grind)

theorem lslsImm : Case.lslsImm.Agrees :=
  agrees_of (by decide) rfl (by intro f; simp [Case.lslsImm, Thumb.lslsImm] <;> grind)

theorem rsbs : Case.rsbs.Agrees :=
  agrees_of (by decide) rfl (by intro f; simp [Case.rsbs, Thumb.rsbs] <;> grind)

theorem rsbW : Case.rsbW.Agrees :=
  agrees_of (by decide) rfl (by intro f; simp [Case.rsbW, Thumb.rsbW] <;> grind)

theorem muls : Case.muls.Agrees :=
  agrees_of (by decide) rfl (by intro f; simp [Case.muls, Thumb.muls] <;> grind)

theorem mulW : Case.mulW.Agrees :=
  agrees_of (by decide) rfl (by intro f; simp [Case.mulW, Thumb.mulW] <;> grind)

theorem adrT1 : Case.adrT1.Agrees :=
  agrees_of (by decide) rfl (by intro f; simp [Case.adrT1, Thumb.adrT1] <;> grind)

theorem adrAddW : Case.adrAddW.Agrees :=
  agrees_of (by decide) rfl (by intro f; simp [Case.adrAddW, Thumb.adrAddW] <;> grind)

theorem adrSubW : Case.adrSubW.Agrees :=
  agrees_of (by decide) rfl (by intro f; simp [Case.adrSubW, Thumb.adrSubW] <;> grind)

theorem uxtb : Case.uxtb.Agrees :=
  agrees_of (by decide) rfl (by intro f; simp [Case.uxtb, Thumb.uxtb] <;> grind)

theorem uxth : Case.uxth.Agrees :=
  agrees_of (by decide) rfl (by intro f; simp [Case.uxth, Thumb.uxth] <;> grind)

theorem sxtb : Case.sxtb.Agrees :=
  agrees_of (by decide) rfl (by intro f; simp [Case.sxtb, Thumb.sxtb] <;> grind)

theorem sxth : Case.sxth.Agrees :=
  agrees_of (by decide) rfl (by intro f; simp [Case.sxth, Thumb.sxth] <;> grind)

theorem uxtbW : Case.uxtbW.Agrees :=
  agrees_of (by decide) rfl (by intro f; simp [Case.uxtbW, Thumb.uxtbW] <;> grind)

theorem uxthW : Case.uxthW.Agrees :=
  agrees_of (by decide) rfl (by intro f; simp [Case.uxthW, Thumb.uxthW] <;> grind)

theorem sxtbW : Case.sxtbW.Agrees :=
  agrees_of (by decide) rfl (by intro f; simp [Case.sxtbW, Thumb.sxtbW] <;> grind)

theorem sxthW : Case.sxthW.Agrees :=
  agrees_of (by decide) rfl (by intro f; simp [Case.sxthW, Thumb.sxthW] <;> grind)

theorem revsh : Case.revsh.Agrees :=
  agrees_of (by decide) rfl (by intro f; simp [Case.revsh, Thumb.revsh] <;> grind)

theorem rev16 : Case.rev16.Agrees :=
  agrees_of (by decide) rfl (by intro f; simp [Case.rev16, Thumb.rev16] <;> grind)

theorem rev : Case.rev.Agrees :=
  agrees_of (by decide) rfl (by intro f; simp [Case.rev, Thumb.rev] <;> grind)

theorem revshW : Case.revshW.Agrees :=
  agrees_of (by decide) rfl (by intro f; simp [Case.revshW, Thumb.revshW] <;> grind)

theorem rev16W : Case.rev16W.Agrees :=
  agrees_of (by decide) rfl (by intro f; simp [Case.rev16W, Thumb.rev16W] <;> grind)

theorem revW : Case.revW.Agrees :=
  agrees_of (by decide) rfl (by intro f; simp [Case.revW, Thumb.revW] <;> grind)

theorem movReg : Case.movReg.Agrees :=
  agrees_of (by decide) rfl (by intro f; simp [Case.movReg, Thumb.movReg] <;> grind)

theorem movsReg : Case.movsReg.Agrees :=
  agrees_of (by decide) rfl (by intro f; simp [Case.movsReg, Thumb.movsReg] <;> grind)

theorem movRegW : Case.movRegW.Agrees :=
  agrees_of (by decide) rfl (by intro f; simp [Case.movRegW, Thumb.movRegW] <;> grind)

theorem movsImm : Case.movsImm.Agrees :=
  agrees_of (by decide) rfl (by intro f; simp [Case.movsImm, Thumb.movsImm] <;> grind)

theorem movImmW : Case.movImmW.Agrees :=
  agrees_of (by decide) rfl (by intro f; simp [Case.movImmW, Thumb.movImmW] <;> grind)

theorem movw : Case.movw.Agrees :=
  agrees_of (by decide) rfl (by intro f; simp [Case.movw, Thumb.movw] <;> grind)

theorem mvns : Case.mvns.Agrees :=
  agrees_of (by decide) rfl (by intro f; simp [Case.mvns, Thumb.mvns] <;> grind)

theorem mvnW : Case.mvnW.Agrees :=
  agrees_of (by decide) rfl (by intro f; simp [Case.mvnW, Thumb.mvnW] <;> grind)

theorem cmpImm : Case.cmpImm.Agrees :=
  agrees_of (by decide) rfl (by intro f; simp [Case.cmpImm, Thumb.cmpImm] <;> grind)

theorem cmnReg : Case.cmnReg.Agrees := by
  intro w _ _
  generalize field Case.cmnReg.enc.pat w = f
  have hw : Wrong Case.cmnReg.enc f ↔ f 'm' ≠ f 'n' := by
    unfold Wrong
    constructor
    · rintro (h | ⟨h, _⟩ | ⟨h, h'⟩ | ⟨h, _⟩ | ⟨h, _⟩ | ⟨h, _⟩ | ⟨h, _⟩) <;> first | exact h' | exact absurd h (by decide)
    · intro h; exact .inr (.inr (.inl ⟨rfl, h⟩))
  rw [hw]
  refine ⟨fun h => ⟨?_, rfl⟩, fun h => .inr fun i h1 h2 => ?_⟩
  · have : f 'm' = f 'n' := Decidable.not_not.mp h
    simp [Case.cmnReg, Thumb.cmnReg, this]
  · simp only [Case.cmnReg, Thumb.cmnReg, Act.Of, Src.Of] at h1 h2
    grind

theorem cmpRegT1 : Case.cmpRegT1.Agrees := by
  intro w _ _
  generalize field Case.cmpRegT1.enc.pat w = f
  have hw : Wrong Case.cmpRegT1.enc f ↔ f 'm' ≠ f 'n' := by
    unfold Wrong
    constructor
    · rintro (h | ⟨h, h'⟩ | ⟨h, _⟩ | ⟨h, _⟩ | ⟨h, _⟩ | ⟨h, _⟩ | ⟨h, _⟩) <;> first | exact h' | exact absurd h (by decide)
    · intro h; exact .inr (.inl ⟨rfl, h⟩)
  rw [hw]
  refine ⟨fun h => ⟨?_, rfl⟩, fun h => .inr fun i h1 h2 => ?_⟩
  · have : f 'm' = f 'n' := Decidable.not_not.mp h
    simp [Case.cmpRegT1, Thumb.cmpRegT1, this]
  · simp only [Case.cmpRegT1, Thumb.cmpRegT1, Act.Of, Src.Of] at h1 h2
    grind

theorem cmpRegT2 : Case.cmpRegT2.Agrees := by
  intro w _ _
  generalize field Case.cmpRegT2.enc.pat w = f
  have hw : Wrong Case.cmpRegT2.enc f ↔ f 'm' ≠ f 'n' % 8 := by
    unfold Wrong
    constructor
    · rintro (h | ⟨h, _⟩ | ⟨h, _⟩ | ⟨h, h'⟩ | ⟨h, _⟩ | ⟨h, _⟩ | ⟨h, _⟩) <;> first | exact h' | exact absurd h (by decide)
    · intro h; exact .inr (.inr (.inr (.inl ⟨rfl, h⟩)))
  rw [hw]
  refine ⟨fun h => ⟨?_, rfl⟩, fun h => .inr fun i h1 h2 => ?_⟩
  · have : f 'm' = f 'n' % 8 := Decidable.not_not.mp h
    simp [Case.cmpRegT2, Thumb.cmpRegT2, this]
  · simp only [Case.cmpRegT2, Thumb.cmpRegT2, Act.Of, Src.Of] at h1 h2
    grind

theorem cmnImm : Case.cmnImm.Agrees :=
  agrees_of (by decide) rfl (by intro f; simp [Case.cmnImm, Thumb.cmnImm] <;> grind)

theorem cmpImmW : Case.cmpImmW.Agrees :=
  agrees_of (by decide) rfl (by intro f; simp [Case.cmpImmW, Thumb.cmpImmW] <;> grind)

theorem tst : Case.tst.Agrees :=
  agrees_of (by decide) rfl (by intro f; simp [Case.tst, Thumb.tst] <;> grind)

theorem tstW : Case.tstW.Agrees :=
  agrees_of (by decide) rfl (by intro f; simp [Case.tstW, Thumb.tstW] <;> grind)

theorem bCond : Case.bCond.Agrees := by
  intro w _ _
  have hi : field Thumb.bCond.pat w 'i' < 256 := by
    rw [field_one 0 8 (by decide)]; exact (sl w 0 8).isLt
  change field Case.bCond.enc.pat w 'i' < 256 at hi
  generalize field Case.bCond.enc.pat w = f at hi ⊢
  have hw : Wrong Case.bCond.enc f ↔ 128 ≤ f 'i' := by
    unfold Wrong
    constructor
    · rintro (h | ⟨h, _⟩ | ⟨h, _⟩ | ⟨h, _⟩ | ⟨h, h'⟩ | ⟨h, h'⟩ | ⟨h, _⟩) <;> first | exact h' | exact absurd h (by decide)
    · intro h; exact .inr (.inr (.inr (.inr (.inl ⟨rfl, h⟩))))
  rw [hw]
  have hm := signed_msb (n := 9) (v := 2 * f 'i') (by omega) (by omega) (by omega)
  refine ⟨fun h => ⟨?_, rfl⟩, fun h => .inr fun i h1 h2 => ?_⟩
  · have : (Thumb.signed 9 (2 * f 'i')).msb = false := by rw [hm]; simp; omega
    simp [Case.bCond, Thumb.bCond, spoil_eq this]
  · have : (Thumb.signed 9 (2 * f 'i')).msb = true := by rw [hm]; simp; omega
    exact branch_agrees this h1 h2

theorem b : Case.b.Agrees := by
  intro w _ _
  have hi : field Thumb.b.pat w 'i' < 2048 := by
    rw [field_one 0 11 (by decide)]; exact (sl w 0 11).isLt
  change field Case.b.enc.pat w 'i' < 2048 at hi
  generalize field Case.b.enc.pat w = f at hi ⊢
  have hw : Wrong Case.b.enc f ↔ 1024 ≤ f 'i' := by
    unfold Wrong
    constructor
    · rintro (h | ⟨h, _⟩ | ⟨h, _⟩ | ⟨h, _⟩ | ⟨h, h'⟩ | ⟨h, h'⟩ | ⟨h, _⟩) <;> first | exact h' | exact absurd h (by decide)
    · intro h; exact .inr (.inr (.inr (.inr (.inr (.inl ⟨rfl, h⟩)))))
  rw [hw]
  have hm := signed_msb (n := 12) (v := 2 * f 'i') (by omega) (by omega) (by omega)
  refine ⟨fun h => ⟨?_, rfl⟩, fun h => .inr fun i h1 h2 => ?_⟩
  · have : (Thumb.signed 12 (2 * f 'i')).msb = false := by rw [hm]; simp; omega
    simp [Case.b, Thumb.b, spoil_eq this]
  · have : (Thumb.signed 12 (2 * f 'i')).msb = true := by rw [hm]; simp; omega
    exact branch_agrees this h1 h2

theorem bl : Case.bl.Agrees := by
  intro w _ _
  have hi : field Thumb.bl.pat w 'i' < 2 ^ 21 := by
    rw [field_two 0 10 16 11 (by decide)]; exact (sl w 0 10 ++ sl w 16 11).isLt
  have hs : field Thumb.bl.pat w 's' < 2 := by
    rw [field_one 10 1 (by decide)]; exact (sl w 10 1).isLt
  change field Case.bl.enc.pat w 'i' < 2 ^ 21 at hi
  change field Case.bl.enc.pat w 's' < 2 at hs
  generalize field Case.bl.enc.pat w = f at hi hs ⊢
  have hw : Wrong Case.bl.enc f ↔ f 's' = 1 := by
    unfold Wrong
    constructor
    · rintro (h | ⟨h, _⟩ | ⟨h, _⟩ | ⟨h, _⟩ | ⟨h, _⟩ | ⟨h, _⟩ | ⟨h, h'⟩) <;> first | exact h' | exact absurd h (by decide)
    · intro h; exact .inr (.inr (.inr (.inr (.inr (.inr ⟨rfl, h⟩)))))
  rw [hw]
  have hm := blOffset_msb (j := f 'j') (k := f 'k') hs hi
  refine ⟨fun h => ⟨?_, rfl⟩, fun h => .inr fun i h1 h2 => ?_⟩
  · have : (blOffset (f 's') (f 'j') (f 'k') (f 'i')).msb = false := by rw [hm]; simpa using h
    simp [Case.bl, Thumb.bl, spoil_eq this]
  · have : (blOffset (f 's') (f 'j') (f 'k') (f 'i')).msb = true := by rw [hm]; simpa using h
    exact bl_agrees this h1 h2

theorem blx : Case.blx.Agrees :=
  agrees_of (by decide) rfl (by intro f; simp [Case.blx, Thumb.blx] <;> grind)

theorem bx : Case.bx.Agrees :=
  agrees_of (by decide) rfl (by intro f; simp [Case.bx, Thumb.bx] <;> grind)

theorem ldrshReg : Case.ldrshReg.Agrees :=
  agrees_of (by decide) rfl (by intro f; simp [Case.ldrshReg, Thumb.ldrshReg] <;> grind)

theorem ldrbReg : Case.ldrbReg.Agrees :=
  agrees_of (by decide) rfl (by intro f; simp [Case.ldrbReg, Thumb.ldrbReg] <;> grind)

theorem ldrhReg : Case.ldrhReg.Agrees :=
  agrees_of (by decide) rfl (by intro f; simp [Case.ldrhReg, Thumb.ldrhReg] <;> grind)

theorem ldrReg : Case.ldrReg.Agrees :=
  agrees_of (by decide) rfl (by intro f; simp [Case.ldrReg, Thumb.ldrReg] <;> grind)

theorem ldrsbReg : Case.ldrsbReg.Agrees :=
  agrees_of (by decide) rfl (by intro f; simp [Case.ldrsbReg, Thumb.ldrsbReg] <;> grind)

theorem strbReg : Case.strbReg.Agrees :=
  agrees_of (by decide) rfl (by intro f; simp [Case.strbReg, Thumb.strbReg] <;> grind)

theorem strhReg : Case.strhReg.Agrees :=
  agrees_of (by decide) rfl (by intro f; simp [Case.strhReg, Thumb.strhReg] <;> grind)

theorem strReg : Case.strReg.Agrees :=
  agrees_of (by decide) rfl (by intro f; simp [Case.strReg, Thumb.strReg] <;> grind)

theorem strRegW : Case.strRegW.Agrees :=
  agrees_of (by decide) rfl (by intro f; simp [Case.strRegW, Thumb.strRegW] <;> grind)

theorem strhRegW : Case.strhRegW.Agrees :=
  agrees_of (by decide) rfl (by intro f; simp [Case.strhRegW, Thumb.strhRegW] <;> grind)

theorem strbRegW : Case.strbRegW.Agrees :=
  agrees_of (by decide) rfl (by intro f; simp [Case.strbRegW, Thumb.strbRegW] <;> grind)

theorem ldrshRegW : Case.ldrshRegW.Agrees :=
  agrees_of (by decide) rfl (by intro f; simp [Case.ldrshRegW, Thumb.ldrshRegW] <;> grind)

theorem ldrsbRegW : Case.ldrsbRegW.Agrees :=
  agrees_of (by decide) rfl (by intro f; simp [Case.ldrsbRegW, Thumb.ldrsbRegW] <;> grind)

theorem ldrRegW : Case.ldrRegW.Agrees :=
  agrees_of (by decide) rfl (by intro f; simp [Case.ldrRegW, Thumb.ldrRegW] <;> grind)

theorem ldrhRegW : Case.ldrhRegW.Agrees :=
  agrees_of (by decide) rfl (by intro f; simp [Case.ldrhRegW, Thumb.ldrhRegW] <;> grind)

theorem ldrbRegW : Case.ldrbRegW.Agrees :=
  agrees_of (by decide) rfl (by intro f; simp [Case.ldrbRegW, Thumb.ldrbRegW] <;> grind)

theorem ldrhImm : Case.ldrhImm.Agrees :=
  agrees_of (by decide) rfl (by intro f; simp [Case.ldrhImm, Thumb.ldrhImm] <;> grind)

theorem strhImm : Case.strhImm.Agrees :=
  agrees_of (by decide) rfl (by intro f; simp [Case.strhImm, Thumb.strhImm] <;> grind)

theorem ldrbImm : Case.ldrbImm.Agrees :=
  agrees_of (by decide) rfl (by intro f; simp [Case.ldrbImm, Thumb.ldrbImm] <;> grind)

theorem strbImm : Case.strbImm.Agrees :=
  agrees_of (by decide) rfl (by intro f; simp [Case.strbImm, Thumb.strbImm] <;> grind)

theorem ldrImm : Case.ldrImm.Agrees :=
  agrees_of (by decide) rfl (by intro f; simp [Case.ldrImm, Thumb.ldrImm] <;> grind)

theorem strImm : Case.strImm.Agrees :=
  agrees_of (by decide) rfl (by intro f; simp [Case.strImm, Thumb.strImm] <;> grind)

theorem ldrLit : Case.ldrLit.Agrees :=
  agrees_of (by decide) rfl (by intro f; simp [Case.ldrLit, Thumb.ldrLit] <;> grind)

theorem ldrsbLitW : Case.ldrsbLitW.Agrees :=
  agrees_of (by decide) rfl (by intro f; simp [Case.ldrsbLitW, Thumb.ldrsbLitW] <;> grind)

theorem ldrshLitW : Case.ldrshLitW.Agrees :=
  agrees_of (by decide) rfl (by intro f; simp [Case.ldrshLitW, Thumb.ldrshLitW] <;> grind)

theorem ldrbLitW : Case.ldrbLitW.Agrees :=
  agrees_of (by decide) rfl (by intro f; simp [Case.ldrbLitW, Thumb.ldrbLitW] <;> grind)

theorem ldrhLitW : Case.ldrhLitW.Agrees :=
  agrees_of (by decide) rfl (by intro f; simp [Case.ldrhLitW, Thumb.ldrhLitW] <;> grind)

theorem ldrLitW : Case.ldrLitW.Agrees :=
  agrees_of (by decide) rfl (by intro f; simp [Case.ldrLitW, Thumb.ldrLitW] <;> grind)

theorem ldrSp : Case.ldrSp.Agrees :=
  agrees_of (by decide) rfl (by intro f; simp [Case.ldrSp, Thumb.ldrSp] <;> grind)

theorem strSp : Case.strSp.Agrees :=
  agrees_of (by decide) rfl (by intro f; simp [Case.strSp, Thumb.strSp] <;> grind)

theorem push : Case.push.Agrees :=
  agrees_of (by decide) rfl (by intro f; simp [Case.push, Thumb.push] <;> grind)

theorem pushW : Case.pushW.Agrees := by
  intro w _ _
  exact ⟨fun h => absurd (.inl rfl) h, fun _ => .inl (by simp [Case.pushW])⟩

theorem pushOne : Case.pushOne.Agrees :=
  agrees_of (by decide) rfl (by intro f; simp [Case.pushOne, Thumb.pushOne] <;> grind)

theorem pop : Case.pop.Agrees :=
  agrees_of (by decide) rfl (by intro f; simp [Case.pop, Thumb.pop] <;> grind)

theorem popW : Case.popW.Agrees :=
  agrees_of (by decide) rfl (by intro f; simp [Case.popW, Thumb.popW] <;> grind)

theorem popOne : Case.popOne.Agrees :=
  agrees_of (by decide) rfl (by intro f; simp [Case.popOne, Thumb.popOne] <;> grind)

theorem ldm : Case.ldm.Agrees :=
  agrees_of (by decide) rfl (by intro f; simp [Case.ldm, Thumb.ldm] <;> grind)

theorem stm : Case.stm.Agrees :=
  agrees_of (by decide) rfl (by intro f; simp [Case.stm, Thumb.stm] <;> grind)

theorem stmW : Case.stmW.Agrees :=
  agrees_of (by decide) rfl (by intro f; simp [Case.stmW, Thumb.stmW] <;> grind)

theorem ldmW : Case.ldmW.Agrees :=
  agrees_of (by decide) rfl (by intro f; simp [Case.ldmW, Thumb.ldmW] <;> grind)

theorem cps : Case.cps.Agrees :=
  agrees_of (by decide) rfl (by intro f; simp [Case.cps, Thumb.cps] <;> grind)

theorem bkpt : Case.bkpt.Agrees :=
  agrees_of (by decide) rfl (by intro f; simp [Case.bkpt, Thumb.bkpt] <;> grind)

theorem mrs : Case.mrs.Agrees :=
  agrees_of (by decide) rfl (by intro f; simp [Case.mrs, Thumb.mrs] <;> grind)

theorem msr : Case.msr.Agrees :=
  agrees_of (by decide) rfl (by intro f; simp [Case.msr, Thumb.msr] <;> grind)

theorem sev : Case.sev.Agrees :=
  agrees_of (by decide) rfl (by intro f; simp [Case.sev, Thumb.sev] <;> grind)

theorem wfi : Case.wfi.Agrees :=
  agrees_of (by decide) rfl (by intro f; simp [Case.wfi, Thumb.wfi] <;> grind)

theorem wfe : Case.wfe.Agrees :=
  agrees_of (by decide) rfl (by intro f; simp [Case.wfe, Thumb.wfe] <;> grind)

theorem yield : Case.yield.Agrees :=
  agrees_of (by decide) rfl (by intro f; simp [Case.yield, Thumb.yield] <;> grind)

theorem nop : Case.nop.Agrees :=
  agrees_of (by decide) rfl (by intro f; simp [Case.nop, Thumb.nop] <;> grind)

theorem isb : Case.isb.Agrees :=
  agrees_of (by decide) rfl (by intro f; simp [Case.isb, Thumb.isb] <;> grind)

theorem dmb : Case.dmb.Agrees :=
  agrees_of (by decide) rfl (by intro f; simp [Case.dmb, Thumb.dmb] <;> grind)

theorem dsb : Case.dsb.Agrees :=
  agrees_of (by decide) rfl (by intro f; simp [Case.dsb, Thumb.dsb] <;> grind)

theorem svc : Case.svc.Agrees :=
  agrees_of (by decide) rfl (by intro f; simp [Case.svc, Thumb.svc] <;> grind)

theorem udf : Case.udf.Agrees :=
  agrees_of (by decide) rfl (by intro f; simp [Case.udf, Thumb.udf] <;> grind)

theorem udfW : Case.udfW.Agrees :=
  agrees_of (by decide) rfl (by intro f; simp [Case.udfW, Thumb.udfW] <;> grind)

end Agree

theorem agrees : ∀ c ∈ Case.all, c.Agrees := by
  simp only [Case.all, List.forall_mem_cons]
  exact ⟨Agree.bics,
    Agree.orrs,
    Agree.rorsReg,
    Agree.sbcs,
    Agree.adcs,
    Agree.asrsReg,
    Agree.lsrsReg,
    Agree.lslsReg,
    Agree.eors,
    Agree.ands,
    Agree.subsImmT1,
    Agree.addsImmT1,
    Agree.subsImmT2,
    Agree.addsImmT2,
    Agree.subsReg,
    Agree.addsReg,
    Agree.addRegT2,
    Agree.addSpImmT1,
    Agree.addSpRegT1,
    Agree.addSpRegT2,
    Agree.subSpImm,
    Agree.addSpImmT2,
    Agree.asrsImm,
    Agree.lsrsImm,
    Agree.lslsImm,
    Agree.rsbs,
    Agree.rsbW,
    Agree.muls,
    Agree.mulW,
    Agree.adrT1,
    Agree.adrAddW,
    Agree.adrSubW,
    Agree.uxtb,
    Agree.uxth,
    Agree.sxtb,
    Agree.sxth,
    Agree.uxtbW,
    Agree.uxthW,
    Agree.sxtbW,
    Agree.sxthW,
    Agree.revsh,
    Agree.rev16,
    Agree.rev,
    Agree.revshW,
    Agree.rev16W,
    Agree.revW,
    Agree.movReg,
    Agree.movsReg,
    Agree.movRegW,
    Agree.movsImm,
    Agree.movImmW,
    Agree.movw,
    Agree.mvns,
    Agree.mvnW,
    Agree.cmpImm,
    Agree.cmnReg,
    Agree.cmpRegT1,
    Agree.cmpRegT2,
    Agree.cmnImm,
    Agree.cmpImmW,
    Agree.tst,
    Agree.tstW,
    Agree.bCond,
    Agree.b,
    Agree.bl,
    Agree.blx,
    Agree.bx,
    Agree.ldrshReg,
    Agree.ldrbReg,
    Agree.ldrhReg,
    Agree.ldrReg,
    Agree.ldrsbReg,
    Agree.strbReg,
    Agree.strhReg,
    Agree.strReg,
    Agree.strRegW,
    Agree.strhRegW,
    Agree.strbRegW,
    Agree.ldrshRegW,
    Agree.ldrsbRegW,
    Agree.ldrRegW,
    Agree.ldrhRegW,
    Agree.ldrbRegW,
    Agree.ldrhImm,
    Agree.strhImm,
    Agree.ldrbImm,
    Agree.strbImm,
    Agree.ldrImm,
    Agree.strImm,
    Agree.ldrLit,
    Agree.ldrsbLitW,
    Agree.ldrshLitW,
    Agree.ldrbLitW,
    Agree.ldrhLitW,
    Agree.ldrLitW,
    Agree.ldrSp,
    Agree.strSp,
    Agree.push,
    Agree.pushW,
    Agree.pushOne,
    Agree.pop,
    Agree.popW,
    Agree.popOne,
    Agree.ldm,
    Agree.stm,
    Agree.stmW,
    Agree.ldmW,
    Agree.cps,
    Agree.bkpt,
    Agree.mrs,
    Agree.msr,
    Agree.sev,
    Agree.wfi,
    Agree.wfe,
    Agree.yield,
    Agree.nop,
    Agree.isb,
    Agree.dmb,
    Agree.dsb,
    Agree.svc,
    Agree.udf,
    Agree.udfW,
    by simp⟩

/-- The exceptions a decoder can raise. -/
def Kind (c : Case) : Prop := ∀ f e, c.raises f = some e →
  e = .unpredictable ∨ e = .decodeError ∨ (e = .nameError ∧ c.enc.pat = Thumb.pushW.pat)

theorem kinds : ∀ c ∈ Case.all, Kind c := by
  simp only [Case.all, List.forall_mem_cons]
  exact ⟨by intro f e h; exact absurd h (by simp [Case.bics]),
    by intro f e h; exact absurd h (by simp [Case.orrs]),
    by intro f e h; exact absurd h (by simp [Case.rorsReg]),
    by intro f e h; exact absurd h (by simp [Case.sbcs]),
    by intro f e h; exact absurd h (by simp [Case.adcs]),
    by intro f e h; exact absurd h (by simp [Case.asrsReg]),
    by intro f e h; exact absurd h (by simp [Case.lsrsReg]),
    by intro f e h; exact absurd h (by simp [Case.lslsReg]),
    by intro f e h; exact absurd h (by simp [Case.eors]),
    by intro f e h; exact absurd h (by simp [Case.ands]),
    by intro f e h; exact absurd h (by simp [Case.subsImmT1]),
    by intro f e h; exact absurd h (by simp [Case.addsImmT1]),
    by intro f e h; exact absurd h (by simp [Case.subsImmT2]),
    by intro f e h; exact absurd h (by simp [Case.addsImmT2]),
    by intro f e h; exact absurd h (by simp [Case.subsReg]),
    by intro f e h; exact absurd h (by simp [Case.addsReg]),
    by intro f e h; exact absurd h (by simp [Case.addRegT2]),
    by intro f e h; exact absurd h (by simp [Case.addSpImmT1]),
    by intro f e h; exact absurd h (by simp [Case.addSpRegT1]),
    by intro f e h; simp only [Case.addSpRegT2] at h; (repeat' split at h) <;> simp_all,
    by intro f e h; exact absurd h (by simp [Case.subSpImm]),
    by intro f e h; exact absurd h (by simp [Case.addSpImmT2]),
    by intro f e h; exact absurd h (by simp [Case.asrsImm]),
    by intro f e h; exact absurd h (by simp [Case.lsrsImm]),
    by intro f e h; exact absurd h (by simp [Case.lslsImm]),
    by intro f e h; exact absurd h (by simp [Case.rsbs]),
    by intro f e h; simp only [Case.rsbW] at h; (repeat' split at h) <;> simp_all,
    by intro f e h; exact absurd h (by simp [Case.muls]),
    by intro f e h; simp only [Case.mulW] at h; (repeat' split at h) <;> simp_all,
    by intro f e h; exact absurd h (by simp [Case.adrT1]),
    by intro f e h; exact absurd h (by simp [Case.adrAddW]),
    by intro f e h; exact absurd h (by simp [Case.adrSubW]),
    by intro f e h; exact absurd h (by simp [Case.uxtb]),
    by intro f e h; exact absurd h (by simp [Case.uxth]),
    by intro f e h; exact absurd h (by simp [Case.sxtb]),
    by intro f e h; exact absurd h (by simp [Case.sxth]),
    by intro f e h; exact absurd h (by simp [Case.uxtbW]),
    by intro f e h; exact absurd h (by simp [Case.uxthW]),
    by intro f e h; exact absurd h (by simp [Case.sxtbW]),
    by intro f e h; exact absurd h (by simp [Case.sxthW]),
    by intro f e h; exact absurd h (by simp [Case.revsh]),
    by intro f e h; exact absurd h (by simp [Case.rev16]),
    by intro f e h; exact absurd h (by simp [Case.rev]),
    by intro f e h; simp only [Case.revshW] at h; (repeat' split at h) <;> simp_all,
    by intro f e h; simp only [Case.rev16W] at h; (repeat' split at h) <;> simp_all,
    by intro f e h; simp only [Case.revW] at h; (repeat' split at h) <;> simp_all,
    by intro f e h; exact absurd h (by simp [Case.movReg]),
    by intro f e h; exact absurd h (by simp [Case.movsReg]),
    by intro f e h; exact absurd h (by simp [Case.movRegW]),
    by intro f e h; exact absurd h (by simp [Case.movsImm]),
    by intro f e h; exact absurd h (by simp [Case.movImmW]),
    by intro f e h; exact absurd h (by simp [Case.movw]),
    by intro f e h; exact absurd h (by simp [Case.mvns]),
    by intro f e h; exact absurd h (by simp [Case.mvnW]),
    by intro f e h; exact absurd h (by simp [Case.cmpImm]),
    by intro f e h; exact absurd h (by simp [Case.cmnReg]),
    by intro f e h; exact absurd h (by simp [Case.cmpRegT1]),
    by intro f e h; exact absurd h (by simp [Case.cmpRegT2]),
    by intro f e h; exact absurd h (by simp [Case.cmnImm]),
    by intro f e h; exact absurd h (by simp [Case.cmpImmW]),
    by intro f e h; exact absurd h (by simp [Case.tst]),
    by intro f e h; simp only [Case.tstW] at h; (repeat' split at h) <;> simp_all,
    by intro f e h; exact absurd h (by simp [Case.bCond]),
    by intro f e h; exact absurd h (by simp [Case.b]),
    by intro f e h; exact absurd h (by simp [Case.bl]),
    by intro f e h; exact absurd h (by simp [Case.blx]),
    by intro f e h; exact absurd h (by simp [Case.bx]),
    by intro f e h; exact absurd h (by simp [Case.ldrshReg]),
    by intro f e h; exact absurd h (by simp [Case.ldrbReg]),
    by intro f e h; exact absurd h (by simp [Case.ldrhReg]),
    by intro f e h; exact absurd h (by simp [Case.ldrReg]),
    by intro f e h; exact absurd h (by simp [Case.ldrsbReg]),
    by intro f e h; exact absurd h (by simp [Case.strbReg]),
    by intro f e h; exact absurd h (by simp [Case.strhReg]),
    by intro f e h; exact absurd h (by simp [Case.strReg]),
    by intro f e h; simp only [Case.strRegW] at h; (repeat' split at h) <;> simp_all,
    by intro f e h; simp only [Case.strhRegW] at h; (repeat' split at h) <;> simp_all,
    by intro f e h; simp only [Case.strbRegW] at h; (repeat' split at h) <;> simp_all,
    by intro f e h; simp only [Case.ldrshRegW] at h; (repeat' split at h) <;> simp_all,
    by intro f e h; simp only [Case.ldrsbRegW] at h; (repeat' split at h) <;> simp_all,
    by intro f e h; simp only [Case.ldrRegW] at h; (repeat' split at h) <;> simp_all,
    by intro f e h; simp only [Case.ldrhRegW] at h; (repeat' split at h) <;> simp_all,
    by intro f e h; simp only [Case.ldrbRegW] at h; (repeat' split at h) <;> simp_all,
    by intro f e h; exact absurd h (by simp [Case.ldrhImm]),
    by intro f e h; exact absurd h (by simp [Case.strhImm]),
    by intro f e h; exact absurd h (by simp [Case.ldrbImm]),
    by intro f e h; exact absurd h (by simp [Case.strbImm]),
    by intro f e h; exact absurd h (by simp [Case.ldrImm]),
    by intro f e h; exact absurd h (by simp [Case.strImm]),
    by intro f e h; exact absurd h (by simp [Case.ldrLit]),
    by intro f e h; simp only [Case.ldrsbLitW] at h; (repeat' split at h) <;> simp_all,
    by intro f e h; simp only [Case.ldrshLitW] at h; (repeat' split at h) <;> simp_all,
    by intro f e h; simp only [Case.ldrbLitW] at h; (repeat' split at h) <;> simp_all,
    by intro f e h; simp only [Case.ldrhLitW] at h; (repeat' split at h) <;> simp_all,
    by intro f e h; simp only [Case.ldrLitW] at h; (repeat' split at h) <;> simp_all,
    by intro f e h; exact absurd h (by simp [Case.ldrSp]),
    by intro f e h; exact absurd h (by simp [Case.strSp]),
    by intro f e h; simp only [Case.push] at h; (repeat' split at h) <;> simp_all,
    by intro f e h; injection h with h; exact .inr (.inr ⟨h.symm, rfl⟩),
    by intro f e h; simp only [Case.pushOne] at h; (repeat' split at h) <;> simp_all,
    by intro f e h; simp only [Case.pop] at h; (repeat' split at h) <;> simp_all,
    by intro f e h; simp only [Case.popW] at h; (repeat' split at h) <;> simp_all,
    by intro f e h; exact absurd h (by simp [Case.popOne]),
    by intro f e h; simp only [Case.ldm] at h; (repeat' split at h) <;> simp_all,
    by intro f e h; simp only [Case.stm] at h; (repeat' split at h) <;> simp_all,
    by intro f e h; simp only [Case.stmW] at h; (repeat' split at h) <;> simp_all,
    by intro f e h; simp only [Case.ldmW] at h; (repeat' split at h) <;> simp_all,
    by intro f e h; simp only [Case.cps] at h; (repeat' split at h) <;> simp_all,
    by intro f e h; exact absurd h (by simp [Case.bkpt]),
    by intro f e h; simp only [Case.mrs] at h; (repeat' split at h) <;> simp_all,
    by intro f e h; simp only [Case.msr] at h; (repeat' split at h) <;> simp_all,
    by intro f e h; exact absurd h (by simp [Case.sev]),
    by intro f e h; exact absurd h (by simp [Case.wfi]),
    by intro f e h; exact absurd h (by simp [Case.wfe]),
    by intro f e h; exact absurd h (by simp [Case.yield]),
    by intro f e h; exact absurd h (by simp [Case.nop]),
    by intro f e h; exact absurd h (by simp [Case.isb]),
    by intro f e h; exact absurd h (by simp [Case.dmb]),
    by intro f e h; exact absurd h (by simp [Case.dsb]),
    by intro f e h; exact absurd h (by simp [Case.svc]),
    by intro f e h; exact absurd h (by simp [Case.udf]),
    by intro f e h; exact absurd h (by simp [Case.udfW]),
    by simp⟩

end Verif
