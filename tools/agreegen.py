"""Prints Verif/Lemmas/Agree.lean."""
import sys
sys.path.insert(0,'/verif/tools')
from casesgen import *
order=[c[0] for c in cases]
W=['pushW','cmpRegT1','cmpRegT2','bCond','b','bl']
print('''import Verif.Lemmas.Search

/-!
# Where the program and the architecture agree

Generated: one theorem for each encoding.
-/

namespace Verif
open BS Thumb Handler

/-- The encodings, and the field values of them, that the program does not decode as the
architecture says: PUSH.W always, CMP and CMN (register) unless the wrong register it compares
with happens to be the right one, and branches backwards. -/
def Wrong (e : Enc) (f : Char → Nat) : Prop :=
  e.pat = Thumb.pushW.pat ∨
  (e.pat = Thumb.cmpRegT1.pat ∧ f 'm' ≠ f 'n') ∨
  (e.pat = Thumb.cmnReg.pat ∧ f 'm' ≠ f 'n') ∨
  (e.pat = Thumb.cmpRegT2.pat ∧ f 'm' ≠ f 'n' % 8) ∨
  (e.pat = Thumb.bCond.pat ∧ 128 ≤ f 'i') ∨
  (e.pat = Thumb.b.pat ∧ 1024 ≤ f 'i') ∨
  (e.pat = Thumb.bl.pat ∧ f 's' = 1)

theorem not_wrong {e : Enc} (h : e.pat ∉ [Thumb.pushW.pat, Thumb.cmpRegT1.pat, Thumb.cmnReg.pat, Thumb.cmpRegT2.pat, Thumb.bCond.pat,
    Thumb.b.pat, Thumb.bl.pat]) (f : Char → Nat) : ¬ Wrong e f := by
  simp only [List.mem_cons, List.not_mem_nil, or_false, not_or] at h
  unfold Wrong
  rintro (h1 | ⟨h1, _⟩ | ⟨h1, _⟩ | ⟨h1, _⟩ | ⟨h1, _⟩ | ⟨h1, _⟩ | ⟨h1, _⟩)
  · exact h.1 h1
  · exact h.2.1 h1
  · exact h.2.2.1 h1
  · exact h.2.2.2.1 h1
  · exact h.2.2.2.2.1 h1
  · exact h.2.2.2.2.2.1 h1
  · exact h.2.2.2.2.2.2 h1

/-- The case is what the architecture says, unless it is one of the wrong ones; and then it
is something else. -/
def Case.Agrees (c : Case) : Prop := ∀ w, fits c.enc.pat w = true → c.enc.ok (field c.enc.pat w) = true →
  (¬ Wrong c.enc (field c.enc.pat w) → c.act (field c.enc.pat w) = c.enc.act (field c.enc.pat w) ∧
    c.raises (field c.enc.pat w) = none) ∧
  (Wrong c.enc (field c.enc.pat w) → c.raises (field c.enc.pat w) ≠ none ∨
    ∀ i, (c.act (field c.enc.pat w)).Of i → ¬ (c.enc.act (field c.enc.pat w)).Of i)

theorem agrees_of {c : Case} (hw : c.enc.pat ∉ [Thumb.pushW.pat, Thumb.cmpRegT1.pat, Thumb.cmnReg.pat, Thumb.cmpRegT2.pat, Thumb.bCond.pat,
    Thumb.b.pat, Thumb.bl.pat]) (ha : c.act = c.enc.act) (hr : ∀ f, c.enc.ok f = true → c.raises f = none) : c.Agrees := by
  intro w hf ho
  exact ⟨fun _ => ⟨by rw [ha], hr _ ho⟩, fun h => absurd h (not_wrong hw _)⟩

theorem spoil_ne {x : BitVec 32} (h : x.msb = true) : C17.spoil x ≠ x := by
  rw [C17.spoil, if_pos h]
  intro he
  have := congrArg BitVec.msb he
  simp [h] at this

theorem spoil_eq {x : BitVec 32} (h : x.msb = false) : C17.spoil x = x := by rw [C17.spoil, if_neg (by simp [h])]

theorem signed_msb {n v : Nat} (hn : 0 < n) (h32 : n < 32) (hv : v < 2 ^ n) : (Thumb.signed n v).msb = decide (2 ^ (n - 1) ≤ v) := by
  rw [Thumb.signed, BitVec.msb_signExtend, BitVec.msb_eq_decide]
  simp only [ge_iff_le, h32, decide_true, BitVec.toNat_ofNat, Nat.mod_eq_of_lt hv]
  simp
  intro h; omega

theorem branch_agrees {i : Instr} {c : Nat} {x : BitVec 32} (h : x.msb = true) (h1 : (Act.branch c (C17.spoil x)).Of i)
    (h2 : (Act.branch c x).Of i) : False := by
  simp only [Act.Of] at h1 h2
  have := h1.2.2.2.2.2.symm.trans h2.2.2.2.2.2
  injection this with this
  exact spoil_ne h (ofBV_inj.mp this)

theorem bl_agrees {i : Instr} {x : BitVec 32} (h : x.msb = true) (h1 : (Act.bl (C17.spoil x)).Of i)
    (h2 : (Act.bl x).Of i) : False := by
  simp only [Act.Of] at h1 h2
  have := h1.2.2.2.2.2.symm.trans h2.2.2.2.2.2
  injection this with this
  exact spoil_ne h (ofBV_inj.mp this)

theorem blOffset_msb {s j k i : Nat} (hs : s < 2) (hi : i < 2 ^ 21) : (blOffset s j k i).msb = decide (s = 1) := by
  rw [blOffset, signed_msb (by omega) (by omega)]
  · congr 1
    have h1 : (if j = s then 1 else 0) ≤ 1 := by split <;> omega
    have h2 : (if k = s then 1 else 0) ≤ 1 := by split <;> omega
    generalize (if j = s then 1 else 0) = a at *
    generalize (if k = s then 1 else 0) = b at *
    apply propext
    constructor <;> intro h <;> omega
  · have h1 : (if j = s then 1 else 0) ≤ 1 := by split <;> omega
    have h2 : (if k = s then 1 else 0) ≤ 1 := by split <;> omega
    generalize (if j = s then 1 else 0) = a at *
    generalize (if k = s then 1 else 0) = b at *
    omega

namespace Agree
''')
SPECIAL={
'pushW':'''  intro w _ _
  exact ⟨fun h => absurd (.inl rfl) h, fun _ => .inl (by simp [Case.pushW])⟩''',
'cmpRegT1':'''  intro w _ _
  generalize field Case.cmpRegT1.enc.pat w = f
  have hw : Wrong Case.cmpRegT1.enc f ↔ f 'm' ≠ f 'n' := by
    unfold Wrong
    constructor
    · rintro (h | ⟨h, h'⟩ | ⟨h, _⟩ | ⟨h, _⟩ | ⟨h, _⟩ | ⟨h, _⟩ | ⟨h, _⟩) <;> first | exact h' | exact absurd h (by decide)
    · intro h; exact .inr (.inl ⟨rfl, h⟩)
  rw [hw]
  refine ⟨fun h => ⟨?_, rfl⟩, fun h => .inr fun i h1 h2 => ?_⟩
  · have : f 'm' = f 'n' := Decidable.not_not.mp h
    simp [Case.cmpRegT1, Thumb.cmpRegT1, this]
  · simp only [Case.cmpRegT1, Thumb.cmpRegT1, Act.Of, Src.Of] at h1 h2
    grind''',
'cmnReg':'''  intro w _ _
  generalize field Case.cmnReg.enc.pat w = f
  have hw : Wrong Case.cmnReg.enc f ↔ f 'm' ≠ f 'n' := by
    unfold Wrong
    constructor
    · rintro (h | ⟨h, _⟩ | ⟨h, h'⟩ | ⟨h, _⟩ | ⟨h, _⟩ | ⟨h, _⟩ | ⟨h, _⟩) <;> first | exact h' | exact absurd h (by decide)
    · intro h; exact .inr (.inr (.inl ⟨rfl, h⟩))
  rw [hw]
  refine ⟨fun h => ⟨?_, rfl⟩, fun h => .inr fun i h1 h2 => ?_⟩
  · have : f 'm' = f 'n' := Decidable.not_not.mp h
    simp [Case.cmnReg, Thumb.cmnReg, this]
  · simp only [Case.cmnReg, Thumb.cmnReg, Act.Of, Src.Of] at h1 h2
    grind''',
'cmpRegT2':'''  intro w _ _
  generalize field Case.cmpRegT2.enc.pat w = f
  have hw : Wrong Case.cmpRegT2.enc f ↔ f 'm' ≠ f 'n' % 8 := by
    unfold Wrong
    constructor
    · rintro (h | ⟨h, _⟩ | ⟨h, _⟩ | ⟨h, h'⟩ | ⟨h, _⟩ | ⟨h, _⟩ | ⟨h, _⟩) <;> first | exact h' | exact absurd h (by decide)
    · intro h; exact .inr (.inr (.inr (.inl ⟨rfl, h⟩)))
  rw [hw]
  refine ⟨fun h => ⟨?_, rfl⟩, fun h => .inr fun i h1 h2 => ?_⟩
  · have : f 'm' = f 'n' % 8 := Decidable.not_not.mp h
    simp [Case.cmpRegT2, Thumb.cmpRegT2, this]
  · simp only [Case.cmpRegT2, Thumb.cmpRegT2, Act.Of, Src.Of] at h1 h2
    grind''',
}
def br(n,bits,half,pre,post,lem):
    return '''  intro w _ _
  have hi : field Thumb.%s.pat w 'i' < %d := by
    rw [field_one 0 %d (by decide)]; exact (sl w 0 %d).isLt
  change field Case.%s.enc.pat w 'i' < %d at hi
  generalize field Case.%s.enc.pat w = f at hi ⊢
  have hw : Wrong Case.%s.enc f ↔ %d ≤ f 'i' := by
    unfold Wrong
    constructor
    · rintro (h | ⟨h, _⟩ | ⟨h, _⟩ | ⟨h, _⟩ | ⟨h, h'⟩ | ⟨h, h'⟩ | ⟨h, _⟩) <;> first | exact h' | exact absurd h (by decide)
    · intro h; exact %s⟨rfl, h⟩%s
  rw [hw]
  have hm := signed_msb (n := %d) (v := 2 * f 'i') (by omega) (by omega) (by omega)
  refine ⟨fun h => ⟨?_, rfl⟩, fun h => .inr fun i h1 h2 => ?_⟩
  · have : (Thumb.signed %d (2 * f 'i')).msb = false := by rw [hm]; simp; omega
    simp [Case.%s, Thumb.%s, spoil_eq this]
  · have : (Thumb.signed %d (2 * f 'i')).msb = true := by rw [hm]; simp; omega
    exact branch_agrees this h1 h2'''%(n,2**bits,bits,bits,n,2**bits,n,n,half,pre,post,bits+1,bits+1,n,n,bits+1)
SPECIAL['bCond']=br('bCond',8,128,'.inr (.inr (.inr (.inr (.inl ','))))','')
SPECIAL['b']=br('b',11,1024,'.inr (.inr (.inr (.inr (.inr (.inl ',')))))','')
SPECIAL['bl']='''  intro w _ _
  have hi : field Thumb.bl.pat w 'i' < 2 ^ 21 := by
    rw [field_two 0 10 16 11 (by decide)]; exact (sl w 0 10 ++ sl w 16 11).isLt
  have hs : field Thumb.bl.pat w 's' < 2 := by
    rw [field_one 10 1 (by decide)]; exact (sl w 10 1).isLt
  change field Case.bl.enc.pat w 'i' < 2 ^ 21 at hi
  change field Case.bl.enc.pat w 's' < 2 at hs
  generalize field Case.bl.enc.pat w = f at hi hs ⊢
  have hw : Wrong Case.bl.enc f ↔ f 's' = 1 := by
    unfold Wrong
    constructor
    · rintro (h | ⟨h, _⟩ | ⟨h, _⟩ | ⟨h, _⟩ | ⟨h, _⟩ | ⟨h, _⟩ | ⟨h, h'⟩) <;> first | exact h' | exact absurd h (by decide)
    · intro h; exact .inr (.inr (.inr (.inr (.inr (.inr ⟨rfl, h⟩)))))
  rw [hw]
  have hm := blOffset_msb (j := f 'j') (k := f 'k') hs hi
  refine ⟨fun h => ⟨?_, rfl⟩, fun h => .inr fun i h1 h2 => ?_⟩
  · have : (blOffset (f 's') (f 'j') (f 'k') (f 'i')).msb = false := by rw [hm]; simpa using h
    simp [Case.bl, Thumb.bl, spoil_eq this]
  · have : (blOffset (f 's') (f 'j') (f 'k') (f 'i')).msb = true := by rw [hm]; simpa using h
    exact bl_agrees this h1 h2'''
for n in order:
    if n in SPECIAL: print("theorem %s : Case.%s.Agrees := by\n%s\n"%(n,n,SPECIAL[n]))
    else: print("theorem %s : Case.%s.Agrees :=\n  agrees_of (by decide) rfl (by intro f; simp [Case.%s, Thumb.%s] <;> grind)\n"%(n,n,n,n))
print('''end Agree

theorem agrees : ∀ c ∈ Case.all, c.Agrees := by
  simp only [Case.all, List.forall_mem_cons]
  exact ⟨'''+',\n    '.join("Agree."+n for n in order)+''',
    by simp⟩

/-- The exceptions a decoder can raise. -/
def Kind (c : Case) : Prop := ∀ f e, c.raises f = some e →
  e = .unpredictable ∨ e = .decodeError ∨ (e = .nameError ∧ c.enc.pat = Thumb.pushW.pat)

theorem kinds : ∀ c ∈ Case.all, Kind c := by
  simp only [Case.all, List.forall_mem_cons]
  exact ⟨'''+',\n    '.join(("by intro f e h; exact absurd h (by simp [Case.%s])" if not c[4] else
     "by intro f e h; injection h with h; exact .inr (.inr ⟨h.symm, rfl⟩) -- %s" if c[0]=='pushW' else "by intro f e h; simp only [Case.%s] at h; (repeat' split at h) <;> simp_all")%c[0] for c in cases)+''',
    by simp⟩

end Verif''')
