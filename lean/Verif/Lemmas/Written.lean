import Verif.Lemmas.Assembly
import Verif.Lemmas.Agree

/-!
# The operands of every encoding, against the syntax of the manual
-/

namespace Verif
open BS Thumb Handler

/-- The constant an operand shows that is the attribute `imm32`. -/
def Thumb.Act.constant : Act → Word
  | .addSub _ _ _ _ _ (.imm v) => v
  | _ => 0#32

/-- How the operands of an encoding read. -/
def Case.items (c : Case) (f : Char → Nat) : List Item := (c.ops f).filterMap (Operand.item (c.enc.act f).constant)

/-- The encodings, the field values and the addresses at which the text is not what the
manual says: PUSH.W is not decoded; CMP and CMN (register) show a wrong register unless it
happens to be the right one; the label of ADR is not aligned and always after the instruction;
MSR shows the suffix `_g` for the mask 10 and none for 11. -/
def Misread (e : Enc) (f : Char → Nat) (a : Int) : Prop :=
  e.pat = Thumb.pushW.pat ∨
  (e.pat = Thumb.cmpRegT1.pat ∧ f 'm' ≠ f 'n') ∨
  (e.pat = Thumb.cmnReg.pat ∧ f 'm' ≠ f 'n') ∨
  (e.pat = Thumb.cmpRegT2.pat ∧ f 'm' ≠ f 'n' % 8) ∨
  (e.pat = Thumb.adrT1.pat ∧ a % 4 ≠ 0) ∨
  (e.pat = Thumb.adrAddW.pat ∧ a % 4 ≠ 0) ∨
  (e.pat = Thumb.adrSubW.pat ∧ (a % 4 ≠ 0 ∨ f 'i' ≠ 0)) ∨
  (e.pat = Thumb.msr.pat ∧ f 's' < 4 ∧ f 'k' ≠ 1)

def Case.Reads (c : Case) : Prop := ∀ w a, c.raises (field c.enc.pat w) = none →
  (Written c.enc (field c.enc.pat w) a (c.items (field c.enc.pat w)) ↔ ¬ Misread c.enc (field c.enc.pat w) a)

theorem not_misread {e : Enc} (h : [Thumb.pushW.pat, Thumb.cmpRegT1.pat, Thumb.cmnReg.pat, Thumb.cmpRegT2.pat, Thumb.adrT1.pat,
    Thumb.adrAddW.pat, Thumb.adrSubW.pat, Thumb.msr.pat].contains e.pat = false) (f : Char → Nat) (a : Int) : ¬ Misread e f a := by
  have h' : e.pat ∉ [Thumb.pushW.pat, Thumb.cmpRegT1.pat, Thumb.cmnReg.pat, Thumb.cmpRegT2.pat, Thumb.adrT1.pat,
    Thumb.adrAddW.pat, Thumb.adrSubW.pat, Thumb.msr.pat] := by
    intro hm; rw [List.contains_iff_mem.2 hm] at h; cases h
  simp only [List.mem_cons, List.not_mem_nil, or_false, not_or] at h'
  obtain ⟨h1, h2, h3, h4, h5, h6, h7, h8⟩ := h'
  unfold Misread
  rintro (k | ⟨k, _⟩ | ⟨k, _⟩ | ⟨k, _⟩ | ⟨k, _⟩ | ⟨k, _⟩ | ⟨k, _⟩ | ⟨k, _⟩) <;> contradiction

theorem reads_of {c : Case} (h : [Thumb.pushW.pat, Thumb.cmpRegT1.pat, Thumb.cmnReg.pat, Thumb.cmpRegT2.pat, Thumb.adrT1.pat,
    Thumb.adrAddW.pat, Thumb.adrSubW.pat, Thumb.msr.pat].contains c.enc.pat = false)
    (hw : ∀ w a, Written c.enc (field c.enc.pat w) a (c.items (field c.enc.pat w))) : c.Reads :=
  fun w a _ => ⟨fun _ => not_misread h _ _, fun _ => hw w a⟩

namespace Wr

theorem bound1 {pat : Str} {w : Nat} {c : Char} (h : (places pat c).length ≤ 31) : field pat w c < 2 ^ 32 :=
  Nat.lt_of_lt_of_le (field_bound pat w c rfl) (Nat.pow_le_pow_right (by decide) (by omega))

theorem bound2 {pat : Str} {w : Nat} {c : Char} (h : (places pat c).length ≤ 29) {k : Nat} (hk : k ≤ 4) : k * field pat w c < 2 ^ 32 := by
  have h1 := field_bound pat w c rfl
  have h2 : 2 ^ (places pat c).length ≤ 2 ^ 29 := Nat.pow_le_pow_right (by decide) h
  have h3 : k * field pat w c ≤ 4 * field pat w c := Nat.mul_le_mul_right _ hk
  omega

theorem num_w32 {v : Nat} (h : v < 2 ^ 32) : N ((w32 v).toNat : Int) = N (v : Int) := by
  rw [w32, BitVec.toNat_ofNat, Nat.mod_eq_of_lt h]

theorem three (d n : Nat) (x : Item) : Three d n x [R d, R n, x] := .inl rfl
theorem two (d : Nat) (x : Item) : Three d d x [R d, x] := .inr ⟨rfl, rfl⟩

theorem three_num {d n v : Nat} (h : v < 2 ^ 32) : Three d n (Src.item (.imm (w32 v))) [R d, R n, N v] := by
  rw [show Src.item (.imm (w32 v)) = N ((w32 v).toNat : Int) from rfl, num_w32 h]; exact three ..

theorem two_num {d v : Nat} (h : v < 2 ^ 32) : Three d d (Src.item (.imm (w32 v))) [R d, N v] := by
  rw [show Src.item (.imm (w32 v)) = N ((w32 v).toNat : Int) from rfl, num_w32 h]; exact two ..

theorem pair_num {d v : Nat} (h : v < 2 ^ 32) : [R d, N v] = [R d, Src.item (.imm (w32 v))] := by
  rw [show Src.item (.imm (w32 v)) = N ((w32 v).toNat : Int) from rfl, num_w32 h]

theorem extended {d m r : Nat} {imm : Word} :
    Shifted (([rg d, rg m] ++ (if r ≠ 0 then [Operand.one (.shift .ror (8 * r))] else [])).filterMap (Operand.item imm)) [R d, R m] (.ror, 8 * r) := by
  by_cases h : r = 0
  · subst h; exact .inr ⟨rfl, rfl⟩
  · rw [if_pos h]; exact .inl rfl

theorem tested {n m : Nat} {s : SRType × Nat} {imm : Word} :
    Shifted (([rg n, rg m] ++ (if s.2 ≠ 0 then [Operand.one (.shift s.1 s.2)] else [])).filterMap (Operand.item imm)) [R n, R m] s := by
  by_cases h : s.2 = 0
  · rw [if_neg (by simp [h])]; exact .inr ⟨h, rfl⟩
  · rw [if_pos h]; exact .inl rfl

theorem off_imm {t n v : Nat} {imm : Word} (h : v < 2 ^ 32) : ∃ o, (Off.imm (w32 v)).Written o ∧
    ((memOps t [.reg n false, .imm (v : Int) true]).filterMap (Operand.item imm)) = [R t, .mem (.reg n false :: o)] := by
  have hv : ((w32 v).toNat : Int) = v := by rw [w32, BitVec.toNat_ofNat, Nat.mod_eq_of_lt h]
  by_cases h0 : v = 0
  · subst h0
    exact ⟨[], .inr ⟨rfl, rfl⟩, rfl⟩
  · refine ⟨[.num v], .inl (by rw [hv]), ?_⟩
    have : Op1.piece imm (.imm (v : Int) true) = some (.num v) := by
      simp only [Op1.piece, if_true]
      rw [if_neg (by omega)]
    simp only [memOps, List.filterMap_cons, Operand.item, this]
    rfl

theorem lit {t v u : Nat} {imm : Word} (h : v < 2 ^ 32) :
    ((memOps t [.reg 15 false, .imm (if u = 1 then (v : Int) else -(v : Int)) true]).filterMap (Operand.item imm)) =
      [R t, .mem [.reg 15 false, .num (if decide (u = 1) then ((w32 v).toNat : Int) else -((w32 v).toNat : Int))]] ∨
    (w32 v = 0#32 ∧ ((memOps t [.reg 15 false, .imm (if u = 1 then (v : Int) else -(v : Int)) true]).filterMap (Operand.item imm)) =
      [R t, .mem [.reg 15 false]]) := by
  have hv : ((w32 v).toNat : Int) = v := by rw [w32, BitVec.toNat_ofNat, Nat.mod_eq_of_lt h]
  by_cases h0 : v = 0
  · subst h0
    by_cases hu : u = 1
    · simp only [if_pos hu]; exact .inr ⟨rfl, rfl⟩
    · simp only [if_neg hu]; exact .inr ⟨rfl, rfl⟩
  · refine .inl ?_
    have : Op1.piece imm (.imm (if u = 1 then (v : Int) else -(v : Int)) true) = some (.num (if decide (u = 1) then (v : Int) else -(v : Int))) := by
      simp only [Op1.piece, if_true, decide_eq_true_eq]
      rw [if_neg]
      split <;> omega
    simp only [memOps, List.filterMap_cons, Operand.item, this, hv]
    rfl

theorem lit_shown {t v : Nat} {imm : Word} (h : v < 2 ^ 32) :
    ((memOps t [.reg 15 false, .imm (v : Int) false]).filterMap (Operand.item imm)) =
      [R t, .mem [.reg 15 false, .num (if true then ((w32 v).toNat : Int) else -((w32 v).toNat : Int))]] := by
  have hv : ((w32 v).toNat : Int) = v := by rw [w32, BitVec.toNat_ofNat, Nat.mod_eq_of_lt h]
  rw [hv]
  rfl

theorem movw_bound {pat : Str} {w : Nat} (h1 : (places pat 'i').length = 4) (h2 : (places pat 'j').length = 1)
    (h3 : (places pat 'k').length = 3) (h4 : (places pat 'l').length = 8) :
    4096 * field pat w 'i' + 2048 * field pat w 'j' + 256 * field pat w 'k' + field pat w 'l' < 2 ^ 32 := by
  have := field_bound pat w 'i' h1
  have := field_bound pat w 'j' h2
  have := field_bound pat w 'k' h3
  have := field_bound pat w 'l' h4
  omega

theorem regs_items (l : BitVec 16) : members (BitVec.ofNat 16 (ofBV l).value) = members l :=
  congrArg members ((BitVec.ofNat_toNat ..).trans (by simp))

theorem list_items (l : BitVec 16) {imm : Word} : [Operand.one (.reglist (ofBV l))].filterMap (Operand.item imm) = [.one (.regs (members l))] :=
  congrArg (fun m => [Item.one (.regs m)]) (regs_items l)

theorem multi_items (n : Nat) (b : Bool) (l : BitVec 16) {imm : Word} : (multiOps n b (ofBV l)).filterMap (Operand.item imm) =
    [.one (.reg n b), .one (.regs (members l))] :=
  congrArg (fun m => [Item.one (.reg n b), .one (.regs m)]) (regs_items l)

theorem mrs_items (d : Nat) (v : BitVec 8) {imm : Word} : [rg d, .one (.special (ofBV v) none)].filterMap (Operand.item imm) =
    [R d, .one (.word (specialName v))] := by
  have e1 : BitVec.ofNat 8 (ofBV v).value = v := (BitVec.ofNat_toNat ..).trans (by simp)
  have e2 : shownBits v none = [] := by unfold shownBits; split <;> rfl
  show [R d, Item.one (.word (specialName (BitVec.ofNat 8 (ofBV v).value) ++ shownBits (BitVec.ofNat 8 (ofBV v).value) none))] = _
  rw [e1, e2, List.append_nil]

theorem cmp_reads {c : Case} {e : Enc} {m : Nat → Nat} (hc : c.enc = e) (ha : ∃ s, ∀ f, e.act f = .cmp s (f 'n') (.reg (f 'm')))
    (ho : ∀ f, c.ops f = [rg (f 'n'), rg (m (f 'n'))]) (hm : ∀ f a, Misread e f a ↔ f 'm' ≠ m (f 'n')) : c.Reads := by
  subst hc
  intro w a _
  obtain ⟨s, ha⟩ := ha
  rw [hm]
  unfold Written Case.items
  rw [ha, ho]
  show [R _, R _] = [R _, R _] ↔ _
  constructor
  · intro h; injection h with _ h; injection h with h _; injection h with h; injection h with h; simp [h]
  · intro h
    have : field c.enc.pat w 'm' = m (field c.enc.pat w 'n') := Classical.not_not.1 h
    rw [this]

theorem adr_reads {a : Int} {v : Nat} {add : Bool} (h : v < 2 ^ 32) (d : Nat) :
    (∃ x, [R d, Item.one (.label ((v : Int) + 4))] = [R d, .one (.label x)] ∧
      a + x = (a + 4) / 4 * 4 + (if add then ((w32 v).toNat : Int) else -((w32 v).toNat : Int))) ↔
    a % 4 = 0 ∧ (add = false → v = 0) := by
  have hv : ((w32 v).toNat : Int) = v := by rw [w32, BitVec.toNat_ofNat, Nat.mod_eq_of_lt h]
  rw [hv]
  constructor
  · rintro ⟨x, h1, h2⟩
    injection h1 with _ h1; injection h1 with h1 _; injection h1 with h1; injection h1 with h1
    subst h1
    cases add
    · simp at h2 ⊢; omega
    · simp at h2 ⊢; omega
  · rintro ⟨h1, h2⟩
    refine ⟨_, rfl, ?_⟩
    cases add
    · have := h2 rfl
      subst this
      simp; omega
    · simp; omega

/-- What the text of MSR would have to be. -/
def msrItems (n k s : Nat) : Prop :=
  [Item.one (.word (specialName (BitVec.ofNat 8 (ofBV (BitVec.ofNat 8 s)).value) ++ shownBits (BitVec.ofNat 8 (ofBV (BitVec.ofNat 8 s)).value)
    (some (BitVec.ofNat 2 (ofBV (BitVec.ofNat 2 k)).value)))), R n] =
  [Item.one (.word (specialName (BitVec.ofNat 8 s) ++ (if (BitVec.ofNat 8 s).toNat < 4 then bitsName (BitVec.ofNat 2 k) else []))), R n]

theorem msr_iff {n k s : Nat} (hk : k < 2 ^ 2) (hs : s < 2 ^ 8) (h0 : k ≠ 0) : msrItems n k s ↔ ¬ (s < 4 ∧ k ≠ 1) := by
  have e1 : BitVec.ofNat 8 (ofBV (BitVec.ofNat 8 s)).value = BitVec.ofNat 8 s := (BitVec.ofNat_toNat ..).trans (by simp)
  have e2 : BitVec.ofNat 2 (ofBV (BitVec.ofNat 2 k)).value = BitVec.ofNat 2 k := (BitVec.ofNat_toNat ..).trans (by simp)
  have e3 : (BitVec.ofNat 8 s).toNat = s := by rw [BitVec.toNat_ofNat, Nat.mod_eq_of_lt hs]
  have e4 : (BitVec.ofNat 2 k).toNat = k := by rw [BitVec.toNat_ofNat, Nat.mod_eq_of_lt hk]
  unfold msrItems
  rw [e1, e2]
  simp only [List.cons.injEq, Item.one.injEq, Piece.word.injEq, and_true, List.append_cancel_left_eq]
  unfold shownBits bitsName
  rw [e3, e4]
  by_cases h4 : s < 4
  · simp only [if_pos h4]
    rcases (by omega : k = 1 ∨ k = 2 ∨ k = 3) with rfl | rfl | rfl
    · simp
    · simp [h4]
    · simp [h4]
  · simp [h4]

theorem barrier (o : Nat) : [Item.one (if o = 15 then .word (c! "sy") else .num o)] = [if o = 15 then .one (.word (c! "sy")) else N o] := by
  split <;> rfl

end Wr

namespace Reads

theorem cmpRegT1 : Case.cmpRegT1.Reads :=
  Wr.cmp_reads (m := id) rfl ⟨_, fun _ => rfl⟩ (fun _ => rfl) fun f a => by simp [Misread, Case.cmpRegT1, Thumb.pushW, Thumb.cmpRegT1, Thumb.cmnReg, Thumb.cmpRegT2, Thumb.adrT1, Thumb.adrAddW, Thumb.adrSubW, Thumb.msr]

theorem cmnReg : Case.cmnReg.Reads :=
  Wr.cmp_reads (m := id) rfl ⟨_, fun _ => rfl⟩ (fun _ => rfl) fun f a => by simp [Misread, Case.cmnReg, Thumb.pushW, Thumb.cmpRegT1, Thumb.cmnReg, Thumb.cmpRegT2, Thumb.adrT1, Thumb.adrAddW, Thumb.adrSubW, Thumb.msr]

theorem cmpRegT2 : Case.cmpRegT2.Reads :=
  Wr.cmp_reads (m := (· % 8)) rfl ⟨_, fun _ => rfl⟩ (fun _ => rfl) fun f a => by simp [Misread, Case.cmpRegT2, Thumb.pushW, Thumb.cmpRegT1, Thumb.cmnReg, Thumb.cmpRegT2, Thumb.adrT1, Thumb.adrAddW, Thumb.adrSubW, Thumb.msr]

theorem adrT1 : Case.adrT1.Reads := fun w a _ => by
  refine (Wr.adr_reads (add := true) (Wr.bound2 (by decide) (by decide)) _).trans ?_
  simp [Misread, Case.adrT1, Thumb.pushW, Thumb.cmpRegT1, Thumb.cmnReg, Thumb.cmpRegT2, Thumb.adrT1, Thumb.adrAddW, Thumb.adrSubW, Thumb.msr]

theorem adrAddW : Case.adrAddW.Reads := fun w a _ => by
  refine (Wr.adr_reads (add := true) (Wr.bound1 (by decide)) _).trans ?_
  simp [Misread, Case.adrAddW, Thumb.pushW, Thumb.cmpRegT1, Thumb.cmnReg, Thumb.cmpRegT2, Thumb.adrT1, Thumb.adrAddW, Thumb.adrSubW, Thumb.msr]

theorem adrSubW : Case.adrSubW.Reads := fun w a _ => by
  refine (Wr.adr_reads (add := false) (Wr.bound1 (by decide)) _).trans ?_
  simp [Misread, Case.adrSubW, Thumb.pushW, Thumb.cmpRegT1, Thumb.cmnReg, Thumb.cmpRegT2, Thumb.adrT1, Thumb.adrAddW, Thumb.adrSubW, Thumb.msr]

theorem msr : Case.msr.Reads := fun w a h => by
  have hk : field Case.msr.enc.pat w 'k' < 2 ^ 2 := field_bound _ w 'k' rfl
  have hs : field Case.msr.enc.pat w 's' < 2 ^ 8 := field_bound _ w 's' rfl
  have hok : Thumb.msr.ok (field Case.msr.enc.pat w) = true := by
    have : (if Thumb.msr.ok (field Case.msr.enc.pat w) = true then none else some PyErr.unpredictable) = none := h
    split at this
    · assumption
    · cases this
  have hm : Misread Case.msr.enc (field Case.msr.enc.pat w) a ↔ field Case.msr.enc.pat w 's' < 4 ∧ field Case.msr.enc.pat w 'k' ≠ 1 := by
    simp [Misread, Case.msr, Thumb.pushW, Thumb.cmpRegT1, Thumb.cmnReg, Thumb.cmpRegT2, Thumb.adrT1, Thumb.adrAddW, Thumb.adrSubW, Thumb.msr]
  have hok' : field Case.msr.enc.pat w 'k' ≠ 0 := by
    have := of_decide_eq_true hok
    exact this.2.2.1
  rw [hm]
  show Wr.msrItems (field Case.msr.enc.pat w 'n') (field Case.msr.enc.pat w 'k') (field Case.msr.enc.pat w 's') ↔ _
  exact Wr.msr_iff hk hs hok'

theorem bics : Case.bics.Reads := reads_of (by decide) fun w a => .inr ⟨rfl, rfl⟩

theorem orrs : Case.orrs.Reads := reads_of (by decide) fun w a => .inr ⟨rfl, rfl⟩

theorem rorsReg : Case.rorsReg.Reads := reads_of (by decide) fun w a => .inr ⟨rfl, rfl⟩

theorem sbcs : Case.sbcs.Reads := reads_of (by decide) fun w a => .inr ⟨rfl, rfl⟩

theorem adcs : Case.adcs.Reads := reads_of (by decide) fun w a => .inr ⟨rfl, rfl⟩

theorem asrsReg : Case.asrsReg.Reads := reads_of (by decide) fun w a => .inr ⟨rfl, rfl⟩

theorem lsrsReg : Case.lsrsReg.Reads := reads_of (by decide) fun w a => .inr ⟨rfl, rfl⟩

theorem lslsReg : Case.lslsReg.Reads := reads_of (by decide) fun w a => .inr ⟨rfl, rfl⟩

theorem eors : Case.eors.Reads := reads_of (by decide) fun w a => .inr ⟨rfl, rfl⟩

theorem ands : Case.ands.Reads := reads_of (by decide) fun w a => .inr ⟨rfl, rfl⟩

theorem subsImmT1 : Case.subsImmT1.Reads := reads_of (by decide) fun w a => .inl rfl

theorem addsImmT1 : Case.addsImmT1.Reads := reads_of (by decide) fun w a => .inl rfl

theorem subsImmT2 : Case.subsImmT2.Reads := reads_of (by decide) fun w a => .inr ⟨rfl, rfl⟩

theorem addsImmT2 : Case.addsImmT2.Reads := reads_of (by decide) fun w a => .inr ⟨rfl, rfl⟩

theorem subsReg : Case.subsReg.Reads := reads_of (by decide) fun w a => .inl rfl

theorem addsReg : Case.addsReg.Reads := reads_of (by decide) fun w a => .inl rfl

theorem addRegT2 : Case.addRegT2.Reads := reads_of (by decide) fun w a => .inr ⟨rfl, rfl⟩

theorem addSpImmT1 : Case.addSpImmT1.Reads := reads_of (by decide) fun w a => Wr.three_num (Wr.bound2 (by decide) (by decide))

theorem addSpRegT1 : Case.addSpRegT1.Reads := reads_of (by decide) fun w a => .inl rfl

theorem addSpRegT2 : Case.addSpRegT2.Reads := reads_of (by decide) fun w a => .inr ⟨rfl, rfl⟩

theorem subSpImm : Case.subSpImm.Reads := reads_of (by decide) fun w a => Wr.two_num (Wr.bound2 (by decide) (by decide))

theorem addSpImmT2 : Case.addSpImmT2.Reads := reads_of (by decide) fun w a => Wr.two_num (Wr.bound2 (by decide) (by decide))

theorem asrsImm : Case.asrsImm.Reads := reads_of (by decide) fun w a => rfl

theorem lsrsImm : Case.lsrsImm.Reads := reads_of (by decide) fun w a => rfl

theorem lslsImm : Case.lslsImm.Reads := reads_of (by decide) fun w a => rfl

theorem rsbs : Case.rsbs.Reads := reads_of (by decide) fun w a => .inl rfl

theorem rsbW : Case.rsbW.Reads := reads_of (by decide) fun w a => .inl rfl

theorem muls : Case.muls.Reads := reads_of (by decide) fun w a => .inl rfl

theorem mulW : Case.mulW.Reads := reads_of (by decide) fun w a => .inl rfl

theorem uxtb : Case.uxtb.Reads := reads_of (by decide) fun w a => .inr ⟨rfl, rfl⟩

theorem uxth : Case.uxth.Reads := reads_of (by decide) fun w a => .inr ⟨rfl, rfl⟩

theorem sxtb : Case.sxtb.Reads := reads_of (by decide) fun w a => .inr ⟨rfl, rfl⟩

theorem sxth : Case.sxth.Reads := reads_of (by decide) fun w a => .inr ⟨rfl, rfl⟩

theorem uxtbW : Case.uxtbW.Reads := reads_of (by decide) fun w a => Wr.extended

theorem uxthW : Case.uxthW.Reads := reads_of (by decide) fun w a => Wr.extended

theorem sxtbW : Case.sxtbW.Reads := reads_of (by decide) fun w a => Wr.extended

theorem sxthW : Case.sxthW.Reads := reads_of (by decide) fun w a => Wr.extended

theorem revsh : Case.revsh.Reads := reads_of (by decide) fun w a => rfl

theorem rev16 : Case.rev16.Reads := reads_of (by decide) fun w a => rfl

theorem rev : Case.rev.Reads := reads_of (by decide) fun w a => rfl

theorem revshW : Case.revshW.Reads := reads_of (by decide) fun w a => rfl

theorem rev16W : Case.rev16W.Reads := reads_of (by decide) fun w a => rfl

theorem revW : Case.revW.Reads := reads_of (by decide) fun w a => rfl

theorem movReg : Case.movReg.Reads := reads_of (by decide) fun w a => rfl

theorem movsReg : Case.movsReg.Reads := reads_of (by decide) fun w a => rfl

theorem movRegW : Case.movRegW.Reads := reads_of (by decide) fun w a => rfl

theorem movsImm : Case.movsImm.Reads := reads_of (by decide) fun w a => Wr.pair_num (Wr.bound1 (by decide))

theorem movImmW : Case.movImmW.Reads := reads_of (by decide) fun w a => rfl

theorem movw : Case.movw.Reads := reads_of (by decide) fun w a => Wr.pair_num (Wr.movw_bound (by decide) (by decide) (by decide) (by decide))

theorem mvns : Case.mvns.Reads := reads_of (by decide) fun w a => rfl

theorem mvnW : Case.mvnW.Reads := reads_of (by decide) fun w a => .inl rfl

theorem cmpImm : Case.cmpImm.Reads := reads_of (by decide) fun w a => Wr.pair_num (Wr.bound1 (by decide))

theorem cmnImm : Case.cmnImm.Reads := reads_of (by decide) fun w a => rfl

theorem cmpImmW : Case.cmpImmW.Reads := reads_of (by decide) fun w a => rfl

theorem tst : Case.tst.Reads := reads_of (by decide) fun w a => .inr ⟨rfl, rfl⟩

theorem tstW : Case.tstW.Reads := reads_of (by decide) fun w a => Wr.tested

theorem bCond : Case.bCond.Reads := reads_of (by decide) fun w a => rfl

theorem b : Case.b.Reads := reads_of (by decide) fun w a => rfl

theorem bl : Case.bl.Reads := reads_of (by decide) fun w a => rfl

theorem blx : Case.blx.Reads := reads_of (by decide) fun w a => rfl

theorem bx : Case.bx.Reads := reads_of (by decide) fun w a => rfl

theorem ldrshReg : Case.ldrshReg.Reads := reads_of (by decide) fun w a => ⟨_, .inr ⟨rfl, rfl⟩, rfl⟩

theorem ldrbReg : Case.ldrbReg.Reads := reads_of (by decide) fun w a => ⟨_, .inr ⟨rfl, rfl⟩, rfl⟩

theorem ldrhReg : Case.ldrhReg.Reads := reads_of (by decide) fun w a => ⟨_, .inr ⟨rfl, rfl⟩, rfl⟩

theorem ldrReg : Case.ldrReg.Reads := reads_of (by decide) fun w a => ⟨_, .inr ⟨rfl, rfl⟩, rfl⟩

theorem ldrsbReg : Case.ldrsbReg.Reads := reads_of (by decide) fun w a => ⟨_, .inr ⟨rfl, rfl⟩, rfl⟩

theorem strbReg : Case.strbReg.Reads := reads_of (by decide) fun w a => ⟨_, .inr ⟨rfl, rfl⟩, rfl⟩

theorem strhReg : Case.strhReg.Reads := reads_of (by decide) fun w a => ⟨_, .inr ⟨rfl, rfl⟩, rfl⟩

theorem strReg : Case.strReg.Reads := reads_of (by decide) fun w a => ⟨_, .inr ⟨rfl, rfl⟩, rfl⟩

theorem strRegW : Case.strRegW.Reads := reads_of (by decide) fun w a => ⟨_, .inl rfl, rfl⟩

theorem strhRegW : Case.strhRegW.Reads := reads_of (by decide) fun w a => ⟨_, .inl rfl, rfl⟩

theorem strbRegW : Case.strbRegW.Reads := reads_of (by decide) fun w a => ⟨_, .inl rfl, rfl⟩

theorem ldrshRegW : Case.ldrshRegW.Reads := reads_of (by decide) fun w a => ⟨_, .inl rfl, rfl⟩

theorem ldrsbRegW : Case.ldrsbRegW.Reads := reads_of (by decide) fun w a => ⟨_, .inl rfl, rfl⟩

theorem ldrRegW : Case.ldrRegW.Reads := reads_of (by decide) fun w a => ⟨_, .inl rfl, rfl⟩

theorem ldrhRegW : Case.ldrhRegW.Reads := reads_of (by decide) fun w a => ⟨_, .inl rfl, rfl⟩

theorem ldrbRegW : Case.ldrbRegW.Reads := reads_of (by decide) fun w a => ⟨_, .inl rfl, rfl⟩

theorem ldrhImm : Case.ldrhImm.Reads := reads_of (by decide) fun w a => Wr.off_imm (Wr.bound2 (by decide) (by decide))

theorem strhImm : Case.strhImm.Reads := reads_of (by decide) fun w a => Wr.off_imm (Wr.bound2 (by decide) (by decide))

theorem ldrbImm : Case.ldrbImm.Reads := reads_of (by decide) fun w a => Wr.off_imm (Wr.bound1 (by decide))

theorem strbImm : Case.strbImm.Reads := reads_of (by decide) fun w a => Wr.off_imm (Wr.bound1 (by decide))

theorem ldrImm : Case.ldrImm.Reads := reads_of (by decide) fun w a => Wr.off_imm (Wr.bound2 (by decide) (by decide))

theorem strImm : Case.strImm.Reads := reads_of (by decide) fun w a => Wr.off_imm (Wr.bound2 (by decide) (by decide))

theorem ldrLit : Case.ldrLit.Reads := reads_of (by decide) fun w a => .inl (Wr.lit_shown (Wr.bound2 (by decide) (by decide)))

theorem ldrsbLitW : Case.ldrsbLitW.Reads := reads_of (by decide) fun w a => Wr.lit (Wr.bound1 (by decide))

theorem ldrshLitW : Case.ldrshLitW.Reads := reads_of (by decide) fun w a => Wr.lit (Wr.bound1 (by decide))

theorem ldrbLitW : Case.ldrbLitW.Reads := reads_of (by decide) fun w a => Wr.lit (Wr.bound1 (by decide))

theorem ldrhLitW : Case.ldrhLitW.Reads := reads_of (by decide) fun w a => Wr.lit (Wr.bound1 (by decide))

theorem ldrLitW : Case.ldrLitW.Reads := reads_of (by decide) fun w a => Wr.lit (Wr.bound1 (by decide))

theorem ldrSp : Case.ldrSp.Reads := reads_of (by decide) fun w a => Wr.off_imm (Wr.bound2 (by decide) (by decide))

theorem strSp : Case.strSp.Reads := reads_of (by decide) fun w a => Wr.off_imm (Wr.bound2 (by decide) (by decide))

theorem push : Case.push.Reads := reads_of (by decide) fun w a => Wr.list_items _

theorem pushW : Case.pushW.Reads := fun w a h => by cases h

theorem pushOne : Case.pushOne.Reads := reads_of (by decide) fun w a => Wr.list_items _

theorem pop : Case.pop.Reads := reads_of (by decide) fun w a => Wr.list_items _

theorem popW : Case.popW.Reads := reads_of (by decide) fun w a => Wr.list_items _

theorem popOne : Case.popOne.Reads := reads_of (by decide) fun w a => Wr.list_items _

theorem ldm : Case.ldm.Reads := reads_of (by decide) fun w a => Wr.multi_items _ _ _

theorem stm : Case.stm.Reads := reads_of (by decide) fun w a => Wr.multi_items _ _ _

theorem stmW : Case.stmW.Reads := reads_of (by decide) fun w a => Wr.multi_items _ _ _

theorem ldmW : Case.ldmW.Reads := reads_of (by decide) fun w a => Wr.multi_items _ _ _

theorem cps : Case.cps.Reads := reads_of (by decide) fun w a => rfl

theorem bkpt : Case.bkpt.Reads := reads_of (by decide) fun w a => by rfl

theorem mrs : Case.mrs.Reads := reads_of (by decide) fun w a => Wr.mrs_items _ _

theorem sev : Case.sev.Reads := reads_of (by decide) fun w a => by rfl

theorem wfi : Case.wfi.Reads := reads_of (by decide) fun w a => by rfl

theorem wfe : Case.wfe.Reads := reads_of (by decide) fun w a => by rfl

theorem yield : Case.yield.Reads := reads_of (by decide) fun w a => by rfl

theorem nop : Case.nop.Reads := reads_of (by decide) fun w a => by rfl

theorem isb : Case.isb.Reads := reads_of (by decide) fun w a => Wr.barrier _

theorem dmb : Case.dmb.Reads := reads_of (by decide) fun w a => Wr.barrier _

theorem dsb : Case.dsb.Reads := reads_of (by decide) fun w a => Wr.barrier _

theorem svc : Case.svc.Reads := reads_of (by decide) fun w a => by rfl

theorem udf : Case.udf.Reads := reads_of (by decide) fun w a => by rfl

theorem udfW : Case.udfW.Reads := reads_of (by decide) fun w a => by rfl

end Reads

theorem reads_all : ∀ c ∈ Case.all, c.Reads := by
  simp only [Case.all, List.forall_mem_cons]
  exact ⟨Reads.bics, Reads.orrs, Reads.rorsReg, Reads.sbcs, Reads.adcs, Reads.asrsReg, Reads.lsrsReg, Reads.lslsReg, Reads.eors, Reads.ands, Reads.subsImmT1, Reads.addsImmT1, Reads.subsImmT2, Reads.addsImmT2, Reads.subsReg, Reads.addsReg, Reads.addRegT2, Reads.addSpImmT1, Reads.addSpRegT1, Reads.addSpRegT2, Reads.subSpImm, Reads.addSpImmT2, Reads.asrsImm, Reads.lsrsImm, Reads.lslsImm, Reads.rsbs, Reads.rsbW, Reads.muls, Reads.mulW, Reads.adrT1, Reads.adrAddW, Reads.adrSubW, Reads.uxtb, Reads.uxth, Reads.sxtb, Reads.sxth, Reads.uxtbW, Reads.uxthW, Reads.sxtbW, Reads.sxthW, Reads.revsh, Reads.rev16, Reads.rev, Reads.revshW, Reads.rev16W, Reads.revW, Reads.movReg, Reads.movsReg, Reads.movRegW, Reads.movsImm, Reads.movImmW, Reads.movw, Reads.mvns, Reads.mvnW, Reads.cmpImm, Reads.cmnReg, Reads.cmpRegT1, Reads.cmpRegT2, Reads.cmnImm, Reads.cmpImmW, Reads.tst, Reads.tstW, Reads.bCond, Reads.b, Reads.bl, Reads.blx, Reads.bx, Reads.ldrshReg, Reads.ldrbReg, Reads.ldrhReg, Reads.ldrReg, Reads.ldrsbReg, Reads.strbReg, Reads.strhReg, Reads.strReg, Reads.strRegW, Reads.strhRegW, Reads.strbRegW, Reads.ldrshRegW, Reads.ldrsbRegW, Reads.ldrRegW, Reads.ldrhRegW, Reads.ldrbRegW, Reads.ldrhImm, Reads.strhImm, Reads.ldrbImm, Reads.strbImm, Reads.ldrImm, Reads.strImm, Reads.ldrLit, Reads.ldrsbLitW, Reads.ldrshLitW, Reads.ldrbLitW, Reads.ldrhLitW, Reads.ldrLitW, Reads.ldrSp, Reads.strSp, Reads.push, Reads.pushW, Reads.pushOne, Reads.pop, Reads.popW, Reads.popOne, Reads.ldm, Reads.stm, Reads.stmW, Reads.ldmW, Reads.cps, Reads.bkpt, Reads.mrs, Reads.msr, Reads.sev, Reads.wfi, Reads.wfe, Reads.yield, Reads.nop, Reads.isb, Reads.dmb, Reads.dsb, Reads.svc, Reads.udf, Reads.udfW, fun x h => nomatch h⟩

def allReadable : List Operand → Prop
  | [] => True
  | o :: t => o.Readable ∧ allReadable t

theorem allReadable_ite {c : Prop} [Decidable c] {l m : List Operand} (h1 : allReadable l) (h2 : allReadable m) :
    allReadable (if c then l else m) := by
  split <;> assumption

theorem allReadable_mem : ∀ {l : List Operand}, allReadable l ↔ ∀ o ∈ l, o.Readable
  | [] => by simp [allReadable]
  | o :: t => by simp [allReadable, allReadable_mem]

theorem immShift_some (t i : Nat) : (immShift t i).1 ≠ .none := by
  unfold immShift
  have : ∀ (x : BitVec 2) (y : BitVec 5), (C18.armImmShift x y).1 ≠ .none := by decide +kernel
  exact this _ _

def Op1.isShift : Op1 → Bool
  | .shift _ _ => true
  | _ => false

theorem readable_shift {t : SRType} {k : Nat} (h : t ≠ .none) : (Operand.one (.shift t k)).Readable := by
  intro t' k' e
  injection e with e
  exact e ▸ h

theorem ops_readable : ∀ c ∈ Case.all, ∀ w, allReadable (c.ops (field c.enc.pat w)) := by
  have h0 : ∀ {o : Op1}, o.isShift = false → (Operand.one o).Readable := fun h t k e => by subst e; cases h
  simp only [Case.all, List.forall_mem_cons]
  repeat' refine And.intro ?_ ?_
  all_goals first
    | exact fun w => trivial
    | exact fun w => ⟨h0 rfl, trivial⟩
    | exact fun w => ⟨h0 rfl, h0 rfl, trivial⟩
    | exact fun w => ⟨h0 rfl, h0 rfl, h0 rfl, trivial⟩
    | exact fun w => ⟨h0 rfl, ⟨⟨_, _, _, rfl⟩, rfl⟩, trivial⟩
    | exact fun w => ⟨h0 rfl, h0 rfl, readable_shift (immShift_some _ _), trivial⟩
    | exact fun w => ⟨h0 rfl, h0 rfl, allReadable_ite ⟨readable_shift (immShift_some _ _), trivial⟩ trivial⟩
    | exact fun w => ⟨h0 rfl, h0 rfl, allReadable_ite ⟨readable_shift (t := .ror) (by decide), trivial⟩ trivial⟩
    | exact fun x h => nomatch h

theorem attr_const : ∀ c ∈ Case.all, ∀ w, (c.ops (field c.enc.pat w)).any Operand.isAttr = false ∨
    ∃ sub carry flags d n v, c.act (field c.enc.pat w) = .addSub sub carry flags d n (.imm v) ∧ (c.enc.act (field c.enc.pat w)).constant = v := by
  simp only [Case.all, List.forall_mem_cons]
  repeat' refine And.intro ?_ ?_
  all_goals first
    | exact fun w => .inl rfl
    | exact fun w => .inr ⟨_, _, _, _, _, _, rfl, rfl⟩
    | exact fun w => .inl (any_ite (l := [.one (.shift _ _)]) rfl)
    | exact fun x h => nomatch h

theorem any_barrier_ite {c : Prop} [Decidable c] {l : List Operand} (h : l.any Operand.isBarrier = false) :
    (if c then l else []).any Operand.isBarrier = false := by
  split
  · exact h
  · rfl

theorem barrier_ops : ∀ c ∈ Case.all, ∀ w, c.enc.mnem (field c.enc.pat w) ∉ [c! "isb", c! "dmb", c! "dsb"] →
    (c.ops (field c.enc.pat w)).any Operand.isBarrier = false := by
  simp only [Case.all, List.forall_mem_cons]
  repeat' refine And.intro ?_ ?_
  all_goals first
    | exact fun w _ => rfl
    | exact fun w h => (h (.head _)).elim
    | exact fun w h => (h (.tail _ (.head _))).elim
    | exact fun w h => (h (.tail _ (.tail _ (.head _)))).elim
    | exact fun w _ => any_barrier_ite (l := [.one (.shift _ _)]) rfl
    | exact fun x h => nomatch h

/-- The text of a decoded instruction, operand by operand. -/
theorem decoded_reads {c : Case} {w : Nat} {b : Bool} {a : Int} {i : Instr} (h : Decoded c w b a i) {ss cs : List Str} {os : List Operand}
    (hf : formatEach (Operand.format i) i.operands = .ok (ss, cs, os)) :
    ss.map Reader.item = (c.items (field c.enc.pat w)).map some ∧
      (c.enc.mnem (field c.enc.pat w) ∉ [c! "isb", c! "dmb", c! "dsb"] →
        cs.map Reader.hex = ((c.items (field c.enc.pat w)).flatMap (Item.noted a)).map some) := by
  have hok := C64.allOK_mem.1 (ops_ok c h.mem w)
  have hrd := allReadable_mem.1 (ops_readable c h.mem w)
  have hat : ∀ o ∈ c.ops (field c.enc.pat w), o.isAttr = true → i.imm32 = some (ofBV (c.enc.act (field c.enc.pat w)).constant) := by
    intro o ho ha
    rcases attr_const c h.mem w with hn | ⟨sub, carry, flags, d, n, v, he, hv⟩
    · rw [List.any_eq_false] at hn
      exact absurd ha (hn o ho)
    · have := h.act
      rw [he] at this
      rw [hv]
      exact this.2.2.2.2.2.2.2
  rw [h.operands] at hf
  have := each_reads (g := Operand.item (c.enc.act (field c.enc.pat w)).constant) (rd := Reader.item) (nt := Item.noted i.address)
    (bar := Operand.isBarrier) hf fun o ho x hx => operand_reads (hok o ho) (hrd o ho) (hat o ho) x hx
  rw [h.address] at this
  exact ⟨this.1, fun hm => this.2 (barrier_ops c h.mem w hm)⟩

end Verif
