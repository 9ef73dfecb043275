import Verif.Props.C72to73
import Verif.Props.C59to62
import Verif.Lemmas.Wide
import Verif.Lemmas.Sample

/-!
# C104: the narrow and the wide form of an instruction do the same
-/

namespace Verif
open BS CpuM Thumb

namespace C104

/-! ### The effect of an action depends on the size only through PC -/

/-- The next instruction is not the one that follows. -/
def jumps (a : Arm) : Act → Bool
  | .branch cond _ => a.holds cond
  | .bl _ | .blx _ | .bx _ => true
  | .pop r | .ldm _ _ r => r.getLsbD 15
  | _ => false

theorem goes_jumps {act : Act} {x : Bool} (h : goes act = some x) (a : Arm) : jumps a act = x := by
  cases act <;> simp only [goes, Option.some.injEq, reduceCtorEq] at h <;> exact h

/-- The same, PC some bytes further if the instruction went on to the next. -/
def later (jump : Bool) (n : Nat) : PyRes Unit × Arm → PyRes Unit × Arm
  | (.ok (), b) => (.ok (), if jump then b else b.next n)
  | r => r

theorem next_add (a : Arm) (m n : Nat) : a.next (m + n) = (a.next m).next n := by
  unfold Arm.next
  apply Arm.ext
  · funext k
    simp only [reg_set]
    by_cases h : k = 15
    · subst h
      simp only [true_or, if_true]
      have k15 : ∀ v, keepBits 15 v = v := fun v => keepBits_plain (d := 15) (by decide) (by decide) v
      rw [k15, k15, k15, BitVec.add_assoc, BitVec.ofNat_add]
    · rw [if_neg (by omega), if_neg (by omega), if_neg (by omega)]
  · rfl
  · rfl

theorem writeBack_next (a : Arm) (n : Nat) (wb : Bool) (r : BitVec 16) (k : Nat) :
    (a.next k).writeBack n wb r = (a.writeBack n wb r).next k := by
  unfold Arm.writeBack
  split
  · unfold Arm.next
    apply Arm.ext
    · funext j
      simp only [reg_set]
      have k15 : ∀ v, keepBits 15 v = v := fun v => keepBits_plain (d := 15) (by decide) (by decide) v
      by_cases hn : n = 15
      · subst hn
        by_cases hj : j = 15
        · subst hj
          simp [k15]
          rw [BitVec.add_assoc, BitVec.add_comm (BitVec.ofNat 32 k), ← BitVec.add_assoc]
        · rw [if_neg (by omega), if_neg (by omega), if_neg (by omega), if_neg (by omega)]
      · by_cases hj : j = 15
        · subst hj
          rw [if_neg (by omega), if_pos (by omega), if_pos (by omega), if_neg (by omega)]
        · rw [if_neg (c := j = 15 ∨ _) (by omega), if_neg (c := (n : Int) = 15 ∨ _) (by omega), if_neg (c := j = 15 ∨ _) (by omega)]
    · rfl
    · rfl
  · rfl

theorem loadRegs_longer (a : Arm) (m n : Nat) (r : BitVec 16) (addr : Word) :
    a.loadRegs (m + n) r addr = later (r.getLsbD 15) n (a.loadRegs m r addr) := by
  unfold Arm.loadRegs
  split
  · unfold Arm.loadPc
    by_cases h : r.getLsbD 15 = true
    · rw [if_pos h, if_pos h]
      split <;> simp only [later, h, if_true]
    · rw [if_neg h, if_neg h]
      simp only [later, if_neg h, next_add]
  · rfl

/-- A longer instruction of the same action. -/
theorem effect_longer (act : Act) (a : Arm) (m n : Nat) : act.effect (m + n) a = later (jumps a act) n (act.effect m a) := by
  cases act with
  | branch cond offset =>
    simp only [Act.effect, jumps, later]
    split
    · rfl
    · rw [next_add]
  | load sz sgn t n off =>
    simp only [Act.effect, jumps, Arm.loadTo]
    split
    · simp only [later, Arm.afterWrite, next_add, Bool.false_eq_true, if_false]
    · rfl
  | loadLit sz sgn add t imm =>
    simp only [Act.effect, jumps, Arm.loadTo]
    split
    · simp only [later, Arm.afterWrite, next_add, Bool.false_eq_true, if_false]
    · rfl
  | mrs d s =>
    simp only [Act.effect, jumps, Arm.mrs]
    split
    · simp only [later, Arm.afterWrite, next_add, Bool.false_eq_true, if_false]
    · rfl
  | pop r =>
    simp only [Act.effect, jumps]
    exact loadRegs_longer ..
  | ldm k wb r =>
    simp only [Act.effect, jumps, Arm.ldm, loadRegs_longer (m := m) (n := n)]
    cases hr : a.loadRegs m r (a.reg k) with
    | mk e b =>
      cases e with
      | error e => rfl
      | ok u =>
        cases u
        simp only [later]
        split
        · rfl
        · rw [writeBack_next]
  | mvnShift => rfl
  | bl => rfl
  | blx => rfl
  | bx => rfl
  | _ => simp only [Act.effect, jumps, later, Arm.afterAdd, Arm.afterOp, Arm.afterWrite, next_add, Bool.false_eq_true, if_false]

theorem plain_armShift (x : Word) (c : Bool) (sh : SRType × Nat) :
    C18.armShift x c (plainShift sh).1 (plainShift sh).2 = C18.armShift x c sh.1 sh.2 := by
  obtain ⟨t, k⟩ := sh
  cases t <;> simp only [plainShift] <;> by_cases h : k = 0 <;> simp [h, C18.armShift]

theorem off_normal (off : Off) (a : Arm) : off.normal.got a = off.got a := by
  cases off with
  | imm => rfl
  | reg m sh => simp only [Off.normal, Off.got, plain_armShift]

theorem add_zero {add : Bool} {x y : Word} :
    (if (add || y == 0#32) = true then x + y else x - y) = if add = true then x + y else x - y := by
  by_cases h : y = 0#32
  · subst h; cases add <;> simp
  · simp [h]

/-- Ways to write the same action have the same effect. -/
theorem effect_normal (act : Act) (size : Nat) (a : Arm) : act.normal.effect size a = act.effect size a := by
  cases act with
  | adr add d imm => simp only [Act.normal, Act.effect, add_zero]
  | loadLit sz sgn add t imm => simp only [Act.normal, Act.effect, add_zero]
  | mov neg flags d src carry => cases flags <;> rfl
  | tst n m sh => simp only [Act.normal, Act.effect, plain_armShift]
  | load sz sgn t n off => simp only [Act.normal, Act.effect, off_normal]
  | store sz t n off => simp only [Act.normal, Act.effect, off_normal]
  | _ => rfl

/-! ### Two objects of the same action -/

/-- The second state is the first, PC some bytes further. -/
def Further (n : Nat) (t t' : Machine) : Prop :=
  t'.mem = t.mem ∧ (∀ k, k ≠ some 15 → t'.regs k = t.regs k) ∧
    ∃ v : Int, t.regs (some 15) = some v ∧ t'.regs (some 15) = some ((v + n) % 2 ^ 32)

/-- Executing two objects: both raise the same exception and leave the same state, or both end normally, and the
states are the same but for PC, which is `n` further after the second. -/
def Alike (n : Nat) (x y : PyRes Instr × Machine) : Prop :=
  (∃ e, x.1 = .error e ∧ y.1 = .error e ∧ y.2 = x.2) ∨
    ((∃ i, x.1 = .ok i) ∧ (∃ j, y.1 = .ok j) ∧ Further n x.2 y.2)

theorem further_next (a : Arm) (n : Nat) : Further n a.conc (a.next n).conc := by
  have h15 : (15 : Int) ∈ coreIndices := by decide
  refine ⟨rfl, fun k hk => ?_, (a.reg 15).toNat, conc_core a h15, ?_⟩
  · cases k with
    | none => rfl
    | some k =>
      have : k ≠ 15 := fun h => hk (by rw [h])
      simp only [Arm.conc, Arm.next, reg_set_ne a _ this (by omega) (by omega)]
      rfl
  · rw [conc_core _ h15, Arm.next, reg_set, if_pos (by omega),
      show keepBits 15 _ = _ from keepBits_plain (d := 15) (by decide) (by decide) _, BitVec.toNat_add, BitVec.toNat_ofNat]
    congr 1
    omega

theorem further_zero (a : Arm) : Further 0 a.conc a.conc := by
  have h15 : (15 : Int) ∈ coreIndices := by decide
  refine ⟨rfl, fun _ _ => rfl, (a.reg 15).toNat, conc_core a h15, ?_⟩
  rw [conc_core a h15]
  have := (a.reg 15).isLt
  congr 1
  omega

/-- **C104.** Objects of the same action and of any sizes do the same, in any state with 32-bit registers. -/
theorem same_action {act act' : Act} {i j : Instr} (hi : act.Of i) (hj : act'.Of j) (hv : act.Valid) (hv' : act'.Valid)
    (hn : act.normal = act'.normal) {n : Nat} (hs : j.size = i.size + n) (a : Arm) :
    Alike (if jumps a act then 0 else n) (i.eval a.conc) (j.eval a.conc) := by
  rw [eval_exact hi hv, eval_exact hj hv', ← effect_normal act', ← hn, effect_normal, hs, effect_longer]
  cases h : act.effect i.size a with
  | mk r b =>
    cases r with
    | error e => exact .inl ⟨e, rfl, rfl, rfl⟩
    | ok u =>
      cases u
      refine .inr ⟨⟨_, rfl⟩, ⟨_, rfl⟩, ?_⟩
      show Further _ b.conc (Arm.conc (if jumps a act then b else b.next n))
      cases jumps a act
      · exact further_next b n
      · exact further_zero b

/-! ### Narrow and wide words -/

theorem lengths : families.all (fun f => f.narrow.pat.length == 16 && f.wide.pat.length == 32) = true := by decide +kernel

theorem not_misread {f : Family} (hf : f ∈ families) (g : Char → Nat) : ¬ Wrong f.narrow g ∧ ¬ Wrong f.wide g := by
  have h : families.all (fun f => decide (f.narrow.pat ∉ [Thumb.pushW.pat, Thumb.cmpRegT1.pat, Thumb.cmnReg.pat, Thumb.cmpRegT2.pat,
      Thumb.bCond.pat, Thumb.b.pat, Thumb.bl.pat] ∧ f.wide.pat ∉ [Thumb.pushW.pat, Thumb.cmpRegT1.pat, Thumb.cmnReg.pat,
      Thumb.cmpRegT2.pat, Thumb.bCond.pat, Thumb.b.pat, Thumb.bl.pat])) = true := by decide +kernel
  have := of_decide_eq_true (List.all_eq_true.1 h f hf)
  exact ⟨not_wrong this.1 g, not_wrong this.2 g⟩

/-- Decoding a word that is not misread. -/
theorem decodes {e : Enc} (he : e ∈ encodings) {w : Nat} (h : e.Is w) (hx : ¬ Wrong e (field e.pat w)) {rest : List Nat}
    (hr : ∀ b ∈ rest, b < 256) (address : Int) :
    ∃ i, (trees.decode (C38.bytesOf e w ++ rest) address).1 = .ok i ∧ (e.act (field e.pat w)).Of i ∧ i.size = e.pat.length / 8 := by
  obtain ⟨k, hk, rfl⟩ := C38.caseOf he
  obtain ⟨ha, hn⟩ := (agrees k hk w h.2.1 h.2.2).1 hx
  rw [← ha]
  exact case_decodes hk h hn rest hr address

/-- **C104.** Every narrow word of the families and its wide form, at any addresses and whatever follows them: both
are decoded, and executing the objects in the same state raises the same exception and leaves the same state, or
ends normally with the same memory and registers, but for PC, which is two bytes further after the wide form, or is
the same if it was popped. -/
theorem narrow_wide {f : Family} (hf : f ∈ families) {w : Nat} (h1 : f.first ≤ w) (h2 : w < f.first + f.count) (ho : f.only w = true)
    {rest rest' : List Nat} (hr : ∀ b ∈ rest, b < 256) (hr' : ∀ b ∈ rest', b < 256) (x y : Int) {s : Machine} (hs : Regs32 s) :
    ∃ i j, (trees.decode ([w % 256, w / 256] ++ rest) x).1 = .ok i ∧
      (trees.decode ([f.word w % 256, f.word w / 256 % 256, f.word w / 65536 % 256, f.word w / 16777216] ++ rest') y).1 = .ok j ∧
      Alike (if popsPc w then 0 else 2) (i.eval s) (j.eval s) := by
  obtain ⟨i1, i2, hn, hg⟩ := pairs f hf w h1 h2 ho
  have hl := List.all_eq_true.1 lengths f hf
  simp only [Bool.and_eq_true, beq_iff_eq] at hl
  obtain ⟨e1, e2⟩ := listed f hf
  obtain ⟨i, c1, c2, c3⟩ := decodes e1 i1 (not_misread hf _).1 hr x
  obtain ⟨j, d1, d2, d3⟩ := decodes e2 i2 (not_misread hf _).2 hr' y
  have q1 : C38.bytesOf f.narrow w = [w % 256, w / 256] := by unfold C38.bytesOf; rw [if_neg (by omega)]
  have q2 : C38.bytesOf f.wide (f.word w) = [f.word w % 256, f.word w / 256 % 256, f.word w / 65536 % 256, f.word w / 16777216] := by
    unfold C38.bytesOf; rw [if_pos hl.2]
  rw [q1] at c1
  rw [q2] at d1
  refine ⟨i, j, c1, d1, ?_⟩
  obtain ⟨a, rfl⟩ := hs.arm
  have hsz : j.size = i.size + 2 := by rw [c3, d3, hl.1, hl.2]
  have := same_action c2 d2 (encoding_valid _ e1 w i1 (not_misread hf _).1) (encoding_valid _ e2 _ i2 (not_misread hf _).2) hn hsz a
  rw [goes_jumps hg a] at this
  exact this

/-- **C104.** The wide form of MVN raises NameError in every state. -/
theorem mvn_wide (w : Nat) (h : mvnW.Is w) {rest : List Nat} (hr : ∀ b ∈ rest, b < 256) (x : Int) {s : Machine} (hs : Regs32 s) :
    ∃ i, (trees.decode (C38.bytesOf mvnW w ++ rest) x).1 = .ok i ∧ i.eval s = (.error .nameError, s) := by
  have he : mvnW ∈ encodings := by simp [encodings]
  have hx : ¬ Wrong mvnW (field mvnW.pat w) := not_wrong (by decide) _
  obtain ⟨i, h1, h2, -⟩ := decodes he h hx hr x
  obtain ⟨a, rfl⟩ := hs.arm
  exact ⟨i, h1, eval_exact h2 (encoding_valid _ he w h hx) a⟩

/-- **C104.** The wide form of PUSH of a list cannot be decoded. -/
theorem push_wide (w : Nat) (h : pushW.Is w) {rest : List Nat} (hr : ∀ b ∈ rest, b < 256) (x : Int) :
    (trees.decode (C38.bytesOf pushW w ++ rest) x).1 = .error .nameError := C38.push_w_fails w h rest hr x

/-- `movs r1, #200` and `movs.w r1, #200`. -/
example : ranRegs [0xc8, 0x21] (sample [(15, 0x100)]) [1, 15] = some [some 200, some 0x102] ∧
    ranRegs [0x5f, 0xf0, 0xc8, 0x01] (sample [(15, 0x100)]) [1, 15] = some [some 200, some 0x104] := by
  refine ⟨?_, ?_⟩ <;> simp only [ranRegs, ran] <;> rw [trees, decoders_eq] <;> decide +kernel

/-- `pop {r0, pc}` and `pop.w {r0, pc}`. -/
example : ranRegs [0x01, 0xbd] (sample [(13, 0x10)] [⟨0x10, 0x17, [1, 2, 3, 4, 5, 6, 7, 8]⟩]) [0, 13, 15] =
      some [some 0x04030201, some 0x18, some 0x08070605] ∧
    ranRegs [0xbd, 0xe8, 0x01, 0x80] (sample [(13, 0x10)] [⟨0x10, 0x17, [1, 2, 3, 4, 5, 6, 7, 8]⟩]) [0, 13, 15] =
      some [some 0x04030201, some 0x18, some 0x08070605] := by
  refine ⟨?_, ?_⟩ <;> simp only [ranRegs, ran] <;> rw [trees, decoders_eq] <;> decide +kernel

/-- `mvns r1, r2` works, `mvns.w r1, r2` does not. -/
example : ranRegs [0xd1, 0x43] (sample [(2, 5)]) [1] = some [some 0xfffffffa] ∧ ranRegs [0x7f, 0xea, 0x02, 0x01] (sample [(2, 5)]) [1] = none := by
  refine ⟨?_, ?_⟩ <;> simp only [ranRegs, ran] <;> rw [trees, decoders_eq] <;> decide +kernel

end C104
end Verif
