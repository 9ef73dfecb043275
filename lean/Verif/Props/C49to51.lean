import Verif.Props.C43to48

/-!
# C49 to C51: branches
-/

namespace Verif
open BS Thumb

namespace C49

/-- **C49.** A conditional branch is taken exactly when its condition holds. -/
theorem taken_iff {cond : Nat} {offset : Word} {i : Instr} {s : Machine} {c : Core} (h : (Act.branch cond offset).Of i)
    (hc : Shows s c) :
    EndsIn i s (if condPassed (c.flag 31) (c.flag 30) (c.flag 29) (c.flag 28) cond then c.set 15 (c.reg 15 + 4#32 + offset)
      else c.next i.size) := by
  obtain ⟨a, rfl, rfl, _⟩ := hc.arm
  have := ends_of h trivial (a := a) rfl
  have hh : a.holds cond = condPassed (a.core.flag 31) (a.core.flag 30) (a.core.flag 29) (a.core.flag 28) cond := rfl
  rw [hh] at this
  split
  · next ht => rw [if_pos ht] at this; exact this
  · next ht => rw [if_neg ht] at this; exact this

/-- **C49.** Opposite conditions are complementary. -/
theorem opposite (n z c v : Bool) : ∀ k, k < 7 → condPassed n z c v (2 * k + 1) = !condPassed n z c v (2 * k) := by
  revert n z c v; decide

/-- **C49.** The flags of a comparison, as the manual defines them, decide the relation of the
operands: equality, the unsigned and the signed order. -/
theorem relations (x y : Word) :
    let p := condPassed (x - y).msb (decide (x - y = 0#32)) (C17.carryOut x (~~~y) true) (C17.overflow x (~~~y) true)
    (p 0 = decide (x = y)) ∧ (p 1 = decide (x ≠ y)) ∧
    (p 2 = decide (y.toNat ≤ x.toNat)) ∧ (p 3 = decide (x.toNat < y.toNat)) ∧
    (p 8 = decide (y.toNat < x.toNat)) ∧ (p 9 = decide (x.toNat ≤ y.toNat)) ∧
    (p 10 = decide (y.toInt ≤ x.toInt)) ∧ (p 11 = decide (x.toInt < y.toInt)) ∧
    (p 12 = decide (y.toInt < x.toInt)) ∧ (p 13 = decide (x.toInt ≤ y.toInt)) := by
  intro p
  have hc : C17.carryOut x (~~~y) true = decide (y.toNat ≤ x.toNat) := by
    unfold C17.carryOut
    have hy := y.isLt
    rw [BitVec.toNat_not]
    congr 1
    apply propext
    simp only [Bool.toNat_true]
    omega
  have hz : (x - y = 0#32) = (x.toNat = y.toNat) := by
    apply propext
    constructor
    · intro h
      have := congrArg BitVec.toNat h
      rw [BitVec.toNat_sub] at this
      have hx := x.isLt
      have hy := y.isLt
      simp at this
      omega
    · intro h
      rw [BitVec.eq_of_toNat_eq h]; simp
  have hnot : (~~~y).toInt = -y.toInt - 1 := by
    have := y.isLt
    rw [BitVec.toInt_eq_toNat_cond, BitVec.toInt_eq_toNat_cond, BitVec.toNat_not]
    split <;> split <;> omega
  have hge : ((x - y).msb == C17.overflow x (~~~y) true) = decide (y.toInt ≤ x.toInt) := by
    unfold C17.overflow
    rw [hnot, BitVec.msb_eq_decide, BitVec.toNat_sub]
    have hx := x.isLt
    have hy := y.isLt
    simp only [Bool.toNat_true]
    rw [BitVec.toInt_eq_toNat_cond, BitVec.toInt_eq_toNat_cond]
    have e : ∀ (P Q R : Prop) [Decidable P] [Decidable Q] [Decidable R], ((P ↔ Q) ↔ R) → (decide P == decide Q) = decide R := by
      intro P Q R _ _ _ h
      by_cases hp : P <;> by_cases hq : Q <;> simp_all
    apply e
    split <;> split <;> omega
  have heqI : (x.toNat = y.toNat) ↔ (x.toInt = y.toInt) := by
    constructor
    · intro h; rw [BitVec.eq_of_toNat_eq h]
    · intro h; rw [BitVec.eq_of_toInt_eq h]
  have hxy : (x = y) = (x.toNat = y.toNat) := by
    apply propext
    exact ⟨fun h => by rw [h], BitVec.eq_of_toNat_eq⟩
  simp only [p, condPassed, hz, hc, hxy, ne_eq, decide_not]
  have hne : ∀ a b : Bool, (a != b) = !(a == b) := by decide
  rw [hne, hge]
  refine ⟨trivial, trivial, trivial, ?_, ?_, ?_, rfl, ?_, ?_, ?_⟩
  · rw [← decide_not]; congr 1; apply propext; omega
  · rw [← decide_not, ← Bool.decide_and]; congr 1; apply propext; omega
  · rw [← decide_not, ← Bool.decide_or]; congr 1; apply propext; omega
  · rw [← decide_not]; congr 1; apply propext; omega
  · rw [← decide_not, ← Bool.decide_and]; congr 1; apply propext; omega
  · rw [← decide_not, ← Bool.decide_or]; congr 1; apply propext; omega

/-- Which conditions the flags the program computes (C48) decide right, in terms of the
difference and the flags as they should be. -/
def stillRight (difference : Word) (c v : Bool) (cond : Nat) : Prop :=
  match cond with
  | 0 | 1 => difference ≠ 0xffffffff#32
  | 4 | 5 | 10 | 11 => difference.msb = false
  | 8 | 9 => difference = 0xffffffff#32 → c = false
  | 12 | 13 => difference.msb = false ∨ (difference = 0xffffffff#32 ∧ v = false)
  | _ => True

/-- **C49.** After a CMP of the program a condition has the value it should have exactly in
the cases of `stillRight`: always for CS, CC, VS, VC, unless the difference is -1 for EQ and
NE, and for the signed conditions only if the difference is not negative. -/
theorem after_cmp_partial (difference : Word) (c v : Bool) (cond : Nat) (h : cond < 16) :
    condPassed false (decide (difference = 0#32 ∨ difference = 0xffffffff#32)) c v cond =
      condPassed difference.msb (decide (difference = 0#32)) c v cond ↔ stillRight difference c v cond := by
  have hk : cond = 0 ∨ cond = 1 ∨ cond = 2 ∨ cond = 3 ∨ cond = 4 ∨ cond = 5 ∨ cond = 6 ∨ cond = 7 ∨ cond = 8 ∨ cond = 9 ∨
    cond = 10 ∨ cond = 11 ∨ cond = 12 ∨ cond = 13 ∨ cond = 14 ∨ cond = 15 := by omega
  by_cases m : difference = 0xffffffff#32
  · subst m
    rcases hk with rfl | rfl | rfl | rfl | rfl | rfl | rfl | rfl | rfl | rfl | rfl | rfl | rfl | rfl | rfl | rfl <;>
      simp only [stillRight] <;> cases c <;> cases v <;> decide
  · by_cases z : difference = 0#32
    · subst z
      rcases hk with rfl | rfl | rfl | rfl | rfl | rfl | rfl | rfl | rfl | rfl | rfl | rfl | rfl | rfl | rfl | rfl <;>
        simp only [stillRight] <;> cases c <;> cases v <;> decide
    · rw [decide_eq_false (show ¬ (difference = 0#32 ∨ difference = 0xffffffff#32) from not_or.mpr ⟨z, m⟩), decide_eq_false z]
      cases hn : difference.msb <;>
        rcases hk with rfl | rfl | rfl | rfl | rfl | rfl | rfl | rfl | rfl | rfl | rfl | rfl | rfl | rfl | rfl | rfl <;>
        cases c <;> cases v <;> simp only [stillRight, condPassed, m, hn, ne_eq] <;> decide

/-- **C49.** The machine after `cmp` and a conditional branch: the branch is taken exactly
when the condition holds in the flags CMP left. -/
theorem cmp_then_branch {n cond : Nat} {src : Src} {offset : Word} {i j : Instr} {s : Machine} {c : Core}
    (h : (Act.cmp true n src).Of i) (hj : (Act.branch cond offset).Of j) (hn : n < 15) (hs : src.NoPc) (hc : Shows s c)
    (x y : Word) (hx : x = c.reg n) (hy : y = src.val c) :
    ∃ i' s' j' s'' c'', i.eval s = (.ok i', s') ∧ j.eval s' = (.ok j', s'') ∧ Shows s'' c'' ∧
      c''.reg 15 = if condPassed false (decide (x - y = 0#32 ∨ x - y = 0xffffffff#32)) (decide (y.toNat ≤ x.toNat))
          (C17.overflow x (~~~y) true) cond
        then c.reg 15 + BitVec.ofNat 32 i.size + 4#32 + offset
        else c.reg 15 + BitVec.ofNat 32 i.size + BitVec.ofNat 32 j.size := by
  have he := C48.compare_exact h hn hs hc x (~~~y) hx (by rw [hy]; rfl)
  rw [(C43.sums x y true).2.1, (C43.subtraction_flags x y).1] at he
  obtain ⟨i', s', h1, h2⟩ := he
  obtain ⟨j', s'', h3, h4⟩ := taken_iff hj h2
  refine ⟨i', s', j', s'', _, h1, h3, h4, ?_⟩
  have hf : ∀ v : Word, ∀ k, ((c.set 16 v).next i.size).flag k = v.getLsbD k := fun v k => rfl
  simp only [hf, newFlags_bit]
  simp only [if_true, show ¬ (30 = 31) by omega, show ¬ (29 = 31) by omega, show ¬ (29 = 30) by omega, show ¬ (28 = 31) by omega,
    show ¬ (28 = 30) by omega, show ¬ (28 = 29) by omega, if_false, Option.getD]
  split <;> rfl

/-- `bge` after `cmp r1, #7`: taken for 9; for 6 it is taken too, which is wrong. -/
example : (ranRegs [0x07, 0x29] (sample [(1, 9)]) [16] = some [some 0x20000000]) ∧
    (ranRegs [0x02, 0xda] (sample [(15, 0x100), (16, 0x20000000)]) [15] = some [some 0x108]) ∧
    (ranRegs [0x07, 0x29] (sample [(1, 6)]) [16] = some [some 0x40000000]) ∧
    (ranRegs [0x02, 0xda] (sample [(15, 0x100), (16, 0x40000000)]) [15] = some [some 0x108]) ∧
    (ranRegs [0x02, 0xda] (sample [(15, 0x100), (16, 0x80000000)]) [15] = some [some 0x102]) := by
  refine ⟨?_, ?_, ?_, ?_, ?_⟩ <;> unfold ranRegs ran <;> rw [trees, decoders_eq] <;> decide +kernel

end C49

namespace C50

/-- A branch of the program goes to the right place for these offsets only. -/
def used (offset : Word) : Word := if offset.msb then ~~~offset else offset

/-- **C50.** B: the target is the address plus 4 plus the encoded offset if that is not
negative, and plus its complement if it is. -/
theorem b_target (w : Nat) (h : Thumb.b.Is w) (rest : List Nat) (hr : ∀ b ∈ rest, b < 256) (a : Int) {s : Machine} {c : Core}
    (hc : Shows s c) : ∃ i, (trees.decode (C38.bytesOf Thumb.b w ++ rest) a).1 = .ok i ∧
      EndsIn i s (c.set 15 (c.reg 15 + 4#32 + used (signed 12 (2 * field Thumb.b.pat w 'i')))) := by
  obtain ⟨i, h1, h2, _⟩ := case_decodes (c := Case.b) (by simp [Case.all]) h rfl rest hr a
  exact ⟨i, h1, C49.taken_iff h2 hc⟩

/-- **C50.** The conditional branches likewise, if their condition holds. -/
theorem conditional_target (w : Nat) (h : Thumb.bCond.Is w) (rest : List Nat) (hr : ∀ b ∈ rest, b < 256) (a : Int) {s : Machine}
    {c : Core} (hc : Shows s c) : ∃ i, (trees.decode (C38.bytesOf Thumb.bCond w ++ rest) a).1 = .ok i ∧
      EndsIn i s (if condPassed (c.flag 31) (c.flag 30) (c.flag 29) (c.flag 28) (field Thumb.bCond.pat w 'c')
        then c.set 15 (c.reg 15 + 4#32 + used (signed 9 (2 * field Thumb.bCond.pat w 'i'))) else c.next 2) := by
  obtain ⟨i, h1, h2, h3⟩ := case_decodes (c := Case.bCond) (by simp [Case.all]) h rfl rest hr a
  have := C49.taken_iff h2 hc
  rw [h3] at this
  exact ⟨i, h1, this⟩

/-- **C50.** BL likewise; LR gets the address of the next instruction with bit 0 set. -/
theorem bl_target (w : Nat) (h : Thumb.bl.Is w) (rest : List Nat) (hr : ∀ b ∈ rest, b < 256) (a : Int) {s : Machine}
    {c : Core} (hc : Shows s c) : ∃ i, (trees.decode (C38.bytesOf Thumb.bl w ++ rest) a).1 = .ok i ∧
      EndsIn i s ((c.set 14 ((c.reg 15 + 4#32) ||| 1#32)).set 15 (c.reg 15 + 4#32 +
        used (blOffset (field Thumb.bl.pat w 's') (field Thumb.bl.pat w 'j') (field Thumb.bl.pat w 'k') (field Thumb.bl.pat w 'i')))) := by
  obtain ⟨i, h1, h2, h3⟩ := case_decodes (c := Case.bl) (by simp [Case.all]) h rfl rest hr a
  obtain ⟨x, rfl, rfl, _⟩ := hc.arm
  exact ⟨i, h1, ends_of h2 trivial (a := x) rfl⟩

/-- **C50.** So the target is right if and only if the branch is not backwards. -/
theorem target_right_iff_partial (pc offset : Word) : pc + 4#32 + used offset = pc + 4#32 + offset ↔ offset.msb = false := by
  rw [BitVec.add_right_inj]
  unfold used
  constructor
  · intro h
    cases hm : offset.msb
    · rfl
    · rw [hm, if_pos rfl] at h
      have := congrArg BitVec.msb h
      rw [BitVec.msb_not, hm] at this
      simp at this
  · intro h
    rw [if_neg (by rw [h]; decide)]

/-- **C50.** The offsets of the encodings are the signed numbers of the manual. -/
theorem offsets (i : Nat) (h : i < 256) (j : Nat) (hj : j < 2048) :
    (signed 9 (2 * i)).toInt = (if i < 128 then 2 * (i : Int) else 2 * (i : Int) - 512) ∧
    (signed 12 (2 * j)).toInt = (if j < 1024 then 2 * (j : Int) else 2 * (j : Int) - 4096) := by
  unfold Thumb.signed
  rw [BitVec.toInt_signExtend_of_le (by omega), BitVec.toInt_signExtend_of_le (by omega), BitVec.toInt_ofNat', BitVec.toInt_ofNat']
  constructor
  · rw [Int.bmod_def]; split <;> split <;> omega
  · rw [Int.bmod_def]; split <;> split <;> omega

/-- `b` to 8 bytes further, and `b` to itself (`b .`), which should stay at 0x100. -/
example : ranRegs [0x02, 0xe0] (sample [(15, 0x100)]) [15] = some [some 0x108] ∧
    ranRegs [0xfe, 0xe7] (sample [(15, 0x100)]) [15] = some [some 0x107] := by
  refine ⟨?_, ?_⟩ <;> unfold ranRegs ran <;> rw [trees, decoders_eq] <;> decide +kernel

end C50

namespace C51

/-- **C51.** BLX puts the address of the following instruction with bit 0 set in LR and goes
to the register with bit 0 cleared, if the register is not LR itself. -/
theorem blx_right_partial {m : Nat} {i : Instr} {s : Machine} {c : Core} (h : (Act.blx m).Of i) (hm : m < 15) (h14 : m ≠ 14)
    (hc : Shows s c) : EndsIn i s ((c.set 14 ((c.reg 15 + 2#32) ||| 1#32)).set 15 (c.reg m &&& ~~~1#32)) := by
  obtain ⟨a, rfl, rfl, _⟩ := hc.arm
  have := ends_of h trivial (a := a) rfl
  rw [reg_set_ne a _ (by omega) (by omega) (by omega), show a.reg 15 + 4#32 - 2#32 = a.reg 15 + 2#32 by
    generalize a.reg 15 = x; grind] at this
  exact this

/-- **C51.** `blx lr` goes to the following instruction instead: LR is overwritten before it
is read. -/
theorem blx_lr {i : Instr} {s : Machine} {c : Core} (h : (Act.blx 14).Of i) (hc : Shows s c) :
    EndsIn i s ((c.set 14 ((c.reg 15 + 2#32) ||| 1#32)).set 15 ((c.reg 15 + 2#32) &&& ~~~1#32)) := by
  obtain ⟨a, rfl, rfl, _⟩ := hc.arm
  have := ends_of h trivial (a := a) rfl
  rw [show a.reg 15 + 4#32 - 2#32 = a.reg 15 + 2#32 by generalize a.reg 15 = x; grind] at this
  have hr : ((a.set 14 ((a.reg 15 + 2#32) ||| 1#32)).reg ((14 : Nat) : Int)) &&& ~~~1#32 = (a.reg 15 + 2#32) &&& ~~~1#32 := by
    show ((a.reg 15 + 2#32) ||| 1#32) &&& ~~~1#32 = _
    generalize a.reg 15 + 2#32 = x
    apply BitVec.eq_of_getLsbD_eq
    intro k hk
    simp only [BitVec.getLsbD_and, BitVec.getLsbD_or, BitVec.getLsbD_not]
    cases (1#32).getLsbD k <;> simp
  rw [hr] at this
  exact this

/-- **C51.** BX goes to the register with bit 0 cleared and changes nothing else. -/
theorem bx_right {m : Nat} {i : Instr} {s : Machine} {c : Core} (h : (Act.bx m).Of i) (hm : m < 15) (hc : Shows s c) :
    EndsIn i s (c.set 15 (c.reg m &&& ~~~1#32)) := by
  obtain ⟨a, rfl, rfl, _⟩ := hc.arm
  exact ends_of h trivial (a := a) rfl

/-- **C51.** Calls return: from an even address, after BL and after BLX (not of LR), `bx lr`
with the LR they left goes to the following instruction. -/
theorem call_returns {m : Nat} {offset : Word} {i j ret : Instr} {s : Machine} {c : Core} (hi : (Act.bl offset).Of i)
    (hj : (Act.blx m).Of j) (hm : m < 15) (h14 : m ≠ 14) (hret : (Act.bx 14).Of ret) (hc : Shows s c)
    (heven : (c.reg 15).getLsbD 0 = false) :
    (∃ i' s' c', i.eval s = (.ok i', s') ∧ Shows s' c' ∧
      ∀ t d, Shows t d → d.reg 14 = c'.reg 14 → EndsIn ret t (d.set 15 (c.reg 15 + 4#32))) ∧
    (∃ j' s' c', j.eval s = (.ok j', s') ∧ Shows s' c' ∧
      ∀ t d, Shows t d → d.reg 14 = c'.reg 14 → EndsIn ret t (d.set 15 (c.reg 15 + 2#32))) := by
  have key : ∀ x : Word, x.getLsbD 0 = false → (x ||| 1#32) &&& ~~~1#32 = x := by
    intro x h
    apply BitVec.eq_of_getLsbD_eq
    intro k hk
    simp only [BitVec.getLsbD_and, BitVec.getLsbD_or, BitVec.getLsbD_not]
    by_cases h0 : k = 0
    · subst h0; rw [h]; decide
    · have : (1#32).getLsbD k = false := by rw [BitVec.getLsbD_one]; simp; omega
      rw [this]; simp [hk]
  have even : ∀ (x : Word) (n : Nat), n % 2 = 0 → x.getLsbD 0 = false → (x + BitVec.ofNat 32 n).getLsbD 0 = false := by
    intro x n hn h
    rw [BitVec.getLsbD, Nat.testBit_zero, decide_eq_false_iff_not] at h ⊢
    rw [BitVec.toNat_add, BitVec.toNat_ofNat]
    omega
  constructor
  · have hend : EndsIn i s ((c.set 14 ((c.reg 15 + 4#32) ||| 1#32)).set 15 (c.reg 15 + 4#32 + offset)) := by
      obtain ⟨a, rfl, rfl, _⟩ := hc.arm
      exact ends_of hi trivial (a := a) rfl
    obtain ⟨i', s', h1, h2⟩ := hend
    refine ⟨i', s', _, h1, h2, fun t d ht hd => ?_⟩
    have := bx_right hret (by omega) ht
    have e : d.reg ((14 : Nat) : Int) = (c.reg 15 + 4#32) ||| 1#32 := hd
    rw [e, key _ (even _ 4 rfl heven)] at this
    exact this
  · obtain ⟨i', s', h1, h2⟩ := blx_right_partial hj hm h14 hc
    refine ⟨i', s', _, h1, h2, fun t d ht hd => ?_⟩
    have := bx_right hret (by omega) ht
    have e : d.reg ((14 : Nat) : Int) = (c.reg 15 + 2#32) ||| 1#32 := hd
    rw [e, key _ (even _ 2 rfl heven)] at this
    exact this

/-- `bl` over 8 bytes, `blx r2`, `bx lr`, and `blx lr`, which should go to 0x300. -/
example : ranRegs [0x00, 0xf0, 0x04, 0xf8] (sample [(15, 0x100)]) [14, 15] = some [some 0x105, some 0x10c] ∧
    ranRegs [0x90, 0x47] (sample [(2, 0x301), (15, 0x100)]) [14, 15] = some [some 0x103, some 0x300] ∧
    ranRegs [0x70, 0x47] (sample [(14, 0x105), (15, 0x300)]) [14, 15] = some [some 0x105, some 0x104] ∧
    ranRegs [0xf0, 0x47] (sample [(14, 0x301), (15, 0x100)]) [14, 15] = some [some 0x103, some 0x102] := by
  refine ⟨?_, ?_, ?_, ?_⟩ <;> unfold ranRegs ran <;> rw [trees, decoders_eq] <;> decide +kernel

end C51
end Verif
