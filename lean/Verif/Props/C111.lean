import Verif.Props.C73Exact
import Verif.Props.C101
import Verif.Props.C102

/-!
# C111: compiled expressions compute their value

A stack code for expressions, of any size.
-/

namespace Verif
open BS CpuM Thumb C43

namespace C111

/-- Operations on words. -/
inductive Op where
  | and | or | xor | mul | add | sub
deriving DecidableEq

/-- Expressions: constants, the contents of registers, complements and operations. -/
inductive Expr where
  | const (n : Nat)
  | var (k : Nat)
  | not (e : Expr)
  | op (o : Op) (a b : Expr)

def Op.value : Op → Word → Word → Word
  | .and, x, y => x &&& y
  | .or, x, y => x ||| y
  | .xor, x, y => x ^^^ y
  | .mul, x, y => x * y
  | .add, x, y => x + y
  | .sub, x, y => x - y

/-- The value of an expression, modulo 2 ^ 32. -/
def Expr.value (v : Nat → Word) : Expr → Word
  | .const n => BitVec.ofNat 32 n
  | .var k => v k
  | .not e => ~~~e.value v
  | .op o a b => o.value (a.value v) (b.value v)

/-- What is really computed: a sum or difference whose highest bit is set is complemented. -/
def Op.machine : Op → Word → Word → Word
  | .add, x, y => wrongIfNegative (x + y)
  | .sub, x, y => wrongIfNegative (x - y)
  | o, x, y => o.value x y

def Expr.machine (v : Nat → Word) : Expr → Word
  | .const n => BitVec.ofNat 32 n
  | .var k => v k
  | .not e => ~~~e.machine v
  | .op o a b => o.machine (a.machine v) (b.machine v)

/-- Constants have eight bits, the registers are R2 to R12. -/
def Expr.Well : Expr → Prop
  | .const n => n < 256
  | .var k => 2 ≤ k ∧ k < 13
  | .not e => e.Well
  | .op _ a b => a.Well ∧ b.Well

/-- No sum or difference in the expression has its highest bit set. -/
def Expr.Small (v : Nat → Word) : Expr → Prop
  | .const _ => True
  | .var _ => True
  | .not e => e.Small v
  | .op o a b => a.Small v ∧ b.Small v ∧ (o = .add ∨ o = .sub → (o.value (a.value v) (b.value v)).msb = false)

/-- The words an expression needs on the stack. -/
def Expr.depth : Expr → Nat
  | .const _ => 0
  | .var _ => 0
  | .not e => e.depth
  | .op _ a b => max a.depth (b.depth + 1)

/-- The instruction that puts the result of R1 and R0 in R0. -/
def Op.word : Op → Enc × Nat
  | .and => (Thumb.ands, 0x4008)
  | .or => (Thumb.orrs, 0x4308)
  | .xor => (Thumb.eors, 0x4048)
  | .mul => (Thumb.muls, 0x4348)
  | .add => (Thumb.addsReg, 0x1808)
  | .sub => (Thumb.subsReg, 0x1a08)

/-- The code that computes an expression in R0: `movs r0, #n`, `mov r0, rk`, `mvns r0, r0`, and for operations
`push {r0}` between the operands and `pop {r1}` after them. -/
def Expr.compile : Expr → List (Enc × Nat)
  | .const n => [(Thumb.movsImm, 0x2000 + n)]
  | .var k => [(Thumb.movReg, 0x4600 + 8 * k)]
  | .not e => e.compile ++ [(Thumb.mvns, 0x43c0)]
  | .op o a b => a.compile ++ ((Thumb.push, 0xb401) :: (b.compile ++ [(Thumb.pop, 0xbc02), o.word]))

theorem const_act : ∀ n : Fin 256, Thumb.movsImm.act (field Thumb.movsImm.pat (0x2000 + n)) = .mov false true 0 (.imm (w32 n)) := by
  decide +kernel

theorem var_act : ∀ k : Fin 16, Thumb.movReg.act (field Thumb.movReg.pat (0x4600 + 8 * k)) = .mov false false 0 (.reg k) := by
  decide +kernel

theorem not_act : Thumb.mvns.act (field Thumb.mvns.pat 0x43c0) = .mov true true 0 (.reg 0) := by decide +kernel

theorem push_act : Thumb.push.act (field Thumb.push.pat 0xb401) = .push 1#16 := by decide +kernel

theorem pop_act : Thumb.pop.act (field Thumb.pop.pat 0xbc02) = .pop 2#16 := by decide +kernel

/-- The action of an operation. -/
def Op.act : Op → Act
  | .and => .logic .and true 0 0 1
  | .or => .logic .or true 0 0 1
  | .xor => .logic .xor true 0 0 1
  | .mul => .mul true 0 1 0
  | .add => .addSub false false true 0 1 (.reg 0)
  | .sub => .addSub true false true 0 1 (.reg 0)

theorem op_act (o : Op) : o.word.1.act (field o.word.1.pat o.word.2) = o.act := by
  cases o <;> decide +kernel

/-- The words are valid words of encodings that are decoded as they should be. -/
theorem good {e : Expr} (h : e.Well) : ∀ p ∈ e.compile, p.1 ∈ encodings ∧ p.1.Is p.2 ∧ ¬ Wrong p.1 (field p.1.pat p.2) := by
  have hconst : ∀ n : Fin 256, Thumb.movsImm.Is (0x2000 + n) := by
    intro n
    refine ⟨by show 0x2000 + (n : Nat) < 65536; omega, ?_, rfl⟩
    revert n
    decide +kernel
  have hvar : ∀ k : Fin 13, Thumb.movReg.Is (0x4600 + 8 * k) := by
    intro n
    refine ⟨by show 0x4600 + 8 * (n : Nat) < 65536; omega, ?_, ?_⟩ <;>
    · revert n
      decide +kernel
  induction e with
  | const n =>
    intro p hp
    rw [List.mem_singleton.1 hp]
    exact ⟨by simp [encodings], hconst ⟨n, h⟩, not_wrong (e := Thumb.movsImm) (by decide) _⟩
  | var k =>
    intro p hp
    rw [List.mem_singleton.1 hp]
    exact ⟨by simp [encodings], hvar ⟨k, h.2⟩, not_wrong (e := Thumb.movReg) (by decide) _⟩
  | not e ih =>
    intro p hp
    rcases List.mem_append.1 hp with hp | hp
    · exact ih h p hp
    · rw [List.mem_singleton.1 hp]
      exact ⟨by simp [encodings], ⟨by decide, by decide, by decide⟩, not_wrong (by decide) _⟩
  | op o a b iha ihb =>
    intro p hp
    simp only [Expr.compile, List.mem_append, List.mem_cons, List.not_mem_nil, or_false] at hp
    rcases hp with hp | rfl | hp | rfl | rfl
    · exact iha h.1 p hp
    · exact ⟨by simp [encodings], ⟨by decide, by decide, by decide⟩, not_wrong (by decide) _⟩
    · exact ihb h.2 p hp
    · exact ⟨by simp [encodings], ⟨by decide, by decide, by decide⟩, not_wrong (by decide) _⟩
    · cases o <;> exact ⟨by simp [encodings, Op.word], ⟨by decide, by decide, by decide⟩, not_wrong (by decide) _⟩

open C73

theorem realAll_append : ∀ (ps qs : List (Enc × Nat)) (c : Core), realAll (ps ++ qs) c = realAll qs (realAll ps c)
  | [], _, _ => rfl
  | _ :: ps, qs, _ => realAll_append ps qs _

theorem allFair_append (mem : List Region) : ∀ (ps qs : List (Enc × Nat)) (c : Core), AllFair mem ps c → AllFair mem qs (realAll ps c) →
    AllFair mem (ps ++ qs) c
  | [], _, _, _, h => h
  | _ :: ps, qs, _, ⟨h1, h2, h3⟩, h => ⟨h1, h2, allFair_append mem ps qs _ h3 h⟩

/-- Each of the instructions moves PC to the next one, which is after 16 bits, and leaves this part of memory as it is. -/
def Straight (lo hi : Int) : List (Enc × Nat) → Core → Prop
  | [], _ => True
  | (e, w) :: t, c => ((real (e.pat.length / 8) c (e.act (field e.pat w))).reg 15 = c.reg 15 + 2#32 ∧
      ∀ y, lo ≤ y → y < hi → (real (e.pat.length / 8) c (e.act (field e.pat w))).mem y = c.mem y) ∧
    Straight lo hi t (real (e.pat.length / 8) c (e.act (field e.pat w)))

theorem straight_append (lo hi : Int) : ∀ (ps qs : List (Enc × Nat)) (c : Core), Straight lo hi ps c →
    Straight lo hi qs (realAll ps c) → Straight lo hi (ps ++ qs) c
  | [], _, _, _, h => h
  | _ :: ps, qs, _, ⟨h1, h2⟩, h => ⟨h1, straight_append lo hi ps qs _ h2 h⟩

/-- R0 has this value; of R2 to R14 and of the memory outside these words under SP nothing has changed. -/
structure After (n : Nat) (x : Word) (c d : Core) : Prop where
  r0 : d.reg 0 = x
  regs : ∀ k : Int, 2 ≤ k → k < 15 → d.reg k = c.reg k
  mem : ∀ y : Int, y < (c.reg 13).toNat - 4 * n ∨ ((c.reg 13).toNat : Int) ≤ y → d.mem y = c.mem y

/-- Room for words under this address. -/
structure Room (mem : List Region) (sp : Word) (n : Nat) : Prop where
  aligned : sp.toNat % 4 = 0
  space : 4 * n ≤ sp.toNat
  inside : ∀ j, j < n → Inside mem (sp.toNat - 4 * (j + 1)) 4

theorem put0 (c : Core) (on : Bool) (r : Word) (a b : Option Bool) : ((c.flags on r a b).result 2 0 r).reg 0 = r ∧
    (∀ k : Int, k ≠ 0 → k ≠ 15 → k ≠ 16 → ((c.flags on r a b).result 2 0 r).reg k = c.reg k) ∧ ((c.flags on r a b).result 2 0 r).mem = c.mem ∧
    ((c.flags on r a b).result 2 0 r).reg 15 = c.reg 15 + 2#32 := by
  refine ⟨?_, fun k h0 h1 h2 => ?_, ?_, ?_⟩
  · rw [show ((c.flags on r a b).result 2 0 r).reg 0 = keepBits 0 r from result_reg (d := 0) (by decide) r]
    exact keepBits_plain (d := 0) (by decide) (by decide) _
  · rw [core_result (by decide)]
    unfold Core.next
    rw [core_reg_set, if_neg (by omega), core_reg_set, if_neg (by omega), C102.flags_other _ _ _ _ _ h2]
  · rw [core_result (by decide)]
    unfold Core.flags
    split <;> rfl
  · rw [core_result (by decide)]
    unfold Core.next
    rw [core_reg_set, if_pos (.inl rfl), show keepBits 15 _ = _ from keepBits_plain (d := 15) (by decide) (by decide) _, core_reg_set, if_neg (by omega),
      C102.flags_other _ _ _ _ _ (by decide)]

theorem op_run (o : Op) (c : Core) : (real 2 c o.act).reg 0 = o.machine (c.reg 1) (c.reg 0) ∧
    (∀ k : Int, k ≠ 0 → k ≠ 15 → k ≠ 16 → (real 2 c o.act).reg k = c.reg k) ∧ (real 2 c o.act).mem = c.mem ∧ (real 2 c o.act).reg 15 = c.reg 15 + 2#32 := by
  have h0 : c.rd 0 = c.reg 0 := core_rd c (by decide)
  have h1 : c.rd 1 = c.reg 1 := core_rd c (by decide)
  cases o with
  | and =>
    simp only [Op.act, real, Act.run, logical, Op.machine, Op.value, h0, h1]
    rw [BitVec.and_comm]
    exact put0 ..
  | or =>
    simp only [Op.act, real, Act.run, logical, Op.machine, Op.value, h0, h1]
    rw [BitVec.or_comm]
    exact put0 ..
  | xor =>
    simp only [Op.act, real, Act.run, logical, Op.machine, Op.value, h0, h1]
    rw [BitVec.xor_comm]
    exact put0 ..
  | mul =>
    simp only [Op.act, real, Act.run, Op.machine, Op.value, h0, h1]
    exact put0 ..
  | add =>
    have hs : C17.sum (c.reg 1) (c.reg 0) false = c.reg 1 + c.reg 0 := by
      apply BitVec.eq_of_toNat_eq
      simp [C17.sum]
    simp only [Op.act, real, Src.val, Op.machine, h0, Bool.false_eq_true, if_false]
    rw [show c.reg ((1 : Nat) : Int) = c.reg 1 from rfl]
    rw [hs]
    exact put0 ..
  | sub =>
    have hs : C17.sum (c.reg 1) (~~~c.reg 0) true = c.reg 1 - c.reg 0 := by
      rw [sum_add, BitVec.sub_eq_add_neg, BitVec.neg_eq_not_add, BitVec.add_assoc]
      rfl
    simp only [Op.act, real, Src.val, Op.machine, h0, Bool.false_eq_true, if_false, if_true]
    rw [show c.reg ((1 : Nat) : Int) = c.reg 1 from rfl]
    rw [hs]
    exact put0 ..

theorem bit_two (j : Nat) (h : j ≠ 1) : (2#16).getLsbD j = false := by
  rcases Nat.lt_or_ge j 16 with hj | hj
  · have : ∀ j : Fin 16, j ≠ 1 → (2#16).getLsbD j = false := by decide
    exact this ⟨j, hj⟩ (fun h' => h (congrArg Fin.val h'))
  · exact BitVec.getLsbD_of_ge _ _ hj

theorem size2 (o : Op) : o.word.1.pat.length / 8 = 2 := by cases o <;> rfl

theorem machine_congr {v v' : Nat → Word} (hv : ∀ k, 2 ≤ k → k < 13 → v k = v' k) : ∀ {e : Expr}, e.Well → e.machine v = e.machine v'
  | .const _, _ => rfl
  | .var _, h => hv _ h.1 h.2
  | .not e, h => by
    unfold Expr.machine
    rw [machine_congr hv (e := e) h]
  | .op _ a b, h => by
    unfold Expr.machine
    rw [machine_congr hv (e := a) h.1, machine_congr hv (e := b) h.2]

theorem room_mono {mem : List Region} {sp : Word} {n m : Nat} (h : Room mem sp n) (hm : m ≤ n) : Room mem sp m :=
  ⟨h.aligned, by have := h.space; omega, fun j hj => h.inside j (by omega)⟩

theorem op_fair (mem : List Region) (o : Op) (c : Core) : o.act.NoPc ∧ Fair mem c o.act := by
  cases o with
  | add => exact ⟨⟨by decide, by decide, (by decide : 0 < 15)⟩, trivial⟩
  | sub => exact ⟨⟨by decide, by decide, (by decide : 0 < 15)⟩, trivial⟩
  | _ => exact ⟨⟨by decide, by decide, by decide⟩, trivial⟩

theorem machine_eq {v : Nat → Word} : ∀ {e : Expr}, e.Small v → e.machine v = e.value v
  | .const _, _ => rfl
  | .var _, _ => rfl
  | .not e, h => by
    unfold Expr.machine Expr.value
    rw [machine_eq (e := e) h]
  | .op o a b, ⟨h1, h2, h3⟩ => by
    unfold Expr.machine Expr.value
    rw [machine_eq h1, machine_eq h2]
    cases o with
    | add =>
      show wrongIfNegative _ = _
      unfold wrongIfNegative
      rw [if_neg (by rw [show (a.value v + b.value v).msb = false from h3 (.inl rfl)]; decide)]
      rfl
    | sub =>
      show wrongIfNegative _ = _
      unfold wrongIfNegative
      rw [if_neg (by rw [show (a.value v - b.value v).msb = false from h3 (.inr rfl)]; decide)]
      rfl
    | _ => rfl

theorem value_congr {v v' : Nat → Word} (hv : ∀ k, 2 ≤ k → k < 13 → v k = v' k) : ∀ {e : Expr}, e.Well → e.value v = e.value v'
  | .const _, _ => rfl
  | .var _, h => hv _ h.1 h.2
  | .not e, h => by
    unfold Expr.value
    rw [value_congr hv (e := e) h]
  | .op _ a b, h => by
    unfold Expr.value
    rw [value_congr hv (e := a) h.1, value_congr hv (e := b) h.2]

theorem small_congr {v v' : Nat → Word} (hv : ∀ k, 2 ≤ k → k < 13 → v k = v' k) : ∀ {e : Expr}, e.Well → e.Small v → e.Small v'
  | .const _, _, _ => trivial
  | .var _, _, _ => trivial
  | .not e, h, hs => small_congr hv (e := e) h hs
  | .op _ a b, h, ⟨h1, h2, h3⟩ =>
    ⟨small_congr hv h.1 h1, small_congr hv h.2 h2, fun ho => by rw [← value_congr hv h.1, ← value_congr hv h.2]; exact h3 ho⟩

/-- Everything about the code of an expression. -/
theorem compiled {mem : List Region} : ∀ (e : Expr) (c : Core), e.Well → Room mem (c.reg 13) e.depth →
    AllFair mem e.compile c ∧ After e.depth (e.machine fun k => c.reg k) c (realAll e.compile c) ∧
    ∀ lo hi : Int, (hi ≤ (c.reg 13).toNat - 4 * e.depth ∨ ((c.reg 13).toNat : Int) ≤ lo) → Straight lo hi e.compile c
  | .const n, c, h, _ => by
    have ha := const_act ⟨n, h⟩
    simp only at ha
    unfold Expr.compile AllFair realAll Straight
    rw [ha]
    obtain ⟨p0, p1, p2, p3⟩ := put0 c true (w32 n) none none
    exact ⟨⟨⟨by decide, trivial⟩, fun _ => rfl, trivial⟩,
      ⟨p0, fun k h1 h2 => p1 k (by omega) (by omega) (by omega), fun y _ => congrFun p2 y⟩,
      fun _ _ _ => ⟨⟨p3, fun y _ _ => congrFun p2 y⟩, trivial⟩⟩
  | .var k, c, h, _ => by
    have hk : k < 16 := by have := h.2; omega
    have ha := var_act ⟨k, hk⟩
    simp only at ha
    unfold Expr.compile AllFair realAll Straight
    rw [ha]
    have hk15 : k < 15 := by have := h.2; omega
    obtain ⟨p0, p1, p2, p3⟩ := put0 c false (c.rd k) none none
    exact ⟨⟨⟨by decide, hk15⟩, fun h => (by cases h), trivial⟩,
      ⟨p0.trans (core_rd c hk15), fun k h1 h2 => p1 k (by omega) (by omega) (by omega), fun y _ => congrFun p2 y⟩,
      fun _ _ _ => ⟨⟨p3, fun y _ _ => congrFun p2 y⟩, trivial⟩⟩
  | .not e, c, h, hr => by
    obtain ⟨f, a, st⟩ := compiled e c h hr
    unfold Expr.compile
    rw [realAll_append]
    refine ⟨allFair_append _ _ _ _ f ?_, ?_, fun lo hi h2 => straight_append _ _ _ _ _ (st lo hi h2) ?_⟩ <;> generalize realAll e.compile c = d at a ⊢
    · unfold AllFair
      rw [not_act]
      exact ⟨⟨by decide, (by decide : 0 < 15)⟩, fun _ => rfl, trivial⟩
    · unfold realAll realAll
      rw [not_act]
      obtain ⟨p0, p1, p2, p3⟩ := put0 d true (~~~d.rd 0) none none
      refine ⟨p0.trans ?_, fun k h1 h2 => (p1 k (by omega) (by omega) (by omega)).trans (a.regs k h1 h2), fun y hy => (congrFun p2 y).trans (a.mem y hy)⟩
      rw [show d.rd 0 = d.reg 0 from core_rd d (by decide), a.r0]
      rfl
    · unfold Straight
      rw [not_act]
      obtain ⟨p0, p1, p2, p3⟩ := put0 d true (~~~d.rd 0) none none
      exact ⟨⟨p3, fun y _ _ => congrFun p2 y⟩, trivial⟩
  | .op o a b, c, h, hr => by
    have hda : a.depth ≤ (Expr.op o a b).depth := Nat.le_max_left _ _
    have hdb : b.depth + 1 ≤ (Expr.op o a b).depth := Nat.le_max_right _ _
    generalize (Expr.op o a b).depth = n at *
    obtain ⟨f1, a1, st1⟩ := compiled a c h.1 (room_mono hr hda)
    have hsp := (c.reg 13).isLt
    have hr1 := hr.space
    have hr2 := hr.aligned
    -- push
    generalize hc1 : realAll a.compile c = c1 at a1
    have sp1 : c1.reg 13 = c.reg 13 := a1.regs 13 (by decide) (by decide)
    have hcount : count 1#16 = 1 := by decide
    have hpush := C54.pushed_run (r := 1#16) (c := c1) 2 (by decide) (by rw [sp1]; exact hr2)
    generalize hc2 : (Act.push 1#16).run 2 c1 = c2 at hpush
    have hc2 : real 2 c1 (Act.push 1#16) = c2 := hc2
    have sp2 : c2.reg 13 = c.reg 13 - w32 4 := by rw [hpush.sp, hcount, sp1]
    have sp2n : (c2.reg 13).toNat = (c.reg 13).toNat - 4 := by rw [sp2, C101.sp_sub (by omega)]
    have regs2 : ∀ k : Int, 2 ≤ k → k < 13 → c2.reg k = c.reg k := fun k h1 h2 => by
      rw [hpush.regs k (by omega) (by omega) (by omega), a1.regs k h1 (by omega)]
    have regs2' : ∀ k : Nat, 2 ≤ k → k < 13 → c.reg k = c2.reg k := fun k h1 h2 => (regs2 k (by omega) (by omega)).symm
    have hword : Words mem (c2.reg 13) 1 := by
      intro j hj
      have hj' : j = 0 := by omega
      subst hj'
      rw [show c2.reg 13 + w32 (4 * 0) = c2.reg 13 from BitVec.add_zero _, sp2n]
      have := hr.inside 0 (by omega)
      have e : (((c.reg 13).toNat - 4 : Nat) : Int) = (c.reg 13).toNat - 4 * ((0 : Nat) + 1) := by omega
      rw [e]
      exact this
    -- the second operand
    have hroom : Room mem (c2.reg 13) b.depth := by
      refine ⟨by omega, by omega, fun j hj => ?_⟩
      have := hr.inside (j + 1) (by omega)
      rw [sp2n]
      have e : (((c.reg 13).toNat - 4 : Nat) : Int) - 4 * (j + 1) = (c.reg 13).toNat - 4 * ((j + 1 : Nat) + 1) := by omega
      rw [e]
      exact this
    obtain ⟨f3, a3, st3⟩ := compiled b c2 h.2 hroom
    generalize hc3 : realAll b.compile c2 = c3 at a3
    have hvb : c3.reg 0 = b.machine fun k => c.reg k := by
      rw [a3.r0]
      exact (machine_congr regs2' h.2).symm
    have sp3 : c3.reg 13 = c2.reg 13 := a3.regs 13 (by decide) (by decide)
    have hread : c3.read (c3.reg 13 + w32 (4 * 0)) 4 = (c1.reg 0).toNat := by
      have := hpush.words 0 (by decide)
      rw [show (listed 1#16)[0] = 0 from by decide] at this
      rw [sp3]
      refine Eq.trans ?_ this
      unfold Core.read
      congr 1
      rw [show c2.reg 13 + w32 (4 * 0) = c2.reg 13 from BitVec.add_zero _]
      exact flatRead_congr fun y h1 h2 => a3.mem y (.inr (by omega))
    -- pop
    have set13 : (c1.set 1 (c1.reg 0)).reg 13 = c1.reg 13 := by rw [core_reg_set, if_neg (by omega)]
    have set1 : (c1.set 1 (c1.reg 0)).reg 1 = c1.reg 0 := by
      rw [core_reg_set, if_pos (.inl rfl)]
      exact keepBits_plain (d := 1) (by decide) (by decide) _
    have hlist : listed 2#16 = [1] := by decide
    have hcount2 : count 2#16 = 1 := by decide
    obtain ⟨q1, q2, q3, q4, q5⟩ := C54.popped_run (r := 2#16) (c := c1.set 1 (c1.reg 0)) (d := c3) 2 (by decide) (by decide)
      (by rw [set13, sp1]; exact hr2) (by rw [set13, hcount2, sp3, sp2, sp1]) (by
        intro j hj
        have hj' : j = 0 := by rw [hlist] at hj; simpa using hj
        subst hj'
        have hl1 : ∀ h : 0 < (listed 2#16).length, (listed 2#16)[0] = 1 := by decide
        rw [hread, hl1]
        rw [show ((1 : Nat) : Int) = 1 from rfl, set1])
    generalize hc4 : (Act.pop 2#16).run 2 c3 = c4 at q1 q2 q3 q4 q5
    have hc4 : real 2 c3 (Act.pop 2#16) = c4 := hc4
    have r1 : c4.reg 1 = a.machine fun k => c.reg k := by
      rw [show c4.reg 1 = _ from q1 1 (by decide) (by decide)]
      exact set1.trans a1.r0
    have r0 : c4.reg 0 = b.machine fun k => c.reg k := by
      rw [q5 0 (by decide) (by decide) (by decide) (fun j hj => by rw [show j = 0 by omega]; decide), hvb]
    obtain ⟨p0, p1, p2, p3⟩ := op_run o c4
    have hall : realAll (Expr.op o a b).compile c = real 2 c4 o.act := by
      unfold Expr.compile
      rw [realAll_append, hc1]
      unfold realAll
      rw [push_act, show Thumb.push.pat.length / 8 = 2 from rfl, hc2, realAll_append, hc3]
      unfold realAll realAll realAll
      rw [pop_act, show Thumb.pop.pat.length / 8 = 2 from rfl, hc4]
      show real (o.word.1.pat.length / 8) c4 (o.word.1.act (field o.word.1.pat o.word.2)) = _
      rw [op_act, size2]
    rw [hall]
    refine ⟨?_, ⟨?_, fun k h1 h2 => ?_, fun y hy => ?_⟩, fun lo hi hy => ?_⟩
    · unfold Expr.compile
      refine allFair_append _ _ _ _ f1 ?_
      rw [hc1]
      unfold AllFair
      rw [push_act, show Thumb.push.pat.length / 8 = 2 from rfl, hc2]
      refine ⟨trivial, ?_, allFair_append _ _ _ _ f3 ?_⟩
      · show Words mem (c1.reg 13 - w32 (4 * count 1#16)) (count 1#16)
        rw [← hpush.sp, hcount]
        exact hword
      · rw [hc3]
        unfold AllFair
        rw [pop_act, show Thumb.pop.pat.length / 8 = 2 from rfl, hc4]
        refine ⟨trivial, ⟨?_, fun q => absurd q (by decide)⟩, ?_⟩
        · rw [hcount2, sp3]
          exact hword
        · show (o.word.1.act (field o.word.1.pat o.word.2)).NoPc ∧ Fair mem c4 (o.word.1.act (field o.word.1.pat o.word.2)) ∧ True
          rw [op_act]
          obtain ⟨g1, g2⟩ := op_fair mem o c4
          exact ⟨g1, g2, trivial⟩
    · rw [p0, r1, r0]
      rfl
    · rw [p1 k (by omega) (by omega) (by omega)]
      by_cases h13 : k = 13
      · rw [h13, q2, set13, sp1]
      · rw [q5 k h13 (by omega) (by omega) (fun j hj => ?_), a3.regs k h1 h2, hpush.regs k h13 (by omega) (by omega), a1.regs k h1 h2]
        exact bit_two j (by omega)
    · rw [p2, q4, a3.mem y (by omega), hpush.mem y ?_, a1.mem y (by omega)]
      intro j hj
      rw [hcount] at hj
      have : j = 0 := by omega
      subst this
      rw [show c2.reg 13 + w32 (4 * 0) = c2.reg 13 from BitVec.add_zero _]
      omega
    · have hpushmem : ∀ y : Int, y < (c.reg 13).toNat - 4 ∨ ((c.reg 13).toNat : Int) ≤ y → c2.mem y = c1.mem y := fun y hy => hpush.mem y (by
        intro j hj
        rw [hcount] at hj
        have : j = 0 := by omega
        subst this
        rw [show c2.reg 13 + w32 (4 * 0) = c2.reg 13 from BitVec.add_zero _]
        omega)
      unfold Expr.compile
      refine straight_append _ _ _ _ _ (st1 lo hi (by omega)) ?_
      rw [hc1]
      unfold Straight
      rw [push_act, show Thumb.push.pat.length / 8 = 2 from rfl, hc2]
      refine ⟨⟨hpush.pc, fun y h1 h2 => hpushmem y (by omega)⟩, straight_append _ _ _ _ _ (st3 lo hi (by omega)) ?_⟩
      rw [hc3]
      unfold Straight
      rw [pop_act, show Thumb.pop.pat.length / 8 = 2 from rfl, hc4]
      refine ⟨⟨q3, fun y _ _ => congrFun q4 y⟩, ?_⟩
      show ((real (o.word.1.pat.length / 8) c4 (o.word.1.act (field o.word.1.pat o.word.2))).reg 15 = c4.reg 15 + 2#32 ∧
        ∀ y, lo ≤ y → y < hi → (real (o.word.1.pat.length / 8) c4 (o.word.1.act (field o.word.1.pat o.word.2))).mem y = c4.mem y) ∧ True
      rw [op_act, size2]
      exact ⟨⟨p3, fun y _ _ => congrFun p2 y⟩, trivial⟩

/-- **C111.** The code of an expression of any size, disassembled and executed, exactly: R0 is the value of the expression with
every sum and difference complemented whose highest bit is set. R2 to R14 and all memory but the words it needs under SP are as they were. -/
theorem expression_exact {e : Expr} (h : e.Well) (address : Int) {s : Machine} {c : Core} (hs : Shows s c) (hm : MemOK s.mem)
    (hr : Room s.mem (c.reg 13) e.depth) :
    (disasm trees (code e.compile) address).2 = none ∧
    ∃ s', executeAll (disasm trees (code e.compile) address).1 s = (.ok (), s') ∧
      s'.regs (some 0) = some ((e.machine fun k => c.reg k).toNat : Int) ∧
      (∀ k : Int, 2 ≤ k → k < 15 → s'.regs (some k) = s.regs (some k)) ∧
      ∀ y : Int, y < (c.reg 13).toNat - 4 * e.depth ∨ ((c.reg 13).toNat : Int) ≤ y → flat s'.mem y = flat s.mem y := by
  obtain ⟨f, a, -⟩ := compiled e c h hr
  obtain ⟨h1, -, s', h2, h3, -⟩ := program_exact_partial e.compile (good h) address hs hm f
  refine ⟨h1, s', h2, ?_, fun k k1 k2 => ?_, fun y hy => ?_⟩
  · rw [h3.1 0 (by decide), a.r0]
  · have hk : k ∈ coreIndices := by
      have : ∀ j : Fin 15, ((j : Nat) : Int) ∈ coreIndices := by decide
      have := this ⟨k.toNat, by omega⟩
      rwa [show ((k.toNat : Nat) : Int) = k by omega] at this
    rw [h3.1 k hk, hs.1 k hk, a.regs k k1 k2]
  · rw [h3.2, hs.2]
    exact a.mem y hy

/-- **C111.** The value of the expression is in R0 at the end. Missing from the full claim: expressions with a sum or difference whose
highest bit is set (see `full_claim_false`, and `expression_exact` for what is computed then). -/
theorem expression_partial {e : Expr} (h : e.Well) (address : Int) {s : Machine} {c : Core} (hs : Shows s c) (hm : MemOK s.mem)
    (hsmall : e.Small fun k => c.reg k) (hr : Room s.mem (c.reg 13) e.depth) :
    (disasm trees (code e.compile) address).2 = none ∧
    ∃ s', executeAll (disasm trees (code e.compile) address).1 s = (.ok (), s') ∧
      s'.regs (some 0) = some ((e.value fun k => c.reg k).toNat : Int) ∧
      (∀ k : Int, 2 ≤ k → k < 15 → s'.regs (some k) = s.regs (some k)) ∧
      ∀ y : Int, y < (c.reg 13).toNat - 4 * e.depth ∨ ((c.reg 13).toNat : Int) ≤ y → flat s'.mem y = flat s.mem y := by
  rw [← machine_eq hsmall]
  exact expression_exact h address hs hm hr

/-- A machine with sixteen bytes of memory and SP above them. -/
def small16 : Machine :=
  { regs := fun k => if k = some 13 then some 0x110 else Machine.new.regs k, mem := [⟨0x100, 0x10f, List.replicate 16 0⟩] }

/-- **C111.** With a sum whose highest bit is set the claim is false: `~0 + 0` gives 0. -/
theorem full_claim_false : (executeAll (disasm trees (code (Expr.op .add (.not (.const 0)) (.const 0)).compile) 0).1 small16).2.regs (some 0) = some 0 ∧
    ((Expr.op .add (.not (.const 0)) (.const 0)).value fun _ => 0).toNat = 0xffffffff := by
  decide +kernel

/-- `(r4 * 5) ^ (r4 & ~r5)` -/
def sample : Expr := .op .xor (.op .mul (.var 4) (.const 5)) (.op .and (.var 4) (.not (.var 5)))

example : (code sample.compile) = [0x20, 0x46, 0x01, 0xb4, 0x05, 0x20, 0x02, 0xbc, 0x48, 0x43, 0x01, 0xb4, 0x20, 0x46, 0x01, 0xb4, 0x28, 0x46, 0xc0, 0x43,
    0x02, 0xbc, 0x08, 0x40, 0x02, 0xbc, 0x48, 0x40] := by decide +kernel

example : sample.depth = 2 := rfl

/-- With two words of stack. -/
example {s : Machine} {c : Core} (hs : Shows s c) (hm : s.mem = [⟨0x100, 0x107, List.replicate 8 0⟩]) (h13 : c.reg 13 = 0x108#32)
    (h4 : c.reg 4 = 0xffffffff#32) (h5 : c.reg 5 = 0xf0#32) :
    ∃ s', executeAll (disasm trees (code sample.compile) 0).1 s = (.ok (), s') ∧ s'.regs (some 0) = some 0xf4 := by
  have hok : MemOK s.mem := by
    rw [hm]
    refine ⟨?_, List.pairwise_singleton _ _⟩
    intro m h
    rw [List.mem_singleton] at h
    subst h
    exact ⟨by decide, by decide⟩
  obtain ⟨-, s', h1, h2, -⟩ := expression_partial (e := sample) (by unfold sample; simp [Expr.Well]) 0 hs hok (by unfold sample; simp [Expr.Small])
    (by
      refine ⟨by rw [h13]; decide, by rw [h13]; decide, fun j hj => ?_⟩
      rw [h13, hm]
      have hj : j < 2 := hj
      refine ⟨_, List.mem_cons_self, ?_, ?_⟩ <;> simp <;> omega)
  refine ⟨s', h1, h2.trans ?_⟩
  have : (sample.value fun k => c.reg k) = 0xf4#32 := by
    show (c.reg 4 * 5#32) ^^^ (c.reg 4 &&& ~~~c.reg 5) = _
    rw [h4, h5]
    decide
  rw [this]
  rfl

end C111
end Verif
