import Verif.Props.C112
import Verif.Props.C107

/-!
# C113: compiled programs with conditions and loops compute what they mean

A small language with assignments, conditions and loops, its meaning, its code, and that a file with the code ends with
the variables having the values that the program gives them.
-/

namespace Verif
open Console BS CpuM Thumb C43 C70

namespace C113
open C73 C106 C111 C112

/-- Programs. The variables are R2 to R12; a condition is true if its value is not zero. -/
inductive Stmt where
  | skip
  | assign (k : Nat) (e : Expr)
  | seq (a b : Stmt)
  | cond (e : Expr) (a b : Stmt)
  | loop (e : Expr) (a : Stmt)

/-- `Evals f s v w`: the program, begun with these values of the variables, ends with those, if `f` gives the values of
expressions. -/
inductive Evals (f : (Nat → Word) → Expr → Word) : Stmt → (Nat → Word) → (Nat → Word) → Prop where
  | skip {v} : Evals f .skip v v
  | assign {k e v} : Evals f (.assign k e) v (fun j => if j = k then f v e else v j)
  | seq {a b v v' v''} : Evals f a v v' → Evals f b v' v'' → Evals f (.seq a b) v v''
  | condTrue {e a b v v'} : f v e ≠ 0#32 → Evals f a v v' → Evals f (.cond e a b) v v'
  | condFalse {e a b v v'} : f v e = 0#32 → Evals f b v v' → Evals f (.cond e a b) v v'
  | loopTrue {e a v v' v''} : f v e ≠ 0#32 → Evals f a v v' → Evals f (.loop e a) v' v'' → Evals f (.loop e a) v v''
  | loopFalse {e a v} : f v e = 0#32 → Evals f (.loop e a) v v

/-- The same with the number of instructions that are executed: those of the expressions, two to test a value, ten for a jump. -/
inductive Takes (f : (Nat → Word) → Expr → Word) : Stmt → (Nat → Word) → (Nat → Word) → Nat → Prop where
  | skip {v} : Takes f .skip v v 0
  | assign {j e v} : Takes f (.assign j e) v (fun i => if i = j then f v e else v i) (e.compile.length + 1)
  | seq {a b v v' v'' k k'} : Takes f a v v' k → Takes f b v' v'' k' → Takes f (.seq a b) v v'' (k + k')
  | condTrue {e a b v v' k} : f v e ≠ 0#32 → Takes f a v v' k → Takes f (.cond e a b) v v' (e.compile.length + 2 + k + 10)
  | condFalse {e a b v v' k} : f v e = 0#32 → Takes f b v v' k → Takes f (.cond e a b) v v' (e.compile.length + 2 + 10 + k)
  | loopTrue {e a v v' v'' k k'} : f v e ≠ 0#32 → Takes f a v v' k → Takes f (.loop e a) v' v'' k' →
      Takes f (.loop e a) v v'' (e.compile.length + 2 + k + 10 + k')
  | loopFalse {e a v} : f v e = 0#32 → Takes f (.loop e a) v v (e.compile.length + 2 + 10)

/-- A program that ends takes some number of instructions. -/
theorem evals_takes {f : (Nat → Word) → Expr → Word} {s : Stmt} {v w : Nat → Word} (h : Evals f s v w) : ∃ k, Takes f s v w k := by
  induction h with
  | skip => exact ⟨_, .skip⟩
  | assign => exact ⟨_, .assign⟩
  | seq _ _ ha hb =>
    obtain ⟨k, ha⟩ := ha
    obtain ⟨k', hb⟩ := hb
    exact ⟨_, .seq ha hb⟩
  | condTrue hz _ ha =>
    obtain ⟨k, ha⟩ := ha
    exact ⟨_, .condTrue hz ha⟩
  | condFalse hz _ ha =>
    obtain ⟨k, ha⟩ := ha
    exact ⟨_, .condFalse hz ha⟩
  | loopTrue hz _ _ ha hb =>
    obtain ⟨k, ha⟩ := ha
    obtain ⟨k', hb⟩ := hb
    exact ⟨_, .loopTrue hz ha hb⟩
  | loopFalse hz => exact ⟨_, .loopFalse hz⟩

/-- The same for the values modulo 2 ^ 32, and on the way no sum or difference has its highest bit set. -/
inductive Small : Stmt → (Nat → Word) → (Nat → Word) → Prop where
  | skip {v} : Small .skip v v
  | assign {k e v} : e.Small v → Small (.assign k e) v (fun j => if j = k then e.value v else v j)
  | seq {a b v v' v''} : Small a v v' → Small b v' v'' → Small (.seq a b) v v''
  | condTrue {e a b v v'} : e.Small v → e.value v ≠ 0#32 → Small a v v' → Small (.cond e a b) v v'
  | condFalse {e a b v v'} : e.Small v → e.value v = 0#32 → Small b v v' → Small (.cond e a b) v v'
  | loopTrue {e a v v' v''} : e.Small v → e.value v ≠ 0#32 → Small a v v' → Small (.loop e a) v' v'' → Small (.loop e a) v v''
  | loopFalse {e a v} : e.Small v → e.value v = 0#32 → Small (.loop e a) v v

/-- Then the program means the same for the values, and for what the machine computes. -/
theorem small_evals {s : Stmt} {v w : Nat → Word} (h : Small s v w) : Evals Expr.value s v w ∧ Evals Expr.machine s v w := by
  induction h with
  | skip => exact ⟨.skip, .skip⟩
  | assign hs => exact ⟨.assign, by rw [← machine_eq hs]; exact .assign⟩
  | seq _ _ ha hb => exact ⟨.seq ha.1 hb.1, .seq ha.2 hb.2⟩
  | condTrue hs hz _ ih => exact ⟨.condTrue hz ih.1, .condTrue (by rw [machine_eq hs]; exact hz) ih.2⟩
  | condFalse hs hz _ ih => exact ⟨.condFalse hz ih.1, .condFalse (by rw [machine_eq hs]; exact hz) ih.2⟩
  | loopTrue hs hz _ _ ha hl => exact ⟨.loopTrue hz ha.1 hl.1, .loopTrue (by rw [machine_eq hs]; exact hz) ha.2 hl.2⟩
  | loopFalse hs hz => exact ⟨.loopFalse hz, .loopFalse (by rw [machine_eq hs]; exact hz)⟩

/-- The meaning is unique. -/
theorem evals_unique {f : (Nat → Word) → Expr → Word} {s : Stmt} {v v1 v2 : Nat → Word} (h1 : Evals f s v v1) (h2 : Evals f s v v2) : v1 = v2 := by
  induction h1 generalizing v2 with
  | skip => cases h2; rfl
  | assign => cases h2; rfl
  | seq _ _ iha ihb =>
    cases h2 with
    | seq ha hb =>
      cases iha ha
      exact ihb hb
  | condTrue hz _ ih =>
    cases h2 with
    | condTrue _ h => exact ih h
    | condFalse hz' _ => exact absurd hz' hz
  | condFalse hz _ ih =>
    cases h2 with
    | condTrue hz' _ => exact absurd hz hz'
    | condFalse _ h => exact ih h
  | loopTrue hz _ _ iha ihl =>
    cases h2 with
    | loopTrue _ ha hl =>
      cases iha ha
      exact ihl hl
    | loopFalse hz' => exact absurd hz' hz
  | loopFalse hz =>
    cases h2 with
    | loopTrue hz' _ _ => exact absurd hz hz'
    | loopFalse _ => rfl

/-- The variables are R2 to R12, and the expressions need no more than this many words of stack. -/
def Stmt.Well (n : Nat) : Stmt → Prop
  | .skip => True
  | .assign k e => (2 ≤ k ∧ k < 13) ∧ e.Well ∧ e.depth ≤ n
  | .seq a b => a.Well n ∧ b.Well n
  | .cond e a b => (e.Well ∧ e.depth ≤ n) ∧ a.Well n ∧ b.Well n
  | .loop e a => (e.Well ∧ e.depth ≤ n) ∧ a.Well n

/-- An address as an expression. -/
def address (t : Nat) : Expr := .op .add (.op .mul (.const (t / 255)) (.const 255)) (.const (t % 255))

/-- A jump to this instruction of the code that begins at `x`: the address with bit 0 set in R0, and `bx r0`. -/
def jump (x i : Nat) : List (Enc × Nat) := (address (x + 2 * i + 1)).compile ++ [(Thumb.bx, 0x4700)]

/-- `tst r0, r0; bne` over the jump after it. -/
def test : List (Enc × Nat) := [(Thumb.tst, 0x4200), (Thumb.bCond, 0xd109)]

/-- The number of instructions. -/
def Stmt.size : Stmt → Nat
  | .skip => 0
  | .assign _ e => e.compile.length + 1
  | .seq a b => a.size + b.size
  | .cond e a b => e.compile.length + (2 + (10 + (a.size + (10 + b.size))))
  | .loop e a => e.compile.length + (2 + (10 + (a.size + 10)))

/-- The code of a program, for code that begins at `x`, of which it is at instruction `i`. Jumps have absolute addresses, as
branches backwards are decoded wrongly. -/
def Stmt.compile (x : Nat) (i : Nat) : Stmt → List (Enc × Nat)
  | .skip => []
  | .assign k e => e.compile ++ [move k]
  | .seq a b => a.compile x i ++ b.compile x (i + a.size)
  | .cond e a b => e.compile ++ (test ++ (jump x (i + (e.compile.length + (2 + (10 + (a.size + 10))))) ++
      (a.compile x (i + (e.compile.length + (2 + 10))) ++ (jump x (i + (Stmt.cond e a b).size) ++
        b.compile x (i + (e.compile.length + (2 + (10 + (a.size + 10)))))))))
  | .loop e a => e.compile ++ (test ++ (jump x (i + (Stmt.loop e a).size) ++ (a.compile x (i + (e.compile.length + (2 + 10))) ++ jump x i)))

theorem jump_length (x i : Nat) : (jump x i).length = 10 := rfl

theorem test_length : test.length = 2 := rfl

theorem compile_length (x : Nat) (s : Stmt) : ∀ i, (s.compile x i).length = s.size := by
  induction s with
  | skip => exact fun _ => rfl
  | assign k e => exact fun i => by simp [Stmt.compile, Stmt.size]
  | seq a b iha ihb => exact fun i => by simp [Stmt.compile, Stmt.size, iha, ihb]
  | cond e a b iha ihb => exact fun i => by simp [Stmt.compile, Stmt.size, iha, ihb, jump_length, test_length]
  | loop e a iha => exact fun i => by simp [Stmt.compile, Stmt.size, iha, jump_length, test_length]

theorem plain_append {ps qs : List (Enc × Nat)} (h : Plain ps) (h' : Plain qs) : Plain (ps ++ qs) := by
  intro p hp
  rcases List.mem_append.1 hp with hp | hp
  · exact h p hp
  · exact h' p hp

theorem address_well {t : Nat} (h : t < 65280) : (address t).Well :=
  ⟨⟨(by omega : t / 255 < 256), (by decide : 255 < 256)⟩, (by omega : t % 255 < 256)⟩

theorem address_value (t : Nat) (v : Nat → Word) : (address t).value v = BitVec.ofNat 32 t := by
  show BitVec.ofNat 32 (t / 255) * BitVec.ofNat 32 255 + BitVec.ofNat 32 (t % 255) = _
  rw [← BitVec.ofNat_mul, ← BitVec.ofNat_add, show t / 255 * 255 + t % 255 = t by omega]

theorem address_small {t : Nat} (h : t < 65280) (v : Nat → Word) : (address t).Small v := by
  refine ⟨⟨trivial, trivial, fun h => (by rcases h with h | h <;> cases h)⟩, trivial, fun _ => ?_⟩
  rw [show Op.value .add _ _ = (address t).value v from rfl, address_value]
  rw [BitVec.msb_eq_decide, BitVec.toNat_ofNat]
  simp
  omega

theorem jump_plain {x i : Nat} (h : x + 2 * i + 1 < 65280) : Plain (jump x i) := by
  refine plain_append (plain (address_well h)) ?_
  intro p hp
  rw [List.mem_singleton.1 hp]
  exact ⟨rfl, by simp [encodings], ⟨by decide, by decide, by decide⟩, not_wrong (by decide) _⟩

theorem test_plain : Plain test := by
  intro p hp
  simp only [test, List.mem_cons, List.not_mem_nil, or_false] at hp
  rcases hp with rfl | rfl
  · exact ⟨rfl, by simp [encodings], ⟨by decide, by decide, by decide⟩, not_wrong (by decide) _⟩
  · refine ⟨rfl, by simp [encodings], ⟨by decide, by decide, by decide⟩, ?_⟩
    unfold Wrong
    decide

theorem compile_plain {x n : Nat} {s : Stmt} : ∀ {i : Nat}, s.Well n → x + 2 * (i + s.size) + 1 < 65280 → Plain (s.compile x i) := by
  induction s with
  | skip => exact fun _ _ _ hp => by cases hp
  | assign k e =>
    intro i h _
    have := plains (l := [⟨k, e⟩]) (by intro a ha; rw [List.mem_singleton.1 ha]; exact ⟨h.1, h.2.1⟩)
    simpa [compiles, Stmt.compile] using this
  | seq a b iha ihb =>
    intro i h hi
    simp only [Stmt.size] at hi
    exact plain_append (iha h.1 (by omega)) (ihb h.2 (by omega))
  | cond e a b iha ihb =>
    intro i h hi
    have hi' := hi
    simp only [Stmt.size] at hi
    exact plain_append (plain h.1.1) (plain_append test_plain (plain_append (jump_plain (by omega)) (plain_append (iha h.2.1 (by omega))
      (plain_append (jump_plain hi') (ihb h.2.2 (by omega))))))
  | loop e a iha =>
    intro i h hi
    have hi' := hi
    simp only [Stmt.size] at hi
    exact plain_append (plain h.1.1) (plain_append test_plain (plain_append (jump_plain hi') (plain_append (iha h.2 (by omega))
      (jump_plain (by omega)))))

/-- A program in memory, and a stack. -/
structure Setting (mem : List Region) (x : Nat) (prog : List (Enc × Nat)) (sp : Word) (n : Nat) (m : Flat) : Prop where
  plain : Plain prog
  inside : Inside mem x (code prog).length
  top : x + 2 * prog.length ≤ 65279
  even : x % 2 = 0
  lies : C99.Lies m x (code prog)
  room : Room mem sp n
  one : 1 ≤ n
  apart : x + 2 * prog.length ≤ sp.toNat - 4 * n

/-- At this instruction, with these values of the variables, and memory unchanged except for the stack. -/
structure Here (x : Nat) (sp : Word) (n : Nat) (m : Flat) (c : Core) (v : Nat → Word) (i : Nat) : Prop where
  pc : PcAt c (x + 2 * i)
  vars : ∀ k : Nat, 2 ≤ k → k < 13 → c.reg k = v k
  stack : c.reg 13 = sp
  mem : ∀ y : Int, y < sp.toNat - 4 * n ∨ (sp.toNat : Int) ≤ y → c.mem y = m y

/-- This code is part of the program, at this instruction, and not at its end. -/
def Part (prog : List (Enc × Nat)) (i : Nat) (ps : List (Enc × Nat)) : Prop := ∃ pre post, prog = pre ++ ps ++ post ∧ pre.length = i ∧ post ≠ []

theorem part_left {prog : List (Enc × Nat)} {i : Nat} {a b : List (Enc × Nat)} (h : Part prog i (a ++ b)) : Part prog i a := by
  obtain ⟨pre, post, h1, h2, h3⟩ := h
  exact ⟨pre, b ++ post, by rw [h1]; simp, h2, by simp [h3]⟩

theorem part_right {prog : List (Enc × Nat)} {i : Nat} {a b : List (Enc × Nat)} {k : Nat} (hk : a.length = k) (h : Part prog i (a ++ b)) : Part prog (i + k) b := by
  obtain ⟨pre, post, h1, h2, h3⟩ := h
  exact ⟨pre ++ a, post, by rw [h1]; simp, by simp [h2, hk], h3⟩

theorem part_lt {prog : List (Enc × Nat)} {i : Nat} {a : List (Enc × Nat)} (h : Part prog i a) : i + a.length < prog.length := by
  obtain ⟨pre, post, h1, h2, h3⟩ := h
  have := List.length_pos_iff.2 h3
  rw [h1]
  simp only [List.length_append]
  omega

section
variable {mem : List Region} {x : Nat} {prog : List (Enc × Nat)} {sp : Word} {n : Nat} {m : Flat} (hS : Setting mem x prog sp n m)
include hS

theorem here_lies {c : Core} {v : Nat → Word} {i : Nat} (h : Here x sp n m c v i) : C99.Lies c.mem x (code prog) := by
  intro j hj
  have hl := code_length hS.plain
  have h1 := hS.apart
  have h2 := hS.room.space
  rw [h.mem _ (.inl (by omega))]
  exact hS.lies j hj

/-- Straight code. -/
theorem straight_part {c : Core} {v : Nat → Word} {i : Nat} (h : Here x sp n m c v i) {ps : List (Enc × Nat)} (hp : Part prog i ps)
    (hf : AllFair mem ps c)
    (hs : ∀ hi : Int, hi ≤ sp.toNat - 4 * n → Straight x hi ps c) :
    Really mem ps.length c (realAll ps c) ∧ PcAt (realAll ps c) (x + 2 * (i + ps.length)) := by
  obtain ⟨pre, post, h1, h2, h3⟩ := hp
  have hl := code_length hS.plain
  have htop := hS.top
  have hap := hS.apart
  have hpl := hS.plain
  have hsp := hS.room.space
  rw [h1] at hpl
  have q1 : Plain pre := fun p hp => hpl p (List.mem_append_left _ (List.mem_append_left _ hp))
  have q2 : Plain ps := fun p hp => hpl p (List.mem_append_left _ (List.mem_append_right _ hp))
  have q3 : Plain post := fun p hp => hpl p (List.mem_append_right _ hp)
  have := linear_goes (mem := mem) (x := x) (bs := code prog) hS.inside (by omega) h3 q3 ps pre c (by rw [h1]) q1 q2 (here_lies hS h)
    (by rw [h2]; exact h.pc) hf (hs _ (by omega))
  rw [h2] at this
  exact this

/-- The value of an expression. -/
theorem eval_part {c : Core} {v : Nat → Word} {i : Nat} (h : Here x sp n m c v i) {e : Expr} (hp : Part prog i e.compile) (hw : e.Well) (hd : e.depth ≤ n) :
    ∃ d, Really mem e.compile.length c d ∧ Here x sp n m d v (i + e.compile.length) ∧ d.reg 0 = e.machine v := by
  have hv : ∀ k, 2 ≤ k → k < 13 → v k = (fun k : Nat => c.reg k) k := fun k k1 k2 => (h.vars k k1 k2).symm
  obtain ⟨f, a, st⟩ := compiled (mem := mem) e c hw (by rw [h.stack]; exact room_mono hS.room hd)
  obtain ⟨g1, g2⟩ := straight_part hS h hp f (fun hi h1 => st _ _ (.inl (by rw [h.stack]; omega)))
  refine ⟨_, g1, ⟨g2, fun k k1 k2 => ?_, ?_, fun y hy => ?_⟩, ?_⟩
  · rw [a.regs k (by omega) (by omega), h.vars k k1 k2]
  · rw [a.regs 13 (by decide) (by decide), h.stack]
  · rw [a.mem y (by rw [h.stack]; omega), h.mem y hy]
  · rw [a.r0, machine_congr hv hw]

/-- An assignment. -/
theorem assign_part {c : Core} {v : Nat → Word} {i : Nat} (h : Here x sp n m c v i) {k : Nat} {e : Expr} (hp : Part prog i (e.compile ++ [move k]))
    (hk : 2 ≤ k ∧ k < 13) (hw : e.Well) (hd : e.depth ≤ n) :
    ∃ d, Really mem (e.compile.length + 1) c d ∧ Here x sp n m d (fun j => if j = k then e.machine v else v j) (i + (e.compile.length + 1)) := by
  have hv : ∀ k, 2 ≤ k → k < 13 → v k = (fun k : Nat => c.reg k) k := fun k k1 k2 => (h.vars k k1 k2).symm
  have hwl : Wells [⟨k, e⟩] := by intro a ha; rw [List.mem_singleton.1 ha]; exact ⟨hk, hw⟩
  obtain ⟨f, a, st⟩ := compiled_all (mem := mem) (n := n) [⟨k, e⟩] c hwl (by intro a ha; rw [List.mem_singleton.1 ha]; exact hd) (by rw [h.stack]; exact hS.room)
  rw [show compiles [⟨k, e⟩] = e.compile ++ [move k] by simp [compiles]] at f a st
  obtain ⟨g1, g2⟩ := straight_part hS h hp f (fun hi h1 => st _ _ (.inl (by rw [h.stack]; omega)))
  rw [show (e.compile ++ [move k]).length = e.compile.length + 1 by simp] at g1 g2
  refine ⟨_, g1, ⟨g2, fun j k1 k2 => ?_, ?_, fun y hy => ?_⟩⟩
  · rw [a.vars j k1 k2, ← machines_congr hwl hv j k1 k2]
    rfl
  · rw [a.sp, h.stack]
  · rw [a.mem y (by rw [h.stack]; omega), h.mem y hy]

/-- One instruction. -/
theorem one_part {c : Core} {v : Nat → Word} {i : Nat} (h : Here x sp n m c v i) {e : Enc} {w : Nat} (hp : Part prog i [(e, w)]) {act : Act}
    (ha : e.act (field e.pat w) = act) (hn : act.NoPc) (hf : Fair mem c act) : Really mem 1 c (real 2 c act) := by
  obtain ⟨pre, post, h1, h2, h3⟩ := hp
  have hpl := hS.plain
  rw [h1] at hpl
  have q1 : Plain pre := fun p hp => hpl p (List.mem_append_left _ (List.mem_append_left _ hp))
  obtain ⟨p1, p2, p3, p4⟩ := hpl (e, w) (List.mem_append_left _ (List.mem_append_right _ List.mem_cons_self))
  simp only at p1 p2 p3 p4
  have hpre' : Plain (pre ++ [(e, w)]) := fun p hp => hpl p (List.mem_append_left _ hp)
  obtain ⟨e', w', t', rfl⟩ : ∃ e' w' t', post = (e', w') :: t' := by
    cases post with
    | nil => exact absurd rfl h3
    | cons p t' => exact ⟨p.1, p.2, t', rfl⟩
  obtain ⟨r1, r2, r3, -⟩ := hpl (e', w') (List.mem_append_right _ List.mem_cons_self)
  simp only at r1 r2 r3
  have hw : w % 256 + 256 * (w / 256) = w := by omega
  have hw' : w' % 256 + 256 * (w' / 256) = w' := by omega
  obtain ⟨b0, b1⟩ := code_at q1 w p1 ((e', w') :: t')
  obtain ⟨b2, b3⟩ := code_at hpre' w' r1 t'
  rw [show pre ++ (e, w) :: (e', w') :: t' = pre ++ [(e, w)] ++ (e', w') :: t' by simp, ← h1] at b0 b1
  rw [← h1, show (pre ++ [(e, w)]).length = pre.length + 1 by simp] at b2 b3
  have st := stood_at (mem := mem) (here_lies hS h) hS.inside (j := 2 * pre.length) (by rw [h2]; exact h.pc) (e := e) (e' := e') b0 b1 b2 b3 p2 p1
    (by rw [hw]; exact p3) r2 r1 (by rw [hw']; exact r3) (by rw [hw]; exact p4) (by rw [hw, ha]; exact hn) (by rw [hw, ha]; exact hf)
  rw [hw] at st
  have := Really.more st .done
  rw [ha, p1] at this
  exact this

/-- A jump. -/
theorem jump_part {c : Core} {v : Nat → Word} {i t : Nat} (h : Here x sp n m c v i) (hp : Part prog i (jump x t)) (ht : t ≤ prog.length) :
    ∃ d, Really mem 10 c d ∧ Here x sp n m d v t := by
  have htop := hS.top
  have heven := hS.even
  have hlt : x + 2 * t + 1 < 65280 := by omega
  obtain ⟨d, g, hd, h0⟩ := eval_part hS h (part_left hp) (address_well hlt) (by exact hS.one)
  have ha : Thumb.bx.act (field Thumb.bx.pat 0x4700) = .bx 0 := by decide +kernel
  have g' := one_part hS hd (part_right rfl hp) ha (by decide : 0 < 15) trivial
  have hrd : d.rd 0 = BitVec.ofNat 32 (x + 2 * t + 1) := by
    rw [show d.rd 0 = d.reg 0 from core_rd d (by decide), h0, machine_eq (address_small hlt v), address_value]
  refine ⟨_, really_trans g g', ⟨?_, fun k k1 k2 => ?_, ?_, fun y hy => hd.mem y hy⟩⟩
  · unfold PcAt
    show (keepBits 15 (d.rd 0 &&& ~~~1#32)).toNat / 2 * 2 = _
    rw [show keepBits 15 (d.rd 0 &&& ~~~1#32) = d.rd 0 &&& ~~~1#32 from keepBits_plain (d := 15) (by decide) (by decide) _, C81.clear_nat, hrd,
      BitVec.toNat_ofNat]
    omega
  · show (d.set 15 _).reg k = _
    rw [core_reg_set, if_neg (by omega), hd.vars k k1 k2]
  · show (d.set 15 _).reg 13 = _
    rw [core_reg_set, if_neg (by omega), hd.stack]

/-- A test: if R0 is zero then to the jump after it, otherwise to the code after that. -/
theorem test_part {c : Core} {v : Nat → Word} {i : Nat} (h : Here x sp n m c v i) (hp : Part prog i test) :
    ∃ d, Really mem 2 c d ∧ Here x sp n m d v (if c.reg 0 = 0#32 then i + 2 else i + 12) := by
  have htop := hS.top
  have hlt := part_lt hp
  have ha : Thumb.tst.act (field Thumb.tst.pat 0x4200) = .tst 0 0 (.none, 0) := by decide +kernel
  have hb : Thumb.bCond.act (field Thumb.bCond.pat 0xd109) = .branch 1 (w32 18) := by decide +kernel
  have hpc := h.pc
  unfold PcAt at hpc
  rw [test_length] at hlt
  have g1 : Really mem 1 c ((Act.tst 0 0 (.none, 0)).run 2 c) := one_part hS h (part_left (a := [(Thumb.tst, 0x4200)]) (b := [(Thumb.bCond, 0xd109)]) hp) ha ⟨by decide, by decide⟩ trivial
  have hrun : (Act.tst 0 0 (.none, 0)).run 2 c = (c.flags true (c.reg 0) (some (c.flag 29)) none).next 2 := by
    have e : c.rd 0 &&& c.rd 0 = c.reg 0 := by rw [BitVec.and_self]; exact core_rd c (by decide)
    rw [← e]
    rfl
  rw [hrun] at g1
  generalize hc1 : (c.flags true (c.reg 0) (some (c.flag 29)) none).next 2 = c1 at g1
  have z1 : c1.flag 30 = (c.reg 0 == 0#32) := by
    rw [← hc1, ← C99.flags_z c (c.reg 0) (some (c.flag 29)) none]
    unfold Core.flag
    rw [C99.next_reg _ _ (by decide)]
  have hd1 : Here x sp n m c1 v (i + 1) := by
    rw [← hc1]
    refine ⟨?_, fun k k1 k2 => ?_, ?_, fun y hy => ?_⟩
    · unfold PcAt
      rw [C99.next_pc, C102.flags_other _ _ _ _ _ (by decide), BitVec.toNat_add, BitVec.toNat_ofNat]
      omega
    · rw [C99.next_reg _ _ (by omega), C102.flags_other _ _ _ _ _ (by omega), h.vars k k1 k2]
    · rw [C99.next_reg _ _ (by decide), C102.flags_other _ _ _ _ _ (by decide), h.stack]
    · show (c.flags true (c.reg 0) (some (c.flag 29)) none).mem y = m y
      rw [C99.flags_mem, h.mem y hy]
  have g2 : Really mem 1 c1 ((Act.branch 1 (w32 18)).run 2 c1) := one_part hS hd1 (part_right (a := [(Thumb.tst, 0x4200)]) (b := [(Thumb.bCond, 0xd109)]) rfl hp) hb trivial trivial
  have hrun2 : (Act.branch 1 (w32 18)).run 2 c1 = if c1.flag 30 then c1.next 2 else c1.set 15 (c1.reg 15 + 4#32 + w32 18) := by
    show (if !c1.flag 30 then c1.set 15 (c1.reg 15 + 4#32 + w32 18) else c1.next 2) = _
    cases c1.flag 30 <;> rfl
  rw [hrun2, z1] at g2
  refine ⟨_, really_trans g1 g2, ?_⟩
  have hpc1 := hd1.pc
  unfold PcAt at hpc1
  by_cases hz : c.reg 0 = 0#32
  · rw [if_pos hz, hz, show ((0#32 : Word) == 0#32) = true from rfl, if_pos rfl]
    refine ⟨?_, fun k k1 k2 => ?_, ?_, fun y hy => hd1.mem y hy⟩
    · unfold PcAt
      rw [C99.next_pc, BitVec.toNat_add, BitVec.toNat_ofNat]
      omega
    · rw [C99.next_reg _ _ (by omega), hd1.vars k k1 k2]
    · rw [C99.next_reg _ _ (by decide), hd1.stack]
  · rw [if_neg hz, show (c.reg 0 == 0#32) = false by simpa using hz, if_neg (by decide)]
    refine ⟨?_, fun k k1 k2 => ?_, ?_, fun y hy => hd1.mem y hy⟩
    · unfold PcAt
      rw [core_reg_set, if_pos (.inl rfl), show keepBits 15 _ = _ from keepBits_plain (d := 15) (by decide) (by decide) _,
        BitVec.toNat_add, BitVec.toNat_add, show (4#32).toNat = 4 from rfl, show (w32 18).toNat = 18 from rfl]
      omega
    · rw [core_reg_set, if_neg (by omega), hd1.vars k k1 k2]
    · rw [core_reg_set, if_neg (by omega), hd1.stack]

/-- A program in memory does what it means. -/
theorem takes {s : Stmt} {v v' : Nat → Word} {k : Nat} (hv : Takes Expr.machine s v v' k) : ∀ {c : Core} {i : Nat}, Here x sp n m c v i → Part prog i (s.compile x i) → s.Well n →
    ∃ d, Really mem k c d ∧ Here x sp n m d v' (i + s.size) := by
  induction hv with
  | skip => exact fun h _ _ => ⟨_, .done, h⟩
  | assign =>
    intro c i h hp hw
    obtain ⟨d, g, hd⟩ := assign_part hS h hp hw.1 hw.2.1 hw.2.2
    exact ⟨d, g, hd⟩
  | @seq a b v v' v'' _ _ _ _ iha ihb =>
    intro c i h hp hw
    obtain ⟨d, g, hd⟩ := iha h (part_left hp) hw.1
    obtain ⟨d', g', hd'⟩ := ihb hd (part_right (compile_length x a i) hp) hw.2
    exact ⟨d', really_trans g g', by rw [Nat.add_assoc] at hd'; exact hd'⟩
  | @condTrue e a b v v' _ hz _ iha =>
    intro c i h hp hw
    have hlt := part_lt hp
    rw [compile_length] at hlt
    obtain ⟨d1, g1, hd1, h0⟩ := eval_part hS h (part_left hp) hw.1.1 hw.1.2
    have hp1 := part_right rfl hp
    obtain ⟨d2, g2, hd2⟩ := test_part hS hd1 (part_left hp1)
    rw [h0, if_neg hz] at hd2
    have hp2 := part_right test_length hp1
    have hp3 := part_right (jump_length _ _) hp2
    rw [show i + e.compile.length + 2 + 10 = i + (e.compile.length + (2 + 10)) by omega] at hp3
    rw [show i + e.compile.length + 12 = i + (e.compile.length + (2 + 10)) by omega] at hd2
    obtain ⟨d3, g3, hd3⟩ := iha hd2 (part_left hp3) hw.2.1
    obtain ⟨d4, g4, hd4⟩ := jump_part hS hd3 (part_left (part_right (compile_length x a _) hp3)) (by omega)
    exact ⟨d4, really_trans (really_trans (really_trans g1 g2) g3) g4, hd4⟩
  | @condFalse e a b v v' _ hz _ ihb =>
    intro c i h hp hw
    have hlt := part_lt hp
    rw [compile_length] at hlt
    simp only [Stmt.size] at hlt
    obtain ⟨d1, g1, hd1, h0⟩ := eval_part hS h (part_left hp) hw.1.1 hw.1.2
    have hp1 := part_right rfl hp
    obtain ⟨d2, g2, hd2⟩ := test_part hS hd1 (part_left hp1)
    rw [h0, if_pos hz] at hd2
    have hp2 := part_right test_length hp1
    have hp3 := part_right (jump_length _ _) hp2
    have hp4 := part_right (compile_length x a _) hp3
    have hp5 := part_right (jump_length _ _) hp4
    obtain ⟨d3, g3, hd3⟩ := jump_part hS hd2 (part_left hp2) (by omega)
    rw [show i + e.compile.length + 2 + 10 + a.size + 10 = i + (e.compile.length + (2 + (10 + (a.size + 10)))) by omega] at hp5
    obtain ⟨d4, g4, hd4⟩ := ihb hd3 hp5 hw.2.2
    refine ⟨d4, really_trans (really_trans (really_trans g1 g2) g3) g4, ?_⟩
    rw [show i + (e.compile.length + (2 + (10 + (a.size + 10)))) + b.size = i + (Stmt.cond e a b).size by simp only [Stmt.size]; omega] at hd4
    exact hd4
  | @loopTrue e a v v' v'' _ _ hz _ _ iha ihl =>
    intro c i h hp hw
    have hlt := part_lt hp
    rw [compile_length] at hlt
    have hp0 := hp
    obtain ⟨d1, g1, hd1, h0⟩ := eval_part hS h (part_left hp) hw.1.1 hw.1.2
    have hp1 := part_right rfl hp
    obtain ⟨d2, g2, hd2⟩ := test_part hS hd1 (part_left hp1)
    rw [h0, if_neg hz] at hd2
    have hp2 := part_right test_length hp1
    have hp3 := part_right (jump_length _ _) hp2
    rw [show i + e.compile.length + 2 + 10 = i + (e.compile.length + (2 + 10)) by omega] at hp3
    rw [show i + e.compile.length + 12 = i + (e.compile.length + (2 + 10)) by omega] at hd2
    obtain ⟨d3, g3, hd3⟩ := iha hd2 (part_left hp3) hw.2
    obtain ⟨d4, g4, hd4⟩ := jump_part hS hd3 (part_right (compile_length x a _) hp3) (by omega)
    obtain ⟨d5, g5, hd5⟩ := ihl hd4 hp0 hw
    exact ⟨d5, really_trans (really_trans (really_trans (really_trans g1 g2) g3) g4) g5, hd5⟩
  | @loopFalse e a v hz =>
    intro c i h hp hw
    have hlt := part_lt hp
    rw [compile_length] at hlt
    obtain ⟨d1, g1, hd1, h0⟩ := eval_part hS h (part_left hp) hw.1.1 hw.1.2
    have hp1 := part_right rfl hp
    obtain ⟨d2, g2, hd2⟩ := test_part hS hd1 (part_left hp1)
    rw [h0, if_pos hz] at hd2
    have hp2 := part_right test_length hp1
    obtain ⟨d3, g3, hd3⟩ := jump_part hS hd2 (part_left hp2) (by omega)
    exact ⟨d3, really_trans (really_trans g1 g2) g3, hd3⟩

/-- A program that ends, in memory. -/
theorem runs {s : Stmt} {v v' : Nat → Word} (hv : Evals Expr.machine s v v') {c : Core} {i : Nat} (h : Here x sp n m c v i)
    (hp : Part prog i (s.compile x i)) (hw : s.Well n) : ∃ k d, Really mem k c d ∧ Here x sp n m d v' (i + s.size) := by
  obtain ⟨k, hk⟩ := evals_takes hv
  obtain ⟨d, h⟩ := takes hS hk h hp hw
  exact ⟨k, d, h⟩

/-- A program in memory ends, or goes on for any number of steps. -/
theorem progress : ∀ (t : Nat) (s : Stmt) {v : Nat → Word} {c : Core} {i : Nat}, Here x sp n m c v i → Part prog i (s.compile x i) → s.Well n →
    (∃ v', Evals Expr.machine s v v') ∨ ∃ k d, t ≤ k ∧ Really mem k c d := by
  intro t
  induction t with
  | zero => exact fun s v c i _ _ _ => .inr ⟨0, c, Nat.le_refl _, .done⟩
  | succ t iht =>
    intro s
    induction s with
    | skip => exact fun _ _ _ => .inl ⟨_, .skip⟩
    | assign k e => exact fun _ _ _ => .inl ⟨_, .assign⟩
    | seq a b iha ihb =>
      intro v c i h hp hw
      rcases iha h (part_left hp) hw.1 with ⟨v', ha⟩ | hr
      · obtain ⟨k, d, g, hd⟩ := runs hS ha h (part_left hp) hw.1
        rcases ihb hd (part_right (compile_length x a i) hp) hw.2 with ⟨v'', hb⟩ | ⟨k', d', hk, g'⟩
        · exact .inl ⟨_, .seq ha hb⟩
        · exact .inr ⟨_, _, by omega, really_trans g g'⟩
      · exact .inr hr
    | cond e a b iha ihb =>
      intro v c i h hp hw
      have hlt := part_lt hp
      rw [compile_length] at hlt
      simp only [Stmt.size] at hlt
      obtain ⟨d1, g1, hd1, h0⟩ := eval_part hS h (part_left hp) hw.1.1 hw.1.2
      have hp1 := part_right rfl hp
      obtain ⟨d2, g2, hd2⟩ := test_part hS hd1 (part_left hp1)
      have hp2 := part_right test_length hp1
      have hp3 := part_right (jump_length _ _) hp2
      by_cases hz : e.machine v = 0#32
      · rw [h0, if_pos hz] at hd2
        have hp4 := part_right (compile_length x a _) hp3
        have hp5 := part_right (jump_length _ _) hp4
        obtain ⟨d3, g3, hd3⟩ := jump_part hS hd2 (part_left hp2) (by omega)
        rw [show i + e.compile.length + 2 + 10 + a.size + 10 = i + (e.compile.length + (2 + (10 + (a.size + 10)))) by omega] at hp5
        rcases ihb hd3 hp5 hw.2.2 with ⟨v', hb⟩ | ⟨k', d', hk, g'⟩
        · exact .inl ⟨_, .condFalse hz hb⟩
        · exact .inr ⟨_, _, by omega, really_trans (really_trans (really_trans g1 g2) g3) g'⟩
      · rw [h0, if_neg hz] at hd2
        rw [show i + e.compile.length + 2 + 10 = i + (e.compile.length + (2 + 10)) by omega] at hp3
        rw [show i + e.compile.length + 12 = i + (e.compile.length + (2 + 10)) by omega] at hd2
        rcases iha hd2 (part_left hp3) hw.2.1 with ⟨v', ha⟩ | ⟨k', d', hk, g'⟩
        · exact .inl ⟨_, .condTrue hz ha⟩
        · exact .inr ⟨_, _, by omega, really_trans (really_trans g1 g2) g'⟩
    | loop e a iha =>
      intro v c i h hp hw
      have hlt := part_lt hp
      rw [compile_length] at hlt
      obtain ⟨d1, g1, hd1, h0⟩ := eval_part hS h (part_left hp) hw.1.1 hw.1.2
      have hp1 := part_right rfl hp
      obtain ⟨d2, g2, hd2⟩ := test_part hS hd1 (part_left hp1)
      have hp2 := part_right test_length hp1
      have hp3 := part_right (jump_length _ _) hp2
      by_cases hz : e.machine v = 0#32
      · exact .inl ⟨_, .loopFalse hz⟩
      · rw [h0, if_neg hz] at hd2
        rw [show i + e.compile.length + 2 + 10 = i + (e.compile.length + (2 + 10)) by omega] at hp3
        rw [show i + e.compile.length + 12 = i + (e.compile.length + (2 + 10)) by omega] at hd2
        rcases iha hd2 (part_left hp3) hw.2 with ⟨v', ha⟩ | ⟨k', d', hk, g'⟩
        · obtain ⟨k3, d3, g3, hd3⟩ := runs hS ha hd2 (part_left hp3) hw.2
          obtain ⟨d4, g4, hd4⟩ := jump_part hS hd3 (part_right (compile_length x a _) hp3) (by omega)
          rcases iht (.loop e a) hd4 hp hw with ⟨v'', hl⟩ | ⟨k5, d5, hk, g5⟩
          · exact .inl ⟨_, .loopTrue hz ha hl⟩
          · exact .inr ⟨_, _, by omega, really_trans (really_trans (really_trans (really_trans g1 g2) g3) g4) g5⟩
        · exact .inr ⟨_, _, by omega, really_trans (really_trans g1 g2) g'⟩

end

/-- At the start. -/
theorem starts_here {binary : List Nat} {s : Stmt} {n : Nat} (h : Contains binary (s.compile 8 0) n) (hn : 1 ≤ n)
    (hsize : 8 + 2 * (s.size + 1) ≤ 65279) (hw : s.Well n) :
    Setting (regions binary) 8 (s.compile 8 0 ++ [(Thumb.nop, 0xbf00)]) ((begins binary).reg 13) n (begins binary).mem ∧
    Here 8 ((begins binary).reg 13) n (begins binary).mem (begins binary) (fun _ => 0#32) 0 ∧
    Part (s.compile 8 0 ++ [(Thumb.nop, 0xbf00)]) 0 (s.compile 8 0) := by
  obtain ⟨head, tail, hbin, hhead⟩ := h.code
  have hstack := h.stack
  have hrn := begins_sp h
  have hplain : Plain (s.compile 8 0 ++ [(Thumb.nop, 0xbf00)]) := plain_append (compile_plain hw (by omega)) nop_plain
  have hlen := code_length hplain
  have hplen : (s.compile 8 0 ++ [(Thumb.nop, 0xbf00)]).length = s.size + 1 := by simp [compile_length]
  have hS : Setting (regions binary) 8 (s.compile 8 0 ++ [(Thumb.nop, 0xbf00)]) ((begins binary).reg 13) n (begins binary).mem := by
    refine ⟨hplain, inside_low binary (by omega), by omega, by decide, ?_, begins_room h, hn, by omega⟩
    intro j hj
    show image binary (wordAt binary 0) ((8 + j : Nat) : Int) = _
    rw [image_low binary (8 + j) (by omega), List.getD_eq_getElem?_getD, hbin, List.append_assoc, List.getElem?_append_right (by omega),
      List.getElem?_append_left (by omega), show 8 + j - head.length = j by omega, List.getElem?_eq_getElem hj]
    rfl
  have hH : Here 8 ((begins binary).reg 13) n (begins binary).mem (begins binary) (fun _ => 0#32) 0 := by
    refine ⟨?_, fun k _ k2 => begins_low binary k k2, rfl, fun _ _ => rfl⟩
    have : (begins binary).reg 15 = BitVec.ofNat 32 (wordAt binary 4) := by
      show (if (image binary (wordAt binary 0) (wordAt binary 4)).isSome then _ else _) = _
      rw [image_low binary _ (by rcases h.pc with e | e <;> omega)]
      rfl
    unfold PcAt
    rw [this]
    rcases h.pc with e | e <;> rw [e] <;> rfl
  exact ⟨hS, hH, [], _, rfl, rfl, by simp⟩

/-- **C113.** A file with the code of a program, started and stepped through, exactly: after the number of steps that `Takes` says every variable has
the value that the program gives it from zero, if negative sums and differences are complemented; PC is after the code, and of the
memory only the stack may have changed. -/
theorem file_steps (python : Python) {binary : List Nat} {s : Stmt} {n : Nat} (h : Contains binary (s.compile 8 0) n) (hn : 1 ≤ n)
    (hsize : 8 + 2 * (s.size + 1) ≤ 65279) (hw : s.Well n) {v : Nat → Word} {k : Nat}
    (hv : Takes Expr.machine s (fun _ => 0#32) v k) {lines : List Str} (ht : Lines [] lines k) :
      ∃ s' out, Console.run python binary lines = (.ok 0, ⟨s', out⟩) ∧ out.length = k + 4 ∧
        (∀ j : Nat, 2 ≤ j → j < 13 → s'.regs (some j) = some ((v j).toNat : Int)) ∧
        (∃ pc : Nat, s'.regs (some 15) = some (pc : Int) ∧ pc / 2 * 2 = 8 + 2 * s.size) ∧
        ∀ y : Int, y < (wordAt binary 0 / 4 * 4 : Nat) - 4 * n ∨ ((wordAt binary 0 / 4 * 4 : Nat) : Int) ≤ y →
          flat s'.mem y = image binary (wordAt binary 0) y := by
  obtain ⟨hS, hH, hP⟩ := starts_here h hn hsize hw
  have hrn := begins_sp h
  obtain ⟨d, g, hd⟩ := takes hS hv hH hP hw
  obtain ⟨s', ls, e1, e2, e3, -⟩ := simulates_exact_partial python h.bytes (by have := h.size; omega) ht g
  refine ⟨s', _, e1, ?_, fun j j1 j2 => ?_, ⟨(d.reg 15).toNat, e3.1 15 (by decide), ?_⟩, fun y hy => ?_⟩
  · rw [List.length_append, List.length_append, e2]
    simp only [List.length_cons, List.length_nil]
    omega
  · rw [e3.1 j (low_core j2), hd.vars j j1 j2]
  · have := hd.pc
    unfold PcAt at this
    omega
  · rw [e3.2, hd.mem y (by rw [hrn]; exact hy)]
    rfl

/-- **C113.** A file with the code of a program, started and stepped through, exactly: after some number of steps every variable has
the value that the program gives it from zero, if negative sums and differences are complemented; PC is after the code, and of the
memory only the stack may have changed. -/
theorem file_exact (python : Python) {binary : List Nat} {s : Stmt} {n : Nat} (h : Contains binary (s.compile 8 0) n) (hn : 1 ≤ n)
    (hsize : 8 + 2 * (s.size + 1) ≤ 65279) (hw : s.Well n) {v : Nat → Word} (hv : Evals Expr.machine s (fun _ => 0#32) v) :
    ∃ k, ∀ {lines : List Str}, Lines [] lines k →
      ∃ s' out, Console.run python binary lines = (.ok 0, ⟨s', out⟩) ∧ out.length = k + 4 ∧
        (∀ j : Nat, 2 ≤ j → j < 13 → s'.regs (some j) = some ((v j).toNat : Int)) ∧
        (∃ pc : Nat, s'.regs (some 15) = some (pc : Int) ∧ pc / 2 * 2 = 8 + 2 * s.size) ∧
        ∀ y : Int, y < (wordAt binary 0 / 4 * 4 : Nat) - 4 * n ∨ ((wordAt binary 0 / 4 * 4 : Nat) : Int) ≤ y →
          flat s'.mem y = image binary (wordAt binary 0) y := by
  obtain ⟨k, hk⟩ := evals_takes hv
  exact ⟨k, fun ht => file_steps python h hn hsize hw hk ht⟩

/-- **C113.** Every variable has the value that the program gives it from zero. Missing: programs in which a sum or difference has its
highest bit set, see `file_exact`. -/
theorem file_program_partial (python : Python) {binary : List Nat} {s : Stmt} {n : Nat} (h : Contains binary (s.compile 8 0) n) (hn : 1 ≤ n)
    (hsize : 8 + 2 * (s.size + 1) ≤ 65279) (hw : s.Well n) {v : Nat → Word} (hv : Small s (fun _ => 0#32) v) :
    ∃ k, ∀ {lines : List Str}, Lines [] lines k →
      ∃ s' out, Console.run python binary lines = (.ok 0, ⟨s', out⟩) ∧ out.length = k + 4 ∧
        (∀ j : Nat, 2 ≤ j → j < 13 → s'.regs (some j) = some ((v j).toNat : Int)) ∧
        (∃ pc : Nat, s'.regs (some 15) = some (pc : Int) ∧ pc / 2 * 2 = 8 + 2 * s.size) ∧
        ∀ y : Int, y < (wordAt binary 0 / 4 * 4 : Nat) - 4 * n ∨ ((wordAt binary 0 / 4 * 4 : Nat) : Int) ≤ y →
          flat s'.mem y = image binary (wordAt binary 0) y := by
  exact file_exact python h hn hsize hw (small_evals hv).2

/-- **C113.** A program that does not end is simulated for as long as one likes: any number of step commands executes as many
instructions, and the simulator ends with exit code 0 only after the last of them. -/
theorem never_ends (python : Python) {binary : List Nat} {s : Stmt} {n : Nat} (h : Contains binary (s.compile 8 0) n) (hn : 1 ≤ n)
    (hsize : 8 + 2 * (s.size + 1) ≤ 65279) (hw : s.Well n) (hv : ¬ ∃ v, Evals Expr.machine s (fun _ => 0#32) v)
    {k : Nat} {lines : List Str} (ht : Lines [] lines k) :
    ∃ d s' out, Really (regions binary) k (begins binary) d ∧ Console.run python binary lines = (.ok 0, ⟨s', out⟩) ∧ out.length = k + 4 ∧ Shows s' d := by
  obtain ⟨hS, hH, hP⟩ := starts_here h hn hsize hw
  rcases progress hS k s hH hP hw with hr | ⟨k', d', hk, g⟩
  · exact absurd hr hv
  · obtain ⟨j, rfl⟩ : ∃ j, k' = k + j := ⟨k' - k, by omega⟩
    obtain ⟨d, g1, -⟩ := really_split g
    obtain ⟨s', ls, e1, e2, e3, -⟩ := simulates_exact_partial python h.bytes (by have := h.size; omega) ht g1
    refine ⟨d, s', _, g1, e1, ?_, e3⟩
    rw [List.length_append, List.length_append, e2]
    simp only [List.length_cons, List.length_nil]
    omega

/-- `while 1 do skip` does not end. -/
theorem forever : ¬ ∃ v, Evals Expr.machine (.loop (.const 1) .skip) (fun _ => 0#32) v := by
  rintro ⟨v, h⟩
  generalize hs : Stmt.loop (.const 1) .skip = s at h
  generalize (fun _ => 0#32 : Nat → Word) = v0 at h
  induction h with
  | loopTrue _ _ _ _ ih => exact ih hs
  | loopFalse hz =>
    cases hs
    exact absurd hz (show ¬ (1#32 : Word) = 0#32 by decide)
  | _ => cases hs

/-- A file with `while 1 do skip`. -/
def foreverFile : List Nat :=
  [0x00, 0x00, 0x00, 0x20, 0x09, 0x00, 0x00, 0x00] ++ code ((Stmt.loop (.const 1) .skip).compile 8 0 ++ [(Thumb.nop, 0xbf00)])

/-- A thousand times `step`. -/
example (python : Python) {lines : List Str} (ht : Lines [] lines 1000) :
    ∃ s' out, Console.run python foreverFile lines = (.ok 0, ⟨s', out⟩) ∧ out.length = 1004 := by
  obtain ⟨d, s', out, -, h2, h3, -⟩ := never_ends python (binary := foreverFile) (s := .loop (.const 1) .skip) (n := 1)
    ⟨by decide +kernel, by decide +kernel, by decide +kernel, ⟨[0x00, 0x00, 0x00, 0x20, 0x09, 0x00, 0x00, 0x00], [], by decide +kernel, rfl⟩,
      by decide +kernel, by decide +kernel⟩
    (by decide) (by decide) (by simp [Stmt.Well, Expr.Well, Expr.depth]) forever ht
  exact ⟨s', out, h2, h3⟩

/-- `r4 := ~0; r5 := r4 + 0` -/
def negative : Stmt := .seq (.assign 4 (.not (.const 0))) (.assign 5 (.op .add (.var 4) (.const 0)))

def negativeFile : List Nat :=
  [0x00, 0x00, 0x00, 0x20, 0x09, 0x00, 0x00, 0x00] ++ [0x00, 0x20, 0xc0, 0x43, 0x04, 0x46, 0x20, 0x46, 0x01, 0xb4, 0x00, 0x20, 0x02, 0xbc, 0x08, 0x18, 0x05, 0x46] ++
    [0x00, 0xbf]

/-- **C113.** With a negative sum the claim is false: this program gives R5 the value 0xffffffff, and its file ends with R5 zero. -/
theorem full_claim_false (python : Python) : (∃ v, Evals Expr.value negative (fun _ => 0#32) v ∧ v 5 = 0xffffffff#32) ∧
    ∃ k, ∀ {lines : List Str}, Lines [] lines k → ∃ s' out, Console.run python negativeFile lines = (.ok 0, ⟨s', out⟩) ∧ s'.regs (some 5) = some 0 := by
  refine ⟨⟨_, .seq .assign .assign, by decide⟩, ?_⟩
  obtain ⟨k, hk⟩ := file_exact python (binary := negativeFile) (s := negative) (n := 1)
    ⟨by decide, by decide, by decide, ⟨[0x00, 0x00, 0x00, 0x20, 0x09, 0x00, 0x00, 0x00], [], by decide +kernel, rfl⟩, by decide, by decide⟩
    (by decide) (by decide) (by simp [negative, Stmt.Well, Expr.Well, Expr.depth]) (.seq .assign .assign)
  refine ⟨k, fun ht => ?_⟩
  obtain ⟨s', out, e1, -, e3, -⟩ := hk ht
  exact ⟨s', out, e1, e3 5 (by decide) (by decide)⟩

/-- `while r2 do (r3 := r3 * r2; r2 := r2 - 1)` -/
def factorialLoop : Stmt := .loop (.var 2) (.seq (.assign 3 (.op .mul (.var 3) (.var 2))) (.assign 2 (.op .sub (.var 2) (.const 1))))

/-- `r2 := n; r3 := 1;` and the loop. -/
def factorial (n : Nat) : Stmt := .seq (.assign 2 (.const n)) (.seq (.assign 3 (.const 1)) factorialLoop)

example : code ((factorial 5).compile 8 0) = [0x05, 0x20, 0x02, 0x46, 0x01, 0x20, 0x03, 0x46,
    0x10, 0x46, 0x00, 0x42, 0x09, 0xd1, 0x00, 0x20, 0x01, 0xb4, 0xff, 0x20, 0x02, 0xbc, 0x48, 0x43, 0x01, 0xb4, 0x57, 0x20, 0x02, 0xbc, 0x08, 0x18, 0x00, 0x47,
    0x18, 0x46, 0x01, 0xb4, 0x10, 0x46, 0x02, 0xbc, 0x48, 0x43, 0x03, 0x46, 0x10, 0x46, 0x01, 0xb4, 0x01, 0x20, 0x02, 0xbc, 0x08, 0x1a, 0x02, 0x46,
    0x00, 0x20, 0x01, 0xb4, 0xff, 0x20, 0x02, 0xbc, 0x48, 0x43, 0x01, 0xb4, 0x11, 0x20, 0x02, 0xbc, 0x08, 0x18, 0x00, 0x47] := by decide +kernel

theorem small_takes {j : Nat} {e : Expr} {v : Nat → Word} (h : e.Small v) :
    Takes Expr.machine (.assign j e) v (fun i => if i = j then e.value v else v i) (e.compile.length + 1) := by
  rw [← machine_eq h]
  exact .assign

theorem factorial_loop : ∀ (k : Nat) (v : Nat → Word), k < 2 ^ 31 → v 2 = BitVec.ofNat 32 k →
    ∃ v', Small factorialLoop v v' ∧ Takes Expr.machine factorialLoop v v' (25 * k + 13) ∧ v' 3 = v 3 * BitVec.ofNat 32 (C107.fact k)
  | 0, v, _, h => ⟨v, .loopFalse trivial h, .loopFalse h, by simp [C107.fact]⟩
  | k + 1, v, hk, h => by
    have hsub : v 2 - 1#32 = BitVec.ofNat 32 k := by
      rw [h]
      apply BitVec.eq_of_toNat_eq
      rw [BitVec.toNat_sub, BitVec.toNat_ofNat, BitVec.toNat_ofNat]
      simp
      omega
    have hz : v 2 ≠ 0#32 := by
      rw [h]
      intro he
      have := congrArg BitVec.toNat he
      rw [BitVec.toNat_ofNat] at this
      simp at this
      omega
    have hm : (v 2 - 1#32).msb = false := by
      rw [hsub, BitVec.msb_eq_decide, BitVec.toNat_ofNat]
      simp
      omega
    have s1 : (Expr.op .mul (.var 3) (.var 2)).Small v := ⟨trivial, trivial, fun h => (by rcases h with h | h <;> cases h)⟩
    have s2 : (Expr.op .sub (.var 2) (.const 1)).Small (fun j => if j = 3 then v 3 * v 2 else v j) := ⟨trivial, trivial, fun _ => hm⟩
    obtain ⟨v', h1, h1', h2⟩ := factorial_loop k
      (fun j => if j = 2 then (fun j => if j = 3 then v 3 * v 2 else v j) 2 - 1#32 else (fun j => if j = 3 then v 3 * v 2 else v j) j)
      (by omega) (by simpa using hsub)
    refine ⟨v', .loopTrue trivial hz (.seq (.assign s1) (.assign s2)) h1, ?_, ?_⟩
    · have h12 : Takes Expr.machine factorialLoop v v' (1 + 2 + (6 + 6) + 10 + (25 * k + 13)) :=
        .loopTrue hz (.seq (small_takes (j := 3) s1) (small_takes (j := 2) s2)) h1'
      rw [show 25 * (k + 1) + 13 = 1 + 2 + (6 + 6) + 10 + (25 * k + 13) by omega]
      exact h12
    · rw [h2]
      show v 3 * v 2 * _ = _
      rw [h, C107.fact, BitVec.ofNat_mul, BitVec.mul_assoc]

/-- The condition of `file_program_partial` holds for every factorial. -/
example (n : Nat) (hn : n < 256) : ∃ v, Small (factorial n) (fun _ => 0#32) v ∧ v 3 = BitVec.ofNat 32 (C107.fact n) := by
  obtain ⟨v', h1, -, h2⟩ := factorial_loop n (fun j => if j = 3 then 1#32 else (fun j => if j = 2 then BitVec.ofNat 32 n else 0#32) j) (by omega) rfl
  exact ⟨v', .seq (.assign trivial) (.seq (.assign trivial) h1), h2.trans (BitVec.one_mul _)⟩

/-- A file that computes a factorial. -/
def factorialFile (n : Nat) : List Nat :=
  [0x00, 0x00, 0x00, 0x20, 0x09, 0x00, 0x00, 0x00] ++ code ((factorial n).compile 8 0 ++ [(Thumb.nop, 0xbf00)]) ++ []

/-- For every number of eight bits the file ends after `25 * n + 17` steps with its factorial, modulo 2 ^ 32, in R3. -/
theorem factorial_file (python : Python) {n : Nat} (hn : n < 256) {lines : List Str} (ht : Lines [] lines (25 * n + 17)) :
    ∃ s' out, Console.run python (factorialFile n) lines = (.ok 0, ⟨s', out⟩) ∧ s'.regs (some 3) = some ((C107.fact n % 2 ^ 32 : Nat) : Int) := by
  obtain ⟨v', -, h1, h2⟩ := factorial_loop n (fun j => if j = 3 then 1#32 else (fun j => if j = 2 then BitVec.ofNat 32 n else 0#32) j) (by omega) rfl
  have hw : (factorial n).Well 1 := by
    simp [factorial, factorialLoop, Stmt.Well, Expr.Well, Expr.depth, hn]
  have hsize : (factorial n).size = 39 := rfl
  have hplain := plain_append (compile_plain (x := 8) (i := 0) hw (by rw [hsize]; decide)) nop_plain
  have hlen := code_length hplain
  have hl : ((factorial n).compile 8 0 ++ [(Thumb.nop, 0xbf00)]).length = 40 := rfl
  have hcontains : Contains (factorialFile n) ((factorial n).compile 8 0) 1 := by
    have hsp : wordAt (factorialFile n) 0 = 0x20000000 := by simp [wordAt, factorialFile]
    refine ⟨?_, ?_, .inr rfl, ⟨_, _, rfl, rfl⟩, by rw [hsp]; decide, by rw [hsp]; decide⟩
    · intro b hb
      unfold factorialFile at hb
      rw [List.append_nil] at hb
      rcases List.mem_append.1 hb with hb | hb
      · exact (by decide : ∀ b ∈ [0x00, 0x00, 0x00, 0x20, 0x09, 0x00, 0x00, 0x00], b < 256) b hb
      · exact code_lt (fun p hp => ⟨(hplain p hp).2.1, (hplain p hp).2.2.1⟩) b hb
    · unfold factorialFile
      simp only [List.length_append, hlen, hl]
      decide
  have h0 : Takes Expr.machine (factorial n) (fun _ => 0#32) v' (2 + (2 + (25 * n + 13))) := .seq .assign (.seq .assign h1)
  obtain ⟨s', out, e1, -, e3, -⟩ := file_steps python hcontains (by decide) (by rw [hsize]; decide) hw h0
    (by rw [show 2 + (2 + (25 * n + 13)) = 25 * n + 17 by omega]; exact ht)
  refine ⟨s', out, e1, ?_⟩
  rw [show (some 3 : Option Int) = some ((3 : Nat) : Int) from rfl, e3 3 (by decide) (by decide), h2]
  show some (((1#32 * _ : Word).toNat : Nat) : Int) = _
  rw [BitVec.one_mul, BitVec.toNat_ofNat]

end C113
end Verif
