import Verif.Props.C111File

/-!
# C112: compiled assignments give every variable its value

Sequences of assignments, of any length; the variables are the registers R2 to R12.
-/

namespace Verif
open Console BS CpuM Thumb C43 C70

namespace C112
open C73 C106 C111

/-- An assignment of the value of an expression to a register. -/
structure Assign where
  var : Nat
  expr : Expr

/-- The values of the variables after assignments. -/
def values (v : Nat → Word) : List Assign → Nat → Word
  | [] => v
  | a :: t => values (fun k => if k = a.var then a.expr.value v else v k) t

/-- What is really computed: every sum or difference whose highest bit is set is complemented. -/
def machines (v : Nat → Word) : List Assign → Nat → Word
  | [] => v
  | a :: t => machines (fun k => if k = a.var then a.expr.machine v else v k) t

/-- The variables are R2 to R12. -/
def Wells (l : List Assign) : Prop := ∀ a ∈ l, (2 ≤ a.var ∧ a.var < 13) ∧ a.expr.Well

/-- In none of the assignments a sum or difference has its highest bit set. -/
def Smalls (v : Nat → Word) : List Assign → Prop
  | [] => True
  | a :: t => a.expr.Small v ∧ Smalls (fun k => if k = a.var then a.expr.value v else v k) t

/-- `mov rk, r0` -/
def move (k : Nat) : Enc × Nat := (Thumb.movReg, if k < 8 then 0x4600 + k else 0x4678 + k)

/-- The code: for every assignment that of the expression, and `mov rk, r0`. -/
def compiles (l : List Assign) : List (Enc × Nat) := l.flatMap fun a => a.expr.compile ++ [move a.var]

theorem move_act : ∀ k : Fin 13, Thumb.movReg.act (field Thumb.movReg.pat (move k).2) = .mov false false k (.reg 0) := by decide +kernel

theorem move_good : ∀ k : Fin 13, Thumb.movReg.Is (move k).2 := by
  intro k
  refine ⟨?_, ?_, ?_⟩ <;>
  · revert k
    decide +kernel

theorem plains {l : List Assign} (h : Wells l) : Plain (compiles l) := by
  intro p hp
  obtain ⟨a, ha, hp⟩ := List.mem_flatMap.1 hp
  obtain ⟨⟨-, h2⟩, h3⟩ := h a ha
  rcases List.mem_append.1 hp with hp | hp
  · exact plain h3 p hp
  · rw [List.mem_singleton.1 hp]
    exact ⟨rfl, by simp [encodings, move], move_good ⟨a.var, h2⟩, not_wrong (e := Thumb.movReg) (by decide) _⟩

theorem move_run (c : Core) {d : Nat} (hd : d < 13) : (Act.run 2 c (.mov false false d (.reg 0))).reg d = c.reg 0 ∧
    (∀ k : Int, k ≠ d → k ≠ 15 → k ≠ 16 → (Act.run 2 c (.mov false false d (.reg 0))).reg k = c.reg k) ∧
    (Act.run 2 c (.mov false false d (.reg 0))).mem = c.mem ∧ (Act.run 2 c (.mov false false d (.reg 0))).reg 15 = c.reg 15 + 2#32 := by
  have hrun : Act.run 2 c (.mov false false d (.reg 0)) = c.result 2 d (c.reg 0) := by
    rw [← show c.rd 0 = c.reg 0 from core_rd c (by decide)]
    rfl
  rw [hrun]
  refine ⟨?_, fun k h0 h1 h2 => ?_, ?_, ?_⟩
  · rw [result_reg (by omega)]
    exact keepBits_plain (by omega) (by omega) _
  · rw [core_result (by omega)]
    unfold Core.next
    rw [core_reg_set, if_neg (by omega), core_reg_set, if_neg (by omega)]
  · rw [core_result (by omega)]
    rfl
  · rw [core_result (by omega)]
    unfold Core.next
    rw [core_reg_set, if_pos (.inl rfl), show keepBits 15 _ = _ from keepBits_plain (d := 15) (by decide) (by decide) _, core_reg_set, if_neg (by omega)]

theorem machines_eq {l : List Assign} : ∀ {v : Nat → Word}, Smalls v l → machines v l = values v l := by
  induction l with
  | nil => exact fun _ => rfl
  | cons a t ih =>
    intro v h
    unfold machines values
    rw [machine_eq h.1]
    exact ih h.2

/-- Values of the variables only matter for R2 to R12. -/
theorem machines_congr {l : List Assign} (hw : Wells l) : ∀ {v v' : Nat → Word}, (∀ k, 2 ≤ k → k < 13 → v k = v' k) →
    ∀ k, 2 ≤ k → k < 13 → machines v l k = machines v' l k := by
  induction l with
  | nil => exact fun h => h
  | cons a t ih =>
    intro v v' h
    refine ih (fun b hb => hw b (List.mem_cons_of_mem _ hb)) (fun k k1 k2 => ?_)
    rw [machine_congr h (hw a List.mem_cons_self).2, h k k1 k2]

theorem low_core {k : Nat} (h : k < 13) : (k : Int) ∈ coreIndices := by
  have : ∀ j : Fin 13, ((j : Nat) : Int) ∈ coreIndices := by decide
  exact this ⟨k, h⟩

/-- After assignments. -/
structure Done (n : Nat) (v : Nat → Word) (c d : Core) : Prop where
  vars : ∀ k : Nat, 2 ≤ k → k < 13 → d.reg k = v k
  sp : d.reg 13 = c.reg 13
  lr : d.reg 14 = c.reg 14
  mem : ∀ y : Int, y < (c.reg 13).toNat - 4 * n ∨ ((c.reg 13).toNat : Int) ≤ y → d.mem y = c.mem y

theorem compiled_all {mem : List Region} {n : Nat} : ∀ (l : List Assign) (c : Core), Wells l → (∀ a ∈ l, a.expr.depth ≤ n) → Room mem (c.reg 13) n →
    AllFair mem (compiles l) c ∧ Done n (machines (fun k => c.reg k) l) c (realAll (compiles l) c) ∧
    ∀ lo hi : Int, (hi ≤ (c.reg 13).toNat - 4 * n ∨ ((c.reg 13).toNat : Int) ≤ lo) → Straight lo hi (compiles l) c
  | [], c, _, _, _ => ⟨trivial, ⟨fun _ _ _ => rfl, rfl, rfl, fun _ _ => rfl⟩, fun _ _ _ => trivial⟩
  | a :: t, c, hw, hd, hr => by
    obtain ⟨⟨v1, v2⟩, hwa⟩ := hw a List.mem_cons_self
    have hda := hd a List.mem_cons_self
    obtain ⟨f, af, st⟩ := compiled (mem := mem) a.expr c hwa (room_mono hr hda)
    rw [show compiles (a :: t) = a.expr.compile ++ (move a.var :: compiles t) by simp [compiles], realAll_append]
    generalize hc1 : realAll a.expr.compile c = c1 at af
    have ha := move_act ⟨a.var, v2⟩
    simp only at ha
    obtain ⟨m1, m2, m3, m4⟩ := move_run c1 v2
    generalize hc2 : Act.run 2 c1 (.mov false false a.var (.reg 0)) = c2 at m1 m2 m3 m4
    have hc2' : real 2 c1 (Act.mov false false a.var (.reg 0)) = c2 := hc2
    have sp2 : c2.reg 13 = c.reg 13 := by rw [m2 13 (by omega) (by decide) (by decide), af.regs 13 (by decide) (by decide)]
    have hv : ∀ k, 2 ≤ k → k < 13 → (fun k : Nat => if k = a.var then a.expr.machine (fun k => c.reg k) else c.reg k) k = (fun k : Nat => c2.reg k) k := by
      intro k k1 k2
      simp only
      by_cases hk : k = a.var
      · rw [if_pos hk, hk, m1, af.r0]
      · rw [if_neg hk, m2 k (by omega) (by omega) (by omega), af.regs k (by omega) (by omega)]
    have hwt : Wells t := fun b hb => hw b (List.mem_cons_of_mem _ hb)
    obtain ⟨f', d', st'⟩ := compiled_all (mem := mem) (n := n) t c2 hwt (fun b hb => hd b (List.mem_cons_of_mem _ hb)) (by rw [sp2]; exact hr)
    have hmem : ∀ y : Int, y < (c.reg 13).toNat - 4 * n ∨ ((c.reg 13).toNat : Int) ≤ y → c2.mem y = c.mem y := fun y hy => by
      rw [m3]
      exact af.mem y (by omega)
    have hnopc : (Act.mov false false a.var (.reg 0)).NoPc := ⟨by omega, (by decide : 0 < 15)⟩
    have hsize : Thumb.movReg.pat.length / 8 = 2 := rfl
    refine ⟨allFair_append _ _ _ _ f ?_, ?_, fun lo hi hlo => straight_append _ _ _ _ _ (st lo hi (by omega)) ?_⟩
    · rw [hc1]
      unfold move AllFair
      simp only [move] at ha
      rw [ha, hsize, hc2']
      exact ⟨hnopc, fun h => (by cases h), f'⟩
    · unfold move realAll
      simp only [move] at ha
      rw [ha, hsize, hc2']
      refine ⟨fun k k1 k2 => ?_, by rw [d'.sp, sp2], ?_, fun y hy => ?_⟩
      · rw [d'.vars k k1 k2]
        exact (machines_congr hwt hv k k1 k2).symm
      · rw [d'.lr, m2 14 (by omega) (by decide) (by decide), af.regs 14 (by decide) (by decide)]
      · rw [d'.mem y (by rw [sp2]; exact hy), hmem y hy]
    · rw [hc1]
      unfold move Straight
      simp only [move] at ha
      rw [ha, hsize, hc2']
      exact ⟨⟨m4, fun y _ _ => congrFun m3 y⟩, st' lo hi (by rw [sp2]; exact hlo)⟩

/-- **C112.** Disassembled and executed, the code of assignments gives every variable what the machine computes for it, and
changes neither SP nor LR nor memory outside the stack. -/
theorem assignments_exact {l : List Assign} (h : Wells l) {n : Nat} (hn : ∀ a ∈ l, a.expr.depth ≤ n) (address : Int) {s : Machine} {c : Core}
    (hs : Shows s c) (hm : MemOK s.mem) (hr : Room s.mem (c.reg 13) n) :
    (disasm trees (code (compiles l)) address).2 = none ∧
    ∃ s', executeAll (disasm trees (code (compiles l)) address).1 s = (.ok (), s') ∧
      (∀ k : Nat, 2 ≤ k → k < 13 → s'.regs (some k) = some ((machines (fun k => c.reg k) l k).toNat : Int)) ∧
      s'.regs (some 13) = s.regs (some 13) ∧ s'.regs (some 14) = s.regs (some 14) ∧
      ∀ y : Int, y < (c.reg 13).toNat - 4 * n ∨ ((c.reg 13).toNat : Int) ≤ y → flat s'.mem y = flat s.mem y := by
  obtain ⟨f, d, -⟩ := compiled_all (mem := s.mem) l c h hn hr
  obtain ⟨h1, -, s', h2, h3, -⟩ := program_exact_partial (compiles l) (fun p hp => (plains h p hp).2) address hs hm f
  refine ⟨h1, s', h2, fun k k1 k2 => ?_, ?_, ?_, fun y hy => ?_⟩
  · rw [h3.1 k (low_core k2), d.vars k k1 k2]
  · rw [h3.1 13 (by decide), hs.1 13 (by decide), d.sp]
  · rw [h3.1 14 (by decide), hs.1 14 (by decide), d.lr]
  · rw [h3.2, hs.2]
    exact d.mem y hy

/-- **C112.** Every variable has the value that the assignments, one after the other, give it. Missing from the full claim:
assignments in which a sum or difference has its highest bit set (see `full_claim_false`, and `assignments_exact` for what is
computed then). -/
theorem assignments_partial {l : List Assign} (h : Wells l) {n : Nat} (hn : ∀ a ∈ l, a.expr.depth ≤ n) (address : Int) {s : Machine} {c : Core}
    (hs : Shows s c) (hm : MemOK s.mem) (hsmall : Smalls (fun k => c.reg k) l) (hr : Room s.mem (c.reg 13) n) :
    (disasm trees (code (compiles l)) address).2 = none ∧
    ∃ s', executeAll (disasm trees (code (compiles l)) address).1 s = (.ok (), s') ∧
      (∀ k : Nat, 2 ≤ k → k < 13 → s'.regs (some k) = some ((values (fun k => c.reg k) l k).toNat : Int)) ∧
      s'.regs (some 13) = s.regs (some 13) ∧ s'.regs (some 14) = s.regs (some 14) ∧
      ∀ y : Int, y < (c.reg 13).toNat - 4 * n ∨ ((c.reg 13).toNat : Int) ≤ y → flat s'.mem y = flat s.mem y := by
  rw [← machines_eq hsmall]
  exact assignments_exact h hn address hs hm hr

/-- **C112.** `r4 := ~0; r5 := r4 + 0` gives R5 the value 0. -/
theorem full_claim_false :
    (executeAll (disasm trees (code (compiles [⟨4, .not (.const 0)⟩, ⟨5, .op .add (.var 4) (.const 0)⟩])) 0).1 small16).2.regs (some 5) = some 0 ∧
    (values (fun _ => 0) [⟨4, .not (.const 0)⟩, ⟨5, .op .add (.var 4) (.const 0)⟩] 5).toNat = 0xffffffff := by
  decide +kernel

/-- **C112.** A file with the code of assignments, started and stepped through, exactly: every variable is what the machine
computes for it, with all variables zero at the start; of the memory only the stack may have changed. -/
theorem file_exact (python : Python) {binary : List Nat} {l : List Assign} {n : Nat} (h : Contains binary (compiles l) n) (hw : Wells l)
    (hn : ∀ a ∈ l, a.expr.depth ≤ n) {lines : List Str} (ht : Lines [] lines (compiles l).length) :
    ∃ s' out, Console.run python binary lines = (.ok 0, ⟨s', out⟩) ∧ out.length = (compiles l).length + 4 ∧
      (∀ k : Nat, 2 ≤ k → k < 13 → s'.regs (some k) = some ((machines (fun _ => 0#32) l k).toNat : Int)) ∧
      ∀ y : Int, y < (wordAt binary 0 / 4 * 4 : Nat) - 4 * n ∨ ((wordAt binary 0 / 4 * 4 : Nat) : Int) ≤ y →
        flat s'.mem y = image binary (wordAt binary 0) y := by
  have hstack := h.stack
  have hrn := begins_sp h
  obtain ⟨hf, d, hstraight⟩ := compiled_all l (begins binary) hw hn (begins_room h)
  have hv : ∀ k, 2 ≤ k → k < 13 → (fun _ : Nat => 0#32) k = (fun k : Nat => (begins binary).reg k) k := fun k _ k2 => (begins_low binary k k2).symm
  obtain ⟨s', out, e1, e2, e3⟩ := file_runs h python (plains hw) hf (fun hi h1 => hstraight _ _ (.inl (by rw [hrn]; omega))) ht
  refine ⟨s', _, e1, e2, fun k k1 k2 => ?_, fun y hy => ?_⟩
  · rw [e3.1 k (low_core k2), d.vars k k1 k2, ← machines_congr hw hv k k1 k2]
  · rw [e3.2, d.mem y (by rw [hrn]; exact hy)]
    rfl

/-- **C112.** Such a file ends with every variable having its value. Missing: sums and differences with the highest bit set, see
`file_exact`. -/
theorem file_assigns_partial (python : Python) {binary : List Nat} {l : List Assign} {n : Nat} (h : Contains binary (compiles l) n) (hw : Wells l)
    (hn : ∀ a ∈ l, a.expr.depth ≤ n) (hs : Smalls (fun _ => 0#32) l) {lines : List Str} (ht : Lines [] lines (compiles l).length) :
    ∃ s' out, Console.run python binary lines = (.ok 0, ⟨s', out⟩) ∧ out.length = (compiles l).length + 4 ∧
      (∀ k : Nat, 2 ≤ k → k < 13 → s'.regs (some k) = some ((values (fun _ => 0#32) l k).toNat : Int)) ∧
      ∀ y : Int, y < (wordAt binary 0 / 4 * 4 : Nat) - 4 * n ∨ ((wordAt binary 0 / 4 * 4 : Nat) : Int) ≤ y →
        flat s'.mem y = image binary (wordAt binary 0) y := by
  rw [← machines_eq hs]
  exact file_exact python h hw hn ht

/-- `r4 := 6; r5 := r4 * 7; r4 := r5 - r4` -/
def sample : List Assign := [⟨4, .const 6⟩, ⟨5, .op .mul (.var 4) (.const 7)⟩, ⟨4, .op .sub (.var 5) (.var 4)⟩]

def sampleFile : List Nat := [0x00, 0x00, 0x00, 0x20, 0x09, 0x00, 0x00, 0x00] ++
  [0x06, 0x20, 0x04, 0x46, 0x20, 0x46, 0x01, 0xb4, 0x07, 0x20, 0x02, 0xbc, 0x48, 0x43, 0x05, 0x46,
    0x28, 0x46, 0x01, 0xb4, 0x20, 0x46, 0x02, 0xbc, 0x08, 0x1a, 0x04, 0x46] ++ [0x00, 0xbf]

/-- Fourteen times `step`. -/
example (python : Python) {lines : List Str} (ht : Lines [] lines 14) :
    ∃ s' out, Console.run python sampleFile lines = (.ok 0, ⟨s', out⟩) ∧ out.length = 18 ∧ s'.regs (some 4) = some 36 ∧ s'.regs (some 5) = some 42 := by
  obtain ⟨s', out, h1, h2, h3, -⟩ := file_assigns_partial python (binary := sampleFile) (l := sample) (n := 1)
    ⟨by decide, by decide, by decide, ⟨[0x00, 0x00, 0x00, 0x20, 0x09, 0x00, 0x00, 0x00], [], by decide +kernel, rfl⟩, by decide, by decide⟩
    (by unfold Wells sample; simp [Expr.Well]) (by unfold sample; simp [Expr.depth])
    (by unfold sample; refine ⟨trivial, ⟨trivial, trivial, by decide⟩, ⟨trivial, trivial, by decide⟩, trivial⟩) ht
  exact ⟨s', out, h1, h2, h3 4 (by decide) (by decide), h3 5 (by decide) (by decide)⟩

end C112
end Verif
