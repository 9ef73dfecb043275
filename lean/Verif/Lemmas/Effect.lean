import Verif.Lemmas.ExecMem
import Verif.Lemmas.Search

/-!
# The effect of every action

`Act.effect` collects the results of `Verif/Lemmas/Exec.lean` and
`Verif/Lemmas/ExecMem.lean`: what executing the object of an action does, exactly, for
every state. `Act.leaves` is the instruction object afterwards.
-/

namespace Verif
open BS CpuM Thumb Exec

namespace Thumb

/-- RRX shifts by one. -/
def ShiftOK (sh : SRType × Nat) : Prop := sh.1 = .rrx → sh.2 = 1

/-- The sizes of memory accesses. -/
def SizeOK (sz : Nat) : Prop := sz = 8 ∨ sz = 16 ∨ sz = 32

def Off.Valid : Off → Prop
  | .imm _ => True
  | .reg _ sh => ShiftOK sh

/-- Restrictions on the parameters of actions that all encodings meet. -/
def Act.Valid : Act → Prop
  | .shiftImm t _ _ _ k => ShiftOK (t, k)
  | .shiftReg t _ _ _ _ => t ≠ .rrx
  | .extend _ width rotation _ _ => (width = 8 ∨ width = 16) ∧ rotation < 32
  | .mvnShift _ _ _ sh => ShiftOK sh
  | .tst _ _ sh => ShiftOK sh
  | .load sz _ _ _ off => SizeOK sz ∧ off.Valid
  | .store sz _ _ off => SizeOK sz ∧ off.Valid
  | .loadLit sz _ _ _ _ => SizeOK sz
  | _ => True

/-- What executing the object of an action does. -/
def Act.effect (size : Nat) (a : Arm) : Act → PyRes Unit × Arm
  | .addSub sub carry flags d n src =>
    (.ok (), a.afterAdd size flags d (a.reg n) (if sub then ~~~src.got a else src.got a) (if carry then a.flag 29 else sub))
  | .rsb flags d n imm => (.ok (), a.afterAdd size flags d (~~~a.reg n) imm true)
  | .logic f flags d n m => (.ok (), a.afterOp size flags d (logical f (a.reg n) (a.reg m)) none)
  | .bic flags d n m => (.ok (), a.afterOp size flags d (a.reg n &&& ~~~a.reg m) none)
  | .shiftImm t flags d m k =>
    (.ok (), a.afterOp size flags d (C18.armShift (a.reg m) (a.flag 29) t k).1 (some (C18.armShift (a.reg m) (a.flag 29) t k).2))
  | .shiftReg t flags d n m =>
    (.ok (), a.afterOp size flags d (C18.armShift (a.reg n) (a.flag 29) t ((a.reg m).toNat % 256)).1
      (some (C18.armShift (a.reg n) (a.flag 29) t ((a.reg m).toNat % 256)).2))
  | .mul flags d n m => (.ok (), a.afterOp size flags d (a.reg n * a.reg m) none)
  | .adr add d imm =>
    (.ok (), a.afterWrite size d (if add then align4 (a.reg 15 + 4#32) + imm else align4 (a.reg 15 + 4#32) - imm))
  | .extend sgn width rotation d m => (.ok (), a.afterWrite size d (extended sgn width ((a.reg m).rotateRight rotation).toNat))
  | .rev kind d m => (.ok (), a.afterWrite size d (kind.apply (a.reg m)))
  | .mov neg flags d src _ =>
    (.ok (), a.afterOp size (flags && !decide (src = .reg 15)) d (if neg then ~~~src.got a else src.got a) none)
  | .mvnShift _ _ _ _ => (.error .nameError, a)
  | .cmp sub n src =>
    let y := if sub then ~~~src.got a else src.got a
    (.ok (), (a.flags true (C17.spoil (C17.sum (a.reg n) y sub)) (some (C17.carryOut (a.reg n) y sub))
      (some (C17.overflow (a.reg n) y sub))).next size)
  | .tst n m sh =>
    (.ok (), (a.flags true (a.reg n &&& (C18.armShift (a.reg m) (a.flag 29) sh.1 sh.2).1)
      (some (C18.armShift (a.reg m) (a.flag 29) sh.1 sh.2).2) none).next size)
  | .branch cond offset => (.ok (), if a.holds cond then a.set 15 (a.reg 15 + 4#32 + offset) else a.next size)
  | .bl offset => (.ok (), (a.set 14 ((a.reg 15 + 4#32) ||| 1#32)).set 15 (a.reg 15 + 4#32 + offset))
  | .blx m =>
    (.ok (), (a.set 14 ((a.reg 15 + 4#32 - 2#32) ||| 1#32)).set 15
      ((a.set 14 ((a.reg 15 + 4#32 - 2#32) ||| 1#32)).reg m &&& ~~~1#32))
  | .bx m => (.ok (), a.set 15 (a.reg m &&& ~~~1#32))
  | .load sz sgn t n off => a.loadTo size sz sgn t (a.reg n + off.got a)
  | .store sz t n off => (.ok (), (a.poke (a.reg n + off.got a) (sz / 8) (a.reg t)).next size)
  | .loadLit sz sgn add t imm =>
    a.loadTo size sz sgn t (if add then align4 (a.reg 15 + 4#32) + imm else align4 (a.reg 15 + 4#32) - imm)
  | .push r =>
    (.ok (), ((a.set 13 (a.reg 13 - w32 (4 * count r))).storeAll (low15 r) (a.reg 13 - w32 (4 * count r))).next size)
  | .pop r => (a.set 13 (a.reg 13 + w32 (4 * count r))).loadRegs size r (a.reg 13)
  | .ldm n wback r => a.ldm size n wback r
  | .stm n wback r => (.ok (), (a.stm n wback r).next size)
  | .cps enable pri fault => (.ok (), (a.cps enable pri fault).next size)
  | .mrs d sysm => a.mrs size d sysm
  | .msr _ _ _ => (.ok (), a.next size)
  | .plain => (.ok (), a.next size)

/-- The instruction object after executing it. -/
def Act.leaves (a : Arm) (i : Instr) : Act → Instr
  | .addSub sub _ _ _ _ src => withImm i (ofBV (C17.spoil (if sub then ~~~src.got a else src.got a)))
  | .rsb _ _ _ imm => withImm i (ofBV (C17.spoil imm))
  | .cmp sub _ src => withImm i (ofBV (C17.spoil (if sub then ~~~src.got a else src.got a)))
  | .mov neg _ _ src _ => movedInstr i neg src
  | _ => i

end Thumb

/-- Executing the object of an action, for every state. -/
theorem eval_exact {act : Act} {i : Instr} (h : act.Of i) (hv : act.Valid) (a : Arm) :
    i.eval a.conc = outcome (act.leaves a i) (act.effect i.size a) := by
  cases act with
  | addSub => exact addSub_exact h a
  | rsb => exact rsb_exact h a
  | logic => exact logic_exact h a
  | bic => exact bic_exact h a
  | shiftImm => exact shiftImm_exact h hv a
  | shiftReg => exact shiftReg_exact h hv a
  | mul => exact mul_exact h a
  | adr => exact adr_exact h a
  | extend => exact extend_exact h (by rcases hv.1 with h | h <;> omega) hv.2 a
  | rev => exact rev_exact h a
  | mov => exact mov_exact h a
  | mvnShift => exact mvnShift_exact h a
  | cmp => exact cmp_exact h a
  | tst => exact tst_exact h hv a
  | branch => exact branch_exact h a
  | bl => exact bl_exact h a
  | blx => exact blx_exact h a
  | bx => exact bx_exact h a
  | load => exact load_exact h hv.1 (fun m sh e => by have := hv.2; rw [e] at this; exact this) a
  | store => exact store_exact h hv.1 (fun m sh e => by have := hv.2; rw [e] at this; exact this) a
  | loadLit => exact loadLit_exact h hv a
  | push => exact push_exact h a
  | pop => exact pop_exact h a
  | ldm => exact ldm_exact h a
  | stm => exact stm_exact h a
  | cps => exact cps_exact h a
  | mrs => exact mrs_exact h a
  | msr => exact msr_exact h a
  | plain => exact plain_exact h a

/-! ### Every encoding is valid -/

theorem bitsValue_bound (w : Nat) (l : List Nat) : bitsValue w l < 2 ^ l.length := by
  have : ∀ (l : List Nat) (v : Nat), l.foldl (fun v k => 2 * v + (w.testBit k).toNat) v < (v + 1) * 2 ^ l.length := by
    intro l
    induction l with
    | nil => intro v; simp
    | cons k t ih =>
      intro v
      have := ih (2 * v + (w.testBit k).toNat)
      have hb : (w.testBit k).toNat ≤ 1 := Bool.toNat_le _
      rw [List.foldl_cons, List.length_cons, Nat.pow_succ]
      refine Nat.lt_of_lt_of_le this ?_
      rw [Nat.mul_comm (2 ^ t.length) 2, ← Nat.mul_assoc]
      exact Nat.mul_le_mul_right _ (by omega)
  have h := this l 0
  rw [Nat.zero_add, Nat.one_mul] at h
  exact h

theorem field_bound (pat : Str) (w : Nat) (c : Char) {n : Nat} (h : (places pat c).length = n) : field pat w c < 2 ^ n := by
  rw [← h]; exact bitsValue_bound w _

theorem immShift_ok (t i : Nat) : ShiftOK (immShift t i) := by
  unfold immShift
  have : ∀ (x : BitVec 2) (y : BitVec 5), (C18.armImmShift x y).1 = .rrx → (C18.armImmShift x y).2 = 1 := by decide +kernel
  exact this _ _

theorem rot_bound {pat : Str} {w : Nat} (h : (places pat 'r').length = 2) : 8 * field pat w 'r' < 32 := by
  have := field_bound pat w 'r' h
  omega

/-- The fields of every word give valid parameters. -/
def Case.Sound (c : Case) : Prop := ∀ w, (c.act (field c.enc.pat w)).Valid

theorem sound : ∀ c ∈ Case.all, c.Sound := by
  simp only [Case.all, List.forall_mem_cons]
  repeat' refine And.intro ?_ ?_
  all_goals first
    | exact fun w => trivial
    | exact fun w => immShift_ok _ _
    | exact fun w h => nomatch h
    | exact fun w => ⟨by unfold SizeOK; decide, trivial⟩
    | exact fun w => ⟨by unfold SizeOK; decide, immShift_ok _ _⟩
    | exact fun w => ⟨by unfold SizeOK; decide, fun h => nomatch h⟩
    | exact fun w => ⟨by decide, by decide⟩
    | exact fun w => by show SizeOK _; unfold SizeOK; decide
    | exact fun w => ⟨by decide, rot_bound (by decide)⟩
end Verif
