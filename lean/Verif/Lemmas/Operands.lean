import Verif.Lemmas.Effect
import Verif.Lemmas.Search

/-!
# The operands of decoded instructions
-/

namespace Verif
open BS Thumb Handler

/-- What formatting an operand relies on. -/
def Op1.OK : Op1 → Prop
  | .reg r _ => r < 16
  | .reglist l => ∃ v : BitVec 16, l = ofBV v
  | .special spec mask => (∃ v : BitVec 8, spec = ofBV v) ∧ (mask = none ∨ ∃ v : BitVec 2, mask = some (ofBV v))
  | _ => True

def allOK1 : List Op1 → Prop
  | [] => True
  | o :: t => o.OK ∧ allOK1 t

def Operand.OK : Operand → Prop
  | .one o => o.OK
  | .mem l => allOK1 l

def allOK : List Operand → Prop
  | [] => True
  | o :: t => o.OK ∧ allOK t

theorem allOK_ite {c : Prop} [Decidable c] {l m : List Operand} (h1 : allOK l) (h2 : allOK m) : allOK (if c then l else m) := by
  split <;> assumption

theorem field_lt16 {pat : Str} {w : Nat} {c : Char} (h : (places pat c).length ≤ 4) : field pat w c < 16 :=
  Nat.lt_of_lt_of_le (field_bound pat w c rfl) (Nat.pow_le_pow_right (by decide) h)

theorem lt13 : 13 < 16 := by decide
theorem lt15 : 15 < 16 := by decide

theorem ops_ok : ∀ c ∈ Case.all, ∀ w, allOK (c.ops (field c.enc.pat w)) := by
  simp only [Case.all, List.forall_mem_cons]
  repeat' refine And.intro ?_ ?_
  all_goals first
    | exact fun w => trivial
    | exact fun w => ⟨field_lt16 (by decide), trivial⟩
    | exact fun w => ⟨field_lt16 (by decide), trivial, trivial⟩
    | exact fun w => ⟨field_lt16 (by decide), field_lt16 (by decide), trivial⟩
    | exact fun w => ⟨field_lt16 (by decide), field_lt16 (by decide), trivial, trivial⟩
    | exact fun w => ⟨field_lt16 (by decide), field_lt16 (by decide), field_lt16 (by decide), trivial⟩
    | exact fun w => ⟨field_lt16 (by decide), ⟨field_lt16 (by decide), field_lt16 (by decide), trivial⟩, trivial⟩
    | exact fun w => ⟨field_lt16 (by decide), ⟨field_lt16 (by decide), field_lt16 (by decide), trivial, trivial⟩, trivial⟩
    | exact fun w => ⟨field_lt16 (by decide), ⟨field_lt16 (by decide), trivial, trivial⟩, trivial⟩
    | exact fun w => ⟨trivial, trivial⟩
    | exact fun w => ⟨⟨_, rfl⟩, trivial⟩
    | exact fun w => ⟨field_lt16 (by decide), ⟨_, rfl⟩, trivial⟩
    | exact fun w => ⟨field_lt16 (by decide), ⟨⟨_, rfl⟩, .inl rfl⟩, trivial⟩
    | exact fun w => ⟨⟨⟨_, rfl⟩, .inr ⟨_, rfl⟩⟩, field_lt16 (by decide), trivial⟩
    | exact fun w => ⟨field_lt16 (by decide), ⟨lt13, trivial, trivial⟩, trivial⟩
    | exact fun w => ⟨field_lt16 (by decide), ⟨lt15, trivial, trivial⟩, trivial⟩
    | exact fun w => ⟨field_lt16 (by decide), lt13, trivial, trivial⟩
    | exact fun w => ⟨field_lt16 (by decide), lt13, field_lt16 (by decide), trivial⟩
    | exact fun w => ⟨lt13, field_lt16 (by decide), trivial⟩
    | exact fun w => ⟨lt13, trivial, trivial⟩
    | exact fun w => ⟨field_lt16 (by decide), field_lt16 (by decide), allOK_ite ⟨trivial, trivial⟩ trivial⟩
    | exact fun w => ⟨field_lt16 (by decide), Nat.lt_trans (Nat.mod_lt _ (by decide)) (by decide), trivial⟩
    | exact fun x h => nomatch h

/-- Whether an operand shows the attribute `imm32`. -/
def Op1.isAttr : Op1 → Bool
  | .immAttr => true
  | _ => false

def Operand.isAttr : Operand → Bool
  | .one o => o.isAttr
  | .mem l => l.any Op1.isAttr

theorem any_ite {c : Prop} [Decidable c] {l : List Operand} (h : l.any Operand.isAttr = false) :
    (if c then l else []).any Operand.isAttr = false := by
  split
  · exact h
  · rfl

theorem attr_ops : ∀ c ∈ Case.all, ∀ w, (c.ops (field c.enc.pat w)).any Operand.isAttr = false ∨
    ∃ sub carry flags d n v, c.act (field c.enc.pat w) = .addSub sub carry flags d n (.imm v) := by
  simp only [Case.all, List.forall_mem_cons]
  repeat' refine And.intro ?_ ?_
  all_goals first
    | exact fun w => .inl rfl
    | exact fun w => .inr ⟨_, _, _, _, _, _, rfl⟩
    | exact fun w => .inl (any_ite (l := [.one (.shift _ _)]) rfl)
    | exact fun x h => nomatch h

theorem dotW_short (k : Nat) : (dotW k).length ≤ 3 := by
  unfold dotW; split <;> decide

theorem condText_short (k : Nat) : (condText k).length ≤ 2 := by
  by_cases h : k < 14
  · revert k; decide
  · rw [condText, List.getD_eq_getElem?_getD, List.getElem?_eq_none (by simp; omega)]
    decide

theorem wide_short {s : Str} (h : s.length = 3) (k : Nat) : (s ++ dotW k).length < 8 := by
  have := dotW_short k
  rw [List.length_append]
  omega

theorem mnem_short : ∀ c ∈ Case.all, ∀ w, (c.enc.mnem (field c.enc.pat w)).length < 8 := by
  simp only [Case.all, List.forall_mem_cons]
  repeat' refine And.intro ?_ ?_
  all_goals first
    | exact fun w => Nat.le_of_ble_eq_true rfl
    | exact fun w => wide_short rfl _
    | exact fun w => Nat.lt_of_le_of_lt (Nat.succ_le_succ (condText_short _)) (by decide)
    | (intro w; show (c! "cps" ++ (if _ then c! "ie" else c! "id")).length < 8; split <;> decide)
    | exact fun x h => nomatch h

end Verif
