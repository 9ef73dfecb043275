import Verif.Delegate

/-!
# Two delegates that answer alike

Generated: one theorem for each method of the model.
-/

namespace Verif
open BS Exec

/-- Two computations with the same result that keep the relation `R` between the states. -/
def Sim {σ τ α : Type} (R : σ → τ → Prop) (x : Run σ α) (y : Run τ α) : Prop :=
  ∀ s t, R s t → (x s).1 = (y t).1 ∧ R (x s).2 (y t).2

/-- Delegates related by `R` answer each call alike and are related afterwards. -/
structure Alike {σ τ : Type} [Delegate σ] [Delegate τ] (R : σ → τ → Prop) : Prop where
  readRegister : ∀ k, Sim R (Delegate.readRegister k) (Delegate.readRegister k)
  writeRegister : ∀ k v, Sim R (Delegate.writeRegister k v) (Delegate.writeRegister k v)
  readMemory : ∀ a n, Sim R (Delegate.readMemory a n) (Delegate.readMemory a n)
  writeMemory : ∀ a v n, Sim R (Delegate.writeMemory a v n) (Delegate.writeMemory a v n)

namespace Sim

variable {σ τ : Type} {R : σ → τ → Prop}

theorem pure {α : Type} (a : α) : Sim R (Pure.pure a : Run σ α) (Pure.pure a : Run τ α) := fun _ _ h => ⟨rfl, h⟩

theorem py {α : Type} (x : PyRes α) : Sim R (Any.py x : Run σ α) (Any.py x : Run τ α) := fun _ _ h => ⟨rfl, h⟩

theorem bind {α β : Type} {x : Run σ α} {y : Run τ α} {f : α → Run σ β} {g : α → Run τ β} (h : Sim R x y)
    (hf : ∀ a, Sim R (f a) (g a)) : Sim R (x >>= f) (y >>= g) := by
  intro s t hst
  obtain ⟨h1, h2⟩ := h s t hst
  show (Run.bind x f s).1 = (Run.bind y g t).1 ∧ R (Run.bind x f s).2 (Run.bind y g t).2
  unfold Run.bind
  rcases hx : x s with ⟨r, s'⟩
  rcases hy : y t with ⟨r', t'⟩
  rw [hx, hy] at h1 h2
  simp only at h1 h2
  subst h1
  cases r with
  | ok a => exact hf a s' t' h2
  | error e => exact ⟨rfl, h2⟩

theorem ite {α : Type} {c : Prop} [Decidable c] {x x' : Run σ α} {y y' : Run τ α} (h : Sim R x y) (h' : Sim R x' y') :
    Sim R (if c then x else x') (if c then y else y') := by
  by_cases hc : c
  · rw [if_pos hc, if_pos hc]; exact h
  · rw [if_neg hc, if_neg hc]; exact h'

end Sim

namespace Any

variable {σ τ : Type} [Delegate σ] [Delegate τ] {R : σ → τ → Prop}

theorem sim_readRegister (h : Alike (σ := σ) (τ := τ) R) (reg : RegArg) : Sim R (readRegister reg : Run σ BS) (readRegister reg : Run τ BS) :=
  Sim.bind (h.readRegister _) fun _ => Sim.py _

theorem sim_writeRegister (h : Alike (σ := σ) (τ := τ) R) (reg : RegArg) (value : Num) : Sim R (writeRegister reg value : Run σ Unit) (writeRegister reg value : Run τ Unit) :=
  h.writeRegister _ _

theorem sim_readMemory (h : Alike (σ := σ) (τ := τ) R) (addr : Num) (size : Nat) : Sim R (readMemory addr size : Run σ BS) (readMemory addr size : Run τ BS) :=
  Sim.bind (h.readMemory _ _) fun _ => Sim.py _

theorem sim_writeMemory (h : Alike (σ := σ) (τ := τ) R) (addr value : Num) (size : Nat) : Sim R (writeMemory addr value size : Run σ Unit) (writeMemory addr value size : Run τ Unit) :=
  h.writeMemory _ _ _

theorem sim_getIndexed (h : Alike (σ := σ) (τ := τ) R) (first last key : Int) : Sim R (getIndexed first last key : Run σ BS) (getIndexed first last key : Run τ BS) := by
  unfold getIndexed
  repeat (first | with_reducible exact Sim.pure _ | with_reducible exact Sim.py _ | with_reducible exact sim_readRegister h _ | with_reducible refine Sim.bind ?_ fun _ => ?_ | with_reducible refine Sim.ite ?_ ?_)

theorem sim_setIndexed (h : Alike (σ := σ) (τ := τ) R) (first last key : Int) (value : Num) : Sim R (setIndexed first last key value : Run σ Unit) (setIndexed first last key value : Run τ Unit) := by
  unfold setIndexed
  repeat (first | with_reducible exact Sim.pure _ | with_reducible exact Sim.py _ | with_reducible exact sim_writeRegister h _ _ | with_reducible refine Sim.bind ?_ fun _ => ?_ | with_reducible refine Sim.ite ?_ ?_)

theorem sim_getR (h : Alike (σ := σ) (τ := τ) R) (key : Int) : Sim R (getR key : Run σ BS) (getR key : Run τ BS) := by
  unfold getR
  repeat (first | with_reducible exact Sim.pure _ | with_reducible exact Sim.py _ | with_reducible exact sim_getIndexed h _ _ _ | with_reducible refine Sim.bind ?_ fun _ => ?_ | with_reducible refine Sim.ite ?_ ?_)

theorem sim_setR (h : Alike (σ := σ) (τ := τ) R) (key : Int) (value : Num) : Sim R (setR key value : Run σ Unit) (setR key value : Run τ Unit) := by
  unfold setR
  repeat (first | with_reducible exact Sim.pure _ | with_reducible exact Sim.py _ | with_reducible exact sim_setIndexed h _ _ _ _ | with_reducible refine Sim.bind ?_ fun _ => ?_ | with_reducible refine Sim.ite ?_ ?_)

theorem sim_getS (h : Alike (σ := σ) (τ := τ) R) (key : Int) : Sim R (getS key : Run σ BS) (getS key : Run τ BS) := by
  unfold getS
  repeat (first | with_reducible exact Sim.pure _ | with_reducible exact Sim.py _ | with_reducible exact sim_getIndexed h _ _ _ | with_reducible refine Sim.bind ?_ fun _ => ?_ | with_reducible refine Sim.ite ?_ ?_)

theorem sim_setS (h : Alike (σ := σ) (τ := τ) R) (key : Int) (value : Num) : Sim R (setS key value : Run σ Unit) (setS key value : Run τ Unit) := by
  unfold setS
  repeat (first | with_reducible exact Sim.pure _ | with_reducible exact Sim.py _ | with_reducible exact sim_setIndexed h _ _ _ _ | with_reducible refine Sim.bind ?_ fun _ => ?_ | with_reducible refine Sim.ite ?_ ?_)

theorem sim_getPc (h : Alike (σ := σ) (τ := τ) R) : Sim R (getPc : Run σ BS) (getPc : Run τ BS) := by
  unfold getPc
  repeat (first | with_reducible exact Sim.pure _ | with_reducible exact Sim.py _ | with_reducible exact sim_readRegister h _ | with_reducible refine Sim.bind ?_ fun _ => ?_ | with_reducible refine Sim.ite ?_ ?_)

theorem sim_setPc (h : Alike (σ := σ) (τ := τ) R) (value : Num) : Sim R (setPc value : Run σ Unit) (setPc value : Run τ Unit) := by
  unfold setPc
  repeat (first | with_reducible exact Sim.pure _ | with_reducible exact Sim.py _ | with_reducible exact sim_writeRegister h _ _ | with_reducible refine Sim.bind ?_ fun _ => ?_ | with_reducible refine Sim.ite ?_ ?_)

theorem sim_pcForInstr (h : Alike (σ := σ) (τ := τ) R) : Sim R (pcForInstr : Run σ BS) (pcForInstr : Run τ BS) := by
  unfold pcForInstr
  repeat (first | with_reducible exact Sim.pure _ | with_reducible exact Sim.py _ | with_reducible exact sim_readRegister h _ | with_reducible refine Sim.bind ?_ fun _ => ?_ | with_reducible refine Sim.ite ?_ ?_)

theorem sim_setLr (h : Alike (σ := σ) (τ := τ) R) (value : Num) : Sim R (setLr value : Run σ Unit) (setLr value : Run τ Unit) := by
  unfold setLr
  repeat (first | with_reducible exact Sim.pure _ | with_reducible exact Sim.py _ | with_reducible exact sim_writeRegister h _ _ | with_reducible refine Sim.bind ?_ fun _ => ?_ | with_reducible refine Sim.ite ?_ ?_)

theorem sim_getSp (h : Alike (σ := σ) (τ := τ) R) : Sim R (getSp : Run σ BS) (getSp : Run τ BS) := by
  unfold getSp
  repeat (first | with_reducible exact Sim.pure _ | with_reducible exact Sim.py _ | with_reducible exact sim_readRegister h _ | with_reducible refine Sim.bind ?_ fun _ => ?_ | with_reducible refine Sim.ite ?_ ?_)

theorem sim_setSp (h : Alike (σ := σ) (τ := τ) R) (value : Num) : Sim R (setSp value : Run σ Unit) (setSp value : Run τ Unit) := by
  unfold setSp
  repeat (first | with_reducible exact Sim.pure _ | with_reducible exact Sim.py _ | with_reducible exact sim_writeRegister h _ _ | with_reducible refine Sim.bind ?_ fun _ => ?_ | with_reducible refine Sim.ite ?_ ?_)

theorem sim_getMsp (h : Alike (σ := σ) (τ := τ) R) : Sim R (getMsp : Run σ BS) (getMsp : Run τ BS) := by
  unfold getMsp
  repeat (first | with_reducible exact Sim.pure _ | with_reducible exact Sim.py _ | with_reducible exact sim_readRegister h _ | with_reducible refine Sim.bind ?_ fun _ => ?_ | with_reducible refine Sim.ite ?_ ?_)

theorem sim_getPsp (h : Alike (σ := σ) (τ := τ) R) : Sim R (getPsp : Run σ BS) (getPsp : Run τ BS) := by
  unfold getPsp
  repeat (first | with_reducible exact Sim.pure _ | with_reducible exact Sim.py _ | with_reducible exact sim_readRegister h _ | with_reducible refine Sim.bind ?_ fun _ => ?_ | with_reducible refine Sim.ite ?_ ?_)

theorem sim_getControl (h : Alike (σ := σ) (τ := τ) R) : Sim R (getControl : Run σ BS) (getControl : Run τ BS) := by
  unfold getControl
  repeat (first | with_reducible exact Sim.pure _ | with_reducible exact Sim.py _ | with_reducible exact sim_readRegister h _ | with_reducible refine Sim.bind ?_ fun _ => ?_ | with_reducible refine Sim.ite ?_ ?_)

theorem sim_isPrivileged (h : Alike (σ := σ) (τ := τ) R) : Sim R (isPrivileged : Run σ Bool) (isPrivileged : Run τ Bool) := by
  unfold isPrivileged
  repeat (first | with_reducible exact Sim.pure _ | with_reducible exact Sim.py _ | with_reducible exact sim_getControl h | with_reducible refine Sim.bind ?_ fun _ => ?_ | with_reducible refine Sim.ite ?_ ?_)

theorem sim_getXpsr (h : Alike (σ := σ) (τ := τ) R) : Sim R (getXpsr : Run σ BS) (getXpsr : Run τ BS) := by
  unfold getXpsr
  repeat (first | with_reducible exact Sim.pure _ | with_reducible exact Sim.py _ | with_reducible exact sim_readRegister h _ | with_reducible refine Sim.bind ?_ fun _ => ?_ | with_reducible refine Sim.ite ?_ ?_)

theorem sim_setXpsr (h : Alike (σ := σ) (τ := τ) R) (value : Num) : Sim R (setXpsr value : Run σ Unit) (setXpsr value : Run τ Unit) := by
  unfold setXpsr
  repeat (first | with_reducible exact Sim.pure _ | with_reducible exact Sim.py _ | with_reducible exact sim_writeRegister h _ _ | with_reducible refine Sim.bind ?_ fun _ => ?_ | with_reducible refine Sim.ite ?_ ?_)

theorem sim_getIpsr (h : Alike (σ := σ) (τ := τ) R) : Sim R (getIpsr : Run σ BS) (getIpsr : Run τ BS) := by
  unfold getIpsr
  repeat (first | with_reducible exact Sim.pure _ | with_reducible exact Sim.py _ | with_reducible exact sim_getXpsr h | with_reducible refine Sim.bind ?_ fun _ => ?_ | with_reducible refine Sim.ite ?_ ?_)

theorem sim_getFlag (h : Alike (σ := σ) (τ := τ) R) (bit : Int) : Sim R (getFlag bit : Run σ BS) (getFlag bit : Run τ BS) := by
  unfold getFlag
  repeat (first | with_reducible exact Sim.pure _ | with_reducible exact Sim.py _ | with_reducible exact sim_getXpsr h | with_reducible refine Sim.bind ?_ fun _ => ?_ | with_reducible refine Sim.ite ?_ ?_)

theorem sim_setFlag (h : Alike (σ := σ) (τ := τ) R) (bit : Int) (value : PyVal) : Sim R (setFlag bit value : Run σ Unit) (setFlag bit value : Run τ Unit) := by
  unfold setFlag
  repeat (first | with_reducible exact Sim.pure _ | with_reducible exact Sim.py _ | with_reducible exact sim_getXpsr h | with_reducible exact sim_setXpsr h _ | with_reducible refine Sim.bind ?_ fun _ => ?_ | with_reducible refine Sim.ite ?_ ?_)

theorem sim_advance (h : Alike (σ := σ) (τ := τ) R) (i : Instr) : Sim R (advance i : Run σ Unit) (advance i : Run τ Unit) := by
  unfold advance
  repeat (first | with_reducible exact Sim.pure _ | with_reducible exact Sim.py _ | with_reducible exact sim_getPc h | with_reducible exact sim_setPc h _ | with_reducible refine Sim.bind ?_ fun _ => ?_ | with_reducible refine Sim.ite ?_ ?_)

theorem sim_setFlagOpt (h : Alike (σ := σ) (τ := τ) R) (bit : Int) (o : Option BS) : Sim R (setFlagOpt bit o : Run σ Unit) (setFlagOpt bit o : Run τ Unit) := by
  unfold setFlagOpt
  cases o <;> (repeat (first | with_reducible exact Sim.pure _ | with_reducible exact Sim.py _ | with_reducible exact sim_setFlag h _ _ | with_reducible refine Sim.bind ?_ fun _ => ?_ | with_reducible refine Sim.ite ?_ ?_))

theorem sim_setFlags (h : Alike (σ := σ) (τ := τ) R) (i : Instr) (result : BS) (carry overflow : Option BS) : Sim R (setFlags i result carry overflow : Run σ Unit) (setFlags i result carry overflow : Run τ Unit) := by
  unfold setFlags
  repeat (first | with_reducible exact Sim.pure _ | with_reducible exact Sim.py _ | with_reducible exact sim_setFlag h _ _ | with_reducible exact sim_setFlagOpt h _ _ | with_reducible refine Sim.bind ?_ fun _ => ?_ | with_reducible refine Sim.ite ?_ ?_)

theorem sim_readReg (h : Alike (σ := σ) (τ := τ) R) (r : Option Nat) : Sim R (readReg r : Run σ BS) (readReg r : Run τ BS) := by
  unfold readReg
  repeat (first | with_reducible exact Sim.pure _ | with_reducible exact Sim.py _ | with_reducible exact sim_getR h _ | with_reducible refine Sim.bind ?_ fun _ => ?_ | with_reducible refine Sim.ite ?_ ?_)

theorem sim_writeReg (h : Alike (σ := σ) (τ := τ) R) (r : Option Nat) (v : BS) : Sim R (writeReg r v : Run σ Unit) (writeReg r v : Run τ Unit) := by
  unfold writeReg
  repeat (first | with_reducible exact Sim.pure _ | with_reducible exact Sim.py _ | with_reducible exact sim_setR h _ _ | with_reducible refine Sim.bind ?_ fun _ => ?_ | with_reducible refine Sim.ite ?_ ?_)

theorem sim_immOrReg (h : Alike (σ := σ) (τ := τ) R) (i : Instr) : Sim R (immOrReg i : Run σ BS) (immOrReg i : Run τ BS) := by
  unfold immOrReg
  cases i.imm32 <;> (repeat (first | with_reducible exact Sim.pure _ | with_reducible exact Sim.py _ | with_reducible exact sim_readReg h _ | with_reducible refine Sim.bind ?_ fun _ => ?_ | with_reducible refine Sim.ite ?_ ?_))

theorem sim_carryIn (h : Alike (σ := σ) (τ := τ) R) (useCarry sub : Bool) : Sim R (carryIn useCarry sub : Run σ BS) (carryIn useCarry sub : Run τ BS) := by
  unfold carryIn
  repeat (first | with_reducible exact Sim.pure _ | with_reducible exact Sim.py _ | with_reducible exact sim_getFlag h _ | with_reducible refine Sim.bind ?_ fun _ => ?_ | with_reducible refine Sim.ite ?_ ?_)

theorem sim_addSub (h : Alike (σ := σ) (τ := τ) R) (i : Instr) : Sim R (addSub i : Run σ Instr) (addSub i : Run τ Instr) := by
  unfold addSub
  repeat (first | with_reducible exact Sim.pure _ | with_reducible exact Sim.py _ | with_reducible exact sim_advance h _ | with_reducible exact sim_setFlags h _ _ _ _ | with_reducible exact sim_readReg h _ | with_reducible exact sim_writeReg h _ _ | with_reducible exact sim_immOrReg h _ | with_reducible exact sim_carryIn h _ _ | with_reducible refine Sim.bind ?_ fun _ => ?_ | with_reducible refine Sim.ite ?_ ?_)

theorem sim_bitOp (h : Alike (σ := σ) (τ := τ) R) (i : Instr) : Sim R (bitOp i : Run σ Instr) (bitOp i : Run τ Instr) := by
  unfold bitOp
  repeat (first | with_reducible exact Sim.pure _ | with_reducible exact Sim.py _ | with_reducible exact sim_advance h _ | with_reducible exact sim_setFlags h _ _ _ _ | with_reducible exact sim_readReg h _ | with_reducible exact sim_writeReg h _ _ | with_reducible refine Sim.bind ?_ fun _ => ?_ | with_reducible refine Sim.ite ?_ ?_)

theorem sim_bitClear (h : Alike (σ := σ) (τ := τ) R) (i : Instr) : Sim R (bitClear i : Run σ Instr) (bitClear i : Run τ Instr) := by
  unfold bitClear
  repeat (first | with_reducible exact Sim.pure _ | with_reducible exact Sim.py _ | with_reducible exact sim_advance h _ | with_reducible exact sim_setFlags h _ _ _ _ | with_reducible exact sim_readReg h _ | with_reducible exact sim_writeReg h _ _ | with_reducible refine Sim.bind ?_ fun _ => ?_ | with_reducible refine Sim.ite ?_ ?_)

theorem sim_shiftAmount (h : Alike (σ := σ) (τ := τ) R) (i : Instr) : Sim R (shiftAmount i : Run σ Nat) (shiftAmount i : Run τ Nat) := by
  unfold shiftAmount
  cases i.shiftN <;> (repeat (first | with_reducible exact Sim.pure _ | with_reducible exact Sim.py _ | with_reducible exact sim_readReg h _ | with_reducible refine Sim.bind ?_ fun _ => ?_ | with_reducible refine Sim.ite ?_ ?_))

theorem sim_shiftOp (h : Alike (σ := σ) (τ := τ) R) (i : Instr) : Sim R (shiftOp i : Run σ Instr) (shiftOp i : Run τ Instr) := by
  unfold shiftOp
  repeat (first | with_reducible exact Sim.pure _ | with_reducible exact Sim.py _ | with_reducible exact sim_getFlag h _ | with_reducible exact sim_advance h _ | with_reducible exact sim_setFlags h _ _ _ _ | with_reducible exact sim_readReg h _ | with_reducible exact sim_writeReg h _ _ | with_reducible exact sim_shiftAmount h _ | with_reducible refine Sim.bind ?_ fun _ => ?_ | with_reducible refine Sim.ite ?_ ?_)

theorem sim_reverseSubtract (h : Alike (σ := σ) (τ := τ) R) (i : Instr) : Sim R (reverseSubtract i : Run σ Instr) (reverseSubtract i : Run τ Instr) := by
  unfold reverseSubtract
  repeat (first | with_reducible exact Sim.pure _ | with_reducible exact Sim.py _ | with_reducible exact sim_advance h _ | with_reducible exact sim_setFlags h _ _ _ _ | with_reducible exact sim_readReg h _ | with_reducible exact sim_writeReg h _ _ | with_reducible refine Sim.bind ?_ fun _ => ?_ | with_reducible refine Sim.ite ?_ ?_)

theorem sim_multiply (h : Alike (σ := σ) (τ := τ) R) (i : Instr) : Sim R (multiply i : Run σ Instr) (multiply i : Run τ Instr) := by
  unfold multiply
  repeat (first | with_reducible exact Sim.pure _ | with_reducible exact Sim.py _ | with_reducible exact sim_advance h _ | with_reducible exact sim_setFlags h _ _ _ _ | with_reducible exact sim_readReg h _ | with_reducible exact sim_writeReg h _ _ | with_reducible refine Sim.bind ?_ fun _ => ?_ | with_reducible refine Sim.ite ?_ ?_)

theorem sim_addressToRegister (h : Alike (σ := σ) (τ := τ) R) (i : Instr) : Sim R (addressToRegister i : Run σ Instr) (addressToRegister i : Run τ Instr) := by
  unfold addressToRegister
  repeat (first | with_reducible exact Sim.pure _ | with_reducible exact Sim.py _ | with_reducible exact sim_pcForInstr h | with_reducible exact sim_advance h _ | with_reducible exact sim_writeReg h _ _ | with_reducible refine Sim.bind ?_ fun _ => ?_ | with_reducible refine Sim.ite ?_ ?_)

theorem sim_extend (h : Alike (σ := σ) (τ := τ) R) (i : Instr) : Sim R (extend i : Run σ Instr) (extend i : Run τ Instr) := by
  unfold extend
  repeat (first | with_reducible exact Sim.pure _ | with_reducible exact Sim.py _ | with_reducible exact sim_advance h _ | with_reducible exact sim_readReg h _ | with_reducible exact sim_writeReg h _ _ | with_reducible refine Sim.bind ?_ fun _ => ?_ | with_reducible refine Sim.ite ?_ ?_)

theorem sim_byteReverse (h : Alike (σ := σ) (τ := τ) R) (i : Instr) : Sim R (byteReverse i : Run σ Instr) (byteReverse i : Run τ Instr) := by
  unfold byteReverse
  repeat (first | with_reducible exact Sim.pure _ | with_reducible exact Sim.py _ | with_reducible exact sim_advance h _ | with_reducible exact sim_readReg h _ | with_reducible exact sim_writeReg h _ _ | with_reducible refine Sim.bind ?_ fun _ => ?_ | with_reducible refine Sim.ite ?_ ?_)

theorem sim_moveOperand (h : Alike (σ := σ) (τ := τ) R) (i : Instr) : Sim R (moveOperand i : Run σ (BS × Instr)) (moveOperand i : Run τ (BS × Instr)) := by
  unfold moveOperand
  cases i.m <;> (repeat (first | with_reducible exact Sim.pure _ | with_reducible exact Sim.py _ | with_reducible exact sim_getR h _ | with_reducible refine Sim.bind ?_ fun _ => ?_ | with_reducible refine Sim.ite ?_ ?_))

theorem sim_move (h : Alike (σ := σ) (τ := τ) R) (i : Instr) : Sim R (move i : Run σ Instr) (move i : Run τ Instr) := by
  unfold move
  repeat (first | with_reducible exact Sim.pure _ | with_reducible exact Sim.py _ | with_reducible exact sim_getFlag h _ | with_reducible exact sim_advance h _ | with_reducible exact sim_setFlags h _ _ _ _ | with_reducible exact sim_writeReg h _ _ | with_reducible exact sim_moveOperand h _ | with_reducible refine Sim.bind ?_ fun _ => ?_ | with_reducible refine Sim.ite ?_ ?_)

theorem sim_shiftedMoveNegate (h : Alike (σ := σ) (τ := τ) R) (i : Instr) : Sim R (shiftedMoveNegate i : Run σ Instr) (shiftedMoveNegate i : Run τ Instr) := by
  unfold shiftedMoveNegate
  repeat (first | with_reducible exact Sim.pure _ | with_reducible exact Sim.py _ | with_reducible refine Sim.bind ?_ fun _ => ?_ | with_reducible refine Sim.ite ?_ ?_)

theorem sim_cmpOperand (h : Alike (σ := σ) (τ := τ) R) (i : Instr) : Sim R (cmpOperand i : Run σ BS) (cmpOperand i : Run τ BS) := by
  unfold cmpOperand
  cases i.m <;> (repeat (first | with_reducible exact Sim.pure _ | with_reducible exact Sim.py _ | with_reducible exact sim_getR h _ | with_reducible refine Sim.bind ?_ fun _ => ?_ | with_reducible refine Sim.ite ?_ ?_))

theorem sim_compare (h : Alike (σ := σ) (τ := τ) R) (i : Instr) : Sim R (compare i : Run σ Instr) (compare i : Run τ Instr) := by
  unfold compare
  repeat (first | with_reducible exact Sim.pure _ | with_reducible exact Sim.py _ | with_reducible exact sim_setFlag h _ _ | with_reducible exact sim_advance h _ | with_reducible exact sim_readReg h _ | with_reducible exact sim_cmpOperand h _ | with_reducible refine Sim.bind ?_ fun _ => ?_ | with_reducible refine Sim.ite ?_ ?_)

theorem sim_test (h : Alike (σ := σ) (τ := τ) R) (i : Instr) : Sim R (test i : Run σ Instr) (test i : Run τ Instr) := by
  unfold test
  repeat (first | with_reducible exact Sim.pure _ | with_reducible exact Sim.py _ | with_reducible exact sim_getFlag h _ | with_reducible exact sim_setFlag h _ _ | with_reducible exact sim_advance h _ | with_reducible exact sim_readReg h _ | with_reducible refine Sim.bind ?_ fun _ => ?_ | with_reducible refine Sim.ite ?_ ?_)

theorem sim_flagIs (h : Alike (σ := σ) (τ := τ) R) (bit : Int) (k : Int) : Sim R (flagIs bit k : Run σ Bool) (flagIs bit k : Run τ Bool) := by
  unfold flagIs
  repeat (first | with_reducible exact Sim.pure _ | with_reducible exact Sim.py _ | with_reducible exact sim_getFlag h _ | with_reducible refine Sim.bind ?_ fun _ => ?_ | with_reducible refine Sim.ite ?_ ?_)

theorem sim_flagsEqual (h : Alike (σ := σ) (τ := τ) R) : Sim R (flagsEqual : Run σ Bool) (flagsEqual : Run τ Bool) := by
  unfold flagsEqual
  repeat (first | with_reducible exact Sim.pure _ | with_reducible exact Sim.py _ | with_reducible exact sim_getFlag h _ | with_reducible refine Sim.bind ?_ fun _ => ?_ | with_reducible refine Sim.ite ?_ ?_)

theorem sim_flagsDiffer (h : Alike (σ := σ) (τ := τ) R) : Sim R (flagsDiffer : Run σ Bool) (flagsDiffer : Run τ Bool) := by
  unfold flagsDiffer
  repeat (first | with_reducible exact Sim.pure _ | with_reducible exact Sim.py _ | with_reducible exact sim_getFlag h _ | with_reducible refine Sim.bind ?_ fun _ => ?_ | with_reducible refine Sim.ite ?_ ?_)

theorem sim_condHolds (h : Alike (σ := σ) (τ := τ) R) (k : Nat) : Sim R (condHolds k : Run σ Bool) (condHolds k : Run τ Bool) := by
  unfold condHolds
  split <;> (repeat (first | with_reducible exact Sim.pure _ | with_reducible exact Sim.py _ | with_reducible exact sim_flagIs h _ _ | with_reducible exact sim_flagsEqual h | with_reducible exact sim_flagsDiffer h | with_reducible refine Sim.bind ?_ fun _ => ?_ | with_reducible refine Sim.ite ?_ ?_))

theorem sim_linkIf (h : Alike (σ := σ) (τ := τ) R) (link : Bool) (next : BS) : Sim R (linkIf link next : Run σ Unit) (linkIf link next : Run τ Unit) := by
  unfold linkIf
  repeat (first | with_reducible exact Sim.pure _ | with_reducible exact Sim.py _ | with_reducible exact sim_setLr h _ | with_reducible refine Sim.bind ?_ fun _ => ?_ | with_reducible refine Sim.ite ?_ ?_)

theorem sim_jump (h : Alike (σ := σ) (τ := τ) R) (i : Instr) (next : BS) : Sim R (jump i next : Run σ Unit) (jump i next : Run τ Unit) := by
  unfold jump
  cases i.m <;> (repeat (first | with_reducible exact Sim.pure _ | with_reducible exact Sim.py _ | with_reducible exact sim_getR h _ | with_reducible exact sim_setPc h _ | with_reducible refine Sim.bind ?_ fun _ => ?_ | with_reducible refine Sim.ite ?_ ?_))

theorem sim_branch (h : Alike (σ := σ) (τ := τ) R) (i : Instr) : Sim R (branch i : Run σ Instr) (branch i : Run τ Instr) := by
  unfold branch
  repeat (first | with_reducible exact Sim.pure _ | with_reducible exact Sim.py _ | with_reducible exact sim_pcForInstr h | with_reducible exact sim_advance h _ | with_reducible exact sim_condHolds h _ | with_reducible exact sim_linkIf h _ _ | with_reducible exact sim_jump h _ _ | with_reducible refine Sim.bind ?_ fun _ => ?_ | with_reducible refine Sim.ite ?_ ?_)

theorem sim_memOffset (h : Alike (σ := σ) (τ := τ) R) (i : Instr) : Sim R (memOffset i : Run σ BS) (memOffset i : Run τ BS) := by
  unfold memOffset
  cases i.imm32 <;> (repeat (first | with_reducible exact Sim.pure _ | with_reducible exact Sim.py _ | with_reducible exact sim_getFlag h _ | with_reducible exact sim_readReg h _ | with_reducible refine Sim.bind ?_ fun _ => ?_ | with_reducible refine Sim.ite ?_ ?_))

theorem sim_offsetAddr (h : Alike (σ := σ) (τ := τ) R) (i : Instr) (off : BS) : Sim R (offsetAddr i off : Run σ BS) (offsetAddr i off : Run τ BS) := by
  unfold offsetAddr
  repeat (first | with_reducible exact Sim.pure _ | with_reducible exact Sim.py _ | with_reducible exact sim_readReg h _ | with_reducible refine Sim.bind ?_ fun _ => ?_ | with_reducible refine Sim.ite ?_ ?_)

theorem sim_accessAddr (h : Alike (σ := σ) (τ := τ) R) (i : Instr) (oa : BS) : Sim R (accessAddr i oa : Run σ BS) (accessAddr i oa : Run τ BS) := by
  unfold accessAddr
  repeat (first | with_reducible exact Sim.pure _ | with_reducible exact Sim.py _ | with_reducible exact sim_readReg h _ | with_reducible refine Sim.bind ?_ fun _ => ?_ | with_reducible refine Sim.ite ?_ ?_)

theorem sim_writeIf (h : Alike (σ := σ) (τ := τ) R) (b : Bool) (r : Option Nat) (v : BS) : Sim R (writeIf b r v : Run σ Unit) (writeIf b r v : Run τ Unit) := by
  unfold writeIf
  repeat (first | with_reducible exact Sim.pure _ | with_reducible exact Sim.py _ | with_reducible exact sim_writeReg h _ _ | with_reducible refine Sim.bind ?_ fun _ => ?_ | with_reducible refine Sim.ite ?_ ?_)

theorem sim_load (h : Alike (σ := σ) (τ := τ) R) (i : Instr) : Sim R (load i : Run σ Instr) (load i : Run τ Instr) := by
  unfold load
  repeat (first | with_reducible exact Sim.pure _ | with_reducible exact Sim.py _ | with_reducible exact sim_readMemory h _ _ | with_reducible exact sim_advance h _ | with_reducible exact sim_writeReg h _ _ | with_reducible exact sim_memOffset h _ | with_reducible exact sim_offsetAddr h _ _ | with_reducible exact sim_accessAddr h _ _ | with_reducible exact sim_writeIf h _ _ _ | with_reducible refine Sim.bind ?_ fun _ => ?_ | with_reducible refine Sim.ite ?_ ?_)

theorem sim_store (h : Alike (σ := σ) (τ := τ) R) (i : Instr) : Sim R (store i : Run σ Instr) (store i : Run τ Instr) := by
  unfold store
  repeat (first | with_reducible exact Sim.pure _ | with_reducible exact Sim.py _ | with_reducible exact sim_writeMemory h _ _ _ | with_reducible exact sim_advance h _ | with_reducible exact sim_readReg h _ | with_reducible exact sim_memOffset h _ | with_reducible exact sim_offsetAddr h _ _ | with_reducible exact sim_accessAddr h _ _ | with_reducible refine Sim.bind ?_ fun _ => ?_ | with_reducible refine Sim.ite ?_ ?_)

theorem sim_loadLiteral (h : Alike (σ := σ) (τ := τ) R) (i : Instr) : Sim R (loadLiteral i : Run σ Instr) (loadLiteral i : Run τ Instr) := by
  unfold loadLiteral
  repeat (first | with_reducible exact Sim.pure _ | with_reducible exact Sim.py _ | with_reducible exact sim_readMemory h _ _ | with_reducible exact sim_pcForInstr h | with_reducible exact sim_advance h _ | with_reducible exact sim_writeReg h _ _ | with_reducible refine Sim.bind ?_ fun _ => ?_ | with_reducible refine Sim.ite ?_ ?_)

theorem sim_storeLoop (h : Alike (σ := σ) (τ := τ) R) (regs : BS) : ∀ (ks : List Nat) (a : BS), Sim R (storeLoop regs ks a : Run σ BS) (storeLoop regs ks a : Run τ BS)
  | [], a => Sim.pure a
  | k :: ks, a => by
    rw [storeLoop, storeLoop]
    have ih := fun a => sim_storeLoop h regs ks a
    repeat (first | exact ih _ | with_reducible exact Sim.pure _ | with_reducible exact Sim.py _ | with_reducible exact sim_writeMemory h _ _ _ | with_reducible exact sim_getR h _ | with_reducible refine Sim.bind ?_ fun _ => ?_ | with_reducible refine Sim.ite ?_ ?_)

theorem sim_loadLoop (h : Alike (σ := σ) (τ := τ) R) (regs : BS) : ∀ (ks : List Nat) (a : BS), Sim R (loadLoop regs ks a : Run σ BS) (loadLoop regs ks a : Run τ BS)
  | [], a => Sim.pure a
  | k :: ks, a => by
    rw [loadLoop, loadLoop]
    have ih := fun a => sim_loadLoop h regs ks a
    repeat (first | exact ih _ | with_reducible exact Sim.pure _ | with_reducible exact Sim.py _ | with_reducible exact sim_readMemory h _ _ | with_reducible exact sim_setR h _ _ | with_reducible refine Sim.bind ?_ fun _ => ?_ | with_reducible refine Sim.ite ?_ ?_)

theorem sim_push (h : Alike (σ := σ) (τ := τ) R) (i : Instr) : Sim R (push i : Run σ Instr) (push i : Run τ Instr) := by
  unfold push
  repeat (first | with_reducible exact Sim.pure _ | with_reducible exact Sim.py _ | with_reducible exact sim_getSp h | with_reducible exact sim_setSp h _ | with_reducible exact sim_advance h _ | with_reducible exact sim_storeLoop h _ _ _ | with_reducible refine Sim.bind ?_ fun _ => ?_ | with_reducible refine Sim.ite ?_ ?_)

theorem sim_loadPc (h : Alike (σ := σ) (τ := τ) R) (i : Instr) (regs a : BS) : Sim R (loadPc i regs a : Run σ Unit) (loadPc i regs a : Run τ Unit) := by
  unfold loadPc
  repeat (first | with_reducible exact Sim.pure _ | with_reducible exact Sim.py _ | with_reducible exact sim_readMemory h _ _ | with_reducible exact sim_setPc h _ | with_reducible exact sim_advance h _ | with_reducible refine Sim.bind ?_ fun _ => ?_ | with_reducible refine Sim.ite ?_ ?_)

theorem sim_pop (h : Alike (σ := σ) (τ := τ) R) (i : Instr) : Sim R (pop i : Run σ Instr) (pop i : Run τ Instr) := by
  unfold pop
  repeat (first | with_reducible exact Sim.pure _ | with_reducible exact Sim.py _ | with_reducible exact sim_getSp h | with_reducible exact sim_setSp h _ | with_reducible exact sim_loadLoop h _ _ _ | with_reducible exact sim_loadPc h _ _ _ | with_reducible refine Sim.bind ?_ fun _ => ?_ | with_reducible refine Sim.ite ?_ ?_)

theorem sim_ldmWriteBack (h : Alike (σ := σ) (τ := τ) R) (i : Instr) (regs : BS) (wb : Bool) : Sim R (ldmWriteBack i regs wb : Run σ Unit) (ldmWriteBack i regs wb : Run τ Unit) := by
  unfold ldmWriteBack
  repeat (first | with_reducible exact Sim.pure _ | with_reducible exact Sim.py _ | with_reducible exact sim_getR h _ | with_reducible exact sim_setR h _ _ | with_reducible refine Sim.bind ?_ fun _ => ?_ | with_reducible refine Sim.ite ?_ ?_)

theorem sim_loadMultiple (h : Alike (σ := σ) (τ := τ) R) (i : Instr) : Sim R (loadMultiple i : Run σ Instr) (loadMultiple i : Run τ Instr) := by
  unfold loadMultiple
  repeat (first | with_reducible exact Sim.pure _ | with_reducible exact Sim.py _ | with_reducible exact sim_readReg h _ | with_reducible exact sim_loadLoop h _ _ _ | with_reducible exact sim_loadPc h _ _ _ | with_reducible exact sim_ldmWriteBack h _ _ _ | with_reducible refine Sim.bind ?_ fun _ => ?_ | with_reducible refine Sim.ite ?_ ?_)

theorem sim_storeMultiple (h : Alike (σ := σ) (τ := τ) R) (i : Instr) : Sim R (storeMultiple i : Run σ Instr) (storeMultiple i : Run τ Instr) := by
  unfold storeMultiple
  repeat (first | with_reducible exact Sim.pure _ | with_reducible exact Sim.py _ | with_reducible exact sim_advance h _ | with_reducible exact sim_readReg h _ | with_reducible exact sim_writeIf h _ _ _ | with_reducible exact sim_storeLoop h _ _ _ | with_reducible refine Sim.bind ?_ fun _ => ?_ | with_reducible refine Sim.ite ?_ ?_)

theorem sim_writeCore (h : Alike (σ := σ) (τ := τ) R) (name : Str) (v : Int) : Sim R (writeCore name v : Run σ Unit) (writeCore name v : Run τ Unit) := by
  unfold writeCore
  cases coreRegister.lookup name <;> (repeat (first | with_reducible exact Sim.pure _ | with_reducible exact Sim.py _ | with_reducible exact sim_writeRegister h _ _ | with_reducible refine Sim.bind ?_ fun _ => ?_ | with_reducible refine Sim.ite ?_ ?_))

theorem sim_readCore (h : Alike (σ := σ) (τ := τ) R) (name : Str) : Sim R (readCore name : Run σ BS) (readCore name : Run τ BS) := by
  unfold readCore
  cases coreRegister.lookup name <;> (repeat (first | with_reducible exact Sim.pure _ | with_reducible exact Sim.py _ | with_reducible exact sim_readRegister h _ | with_reducible refine Sim.bind ?_ fun _ => ?_ | with_reducible refine Sim.ite ?_ ?_))

theorem sim_writeCoreIf (h : Alike (σ := σ) (τ := τ) R) (b : Bool) (name : Str) (v : Int) : Sim R (writeCoreIf b name v : Run σ Unit) (writeCoreIf b name v : Run τ Unit) := by
  unfold writeCoreIf
  repeat (first | with_reducible exact Sim.pure _ | with_reducible exact Sim.py _ | with_reducible exact sim_writeCore h _ _ | with_reducible refine Sim.bind ?_ fun _ => ?_ | with_reducible refine Sim.ite ?_ ?_)

theorem sim_changeProcessorState (h : Alike (σ := σ) (τ := τ) R) (i : Instr) : Sim R (changeProcessorState i : Run σ Instr) (changeProcessorState i : Run τ Instr) := by
  unfold changeProcessorState
  repeat (first | with_reducible exact Sim.pure _ | with_reducible exact Sim.py _ | with_reducible exact sim_advance h _ | with_reducible exact sim_writeCoreIf h _ _ _ | with_reducible refine Sim.bind ?_ fun _ => ?_ | with_reducible refine Sim.ite ?_ ?_)

theorem sim_mrsIpsr (h : Alike (σ := σ) (τ := τ) R) (r : BS) (wanted : Bool) : Sim R (mrsIpsr r wanted : Run σ BS) (mrsIpsr r wanted : Run τ BS) := by
  unfold mrsIpsr
  repeat (first | with_reducible exact Sim.pure _ | with_reducible exact Sim.py _ | with_reducible exact sim_getIpsr h | with_reducible refine Sim.bind ?_ fun _ => ?_ | with_reducible refine Sim.ite ?_ ?_)

theorem sim_mrsPsr (h : Alike (σ := σ) (τ := τ) R) (sysm r : BS) : Sim R (mrsPsr sysm r : Run σ BS) (mrsPsr sysm r : Run τ BS) := by
  unfold mrsPsr
  repeat (first | with_reducible exact Sim.pure _ | with_reducible exact Sim.py _ | with_reducible exact sim_mrsIpsr h _ _ | with_reducible refine Sim.bind ?_ fun _ => ?_ | with_reducible refine Sim.ite ?_ ?_)

theorem sim_mrsSp (h : Alike (σ := σ) (τ := τ) R) (sysm r : BS) : Sim R (mrsSp sysm r : Run σ BS) (mrsSp sysm r : Run τ BS) := by
  unfold mrsSp
  repeat (first | with_reducible exact Sim.pure _ | with_reducible exact Sim.py _ | with_reducible exact sim_getMsp h | with_reducible exact sim_getPsp h | with_reducible exact sim_isPrivileged h | with_reducible refine Sim.bind ?_ fun _ => ?_ | with_reducible refine Sim.ite ?_ ?_)

theorem sim_mrsBit (h : Alike (σ := σ) (τ := τ) R) (name : Str) (r : BS) : Sim R (mrsBit name r : Run σ BS) (mrsBit name r : Run τ BS) := by
  unfold mrsBit
  repeat (first | with_reducible exact Sim.pure _ | with_reducible exact Sim.py _ | with_reducible exact sim_isPrivileged h | with_reducible exact sim_readCore h _ | with_reducible refine Sim.bind ?_ fun _ => ?_ | with_reducible refine Sim.ite ?_ ?_)

theorem sim_mrsBasepri (h : Alike (σ := σ) (τ := τ) R) (r : BS) : Sim R (mrsBasepri r : Run σ BS) (mrsBasepri r : Run τ BS) := by
  unfold mrsBasepri
  repeat (first | with_reducible exact Sim.pure _ | with_reducible exact Sim.py _ | with_reducible exact sim_isPrivileged h | with_reducible exact sim_readCore h _ | with_reducible refine Sim.bind ?_ fun _ => ?_ | with_reducible refine Sim.ite ?_ ?_)

theorem sim_mrsControl (h : Alike (σ := σ) (τ := τ) R) (r : BS) : Sim R (mrsControl r : Run σ BS) (mrsControl r : Run τ BS) := by
  unfold mrsControl
  repeat (first | with_reducible exact Sim.pure _ | with_reducible exact Sim.py _ | with_reducible exact sim_getControl h | with_reducible refine Sim.bind ?_ fun _ => ?_ | with_reducible refine Sim.ite ?_ ?_)

theorem sim_mrsMask (h : Alike (σ := σ) (τ := τ) R) (sysm r : BS) : Sim R (mrsMask sysm r : Run σ BS) (mrsMask sysm r : Run τ BS) := by
  unfold mrsMask
  repeat (first | with_reducible exact Sim.pure _ | with_reducible exact Sim.py _ | with_reducible exact sim_mrsBit h _ _ | with_reducible exact sim_mrsBasepri h _ | with_reducible exact sim_mrsControl h _ | with_reducible refine Sim.bind ?_ fun _ => ?_ | with_reducible refine Sim.ite ?_ ?_)

theorem sim_mrsValue (h : Alike (σ := σ) (τ := τ) R) (sysm z : BS) : Sim R (mrsValue sysm z : Run σ BS) (mrsValue sysm z : Run τ BS) := by
  unfold mrsValue
  repeat (first | with_reducible exact Sim.pure _ | with_reducible exact Sim.py _ | with_reducible exact sim_mrsPsr h _ _ | with_reducible exact sim_mrsSp h _ _ | with_reducible exact sim_mrsMask h _ _ | with_reducible refine Sim.bind ?_ fun _ => ?_ | with_reducible refine Sim.ite ?_ ?_)

theorem sim_moveFromSpecial (h : Alike (σ := σ) (τ := τ) R) (i : Instr) : Sim R (moveFromSpecial i : Run σ Instr) (moveFromSpecial i : Run τ Instr) := by
  unfold moveFromSpecial
  repeat (first | with_reducible exact Sim.pure _ | with_reducible exact Sim.py _ | with_reducible exact sim_advance h _ | with_reducible exact sim_writeReg h _ _ | with_reducible exact sim_mrsValue h _ _ | with_reducible refine Sim.bind ?_ fun _ => ?_ | with_reducible refine Sim.ite ?_ ?_)

theorem sim_plain (h : Alike (σ := σ) (τ := τ) R) (i : Instr) : Sim R (plain i : Run σ Instr) (plain i : Run τ Instr) := by
  unfold plain
  repeat (first | with_reducible exact Sim.pure _ | with_reducible exact Sim.py _ | with_reducible exact sim_advance h _ | with_reducible refine Sim.bind ?_ fun _ => ?_ | with_reducible refine Sim.ite ?_ ?_)

theorem sim_eval (h : Alike (σ := σ) (τ := τ) R) (i : Instr) : Sim R (eval i : Run σ Instr) (eval i : Run τ Instr) := by
  unfold eval
  generalize i.klass = k
  cases k with
  | instruction => exact sim_plain h i
  | addSub => exact sim_addSub h i
  | bitOp => exact sim_bitOp h i
  | bitClear => exact sim_bitClear h i
  | shiftOp => exact sim_shiftOp h i
  | reverseSubtract => exact sim_reverseSubtract h i
  | multiply => exact sim_multiply h i
  | addressToRegister => exact sim_addressToRegister h i
  | extend => exact sim_extend h i
  | byteReverse => exact sim_byteReverse h i
  | move => exact sim_move h i
  | shiftedMoveNegate => exact sim_shiftedMoveNegate h i
  | compare => exact sim_compare h i
  | test => exact sim_test h i
  | branch => exact sim_branch h i
  | load => exact sim_load h i
  | store => exact sim_store h i
  | loadLiteral => exact sim_loadLiteral h i
  | push => exact sim_push h i
  | pop => exact sim_pop h i
  | loadMultiple => exact sim_loadMultiple h i
  | storeMultiple => exact sim_storeMultiple h i
  | changeProcessorState => exact sim_changeProcessorState h i
  | moveFromSpecial => exact sim_moveFromSpecial h i
  | moveToSpecial => exact sim_plain h i

theorem sim_executeAll (h : Alike (σ := σ) (τ := τ) R) : ∀ (is : List Instr), Sim R (executeAll is : Run σ Unit) (executeAll is : Run τ Unit)
  | [] => Sim.pure ()
  | i :: is => by
    rw [executeAll, executeAll]
    exact Sim.bind (sim_eval h i) fun _ => sim_executeAll h is

end Any
end Verif
