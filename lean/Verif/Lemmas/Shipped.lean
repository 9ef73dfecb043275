import Verif.Lemmas.Delegate

/-!
# The shipped delegate

Generated: one theorem for each method of the model.
-/

namespace Verif
open BS Exec

/-- The same computation. -/
def Same {α : Type} (x : Run Machine α) (y : CpuM α) : Prop := ∀ s, x s = y s

namespace Same

theorem pure {α : Type} (a : α) : Same (Pure.pure a) (Pure.pure a) := fun _ => rfl

theorem py {α : Type} (x : PyRes α) : Same (Any.py x) (Verif.py x) := fun _ => rfl

theorem bind {α β : Type} {x : Run Machine α} {y : CpuM α} {f : α → Run Machine β} {g : α → CpuM β} (h : Same x y)
    (hf : ∀ a, Same (f a) (g a)) : Same (x >>= f) (y >>= g) := by
  intro s
  show Run.bind x f s = CpuM.bind y g s
  unfold Run.bind CpuM.bind
  rw [h s]
  rcases y s with ⟨r, s'⟩
  cases r with
  | ok a => exact hf a s'
  | error e => rfl

theorem ite {α : Type} {c : Prop} [Decidable c] {x x' : Run Machine α} {y y' : CpuM α} (h : Same x y) (h' : Same x' y') :
    Same (if c then x else x') (if c then y else y') := by
  by_cases hc : c
  · rw [if_pos hc, if_pos hc]; exact h
  · rw [if_neg hc, if_neg hc]; exact h'

end Same

namespace Any

theorem same_readRegister (reg : RegArg) : Same (Any.readRegister reg) (Verif.readRegister reg) :=
  by
  intro s
  show Run.bind _ _ s = CpuM.bind _ _ s
  unfold Run.bind CpuM.bind
  simp only [Delegate.readRegister]
  rcases delegateReadRegister (registerIndex reg) s with ⟨r, s'⟩
  cases r <;> rfl

theorem same_writeRegister (reg : RegArg) (value : Num) : Same (Any.writeRegister reg value) (Verif.writeRegister reg value) :=
  fun _ => rfl

theorem same_readMemory (addr : Num) (size : Nat) : Same (Any.readMemory addr size) (Verif.readMemory addr size) :=
  Same.bind (fun _ => rfl) fun _ => Same.py _

theorem same_writeMemory (addr value : Num) (size : Nat) : Same (Any.writeMemory addr value size) (Verif.writeMemory addr value size) :=
  fun _ => rfl

theorem same_getIndexed (first last key : Int) : Same (Any.getIndexed first last key) (Verif.getIndexed first last key) := by
  unfold Any.getIndexed Verif.getIndexed
  repeat (first | with_reducible exact Same.pure _ | with_reducible exact Same.py _ | with_reducible exact same_readRegister _ | with_reducible refine Same.bind ?_ fun _ => ?_ | with_reducible refine Same.ite ?_ ?_)

theorem same_setIndexed (first last key : Int) (value : Num) : Same (Any.setIndexed first last key value) (Verif.setIndexed first last key value) := by
  unfold Any.setIndexed Verif.setIndexed
  repeat (first | with_reducible exact Same.pure _ | with_reducible exact Same.py _ | with_reducible exact same_writeRegister _ _ | with_reducible refine Same.bind ?_ fun _ => ?_ | with_reducible refine Same.ite ?_ ?_)

theorem same_getR (key : Int) : Same (Any.getR key) (Verif.getR key) := by
  unfold Any.getR Verif.getR
  repeat (first | with_reducible exact Same.pure _ | with_reducible exact Same.py _ | with_reducible exact same_getIndexed _ _ _ | with_reducible refine Same.bind ?_ fun _ => ?_ | with_reducible refine Same.ite ?_ ?_)

theorem same_setR (key : Int) (value : Num) : Same (Any.setR key value) (Verif.setR key value) := by
  unfold Any.setR Verif.setR
  repeat (first | with_reducible exact Same.pure _ | with_reducible exact Same.py _ | with_reducible exact same_setIndexed _ _ _ _ | with_reducible refine Same.bind ?_ fun _ => ?_ | with_reducible refine Same.ite ?_ ?_)

theorem same_getS (key : Int) : Same (Any.getS key) (Verif.getS key) := by
  unfold Any.getS Verif.getS
  repeat (first | with_reducible exact Same.pure _ | with_reducible exact Same.py _ | with_reducible exact same_getIndexed _ _ _ | with_reducible refine Same.bind ?_ fun _ => ?_ | with_reducible refine Same.ite ?_ ?_)

theorem same_setS (key : Int) (value : Num) : Same (Any.setS key value) (Verif.setS key value) := by
  unfold Any.setS Verif.setS
  repeat (first | with_reducible exact Same.pure _ | with_reducible exact Same.py _ | with_reducible exact same_setIndexed _ _ _ _ | with_reducible refine Same.bind ?_ fun _ => ?_ | with_reducible refine Same.ite ?_ ?_)

theorem same_getPc : Same (Any.getPc) (Verif.getPc) := by
  unfold Any.getPc Verif.getPc
  repeat (first | with_reducible exact Same.pure _ | with_reducible exact Same.py _ | with_reducible exact same_readRegister _ | with_reducible refine Same.bind ?_ fun _ => ?_ | with_reducible refine Same.ite ?_ ?_)

theorem same_setPc (value : Num) : Same (Any.setPc value) (Verif.setPc value) := by
  unfold Any.setPc Verif.setPc
  repeat (first | with_reducible exact Same.pure _ | with_reducible exact Same.py _ | with_reducible exact same_writeRegister _ _ | with_reducible refine Same.bind ?_ fun _ => ?_ | with_reducible refine Same.ite ?_ ?_)

theorem same_pcForInstr : Same (Any.pcForInstr) (Verif.pcForInstr) := by
  unfold Any.pcForInstr Verif.pcForInstr
  repeat (first | with_reducible exact Same.pure _ | with_reducible exact Same.py _ | with_reducible exact same_readRegister _ | with_reducible refine Same.bind ?_ fun _ => ?_ | with_reducible refine Same.ite ?_ ?_)

theorem same_setLr (value : Num) : Same (Any.setLr value) (Verif.setLr value) := by
  unfold Any.setLr Verif.setLr
  repeat (first | with_reducible exact Same.pure _ | with_reducible exact Same.py _ | with_reducible exact same_writeRegister _ _ | with_reducible refine Same.bind ?_ fun _ => ?_ | with_reducible refine Same.ite ?_ ?_)

theorem same_getSp : Same (Any.getSp) (Verif.getSp) := by
  unfold Any.getSp Verif.getSp
  repeat (first | with_reducible exact Same.pure _ | with_reducible exact Same.py _ | with_reducible exact same_readRegister _ | with_reducible refine Same.bind ?_ fun _ => ?_ | with_reducible refine Same.ite ?_ ?_)

theorem same_setSp (value : Num) : Same (Any.setSp value) (Verif.setSp value) := by
  unfold Any.setSp Verif.setSp
  repeat (first | with_reducible exact Same.pure _ | with_reducible exact Same.py _ | with_reducible exact same_writeRegister _ _ | with_reducible refine Same.bind ?_ fun _ => ?_ | with_reducible refine Same.ite ?_ ?_)

theorem same_getMsp : Same (Any.getMsp) (Verif.getMsp) := by
  unfold Any.getMsp Verif.getMsp
  repeat (first | with_reducible exact Same.pure _ | with_reducible exact Same.py _ | with_reducible exact same_readRegister _ | with_reducible refine Same.bind ?_ fun _ => ?_ | with_reducible refine Same.ite ?_ ?_)

theorem same_getPsp : Same (Any.getPsp) (Verif.getPsp) := by
  unfold Any.getPsp Verif.getPsp
  repeat (first | with_reducible exact Same.pure _ | with_reducible exact Same.py _ | with_reducible exact same_readRegister _ | with_reducible refine Same.bind ?_ fun _ => ?_ | with_reducible refine Same.ite ?_ ?_)

theorem same_getControl : Same (Any.getControl) (Verif.getControl) := by
  unfold Any.getControl Verif.getControl
  repeat (first | with_reducible exact Same.pure _ | with_reducible exact Same.py _ | with_reducible exact same_readRegister _ | with_reducible refine Same.bind ?_ fun _ => ?_ | with_reducible refine Same.ite ?_ ?_)

theorem same_isPrivileged : Same (Any.isPrivileged) (Verif.isPrivileged) := by
  unfold Any.isPrivileged Verif.isPrivileged
  repeat (first | with_reducible exact Same.pure _ | with_reducible exact Same.py _ | with_reducible exact same_getControl | with_reducible refine Same.bind ?_ fun _ => ?_ | with_reducible refine Same.ite ?_ ?_)

theorem same_getXpsr : Same (Any.getXpsr) (Verif.getXpsr) := by
  unfold Any.getXpsr Verif.getXpsr
  repeat (first | with_reducible exact Same.pure _ | with_reducible exact Same.py _ | with_reducible exact same_readRegister _ | with_reducible refine Same.bind ?_ fun _ => ?_ | with_reducible refine Same.ite ?_ ?_)

theorem same_setXpsr (value : Num) : Same (Any.setXpsr value) (Verif.setXpsr value) := by
  unfold Any.setXpsr Verif.setXpsr
  repeat (first | with_reducible exact Same.pure _ | with_reducible exact Same.py _ | with_reducible exact same_writeRegister _ _ | with_reducible refine Same.bind ?_ fun _ => ?_ | with_reducible refine Same.ite ?_ ?_)

theorem same_getIpsr : Same (Any.getIpsr) (Verif.getIpsr) := by
  unfold Any.getIpsr Verif.getIpsr
  repeat (first | with_reducible exact Same.pure _ | with_reducible exact Same.py _ | with_reducible exact same_getXpsr | with_reducible refine Same.bind ?_ fun _ => ?_ | with_reducible refine Same.ite ?_ ?_)

theorem same_getFlag (bit : Int) : Same (Any.getFlag bit) (Verif.getFlag bit) := by
  unfold Any.getFlag Verif.getFlag
  repeat (first | with_reducible exact Same.pure _ | with_reducible exact Same.py _ | with_reducible exact same_getXpsr | with_reducible refine Same.bind ?_ fun _ => ?_ | with_reducible refine Same.ite ?_ ?_)

theorem same_setFlag (bit : Int) (value : PyVal) : Same (Any.setFlag bit value) (Verif.setFlag bit value) := by
  unfold Any.setFlag Verif.setFlag
  repeat (first | with_reducible exact Same.pure _ | with_reducible exact Same.py _ | with_reducible exact same_getXpsr | with_reducible exact same_setXpsr _ | with_reducible refine Same.bind ?_ fun _ => ?_ | with_reducible refine Same.ite ?_ ?_)

theorem same_advance (i : Instr) : Same (Any.advance i) (Verif.Exec.advance i) := by
  unfold Any.advance Verif.Exec.advance
  repeat (first | with_reducible exact Same.pure _ | with_reducible exact Same.py _ | with_reducible exact same_getPc | with_reducible exact same_setPc _ | with_reducible refine Same.bind ?_ fun _ => ?_ | with_reducible refine Same.ite ?_ ?_)

theorem same_setFlagOpt (bit : Int) (o : Option BS) : Same (Any.setFlagOpt bit o) (Verif.Exec.setFlagOpt bit o) := by
  unfold Any.setFlagOpt Verif.Exec.setFlagOpt
  cases o <;> (repeat (first | with_reducible exact Same.pure _ | with_reducible exact Same.py _ | with_reducible exact same_setFlag _ _ | with_reducible refine Same.bind ?_ fun _ => ?_ | with_reducible refine Same.ite ?_ ?_))

theorem same_setFlags (i : Instr) (result : BS) (carry overflow : Option BS) : Same (Any.setFlags i result carry overflow) (Verif.Exec.setFlags i result carry overflow) := by
  unfold Any.setFlags Verif.Exec.setFlags
  repeat (first | with_reducible exact Same.pure _ | with_reducible exact Same.py _ | with_reducible exact same_setFlag _ _ | with_reducible exact same_setFlagOpt _ _ | with_reducible refine Same.bind ?_ fun _ => ?_ | with_reducible refine Same.ite ?_ ?_)

theorem same_readReg (r : Option Nat) : Same (Any.readReg r) (Verif.Exec.readReg r) := by
  unfold Any.readReg Verif.Exec.readReg
  repeat (first | with_reducible exact Same.pure _ | with_reducible exact Same.py _ | with_reducible exact same_getR _ | with_reducible refine Same.bind ?_ fun _ => ?_ | with_reducible refine Same.ite ?_ ?_)

theorem same_writeReg (r : Option Nat) (v : BS) : Same (Any.writeReg r v) (Verif.Exec.writeReg r v) := by
  unfold Any.writeReg Verif.Exec.writeReg
  repeat (first | with_reducible exact Same.pure _ | with_reducible exact Same.py _ | with_reducible exact same_setR _ _ | with_reducible refine Same.bind ?_ fun _ => ?_ | with_reducible refine Same.ite ?_ ?_)

theorem same_immOrReg (i : Instr) : Same (Any.immOrReg i) (Verif.Exec.immOrReg i) := by
  unfold Any.immOrReg Verif.Exec.immOrReg
  cases i.imm32 <;> (repeat (first | with_reducible exact Same.pure _ | with_reducible exact Same.py _ | with_reducible exact same_readReg _ | with_reducible refine Same.bind ?_ fun _ => ?_ | with_reducible refine Same.ite ?_ ?_))

theorem same_carryIn (useCarry sub : Bool) : Same (Any.carryIn useCarry sub) (Verif.Exec.carryIn useCarry sub) := by
  unfold Any.carryIn Verif.Exec.carryIn
  repeat (first | with_reducible exact Same.pure _ | with_reducible exact Same.py _ | with_reducible exact same_getFlag _ | with_reducible refine Same.bind ?_ fun _ => ?_ | with_reducible refine Same.ite ?_ ?_)

theorem same_addSub (i : Instr) : Same (Any.addSub i) (Verif.Exec.addSub i) := by
  unfold Any.addSub Verif.Exec.addSub
  repeat (first | with_reducible exact Same.pure _ | with_reducible exact Same.py _ | with_reducible exact same_advance _ | with_reducible exact same_setFlags _ _ _ _ | with_reducible exact same_readReg _ | with_reducible exact same_writeReg _ _ | with_reducible exact same_immOrReg _ | with_reducible exact same_carryIn _ _ | with_reducible refine Same.bind ?_ fun _ => ?_ | with_reducible refine Same.ite ?_ ?_)

theorem same_bitOp (i : Instr) : Same (Any.bitOp i) (Verif.Exec.bitOp i) := by
  unfold Any.bitOp Verif.Exec.bitOp
  repeat (first | with_reducible exact Same.pure _ | with_reducible exact Same.py _ | with_reducible exact same_advance _ | with_reducible exact same_setFlags _ _ _ _ | with_reducible exact same_readReg _ | with_reducible exact same_writeReg _ _ | with_reducible refine Same.bind ?_ fun _ => ?_ | with_reducible refine Same.ite ?_ ?_)

theorem same_bitClear (i : Instr) : Same (Any.bitClear i) (Verif.Exec.bitClear i) := by
  unfold Any.bitClear Verif.Exec.bitClear
  repeat (first | with_reducible exact Same.pure _ | with_reducible exact Same.py _ | with_reducible exact same_advance _ | with_reducible exact same_setFlags _ _ _ _ | with_reducible exact same_readReg _ | with_reducible exact same_writeReg _ _ | with_reducible refine Same.bind ?_ fun _ => ?_ | with_reducible refine Same.ite ?_ ?_)

theorem same_shiftAmount (i : Instr) : Same (Any.shiftAmount i) (Verif.Exec.shiftAmount i) := by
  unfold Any.shiftAmount Verif.Exec.shiftAmount
  cases i.shiftN <;> (repeat (first | with_reducible exact Same.pure _ | with_reducible exact Same.py _ | with_reducible exact same_readReg _ | with_reducible refine Same.bind ?_ fun _ => ?_ | with_reducible refine Same.ite ?_ ?_))

theorem same_shiftOp (i : Instr) : Same (Any.shiftOp i) (Verif.Exec.shiftOp i) := by
  unfold Any.shiftOp Verif.Exec.shiftOp
  repeat (first | with_reducible exact Same.pure _ | with_reducible exact Same.py _ | with_reducible exact same_getFlag _ | with_reducible exact same_advance _ | with_reducible exact same_setFlags _ _ _ _ | with_reducible exact same_readReg _ | with_reducible exact same_writeReg _ _ | with_reducible exact same_shiftAmount _ | with_reducible refine Same.bind ?_ fun _ => ?_ | with_reducible refine Same.ite ?_ ?_)

theorem same_reverseSubtract (i : Instr) : Same (Any.reverseSubtract i) (Verif.Exec.reverseSubtract i) := by
  unfold Any.reverseSubtract Verif.Exec.reverseSubtract
  repeat (first | with_reducible exact Same.pure _ | with_reducible exact Same.py _ | with_reducible exact same_advance _ | with_reducible exact same_setFlags _ _ _ _ | with_reducible exact same_readReg _ | with_reducible exact same_writeReg _ _ | with_reducible refine Same.bind ?_ fun _ => ?_ | with_reducible refine Same.ite ?_ ?_)

theorem same_multiply (i : Instr) : Same (Any.multiply i) (Verif.Exec.multiply i) := by
  unfold Any.multiply Verif.Exec.multiply
  repeat (first | with_reducible exact Same.pure _ | with_reducible exact Same.py _ | with_reducible exact same_advance _ | with_reducible exact same_setFlags _ _ _ _ | with_reducible exact same_readReg _ | with_reducible exact same_writeReg _ _ | with_reducible refine Same.bind ?_ fun _ => ?_ | with_reducible refine Same.ite ?_ ?_)

theorem same_addressToRegister (i : Instr) : Same (Any.addressToRegister i) (Verif.Exec.addressToRegister i) := by
  unfold Any.addressToRegister Verif.Exec.addressToRegister
  repeat (first | with_reducible exact Same.pure _ | with_reducible exact Same.py _ | with_reducible exact same_pcForInstr | with_reducible exact same_advance _ | with_reducible exact same_writeReg _ _ | with_reducible refine Same.bind ?_ fun _ => ?_ | with_reducible refine Same.ite ?_ ?_)

theorem same_extend (i : Instr) : Same (Any.extend i) (Verif.Exec.extend i) := by
  unfold Any.extend Verif.Exec.extend
  repeat (first | with_reducible exact Same.pure _ | with_reducible exact Same.py _ | with_reducible exact same_advance _ | with_reducible exact same_readReg _ | with_reducible exact same_writeReg _ _ | with_reducible refine Same.bind ?_ fun _ => ?_ | with_reducible refine Same.ite ?_ ?_)

theorem same_byteReverse (i : Instr) : Same (Any.byteReverse i) (Verif.Exec.byteReverse i) := by
  unfold Any.byteReverse Verif.Exec.byteReverse
  repeat (first | with_reducible exact Same.pure _ | with_reducible exact Same.py _ | with_reducible exact same_advance _ | with_reducible exact same_readReg _ | with_reducible exact same_writeReg _ _ | with_reducible refine Same.bind ?_ fun _ => ?_ | with_reducible refine Same.ite ?_ ?_)

theorem same_moveOperand (i : Instr) : Same (Any.moveOperand i) (Verif.Exec.moveOperand i) := by
  unfold Any.moveOperand Verif.Exec.moveOperand
  cases i.m <;> (repeat (first | with_reducible exact Same.pure _ | with_reducible exact Same.py _ | with_reducible exact same_getR _ | with_reducible refine Same.bind ?_ fun _ => ?_ | with_reducible refine Same.ite ?_ ?_))

theorem same_move (i : Instr) : Same (Any.move i) (Verif.Exec.move i) := by
  unfold Any.move Verif.Exec.move
  repeat (first | with_reducible exact Same.pure _ | with_reducible exact Same.py _ | with_reducible exact same_getFlag _ | with_reducible exact same_advance _ | with_reducible exact same_setFlags _ _ _ _ | with_reducible exact same_writeReg _ _ | with_reducible exact same_moveOperand _ | with_reducible refine Same.bind ?_ fun _ => ?_ | with_reducible refine Same.ite ?_ ?_)

theorem same_shiftedMoveNegate (i : Instr) : Same (Any.shiftedMoveNegate i) (Verif.Exec.shiftedMoveNegate i) := by
  unfold Any.shiftedMoveNegate Verif.Exec.shiftedMoveNegate
  repeat (first | with_reducible exact Same.pure _ | with_reducible exact Same.py _ | with_reducible refine Same.bind ?_ fun _ => ?_ | with_reducible refine Same.ite ?_ ?_)

theorem same_cmpOperand (i : Instr) : Same (Any.cmpOperand i) (Verif.Exec.cmpOperand i) := by
  unfold Any.cmpOperand Verif.Exec.cmpOperand
  cases i.m <;> (repeat (first | with_reducible exact Same.pure _ | with_reducible exact Same.py _ | with_reducible exact same_getR _ | with_reducible refine Same.bind ?_ fun _ => ?_ | with_reducible refine Same.ite ?_ ?_))

theorem same_compare (i : Instr) : Same (Any.compare i) (Verif.Exec.compare i) := by
  unfold Any.compare Verif.Exec.compare
  repeat (first | with_reducible exact Same.pure _ | with_reducible exact Same.py _ | with_reducible exact same_setFlag _ _ | with_reducible exact same_advance _ | with_reducible exact same_readReg _ | with_reducible exact same_cmpOperand _ | with_reducible refine Same.bind ?_ fun _ => ?_ | with_reducible refine Same.ite ?_ ?_)

theorem same_test (i : Instr) : Same (Any.test i) (Verif.Exec.test i) := by
  unfold Any.test Verif.Exec.test
  repeat (first | with_reducible exact Same.pure _ | with_reducible exact Same.py _ | with_reducible exact same_getFlag _ | with_reducible exact same_setFlag _ _ | with_reducible exact same_advance _ | with_reducible exact same_readReg _ | with_reducible refine Same.bind ?_ fun _ => ?_ | with_reducible refine Same.ite ?_ ?_)

theorem same_flagIs (bit : Int) (k : Int) : Same (Any.flagIs bit k) (Verif.Exec.flagIs bit k) := by
  unfold Any.flagIs Verif.Exec.flagIs
  repeat (first | with_reducible exact Same.pure _ | with_reducible exact Same.py _ | with_reducible exact same_getFlag _ | with_reducible refine Same.bind ?_ fun _ => ?_ | with_reducible refine Same.ite ?_ ?_)

theorem same_flagsEqual : Same (Any.flagsEqual) (Verif.Exec.flagsEqual) := by
  unfold Any.flagsEqual Verif.Exec.flagsEqual
  repeat (first | with_reducible exact Same.pure _ | with_reducible exact Same.py _ | with_reducible exact same_getFlag _ | with_reducible refine Same.bind ?_ fun _ => ?_ | with_reducible refine Same.ite ?_ ?_)

theorem same_flagsDiffer : Same (Any.flagsDiffer) (Verif.Exec.flagsDiffer) := by
  unfold Any.flagsDiffer Verif.Exec.flagsDiffer
  repeat (first | with_reducible exact Same.pure _ | with_reducible exact Same.py _ | with_reducible exact same_getFlag _ | with_reducible refine Same.bind ?_ fun _ => ?_ | with_reducible refine Same.ite ?_ ?_)

theorem same_condHolds (k : Nat) : Same (Any.condHolds k) (Verif.Exec.condHolds k) := by
  unfold Any.condHolds Verif.Exec.condHolds
  rcases k with _ | _ | _ | _ | _ | _ | _ | _ | _ | _ | _ | _ | _ | _ | k
  · exact same_flagIs _ _
  · exact same_flagIs _ _
  · exact same_flagIs _ _
  · exact same_flagIs _ _
  · exact same_flagIs _ _
  · exact same_flagIs _ _
  · exact same_flagIs _ _
  · exact same_flagIs _ _
  · exact Same.bind (same_flagIs _ _) fun _ => Same.ite (same_flagIs _ _) (Same.pure _)
  · exact Same.bind (same_flagIs _ _) fun _ => Same.ite (Same.pure _) (same_flagIs _ _)
  · exact same_flagsEqual
  · exact same_flagsDiffer
  · exact Same.bind (same_flagIs _ _) fun _ => Same.ite same_flagsEqual (Same.pure _)
  · exact Same.bind (same_flagIs _ _) fun _ => Same.ite (Same.pure _) same_flagsDiffer
  · exact Same.pure _

theorem same_linkIf (link : Bool) (next : BS) : Same (Any.linkIf link next) (Verif.Exec.linkIf link next) := by
  unfold Any.linkIf Verif.Exec.linkIf
  repeat (first | with_reducible exact Same.pure _ | with_reducible exact Same.py _ | with_reducible exact same_setLr _ | with_reducible refine Same.bind ?_ fun _ => ?_ | with_reducible refine Same.ite ?_ ?_)

theorem same_jump (i : Instr) (next : BS) : Same (Any.jump i next) (Verif.Exec.jump i next) := by
  unfold Any.jump Verif.Exec.jump
  cases i.m <;> (repeat (first | with_reducible exact Same.pure _ | with_reducible exact Same.py _ | with_reducible exact same_getR _ | with_reducible exact same_setPc _ | with_reducible refine Same.bind ?_ fun _ => ?_ | with_reducible refine Same.ite ?_ ?_))

theorem same_branch (i : Instr) : Same (Any.branch i) (Verif.Exec.branch i) := by
  unfold Any.branch Verif.Exec.branch
  repeat (first | with_reducible exact Same.pure _ | with_reducible exact Same.py _ | with_reducible exact same_pcForInstr | with_reducible exact same_advance _ | with_reducible exact same_condHolds _ | with_reducible exact same_linkIf _ _ | with_reducible exact same_jump _ _ | with_reducible refine Same.bind ?_ fun _ => ?_ | with_reducible refine Same.ite ?_ ?_)

theorem same_memOffset (i : Instr) : Same (Any.memOffset i) (Verif.Exec.memOffset i) := by
  unfold Any.memOffset Verif.Exec.memOffset
  cases i.imm32 <;> (repeat (first | with_reducible exact Same.pure _ | with_reducible exact Same.py _ | with_reducible exact same_getFlag _ | with_reducible exact same_readReg _ | with_reducible refine Same.bind ?_ fun _ => ?_ | with_reducible refine Same.ite ?_ ?_))

theorem same_offsetAddr (i : Instr) (off : BS) : Same (Any.offsetAddr i off) (Verif.Exec.offsetAddr i off) := by
  unfold Any.offsetAddr Verif.Exec.offsetAddr
  repeat (first | with_reducible exact Same.pure _ | with_reducible exact Same.py _ | with_reducible exact same_readReg _ | with_reducible refine Same.bind ?_ fun _ => ?_ | with_reducible refine Same.ite ?_ ?_)

theorem same_accessAddr (i : Instr) (oa : BS) : Same (Any.accessAddr i oa) (Verif.Exec.accessAddr i oa) := by
  unfold Any.accessAddr Verif.Exec.accessAddr
  repeat (first | with_reducible exact Same.pure _ | with_reducible exact Same.py _ | with_reducible exact same_readReg _ | with_reducible refine Same.bind ?_ fun _ => ?_ | with_reducible refine Same.ite ?_ ?_)

theorem same_writeIf (b : Bool) (r : Option Nat) (v : BS) : Same (Any.writeIf b r v) (Verif.Exec.writeIf b r v) := by
  unfold Any.writeIf Verif.Exec.writeIf
  repeat (first | with_reducible exact Same.pure _ | with_reducible exact Same.py _ | with_reducible exact same_writeReg _ _ | with_reducible refine Same.bind ?_ fun _ => ?_ | with_reducible refine Same.ite ?_ ?_)

theorem same_load (i : Instr) : Same (Any.load i) (Verif.Exec.load i) := by
  unfold Any.load Verif.Exec.load
  repeat (first | with_reducible exact Same.pure _ | with_reducible exact Same.py _ | with_reducible exact same_readMemory _ _ | with_reducible exact same_advance _ | with_reducible exact same_writeReg _ _ | with_reducible exact same_memOffset _ | with_reducible exact same_offsetAddr _ _ | with_reducible exact same_accessAddr _ _ | with_reducible exact same_writeIf _ _ _ | with_reducible refine Same.bind ?_ fun _ => ?_ | with_reducible refine Same.ite ?_ ?_)

theorem same_store (i : Instr) : Same (Any.store i) (Verif.Exec.store i) := by
  unfold Any.store Verif.Exec.store
  repeat (first | with_reducible exact Same.pure _ | with_reducible exact Same.py _ | with_reducible exact same_writeMemory _ _ _ | with_reducible exact same_advance _ | with_reducible exact same_readReg _ | with_reducible exact same_memOffset _ | with_reducible exact same_offsetAddr _ _ | with_reducible exact same_accessAddr _ _ | with_reducible refine Same.bind ?_ fun _ => ?_ | with_reducible refine Same.ite ?_ ?_)

theorem same_loadLiteral (i : Instr) : Same (Any.loadLiteral i) (Verif.Exec.loadLiteral i) := by
  unfold Any.loadLiteral Verif.Exec.loadLiteral
  repeat (first | with_reducible exact Same.pure _ | with_reducible exact Same.py _ | with_reducible exact same_readMemory _ _ | with_reducible exact same_pcForInstr | with_reducible exact same_advance _ | with_reducible exact same_writeReg _ _ | with_reducible refine Same.bind ?_ fun _ => ?_ | with_reducible refine Same.ite ?_ ?_)

theorem same_storeLoop (regs : BS) : ∀ (ks : List Nat) (a : BS), Same (Any.storeLoop regs ks a) (Verif.Exec.storeLoop regs ks a)
  | [], a => Same.pure a
  | k :: ks, a => by
    rw [Any.storeLoop, Verif.Exec.storeLoop]
    have ih := fun a => same_storeLoop regs ks a
    repeat (first | exact ih _ | with_reducible exact Same.pure _ | with_reducible exact Same.py _ | with_reducible exact same_writeMemory _ _ _ | with_reducible exact same_getR _ | with_reducible refine Same.bind ?_ fun _ => ?_ | with_reducible refine Same.ite ?_ ?_)

theorem same_loadLoop (regs : BS) : ∀ (ks : List Nat) (a : BS), Same (Any.loadLoop regs ks a) (Verif.Exec.loadLoop regs ks a)
  | [], a => Same.pure a
  | k :: ks, a => by
    rw [Any.loadLoop, Verif.Exec.loadLoop]
    have ih := fun a => same_loadLoop regs ks a
    repeat (first | exact ih _ | with_reducible exact Same.pure _ | with_reducible exact Same.py _ | with_reducible exact same_readMemory _ _ | with_reducible exact same_setR _ _ | with_reducible refine Same.bind ?_ fun _ => ?_ | with_reducible refine Same.ite ?_ ?_)

theorem same_push (i : Instr) : Same (Any.push i) (Verif.Exec.push i) := by
  unfold Any.push Verif.Exec.push
  repeat (first | with_reducible exact Same.pure _ | with_reducible exact Same.py _ | with_reducible exact same_getSp | with_reducible exact same_setSp _ | with_reducible exact same_advance _ | with_reducible exact same_storeLoop _ _ _ | with_reducible refine Same.bind ?_ fun _ => ?_ | with_reducible refine Same.ite ?_ ?_)

theorem same_loadPc (i : Instr) (regs a : BS) : Same (Any.loadPc i regs a) (Verif.Exec.loadPc i regs a) := by
  unfold Any.loadPc Verif.Exec.loadPc
  repeat (first | with_reducible exact Same.pure _ | with_reducible exact Same.py _ | with_reducible exact same_readMemory _ _ | with_reducible exact same_setPc _ | with_reducible exact same_advance _ | with_reducible refine Same.bind ?_ fun _ => ?_ | with_reducible refine Same.ite ?_ ?_)

theorem same_pop (i : Instr) : Same (Any.pop i) (Verif.Exec.pop i) := by
  unfold Any.pop Verif.Exec.pop
  repeat (first | with_reducible exact Same.pure _ | with_reducible exact Same.py _ | with_reducible exact same_getSp | with_reducible exact same_setSp _ | with_reducible exact same_loadLoop _ _ _ | with_reducible exact same_loadPc _ _ _ | with_reducible refine Same.bind ?_ fun _ => ?_ | with_reducible refine Same.ite ?_ ?_)

theorem same_ldmWriteBack (i : Instr) (regs : BS) (wb : Bool) : Same (Any.ldmWriteBack i regs wb) (Verif.Exec.ldmWriteBack i regs wb) := by
  unfold Any.ldmWriteBack Verif.Exec.ldmWriteBack
  repeat (first | with_reducible exact Same.pure _ | with_reducible exact Same.py _ | with_reducible exact same_getR _ | with_reducible exact same_setR _ _ | with_reducible refine Same.bind ?_ fun _ => ?_ | with_reducible refine Same.ite ?_ ?_)

theorem same_loadMultiple (i : Instr) : Same (Any.loadMultiple i) (Verif.Exec.loadMultiple i) := by
  unfold Any.loadMultiple Verif.Exec.loadMultiple
  repeat (first | with_reducible exact Same.pure _ | with_reducible exact Same.py _ | with_reducible exact same_readReg _ | with_reducible exact same_loadLoop _ _ _ | with_reducible exact same_loadPc _ _ _ | with_reducible exact same_ldmWriteBack _ _ _ | with_reducible refine Same.bind ?_ fun _ => ?_ | with_reducible refine Same.ite ?_ ?_)

theorem same_storeMultiple (i : Instr) : Same (Any.storeMultiple i) (Verif.Exec.storeMultiple i) := by
  unfold Any.storeMultiple Verif.Exec.storeMultiple
  repeat (first | with_reducible exact Same.pure _ | with_reducible exact Same.py _ | with_reducible exact same_advance _ | with_reducible exact same_readReg _ | with_reducible exact same_writeIf _ _ _ | with_reducible exact same_storeLoop _ _ _ | with_reducible refine Same.bind ?_ fun _ => ?_ | with_reducible refine Same.ite ?_ ?_)

theorem same_writeCore (name : Str) (v : Int) : Same (Any.writeCore name v) (Verif.Exec.writeCore name v) := by
  unfold Any.writeCore Verif.Exec.writeCore
  cases coreRegister.lookup name <;> (repeat (first | with_reducible exact Same.pure _ | with_reducible exact Same.py _ | with_reducible exact same_writeRegister _ _ | with_reducible refine Same.bind ?_ fun _ => ?_ | with_reducible refine Same.ite ?_ ?_))

theorem same_readCore (name : Str) : Same (Any.readCore name) (Verif.Exec.readCore name) := by
  unfold Any.readCore Verif.Exec.readCore
  cases coreRegister.lookup name <;> (repeat (first | with_reducible exact Same.pure _ | with_reducible exact Same.py _ | with_reducible exact same_readRegister _ | with_reducible refine Same.bind ?_ fun _ => ?_ | with_reducible refine Same.ite ?_ ?_))

theorem same_writeCoreIf (b : Bool) (name : Str) (v : Int) : Same (Any.writeCoreIf b name v) (Verif.Exec.writeCoreIf b name v) := by
  unfold Any.writeCoreIf Verif.Exec.writeCoreIf
  repeat (first | with_reducible exact Same.pure _ | with_reducible exact Same.py _ | with_reducible exact same_writeCore _ _ | with_reducible refine Same.bind ?_ fun _ => ?_ | with_reducible refine Same.ite ?_ ?_)

theorem same_changeProcessorState (i : Instr) : Same (Any.changeProcessorState i) (Verif.Exec.changeProcessorState i) := by
  unfold Any.changeProcessorState Verif.Exec.changeProcessorState
  repeat (first | with_reducible exact Same.pure _ | with_reducible exact Same.py _ | with_reducible exact same_advance _ | with_reducible exact same_writeCoreIf _ _ _ | with_reducible refine Same.bind ?_ fun _ => ?_ | with_reducible refine Same.ite ?_ ?_)

theorem same_mrsIpsr (r : BS) (wanted : Bool) : Same (Any.mrsIpsr r wanted) (Verif.Exec.mrsIpsr r wanted) := by
  unfold Any.mrsIpsr Verif.Exec.mrsIpsr
  repeat (first | with_reducible exact Same.pure _ | with_reducible exact Same.py _ | with_reducible exact same_getIpsr | with_reducible refine Same.bind ?_ fun _ => ?_ | with_reducible refine Same.ite ?_ ?_)

theorem same_mrsPsr (sysm r : BS) : Same (Any.mrsPsr sysm r) (Verif.Exec.mrsPsr sysm r) := by
  unfold Any.mrsPsr Verif.Exec.mrsPsr
  repeat (first | with_reducible exact Same.pure _ | with_reducible exact Same.py _ | with_reducible exact same_mrsIpsr _ _ | with_reducible refine Same.bind ?_ fun _ => ?_ | with_reducible refine Same.ite ?_ ?_)

theorem same_mrsSp (sysm r : BS) : Same (Any.mrsSp sysm r) (Verif.Exec.mrsSp sysm r) := by
  unfold Any.mrsSp Verif.Exec.mrsSp
  repeat (first | with_reducible exact Same.pure _ | with_reducible exact Same.py _ | with_reducible exact same_getMsp | with_reducible exact same_getPsp | with_reducible exact same_isPrivileged | with_reducible refine Same.bind ?_ fun _ => ?_ | with_reducible refine Same.ite ?_ ?_)

theorem same_mrsBit (name : Str) (r : BS) : Same (Any.mrsBit name r) (Verif.Exec.mrsBit name r) := by
  unfold Any.mrsBit Verif.Exec.mrsBit
  repeat (first | with_reducible exact Same.pure _ | with_reducible exact Same.py _ | with_reducible exact same_isPrivileged | with_reducible exact same_readCore _ | with_reducible refine Same.bind ?_ fun _ => ?_ | with_reducible refine Same.ite ?_ ?_)

theorem same_mrsBasepri (r : BS) : Same (Any.mrsBasepri r) (Verif.Exec.mrsBasepri r) := by
  unfold Any.mrsBasepri Verif.Exec.mrsBasepri
  repeat (first | with_reducible exact Same.pure _ | with_reducible exact Same.py _ | with_reducible exact same_isPrivileged | with_reducible exact same_readCore _ | with_reducible refine Same.bind ?_ fun _ => ?_ | with_reducible refine Same.ite ?_ ?_)

theorem same_mrsControl (r : BS) : Same (Any.mrsControl r) (Verif.Exec.mrsControl r) := by
  unfold Any.mrsControl Verif.Exec.mrsControl
  repeat (first | with_reducible exact Same.pure _ | with_reducible exact Same.py _ | with_reducible exact same_getControl | with_reducible refine Same.bind ?_ fun _ => ?_ | with_reducible refine Same.ite ?_ ?_)

theorem same_mrsMask (sysm r : BS) : Same (Any.mrsMask sysm r) (Verif.Exec.mrsMask sysm r) := by
  unfold Any.mrsMask Verif.Exec.mrsMask
  repeat (first | with_reducible exact Same.pure _ | with_reducible exact Same.py _ | with_reducible exact same_mrsBit _ _ | with_reducible exact same_mrsBasepri _ | with_reducible exact same_mrsControl _ | with_reducible refine Same.bind ?_ fun _ => ?_ | with_reducible refine Same.ite ?_ ?_)

theorem same_mrsValue (sysm z : BS) : Same (Any.mrsValue sysm z) (Verif.Exec.mrsValue sysm z) := by
  unfold Any.mrsValue Verif.Exec.mrsValue
  repeat (first | with_reducible exact Same.pure _ | with_reducible exact Same.py _ | with_reducible exact same_mrsPsr _ _ | with_reducible exact same_mrsSp _ _ | with_reducible exact same_mrsMask _ _ | with_reducible refine Same.bind ?_ fun _ => ?_ | with_reducible refine Same.ite ?_ ?_)

theorem same_moveFromSpecial (i : Instr) : Same (Any.moveFromSpecial i) (Verif.Exec.moveFromSpecial i) := by
  unfold Any.moveFromSpecial Verif.Exec.moveFromSpecial
  repeat (first | with_reducible exact Same.pure _ | with_reducible exact Same.py _ | with_reducible exact same_advance _ | with_reducible exact same_writeReg _ _ | with_reducible exact same_mrsValue _ _ | with_reducible refine Same.bind ?_ fun _ => ?_ | with_reducible refine Same.ite ?_ ?_)

theorem same_plain (i : Instr) : Same (Any.plain i) (Verif.Exec.plain i) := by
  unfold Any.plain Verif.Exec.plain
  repeat (first | with_reducible exact Same.pure _ | with_reducible exact Same.py _ | with_reducible exact same_advance _ | with_reducible refine Same.bind ?_ fun _ => ?_ | with_reducible refine Same.ite ?_ ?_)

theorem same_eval (i : Instr) : Same (Any.eval i) (Instr.eval i) := by
  unfold Any.eval Instr.eval
  generalize i.klass = k
  cases k with
  | instruction => exact same_plain i
  | addSub => exact same_addSub i
  | bitOp => exact same_bitOp i
  | bitClear => exact same_bitClear i
  | shiftOp => exact same_shiftOp i
  | reverseSubtract => exact same_reverseSubtract i
  | multiply => exact same_multiply i
  | addressToRegister => exact same_addressToRegister i
  | extend => exact same_extend i
  | byteReverse => exact same_byteReverse i
  | move => exact same_move i
  | shiftedMoveNegate => exact same_shiftedMoveNegate i
  | compare => exact same_compare i
  | test => exact same_test i
  | branch => exact same_branch i
  | load => exact same_load i
  | store => exact same_store i
  | loadLiteral => exact same_loadLiteral i
  | push => exact same_push i
  | pop => exact same_pop i
  | loadMultiple => exact same_loadMultiple i
  | storeMultiple => exact same_storeMultiple i
  | changeProcessorState => exact same_changeProcessorState i
  | moveFromSpecial => exact same_moveFromSpecial i
  | moveToSpecial => exact same_plain i

theorem same_executeAll : ∀ (is : List Instr), Same (Any.executeAll is) (Verif.executeAll is)
  | [] => Same.pure ()
  | i :: is => by
    rw [Any.executeAll, Verif.executeAll]
    exact Same.bind (same_eval i) fun _ => same_executeAll is

end Any
end Verif
