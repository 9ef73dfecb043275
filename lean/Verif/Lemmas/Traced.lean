import Verif.Lemmas.Shipped

/-!
# A delegate that notes the accesses to memory

Generated: one theorem for each method of the model that does not access memory.
-/

namespace Verif
open BS Exec

/-- An access to memory. -/
inductive Access where
  | read (addr : Int) (size : Nat)
  | write (addr value : Int) (size : Nat)
deriving DecidableEq, Repr

/-- A delegate together with the accesses to memory made through it. -/
structure Traced (σ : Type) where
  state : σ
  log : List Access

/-- Forward a call. -/
def Traced.pass {σ α : Type} (x : Run σ α) : Run (Traced σ) α := fun s => ((x s.state).1, ⟨(x s.state).2, s.log⟩)

/-- Note an access and forward the call. -/
def Traced.note {σ α : Type} (k : Access) (x : Run σ α) : Run (Traced σ) α := fun s => ((x s.state).1, ⟨(x s.state).2, s.log ++ [k]⟩)

instance {σ : Type} [Delegate σ] : Delegate (Traced σ) where
  readRegister k := Traced.pass (Delegate.readRegister k)
  writeRegister k v := Traced.pass (Delegate.writeRegister k v)
  readMemory a n := Traced.note (.read a n) (Delegate.readMemory a n)
  writeMemory a v n := Traced.note (.write a v n) (Delegate.writeMemory a v n)

/-- On the traced machine `x` does what `y` does on the machine, without an access to memory. -/
def Silent {α : Type} (x : Run (Traced Machine) α) (y : CpuM α) : Prop := ∀ s, x s = ((y s.state).1, ⟨(y s.state).2, s.log⟩)

namespace Silent

theorem pure {α : Type} (a : α) : Silent (Pure.pure a) (Pure.pure a) := fun _ => rfl

theorem py {α : Type} (x : PyRes α) : Silent (Any.py x) (Verif.py x) := fun _ => rfl

theorem bind {α β : Type} {x : Run (Traced Machine) α} {y : CpuM α} {f : α → Run (Traced Machine) β} {g : α → CpuM β} (h : Silent x y)
    (hf : ∀ a, Silent (f a) (g a)) : Silent (x >>= f) (y >>= g) := by
  intro s
  show Run.bind x f s = ((CpuM.bind y g s.state).1, ⟨(CpuM.bind y g s.state).2, s.log⟩)
  unfold Run.bind CpuM.bind
  rw [h s]
  rcases y s.state with ⟨r, s'⟩
  cases r with
  | ok a => exact hf a ⟨s', s.log⟩
  | error e => rfl

theorem ite {α : Type} {c : Prop} [Decidable c] {x x' : Run (Traced Machine) α} {y y' : CpuM α} (h : Silent x y) (h' : Silent x' y') :
    Silent (if c then x else x') (if c then y else y') := by
  by_cases hc : c
  · rw [if_pos hc, if_pos hc]; exact h
  · rw [if_neg hc, if_neg hc]; exact h'

end Silent

namespace Any

theorem silent_readRegister (reg : RegArg) : Silent (Any.readRegister reg) (Verif.readRegister reg) :=
  by
  intro s
  show Run.bind _ _ s = ((CpuM.bind _ _ s.state).1, ⟨(CpuM.bind _ _ s.state).2, s.log⟩)
  unfold Run.bind CpuM.bind
  simp only [Delegate.readRegister, Traced.pass]
  rcases delegateReadRegister (registerIndex reg) s.state with ⟨r, s'⟩
  cases r <;> rfl

theorem silent_writeRegister (reg : RegArg) (value : Num) : Silent (Any.writeRegister reg value) (Verif.writeRegister reg value) :=
  fun _ => rfl

theorem silent_getIndexed (first last key : Int) : Silent (Any.getIndexed first last key) (Verif.getIndexed first last key) := by
  unfold Any.getIndexed Verif.getIndexed
  repeat (first | with_reducible exact Silent.pure _ | with_reducible exact Silent.py _ | with_reducible exact silent_readRegister _ | with_reducible refine Silent.bind ?_ fun _ => ?_ | with_reducible refine Silent.ite ?_ ?_)

theorem silent_setIndexed (first last key : Int) (value : Num) : Silent (Any.setIndexed first last key value) (Verif.setIndexed first last key value) := by
  unfold Any.setIndexed Verif.setIndexed
  repeat (first | with_reducible exact Silent.pure _ | with_reducible exact Silent.py _ | with_reducible exact silent_writeRegister _ _ | with_reducible refine Silent.bind ?_ fun _ => ?_ | with_reducible refine Silent.ite ?_ ?_)

theorem silent_getR (key : Int) : Silent (Any.getR key) (Verif.getR key) := by
  unfold Any.getR Verif.getR
  repeat (first | with_reducible exact Silent.pure _ | with_reducible exact Silent.py _ | with_reducible exact silent_getIndexed _ _ _ | with_reducible refine Silent.bind ?_ fun _ => ?_ | with_reducible refine Silent.ite ?_ ?_)

theorem silent_setR (key : Int) (value : Num) : Silent (Any.setR key value) (Verif.setR key value) := by
  unfold Any.setR Verif.setR
  repeat (first | with_reducible exact Silent.pure _ | with_reducible exact Silent.py _ | with_reducible exact silent_setIndexed _ _ _ _ | with_reducible refine Silent.bind ?_ fun _ => ?_ | with_reducible refine Silent.ite ?_ ?_)

theorem silent_getS (key : Int) : Silent (Any.getS key) (Verif.getS key) := by
  unfold Any.getS Verif.getS
  repeat (first | with_reducible exact Silent.pure _ | with_reducible exact Silent.py _ | with_reducible exact silent_getIndexed _ _ _ | with_reducible refine Silent.bind ?_ fun _ => ?_ | with_reducible refine Silent.ite ?_ ?_)

theorem silent_setS (key : Int) (value : Num) : Silent (Any.setS key value) (Verif.setS key value) := by
  unfold Any.setS Verif.setS
  repeat (first | with_reducible exact Silent.pure _ | with_reducible exact Silent.py _ | with_reducible exact silent_setIndexed _ _ _ _ | with_reducible refine Silent.bind ?_ fun _ => ?_ | with_reducible refine Silent.ite ?_ ?_)

theorem silent_getPc : Silent (Any.getPc) (Verif.getPc) := by
  unfold Any.getPc Verif.getPc
  repeat (first | with_reducible exact Silent.pure _ | with_reducible exact Silent.py _ | with_reducible exact silent_readRegister _ | with_reducible refine Silent.bind ?_ fun _ => ?_ | with_reducible refine Silent.ite ?_ ?_)

theorem silent_setPc (value : Num) : Silent (Any.setPc value) (Verif.setPc value) := by
  unfold Any.setPc Verif.setPc
  repeat (first | with_reducible exact Silent.pure _ | with_reducible exact Silent.py _ | with_reducible exact silent_writeRegister _ _ | with_reducible refine Silent.bind ?_ fun _ => ?_ | with_reducible refine Silent.ite ?_ ?_)

theorem silent_pcForInstr : Silent (Any.pcForInstr) (Verif.pcForInstr) := by
  unfold Any.pcForInstr Verif.pcForInstr
  repeat (first | with_reducible exact Silent.pure _ | with_reducible exact Silent.py _ | with_reducible exact silent_readRegister _ | with_reducible refine Silent.bind ?_ fun _ => ?_ | with_reducible refine Silent.ite ?_ ?_)

theorem silent_setLr (value : Num) : Silent (Any.setLr value) (Verif.setLr value) := by
  unfold Any.setLr Verif.setLr
  repeat (first | with_reducible exact Silent.pure _ | with_reducible exact Silent.py _ | with_reducible exact silent_writeRegister _ _ | with_reducible refine Silent.bind ?_ fun _ => ?_ | with_reducible refine Silent.ite ?_ ?_)

theorem silent_getSp : Silent (Any.getSp) (Verif.getSp) := by
  unfold Any.getSp Verif.getSp
  repeat (first | with_reducible exact Silent.pure _ | with_reducible exact Silent.py _ | with_reducible exact silent_readRegister _ | with_reducible refine Silent.bind ?_ fun _ => ?_ | with_reducible refine Silent.ite ?_ ?_)

theorem silent_setSp (value : Num) : Silent (Any.setSp value) (Verif.setSp value) := by
  unfold Any.setSp Verif.setSp
  repeat (first | with_reducible exact Silent.pure _ | with_reducible exact Silent.py _ | with_reducible exact silent_writeRegister _ _ | with_reducible refine Silent.bind ?_ fun _ => ?_ | with_reducible refine Silent.ite ?_ ?_)

theorem silent_getMsp : Silent (Any.getMsp) (Verif.getMsp) := by
  unfold Any.getMsp Verif.getMsp
  repeat (first | with_reducible exact Silent.pure _ | with_reducible exact Silent.py _ | with_reducible exact silent_readRegister _ | with_reducible refine Silent.bind ?_ fun _ => ?_ | with_reducible refine Silent.ite ?_ ?_)

theorem silent_getPsp : Silent (Any.getPsp) (Verif.getPsp) := by
  unfold Any.getPsp Verif.getPsp
  repeat (first | with_reducible exact Silent.pure _ | with_reducible exact Silent.py _ | with_reducible exact silent_readRegister _ | with_reducible refine Silent.bind ?_ fun _ => ?_ | with_reducible refine Silent.ite ?_ ?_)

theorem silent_getControl : Silent (Any.getControl) (Verif.getControl) := by
  unfold Any.getControl Verif.getControl
  repeat (first | with_reducible exact Silent.pure _ | with_reducible exact Silent.py _ | with_reducible exact silent_readRegister _ | with_reducible refine Silent.bind ?_ fun _ => ?_ | with_reducible refine Silent.ite ?_ ?_)

theorem silent_isPrivileged : Silent (Any.isPrivileged) (Verif.isPrivileged) := by
  unfold Any.isPrivileged Verif.isPrivileged
  repeat (first | with_reducible exact Silent.pure _ | with_reducible exact Silent.py _ | with_reducible exact silent_getControl | with_reducible refine Silent.bind ?_ fun _ => ?_ | with_reducible refine Silent.ite ?_ ?_)

theorem silent_getXpsr : Silent (Any.getXpsr) (Verif.getXpsr) := by
  unfold Any.getXpsr Verif.getXpsr
  repeat (first | with_reducible exact Silent.pure _ | with_reducible exact Silent.py _ | with_reducible exact silent_readRegister _ | with_reducible refine Silent.bind ?_ fun _ => ?_ | with_reducible refine Silent.ite ?_ ?_)

theorem silent_setXpsr (value : Num) : Silent (Any.setXpsr value) (Verif.setXpsr value) := by
  unfold Any.setXpsr Verif.setXpsr
  repeat (first | with_reducible exact Silent.pure _ | with_reducible exact Silent.py _ | with_reducible exact silent_writeRegister _ _ | with_reducible refine Silent.bind ?_ fun _ => ?_ | with_reducible refine Silent.ite ?_ ?_)

theorem silent_getIpsr : Silent (Any.getIpsr) (Verif.getIpsr) := by
  unfold Any.getIpsr Verif.getIpsr
  repeat (first | with_reducible exact Silent.pure _ | with_reducible exact Silent.py _ | with_reducible exact silent_getXpsr | with_reducible refine Silent.bind ?_ fun _ => ?_ | with_reducible refine Silent.ite ?_ ?_)

theorem silent_getFlag (bit : Int) : Silent (Any.getFlag bit) (Verif.getFlag bit) := by
  unfold Any.getFlag Verif.getFlag
  repeat (first | with_reducible exact Silent.pure _ | with_reducible exact Silent.py _ | with_reducible exact silent_getXpsr | with_reducible refine Silent.bind ?_ fun _ => ?_ | with_reducible refine Silent.ite ?_ ?_)

theorem silent_setFlag (bit : Int) (value : PyVal) : Silent (Any.setFlag bit value) (Verif.setFlag bit value) := by
  unfold Any.setFlag Verif.setFlag
  repeat (first | with_reducible exact Silent.pure _ | with_reducible exact Silent.py _ | with_reducible exact silent_getXpsr | with_reducible exact silent_setXpsr _ | with_reducible refine Silent.bind ?_ fun _ => ?_ | with_reducible refine Silent.ite ?_ ?_)

theorem silent_advance (i : Instr) : Silent (Any.advance i) (Verif.Exec.advance i) := by
  unfold Any.advance Verif.Exec.advance
  repeat (first | with_reducible exact Silent.pure _ | with_reducible exact Silent.py _ | with_reducible exact silent_getPc | with_reducible exact silent_setPc _ | with_reducible refine Silent.bind ?_ fun _ => ?_ | with_reducible refine Silent.ite ?_ ?_)

theorem silent_setFlagOpt (bit : Int) (o : Option BS) : Silent (Any.setFlagOpt bit o) (Verif.Exec.setFlagOpt bit o) := by
  unfold Any.setFlagOpt Verif.Exec.setFlagOpt
  cases o <;> (repeat (first | with_reducible exact Silent.pure _ | with_reducible exact Silent.py _ | with_reducible exact silent_setFlag _ _ | with_reducible refine Silent.bind ?_ fun _ => ?_ | with_reducible refine Silent.ite ?_ ?_))

theorem silent_setFlags (i : Instr) (result : BS) (carry overflow : Option BS) : Silent (Any.setFlags i result carry overflow) (Verif.Exec.setFlags i result carry overflow) := by
  unfold Any.setFlags Verif.Exec.setFlags
  repeat (first | with_reducible exact Silent.pure _ | with_reducible exact Silent.py _ | with_reducible exact silent_setFlag _ _ | with_reducible exact silent_setFlagOpt _ _ | with_reducible refine Silent.bind ?_ fun _ => ?_ | with_reducible refine Silent.ite ?_ ?_)

theorem silent_readReg (r : Option Nat) : Silent (Any.readReg r) (Verif.Exec.readReg r) := by
  unfold Any.readReg Verif.Exec.readReg
  repeat (first | with_reducible exact Silent.pure _ | with_reducible exact Silent.py _ | with_reducible exact silent_getR _ | with_reducible refine Silent.bind ?_ fun _ => ?_ | with_reducible refine Silent.ite ?_ ?_)

theorem silent_writeReg (r : Option Nat) (v : BS) : Silent (Any.writeReg r v) (Verif.Exec.writeReg r v) := by
  unfold Any.writeReg Verif.Exec.writeReg
  repeat (first | with_reducible exact Silent.pure _ | with_reducible exact Silent.py _ | with_reducible exact silent_setR _ _ | with_reducible refine Silent.bind ?_ fun _ => ?_ | with_reducible refine Silent.ite ?_ ?_)

theorem silent_immOrReg (i : Instr) : Silent (Any.immOrReg i) (Verif.Exec.immOrReg i) := by
  unfold Any.immOrReg Verif.Exec.immOrReg
  cases i.imm32 <;> (repeat (first | with_reducible exact Silent.pure _ | with_reducible exact Silent.py _ | with_reducible exact silent_readReg _ | with_reducible refine Silent.bind ?_ fun _ => ?_ | with_reducible refine Silent.ite ?_ ?_))

theorem silent_carryIn (useCarry sub : Bool) : Silent (Any.carryIn useCarry sub) (Verif.Exec.carryIn useCarry sub) := by
  unfold Any.carryIn Verif.Exec.carryIn
  repeat (first | with_reducible exact Silent.pure _ | with_reducible exact Silent.py _ | with_reducible exact silent_getFlag _ | with_reducible refine Silent.bind ?_ fun _ => ?_ | with_reducible refine Silent.ite ?_ ?_)

theorem silent_addSub (i : Instr) : Silent (Any.addSub i) (Verif.Exec.addSub i) := by
  unfold Any.addSub Verif.Exec.addSub
  repeat (first | with_reducible exact Silent.pure _ | with_reducible exact Silent.py _ | with_reducible exact silent_advance _ | with_reducible exact silent_setFlags _ _ _ _ | with_reducible exact silent_readReg _ | with_reducible exact silent_writeReg _ _ | with_reducible exact silent_immOrReg _ | with_reducible exact silent_carryIn _ _ | with_reducible refine Silent.bind ?_ fun _ => ?_ | with_reducible refine Silent.ite ?_ ?_)

theorem silent_bitOp (i : Instr) : Silent (Any.bitOp i) (Verif.Exec.bitOp i) := by
  unfold Any.bitOp Verif.Exec.bitOp
  repeat (first | with_reducible exact Silent.pure _ | with_reducible exact Silent.py _ | with_reducible exact silent_advance _ | with_reducible exact silent_setFlags _ _ _ _ | with_reducible exact silent_readReg _ | with_reducible exact silent_writeReg _ _ | with_reducible refine Silent.bind ?_ fun _ => ?_ | with_reducible refine Silent.ite ?_ ?_)

theorem silent_bitClear (i : Instr) : Silent (Any.bitClear i) (Verif.Exec.bitClear i) := by
  unfold Any.bitClear Verif.Exec.bitClear
  repeat (first | with_reducible exact Silent.pure _ | with_reducible exact Silent.py _ | with_reducible exact silent_advance _ | with_reducible exact silent_setFlags _ _ _ _ | with_reducible exact silent_readReg _ | with_reducible exact silent_writeReg _ _ | with_reducible refine Silent.bind ?_ fun _ => ?_ | with_reducible refine Silent.ite ?_ ?_)

theorem silent_shiftAmount (i : Instr) : Silent (Any.shiftAmount i) (Verif.Exec.shiftAmount i) := by
  unfold Any.shiftAmount Verif.Exec.shiftAmount
  cases i.shiftN <;> (repeat (first | with_reducible exact Silent.pure _ | with_reducible exact Silent.py _ | with_reducible exact silent_readReg _ | with_reducible refine Silent.bind ?_ fun _ => ?_ | with_reducible refine Silent.ite ?_ ?_))

theorem silent_shiftOp (i : Instr) : Silent (Any.shiftOp i) (Verif.Exec.shiftOp i) := by
  unfold Any.shiftOp Verif.Exec.shiftOp
  repeat (first | with_reducible exact Silent.pure _ | with_reducible exact Silent.py _ | with_reducible exact silent_getFlag _ | with_reducible exact silent_advance _ | with_reducible exact silent_setFlags _ _ _ _ | with_reducible exact silent_readReg _ | with_reducible exact silent_writeReg _ _ | with_reducible exact silent_shiftAmount _ | with_reducible refine Silent.bind ?_ fun _ => ?_ | with_reducible refine Silent.ite ?_ ?_)

theorem silent_reverseSubtract (i : Instr) : Silent (Any.reverseSubtract i) (Verif.Exec.reverseSubtract i) := by
  unfold Any.reverseSubtract Verif.Exec.reverseSubtract
  repeat (first | with_reducible exact Silent.pure _ | with_reducible exact Silent.py _ | with_reducible exact silent_advance _ | with_reducible exact silent_setFlags _ _ _ _ | with_reducible exact silent_readReg _ | with_reducible exact silent_writeReg _ _ | with_reducible refine Silent.bind ?_ fun _ => ?_ | with_reducible refine Silent.ite ?_ ?_)

theorem silent_multiply (i : Instr) : Silent (Any.multiply i) (Verif.Exec.multiply i) := by
  unfold Any.multiply Verif.Exec.multiply
  repeat (first | with_reducible exact Silent.pure _ | with_reducible exact Silent.py _ | with_reducible exact silent_advance _ | with_reducible exact silent_setFlags _ _ _ _ | with_reducible exact silent_readReg _ | with_reducible exact silent_writeReg _ _ | with_reducible refine Silent.bind ?_ fun _ => ?_ | with_reducible refine Silent.ite ?_ ?_)

theorem silent_addressToRegister (i : Instr) : Silent (Any.addressToRegister i) (Verif.Exec.addressToRegister i) := by
  unfold Any.addressToRegister Verif.Exec.addressToRegister
  repeat (first | with_reducible exact Silent.pure _ | with_reducible exact Silent.py _ | with_reducible exact silent_pcForInstr | with_reducible exact silent_advance _ | with_reducible exact silent_writeReg _ _ | with_reducible refine Silent.bind ?_ fun _ => ?_ | with_reducible refine Silent.ite ?_ ?_)

theorem silent_extend (i : Instr) : Silent (Any.extend i) (Verif.Exec.extend i) := by
  unfold Any.extend Verif.Exec.extend
  repeat (first | with_reducible exact Silent.pure _ | with_reducible exact Silent.py _ | with_reducible exact silent_advance _ | with_reducible exact silent_readReg _ | with_reducible exact silent_writeReg _ _ | with_reducible refine Silent.bind ?_ fun _ => ?_ | with_reducible refine Silent.ite ?_ ?_)

theorem silent_byteReverse (i : Instr) : Silent (Any.byteReverse i) (Verif.Exec.byteReverse i) := by
  unfold Any.byteReverse Verif.Exec.byteReverse
  repeat (first | with_reducible exact Silent.pure _ | with_reducible exact Silent.py _ | with_reducible exact silent_advance _ | with_reducible exact silent_readReg _ | with_reducible exact silent_writeReg _ _ | with_reducible refine Silent.bind ?_ fun _ => ?_ | with_reducible refine Silent.ite ?_ ?_)

theorem silent_moveOperand (i : Instr) : Silent (Any.moveOperand i) (Verif.Exec.moveOperand i) := by
  unfold Any.moveOperand Verif.Exec.moveOperand
  cases i.m <;> (repeat (first | with_reducible exact Silent.pure _ | with_reducible exact Silent.py _ | with_reducible exact silent_getR _ | with_reducible refine Silent.bind ?_ fun _ => ?_ | with_reducible refine Silent.ite ?_ ?_))

theorem silent_move (i : Instr) : Silent (Any.move i) (Verif.Exec.move i) := by
  unfold Any.move Verif.Exec.move
  repeat (first | with_reducible exact Silent.pure _ | with_reducible exact Silent.py _ | with_reducible exact silent_getFlag _ | with_reducible exact silent_advance _ | with_reducible exact silent_setFlags _ _ _ _ | with_reducible exact silent_writeReg _ _ | with_reducible exact silent_moveOperand _ | with_reducible refine Silent.bind ?_ fun _ => ?_ | with_reducible refine Silent.ite ?_ ?_)

theorem silent_shiftedMoveNegate (i : Instr) : Silent (Any.shiftedMoveNegate i) (Verif.Exec.shiftedMoveNegate i) := by
  unfold Any.shiftedMoveNegate Verif.Exec.shiftedMoveNegate
  repeat (first | with_reducible exact Silent.pure _ | with_reducible exact Silent.py _ | with_reducible refine Silent.bind ?_ fun _ => ?_ | with_reducible refine Silent.ite ?_ ?_)

theorem silent_cmpOperand (i : Instr) : Silent (Any.cmpOperand i) (Verif.Exec.cmpOperand i) := by
  unfold Any.cmpOperand Verif.Exec.cmpOperand
  cases i.m <;> (repeat (first | with_reducible exact Silent.pure _ | with_reducible exact Silent.py _ | with_reducible exact silent_getR _ | with_reducible refine Silent.bind ?_ fun _ => ?_ | with_reducible refine Silent.ite ?_ ?_))

theorem silent_compare (i : Instr) : Silent (Any.compare i) (Verif.Exec.compare i) := by
  unfold Any.compare Verif.Exec.compare
  repeat (first | with_reducible exact Silent.pure _ | with_reducible exact Silent.py _ | with_reducible exact silent_setFlag _ _ | with_reducible exact silent_advance _ | with_reducible exact silent_readReg _ | with_reducible exact silent_cmpOperand _ | with_reducible refine Silent.bind ?_ fun _ => ?_ | with_reducible refine Silent.ite ?_ ?_)

theorem silent_test (i : Instr) : Silent (Any.test i) (Verif.Exec.test i) := by
  unfold Any.test Verif.Exec.test
  repeat (first | with_reducible exact Silent.pure _ | with_reducible exact Silent.py _ | with_reducible exact silent_getFlag _ | with_reducible exact silent_setFlag _ _ | with_reducible exact silent_advance _ | with_reducible exact silent_readReg _ | with_reducible refine Silent.bind ?_ fun _ => ?_ | with_reducible refine Silent.ite ?_ ?_)

theorem silent_flagIs (bit : Int) (k : Int) : Silent (Any.flagIs bit k) (Verif.Exec.flagIs bit k) := by
  unfold Any.flagIs Verif.Exec.flagIs
  repeat (first | with_reducible exact Silent.pure _ | with_reducible exact Silent.py _ | with_reducible exact silent_getFlag _ | with_reducible refine Silent.bind ?_ fun _ => ?_ | with_reducible refine Silent.ite ?_ ?_)

theorem silent_flagsEqual : Silent (Any.flagsEqual) (Verif.Exec.flagsEqual) := by
  unfold Any.flagsEqual Verif.Exec.flagsEqual
  repeat (first | with_reducible exact Silent.pure _ | with_reducible exact Silent.py _ | with_reducible exact silent_getFlag _ | with_reducible refine Silent.bind ?_ fun _ => ?_ | with_reducible refine Silent.ite ?_ ?_)

theorem silent_flagsDiffer : Silent (Any.flagsDiffer) (Verif.Exec.flagsDiffer) := by
  unfold Any.flagsDiffer Verif.Exec.flagsDiffer
  repeat (first | with_reducible exact Silent.pure _ | with_reducible exact Silent.py _ | with_reducible exact silent_getFlag _ | with_reducible refine Silent.bind ?_ fun _ => ?_ | with_reducible refine Silent.ite ?_ ?_)

theorem silent_condHolds (k : Nat) : Silent (Any.condHolds k) (Verif.Exec.condHolds k) := by
  unfold Any.condHolds Verif.Exec.condHolds
  rcases k with _ | _ | _ | _ | _ | _ | _ | _ | _ | _ | _ | _ | _ | _ | k
  · exact silent_flagIs _ _
  · exact silent_flagIs _ _
  · exact silent_flagIs _ _
  · exact silent_flagIs _ _
  · exact silent_flagIs _ _
  · exact silent_flagIs _ _
  · exact silent_flagIs _ _
  · exact silent_flagIs _ _
  · exact Silent.bind (silent_flagIs _ _) fun _ => Silent.ite (silent_flagIs _ _) (Silent.pure _)
  · exact Silent.bind (silent_flagIs _ _) fun _ => Silent.ite (Silent.pure _) (silent_flagIs _ _)
  · exact silent_flagsEqual
  · exact silent_flagsDiffer
  · exact Silent.bind (silent_flagIs _ _) fun _ => Silent.ite silent_flagsEqual (Silent.pure _)
  · exact Silent.bind (silent_flagIs _ _) fun _ => Silent.ite (Silent.pure _) silent_flagsDiffer
  · exact Silent.pure _

theorem silent_linkIf (link : Bool) (next : BS) : Silent (Any.linkIf link next) (Verif.Exec.linkIf link next) := by
  unfold Any.linkIf Verif.Exec.linkIf
  repeat (first | with_reducible exact Silent.pure _ | with_reducible exact Silent.py _ | with_reducible exact silent_setLr _ | with_reducible refine Silent.bind ?_ fun _ => ?_ | with_reducible refine Silent.ite ?_ ?_)

theorem silent_jump (i : Instr) (next : BS) : Silent (Any.jump i next) (Verif.Exec.jump i next) := by
  unfold Any.jump Verif.Exec.jump
  cases i.m <;> (repeat (first | with_reducible exact Silent.pure _ | with_reducible exact Silent.py _ | with_reducible exact silent_getR _ | with_reducible exact silent_setPc _ | with_reducible refine Silent.bind ?_ fun _ => ?_ | with_reducible refine Silent.ite ?_ ?_))

theorem silent_branch (i : Instr) : Silent (Any.branch i) (Verif.Exec.branch i) := by
  unfold Any.branch Verif.Exec.branch
  repeat (first | with_reducible exact Silent.pure _ | with_reducible exact Silent.py _ | with_reducible exact silent_pcForInstr | with_reducible exact silent_advance _ | with_reducible exact silent_condHolds _ | with_reducible exact silent_linkIf _ _ | with_reducible exact silent_jump _ _ | with_reducible refine Silent.bind ?_ fun _ => ?_ | with_reducible refine Silent.ite ?_ ?_)

theorem silent_memOffset (i : Instr) : Silent (Any.memOffset i) (Verif.Exec.memOffset i) := by
  unfold Any.memOffset Verif.Exec.memOffset
  cases i.imm32 <;> (repeat (first | with_reducible exact Silent.pure _ | with_reducible exact Silent.py _ | with_reducible exact silent_getFlag _ | with_reducible exact silent_readReg _ | with_reducible refine Silent.bind ?_ fun _ => ?_ | with_reducible refine Silent.ite ?_ ?_))

theorem silent_offsetAddr (i : Instr) (off : BS) : Silent (Any.offsetAddr i off) (Verif.Exec.offsetAddr i off) := by
  unfold Any.offsetAddr Verif.Exec.offsetAddr
  repeat (first | with_reducible exact Silent.pure _ | with_reducible exact Silent.py _ | with_reducible exact silent_readReg _ | with_reducible refine Silent.bind ?_ fun _ => ?_ | with_reducible refine Silent.ite ?_ ?_)

theorem silent_accessAddr (i : Instr) (oa : BS) : Silent (Any.accessAddr i oa) (Verif.Exec.accessAddr i oa) := by
  unfold Any.accessAddr Verif.Exec.accessAddr
  repeat (first | with_reducible exact Silent.pure _ | with_reducible exact Silent.py _ | with_reducible exact silent_readReg _ | with_reducible refine Silent.bind ?_ fun _ => ?_ | with_reducible refine Silent.ite ?_ ?_)

theorem silent_writeIf (b : Bool) (r : Option Nat) (v : BS) : Silent (Any.writeIf b r v) (Verif.Exec.writeIf b r v) := by
  unfold Any.writeIf Verif.Exec.writeIf
  repeat (first | with_reducible exact Silent.pure _ | with_reducible exact Silent.py _ | with_reducible exact silent_writeReg _ _ | with_reducible refine Silent.bind ?_ fun _ => ?_ | with_reducible refine Silent.ite ?_ ?_)

theorem silent_ldmWriteBack (i : Instr) (regs : BS) (wb : Bool) : Silent (Any.ldmWriteBack i regs wb) (Verif.Exec.ldmWriteBack i regs wb) := by
  unfold Any.ldmWriteBack Verif.Exec.ldmWriteBack
  repeat (first | with_reducible exact Silent.pure _ | with_reducible exact Silent.py _ | with_reducible exact silent_getR _ | with_reducible exact silent_setR _ _ | with_reducible refine Silent.bind ?_ fun _ => ?_ | with_reducible refine Silent.ite ?_ ?_)

theorem silent_writeCore (name : Str) (v : Int) : Silent (Any.writeCore name v) (Verif.Exec.writeCore name v) := by
  unfold Any.writeCore Verif.Exec.writeCore
  cases coreRegister.lookup name <;> (repeat (first | with_reducible exact Silent.pure _ | with_reducible exact Silent.py _ | with_reducible exact silent_writeRegister _ _ | with_reducible refine Silent.bind ?_ fun _ => ?_ | with_reducible refine Silent.ite ?_ ?_))

theorem silent_readCore (name : Str) : Silent (Any.readCore name) (Verif.Exec.readCore name) := by
  unfold Any.readCore Verif.Exec.readCore
  cases coreRegister.lookup name <;> (repeat (first | with_reducible exact Silent.pure _ | with_reducible exact Silent.py _ | with_reducible exact silent_readRegister _ | with_reducible refine Silent.bind ?_ fun _ => ?_ | with_reducible refine Silent.ite ?_ ?_))

theorem silent_writeCoreIf (b : Bool) (name : Str) (v : Int) : Silent (Any.writeCoreIf b name v) (Verif.Exec.writeCoreIf b name v) := by
  unfold Any.writeCoreIf Verif.Exec.writeCoreIf
  repeat (first | with_reducible exact Silent.pure _ | with_reducible exact Silent.py _ | with_reducible exact silent_writeCore _ _ | with_reducible refine Silent.bind ?_ fun _ => ?_ | with_reducible refine Silent.ite ?_ ?_)

theorem silent_changeProcessorState (i : Instr) : Silent (Any.changeProcessorState i) (Verif.Exec.changeProcessorState i) := by
  unfold Any.changeProcessorState Verif.Exec.changeProcessorState
  repeat (first | with_reducible exact Silent.pure _ | with_reducible exact Silent.py _ | with_reducible exact silent_advance _ | with_reducible exact silent_writeCoreIf _ _ _ | with_reducible refine Silent.bind ?_ fun _ => ?_ | with_reducible refine Silent.ite ?_ ?_)

theorem silent_mrsIpsr (r : BS) (wanted : Bool) : Silent (Any.mrsIpsr r wanted) (Verif.Exec.mrsIpsr r wanted) := by
  unfold Any.mrsIpsr Verif.Exec.mrsIpsr
  repeat (first | with_reducible exact Silent.pure _ | with_reducible exact Silent.py _ | with_reducible exact silent_getIpsr | with_reducible refine Silent.bind ?_ fun _ => ?_ | with_reducible refine Silent.ite ?_ ?_)

theorem silent_mrsPsr (sysm r : BS) : Silent (Any.mrsPsr sysm r) (Verif.Exec.mrsPsr sysm r) := by
  unfold Any.mrsPsr Verif.Exec.mrsPsr
  repeat (first | with_reducible exact Silent.pure _ | with_reducible exact Silent.py _ | with_reducible exact silent_mrsIpsr _ _ | with_reducible refine Silent.bind ?_ fun _ => ?_ | with_reducible refine Silent.ite ?_ ?_)

theorem silent_mrsSp (sysm r : BS) : Silent (Any.mrsSp sysm r) (Verif.Exec.mrsSp sysm r) := by
  unfold Any.mrsSp Verif.Exec.mrsSp
  repeat (first | with_reducible exact Silent.pure _ | with_reducible exact Silent.py _ | with_reducible exact silent_getMsp | with_reducible exact silent_getPsp | with_reducible exact silent_isPrivileged | with_reducible refine Silent.bind ?_ fun _ => ?_ | with_reducible refine Silent.ite ?_ ?_)

theorem silent_mrsBit (name : Str) (r : BS) : Silent (Any.mrsBit name r) (Verif.Exec.mrsBit name r) := by
  unfold Any.mrsBit Verif.Exec.mrsBit
  repeat (first | with_reducible exact Silent.pure _ | with_reducible exact Silent.py _ | with_reducible exact silent_isPrivileged | with_reducible exact silent_readCore _ | with_reducible refine Silent.bind ?_ fun _ => ?_ | with_reducible refine Silent.ite ?_ ?_)

theorem silent_mrsBasepri (r : BS) : Silent (Any.mrsBasepri r) (Verif.Exec.mrsBasepri r) := by
  unfold Any.mrsBasepri Verif.Exec.mrsBasepri
  repeat (first | with_reducible exact Silent.pure _ | with_reducible exact Silent.py _ | with_reducible exact silent_isPrivileged | with_reducible exact silent_readCore _ | with_reducible refine Silent.bind ?_ fun _ => ?_ | with_reducible refine Silent.ite ?_ ?_)

theorem silent_mrsControl (r : BS) : Silent (Any.mrsControl r) (Verif.Exec.mrsControl r) := by
  unfold Any.mrsControl Verif.Exec.mrsControl
  repeat (first | with_reducible exact Silent.pure _ | with_reducible exact Silent.py _ | with_reducible exact silent_getControl | with_reducible refine Silent.bind ?_ fun _ => ?_ | with_reducible refine Silent.ite ?_ ?_)

theorem silent_mrsMask (sysm r : BS) : Silent (Any.mrsMask sysm r) (Verif.Exec.mrsMask sysm r) := by
  unfold Any.mrsMask Verif.Exec.mrsMask
  repeat (first | with_reducible exact Silent.pure _ | with_reducible exact Silent.py _ | with_reducible exact silent_mrsBit _ _ | with_reducible exact silent_mrsBasepri _ | with_reducible exact silent_mrsControl _ | with_reducible refine Silent.bind ?_ fun _ => ?_ | with_reducible refine Silent.ite ?_ ?_)

theorem silent_mrsValue (sysm z : BS) : Silent (Any.mrsValue sysm z) (Verif.Exec.mrsValue sysm z) := by
  unfold Any.mrsValue Verif.Exec.mrsValue
  repeat (first | with_reducible exact Silent.pure _ | with_reducible exact Silent.py _ | with_reducible exact silent_mrsPsr _ _ | with_reducible exact silent_mrsSp _ _ | with_reducible exact silent_mrsMask _ _ | with_reducible refine Silent.bind ?_ fun _ => ?_ | with_reducible refine Silent.ite ?_ ?_)

theorem silent_moveFromSpecial (i : Instr) : Silent (Any.moveFromSpecial i) (Verif.Exec.moveFromSpecial i) := by
  unfold Any.moveFromSpecial Verif.Exec.moveFromSpecial
  repeat (first | with_reducible exact Silent.pure _ | with_reducible exact Silent.py _ | with_reducible exact silent_advance _ | with_reducible exact silent_writeReg _ _ | with_reducible exact silent_mrsValue _ _ | with_reducible refine Silent.bind ?_ fun _ => ?_ | with_reducible refine Silent.ite ?_ ?_)

theorem silent_plain (i : Instr) : Silent (Any.plain i) (Verif.Exec.plain i) := by
  unfold Any.plain Verif.Exec.plain
  repeat (first | with_reducible exact Silent.pure _ | with_reducible exact Silent.py _ | with_reducible exact silent_advance _ | with_reducible refine Silent.bind ?_ fun _ => ?_ | with_reducible refine Silent.ite ?_ ?_)

end Any
end Verif
