import Verif.Lemmas.Console

/-!
# What is printed does not matter

The commands only add to what was printed, and what they do and add does not depend on it.
-/

namespace Verif
open Console

/-- With something printed before. -/
def World.after (o : List Output) (w : World) : World := ⟨w.cpu, o ++ w.out⟩

/-- What was printed before makes no difference and stays. -/
def Writes {α : Type} (x : ConM α) : Prop := ∀ o w, x (w.after o) = ((x w).1, (x w).2.after o)

section
variable {α β : Type}

theorem writes_bind {x : ConM α} {f : α → ConM β} (h : Writes x) (h' : ∀ a, Writes (f a)) : Writes (x >>= f) := by
  intro o w
  rw [ConM.bind_def, ConM.bind_def, h o w]
  cases hx : x w with
  | mk r w' =>
    cases r with
    | ok a => exact h' a o w'
    | error e => rfl

theorem writes_pure (a : α) : Writes (pure a : ConM α) := fun _ _ => rfl
theorem writes_raise (e : Exn) : Writes (Console.raise e : ConM α) := fun _ _ => rfl

theorem writes_print (s : Str) : Writes (print s) := by
  intro o w
  unfold print World.after
  rw [List.append_assoc]

theorem writes_report (e : Exn) : Writes (report e) := by
  intro o w
  unfold report World.after
  rw [List.append_assoc]

theorem writes_printAll (s : List Str) : Writes (printAll s) := by
  intro o w
  unfold printAll World.after
  rw [List.append_assoc]

theorem writes_cpu (x : CpuM α) : Writes (cpu x) := by
  intro o w
  unfold cpu World.after
  simp only
  cases hx : x w.cpu with
  | mk r s => cases r <;> rfl

theorem writes_expr (x : PyRes α) : Writes (expr x) := by
  intro o w
  unfold expr
  cases x <;> rfl

end

/-- Uses the lemmas above as long as they apply. -/
macro "writes" : tactic => `(tactic| repeat' with_reducible first
  | apply writes_bind | apply writes_pure | apply writes_print | apply writes_printAll
  | apply writes_cpu | apply writes_expr | apply writes_raise | intro _)

theorem writes_plainValue (a : Str) : Writes (plainValue a) := by
  unfold plainValue
  split <;> writes

theorem writes_convertValue (a : Str) : Writes (convertValue a) := by
  unfold convertValue
  split
  · writes
  · writes
    exact writes_plainValue _
  · exact writes_plainValue _

theorem writes_registerCells : ∀ (l : List Str) (k : Nat), Writes (registerCells k l)
  | [], _ => writes_pure _
  | r :: t, k => by
    unfold registerCells
    writes
    exact writes_registerCells t _

theorem writes_dumpRegisters : ∀ (l : List (List Str)), Writes (dumpRegisters l)
  | [] => writes_pure _
  | r :: t => by
    unfold dumpRegisters
    writes
    · exact writes_registerCells _ _
    · exact writes_dumpRegisters t

theorem writes_handleReg (a : List Str) : Writes (handleReg a) := by
  unfold handleReg
  split
  · exact writes_dumpRegisters _
  · dsimp only
    split <;> writes

theorem writes_evenPc : Writes evenPc := by
  unfold evenPc
  writes

theorem writes_showListing (ls : List Str) (e : Option PyErr) : Writes (showListing ls e) := by
  cases e with
  | none =>
    simp only [showListing]
    split
    · exact writes_raise _
    · exact writes_printAll _
  | some e =>
    simp only [showListing]
    split
    · with_reducible apply writes_bind (writes_print _)
      intro _
      split
      · exact writes_raise _
      · exact writes_printAll _
    · exact writes_raise _

theorem writes_printDisasm (c : Option (List Nat)) (a : Int) : Writes (printDisasm c a) := by
  unfold printDisasm
  with_reducible apply writes_bind writes_evenPc
  intro pc
  split
  · exact writes_raise _
  · with_reducible apply writes_bind (writes_expr _)
    exact fun ls => writes_showListing ls _

theorem writes_count (d : Int) (a : Option Str) : Writes (count d a) := by
  cases a
  · exact writes_pure _
  · exact writes_convertValue _

theorem writes_handleDisasm (a : List Str) : Writes (handleDisasm a) := by
  unfold handleDisasm
  split
  · exact writes_raise _
  · with_reducible apply writes_bind (writes_convertValue _)
    intro x
    with_reducible apply writes_bind (writes_count _ _)
    · intro y
      with_reducible apply writes_bind (writes_cpu _)
      intro z
      exact writes_printDisasm _ _

theorem writes_doRead (width : Nat) (a : List Str) : Writes (doRead width a) := by
  unfold doRead
  split
  · exact writes_print _
  · with_reducible apply writes_bind (writes_convertValue _)
    intro x
    with_reducible apply writes_bind (writes_count _ _)
    · writes

theorem writes_byteValues : ∀ a : List Str, Writes (byteValues a)
  | [] => writes_pure _
  | a :: t => by
    unfold byteValues
    with_reducible apply writes_bind (writes_convertValue _)
    intro v
    split
    · exact writes_bind (writes_byteValues t) fun _ => writes_pure _
    · exact writes_raise _

theorem writes_doWrite (width : Nat) (a : List Str) : Writes (doWrite width a) := by
  unfold doWrite
  split
  · exact writes_print _
  · with_reducible apply writes_bind (writes_convertValue _)
    intro x
    split
    · exact writes_print _
    · exact writes_bind (writes_byteValues _) fun _ => writes_cpu _

theorem writes_stepBody (pc : Int) : Writes (stepBody pc) := by
  unfold stepBody
  with_reducible apply writes_bind (writes_cpu _)
  intro c
  split
  · exact writes_raise _
  · split
    · exact writes_raise _
    · exact writes_print _
    · writes

theorem writes_handleStep : Writes handleStep := by
  unfold handleStep
  with_reducible apply writes_bind writes_evenPc
  intro pc o w
  have h := writes_stepBody pc o w
  unfold stepTry
  rw [h]
  generalize stepBody pc w = r
  obtain ⟨r, w'⟩ := r
  match r with
  | .ok _ => rfl
  | .error (.py e) =>
    by_cases he : e = .undefinedInstruction
    · subst he
      exact writes_print _ o w'
    · cases e <;> first | rfl | exact absurd rfl he
  | .error .toolError => rfl
  | .error .toolExit => rfl
  | .error .systemExit => rfl

theorem writes_handleWriteReg (a : List Str) : Writes (handleWriteReg a) := by
  unfold handleWriteReg
  split
  · exact writes_bind (writes_convertValue _) fun _ => writes_cpu _
  · exact writes_raise _

theorem writes_handleLog (a : List Str) : Writes (handleLog a) := by
  unfold handleLog
  split
  · exact writes_print _
  · split
    · exact writes_pure _
    · exact writes_print _

theorem writes_handle (c : Command) (args : List Str) : Writes (handle c args) := by
  cases c with
  | info => exact writes_print _
  | reg => exact writes_handleReg args
  | wreg => exact writes_handleWriteReg args
  | reset => exact writes_raise _
  | read w => exact writes_doRead w args
  | write w => exact writes_doWrite w args
  | step => exact writes_handleStep
  | disasm => exact writes_handleDisasm args
  | map => exact writes_pure _
  | log => exact writes_handleLog args
  | exit => exact writes_raise _

theorem writes_named (name : Str) (args : List Str) : Writes (named name args) := by
  unfold named
  split
  · unfold showHelp listCommands
    split
    · exact writes_printAll _
    · exact writes_pure _
  · split
    · exact writes_handleReg _
    · split
      · exact writes_print _
      · exact writes_handle _ _

theorem writes_catching {x : ConM Unit} (h : Writes x) : Writes (catching x) := by
  intro o w
  unfold catching
  rw [h o w]
  generalize x w = r
  obtain ⟨r, w'⟩ := r
  match r with
  | .ok _ => rfl
  | .error (.py e) => exact writes_report _ o w'
  | .error .toolError => exact writes_report _ o w'
  | .error .toolExit => rfl
  | .error .systemExit => rfl

theorem writes_handlePython {python : Python} {code : Str} (h : Writes (python code)) : Writes (handlePython python code) := by
  intro o w
  unfold handlePython
  rw [h o w]
  generalize python code w = r
  obtain ⟨r, w'⟩ := r
  match r with
  | .ok _ => rfl
  | .error (.py e) => exact writes_report _ o w'
  | .error .toolError => exact writes_report _ o w'
  | .error .toolExit => exact writes_report _ o w'
  | .error .systemExit => rfl

end Verif
