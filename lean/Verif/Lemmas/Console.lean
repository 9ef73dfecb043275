import Verif.Lemmas.Typed
import Verif.Lemmas.Machine

/-!
# Lemmas about the console
-/

namespace Verif
open Console

attribute [local irreducible] trees disasm Instr.eval Instr.format

theorem ConM.bind_def {α β : Type} (x : ConM α) (f : α → ConM β) (w : World) :
    (x >>= f) w = match x w with
      | (.ok a, w') => f a w'
      | (.error e, w') => (.error e, w') := rfl

theorem ConM.bind_ok {α β : Type} {x : ConM α} {f : α → ConM β} {w w' : World} {a : α} (h : x w = (.ok a, w')) :
    (x >>= f) w = f a w' := by rw [ConM.bind_def, h]

theorem ConM.bind_err {α β : Type} {x : ConM α} {f : α → ConM β} {w w' : World} {e : Exn} (h : x w = (.error e, w')) :
    (x >>= f) w = (.error e, w') := by rw [ConM.bind_def, h]

/-- Every exception satisfies `E`. -/
def Raises {α : Type} (E : Exn → Prop) (x : ConM α) : Prop := ∀ w e, (x w).1 = .error e → E e

/-- The machine stays the same. -/
def Keeps {α : Type} (x : ConM α) : Prop := ∀ w, (x w).2.cpu = w.cpu

/-- Output is only added. -/
def Adds {α : Type} (x : ConM α) : Prop := ∀ w, w.out <+: (x w).2.out

/-- The machine stays the same. -/
def CpuKeeps {α : Type} (x : CpuM α) : Prop := ∀ s, (x s).2 = s

/-- Neither of the exceptions that leave the console. -/
def Caught (e : Exn) : Prop := e ≠ .toolExit ∧ e ≠ .systemExit

instance (e : Exn) : Decidable (Caught e) := inferInstanceAs (Decidable (_ ∧ _))

section
variable {α β : Type} {E : Exn → Prop}

theorem raises_bind {x : ConM α} {f : α → ConM β} (h : Raises E x) (h' : ∀ a, Raises E (f a)) : Raises E (x >>= f) := by
  intro w e he
  rw [ConM.bind_def] at he
  have h1 := h w
  cases hx : x w with
  | mk r w' =>
    rw [hx] at he h1
    cases r with
    | ok a => exact h' a w' e he
    | error e' => exact h1 e (by simpa using he)

theorem keeps_bind {x : ConM α} {f : α → ConM β} (h : Keeps x) (h' : ∀ a, Keeps (f a)) : Keeps (x >>= f) := by
  intro w
  rw [ConM.bind_def]
  have h1 := h w
  cases hx : x w with
  | mk r w' =>
    rw [hx] at h1
    cases r with
    | ok a => exact (h' a w').trans h1
    | error e' => exact h1

theorem adds_bind {x : ConM α} {f : α → ConM β} (h : Adds x) (h' : ∀ a, Adds (f a)) : Adds (x >>= f) := by
  intro w
  rw [ConM.bind_def]
  have h1 := h w
  cases hx : x w with
  | mk r w' =>
    rw [hx] at h1
    cases r with
    | ok a => exact h1.trans (h' a w')
    | error e' => exact h1

theorem raises_pure (a : α) : Raises E (pure a) := fun _ _ h => by cases h
theorem keeps_pure (a : α) : Keeps (pure a : ConM α) := fun _ => rfl
theorem adds_pure (a : α) : Adds (pure a : ConM α) := fun _ => List.prefix_rfl

theorem raises_raise {e : Exn} (h : E e) : Raises E (Console.raise e : ConM α) := fun _ _ he => by
  cases he
  exact h
theorem keeps_raise (e : Exn) : Keeps (Console.raise e : ConM α) := fun _ => rfl
theorem adds_raise (e : Exn) : Adds (Console.raise e : ConM α) := fun _ => List.prefix_rfl

theorem raises_print (s : Str) : Raises E (print s) := fun _ _ h => by cases h
theorem keeps_print (s : Str) : Keeps (print s) := fun _ => rfl
theorem adds_print (s : Str) : Adds (print s) := fun _ => List.prefix_append _ _

theorem raises_printAll (s : List Str) : Raises E (printAll s) := fun _ _ h => by cases h
theorem keeps_printAll (s : List Str) : Keeps (printAll s) := fun _ => rfl
theorem adds_printAll (s : List Str) : Adds (printAll s) := fun _ => List.prefix_append _ _

theorem keeps_report (e : Exn) : Keeps (report e) := fun _ => rfl
theorem adds_report (e : Exn) : Adds (report e) := fun _ => List.prefix_append _ _

theorem raises_cpu (h : ∀ e, E (.py e)) (x : CpuM α) : Raises E (cpu x) := by
  intro w e he
  unfold cpu at he
  split at he
  · cases he
  · simp only [Except.error.injEq] at he
    rw [← he]
    exact h _

theorem keeps_cpu {x : CpuM α} (h : CpuKeeps x) : Keeps (cpu x) := by
  intro w
  have := h w.cpu
  unfold cpu
  split <;> rename_i hx <;> rw [hx] at this <;> exact this

theorem adds_cpu (x : CpuM α) : Adds (cpu x) := by
  intro w
  unfold cpu
  split <;> exact List.prefix_rfl

theorem raises_expr (h : ∀ e, E (.py e)) (x : PyRes α) : Raises E (expr x) := by
  intro w e he
  unfold expr at he
  cases x with
  | ok a => cases he
  | error e' =>
    cases he
    exact h _

theorem keeps_expr (x : PyRes α) : Keeps (expr x) := by
  intro w
  unfold expr
  cases x <;> rfl

theorem adds_expr (x : PyRes α) : Adds (expr x) := by
  intro w
  unfold expr
  cases x <;> exact List.prefix_rfl

end

/-! ### Machine operations that only read -/

theorem readRegister_keeps (r : RegArg) : CpuKeeps (readRegister r) := by
  intro s
  unfold readRegister
  rw [CpuM.bind_def]
  unfold delegateReadRegister
  cases h : s.regs (registerIndex r) <;> simp only [h] <;> rfl

theorem readMemoryBlock_keeps (a : Int) (n : Nat) : CpuKeeps (readMemoryBlock a n) := by
  intro s
  unfold readMemoryBlock
  cases findMem s.mem a <;> rfl

theorem readBlock_keeps (a n : Int) : CpuKeeps (readBlock a n) := by
  intro s
  unfold readBlock
  by_cases hn : 0 ≤ n
  · rw [if_pos hn]
    exact readMemoryBlock_keeps _ _ s
  · rw [if_neg hn]
    unfold readBlockBack
    cases h : findMem s.mem a <;> rfl

/-! ### Closing goals about compound code -/

/-- Uses the lemmas above as long as they apply. -/
macro "raises" : tactic => `(tactic| repeat' with_reducible first
  | apply raises_bind | apply raises_pure | apply raises_print | apply raises_printAll
  | apply raises_cpu | apply raises_expr | apply raises_raise | intro _)

/-- Uses the lemmas above as long as they apply. -/
macro "keeps" : tactic => `(tactic| repeat' with_reducible first
  | apply keeps_bind | apply keeps_pure | apply keeps_print | apply keeps_printAll
  | apply keeps_cpu | apply keeps_expr | apply keeps_raise | apply readRegister_keeps
  | apply readMemoryBlock_keeps | apply readBlock_keeps | intro _)

/-- Uses the lemmas above as long as they apply. -/
macro "adds" : tactic => `(tactic| repeat' with_reducible first
  | apply adds_bind | apply adds_pure | apply adds_print | apply adds_printAll
  | apply adds_cpu | apply adds_expr | apply adds_raise | intro _)

section
variable {E : Exn → Prop}

theorem raises_plainValue (h : ∀ e, E (.py e)) (a : Str) : Raises E (plainValue a) := by
  unfold plainValue
  split <;> raises
  all_goals exact h _

theorem raises_convertValue (h : ∀ e, E (.py e)) (a : Str) : Raises E (convertValue a) := by
  unfold convertValue
  split
  · raises
    exact h _
  · raises
    all_goals first
      | exact h _
      | exact raises_plainValue h _
  · exact raises_plainValue h _

theorem keeps_plainValue (a : Str) : Keeps (plainValue a) := by
  unfold plainValue
  split <;> keeps

theorem keeps_convertValue (a : Str) : Keeps (convertValue a) := by
  unfold convertValue
  split
  · keeps
  · keeps
    exact keeps_plainValue _
  · exact keeps_plainValue _

theorem adds_plainValue (a : Str) : Adds (plainValue a) := by
  unfold plainValue
  split <;> adds

theorem adds_convertValue (a : Str) : Adds (convertValue a) := by
  unfold convertValue
  split
  · adds
  · adds
    exact adds_plainValue _
  · exact adds_plainValue _

theorem raises_registerCells (h : ∀ e, E (.py e)) : ∀ (l : List Str) (k : Nat), Raises E (registerCells k l)
  | [], _ => raises_pure _
  | r :: t, k => by
    unfold registerCells
    raises
    · exact h _
    · exact raises_registerCells h t _

theorem keeps_registerCells : ∀ (l : List Str) (k : Nat), Keeps (registerCells k l)
  | [], _ => keeps_pure _
  | r :: t, k => by
    unfold registerCells
    keeps
    exact keeps_registerCells t _

theorem adds_registerCells : ∀ (l : List Str) (k : Nat), Adds (registerCells k l)
  | [], _ => adds_pure _
  | r :: t, k => by
    unfold registerCells
    adds
    exact adds_registerCells t _

theorem raises_dumpRegisters (h : ∀ e, E (.py e)) : ∀ (l : List (List Str)), Raises E (dumpRegisters l)
  | [] => raises_pure _
  | r :: t => by
    unfold dumpRegisters
    raises
    · exact raises_registerCells h _ _
    · exact raises_dumpRegisters h t

theorem keeps_dumpRegisters : ∀ (l : List (List Str)), Keeps (dumpRegisters l)
  | [] => keeps_pure _
  | r :: t => by
    unfold dumpRegisters
    keeps
    · exact keeps_registerCells _ _
    · exact keeps_dumpRegisters t

theorem adds_dumpRegisters : ∀ (l : List (List Str)), Adds (dumpRegisters l)
  | [] => adds_pure _
  | r :: t => by
    unfold dumpRegisters
    adds
    · exact adds_registerCells _ _
    · exact adds_dumpRegisters t

theorem raises_handleReg (h : ∀ e, E (.py e)) (ht : E .toolError) (a : List Str) : Raises E (handleReg a) := by
  unfold handleReg
  split
  · exact raises_dumpRegisters h _
  · dsimp only
    split <;> raises
    all_goals first
      | exact h _
      | exact ht

theorem keeps_handleReg (a : List Str) : Keeps (handleReg a) := by
  unfold handleReg
  split
  · exact keeps_dumpRegisters _
  · dsimp only
    split <;> keeps

theorem adds_handleReg (a : List Str) : Adds (handleReg a) := by
  unfold handleReg
  split
  · exact adds_dumpRegisters _
  · dsimp only
    split <;> adds

theorem raises_evenPc (h : ∀ e, E (.py e)) : Raises E evenPc := by
  unfold evenPc
  raises
  exact h _

theorem keeps_evenPc : Keeps evenPc := by
  unfold evenPc
  keeps

theorem adds_evenPc : Adds evenPc := by
  unfold evenPc
  adds

theorem raises_showListing (h : ∀ e, E (.py e)) (ls : List Str) (e : Option PyErr) : Raises E (showListing ls e) := by
  cases e with
  | none =>
    simp only [showListing]
    split
    · exact raises_raise (h _)
    · exact raises_printAll _
  | some e =>
    simp only [showListing]
    split
    · with_reducible apply raises_bind (raises_print _)
      intro _
      split
      · exact raises_raise (h _)
      · exact raises_printAll _
    · exact raises_raise (h _)

theorem raises_printDisasm (h : ∀ e, E (.py e)) (c : Option (List Nat)) (a : Int) : Raises E (printDisasm c a) := by
  unfold printDisasm
  with_reducible apply raises_bind (raises_evenPc h)
  intro pc
  split
  · exact raises_raise (h _)
  · with_reducible apply raises_bind (raises_expr h _)
    exact fun ls => raises_showListing h ls _

theorem keeps_showListing (ls : List Str) (e : Option PyErr) : Keeps (showListing ls e) := by
  cases e with
  | none =>
    simp only [showListing]
    split
    · exact keeps_raise _
    · exact keeps_printAll _
  | some e =>
    simp only [showListing]
    split
    · with_reducible apply keeps_bind (keeps_print _)
      intro _
      split
      · exact keeps_raise _
      · exact keeps_printAll _
    · exact keeps_raise _

theorem keeps_printDisasm (c : Option (List Nat)) (a : Int) : Keeps (printDisasm c a) := by
  unfold printDisasm
  with_reducible apply keeps_bind keeps_evenPc
  intro pc
  split
  · exact keeps_raise _
  · with_reducible apply keeps_bind (keeps_expr _)
    exact fun ls => keeps_showListing ls _

theorem adds_showListing (ls : List Str) (e : Option PyErr) : Adds (showListing ls e) := by
  cases e with
  | none =>
    simp only [showListing]
    split
    · exact adds_raise _
    · exact adds_printAll _
  | some e =>
    simp only [showListing]
    split
    · with_reducible apply adds_bind (adds_print _)
      intro _
      split
      · exact adds_raise _
      · exact adds_printAll _
    · exact adds_raise _

theorem adds_printDisasm (c : Option (List Nat)) (a : Int) : Adds (printDisasm c a) := by
  unfold printDisasm
  with_reducible apply adds_bind adds_evenPc
  intro pc
  split
  · exact adds_raise _
  · with_reducible apply adds_bind (adds_expr _)
    exact fun ls => adds_showListing ls _

theorem raises_count (h : ∀ e, E (.py e)) (d : Int) (a : Option Str) : Raises E (count d a) := by
  cases a
  · exact raises_pure _
  · exact raises_convertValue h _

theorem keeps_count (d : Int) (a : Option Str) : Keeps (count d a) := by
  cases a
  · exact keeps_pure _
  · exact keeps_convertValue _

theorem adds_count (d : Int) (a : Option Str) : Adds (count d a) := by
  cases a
  · exact adds_pure _
  · exact adds_convertValue _

theorem raises_handleDisasm (h : ∀ e, E (.py e)) {a : List Str} (hp : parseOptions a ≠ none) : Raises E (handleDisasm a) := by
  unfold handleDisasm
  split
  · contradiction
  · with_reducible apply raises_bind (raises_convertValue h _)
    intro x
    with_reducible apply raises_bind (raises_count h _ _)
    · intro y
      with_reducible apply raises_bind (raises_cpu h _)
      intro z
      exact raises_printDisasm h _ _

theorem keeps_handleDisasm (a : List Str) : Keeps (handleDisasm a) := by
  unfold handleDisasm
  split
  · exact keeps_raise _
  · with_reducible apply keeps_bind (keeps_convertValue _)
    intro x
    with_reducible apply keeps_bind (keeps_count _ _)
    · intro y
      with_reducible apply keeps_bind (keeps_cpu (readBlock_keeps _ _))
      intro z
      exact keeps_printDisasm _ _

theorem adds_handleDisasm (a : List Str) : Adds (handleDisasm a) := by
  unfold handleDisasm
  split
  · exact adds_raise _
  · with_reducible apply adds_bind (adds_convertValue _)
    intro x
    with_reducible apply adds_bind (adds_count _ _)
    · intro y
      with_reducible apply adds_bind (adds_cpu _)
      intro z
      exact adds_printDisasm _ _

theorem raises_doRead (h : ∀ e, E (.py e)) (width : Nat) (a : List Str) : Raises E (doRead width a) := by
  unfold doRead
  split
  · exact raises_print _
  · with_reducible apply raises_bind (raises_convertValue h _)
    intro x
    with_reducible apply raises_bind (raises_count h _ _)
    · raises
      all_goals exact h _

theorem keeps_doRead (width : Nat) (a : List Str) : Keeps (doRead width a) := by
  unfold doRead
  split
  · exact keeps_print _
  · with_reducible apply keeps_bind (keeps_convertValue _)
    intro x
    with_reducible apply keeps_bind (keeps_count _ _)
    · keeps

theorem adds_doRead (width : Nat) (a : List Str) : Adds (doRead width a) := by
  unfold doRead
  split
  · exact adds_print _
  · with_reducible apply adds_bind (adds_convertValue _)
    intro x
    with_reducible apply adds_bind (adds_count _ _)
    · adds

theorem raises_byteValues (h : ∀ e, E (.py e)) : ∀ a : List Str, Raises E (byteValues a)
  | [] => raises_pure _
  | a :: t => by
    unfold byteValues
    with_reducible apply raises_bind (raises_convertValue h _)
    intro v
    split
    · exact raises_bind (raises_byteValues h t) fun _ => raises_pure _
    · exact raises_raise (h _)

theorem keeps_byteValues : ∀ a : List Str, Keeps (byteValues a)
  | [] => keeps_pure _
  | a :: t => by
    unfold byteValues
    with_reducible apply keeps_bind (keeps_convertValue _)
    intro v
    split
    · exact keeps_bind (keeps_byteValues t) fun _ => keeps_pure _
    · exact keeps_raise _

theorem adds_byteValues : ∀ a : List Str, Adds (byteValues a)
  | [] => adds_pure _
  | a :: t => by
    unfold byteValues
    with_reducible apply adds_bind (adds_convertValue _)
    intro v
    split
    · exact adds_bind (adds_byteValues t) fun _ => adds_pure _
    · exact adds_raise _

theorem raises_doWrite (h : ∀ e, E (.py e)) (width : Nat) (a : List Str) : Raises E (doWrite width a) := by
  unfold doWrite
  split
  · exact raises_print _
  · with_reducible apply raises_bind (raises_convertValue h _)
    intro x
    split
    · exact raises_print _
    · exact raises_bind (raises_byteValues h _) fun _ => raises_cpu h _

theorem adds_doWrite (width : Nat) (a : List Str) : Adds (doWrite width a) := by
  unfold doWrite
  split
  · exact adds_print _
  · with_reducible apply adds_bind (adds_convertValue _)
    intro x
    split
    · exact adds_print _
    · exact adds_bind (adds_byteValues _) fun _ => adds_cpu _

theorem raises_stepBody (h : ∀ e, E (.py e)) (pc : Int) : Raises E (stepBody pc) := by
  unfold stepBody
  with_reducible apply raises_bind (raises_cpu h _)
  intro c
  split
  · exact raises_raise (h _)
  · split
    · exact raises_raise (h _)
    · exact raises_print _
    · raises
      all_goals exact h _

theorem adds_stepBody (pc : Int) : Adds (stepBody pc) := by
  unfold stepBody
  with_reducible apply adds_bind (adds_cpu _)
  intro c
  split
  · exact adds_raise _
  · split
    · exact adds_raise _
    · exact adds_print _
    · adds

theorem raises_handleStep (h : ∀ e, E (.py e)) : Raises E handleStep := by
  unfold handleStep
  with_reducible apply raises_bind (raises_evenPc h)
  intro pc w e he
  unfold stepTry at he
  split at he
  · cases he
  · exact raises_stepBody h pc w e he

theorem adds_handleStep : Adds handleStep := by
  unfold handleStep
  with_reducible apply adds_bind adds_evenPc
  intro pc w
  unfold stepTry
  have h := adds_stepBody pc w
  split
  · rename_i w' hw
    rw [hw] at h
    exact h.trans (adds_print _ w')
  · exact h

theorem raises_handleWriteReg (h : ∀ e, E (.py e)) (ht : E .toolError) (a : List Str) : Raises E (handleWriteReg a) := by
  unfold handleWriteReg
  split
  · exact raises_bind (raises_convertValue h _) fun _ => raises_cpu h _
  · exact raises_raise ht

theorem adds_handleWriteReg (a : List Str) : Adds (handleWriteReg a) := by
  unfold handleWriteReg
  split
  · exact adds_bind (adds_convertValue _) fun _ => adds_cpu _
  · exact adds_raise _

theorem raises_handleLog (a : List Str) : Raises E (handleLog a) := by
  unfold handleLog
  split
  · exact raises_print _
  · split
    · exact raises_pure _
    · exact raises_print _

theorem keeps_handleLog (a : List Str) : Keeps (handleLog a) := by
  unfold handleLog
  split
  · exact keeps_print _
  · split
    · exact keeps_pure _
    · exact keeps_print _

theorem adds_handleLog (a : List Str) : Adds (handleLog a) := by
  unfold handleLog
  split
  · exact adds_print _
  · split
    · exact adds_pure _
    · exact adds_print _

end

/-- All commands but `exit` and a `disasm` with a bad option raise exceptions that the
console catches. -/
theorem raises_handle {c : Command} {args : List Str} (h1 : c ≠ .exit) (h2 : c = .disasm → parseOptions args ≠ none) :
    Raises Caught (handle c args) := by
  have h : ∀ e, Caught (.py e) := fun e => ⟨by simp, by simp⟩
  have ht : Caught .toolError := by decide
  cases c with
  | info => exact raises_print _
  | reg => exact raises_handleReg h ht args
  | wreg => exact raises_handleWriteReg h ht args
  | reset => exact raises_raise (h _)
  | read w => exact raises_doRead h w args
  | write w => exact raises_doWrite h w args
  | step => exact raises_handleStep h
  | disasm => exact raises_handleDisasm h (h2 rfl)
  | map => exact raises_pure _
  | log => exact raises_handleLog args
  | exit => exact absurd rfl h1

/-- The commands that only show something. -/
def Console.Command.Shows : Command → Bool
  | .wreg | .write _ | .step => false
  | _ => true

theorem keeps_handle {c : Command} (args : List Str) (h : c.Shows = true) : Keeps (handle c args) := by
  cases c with
  | info => exact keeps_print _
  | reg => exact keeps_handleReg args
  | wreg => cases h
  | reset => exact keeps_raise _
  | read w => exact keeps_doRead w args
  | write w => cases h
  | step => cases h
  | disasm => exact keeps_handleDisasm args
  | map => exact keeps_pure _
  | log => exact keeps_handleLog args
  | exit => exact keeps_raise _

theorem adds_handle (c : Command) (args : List Str) : Adds (handle c args) := by
  cases c with
  | info => exact adds_print _
  | reg => exact adds_handleReg args
  | wreg => exact adds_handleWriteReg args
  | reset => exact adds_raise _
  | read w => exact adds_doRead w args
  | write w => exact adds_doWrite w args
  | step => exact adds_handleStep
  | disasm => exact adds_handleDisasm args
  | map => exact adds_pure _
  | log => exact adds_handleLog args
  | exit => exact adds_raise _

/-- A command with its name in small letters and its arguments. -/
def named (name : Str) (args : List Str) : ConM Unit :=
  if name = c! "?" ∨ name = c! "help" then showHelp args
  else if isRegister name then handleReg [name]
  else match commandList.lookup name with
    | none => print (c! "Error: unrecognized command '" ++ name ++ c! "'")
    | some h => handle h args

open Typed in
theorem dispatch_none (python : Python) {cmd : Str} (h : WordsOf cmd []) : dispatch python cmd = Console.raise (.py .indexError) := by
  unfold dispatch
  rw [strip_none h]

open Typed in
theorem dispatch_python (python : Python) {cmd a : Str} {args : List Str} (h : WordsOf cmd (a :: args)) (hd : a.head? = some '$') :
    dispatch python cmd = handlePython python (strip (cmd.drop 1)) := by
  have h1 := strip_head h
  rw [hd] at h1
  unfold dispatch
  cases hs : strip cmd with
  | nil => rw [hs] at h1; cases h1
  | cons c t =>
    rw [hs, List.head?_cons, Option.some.injEq] at h1
    subst h1
    rfl

open Typed in
theorem dispatch_named (python : Python) {cmd a : Str} {args : List Str} (h : WordsOf cmd (a :: args)) (hd : a.head? ≠ some '$') :
    dispatch python cmd = named (lower a) args := by
  have h1 := strip_head h
  have hw := words_of h
  unfold dispatch
  split
  · rename_i hs
    rw [hs] at h1
    cases h with
    | word _ h2 _ _ _ =>
      cases a with
      | nil => exact absurd rfl h2
      | cons c t => cases h1
  · rename_i hs
    rw [hs] at h1
    exact absurd h1.symm hd
  · rw [hw]
    rfl

end Verif
