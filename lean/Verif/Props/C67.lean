import Verif.Lemmas.Startup

/-!
# C67: the console survives bad input

Whatever is typed, a command ends normally or with the exit request, with one exception:
`disasm` with an option it does not have ends the whole program, because `optparse` raises
`SystemExit`, which is not an `Exception`. `disasm -4` does that.
-/

namespace Verif
open Console Typed

theorem lookup_mem {α β : Type} [BEq α] [LawfulBEq α] {a : α} {b : β} : ∀ {l : List (α × β)}, l.lookup a = some b → (a, b) ∈ l
  | [], h => by cases h
  | (x, y) :: l, h => by
    rw [List.lookup_cons] at h
    split at h
    · rename_i hx
      cases h
      rw [eq_of_beq hx]
      exact List.mem_cons_self
    · exact List.mem_cons_of_mem _ (lookup_mem h)

theorem lower_small (s : Str) : lower s = small s := rfl

theorem center_prefix {a : Str} (h1 : c! "--" <+: a) (h2 : a ≠ c! "--") : a <+: c! "--center" ↔ 2 < a.length ∧ a <+: c! "--center" := by
  refine ⟨fun h => ⟨?_, h⟩, fun h => h.2⟩
  obtain ⟨t, rfl⟩ := h1
  cases t with
  | nil => exact absurd rfl h2
  | cons c t => simp

theorem parseOptions_none : ∀ {args : List Str}, parseOptions args = none ↔ BadOptions args
  | [] => by
    constructor
    · intro h
      cases h
    · rintro ⟨a, h, -⟩
      cases h
  | a :: t => by
    have ih := parseOptions_none (args := t)
    unfold parseOptions
    by_cases h0 : a = c! "--"
    · rw [if_pos h0]
      constructor
      · intro h
        cases h
      · rintro ⟨b, h, -⟩
        rw [List.takeWhile_cons, if_neg (by simp [h0])] at h
        cases h
    · have ht : BadOptions (a :: t) ↔ BadOption a ∨ BadOptions t := by
        unfold BadOptions
        rw [List.takeWhile_cons, if_pos (by simpa using h0)]
        simp
      rw [if_neg h0, ht]
      have hmap : ∀ f : Bool × List Str → Bool × List Str, (parseOptions t).map f = none ↔ BadOptions t := by
        intro f
        rw [Option.map_eq_none_iff, ih]
      have hc : ∀ b : Prop, ¬ BadOption a → ((b ↔ BadOptions t) → (b ↔ BadOption a ∨ BadOptions t)) := by
        intro b h1 h2
        rw [h2]
        exact ⟨Or.inr, fun h => h.resolve_left h1⟩
      by_cases h1 : c! "--" <+: a
      · rw [if_pos (List.isPrefixOf_iff_prefix.2 h1)]
        obtain ⟨u, hu⟩ := h1
        have h3 : 2 < a.length := by
          cases u with
          | nil => exact absurd hu.symm h0
          | cons c u => rw [← hu]; simp
        have hh : a.head? = some '-' := by rw [← hu]; rfl
        have hall : ¬ ∀ c ∈ a.tail, c = 'c' := by
          intro h
          have := h '-' (by rw [← hu]; simp)
          revert this
          decide
        by_cases h2 : a <+: c! "--center"
        · rw [if_pos (List.isPrefixOf_iff_prefix.2 h2)]
          exact hc _ (fun h => h.2.2.2 ⟨h3, h2⟩) (hmap _)
        · rw [if_neg (by rwa [List.isPrefixOf_iff_prefix])]
          exact ⟨fun _ => .inl ⟨hh, by omega, hall, fun h => h2 h.2⟩, fun _ => rfl⟩
      · rw [if_neg (by rwa [List.isPrefixOf_iff_prefix])]
        have hcen : ¬ (2 < a.length ∧ a <+: c! "--center") := by
          rintro ⟨h2, h3⟩
          apply h1
          exact List.prefix_of_prefix_length_le (by decide) h3 (by simp; omega)
        by_cases h2 : (c! "-").isPrefixOf a = true ∧ 1 < a.length
        · rw [if_pos h2]
          have hh : a.head? = some '-' := by
            obtain ⟨u, hu⟩ := List.isPrefixOf_iff_prefix.1 h2.1
            rw [← hu]
            rfl
          by_cases h3 : (a.drop 1).all (· = 'c') = true
          · rw [if_pos h3]
            refine hc _ (fun h => h.2.2.1 ?_) (hmap _)
            rw [List.drop_one, List.all_eq_true] at h3
            simpa using h3
          · rw [if_neg h3]
            refine ⟨fun _ => .inl ⟨hh, h2.2, fun h => h3 ?_, hcen⟩, fun _ => rfl⟩
            rw [List.drop_one, List.all_eq_true]
            simpa using h
        · rw [if_neg h2]
          refine hc _ (fun h => h2 ⟨?_, h.2.1⟩) (hmap _)
          obtain ⟨hh, -, -⟩ := h
          cases a with
          | nil => cases hh
          | cons c u =>
            simp only [List.head?_cons, Option.some.injEq] at hh
            rw [List.isPrefixOf_iff_prefix, hh]
            exact ⟨u, rfl⟩

namespace C67

/-- The command asks to exit. -/
def Exits (cmd : Str) : Prop := ∃ args, Says cmd (c! "exit") args ∨ Says cmd (c! "quit") args

/-- `disasm` with an option that it does not have. -/
def Misused (cmd : Str) : Prop := ∃ args, (Says cmd (c! "disasm") args ∨ Says cmd (c! "d") args) ∧ BadOptions args

/-- A `$` command: the Python code after the first character. -/
def Runs (cmd code : Str) : Prop := (∃ a args, WordsOf cmd (a :: args) ∧ a.head? = some '$') ∧ Stripped (cmd.drop 1) code

/-- How a command ends. -/
inductive Ends (python : Python) (w : World) (cmd : Str) : Except Exn Unit → Prop where
  | exit : Exits cmd → Ends python w cmd (.error .toolExit)
  | misused : Misused cmd → Ends python w cmd (.error .systemExit)
  | python {code : Str} : Runs cmd code → (python code w).1 = .error .systemExit → Ends python w cmd (.error .systemExit)
  | normal : ¬ Exits cmd → ¬ Misused cmd → (∀ code, Runs cmd code → (python code w).1 ≠ .error .systemExit) → Ends python w cmd (.ok ())

theorem wordsOf_unique {s : Str} {l m : List Str} (h : WordsOf s l) (h' : WordsOf s m) : l = m := by
  rw [← words_of h, words_of h']

theorem stripped_unique {s t u : Str} (h : Stripped s t) (h' : Stripped s u) : t = u := by
  rw [← strip_of h, strip_of h']

theorem caught_ok {x : ConM Unit} {w : World} (h : ∀ e, (x w).1 = .error e → Caught e) : (catching x w).1 = .ok () := by
  unfold catching
  cases hx : x w with
  | mk r w' =>
    rw [hx] at h
    cases r with
    | ok a => rfl
    | error e =>
      have := h e rfl
      cases e with
      | py e => rfl
      | toolError => rfl
      | toolExit => exact absurd rfl this.1
      | systemExit => exact absurd rfl this.2

theorem registers_no_command : ∀ p ∈ commandList, isRegister p.1 = false ∧ p.1 ≠ c! "?" ∧ p.1 ≠ c! "help" := by decide +kernel

/-- A command of the table. -/
theorem named_command {name : Str} {c : Command} (h : (name, c) ∈ commandList) (args : List Str) : named name args = handle c args := by
  obtain ⟨h1, h2, h3⟩ := registers_no_command _ h
  have h4 : commandList.lookup name = some c := by
    have : ∀ p ∈ commandList, commandList.lookup p.1 = some p.2 := by decide +kernel
    exact this _ h
  unfold named
  simp only at h1 h2 h3
  rw [if_neg (by simp [h2, h3]), if_neg (by simp [h1]), h4]

theorem exit_names : ∀ p ∈ commandList, p.2 = .exit → p.1 = c! "exit" ∨ p.1 = c! "quit" := by decide +kernel
theorem disasm_names : ∀ p ∈ commandList, p.2 = .disasm → p.1 = c! "disasm" ∨ p.1 = c! "d" := by decide +kernel

/-- How a command of the table or an unknown one ends. -/
theorem named_ends (name : Str) (args : List Str) :
    (name ∈ [c! "exit", c! "quit"] ∧ ∀ w, named name args w = (.error .toolExit, w)) ∨
    (name ∈ [c! "disasm", c! "d"] ∧ BadOptions args ∧ ∀ w, named name args w = (.error .systemExit, w)) ∨
    (name ∉ [c! "exit", c! "quit"] ∧ ¬ (name ∈ [c! "disasm", c! "d"] ∧ BadOptions args) ∧ Raises Caught (named name args)) := by
  by_cases h1 : name ∈ [c! "exit", c! "quit"]
  · refine .inl ⟨h1, fun w => ?_⟩
    rw [named_command (c := .exit)]
    · rfl
    · simp only [List.mem_cons, List.not_mem_nil, or_false] at h1
      rcases h1 with rfl | rfl <;> decide +kernel
  by_cases h2 : name ∈ [c! "disasm", c! "d"] ∧ BadOptions args
  · refine .inr (.inl ⟨h2.1, h2.2, fun w => ?_⟩)
    rw [named_command (c := .disasm)]
    · show handleDisasm args w = _
      unfold handleDisasm
      rw [parseOptions_none.2 h2.2]
      rfl
    · have h1 := h2.1
      simp only [List.mem_cons, List.not_mem_nil, or_false] at h1
      rcases h1 with rfl | rfl <;> decide +kernel
  refine .inr (.inr ⟨h1, h2, ?_⟩)
  have hpy : ∀ e, Caught (.py e) := fun e => ⟨by simp, by simp⟩
  unfold named
  split
  · unfold showHelp listCommands
    split
    · exact raises_printAll _
    · exact raises_pure _
  · split
    · exact raises_handleReg hpy (by decide) _
    · split
      · exact raises_print _
      · rename_i c hc
        have hm := lookup_mem hc
        refine raises_handle (fun he => h1 ?_) (fun he hn => h2 ⟨?_, parseOptions_none.1 hn⟩)
        · simpa using exit_names _ hm he
        · simpa using disasm_names _ hm he

/-- **C67.** How every command ends, whatever is typed and whatever the state: with the exit
request exactly for `exit` and `quit`, with `SystemExit` exactly for a `disasm` with a bad
option and for Python code that raises it, normally in every other case. -/
theorem command_ends_partial (python : Python) (cmd : Str) (w : World) (r : Except Exn Unit) :
    (processCommand python cmd w).1 = r ↔ Ends python w cmd r := by
  suffices key : Ends python w cmd (processCommand python cmd w).1 by
    constructor
    · rintro rfl
      exact key
    · intro h
      revert key
      generalize (processCommand python cmd w).1 = r'
      intro h'
      have says : ∀ {n m : Str} {l k : List Str}, Says cmd n l → Says cmd m k → n = m ∧ l = k := by
        rintro n m l k ⟨a, h1, h2⟩ ⟨b, h3, h4⟩
        have := wordsOf_unique h1 h3
        simp only [List.cons.injEq] at this
        obtain ⟨rfl, rfl⟩ := this
        exact ⟨h2.symm.trans h4, rfl⟩
      have d1 : Exits cmd → Misused cmd → False := by
        rintro ⟨l, h1⟩ ⟨k, h2, -⟩
        rcases h1 with h1 | h1 <;> rcases h2 with h2 | h2 <;> exact absurd (says h1 h2).1 (by decide)
      have dollar : ∀ {n : Str} {l : List Str} {code : Str}, Says cmd n l → n.head? ≠ some '$' → Runs cmd code → False := by
        rintro n l code ⟨a, h1, h2⟩ h3 ⟨⟨b, k, h4, h5⟩, -⟩
        have := wordsOf_unique h1 h4
        simp only [List.cons.injEq] at this
        obtain ⟨rfl, rfl⟩ := this
        rw [← h2] at h3
        cases a with
        | nil => cases h5
        | cons c t =>
          simp only [List.head?_cons, Option.some.injEq] at h5
          subst h5
          exact h3 rfl
      have d2 : ∀ {code}, Exits cmd → Runs cmd code → False := by
        rintro code ⟨l, h1⟩ h2
        rcases h1 with h1 | h1 <;> exact dollar h1 (by decide) h2
      have d3 : ∀ {code}, Misused cmd → Runs cmd code → False := by
        rintro code ⟨l, h1, -⟩ h2
        rcases h1 with h1 | h1 <;> exact dollar h1 (by decide) h2
      cases h with
      | exit h =>
        cases h' with
        | exit _ => rfl
        | misused h2 => exact (d1 h h2).elim
        | python h2 _ => exact (d2 h h2).elim
        | normal h2 _ _ => exact absurd h h2
      | misused h =>
        cases h' with
        | exit h2 => exact (d1 h2 h).elim
        | misused h2 => rfl
        | python h2 _ => rfl
        | normal _ h2 _ => exact absurd h h2
      | python h hp =>
        cases h' with
        | exit h2 => exact (d2 h2 h).elim
        | misused h2 => rfl
        | python h2 _ => rfl
        | normal _ _ h2 => exact absurd hp (h2 _ h)
      | normal h1 h2 h3 =>
        cases h' with
        | exit h => exact absurd h h1
        | misused h => exact absurd h h2
        | python h hp => exact absurd hp (h3 _ h)
        | normal => rfl
  cases hw : words cmd with
  | nil =>
    have hw := words_iff.1 hw
    have : (processCommand python cmd w).1 = .ok () := by
      unfold processCommand
      rw [dispatch_none python hw]
      rfl
    rw [this]
    have no : ∀ {a : Str} {l : List Str}, ¬ WordsOf cmd (a :: l) := fun h => by cases wordsOf_unique hw h
    refine .normal ?_ ?_ ?_
    · rintro ⟨l, ⟨a, h, -⟩ | ⟨a, h, -⟩⟩ <;> exact no h
    · rintro ⟨l, ⟨a, h, -⟩ | ⟨a, h, -⟩, -⟩ <;> exact no h
    · rintro code ⟨⟨a, l, h, -⟩, -⟩
      exact (no h).elim
  | cons a args =>
    have hw := words_iff.1 hw
    have uniq : ∀ {b : Str} {l : List Str}, WordsOf cmd (b :: l) → b = a ∧ l = args := fun h => by
      have := wordsOf_unique h hw
      simpa using this
    by_cases hd : a.head? = some '$'
    · have hne : ∀ {b : Str} {l : List Str} {n : Str}, n.head? ≠ some '$' → WordsOf cmd (b :: l) → small b ≠ n := by
        intro b l n hn h e
        obtain ⟨rfl, -⟩ := uniq h
        rw [← e] at hn
        cases b with
        | nil => cases hd
        | cons c t =>
          simp only [List.head?_cons, Option.some.injEq] at hd
          subst hd
          exact hn rfl
      have hruns : Runs cmd (strip (cmd.drop 1)) := ⟨⟨a, args, hw, hd⟩, strip_iff.1 rfl⟩
      have hr : processCommand python cmd = catching (handlePython python (strip (cmd.drop 1))) := by
        unfold processCommand
        rw [dispatch_python python hw hd]
      by_cases hp : (python (strip (cmd.drop 1)) w).1 = .error .systemExit
      · have : (processCommand python cmd w).1 = .error .systemExit := by
          rw [hr]
          unfold catching handlePython
          cases hx : python (strip (cmd.drop 1)) w with
          | mk r w' =>
            rw [hx] at hp
            simp only at hp
            subst hp
            rfl
        rw [this]
        exact .python hruns hp
      · have : (processCommand python cmd w).1 = .ok () := by
          rw [hr]
          unfold catching handlePython
          cases hx : python (strip (cmd.drop 1)) w with
          | mk r w' =>
            rw [hx] at hp
            cases r with
            | ok a => rfl
            | error e =>
              cases e with
              | systemExit => exact absurd rfl hp
              | _ => rfl
        rw [this]
        refine .normal ?_ ?_ ?_
        · rintro ⟨l, ⟨b, h1, h2⟩ | ⟨b, h1, h2⟩⟩ <;> exact hne (by decide) h1 h2
        · rintro ⟨l, ⟨b, h1, h2⟩ | ⟨b, h1, h2⟩, -⟩ <;> exact hne (by decide) h1 h2
        · intro code hc
          rw [stripped_unique hc.2 hruns.2]
          exact hp
    · have hnr : ∀ code, ¬ Runs cmd code := by
        rintro code ⟨⟨b, l, h1, h2⟩, -⟩
        obtain ⟨rfl, -⟩ := uniq h1
        exact hd h2
      have hr : processCommand python cmd = catching (named (lower a) args) := by
        unfold processCommand
        rw [dispatch_named python hw hd]
      rw [hr]
      rcases named_ends (lower a) args with ⟨h1, h2⟩ | ⟨h1, h2, h3⟩ | ⟨h1, h2, h3⟩
      · have : (catching (named (lower a) args) w).1 = .error .toolExit := by
          unfold catching
          rw [h2]
        rw [this]
        refine .exit ⟨args, ?_⟩
        simp only [List.mem_cons, List.not_mem_nil, or_false] at h1
        rcases h1 with h1 | h1
        · exact .inl ⟨a, hw, h1⟩
        · exact .inr ⟨a, hw, h1⟩
      · have : (catching (named (lower a) args) w).1 = .error .systemExit := by
          unfold catching
          rw [h3]
        rw [this]
        refine .misused ⟨args, ?_, h2⟩
        simp only [List.mem_cons, List.not_mem_nil, or_false] at h1
        rcases h1 with h1 | h1
        · exact .inl ⟨a, hw, h1⟩
        · exact .inr ⟨a, hw, h1⟩
      · rw [caught_ok (h3 w)]
        refine .normal ?_ ?_ fun code h => absurd h (hnr code)
        · rintro ⟨l, ⟨b, h4, h5⟩ | ⟨b, h4, h5⟩⟩ <;> obtain ⟨rfl, rfl⟩ := uniq h4 <;> rw [lower_small, h5] at h1 <;> exact h1 (by decide)
        · rintro ⟨l, ⟨b, h4, h5⟩ | ⟨b, h4, h5⟩, h6⟩ <;> obtain ⟨rfl, rfl⟩ := uniq h4 <;> rw [lower_small, h5] at h2 <;>
            exact h2 ⟨by decide, h6⟩

/-- A command of the table runs its method. -/
theorem command_runs (python : Python) {cmd name : Str} {args : List Str} {c : Command} (h : Says cmd name args) (hc : (name, c) ∈ commandList) :
    processCommand python cmd = catching (handle c args) := by
  obtain ⟨a, h1, h2⟩ := h
  have hd : a.head? ≠ some '$' := by
    intro hd
    have : ∀ p ∈ commandList, p.1.head? ≠ some '$' := by decide +kernel
    apply this _ hc
    rw [← h2]
    cases a with
    | nil => cases hd
    | cons x t =>
      simp only [List.head?_cons, Option.some.injEq] at hd
      subst hd
      rfl
  unfold processCommand
  rw [dispatch_named python h1 hd, lower_small, h2, named_command hc]

/-- Python code that does not end the program by itself. -/
def Tame (python : Python) : Prop := ∀ code w, (python code w).1 ≠ .error .systemExit

/-- The command lets the console go on. -/
def GoesOn (cmd : Str) : Prop := ¬ Exits cmd ∧ ¬ Misused cmd

theorem goes_on {python : Python} (hp : Tame python) {cmd : Str} (h : GoesOn cmd) (w : World) : (processCommand python cmd w).1 = .ok () :=
  (command_ends_partial python cmd w _).2 (.normal h.1 h.2 fun code _ => hp code w)

/-- **C67.** What the property says, for commands that are not a `disasm` with a bad option:
only the exit request leaves the command processor. -/
theorem survives_partial {python : Python} (hp : Tame python) {cmd : Str} (h : ¬ Misused cmd) (w : World) :
    (processCommand python cmd w).1 = .ok () ∨ (processCommand python cmd w).1 = .error .toolExit := by
  by_cases he : Exits cmd
  · exact .inr ((command_ends_partial python cmd w _).2 (.exit he))
  · exact .inl (goes_on hp ⟨he, h⟩ w)

/-- A `$` command without effect. -/
def noPython : Python := fun _ w => (.ok (), w)

theorem noPython_tame : Tame noPython := fun _ _ h => by cases h

/-- `disasm -4` -/
theorem misused_disasm : Misused (c! "disasm -4") :=
  ⟨[c! "-4"], .inl ⟨c! "disasm", words_iff.1 (by decide), by decide⟩, ⟨_, List.mem_cons_self, by decide⟩⟩

/-- **C67.** The full claim is false: `disasm -4` ends the program. -/
theorem full_claim_false : ∃ cmd : Str, ∀ python w, (processCommand python cmd w).1 = .error .systemExit :=
  ⟨c! "disasm -4", fun python w => (command_ends_partial python _ w _).2 (.misused misused_disasm)⟩

theorem processCommands_append (python : Python) (l m : List Str) (w : World) :
    processCommands python (l ++ m) w = match processCommands python l w with
      | (.ok (), w') => processCommands python m w'
      | (.error e, w') => (.error e, w') := by
  induction l generalizing w with
  | nil => rfl
  | cons c t ih =>
    show (processCommand python c >>= fun _ => processCommands python (t ++ m)) w =
      match (processCommand python c >>= fun _ => processCommands python t) w with
      | (.ok (), w') => processCommands python m w'
      | (.error e, w') => (.error e, w')
    rw [ConM.bind_def, ConM.bind_def]
    cases processCommand python c w with
    | mk r w' =>
      cases r with
      | ok a => exact ih w'
      | error e => rfl

theorem commands_go_on {python : Python} (hp : Tame python) : ∀ {l : List Str}, (∀ c ∈ l, GoesOn c) → ∀ w, (processCommands python l w).1 = .ok ()
  | [], _, _ => rfl
  | c :: t, h, w => by
    show ((processCommand python c >>= fun _ => processCommands python t) w).1 = _
    rw [ConM.bind_def]
    have h1 := goes_on hp (h c List.mem_cons_self) w
    cases hc : processCommand python c w with
    | mk r w' =>
      rw [hc] at h1
      simp only at h1
      subst h1
      exact commands_go_on hp (fun x hx => h x (List.mem_cons_of_mem _ hx)) w'

/-- **C67.** A line with several commands: it ends normally if each of them does; at the
first one that does not, the line ends with its exception, in the state after that command. -/
theorem line_ends_partial {python : Python} (hp : Tame python) {line : Str} {l : List Str} (h : Parts line l) (w : World) :
    ((∀ c ∈ l, GoesOn c) → (processCommandLine python line w).1 = .ok ()) ∧
    ∀ pre c post, l = pre ++ c :: post → (∀ x ∈ pre, GoesOn x) →
      (Exits c → processCommandLine python line w = (.error .toolExit, (processCommands python (pre ++ [c]) w).2)) ∧
      (Misused c → processCommandLine python line w = (.error .systemExit, (processCommands python (pre ++ [c]) w).2)) := by
  unfold processCommandLine
  rw [parts_of h]
  refine ⟨fun h' => commands_go_on hp h' w, ?_⟩
  rintro pre c post rfl hpre
  rw [processCommands_append, processCommands_append]
  have h1 := commands_go_on hp hpre w
  cases hw : processCommands python pre w with
  | mk r w' =>
    rw [hw] at h1
    simp only at h1
    subst h1
    simp only
    have key : ∀ e, (processCommand python c w').1 = .error e →
        processCommands python (c :: post) w' = (.error e, (processCommands python [c] w').2) := by
      intro e he
      show (processCommand python c >>= fun _ => processCommands python post) w' = (_, ((processCommand python c >>= fun _ => processCommands python []) w').2)
      rw [ConM.bind_def, ConM.bind_def]
      cases hc : processCommand python c w' with
      | mk r w'' =>
        rw [hc] at he
        simp only at he
        subst he
        rfl
    exact ⟨fun hx => key _ ((command_ends_partial python c w' _).2 (.exit hx)),
      fun hx => key _ ((command_ends_partial python c w' _).2 (.misused hx))⟩

/-- The line as a whole and all its parts let the console go on. -/
def LineGoesOn (line : Str) : Prop := GoesOn line ∧ ∀ l, Parts line l → ∀ c ∈ l, GoesOn c

theorem line_goes_on {python : Python} (hp : Tame python) {line : Str} (h : LineGoesOn line) (w : World) :
    (processCommandLine python line w).1 = .ok () :=
  (line_ends_partial hp (parts line) w).1 (h.2 _ (parts line))

theorem session_goes_on {python : Python} (hp : Tame python) : ∀ {lines : List Str}, (∀ l ∈ lines, ∀ t, Stripped l t → LineGoesOn t) →
    ∀ {last : Str}, (last ≠ [] → GoesOn last) → ∀ w, (session python lines last w).1 = .ok ()
  | [], _, _, _, _ => rfl
  | l :: ls, h, last, hlast, w => by
    have hl := h l List.mem_cons_self _ (strip_iff.1 rfl)
    have ht : ∀ x ∈ ls, ∀ t, Stripped x t → LineGoesOn t := fun x hx => h x (List.mem_cons_of_mem _ hx)
    unfold session
    simp only
    split
    · rw [ConM.bind_def]
      have h1 := line_goes_on hp hl w
      cases hc : processCommandLine python (strip l) w with
      | mk r w' =>
        rw [hc] at h1
        simp only at h1
        subst h1
        exact session_goes_on hp ht (fun _ => hl.1) w'
    · split
      · rename_i hne
        rw [ConM.bind_def]
        have h1 := goes_on hp (hlast hne) w
        cases hc : processCommand python last w with
        | mk r w' =>
          rw [hc] at h1
          simp only at h1
          subst h1
          exact session_goes_on hp ht hlast w'
      · exact session_goes_on hp ht hlast w

theorem command_exn (python : Python) (cmd : Str) (w : World) (e : Exn) (h : (processCommand python cmd w).1 = .error e) :
    e = .toolExit ∨ e = .systemExit := by
  cases (command_ends_partial python cmd w _).1 h with
  | exit => exact .inl rfl
  | misused => exact .inr rfl
  | python => exact .inr rfl

theorem commands_exn (python : Python) : ∀ l : List Str, Raises (fun e => e = .toolExit ∨ e = .systemExit) (processCommands python l)
  | [] => raises_pure _
  | c :: t => raises_bind (fun w e he => command_exn python c w e he) fun _ => commands_exn python t

theorem session_exn (python : Python) : ∀ (lines : List Str) (last : Str), Raises (fun e => e = .toolExit ∨ e = .systemExit) (session python lines last)
  | [], _ => raises_print _
  | l :: ls, last => by
    unfold session
    simp only
    split
    · exact raises_bind (commands_exn python _) fun _ => session_exn python ls _
    · split
      · exact raises_bind (fun w e he => command_exn python last w e he) fun _ => session_exn python ls _
      · exact session_exn python ls _

/-- **C67.** The whole program, whatever the binary file and the lines typed: it ends with
exit code 0 or, after a `disasm` with a bad option or Python code that asks for it, with
`SystemExit`. If no line typed has such an option, it ends with exit code 0. -/
theorem run_ends_partial (python : Python) {binary : List Nat} (hb : ∀ b ∈ binary, b < 256) (hl : binary.length ≤ 0x1fff8000)
    (lines : List Str) :
    ((Console.run python binary lines).1 = .ok 0 ∨ (Console.run python binary lines).1 = .error .systemExit) ∧
    (Tame python → (∀ l ∈ lines, ∀ t, Stripped l t → LineGoesOn t) → (Console.run python binary lines).1 = .ok 0) := by
  obtain ⟨s, -, -, -, hst⟩ := start_ok hb hl []
  have hbody : ∃ w, toolBody python binary lines ⟨Machine.new, []⟩ = session python lines [] w := by
    unfold toolBody
    rw [ConM.bind_def] at hst
    rw [ConM.bind_def]
    cases hc : cpu (createSim binary) ⟨Machine.new, []⟩ with
    | mk r w =>
      rw [hc] at hst
      cases r with
      | error e => cases hst
      | ok u =>
        simp only at hst
        simp only
        rw [ConM.bind_ok hst]
        exact ⟨_, rfl⟩
  obtain ⟨w, hw⟩ := hbody
  unfold Console.run
  rw [hw]
  refine ⟨?_, fun hp hg => ?_⟩
  · have h := session_exn python lines [] w
    cases hs : session python lines [] w with
    | mk r w' =>
      rw [hs] at h
      cases r with
      | ok u => exact .inl rfl
      | error e =>
        rcases h e rfl with rfl | rfl
        · exact .inl rfl
        · exact .inr rfl
  · have h := session_goes_on hp hg (last := []) (fun h => absurd rfl h) w
    cases hs : session python lines [] w with
    | mk r w' =>
      rw [hs] at h
      simp only at h
      subst h
      rfl

theorem goesOn_of {cmd a : Str} {args : List Str} (h : words cmd = a :: args) (hn : small a ∉ [c! "exit", c! "quit", c! "disasm", c! "d"]) :
    GoesOn cmd := by
  have hw := words_iff.1 h
  constructor
  · rintro ⟨l, ⟨b, h1, h2⟩ | ⟨b, h1, h2⟩⟩ <;> cases wordsOf_unique hw h1 <;> rw [h2] at hn <;> exact hn (by decide)
  · rintro ⟨l, ⟨b, h1, h2⟩ | ⟨b, h1, h2⟩, -⟩ <;> cases wordsOf_unique hw h1 <;> rw [h2] at hn <;> exact hn (by decide)

/-- A command that does not exist, then one with an argument missing. -/
example (w : World) : (processCommandLine noPython (c! "jump 5; wreg R1;Read8 zz") w).1 = .ok () :=
  (line_ends_partial noPython_tame (parts _) w).1 (by
    have : splitBy (· = ';') (c! "jump 5; wreg R1;Read8 zz") = [c! "jump 5", c! " wreg R1", c! "Read8 zz"] := by decide
    rw [this]
    intro c hc
    simp only [List.mem_cons, List.not_mem_nil, or_false] at hc
    rcases hc with rfl | rfl | rfl
    · exact goesOn_of (a := c! "jump") (args := [c! "5"]) (by decide) (by decide)
    · exact goesOn_of (a := c! "wreg") (args := [c! "R1"]) (by decide) (by decide)
    · exact goesOn_of (a := c! "Read8") (args := [c! "zz"]) (by decide) (by decide))

/-- `EXIT` in capital letters, with an argument. -/
example (w : World) : (processCommand noPython (c! " EXIT now") w).1 = .error .toolExit :=
  (command_ends_partial _ _ _ _).2 (.exit ⟨[c! "now"], .inl ⟨c! "EXIT", words_iff.1 (by decide), by decide⟩⟩)

/-- `disasm 0; -4` is two harmless commands; repeated with an empty line it is one command
with a bad option and ends the program. -/
example : (∀ w, (processCommandLine noPython (c! "disasm 0; -4") w).1 = .ok ()) ∧
    ∀ w, (session noPython [c! "disasm 0; -4", []] [] w).1 = .error .systemExit := by
  have h1 : splitBy (· = ';') (c! "disasm 0; -4") = [c! "disasm 0", c! " -4"] := by decide
  have hg : ∀ c ∈ [c! "disasm 0", c! " -4"], GoesOn c := by
    intro c hc
    simp only [List.mem_cons, List.not_mem_nil, or_false] at hc
    rcases hc with rfl | rfl
    · have hw : WordsOf (c! "disasm 0") [c! "disasm", c! "0"] := words_iff.1 (by decide)
      constructor
      · rintro ⟨l, ⟨b, h1, h2⟩ | ⟨b, h1, h2⟩⟩ <;> cases wordsOf_unique hw h1 <;> exact absurd h2 (by decide)
      · rintro ⟨l, ⟨b, h1, h2⟩ | ⟨b, h1, h2⟩, h3⟩ <;> cases wordsOf_unique hw h1 <;>
          exact absurd (parseOptions_none.2 h3) (by decide)
    · exact goesOn_of (a := c! "-4") (args := []) (by decide) (by decide)
  have hline : ∀ w, (processCommandLine noPython (c! "disasm 0; -4") w).1 = .ok () := fun w =>
    (line_ends_partial noPython_tame (parts _) w).1 (by rw [h1]; exact hg)
  refine ⟨hline, fun w => ?_⟩
  have hs : strip (c! "disasm 0; -4") = c! "disasm 0; -4" := by decide
  have hm : Misused (c! "disasm 0; -4") :=
    ⟨[c! "0;", c! "-4"], .inl ⟨c! "disasm", words_iff.1 (by decide), by decide⟩, parseOptions_none.1 (by decide)⟩
  unfold session
  simp only [hs]
  rw [if_pos (by decide), ConM.bind_def]
  have h2 := hline w
  cases hc : processCommandLine noPython (c! "disasm 0; -4") w with
  | mk r w' =>
    rw [hc] at h2
    simp only at h2
    subst h2
    simp only
    unfold session
    simp only [show strip ([] : Str) = [] from rfl]
    rw [if_neg (by simp), if_pos (by decide), ConM.bind_def]
    have h3 := (command_ends_partial noPython (c! "disasm 0; -4") w' _).2 (.misused hm)
    cases hd : processCommand noPython (c! "disasm 0; -4") w' with
    | mk r w'' =>
      rw [hd] at h3
      simp only at h3
      subst h3
      rfl

/-- A whole run: the file of the vector table, one line that asks for a register that does
not exist. -/
example : (Console.run noPython [0, 0, 1, 0x20, 9, 0, 0, 0] [c! "reg r99"]).1 = .ok 0 :=
  (run_ends_partial noPython (by decide) (by decide) _).2 noPython_tame (by
    intro l hl t ht
    simp only [List.mem_cons, List.not_mem_nil, or_false] at hl
    subst hl
    have : t = c! "reg r99" := by rw [← strip_of ht]; decide
    subst this
    have hg : GoesOn (c! "reg r99") := goesOn_of (a := c! "reg") (args := [c! "r99"]) (by decide) (by decide)
    refine ⟨hg, fun l hp c hc => ?_⟩
    rw [← parts_of hp] at hc
    have : splitBy (· = ';') (c! "reg r99") = [c! "reg r99"] := by decide
    rw [this, List.mem_singleton] at hc
    rw [hc]
    exact hg)

end C67
end Verif
