import Verif.Props.C71

/-!
# C75: commands that only show something
-/

namespace Verif
open Console Typed BS

namespace C75

/-- The commands that may change the machine. -/
def changing : List Str := [c! "wreg", c! "step", c! "s",
  c! "write", c! "write8", c! "write16", c! "write32", c! "w", c! "wb", c! "w16", c! "wh", c! "w32", c! "ww"]

/-- The command is one of those, or Python code. -/
def MayChange (cmd : Str) : Prop := ∃ a args, WordsOf cmd (a :: args) ∧ (small a ∈ changing ∨ a.head? = some '$')

theorem keeps_catching {x : ConM Unit} (h : Keeps x) : Keeps (catching x) := by
  intro w
  have := h w
  unfold catching
  split
  · rename_i hx; rw [hx] at this; exact this
  · rename_i hx; rw [hx] at this; exact this
  · rename_i hx; rw [hx] at this; exact this
  · exact this

theorem adds_catching {x : ConM Unit} (h : Adds x) : Adds (catching x) := by
  intro w
  have := h w
  unfold catching
  split
  · rename_i hx; rw [hx] at this; exact this
  · rename_i hx; rw [hx] at this; exact this
  · rename_i hx; rw [hx] at this; exact this.trans (List.prefix_append _ _)
  · exact this

theorem changing_names : ∀ p ∈ commandList, p.2.Shows = false → p.1 ∈ changing := by decide +kernel

theorem keeps_named {name : Str} (h : name ∉ changing) (args : List Str) : Keeps (named name args) := by
  unfold named
  split
  · unfold showHelp listCommands
    split
    · exact keeps_printAll _
    · exact keeps_pure _
  · split
    · exact keeps_handleReg _
    · split
      · exact keeps_print _
      · rename_i c hc
        refine keeps_handle _ ?_
        cases hs : c.Shows with
        | true => rfl
        | false => exact absurd (changing_names _ (lookup_mem hc) hs) h

theorem adds_named (name : Str) (args : List Str) : Adds (named name args) := by
  unfold named
  split
  · unfold showHelp listCommands
    split
    · exact adds_printAll _
    · exact adds_pure _
  · split
    · exact adds_handleReg _
    · split
      · exact adds_print _
      · exact adds_handle _ _

theorem words_cases (cmd : Str) : WordsOf cmd [] ∨ ∃ a args, WordsOf cmd (a :: args) := by
  cases h : words cmd with
  | nil => exact .inl (words_iff.1 h)
  | cons a l => exact .inr ⟨a, l, words_iff.1 h⟩

/-- **C75.** Every command but `wreg`, `step`, `write…` and Python code leaves registers and
memory as they are, whatever its arguments, also if it fails. -/
theorem inspection (python : Python) {cmd : Str} (h : ¬ MayChange cmd) (w : World) : (processCommand python cmd w).2.cpu = w.cpu := by
  unfold processCommand
  refine keeps_catching ?_ w
  rcases words_cases cmd with h1 | ⟨a, args, h1⟩
  · rw [dispatch_none python h1]
    exact keeps_raise _
  · have hd : a.head? ≠ some '$' := fun hd => h ⟨a, args, h1, .inr hd⟩
    rw [dispatch_named python h1 hd, lower_small]
    exact keeps_named (fun hc => h ⟨a, args, h1, .inl hc⟩) _

/-- Python code that does not take back what was printed. -/
def Prints (python : Python) : Prop := ∀ code, Adds (python code)

theorem adds_command {python : Python} (hp : Prints python) (cmd : Str) : Adds (processCommand python cmd) := by
  unfold processCommand
  refine adds_catching ?_
  rcases words_cases cmd with h1 | ⟨a, args, h1⟩
  · rw [dispatch_none python h1]
    exact adds_raise _
  · by_cases hd : a.head? = some '$'
    · rw [dispatch_python python h1 hd]
      intro w
      have := hp (strip (cmd.drop 1)) w
      unfold handlePython
      split
      · rename_i hx; rw [hx] at this; exact this
      · rename_i hx; rw [hx] at this; exact this.trans (List.prefix_append _ _)
      · exact this
    · rw [dispatch_named python h1 hd]
      exact adds_named _ _

theorem adds_commands {python : Python} (hp : Prints python) : ∀ l : List Str, Adds (processCommands python l)
  | [] => adds_pure _
  | c :: t => adds_bind (adds_command hp c) fun _ => adds_commands hp t

/-- **C75.** Nothing that is typed removes anything printed before. -/
theorem output_grows {python : Python} (hp : Prints python) : ∀ (lines : List Str) (last : Str), Adds (session python lines last)
  | [], _ => adds_print _
  | l :: ls, last => by
    unfold session
    simp only
    split
    · exact adds_bind (adds_commands hp _) fun _ => output_grows hp ls _
    · split
      · exact adds_bind (adds_command hp _) fun _ => output_grows hp ls _
      · exact output_grows hp ls _

/-- A line whose commands only show something. -/
theorem keeps_commands {python : Python} : ∀ {l : List Str}, (∀ c ∈ l, ¬ MayChange c) → Keeps (processCommands python l)
  | [], _ => keeps_pure _
  | _ :: _, h => keeps_bind (fun w => inspection python (h _ List.mem_cons_self) w) fun _ => keeps_commands fun d hd => h d (List.mem_cons_of_mem _ hd)

/-- **C75.** A whole session of such lines leaves the machine as it is. -/
theorem session_keeps {python : Python} : ∀ {lines : List Str} {last : Str},
    (∀ l ∈ lines, ∀ t, Stripped l t → ¬ MayChange t ∧ ∀ cs, Parts t cs → ∀ c ∈ cs, ¬ MayChange c) → (last ≠ [] → ¬ MayChange last) →
    Keeps (session python lines last)
  | [], _, _, _ => keeps_print _
  | l :: ls, last, h, hl => by
    have hs := h l List.mem_cons_self _ (strip_iff.1 rfl)
    have ht := fun m hm => h m (List.mem_cons_of_mem _ hm)
    unfold session
    simp only
    split
    · refine keeps_bind ?_ fun _ => session_keeps ht fun _ => hs.1
      exact keeps_commands (hs.2 _ (parts _))
    · split
      · rename_i hn
        exact keeps_bind (fun w => inspection python (hl hn) w) fun _ => session_keeps ht hl
      · exact session_keeps ht hl

theorem not_mayChange {cmd a : Str} {args : List Str} (h : words cmd = a :: args) (hn : small a ∉ changing) (hd : a.head? ≠ some '$') :
    ¬ MayChange cmd := by
  rintro ⟨b, l, h1, h2⟩
  have := C67.wordsOf_unique (words_iff.1 h) h1
  simp only [List.cons.injEq] at this
  obtain ⟨rfl, rfl⟩ := this
  rcases h2 with h2 | h2
  · exact hn h2
  · exact hd h2

/-- The names of the levels of the logging module. -/
def logLevels : List Str := [c! "debug", c! "info", c! "warning", c! "error", c! "critical"]

/-- What `log` prints. -/
def logAnswer : List Str → List Output
  | [] => [.line (c! "Error: no log level provided")]
  | a :: _ => if small a ∈ logLevels then [] else [.line (c! "Error: log level must be one of {}")]

/-- **C75.** `log` with a level, in small or capital letters, prints nothing; with anything else, or with
nothing, it prints one line that says so. The machine stays as it is. -/
theorem log (python : Python) (w : World) {cmd : Str} {args : List Str} (h : Says cmd (c! "log") args) :
    processCommand python cmd w =
      (.ok (), { w with out := w.out ++ logAnswer args }) := by
  rw [C67.command_runs python h (c := .log) (by decide)]
  have : handle .log args w = (.ok (), { w with out := w.out ++ logAnswer args }) := by
    show handleLog args w = _
    cases args with
    | nil => rfl
    | cons a rest =>
      rw [handleLog, lower_small, logAnswer]
      by_cases hl : small a ∈ logLevels
      · rw [if_pos (show levels.contains (small a) = true from List.contains_iff_mem.2 hl), if_pos hl, List.append_nil]
        rfl
      · rw [if_neg (show ¬ levels.contains (small a) = true from fun hc => hl (List.contains_iff_mem.1 hc)), if_neg hl]
        rfl
  unfold catching
  rw [this]

/-- `LOG Warning` is accepted, `log warn` is not. -/
example (w : World) : processCommand C67.noPython (c! "LOG Warning") w = (.ok (), w) := by
  have := log C67.noPython w (cmd := c! "LOG Warning") (args := [c! "Warning"]) ⟨c! "LOG", words_iff.1 (by decide), by decide⟩
  rw [this, logAnswer, if_pos (show small (c! "Warning") ∈ logLevels by decide), List.append_nil]

example (w : World) : (processCommand C67.noPython (c! "log warn") w).2.out = w.out ++ [.line (c! "Error: log level must be one of {}")] := by
  rw [log C67.noPython w (cmd := c! "log warn") (args := [c! "warn"]) ⟨c! "log", words_iff.1 (by decide), by decide⟩,
    logAnswer, if_neg (show small (c! "warn") ∉ logLevels by decide)]

/-- A dump with an argument that does not exist, and `wreg`, which does change something. -/
example (w : World) : (processCommand C67.noPython (c! "Read32 [r0,4] zz") w).2.cpu = w.cpu :=
  inspection _ (not_mayChange (a := c! "Read32") (args := [c! "[r0,4]", c! "zz"]) (by decide) (by decide) (by decide)) w

example : (processCommand C67.noPython (c! "wreg r3 7") ⟨Machine.new, []⟩).2.cpu.regs (some 3) = some 7 := by decide +kernel

end C75
end Verif
