import Verif.Props.C67

/-!
# C79, C80: the console's help, and repeating a line
-/

namespace Verif
open Console Typed

namespace C79

/-- The commands that the console has, besides the names of registers. -/
def existing : List Str := [
  c! "disasm", c! "d", c! "exit", c! "quit", c! "help", c! "?", c! "info", c! "i", c! "log", c! "read16", c! "r16", c! "rh",
  c! "read32", c! "r32", c! "rw", c! "read8", c! "read", c! "r", c! "rb", c! "reg", c! "reset", c! "step", c! "s", c! "wreg",
  c! "write16", c! "w16", c! "wh", c! "write32", c! "w32", c! "ww", c! "write8", c! "write", c! "w", c! "wb", c! "map"]

/-- The message for a command that does not exist. -/
def unrecognized (name : Str) : Output := .line (c! "Error: unrecognized command '" ++ name ++ c! "'")

/-- **C79.** A word that is none of these commands, no register and no Python expression gives
the message, and nothing else happens. -/
theorem unknown (python : Python) {cmd name : Str} {args : List Str} (h : Says cmd name args) (hp : name.head? ≠ some '$')
    (hn : name ∉ existing) (hr : isRegister name = false) (w : World) :
    processCommand python cmd w = (.ok (), { w with out := w.out ++ [unrecognized name] }) := by
  obtain ⟨a, h1, rfl⟩ := h
  have hd : a.head? ≠ some '$' := by
    intro hd
    apply hp
    cases a with
    | nil => cases hd
    | cons x t =>
      simp only [List.head?_cons, Option.some.injEq] at hd
      subst hd
      rfl
  have key : ∀ {n : Str}, n ∉ existing → commandList.lookup n = none := by
    intro n h
    cases hl : commandList.lookup n with
    | none => rfl
    | some c =>
      exfalso
      have hm := lookup_mem hl
      have : ∀ p ∈ commandList, p.1 ∈ existing := by decide +kernel
      exact h (this _ hm)
  unfold processCommand catching
  rw [dispatch_named python h1 hd, lower_small]
  unfold named
  rw [if_neg, hr, if_neg (by decide), key hn]
  · rfl
  · rintro (h | h) <;> exact hn (by rw [h]; decide)

/-- **C79.** Each of them exists: it runs a method of the tool, or shows the help. -/
theorem known (python : Python) {cmd name : Str} {args : List Str} (h : Says cmd name args) (hn : name ∈ existing) :
    (∃ c, (name, c) ∈ commandList ∧ processCommand python cmd = catching (handle c args)) ∨
      (name ∈ [c! "help", c! "?"] ∧ processCommand python cmd = catching (showHelp args)) := by
  have : ∀ n ∈ existing, n ∈ [c! "help", c! "?"] ∨ ∃ p ∈ commandList, p.1 = n := by decide +kernel
  rcases this _ hn with h1 | ⟨⟨n, c⟩, h1, rfl⟩
  · refine .inr ⟨h1, ?_⟩
    obtain ⟨a, h2, rfl⟩ := h
    have hd : a.head? ≠ some '$' := by
      intro hd
      cases a with
      | nil => cases hd
      | cons x t =>
        simp only [List.head?_cons, Option.some.injEq] at hd
        subst hd
        have h3 : small ('$' :: t) = '$' :: small t := rfl
        rw [h3] at h1
        simp at h1
    unfold processCommand
    rw [dispatch_named python h2 hd, lower_small]
    unfold named
    rw [if_pos (by simp only [List.mem_cons, List.not_mem_nil, or_false] at h1; exact h1.symm)]
  · exact .inl ⟨c, h1, C67.command_runs python h h1⟩

/-- The names at the beginning of a line of the help, separated by commas. -/
def namesOf (l : Str) : List Str := (Reader.split ',' (l.take 25)).map fun s => s.filter (· ≠ ' ')

/-- The names that the help shows. -/
def documented : List Str := [
  c! "d", c! "disasm", c! "exit", c! "quit", c! "?", c! "help", c! "i", c! "info", c! "log", c! "r16", c! "read16", c! "rh",
  c! "r32", c! "read32", c! "rw", c! "r", c! "rb", c! "read", c! "read8", c! "reg", c! "reset", c! "stat", c! "status", c! "s", c! "step",
  c! "wreg", c! "w16", c! "wh", c! "write16", c! "w32", c! "write32", c! "ww", c! "w", c! "wb", c! "write", c! "write8"]

/-- **C79.** `help` shows two lines of heading, a line for each command that begins with its
names, and three lines of text. Nothing else happens. -/
theorem help (python : Python) {cmd name : Str} (h : Says cmd name []) (hn : name ∈ [c! "help", c! "?"]) (w : World) :
    ∃ head lines rest : List Str, processCommand python cmd w = (.ok (), { w with out := w.out ++ (head ++ lines ++ rest).map .line }) ∧
      head.length = 2 ∧ rest.length = 3 ∧ lines.flatMap namesOf = documented := by
  have hx : name ∈ existing := by
    clear h
    revert hn
    revert name
    decide +kernel
  have hp : processCommand python cmd = catching (showHelp []) := by
    rcases known python h hx with ⟨c, h1, -⟩ | ⟨-, h1⟩
    · have := (C67.registers_no_command _ h1).2
      simp only [List.mem_cons, List.not_mem_nil, or_false] at hn
      rcases hn with hn | hn
      · exact absurd hn this.2
      · exact absurd hn this.1
    · exact h1
  refine ⟨[c! "Commands:", c! "---------"], commandInfo.map infoLine,
    [[], c! "All register names are also available as commands that print the register's value.",
      c! "Any ADDR or LEN argument will accept a register name."], ?_, rfl, rfl, by decide +kernel⟩
  rw [hp]
  rfl

/-- **C79.** The names that are shown exist, except `status` and `stat`. -/
theorem documented_exist_partial : ∀ n ∈ documented, n ≠ c! "status" → n ≠ c! "stat" → n ∈ existing := by decide +kernel

/-- **C79.** The names that exist are shown, except `map`. -/
theorem existing_documented_partial : ∀ n ∈ existing, n ≠ c! "map" → n ∈ documented := by decide +kernel

/-- **C79.** The full claim is false: `status` is in the list of commands, and it does not exist. -/
theorem full_claim_false : c! "status" ∈ documented ∧ c! "stat" ∈ documented ∧ ∀ python w,
    processCommand python (c! "status") w = (.ok (), { w with out := w.out ++ [unrecognized (c! "status")] }) ∧
    processCommand python (c! "stat") w = (.ok (), { w with out := w.out ++ [unrecognized (c! "stat")] }) ∧
    c! "map" ∉ documented ∧ processCommand python (c! "map") w = (.ok (), w) := by
  refine ⟨by decide +kernel, by decide +kernel, fun python w => ⟨?_, ?_, by decide +kernel, ?_⟩⟩
  · exact unknown python (args := []) ⟨c! "status", words_iff.1 (by decide), by decide⟩ (by decide) (by decide +kernel) (by decide +kernel) w
  · exact unknown python (args := []) ⟨c! "stat", words_iff.1 (by decide), by decide⟩ (by decide) (by decide +kernel) (by decide +kernel) w
  · rw [C67.command_runs python (name := c! "map") (args := []) (c := .map) ⟨c! "map", words_iff.1 (by decide), by decide⟩ (by decide +kernel)]
    rfl

/-- The line for `read16`. -/
example : infoLine (c! "read16", [c! "r16", c! "rh"], c! "ADDR [LEN]", c! "Read 16-bit halfwords") =
      c! "r16, read16, rh           ADDR [LEN]           Read 16-bit halfwords" ∧
    namesOf (c! "r16, read16, rh           ADDR [LEN]           Read 16-bit halfwords") = [c! "r16", c! "read16", c! "rh"] := by decide +kernel

end C79

namespace C80

/-- A line that is not empty. -/
theorem session_line (python : Python) {l t : Str} (h : Stripped l t) (hn : t ≠ []) (rest : List Str) (last : Str) :
    session python (l :: rest) last = (processCommandLine python t >>= fun _ => session python rest t) := by
  rw [session]
  rw [strip_of h, if_pos hn]

/-- A line that is empty, after one that was not. -/
theorem session_empty (python : Python) {e : Str} (h : ∀ c ∈ e, Blank c) (rest : List Str) {last : Str} (hn : last ≠ []) :
    session python (e :: rest) last = (processCommand python last >>= fun _ => session python rest last) := by
  rw [session]
  rw [strip_of (.empty h), if_neg (by simp), if_pos hn]

theorem single (python : Python) {t : Str} (h : ';' ∉ t) : processCommandLine python t = processCommand python t := by
  unfold processCommandLine
  rw [parts_of (.last h)]
  funext w
  unfold processCommands
  rw [ConM.bind_def]
  cases hx : processCommand python t w with
  | mk r w' => cases r <;> rfl

theorem bind_congr {α : Type} {x : ConM Unit} {f g : Unit → ConM α} (h : f () = g ()) : (x >>= f) = (x >>= g) := by
  have : f = g := funext fun _ => h
  rw [this]

/-- Lines before make no difference. -/
theorem session_empties (python : Python) {t : Str} (hn : t ≠ []) (hs : ';' ∉ t) {l : Str} (h : Stripped l t) : ∀ {es : List Str},
    (∀ e ∈ es, ∀ c ∈ e, Blank c) → ∀ rest, session python (es ++ rest) t = session python (es.map (fun _ => l) ++ rest) t
  | [], _, _ => rfl
  | e :: es, he, rest => by
    rw [List.cons_append, List.map_cons, List.cons_append, session_empty python (he e List.mem_cons_self) _ hn, session_line python h hn, single python hs]
    exact bind_congr (session_empties python hn hs h (fun e h => he e (List.mem_cons_of_mem _ h)) rest)

/-- **C80.** An empty line does the same as typing the last line again, any number of times,
for lines with one command. Missing: lines with semicolons (`not_split`, `full_claim_false`). -/
theorem repeats_partial (python : Python) {l t : Str} (h : Stripped l t) (hn : t ≠ []) (hs : ';' ∉ t) {es : List Str}
    (he : ∀ e ∈ es, ∀ c ∈ e, Blank c) (rest : List Str) (last : Str) :
    session python (l :: es ++ rest) last = session python (l :: es.map (fun _ => l) ++ rest) last := by
  rw [List.cons_append, List.cons_append, session_line python h hn, session_line python h hn]
  exact bind_congr (session_empties python hn hs h he rest)

/-- **C80.** In general an empty line takes the whole last line as one command. -/
theorem not_split (python : Python) {l t e : Str} (h : Stripped l t) (hn : t ≠ []) (he : ∀ c ∈ e, Blank c) (rest : List Str) (last : Str) :
    session python (l :: e :: rest) last =
      (processCommandLine python t >>= fun _ => processCommand python t >>= fun _ => session python rest t) := by
  rw [session_line python h hn]
  exact bind_congr (session_empty python he rest hn)

/-- **C80.** Empty lines before the first command do nothing. -/
theorem nothing_to_repeat (python : Python) {es : List Str} (he : ∀ e ∈ es, ∀ c ∈ e, Blank c) (rest : List Str) :
    session python (es ++ rest) [] = session python rest [] := by
  induction es with
  | nil => rfl
  | cons e t ih =>
    rw [List.cons_append, session]
    rw [strip_of (.empty (he e List.mem_cons_self)), if_neg (by simp), if_neg (by simp)]
    exact ih fun e h => he e (List.mem_cons_of_mem _ h)

/-- **C80.** The full claim is false: after `info;map` an empty line gives an error message. -/
theorem full_claim_false : ∀ python, (session python [c! "info;map", []] [] ⟨Machine.new, []⟩).2.out =
      [.line [], .line (c! "Error: unrecognized command 'info;map'"), .line []] ∧
    (session python [c! "info;map", c! "info;map"] [] ⟨Machine.new, []⟩).2.out = [.line [], .line [], .line []] := by
  intro python
  constructor <;> rfl

/-- Typing `s` and three empty lines is typing `s` four times. -/
example (python : Python) : session python [c! "s", [], c! " ", []] [] = session python [c! "s", c! "s", c! "s", c! "s"] [] := by
  have := repeats_partial python (l := c! "s") (t := c! "s") (strip_iff.1 (by decide)) (by decide) (by decide) (es := [[], c! " ", []])
    (by decide) [] []
  exact this

end C80
end Verif
