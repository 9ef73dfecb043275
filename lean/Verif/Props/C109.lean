import Verif.Lemmas.Writes
import Verif.Props.C75
import Verif.Props.C79to80

/-!
# C109: a session is made of its commands

What is printed influences nothing, a session can be cut after any line, commands on one line are the same as commands on
lines of their own, and commands that only show something can be left out.
-/

namespace Verif
open Console Typed

namespace C109

/-- Python code that neither depends on what was printed nor takes it back. -/
def Modest (python : Python) : Prop := ∀ code, Writes (python code)

theorem writes_command {python : Python} (hp : Modest python) (cmd : Str) : Writes (processCommand python cmd) := by
  unfold processCommand
  refine writes_catching ?_
  rcases C75.words_cases cmd with h1 | ⟨a, args, h1⟩
  · rw [dispatch_none python h1]
    exact writes_raise _
  · by_cases hd : a.head? = some '$'
    · rw [dispatch_python python h1 hd]
      exact writes_handlePython (hp _)
    · rw [dispatch_named python h1 hd]
      exact writes_named _ _

theorem writes_commands {python : Python} (hp : Modest python) : ∀ l : List Str, Writes (processCommands python l)
  | [] => writes_pure _
  | c :: t => writes_bind (writes_command hp c) fun _ => writes_commands hp t

theorem writes_session {python : Python} (hp : Modest python) : ∀ (lines : List Str) (last : Str), Writes (session python lines last)
  | [], _ => writes_print _
  | l :: ls, last => by
    unfold session
    simp only
    split
    · exact writes_bind (writes_commands hp _) fun _ => writes_session hp ls _
    · split
      · exact writes_bind (writes_command hp _) fun _ => writes_session hp ls _
      · exact writes_session hp ls _

/-- **C109.** What was printed before a session has no influence on it: the session ends in the same way, with the same
machine, and prints the same. -/
theorem output_ignored {python : Python} (hp : Modest python) (lines : List Str) (last : Str) (s : Machine) (o : List Output) :
    let r := session python lines last ⟨s, []⟩
    session python lines last ⟨s, o⟩ = (r.1, ⟨r.2.cpu, o ++ r.2.out⟩) := by
  have := writes_session hp lines last o ⟨s, []⟩
  unfold World.after at this
  rwa [List.append_nil] at this

/-- The line that an empty line repeats: the last one that is not empty. -/
inductive LastLine : Str → List Str → Str → Prop where
  | none {last : Str} : LastLine last [] last
  | blank {last l x : Str} {ls : List Str} : (∀ c ∈ l, Blank c) → LastLine last ls x → LastLine last (l :: ls) x
  | line {last l t x : Str} {ls : List Str} : Stripped l t → t ≠ [] → LastLine t ls x → LastLine last (l :: ls) x

theorem session_blank (python : Python) {e : Str} (h : ∀ c ∈ e, Blank c) (rest : List Str) :
    session python (e :: rest) [] = session python rest [] := C80.nothing_to_repeat python (es := [e]) (by simpa using h) rest

/-- **C109.** A session can be cut after any line. If the first lines end it (`exit`), the others are not read. Otherwise
it goes on as a session of the other lines, on the machine that the first lines leave; the one thing that is carried over
besides is the line that an empty line repeats. The empty line printed at the end of the input is printed once. -/
theorem cut (python : Python) {a : List Str} (b : List Str) {last x : Str} (h : LastLine last a x) (w : World) :
    (∃ e w', session python a last w = (.error e, w') ∧ session python (a ++ b) last w = (.error e, w')) ∨
    ∃ s o, session python a last w = (.ok (), ⟨s, o ++ [.line []]⟩) ∧ session python (a ++ b) last w = session python b x ⟨s, o⟩ := by
  induction h generalizing w with
  | none => exact .inr ⟨w.cpu, w.out, rfl, rfl⟩
  | @blank last l x ls hl h ih =>
    by_cases hn : last = []
    · subst hn
      rw [List.cons_append, session_blank python hl, session_blank python hl]
      exact ih w
    · rw [List.cons_append, C80.session_empty python hl _ hn, C80.session_empty python hl _ hn]
      cases hx : processCommand python last w with
      | mk r w' =>
        cases r with
        | error e => exact .inl ⟨e, w', ConM.bind_err hx, ConM.bind_err hx⟩
        | ok _ =>
          rw [ConM.bind_ok hx, ConM.bind_ok hx]
          exact ih w'
  | @line last l t x ls hl hn h ih =>
    rw [List.cons_append, C80.session_line python hl hn, C80.session_line python hl hn]
    cases hx : processCommandLine python t w with
    | mk r w' =>
      cases r with
      | error e => exact .inl ⟨e, w', ConM.bind_err hx, ConM.bind_err hx⟩
      | ok _ =>
        rw [ConM.bind_ok hx, ConM.bind_ok hx]
        exact ih w'

/-- A text that is not empty. -/
def Filled (s : Str) : Prop := ∃ a args, WordsOf s (a :: args)

theorem filled_iff {s : Str} : Filled s ↔ strip s ≠ [] := by
  constructor
  · rintro ⟨a, args, h⟩ hn
    have h1 := strip_head h
    rw [hn] at h1
    cases h with
    | word _ h2 _ _ _ =>
      cases a with
      | nil => exact h2 rfl
      | cons _ _ => cases h1
  · intro h
    rcases C75.words_cases s with h1 | h1
    · exact absurd (strip_none h1) h
    · exact h1

/-- The repeated line does not matter if the next line is not empty. -/
theorem forget (python : Python) {rest : List Str} (h : ∀ l ∈ rest.head?, Filled l) (x y : Str) : session python rest x = session python rest y := by
  cases rest with
  | nil => rfl
  | cons l ls =>
    have hl := filled_iff.1 (h l rfl)
    rw [C80.session_line python (strip_iff.1 rfl) hl, C80.session_line python (strip_iff.1 rfl) hl]

theorem wordsOf_append {s post : Str} {l : List Str} (h : WordsOf s l) (hp : ∀ c ∈ post, Blank c) : WordsOf (s ++ post) l := by
  induction h with
  | none h => exact .none fun c hc => (List.mem_append.1 hc).elim (h c) (hp c)
  | @word pre a rest l h1 h2 h3 h4 h5 ih =>
    rw [List.append_assoc, List.append_assoc]
    refine .word h1 h2 h3 (fun c hc => ?_) ih
    cases rest with
    | nil => exact hp c (List.mem_of_mem_head? hc)
    | cons y u => exact h4 c hc

theorem words_strip (s : Str) : words (strip s) = words s := by
  have h : Stripped s (strip s) := strip_iff.1 rfl
  generalize strip s = t at h
  cases h with
  | empty h => rw [words_of (.none h)]; rfl
  | @full pre t post h1 h2 h3 h4 h5 =>
    rw [words_blanks h1]
    exact (words_of (wordsOf_append (wordsOf t) h2)).symm

theorem command_strip (python : Python) {c a : Str} {args : List Str} (h : WordsOf c (a :: args)) (hd : a.head? ≠ some '$') :
    processCommand python (strip c) = processCommand python c := by
  have h' : WordsOf (strip c) (a :: args) := words_iff.1 ((words_strip c).trans (words_of h))
  unfold processCommand
  rw [dispatch_named python h hd, dispatch_named python h' hd]

theorem parts_no {t : Str} {cs : List Str} (h : Parts t cs) : ∀ c ∈ cs, ';' ∉ c := by
  induction h with
  | last h => simpa using h
  | more h _ ih => simpa using ⟨h, ih⟩

theorem strip_no {s : Str} {x : Char} (h : x ∉ s) : x ∉ strip s := by
  have ht : Stripped s (strip s) := strip_iff.1 rfl
  generalize strip s = t at ht
  cases ht with
  | empty _ => exact List.not_mem_nil
  | full _ _ _ _ _ => exact fun hx => h (List.mem_append_right _ (List.mem_append_left _ hx))

/-- A command that is not Python code. -/
def Named (c : Str) : Prop := ∃ a args, WordsOf c (a :: args) ∧ a.head? ≠ some '$'

theorem one_per_line (python : Python) {rest : List Str} (hr : ∀ l ∈ rest.head?, Filled l) : ∀ {cs : List Str}, (∀ c ∈ cs, Named c ∧ ';' ∉ c) → ∀ last,
    session python (cs ++ rest) last = (processCommands python cs >>= fun _ => session python rest last)
  | [], _, _ => rfl
  | c :: cs, h, last => by
    obtain ⟨⟨a, args, h1, h2⟩, h3⟩ := h c List.mem_cons_self
    rw [List.cons_append, C80.session_line python (strip_iff.1 rfl) (filled_iff.1 ⟨a, args, h1⟩), C80.single python (strip_no h3), command_strip python h1 h2]
    funext w
    rw [ConM.bind_def, ConM.bind_def, processCommands, ConM.bind_def]
    cases hx : processCommand python c w with
    | mk r w' =>
      cases r with
      | error e => rfl
      | ok _ =>
        show session python (cs ++ rest) (strip c) w' = (processCommands python cs >>= fun _ => session python rest last) w'
        rw [one_per_line python hr (fun d hd => h d (List.mem_cons_of_mem _ hd)), forget python hr (strip c) last]

/-- **C109.** Commands on one line with semicolons between them do the same as on lines of their own. Missing: empty parts,
and Python code that is not at the start of the line (`full_claim_false`); an empty line after it (C80). -/
theorem semicolons_partial (python : Python) {l t : Str} (h : Stripped l t) {cs : List Str} (hc : Parts t cs) (hn : ∀ c ∈ cs, Named c)
    {rest : List Str} (hr : ∀ x ∈ rest.head?, Filled x) (last : Str) :
    session python (l :: rest) last = session python (cs ++ rest) last := by
  have ht : t ≠ [] := by
    rintro rfl
    have he : [[]] = cs := parts_of hc
    obtain ⟨a, args, h1, -⟩ := hn [] (by simp [← he])
    cases words_of h1
  rw [C80.session_line python h ht, one_per_line python hr fun c hm => ⟨hn c hm, parts_no hc c hm⟩]
  unfold processCommandLine
  rw [parts_of hc]
  exact C80.bind_congr (forget python hr _ _)

/-- **C109.** The full claim is false: in `map; $x` the code is `$x`, and `map;` is one error message, where an empty line
does nothing or repeats the last one. -/
theorem full_claim_false (w : World) :
    session print [c! "map; $x"] [] w = (.ok (), { w with out := w.out ++ [.line (c! "$x")] ++ [.line []] }) ∧
    session print [c! "map", c! " $x"] [] w = (.ok (), { w with out := w.out ++ [.line (c! "x")] ++ [.line []] }) ∧
    session print [c! "map;"] [] w = (.ok (), { w with out := w.out ++ [.report (.py .indexError)] ++ [.line []] }) ∧
    session print [c! "map", []] [] w = (.ok (), { w with out := w.out ++ [.line []] }) := ⟨rfl, rfl, rfl, rfl⟩

/-- A line of commands that only show something and do not end the session. -/
def Inspects (l : Str) : Prop :=
  ∃ t, Stripped l t ∧ ∀ cs, Parts t cs → ∀ c ∈ cs, ¬ C75.MayChange c ∧ ¬ C67.Exits c ∧ ¬ C67.Misused c

theorem commands_inspect (python : Python) : ∀ {cs : List Str}, (∀ c ∈ cs, ¬ C75.MayChange c ∧ ¬ C67.Exits c ∧ ¬ C67.Misused c) → ∀ w,
    ∃ o, processCommands python cs w = (.ok (), ⟨w.cpu, o⟩)
  | [], _, w => ⟨w.out, rfl⟩
  | c :: cs, h, w => by
    obtain ⟨h1, h2, h3⟩ := h c List.mem_cons_self
    have hk := C75.inspection python h1 w
    have he := (C67.command_ends_partial python c w (.ok ())).2 (.normal h2 h3 fun code hr => (h1 ?_).elim)
    · rw [processCommands, ConM.bind_def]
      cases hx : processCommand python c w with
      | mk r w' =>
        rw [hx] at hk he
        have hk : w'.cpu = w.cpu := hk
        cases (show r = .ok () from he)
        obtain ⟨o, ho⟩ := commands_inspect python (fun d hd => h d (List.mem_cons_of_mem _ hd)) w'
        exact ⟨o, by rw [← hk]; exact ho⟩
    · obtain ⟨⟨a, args, h5, h6⟩, -⟩ := hr
      exact ⟨a, args, h5, .inr h6⟩

/-- The second list is the first one without some lines that only show something. -/
inductive Without : List Str → List Str → Prop where
  | nil : Without [] []
  | keep {l : Str} {a b : List Str} : Without a b → Without (l :: a) (l :: b)
  | drop {l : Str} {a b : List Str} : Inspects l → Without a b → Without (l :: a) b

theorem same_cpu {x : ConM Unit} (h : Writes x) (s : Machine) (o o' : List Output) :
    (x ⟨s, o⟩).1 = (x ⟨s, o'⟩).1 ∧ (x ⟨s, o⟩).2.cpu = (x ⟨s, o'⟩).2.cpu := by
  have h1 := h o ⟨s, []⟩
  have h2 := h o' ⟨s, []⟩
  unfold World.after at h1 h2
  simp only [List.append_nil] at h1 h2
  rw [h1, h2]
  exact ⟨rfl, rfl⟩

/-- **C109.** Lines that only show something can be left out of a session without empty lines: it ends in the same way and
with the same machine. -/
theorem without {python : Python} (hp : Modest python) {a b : List Str} (h : Without a b) (hf : ∀ l ∈ a, Filled l) (last last' : Str) (s : Machine)
    (o o' : List Output) : (session python a last ⟨s, o⟩).1 = (session python b last' ⟨s, o'⟩).1 ∧
      (session python a last ⟨s, o⟩).2.cpu = (session python b last' ⟨s, o'⟩).2.cpu := by
  induction h generalizing last last' s o o' with
  | nil => exact ⟨rfl, rfl⟩
  | @keep l a b h ih =>
    have hl := filled_iff.1 (hf l List.mem_cons_self)
    rw [C80.session_line python (strip_iff.1 rfl) hl, C80.session_line python (strip_iff.1 rfl) hl, ConM.bind_def, ConM.bind_def]
    have hs := same_cpu (writes_commands hp (splitBy (· = ';') (strip l))) s o o'
    show _ ∧ _
    unfold processCommandLine
    cases hx : processCommands python (splitBy (· = ';') (strip l)) ⟨s, o⟩ with
    | mk r w =>
      cases hy : processCommands python (splitBy (· = ';') (strip l)) ⟨s, o'⟩ with
      | mk r' w' =>
        rw [hx, hy] at hs
        obtain ⟨h1, h2⟩ := hs
        simp only at h1 h2
        subst h1
        cases r with
        | error e => exact ⟨rfl, h2⟩
        | ok _ =>
          obtain ⟨c, p⟩ := w
          obtain ⟨c', p'⟩ := w'
          simp only at h2
          subst h2
          exact ih (fun m hm => hf m (List.mem_cons_of_mem _ hm)) _ _ _ _ _
  | @drop l a b hi h ih =>
    have hl := filled_iff.1 (hf l List.mem_cons_self)
    obtain ⟨t, ht, hcs⟩ := hi
    rw [strip_of ht] at hl
    rw [C80.session_line python ht hl]
    obtain ⟨p, hx⟩ := commands_inspect python (hcs _ (parts t)) ⟨s, o⟩
    rw [ConM.bind_ok (show processCommandLine python t ⟨s, o⟩ = _ from hx)]
    exact ih (fun m hm => hf m (List.mem_cons_of_mem _ hm)) _ _ _ _ _

/-- A test for lines that only show something. -/
def shows (c : Str) : Bool :=
  match words c with
  | [] => true
  | a :: _ => a.head? ≠ some '$' && small a ∉ C75.changing ++ [c! "exit", c! "quit", c! "disasm", c! "d"]

theorem inspects_of {l : Str} (h : (splitBy (· = ';') (strip l)).all shows = true) : Inspects l := by
  refine ⟨strip l, strip_iff.1 rfl, fun cs hc c hm => ?_⟩
  rw [parts_of hc, List.all_eq_true] at h
  have hs := h c hm
  unfold shows at hs
  have key : ∀ {a : Str} {args : List Str}, WordsOf c (a :: args) → a.head? ≠ some '$' ∧ small a ∉ C75.changing ++ [c! "exit", c! "quit", c! "disasm", c! "d"] := by
    intro a args hw
    rw [words_of hw] at hs
    simpa using hs
  refine ⟨?_, ?_, ?_⟩
  · rintro ⟨a, args, hw, h1 | h1⟩
    · exact (key hw).2 (List.mem_append_left _ h1)
    · exact (key hw).1 h1
  · rintro ⟨args, ⟨a, hw, h1⟩ | ⟨a, hw, h1⟩⟩ <;> exact (key hw).2 (by rw [h1]; decide)
  · rintro ⟨args, ⟨a, hw, h1⟩ | ⟨a, hw, h1⟩, -⟩ <;> exact (key hw).2 (by rw [h1]; decide)

/-- A session with and without looking at registers and memory, on any machine. -/
example (s : Machine) : (session C67.noPython [c! "reg", c! "wreg r0 r1", c! " r0; rw [sp] 8", c! "s", c! "help"] [] ⟨s, []⟩).2.cpu =
    (session C67.noPython [c! "wreg r0 r1", c! "s"] [] ⟨s, []⟩).2.cpu :=
  (without (python := C67.noPython) (fun _ => writes_pure _) (.drop (inspects_of (by decide +kernel)) (.keep (.drop (inspects_of (by decide +kernel))
    (.keep (.drop (inspects_of (by decide +kernel)) .nil)))))
    (fun l hl => filled_iff.2 (by revert l; decide +kernel)) _ _ _ _ _).2

/-- Three commands on one line, and an `exit` before the last one. -/
example (s : Machine) : session C67.noPython [c! "  wreg r0 1;s ;exit", c! "s"] [] ⟨s, []⟩ = session C67.noPython [c! "wreg r0 1", c! "s ", c! "exit", c! "s"] [] ⟨s, []⟩ := by
  have h : Stripped (c! "  wreg r0 1;s ;exit") (c! "wreg r0 1;s ;exit") := strip_iff.1 (by decide)
  have hp := parts (c! "wreg r0 1;s ;exit")
  rw [show splitBy (· = ';') (c! "wreg r0 1;s ;exit") = [c! "wreg r0 1", c! "s ", c! "exit"] by decide] at hp
  rw [semicolons_partial C67.noPython h hp ?_ ?_]
  · rfl
  · intro c hc
    simp only [List.mem_cons, List.not_mem_nil, or_false] at hc
    rcases hc with rfl | rfl | rfl
    · exact ⟨_, _, wordsOf _, by decide⟩
    · exact ⟨_, _, wordsOf _, by decide⟩
    · exact ⟨_, _, wordsOf _, by decide⟩
  · intro x hx
    cases hx
    exact ⟨_, _, wordsOf _⟩

/-- `s` and an empty line, cut between them: the second part steps once more. -/
example : LastLine [] [c! " s ", []] (c! "s") := .line (strip_iff.1 (by decide)) (by decide) (.blank (by simp) .none)

end C109
end Verif
