import Verif.Interrupt
import Verif.Props.C109

/-!
# C109: Ctrl-C at the prompt
-/

namespace Verif
open Console Typed

namespace C109

/-- The second list is what is typed in the first one. -/
inductive LinesOf : List Input → List Str → Prop where
  | nil : LinesOf [] []
  | line {l : Str} {a : List Input} {b : List Str} : LinesOf a b → LinesOf (.line l :: a) (l :: b)
  | interrupt {a : List Input} {b : List Str} : LinesOf a b → LinesOf (.interrupt :: a) b

/-- The second list is the first one with this many empty lines put in somewhere. -/
inductive Spaced : Nat → List Output → List Output → Prop where
  | nil : Spaced 0 [] []
  | same {n : Nat} {x : Output} {a b : List Output} : Spaced n a b → Spaced n (x :: a) (x :: b)
  | more {n : Nat} {a b : List Output} : Spaced n a b → Spaced (n + 1) a (.line [] :: b)

theorem Spaced.refl : ∀ a : List Output, Spaced 0 a a
  | [] => .nil
  | _ :: t => .same (.refl t)

theorem Spaced.front {n : Nat} {a b : List Output} (h : Spaced n a b) : ∀ o : List Output, Spaced n (o ++ a) (o ++ b)
  | [] => h
  | _ :: t => .same (h.front t)

theorem loop_step {x : ConM Unit} {f g : ConM Unit} (hf : Writes f) (hg : Writes g) {k : Nat}
    (h : ∀ s, (g ⟨s, []⟩).1 = (f ⟨s, []⟩).1 ∧ (g ⟨s, []⟩).2.cpu = (f ⟨s, []⟩).2.cpu ∧ ∃ n ≤ k, Spaced n (f ⟨s, []⟩).2.out (g ⟨s, []⟩).2.out) (s : Machine) :
    ((x >>= fun _ => g) ⟨s, []⟩).1 = ((x >>= fun _ => f) ⟨s, []⟩).1 ∧ ((x >>= fun _ => g) ⟨s, []⟩).2.cpu = ((x >>= fun _ => f) ⟨s, []⟩).2.cpu ∧
      ∃ n ≤ k, Spaced n ((x >>= fun _ => f) ⟨s, []⟩).2.out ((x >>= fun _ => g) ⟨s, []⟩).2.out := by
  rw [ConM.bind_def, ConM.bind_def]
  cases x ⟨s, []⟩ with
  | mk r w =>
    cases r with
    | error e => exact ⟨rfl, rfl, 0, Nat.zero_le _, .refl _⟩
    | ok _ =>
      obtain ⟨c, o⟩ := w
      have hf := hf o ⟨c, []⟩
      have hg := hg o ⟨c, []⟩
      unfold World.after at hf hg
      simp only [List.append_nil] at hf hg
      simp only [hf, hg]
      obtain ⟨h1, h2, n, h3, h4⟩ := h c
      exact ⟨h1, h2, n, h3, h4.front o⟩

theorem writes_interruptible {python : Python} (hp : Modest python) : ∀ (l : List Input) (last : Str), Writes (interruptible python l last)
  | [], _ => writes_print _
  | .interrupt :: ls, last => by
    unfold interruptible
    exact writes_bind (writes_print _) fun _ => writes_interruptible hp ls _
  | .line l :: ls, last => by
    unfold interruptible
    simp only
    split
    · exact writes_bind (writes_commands hp _) fun _ => writes_interruptible hp ls _
    · split
      · exact writes_bind (writes_command hp _) fun _ => writes_interruptible hp ls _
      · exact writes_interruptible hp ls _

/-- **C109.** Ctrl-C while a line is read does nothing to the session: it ends in the same way and with the same machine as
without, an empty line repeats the same line, and what is printed differs by empty lines, at most one for each Ctrl-C. -/
theorem interrupts {python : Python} (hp : Modest python) {a : List Input} {b : List Str} (h : LinesOf a b) (last : Str) (s : Machine) :
    (interruptible python a last ⟨s, []⟩).1 = (session python b last ⟨s, []⟩).1 ∧
    (interruptible python a last ⟨s, []⟩).2.cpu = (session python b last ⟨s, []⟩).2.cpu ∧
    ∃ n ≤ a.count .interrupt, Spaced n (session python b last ⟨s, []⟩).2.out (interruptible python a last ⟨s, []⟩).2.out := by
  induction h generalizing last s with
  | nil => exact ⟨rfl, rfl, 0, Nat.zero_le _, .refl _⟩
  | @line l a b h ih =>
    rw [List.count_cons_of_ne (by simp)]
    unfold interruptible session
    simp only
    split
    · exact loop_step (writes_session hp _ _) (writes_interruptible hp _ _) (ih _) s
    · split
      · exact loop_step (writes_session hp _ _) (writes_interruptible hp _ _) (ih _) s
      · exact ih last s
  | @interrupt a b h ih =>
    rw [List.count_cons_self]
    have hw := writes_interruptible hp a last [.line []] ⟨s, []⟩
    unfold World.after at hw
    have e : interruptible python (.interrupt :: a) last ⟨s, []⟩ = interruptible python a last ⟨s, [.line []] ++ []⟩ := rfl
    rw [e, hw]
    obtain ⟨h1, h2, n, h3, h4⟩ := ih last s
    exact ⟨h1, h2, n + 1, by omega, .more h4⟩

/-- Without Ctrl-C it is the same loop. -/
theorem no_interrupt (python : Python) : ∀ (b : List Str) (last : Str), interruptible python (b.map .line) last = session python b last
  | [], _ => rfl
  | l :: ls, last => by
    rw [List.map_cons]
    unfold interruptible session
    simp only [no_interrupt python ls]

/-- `map`, Ctrl-C, an empty line that repeats `map`, and an unknown command. -/
example : (interruptible C67.noPython [.line (c! "map"), .interrupt, .line [], .line (c! "x")] [] ⟨Machine.new, []⟩).2.out =
    [.line [], .line (c! "Error: unrecognized command 'x'"), .line []] := rfl

end C109
end Verif
