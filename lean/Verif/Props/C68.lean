import Verif.Lemmas.Startup
import Verif.Props.C24to26

/-!
# C68: the arguments of the console's commands
-/

namespace Verif
open Console Typed BS

namespace C68

/-- The names of registers and their numbers: `r0` to `r15` and `s0` to `s31`, the names of
`r13` to `r15`, and those of the special registers. -/
def names : List (Str × Int) :=
  (List.range 16).map (fun k => ('r' :: Nat.toDigits 10 k, (k : Int))) ++
  (List.range 32).map (fun k => ('s' :: Nat.toDigits 10 k, (64 + k : Int))) ++
  [(c! "sp", 13), (c! "lr", 14), (c! "pc", 15), (c! "xpsr", 16), (c! "msp", 17), (c! "psp", 18), (c! "fpscr", 33),
   (c! "control", -4), (c! "faultmask", -3), (c! "basepri", -2), (c! "primask", -1)]

/-- What a text without brackets means: a register's contents or a number. -/
inductive Denotes (c : Core) : Str → Int → Prop where
  | register {t : Str} {k : Int} : (t, k) ∈ names → Denotes c t (c.reg k).toNat
  | number {t : Str} {v : Int} : Number t v → Denotes c t v
  | long {t : Str} {v : Int} : Long t v → Denotes c t v

/-- The value of an argument: capital letters and underscores do not matter; in brackets, the
word at the address in them, with an offset after a comma. What the last character is does
not matter if the first is a bracket. -/
inductive Value (mem : List Region) (c : Core) (arg : Str) : Int → Prop where
  | direct {v : Int} : (plain arg).head? ≠ some '[' → Denotes c (plain arg) v → Value mem c arg v
  | memory {a : Str} {x : Char} {b : Int} {v : Nat} : plain arg = '[' :: (a ++ [x]) → ',' ∉ a → Denotes c a b →
      Inside mem b 4 → flatRead c.mem b 4 = some v → Value mem c arg v
  | offset {a o t u : Str} {x : Char} {b off : Int} {v : Nat} : plain arg = '[' :: (a ++ ',' :: o ++ [x]) → ',' ∉ a → ',' ∉ o →
      Stripped a t → Denotes c t b → Stripped o u → (Number u off ∨ Long u off) →
      Inside mem (b + off) 4 → flatRead c.mem (b + off) 4 = some v → Value mem c arg v

theorem lower_underscore (c : Char) : (c.toLower ≠ '_') ↔ (c ≠ '_') := by
  constructor
  · rintro h rfl
    exact h (by decide)
  · intro h e
    unfold Char.toLower at e
    split at e
    · rename_i h1
      have h2 := congrArg Char.val e
      simp only at h2
      have h3 : c.val = 63 := by
        have h4 : c.val = '_'.val - ('a'.val - 'A'.val) := by rw [← h2]; simp
        rw [h4]
        decide
      rw [h3] at h1
      exact absurd h1.1 (by decide)
    · exact h e

theorem cleanArg_eq (arg : Str) : cleanArg arg = plain arg := by
  unfold cleanArg plain lower small
  induction arg with
  | nil => rfl
  | cons c t ih =>
    rw [List.map_cons, List.filter_cons, List.filter_cons]
    by_cases h : c = '_'
    · rw [if_neg (by subst h; decide), if_neg (by simp [h]), ih]
    · rw [if_pos (by simpa using (lower_underscore c).2 h), if_pos (by simpa using h), List.map_cons, ih]

theorem names_perm : (∀ p ∈ names, p ∈ coreRegister) ∧ ∀ p ∈ coreRegister, p ∈ names := by
  constructor <;> decide +kernel

theorem isRegister_iff {t : Str} : isRegister t = true ↔ ∃ k, (t, k) ∈ names := by
  unfold isRegister
  rw [List.any_eq_true]
  constructor
  · rintro ⟨⟨u, k⟩, h1, h2⟩
    simp only [decide_eq_true_eq] at h2
    subst h2
    exact ⟨k, names_perm.2 _ h1⟩
  · rintro ⟨k, h⟩
    exact ⟨_, names_perm.1 _ h, by simp⟩

theorem names_index : ∀ p ∈ names, registerIndex (.name p.1) = some p.2 ∧ p.2 ∈ coreIndices ∧
    signedNumber p.1 = none := by decide +kernel

theorem readRegister_shows {s : Machine} {c : Core} (hs : Shows s c) {t : Str} {k : Int} (h : (t, k) ∈ names) :
    readRegister (.name t) s = (.ok (ofBV (c.reg k)), s) := by
  obtain ⟨a, rfl, rfl, -⟩ := hs.arm
  obtain ⟨h1, h2, -⟩ := names_index _ h
  exact readRegister_conc a h1 h2

/-- The line that shows a register. -/
def shown (t : Str) (v : Int) : Output := .line (t ++ c! " = 0x" ++ hexPad 8 v)

theorem plainValue_register {w : World} {c : Core} (hs : Shows w.cpu c) {t : Str} {k : Int} (h : (t, k) ∈ names) :
    plainValue t w = (.ok ((c.reg k).toNat : Int), { w with out := w.out ++ [shown t (c.reg k).toNat] }) := by
  unfold plainValue
  rw [if_pos (isRegister_iff.2 ⟨k, h⟩), ConM.bind_ok (cpu_ok (readRegister_shows hs h))]
  rfl

theorem plainValue_number (w : World) {t : Str} {v : Int} (h : Number t v ∨ Long t v) : plainValue t w = (.ok v, w) := by
  have hi := int_iff.2 h
  have hr : ¬ isRegister t = true := by
    rw [isRegister_iff]
    rintro ⟨k, hk⟩
    have := (names_index _ hk).2.2
    unfold intBase0 at hi
    simp only at this
    rw [this] at hi
    cases hi
  unfold plainValue
  rw [if_neg hr, hi]
  rfl

theorem plainValue_iff {w : World} {c : Core} (hs : Shows w.cpu c) {t : Str} {v : Int} :
    (plainValue t w).1 = .ok v ↔ Denotes c t v := by
  constructor
  · intro h
    by_cases hr : isRegister t = true
    · obtain ⟨k, hk⟩ := isRegister_iff.1 hr
      rw [plainValue_register hs hk] at h
      cases h
      exact .register hk
    · unfold plainValue at h
      rw [if_neg hr] at h
      have : intBase0 t = .ok v := by
        unfold expr at h
        cases hi : intBase0 t with
        | ok u => rw [hi] at h; cases h; rfl
        | error e => rw [hi] at h; cases h
      rcases int_iff.1 this with h | h
      · exact .number h
      · exact .long h
  · intro h
    cases h with
    | register h => rw [plainValue_register hs h]
    | number h => rw [plainValue_number w (.inl h)]
    | long h => rw [plainValue_number w (.inr h)]

theorem getBytes_full {s : Machine} (hm : MemOK s.mem) {x : Int} {b0 b1 b2 b3 : Nat} {r : List Nat}
    (h : readMemoryBlock x 4 s = (.ok (some (b0 :: b1 :: b2 :: b3 :: r)), s)) :
    Inside s.mem x 4 := by
  unfold readMemoryBlock findMem at h
  cases hf : s.mem.find? (·.has x) with
  | none => rw [hf] at h; cases h
  | some m =>
    rw [hf] at h
    simp only [Option.map_some] at h
    have hg : getBytes m.data (x - m.start).toNat 4 = b0 :: b1 :: b2 :: b3 :: r := by
      simpa using h
    have hlen := congrArg List.length hg
    unfold getBytes at hlen
    simp only [List.length_take, List.length_drop, List.length_cons] at hlen
    have h1 := List.find?_some hf
    simp only [has_iff] at h1
    have hmem := List.mem_of_find?_eq_some hf
    have h2 := (hm.1 m hmem).1
    exact ⟨m, hmem, by omega, by omega⟩

/-- A word of memory as the console reads it. -/
theorem block_word {s : Machine} (hm : MemOK s.mem) {x : Int} {v : Nat} :
    (∃ d, readMemoryBlock x 4 s = (.ok d, s) ∧ wordOf d = .ok v) ↔ Inside s.mem x 4 ∧ flatRead (flat s.mem) x 4 = some v := by
  have fwd : ∀ {b0 b1 b2 b3 : Nat} {r : List Nat}, bytesToLe32 (b0 :: b1 :: b2 :: b3 :: r) =
      .ok (b0 ||| (b1 <<< 8) ||| (b2 <<< 16) ||| (b3 <<< 24)) := rfl
  have key : Inside s.mem x 4 → ∃ d u, readMemoryBlock x 4 s = (.ok (some d), s) ∧ bytesToLe32 d = .ok u ∧ flatRead (flat s.mem) x 4 = some u := by
    intro hin
    obtain ⟨d, h1, h2, h3⟩ := C26.block_read hm (by decide) hin
    match d, h2 with
    | [b0, b1, b2, b3], _ =>
      have hlt : ∀ j : Nat, j < 4 → ∀ b, flat s.mem (x + j) = some b → b < 256 := by
        intro j hj b hb
        obtain ⟨m, hmem, -, -, -, hbs⟩ := find_inside hm (by decide) hin
        obtain ⟨b', h4, -, h5⟩ := hbs j hj
        rw [hb] at h4
        cases h4
        exact h5
      have f0 := (h3 0 (by decide)).symm
      have f1 := (h3 1 (by decide)).symm
      have f2 := (h3 2 (by decide)).symm
      have f3 := (h3 3 (by decide)).symm
      have l0 := hlt 0 (by decide) _ f0
      have l1 := hlt 1 (by decide) _ f1
      have l2 := hlt 2 (by decide) _ f2
      refine ⟨_, _, h1, fwd, ?_⟩
      simp only [Int.natCast_zero, Int.add_zero, List.getElem?_cons_zero] at f0
      have f1' : flat s.mem (x + 1) = some b1 := f1
      have f2' : flat s.mem (x + 1 + 1) = some b2 := by rw [Int.add_assoc]; exact f2
      have f3' : flat s.mem (x + 1 + 1 + 1) = some b3 := by rw [Int.add_assoc, Int.add_assoc]; exact f3
      rw [C21.word32 l0 l1 l2]
      simp [flatRead, f0, f1', f2', f3']
      omega
  constructor
  · rintro ⟨d, h1, h2⟩
    cases d with
    | none => cases h2
    | some d =>
      have hin : Inside s.mem x 4 := by
        match d, h1, h2 with
        | b0 :: b1 :: b2 :: b3 :: r, h1, _ => exact getBytes_full hm h1
      obtain ⟨d', u, h3, h4, h5⟩ := key hin
      rw [h1] at h3
      simp only [Prod.mk.injEq, Except.ok.injEq, Option.some.injEq, and_true] at h3
      subst h3
      have h6 : bytesToLe32 d = .ok v := h2
      rw [h4] at h6
      cases h6
      exact ⟨hin, h5⟩
  · rintro ⟨h1, h2⟩
    obtain ⟨d, u, h3, h4, h5⟩ := key h1
    rw [h2] at h5
    cases h5
    exact ⟨some d, h3, h4⟩

theorem readBlock_four (x : Int) : readBlock x 4 = readMemoryBlock x 4 := by
  unfold readBlock
  rw [if_pos (by decide)]
  rfl

/-- The line that shows a word of memory. -/
def shownWord (a : Str) (off : Int) (v : Nat) : Output :=
  .line (c! "[" ++ a ++ c! "," ++ intText 10 off ++ c! "] = 0x" ++ hexPad 8 v)

/-- What comes after the text in brackets is taken apart. -/
def inBrackets (a : Str) (off : Int) : ConM Int := do
  let v ← plainValue a
  let block ← cpu (readBlock (v + off) 4)
  let x ← expr (wordOf block)
  print (c! "[" ++ a ++ c! "," ++ intText 10 off ++ c! "] = 0x" ++ hexPad 8 x)
  pure (x : Int)

theorem expr_ok {α : Type} {x : PyRes α} {a : α} (h : x = .ok a) (w : World) : expr x w = (.ok a, w) := by
  rw [h]
  rfl

theorem inBrackets_ok {w : World} {a : Str} {off b : Int} {w' : World} (hm : MemOK w'.cpu.mem) {v : Nat}
    (h1 : plainValue a w = (.ok b, w')) (h2 : Inside w'.cpu.mem (b + off) 4) (h3 : flatRead (flat w'.cpu.mem) (b + off) 4 = some v) :
    inBrackets a off w = (.ok (v : Int), { w' with out := w'.out ++ [shownWord a off v] }) := by
  obtain ⟨d, h4, h5⟩ := (block_word hm).2 ⟨h2, h3⟩
  unfold inBrackets
  rw [ConM.bind_ok h1, ConM.bind_ok (cpu_ok (by rw [readBlock_four]; exact h4)), ConM.bind_ok (expr_ok h5 _)]
  rfl

theorem inBrackets_iff {w : World} {c : Core} (hs : Shows w.cpu c) (hm : MemOK w.cpu.mem) {a : Str} {off v : Int} :
    (inBrackets a off w).1 = .ok v ↔
      ∃ b : Int, ∃ n : Nat, Denotes c a b ∧ Inside w.cpu.mem (b + off) 4 ∧ flatRead c.mem (b + off) 4 = some n ∧ v = n := by
  have hk := keeps_plainValue a w
  constructor
  · intro h
    cases hp : plainValue a w with
    | mk r w' =>
      rw [hp] at hk
      simp only at hk
      cases r with
      | error e =>
        unfold inBrackets at h
        rw [ConM.bind_err hp] at h
        cases h
      | ok b =>
        have hd : Denotes c a b := (plainValue_iff hs).1 (by rw [hp])
        unfold inBrackets at h
        rw [ConM.bind_ok hp] at h
        cases hb : readMemoryBlock (b + off) 4 w'.cpu with
        | mk r s =>
          have hks := readMemoryBlock_keeps (b + off) 4 w'.cpu
          rw [hb] at hks
          simp only at hks
          subst hks
          cases r with
          | error e =>
            rw [ConM.bind_err (cpu_err (by rw [readBlock_four]; exact hb))] at h
            cases h
          | ok d =>
            rw [ConM.bind_ok (cpu_ok (by rw [readBlock_four]; exact hb))] at h
            cases hw : wordOf d with
            | error e =>
              rw [hw] at h
              cases h
            | ok n =>
              rw [ConM.bind_ok (expr_ok hw _)] at h
              have hv : v = n := by cases h; rfl
              have hm' : MemOK w'.cpu.mem := by rw [hk]; exact hm
              obtain ⟨h1, h2⟩ := (block_word hm').1 ⟨d, hb, hw⟩
              rw [hk] at h1 h2
              rw [hs.2] at h2
              exact ⟨b, n, hd, h1, h2, hv⟩
  · rintro ⟨b, n, h1, h2, h3, rfl⟩
    have h4 := (plainValue_iff hs).2 h1
    cases hp : plainValue a w with
    | mk r w' =>
      rw [hp] at hk h4
      simp only at hk h4
      subst h4
      rw [inBrackets_ok (by rw [hk]; exact hm) hp (by rw [hk]; exact h2) (by rw [hk, hs.2]; exact h3)]

theorem convertValue_direct {arg : Str} (h : (plain arg).head? ≠ some '[') (hn : plain arg ≠ []) : convertValue arg = plainValue (plain arg) := by
  unfold convertValue
  rw [cleanArg_eq]
  cases hp : plain arg with
  | nil => exact absurd hp hn
  | cons x t =>
    rw [hp] at h
    split
    · rename_i e
      cases e
    · rename_i e
      cases e
      exact absurd rfl h
    · rfl

theorem convertValue_brackets {arg t : Str} (h : plain arg = '[' :: t) :
    convertValue arg = (expr (derefParts t.dropLast) >>= fun p => inBrackets p.1 p.2) := by
  unfold convertValue
  rw [cleanArg_eq, h]
  rfl

theorem not_contains {s : Str} (h : ',' ∉ s) : s.contains ',' = false := by
  rw [← Bool.not_eq_true, List.contains_iff_mem]
  exact h

theorem split_comma {a o : Str} (ha : ',' ∉ a) (ho : ',' ∉ o) : splitBy (· = ',') (a ++ ',' :: o) = [a, o] := by
  have h : ∀ {s : Str}, ',' ∉ s → ∀ c ∈ s, decide (c = ',') = false := by
    intro s hs c hc
    simp only [decide_eq_false_iff_not]
    rintro rfl
    exact hs hc
  rw [splitBy_at _ (h ha) (by decide), splitBy_none _ (h ho)]

theorem unsplit : ∀ {s a o : Str}, splitBy (· = ',') s = [a, o] → s = a ++ ',' :: o ∧ ',' ∉ a ∧ ',' ∉ o := by
  have one : ∀ {s a : Str}, splitBy (· = ',') s = [a] → s = a ∧ ',' ∉ a := by
    intro s
    induction s with
    | nil =>
      intro a h
      cases h
      exact ⟨rfl, List.not_mem_nil⟩
    | cons c t ih =>
      intro a h
      unfold splitBy at h
      split at h
      · simp only [List.cons.injEq] at h
        exact absurd h.2 (splitBy_ne _ _)
      · rename_i hc
        simp only [decide_eq_true_eq] at hc
        cases hs : splitBy (· = ',') t with
        | nil => exact absurd hs (splitBy_ne _ _)
        | cons b l =>
          rw [hs] at h
          simp only [List.cons.injEq] at h
          obtain ⟨rfl, rfl⟩ := h
          obtain ⟨h1, h2⟩ := ih hs
          exact ⟨by rw [h1], by simp [h2, Ne.symm hc]⟩
  intro s
  induction s with
  | nil =>
    intro a o h
    cases h
  | cons c t ih =>
    intro a o h
    unfold splitBy at h
    split at h
    · rename_i hc
      simp only [decide_eq_true_eq] at hc
      simp only [List.cons.injEq] at h
      obtain ⟨rfl, h⟩ := h
      obtain ⟨h1, h2⟩ := one h
      exact ⟨by rw [hc, h1]; rfl, List.not_mem_nil, h2⟩
    · rename_i hc
      simp only [decide_eq_true_eq] at hc
      cases hs : splitBy (· = ',') t with
      | nil => exact absurd hs (splitBy_ne _ _)
      | cons b l =>
        rw [hs] at h
        simp only [List.cons.injEq] at h
        obtain ⟨rfl, rfl⟩ := h
        obtain ⟨h1, h2, h3⟩ := ih hs
        exact ⟨by rw [h1]; rfl, by simp [h2, Ne.symm hc], h3⟩

/-- How the text in brackets is taken apart. -/
theorem derefParts_iff {t u : Str} {off : Int} : derefParts t = .ok (u, off) ↔
    (',' ∉ t ∧ u = t ∧ off = 0) ∨
    ∃ a o z : Str, t = a ++ ',' :: o ∧ ',' ∉ a ∧ ',' ∉ o ∧ Stripped a u ∧ Stripped o z ∧ (Number z off ∨ Long z off) := by
  constructor
  · intro h
    unfold derefParts at h
    split at h
    · rename_i hc
      split at h
      · rename_i a o hs
        obtain ⟨h1, h2, h3⟩ := unsplit hs
        cases hi : intBase0 (strip o) with
        | error e =>
          rw [hi] at h
          cases h
        | ok v =>
          rw [hi] at h
          cases h
          exact .inr ⟨a, o, strip o, h1, h2, h3, strip_iff.1 rfl, strip_iff.1 rfl, int_iff.1 hi⟩
      · cases h
    · rename_i hc
      cases h
      refine .inl ⟨?_, rfl, rfl⟩
      rw [← List.contains_iff_mem]
      exact hc
  · rintro (⟨h1, rfl, rfl⟩ | ⟨a, o, z, rfl, h1, h2, h3, h4, h5⟩)
    · unfold derefParts
      rw [not_contains h1]
      rfl
    · unfold derefParts
      have hc : (a ++ ',' :: o).contains ',' = true := by
        rw [List.contains_iff_mem]
        simp
      rw [if_pos hc, split_comma h1 h2]
      simp only
      rw [strip_of h4, strip_of h3, int_iff.2 h5]
      rfl

theorem denotes_ne {c : Core} {v : Int} : ¬ Denotes c [] v := by
  intro h
  cases h with
  | register h => exact absurd h (by
      have : ∀ p ∈ names, p.1 ≠ [] := by decide +kernel
      exact fun h => this _ h rfl)
  | number h =>
    have := int_iff.2 (.inl h)
    cases this
  | long h =>
    have := int_iff.2 (.inr h)
    cases this

/-- **C68.** The value of an argument, exactly: `convert_value` returns `v` if and only if
the argument means `v`, whatever the text of the argument and the state. In particular it
accepts decimal, hexadecimal, octal and binary numbers, register names in any case, and
ignores underscores; and it accepts nothing else. -/
theorem value_iff {w : World} {c : Core} (hs : Shows w.cpu c) (hm : MemOK w.cpu.mem) (arg : Str) (v : Int) :
    (convertValue arg w).1 = .ok v ↔ Value w.cpu.mem c arg v := by
  cases hp : plain arg with
  | nil =>
    constructor
    · intro h
      unfold convertValue at h
      rw [cleanArg_eq, hp] at h
      cases h
    · intro h
      cases h with
      | direct _ h => rw [hp] at h; exact absurd h denotes_ne
      | memory h => rw [hp] at h; cases h
      | offset h => rw [hp] at h; cases h
  | cons x t =>
    by_cases hx : x = '['
    · subst hx
      rw [convertValue_brackets hp]
      constructor
      · intro h
        cases hd : derefParts t.dropLast with
        | error e =>
          rw [hd] at h
          cases h
        | ok p =>
          obtain ⟨u, off⟩ := p
          rw [ConM.bind_ok (expr_ok hd _)] at h
          obtain ⟨b, n, h1, h2, h3, rfl⟩ := (inBrackets_iff hs hm).1 h
          cases ht : t with
          | nil =>
            exfalso
            rw [ht] at hd
            cases hd
            exact denotes_ne h1
          | cons y l =>
            have hlast : t = t.dropLast ++ [t.getLast (by rw [ht]; simp)] := (List.dropLast_concat_getLast _).symm
            rcases derefParts_iff.1 hd with ⟨h4, rfl, rfl⟩ | ⟨a, o, z, h4, h5, h6, h7, h8, h9⟩
            · rw [Int.add_zero] at h2 h3
              refine .memory (a := t.dropLast) (x := t.getLast (by rw [ht]; simp)) ?_ h4 h1 h2 h3
              rw [hp, ← hlast]
            · refine .offset (a := a) (o := o) (x := t.getLast (by rw [ht]; simp)) ?_ h5 h6 h7 h1 h8 h9 h2 h3
              rw [hp, ← h4, ← hlast]
      · intro h
        cases h with
        | direct h _ => rw [hp] at h; exact absurd rfl h
        | @memory a y b n h1 h2 h3 h4 h5 =>
          rw [hp] at h1
          have ht : t = a ++ [y] := by simpa using h1
          rw [ht, List.dropLast_concat, ConM.bind_ok (expr_ok (derefParts_iff.2 (.inl ⟨h2, rfl, rfl⟩)) _)]
          exact (inBrackets_iff hs hm).2 ⟨b, n, h3, by rw [Int.add_zero]; exact h4, by rw [Int.add_zero]; exact h5, rfl⟩
        | @offset a o u z y b off n h1 h2 h3 h4 h5 h6 h7 h8 h9 =>
          rw [hp] at h1
          have ht : t = (a ++ ',' :: o) ++ [y] := by simpa using h1
          rw [ht, List.dropLast_concat, ConM.bind_ok (expr_ok (derefParts_iff.2 (.inr ⟨a, o, z, rfl, h2, h3, h4, h6, h7⟩)) _)]
          exact (inBrackets_iff hs hm).2 ⟨b, n, h5, h8, h9, rfl⟩
    · rw [convertValue_direct (by rw [hp]; simpa using hx) (by rw [hp]; simp), plainValue_iff hs]
      constructor
      · intro h
        exact .direct (by rw [hp]; simpa using hx) h
      · intro h
        cases h with
        | direct _ h => exact h
        | memory h => rw [hp] at h; cases h; exact absurd rfl hx
        | offset h => rw [hp] at h; cases h; exact absurd rfl hx

/-- **C68.** An argument that means nothing raises an exception that the console reports;
whatever the argument, the machine stays as it is. -/
theorem no_value {w : World} {c : Core} (hs : Shows w.cpu c) (hm : MemOK w.cpu.mem) (arg : Str) :
    (convertValue arg w).2.cpu = w.cpu ∧
    ((∀ v, ¬ Value w.cpu.mem c arg v) → ∃ e, (convertValue arg w).1 = .error (.py e)) := by
  refine ⟨keeps_convertValue arg w, fun h => ?_⟩
  have hr := raises_convertValue (E := fun e => ∃ p, e = .py p) (fun e => ⟨e, rfl⟩) arg w
  cases hc : (convertValue arg w).1 with
  | ok v => exact absurd ((value_iff hs hm arg v).1 hc) (h v)
  | error e =>
    obtain ⟨p, rfl⟩ := hr e hc
    exact ⟨p, rfl⟩

/-- **C68.** A number, in capital or small letters and with underscores, is its value, and
nothing is printed. -/
theorem number_value {arg : Str} {v : Int} (h : Number (plain arg) v) (w : World) : convertValue arg w = (.ok v, w) := by
  have hi := int_iff.2 (.inl h)
  have hb : (plain arg).head? ≠ some '[' := by
    intro e
    cases hp : plain arg with
    | nil => rw [hp] at e; cases e
    | cons x t =>
      rw [hp] at e hi
      simp only [List.head?_cons, Option.some.injEq] at e
      subst e
      simp [intBase0, signedNumber, unsignedNumber, longNumber, number, digitsValue, digitValue] at hi
  have hn : plain arg ≠ [] := by
    intro e
    rw [e] at hi
    cases hi
  rw [convertValue_direct hb hn]
  exact plainValue_number w (.inl h)

/-- **C68.** A register, in any case, is its contents, and a line shows them. -/
theorem register_value {w : World} {c : Core} (hs : Shows w.cpu c) {arg : Str} {k : Int} (h : (plain arg, k) ∈ names) :
    convertValue arg w = (.ok ((c.reg k).toNat : Int), { w with out := w.out ++ [shown (plain arg) (c.reg k).toNat] }) := by
  have : ∀ p ∈ names, p.1.head? ≠ some '[' ∧ p.1 ≠ [] := by decide +kernel
  obtain ⟨h1, h2⟩ := this _ h
  rw [convertValue_direct h1 h2]
  exact plainValue_register hs h

/-- **C68.** Numbers of the four bases, in words of the digits: each is a number. -/
theorem bases {s : Str} {v : Nat} :
    (Reader.nat 16 s = some v → Number ('0' :: 'x' :: s) v) ∧ (Reader.nat 2 s = some v → Number ('0' :: 'b' :: s) v) ∧
    (Reader.nat 8 s = some v → Number ('0' :: 'o' :: s) v) ∧ (s.head? ≠ some '0' → Reader.nat 10 s = some v → Number s v) :=
  ⟨fun h => .plain (.hex h), fun h => .plain (.binary h), fun h => .plain (.octal h), fun h h' => .plain (.decimal h h')⟩

/-- `0xFFFF_0000` -/
example (w : World) : convertValue (c! "0xFFFF_0000") w = (.ok 0xffff0000, w) :=
  number_value (arg := c! "0xFFFF_0000") (Number.plain (Numeral.hex (s := c! "ffff0000") (by decide))) w

/-- `-0B1_01` -/
example (w : World) : convertValue (c! "-0B1_01") w = (.ok (-5), w) :=
  number_value (arg := c! "-0B1_01") (Number.minus (Numeral.binary (s := c! "101") (v := 5) (by decide))) w

/-- `PC` -/
example {w : World} {c : Core} (hs : Shows w.cpu c) (h : c.reg 15 = 0x1234#32) :
    (convertValue (c! "PC") w).1 = .ok 0x1234 ∧ (convertValue (c! "PC") w).2.out = w.out ++ [.line (c! "pc = 0x00001234")] := by
  rw [register_value hs (k := 15) (by decide +kernel), h]
  refine ⟨rfl, ?_⟩
  show w.out ++ [shown (plain (c! "PC")) (4660#32).toNat] = _
  rw [show shown (plain (c! "PC")) (4660#32).toNat = .line (c! "pc = 0x00001234") by decide +kernel]

/-- `09` means nothing: a leading zero is octal. -/
example {w : World} {c : Core} (hs : Shows w.cpu c) (hm : MemOK w.cpu.mem) (v : Int) : ¬ Value w.cpu.mem c (c! "09") v := by
  rw [← value_iff hs hm]
  show (plainValue (c! "09") w).1 ≠ .ok v
  unfold plainValue
  rw [if_neg (by decide +kernel)]
  intro h
  cases h

/-- `[R0,-4]` -/
example {w : World} {c : Core} (hs : Shows w.cpu c) (hmem : w.cpu.mem = exMem) (h : c.reg 0 = 0x2008#32) :
    Value w.cpu.mem c (c! "[R0,-4]") 0x07070707 := by
  refine .offset (a := c! "r0") (o := c! "-4") (t := c! "r0") (u := c! "-4") (x := ']') (b := 0x2008) (off := -4) (v := 0x07070707)
    (by decide) (by decide) (by decide) (strip_iff.1 (by decide)) ?_ (strip_iff.1 (by decide)) (.inl (.minus (v := 4) (.decimal (by decide) (by decide)))) ?_ ?_
  · have := Denotes.register (c := c) (t := c! "r0") (k := 0) (by decide +kernel)
    rw [h] at this
    exact this
  · rw [hmem]
    exact ⟨_, List.mem_cons_of_mem _ List.mem_cons_self, by decide, by decide⟩
  · rw [← hs.2, hmem]
    decide +kernel

end C68
end Verif
