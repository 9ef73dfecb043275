import Verif.Spec
import Verif.Lemmas.Bitstring

/-!
# C32: format strings

`Item` is the abstract syntax of the grammar in the comment above `parse_spec`, with the
spaces of the concrete text; `Item.text` is the text, `Item.elem` what it stands for.
-/

namespace Verif
open BS

namespace C32

/-- An item of a format string. `s1`, `s2`, `s3` are the spaces before `(`, after `(` and
before `)`. -/
inductive Item where
  | bit (b : Bool)
  | bare (name : Str)
  | sized (name s1 s2 digits s3 : Str)
  | fixed (name : Str) (bits : List Bool)

/-- The text of a bit. -/
def bitText (b : Bool) : Char := if b then '1' else '0'

/-- The text of an item. -/
def Item.text : Item → Str
  | .bit b => [bitText b]
  | .bare n => n
  | .sized n s1 s2 d s3 => n ++ s1 ++ ['('] ++ s2 ++ d ++ s3 ++ [')']
  | .fixed n bs => n ++ ['='] ++ bs.map bitText

/-- The number a list of bits spells, highest first. -/
def bitsValue : List Bool → Nat → Nat
  | [], a => a
  | b :: t, a => bitsValue t (2 * a + b.toNat)

/-- The number a text of decimal digits spells. -/
def decimal : Str → Nat → Nat
  | [], a => a
  | c :: t, a => decimal t (10 * a + (c.toNat - 48))

/-- What an item stands for. -/
def Item.elem : Item → Elem
  | .bit b => .bit b
  | .bare n => .field n 1
  | .sized n _ _ d _ => .field n (decimal d 0)
  | .fixed n bs => .fixed n ⟨bs.length, bitsValue bs 0, 2 ^ bs.length - 1⟩

/-- Names are a letter followed by letters and digits. -/
def IsName (n : Str) : Prop := ∃ c t, n = c :: t ∧ isLetter c = true ∧ ∀ x ∈ t, isLetter x = true ∨ isDigit x = true

/-- Only spaces. -/
def Spaces (s : Str) : Prop := ∀ c ∈ s, isSpace c = true

/-- The grammar's conditions on an item. -/
def Item.Ok : Item → Prop
  | .bit _ => True
  | .bare n => IsName n
  | .sized n s1 s2 d s3 => IsName n ∧ Spaces s1 ∧ Spaces s2 ∧ Spaces s3 ∧ d ≠ [] ∧ ∀ c ∈ d, isDigit c = true
  | .fixed n bs => IsName n ∧ bs ≠ []

/-- Items that must be separated from what follows. -/
def Item.needsSpace : Item → Prop
  | .bare _ => True
  | .fixed _ _ => True
  | _ => False

/-- Items with the spaces that follow each. -/
def text (l : List (Item × Str)) : Str := l.flatMap fun p => p.1.text ++ p.2

/-- The grammar's conditions on a whole text: every item but the last that needs it is
followed by a space. -/
def Ok : List (Item × Str) → Prop
  | [] => True
  | p :: t => p.1.Ok ∧ Spaces p.2 ∧ (p.1.needsSpace → t ≠ [] → p.2 ≠ []) ∧ Ok t

/-! ### Characters -/

theorem letter_not {c : Char} (h : isLetter c = true) :
    c ≠ '0' ∧ c ≠ '1' ∧ c ≠ '(' ∧ c ≠ ')' ∧ c ≠ '=' ∧ isDigit c = false ∧ isSpace c = false := by
  refine ⟨?_, ?_, ?_, ?_, ?_, ?_, ?_⟩
  · rintro rfl; revert h; decide
  · rintro rfl; revert h; decide
  · rintro rfl; revert h; decide
  · rintro rfl; revert h; decide
  · rintro rfl; revert h; decide
  · cases hd : isDigit c with
    | false => rfl
    | true =>
      simp only [isLetter, isDigit, Bool.or_eq_true, Bool.and_eq_true, decide_eq_true_eq, Char.le_def] at h hd
      have e1 : ('a' : Char).val.toNat = 97 := rfl
      have e2 : ('A' : Char).val.toNat = 65 := rfl
      have e3 : ('9' : Char).val.toNat = 57 := rfl
      simp only [UInt32.le_iff_toNat_le, e1, e2, e3] at h hd
      omega
  · cases hs : isSpace c with
    | false => rfl
    | true =>
      simp only [isSpace, Bool.or_eq_true, decide_eq_true_eq] at hs
      rcases hs with ((((rfl | rfl) | rfl) | rfl) | rfl) | rfl <;> revert h <;> decide

theorem space_not {c : Char} (h : isSpace c = true) :
    c ≠ '0' ∧ c ≠ '1' ∧ c ≠ '(' ∧ c ≠ ')' ∧ c ≠ '=' ∧ isDigit c = false ∧ isLetter c = false := by
  simp only [isSpace, Bool.or_eq_true, decide_eq_true_eq] at h
  rcases h with ((((rfl | rfl) | rfl) | rfl) | rfl) | rfl <;> decide

theorem digit_not {c : Char} (h : isDigit c = true) :
    c ≠ '(' ∧ c ≠ ')' ∧ c ≠ '=' ∧ isLetter c = false ∧ isSpace c = false := by
  refine ⟨?_, ?_, ?_, ?_, ?_⟩
  · rintro rfl; revert h; decide
  · rintro rfl; revert h; decide
  · rintro rfl; revert h; decide
  · cases hl : isLetter c with
    | false => rfl
    | true => rw [(letter_not hl).2.2.2.2.2.1] at h; exact absurd h (by decide)
  · cases hs : isSpace c with
    | false => rfl
    | true => rw [(space_not hs).2.2.2.2.2.1] at h; exact absurd h (by decide)

/-! ### Stages of the state machine -/

theorem loop_nil (p : ParseState) : parseLoop [] p = .ok p := rfl

theorem loop_cons {c : Char} {t : Str} {p q : ParseState} (h : parseStep p c = .ok q) :
    parseLoop (c :: t) p = parseLoop t q := by
  simp only [parseLoop, h, okBind]

/-- Spaces are skipped in state 0. -/
theorem loop_spaces {s rest : Str} (hs : Spaces s) {p : ParseState} (hp : p.state = 0) :
    parseLoop (s ++ rest) p = parseLoop rest p := by
  induction s with
  | nil => rfl
  | cons c t ih =>
    have hc := hs c (by simp)
    obtain ⟨h0, h1, h2, -, -, -, h3⟩ := space_not hc
    rw [List.cons_append, loop_cons (q := p), ih (fun x hx => hs x (by simp [hx]))]
    simp only [parseStep, hp, if_true, parse0, h0, h1, h2, h3, hc, or_self, if_false, false_and,
      Bool.false_eq_true]

/-- Letters and digits extend a name. -/
theorem loop_name {n rest : Str} (hn : ∀ x ∈ n, isLetter x = true ∨ isDigit x = true) {p : ParseState}
    (hp : p.state = 1) : parseLoop (n ++ rest) p = parseLoop rest { p with ident := p.ident ++ n } := by
  induction n generalizing p with
  | nil => simp
  | cons c t ih =>
    have hc := hn c (by simp)
    have h2 : c ≠ '(' ∧ c ≠ '=' := by
      rcases hc with h | h
      · exact ⟨(letter_not h).2.2.1, (letter_not h).2.2.2.2.1⟩
      · exact ⟨(digit_not h).1, (digit_not h).2.2.1⟩
    have h3 : (isLetter c || isDigit c) = true := by rcases hc with h | h <;> simp [h]
    rw [List.cons_append, loop_cons (q := { p with ident := p.ident ++ [c] }),
      ih (fun x hx => hn x (by simp [hx])) (p := { p with ident := p.ident ++ [c] }) hp]
    · simp
    · simp only [parseStep, hp, h2, h3, if_true, if_false, show ¬ (1 = 0) by omega]

/-- A state between items: `out` is what has been read, possibly with a name still pending. -/
def Ready (p : ParseState) (out : List Elem) : Prop :=
  p.state = 0 ∧ p.bits = [] ∧ p.bitcount = [] ∧ (flushIdent p).result = out

theorem ready_clean (out : List Elem) (e : Bool) : Ready ⟨out, 0, [], [], [], e⟩ out := ⟨rfl, rfl, rfl, rfl⟩

theorem flush_ident (p : ParseState) : (flushIdent p).ident = [] := by
  unfold flushIdent; split <;> simp_all

theorem flush_eq {p : ParseState} {out : List Elem} (h : Ready p out) :
    flushIdent p = ⟨out, 0, [], [], [], p.expecting⟩ := by
  obtain ⟨h1, h2, h3, h4⟩ := h
  have h5 := flush_ident p
  unfold flushIdent at *
  split at h4 <;> simp_all
  cases p; simp_all

/-- A name starting in a ready state. -/
theorem loop_ident {n rest : Str} (hn : IsName n) {p : ParseState} {out : List Elem} (hp : Ready p out) :
    parseLoop (n ++ rest) p = parseLoop rest ⟨out, 1, n, [], [], p.expecting⟩ := by
  obtain ⟨c, t, rfl, hc, ht⟩ := hn
  obtain ⟨h0, h1, -, -, -, -, -⟩ := letter_not hc
  rw [List.cons_append, loop_cons (q := ⟨out, 1, [c], [], [], p.expecting⟩), loop_name ht rfl]
  · rfl
  · simp only [parseStep, hp.1, if_true, parse0, h0, h1, or_self, if_false, hc, flush_eq hp]

theorem ready_end {p : ParseState} {out : List Elem} (h : Ready p out) : parseEnd p = .ok out := by
  obtain ⟨h1, h2, h3, h4⟩ := h
  unfold parseEnd flushIdent at *
  by_cases hi : p.ident = []
  · rw [if_pos hi] at h4 ⊢; rw [h4]
  · rw [if_neg hi] at h4 ⊢
    simp only [h2, ne_eq, not_true_eq_false, if_false, h3, if_true]
    simpa using h4

theorem intBase10_eq (d : Str) : intBase10 d = decimal d 0 := by
  unfold intBase10
  generalize 0 = a
  induction d generalizing a with
  | nil => rfl
  | cons c t ih => exact ih _

theorem loop_digits {d rest : Str} (hd : ∀ c ∈ d, isDigit c = true) {p : ParseState} (hp : p.state = 3) :
    parseLoop (d ++ rest) p = parseLoop rest { p with bitcount := p.bitcount ++ d } := by
  induction d generalizing p with
  | nil => simp
  | cons c t ih =>
    have hc := hd c (by simp)
    rw [List.cons_append, loop_cons (q := { p with bitcount := p.bitcount ++ [c] }),
      ih (fun x hx => hd x (by simp [hx])) (p := { p with bitcount := p.bitcount ++ [c] }) hp]
    · simp
    · simp only [parseStep, hp, hc, (digit_not hc).2.1, if_false, Bool.not_true, Bool.false_eq_true,
        show ¬ (3 = 0) by omega, show ¬ (3 = 1) by omega, show ¬ (3 = 2) by omega, if_true]

theorem loop_spaces2 {s rest : Str} (hs : Spaces s) {p : ParseState} (hp : p.state = 2) :
    parseLoop (s ++ rest) p = parseLoop rest p := by
  induction s with
  | nil => rfl
  | cons c t ih =>
    have hc := hs c (by simp)
    obtain ⟨-, -, -, h2, -, h3, -⟩ := space_not hc
    rw [List.cons_append, loop_cons (q := p), ih (fun x hx => hs x (by simp [hx]))]
    simp only [parseStep, hp, h2, h3, hc, if_false, Bool.false_eq_true, if_true,
      show ¬ (2 = 0) by omega, show ¬ (2 = 1) by omega]

theorem loop_spaces4 {s rest : Str} (hs : Spaces s) {p : ParseState} (hp : p.state = 4) :
    parseLoop (s ++ rest) p = parseLoop rest p := by
  induction s with
  | nil => rfl
  | cons c t ih =>
    have hc := hs c (by simp)
    obtain ⟨-, -, -, h2, -, h3, -⟩ := space_not hc
    rw [List.cons_append, loop_cons (q := p), ih (fun x hx => hs x (by simp [hx]))]
    simp only [parseStep, hp, h2, hc, if_false, if_true,
      show ¬ (4 = 0) by omega, show ¬ (4 = 1) by omega, show ¬ (4 = 2) by omega, show ¬ (4 = 3) by omega]

/-- Spaces and the closing bracket after the digits. -/
theorem loop_close {s rest : Str} (hs : Spaces s) {p : ParseState} (hp : p.state = 3) :
    parseLoop (s ++ ')' :: rest) p = parseLoop rest (closeField p) := by
  cases s with
  | nil =>
    rw [List.nil_append, loop_cons]
    simp only [parseStep, hp, if_true, show ¬ (3 = 0) by omega, show ¬ (3 = 1) by omega, show ¬ (3 = 2) by omega,
      if_false]
  | cons c t =>
    have hc := hs c (by simp)
    obtain ⟨-, -, -, h2, -, h3, -⟩ := space_not hc
    rw [List.cons_append, loop_cons (q := { p with state := 4 }),
      loop_spaces4 (fun x hx => hs x (by simp [hx])) rfl, loop_cons (q := closeField p)]
    · simp [parseStep, closeField]
    · simp only [parseStep, hp, h2, h3, if_false, Bool.not_false, if_true,
        show ¬ (3 = 0) by omega, show ¬ (3 = 1) by omega, show ¬ (3 = 2) by omega]

/-- The opening bracket after a name and spaces. -/
theorem loop_open {s rest : Str} (hs : Spaces s) {p : ParseState} (hp : p.state = 1) :
    ∃ e, parseLoop (s ++ '(' :: rest) p = parseLoop rest { p with state := 2, expecting := e } := by
  cases s with
  | nil =>
    refine ⟨p.expecting, ?_⟩
    rw [List.nil_append, loop_cons]
    simp only [parseStep, hp, show ¬ (1 = 0) by omega, if_false, if_true]
  | cons c t =>
    have hc := hs c (by simp)
    obtain ⟨h0, h1, h2, -, h4, h5, h6⟩ := space_not hc
    refine ⟨true, ?_⟩
    rw [List.cons_append, loop_cons (q := { p with state := 0, expecting := true }),
      loop_spaces (fun x hx => hs x (by simp [hx])) rfl, loop_cons]
    · simp [parseStep, parse0, show isLetter '(' = false by decide]
    · simp only [parseStep, hp, parse0, h0, h1, h2, h4, h5, h6, hc, show ¬ (1 = 0) by omega, if_true, if_false,
        Bool.or_self, Bool.false_eq_true, or_self, false_and]

theorem foldl_bitText (bs : List Bool) (a : Nat) :
    (bs.map bitText).foldl (fun a c => 2 * a + (if c = '1' then 1 else 0)) a = bitsValue bs a := by
  induction bs generalizing a with
  | nil => rfl
  | cons b t ih => cases b <;> exact ih _

theorem mem_bitText {bs : List Bool} : ∀ c ∈ bs.map bitText, c = '0' ∨ c = '1' := by
  intro c hc
  obtain ⟨b, -, rfl⟩ := List.mem_map.mp hc
  cases b <;> simp [bitText]

theorem bitsValue_lt (bs : List Bool) (a : Nat) : bitsValue bs a < (a + 1) * 2 ^ bs.length := by
  induction bs generalizing a with
  | nil => simp [bitsValue]
  | cons b t ih =>
    refine Nat.lt_of_lt_of_le (ih _) ?_
    rw [List.length_cons, Nat.pow_succ, ← Nat.mul_assoc, Nat.mul_right_comm]
    apply Nat.mul_le_mul_right
    cases b <;> simp <;> omega

theorem init_bits {bs : List Bool} (h : bs ≠ []) :
    init (.str (bs.map bitText)) = .ok ⟨bs.length, bitsValue bs 0, 2 ^ bs.length - 1⟩ := by
  have h1 : initRaw (.str (bs.map bitText)) = .ok (bs.length, (bitsValue bs 0 : Int)) := by
    have : intBase2 (bs.map bitText) = .ok (bitsValue bs 0 : Int) := by
      rw [intBase2_bits (by simpa using h) mem_bitText, strVal, foldl_bitText]
    simp only [initRaw, this, okBind, List.length_map]
  unfold init
  rw [h1, okBind]
  simp only [Option.getD_none]
  rw [if_neg (by omega)]
  congr 1
  rw [Int.toNat_natCast, ofInt_nat]
  unfold bv
  have := bitsValue_lt bs 0
  rw [Nat.mod_eq_of_lt (by omega)]

theorem loop_bits {bs : List Bool} {rest : Str} {p : ParseState} (hp : p.state = 5) :
    parseLoop (bs.map bitText ++ rest) p = parseLoop rest { p with bits := p.bits ++ bs.map bitText } := by
  induction bs generalizing p with
  | nil => simp
  | cons b t ih =>
    rw [List.map_cons, List.cons_append, loop_cons (q := { p with bits := p.bits ++ [bitText b] }),
      ih (p := { p with bits := p.bits ++ [bitText b] }) hp]
    · simp
    · have : bitText b = '0' ∨ bitText b = '1' := by cases b <;> simp [bitText]
      simp only [parseStep, hp, this, if_true, if_false, show ¬ (5 = 0) by omega, show ¬ (5 = 1) by omega,
        show ¬ (5 = 2) by omega, show ¬ (5 = 3) by omega, show ¬ (5 = 4) by omega]

/-- One item and its separator. -/
theorem item_step {it : Item} {sp rest : Str} (ok : it.Ok) (hsp : Spaces sp) (hn : it.needsSpace → sp ≠ [])
    {p : ParseState} {out : List Elem} (hp : Ready p out) :
    ∃ q, parseLoop (it.text ++ sp ++ rest) p = parseLoop rest q ∧ Ready q (out ++ [it.elem]) := by
  cases it with
  | bit b =>
    refine ⟨⟨out ++ [.bit b], 0, [], [], [], false⟩, ?_, ready_clean _ _⟩
    rw [Item.text, List.append_assoc, List.singleton_append,
      loop_cons (q := ⟨out ++ [.bit b], 0, [], [], [], false⟩), loop_spaces hsp rfl]
    have : bitText b = '0' ∨ bitText b = '1' := by cases b <;> simp [bitText]
    simp only [parseStep, hp.1, if_true, parse0, this, flush_eq hp]
    cases b <;> rfl
  | bare n =>
    obtain ⟨c, t, rfl⟩ : ∃ c t, sp = c :: t := by
      cases sp with
      | nil => exact absurd rfl (hn trivial)
      | cons c t => exact ⟨c, t, rfl⟩
    have hc := hsp c (by simp)
    obtain ⟨h0, h1, h2, -, h4, h5, h6⟩ := space_not hc
    refine ⟨⟨out, 0, n, [], [], true⟩, ?_, ?_⟩
    · rw [Item.text, List.append_assoc, loop_ident ok hp, List.cons_append,
        loop_cons (q := ⟨out, 0, n, [], [], true⟩), loop_spaces (fun x hx => hsp x (by simp [hx])) rfl]
      simp only [parseStep, parse0, h0, h1, h2, h4, h5, h6, hc, show ¬ (1 = 0) by omega, if_true, if_false,
        Bool.or_self, Bool.false_eq_true, or_self, false_and]
    · obtain ⟨c', t', rfl, -⟩ := ok
      exact ⟨rfl, rfl, rfl, by simp [flushIdent, Item.elem]⟩
  | sized n s1 s2 d s3 =>
    obtain ⟨k1, k2, k3, k4, k5, k6⟩ := ok
    obtain ⟨e, he⟩ := loop_open (rest := s2 ++ d ++ s3 ++ [')'] ++ sp ++ rest) k2
      (p := ⟨out, 1, n, [], [], p.expecting⟩) rfl
    obtain ⟨c, t, rfl⟩ : ∃ c t, d = c :: t := by
      cases d with
      | nil => exact absurd rfl k5
      | cons c t => exact ⟨c, t, rfl⟩
    have hc := k6 c (by simp)
    refine ⟨⟨out ++ [.field n (decimal (c :: t) 0)], 0, [], [], [], e⟩, ?_, ready_clean _ _⟩
    have e1 : (Item.sized n s1 s2 (c :: t) s3).text ++ sp ++ rest
        = n ++ (s1 ++ '(' :: (s2 ++ (c :: t) ++ s3 ++ [')'] ++ sp ++ rest)) := by simp [Item.text]
    rw [e1, loop_ident k1 hp, he]
    have e2 : s2 ++ (c :: t) ++ s3 ++ [')'] ++ sp ++ rest = s2 ++ (c :: (t ++ (s3 ++ ')' :: (sp ++ rest)))) := by simp
    rw [e2, loop_spaces2 k3 rfl, loop_cons (q := ⟨out, 3, n, [c], [], e⟩),
      loop_digits (fun x hx => k6 x (by simp [hx])) rfl, loop_close k4 rfl]
    · simp only [closeField, List.singleton_append]
      rw [loop_spaces hsp rfl, intBase10_eq]
    · simp only [parseStep, hc, show ¬ (2 = 0) by omega, show ¬ (2 = 1) by omega, if_true, if_false]
  | fixed n bs =>
    obtain ⟨k1, k2⟩ := ok
    obtain ⟨c, t, rfl⟩ : ∃ c t, sp = c :: t := by
      cases sp with
      | nil => exact absurd rfl (hn trivial)
      | cons c t => exact ⟨c, t, rfl⟩
    have hc := hsp c (by simp)
    obtain ⟨h0, h1, -⟩ := space_not hc
    refine ⟨⟨out ++ [(Item.fixed n bs).elem], 0, [], [], [], p.expecting⟩, ?_, ready_clean _ _⟩
    have e1 : (Item.fixed n bs).text ++ (c :: t) ++ rest
        = n ++ ('=' :: (bs.map bitText ++ (c :: (t ++ rest)))) := by simp [Item.text]
    rw [e1, loop_ident k1 hp, loop_cons (q := ⟨out, 5, n, [], [], p.expecting⟩), loop_bits rfl,
      loop_cons (q := ⟨out ++ [(Item.fixed n bs).elem], 0, [], [], [], p.expecting⟩),
      loop_spaces (fun x hx => hsp x (by simp [hx])) rfl]
    · simp only [parseStep, h0, h1, or_self, if_false, List.nil_append, init_bits k2, okBind,
        show ¬ (5 = 0) by omega, show ¬ (5 = 1) by omega,
        show ¬ (5 = 2) by omega, show ¬ (5 = 3) by omega, show ¬ (5 = 4) by omega]
      rfl
    · simp [parseStep]

/-- The last item of a text, with no space after it. -/
theorem item_last {it : Item} (ok : it.Ok) {p : ParseState} {out : List Elem} (hp : Ready p out) :
    (do let q ← parseLoop it.text p; parseEnd q) = .ok (out ++ [it.elem]) := by
  by_cases hn : it.needsSpace
  · cases it with
    | bit b => exact hn.elim
    | sized => exact hn.elim
    | bare n =>
      have := loop_ident (rest := []) ok hp
      rw [List.append_nil] at this
      rw [Item.text, this, loop_nil, okBind]
      obtain ⟨c, t, rfl, -⟩ := ok
      simp [parseEnd, Item.elem]
    | fixed n bs =>
      obtain ⟨k1, k2⟩ := ok
      have e1 : (Item.fixed n bs).text = n ++ ('=' :: (bs.map bitText ++ [])) := by simp [Item.text]
      rw [e1, loop_ident k1 hp, loop_cons (q := ⟨out, 5, n, [], [], p.expecting⟩), loop_bits rfl, loop_nil, okBind]
      · obtain ⟨c, t, rfl, -⟩ := k1
        have : bs.map bitText ≠ [] := by simpa using k2
        simp only [parseEnd, List.nil_append, reduceCtorEq, if_false, ne_eq, this, not_false_eq_true, if_true,
          init_bits k2, okBind]
        rfl
      · simp [parseStep]
  · obtain ⟨q, h1, h2⟩ := item_step (rest := []) ok (sp := []) (fun _ h => by simp at h) (fun h => absurd h hn) hp
    rw [List.append_nil, List.append_nil] at h1
    rw [h1, loop_nil, okBind, ready_end h2]

/-- **C32.** Parsing the text of a list of items, with any spacing the grammar allows
and any spaces in front, gives what the items stand for, in order. -/
theorem parse_text (l : List (Item × Str)) (ok : Ok l) (lead : Str) (hl : Spaces lead) :
    parseSpec (lead ++ text l) = .ok (l.map fun p => p.1.elem) := by
  have key : ∀ (l : List (Item × Str)), Ok l → ∀ (p : ParseState) (out : List Elem), Ready p out →
      (do let q ← parseLoop (text l) p; parseEnd q) = .ok (out ++ l.map fun p => p.1.elem) := by
    intro l
    induction l with
    | nil => intro _ p out hp; simp [text, loop_nil, okBind, ready_end hp]
    | cons a t ih =>
      intro ok p out hp
      obtain ⟨h1, h2, h3, h4⟩ := ok
      by_cases hs : a.1.needsSpace → a.2 ≠ []
      · obtain ⟨q, e, hq⟩ := item_step (rest := text t) h1 h2 hs hp
        have : text (a :: t) = a.1.text ++ a.2 ++ text t := by simp [text]
        rw [this, e, ih h4 q _ hq]
        simp
      · have ht : t = [] := by
          cases t with
          | nil => rfl
          | cons b u => exact absurd (fun h => h3 h (by simp)) hs
        have ha : a.2 = [] := by
          cases h : a.2 with
          | nil => rfl
          | cons b u => exact absurd (fun _ => by simp [h]) hs
        subst ht
        have : text [a] = a.1.text := by simp [text, ha]
        rw [this, item_last h1 hp]; simp
  unfold parseSpec
  rw [loop_spaces hl rfl]
  have := key l ok ⟨[], 0, [], [], [], false⟩ [] (ready_clean _ _)
  simpa using this

/-- **C32.** Bits of a fixed value keep their order: the first is the highest. -/
theorem fixed_value (n : Str) (hn : IsName n) (b : Bool) (bs : List Bool) :
    parseSpec (n ++ ['='] ++ (b :: bs).map bitText)
      = .ok [.fixed n ⟨bs.length + 1, bitsValue bs b.toNat, 2 ^ (bs.length + 1) - 1⟩] := by
  have := parse_text [(.fixed n (b :: bs), [])] ⟨⟨hn, by simp⟩, by intro c h; simp at h, by simp, trivial⟩ []
    (by intro c h; simp at h)
  simpa [text, Item.text, Item.elem, bitsValue] using this

/-- **C32.** A character that is not part of the grammar is refused with `ValueError`
wherever an item could start. -/
theorem refuses (l : List (Item × Str)) (ok : Ok l) (sep : ∀ p ∈ l, p.1.needsSpace → p.2 ≠ []) (c : Char) (rest : Str)
    (h0 : c ≠ '0') (h1 : c ≠ '1') (h2 : c ≠ '(') (h3 : isLetter c = false) (h4 : isSpace c = false) :
    parseSpec (text l ++ c :: rest) = .error .valueError := by
  have key : ∀ (l : List (Item × Str)), Ok l → (∀ p ∈ l, p.1.needsSpace → p.2 ≠ []) →
      ∀ (p : ParseState) (out : List Elem), Ready p out →
      parseLoop (text l ++ c :: rest) p = .error .valueError := by
    intro l
    induction l with
    | nil =>
      intro _ _ p out hp
      have : parseStep p c = .error .valueError := by
        simp only [parseStep, hp.1, if_true, parse0, h0, h1, h2, h3, h4, or_self, if_false, false_and,
          Bool.false_eq_true]
      show parseLoop (c :: rest) p = _
      simp only [parseLoop, this]; rfl
    | cons a t ih =>
      intro ok sep p out hp
      obtain ⟨k1, k2, -, k4⟩ := ok
      obtain ⟨q, e, hq⟩ := item_step (rest := text t ++ c :: rest) k1 k2 (sep a (by simp)) hp
      have : text (a :: t) ++ c :: rest = a.1.text ++ a.2 ++ (text t ++ c :: rest) := by simp [text]
      rw [this, e]
      exact ih k4 (fun x hx => sep x (by simp [hx])) q _ hq
  unfold parseSpec
  rw [key l ok sep _ [] (ready_clean _ _)]; rfl

/-- The grammar's comment allows a value to end at the first character that is not a bit;
the implementation swallows that character. `refuses` and `parse_text` hence ask for a
space there; without one the next item is damaged. -/
theorem terminator_swallowed : parseSpec (c! "a=01b=10 c") = .ok [.fixed ['a'] ⟨2, 1, 3⟩] → False := by
  decide +kernel

example : parseSpec (c! "000 stype=01 imm5(5) Rm (3) Rd( 3 )")
    = .ok [.bit false, .bit false, .bit false, .fixed (c! "stype") ⟨2, 1, 3⟩, .field (c! "imm5") 5,
        .field (c! "Rm") 3, .field (c! "Rd") 3] := by decide +kernel

end C32
end Verif
