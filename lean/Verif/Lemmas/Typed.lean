import Verif.Console
import Verif.Spec.Console
import Verif.Lemmas.Text

/-!
# Lemmas about typed text
-/

namespace Verif
namespace Typed

theorem isSpace_iff {c : Char} : isSpace c = true ↔ Blank c := by
  simp only [isSpace, Blank, Bool.or_eq_true, decide_eq_true_eq, List.mem_cons, List.not_mem_nil, or_false, or_assoc]

theorem isSpace_false {c : Char} : isSpace c = false ↔ ¬ Blank c := by
  rw [← isSpace_iff, Bool.not_eq_true]

theorem splitBy_ne (p : Char → Bool) : ∀ s : Str, splitBy p s ≠ []
  | [] => List.cons_ne_nil _ _
  | c :: t => by
    unfold splitBy
    split
    · exact List.cons_ne_nil _ _
    · cases splitBy p t <;> exact List.cons_ne_nil _ _

theorem splitBy_none (p : Char → Bool) : ∀ {a : Str}, (∀ c ∈ a, p c = false) → splitBy p a = [a]
  | [], _ => rfl
  | c :: t, h => by
    unfold splitBy
    rw [splitBy_none p fun x hx => h x (List.mem_cons_of_mem _ hx), h c List.mem_cons_self]
    rfl

theorem splitBy_at (p : Char → Bool) : ∀ {a : Str}, (∀ c ∈ a, p c = false) → ∀ {d : Char}, p d = true → ∀ t : Str,
    splitBy p (a ++ d :: t) = a :: splitBy p t
  | [], _, d, hd, t => by
    show splitBy p (d :: t) = _
    rw [splitBy, if_pos hd]
  | c :: a, h, d, hd, t => by
    show splitBy p (c :: (a ++ d :: t)) = _
    rw [splitBy, splitBy_at p (fun x hx => h x (List.mem_cons_of_mem _ hx)) hd t, h c List.mem_cons_self]
    rfl

theorem parts_of {s : Str} {l : List Str} (h : Parts s l) : splitBy (· = ';') s = l := by
  induction h with
  | @last a h =>
    refine splitBy_none _ fun c hc => ?_
    simp only [decide_eq_false_iff_not]
    rintro rfl
    exact h hc
  | @more a t l h _ ih =>
    rw [splitBy_at (d := ';') _ (fun c hc => ?_) rfl, ih]
    simp only [decide_eq_false_iff_not]
    rintro rfl
    exact h hc

theorem parts : ∀ s : Str, Parts s (splitBy (· = ';') s)
  | [] => .last List.not_mem_nil
  | c :: t => by
    have ih := parts t
    unfold splitBy
    split
    · rename_i h
      simp only [decide_eq_true_eq] at h
      subst h
      exact .more (a := []) List.not_mem_nil ih
    · rename_i h
      simp only [decide_eq_true_eq] at h
      revert ih
      cases splitBy (· = ';') t with
      | nil => exact fun ih => nomatch ih
      | cons a l =>
        intro ih
        cases ih with
        | last h' =>
          refine .last fun hm => ?_
          rcases List.mem_cons.1 hm with e | hm
          · exact h e.symm
          · exact h' hm
        | more h' h'' =>
          refine .more (a := c :: a) (fun hm => ?_) h''
          rcases List.mem_cons.1 hm with e | hm
          · exact h e.symm
          · exact h' hm

theorem words_blank {c : Char} (h : Blank c) (t : Str) : words (c :: t) = words t := by
  unfold words
  rw [splitBy, if_pos (isSpace_iff.2 h), List.filter_cons]
  rfl

theorem words_blanks : ∀ {pre : Str}, (∀ c ∈ pre, Blank c) → ∀ t, words (pre ++ t) = words t
  | [], _, _ => rfl
  | c :: pre, h, t => by
    rw [List.cons_append, words_blank (h c List.mem_cons_self), words_blanks fun x hx => h x (List.mem_cons_of_mem _ hx)]

theorem words_word {a rest : Str} (h0 : a ≠ []) (h : ∀ c ∈ a, ¬ Blank c) (hr : ∀ c ∈ rest.head?, Blank c) :
    words (a ++ rest) = a :: words rest := by
  have ha : ∀ c ∈ a, isSpace c = false := fun c hc => isSpace_false.2 (h c hc)
  cases rest with
  | nil =>
    rw [List.append_nil]
    unfold words
    rw [splitBy_none _ ha, List.filter_cons]
    simp [h0, splitBy]
  | cons d t =>
    have hd := hr d rfl
    rw [words_blank hd]
    unfold words
    rw [splitBy_at _ ha (isSpace_iff.2 hd), List.filter_cons]
    simp [h0]

theorem words_of {s : Str} {l : List Str} (h : WordsOf s l) : words s = l := by
  induction h with
  | @none s h =>
    have := words_blanks h []
    rw [List.append_nil] at this
    rw [this]
    rfl
  | word h1 h2 h3 h4 _ ih => rw [words_blanks h1, words_word h2 h3 h4, ih]

theorem takeWhile_all {p : Char → Bool} : ∀ {s : Str}, ∀ c ∈ s.takeWhile p, p c = true
  | [], _, h => absurd h List.not_mem_nil
  | x :: t, c, h => by
    rw [List.takeWhile_cons] at h
    split at h
    · rcases List.mem_cons.1 h with rfl | h
      · assumption
      · exact takeWhile_all c h
    · exact absurd h List.not_mem_nil

theorem dropWhile_head {p : Char → Bool} : ∀ {s : Str}, ∀ c ∈ (s.dropWhile p).head?, p c = false
  | [], _, h => by simp at h
  | x :: t, c, h => by
    rw [List.dropWhile_cons] at h
    split at h
    · exact dropWhile_head c h
    · simp only [List.head?_cons, Option.mem_some] at h
      subst h
      simp_all

theorem exists_words : ∀ (n : Nat) (s : Str), s.length ≤ n → ∃ l, WordsOf s l
  | 0, s, h => ⟨[], .none (by
      have : s = [] := List.length_eq_zero_iff.1 (by omega)
      subst this
      simp)⟩
  | n + 1, s, h => by
    have hs : s.takeWhile isSpace ++ s.dropWhile isSpace = s := List.takeWhile_append_dropWhile
    have hpre : ∀ c ∈ s.takeWhile isSpace, Blank c := fun c hc => isSpace_iff.1 (takeWhile_all c hc)
    cases hr : s.dropWhile isSpace with
    | nil =>
      rw [hr, List.append_nil] at hs
      rw [hs] at hpre
      exact ⟨[], .none hpre⟩
    | cons x t =>
      have hx : isSpace x = false := dropWhile_head x (by rw [hr]; rfl)
      let q := fun c => !isSpace c
      have hxq : q x = true := by simp [q, hx]
      have ht : (x :: t).takeWhile q ++ (x :: t).dropWhile q = x :: t := List.takeWhile_append_dropWhile
      have ha : (x :: t).takeWhile q = x :: t.takeWhile q := by rw [List.takeWhile_cons, if_pos hxq]
      have hlen : ((x :: t).dropWhile q).length ≤ n := by
        have h1 := congrArg List.length ht
        have h2 := congrArg List.length hs
        rw [hr] at h2
        rw [ha] at h1
        simp only [List.length_append, List.length_cons] at h1 h2
        omega
      obtain ⟨l, hl⟩ := exists_words n _ hlen
      refine ⟨(x :: t).takeWhile q :: l, ?_⟩
      have := WordsOf.word (pre := s.takeWhile isSpace) (a := (x :: t).takeWhile q) (rest := (x :: t).dropWhile q) hpre
        (by rw [ha]; exact List.cons_ne_nil _ _)
        (fun c hc => by
          have := takeWhile_all c hc
          rw [← isSpace_false]
          simpa [q] using this)
        (fun c hc => by
          have := dropWhile_head c hc
          rw [← isSpace_iff]
          simpa [q] using this) hl
      rw [ht] at this
      rw [← hs, hr]
      exact this

/-- The words of a text are determined, and `split` finds them. -/
theorem words_iff {s : Str} {l : List Str} : words s = l ↔ WordsOf s l := by
  refine ⟨fun h => ?_, words_of⟩
  obtain ⟨m, hm⟩ := exists_words s.length s (Nat.le_refl _)
  rw [← h, words_of hm]
  exact hm

theorem wordsOf (s : Str) : WordsOf s (words s) := words_iff.1 rfl

theorem dropWhile_pre {p : Char → Bool} : ∀ {pre : Str}, (∀ c ∈ pre, p c = true) → ∀ t, (pre ++ t).dropWhile p = t.dropWhile p
  | [], _, _ => rfl
  | c :: pre, h, t => by
    rw [List.cons_append, List.dropWhile_cons, if_pos (h c List.mem_cons_self), dropWhile_pre fun x hx => h x (List.mem_cons_of_mem _ hx)]

theorem dropWhile_keep {p : Char → Bool} {t : Str} (h : ∀ c ∈ t.head?, p c = false) : t.dropWhile p = t := by
  cases t with
  | nil => rfl
  | cons x t =>
    rw [List.dropWhile_cons, h x rfl]
    rfl

theorem strip_of {s t : Str} (h : Stripped s t) : strip s = t := by
  unfold strip
  cases h with
  | empty h =>
    have := dropWhile_pre (p := isSpace) (fun c hc => isSpace_iff.2 (h c hc)) []
    rw [List.append_nil] at this
    rw [this]
    rfl
  | @full pre t post h1 h2 h0 h3 h4 =>
    have hh : ∀ c ∈ (t ++ post).head?, isSpace c = false := by
      intro c hc
      cases t with
      | nil => exact absurd rfl h0
      | cons x t => exact isSpace_false.2 (h3 c hc)
    rw [dropWhile_pre (fun c hc => isSpace_iff.2 (h1 c hc)), dropWhile_keep hh, List.reverse_append,
      dropWhile_pre (fun c hc => isSpace_iff.2 (h2 c (List.mem_reverse.1 hc))), dropWhile_keep, List.reverse_reverse]
    intro c hc
    rw [List.head?_reverse] at hc
    exact isSpace_false.2 (h4 c hc)

theorem strip_iff {s t : Str} : strip s = t ↔ Stripped s t := by
  refine ⟨fun h => ?_, strip_of⟩
  suffices ∃ t, Stripped s t by
    obtain ⟨m, hm⟩ := this
    rw [← h, strip_of hm]
    exact hm
  have hs : s.takeWhile isSpace ++ s.dropWhile isSpace = s := List.takeWhile_append_dropWhile
  have hpre : ∀ c ∈ s.takeWhile isSpace, Blank c := fun c hc => isSpace_iff.1 (takeWhile_all c hc)
  by_cases hn : s.dropWhile isSpace = []
  · rw [hn, List.append_nil] at hs
    rw [hs] at hpre
    exact ⟨[], .empty hpre⟩
  · let m := s.dropWhile isSpace
    have hm : ((m.reverse.takeWhile isSpace) ++ (m.reverse.dropWhile isSpace)) = m.reverse := List.takeWhile_append_dropWhile
    have hm' : (m.reverse.dropWhile isSpace).reverse ++ (m.reverse.takeWhile isSpace).reverse = m := by
      rw [← List.reverse_append, hm, List.reverse_reverse]
    have hfirst : ∀ c ∈ m.head?, isSpace c = false := fun c hc => dropWhile_head c hc
    have hne : m.reverse.dropWhile isSpace ≠ [] := by
      intro e
      rw [e] at hm'
      cases hx : m with
      | nil => exact hn hx
      | cons x t =>
        have h1 : isSpace x = false := hfirst x (by rw [hx]; rfl)
        have h2 : x ∈ m := by rw [hx]; exact List.mem_cons_self
        rw [← hm'] at h2
        simp only [List.reverse_nil, List.nil_append, List.mem_reverse] at h2
        rw [takeWhile_all x h2] at h1
        cases h1
    refine ⟨(m.reverse.dropWhile isSpace).reverse, ?_⟩
    have := Stripped.full (pre := s.takeWhile isSpace) (t := (m.reverse.dropWhile isSpace).reverse)
      (post := (m.reverse.takeWhile isSpace).reverse) hpre
      (fun c hc => isSpace_iff.1 (takeWhile_all c (List.mem_reverse.1 hc)))
      (by simpa using hne)
      (fun c hc => by
        rw [← isSpace_false]
        apply hfirst
        cases hd : (m.reverse.dropWhile isSpace).reverse with
        | nil => exact absurd (List.reverse_eq_nil_iff.1 hd) hne
        | cons y u =>
          rw [hd] at hc
          rw [← hm', hd]
          exact hc)
      (fun c hc => by
        rw [List.getLast?_reverse] at hc
        exact isSpace_false.1 (dropWhile_head c hc))
    rw [hm', hs] at this
    exact this

theorem strip_none {cmd : Str} (h : WordsOf cmd []) : strip cmd = [] := by
  cases h with
  | none h => exact strip_of (.empty h)

theorem strip_head {cmd a : Str} {l : List Str} (h : WordsOf cmd (a :: l)) : (strip cmd).head? = a.head? := by
  cases h with
  | @word pre a rest l h1 h2 h3 h4 h5 =>
    unfold strip
    have hne : (a ++ rest).dropWhile isSpace = a ++ rest := dropWhile_keep (by
      intro c hc
      cases a with
      | nil => exact absurd rfl h2
      | cons x t =>
        simp only [List.cons_append, List.head?_cons, Option.mem_some] at hc
        subst hc
        exact isSpace_false.2 (h3 _ List.mem_cons_self))
    rw [dropWhile_pre (fun c hc => isSpace_iff.2 (h1 c hc)), hne, List.reverse_append, List.dropWhile_append]
    split
    · rw [dropWhile_keep, List.reverse_reverse]
      intro c hc
      rw [List.head?_reverse] at hc
      exact isSpace_false.2 (h3 c (List.mem_of_getLast? hc))
    · rw [List.reverse_append, List.reverse_reverse]
      cases a with
      | nil => exact absurd rfl h2
      | cons x t => rfl

/-! ### Numbers -/

theorem digit_eq {c : Char} {b : Nat} (hb : b ≤ 16) {d : Nat} : (digitValue c = some d ∧ d < b) ↔ (Reader.digit c = some d ∧ d < b) := by
  unfold digitValue Reader.digit
  by_cases h1 : '0' ≤ c ∧ c ≤ '9'
  · rw [if_pos h1, if_pos (by simpa using h1)]
  · rw [if_neg h1, if_neg (by simpa using h1)]
    by_cases h2 : 'a' ≤ c ∧ c ≤ 'f'
    · rw [if_pos h2, if_pos (by
        simp only [Bool.and_eq_true, decide_eq_true_eq]
        exact ⟨h2.1, Char.le_trans h2.2 (by decide)⟩)]
    · rw [if_neg h2]
      split
      · rename_i h3
        simp only [Bool.and_eq_true, decide_eq_true_eq] at h3
        have h4 : ¬ c ≤ 'f' := fun h => h2 ⟨h3.1, h⟩
        constructor
        · rintro ⟨h5, h6⟩
          simp only [Option.some.injEq] at h5
          have h7 : 'f'.toNat < c.toNat := by
            rw [Char.le_def] at h4
            have : ¬ c.val.toNat ≤ 'f'.val.toNat := h4
            exact Nat.lt_of_not_le this
          have h8 : 'f'.toNat = 102 := rfl
          have h9 : 'a'.toNat = 97 := rfl
          omega
        · rintro ⟨h5, _⟩
          cases h5
      · exact Iff.rfl

theorem digits_eq {b : Nat} (hb : b ≤ 16) : ∀ (s : Str) (a : Nat), digitsValue b s a = Reader.digits b a s
  | [], _ => rfl
  | c :: t, a => by
    unfold digitsValue Reader.digits
    cases h1 : digitValue c with
    | none =>
      cases h2 : Reader.digit c with
      | none => rfl
      | some d =>
        simp only
        rw [if_neg]
        intro hd
        have := (digit_eq hb (c := c)).2 ⟨h2, hd⟩
        rw [h1] at this
        cases this.1
    | some d =>
      simp only
      by_cases hd : d < b
      · have := (digit_eq hb (c := c)).1 ⟨h1, hd⟩
        rw [this.1, if_pos hd]
        simp only
        rw [if_pos hd]
        exact digits_eq hb t _
      · rw [if_neg hd]
        cases h2 : Reader.digit c with
        | none => rfl
        | some e =>
          simp only
          rw [if_neg]
          intro he
          have := (digit_eq hb (c := c)).2 ⟨h2, he⟩
          rw [h1] at this
          cases this.1
          exact hd he

theorem number_eq {b : Nat} (hb : b ≤ 16) (s : Str) : number b s = Reader.nat b s := by
  unfold number Reader.nat
  rw [digits_eq hb]

theorem octal_zero (s : Str) : digitsValue 8 s 0 = Reader.nat 8 ('0' :: s) := by
  rw [digits_eq (by decide)]
  rfl

theorem not_digit_x : Reader.digit 'x' = none := by decide
theorem not_digit_o : Reader.digit 'o' = none := by decide

theorem numeral_iff {s : Str} {v : Nat} : unsignedNumber s = some v ↔ Numeral s v := by
  constructor
  · intro h
    unfold unsignedNumber at h
    split at h
    · exact .hex (by rwa [number_eq (by decide)] at h)
    · exact .octal (by rwa [number_eq (by decide)] at h)
    · exact .binary (by rwa [number_eq (by decide)] at h)
    · exact .oldOctal (by rwa [octal_zero] at h)
    · refine .decimal ?_ (by rwa [number_eq (by decide)] at h)
      rename_i h4
      intro e
      cases s with
      | nil => cases e
      | cons c t =>
        simp only [List.head?_cons, Option.some.injEq] at e
        exact h4 t (by rw [e])
  · intro h
    cases h with
    | decimal h1 h2 =>
      rw [← number_eq (by decide)] at h2
      unfold unsignedNumber
      split
      all_goals first
        | exact absurd rfl h1
        | exact h2
    | hex h => rwa [← number_eq (by decide)] at h
    | binary h => rwa [← number_eq (by decide)] at h
    | octal h => rwa [← number_eq (by decide)] at h
    | oldOctal h =>
      unfold unsignedNumber
      split
      · exfalso
        rename_i e
        cases e
        simp [Reader.nat, Reader.digits, not_digit_x, show Reader.digit '0' = some 0 from rfl] at h
      · exfalso
        rename_i e
        cases e
        simp [Reader.nat, Reader.digits, not_digit_o, show Reader.digit '0' = some 0 from rfl] at h
      · exfalso
        rename_i e
        cases e
        simp [Reader.nat, Reader.digits, show Reader.digit 'b' = some 11 from rfl, show Reader.digit '0' = some 0 from rfl] at h
      · rename_i e
        cases e
        rwa [octal_zero]
      · rename_i h4
        exact absurd rfl (h4 _)

theorem long_iff {s : Str} {n : Nat} : longNumber s = some n ↔ Long s (n : Int) := by
  unfold longNumber Long
  constructor
  · intro h
    split at h
    · rename_i hc
      split at h
      · rename_i v hv
        split at h
        · rename_i hv2
          simp only [Option.some.injEq] at h
          subst h
          refine ⟨s.dropLast, v, ?_, ?_, numeral_iff.1 hv, hv2, rfl⟩
          · have hne : s ≠ [] := by
              intro e
              rw [e] at hc
              cases hc.2
            have := List.dropLast_concat_getLast hne
            rw [List.getLast?_eq_some_getLast hne, Option.some.injEq] at hc
            rw [hc.2] at this
            exact this.symm
          · cases s with
            | nil => cases hc.1
            | cons c t =>
              cases t with
              | nil =>
                exfalso
                simp only [List.head?_cons, List.getLast?_singleton] at hc
                exact absurd (hc.1.symm.trans hc.2) (by decide)
              | cons d t => exact hc.1
        · cases h
      · cases h
    · cases h
  · rintro ⟨t, m, rfl, h1, h2, h3, h4⟩
    have h5 : n = m := by omega
    subst h5
    have hh : (t ++ ['l']).head? = some '0' ∧ (t ++ ['l']).getLast? = some 'l' := by
      constructor
      · cases t with
        | nil => cases h1
        | cons c t => exact h1
      · simp
    rw [if_pos hh, List.dropLast_concat, numeral_iff.2 h2]
    simp only
    rw [if_pos h3]

theorem digits_l (b : Nat) : ∀ (u : Str) (a : Nat), Reader.digits b a (u ++ ['l']) = none
  | [], a => by simp [Reader.digits, show Reader.digit 'l' = none by decide]
  | c :: u, a => by
    simp only [List.cons_append, Reader.digits]
    cases Reader.digit c with
    | none => rfl
    | some d =>
      simp only
      split
      · exact digits_l b u _
      · rfl

theorem nat_l (b : Nat) (u : Str) : Reader.nat b (u ++ ['l']) = none := by
  unfold Reader.nat
  rw [if_neg (by simp), digits_l]

theorem long_not_plain {s t : Str} (h1 : s = t ++ ['l']) (h2 : t.head? = some '0') : unsignedNumber s = none := by
  cases hu : unsignedNumber s with
  | none => rfl
  | some m =>
    exfalso
    have hn := numeral_iff.1 hu
    cases t with
    | nil => cases h2
    | cons c t =>
      simp only [List.head?_cons, Option.some.injEq] at h2
      subst h2
      have key : ∀ (b : Nat) (x : Char) (u : Str) (v : Nat), x ≠ 'l' → s = '0' :: x :: u → Reader.nat b u ≠ some v := by
        intro b x u v hx he h6
        rw [he, List.cons_append] at h1
        have hw := (List.cons.inj h1).2
        cases t with
        | nil => exact hx (List.cons.inj hw).1
        | cons d t =>
          have h7 : u = t ++ ['l'] := (List.cons.inj hw).2
          rw [h7, nat_l] at h6
          cases h6
      cases hn with
      | decimal h6 h7 => exact h6 (by rw [h1]; rfl)
      | hex h6 => exact key _ _ _ _ (by decide) rfl h6
      | binary h6 => exact key _ _ _ _ (by decide) rfl h6
      | octal h6 => exact key _ _ _ _ (by decide) rfl h6
      | oldOctal h6 =>
        rw [h1, nat_l] at h6
        cases h6

/-- What `int(s, base=0)` reads. -/
theorem int_iff {s : Str} {v : Int} : intBase0 s = .ok v ↔ Number s v ∨ Long s v := by
  have hsign : ∀ {c : Char} {t : Str} {n : Nat}, (c = '-' ∨ c = '+') → ¬ Numeral (c :: t) n := by
    intro c t n hc hn
    have := numeral_iff.2 hn
    rcases hc with rfl | rfl <;> simp [unsignedNumber, number, digitsValue, digitValue] at this
  have hlong : ∀ {c : Char} {t : Str} {v : Int}, (c = '-' ∨ c = '+') → ¬ Long (c :: t) v := by
    rintro c t v hc ⟨u, n, h1, h2, -⟩
    cases u with
    | nil => cases h2
    | cons d u =>
      simp only [List.head?_cons, Option.some.injEq] at h2
      simp only [List.cons_append, List.cons.injEq] at h1
      rw [h1.1, h2] at hc
      exact absurd hc (by decide)
  have hres : intBase0 s = .ok v ↔ signedNumber s = some v := by
    unfold intBase0
    cases signedNumber s <;> simp
  rw [hres]
  have hplain : (∀ t, s ≠ '-' :: t) → (∀ t, s ≠ '+' :: t) → signedNumber s =
      ((unsignedNumber s).or (longNumber s)).map fun (v : Nat) => (v : Int) := by
    intro h1 h2
    unfold signedNumber
    split
    · exact absurd rfl (h1 _)
    · exact absurd rfl (h2 _)
    · rfl
  constructor
  · intro h
    by_cases h1 : ∃ t, s = '-' :: t
    · obtain ⟨t, rfl⟩ := h1
      simp only [signedNumber, Option.map_eq_some_iff] at h
      obtain ⟨n, h1, h2⟩ := h
      subst h2
      exact .inl (.minus (numeral_iff.1 h1))
    by_cases h2 : ∃ t, s = '+' :: t
    · obtain ⟨t, rfl⟩ := h2
      simp only [signedNumber, Option.map_eq_some_iff] at h
      obtain ⟨n, h1, h2⟩ := h
      subst h2
      exact .inl (.plus (numeral_iff.1 h1))
    rw [hplain (fun t e => h1 ⟨t, e⟩) (fun t e => h2 ⟨t, e⟩), Option.map_eq_some_iff] at h
    obtain ⟨n, h1, h2⟩ := h
    subst h2
    rw [Option.or_eq_some_iff] at h1
    rcases h1 with h1 | ⟨-, h1⟩
    · exact .inl (.plain (numeral_iff.1 h1))
    · exact .inr (long_iff.1 h1)
  · intro h
    rcases h with h | h
    · cases h with
      | @plain s n h =>
        rw [hplain (fun t e => hsign (.inl rfl) (e ▸ h)) (fun t e => hsign (.inr rfl) (e ▸ h)), numeral_iff.2 h]
        rfl
      | plus h => simp only [signedNumber, numeral_iff.2 h, Option.map_some]
      | minus h => simp only [signedNumber, numeral_iff.2 h, Option.map_some]
    · rw [hplain (fun t e => hlong (.inl rfl) (e ▸ h)) (fun t e => hlong (.inr rfl) (e ▸ h))]
      have h0 := h
      obtain ⟨t, n, h1, h2, h3, h4, h5⟩ := h
      subst h5
      rw [long_iff.2 h0, long_not_plain h1 h2]
      rfl

theorem int_error {s : Str} (h : ∀ v, intBase0 s ≠ .ok v) : intBase0 s = .error .valueError := by
  unfold intBase0 at *
  cases hs : signedNumber s with
  | none => rfl
  | some v => exact absurd (by rw [hs]) (h v)

end Typed
end Verif
