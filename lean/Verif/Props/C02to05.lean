import Verif.Props.C01

/-!
# C02 to C05: text, concatenation, slices and assignment

`b.WF` is the invariant of C01: `b` is a bitstring a program can hold
(`C01.made_iff_wf`). Bits are named by `Nat.testBit`.
-/

namespace Verif
open BS

namespace C02

/-- **C02.** Converting a non-empty bitstring to text and back gives it back. -/
theorem binary_string_round_trip (b : BS) (h : b.WF) (hw : b.width ≠ 0) :
    init (.str b.binaryString) = .ok b := init_binaryString h hw

/-- **C02.** Converting a non-empty text of 0 and 1 to a bitstring and back gives
the text back. -/
theorem string_round_trip (s : Str) (hne : s ≠ []) (h : ∀ c ∈ s, c = '0' ∨ c = '1') :
    ∃ b, init (.str s) = .ok b ∧ b.width = s.length ∧ b.binaryString = s := by
  refine ⟨_, init_str hne h, rfl, ?_⟩
  unfold binaryString
  rw [bv_value, bv_width, Nat.mod_eq_of_lt (strVal_lt s)]
  have := binaryLoop_strVal s h 0
  simpa using this

/-- **C02.** The text has one digit per bit, the highest bit first. -/
theorem binary_string_digits (b : BS) :
    b.binaryString.length = b.width ∧
    ∀ k (hk : k < b.binaryString.length), b.binaryString[k] = '1' ↔ b.value.testBit (b.width - 1 - k) := by
  refine ⟨binaryString_length b, ?_⟩
  unfold binaryString
  generalize b.value = v
  generalize b.width = n
  induction n with
  | zero => intro k hk; simp [binaryLoop] at hk
  | succ n ih =>
    intro k hk
    cases k with
    | zero =>
      simp only [binaryLoop, List.getElem_cons_zero, bitChar_eq, Nat.add_sub_cancel, Nat.sub_zero]
      cases v.testBit n <;> simp
    | succ k =>
      simp only [binaryLoop, List.getElem_cons_succ]
      rw [ih k (by simpa [binaryLoop] using hk)]
      have : n + 1 - 1 - (k + 1) = n - 1 - k := by omega
      rw [this]

/-- Only blanks: space, tab, newline, return, vertical tab, form feed. -/
def Blank (s : Str) : Prop := ∀ c ∈ s, c ∈ (c! " \t\n\r\x0b\x0c")

/-- A binary numeral as Python 2 reads it, and the number it denotes: blanks, perhaps a
sign, blanks, perhaps `0b`, digits, blanks. -/
def Numeral (s : Str) (v : Int) : Prop :=
  ∃ a sign b pre digits z, s = a ++ (sign ++ (b ++ (pre ++ (digits ++ z)))) ∧ Blank a ∧ Blank b ∧ Blank z ∧
    (sign = [] ∨ sign = c! "+" ∨ sign = c! "-") ∧ (pre = [] ∨ pre = c! "0b" ∨ pre = c! "0B") ∧
    digits ≠ [] ∧ (∀ c ∈ digits, c = '0' ∨ c = '1') ∧
    v = if sign = c! "-" then -(strVal digits : Int) else strVal digits

theorem blank_isSpace {c : Char} : isSpace c = true ↔ c ∈ (c! " \t\n\r\x0b\x0c") := by
  simp [isSpace, or_assoc]

theorem drop_blank {a r : Str} (ha : Blank a) (hr : ∀ c t, r = c :: t → isSpace c = false) :
    (a ++ r).dropWhile isSpace = r := by
  induction a with
  | nil =>
    cases r with
    | nil => rfl
    | cons c t => rw [List.nil_append, List.dropWhile_cons, if_neg (by simp [hr c t rfl])]
  | cons c t ih =>
    rw [List.cons_append, List.dropWhile_cons, if_pos (blank_isSpace.mpr (ha c List.mem_cons_self))]
    exact ih fun c hc => ha c (List.mem_cons_of_mem _ hc)

theorem blank_takeWhile (s : Str) : Blank (s.takeWhile isSpace) := by
  intro c hc
  have := List.all_takeWhile (p := isSpace) (l := s)
  exact blank_isSpace.mp (List.all_eq_true.mp this c hc)

theorem skip0b_cases (s : Str) : ∃ pre, s = pre ++ skip0b s ∧ (pre = [] ∨ pre = c! "0b" ∨ pre = c! "0B") := by
  unfold skip0b
  split
  · next b d t =>
    split
    · next h =>
      simp only [Bool.and_eq_true, Bool.or_eq_true, decide_eq_true_eq] at h
      rcases h.1 with rfl | rfl
      · exact ⟨c! "0b", rfl, .inr (.inl rfl)⟩
      · exact ⟨c! "0B", rfl, .inr (.inr rfl)⟩
    · exact ⟨[], rfl, .inl rfl⟩
  · exact ⟨[], rfl, .inl rfl⟩

theorem takeSign_cases (s : Str) : ∃ sign, s = sign ++ (takeSign s).2 ∧
    (sign = [] ∨ sign = c! "+" ∨ sign = c! "-") ∧ ((takeSign s).1 = true ↔ sign = c! "-") := by
  unfold takeSign
  split
  · exact ⟨c! "-", rfl, .inr (.inr rfl), by simp⟩
  · exact ⟨c! "+", rfl, .inr (.inl rfl), by simp⟩
  · exact ⟨[], rfl, .inl rfl, by simp⟩

theorem intBase2_error {s : Str} {e : PyErr} (h : intBase2 s = .error e) : e = .valueError := by
  unfold intBase2 at h
  simp only at h
  split at h
  · cases h; rfl
  · cases h

theorem numeral_of_ok {s : Str} {v : Int} (h : intBase2 s = .ok v) : Numeral s v := by
  unfold intBase2 at h
  simp only at h
  split at h
  · cases h
  · next hc =>
    obtain ⟨sign, h1, h2, h3⟩ := takeSign_cases (s.dropWhile isSpace)
    generalize hr : (takeSign (s.dropWhile isSpace)).2 = r at *
    obtain ⟨pre, h4, h5⟩ := skip0b_cases (r.dropWhile isSpace)
    generalize hq : skip0b (r.dropWhile isSpace) = q at *
    have hc1 : q.takeWhile isBit ≠ [] := fun h => hc (.inl h)
    have hc2 : (q.dropWhile isBit).all isSpace = true := by
      cases hx : (q.dropWhile isBit).all isSpace
      · exact absurd (.inr (by simp [hx])) hc
      · rfl
    refine ⟨s.takeWhile isSpace, sign, r.takeWhile isSpace, pre, q.takeWhile isBit, q.dropWhile isBit, ?_,
      blank_takeWhile s, blank_takeWhile r, ?_, h2, h5, hc1, ?_, ?_⟩
    · rw [List.takeWhile_append_dropWhile, ← h4, List.takeWhile_append_dropWhile, ← h1,
        List.takeWhile_append_dropWhile]
    · intro c hx; exact blank_isSpace.mp (List.all_eq_true.mp hc2 c hx)
    · intro c hx
      exact isBit_iff.mp (List.all_eq_true.mp (List.all_takeWhile (p := isBit) (l := q)) c hx)
    · have h' := Except.ok.inj h
      rw [← h']
      by_cases hs : sign = c! "-"
      · rw [if_pos hs, if_pos (h3.mpr hs)]; rfl
      · rw [if_neg hs, if_neg (by rw [h3]; exact hs)]; rfl

theorem not_space_of_head {c : Char} (h : c ∈ (c! "01+-")) : isSpace c = false := by
  simp only [List.mem_cons, List.not_mem_nil, or_false] at h
  rcases h with rfl | rfl | rfl | rfl <;> decide

theorem intBase2_numeral {s : Str} {v : Int} (h : Numeral s v) : intBase2 s = .ok v := by
  obtain ⟨a, sign, b, pre, digits, z, rfl, ha, hb, hz, hsign, hpre, hne, hd, hv⟩ := h
  obtain ⟨c, t, rfl⟩ : ∃ c t, digits = c :: t := by
    cases digits with
    | nil => contradiction
    | cons c t => exact ⟨c, t, rfl⟩
  have hc := hd c List.mem_cons_self
  have hcs : isSpace c = false := isSpace_bit hc
  have hcb : isBit c = true := isBit_iff.mpr hc
  have hzb : ∀ x y, z = x :: y → isBit x = false := by
    rintro x y rfl
    have := hz x List.mem_cons_self
    simp only [List.mem_cons, List.not_mem_nil, or_false] at this
    rcases this with rfl | rfl | rfl | rfl | rfl | rfl <;> decide
  obtain ⟨w1, w2⟩ := takeWhile_bits hd hzb
  -- what remains after the prefix
  have hskip : skip0b (pre ++ (c :: t ++ z)) = c :: t ++ z := by
    rcases hpre with rfl | rfl | rfl
    · show skip0b (c :: t ++ z) = _
      unfold skip0b
      split
      · next b' d r heq =>
        rw [if_neg, heq]
        · intro hx
          simp only [Bool.and_eq_true, Bool.or_eq_true, decide_eq_true_eq] at hx
          have hb' : b' ∈ t ++ z := by
            have := congrArg List.tail heq
            simp only [List.cons_append, List.tail_cons] at this
            rw [this]; exact List.mem_cons_self
          have : b' = '0' ∨ b' = '1' ∨ b' ∈ (c! " \t\n\r\x0b\x0c") := by
            rcases List.mem_append.mp hb' with h | h
            · rcases hd b' (List.mem_cons_of_mem _ h) with h | h
              · exact .inl h
              · exact .inr (.inl h)
            · exact .inr (.inr (hz b' h))
          rcases hx.1 with rfl | rfl <;> revert this <;> decide
      · rfl
    · show skip0b ('0' :: 'b' :: c :: (t ++ z)) = _
      simp [skip0b, hcb]
    · show skip0b ('0' :: 'B' :: c :: (t ++ z)) = _
      simp [skip0b, hcb]
  have hhead : ∀ x y, pre ++ (c :: t ++ z) = x :: y → x ∈ (c! "01+-") := by
    rcases hpre with rfl | rfl | rfl
    · rintro x y hx
      obtain ⟨rfl, -⟩ := List.cons.inj hx
      rcases hc with rfl | rfl <;> simp
    · rintro x y hx; cases hx; simp
    · rintro x y hx; cases hx; simp
  have hskipb : (b ++ (pre ++ (c :: t ++ z))).dropWhile isSpace = pre ++ (c :: t ++ z) :=
    drop_blank hb fun x y hx => not_space_of_head (hhead x y hx)
  have fin : ∀ neg, (if (c :: t ++ z).takeWhile isBit = [] ∨ ¬ ((c :: t ++ z).dropWhile isBit).all isSpace = true then
        (.error .valueError : PyRes Int)
      else .ok (if neg = true then -(bitsNumber ((c :: t ++ z).takeWhile isBit) 0 : Int)
        else bitsNumber ((c :: t ++ z).takeWhile isBit) 0))
      = .ok (if neg = true then -(strVal (c :: t) : Int) else strVal (c :: t)) := by
    intro neg
    rw [w1, w2, if_neg]
    · rfl
    · rintro (h | h)
      · cases h
      · exact h (List.all_eq_true.mpr fun x hx => blank_isSpace.mpr (hz x hx))
  unfold intBase2
  rcases hsign with rfl | rfl | rfl
  · have h1 : (a ++ ([] ++ (b ++ (pre ++ (c :: t ++ z))))).dropWhile isSpace = pre ++ (c :: t ++ z) := by
      rw [List.nil_append, ← List.append_assoc]
      refine drop_blank (fun x hx => ?_) fun x y hx => not_space_of_head (hhead x y hx)
      rcases List.mem_append.mp hx with h | h
      · exact ha x h
      · exact hb x h
    have h2 : takeSign (pre ++ (c :: t ++ z)) = (false, pre ++ (c :: t ++ z)) := by
      rcases hpre with rfl | rfl | rfl
      · exact takeSign_bit _ hc
      · rfl
      · rfl
    have h3 : (pre ++ (c :: t ++ z)).dropWhile isSpace = pre ++ (c :: t ++ z) :=
      drop_blank (a := []) (fun _ h => nomatch h) fun x y hx => not_space_of_head (hhead x y hx)
    simp only [h1, h2, h3, hskip]
    exact (fin false).trans (by rw [hv]; rfl)
  · have h1 : (a ++ ((c! "+") ++ (b ++ (pre ++ (c :: t ++ z))))).dropWhile isSpace
        = '+' :: (b ++ (pre ++ (c :: t ++ z))) :=
      drop_blank ha fun x y hx => by cases hx; decide
    simp only [h1, takeSign, hskipb, hskip]
    exact (fin false).trans (by rw [hv]; rfl)
  · have h1 : (a ++ ((c! "-") ++ (b ++ (pre ++ (c :: t ++ z))))).dropWhile isSpace
        = '-' :: (b ++ (pre ++ (c :: t ++ z))) :=
      drop_blank ha fun x y hx => by cases hx; decide
    simp only [h1, takeSign, hskipb, hskip]
    exact (fin true).trans (by rw [hv]; rfl)

/-- **C02.** A binary numeral with blanks, sign and prefix is accepted too: the width is the
number of characters of the whole text, the value the number modulo `2^width`. -/
theorem numeral_accepted (s : Str) (v : Int) (h : Numeral s v) :
    ∃ r, init (.str s) = .ok r ∧ r.WF ∧ r.width = s.length ∧ (r.value : Int) = v % 2 ^ s.length := by
  refine ⟨ofInt v s.length, ?_, ofInt_wf _ _, rfl, ?_⟩
  · simp only [init, initRaw, intBase2_numeral h, okBind, Option.getD_none]
    rw [if_neg (by omega), Int.toNat_natCast]
  · show ((maskTo v s.length : Nat) : Int) = _
    rw [maskTo_eq, Int.toNat_of_nonneg (Int.emod_nonneg _ (Int.ne_of_gt (Int.pow_pos (by decide))))]

/-- **C02.** Every other text is refused with `ValueError`. -/
theorem bad_string_refused (s : Str) (h : ∀ v, ¬ Numeral s v) : init (.str s) = .error .valueError := by
  cases hi : intBase2 s with
  | ok v => exact absurd (numeral_of_ok hi) (h v)
  | error e =>
    rw [intBase2_error hi] at hi
    simp only [init, initRaw, hi]; rfl

/-- **C02.** A text read is what it denotes: a text has at most one reading. -/
theorem numeral_unique (s : Str) (v w : Int) (hv : Numeral s v) (hw : Numeral s w) : v = w := by
  have := (intBase2_numeral hv).symm.trans (intBase2_numeral hw)
  exact Except.ok.inj this

example : init (.str (c! " -0b11")) = .ok (bv 6 61) ∧ init (.str (c! "0b")) = .error .valueError ∧
    init (.str (c! "012")) = .error .valueError ∧ init (.str (c! "- 1")) = .ok (bv 3 7) := by decide

example : init (.str (c! "0110")) = .ok (bv 4 6) ∧ (bv 4 6).binaryString = c! "0110" := by decide

end C02

namespace C03

/-- **C03.** `a % b` is as wide as both together; its low bits are those of `b`, the
others those of `a`. -/
theorem concat_bits (a b : BS) (ha : a.WF) (hb : b.WF) :
    ∃ r, a.mod (.bs b) = .ok r ∧ r.WF ∧ r.width = a.width + b.width ∧
      ∀ k, r.value.testBit k
        = if k < b.width then b.value.testBit k else a.value.testBit (k - b.width) :=
  ⟨a.concat b, rfl, concat_wf ha hb, rfl, testBit_concat ha hb⟩

/-- **C03.** In numbers: `a % b` is `a * 2^width(b) + b`. -/
theorem concat_number (a b : BS) (ha : a.WF) (hb : b.WF) :
    ∃ r, a.mod (.bs b) = .ok r ∧ r.value = a.value * 2 ^ b.width + b.value :=
  ⟨a.concat b, rfl, concat_value ha hb⟩

/-- **C03.** Concatenation is associative. -/
theorem concat_assoc (a b c : BS) (ha : a.WF) (hb : b.WF) (hc : c.WF) :
    (do (← a.mod (.bs b)).mod (.bs c)) = (do a.mod (.bs (← b.mod (.bs c)))) := by
  show Except.ok ((a.concat b).concat c) = Except.ok (a.concat (b.concat c))
  congr 1
  apply ext_bv (concat_wf (concat_wf ha hb) hc) (concat_wf ha (concat_wf hb hc))
  · simp only [concat_width]; omega
  · rw [concat_value (concat_wf ha hb) hc, concat_value ha hb, concat_value ha (concat_wf hb hc),
      concat_value hb hc, concat_width, Nat.pow_add, Nat.add_mul, Nat.mul_assoc, Nat.add_assoc]

/-- **C03.** Slicing the concatenation gives both parts back. -/
theorem concat_slices (a b : BS) (ha : a.WF) (hb : b.WF) :
    ∃ r, a.mod (.bs b) = .ok r ∧ r.slice 0 b.width = .ok b ∧
      r.slice b.width r.width = .ok a := by
  refine ⟨a.concat b, rfl, ?_, ?_⟩
  · have := slice_eq (a.concat b) 0 b.width (Nat.zero_le _) (by rw [concat_width]; omega)
    simp only [Int.natCast_zero] at this
    show (a.concat b).slice 0 b.width = .ok b
    rw [this]
    congr 1
    apply ext_bv (bv_wf _ _) hb (by simp)
    rw [bv_value, concat_value ha hb, Nat.sub_zero, Nat.pow_zero, Nat.div_one, Nat.mul_add_mod_self_right,
      Nat.mod_eq_of_lt hb.1]
  · rw [slice_eq _ _ _ (by rw [concat_width]; omega) (Nat.le_refl _)]
    congr 1
    have hw : (a.concat b).width - b.width = a.width := by rw [concat_width]; omega
    rw [hw]
    apply ext_bv (bv_wf _ _) ha (by simp)
    rw [bv_value, concat_value ha hb, Nat.add_comm, Nat.add_mul_div_right _ _ (Nat.two_pow_pos _),
      Nat.div_eq_of_lt hb.1, Nat.zero_add, Nat.mod_eq_of_lt ha.1]

/-- **C03.** A 0/1 text, a 0 or 1, or a list of 0 and 1 on the right is first made a
bitstring; any other integer is refused. -/
theorem concat_other (a : BS) :
    (∀ s b, init (.str s) = .ok b → a.mod (.str s) = a.mod (.bs b)) ∧
    (a.mod (.int 0) = a.mod (.bs bit0)) ∧ (a.mod (.int 1) = a.mod (.bs bit1)) ∧
    (∀ v : Int, v ≠ 0 → v ≠ 1 → a.mod (.int v) = .error .valueError) ∧
    (∀ l b, init (.seq l) = .ok b → a.mod (.seq l) = a.mod (.bs b)) := by
  refine ⟨?_, rfl, rfl, ?_, ?_⟩
  · intro s b h; simp only [BS.mod, BS.imod, h, okBind]
  · intro v h0 h1; simp only [BS.mod, BS.imod]; rw [if_neg (by omega)]
  · intro l b h; simp only [BS.mod, BS.imod, h, okBind]

example : (bv 3 5).mod (.bs (bv 2 1)) = .ok (bv 5 21) ∧ (bv 3 5).WF ∧ (bv 2 1).WF := by
  refine ⟨rfl, bv_wf _ _, bv_wf _ _⟩

end C03

namespace C04

/-- Positions selected by a slice once its bounds are resolved: the `k`-th is
`start + k * step`, as long as it has not reached `stop`. -/
def selects (start stop step : Int) (k : Nat) : Prop :=
  if step > 0 then start + k * step < stop else start + k * step > stop

instance (a b c : Int) (k : Nat) : Decidable (selects a b c k) := by
  unfold selects; exact inferInstance

theorem exists_count (p : Nat → Prop) [DecidablePred p] (hmono : ∀ k, p (k + 1) → p k) (N : Nat)
    (hN : ¬ p N) : ∃ n, n ≤ N ∧ ∀ k, p k ↔ k < n := by
  have hdown : ∀ j k, p (k + j) → p k := by
    intro j; induction j with
    | zero => intro k h; exact h
    | succ j ih => intro k h; exact ih k (hmono _ h)
  induction N with
  | zero =>
    refine ⟨0, Nat.le_refl _, fun k => ⟨fun h => ?_, fun h => absurd h (Nat.not_lt_zero _)⟩⟩
    exact absurd (hdown k 0 (by simpa using h)) hN
  | succ N ih =>
    by_cases h : p N
    · refine ⟨N + 1, Nat.le_refl _, fun k => ⟨fun hk => ?_, fun hk => ?_⟩⟩
      · refine Nat.lt_of_not_le fun hle => hN ?_
        exact hdown (k - (N + 1)) (N + 1) (by rw [Nat.add_sub_cancel' hle]; exact hk)
      · exact hdown (N - k) k (by rw [Nat.add_sub_cancel' (by omega)]; exact h)
    · obtain ⟨n, hle, hn⟩ := ih h
      exact ⟨n, by omega, hn⟩

theorem selects_mono {a b c : Int} {k : Nat} (h : selects a b c (k + 1)) : selects a b c k := by
  unfold selects at *
  have e : a + ((k + 1 : Nat) : Int) * c = a + k * c + c := by
    rw [Int.natCast_add, Int.add_mul]; simp; omega
  rw [e] at h
  split at h
  · rw [if_pos (by assumption)]; omega
  · rw [if_neg (by assumption)]; omega

theorem selects_bound {a b c : Int} (hc : c ≠ 0) : ¬ selects a b c (b - a).natAbs := by
  unfold selects
  split
  · rename_i h
    have h1 : ((b - a).natAbs : Int) * 1 ≤ ((b - a).natAbs : Int) * c :=
      Int.mul_le_mul_of_nonneg_left (by omega) (by omega)
    omega
  · rename_i h
    have h1 : ((b - a).natAbs : Int) * c ≤ ((b - a).natAbs : Int) * (-1) :=
      Int.mul_le_mul_of_nonneg_left (by omega) (by omega)
    omega

/-- The bounds Python resolves a slice to select positions inside the bitstring. -/
theorem indices_inside {s : PySlice} {n : Nat} {a b c : Int} (h : s.indices n = .ok (a, b, c)) :
    c ≠ 0 ∧ ∀ k, selects a b c k → 0 ≤ a + k * c ∧ a + k * c < n := by
  unfold PySlice.indices at h
  dsimp only at h
  split at h
  · cases h
  · rename_i hc
    simp only [Except.ok.injEq, Prod.mk.injEq] at h
    obtain ⟨h1, h2, h3⟩ := h
    rw [h3] at h1 h2 hc
    refine ⟨hc, fun k hk => ?_⟩
    unfold selects at hk
    by_cases hpos : c < 0
    · rw [if_neg (by omega)] at hk
      rw [if_pos hpos, if_pos hpos] at h1 h2
      have hka : (k : Int) * c ≤ 0 := Int.mul_nonpos_of_nonneg_of_nonpos (by omega) (by omega)
      have ha : a ≤ n - 1 := by
        rw [← h1]; split
        · simp
        · split
          · split <;> omega
          · split <;> omega
      have hb : -1 ≤ b := by
        rw [← h2]; split
        · simp
        · split
          · split <;> omega
          · split <;> omega
      omega
    · rw [if_pos (by omega)] at hk
      rw [if_neg hpos, if_neg hpos] at h1 h2
      have hka : 0 ≤ (k : Int) * c := Int.mul_nonneg (by omega) (by omega)
      have ha : 0 ≤ a := by
        rw [← h1]; split
        · simp
        · split
          · split <;> omega
          · split <;> omega
      have hb : b ≤ n := by
        rw [← h2]; split
        · simp
        · split
          · split <;> omega
          · split <;> omega
      omega

/-- **C04.** Reading any slice never fails once Python has resolved its bounds, and the
result holds exactly the selected bits, the first selected one lowest. -/
theorem slice_reads_selected_bits (b : BS) (s : PySlice) (start stop step : Int)
    (hs : s.indices b.width = .ok (start, stop, step)) :
    ∃ r, b.getSlice s = .ok r ∧ r.WF ∧
      (∀ k, k < r.width ↔ selects start stop step k) ∧
      ∀ k, k < r.width → r.value.testBit k = b.value.testBit (start + k * step).toNat := by
  obtain ⟨hc, hin⟩ := indices_inside hs
  obtain ⟨n, hle, hn⟩ := exists_count (selects start stop step) (fun k => selects_mono) _ (selects_bound hc)
  obtain ⟨r, e, hw, hwd, hb⟩ := sliceLoop_spec b stop step n (stop - start).natAbs start (ofInt 0 0)
    (ofInt_wf _ _) hle (fun k hk => (hn k).2 hk) (fun k hk => (hin k ((hn k).2 hk)).1)
    (Or.inr (fun h => Nat.lt_irrefl n ((hn n).1 h)))
  have h0 : (ofInt 0 0).width = 0 := rfl
  have hwd' : r.width = n := by rw [hwd, h0, Nat.zero_add]
  refine ⟨r, ?_, hw, ?_, ?_⟩
  · simp only [getSlice, hs, okBind, e]
  · intro k; rw [hwd']; exact (hn k).symm
  · intro k hk
    rw [hb k, h0, if_neg (by omega), Nat.zero_add, Nat.sub_zero]
    simp [hwd' ▸ hk]

/-- **C04.** A slice with step zero is refused and every other slice is resolved. -/
theorem slice_total (b : BS) (s : PySlice) :
    b.getSlice s = .error .valueError ↔ s.step = some 0 := by
  constructor
  · intro h
    by_cases h0 : s.step.getD 1 = 0
    · cases hs : s.step with
      | none => rw [hs] at h0; simp at h0
      | some v => rw [hs] at h0; simp at h0; rw [h0]
    · have : ∃ p, s.indices b.width = .ok p := by
        unfold PySlice.indices
        dsimp only
        rw [if_neg h0]
        exact ⟨_, rfl⟩
      obtain ⟨⟨a, c, d⟩, hp⟩ := this
      obtain ⟨r, hr, _⟩ := slice_reads_selected_bits b s a c d hp
      rw [hr] at h; cases h
  · intro h
    simp only [getSlice, PySlice.indices, h]
    rfl

/-- **C04.** `b[i:j]` with `0 ≤ i ≤ j ≤ width` is `j - i` wide and its bit `k` is bit
`i + k` of `b`. -/
theorem plain_slice (b : BS) (i j : Nat) (hij : i ≤ j) (hj : j ≤ b.width) :
    ∃ r, b.slice i j = .ok r ∧ r.width = j - i ∧ r.value = b.value / 2 ^ i % 2 ^ (j - i) ∧
      ∀ k, k < j - i → r.value.testBit k = b.value.testBit (i + k) := by
  refine ⟨_, slice_eq b i j hij hj, rfl, rfl, ?_⟩
  intro k hk
  rw [bv_value, mod_div_testBit]
  simp [hk]

/-- **C04.** `b[k]` is the bit at `k`, counted from the top when negative. -/
theorem index_reads_bit (b : BS) (k : Int) (hk : -(b.width : Int) ≤ k) :
    ∃ r, b.getItem k = .ok r ∧ r.width = 1 ∧
      r.value.testBit 0 = b.value.testBit (if k < 0 then (b.width : Int) + k else k).toNat := by
  by_cases hn : k < 0
  · refine ⟨_, getBit_neg b k hn (by omega), rfl, ?_⟩
    rw [if_pos hn, bv_value, Nat.pow_one, Nat.mod_mod, testBit_bit]; simp
  · have e : k = ((k.toNat : Nat) : Int) := by omega
    refine ⟨_, by rw [getItem, e]; exact getBit_nat b k.toNat, rfl, ?_⟩
    rw [if_neg hn, bv_value, Nat.pow_one, Nat.mod_mod, testBit_bit]; simp

/-- Every second bit, downwards, of a byte. -/
example : (bv 8 0xb4).getSlice ⟨none, none, some (-2)⟩ = .ok (bv 4 0b0011) ∧
    (PySlice.indices ⟨none, none, some (-2)⟩ 8 = .ok (7, -1, -2)) := by decide

end C04

namespace C05

/-- **C05.** Assigning bits `i` to `j-1`: they become the low bits of the value, all
other bits and the width stay. -/
theorem slice_assignment (b : BS) (i j : Nat) (hij : i ≤ j) (hj : j ≤ b.width)
    (v : BS) :
    ∃ r, b.setSlice ⟨some i, some j, none⟩ (.bs v) = .ok r ∧ r.width = b.width ∧ r.mask = b.mask ∧
      ∀ k, r.value.testBit k
        = if i ≤ k ∧ k < j then v.value.testBit (k - i) else b.value.testBit k := by
  have hidx : PySlice.indices ⟨some (i : Int), some (j : Int), none⟩ b.width
      = .ok ((i : Int), (j : Int), 1) := by
    simp only [PySlice.indices, Option.getD_none]
    rw [if_neg (by decide)]
    simp only [show ¬ ((1 : Int) < 0) by decide, if_false]
    rw [if_neg (by omega), if_neg (by omega), if_neg (by omega), if_neg (by omega)]
  refine ⟨{ b with value := natAndNot b.value ((2 ^ (j - i) - 1) <<< i) ||| ((v.value <<< i) &&& ((2 ^ (j - i) - 1) <<< i)) },
    ?_, rfl, rfl, ?_⟩
  · simp only [setSlice, hidx, okBind, setSliceArg, ne_eq, not_true, if_false]
    rw [if_neg (by omega)]
    have e1 : ((j : Int) - (i : Int)).toNat = j - i := by omega
    rw [e1, Int.toNat_natCast]
  · intro k
    show Nat.testBit (_ ||| _) k = _
    rw [Nat.testBit_or, testBit_natAndNot, Nat.testBit_and, Nat.testBit_shiftLeft, Nat.testBit_shiftLeft,
      Nat.testBit_two_pow_sub_one]
    by_cases h1 : i ≤ k
    · by_cases h2 : k < j
      · have : k - i < j - i := by omega
        simp [h1, h2, this]
      · have : ¬ (k - i < j - i) := by omega
        simp [h1, h2, this]
    · simp [h1]

/-- **C05.** Slices with negative or omitted bounds: the places are those Python resolves
the bounds to; bounds in the wrong order are refused. -/
theorem slice_assignment_any (b : BS) (s : PySlice) (start stop : Int) (hs : s.indices b.width = .ok (start, stop, 1)) (v : BS) :
    (start ≤ stop → ∃ r, b.setSlice s (.bs v) = .ok r ∧ r.width = b.width ∧ r.mask = b.mask ∧
      ∀ k : Nat, r.value.testBit k = if start ≤ k ∧ k < stop then v.value.testBit (k - start).toNat else b.value.testBit k) ∧
    (stop < start → b.setSlice s (.bs v) = .error .valueError) := by
  have h0 : 0 ≤ start ∧ start ≤ b.width ∧ 0 ≤ stop ∧ stop ≤ b.width := by
    unfold PySlice.indices at hs
    dsimp only at hs
    split at hs
    · cases hs
    · simp only [Except.ok.injEq, Prod.mk.injEq] at hs
      obtain ⟨h1, h2, h3⟩ := hs
      rw [h3] at h1 h2
      simp only [show ¬ ((1 : Int) < 0) by decide, if_false] at h1 h2
      subst h1 h2
      refine ⟨?_, ?_, ?_, ?_⟩ <;> (repeat' split) <;> omega
  have e : ∀ c, b.setSlice s (.bs c) = if stop < start then .error .valueError
      else .ok { b with value := natAndNot b.value ((2 ^ (stop - start).toNat - 1) <<< start.toNat) |||
        ((c.value <<< start.toNat) &&& ((2 ^ (stop - start).toNat - 1) <<< start.toNat)) } := fun c => by
    simp only [setSlice, hs, okBind, setSliceArg, ne_eq, not_true, if_false]
  constructor
  · intro hle
    obtain ⟨i, rfl⟩ : ∃ i : Nat, start = i := ⟨start.toNat, by omega⟩
    obtain ⟨j, rfl⟩ : ∃ j : Nat, stop = j := ⟨stop.toNat, by omega⟩
    refine ⟨_, (e v).trans (if_neg (by omega)), rfl, rfl, fun k => ?_⟩
    show Nat.testBit (_ ||| _) k = _
    rw [Nat.testBit_or, testBit_natAndNot, Nat.testBit_and, Nat.testBit_shiftLeft, Nat.testBit_shiftLeft,
      Nat.testBit_two_pow_sub_one, Int.toNat_natCast, show ((j : Int) - i).toNat = j - i by omega, show ((k : Int) - i).toNat = k - i by omega]
    by_cases h1 : i ≤ k
    · by_cases h2 : k < j
      · have : k - i < j - i := by omega
        simp [h1, h2, this]
      · have : ¬ (k - i < j - i) := by omega
        simp [h1, h2, this]
    · simp [h1]
  · intro hlt
    rw [e, if_pos hlt]

/-- `b[-4:] = 0b1010` on eight ones, and `b[5:2] = 0`. -/
example : (bv 8 0xff).setSlice ⟨some (-4), none, none⟩ (.bs (bv 4 10)) = .ok (bv 8 0xaf) ∧
    (bv 8 0xff).setSlice ⟨some 5, some 2, none⟩ (.int 0) = .error .valueError := by decide

/-- **C05.** An integer assigned to a slice of at most 32 bits contributes its low
bits; a 0/1 text contributes its number. -/
theorem slice_assignment_int (b : BS) (s : PySlice) (v : Int) (hv : v ≤ 2 ^ 32) :
    b.setSlice s (.int v) = b.setSlice s (.bs (bv 32 (v % 2 ^ 32).toNat)) := by
  have : init (.int v) none = .ok (bv 32 (v % 2 ^ 32).toNat) := by
    have hgt : ¬ v > 2 ^ 32 := by omega
    simp only [init, initRaw, okBind, Option.getD_none, hgt, if_false]
    exact congrArg Except.ok (ofInt_eq v 32)
  simp only [setSlice, setSliceArg, this]

/-- **C05.** A slice assignment with another step is refused. -/
theorem slice_assignment_step (b : BS) (s : PySlice) (v : PyVal) (hs : s.step.getD 1 ≠ 1) :
    b.setSlice s v = .error .valueError := by
  unfold setSlice PySlice.indices
  dsimp only
  by_cases h0 : s.step.getD 1 = 0
  · rw [if_pos h0]; rfl
  · rw [if_neg h0]; simp only [okBind]; rw [if_pos hs]

/-- **C05.** Assigning a bit changes that bit only. -/
theorem bit_assignment (b : BS) (h : b.WF) (key : Int) (hlo : -(b.width : Int) ≤ key) (hhi : key < b.width)
    (v : Int) :
    ∃ r, b.setItem key (.int v) = .ok r ∧ r.width = b.width ∧ r.mask = b.mask ∧
      ∀ k, r.value.testBit k
        = if (k : Int) = (if key < 0 then b.width + key else key) then decide (v % 2 = 1)
          else b.value.testBit k := by
  generalize hp : (if key < 0 then (b.width : Int) + key else key) = p
  have hp0 : 0 ≤ p := by rw [← hp]; split <;> omega
  have hpw : p < b.width := by rw [← hp]; split <;> omega
  refine ⟨{ b with value := (b.value &&& natAndNot b.mask (1 <<< p.toNat)) ||| ((v % 2).toNat <<< p.toNat) },
    ?_, rfl, rfl, ?_⟩
  · simp only [setItem, setItemArg, okBind]
    rw [if_neg (by omega)]
    simp only [hp]
    rw [if_neg (by omega), pyAnd_one]
  · intro k
    show Nat.testBit (_ ||| _) k = _
    rw [Nat.testBit_or, Nat.testBit_and, testBit_natAndNot, h.2, Nat.testBit_two_pow_sub_one,
      Nat.testBit_shiftLeft, Nat.testBit_shiftLeft]
    by_cases hk : (k : Int) = p
    · have e : p.toNat = k := by omega
      rw [if_pos hk, e, Nat.sub_self]
      have : v % 2 = 0 ∨ v % 2 = 1 := by omega
      rcases this with h2 | h2 <;> simp [h2]
    · rw [if_neg hk]
      by_cases hkw : k < b.width
      · by_cases hle : p.toNat ≤ k
        · obtain ⟨d, hd⟩ : ∃ d, k - p.toNat = d + 1 := ⟨k - p.toNat - 1, by omega⟩
          have hv2 : (v % 2).toNat.testBit (d + 1) = false := by
            apply Nat.testBit_lt_two_pow
            have : 2 ≤ 2 ^ (d + 1) := by rw [Nat.pow_succ]; have := Nat.two_pow_pos d; omega
            omega
          rw [hd, hv2]
          simp [hkw, Nat.testBit_succ]
        · simp [hle, hkw]
      · rw [testBit_of_ge h (by omega)]
        have hle : p.toNat ≤ k := by omega
        obtain ⟨d, hd⟩ : ∃ d, k - p.toNat = d + 1 := ⟨k - p.toNat - 1, by omega⟩
        have hv2 : (v % 2).toNat.testBit (d + 1) = false := by
          apply Nat.testBit_lt_two_pow
          have : 2 ≤ 2 ^ (d + 1) := by rw [Nat.pow_succ]; have := Nat.two_pow_pos d; omega
          omega
        rw [hd, hv2]; simp

/-- **C05.** A one bit bitstring is assigned like its number; other widths, and
positions outside the bitstring, are refused and the object stays as it was. -/
theorem bit_assignment_other (b : BS) (key : Int) :
    (∀ c : BS, c.width = 1 → b.setItem key (.bs c) = b.setItem key (.int c.value)) ∧
    (∀ c : BS, c.width ≠ 1 → ∃ e, b.setItem key (.bs c) = .error e) ∧
    (∀ v, (b.width : Int) ≤ key → b.setItem key v = .error .indexError) ∧
    (∀ v : Int, key < -(b.width : Int) → b.setItem key (.int v) = .error .valueError) := by
  refine ⟨?_, ?_, ?_, ?_⟩
  · intro c hc
    have : setItemArg (.bs c) = setItemArg (.int c.value) := by simp [setItemArg, hc]
    simp only [setItem, this]
  · intro c hc
    have : setItemArg (.bs c) = .error .valueError := by simp [setItemArg, hc]
    simp only [setItem, this]
    split
    · exact ⟨_, rfl⟩
    · exact ⟨_, rfl⟩
  · intro v hk; simp only [setItem]; rw [if_pos hk]
  · intro v hk
    simp only [setItem, setItemArg, okBind]
    rw [if_neg (by omega), if_pos (by omega : key < 0), if_pos (by omega)]

/-- **C05.** A slice read back after an assignment of the same width is the value. -/
theorem slice_assignment_read (b v : BS) (hv : v.WF) (i j : Nat) (hij : i ≤ j) (hj : j ≤ b.width)
    (hw : v.width = j - i) :
    ∃ r, b.setSlice ⟨some i, some j, none⟩ (.bs v) = .ok r ∧ r.slice i j = .ok v := by
  obtain ⟨r, e, hwd, hm, hbits⟩ := slice_assignment b i j hij hj v
  refine ⟨r, e, ?_⟩
  rw [slice_eq r i j hij (by omega)]
  congr 1
  apply ext_bv (bv_wf _ _) hv (by simp [hw])
  apply Nat.eq_of_testBit_eq
  intro k
  rw [bv_value, mod_div_testBit, hbits]
  by_cases hk : k < j - i
  · rw [if_pos (by omega)]; simp [hk]
  · have := testBit_of_ge hv (k := k) (by omega)
    simp [hk, this]

/-- **C05.** A text assigned to a slice is read as the constructor reads it; what is no
bitstring, number or text is refused with TypeError, for slices and for bits. -/
theorem assignment_types (b : BS) (s : PySlice) (hs : s.step.getD 1 = 1) (key : Int) (hk : key < b.width) :
    (∀ t c, init (.str t) none = .ok c → b.setSlice s (.str t) = b.setSlice s (.bs c)) ∧
    (∀ t e, init (.str t) none = .error e → b.setSlice s (.str t) = .error e) ∧
    (∀ v, v = .none ∨ (∃ l, v = .seq l) ∨ (∃ l, v = .bytes l) ∨ v = .other →
      b.setSlice s v = .error .typeError ∧ b.setItem key v = .error .typeError) ∧
    (∀ t, b.setItem key (.str t) = .error .typeError) := by
  have hk' : ¬ key ≥ b.width := by omega
  refine ⟨fun t c h => ?_, fun t e h => ?_, fun v hv => ?_, fun t => ?_⟩
  · simp only [setSlice, setSliceArg, h]
  · unfold setSlice PySlice.indices
    dsimp only
    rw [hs]
    simp only [setSliceArg, h]
    rfl
  · unfold setSlice PySlice.indices setItem
    dsimp only
    rw [hs, if_neg hk']
    rcases hv with rfl | ⟨l, rfl⟩ | ⟨l, rfl⟩ | rfl <;> exact ⟨rfl, rfl⟩
  · unfold setItem
    rw [if_neg hk']
    rfl

example : (bv 8 0xff).setSlice ⟨some 2, some 5, none⟩ (.str (c! "010")) = .ok (bv 8 0b11101011) ∧
    (bv 8 0xff).setSlice ⟨some 2, some 5, none⟩ (.seq [0, 1, 0]) = .error .typeError := by decide
example : (bv 8 0xff).setSlice ⟨some 2, some 5, none⟩ (.bs (bv 3 0b010)) = .ok (bv 8 0b11101011) := by decide
example : (bv 8 0).setItem (-1) (.int 1) = .ok (bv 8 0x80) := by decide

end C05
end Verif
