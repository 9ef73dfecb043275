import Verif.Lemmas.Agree

/-!
# C36, C38, C39: what decoding gives
-/

namespace Verif
open BS Thumb

namespace C38

/-- The bytes of an instruction word, the first halfword first, low bytes first. -/
def bytesOf (e : Enc) (w : Nat) : List Nat :=
  if e.pat.length = 32 then [w % 256, w / 256 % 256, w / 65536 % 256, w / 16777216]
  else [w % 256, w / 256]

theorem encodings_eq : Case.all.map (·.enc) = encodings := rfl

theorem caseOf {e : Enc} (h : e ∈ encodings) : ∃ c ∈ Case.all, c.enc = e := by
  rw [← encodings_eq, List.mem_map] at h; exact h

theorem bytesOf_lt {e : Enc} {w : Nat} (hl : e.pat.length = 16 ∨ e.pat.length = 32) (h : w < 2 ^ e.pat.length) :
    ∀ b ∈ bytesOf e w, b < 256 := by
  unfold bytesOf
  rcases hl with hl | hl
  · rw [hl] at h ⊢
    simp; omega
  · rw [hl] at h ⊢
    simp; omega

theorem is32bit_low {w : Nat} (h : w < 2 ^ 32) : is32bit (w % 256 + 256 * (w / 256 % 256)) = is32bit w := by
  rw [← is32bit_and h]
  congr 1; omega

theorem firstWord_bytesOf {c : Case} {d : Dec} (hg : Good c d) {w : Nat} (hw : w < 2 ^ c.enc.pat.length)
    (hf : fits c.enc.pat w = true) (rest : List Nat) : firstWord (bytesOf c.enc w ++ rest) = some (w, d.is32) := by
  have h32 := halves_is32 hg.halves ((check_iff_fits hg.same w).mpr hf)
  have hl := hg.length
  unfold bytesOf
  cases hb : d.is32
  · rw [hb] at h32 hl
    rw [hl] at hw ⊢
    simp only [Bool.false_eq_true, if_false] at hw ⊢
    have : w % 256 + 256 * (w / 256) = w := by omega
    simp [firstWord, this, h32]
  · rw [hb] at h32 hl
    rw [hl] at hw ⊢
    simp only [if_true] at hw ⊢
    have h1 := is32bit_low hw
    rw [h32] at h1
    simp only [firstWord, List.cons_append, h1, if_true]
    congr 2; omega

theorem trees_select {c : Case} {d : Dec} (hd : d ∈ decs) (hg : Good c d) {w : Nat} (h : c.enc.Is w) (rest : List Nat)
    (hr : ∀ b ∈ rest, b < 256) (a : Int) : (trees.decode (bytesOf c.enc w ++ rest) a).1 = d.decode w a := by
  obtain ⟨hw, hf, ho⟩ := h
  have hl : c.enc.pat.length = 16 ∨ c.enc.pat.length = 32 := by
    rw [hg.length]; cases d.is32 <;> simp
  have hb : ∀ b ∈ bytesOf c.enc w ++ rest, b < 256 := by
    intro b hb
    rcases List.mem_append.mp hb with hb | hb
    · exact bytesOf_lt hl hw b hb
    · exact hr b hb
  have h2 : 2 ≤ (bytesOf c.enc w ++ rest).length := by
    unfold bytesOf; split <;> simp
  have := decode_bytes _ hb h2 a
  rw [firstWord_bytesOf hg hw hf] at this
  simp only at this
  rw [← hg.selected w a hf ho]
  rcases this with h | ⟨_, _, h⟩
  · exact h
  · have := h d (mem_sortedOf.mpr ⟨hd, rfl⟩)
    rw [(check_iff_fits hg.same w).mpr hf] at this; cases this

/-- **C38.** For every encoding and every valid word of it, followed by any bytes, the bytes
decode to that instruction with the fields the diagram shows, unless the word is one of
`Wrong`. -/
theorem encode_then_decode_partial (e : Enc) (he : e ∈ encodings) (w : Nat) (h : e.Is w) (hx : ¬ Wrong e (field e.pat w))
    (rest : List Nat) (hr : ∀ b ∈ rest, b < 256) (a : Int) :
    ∃ i, (trees.decode (bytesOf e w ++ rest) a).1 = .ok i ∧ i.mnemonic = e.mnem (field e.pat w) ∧
      (e.act (field e.pat w)).Of i ∧ i.word = w ∧ i.address = a ∧ i.is32 = decide (e.pat.length = 32) := by
  obtain ⟨c, hc, rfl⟩ := caseOf he
  obtain ⟨d, hd, hg⟩ := allGood.case c hc
  rw [trees_select hd hg h rest hr a]
  obtain ⟨ha, hn⟩ := (agrees c hc w h.2.1 h.2.2).1 hx
  obtain ⟨i, h1, h2, h3, h4, h5, h6, _⟩ := (hg.correct w a h.2.1).2 hn
  refine ⟨i, h1, h5, ha ▸ h6, h2, h3, ?_⟩
  rw [h4, hg.length]; cases d.is32 <;> simp

/-- **C38.** The exception is exact: a valid word of an encoding decodes to that instruction
with those fields if and only if it is not one of `Wrong`. -/
theorem encode_then_decode_iff (e : Enc) (he : e ∈ encodings) (w : Nat) (h : e.Is w)
    (rest : List Nat) (hr : ∀ b ∈ rest, b < 256) (a : Int) :
    (∃ i, (trees.decode (bytesOf e w ++ rest) a).1 = .ok i ∧ (e.act (field e.pat w)).Of i) ↔ ¬ Wrong e (field e.pat w) := by
  constructor
  · rintro ⟨i, hi, hact⟩ hx
    obtain ⟨c, hc, rfl⟩ := caseOf he
    obtain ⟨d, hd, hg⟩ := allGood.case c hc
    rw [trees_select hd hg h rest hr a] at hi
    have hc' := hg.decoded hc ((check_iff_fits hg.same w).mpr h.2.1) hi
    rcases (agrees c hc w h.2.1 h.2.2).2 hx with h1 | h1
    · exact h1 hc'.raises
    · exact h1 i hc'.act hact
  · intro hx
    obtain ⟨i, h1, _, h3, _⟩ := encode_then_decode_partial e he w h hx rest hr a
    exact ⟨i, h1, h3⟩

/-- **C38.** PUSH.W with a register list is never decoded: the handler refers to a name that
does not exist. -/
theorem push_w_fails (w : Nat) (h : Thumb.pushW.Is w) (rest : List Nat) (hr : ∀ b ∈ rest, b < 256) (a : Int) :
    (trees.decode (bytesOf Thumb.pushW w ++ rest) a).1 = .error .nameError := by
  have hc : Case.pushW ∈ Case.all := by simp [Case.all]
  obtain ⟨d, hd, hg⟩ := allGood.case _ hc
  rw [show Thumb.pushW = Case.pushW.enc from rfl] at h ⊢
  rw [trees_select hd hg h rest hr a]
  exact (hg.correct w a h.2.1).1 _ rfl

/-- **C38.** CMP (register) of two low registers compares a register with itself. -/
theorem cmp_reg_compares_itself (w : Nat) (h : Thumb.cmpRegT1.Is w) (rest : List Nat) (hr : ∀ b ∈ rest, b < 256) (a : Int) :
    ∃ i, (trees.decode (bytesOf Thumb.cmpRegT1 w ++ rest) a).1 = .ok i ∧
      (Act.cmp true (field Thumb.cmpRegT1.pat w 'n') (.reg (field Thumb.cmpRegT1.pat w 'n'))).Of i := by
  have hc : Case.cmpRegT1 ∈ Case.all := by simp [Case.all]
  obtain ⟨d, hd, hg⟩ := allGood.case _ hc
  rw [show Thumb.cmpRegT1 = Case.cmpRegT1.enc from rfl] at h ⊢
  rw [trees_select hd hg h rest hr a]
  obtain ⟨i, h1, h2⟩ := (hg.correct w a h.2.1).2 rfl
  exact ⟨i, h1, h2.2.2.2.2.1⟩

/-- **C38.** A branch backwards is decoded with the complement of its offset. -/
theorem branch_back_complemented (w : Nat) (h : Thumb.b.Is w) (hb : 1024 ≤ field Thumb.b.pat w 'i') (rest : List Nat)
    (hr : ∀ b ∈ rest, b < 256) (a : Int) :
    ∃ i, (trees.decode (bytesOf Thumb.b w ++ rest) a).1 = .ok i ∧
      (Act.branch 15 (~~~ Thumb.signed 12 (2 * field Thumb.b.pat w 'i'))).Of i := by
  have hc : Case.b ∈ Case.all := by simp [Case.all]
  obtain ⟨d, hd, hg⟩ := allGood.case _ hc
  have hi : field Thumb.b.pat w 'i' < 2048 := by
    rw [field_one 0 11 (by decide)]; exact (sl w 0 11).isLt
  rw [show Thumb.b = Case.b.enc from rfl] at h hb hi ⊢
  rw [trees_select hd hg h rest hr a]
  obtain ⟨i, h1, h2⟩ := (hg.correct w a h.2.1).2 rfl
  refine ⟨i, h1, ?_⟩
  have h6 := h2.2.2.2.2.1
  have hm : (Thumb.signed 12 (2 * field Case.b.enc.pat w 'i')).msb = true := by
    rw [signed_msb (by omega) (by omega) (by omega)]; simp; omega
  rw [show Case.b.act (field Case.b.enc.pat w) =
    .branch 15 (C17.spoil (Thumb.signed 12 (2 * field Case.b.enc.pat w 'i'))) from rfl, C17.spoil, if_pos hm] at h6
  exact h6

/-- The words of all encodings, and what they are for: `adds r3, r1, #1`. -/
example : ∃ i, (trees.decode [0x4b, 0x1c] 8).1 = .ok i ∧ i.mnemonic = c! "adds" ∧
    (Act.addSub false false true 3 1 (.imm (w32 1))).Of i := by
  obtain ⟨i, h1, h2, h3, _⟩ := encode_then_decode_partial Thumb.addsImmT1 (by simp [encodings]) 0x1c4b
    ⟨by decide, by decide, by decide⟩ (not_wrong (by decide) _) [] (by simp) 8
  exact ⟨i, h1, h2, h3⟩

/-- `bl` forwards over a halfword, and `bl` to itself, which goes wrong. -/
example : (∃ i, (trees.decode [0x00, 0xf0, 0x01, 0xf8] 0).1 = .ok i ∧ (Act.bl 2#32).Of i) ∧
    ¬ ∃ i, (trees.decode [0xff, 0xf7, 0xfe, 0xff] 0).1 = .ok i ∧ (Act.bl (BitVec.ofInt 32 (-4))).Of i := by
  constructor
  · have := (encode_then_decode_iff Thumb.bl (by simp [encodings]) 0xf801f000 ⟨by decide, by decide, by decide⟩ [] (by simp) 0).mpr
      (by unfold Wrong; decide)
    exact this
  · have := mt (encode_then_decode_iff Thumb.bl (by simp [encodings]) 0xfffef7ff ⟨by decide, by decide, by decide⟩ [] (by simp) 0).mp
      (by unfold Wrong; decide)
    exact this

end C38

namespace C36

/-- The word matches the diagram of an encoding of this size. -/
def Matches (w : Nat) (b : Bool) : Prop := ∃ e ∈ encodings, e.pat.length = (if b then 32 else 16) ∧ fits e.pat w = true

theorem matches_iff {w : Nat} {b : Bool} : Matches w b ↔ ∃ d ∈ sortedOf b, d.check w = true := by
  constructor
  · rintro ⟨e, he, hl, hf⟩
    obtain ⟨c, hc, rfl⟩ := C38.caseOf he
    obtain ⟨d, hd, hg⟩ := allGood.case c hc
    refine ⟨d, mem_sortedOf.mpr ⟨hd, ?_⟩, (check_iff_fits hg.same w).mpr hf⟩
    rw [hg.length] at hl
    revert hl; cases d.is32 <;> cases b <;> simp
  · rintro ⟨d, hd, hc⟩
    obtain ⟨hd', rfl⟩ := mem_sortedOf.mp hd
    obtain ⟨c, hm, hg⟩ := allGood.dec d hd'
    refine ⟨c.enc, ?_, hg.length, (check_iff_fits hg.same w).mp hc⟩
    rw [← C38.encodings_eq]; exact List.mem_map_of_mem hm

/-- **C36.** Decoding any bytes either succeeds or raises `UndefinedInstructionError`,
`UnpredictableError`, an `AttributeError` if no encoding matches the word, or a
`NameError` if it is PUSH.W. The last two should not be. -/
theorem errors_partial (data : List Nat) (hd : ∀ b ∈ data, b < 256) (hl : 2 ≤ data.length) (a : Int) (x : PyErr)
    (h : (trees.decode data a).1 = .error x) :
    x = .undefinedInstruction ∨ x = .unpredictable ∨
      (x = .attributeError ∧ ∃ w b, firstWord data = some (w, b) ∧ ¬ Matches w b) ∨
      (x = .nameError ∧ ∃ w, firstWord data = some (w, true) ∧ fits Thumb.pushW.pat w = true) := by
  have hb := decode_bytes data hd hl a
  cases hw : firstWord data with
  | none => rw [hw] at hb; rw [h] at hb; injection hb with hb; exact .inl hb
  | some p =>
    obtain ⟨w, b⟩ := p
    rw [hw] at hb
    simp only at hb
    rcases hb with hb | ⟨hb, _, hn⟩
    · rw [h] at hb
      rcases search_error hb.symm with h1 | ⟨c, hc, hl, hf, hr, hx⟩
      · exact .inl h1
      · rcases kinds c hc _ _ hr with h1 | h1 | ⟨h1, h2⟩
        · exact .inr (.inl h1)
        · exact absurd h1 hx
        · refine .inr (.inr (.inr ⟨h1, w, ?_, h2 ▸ hf⟩))
          rw [h2] at hl
          cases b
          · exact absurd hl (by decide)
          · rfl
    · rw [h] at hb
      injection hb with hb
      refine .inr (.inr (.inl ⟨hb, w, b, rfl, ?_⟩))
      rw [matches_iff]
      rintro ⟨d, hd, hc⟩
      rw [hn d hd] at hc; cases hc

/-- **C36.** If no encoding matches, or the second halfword is missing, decode fails with
`UndefinedInstructionError`, or with the `AttributeError` of a missing child. -/
theorem undefined_partial (data : List Nat) (hd : ∀ b ∈ data, b < 256) (hl : 2 ≤ data.length) (a : Int)
    (h : ∀ w b, firstWord data = some (w, b) → ¬ Matches w b) :
    (trees.decode data a).1 = .error .undefinedInstruction ∨ (trees.decode data a).1 = .error .attributeError := by
  have hb := decode_bytes data hd hl a
  cases hw : firstWord data with
  | none => rw [hw] at hb; exact .inl hb
  | some p =>
    obtain ⟨w, b⟩ := p
    rw [hw] at hb
    simp only at hb
    have hn := h w b hw
    rw [matches_iff] at hn
    rcases hb with hb | ⟨hb, _, _⟩
    · left
      rw [hb]
      cases ht : tryAll w a (sortedOf b) with
      | ok i => obtain ⟨d, hd, hc, _⟩ := tryAll_ok ht; exact absurd ⟨d, hd, hc⟩ hn
      | error x =>
        rcases tryAll_error ht with ⟨h1, _⟩ | ⟨d, hd, hc, _⟩
        · rw [h1]
        · exact absurd ⟨d, hd, hc⟩ hn
    · exact .inr hb

/-- **C36.** Whatever is decoded matches an encoding. -/
theorem decoded_matches (data : List Nat) (hd : ∀ b ∈ data, b < 256) (hl : 2 ≤ data.length) (a : Int) (i : Instr)
    (h : (trees.decode data a).1 = .ok i) : ∃ w b, firstWord data = some (w, b) ∧ Matches w b := by
  have hb := decode_bytes data hd hl a
  cases hw : firstWord data with
  | none => rw [hw] at hb; rw [h] at hb; cases hb
  | some p =>
    obtain ⟨w, b⟩ := p
    rw [hw] at hb
    simp only at hb
    refine ⟨w, b, rfl, ?_⟩
    rw [matches_iff]
    rcases hb with hb | ⟨hb, _⟩
    · rw [h] at hb
      obtain ⟨d, hd, hc, _⟩ := tryAll_ok hb.symm
      exact ⟨d, hd, hc⟩
    · rw [h] at hb; cases hb

/-- **C36.** The claim itself is false: `cbz r0` raises an `AttributeError`, and `push.w
{r4, r5}` a `NameError`. -/
theorem not_only_undefined : (trees.decode [0x00, 0xb1] 0).1 = .error .attributeError ∧
    (trees.decode [0x2d, 0xe9, 0x30, 0x00] 0).1 = .error .nameError := by
  constructor
  · rw [trees, decoders_eq]; decide +kernel
  · rw [trees, decoders_eq]; decide +kernel

/-- Half an instruction is reported as undefined, and so is a word that no encoding matches
if the tree has a leaf for it. -/
example : (trees.decode [0x00, 0xf0] 0).1 = .error .undefinedInstruction ∧
    (trees.decode [0x03, 0xb6] 0).1 = .error .undefinedInstruction := by
  constructor
  · rw [trees, decoders_eq]; decide +kernel
  · rw [trees, decoders_eq]; decide +kernel

end C36

namespace C39

theorem decoded {data : List Nat} (hd : ∀ b ∈ data, b < 256) (hl : 2 ≤ data.length) {a : Int} {i : Instr}
    (h : (trees.decode data a).1 = .ok i) : ∃ c w b, firstWord data = some (w, b) ∧ Decoded c w b a i := by
  have hb := decode_bytes data hd hl a
  cases hw : firstWord data with
  | none => rw [hw] at hb; rw [h] at hb; cases hb
  | some p =>
    obtain ⟨w, b⟩ := p
    rw [hw] at hb
    simp only at hb
    rcases hb with hb | ⟨hb, _⟩
    · rw [h] at hb
      obtain ⟨c, hc⟩ := search_ok hb.symm
      exact ⟨c, w, b, rfl, hc⟩
    · rw [h] at hb; cases hb

theorem length_of_ok {data : List Nat} {a : Int} {i : Instr} (h : (trees.decode data a).1 = .ok i) : 2 ≤ data.length := by
  unfold Trees.decode at h
  split at h
  · cases h
  · omega

theorem shift_and (w k : Nat) : (w >>> k) &&& 0xff = w / 2 ^ k % 256 := by
  rw [Nat.shiftRight_eq_div_pow, show (0xff : Nat) = 2 ^ 8 - 1 from rfl, Nat.and_two_pow_sub_one_eq_mod]

/-- **C39.** The bytes of a decoded instruction are the first `size` bytes of the input, its
size is 2 or 4, and its address is the one passed in. -/
theorem bytes_and_size (data : List Nat) (hd : ∀ b ∈ data, b < 256) (a : Int) (i : Instr)
    (h : (trees.decode data a).1 = .ok i) :
    (i.size = 2 ∨ i.size = 4) ∧ i.size ≤ data.length ∧ i.bytes = data.take i.size ∧ i.address = a := by
  have hl := length_of_ok h
  obtain ⟨c, w, b, hw, hc⟩ := decoded hd hl h
  unfold Instr.bytes Instr.size
  rw [hc.is32, hc.word]
  refine ⟨by cases b <;> simp, ?_⟩
  clear h
  match data, hl with
  | b0 :: b1 :: rest, _ =>
    have h0 : b0 < 256 := hd b0 (by simp)
    have h1 : b1 < 256 := hd b1 (by simp)
    simp only [firstWord] at hw
    split at hw
    · match rest with
      | [] => cases hw
      | [_] => cases hw
      | b2 :: b3 :: rest' =>
        have h2 : b2 < 256 := hd b2 (by simp)
        have h3 : b3 < 256 := hd b3 (by simp)
        simp only [Option.some.injEq, Prod.mk.injEq] at hw
        obtain ⟨rfl, rfl⟩ := hw
        refine ⟨by simp, ?_, hc.address⟩
        simp only [if_true, show List.range 4 = [0, 1, 2, 3] from rfl, List.map_cons, List.map_nil, shift_and, List.take_succ_cons,
          List.take_zero, List.cons.injEq, Nat.reduceMul, Nat.reducePow, and_true]
        omega
    · simp only [Option.some.injEq, Prod.mk.injEq] at hw
      obtain ⟨rfl, rfl⟩ := hw
      refine ⟨by simp, ?_, hc.address⟩
      simp only [Bool.false_eq_true, if_false, show List.range 2 = [0, 1] from rfl, List.map_cons, List.map_nil, shift_and,
        List.take_succ_cons, List.take_zero, List.cons.injEq, Nat.reduceMul, Nat.reducePow, and_true]
      omega

/-- **C39.** Later bytes do not matter: any input that starts with the bytes of the
instruction decodes to it. -/
theorem later_bytes_ignored (data : List Nat) (hd : ∀ b ∈ data, b < 256) (a : Int) (i : Instr)
    (h : (trees.decode data a).1 = .ok i) (rest : List Nat) (hr : ∀ b ∈ rest, b < 256) :
    (trees.decode (i.bytes ++ rest) a).1 = .ok i := by
  have hl := length_of_ok h
  obtain ⟨hs, hle, hb, _⟩ := bytes_and_size data hd a i h
  have hd' : ∀ b ∈ i.bytes ++ rest, b < 256 := by
    intro x hx
    rcases List.mem_append.mp hx with hx | hx
    · rw [hb] at hx; exact hd x (List.mem_of_mem_take hx)
    · exact hr x hx
  have hl' : 2 ≤ (i.bytes ++ rest).length := by
    rw [hb, List.length_append, List.length_take]; omega
  have key : firstWord (i.bytes ++ rest) = firstWord data := by
    obtain ⟨c, w, b, hw, hc⟩ := decoded hd hl h
    rw [hb]
    unfold Instr.size
    rw [hc.is32]
    clear h
    match data, hl with
    | b0 :: b1 :: rest0, _ =>
      simp only [firstWord] at hw ⊢
      split at hw
      · next h32 =>
        match rest0 with
        | [] => cases hw
        | [_] => cases hw
        | b2 :: b3 :: rest' =>
          simp only [Option.some.injEq, Prod.mk.injEq] at hw
          obtain ⟨rfl, rfl⟩ := hw
          simp [firstWord]
      · next h32 =>
        simp only [Option.some.injEq, Prod.mk.injEq] at hw
        obtain ⟨rfl, rfl⟩ := hw
        simp [firstWord, h32]
  have h1 := decode_bytes data hd hl a
  have h2 := decode_bytes (i.bytes ++ rest) hd' hl' a
  rw [key] at h2
  cases hw : firstWord data with
  | none => rw [hw] at h1; rw [h] at h1; cases h1
  | some p =>
    obtain ⟨w, b⟩ := p
    rw [hw] at h1 h2
    simp only at h1 h2
    rw [h] at h1
    rcases h1 with h1 | ⟨h1, _⟩
    · rw [← h1] at h2
      rcases h2 with h2 | ⟨_, h2, _⟩
      · exact h2
      · cases h2
    · cases h1

example : (trees.decode [0x00, 0xf0, 0x01, 0xf8, 0xff] 6).1.toOption.map (fun i => (i.bytes, i.size, i.address)) =
    some ([0x00, 0xf0, 0x01, 0xf8], 4, 6) := by
  rw [trees, decoders_eq]; decide +kernel

end C39
end Verif
