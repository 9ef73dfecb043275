import Verif.Lemmas.Select
import Verif.Props.C34to37

/-!
# From bytes to instructions
-/

namespace Verif
open BS Thumb Handler

/-! ### Cases and decoders -/

theorem AllGood.case : ∀ {cs : List Case} {ds : List Dec}, AllGood cs ds → ∀ c ∈ cs, ∃ d ∈ ds, Good c d
  | [], [], _, c, hc => by cases hc
  | c :: cs, d :: ds, h, x, hx => by
    rcases List.mem_cons.mp hx with rfl | hx
    · exact ⟨d, by simp, h.1⟩
    · obtain ⟨y, hy, hg⟩ := AllGood.case h.2 x hx
      exact ⟨y, List.mem_cons_of_mem _ hy, hg⟩

theorem AllGood.dec : ∀ {cs : List Case} {ds : List Dec}, AllGood cs ds → ∀ d ∈ ds, ∃ c ∈ cs, Good c d
  | [], [], _, c, hc => by cases hc
  | c :: cs, d :: ds, h, x, hx => by
    rcases List.mem_cons.mp hx with rfl | hx
    · exact ⟨c, by simp, h.1⟩
    · obtain ⟨y, hy, hg⟩ := AllGood.dec h.2 x hx
      exact ⟨y, List.mem_cons_of_mem _ hy, hg⟩

theorem mem_sortedOf {d : Dec} {b : Bool} : d ∈ sortedOf b ↔ d ∈ decs ∧ d.is32 = b := by
  rw [← decoders_eq]
  cases b
  · rw [show sortedOf false = sortDecs (decoders.filter fun d => !d.is32) from sort16.symm, mem_sortDecs, List.mem_filter]
    generalize decoders = ds
    simp
  · rw [show sortedOf true = sortDecs (decoders.filter fun d => d.is32) from sort32.symm, mem_sortDecs, List.mem_filter]

/-! ### Searching -/

theorem tryAll_ok {w : Nat} {a : Int} {i : Instr} : ∀ {s : List Dec}, tryAll w a s = .ok i →
    ∃ d ∈ s, d.check w = true ∧ d.decode w a = .ok i
  | [], h => by cases h
  | d :: t, h => by
    rw [tryAll] at h
    split at h
    · next hc =>
      split at h
      · obtain ⟨e, he, h1⟩ := tryAll_ok h
        exact ⟨e, List.mem_cons_of_mem _ he, h1⟩
      · exact ⟨d, by simp, hc, h⟩
    · obtain ⟨e, he, h1⟩ := tryAll_ok h
      exact ⟨e, List.mem_cons_of_mem _ he, h1⟩

theorem tryAll_error {w : Nat} {a : Int} {x : PyErr} : ∀ {s : List Dec}, tryAll w a s = .error x →
    (x = .undefinedInstruction ∧ ∀ d ∈ s, d.check w = true → d.decode w a = .error .decodeError) ∨
    ∃ d ∈ s, d.check w = true ∧ d.decode w a = .error x ∧ x ≠ .decodeError
  | [], h => by cases h; exact .inl ⟨rfl, by simp⟩
  | d :: t, h => by
    rw [tryAll] at h
    split at h
    · next hc =>
      split at h
      · next hd =>
        rcases tryAll_error h with ⟨h1, h2⟩ | ⟨e, he, h1⟩
        · refine .inl ⟨h1, fun e he hec => ?_⟩
          rcases List.mem_cons.mp he with rfl | he
          · exact hd
          · exact h2 e he hec
        · exact .inr ⟨e, List.mem_cons_of_mem _ he, h1⟩
      · next hd => exact .inr ⟨d, by simp, hc, h, fun hx => hd (by rw [h, hx])⟩
    · next hc =>
      rcases tryAll_error h with ⟨h1, h2⟩ | ⟨e, he, h1⟩
      · refine .inl ⟨h1, fun e he hec => ?_⟩
        rcases List.mem_cons.mp he with rfl | he
        · exact absurd hec hc
        · exact h2 e he hec
      · exact .inr ⟨e, List.mem_cons_of_mem _ he, h1⟩

/-- What an instruction that was decoded from a word is. -/
structure Decoded (c : Case) (w : Nat) (b : Bool) (a : Int) (i : Instr) : Prop where
  mem : c ∈ Case.all
  length : c.enc.pat.length = if b then 32 else 16
  fits : fits c.enc.pat w = true
  raises : c.raises (field c.enc.pat w) = none
  word : i.word = w
  address : i.address = a
  is32 : i.is32 = b
  mnemonic : i.mnemonic = c.enc.mnem (field c.enc.pat w)
  act : (c.act (field c.enc.pat w)).Of i
  operands : i.operands = c.ops (field c.enc.pat w)

theorem Good.decoded {c : Case} {d : Dec} (hm : c ∈ Case.all) (h : Good c d) {w : Nat} {a : Int} {i : Instr} (hc : d.check w = true)
    (hi : d.decode w a = .ok i) : Decoded c w d.is32 a i := by
  have hf := (check_iff_fits h.same w).mp hc
  obtain ⟨h1, h2⟩ := h.correct w a hf
  cases hr : c.raises (field c.enc.pat w) with
  | some e => rw [h1 e hr] at hi; cases hi
  | none =>
    obtain ⟨j, hj, k1, k2, k3, k4, k5, k6⟩ := h2 hr
    rw [hj] at hi
    injection hi with hi
    subst hi
    exact ⟨hm, h.length, hf, hr, k1, k2, k3, k4, k5, k6⟩

theorem search_ok {w : Nat} {a : Int} {b : Bool} {i : Instr} (h : tryAll w a (sortedOf b) = .ok i) :
    ∃ c, Decoded c w b a i := by
  obtain ⟨d, hd, hc, hi⟩ := tryAll_ok h
  obtain ⟨hd', rfl⟩ := mem_sortedOf.mp hd
  obtain ⟨c, hm, hg⟩ := allGood.dec d hd'
  exact ⟨c, hg.decoded hm hc hi⟩

theorem search_error {w : Nat} {a : Int} {b : Bool} {x : PyErr} (h : tryAll w a (sortedOf b) = .error x) :
    x = .undefinedInstruction ∨
    ∃ c ∈ Case.all, c.enc.pat.length = (if b then 32 else 16) ∧ fits c.enc.pat w = true ∧
      c.raises (field c.enc.pat w) = some x ∧ x ≠ .decodeError := by
  rcases tryAll_error h with ⟨h1, _⟩ | ⟨d, hd, hc, hi, hx⟩
  · exact .inl h1
  · right
    obtain ⟨hd', rfl⟩ := mem_sortedOf.mp hd
    obtain ⟨c, hm, hg⟩ := allGood.dec d hd'
    have hf := (check_iff_fits hg.same w).mp hc
    obtain ⟨h1, h2⟩ := hg.correct w a hf
    refine ⟨c, hm, hg.length, hf, ?_, hx⟩
    cases hr : c.raises (field c.enc.pat w) with
    | some e => rw [h1 e hr] at hi; injection hi with hi; rw [hi]
    | none => obtain ⟨j, hj, _⟩ := h2 hr; rw [hj] at hi; cases hi

/-! ### Halfwords -/

/-- Whether the top five bits of the first halfword say that there is a second. -/
theorem is32bit_and {w : Nat} (h : w < 2 ^ 32) : is32bit (w % 65536) = is32bit w := by
  have : w % 65536 &&& 0xf800 = w &&& 0xf800 := by
    rw [show (65536 : Nat) = 2 ^ 16 from rfl]
    apply Nat.eq_of_testBit_eq
    intro k
    simp only [Nat.testBit_and, Nat.testBit_mod_two_pow]
    by_cases hk : k < 16
    · simp [hk]
    · have : Nat.testBit 0xf800 k = false := Nat.testBit_lt_two_pow (Nat.lt_of_lt_of_le (show 0xf800 < 2 ^ 16 by decide) (Nat.pow_le_pow_right (by omega) (by omega)))
      simp [this]
  rw [is32bit, is32bit, this]

theorem halves_is32 {d : Dec} (h : halfFits d = true) {w : Nat} (hc : d.check w = true) : is32bit w = d.is32 := by
  rw [check_iff] at hc
  unfold halfFits at h
  cases hb : d.is32
  · rw [hb] at h
    simp only [Bool.false_eq_true, if_false, List.all_eq_true] at h
    rw [is32bit, ← Bool.not_eq_true, List.contains_iff_mem]
    intro hm
    have := h _ hm
    rw [← hc] at this
    simp only [bne_iff_ne, ne_eq] at this
    apply this
    apply Nat.eq_of_testBit_eq
    intro k
    simp only [Nat.testBit_and]
    grind
  · rw [hb] at h
    simp only [if_true, List.any_eq_true, Bool.and_eq_true, beq_iff_eq] at h
    obtain ⟨t, ht, h1, h2⟩ := h
    rw [is32bit, List.contains_iff_mem]
    have : w &&& 0xf800 = t := by
      rw [← h2, ← hc]
      apply Nat.eq_of_testBit_eq
      intro k
      have hb := congrArg (Nat.testBit · k) h1
      simp only [Nat.testBit_and] at hb ⊢
      grind
    rw [this]; exact ht

/-! ### Bytes -/

/-- The word at the start of some bytes and whether it is two halfwords, if there is one. -/
def firstWord : List Nat → Option (Nat × Bool)
  | b0 :: b1 :: rest =>
    let hw := b0 + 256 * b1
    if is32bit hw then
      match rest with
      | b2 :: b3 :: _ => some (hw + 65536 * (b2 + 256 * b3), true)
      | _ => none
    else some (hw, false)
  | _ => none

theorem inOrder (b : Bool) : C34.InOrder (sortedOf b) (decoders.filter fun d => d.is32 == b) := by
  cases b
  · have h := C34.inOrder_sort (decoders.filter fun d => !d.is32)
    rw [sort16] at h
    have : (fun d : Dec => d.is32 == false) = fun d => !d.is32 := by funext d; cases d.is32 <;> rfl
    rw [this]; exact h
  · have h := C34.inOrder_sort (decoders.filter fun d => d.is32)
    rw [sort32] at h
    have : (fun d : Dec => d.is32 == true) = fun d => d.is32 := by funext d; cases d.is32 <;> rfl
    rw [this]; exact h

theorem walk_trees (w : Nat) (a : Int) (b : Bool) :
    (((if b then trees.t32 else trees.t16).walk w a).1 = tryAll w a (sortedOf b)) ∨
    (((if b then trees.t32 else trees.t16).walk w a).1 = .error .attributeError ∧
      tryAll w a (sortedOf b) = .error .undefinedInstruction ∧ ∀ d ∈ sortedOf b, d.check w = false) := by
  have h0 : (if b then trees.t32 else trees.t16) = build (decoders.filter fun d => d.is32 == b) := by
    unfold trees buildTrees
    generalize decoders = ds
    cases b
    · have : (fun d : Dec => d.is32 == false) = fun d => !d.is32 := by funext d; cases d.is32 <;> rfl
      rw [this]; rfl
    · have : (fun d : Dec => d.is32 == true) = fun d => d.is32 := by funext d; cases d.is32 <;> rfl
      rw [this]; rfl
  rw [h0]
  rcases C34.tree_is_linear_search _ _ (inOrder b) w a with h | ⟨h, hn⟩
  · left; rw [h, C34.tryAll_eq]
  · right
    have hnone : ∀ d ∈ sortedOf b, d.check w = false := by
      intro d hd
      have hd' : d ∈ decoders.filter fun d => d.is32 == b := by
        rw [List.mem_filter, decoders_eq]
        simpa using mem_sortedOf.mp hd
      have := hn d hd'
      rw [← Bool.not_eq_true, check_iff]; exact this
    refine ⟨h, ?_, hnone⟩
    have : ∀ s : List Dec, (∀ d ∈ s, d.check w = false) → tryAll w a s = .error .undefinedInstruction := by
      intro s
      induction s with
      | nil => intro _; rfl
      | cons d t ih =>
        intro h
        rw [tryAll, h d (by simp), if_neg (by simp)]
        exact ih fun e he => h e (List.mem_cons_of_mem _ he)
    exact this _ hnone

/-- Decoding bytes is searching for the word they start with. -/
theorem decode_bytes (data : List Nat) (hd : ∀ b ∈ data, b < 256) (hl : 2 ≤ data.length) (a : Int) :
    match firstWord data with
    | none => (trees.decode data a).1 = .error .undefinedInstruction
    | some (w, b) => (trees.decode data a).1 = tryAll w a (sortedOf b) ∨
        ((trees.decode data a).1 = .error .attributeError ∧ tryAll w a (sortedOf b) = .error .undefinedInstruction ∧
          ∀ d ∈ sortedOf b, d.check w = false) := by
  match data, hl with
  | b0 :: b1 :: rest, _ =>
    have h0 : b0 < 256 := hd b0 (by simp)
    have h1 : b1 < 256 := hd b1 (by simp)
    have e1 : bytesToLe16 (b0 :: b1 :: rest) = .ok (b0 + 256 * b1) := by
      have : bytesToLe16 (b0 :: b1 :: rest) = .ok (b0 ||| (b1 <<< 8)) := rfl
      rw [this, C21.word16 h0]
    have hlen : ¬ (b0 :: b1 :: rest).length < 2 := by simp
    unfold Trees.decode
    rw [if_neg hlen, e1]
    simp only [firstWord]
    by_cases hb : is32bit (b0 + 256 * b1) = true
    · rw [if_pos hb, if_pos hb]
      match rest with
      | [] => rfl
      | [b2] => rfl
      | b2 :: b3 :: rest' =>
        have h2 : b2 < 256 := hd b2 (by simp)
        have h3 : b3 < 256 := hd b3 (by simp)
        have e2 : bytesToLe16 (b0 :: b1 :: b2 :: b3 :: rest') 2 = .ok (b2 + 256 * b3) := by
          have : bytesToLe16 (b0 :: b1 :: b2 :: b3 :: rest') 2 = .ok (b2 ||| (b3 <<< 8)) := rfl
          rw [this, C21.word16 h2]
        have hlen : ¬ (b0 :: b1 :: b2 :: b3 :: rest').length < 4 := by simp
        rw [if_neg hlen, e2]
        simp only
        rw [C21.or_shift (n := 16) (by omega), show (b2 + 256 * b3) * 2 ^ 16 = 65536 * (b2 + 256 * b3) by omega]
        have := walk_trees (b0 + 256 * b1 + 65536 * (b2 + 256 * b3)) a true
        rw [if_pos rfl] at this
        generalize trees = ts at this ⊢
        exact this
    · rw [if_neg hb, if_neg hb]
      have := walk_trees (b0 + 256 * b1) a false
      rw [if_neg (by simp)] at this
      generalize trees = ts at this ⊢
      exact this

end Verif
