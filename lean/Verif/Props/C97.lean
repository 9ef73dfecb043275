import Verif.Props.C11to15

/-!
# C97: equality and hash
-/

namespace Verif
open BS

namespace C97

/-- What can be compared with a bitstring. -/
inductive Key where
  | bits (b : BS)
  | int (v : Int)
  | text (s : Str)
deriving DecidableEq

/-- A bitstring as the library makes it. -/
def Key.WF : Key → Prop
  | .bits b => b.WF
  | _ => True

/-- The answer of a method of a bitstring, if it does not raise. -/
def answer (r : PyRes (Option Bool × BS)) : Option Bool :=
  match r with
  | .ok (some x, _) => some x
  | _ => none

/-- Python's `x == y` on these; `none` is an exception. A number or text to the left of a
bitstring has no answer of its own, and Python asks the bitstring. -/
def equal : Key → Key → Option Bool
  | .bits a, .bits b => answer (a.eqOp (.bs b))
  | .bits a, .int v => answer (a.eqOp (.int v))
  | .bits a, .text s => answer (a.eqOp (.str s))
  | .int v, .bits a => answer (a.eqOp (.int v))
  | .text s, .bits a => answer (a.eqOp (.str s))
  | .int v, .int w => some (decide (v = w))
  | .text s, .text t => some (decide (s = t))
  | _, _ => some false

/-- Python's hash, from a hash of numbers and one of texts. -/
def hash (ints : Int → Int) (texts : Str → Int) : Key → Int
  | .bits b => texts b.repr
  | .int v => ints v
  | .text s => texts s

/-- What Python asks of keys of dictionaries: equality is reflexive, symmetric and
transitive, and what is equal has the same hash. -/
structure Contract (ints : Int → Int) (texts : Str → Int) (P : Key → Prop) : Prop where
  refl : ∀ x, P x → equal x x = some true
  symm : ∀ x y, P x → P y → equal x y = equal y x
  trans : ∀ x y z, P x → P y → P z → equal x y = some true → equal y z = some true → equal x z = some true
  hash : ∀ x y, P x → P y → equal x y = some true → hash ints texts x = hash ints texts y

theorem bits_iff {a b : BS} (ha : a.WF) (hb : b.WF) : equal (.bits a) (.bits b) = some (decide (a = b)) := by
  obtain ⟨r, e, hr⟩ := C14.eq_is_equality a b ha hb
  show answer (a.eqOp (.bs b)) = _
  rw [e]
  unfold answer
  simp only [Option.some.injEq]
  by_cases h : a = b <;> simp [h] at hr ⊢ <;> simp [hr]

/-- **C97, the part that holds.** Among bitstrings the contract holds, whatever the hash
functions are. -/
theorem bitstrings_partial (ints : Int → Int) (texts : Str → Int) : Contract ints texts fun x => ∃ b : BS, b.WF ∧ x = .bits b := by
  refine ⟨?_, ?_, ?_, ?_⟩
  · rintro _ ⟨a, ha, rfl⟩
    rw [bits_iff ha ha]; simp
  · rintro _ _ ⟨a, ha, rfl⟩ ⟨b, hb, rfl⟩
    rw [bits_iff ha hb, bits_iff hb ha]; simp [eq_comm]
  · rintro _ _ _ ⟨a, ha, rfl⟩ ⟨b, hb, rfl⟩ ⟨c, hc, rfl⟩
    rw [bits_iff ha hb, bits_iff hb hc, bits_iff ha hc]
    simp only [Option.some.injEq, decide_eq_true_eq]
    rintro rfl rfl; rfl
  · rintro _ _ ⟨a, ha, rfl⟩ ⟨b, hb, rfl⟩
    rw [bits_iff ha hb]
    simp only [Option.some.injEq, decide_eq_true_eq]
    rintro rfl; rfl

/-- **C97.** Symmetry holds among all of them. -/
theorem symmetric (x y : Key) (hx : x.WF) (hy : y.WF) : equal x y = equal y x := by
  cases x with
  | bits a =>
    cases y with
    | bits b => rw [bits_iff hx hy, bits_iff hy hx]; simp [eq_comm]
    | int v => rfl
    | text s => rfl
  | int v =>
    cases y with
    | bits b => rfl
    | int w => simp [equal, eq_comm]
    | text s => rfl
  | text s =>
    cases y with
    | bits b => rfl
    | int w => rfl
    | text t => simp [equal, eq_comm]

/-- **C97.** Among bitstrings, numbers and texts together the contract is broken: four and
eight bits that are 5 both equal the number 5 but not each other. -/
theorem full_claim_false : ¬ ∃ (ints : Int → Int) (texts : Str → Int), Contract ints texts Key.WF := by
  rintro ⟨ints, texts, h⟩
  have := h.trans (.bits (bv 4 5)) (.int 5) (.bits (bv 8 5)) (bv_wf _ _) trivial (bv_wf _ _) (by decide) (by decide)
  revert this; decide

theorem int_iff {a : BS} {v : Int} : equal (.bits a) (.int v) = some true ↔ if v < 0 then a.signed.1 = v else (a.value : Int) = v := by
  unfold equal eqOp
  simp only
  split <;> simp [answer]

/-- **C97, exactly.** Two bitstrings (of width at least 2) that equal the same number equal
each other if and only if they have the same width. -/
theorem transitive_iff {a b : BS} (ha : a.WF) (hb : b.WF) (hwa : 2 ≤ a.width) (hwb : 2 ≤ b.width) {v : Int}
    (hav : equal (.bits a) (.int v) = some true) (hbv : equal (.int v) (.bits b) = some true) :
    equal (.bits a) (.bits b) = some true ↔ a.width = b.width := by
  rw [bits_iff ha hb]
  simp only [Option.some.injEq, decide_eq_true_eq]
  constructor
  · rintro rfl; rfl
  · intro hw
    have hbv' : equal (.bits b) (.int v) = some true := hbv
    rw [int_iff] at hav hbv'
    apply ext_bv ha hb hw
    split at hav
    · rename_i hv
      rw [if_pos hv] at hbv'
      have h1 := (C06.signed_is_twos_complement a ha hwa).1
      have h2 := (C06.signed_is_twos_complement b hb hwb).1
      rw [hav] at h1
      rw [hbv', ← hw, h1] at h2
      exact_mod_cast h2
    · rename_i hv
      rw [if_neg hv] at hbv'
      omega

/-- **C97.** A text that equals a bitstring has another hash than it, unless the hash of
texts happens to give two texts the same number: it is never the text that is hashed. -/
theorem text_hash {a : BS} {s : Str} (h : equal (.bits a) (.text s) = some true) : s ≠ a.repr := by
  intro e
  have hl : a.width = s.length := by
    unfold equal eqOp init initRaw at h
    simp only at h
    cases hs : intBase2 s with
    | error e => rw [hs] at h; cases h
    | ok v =>
      rw [hs] at h
      simp only [bind, Except.bind, Option.getD_none] at h
      rw [if_neg (by omega)] at h
      simp only [answer, Option.some.injEq, Bool.and_eq_true, beq_iff_eq] at h
      have := h.1
      simpa [ofInt] using this
  have hr : a.repr.length > a.width := by
    unfold BS.repr
    rw [List.length_append, List.length_append, binaryString_length]
    have : (c! "'b").length = 2 := rfl
    omega
  rw [← e] at hr
  omega

/-- **C97.** A bitstring that serves as a key is lost when it is compared with a negative
number: if its own number is negative, the comparison changes it and with it the text
that is hashed. -/
theorem lost_key {a : BS} (ha : a.WF) (hw : 2 ≤ a.width) (hn : a.signed.1 < 0) {v : Int} (hv : v < 0) :
    ∃ x a', a.eqOp (.int v) = .ok (some x, a') ∧ a'.WF ∧ a'.repr ≠ a.repr := by
  refine ⟨a.signed.1 == v, a.signed.2, ?_, ?_⟩
  · unfold eqOp
    simp only
    rw [if_pos hv]
  · have hneg : a.neg := by
      apply Classical.byContradiction
      intro h
      rw [signed_nonneg ha hw h] at hn
      simp only at hn
      omega
    have h2 : a.signed.2 = a.invert := by
      rw [signed_neg ha hw hneg]
      rfl
    have hwf : a.signed.2.WF := by
      rw [signed_neg ha hw hneg]
      exact inverted_wf a
    refine ⟨hwf, fun e => ?_⟩
    have := (C15.repr_injective _ _ hwf ha).1 e
    rw [h2] at this
    exact C07.invert_operator_changes_operand a ha (by omega) this

/-- Eight bits `0b11110000` equal 240, -16 and the text `11110000`; after the comparison
with -16 they are `0b00001111`. -/
example : equal (.bits (bv 8 0xf0)) (.int 240) = some true ∧ equal (.int (-16)) (.bits (bv 8 0xf0)) = some true ∧
    equal (.bits (bv 8 0xf0)) (.text (c! "11110000")) = some true ∧ (bv 8 0xf0).repr = c! "8'b11110000" ∧
    (bv 8 0xf0).eqOp (.int (-16)) = .ok (some true, bv 8 0x0f) ∧ equal (.bits (bv 8 0xf0)) (.text (c! "hello")) = none := by decide

end C97
end Verif
