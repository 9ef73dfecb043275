import Verif.Lemmas.Disasm

/-!
# C40 to C42: disassembling
-/

namespace Verif
open BS

namespace C40

/-- The instructions follow each other from this address on. -/
def Consecutive : Int → List Instr → Prop
  | _, [] => True
  | a, i :: t => i.address = a ∧ Consecutive (a + i.size) t

/-- The bytes of instructions, one after the other. -/
def bytes (l : List Instr) : List Nat := l.flatMap Instr.bytes

theorem bytes_cons (i : Instr) (l : List Instr) : bytes (i :: l) = i.bytes ++ bytes l := by simp [bytes]

theorem bytes_append (l m : List Instr) : bytes (l ++ m) = bytes l ++ bytes m := by simp [bytes]

theorem length_bytes (i : Instr) : i.bytes.length = i.size := by simp [Instr.bytes]

/-- How a disassembly ends with these bytes left over at this address. -/
def Ends (left : List Nat) (a : Int) (e : Option PyErr) : Prop :=
  (left = [] ∧ e = none) ∨ (left ≠ [] ∧ ∃ x, (trees.decode left a).1 = .error x ∧
    e = if x = .undefinedInstruction ∧ left.length < 4 then none else some x)

theorem bytes_drop {data : List Nat} (hd : ∀ b ∈ data, b < 256) {a : Int} {i : Instr} (h : decodeAt data a = .ok i) :
    data = i.bytes ++ data.drop i.size ∧ i.address = a := by
  obtain ⟨_, _, h3, h4⟩ := C39.bytes_and_size data hd a i h
  rw [h3, List.take_append_drop]
  exact ⟨rfl, h4⟩

theorem dis_spec : ∀ (n : Nat) (data : List Nat) (a : Int), data.length ≤ n → (∀ b ∈ data, b < 256) →
    ∃ left, data = bytes (dis data a).1 ++ left ∧ Consecutive a (dis data a).1 ∧
      Ends left (a + (data.length - left.length : Int)) (dis data a).2 := by
  intro n
  induction n with
  | zero =>
    intro data a h hd
    have : data = [] := List.length_eq_zero_iff.mp (by omega)
    subst this
    exact ⟨[], rfl, trivial, .inl ⟨rfl, rfl⟩⟩
  | succ n ih =>
    intro data a h hd
    rw [dis_eq]
    by_cases hne : data = []
    · rw [if_pos hne]
      exact ⟨[], by simp [hne, bytes], trivial, .inl ⟨rfl, rfl⟩⟩
    · rw [if_neg hne]
      cases hD : decodeAt data a with
      | ok i =>
        obtain ⟨hb, ha⟩ := bytes_drop hd hD
        have hs := size_pos i
        obtain ⟨left, h1, h2, h3⟩ := ih (data.drop i.size) (a + i.size) (by rw [List.length_drop]; omega)
          fun b hb => hd b (List.mem_of_mem_drop hb)
        have hlen : i.size ≤ data.length := (C39.bytes_and_size data hd a i hD).2.1
        refine ⟨left, ?_, ⟨ha, h2⟩, ?_⟩
        · simp only [Yields.cons, bytes_cons, List.append_assoc]
          rw [← h1]; exact hb
        · have : a + ↑i.size + (↑(data.drop i.size).length - ↑left.length) = a + (↑data.length - ↑left.length : Int) := by
            rw [List.length_drop]; omega
          rw [this] at h3
          exact h3
      | error x =>
        refine ⟨data, ?_, ?_, .inr ⟨hne, x, ?_, ?_⟩⟩
        · cases x <;> first | rfl | (simp only; split <;> rfl)
        · cases x <;> first | trivial | (simp only; split <;> trivial)
        · rw [Int.sub_self, Int.add_zero]; exact hD
        · cases x <;> simp
          split <;> rfl

theorem trees_self (x : List Nat) (b : Int) : (trees.decode x b).1 = decodeAt x b := rfl

/-- **C40.** The instructions a disassembly yields have consecutive addresses from the one
given, and their bytes together are the start of the input. It ends when the input is used
up, or when decoding the rest fails; if it ends normally, nothing or 2 or 3 bytes are left. -/
theorem covers (data : List Nat) (hd : ∀ b ∈ data, b < 256) (a : Int) :
    ∃ left, data = bytes (disasm trees data a).1 ++ left ∧ Consecutive a (disasm trees data a).1 ∧
      Ends left (a + (data.length - left.length : Int)) (disasm trees data a).2 ∧
      ((disasm trees data a).2 = none → left.length ≤ 3 ∧ left.length ≠ 1) := by
  rw [disasm_dis trees trees_self]
  obtain ⟨left, h1, h2, h3⟩ := dis_spec _ data a (Nat.le_refl _) hd
  refine ⟨left, h1, h2, h3, fun he => ?_⟩
  rcases h3 with ⟨rfl, _⟩ | ⟨hne, x, hx, hd⟩
  · simp
  · rw [he] at hd
    split at hd
    · next hc =>
      refine ⟨by omega, fun h => ?_⟩
      have : (trees.decode left (a + (data.length - left.length : Int))).1 = .error .assertionError := by
        unfold Trees.decode
        rw [if_pos (by omega)]
      rw [this, hc.1] at hx
      cases hx
    · cases hd

/-- **C40.** What was decoded before, by this or another disassembly, changes nothing. -/
theorem history_irrelevant (h : List (List Nat × Int)) (data : List Nat) (a : Int) :
    disasm (C37.after trees h) data a = disasm trees data a := by
  rw [disasm_dis trees trees_self, disasm_dis (C37.after trees h) fun x b => C37.no_memory h trees x b]

example : (disasm trees [0x4b, 0x1c, 0x00, 0xf0, 0x01, 0xf8, 0x00, 0xf0] 8).1.map (fun i => (i.mnemonic, i.address, i.size)) =
    [(c! "adds", 8, 2), (c! "bl", 10, 4)] ∧ (disasm trees [0x4b, 0x1c, 0x00, 0xf0, 0x01, 0xf8, 0x00, 0xf0] 8).2 = none := by
  rw [trees, decoders_eq]; decide +kernel

end C40

namespace C41
open C40

theorem dis_append : ∀ (n : Nat) (d1 d2 : List Nat) (a : Int), d1.length ≤ n → (∀ b ∈ d1, b < 256) → (∀ b ∈ d2, b < 256) →
    bytes (dis d1 a).1 = d1 →
    dis (d1 ++ d2) a = ((dis d1 a).1 ++ (dis d2 (a + d1.length)).1, (dis d2 (a + d1.length)).2) := by
  intro n
  induction n with
  | zero =>
    intro d1 d2 a h _ _ _
    have : d1 = [] := List.length_eq_zero_iff.mp (by omega)
    subst this
    rw [List.nil_append, List.length_nil, Int.natCast_zero, Int.add_zero]; rfl
  | succ n ih =>
    intro d1 d2 a h h1 h2 hb
    by_cases hne : d1 = []
    · subst hne
      rw [List.nil_append, List.length_nil, Int.natCast_zero, Int.add_zero]; rfl
    · rw [dis_eq (data := d1), if_neg hne] at hb ⊢
      rw [dis_eq (data := d1 ++ d2), if_neg (by simp [hne])]
      cases hD : decodeAt d1 a with
      | error x =>
        exfalso
        rw [hD] at hb
        apply hne
        rw [← hb]
        cases x <;> first | rfl | (simp only; split <;> rfl)
      | ok i =>
        rw [hD] at hb
        obtain ⟨hb1, ha⟩ := bytes_drop h1 hD
        have hs := size_pos i
        have hlen : i.size ≤ d1.length := (C39.bytes_and_size d1 h1 a i hD).2.1
        have hD2 : decodeAt (d1 ++ d2) a = .ok i := by
          have := C39.later_bytes_ignored d1 h1 a i hD (d1.drop i.size ++ d2) (by
            intro b hb
            rcases List.mem_append.mp hb with hb | hb
            · exact h1 b (List.mem_of_mem_drop hb)
            · exact h2 b hb)
          rw [← List.append_assoc, ← hb1] at this
          exact this
        rw [hD2]
        simp only [Yields.cons] at hb ⊢
        rw [bytes_cons] at hb
        have hb2 : bytes (dis (d1.drop i.size) (a + i.size)).1 = d1.drop i.size := by
          have : i.bytes ++ bytes (dis (d1.drop i.size) (a + i.size)).1 = i.bytes ++ d1.drop i.size := by rw [hb, ← hb1]
          exact List.append_cancel_left this
        rw [List.drop_append_of_le_length hlen, ih (d1.drop i.size) d2 (a + i.size) (by rw [List.length_drop]; omega)
          (fun b hb => h1 b (List.mem_of_mem_drop hb)) h2 hb2]
        have : a + ↑i.size + ↑(d1.drop i.size).length = a + (d1.length : Int) := by rw [List.length_drop]; omega
        rw [this]; rfl

/-- **C41.** Disassembling two parts one after the other, if the first is used up. -/
theorem composes (d1 d2 : List Nat) (h1 : ∀ b ∈ d1, b < 256) (h2 : ∀ b ∈ d2, b < 256) (a : Int)
    (h : bytes (disasm trees d1 a).1 = d1) :
    disasm trees (d1 ++ d2) a = ((disasm trees d1 a).1 ++ (disasm trees d2 (a + d1.length)).1,
      (disasm trees d2 (a + d1.length)).2) := by
  simp only [disasm_dis trees trees_self] at h ⊢
  exact dis_append _ d1 d2 a (Nat.le_refl _) h1 h2 h

/-- The instruction moved. -/
def moved (k : Int) (i : Instr) : Instr := { i with address := i.address + k }

theorem decodeAt_moved (data : List Nat) (hd : ∀ b ∈ data, b < 256) (a k : Int) :
    decodeAt data (a + k) = (decodeAt data a).map (moved k) := by
  unfold decodeAt
  rw [trees_at trees data (a + k) a]
  cases h : (trees.decode data a).1 with
  | error e => rfl
  | ok i =>
    have := (C39.bytes_and_size data hd a i h).2.2.2
    simp only [Except.map, Instr.at, moved]
    rw [this]

theorem dis_moved (k : Int) : ∀ (n : Nat) (data : List Nat) (a : Int), data.length ≤ n → (∀ b ∈ data, b < 256) →
    dis data (a + k) = ((dis data a).1.map (moved k), (dis data a).2) := by
  intro n
  induction n with
  | zero =>
    intro data a h hd
    have : data = [] := List.length_eq_zero_iff.mp (by omega)
    subst this; rfl
  | succ n ih =>
    intro data a h hd
    rw [dis_eq, dis_eq (a := a)]
    by_cases hne : data = []
    · rw [if_pos hne, if_pos hne]; rfl
    · rw [if_neg hne, if_neg hne, decodeAt_moved data hd]
      cases hD : decodeAt data a with
      | error x => cases x <;> first | rfl | (simp only [Except.map]; split <;> rfl)
      | ok i =>
        have hs := size_pos i
        simp only [Except.map, Yields.cons]
        have : (moved k i).size = i.size := rfl
        rw [this, show a + k + (i.size : Int) = a + i.size + k by omega,
          ih (data.drop i.size) (a + i.size) (by rw [List.length_drop]; omega) fun b hb => hd b (List.mem_of_mem_drop hb)]
        rfl

/-- **C41.** The start address only shifts the addresses. -/
theorem start_address_shifts (data : List Nat) (hd : ∀ b ∈ data, b < 256) (a k : Int) :
    disasm trees data (a + k) = ((disasm trees data a).1.map (moved k), (disasm trees data a).2) := by
  simp only [disasm_dis trees trees_self]
  exact dis_moved k _ data a (Nat.le_refl _) hd

/-- If the first part is not used up the claim fails: half of an instruction before the
other half. -/
theorem needs_all : disasm trees ([0x00, 0xf0] ++ [0x01, 0xf8]) 0 ≠
    ((disasm trees [0x00, 0xf0] 0).1 ++ (disasm trees [0x01, 0xf8] 2).1, (disasm trees [0x01, 0xf8] 2).2) := by
  rw [trees, decoders_eq]; decide +kernel

example : (disasm trees ([0x4b, 0x1c] ++ [0x00, 0xb5]) 6).1.map (fun i => (i.mnemonic, i.address)) =
    [(c! "adds", 6), (c! "push", 8)] ∧ (disasm trees ([0x4b, 0x1c] ++ [0x00, 0xb5]) 106).1.map (fun i => (i.mnemonic, i.address)) =
    [(c! "adds", 106), (c! "push", 108)] := by
  rw [trees, decoders_eq]; decide +kernel

end C41

namespace C42
open C40

/-- **C42.** A disassembly ends: allowing more iterations than the model does gives the same
result. -/
theorem ends (data : List Nat) (a : Int) (n : Nat) (h : data.length ≤ n) :
    disasmLoop n trees data (a + data.length) a 0 = disasm trees data a := by
  rw [disasm_dis trees trees_self, disasmLoop_eq decodeAt n trees data a 0 _ trees_self (by omega) (by omega), List.drop_zero,
    dis, disLoop_fuel decodeAt n data.length data a h (Nat.le_refl _)]

/-- **C42.** It ends normally or with `UndefinedInstructionError` or `UnpredictableError`, or
else in one of three ways it should not: an `AssertionError` for a last single byte, an
`AttributeError` for a word no encoding matches, a `NameError` for PUSH.W. -/
theorem errors_partial (data : List Nat) (hd : ∀ b ∈ data, b < 256) (a : Int) (x : PyErr)
    (h : (disasm trees data a).2 = some x) :
    ∃ left, data = bytes (disasm trees data a).1 ++ left ∧ left ≠ [] ∧
      (x = .undefinedInstruction ∧ 4 ≤ left.length ∨ x = .unpredictable ∨ (x = .assertionError ∧ left.length = 1) ∨
      (x = .attributeError ∧ ∃ w b, firstWord left = some (w, b) ∧ ¬ C36.Matches w b) ∨
      (x = .nameError ∧ ∃ w, firstWord left = some (w, true) ∧ Thumb.fits Thumb.pushW.pat w = true)) := by
  obtain ⟨left, h1, _, h3, _⟩ := covers data hd a
  refine ⟨left, h1, ?_⟩
  rcases h3 with ⟨_, he⟩ | ⟨hne, y, hy, he⟩
  · rw [h] at he; cases he
  · rw [h] at he
    refine ⟨hne, ?_⟩
    have hl : ∀ b ∈ left, b < 256 := fun b hb => hd b (by rw [h1]; exact List.mem_append_right _ hb)
    split at he
    · cases he
    · next hc =>
      injection he with he
      subst he
      by_cases h2 : 2 ≤ left.length
      · rcases C36.errors_partial left hl h2 _ _ hy with h | h | h | h
        · exact .inl ⟨h, Nat.le_of_not_lt fun hlt => hc ⟨h, hlt⟩⟩
        · exact .inr (.inl h)
        · exact .inr (.inr (.inr (.inl h)))
        · exact .inr (.inr (.inr (.inr h)))
      · have h1 : left.length = 1 := by
          have : left.length ≠ 0 := fun h => hne (List.length_eq_zero_iff.mp h)
          omega
        have : (trees.decode left (a + (data.length - left.length : Int))).1 = .error .assertionError := by
          unfold Trees.decode
          rw [if_pos (by omega)]
        rw [this] at hy
        injection hy with hy
        exact .inr (.inr (.inl ⟨hy.symm, h1⟩))

/-- **C42.** The claim itself is false, in all three ways. -/
theorem internal_errors : (disasm trees [0x4b, 0x1c, 0x00] 0).2 = some .assertionError ∧
    (disasm trees [0x4b, 0x1c, 0x00, 0xb1] 0).2 = some .attributeError ∧
    (disasm trees [0x2d, 0xe9, 0x30, 0x00] 0).2 = some .nameError := by
  rw [trees, decoders_eq]; decide +kernel

/-- An undefined word that is not at the end stops the disassembly. -/
example : (disasm trees [0x03, 0xb6, 0x4b, 0x1c] 0).2 = some .undefinedInstruction ∧
    (disasm trees [0x4b, 0x1c, 0x03, 0xb6] 0).2 = none := by
  rw [trees, decoders_eq]; decide +kernel

end C42
end Verif
