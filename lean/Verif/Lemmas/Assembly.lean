import Verif.Lemmas.Text
import Verif.Lemmas.Operands
import Verif.Spec.Assembly
import Verif.Props.C63to66

/-!
# The operands as they are read
-/

namespace Verif
open BS Thumb Handler

/-- What the text of a special register reads as, with the mask as it is after formatting:
the suffix is right only for the mask 01. -/
def shownBits (v : BitVec 8) (m : Option (BitVec 2)) : Str :=
  if v.toNat < 4 then
    match m with
    | some k => if k = 1#2 ∨ k = 2#2 then c! "_g" else []
    | none => []
  else []

theorem special_shown : ∀ (v : BitVec 8) (m : Option (BitVec 2)),
    (specialText (ofBV v) (m.map ofBV)).toOption.map Prod.fst = some (specialName v ++ shownBits v m) ∧
      Reader.piece (specialName v ++ shownBits v m) = some (.word (specialName v ++ shownBits v m)) := by
  intro v m
  cases m with
  | none => revert v; decide +kernel
  | some m => revert v m; decide +kernel

/-- How an operand reads. -/
def Op1.piece (imm : Word) : Op1 → Option Piece
  | .reg r wback => some (.reg r wback)
  | .reglist l => some (.regs (members (BitVec.ofNat 16 l.value)))
  | .imm v hide => if hide then (if v = 0 then none else some (.num v)) else some (.num v)
  | .immAttr => some (.num imm.toNat)
  | .label offset => some (.label (offset + 4))
  | .shift type amount => some (.shift type amount)
  | .barrier option => some (if option = 15 then .word (c! "sy") else .num option)
  | .cps pri fault => some (.word (cpsName pri fault))
  | .special spec mask => some (.word (specialName (BitVec.ofNat 8 spec.value) ++
      shownBits (BitVec.ofNat 8 spec.value) (mask.map fun m => BitVec.ofNat 2 m.value)))

/-- A barrier option above 9 has no comment. -/
def Op1.isBarrier : Op1 → Bool
  | .barrier _ => true
  | _ => false

def Operand.isBarrier : Operand → Bool
  | .one o => o.isBarrier
  | .mem _ => false

/-- The operands in square brackets. -/
def Op1.inside : Op1 → Bool
  | .reg _ _ => true
  | .imm _ _ => true
  | .shift t _ => t ≠ .none
  | _ => false

def Operand.item (imm : Word) : Operand → Option Item
  | .one o => (o.piece imm).map .one
  | .mem l => some (.mem (l.filterMap (Op1.piece imm)))

namespace Reader

theorem no_shift {s : Str} (h : ' ' ∉ s) : shift s = none := by
  unfold shift
  rw [split_none h]

/-- A text that does not start with one of the three characters and has no space. -/
theorem piece_plain {s : Str} (h : ' ' ∉ s) (h1 : ∀ t, s ≠ '#' :: t) (h2 : ∀ t, s ≠ '.' :: t) (h3 : ∀ t, s ≠ '{' :: t) :
    piece s = some ((register s).getD (.word s)) := by
  unfold piece
  split
  · exact absurd rfl (h1 _)
  · exact absurd rfl (h2 _)
  · exact absurd rfl (h3 _)
  · rw [no_shift h]

theorem piece_reg : ∀ (r : Nat) (_ : r < 16) (b : Bool),
    piece ((regNames[r]?).getD [] ++ (if b then c! "!" else [])) = some (.reg r b) := by decide +kernel

theorem piece_num (v : Int) : piece (c! "#" ++ intText 10 v) = some (.num v) := by
  show (int 10 (intText 10 v)).map Piece.num = _
  rw [int_intText10, Option.map_some]

theorem piece_label (v : Int) : piece (c! "." ++ plusText v) = some (.label v) := by
  show (int 10 (plusText v)).map Piece.label = _
  rw [int_plusText, Option.map_some]

theorem shift_name {t : SRType} (h : t ≠ .none) : shiftNamed (shiftName t) = some t ∧ ' ' ∉ shiftName t ∧
    ∃ c r, shiftName t = c :: r ∧ c ≠ '#' ∧ c ≠ '.' ∧ c ≠ '{' := by
  cases t
  · exact absurd rfl h
  all_goals exact ⟨by decide, by decide, _, _, rfl, by decide, by decide, by decide⟩

theorem intText_nat (n : Nat) : intText 10 n = natText 10 n := by
  unfold intText
  rw [if_neg (by omega), Int.natAbs_natCast]

theorem piece_shift {t : SRType} (h : t ≠ .none) (k : Nat) : piece (shiftName t ++ c! " #" ++ intText 10 k) = some (.shift t k) := by
  obtain ⟨h1, h2, c, r, h3, h4, h5, h6⟩ := shift_name h
  have hs : shift (shiftName t ++ c! " #" ++ intText 10 k) = some (.shift t k) := by
    unfold shift
    have hn : ' ' ∉ ('#' :: natText 10 k) := by
      intro hm
      rcases List.mem_cons.1 hm with hm | hm
      · exact absurd hm (by decide)
      · exact absurd (dec_digit hm) (by decide)
    rw [intText_nat, List.append_assoc, show c! " #" ++ natText 10 k = ' ' :: ('#' :: natText 10 k) from rfl, split_append h2,
      split_none hn]
    show (match shiftNamed (shiftName t), nat 10 (natText 10 k) with
      | some t, some k => some (Piece.shift t k)
      | _, _ => none) = _
    rw [h1, nat_natText (by decide) (by decide)]
  unfold piece
  rw [h3] at hs ⊢
  split
  · next e => injection e with e; exact absurd e h4
  · next e => injection e with e; exact absurd e h5
  · next e => injection e with e; exact absurd e h6
  · rw [hs]

theorem piece_cps (p f : Bool) : cpsText p f = cpsName p f ∧ piece (cpsName p f) = some (.word (cpsName p f)) := by
  cases p <;> cases f <;> decide

end Reader

theorem op1_reads {i : Instr} {imm : Word} {o : Op1} (h : o.OK) (hs : ∀ t k, o = .shift t k → t ≠ .none)
    (hi : o.isAttr = true → i.imm32 = some (ofBV imm)) (x : Shown Op1) (hx : o.format i = .ok x) :
    x.text.map Reader.piece = (o.piece imm).map some ∧
      (o.isBarrier = false → x.comments.map Reader.hex = ((o.piece imm).toList.flatMap (Piece.noted i.address)).map some) := by
  have hhex : ∀ v : Int, Reader.hex ('0' :: 'x' :: intText 16 v) = some v := fun v => Reader.int_intText16 v
  have hhex' : ∀ v : Int, Reader.hex (c! "0x" ++ intText 16 v) = some v := fun v => Reader.int_intText16 v
  cases o with
  | reg r wback =>
    have : coreRegisterName (r : Int) = .ok ((Reader.regNames[r]?).getD []) := C63.name_eq h
    simp only [Op1.format, regText, this, Bind.bind, Except.bind, Except.ok.injEq] at hx
    subst hx
    simp only [Option.map_some, Op1.piece, Reader.piece_reg r h wback]
    exact ⟨trivial, fun _ => rfl⟩
  | reglist l =>
    obtain ⟨v, rfl⟩ := h
    obtain ⟨t, ht, hr⟩ := C63.reads_back v
    simp only [Op1.format, ht, Bind.bind, Except.bind, Except.ok.injEq] at hx
    subst hx
    simp only [Option.map_some, Op1.piece]
    have he : members (BitVec.ofNat 16 (ofBV v).value) = (List.range 16).filter fun r => v.getLsbD r := by
      unfold members
      rw [show BitVec.ofNat 16 (ofBV v).value = v from BitVec.ofNat_toNat ..]
    refine ⟨?_, fun _ => rfl⟩
    rw [he]
    congr 1
    have : ∃ t', t = '{' :: t' := by
      unfold Reader.reglist at hr
      split at hr
      · exact ⟨_, rfl⟩
      · cases hr
    obtain ⟨t', rfl⟩ := this
    show (Reader.reglist ('{' :: t')).map Piece.regs = _
    rw [hr]; rfl
  | imm v hide =>
    simp only [Op1.format, Except.ok.injEq] at hx
    subst hx
    cases hide
    · have : ¬ (v = 0 ∧ false = true) := by simp
      simp only [immText, if_neg this, Op1.piece, Option.map_some, Reader.piece_num]
      refine ⟨by simp, fun _ => ?_⟩
      simp only [Bool.false_eq_true, if_false, Option.toList_some, List.flatMap_cons, List.flatMap_nil, List.append_nil, Piece.noted]
      split <;> simp [hhex]
    · by_cases hv : v = 0
      · simp only [immText, hv, Op1.piece]
        exact ⟨rfl, fun _ => rfl⟩
      · have : immText v true = (some (c! "#" ++ intText 10 v), if v > 9 then [c! "0x" ++ intText 16 v] else []) :=
          if_neg fun h => hv h.1
        simp only [this, Op1.piece, Option.map_some, Reader.piece_num, if_true, if_neg hv]
        refine ⟨trivial, fun _ => ?_⟩
        simp only [Option.toList_some, List.flatMap_cons, List.flatMap_nil, List.append_nil, Piece.noted]
        split <;> simp [hhex]
  | immAttr =>
    have hv := hi rfl
    have hb := C64.gt9 (ofBV imm)
    simp only [Op1.format, attr, hv, immBitsText, hb, Bind.bind, Except.bind, decide_eq_true_eq, Except.ok.injEq] at hx
    subst hx
    have hval : (ofBV imm).value = imm.toNat := rfl
    simp only [Op1.piece, Option.map_some, Reader.piece_num, hval]
    refine ⟨trivial, fun _ => ?_⟩
    simp only [Option.toList_some, List.flatMap_cons, List.flatMap_nil, List.append_nil, Piece.noted]
    by_cases h9 : 9 < imm.toNat
    · rw [if_pos h9, if_pos (by omega)]; simp [hhex]
    · rw [if_neg h9, if_neg (by omega)]; rfl
  | label offset =>
    simp only [Op1.format, labelText, Except.ok.injEq] at hx
    subst hx
    simp only [Op1.piece, Option.map_some, Reader.piece_label]
    refine ⟨trivial, fun _ => ?_⟩
    simp only [List.map_cons, List.map_nil, hhex', Option.toList_some, List.flatMap_cons, List.flatMap_nil, List.append_nil, Piece.noted]
    rw [show i.address + 4 + offset = i.address + (offset + 4) by omega]
  | shift type amount =>
    have ht := hs _ _ rfl
    simp only [Op1.format, shiftText, if_neg ht, Except.ok.injEq] at hx
    subst hx
    simp only [Op1.piece, Option.map_some, Reader.piece_shift ht]
    exact ⟨trivial, fun _ => rfl⟩
  | barrier option =>
    simp only [Op1.format, Except.ok.injEq] at hx
    subst hx
    simp only [Op1.piece, Option.map_some, barrierText]
    by_cases h15 : option = 15
    · rw [if_pos h15, if_pos h15]
      exact ⟨by decide, fun _ => rfl⟩
    · rw [if_neg h15, if_neg h15, Reader.piece_num]
      exact ⟨rfl, fun h => by cases h⟩
  | cps pri fault =>
    simp only [Op1.format, Except.ok.injEq] at hx
    subst hx
    obtain ⟨h1, h2⟩ := Reader.piece_cps pri fault
    simp only [Op1.piece, Option.map_some, h1, h2]
    exact ⟨trivial, fun _ => rfl⟩
  | special spec mask =>
    obtain ⟨⟨v, rfl⟩, hm⟩ := h
    have hm' : ∃ m : Option (BitVec 2), mask = m.map ofBV := by
      rcases hm with rfl | ⟨k, rfl⟩
      · exact ⟨none, rfl⟩
      · exact ⟨some k, rfl⟩
    obtain ⟨m, rfl⟩ := hm'
    obtain ⟨h1, h2⟩ := special_shown v m
    have e1 : BitVec.ofNat 8 (ofBV v).value = v := BitVec.ofNat_toNat ..|>.trans (by simp)
    have e2 : ((m.map ofBV).map fun m : BS => BitVec.ofNat 2 m.value) = m := by
      cases m with
      | none => rfl
      | some k => exact congrArg some ((BitVec.ofNat_toNat ..).trans (by simp))
    simp only [Op1.piece, e1, e2]
    cases hst : specialText (ofBV v) (m.map ofBV) with
    | error => rw [hst] at h1; cases h1
    | ok y =>
      rw [hst] at h1
      simp only [Op1.format, hst, Bind.bind, Except.bind, Except.ok.injEq] at hx
      subst hx
      injection h1 with h1
      simp only [Option.map_some, h1, h2]
      exact ⟨trivial, fun _ => rfl⟩

/-- The texts and comments of a list of operands. -/
theorem each_reads {α β : Type} {f : α → PyRes (Shown α)} {g : α → Option β} {rd : Str → Option β} {nt : β → List Int} {bar : α → Bool} :
    ∀ {l : List α} {ss cs : List Str} {os : List α}, formatEach f l = .ok (ss, cs, os) →
    (∀ o ∈ l, ∀ x, f o = .ok x → x.text.map rd = (g o).map some ∧
      (bar o = false → x.comments.map Reader.hex = ((g o).toList.flatMap nt).map some)) →
    ss.map rd = (l.filterMap g).map some ∧
      (l.any bar = false → cs.map Reader.hex = ((l.filterMap g).flatMap nt).map some)
  | [], ss, cs, os, h, _ => by
    simp only [formatEach, Except.ok.injEq, Prod.mk.injEq] at h
    obtain ⟨rfl, rfl, rfl⟩ := h
    exact ⟨rfl, fun _ => rfl⟩
  | o :: t, ss, cs, os, h, hr => by
    simp only [formatEach, Bind.bind, Except.bind] at h
    cases hx : f o with
    | error => rw [hx] at h; cases h
    | ok x =>
      rw [hx] at h
      cases ht : formatEach f t with
      | error => rw [ht] at h; cases h
      | ok y =>
        obtain ⟨ss', cs', os'⟩ := y
        rw [ht] at h
        simp only [Except.ok.injEq, Prod.mk.injEq] at h
        obtain ⟨rfl, rfl, rfl⟩ := h
        obtain ⟨h1, h2⟩ := hr o List.mem_cons_self x hx
        obtain ⟨h3, h4⟩ := each_reads ht fun o ho => hr o (List.mem_cons_of_mem _ ho)
        rw [List.filterMap_cons]
        refine ⟨?_, ?_⟩
        · rw [List.map_append, h3]
          cases hg : g o <;> cases hxt : x.text <;> rw [hg, hxt] at h1 <;> simp_all
        · intro hb
          rw [List.any_cons, Bool.or_eq_false_iff] at hb
          rw [List.map_append, h4 hb.2, h2 hb.1]
          cases hg : g o <;> simp

namespace Reader

theorem split_join_space : ∀ {l : List Str} {s : Str}, (∀ x ∈ s :: l, ',' ∉ x) →
    split ',' (joinWith (c! ", ") (s :: l)) = s :: l.map (' ' :: ·)
  | [], s, h => by rw [joinWith_single, split_none (h s List.mem_cons_self)]; rfl
  | t :: l, s, h => by
    rw [joinWith_cons, List.append_assoc]
    show split ',' (s ++ (',' :: (' ' :: joinWith (c! ", ") (t :: l)))) = _
    rw [split_append (h s List.mem_cons_self), split, if_neg (by decide), split_join_space fun x hx => h x (List.mem_cons_of_mem _ hx)]
    rfl

theorem allRead_eq {α : Type} {f : Str → Option α} : ∀ {l : List Str} {m : List α}, l.map f = m.map some → allRead f l = some m
  | [], [], _ => rfl
  | [], _ :: _, h => by cases h
  | _ :: _, [], h => by cases h
  | s :: l, a :: m, h => by
    simp only [List.map_cons, List.cons.injEq] at h
    simp only [allRead, h.1, allRead_eq h.2]

theorem item_mem {s : Str} {l : List Str} {m : List Piece} (hc : ∀ x ∈ s :: l, ',' ∉ x) (ht : ∀ x ∈ s :: l, trim x = x)
    (h : (s :: l).map piece = m.map some) : item (c! "[" ++ joinWith (c! ", ") (s :: l) ++ c! "]") = some (.mem m) := by
  show (if (joinWith (c! ", ") (s :: l) ++ [']']).getLast? = some ']' then
    (allRead piece ((split ',' (joinWith (c! ", ") (s :: l) ++ [']']).dropLast).map trim)).map Item.mem else none) = _
  rw [if_pos (by simp), List.dropLast_concat, split_join_space hc]
  have : (s :: l.map (' ' :: ·)).map trim = s :: l := by
    rw [List.map_cons, ht s List.mem_cons_self, List.map_map]
    congr 1
    exact List.map_id _
  rw [this, allRead_eq h]
  rfl

theorem item_one {s : Str} {p : Piece} (h : piece s = some p) (hb : ∀ t, s ≠ '[' :: t) : item s = some (.one p) := by
  unfold item
  split
  · exact absurd rfl (hb _)
  · rw [h]; rfl

theorem mem_intText {v : Int} {c : Char} (h : c ∈ intText 10 v) : c = '-' ∨ (digit c).isSome := by
  unfold intText at h
  split at h
  · rcases List.mem_cons.1 h with h | h
    · exact .inl h
    · exact .inr (dec_digit h)
  · exact .inr (dec_digit h)

end Reader

theorem regName_chars : ∀ (r : Nat) (_ : r < 16) (b : Bool),
    let s := (Reader.regNames[r]?).getD [] ++ (if b then c! "!" else [])
    s.contains ',' = false ∧ Reader.trim s = s ∧ (s.head? ≠ some '[') := by decide

theorem inside_text {i : Instr} {o : Op1} (h : o.OK) (hi : o.inside = true) (x : Shown Op1) (hx : o.format i = .ok x) :
    ∀ s ∈ x.text, ',' ∉ s ∧ Reader.trim s = s := by
  cases o with
  | reg r wback =>
    have : coreRegisterName (r : Int) = .ok ((Reader.regNames[r]?).getD []) := C63.name_eq h
    simp only [Op1.format, regText, this, Bind.bind, Except.bind, Except.ok.injEq] at hx
    subst hx
    intro s hs
    rw [Option.mem_some_iff] at hs
    subst hs
    obtain ⟨h1, h2, -⟩ := regName_chars r h wback
    refine ⟨fun hm => ?_, h2⟩
    rw [List.contains_iff_mem.2 hm] at h1
    cases h1
  | imm v hide =>
    simp only [Op1.format, Except.ok.injEq] at hx
    subst hx
    intro s hs
    simp only [immText] at hs
    split at hs
    · cases hs
    · rw [Option.mem_some_iff] at hs
      subst hs
      refine ⟨fun hm => ?_, rfl⟩
      rcases List.mem_cons.1 hm with hm | hm
      · exact absurd hm (by decide)
      · rcases Reader.mem_intText hm with hm | hm
        · exact absurd hm (by decide)
        · exact absurd hm (by decide)
  | shift type amount =>
    have ht : type ≠ .none := of_decide_eq_true hi
    simp only [Op1.format, shiftText, if_neg ht, Except.ok.injEq] at hx
    subst hx
    intro s hs
    rw [Option.mem_some_iff] at hs
    subst hs
    have hn : (shiftName type ++ c! " #").contains ',' = false := by cases type <;> decide
    have hd : ',' ∉ intText 10 amount := by
      intro hm
      rcases Reader.mem_intText hm with hm | hm
      · exact absurd hm (by decide)
      · exact absurd hm (by decide)
    refine ⟨fun hm => ?_, ?_⟩
    · rcases List.mem_append.1 hm with hm | hm
      · rw [List.contains_iff_mem.2 hm] at hn; cases hn
      · exact hd hm
    · cases type <;> rfl
  | _ => cases hi

theorem reg_bracket (t : Str) : Reader.reg ('[' :: t) = none := by
  unfold Reader.reg
  rw [if_neg]
  simp [Reader.regNames]

theorem piece_bracket (t : Str) : Reader.piece ('[' :: t) = some (.word ('[' :: t)) := by
  have h1 : Reader.shift ('[' :: t) = none := by
    unfold Reader.shift
    rw [Reader.split, if_neg (by decide)]
    split
    · next a b e =>
      have : ∃ h, a = '[' :: h := by
        split at e
        · cases e
        · injection e with e; exact ⟨_, e.symm⟩
      obtain ⟨h, rfl⟩ := this
      have : Reader.shiftNamed ('[' :: h) = none := by simp [Reader.shiftNamed]
      rw [this]
    · rfl
  have h2 : Reader.register ('[' :: t) = none := by
    unfold Reader.register
    rw [reg_bracket]
    show (if _ then _ else _) = _
    split
    · cases t with
      | nil => rfl
      | cons x t => rw [List.dropLast_cons_cons, reg_bracket]; rfl
    · rfl
  show (match Reader.shift ('[' :: t) with
    | some p => some p
    | none => some ((Reader.register ('[' :: t)).getD (.word ('[' :: t)))) = _
  rw [h1, h2]
  rfl

/-- An operand that is not in brackets does not start with one. -/
theorem not_bracket {s : Str} {p : Piece} (h : Reader.piece s = some p) (hp : ∀ t, p ≠ .word ('[' :: t)) : ∀ t, s ≠ '[' :: t := by
  rintro t rfl
  rw [piece_bracket] at h
  injection h with h
  exact hp t h.symm

theorem word_ok {imm : Word} {o : Op1} {p : Piece} (h : o.piece imm = some p) (ho : o.OK) : ∀ t, p ≠ .word ('[' :: t) := by
  have hn : ∀ (v : BitVec 8) (m : Option (BitVec 2)), (specialName v ++ shownBits v m).head? ≠ some '[' := by
    intro v m
    cases m with
    | none => revert v; decide +kernel
    | some m => revert v m; decide +kernel
  rintro t rfl
  cases o with
  | imm v hide =>
    cases hide
    · simp [Op1.piece] at h
    · by_cases hv : v = 0 <;> simp [Op1.piece, hv] at h
  | barrier option =>
    simp only [Op1.piece] at h
    split at h <;> simp at h
  | cps p f => cases p <;> cases f <;> simp [Op1.piece, cpsName] at h
  | special spec mask =>
    simp only [Op1.piece, Option.some.injEq, Piece.word.injEq] at h
    exact hn _ _ (by rw [h]; rfl)
  | _ => simp [Op1.piece] at h

/-- What reading an operand relies on. -/
def Operand.Readable : Operand → Prop
  | .one o => ∀ t k, o = .shift t k → t ≠ .none
  | .mem l => (∃ r w t, l = .reg r w :: t) ∧ l.all Op1.inside = true

theorem formatEach_texts {α : Type} {f : α → PyRes (Shown α)} {P : Str → Prop} :
    ∀ {l : List α} {ss cs : List Str} {os : List α}, formatEach f l = .ok (ss, cs, os) →
    (∀ o ∈ l, ∀ x, f o = .ok x → ∀ s ∈ x.text, P s) → ∀ s ∈ ss, P s
  | [], ss, cs, os, h, _ => by
    simp only [formatEach, Except.ok.injEq, Prod.mk.injEq] at h
    obtain ⟨rfl, rfl, rfl⟩ := h
    intro s hs; cases hs
  | o :: t, ss, cs, os, h, hr => by
    simp only [formatEach, Bind.bind, Except.bind] at h
    cases hx : f o with
    | error => rw [hx] at h; cases h
    | ok x =>
      rw [hx] at h
      cases ht : formatEach f t with
      | error => rw [ht] at h; cases h
      | ok y =>
        obtain ⟨ss', cs', os'⟩ := y
        rw [ht] at h
        simp only [Except.ok.injEq, Prod.mk.injEq] at h
        obtain ⟨rfl, rfl, rfl⟩ := h
        intro s hs
        rcases List.mem_append.1 hs with hs | hs
        · exact hr o List.mem_cons_self x hx s (by simpa using hs)
        · exact formatEach_texts ht (fun o ho => hr o (List.mem_cons_of_mem _ ho)) s hs

theorem operand_reads {i : Instr} {imm : Word} {o : Operand} (h : o.OK) (hs : o.Readable)
    (hi : o.isAttr = true → i.imm32 = some (ofBV imm)) (x : Shown Operand) (hx : o.format i = .ok x) :
    x.text.map Reader.item = (o.item imm).map some ∧
      (o.isBarrier = false → x.comments.map Reader.hex = ((o.item imm).toList.flatMap (Item.noted i.address)).map some) := by
  cases o with
  | one o =>
    simp only [Operand.format, Bind.bind, Except.bind] at hx
    cases hy : o.format i with
    | error => rw [hy] at hx; cases hx
    | ok y =>
      rw [hy] at hx
      simp only [Except.ok.injEq] at hx
      subst hx
      obtain ⟨h1, h2⟩ := op1_reads (imm := imm) h hs hi y hy
      simp only [Operand.item]
      cases hp : o.piece imm with
      | none =>
        rw [hp] at h1 h2
        cases ht : y.text with
        | none => exact ⟨rfl, h2⟩
        | some s => rw [ht] at h1; cases h1
      | some p =>
        rw [hp] at h1 h2
        cases ht : y.text with
        | none => rw [ht] at h1; cases h1
        | some s =>
          rw [ht] at h1
          simp only [Option.map_some, Option.some.injEq] at h1
          refine ⟨?_, ?_⟩
          · simp only [Option.map_some, Reader.item_one h1 (not_bracket h1 (word_ok hp h))]
          · intro hb
            simpa [Item.noted] using h2 hb
  | mem l =>
    obtain ⟨⟨r, w, t, rfl⟩, hin⟩ := hs
    have hok := C64.allOK1_mem.1 h
    simp only [Operand.format, Bind.bind, Except.bind] at hx
    cases hy : formatEach (Op1.format i) (.reg r w :: t) with
    | error => rw [hy] at hx; cases hx
    | ok y =>
      obtain ⟨ss, cs, os⟩ := y
      rw [hy] at hx
      simp only [Except.ok.injEq] at hx
      subst hx
      have hbar : (Op1.reg r w :: t).any Op1.isBarrier = false := by
        rw [List.any_eq_false]
        intro o ho hb
        have := List.all_eq_true.1 hin o ho
        cases o <;> simp_all [Op1.isBarrier, Op1.inside]
      have hat : ∀ o ∈ Op1.reg r w :: t, o.isAttr = true → i.imm32 = some (ofBV imm) := fun o ho ha =>
        hi (List.any_eq_true.2 ⟨o, ho, ha⟩)
      obtain ⟨h1, h2⟩ := each_reads (g := Op1.piece imm) (rd := Reader.piece) (nt := Piece.noted i.address) (bar := Op1.isBarrier) hy
        fun o ho x hx => op1_reads (hok o ho) (fun t k e => by
          subst e
          have := List.all_eq_true.1 hin _ ho
          exact of_decide_eq_true this) (hat o ho) x hx
      have h3 := formatEach_texts (P := fun s => ',' ∉ s ∧ Reader.trim s = s) hy fun o ho x hx =>
        inside_text (hok o ho) (List.all_eq_true.1 hin o ho) x hx
      simp only [Operand.item, Option.map_some]
      cases hss : ss with
      | nil =>
        rw [hss, List.filterMap_cons] at h1
        simp [Op1.piece] at h1
      | cons s ss' =>
        rw [hss] at h1 h3
        refine ⟨?_, fun _ => ?_⟩
        · rw [Reader.item_mem (fun x hx => (h3 x hx).1) (fun x hx => (h3 x hx).2) h1]
        · simpa [Item.noted] using h2 hbar

end Verif
