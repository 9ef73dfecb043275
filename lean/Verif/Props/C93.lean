import Verif.Lemmas.Meaning
import Verif.Props.C65to66

/-!
# C93: what the text of an instruction means

`Thumb.meaning` (`Spec/Meaning.lean`) gives the action that a mnemonic with its operands stands for; it
knows nothing of encodings.
-/

namespace Verif
open BS Thumb Handler

namespace C93

theorem shift_normal (x : Word) (c : Bool) (s : SRType × Nat) :
    C18.armShift x c (plainShift s).1 (plainShift s).2 = C18.armShift x c s.1 s.2 := by
  unfold plainShift
  split
  · next h =>
    obtain ⟨t, k⟩ := s
    rcases h with h | ⟨h1, h2⟩
    · cases h; rfl
    · cases h1
      cases t <;> first | rfl | exact absurd rfl h2
  · rfl

theorem off_normal (c : Core) (o : Off) : o.normal.val c = o.val c := by
  cases o with
  | imm v => rfl
  | reg m s =>
    show (C18.armShift _ _ _ _).1 = (C18.armShift _ _ _ _).1
    rw [shift_normal]

theorem sign_normal (x imm : Word) (add : Bool) :
    (if (add || imm == 0#32) = true then x + imm else x - imm) = if add = true then x + imm else x - imm := by
  cases add with
  | true => rfl
  | false =>
    by_cases h : imm = 0#32
    · subst h; simp
    · rw [Bool.false_or, beq_eq_false_iff_ne.2 h]

/-- **C93.** Actions with the same normal form do the same. -/
theorem normal_run (act : Act) (size : Nat) (c : Core) : act.normal.run size c = act.run size c := by
  cases act with
  | adr add d imm => simp only [Act.normal, Act.run, sign_normal]
  | loadLit sz sgn add t imm => simp only [Act.normal, Act.run, sign_normal]
  | mov neg flags d src carry => cases flags <;> rfl
  | mvnShift flags d m s => simp only [Act.normal, Act.run, shift_normal]
  | tst n m s => simp only [Act.normal, Act.run, shift_normal]
  | load sz sgn t n off => simp only [Act.normal, Act.run, off_normal]
  | store sz t n off => simp only [Act.normal, Act.run, off_normal]
  | _ => rfl

/-- The mnemonic and the operands stand for this action. -/
def Stands (a : Int) (mnem : Str) (l : List Item) (act : Act) : Prop := (meaning a mnem l).map Act.normal = some act.normal

theorem stands_run {a : Int} {mnem : Str} {l : List Item} {act : Act} (h : Stands a mnem l act) :
    ∃ act', meaning a mnem l = some act' ∧ ∀ size c, act'.run size c = act.run size c := by
  unfold Stands at h
  cases hm : meaning a mnem l with
  | none => rw [hm] at h; cases h
  | some act' =>
    rw [hm] at h
    refine ⟨act', rfl, fun size c => ?_⟩
    rw [← normal_run act', ← normal_run act, Option.some.inj h]

/-- **C93.** Whatever way the manual's syntax allows to write an instruction, the text means the action of
the instruction, for every encoding, all field values and addresses. -/
theorem written_means {e : Enc} (he : e ∈ encodings) {w : Nat} (h : e.Is w) {a : Int} {l : List Item}
    (hl : Written e (field e.pat w) a l) : Stands a (e.mnem (field e.pat w)) l (e.act (field e.pat w)) :=
  Mean.encodings_mean e he w a l h hl

/-! ### The words whose text is not the manual's -/

theorem two_inv {mk : Nat → Item → Option Act} {l : List Item} {act : Act} (h : twoOf mk l = some act) :
    ∃ d x, l = [R d, x] ∧ mk d x = some act := by
  unfold twoOf at h
  split at h
  · exact ⟨_, _, rfl, h⟩
  · cases h

theorem source_inv {x : Item} {m : Nat} (h : source x = some (.reg m)) : x = R m := by
  unfold source at h
  split at h
  · cases h; rfl
  · cases h
  · cases h

theorem map_normal {o : Option Act} {act : Act} (h : o.map Act.normal = some act) : ∃ act', o = some act' ∧ act'.normal = act := by
  cases o with
  | none => cases h
  | some act' => exact ⟨act', rfl, Option.some.inj h⟩

theorem cmp_inv {e : Enc} {sub : Bool} {n m : Nat} {f : Char → Nat} (ha : e.act f = .cmp sub n (.reg m))
    (hf : form (e.mnem f) = some (fun _ => cmpOf sub)) {a : Int} {l : List Item} (h : Stands a (e.mnem f) l (e.act f)) :
    Written e f a l := by
  unfold Written
  rw [ha]
  unfold Stands at h
  rw [Mean.meaning_of hf, ha] at h
  obtain ⟨act', h1, h2⟩ := map_normal h
  obtain ⟨d, x, rfl, h3⟩ := two_inv h1
  cases hx : source x with
  | none => rw [hx] at h3; cases h3
  | some src =>
    rw [hx] at h3
    cases h3
    have h2 : Act.cmp sub d src = .cmp sub n (.reg m) := h2
    injection h2 with _ h4 h5
    subst h4 h5
    show _ = [R d, R m]
    rw [source_inv hx]

theorem adr_inv {e : Enc} {add : Bool} {d : Nat} {imm : Word} {f : Char → Nat} (ha : e.act f = .adr add d imm)
    (hf : form (e.mnem f) = some adrOf) {a : Int} {l : List Item} (h : Stands a (e.mnem f) l (e.act f)) : Written e f a l := by
  unfold Written
  rw [ha]
  unfold Stands at h
  rw [Mean.meaning_of hf, ha] at h
  obtain ⟨act', h1, h2⟩ := map_normal h
  unfold adrOf at h1
  split at h1
  · next d' x =>
    simp only at h1
    split at h1
    · next hk =>
      cases h1
      simp only [Act.normal] at h2
      injection h2 with h3 h4 h5
      subst h4
      refine ⟨x, rfl, ?_⟩
      generalize hz : a + x - (a + 4) / 4 * 4 = k at *
      have h6 : imm.toNat = k.natAbs := by
        rw [← h5]
        unfold w32
        rw [BitVec.toNat_ofNat]
        omega
      rw [h5] at h3
      cases add with
      | true =>
        have : 0 ≤ k := by
          by_cases h0 : imm = 0#32
          · rw [h0] at h6
            have : k.natAbs = 0 := h6.symm
            omega
          · rw [beq_eq_false_iff_ne.2 h0, Bool.or_false, Bool.or_false, decide_eq_true_eq] at h3
            exact h3
        simp only [if_true]
        omega
      | false =>
        have : k ≤ 0 := by
          by_cases h0 : imm = 0#32
          · rw [h0] at h6
            have : k.natAbs = 0 := h6.symm
            omega
          · rw [beq_eq_false_iff_ne.2 h0, Bool.or_false, Bool.or_false, decide_eq_false_iff_not] at h3
            omega
        simp only [Bool.false_eq_true, if_false]
        omega
    · cases h1
  · cases h1

theorem msr_inv {f : Char → Nat} {a : Int} {l : List Item} (h : Stands a (Thumb.msr.mnem f) l (Thumb.msr.act f)) :
    Written Thumb.msr f a l := by
  unfold Written
  rw [show Thumb.msr.act f = .msr (f 'n') (BitVec.ofNat 2 (f 'k')) (BitVec.ofNat 8 (f 's')) from rfl] at h ⊢
  unfold Stands at h
  rw [Mean.meaning_of (g := fun _ => msrOf) rfl] at h
  obtain ⟨act', h1, h2⟩ := map_normal h
  unfold msrOf at h1
  split at h1
  · next s n =>
    cases hs : msrNamed s with
    | none => rw [hs] at h1; cases h1
    | some p =>
      rw [hs] at h1
      cases h1
      have h2 : Act.msr n p.1 p.2 = .msr (f 'n') (BitVec.ofNat 2 (f 'k')) (BitVec.ofNat 8 (f 's')) := h2
      injection h2 with h3 h4 h5
      subst h3
      have := List.find?_some hs
      simp only [decide_eq_true_eq] at this
      obtain ⟨-, -, rfl⟩ := this
      rw [h4, h5]
  · cases h1

theorem pats_distinct : (encodings.map (·.pat)).Nodup := by decide +kernel

theorem unique_of_nodup {α β : Type} {g : α → β} : ∀ {l : List α}, (l.map g).Nodup → ∀ {x y}, x ∈ l → y ∈ l → g x = g y → x = y
  | [], _, _, _, h, _, _ => nomatch h
  | z :: t, hn, x, y, hx, hy, hg => by
    rw [List.map_cons, List.nodup_cons] at hn
    rcases List.mem_cons.1 hx with rfl | h1 <;> rcases List.mem_cons.1 hy with rfl | h2
    · rfl
    · exact absurd (hg ▸ List.mem_map_of_mem h2) hn.1
    · exact absurd (hg ▸ List.mem_map_of_mem h1) hn.1
    · exact unique_of_nodup hn.2 h1 h2 hg

theorem pat_unique {e e' : Enc} (h : e ∈ encodings) (h' : e' ∈ encodings) (hp : e.pat = e'.pat) : e = e' :=
  unique_of_nodup pats_distinct h h' hp

theorem misread_inv {e : Enc} {f : Char → Nat} {a : Int} {l : List Item} (hp : e.pat ≠ Thumb.pushW.pat) (he : e ∈ encodings)
    (hm : Misread e f a) (h : Stands a (e.mnem f) l (e.act f)) : Written e f a l := by
  have of_pat : ∀ e' ∈ encodings, e.pat = e'.pat → e = e' := fun e' he' hpat => C93.pat_unique he he' hpat
  rcases hm with k | ⟨k, _⟩ | ⟨k, _⟩ | ⟨k, _⟩ | ⟨k, _⟩ | ⟨k, _⟩ | ⟨k, _⟩ | ⟨k, _⟩
  · exact absurd k hp
  · cases of_pat Thumb.cmpRegT1 (by simp [encodings]) k
    exact cmp_inv rfl rfl h
  · cases of_pat Thumb.cmnReg (by simp [encodings]) k
    exact cmp_inv rfl rfl h
  · cases of_pat Thumb.cmpRegT2 (by simp [encodings]) k
    exact cmp_inv rfl rfl h
  · cases of_pat Thumb.adrT1 (by simp [encodings]) k
    exact adr_inv rfl rfl h
  · cases of_pat Thumb.adrAddW (by simp [encodings]) k
    exact adr_inv rfl rfl h
  · cases of_pat Thumb.adrSubW (by simp [encodings]) k
    exact adr_inv rfl rfl h
  · cases of_pat Thumb.msr (by simp [encodings]) k
    exact msr_inv h

/-- **C93.** The line shown for a valid word can be read, and what its mnemonic and its operands mean at that
address is what the instruction does according to the manual, if and only if the word is not one of `Misread`.
PUSH.W with a list, which is not decoded, is left out. -/
theorem text_means_iff_partial {e : Enc} (he : e ∈ encodings) {w : Nat} (h : e.Is w) (hp : e.pat ≠ Thumb.pushW.pat) {rest : List Nat}
    (hr : ∀ b ∈ rest, b < 256) (a : Int) :
    ∃ i text i' l, (trees.decode (C38.bytesOf e w ++ rest) a).1 = .ok i ∧ i.format = .ok (text, i') ∧ Reader.line text = some l ∧
      (Stands a l.mnemonic l.operands (e.act (field e.pat w)) ↔ ¬ Misread e (field e.pat w) a) := by
  obtain ⟨i, text, i', l, h1, h2, h3, -, h5, h6, -⟩ := C74.line_of he h hp hr a
  refine ⟨i, text, i', l, h1, h2, h3, ?_⟩
  rw [h5]
  constructor
  · intro hs hm
    exact h6.1 (misread_inv hp he hm hs) hm
  · intro hm
    exact written_means he h (h6.2 hm)

/-- What the line says after the columns of the encoding. -/
def says (bytes : List Nat) (a : Int) : Option (Str × List Item) :=
  (trees.decode bytes a).1.toOption.bind fun i => i.format.toOption.bind fun t => (Reader.line t.1).map fun l => (l.mnemonic, l.operands)

/-- **C93.** Two words with the same text at the same address do the same, if neither is one of `Misread`:
the text leaves nothing open. -/
theorem same_text_same_effect_partial {e e' : Enc} (he : e ∈ encodings) (he' : e' ∈ encodings) {w w' : Nat} (h : e.Is w) (h' : e'.Is w') {a : Int}
    (hm : ¬ Misread e (field e.pat w) a) (hm' : ¬ Misread e' (field e'.pat w') a)
    (ht : says (C38.bytesOf e w) a = says (C38.bytesOf e' w') a) :
    ∀ size c, (e.act (field e.pat w)).run size c = (e'.act (field e'.pat w')).run size c := by
  have hb : ∀ b ∈ ([] : List Nat), b < 256 := nofun
  obtain ⟨i, t, j, l, h1, h2, h3, h4⟩ := text_means_iff_partial he h (fun k => hm (.inl k)) hb a
  obtain ⟨i', t', j', l', h1', h2', h3', h4'⟩ := text_means_iff_partial he' h' (fun k => hm' (.inl k)) hb a
  rw [List.append_nil] at h1 h1'
  unfold says at ht
  rw [h1, h1'] at ht
  simp only [Except.toOption, Option.bind_some, h2, h2', h3, h3', Option.map_some] at ht
  injection ht with ht
  injection ht with ht1 ht2
  have s1 := h4.2 hm
  have s2 := h4'.2 hm'
  rw [← ht1, ← ht2] at s2
  intro size c
  unfold Stands at s1 s2
  rw [s1] at s2
  rw [← normal_run (e.act _), ← normal_run (e'.act _), Option.some.inj s2]

/-- The text of ADR.W does not say whether the constant is added or subtracted: the two words have the same
text, and one sets r0 to 0x14, the other to -12. -/
example : says [0x0f, 0xf2, 0x10, 0x00] 0 = some (c! "adr.w", [R 0, .one (.label 20)]) ∧
    says [0xaf, 0xf2, 0x10, 0x00] 0 = some (c! "adr.w", [R 0, .one (.label 20)]) := by
  unfold says
  rw [trees, decoders_eq]
  decide +kernel

/-- `cmp r1, r2` and `cmp r1, r3` have the same text. -/
example : says [0x91, 0x42] 0 = some (c! "cmp", [R 1, R 1]) ∧ says [0x99, 0x42] 0 = some (c! "cmp", [R 1, R 1]) := by
  unfold says
  rw [trees, decoders_eq]
  decide +kernel

/-- `movs.w r0, #0x80000000`, `ldr.w r2, [r1, r3, LSL #2]`, `pop {r0, pc}` and what they mean. -/
example : ((says [0x5f, 0xf0, 0x00, 0x40] 0).bind fun p => meaning 0 p.1 p.2) = some (.mov false true 0 (.imm 0x80000000#32) (some true)) ∧
    ((says [0x51, 0xf8, 0x23, 0x20] 0).bind fun p => meaning 0 p.1 p.2) = some (.load 32 false 2 1 (.reg 3 (.lsl, 2))) ∧
    ((says [0x01, 0xbd] 0).bind fun p => meaning 0 p.1 p.2) = some (.pop 0x8001#16) := by
  unfold says
  rw [trees, decoders_eq]
  decide +kernel

end C93
end Verif
