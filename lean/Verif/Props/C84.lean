import Verif.Props.C40to42
import Verif.Props.C59to62
import Verif.Props.C81
import Verif.Format

/-!
# C84: moving code to another address
-/

namespace Verif
open BS Thumb Exec

namespace C84

/-! ### Decoding and disassembling -/

/-- **C84.** Decoding the same bytes at another address gives the same object, except for
its address, or the same error. -/
theorem decode_relocates (data : List Nat) (a b : Int) :
    (trees.decode data b).1 = (trees.decode data a).1.map fun i => { i with address := b } :=
  trees_at trees data b a

theorem dis_shift (k : Int) : ∀ (n : Nat) (data : List Nat) (a : Int), data.length ≤ n →
    dis data (a + k) = ((dis data a).1.map fun i => { i with address := i.address + k }, (dis data a).2)
  | 0, data, a, h => by
    have : data = [] := List.length_eq_zero_iff.mp (by omega)
    subst this
    rfl
  | n + 1, data, a, h => by
    rw [dis_eq, dis_eq (a := a)]
    by_cases he : data = []
    · rw [if_pos he, if_pos he]; rfl
    rw [if_neg he, if_neg he]
    have hr : decodeAt data (a + k) = (decodeAt data a).map fun i => { i with address := a + k } := decode_relocates data a (a + k)
    rw [hr]
    cases hD : decodeAt data a with
    | error e =>
      cases e <;> simp only [Except.map]
      all_goals first | rfl | (split <;> rfl)
    | ok i =>
      have ha : i.address = a := by
        have := decode_relocates data a a
        have hD' : (trees.decode data a).1 = .ok i := hD
        rw [hD'] at this
        simp only [Except.map, Except.ok.injEq] at this
        rw [this]
      have hs := size_pos i
      have hlen : 0 < data.length := by
        cases data with
        | nil => exact absurd rfl he
        | cons => simp
      have ih := dis_shift k n (data.drop i.size) (a + i.size) (by rw [List.length_drop]; omega)
      simp only [Except.map]
      have e1 : a + k + (i.size : Int) = a + i.size + k := by omega
      show (dis (data.drop i.size) (a + k + i.size)).cons _ = _
      rw [e1, ih]
      simp only [Yields.cons, List.map_cons, ha]

/-- **C84.** Disassembling the same bytes from another address gives the same instructions
with their addresses moved by the difference, and stops in the same way. -/
theorem disasm_relocates (data : List Nat) (a k : Int) :
    disasm trees data (a + k) =
      ((disasm trees data a).1.map fun i => { i with address := i.address + k }, (disasm trees data a).2) := by
  rw [disasm_dis trees C40.trees_self, disasm_dis trees C40.trees_self]
  exact dis_shift k data.length data a (Nat.le_refl _)

/-! ### Executing -/

theorem withImm_moved (i : Instr) (b : Int) (v : BS) : withImm { i with address := b } v = { withImm i v with address := b } := by
  cases h : i.imm32 <;> simp only [withImm, h]

theorem leaves_moved (act : Act) (i : Instr) (b : Int) (ar : Arm) :
    act.leaves ar { i with address := b } = { act.leaves ar i with address := b } := by
  cases act with
  | addSub => exact withImm_moved ..
  | rsb => exact withImm_moved ..
  | cmp => exact withImm_moved ..
  | mov neg flags d src =>
    cases src with
    | reg m => simp only [Act.leaves, movedInstr]; split <;> rfl
    | imm v =>
      simp only [Act.leaves, movedInstr]
      split
      · exact withImm_moved ..
      · rfl
  | _ => rfl

/-- **C84.** Executing a decoded instruction does not depend on the address it was decoded
at: the branches and literal loads use the PC of the machine. -/
theorem execute_relocates (data : List Nat) (hd : ∀ x ∈ data, x < 256) (a b : Int) (i j : Instr)
    (hi : (trees.decode data a).1 = .ok i) (hj : (trees.decode data b).1 = .ok j) (s : Machine) (c : Core) (hs : Shows s c) :
    j.eval s = ((i.eval s).1.map fun k => { k with address := b }, (i.eval s).2) := by
  obtain ⟨ar, rfl, -, -⟩ := hs.arm
  obtain ⟨act, hO, hv⟩ := C31.decoded_act ⟨data, a, hd, hi⟩
  have hji : j = { i with address := b } := by
    have := decode_relocates data a b
    rw [hi, hj] at this
    simpa [Except.map] using this
  have hO' : act.Of j := by
    rw [hji]
    cases act <;> exact hO
  have hsz : j.size = i.size := by rw [hji]; rfl
  rw [eval_exact hO hv, eval_exact hO' hv, hsz, hji, leaves_moved]
  cases act.effect i.size ar with
  | mk r ar' => cases r <;> rfl

/-! ### The text -/

/-- The operand is a label. -/
def IsLabel : Op1 → Prop
  | .label _ => True
  | _ => False

/-- The operand is a label or has one in it. -/
def HasLabel : Operand → Prop
  | .one o => IsLabel o
  | .mem l => ∃ o ∈ l, IsLabel o

theorem op1_same (i : Instr) (b : Int) (o : Op1) (h : ¬ IsLabel o) : o.format { i with address := b } = o.format i := by
  cases o <;> first | rfl | exact absurd trivial h

theorem formatEach_congr {α : Type} {f g : α → PyRes (Shown α)} : ∀ {l : List α}, (∀ o ∈ l, f o = g o) → formatEach f l = formatEach g l
  | [], _ => rfl
  | o :: t, h => by
    rw [formatEach, formatEach, h o (List.mem_cons_self ..), formatEach_congr fun x hx => h x (List.mem_cons_of_mem _ hx)]

theorem operand_same (i : Instr) (b : Int) (o : Operand) (h : ¬ HasLabel o) : o.format { i with address := b } = o.format i := by
  cases o with
  | one o => rw [Operand.format, Operand.format, op1_same i b o h]
  | mem l =>
    rw [Operand.format, Operand.format, formatEach_congr fun o ho => op1_same i b o fun hl => h ⟨o, ho, hl⟩]

/-- The texts, comments and operands of a list of operands. -/
abbrev Lines (α : Type) := PyRes (List Str × List Str × List α)

/-- Only the comments differ, and there are comments in both or in none. -/
def OnlyComments {α : Type} (x y : PyRes (Shown α)) : Prop :=
  (∃ e, x = .error e ∧ y = .error e) ∨
    ∃ t cs cs' o, x = .ok ⟨t, cs, o⟩ ∧ y = .ok ⟨t, cs', o⟩ ∧ (cs = [] ↔ cs' = [])

/-- The same for a list of operands. -/
def OnlyNotes {α : Type} (x y : Lines α) : Prop :=
  (∃ e, x = .error e ∧ y = .error e) ∨
    ∃ t cs cs' o, x = .ok (t, cs, o) ∧ y = .ok (t, cs', o) ∧ (cs = [] ↔ cs' = [])

theorem OnlyComments.refl {α : Type} (x : PyRes (Shown α)) : OnlyComments x x := by
  cases x with
  | error e => exact .inl ⟨e, rfl, rfl⟩
  | ok v => exact .inr ⟨v.text, v.comments, v.comments, v.after, rfl, rfl, Iff.rfl⟩

theorem each_notes {α : Type} {f g : α → PyRes (Shown α)} (h : ∀ o, OnlyComments (f o) (g o)) :
    ∀ l : List α, OnlyNotes (formatEach f l) (formatEach g l)
  | [] => .inr ⟨[], [], [], [], rfl, rfl, Iff.rfl⟩
  | o :: t => by
    rw [formatEach, formatEach]
    rcases h o with ⟨e, h1, h2⟩ | ⟨s, cs, cs', o', h1, h2, h3⟩
    · rw [h1, h2]; exact .inl ⟨e, rfl, rfl⟩
    · rw [h1, h2]
      rcases each_notes h t with ⟨e, h4, h5⟩ | ⟨s', ds, ds', os, h4, h5, h6⟩
      · rw [h4, h5]; exact .inl ⟨e, rfl, rfl⟩
      · rw [h4, h5]
        exact .inr ⟨s.toList ++ s', cs ++ ds, cs' ++ ds', o' :: os, rfl, rfl, by simp [h3, h6]⟩

theorem op1_notes (i : Instr) (b : Int) (o : Op1) : OnlyComments (o.format i) (o.format { i with address := b }) := by
  cases o <;> first | exact .refl _ | skip
  next off => exact .inr ⟨_, _, _, _, rfl, rfl, by simp [labelText]⟩

theorem operand_notes (i : Instr) (b : Int) (o : Operand) : OnlyComments (o.format i) (o.format { i with address := b }) := by
  cases o with
  | one o =>
    rw [Operand.format, Operand.format]
    rcases op1_notes i b o with ⟨e, h1, h2⟩ | ⟨s, cs, cs', o', h1, h2, h3⟩ <;> rw [h1, h2]
    · exact .inl ⟨e, rfl, rfl⟩
    · exact .inr ⟨s, cs, cs', .one o', rfl, rfl, h3⟩
  | mem l =>
    rw [Operand.format, Operand.format]
    rcases each_notes (op1_notes i b) l with ⟨e, h1, h2⟩ | ⟨s, cs, cs', o', h1, h2, h3⟩ <;> rw [h1, h2]
    · exact .inl ⟨e, rfl, rfl⟩
    · exact .inr ⟨_, cs, cs', .mem o', rfl, rfl, h3⟩

/-- The rest of `format` after the operands. -/
def line (i : Instr) (bs : Str) (ss cs : List Str) (os : List Operand) : PyRes (Str × Instr) :=
  let result := padRight 12 bs ++ c! " " ++ padRight 8 i.mnemonic ++ joinWith (c! ", ") ss
  let i' := { i with operands := os, mask := (os.findSome? Operand.mask?).or i.mask }
  if cs = [] then .ok (result, i')
  else .ok (padRight 36 result ++ c! " ; " ++ joinWith (c! " ") cs, i')

theorem format_line (i : Instr) : i.format = (do
    let bs ← byteString i.bytes
    let (ss, cs, os) ← formatEach (Operand.format i) i.operands
    line i bs ss cs os) := rfl

/-- **C84.** The text of an instruction without labels does not depend on its address. -/
theorem text_relocates (i : Instr) (b : Int) (h : ∀ o ∈ i.operands, ¬ HasLabel o) :
    (Instr.format { i with address := b }).map Prod.fst = i.format.map Prod.fst := by
  have hf : formatEach (Operand.format { i with address := b }) i.operands = formatEach (Operand.format i) i.operands :=
    formatEach_congr fun o ho => operand_same i b o (h o ho)
  rw [format_line, format_line]
  show (byteString i.bytes >>= fun bs => formatEach (Operand.format { i with address := b }) i.operands >>= fun _ => _).map Prod.fst = _
  rw [hf]
  cases byteString i.bytes with
  | error e => rfl
  | ok bs =>
    cases formatEach (Operand.format i) i.operands with
    | error e => rfl
    | ok p =>
      obtain ⟨ss, cs, os⟩ := p
      show (line { i with address := b } bs ss cs os).map Prod.fst = (line i bs ss cs os).map Prod.fst
      unfold line
      by_cases hc : cs = []
      · simp only [if_pos hc]; rfl
      · simp only [if_neg hc]; rfl

/-- **C84.** In general the texts at two addresses are equal up to the comment: both raise
the same error, both are the same text without comment, or both begin with the same text,
followed by ` ; ` and comments. -/
theorem text_up_to_comment (i : Instr) (b : Int) :
    (∃ e, i.format = .error e ∧ Instr.format { i with address := b } = .error e) ∨
    ∃ s s' j j', i.format = .ok (s, j) ∧ Instr.format { i with address := b } = .ok (s', j') ∧
      (s = s' ∨ ∃ main note note', 36 ≤ main.length ∧ s = main ++ c! " ; " ++ note ∧ s' = main ++ c! " ; " ++ note') := by
  rw [format_line, format_line]
  show (∃ e, _ ∧ (byteString i.bytes >>= fun bs => formatEach (Operand.format { i with address := b }) i.operands >>= fun _ => _) = _) ∨
    ∃ s s' j j', _ ∧ (byteString i.bytes >>= fun bs => formatEach (Operand.format { i with address := b }) i.operands >>= fun _ => _) = _ ∧ _
  cases byteString i.bytes with
  | error e => exact .inl ⟨e, rfl, rfl⟩
  | ok bs =>
    rcases each_notes (operand_notes i b) i.operands with ⟨e, h1, h2⟩ | ⟨ss, cs, cs', os, h1, h2, h3⟩ <;> rw [h1, h2]
    · exact .inl ⟨e, rfl, rfl⟩
    · refine .inr ?_
      show ∃ s s' j j', line i bs ss cs os = _ ∧ line { i with address := b } bs ss cs' os = _ ∧ _
      unfold line
      by_cases hc : cs = []
      · simp only [if_pos hc, if_pos (h3.mp hc)]
        exact ⟨_, _, _, _, rfl, rfl, .inl rfl⟩
      · simp only [if_neg hc, if_neg fun h => hc (h3.mpr h)]
        exact ⟨_, _, _, _, rfl, rfl, .inr ⟨_, _, _, by simp [padRight]; omega, rfl, rfl⟩⟩

/-- `b.n` to the next but one instruction at 0 and at 0x100: only the comment differs. -/
example : ((trees.decode [0x00, 0xe0] 0).1.bind fun i => i.format.map Prod.fst) = .ok (c! "e000         b       .+4             ; 0x4") ∧
    ((trees.decode [0x00, 0xe0] 0x100).1.bind fun i => i.format.map Prod.fst) = .ok (c! "e000         b       .+4             ; 0x104") := by
  rw [trees, decoders_eq]; decide +kernel

end C84
end Verif
