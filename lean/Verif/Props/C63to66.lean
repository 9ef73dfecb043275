import Verif.Lemmas.Text
import Verif.Lemmas.Operands
import Verif.Props.C40to42
import Verif.Props.C11to15

/-!
# C63 to C66 and C74: the text of instructions
-/

namespace Verif
open BS Thumb

namespace C63

/-- A register or a range, with the names of the manual. -/
def segText (s : Nat × Nat) : Str :=
  if s.1 = s.2 then (Reader.regNames[s.1]?).getD []
  else (Reader.regNames[s.1]?).getD [] ++ c! "-" ++ (Reader.regNames[s.2]?).getD []

theorem name_eq {k : Nat} (h : k < 16) : coreRegisterName (k : Int) = .ok ((Reader.regNames[k]?).getD []) := by
  revert k; decide

/-- The segment that is open when the loop is at `n`. -/
def close (n : Nat) : Option Nat → List (Nat × Nat)
  | none => []
  | some s => [(s, n - 1)]

/-- The segments that remain to be written. -/
def segs : List Nat → Nat → Option Nat → List (Nat × Nat)
  | [], n, o => close n o
  | b :: t, n, o => if b ≠ 0 then segs t (n + 1) (some (o.getD n)) else close n o ++ segs t (n + 1) none

/-- `startRange` while the loop is at `n`. -/
def startOf : Option Nat → Int
  | none => -1
  | some s => s

/-- `endRange` while the loop is at `n`. -/
def stopOf (n : Nat) : Option Nat → Int
  | none => -1
  | some _ => (n : Int) - 1

theorem add_eq {n : Nat} (hn : n ≤ 16) {o : Option Nat} (ho : ∀ s, o = some s → s < n) (regs : List Str) {start stop : Int}
    (h1 : start = startOf o) (h2 : stop = stopOf n o) :
    addRegRange start stop regs = .ok (regs ++ (close n o).map segText) := by
  cases o with
  | none => subst h1; simp [addRegRange, close, startOf]
  | some s =>
    simp only [startOf, stopOf] at h1 h2
    have hs := ho s rfl
    have e2 : stop = ((n - 1 : Nat) : Int) := by omega
    unfold addRegRange
    rw [if_pos (by omega), h1, e2, name_eq (show s < 16 by omega), name_eq (show n - 1 < 16 by omega)]
    by_cases he : s = n - 1
    · rw [if_pos (by omega)]
      simp [close, segText, he, Bind.bind, Except.bind]
    · rw [if_neg (by omega)]
      simp [close, segText, he, Bind.bind, Except.bind]

theorem loop_eq : ∀ (bits : List Nat) (n : Nat) (o : Option Nat), n + bits.length ≤ 16 → (∀ s, o = some s → s < n) →
    ∀ (regs : List Str) (start stop : Int), start = startOf o → stop = stopOf n o →
    reglistLoop bits n start stop regs = .ok (regs ++ (segs bits n o).map segText)
  | [], n, o, hn, ho, regs, start, stop, h1, h2 => by
    simp only [List.length_nil] at hn
    exact add_eq (by omega) ho regs h1 h2
  | b :: t, n, o, hn, ho, regs, start, stop, h1, h2 => by
    simp only [List.length_cons] at hn
    unfold reglistLoop segs
    by_cases hb : b ≠ 0
    · rw [if_pos hb, if_pos hb]
      refine loop_eq t (n + 1) _ (by omega) ?_ regs _ _ ?_ ?_
      · intro s hs
        cases o with
        | none => simp at hs; omega
        | some x => simp at hs; have := ho x rfl; omega
      · cases o with
        | none => simp [startOf] at h1; simp [h1, startOf]
        | some x =>
          simp only [startOf] at h1
          simp only [h1, startOf, Option.getD_some]
          rw [if_neg (by omega)]
      · simp [stopOf]
    · rw [if_neg hb, if_neg hb, add_eq (by omega) ho regs h1 h2]
      show reglistLoop t (n + 1) (-1) (-1) _ = _
      rw [loop_eq t (n + 1) none (by omega) (by simp) _ (-1) (-1) rfl rfl, List.map_append, List.append_assoc]

/-- Being one of the registers of the segments. -/
def Has (l : List (Nat × Nat)) (r : Nat) : Prop := ∃ s ∈ l, s.1 ≤ r ∧ r ≤ s.2

theorem segs_spec : ∀ (bits : List Nat) (n : Nat) (o : Option Nat), (∀ s, o = some s → s < n) →
    (segs bits n o).Pairwise (fun a b => a.2 + 1 < b.1) ∧
    (∀ s ∈ segs bits n o, s.1 ≤ s.2 ∧ s.2 < n + bits.length ∧ (∀ x, o = some x → x ≤ s.1) ∧ (o = none → n ≤ s.1)) ∧
    (∀ r, Has (segs bits n o) r ↔ (∃ s, o = some s ∧ s ≤ r ∧ r < n) ∨ (n ≤ r ∧ ∃ b, bits[r - n]? = some b ∧ b ≠ 0))
  | [], n, o, ho => by
    cases o with
    | none => simp [segs, close, Has]
    | some s =>
      have := ho s rfl
      simp [segs, close, Has]
      exact ⟨by omega, fun r => by omega⟩
  | b :: t, n, o, ho => by
    unfold segs
    by_cases hb : b ≠ 0
    · rw [if_pos hb]
      have hlt : o.getD n < n + 1 := by
        cases o with
        | none => simp
        | some x => have := ho x rfl; simp; omega
      obtain ⟨h1, h2, h3⟩ := segs_spec t (n + 1) (some (o.getD n)) (fun s hs => by injection hs with hs; omega)
      refine ⟨h1, ?_, ?_⟩
      · intro s hs
        obtain ⟨k1, k2, k3, -⟩ := h2 s hs
        have k3 := k3 _ rfl
        refine ⟨k1, by simp only [List.length_cons]; omega, ?_, ?_⟩
        · rintro x rfl; simpa using k3
        · rintro rfl; simpa using k3
      · intro r
        rw [h3 r]
        constructor
        · rintro (⟨s, hs, hl, hr⟩ | ⟨hl, y, hy, hy0⟩)
          · injection hs with hs
            subst hs
            cases o with
            | none => right; simp at hl; exact ⟨hl, b, by rw [show r - n = 0 by omega]; rfl, hb⟩
            | some x =>
              simp at hl
              by_cases hrn : r < n
              · exact .inl ⟨x, rfl, hl, hrn⟩
              · right; exact ⟨by omega, b, by rw [show r - n = 0 by omega]; rfl, hb⟩
          · right
            refine ⟨by omega, y, ?_, hy0⟩
            rw [show r - n = (r - (n + 1)) + 1 by omega]
            exact hy
        · rintro (⟨s, rfl, hl, hr⟩ | ⟨hl, y, hy, hy0⟩)
          · exact .inl ⟨s, rfl, hl, by omega⟩
          · by_cases hrn : r = n
            · left
              refine ⟨_, rfl, ?_, by omega⟩
              cases o with
              | none => simp; omega
              | some x => have := ho x rfl; simp; omega
            · right
              refine ⟨by omega, y, ?_, hy0⟩
              rw [show r - n = (r - (n + 1)) + 1 by omega] at hy
              exact hy
    · rw [if_neg hb]
      obtain ⟨h1, h2, h3⟩ := segs_spec t (n + 1) none (by simp)
      have hc : ∀ s ∈ close n o, ∃ x, o = some x ∧ s = (x, n - 1) := by
        intro s hs
        cases o with
        | none => cases hs
        | some x => exact ⟨x, rfl, List.mem_singleton.1 hs⟩
      refine ⟨?_, ?_, ?_⟩
      · rw [List.pairwise_append]
        refine ⟨?_, h1, ?_⟩
        · cases o with
          | none => exact List.Pairwise.nil
          | some x => exact List.pairwise_singleton _ _
        · intro a ha c hc'
          obtain ⟨x, hx, rfl⟩ := hc a ha
          have := (h2 c hc').2.2.2 rfl
          have := ho x hx
          simp only
          omega
      · intro s hs
        rcases List.mem_append.1 hs with hs | hs
        · obtain ⟨x, rfl, rfl⟩ := hc s hs
          have := ho x rfl
          refine ⟨by simp only; omega, by simp only [List.length_cons]; omega, ?_, by simp⟩
          intro y hy; injection hy with hy; simp only; omega
        · obtain ⟨k1, k2, -, k3⟩ := h2 s hs
          have k3 := k3 rfl
          refine ⟨k1, by simp only [List.length_cons]; omega, ?_, fun _ => by omega⟩
          intro x hx
          have := ho x hx
          omega
      · intro r
        constructor
        · rintro ⟨s, hs, hl, hr⟩
          rcases List.mem_append.1 hs with hs | hs
          · obtain ⟨x, rfl, rfl⟩ := hc s hs
            have := ho x rfl
            simp only at hl hr
            exact .inl ⟨x, rfl, hl, by omega⟩
          · right
            rcases (h3 r).1 ⟨s, hs, hl, hr⟩ with ⟨_, h, _⟩ | ⟨hl, y, hy, hy0⟩
            · cases h
            · refine ⟨by omega, y, ?_, hy0⟩
              rw [show r - n = (r - (n + 1)) + 1 by omega]
              exact hy
        · rintro (⟨x, rfl, hl, hr⟩ | ⟨hl, y, hy, hy0⟩)
          · exact ⟨(x, n - 1), List.mem_append_left _ (List.mem_singleton.2 rfl), hl, by simp only; omega⟩
          · have hrn : r ≠ n := by
              rintro rfl
              rw [Nat.sub_self] at hy
              simp at hy
              subst hy
              exact hb hy0
            rw [show r - n = (r - (n + 1)) + 1 by omega] at hy
            obtain ⟨s, hs, h⟩ := (h3 r).2 (.inr ⟨by omega, y, hy, hy0⟩)
            exact ⟨s, List.mem_append_right _ hs, h⟩

/-- **C63.** For every register list: the text is, in braces and separated by commas, the
registers and ranges of the list, in ascending order and with at least one register that is
not in the list between any two of them, so that ranges are as long as possible; and a
register is in one of them exactly if it is in the list. -/
theorem ranges (l : BitVec 16) : ∃ segments : List (Nat × Nat),
    reglistText (ofBV l) = .ok (c! "{" ++ joinWith (c! ",") (segments.map segText) ++ c! "}") ∧
    segments.Pairwise (fun a b => a.2 + 1 < b.1) ∧ (∀ s ∈ segments, s.1 ≤ s.2 ∧ s.2 < 16) ∧
    ∀ r, (∃ s ∈ segments, s.1 ≤ r ∧ r ≤ s.2) ↔ l.getLsbD r = true := by
  have hlen : (ofBV l).iter.length = 16 := by simp [iter, ofBV]
  obtain ⟨h1, h2, h3⟩ := segs_spec (ofBV l).iter 0 none (by simp)
  refine ⟨segs (ofBV l).iter 0 none, ?_, h1, ?_, ?_⟩
  · unfold reglistText
    rw [loop_eq (ofBV l).iter 0 none (by omega) (by simp) [] (-1) (-1) rfl rfl]
    rfl
  · intro s hs
    obtain ⟨k1, k2, -⟩ := h2 s hs
    exact ⟨k1, by omega⟩
  · intro r
    refine (h3 r).trans ?_
    simp only [reduceCtorEq, false_and, exists_false, false_or, Nat.zero_le, true_and, Nat.sub_zero]
    have hi : ∀ b, (ofBV l).iter[r]? = some b ↔ r < 16 ∧ (l.getLsbD r).toNat = b := by
      intro b
      obtain ⟨k1, k2⟩ := C12.iter_bits (ofBV l)
      have hv : (if (ofBV l).value.testBit r then 1 else 0 : Nat) = (l.getLsbD r).toNat := by
        show (if l.toNat.testBit r then 1 else 0 : Nat) = _
        rw [← BitVec.getLsbD]
        cases l.getLsbD r <;> rfl
      rw [List.getElem?_eq_some_iff]
      constructor
      · rintro ⟨h, rfl⟩
        exact ⟨by omega, by rw [k2, hv]⟩
      · rintro ⟨h, rfl⟩
        exact ⟨by omega, by rw [k2, hv]⟩
    constructor
    · rintro ⟨b, hb, h0⟩
      obtain ⟨-, h⟩ := (hi b).1 hb
      cases hl : l.getLsbD r
      · rw [hl] at h; exact absurd h.symm h0
      · rfl
    · intro h
      exact ⟨1, (hi 1).2 ⟨BitVec.lt_of_getLsbD h, by rw [h]; rfl⟩, by decide⟩

/-- The registers from the first to the last of a segment. -/
def regsOf (s : Nat × Nat) : List Nat := List.range' s.1 (s.2 + 1 - s.1)

theorem read_seg : ∀ a < 16, ∀ b < 16, a ≤ b → Reader.range (segText (a, b)) = some (regsOf (a, b)) ∧
    (segText (a, b)).contains ',' = false := by
  decide +kernel

theorem read_segs : ∀ (l : List (Nat × Nat)), (∀ s ∈ l, s.1 ≤ s.2 ∧ s.2 < 16) → Reader.ranges (l.map segText) = some (l.flatMap regsOf)
  | [], _ => rfl
  | (a, b) :: t, h => by
    have hs := h _ List.mem_cons_self
    simp only at hs
    simp only [List.map_cons, Reader.ranges, (read_seg a (by omega) b hs.2 hs.1).1,
      read_segs t fun x hx => h x (List.mem_cons_of_mem _ hx), List.flatMap_cons]

theorem sorted_flatMap : ∀ (l : List (Nat × Nat)), l.Pairwise (fun a b => a.2 + 1 < b.1) → (l.flatMap regsOf).Pairwise (· < ·)
  | [], _ => List.Pairwise.nil
  | s :: t, h => by
    rw [List.pairwise_cons] at h
    rw [List.flatMap_cons, List.pairwise_append]
    refine ⟨List.pairwise_lt_range', sorted_flatMap t h.2, ?_⟩
    intro x hx y hy
    obtain ⟨q, hq, hy⟩ := List.mem_flatMap.1 hy
    have := h.1 q hq
    simp only [regsOf, List.mem_range'_1] at hx hy
    omega

/-- **C63.** The text of every register list reads back as the registers in the list, in
ascending order. So different lists have different texts. -/
theorem reads_back (l : BitVec 16) : ∃ text, reglistText (ofBV l) = .ok text ∧
    Reader.reglist text = some ((List.range 16).filter fun r => l.getLsbD r) := by
  obtain ⟨segments, h1, h2, h3, h4⟩ := ranges l
  refine ⟨_, h1, ?_⟩
  have hr : segments.flatMap regsOf = (List.range 16).filter fun r => l.getLsbD r := by
    have p1 := sorted_flatMap segments h2
    have p2 : ((List.range 16).filter fun r => l.getLsbD r).Pairwise (· < ·) := List.Pairwise.filter _ List.pairwise_lt_range
    refine List.Perm.eq_of_pairwise (le := (· < ·)) (fun a b _ _ hab hba => absurd hab (Nat.not_lt.2 (Nat.le_of_lt hba))) p1 p2 ?_
    refine (List.perm_ext_iff_of_nodup (p1.imp fun h => Nat.ne_of_lt h) (p2.imp fun h => Nat.ne_of_lt h)).2 fun r => ?_
    rw [List.mem_flatMap, List.mem_filter, List.mem_range, ← h4 r]
    constructor
    · rintro ⟨s, hs, hr⟩
      have := h3 s hs
      simp only [regsOf, List.mem_range'_1] at hr
      exact ⟨by omega, s, hs, by omega, by omega⟩
    · rintro ⟨-, s, hs, a, b⟩
      have := h3 s hs
      exact ⟨s, hs, by simp only [regsOf, List.mem_range'_1]; omega⟩
  show (if ((joinWith (c! ",") (segments.map segText)) ++ ['}']).getLast? = some '}' then
      if ((joinWith (c! ",") (segments.map segText)) ++ ['}']).dropLast = [] then some []
      else Reader.ranges (Reader.split ',' ((joinWith (c! ",") (segments.map segText)) ++ ['}']).dropLast)
    else none) = _
  rw [List.getLast?_append, List.dropLast_concat, if_pos (by simp), ← hr]
  cases segments with
  | nil => rfl
  | cons s t =>
    have hc : ∀ x ∈ (s :: t).map segText, ',' ∉ x := by
      intro x hx
      obtain ⟨y, hy, rfl⟩ := List.mem_map.1 hx
      have := h3 y hy
      intro hm
      have := (read_seg y.1 (by omega) y.2 this.2 this.1).2
      rw [List.contains_iff_mem.2 hm] at this
      cases this
    have hsp := Reader.split_join (c := ',') (l := (s :: t).map segText) (by simp) hc
    have hread := read_segs (s :: t) h3
    split
    · next h0 =>
      have h0 : joinWith [','] ((s :: t).map segText) = [] := h0
      rw [h0] at hsp
      rw [← hsp] at hread
      cases hread
    · rw [← hread]
      exact congrArg _ hsp

/-- **C63.** Two register lists with the same text are equal. -/
theorem injective (l m : BitVec 16) (h : reglistText (ofBV l) = reglistText (ofBV m)) : l = m := by
  obtain ⟨t, h1, h2⟩ := reads_back l
  obtain ⟨t', h3, h4⟩ := reads_back m
  rw [h1, h3] at h
  injection h with h
  subst h
  rw [h2] at h4
  injection h4 with h4
  apply BitVec.eq_of_getLsbD_eq
  intro r hr
  have : r ∈ (List.range 16).filter (fun r => l.getLsbD r) ↔ r ∈ (List.range 16).filter (fun r => m.getLsbD r) := by rw [h4]
  simp only [List.mem_filter, List.mem_range, hr, true_and] at this
  cases hl : l.getLsbD r <;> cases hm : m.getLsbD r <;> simp_all

/-- `push {r0, r4-r7, lr}`. -/
example : reglistText (ofBV 0x40f1#16) = .ok (c! "{r0,r4-r7,lr}") := by decide

/-- The range may go on through `sp`, `lr` and `pc`. -/
example : reglistText (ofBV 0xf000#16) = .ok (c! "{r12-pc}") := by decide

end C63

namespace C64

/-- The halfwords, low bytes first. -/
def halfwords : List Nat → List Nat
  | a :: b :: t => (a + 256 * b) :: halfwords t
  | _ => []

theorem special_table : ∀ (v : BitVec 8) (m : Option (BitVec 2)),
    ∃ x, specialText (ofBV v) (m.map ofBV) = .ok x ∧ (x.2 = none ∨ ∃ k : BitVec 2, x.2 = some (ofBV k)) ∧
      specialText (ofBV v) x.2 = .ok x := by
  have h : ∀ (v : BitVec 8) (m : Option (BitVec 2)), (match specialText (ofBV v) (m.map ofBV) with
      | .ok x => (x.2 == none || [0#2, 1#2, 2#2, 3#2].any fun k => x.2 == some (ofBV k)) && decide (specialText (ofBV v) x.2 = .ok x)
      | .error _ => false) = true := by
    intro v m
    cases m with
    | none => revert v; decide +kernel
    | some m => revert v m; decide +kernel
  intro v m
  have h := h v m
  split at h
  · next x hx =>
    rw [Bool.and_eq_true, decide_eq_true_eq, Bool.or_eq_true] at h
    refine ⟨x, hx, ?_, h.2⟩
    rcases h.1 with h | h
    · exact .inl (by simpa using h)
    · obtain ⟨k, -, h⟩ := List.any_eq_true.1 h
      exact .inr ⟨k, by simpa using h⟩
  · cases h

theorem gt9 (b : BS) : b.gtOp (.int 9) = .ok (decide (9 < b.value), b) := by
  have h0 : ¬ (9 : Int) < 0 := by decide
  simp only [gtOp, leOp, eqOp, ltOp, if_neg h0, Bind.bind, Except.bind, truthy]
  by_cases h : b.value = 9
  · simp [h]
  · have h' : ¬ (b.value : Int) = 9 := by omega
    by_cases h2 : b.value < 9
    · have h3 : (b.value : Int) < 9 := by omega
      have h4 : ¬ 9 < b.value := by omega
      simp [h', h3, h4]
    · have h3 : ¬ (b.value : Int) < 9 := by omega
      have h4 : 9 < b.value := by omega
      simp [h', h3, h4]

theorem op1_ok {i : Instr} {o : Op1} (h : o.OK) (hi : o.isAttr = true → ∃ v : Word, i.imm32 = some (ofBV v)) :
    ∃ x, o.format i = .ok x ∧ x.after.OK ∧ (x.after.isAttr = true → o.isAttr = true) ∧ x.after.format i = .ok x := by
  cases o with
  | reg r wback =>
    have : coreRegisterName (r : Int) = .ok ((Reader.regNames[r]?).getD []) := C63.name_eq h
    refine ⟨⟨some (((Reader.regNames[r]?).getD []) ++ (if wback then c! "!" else [])), [], .reg r wback⟩, ?_, h, id, ?_⟩ <;>
      simp [Op1.format, regText, this, Bind.bind, Except.bind]
  | reglist l =>
    obtain ⟨v, rfl⟩ := h
    obtain ⟨t, ht, -⟩ := C63.reads_back v
    refine ⟨⟨some t, [], .reglist (ofBV v)⟩, ?_, ⟨v, rfl⟩, id, ?_⟩ <;> simp [Op1.format, ht, Bind.bind, Except.bind]
  | imm v hide => exact ⟨_, rfl, trivial, id, rfl⟩
  | immAttr =>
    obtain ⟨v, hv⟩ := hi rfl
    have hb := gt9 (ofBV v)
    refine ⟨⟨some (c! "#" ++ intText 10 (ofBV v).value), if 9 < (ofBV v).value then [c! "0x" ++ intText 16 (ofBV v).value] else [], .immAttr⟩, ?_, trivial, id, ?_⟩ <;>
      simp only [Op1.format, attr, hv, immBitsText, hb, Bind.bind, Except.bind, decide_eq_true_eq]
  | label offset => exact ⟨_, rfl, trivial, id, rfl⟩
  | shift type amount => exact ⟨_, rfl, trivial, id, rfl⟩
  | barrier option => exact ⟨_, rfl, trivial, id, rfl⟩
  | cps pri fault => exact ⟨_, rfl, trivial, id, rfl⟩
  | special spec mask =>
    obtain ⟨⟨v, rfl⟩, hm⟩ := h
    have hm' : ∃ m : Option (BitVec 2), mask = m.map ofBV := by
      rcases hm with rfl | ⟨k, rfl⟩
      · exact ⟨none, rfl⟩
      · exact ⟨some k, rfl⟩
    obtain ⟨m, rfl⟩ := hm'
    obtain ⟨x, h1, h2, h3⟩ := special_table v m
    refine ⟨⟨some x.1, [], .special (ofBV v) x.2⟩, ?_, ⟨⟨v, rfl⟩, h2⟩, id, ?_⟩
    · simp [Op1.format, h1, Bind.bind, Except.bind]
    · simp [Op1.format, h3, Bind.bind, Except.bind]

theorem each_ok {α : Type} {f : α → PyRes (Shown α)} {P : α → Prop} : ∀ {l : List α},
    (∀ o ∈ l, ∃ x, f o = .ok x ∧ P x.after ∧ f x.after = .ok x) →
    ∃ r, formatEach f l = .ok r ∧ (∀ o ∈ r.2.2, P o) ∧ formatEach f r.2.2 = .ok r
  | [], _ => ⟨([], [], []), rfl, by simp, rfl⟩
  | o :: t, h => by
    obtain ⟨x, h1, hp, h2⟩ := h o List.mem_cons_self
    obtain ⟨r, h3, hq, h4⟩ := each_ok (P := P) fun y hy => h y (List.mem_cons_of_mem _ hy)
    refine ⟨(x.text.toList ++ r.1, x.comments ++ r.2.1, x.after :: r.2.2), ?_, ?_, ?_⟩
    · simp [formatEach, h1, h3, Bind.bind, Except.bind]
    · intro y hy
      rcases List.mem_cons.1 hy with rfl | hy
      · exact hp
      · exact hq y hy
    · simp [formatEach, h2, h4, Bind.bind, Except.bind]

theorem allOK1_mem : ∀ {l : List Op1}, allOK1 l ↔ ∀ o ∈ l, o.OK
  | [] => by simp [allOK1]
  | o :: t => by simp [allOK1, allOK1_mem]

theorem allOK_mem : ∀ {l : List Operand}, allOK l ↔ ∀ o ∈ l, o.OK
  | [] => by simp [allOK]
  | o :: t => by simp [allOK, allOK_mem]

theorem operand_ok {i : Instr} {o : Operand} (h : o.OK) (hi : o.isAttr = true → ∃ v : Word, i.imm32 = some (ofBV v)) :
    ∃ x, o.format i = .ok x ∧ (x.after.OK ∧ (x.after.isAttr = true → o.isAttr = true)) ∧ x.after.format i = .ok x := by
  cases o with
  | one o =>
    obtain ⟨x, h1, h2, h3, h4⟩ := op1_ok h hi
    exact ⟨⟨x.text, x.comments, .one x.after⟩, by simp [Operand.format, h1, Bind.bind, Except.bind], ⟨h2, h3⟩,
      by simp [Operand.format, h4, Bind.bind, Except.bind]⟩
  | mem l =>
    have h' := allOK1_mem.1 h
    obtain ⟨r, h1, h2, h3⟩ := each_ok (f := Op1.format i) (P := fun y => y.OK ∧ (y.isAttr = true → (Operand.mem l).isAttr = true)) (l := l)
      fun o ho => by
        have hm : o.isAttr = true → (Operand.mem l).isAttr = true := fun ha => List.any_eq_true.2 ⟨o, ho, ha⟩
        obtain ⟨x, h1, h2, h3, h4⟩ := op1_ok (h' o ho) fun ha => hi (hm ha)
        exact ⟨x, h1, ⟨h2, fun ha => hm (h3 ha)⟩, h4⟩
    obtain ⟨ss, cs, os⟩ := r
    refine ⟨⟨some (c! "[" ++ joinWith (c! ", ") ss ++ c! "]"), cs, .mem os⟩, ?_, ⟨allOK1_mem.2 fun o ho => (h2 o ho).1, ?_⟩, ?_⟩
    · simp [Operand.format, h1, Bind.bind, Except.bind]
    · intro ha
      obtain ⟨o, ho, ha⟩ := List.any_eq_true.1 ha
      exact (h2 o ho).2 ha
    · simp only at h3
      simp [Operand.format, h3, Bind.bind, Except.bind]

theorem operands_ok {c : Case} {w : Nat} {b : Bool} {a : Int} {i : Instr} (h : Decoded c w b a i) :
    ∃ r, formatEach (Operand.format i) i.operands = .ok r ∧ formatEach (Operand.format i) r.2.2 = .ok r := by
  have hok := allOK_mem.1 (ops_ok c h.mem w)
  rw [← h.operands] at hok
  have hat : ∀ o ∈ i.operands, o.isAttr = true → ∃ v : Word, i.imm32 = some (ofBV v) := by
    intro o ho ha
    rcases attr_ops c h.mem w with hn | ⟨sub, carry, flags, d, n, v, he⟩
    · rw [← h.operands, List.any_eq_false] at hn
      exact absurd ha (hn o ho)
    · have := h.act
      rw [he] at this
      exact ⟨v, this.2.2.2.2.2.2.2⟩
  obtain ⟨r, h1, -, h2⟩ := each_ok (f := Operand.format i) (P := fun _ => True) (l := i.operands) fun o ho => by
    obtain ⟨x, k1, -, k2⟩ := operand_ok (hok o ho) (hat o ho)
    exact ⟨x, k1, trivial, k2⟩
  exact ⟨r, h1, h2⟩

theorem format_congr {i j : Instr} (h1 : j.address = i.address) (h2 : j.imm32 = i.imm32) : Operand.format j = Operand.format i := by
  have : Op1.format j = Op1.format i := by
    funext o
    cases o <;> simp only [Op1.format, h1, h2]
  funext o
  cases o <;> simp only [Operand.format, this]

theorem byteString_eq {data : List Nat} (hd : ∀ b ∈ data, b < 256) {n : Nat} (hn : n = 2 ∨ n = 4) (hl : n ≤ data.length) :
    ∃ words : List Str, byteString (data.take n) = .ok (joinWith (c! " ") words) ∧
      words.map (Reader.nat 16) = (halfwords (data.take n)).map some ∧ words.length = n / 2 ∧ ∀ s ∈ words, s.length = 4 := by
  have h4 : ∀ v < 65536, (hex4 v).length = 4 := by
    intro v hv
    unfold hex4
    have : (natText 16 v).length ≤ 4 := (Nat.length_toDigits_le_iff (by decide) (by decide)).2 hv
    rw [List.length_append, List.length_replicate]
    omega
  have hor : ∀ x y : Nat, x < 256 → x ||| (y <<< 8) = x + 256 * y := by
    intro x y hx
    rw [Nat.or_comm, Nat.shiftLeft_eq, Nat.mul_comm, show (256 : Nat) = 2 ^ 8 from rfl, ← Nat.two_pow_add_eq_or_of_lt hx]
    omega
  rcases hn with rfl | rfl
  · match data, hl with
    | x :: y :: t, _ =>
      have hx := hd x (by simp)
      have hy := hd y (by simp)
      refine ⟨[hex4 (x + 256 * y)], ?_, ?_, rfl, ?_⟩
      · simp [byteString, bytesToLe16, byteAt, Bind.bind, Except.bind, hor x y hx, Reader.joinWith_single]
      · simp [halfwords, Reader.nat_hex4]
      · simp [h4 (x + 256 * y) (by omega)]
  · match data, hl with
    | x :: y :: z :: u :: t, _ =>
      have hx := hd x (by simp)
      have hy := hd y (by simp)
      have hz := hd z (by simp)
      have hu := hd u (by simp)
      refine ⟨[hex4 (x + 256 * y), hex4 (z + 256 * u)], ?_, ?_, rfl, ?_⟩
      · simp [byteString, bytesToLe16, byteAt, Bind.bind, Except.bind, hor x y hx, hor z u hz, Reader.joinWith_single, Reader.joinWith_cons]
      · simp [halfwords, Reader.nat_hex4]
      · simp [h4 (x + 256 * y) (by omega), h4 (z + 256 * u) (by omega)]

/-- The instruction after formatting. -/
def after (i : Instr) (os : List Operand) : Instr := { i with operands := os, mask := (os.findSome? Operand.mask?).or i.mask }

/-- The line from its parts. -/
def line (bs m : Str) (ss cs : List Str) : Str :=
  let result := padRight 12 bs ++ c! " " ++ padRight 8 m ++ joinWith (c! ", ") ss
  if cs = [] then result else padRight 36 result ++ c! " ; " ++ joinWith (c! " ") cs

theorem format_eq {i : Instr} {bs : Str} {ss cs : List Str} {os : List Operand} (h1 : byteString i.bytes = .ok bs)
    (h2 : formatEach (Operand.format i) i.operands = .ok (ss, cs, os)) : i.format = .ok (line bs i.mnemonic ss cs, after i os) := by
  unfold Instr.format
  rw [h1, h2]
  unfold line
  by_cases hc : cs = []
  · simp only [Bind.bind, Except.bind, if_pos hc]; rfl
  · simp only [Bind.bind, Except.bind, if_neg hc]; rfl

theorem line_prefix (bs m : Str) (ss cs : List Str) : ∃ rest, line bs m ss cs = padRight 12 bs ++ c! " " ++ padRight 8 m ++ rest := by
  unfold line
  by_cases hc : cs = []
  · exact ⟨_, if_pos hc⟩
  · refine ⟨joinWith (c! ", ") ss ++ (List.replicate (36 - (padRight 12 bs ++ c! " " ++ padRight 8 m ++ joinWith (c! ", ") ss).length) ' ' ++
      c! " ; " ++ joinWith (c! " ") cs), ?_⟩
    rw [if_neg hc]
    show (padRight 12 bs ++ c! " " ++ padRight 8 m ++ joinWith (c! ", ") ss ++ List.replicate _ ' ') ++ c! " ; " ++ _ = _
    simp only [List.append_assoc]

/-- **C64.** Formatting every decoded instruction gives a text. It starts with the halfwords
of the bytes decoded, as four hexadecimal digits each, filled with spaces to twelve columns,
a space, and the mnemonic filled with spaces to eight columns, at least one of them. -/
theorem always (data : List Nat) (hd : ∀ b ∈ data, b < 256) (a : Int) (i : Instr) (h : (trees.decode data a).1 = .ok i) :
    ∃ words rest i', i.format = .ok (padRight 12 (joinWith (c! " ") words) ++ c! " " ++ padRight 8 i.mnemonic ++ rest, i') ∧
      words.map (Reader.nat 16) = (halfwords (data.take i.size)).map some ∧ (∀ s ∈ words, s.length = 4) ∧
      (joinWith (c! " ") words).length < 12 ∧ i.mnemonic.length < 8 := by
  obtain ⟨h1, h2, h3, -⟩ := C39.bytes_and_size data hd a i h
  obtain ⟨c, w, b, -, hc⟩ := C39.decoded hd (C39.length_of_ok h) h
  obtain ⟨⟨ss, cs, os⟩, k1, -⟩ := operands_ok hc
  obtain ⟨words, e1, e2, e3, e4⟩ := byteString_eq hd h1 h2
  rw [← h3] at e1
  have hlen : (joinWith (c! " ") words).length < 12 := by
    have : words.length ≤ 2 := by omega
    match words, this, e4 with
    | [], _, _ => decide
    | [x], _, e4 => rw [Reader.joinWith_single]; have := e4 x (by simp); omega
    | [x, y], _, e4 =>
      rw [Reader.joinWith_cons, Reader.joinWith_single, List.length_append, List.length_append]
      have := e4 x (by simp)
      have := e4 y (by simp)
      simp only [List.length_cons, List.length_nil]
      omega
  have hm : i.mnemonic.length < 8 := by
    rw [hc.mnemonic]
    exact mnem_short c hc.mem w
  have hf := format_eq e1 k1
  obtain ⟨rest, hr⟩ := line_prefix (joinWith (c! " ") words) i.mnemonic ss cs
  exact ⟨words, rest, _, by rw [hf, hr], e2, e4, hlen, hm⟩

/-- **C64.** Formatting an instruction again gives the same text, although formatting may
change the object, and it changes no more. -/
theorem again (data : List Nat) (hd : ∀ b ∈ data, b < 256) (a : Int) (i : Instr) (h : (trees.decode data a).1 = .ok i)
    (text : Str) (i' : Instr) (hf : i.format = .ok (text, i')) : i'.format = .ok (text, i') := by
  obtain ⟨h1, h2, h3, -⟩ := C39.bytes_and_size data hd a i h
  obtain ⟨c, w, b, -, hc⟩ := C39.decoded hd (C39.length_of_ok h) h
  obtain ⟨⟨ss, cs, os⟩, k1, k2⟩ := operands_ok hc
  obtain ⟨words, e1, -⟩ := byteString_eq hd h1 h2
  rw [← h3] at e1
  rw [format_eq e1 k1] at hf
  injection hf with hf
  injection hf with ht hi
  subst ht hi
  have k3 : formatEach (Operand.format (after i os)) (after i os).operands = .ok (ss, cs, os) := by
    rw [show Operand.format (after i os) = Operand.format i from format_congr rfl rfl]
    exact k2
  rw [format_eq (i := after i os) e1 k3]
  congr 2
  unfold after
  congr 1
  cases os.findSome? Operand.mask? <;> rfl

/-- The whole line: `adds r3, r1, #1` and a branch to itself at 0x1000. -/
example : ((trees.decode [0x4b, 0x1c] 0).1.toOption.bind fun i => i.format.toOption.map Prod.fst) =
    some (c! "1c4b         adds    r3, r1, #1") ∧
  ((trees.decode [0xfe, 0xe7] 0x1000).1.toOption.bind fun i => i.format.toOption.map Prod.fst) =
    some (c! "e7fe         b       .+0             ; 0x1000") := by
  rw [trees, decoders_eq]; decide +kernel

end C64
end Verif
