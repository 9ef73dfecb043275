import Verif.Spec.Meaning
import Verif.Lemmas.Written

/-!
# The manual's text of an instruction means the manual's action
-/

namespace Verif
open Thumb

namespace Mean

/-- Text written for an encoding means its action. -/
def Means (e : Enc) : Prop := ∀ w a l, e.Is w → Written e (field e.pat w) a l →
  (meaning a (e.mnem (field e.pat w)) l).map Act.normal = some (e.act (field e.pat w)).normal

theorem meaning_of {a : Int} {m : Str} {l : List Item} {g : Int → List Item → Option Act} (h : form m = some g) :
    meaning a m l = g a l := by
  unfold meaning
  rw [h]
  rfl

theorem source_item (x : Src) : source x.item = some x := by
  cases x with
  | reg m => rfl
  | imm v =>
    show some (Src.imm (BitVec.ofInt 32 (v.toNat : Int))) = _
    rw [BitVec.ofInt_natCast, BitVec.ofNat_toNat, BitVec.setWidth_eq]

theorem threeOf_three {mk : Nat → Nat → Item → Option Act} {d n : Nat} {x : Item} {l : List Item} (h : Three d n x l) :
    threeOf mk l = mk d n x := by
  rcases h with rfl | ⟨rfl, rfl⟩
  · rfl
  · cases x with
    | mem l => rfl
    | one p =>
      cases p with
      | reg r b => cases b <;> rfl
      | _ => rfl

theorem twoOf_two {mk : Nat → Item → Option Act} {d : Nat} {x : Item} : twoOf mk [R d, x] = mk d x := rfl

theorem addSub_means {e : Enc} {sub carry flags : Bool} {d n : (Char → Nat) → Nat} {x : (Char → Nat) → Src}
    (hf : ∀ f, form (e.mnem f) = some (fun _ => addSubOf sub carry flags))
    (ha : ∀ f, e.act f = .addSub sub carry flags (d f) (n f) (x f)) : Means e := by
  intro w a l _ h
  unfold Written at h
  rw [ha] at h ⊢
  rw [meaning_of (hf _)]
  unfold addSubOf
  rw [threeOf_three h, source_item]
  rfl

theorem rsb_means {e : Enc} {flags : (Char → Nat) → Bool} {d n : (Char → Nat) → Nat} {x : (Char → Nat) → Word}
    (hf : ∀ f, form (e.mnem f) = some (fun _ => rsbOf (flags f))) (ha : ∀ f, e.act f = .rsb (flags f) (d f) (n f) (x f)) : Means e := by
  intro w a l _ h
  unfold Written at h
  rw [ha] at h ⊢
  rw [meaning_of (hf _)]
  unfold rsbOf
  rw [threeOf_three (x := (Src.imm _).item) h, source_item]
  rfl

theorem logic_means {e : Enc} {o : BitFn} {d n m : (Char → Nat) → Nat}
    (hf : ∀ f, form (e.mnem f) = some (fun _ => logicOf o)) (ha : ∀ f, e.act f = .logic o true (d f) (n f) (m f)) : Means e := by
  intro w a l _ h
  unfold Written at h
  rw [ha] at h ⊢
  rw [meaning_of (hf _)]
  unfold logicOf
  rw [threeOf_three h]
  rfl

theorem bic_means {e : Enc} {d n m : (Char → Nat) → Nat}
    (hf : ∀ f, form (e.mnem f) = some (fun _ => threeOf fun d n x => (sourceReg x).map (.bic true d n)))
    (ha : ∀ f, e.act f = .bic true (d f) (n f) (m f)) : Means e := by
  intro w a l _ h
  unfold Written at h
  rw [ha] at h ⊢
  rw [meaning_of (hf _), threeOf_three h]
  rfl

theorem mul_means {e : Enc} {flags : Bool} {d n m : (Char → Nat) → Nat}
    (hf : ∀ f, form (e.mnem f) = some (fun _ => mulOf flags)) (ha : ∀ f, e.act f = .mul flags (d f) (n f) (m f)) : Means e := by
  intro w a l _ h
  unfold Written at h
  rw [ha] at h ⊢
  rw [meaning_of (hf _)]
  unfold mulOf
  rw [threeOf_three h]
  rfl

theorem shiftReg_means {e : Enc} {t : SRType} {d n m : (Char → Nat) → Nat}
    (hf : ∀ f, form (e.mnem f) = some (fun _ => shiftOf t)) (ha : ∀ f, e.act f = .shiftReg t true (d f) (n f) (m f)) : Means e := by
  intro w a l _ h
  unfold Written at h
  rw [ha] at h ⊢
  rw [meaning_of (hf _)]
  unfold shiftOf
  rw [threeOf_three h]
  rfl

theorem shiftImm_means {e : Enc} {t : SRType} {d m k : (Char → Nat) → Nat}
    (hf : ∀ f, form (e.mnem f) = some (fun _ => shiftOf t)) (ha : ∀ f, e.act f = .shiftImm t true (d f) (m f) (k f))
    (hk : ∀ w, k (field e.pat w) < 2 ^ 32) : Means e := by
  intro w a l _ h
  unfold Written at h
  rw [ha] at h ⊢
  rw [meaning_of (hf _)]
  subst h
  show (some (Act.shiftImm t true _ _ (BitVec.ofInt 32 ((k (field e.pat w) : Nat) : Int)).toNat)).map Act.normal = _
  rw [BitVec.ofInt_natCast, BitVec.toNat_ofNat, Nat.mod_eq_of_lt (hk w)]
  rfl

theorem plainShift_zero {s : SRType × Nat} (h : s.2 = 0) (hs : s.1 ≠ .rrx) : plainShift s = (.lsl, 0) := by
  unfold plainShift
  rw [if_pos (.inr ⟨h, hs⟩)]

theorem immShift_zero {t i : Nat} (h : (immShift t i).2 = 0) : (immShift t i).1 ≠ .rrx := by
  intro hr
  unfold immShift C18.armImmShift at h hr
  split at hr
  · cases hr
  split at hr
  · cases hr
  split at hr
  · cases hr
  split at hr
  · next h1 h2 h3 h4 =>
    rw [if_neg h1, if_neg h2, if_neg h3, if_pos h4] at h
    cases h
  · cases hr

theorem shifted_means {e : Enc} {mk : (Char → Nat) → Nat → Nat → SRType × Nat → Act} {d m : (Char → Nat) → Nat}
    {s : (Char → Nat) → SRType × Nat}
    (hf : ∀ f, form (e.mnem f) = some (fun _ => shiftedOf fun d m s => some (mk f d m s)))
    (ha : ∀ f, e.act f = mk f (d f) (m f) (s f))
    (hw : ∀ f a l, Written e f a l → Shifted l [R (d f), R (m f)] (s f))
    (hn : ∀ f s, (mk f (d f) (m f) s).normal = mk f (d f) (m f) (plainShift s))
    (hs : ∀ f, (s f).2 = 0 → (s f).1 ≠ .rrx) : Means e := by
  intro w a l _ h
  rw [ha, meaning_of (hf _)]
  rcases hw _ _ _ h with rfl | ⟨h0, rfl⟩
  · rfl
  · show (some (mk _ _ _ (.lsl, 0))).map Act.normal = _
    rw [Option.map_some, hn, hn, plainShift_zero h0 (hs _ h0)]
    rfl

theorem extend_means {e : Enc} {sgn : Bool} {width : Nat} {r d m : (Char → Nat) → Nat}
    (hf : ∀ f, form (e.mnem f) = some (fun _ => extendOf sgn width)) (ha : ∀ f, e.act f = .extend sgn width (r f) (d f) (m f)) :
    Means e := by
  intro w a l _ h
  unfold Written at h
  rw [ha] at h ⊢
  rw [meaning_of (hf _)]
  rcases h with rfl | ⟨h0, rfl⟩
  · rfl
  · show (some (Act.extend sgn width 0 _ _)).map Act.normal = _
    rw [show r (field e.pat w) = 0 from h0]
    rfl

theorem rev_means {e : Enc} {kind : RevKind} {d m : (Char → Nat) → Nat}
    (hf : ∀ f, form (e.mnem f) = some (fun _ => revOf kind)) (ha : ∀ f, e.act f = .rev kind (d f) (m f)) : Means e := by
  intro w a l _ h
  unfold Written at h
  rw [ha] at h ⊢
  rw [meaning_of (hf _)]
  subst h
  rfl

theorem movReg_means {e : Enc} {neg : Bool} {flags : (Char → Nat) → Bool} {d m : (Char → Nat) → Nat}
    (hf : ∀ f, form (e.mnem f) = some (fun _ => movOf neg (flags f))) (ha : ∀ f, e.act f = .mov neg (flags f) (d f) (.reg (m f))) :
    Means e := by
  intro w a l _ h
  unfold Written at h
  rw [ha] at h ⊢
  rw [meaning_of (hf _)]
  subst h
  rfl

theorem movImm_means {e : Enc} {neg : Bool} {flags : (Char → Nat) → Bool} {d : (Char → Nat) → Nat} {v : (Char → Nat) → Word}
    {c : (Char → Nat) → Option Bool}
    (hf : ∀ f, form (e.mnem f) = some (fun _ => movOf neg (flags f)))
    (ha : ∀ f, e.act f = .mov neg (flags f) (d f) (.imm (v f)) (c f))
    (hc : ∀ w, flags (field e.pat w) = true → c (field e.pat w) = constantCarry (v (field e.pat w))) : Means e := by
  intro w a l _ h
  unfold Written at h
  rw [ha] at h ⊢
  rw [meaning_of (hf _)]
  subst h
  unfold movOf
  rw [twoOf_two, source_item]
  cases hb : flags (field e.pat w) with
  | false => rfl
  | true => rw [hc w hb]; rfl

theorem cmp_means {e : Enc} {sub : Bool} {n : (Char → Nat) → Nat} {x : (Char → Nat) → Src}
    (hf : ∀ f, form (e.mnem f) = some (fun _ => cmpOf sub)) (ha : ∀ f, e.act f = .cmp sub (n f) (x f)) : Means e := by
  intro w a l _ h
  unfold Written at h
  rw [ha] at h ⊢
  rw [meaning_of (hf _)]
  subst h
  unfold cmpOf
  rw [twoOf_two, source_item]
  rfl

theorem label_means {e : Enc} {mk : (Char → Nat) → Word → Act} {o : (Char → Nat) → Word}
    (hf : ∀ w, e.Is w → form (e.mnem (field e.pat w)) = some (fun _ => labelOf (mk (field e.pat w)))) (ha : ∀ f, e.act f = mk f (o f))
    (hw : ∀ f a l, Written e f a l → l = [.one (.label ((o f).toInt + 4))]) : Means e := by
  intro w a l hi h
  rw [ha, meaning_of (hf w hi), hw _ _ _ h]
  show (some (mk _ (BitVec.ofInt 32 ((o _).toInt + 4 - 4)))).map Act.normal = _
  rw [Int.add_sub_cancel, BitVec.ofInt_toInt]
  rfl

theorem one_means {e : Enc} {mk : Nat → Act} {m : (Char → Nat) → Nat}
    (hf : ∀ f, form (e.mnem f) = some (fun _ => oneOf mk)) (ha : ∀ f, e.act f = mk (m f))
    (hw : ∀ f a l, Written e f a l → l = [R (m f)]) : Means e := by
  intro w a l _ h
  rw [ha, meaning_of (hf _), hw _ _ _ h]
  rfl

theorem offset_written {off : Off} {o : List Piece} (h : off.Written o)
    (hs : ∀ m s, off = .reg m s → s.2 = 0 → s.1 ≠ .rrx) : ∃ x, offset o = some x ∧ x.normal = off.normal := by
  cases off with
  | imm v =>
    rcases h with rfl | ⟨rfl, rfl⟩
    · refine ⟨_, rfl, ?_⟩
      rw [BitVec.ofInt_natCast, BitVec.ofNat_toNat, BitVec.setWidth_eq]
    · exact ⟨_, rfl, rfl⟩
  | reg m s =>
    rcases h with rfl | ⟨h0, rfl⟩
    · exact ⟨_, rfl, rfl⟩
    · refine ⟨_, rfl, ?_⟩
      show Off.reg m (plainShift (.lsl, 0)) = Off.reg m (plainShift s)
      rw [plainShift_zero h0 (hs m s rfl h0)]
      rfl

theorem loadOf_base {size : Nat} {sgn : Bool} {t n : Nat} (h : n ≠ 15) (o : List Piece) :
    loadOf size sgn [R t, .mem (.reg n false :: o)] = (offset o).map (.load size sgn t n) := by
  unfold loadOf
  split
  · next h' => simp at h'; exact absurd h'.2.1 h
  · next h' => simp at h'; exact absurd h'.2.1 h
  · next h' => simp at h'; obtain ⟨rfl, rfl, rfl⟩ := h'; rfl
  · next h1 h2 h3 => exact absurd rfl (h3 _ _ _)

theorem load_means {e : Enc} {size : Nat} {sgn : Bool} {t n : (Char → Nat) → Nat} {off : (Char → Nat) → Off}
    (hf : ∀ f, form (e.mnem f) = some (fun _ => loadOf size sgn)) (ha : ∀ f, e.act f = .load size sgn (t f) (n f) (off f))
    (hn : ∀ w, e.Is w → n (field e.pat w) ≠ 15) (hs : ∀ f m s, off f = .reg m s → s.2 = 0 → s.1 ≠ .rrx) : Means e := by
  intro w a l hi h
  unfold Written at h
  rw [ha] at h ⊢
  rw [meaning_of (hf _)]
  obtain ⟨o, ho, rfl⟩ := h
  obtain ⟨x, h1, h2⟩ := offset_written ho (hs _)
  rw [loadOf_base (hn w hi), h1]
  simp only [Option.map_some, Act.normal, h2]

theorem store_means {e : Enc} {size : Nat} {t n : (Char → Nat) → Nat} {off : (Char → Nat) → Off}
    (hf : ∀ f, form (e.mnem f) = some (fun _ => storeOf size)) (ha : ∀ f, e.act f = .store size (t f) (n f) (off f))
    (hs : ∀ f m s, off f = .reg m s → s.2 = 0 → s.1 ≠ .rrx) : Means e := by
  intro w a l hi h
  unfold Written at h
  rw [ha] at h ⊢
  rw [meaning_of (hf _)]
  obtain ⟨o, ho, rfl⟩ := h
  obtain ⟨x, h1, h2⟩ := offset_written ho (hs _)
  show ((offset o).map _).map Act.normal = _
  rw [h1]
  simp only [Option.map_some, Act.normal, h2]

/-- The sign and the size of a constant. -/
theorem sign_size (add : Bool) (imm : Word) (k : Int) (hk : k = if add then (imm.toNat : Int) else -(imm.toNat : Int)) :
    decide (0 ≤ k) = (add || imm == 0#32) ∧ w32 k.natAbs = imm := by
  have hz : (imm == 0#32) = decide (imm.toNat = 0) := by
    rw [Bool.eq_iff_iff]
    simp only [beq_iff_eq, decide_eq_true_eq, ← BitVec.toNat_inj]
    rfl
  constructor
  · rw [hz]
    cases add with
    | true => simp at hk ⊢; omega
    | false =>
      rw [Bool.false_or, decide_eq_decide]
      simp at hk; omega
  · have : k.natAbs = imm.toNat := by cases add <;> simp at hk <;> omega
    rw [this]
    exact BitVec.ofNat_toNat .. |>.trans (BitVec.setWidth_eq _)

theorem literal_means {e : Enc} {size : Nat} {sgn : Bool} {add : (Char → Nat) → Bool} {t : (Char → Nat) → Nat} {imm : (Char → Nat) → Word}
    (hf : ∀ f, form (e.mnem f) = some (fun _ => loadOf size sgn)) (ha : ∀ f, e.act f = .loadLit size sgn (add f) (t f) (imm f)) :
    Means e := by
  intro w a l hi h
  unfold Written at h
  rw [ha] at h ⊢
  rw [meaning_of (hf _)]
  generalize add (field e.pat w) = ad at h ⊢
  generalize imm (field e.pat w) = im at h ⊢
  rcases h with rfl | ⟨rfl, rfl⟩
  · obtain ⟨h1, h2⟩ := sign_size ad im _ rfl
    show (some (Act.loadLit size sgn _ _ _)).map Act.normal = _
    rw [h1, h2]
    simp only [Option.map_some, Act.normal, Bool.or_assoc, Bool.or_self]
  · show (some (Act.loadLit size sgn _ _ _)).map Act.normal = _
    simp only [Option.map_some, Act.normal]
    cases ad <;> rfl

theorem adr_means {e : Enc} {add : Bool} {d : (Char → Nat) → Nat} {imm : (Char → Nat) → Word}
    (hf : ∀ f, form (e.mnem f) = some adrOf) (ha : ∀ f, e.act f = .adr add (d f) (imm f))
    (hb : ∀ w, (imm (field e.pat w)).toNat < 4096) : Means e := by
  intro w a l hi h
  unfold Written at h
  rw [ha] at h ⊢
  rw [meaning_of (hf _)]
  obtain ⟨x, rfl, hx⟩ := h
  obtain ⟨h1, h2⟩ := sign_size add (imm (field e.pat w)) (a + x - (a + 4) / 4 * 4) (by omega)
  show (if (a + x - (a + 4) / 4 * 4).natAbs < 4096 then some (Act.adr _ _ _) else none).map Act.normal = _
  rw [if_pos (by have := hb w; cases add <;> simp at hx <;> omega), h1, h2]
  simp only [Option.map_some, Act.normal, Bool.or_assoc, Bool.or_self]

theorem listOf_bit (j : Nat) : ∀ l : List Nat, (listOf l).getLsbD j = decide (j ∈ l ∧ j < 16)
  | [] => by simp [listOf]
  | k :: t => by
    have h := listOf_bit j t
    unfold listOf at h ⊢
    rw [List.foldr_cons, BitVec.getLsbD_or, h, BitVec.getLsbD_twoPow, Bool.eq_iff_iff]
    simp only [List.mem_cons, Bool.or_eq_true, Bool.and_eq_true, decide_eq_true_eq]
    grind

theorem listOf_members (r : BitVec 16) : listOf (members r) = r := by
  apply BitVec.eq_of_getLsbD_eq
  intro j hj
  rw [listOf_bit]
  unfold members
  rw [Bool.eq_iff_iff, decide_eq_true_eq, List.mem_filter, List.mem_range]
  exact ⟨fun h => h.1.2, fun h => ⟨⟨hj, h⟩, hj⟩⟩

theorem regs_means {e : Enc} {mk : BitVec 16 → Act} {r : (Char → Nat) → BitVec 16}
    (hf : ∀ f, form (e.mnem f) = some (fun _ => regsOf mk)) (ha : ∀ f, e.act f = mk (r f))
    (hw : ∀ f a l, Written e f a l → l = [.one (.regs (members (r f)))]) : Means e := by
  intro w a l _ h
  rw [ha, meaning_of (hf _), hw _ _ _ h]
  show (some (mk (listOf _))).map Act.normal = _
  rw [listOf_members]
  rfl

theorem many_means {e : Enc} {mk : Nat → Bool → BitVec 16 → Act} {n : (Char → Nat) → Nat} {b : (Char → Nat) → Bool} {r : (Char → Nat) → BitVec 16}
    (hf : ∀ f, form (e.mnem f) = some (fun _ => manyOf mk)) (ha : ∀ f, e.act f = mk (n f) (b f) (r f))
    (hw : ∀ f a l, Written e f a l → l = [.one (.reg (n f) (b f)), .one (.regs (members (r f)))]) : Means e := by
  intro w a l _ h
  rw [ha, meaning_of (hf _), hw _ _ _ h]
  show (some (mk _ _ (listOf _))).map Act.normal = _
  rw [listOf_members]
  rfl

theorem plain_means {e : Enc} (hf : ∀ f, form (e.mnem f) = some (fun _ _ => some .plain)) (ha : ∀ f, e.act f = .plain) : Means e := by
  intro w a l _ h
  rw [ha, meaning_of (hf _)]
  rfl

theorem form_dot {s : Str} {k : Nat} {g : Bool → Int → List Item → Option Act} (h0 : form (s ++ c! ".w") = some (g false))
    (h1 : form (s ++ c! "s.w") = some (g true)) : form (s ++ dotW k) = some (g (decide (k = 1))) := by
  unfold dotW
  split
  · next h => rw [h1, decide_eq_true h]
  · next h => rw [h0, decide_eq_false h]

theorem not15 {e : Enc} {w : Nat} {c : Char} (h : (places e.pat c).length ≤ 3) : field e.pat w c ≠ 15 := by
  have := field_bound e.pat w c rfl
  have h2 : 2 ^ (places e.pat c).length ≤ 2 ^ 3 := Nat.pow_le_pow_right (by decide) h
  omega

theorem carry_expand {n : Nat} (h : n < 4096) : expandCarry n = constantCarry (expand n) := by
  have : ∀ v : BitVec 12, expandCarry v.toNat = constantCarry (expand v.toNat) := by decide +kernel
  have := this (BitVec.ofNat 12 n)
  rwa [BitVec.toNat_ofNat, Nat.mod_eq_of_lt h] at this

theorem carry_small : ∀ n < 256, constantCarry (w32 n) = none := by decide +kernel

theorem cond_form : ∀ c < 14, form ('b' :: condText c) = some (fun _ => labelOf (.branch c))
  | 0, _ | 1, _ | 2, _ | 3, _ | 4, _ | 5, _ | 6, _ | 7, _ | 8, _ | 9, _ | 10, _ | 11, _ | 12, _ | 13, _ => rfl
  | n + 14, h => absurd h (by omega)

theorem special_named : ∀ s < 256, special s = true → specialNamed (specialName (BitVec.ofNat 8 s)) = some (BitVec.ofNat 8 s) := by
  decide +kernel

theorem msr_named {s k : Nat} (hs : s < 21) (hk : k < 4) (h : special s = true ∧ k ≠ 0 ∧ (k = 2 ∨ s < 4)) :
    msrNamed (specialName (BitVec.ofNat 8 s) ++ (if (BitVec.ofNat 8 s).toNat < 4 then bitsName (BitVec.ofNat 2 k) else [])) =
      some (BitVec.ofNat 2 k, BitVec.ofNat 8 s) := by
  have all : ((List.range 21).all fun s => (List.range 4).all fun k => !decide (special s = true ∧ k ≠ 0 ∧ (k = 2 ∨ s < 4)) ||
      decide (msrNamed (specialName (BitVec.ofNat 8 s) ++ (if (BitVec.ofNat 8 s).toNat < 4 then bitsName (BitVec.ofNat 2 k) else [])) =
        some (BitVec.ofNat 2 k, BitVec.ofNat 8 s))) = true := by decide +kernel
  have := List.all_eq_true.1 (List.all_eq_true.1 all s (List.mem_range.2 hs)) k (List.mem_range.2 hk)
  rw [decide_eq_true h] at this
  exact of_decide_eq_true this

theorem cps_named (p f : Bool) (h : p = true ∨ f = true) : (cpsName p f).contains 'i' = p ∧ (cpsName p f).contains 'f' = f := by
  revert p f
  decide +kernel

theorem noShift {n : Nat} {m : Nat} {s : SRType × Nat} {t : SRType} (ht : t ≠ .rrx) {k : Nat} (h : Off.reg n (t, k) = .reg m s) :
    s.2 = 0 → s.1 ≠ .rrx := by
  injection h with _ h
  subst h
  exact fun _ => ht

theorem movImmW_means : Means Thumb.movImmW :=
  movImm_means (fun _ => form_dot (g := fun b _ => movOf false b) rfl rfl) (fun _ => rfl) fun w _ =>
    carry_expand (Nat.lt_of_lt_of_le (field_bound _ w 'i' rfl) (by decide))

theorem movsImm_means : Means Thumb.movsImm :=
  movImm_means (flags := fun _ => true) (c := fun _ => none) (fun _ => rfl) (fun _ => rfl) fun w _ =>
    (carry_small _ (Nat.lt_of_lt_of_le (field_bound _ w 'i' rfl) (by decide))).symm

theorem movw_means : Means Thumb.movw :=
  movImm_means (flags := fun _ => false) (c := fun _ => none) (fun _ => rfl) (fun _ => rfl) fun w h => nomatch h

theorem bCond_means : Means Thumb.bCond :=
  label_means (mk := fun f => .branch (f 'c')) (fun w h => cond_form _ (of_decide_eq_true h.2.2)) (fun _ => rfl) (fun _ _ _ h => h)

theorem cps_means : Means Thumb.cps := by
  intro w a l hi h
  have hl : l = [.one (.word (cpsName (field Thumb.cps.pat w 'p' = 1) (field Thumb.cps.pat w 'f' = 1)))] := h
  subst hl
  have hok := of_decide_eq_true hi.2.2
  have b1 : field Thumb.cps.pat w 'p' < 2 := field_bound _ w 'p' rfl
  have b2 : field Thumb.cps.pat w 'f' < 2 := field_bound _ w 'f' rfl
  have hf : form (Thumb.cps.mnem (field Thumb.cps.pat w)) = some (fun _ => cpsOf (decide (field Thumb.cps.pat w 'e' = 0))) := by
    show form (c! "cps" ++ (if _ then c! "ie" else c! "id")) = _
    split
    · next h => rw [decide_eq_true h]; rfl
    · next h => rw [decide_eq_false h]; rfl
  rw [meaning_of hf]
  obtain ⟨h1, h2⟩ := cps_named (field Thumb.cps.pat w 'p' = 1) (field Thumb.cps.pat w 'f' = 1) (by
    simp only [decide_eq_true_eq]; omega)
  show (some (Act.cps _ _ _)).map Act.normal = _
  rw [h1, h2]
  rfl

theorem mrs_means : Means Thumb.mrs := by
  intro w a l hi h
  have hok := of_decide_eq_true hi.2.2
  have b1 : field Thumb.mrs.pat w 's' < 256 := field_bound _ w 's' rfl
  have hl : l = [R (field Thumb.mrs.pat w 'd'), .one (.word (specialName (BitVec.ofNat 8 (field Thumb.mrs.pat w 's'))))] := h
  subst hl
  rw [meaning_of (g := fun _ => mrsOf) rfl]
  show ((specialNamed _).map _).map Act.normal = _
  rw [special_named _ b1 hok.2]
  rfl

theorem msr_means : Means Thumb.msr := by
  intro w a l hi h
  have hok := of_decide_eq_true hi.2.2
  have b1 : field Thumb.msr.pat w 'k' < 4 := field_bound _ w 'k' rfl
  have b2 : field Thumb.msr.pat w 's' < 21 := by
    have := hok.2.1
    unfold special at this
    simp only [Bool.or_eq_true, Bool.and_eq_true, decide_eq_true_eq] at this
    omega
  unfold Written at h
  rw [show Thumb.msr.act (field Thumb.msr.pat w) = .msr (field Thumb.msr.pat w 'n') (BitVec.ofNat 2 (field Thumb.msr.pat w 'k'))
    (BitVec.ofNat 8 (field Thumb.msr.pat w 's')) from rfl] at h ⊢
  subst h
  rw [meaning_of (g := fun _ => msrOf) rfl]
  show ((msrNamed _).map _).map Act.normal = _
  rw [msr_named b2 b1 ⟨hok.2.1, hok.2.2.1, hok.2.2.2⟩]
  rfl

theorem ok15 {e : Enc} {c : Char} {w : Nat} {p : Prop} [Decidable p] (h : e.Is w) (hp : e.ok (field e.pat w) = decide (field e.pat w c ≠ 15 ∧ p)) : field e.pat w c ≠ 15 := by
  have := h.2.2
  rw [hp] at this
  exact (of_decide_eq_true this).1

theorem ok15' {e : Enc} {c : Char} {w : Nat} (h : e.Is w) (hp : e.ok (field e.pat w) = decide (field e.pat w c ≠ 15)) : field e.pat w c ≠ 15 := by
  have := h.2.2
  rw [hp] at this
  exact of_decide_eq_true this

theorem lt32 {e : Enc} {w : Nat} {c : Char} (h : (places e.pat c).length ≤ 5) : field e.pat w c < 2 ^ 32 :=
  Nat.lt_of_lt_of_le (field_bound e.pat w c rfl) (Nat.le_trans (Nat.pow_le_pow_right (by decide) h) (by decide))

theorem ite32 {n : Nat} (h : n < 2 ^ 32) : (if n = 0 then 32 else n) < 2 ^ 32 := by split <;> omega

theorem bics_text : Means Thumb.bics :=
  bic_means (fun _ => rfl) (fun _ => rfl)

theorem orrs_text : Means Thumb.orrs :=
  logic_means (fun _ => rfl) (fun _ => rfl)

theorem rorsReg_text : Means Thumb.rorsReg :=
  shiftReg_means (fun _ => rfl) (fun _ => rfl)

theorem sbcs_text : Means Thumb.sbcs :=
  addSub_means (fun _ => rfl) (fun _ => rfl)

theorem adcs_text : Means Thumb.adcs :=
  addSub_means (fun _ => rfl) (fun _ => rfl)

theorem asrsReg_text : Means Thumb.asrsReg :=
  shiftReg_means (fun _ => rfl) (fun _ => rfl)

theorem lsrsReg_text : Means Thumb.lsrsReg :=
  shiftReg_means (fun _ => rfl) (fun _ => rfl)

theorem lslsReg_text : Means Thumb.lslsReg :=
  shiftReg_means (fun _ => rfl) (fun _ => rfl)

theorem eors_text : Means Thumb.eors :=
  logic_means (fun _ => rfl) (fun _ => rfl)

theorem ands_text : Means Thumb.ands :=
  logic_means (fun _ => rfl) (fun _ => rfl)

theorem subsImmT1_text : Means Thumb.subsImmT1 :=
  addSub_means (fun _ => rfl) (fun _ => rfl)

theorem addsImmT1_text : Means Thumb.addsImmT1 :=
  addSub_means (fun _ => rfl) (fun _ => rfl)

theorem subsImmT2_text : Means Thumb.subsImmT2 :=
  addSub_means (fun _ => rfl) (fun _ => rfl)

theorem addsImmT2_text : Means Thumb.addsImmT2 :=
  addSub_means (fun _ => rfl) (fun _ => rfl)

theorem subsReg_text : Means Thumb.subsReg :=
  addSub_means (fun _ => rfl) (fun _ => rfl)

theorem addsReg_text : Means Thumb.addsReg :=
  addSub_means (fun _ => rfl) (fun _ => rfl)

theorem addRegT2_text : Means Thumb.addRegT2 :=
  addSub_means (fun _ => rfl) (fun _ => rfl)

theorem addSpImmT1_text : Means Thumb.addSpImmT1 :=
  addSub_means (fun _ => rfl) (fun _ => rfl)

theorem addSpRegT1_text : Means Thumb.addSpRegT1 :=
  addSub_means (fun _ => rfl) (fun _ => rfl)

theorem addSpRegT2_text : Means Thumb.addSpRegT2 :=
  addSub_means (fun _ => rfl) (fun _ => rfl)

theorem subSpImm_text : Means Thumb.subSpImm :=
  addSub_means (fun _ => rfl) (fun _ => rfl)

theorem addSpImmT2_text : Means Thumb.addSpImmT2 :=
  addSub_means (fun _ => rfl) (fun _ => rfl)

theorem asrsImm_text : Means Thumb.asrsImm :=
  shiftImm_means (fun _ => rfl) (fun _ => rfl) (fun w => ite32 (lt32 (by decide)))

theorem lsrsImm_text : Means Thumb.lsrsImm :=
  shiftImm_means (fun _ => rfl) (fun _ => rfl) (fun w => ite32 (lt32 (by decide)))

theorem lslsImm_text : Means Thumb.lslsImm :=
  shiftImm_means (fun _ => rfl) (fun _ => rfl) (fun w => lt32 (by decide))

theorem rsbs_text : Means Thumb.rsbs :=
  rsb_means (flags := fun _ => true) (fun _ => rfl) (fun _ => rfl)

theorem rsbW_text : Means Thumb.rsbW :=
  rsb_means (fun _ => form_dot (g := fun b _ => rsbOf b) rfl rfl) (fun _ => rfl)

theorem muls_text : Means Thumb.muls :=
  mul_means (fun _ => rfl) (fun _ => rfl)

theorem mulW_text : Means Thumb.mulW :=
  mul_means (fun _ => rfl) (fun _ => rfl)

theorem small_const {n k : Nat} (h : n < k) (hk : k ≤ 4096) : (w32 n).toNat < 4096 := by
  unfold w32
  rw [BitVec.toNat_ofNat]
  omega

theorem adrT1_text : Means Thumb.adrT1 :=
  adr_means (fun _ => rfl) (fun _ => rfl) fun w => by
    have : field Thumb.adrT1.pat w 'i' < 256 := field_bound _ w 'i' rfl
    exact small_const (k := 1024) (by omega) (by decide)

theorem adrAddW_text : Means Thumb.adrAddW :=
  adr_means (fun _ => rfl) (fun _ => rfl) fun w => small_const (field_bound _ w 'i' rfl) (by decide)

theorem adrSubW_text : Means Thumb.adrSubW :=
  adr_means (fun _ => rfl) (fun _ => rfl) fun w => small_const (field_bound _ w 'i' rfl) (by decide)

theorem uxtb_text : Means Thumb.uxtb :=
  extend_means (fun _ => rfl) (fun _ => rfl)

theorem uxth_text : Means Thumb.uxth :=
  extend_means (fun _ => rfl) (fun _ => rfl)

theorem sxtb_text : Means Thumb.sxtb :=
  extend_means (fun _ => rfl) (fun _ => rfl)

theorem sxth_text : Means Thumb.sxth :=
  extend_means (fun _ => rfl) (fun _ => rfl)

theorem uxtbW_text : Means Thumb.uxtbW :=
  extend_means (fun _ => rfl) (fun _ => rfl)

theorem uxthW_text : Means Thumb.uxthW :=
  extend_means (fun _ => rfl) (fun _ => rfl)

theorem sxtbW_text : Means Thumb.sxtbW :=
  extend_means (fun _ => rfl) (fun _ => rfl)

theorem sxthW_text : Means Thumb.sxthW :=
  extend_means (fun _ => rfl) (fun _ => rfl)

theorem revsh_text : Means Thumb.revsh :=
  rev_means (fun _ => rfl) (fun _ => rfl)

theorem rev16_text : Means Thumb.rev16 :=
  rev_means (fun _ => rfl) (fun _ => rfl)

theorem rev_text : Means Thumb.rev :=
  rev_means (fun _ => rfl) (fun _ => rfl)

theorem revshW_text : Means Thumb.revshW :=
  rev_means (fun _ => rfl) (fun _ => rfl)

theorem rev16W_text : Means Thumb.rev16W :=
  rev_means (fun _ => rfl) (fun _ => rfl)

theorem revW_text : Means Thumb.revW :=
  rev_means (fun _ => rfl) (fun _ => rfl)

theorem movReg_text : Means Thumb.movReg :=
  movReg_means (flags := fun _ => false) (fun _ => rfl) (fun _ => rfl)

theorem movsReg_text : Means Thumb.movsReg :=
  movReg_means (flags := fun _ => true) (fun _ => rfl) (fun _ => rfl)

theorem movRegW_text : Means Thumb.movRegW :=
  movReg_means (fun _ => form_dot (g := fun b _ => movOf false b) rfl rfl) (fun _ => rfl)

theorem mvns_text : Means Thumb.mvns :=
  movReg_means (flags := fun _ => true) (fun _ => rfl) (fun _ => rfl)

theorem mvnW_text : Means Thumb.mvnW :=
  shifted_means (mk := fun f => .mvnShift (f 's' = 1))
    (fun f => form_dot (g := fun b _ => shiftedOf fun d m s => some (.mvnShift b d m s)) rfl rfl) (fun _ => rfl) (fun _ _ _ h => h)
    (fun _ _ => rfl) (fun _ => immShift_zero)

theorem cmpImm_text : Means Thumb.cmpImm :=
  cmp_means (fun _ => rfl) (fun _ => rfl)

theorem cmnReg_text : Means Thumb.cmnReg :=
  cmp_means (fun _ => rfl) (fun _ => rfl)

theorem cmpRegT1_text : Means Thumb.cmpRegT1 :=
  cmp_means (fun _ => rfl) (fun _ => rfl)

theorem cmpRegT2_text : Means Thumb.cmpRegT2 :=
  cmp_means (fun _ => rfl) (fun _ => rfl)

theorem cmnImm_text : Means Thumb.cmnImm :=
  cmp_means (fun _ => rfl) (fun _ => rfl)

theorem cmpImmW_text : Means Thumb.cmpImmW :=
  cmp_means (fun _ => rfl) (fun _ => rfl)

theorem tst_text : Means Thumb.tst :=
  shifted_means (mk := fun _ => .tst) (fun _ => rfl) (fun _ => rfl) (fun _ _ _ h => h) (fun _ _ => rfl) (fun _ _ => nofun)

theorem tstW_text : Means Thumb.tstW :=
  shifted_means (mk := fun _ => .tst) (fun _ => rfl) (fun _ => rfl) (fun _ _ _ h => h) (fun _ _ => rfl) (fun _ => immShift_zero)

theorem b_text : Means Thumb.b :=
  label_means (mk := fun _ => .branch 15) (fun _ _ => rfl) (fun _ => rfl) (fun _ _ _ h => h)

theorem bl_text : Means Thumb.bl :=
  label_means (mk := fun _ => .bl) (fun _ _ => rfl) (fun _ => rfl) (fun _ _ _ h => h)

theorem blx_text : Means Thumb.blx :=
  one_means (mk := .blx) (fun _ => rfl) (fun _ => rfl) (fun _ _ _ h => h)

theorem bx_text : Means Thumb.bx :=
  one_means (mk := .bx) (fun _ => rfl) (fun _ => rfl) (fun _ _ _ h => h)

theorem ldrshReg_text : Means Thumb.ldrshReg :=
  load_means (fun _ => rfl) (fun _ => rfl) (fun _ _ => not15 (by decide)) (fun _ _ _ h => noShift (t := .none) nofun h)

theorem ldrbReg_text : Means Thumb.ldrbReg :=
  load_means (fun _ => rfl) (fun _ => rfl) (fun _ _ => not15 (by decide)) (fun _ _ _ h => noShift (t := .none) nofun h)

theorem ldrhReg_text : Means Thumb.ldrhReg :=
  load_means (fun _ => rfl) (fun _ => rfl) (fun _ _ => not15 (by decide)) (fun _ _ _ h => noShift (t := .none) nofun h)

theorem ldrReg_text : Means Thumb.ldrReg :=
  load_means (fun _ => rfl) (fun _ => rfl) (fun _ _ => not15 (by decide)) (fun _ _ _ h => noShift (t := .none) nofun h)

theorem ldrsbReg_text : Means Thumb.ldrsbReg :=
  load_means (fun _ => rfl) (fun _ => rfl) (fun _ _ => not15 (by decide)) (fun _ _ _ h => noShift (t := .none) nofun h)

theorem strbReg_text : Means Thumb.strbReg :=
  store_means (fun _ => rfl) (fun _ => rfl) (fun _ _ _ h => noShift (t := .none) nofun h)

theorem strhReg_text : Means Thumb.strhReg :=
  store_means (fun _ => rfl) (fun _ => rfl) (fun _ _ _ h => noShift (t := .none) nofun h)

theorem strReg_text : Means Thumb.strReg :=
  store_means (fun _ => rfl) (fun _ => rfl) (fun _ _ _ h => noShift (t := .none) nofun h)

theorem strRegW_text : Means Thumb.strRegW :=
  store_means (fun _ => rfl) (fun _ => rfl) (fun _ _ _ h => noShift (t := .lsl) nofun h)

theorem strhRegW_text : Means Thumb.strhRegW :=
  store_means (fun _ => rfl) (fun _ => rfl) (fun _ _ _ h => noShift (t := .lsl) nofun h)

theorem strbRegW_text : Means Thumb.strbRegW :=
  store_means (fun _ => rfl) (fun _ => rfl) (fun _ _ _ h => noShift (t := .lsl) nofun h)

theorem ldrshRegW_text : Means Thumb.ldrshRegW :=
  load_means (fun _ => rfl) (fun _ => rfl) (fun _ h => ok15 h rfl) (fun _ _ _ h => noShift (t := .lsl) nofun h)

theorem ldrsbRegW_text : Means Thumb.ldrsbRegW :=
  load_means (fun _ => rfl) (fun _ => rfl) (fun _ h => ok15 h rfl) (fun _ _ _ h => noShift (t := .lsl) nofun h)

theorem ldrRegW_text : Means Thumb.ldrRegW :=
  load_means (fun _ => rfl) (fun _ => rfl) (fun _ h => ok15' h rfl) (fun _ _ _ h => noShift (t := .lsl) nofun h)

theorem ldrhRegW_text : Means Thumb.ldrhRegW :=
  load_means (fun _ => rfl) (fun _ => rfl) (fun _ h => ok15 h rfl) (fun _ _ _ h => noShift (t := .lsl) nofun h)

theorem ldrbRegW_text : Means Thumb.ldrbRegW :=
  load_means (fun _ => rfl) (fun _ => rfl) (fun _ h => ok15 h rfl) (fun _ _ _ h => noShift (t := .lsl) nofun h)

theorem ldrhImm_text : Means Thumb.ldrhImm :=
  load_means (fun _ => rfl) (fun _ => rfl) (fun _ _ => not15 (by decide)) (fun _ _ _ h => nomatch h)

theorem strhImm_text : Means Thumb.strhImm :=
  store_means (fun _ => rfl) (fun _ => rfl) (fun _ _ _ h => nomatch h)

theorem ldrbImm_text : Means Thumb.ldrbImm :=
  load_means (fun _ => rfl) (fun _ => rfl) (fun _ _ => not15 (by decide)) (fun _ _ _ h => nomatch h)

theorem strbImm_text : Means Thumb.strbImm :=
  store_means (fun _ => rfl) (fun _ => rfl) (fun _ _ _ h => nomatch h)

theorem ldrImm_text : Means Thumb.ldrImm :=
  load_means (fun _ => rfl) (fun _ => rfl) (fun _ _ => not15 (by decide)) (fun _ _ _ h => nomatch h)

theorem strImm_text : Means Thumb.strImm :=
  store_means (fun _ => rfl) (fun _ => rfl) (fun _ _ _ h => nomatch h)

theorem ldrLit_text : Means Thumb.ldrLit :=
  literal_means (add := fun _ => true) (fun _ => rfl) (fun _ => rfl)

theorem ldrsbLitW_text : Means Thumb.ldrsbLitW :=
  literal_means (fun _ => rfl) (fun _ => rfl)

theorem ldrshLitW_text : Means Thumb.ldrshLitW :=
  literal_means (fun _ => rfl) (fun _ => rfl)

theorem ldrbLitW_text : Means Thumb.ldrbLitW :=
  literal_means (fun _ => rfl) (fun _ => rfl)

theorem ldrhLitW_text : Means Thumb.ldrhLitW :=
  literal_means (fun _ => rfl) (fun _ => rfl)

theorem ldrLitW_text : Means Thumb.ldrLitW :=
  literal_means (fun _ => rfl) (fun _ => rfl)

theorem ldrSp_text : Means Thumb.ldrSp :=
  load_means (n := fun _ => 13) (fun _ => rfl) (fun _ => rfl) (fun _ _ => by decide) (fun _ _ _ h => nomatch h)

theorem strSp_text : Means Thumb.strSp :=
  store_means (fun _ => rfl) (fun _ => rfl) (fun _ _ _ h => nomatch h)

theorem push_text : Means Thumb.push :=
  regs_means (mk := .push) (fun _ => rfl) (fun _ => rfl) (fun _ _ _ h => h)

theorem pushW_text : Means Thumb.pushW :=
  regs_means (mk := .push) (fun _ => rfl) (fun _ => rfl) (fun _ _ _ h => h)

theorem pushOne_text : Means Thumb.pushOne :=
  regs_means (mk := .push) (fun _ => rfl) (fun _ => rfl) (fun _ _ _ h => h)

theorem pop_text : Means Thumb.pop :=
  regs_means (mk := .pop) (fun _ => rfl) (fun _ => rfl) (fun _ _ _ h => h)

theorem popW_text : Means Thumb.popW :=
  regs_means (mk := .pop) (fun _ => rfl) (fun _ => rfl) (fun _ _ _ h => h)

theorem popOne_text : Means Thumb.popOne :=
  regs_means (mk := .pop) (fun _ => rfl) (fun _ => rfl) (fun _ _ _ h => h)

theorem ldm_text : Means Thumb.ldm :=
  many_means (mk := .ldm) (fun _ => rfl) (fun _ => rfl) (fun _ _ _ h => h)

theorem stm_text : Means Thumb.stm :=
  many_means (mk := .stm) (fun _ => rfl) (fun _ => rfl) (fun _ _ _ h => h)

theorem stmW_text : Means Thumb.stmW :=
  many_means (mk := .stm) (fun _ => rfl) (fun _ => rfl) (fun _ _ _ h => h)

theorem ldmW_text : Means Thumb.ldmW :=
  many_means (mk := .ldm) (fun _ => rfl) (fun _ => rfl) (fun _ _ _ h => h)

theorem bkpt_text : Means Thumb.bkpt :=
  plain_means (fun _ => rfl) (fun _ => rfl)

theorem sev_text : Means Thumb.sev :=
  plain_means (fun _ => rfl) (fun _ => rfl)

theorem wfi_text : Means Thumb.wfi :=
  plain_means (fun _ => rfl) (fun _ => rfl)

theorem wfe_text : Means Thumb.wfe :=
  plain_means (fun _ => rfl) (fun _ => rfl)

theorem yield_text : Means Thumb.yield :=
  plain_means (fun _ => rfl) (fun _ => rfl)

theorem nop_text : Means Thumb.nop :=
  plain_means (fun _ => rfl) (fun _ => rfl)

theorem isb_text : Means Thumb.isb :=
  plain_means (fun _ => rfl) (fun _ => rfl)

theorem dmb_text : Means Thumb.dmb :=
  plain_means (fun _ => rfl) (fun _ => rfl)

theorem dsb_text : Means Thumb.dsb :=
  plain_means (fun _ => rfl) (fun _ => rfl)

theorem svc_text : Means Thumb.svc :=
  plain_means (fun _ => rfl) (fun _ => rfl)

theorem udf_text : Means Thumb.udf :=
  plain_means (fun _ => rfl) (fun _ => rfl)

theorem udfW_text : Means Thumb.udfW :=
  plain_means (fun _ => rfl) (fun _ => rfl)

theorem encodings_mean : ∀ e ∈ encodings, Means e := by
  simp only [encodings, List.forall_mem_cons]
  exact ⟨bics_text, orrs_text, rorsReg_text, sbcs_text, adcs_text, asrsReg_text, lsrsReg_text, lslsReg_text, eors_text,
    ands_text, subsImmT1_text, addsImmT1_text, subsImmT2_text, addsImmT2_text, subsReg_text, addsReg_text,
    addRegT2_text, addSpImmT1_text, addSpRegT1_text, addSpRegT2_text, subSpImm_text, addSpImmT2_text, asrsImm_text,
    lsrsImm_text, lslsImm_text, rsbs_text, rsbW_text, muls_text, mulW_text, adrT1_text, adrAddW_text, adrSubW_text,
    uxtb_text, uxth_text, sxtb_text, sxth_text, uxtbW_text, uxthW_text, sxtbW_text, sxthW_text, revsh_text, rev16_text,
    rev_text, revshW_text, rev16W_text, revW_text, movReg_text, movsReg_text, movRegW_text, movsImm_means,
    movImmW_means, movw_means, mvns_text, mvnW_text, cmpImm_text, cmnReg_text, cmpRegT1_text, cmpRegT2_text,
    cmnImm_text, cmpImmW_text, tst_text, tstW_text, bCond_means, b_text, bl_text, blx_text, bx_text, ldrshReg_text,
    ldrbReg_text, ldrhReg_text, ldrReg_text, ldrsbReg_text, strbReg_text, strhReg_text, strReg_text, strRegW_text,
    strhRegW_text, strbRegW_text, ldrshRegW_text, ldrsbRegW_text, ldrRegW_text, ldrhRegW_text, ldrbRegW_text,
    ldrhImm_text, strhImm_text, ldrbImm_text, strbImm_text, ldrImm_text, strImm_text, ldrLit_text, ldrsbLitW_text,
    ldrshLitW_text, ldrbLitW_text, ldrhLitW_text, ldrLitW_text, ldrSp_text, strSp_text, push_text, pushW_text,
    pushOne_text, pop_text, popW_text, popOne_text, ldm_text, stm_text, stmW_text, ldmW_text, cps_means, bkpt_text,
    mrs_means, msr_means, sev_text, wfi_text, wfe_text, yield_text, nop_text, isb_text, dmb_text, dsb_text, svc_text,
    udf_text, udfW_text, fun _ h => nomatch h⟩

end Mean
end Verif
