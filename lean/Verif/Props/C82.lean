import Verif.Props.C36to39

/-!
# C82: which words are decoded

For every sequence of bytes the kind of the outcome is determined by the manual's tables: decoded, unpredictable,
or undefined.
-/

namespace Verif
open Thumb
namespace C82

/-- The encodings for which the program checks what the manual calls unpredictable, apart from LDM.W. -/
def checked : List Str := [
  rsbW.pat, mulW.pat, revshW.pat, rev16W.pat, revW.pat, tstW.pat, push.pat, pushOne.pat, pop.pat, popW.pat,
  ldm.pat, stm.pat, stmW.pat, cps.pat, mrs.pat, msr.pat]

/-- The loads and stores with a register offset: with Rn = 15 they are other instructions. -/
def regOffset : List Str := [
  strRegW.pat, strhRegW.pat, strbRegW.pat, ldrshRegW.pat, ldrsbRegW.pat, ldrRegW.pat, ldrhRegW.pat, ldrbRegW.pat]

/-- The loads from literals. -/
def literals : List Str := [
  ldrsbLitW.pat, ldrshLitW.pat, ldrbLitW.pat, ldrhLitW.pat, ldrLitW.pat]

/-- The word is unpredictable, and the program checks it. -/
def Unpredictable (e : Enc) (f : Char → Nat) : Prop :=
  (e.pat ∈ checked ∧ e.ok f = false) ∨ (e.pat = ldmW.pat ∧ ¬ (f 'w' = 1 ∧ f 'n' = 13) ∧ e.ok f = false)

/-- The word is passed on to another encoding. -/
def Elsewhere (e : Enc) (f : Char → Nat) : Prop :=
  (e.pat ∈ regOffset ∧ f 'n' = 15) ∨ (e.pat ∈ literals ∧ f 't' = 15) ∨ (e.pat = addSpRegT2.pat ∧ f 'm' = 13) ∨
    (e.pat = ldmW.pat ∧ f 'w' = 1 ∧ f 'n' = 13)

instance (e : Enc) (f : Char → Nat) : Decidable (Unpredictable e f) := by unfold Unpredictable; infer_instance
instance (e : Enc) (f : Char → Nat) : Decidable (Elsewhere e f) := by unfold Elsewhere; infer_instance

/-- What the case raises is determined by the above. -/
def Fate (c : Case) : Prop := ∀ f, c.raises f =
  if c.enc.pat = pushW.pat then some .nameError
  else if Unpredictable c.enc f then some .unpredictable
  else if Elsewhere c.enc f then some .decodeError
  else none

/-- Which of the lists the diagram is in. -/
def kind (p : Str) : Bool × Bool × Bool × Bool × Bool × Bool :=
  (p == pushW.pat, checked.contains p, regOffset.contains p, literals.contains p, p == addSpRegT2.pat, p == ldmW.pat)

theorem kind_none {p : Str} {x : Bool × Bool × Bool × Bool × Bool × Bool} (h : kind p = x) :
    (p = pushW.pat ↔ x.1 = true) ∧ (p ∈ checked ↔ x.2.1 = true) ∧ (p ∈ regOffset ↔ x.2.2.1 = true) ∧
      (p ∈ literals ↔ x.2.2.2.1 = true) ∧ (p = addSpRegT2.pat ↔ x.2.2.2.2.1 = true) ∧ (p = ldmW.pat ↔ x.2.2.2.2.2 = true) := by
  subst h
  simp [kind, List.contains_iff_mem]

theorem fate_none {c : Case} (h : kind c.enc.pat = (false, false, false, false, false, false)) (hr : ∀ f, c.raises f = none) : Fate c := by
  obtain ⟨h1, h2, h3, h4, h5, h6⟩ := kind_none h
  intro f
  simp [hr, Unpredictable, Elsewhere, h1, h2, h3, h4, h5, h6]

theorem fate_strict {c : Case} (h : kind c.enc.pat = (false, true, false, false, false, false))
    (hr : ∀ f, c.raises f = if c.enc.ok f then none else some .unpredictable) : Fate c := by
  obtain ⟨h1, h2, h3, h4, h5, h6⟩ := kind_none h
  intro f
  rw [hr]
  cases ho : c.enc.ok f <;> simp [Unpredictable, Elsewhere, h1, h2, h3, h4, h5, h6, ho]

theorem fate_reg {c : Case} (h : kind c.enc.pat = (false, false, true, false, false, false))
    (hr : ∀ f, c.raises f = if f 'n' = 15 then some .decodeError else none) : Fate c := by
  obtain ⟨h1, h2, h3, h4, h5, h6⟩ := kind_none h
  intro f
  simp [hr, Unpredictable, Elsewhere, h1, h2, h3, h4, h5, h6]

theorem fate_lit {c : Case} (h : kind c.enc.pat = (false, false, false, true, false, false))
    (hr : ∀ f, c.raises f = if f 't' = 15 then some .decodeError else none) : Fate c := by
  obtain ⟨h1, h2, h3, h4, h5, h6⟩ := kind_none h
  intro f
  simp [hr, Unpredictable, Elsewhere, h1, h2, h3, h4, h5, h6]

theorem fate_sp : Fate Case.addSpRegT2 := by
  obtain ⟨h1, h2, h3, h4, h5, h6⟩ := kind_none (p := Case.addSpRegT2.enc.pat) (x := (false, false, false, false, true, false)) (by decide)
  intro f
  simp only [Unpredictable, Elsewhere, h1, h2, h3, h4, h5, h6]
  simp [Case.addSpRegT2]

theorem fate_ldm : Fate Case.ldmW := by
  obtain ⟨h1, h2, h3, h4, h5, h6⟩ := kind_none (p := Case.ldmW.enc.pat) (x := (false, false, false, false, false, true)) (by decide)
  intro f
  simp only [Unpredictable, Elsewhere, h1, h2, h3, h4, h5, h6]
  have hr : Case.ldmW.raises f = if f 'w' = 1 ∧ f 'n' = 13 then some .decodeError else if Case.ldmW.enc.ok f then none else some .unpredictable := rfl
  rw [hr]
  by_cases h : f 'w' = 1 ∧ f 'n' = 13
  · simp [h]
  · cases Case.ldmW.enc.ok f <;> simp [h]

theorem fates : ∀ c ∈ Case.all, Fate c := by
  simp only [Case.all, List.forall_mem_cons]
  exact ⟨
    fate_none (by decide) fun _ => rfl,
    fate_none (by decide) fun _ => rfl,
    fate_none (by decide) fun _ => rfl,
    fate_none (by decide) fun _ => rfl,
    fate_none (by decide) fun _ => rfl,
    fate_none (by decide) fun _ => rfl,
    fate_none (by decide) fun _ => rfl,
    fate_none (by decide) fun _ => rfl,
    fate_none (by decide) fun _ => rfl,
    fate_none (by decide) fun _ => rfl,
    fate_none (by decide) fun _ => rfl,
    fate_none (by decide) fun _ => rfl,
    fate_none (by decide) fun _ => rfl,
    fate_none (by decide) fun _ => rfl,
    fate_none (by decide) fun _ => rfl,
    fate_none (by decide) fun _ => rfl,
    fate_none (by decide) fun _ => rfl,
    fate_none (by decide) fun _ => rfl,
    fate_none (by decide) fun _ => rfl,
    fate_sp,
    fate_none (by decide) fun _ => rfl,
    fate_none (by decide) fun _ => rfl,
    fate_none (by decide) fun _ => rfl,
    fate_none (by decide) fun _ => rfl,
    fate_none (by decide) fun _ => rfl,
    fate_none (by decide) fun _ => rfl,
    fate_strict (by decide) fun _ => rfl,
    fate_none (by decide) fun _ => rfl,
    fate_strict (by decide) fun _ => rfl,
    fate_none (by decide) fun _ => rfl,
    fate_none (by decide) fun _ => rfl,
    fate_none (by decide) fun _ => rfl,
    fate_none (by decide) fun _ => rfl,
    fate_none (by decide) fun _ => rfl,
    fate_none (by decide) fun _ => rfl,
    fate_none (by decide) fun _ => rfl,
    fate_none (by decide) fun _ => rfl,
    fate_none (by decide) fun _ => rfl,
    fate_none (by decide) fun _ => rfl,
    fate_none (by decide) fun _ => rfl,
    fate_none (by decide) fun _ => rfl,
    fate_none (by decide) fun _ => rfl,
    fate_none (by decide) fun _ => rfl,
    fate_strict (by decide) fun _ => rfl,
    fate_strict (by decide) fun _ => rfl,
    fate_strict (by decide) fun _ => rfl,
    fate_none (by decide) fun _ => rfl,
    fate_none (by decide) fun _ => rfl,
    fate_none (by decide) fun _ => rfl,
    fate_none (by decide) fun _ => rfl,
    fate_none (by decide) fun _ => rfl,
    fate_none (by decide) fun _ => rfl,
    fate_none (by decide) fun _ => rfl,
    fate_none (by decide) fun _ => rfl,
    fate_none (by decide) fun _ => rfl,
    fate_none (by decide) fun _ => rfl,
    fate_none (by decide) fun _ => rfl,
    fate_none (by decide) fun _ => rfl,
    fate_none (by decide) fun _ => rfl,
    fate_none (by decide) fun _ => rfl,
    fate_none (by decide) fun _ => rfl,
    fate_strict (by decide) fun _ => rfl,
    fate_none (by decide) fun _ => rfl,
    fate_none (by decide) fun _ => rfl,
    fate_none (by decide) fun _ => rfl,
    fate_none (by decide) fun _ => rfl,
    fate_none (by decide) fun _ => rfl,
    fate_none (by decide) fun _ => rfl,
    fate_none (by decide) fun _ => rfl,
    fate_none (by decide) fun _ => rfl,
    fate_none (by decide) fun _ => rfl,
    fate_none (by decide) fun _ => rfl,
    fate_none (by decide) fun _ => rfl,
    fate_none (by decide) fun _ => rfl,
    fate_none (by decide) fun _ => rfl,
    fate_reg (by decide) fun _ => rfl,
    fate_reg (by decide) fun _ => rfl,
    fate_reg (by decide) fun _ => rfl,
    fate_reg (by decide) fun _ => rfl,
    fate_reg (by decide) fun _ => rfl,
    fate_reg (by decide) fun _ => rfl,
    fate_reg (by decide) fun _ => rfl,
    fate_reg (by decide) fun _ => rfl,
    fate_none (by decide) fun _ => rfl,
    fate_none (by decide) fun _ => rfl,
    fate_none (by decide) fun _ => rfl,
    fate_none (by decide) fun _ => rfl,
    fate_none (by decide) fun _ => rfl,
    fate_none (by decide) fun _ => rfl,
    fate_none (by decide) fun _ => rfl,
    fate_lit (by decide) fun _ => rfl,
    fate_lit (by decide) fun _ => rfl,
    fate_lit (by decide) fun _ => rfl,
    fate_lit (by decide) fun _ => rfl,
    fate_lit (by decide) fun _ => rfl,
    fate_none (by decide) fun _ => rfl,
    fate_none (by decide) fun _ => rfl,
    fate_strict (by decide) fun _ => rfl,
    fun _ => rfl,
    fate_strict (by decide) fun _ => rfl,
    fate_strict (by decide) fun _ => rfl,
    fate_strict (by decide) fun _ => rfl,
    fate_none (by decide) fun _ => rfl,
    fate_strict (by decide) fun _ => rfl,
    fate_strict (by decide) fun _ => rfl,
    fate_strict (by decide) fun _ => rfl,
    fate_ldm,
    fate_strict (by decide) fun _ => rfl,
    fate_none (by decide) fun _ => rfl,
    fate_strict (by decide) fun _ => rfl,
    fate_strict (by decide) fun _ => rfl,
    fate_none (by decide) fun _ => rfl,
    fate_none (by decide) fun _ => rfl,
    fate_none (by decide) fun _ => rfl,
    fate_none (by decide) fun _ => rfl,
    fate_none (by decide) fun _ => rfl,
    fate_none (by decide) fun _ => rfl,
    fate_none (by decide) fun _ => rfl,
    fate_none (by decide) fun _ => rfl,
    fate_none (by decide) fun _ => rfl,
    fate_none (by decide) fun _ => rfl,
    fate_none (by decide) fun _ => rfl,
    fun x h => nomatch h⟩

/-! ### Words that fit two diagrams -/

/-- Some bit is 0 in one diagram and 1 in the other. -/
def apart (p q : Str) : Bool := (List.range p.length).any fun k =>
  (letter p k == '0' && letter q k == '1') || (letter p k == '1' && letter q k == '0')

theorem not_both {p q : Str} (hl : p.length = q.length) (h : apart p q = true) {w : Nat} (h1 : fits p w = true) (h2 : fits q w = true) :
    False := by
  simp only [apart, List.any_eq_true, List.mem_range, Bool.or_eq_true, Bool.and_eq_true, beq_iff_eq] at h
  obtain ⟨k, hk, h⟩ := h
  have a := fits_iff.1 h1 k hk
  have b := fits_iff.1 h2 k (hl ▸ hk)
  rcases h with ⟨x, y⟩ | ⟨x, y⟩
  · have := a.1 x
    rw [b.2 y] at this
    cases this
  · have := a.2 x
    rw [b.1 y] at this
    cases this

/-- The pairs of diagrams that a word can fit both. -/
def pairs : List (Str × Str) := [(addRegT2.pat, addSpRegT1.pat), (addRegT2.pat, addSpRegT2.pat), (addSpRegT1.pat, addSpRegT2.pat),
  (lslsImm.pat, movsReg.pat), (bCond.pat, svc.pat), (bCond.pat, udf.pat), (ldrshRegW.pat, ldrshLitW.pat), (ldrsbRegW.pat, ldrsbLitW.pat),
  (ldrRegW.pat, ldrLitW.pat), (ldrhRegW.pat, ldrhLitW.pat), (ldrbRegW.pat, ldrbLitW.pat), (popW.pat, ldmW.pat)]

set_option maxRecDepth 100000 in
theorem all_pairs : ∀ p ∈ Case.all.map (·.enc.pat), ∀ q ∈ Case.all.map (·.enc.pat),
    (p.length != q.length || apart p q || p == q || pairs.contains (p, q) || pairs.contains (q, p)) = true := by
  decide +kernel

theorem pats_nodup : (Case.all.map (·.enc.pat)).Nodup := by decide +kernel

theorem same_pat {k k' : Case} (hk : k ∈ Case.all) (hk' : k' ∈ Case.all) (h : k.enc.pat = k'.enc.pat) : k = k' := by
  have hn := pats_nodup
  revert hk hk' hn
  generalize Case.all = l
  intro hk hk' hn
  induction l with
  | nil => cases hk
  | cons x t ih =>
    rw [List.map_cons, List.nodup_cons] at hn
    rcases List.mem_cons.1 hk with rfl | h1 <;> rcases List.mem_cons.1 hk' with rfl | h2
    · rfl
    · exact absurd (List.mem_map.2 ⟨k', h2, h.symm⟩) hn.1
    · exact absurd (List.mem_map.2 ⟨k, h1, h⟩) hn.1
    · exact ih h1 h2 hn.2

theorem meet {k k' : Case} (hk : k ∈ Case.all) (hk' : k' ∈ Case.all) (hl : k.enc.pat.length = k'.enc.pat.length) {w : Nat}
    (h : fits k.enc.pat w = true) (h' : fits k'.enc.pat w = true) :
    k = k' ∨ (k.enc.pat, k'.enc.pat) ∈ pairs ∨ (k'.enc.pat, k.enc.pat) ∈ pairs := by
  have := all_pairs _ (List.mem_map_of_mem hk) _ (List.mem_map_of_mem hk')
  simp only [Bool.or_eq_true, bne_iff_ne, ne_eq, beq_iff_eq, List.contains_iff_mem] at this
  rcases this with (((h1 | h1) | h1) | h1) | h1
  · exact absurd hl h1
  · exact (not_both hl h1 h h').elim
  · exact .inl (same_pat hk hk' h1)
  · exact .inr (.inl h1)
  · exact .inr (.inr h1)

/-- The bits of a field, if another diagram fixes them. -/
theorem field_fixed {p q : Str} {w v : Nat} {c : Char} (h : fits q w = true)
    (hp : (places p c).all (fun k => k < q.length && (letter q k == '0' || letter q k == '1')) = true)
    (hv : (places p c).foldl (fun v k => 2 * v + (if letter q k = '1' then 1 else 0)) 0 = v) : field p w c = v := by
  subst hv
  unfold field bitsValue
  generalize places p c = l at hp
  have : ∀ n : Nat, l.foldl (fun v k => 2 * v + (w.testBit k).toNat) n = l.foldl (fun v k => 2 * v + (if letter q k = '1' then 1 else 0)) n := by
    induction l with
    | nil => intro n; rfl
    | cons k t ih =>
      intro n
      simp only [List.all_cons, Bool.and_eq_true, decide_eq_true_eq, Bool.or_eq_true, beq_iff_eq] at hp
      obtain ⟨⟨hk, hc⟩, ht⟩ := hp
      rw [List.foldl_cons, List.foldl_cons, ih (by simpa using ht)]
      have := fits_iff.1 h k hk
      rcases hc with hc | hc
      · rw [this.1 hc, hc]; rfl
      · rw [this.2 hc, hc]; rfl
  exact this 0

theorem pairs_out {k k' : Case} (hk : k ∈ Case.all) (hk' : k' ∈ Case.all) (hp : (k.enc.pat, k'.enc.pat) ∈ pairs) {w : Nat}
    (h : fits k.enc.pat w = true) (h' : fits k'.enc.pat w = true) :
    (k.raises (field k.enc.pat w) = some .decodeError ∨ k'.raises (field k'.enc.pat w) = some .decodeError) ∨
    (k.raises (field k.enc.pat w) = none ∧ k'.raises (field k'.enc.pat w) = none) := by
  have hr : ∀ {a b : Case}, a ∈ Case.all → b ∈ Case.all → (k.enc.pat, k'.enc.pat) = (a.enc.pat, b.enc.pat) → k = a ∧ k' = b :=
    fun ha hb e => ⟨same_pat hk ha (Prod.mk.inj e).1, same_pat hk' hb (Prod.mk.inj e).2⟩
  simp only [pairs, List.mem_cons, List.not_mem_nil, or_false] at hp
  rcases hp with e | e | e | e | e | e | e | e | e | e | e | e
  · obtain ⟨rfl, rfl⟩ := hr (a := Case.addRegT2) (b := Case.addSpRegT1) (by simp [Case.all]) (by simp [Case.all]) e
    exact .inr ⟨rfl, rfl⟩
  · obtain ⟨rfl, rfl⟩ := hr (a := Case.addRegT2) (b := Case.addSpRegT2) (by simp [Case.all]) (by simp [Case.all]) e
    by_cases hm : field addSpRegT2.pat w 'm' = 13
    · exact .inl (.inr (if_pos hm))
    · exact .inr ⟨rfl, if_neg hm⟩
  · obtain ⟨rfl, rfl⟩ := hr (a := Case.addSpRegT1) (b := Case.addSpRegT2) (by simp [Case.all]) (by simp [Case.all]) e
    have : field addSpRegT2.pat w 'm' = 13 := field_fixed h (by decide) (by decide)
    exact .inl (.inr (if_pos this))
  · obtain ⟨rfl, rfl⟩ := hr (a := Case.lslsImm) (b := Case.movsReg) (by simp [Case.all]) (by simp [Case.all]) e
    exact .inr ⟨rfl, rfl⟩
  · obtain ⟨rfl, rfl⟩ := hr (a := Case.bCond) (b := Case.svc) (by simp [Case.all]) (by simp [Case.all]) e
    exact .inr ⟨rfl, rfl⟩
  · obtain ⟨rfl, rfl⟩ := hr (a := Case.bCond) (b := Case.udf) (by simp [Case.all]) (by simp [Case.all]) e
    exact .inr ⟨rfl, rfl⟩
  · obtain ⟨rfl, rfl⟩ := hr (a := Case.ldrshRegW) (b := Case.ldrshLitW) (by simp [Case.all]) (by simp [Case.all]) e
    have : field ldrshRegW.pat w 'n' = 15 := field_fixed h' (by decide) (by decide)
    exact .inl (.inl (if_pos this))
  · obtain ⟨rfl, rfl⟩ := hr (a := Case.ldrsbRegW) (b := Case.ldrsbLitW) (by simp [Case.all]) (by simp [Case.all]) e
    have : field ldrsbRegW.pat w 'n' = 15 := field_fixed h' (by decide) (by decide)
    exact .inl (.inl (if_pos this))
  · obtain ⟨rfl, rfl⟩ := hr (a := Case.ldrRegW) (b := Case.ldrLitW) (by simp [Case.all]) (by simp [Case.all]) e
    have : field ldrRegW.pat w 'n' = 15 := field_fixed h' (by decide) (by decide)
    exact .inl (.inl (if_pos this))
  · obtain ⟨rfl, rfl⟩ := hr (a := Case.ldrhRegW) (b := Case.ldrhLitW) (by simp [Case.all]) (by simp [Case.all]) e
    have : field ldrhRegW.pat w 'n' = 15 := field_fixed h' (by decide) (by decide)
    exact .inl (.inl (if_pos this))
  · obtain ⟨rfl, rfl⟩ := hr (a := Case.ldrbRegW) (b := Case.ldrbLitW) (by simp [Case.all]) (by simp [Case.all]) e
    have : field ldrbRegW.pat w 'n' = 15 := field_fixed h' (by decide) (by decide)
    exact .inl (.inl (if_pos this))
  · obtain ⟨rfl, rfl⟩ := hr (a := Case.popW) (b := Case.ldmW) (by simp [Case.all]) (by simp [Case.all]) e
    have h1 : field ldmW.pat w 'w' = 1 := field_fixed h (by decide) (by decide)
    have h2 : field ldmW.pat w 'n' = 13 := field_fixed h (by decide) (by decide)
    exact .inl (.inr (if_pos (show field ldmW.pat w 'w' = 1 ∧ field ldmW.pat w 'n' = 13 from ⟨h1, h2⟩)))

/-- Of two diagrams that a word fits, one passes it on, or both decode it. -/
theorem settled {k k' : Case} (hk : k ∈ Case.all) (hk' : k' ∈ Case.all) (hl : k.enc.pat.length = k'.enc.pat.length) {w : Nat}
    (h : fits k.enc.pat w = true) (h' : fits k'.enc.pat w = true) (hr : k.raises (field k.enc.pat w) ≠ some .decodeError)
    (hr' : k'.raises (field k'.enc.pat w) ≠ some .decodeError) :
    k = k' ∨ (k.raises (field k.enc.pat w) = none ∧ k'.raises (field k'.enc.pat w) = none) := by
  rcases meet hk hk' hl h h' with e | e | e
  · exact .inl e
  · rcases pairs_out hk hk' e h h' with (x | x) | x
    · exact absurd x hr
    · exact absurd x hr'
    · exact .inr x
  · rcases pairs_out hk' hk e h' h with (x | x) | x
    · exact absurd x hr'
    · exact absurd x hr
    · exact .inr ⟨x.2, x.1⟩

/-- A valid word is one of one encoding only. -/
theorem pairs_valid {k k' : Case} (hk : k ∈ Case.all) (hk' : k' ∈ Case.all) (hp : (k.enc.pat, k'.enc.pat) ∈ pairs) {w : Nat}
    (h : k.enc.Is w) (h' : k'.enc.Is w) : False := by
  have hr : ∀ {a b : Case}, a ∈ Case.all → b ∈ Case.all → (k.enc.pat, k'.enc.pat) = (a.enc.pat, b.enc.pat) → k = a ∧ k' = b :=
    fun ha hb e => ⟨same_pat hk ha (Prod.mk.inj e).1, same_pat hk' hb (Prod.mk.inj e).2⟩
  obtain ⟨-, h, o⟩ := h
  obtain ⟨-, h', o'⟩ := h'
  simp only [pairs, List.mem_cons, List.not_mem_nil, or_false] at hp
  rcases hp with e | e | e | e | e | e | e | e | e | e | e | e
  · obtain ⟨rfl, rfl⟩ := hr (a := Case.addRegT2) (b := Case.addSpRegT1) (by simp [Case.all]) (by simp [Case.all]) e
    have : field addRegT2.pat w 'm' = 13 := field_fixed h' (by decide) (by decide)
    exact (of_decide_eq_true o).2 this
  · obtain ⟨rfl, rfl⟩ := hr (a := Case.addRegT2) (b := Case.addSpRegT2) (by simp [Case.all]) (by simp [Case.all]) e
    have : field addRegT2.pat w 'd' = 13 := field_fixed h' (by decide) (by decide)
    exact (of_decide_eq_true o).1 this
  · obtain ⟨rfl, rfl⟩ := hr (a := Case.addSpRegT1) (b := Case.addSpRegT2) (by simp [Case.all]) (by simp [Case.all]) e
    have : field addSpRegT2.pat w 'm' = 13 := field_fixed h (by decide) (by decide)
    exact of_decide_eq_true o' this
  · obtain ⟨rfl, rfl⟩ := hr (a := Case.lslsImm) (b := Case.movsReg) (by simp [Case.all]) (by simp [Case.all]) e
    have : field lslsImm.pat w 'i' = 0 := field_fixed h' (by decide) (by decide)
    exact of_decide_eq_true o this
  · obtain ⟨rfl, rfl⟩ := hr (a := Case.bCond) (b := Case.svc) (by simp [Case.all]) (by simp [Case.all]) e
    have : field bCond.pat w 'c' = 15 := field_fixed h' (by decide) (by decide)
    have o : field bCond.pat w 'c' < 14 := of_decide_eq_true o
    omega
  · obtain ⟨rfl, rfl⟩ := hr (a := Case.bCond) (b := Case.udf) (by simp [Case.all]) (by simp [Case.all]) e
    have : field bCond.pat w 'c' = 14 := field_fixed h' (by decide) (by decide)
    have o : field bCond.pat w 'c' < 14 := of_decide_eq_true o
    omega
  · obtain ⟨rfl, rfl⟩ := hr (a := Case.ldrshRegW) (b := Case.ldrshLitW) (by simp [Case.all]) (by simp [Case.all]) e
    have : field ldrshRegW.pat w 'n' = 15 := field_fixed h' (by decide) (by decide)
    exact (of_decide_eq_true o).1 this
  · obtain ⟨rfl, rfl⟩ := hr (a := Case.ldrsbRegW) (b := Case.ldrsbLitW) (by simp [Case.all]) (by simp [Case.all]) e
    have : field ldrsbRegW.pat w 'n' = 15 := field_fixed h' (by decide) (by decide)
    exact (of_decide_eq_true o).1 this
  · obtain ⟨rfl, rfl⟩ := hr (a := Case.ldrRegW) (b := Case.ldrLitW) (by simp [Case.all]) (by simp [Case.all]) e
    have : field ldrRegW.pat w 'n' = 15 := field_fixed h' (by decide) (by decide)
    exact of_decide_eq_true o this
  · obtain ⟨rfl, rfl⟩ := hr (a := Case.ldrhRegW) (b := Case.ldrhLitW) (by simp [Case.all]) (by simp [Case.all]) e
    have : field ldrhRegW.pat w 'n' = 15 := field_fixed h' (by decide) (by decide)
    exact (of_decide_eq_true o).1 this
  · obtain ⟨rfl, rfl⟩ := hr (a := Case.ldrbRegW) (b := Case.ldrbLitW) (by simp [Case.all]) (by simp [Case.all]) e
    have : field ldrbRegW.pat w 'n' = 15 := field_fixed h' (by decide) (by decide)
    exact (of_decide_eq_true o).1 this
  · obtain ⟨rfl, rfl⟩ := hr (a := Case.popW) (b := Case.ldmW) (by simp [Case.all]) (by simp [Case.all]) e
    have h1 : field ldmW.pat w 'w' = 1 := field_fixed h (by decide) (by decide)
    have h2 : field ldmW.pat w 'n' = 13 := field_fixed h (by decide) (by decide)
    exact (of_decide_eq_true o').1 ⟨h1, h2⟩

/-- **C82.** The encodings do not overlap: a word is a valid word of at most one. -/
theorem one_encoding (e e' : Enc) (he : e ∈ encodings) (he' : e' ∈ encodings) (hl : e.pat.length = e'.pat.length) (w : Nat)
    (h : e.Is w) (h' : e'.Is w) : e = e' := by
  obtain ⟨k, hk, rfl⟩ := C38.caseOf he
  obtain ⟨k', hk', rfl⟩ := C38.caseOf he'
  rcases meet hk hk' hl h.2.1 h'.2.1 with e | e | e
  · rw [e]
  · exact (pairs_valid hk hk' e h h').elim
  · exact (pairs_valid hk' hk e h' h).elim

/-! ### Outcomes -/

theorem first_lt {data : List Nat} (hd : ∀ b ∈ data, b < 256) {w : Nat} {b : Bool} (h : firstWord data = some (w, b)) :
    w < 2 ^ (if b then 32 else 16) := by
  match data, h with
  | b0 :: b1 :: rest, h =>
    have h0 : b0 < 256 := hd b0 (by simp)
    have h1 : b1 < 256 := hd b1 (by simp)
    simp only [firstWord] at h
    split at h
    · split at h
      · next b2 b3 r =>
        have h2 : b2 < 256 := hd b2 (by simp)
        have h3 : b3 < 256 := hd b3 (by simp)
        injection h with h5
        injection h5 with h5 h6
        rw [← h6, ← h5, if_pos rfl]
        omega
      · cases h
    · injection h with h5
      injection h5 with h5 h6
      rw [← h6, ← h5, if_neg (by decide)]
      omega

theorem tryAll_only {w : Nat} {a : Int} {r : PyRes Instr} (hr : r ≠ .error .decodeError) : ∀ {s : List Dec},
    (∀ d ∈ s, d.check w = true → d.decode w a = .error .decodeError ∨ d.decode w a = r) →
    (∃ d ∈ s, d.check w = true ∧ d.decode w a = r) → tryAll w a s = r
  | [], _, h => by obtain ⟨d, hd, _⟩ := h; cases hd
  | d :: t, h, he => by
    by_cases hc : d.check w = true
    · rcases h d (by simp) hc with h1 | h1
      · rw [tryAll_skip t fun _ => h1]
        refine tryAll_only hr (fun e he => h e (List.mem_cons_of_mem _ he)) ?_
        obtain ⟨e, h2, h3, h4⟩ := he
        rcases List.mem_cons.1 h2 with rfl | h2
        · rw [h1] at h4
          exact absurd h4.symm hr
        · exact ⟨e, h2, h3, h4⟩
      · rw [tryAll_head t hc (by rw [h1]; exact hr), h1]
    · rw [tryAll_skip t fun h => absurd h hc]
      refine tryAll_only hr (fun e he => h e (List.mem_cons_of_mem _ he)) ?_
      obtain ⟨e, h2, h3, h4⟩ := he
      rcases List.mem_cons.1 h2 with rfl | h2
      · exact absurd h3 hc
      · exact ⟨e, h2, h3, h4⟩

/-- If an encoding rejects the word then so does the search. -/
theorem search_rejects {c : Case} (hc : c ∈ Case.all) {w : Nat} {b : Bool} (hl : c.enc.pat.length = if b then 32 else 16)
    (hf : fits c.enc.pat w = true) {x : PyErr} (hx : x ≠ .decodeError) (hr : c.raises (field c.enc.pat w) = some x) (a : Int) :
    tryAll w a (sortedOf b) = .error x := by
  apply tryAll_only (by simpa using hx)
  · intro d hd hch
    obtain ⟨hd', rfl⟩ := mem_sortedOf.mp hd
    obtain ⟨k, hk, hg⟩ := allGood.dec d hd'
    have hfk := (check_iff_fits hg.same w).mp hch
    by_cases hdk : k.raises (field k.enc.pat w) = some .decodeError
    · exact .inl ((hg.correct w a hfk).1 _ hdk)
    · right
      rcases settled hc hk (hl.trans hg.length.symm) hf hfk (by rw [hr]; simpa using hx) hdk with rfl | h
      · exact (hg.correct w a hfk).1 _ hr
      · rw [hr] at h
        cases h.1
  · obtain ⟨d, hd, hg⟩ := allGood.case c hc
    refine ⟨d, mem_sortedOf.mpr ⟨hd, ?_⟩, (check_iff_fits hg.same w).mpr hf, (hg.correct w a hf).1 _ hr⟩
    rw [hg.length] at hl
    revert hl
    cases d.is32 <;> cases b <;> simp

/-- If an encoding decodes the word then so does the search, perhaps as another encoding. -/
theorem search_decodes {c : Case} (hc : c ∈ Case.all) {w : Nat} {b : Bool} (hl : c.enc.pat.length = if b then 32 else 16)
    (hf : fits c.enc.pat w = true) (hr : c.raises (field c.enc.pat w) = none) (a : Int) :
    ∃ i, tryAll w a (sortedOf b) = .ok i := by
  cases h : tryAll w a (sortedOf b) with
  | ok i => exact ⟨i, rfl⟩
  | error x =>
    exfalso
    rcases tryAll_error h with ⟨h1, h2⟩ | ⟨d, hd, hch, hdec, hx⟩
    · obtain ⟨d, hd, hg⟩ := allGood.case c hc
      obtain ⟨i, hi, _⟩ := (hg.correct w a hf).2 hr
      have := h2 d (mem_sortedOf.mpr ⟨hd, by rw [hg.length] at hl; revert hl; cases d.is32 <;> cases b <;> simp⟩)
        ((check_iff_fits hg.same w).mpr hf)
      rw [hi] at this
      cases this
    · obtain ⟨hd', rfl⟩ := mem_sortedOf.mp hd
      obtain ⟨k, hk, hg⟩ := allGood.dec d hd'
      have hfk := (check_iff_fits hg.same w).mp hch
      have hrk : k.raises (field k.enc.pat w) = some x := by
        cases hrk : k.raises (field k.enc.pat w) with
        | none =>
          obtain ⟨i, hi, _⟩ := (hg.correct w a hfk).2 hrk
          rw [hi] at hdec
          cases hdec
        | some y =>
          rw [(hg.correct w a hfk).1 _ hrk] at hdec
          injection hdec with hdec
          rw [hdec]
      rcases settled hc hk (hl.trans hg.length.symm) hf hfk (by rw [hr]; simp) (by rw [hrk]; simpa using hx) with rfl | h'
      · rw [hr] at hrk
        cases hrk
      · rw [hrk] at h'
        cases h'.2

/-- The word is a valid one of an encoding other than PUSH.W. -/
def Valid (w : Nat) (b : Bool) : Prop := ∃ e ∈ encodings, e.pat.length = (if b then 32 else 16) ∧ e.Is w ∧ e.pat ≠ pushW.pat

/-- The word is a memory hint of the manual (PLD, PLI and those reserved): the load of a byte or halfword with a
register offset, to PC. -/
def Hint (w : Nat) (b : Bool) : Prop := b = true ∧ ∃ e ∈ [ldrshRegW, ldrsbRegW, ldrhRegW, ldrbRegW],
  fits e.pat w = true ∧ field e.pat w 'n' ≠ 15 ∧ field e.pat w 't' = 15

/-- Why a word of the diagram is not of the encoding. -/
def Invalid (e : Enc) : Prop := ∀ f, e.ok f = false → Unpredictable e f ∨ Elsewhere e f ∨
  (e.pat ∈ [addRegT2.pat, lslsImm.pat, bCond.pat] ∧ e.ok f = false) ∨
  (e.pat ∈ [ldrshRegW.pat, ldrsbRegW.pat, ldrhRegW.pat, ldrbRegW.pat] ∧ f 'n' ≠ 15 ∧ f 't' = 15)

theorem hint_not_ok {e : Enc} (h1 : e.pat ∈ regOffset) (h2 : e.pat ∈ [ldrshRegW.pat, ldrsbRegW.pat, ldrhRegW.pat, ldrbRegW.pat])
    (ho : ∀ f, e.ok f = decide (f 'n' ≠ 15 ∧ f 't' ≠ 15)) : Invalid e := by
  intro f h
  rw [ho] at h
  have h := of_decide_eq_false h
  by_cases hn : f 'n' = 15
  · exact .inr (.inl (.inl ⟨h1, hn⟩))
  · exact .inr (.inr (.inr ⟨h2, hn, Decidable.byContradiction fun ht => h ⟨hn, ht⟩⟩))

theorem always_ok {e : Enc} (ho : ∀ f, e.ok f = true) : Invalid e := by
  intro f h
  rw [ho] at h
  cases h

theorem invalid : ∀ e ∈ encodings, Invalid e := by
  simp only [encodings, List.forall_mem_cons]
  exact ⟨
    always_ok fun _ => rfl,
    always_ok fun _ => rfl,
    always_ok fun _ => rfl,
    always_ok fun _ => rfl,
    always_ok fun _ => rfl,
    always_ok fun _ => rfl,
    always_ok fun _ => rfl,
    always_ok fun _ => rfl,
    always_ok fun _ => rfl,
    always_ok fun _ => rfl,
    always_ok fun _ => rfl,
    always_ok fun _ => rfl,
    always_ok fun _ => rfl,
    always_ok fun _ => rfl,
    always_ok fun _ => rfl,
    always_ok fun _ => rfl,
    fun f h => .inr (.inr (.inl ⟨by decide, h⟩)),
    always_ok fun _ => rfl,
    always_ok fun _ => rfl,
    fun f h => .inr (.inl (.inr (.inr (.inl ⟨rfl, Decidable.not_not.1 (of_decide_eq_false h)⟩)))),
    always_ok fun _ => rfl,
    always_ok fun _ => rfl,
    always_ok fun _ => rfl,
    always_ok fun _ => rfl,
    fun f h => .inr (.inr (.inl ⟨by decide, h⟩)),
    always_ok fun _ => rfl,
    fun f h => .inl (.inl ⟨by decide, h⟩),
    always_ok fun _ => rfl,
    fun f h => .inl (.inl ⟨by decide, h⟩),
    always_ok fun _ => rfl,
    always_ok fun _ => rfl,
    always_ok fun _ => rfl,
    always_ok fun _ => rfl,
    always_ok fun _ => rfl,
    always_ok fun _ => rfl,
    always_ok fun _ => rfl,
    always_ok fun _ => rfl,
    always_ok fun _ => rfl,
    always_ok fun _ => rfl,
    always_ok fun _ => rfl,
    always_ok fun _ => rfl,
    always_ok fun _ => rfl,
    always_ok fun _ => rfl,
    fun f h => .inl (.inl ⟨by decide, h⟩),
    fun f h => .inl (.inl ⟨by decide, h⟩),
    fun f h => .inl (.inl ⟨by decide, h⟩),
    always_ok fun _ => rfl,
    always_ok fun _ => rfl,
    always_ok fun _ => rfl,
    always_ok fun _ => rfl,
    always_ok fun _ => rfl,
    always_ok fun _ => rfl,
    always_ok fun _ => rfl,
    always_ok fun _ => rfl,
    always_ok fun _ => rfl,
    always_ok fun _ => rfl,
    always_ok fun _ => rfl,
    always_ok fun _ => rfl,
    always_ok fun _ => rfl,
    always_ok fun _ => rfl,
    always_ok fun _ => rfl,
    fun f h => .inl (.inl ⟨by decide, h⟩),
    fun f h => .inr (.inr (.inl ⟨by decide, h⟩)),
    always_ok fun _ => rfl,
    always_ok fun _ => rfl,
    always_ok fun _ => rfl,
    always_ok fun _ => rfl,
    always_ok fun _ => rfl,
    always_ok fun _ => rfl,
    always_ok fun _ => rfl,
    always_ok fun _ => rfl,
    always_ok fun _ => rfl,
    always_ok fun _ => rfl,
    always_ok fun _ => rfl,
    always_ok fun _ => rfl,
    fun f h => .inr (.inl (.inl ⟨by decide, Decidable.not_not.1 (of_decide_eq_false h)⟩)),
    fun f h => .inr (.inl (.inl ⟨by decide, Decidable.not_not.1 (of_decide_eq_false h)⟩)),
    fun f h => .inr (.inl (.inl ⟨by decide, Decidable.not_not.1 (of_decide_eq_false h)⟩)),
    hint_not_ok (by decide) (by decide) fun _ => rfl,
    hint_not_ok (by decide) (by decide) fun _ => rfl,
    fun f h => .inr (.inl (.inl ⟨by decide, Decidable.not_not.1 (of_decide_eq_false h)⟩)),
    hint_not_ok (by decide) (by decide) fun _ => rfl,
    hint_not_ok (by decide) (by decide) fun _ => rfl,
    always_ok fun _ => rfl,
    always_ok fun _ => rfl,
    always_ok fun _ => rfl,
    always_ok fun _ => rfl,
    always_ok fun _ => rfl,
    always_ok fun _ => rfl,
    always_ok fun _ => rfl,
    fun f h => .inr (.inl (.inr (.inl ⟨by decide, Decidable.not_not.1 (of_decide_eq_false h)⟩))),
    fun f h => .inr (.inl (.inr (.inl ⟨by decide, Decidable.not_not.1 (of_decide_eq_false h)⟩))),
    fun f h => .inr (.inl (.inr (.inl ⟨by decide, Decidable.not_not.1 (of_decide_eq_false h)⟩))),
    fun f h => .inr (.inl (.inr (.inl ⟨by decide, Decidable.not_not.1 (of_decide_eq_false h)⟩))),
    fun f h => .inr (.inl (.inr (.inl ⟨by decide, Decidable.not_not.1 (of_decide_eq_false h)⟩))),
    always_ok fun _ => rfl,
    always_ok fun _ => rfl,
    fun f h => .inl (.inl ⟨by decide, h⟩),
    always_ok fun _ => rfl,
    fun f h => .inl (.inl ⟨by decide, h⟩),
    fun f h => .inl (.inl ⟨by decide, h⟩),
    fun f h => .inl (.inl ⟨by decide, h⟩),
    always_ok fun _ => rfl,
    fun f h => .inl (.inl ⟨by decide, h⟩),
    fun f h => .inl (.inl ⟨by decide, h⟩),
    fun f h => .inl (.inl ⟨by decide, h⟩),
    fun f h => if hw : f 'w' = 1 ∧ f 'n' = 13 then .inr (.inl (.inr (.inr (.inr ⟨rfl, hw⟩)))) else .inl (.inr ⟨rfl, hw, h⟩),
    fun f h => .inl (.inl ⟨by decide, h⟩),
    always_ok fun _ => rfl,
    fun f h => .inl (.inl ⟨by decide, h⟩),
    fun f h => .inl (.inl ⟨by decide, h⟩),
    always_ok fun _ => rfl,
    always_ok fun _ => rfl,
    always_ok fun _ => rfl,
    always_ok fun _ => rfl,
    always_ok fun _ => rfl,
    always_ok fun _ => rfl,
    always_ok fun _ => rfl,
    always_ok fun _ => rfl,
    always_ok fun _ => rfl,
    always_ok fun _ => rfl,
    always_ok fun _ => rfl,
    fun x h => nomatch h⟩

theorem fits_of {p q : Str} {w : Nat} (zeros ones : List Nat) (h : fits p w = true) (hl : p.length = q.length)
    (h0 : ∀ k ∈ zeros, w.testBit k = false) (h1 : ∀ k ∈ ones, w.testBit k = true)
    (hd : ∀ k ∈ List.range q.length, (letter q k = '0' → letter p k = '0' ∨ k ∈ zeros) ∧ (letter q k = '1' → letter p k = '1' ∨ k ∈ ones)) :
    fits q w = true := by
  rw [fits_iff]
  intro k hk
  have hp := fits_iff.1 h k (hl ▸ hk)
  have := hd k (List.mem_range.2 hk)
  constructor
  · intro hq
    rcases this.1 hq with h | h
    · exact hp.1 h
    · exact h0 k h
  · intro hq
    rcases this.2 hq with h | h
    · exact hp.2 h
    · exact h1 k h

theorem four {w v a b c d : Nat} (h : bitsValue w [a, b, c, d] = v) :
    8 * (w.testBit a).toNat + 4 * (w.testBit b).toNat + 2 * (w.testBit c).toNat + (w.testBit d).toNat = v := by
  rw [← h]
  simp only [bitsValue, List.foldl]
  omega

theorem thirteen {w a b c d : Nat} (h : bitsValue w [a, b, c, d] = 13) :
    w.testBit a = true ∧ w.testBit b = true ∧ w.testBit c = false ∧ w.testBit d = true := by
  have := four h
  revert this
  cases w.testBit a <;> cases w.testBit b <;> cases w.testBit c <;> cases w.testBit d <;> simp

theorem five {w a b c d e : Nat} (h : bitsValue w [a, b, c, d, e] = 0) :
    w.testBit a = false ∧ w.testBit b = false ∧ w.testBit c = false ∧ w.testBit d = false ∧ w.testBit e = false := by
  revert h
  simp only [bitsValue, List.foldl]
  cases w.testBit a <;> cases w.testBit b <;> cases w.testBit c <;> cases w.testBit d <;> cases w.testBit e <;> simp

/-- The words that the general encodings leave to special ones. -/
theorem special_words {e : Enc} (he : e.pat ∈ [addRegT2.pat, lslsImm.pat, bCond.pat]) (hm : e ∈ encodings) {w : Nat} (hw : w < 2 ^ e.pat.length)
    (hf : fits e.pat w = true) (ho : e.ok (field e.pat w) = false) : e.pat.length = 16 ∧ Valid w false := by
  obtain ⟨k, hk, rfl⟩ := C38.caseOf hm
  simp only [List.mem_cons, List.not_mem_nil, or_false] at he
  rcases he with he | he | he
  · cases same_pat hk (k' := Case.addRegT2) (by simp [Case.all]) he
    refine ⟨rfl, ?_⟩
    have ho := of_decide_eq_false ho
    by_cases h13 : field addRegT2.pat w 'm' = 13
    · obtain ⟨b6, b5, b4, b3⟩ := thirteen (w := w) (a := 6) (b := 5) (c := 4) (d := 3) h13
      refine ⟨addSpRegT1, by simp [encodings], rfl, ⟨hw, fits_of [4] [6, 5, 3] hf rfl ?_ ?_ (by decide), rfl⟩, by decide⟩
      · simp only [List.forall_mem_cons, b4]
        exact ⟨trivial, fun _ h => nomatch h⟩
      · simp only [List.forall_mem_cons, b6, b5, b3]
        exact ⟨trivial, trivial, trivial, fun _ h => nomatch h⟩
    · have hd : field addRegT2.pat w 'd' = 13 := Decidable.byContradiction fun hd => ho ⟨hd, h13⟩
      obtain ⟨b7, b2, b1, b0⟩ := thirteen (w := w) (a := 7) (b := 2) (c := 1) (d := 0) hd
      refine ⟨addSpRegT2, by simp [encodings], rfl, ⟨hw, fits_of [1] [7, 2, 0] hf rfl ?_ ?_ (by decide), ?_⟩, by decide⟩
      · simp only [List.forall_mem_cons, b1]
        exact ⟨trivial, fun _ h => nomatch h⟩
      · simp only [List.forall_mem_cons, b7, b2, b0]
        exact ⟨trivial, trivial, trivial, fun _ h => nomatch h⟩
      · exact decide_eq_true h13
  · cases same_pat hk (k' := Case.lslsImm) (by simp [Case.all]) he
    refine ⟨rfl, ?_⟩
    obtain ⟨b10, b9, b8, b7, b6⟩ := five (w := w) (a := 10) (b := 9) (c := 8) (d := 7) (e := 6)
      (Decidable.not_not.1 (of_decide_eq_false ho))
    refine ⟨movsReg, by simp [encodings], rfl, ⟨hw, fits_of [10, 9, 8, 7, 6] [] hf rfl ?_ (by simp) (by decide), rfl⟩, by decide⟩
    simp only [List.forall_mem_cons, b10, b9, b8, b7, b6]
    exact ⟨trivial, trivial, trivial, trivial, trivial, fun _ h => nomatch h⟩
  · cases same_pat hk (k' := Case.bCond) (by simp [Case.all]) he
    refine ⟨rfl, ?_⟩
    have hc : ¬ field bCond.pat w 'c' < 14 := of_decide_eq_false ho
    have := four (w := w) (a := 11) (b := 10) (c := 9) (d := 8) (v := field bCond.pat w 'c') rfl
    by_cases h8 : w.testBit 8 = true
    · refine ⟨svc, by simp [encodings], rfl, ⟨hw, fits_of [] [11, 10, 9, 8] hf rfl (by simp) ?_ (by decide), rfl⟩, by decide⟩
      rw [h8] at this
      simp only [List.forall_mem_cons, h8]
      cases h11 : w.testBit 11 <;> cases h10 : w.testBit 10 <;> cases h9 : w.testBit 9 <;> simp_all <;> omega
    · refine ⟨udf, by simp [encodings], rfl, ⟨hw, fits_of [8] [11, 10, 9] hf rfl (by simpa using h8) ?_ (by decide), rfl⟩, by decide⟩
      simp only [List.forall_mem_cons]
      cases h11 : w.testBit 11 <;> cases h10 : w.testBit 10 <;> cases h9 : w.testBit 9 <;> simp_all <;> omega

theorem hint_mem {k : Case} (hk : k ∈ Case.all) (h : k.enc.pat ∈ [ldrshRegW.pat, ldrsbRegW.pat, ldrhRegW.pat, ldrbRegW.pat]) :
    k.enc ∈ [ldrshRegW, ldrsbRegW, ldrhRegW, ldrbRegW] ∧ k.enc.pat.length = 32 := by
  simp only [List.mem_cons, List.not_mem_nil, or_false] at h
  rcases h with h | h | h | h
  · cases same_pat hk (k' := Case.ldrshRegW) (by simp [Case.all]) h; exact ⟨by simp [Case.ldrshRegW], rfl⟩
  · cases same_pat hk (k' := Case.ldrsbRegW) (by simp [Case.all]) h; exact ⟨by simp [Case.ldrsbRegW], rfl⟩
  · cases same_pat hk (k' := Case.ldrhRegW) (by simp [Case.all]) h; exact ⟨by simp [Case.ldrhRegW], rfl⟩
  · cases same_pat hk (k' := Case.ldrbRegW) (by simp [Case.all]) h; exact ⟨by simp [Case.ldrbRegW], rfl⟩

/-- Some case decodes the word if and only if it is valid or a hint. -/
theorem some_case_iff {w : Nat} {b : Bool} (hw : w < 2 ^ (if b then 32 else 16)) :
    (∃ c ∈ Case.all, c.enc.pat.length = (if b then 32 else 16) ∧ fits c.enc.pat w = true ∧ c.raises (field c.enc.pat w) = none) ↔
      Valid w b ∨ Hint w b := by
  constructor
  · rintro ⟨c, hc, hl, hf, hr⟩
    rw [fates c hc] at hr
    have he : c.enc ∈ encodings := by rw [← C38.encodings_eq]; exact List.mem_map_of_mem hc
    by_cases h1 : c.enc.pat = pushW.pat
    · rw [if_pos h1] at hr; cases hr
    rw [if_neg h1] at hr
    by_cases h2 : Unpredictable c.enc (field c.enc.pat w)
    · rw [if_pos h2] at hr; cases hr
    rw [if_neg h2] at hr
    by_cases h3 : Elsewhere c.enc (field c.enc.pat w)
    · rw [if_pos h3] at hr; cases hr
    cases ho : c.enc.ok (field c.enc.pat w) with
    | true => exact .inl ⟨c.enc, he, hl, ⟨hl ▸ hw, hf, ho⟩, h1⟩
    | false =>
      rcases invalid c.enc he _ ho with h | h | ⟨h, -⟩ | ⟨h, h4, h5⟩
      · exact absurd h h2
      · exact absurd h h3
      · obtain ⟨h6, h7⟩ := special_words h he (hl ▸ hw) hf ho
        rw [h6] at hl
        cases b
        · exact .inl h7
        · simp at hl
      · obtain ⟨h6, h7⟩ := hint_mem hc h
        refine .inr ⟨?_, c.enc, h6, hf, h4, h5⟩
        rw [h7] at hl
        cases b
        · simp at hl
        · rfl
  · rintro (⟨e, he, hl, h, hn⟩ | ⟨rfl, e, he, hf, h1, h2⟩)
    · obtain ⟨c, hc, rfl⟩ := C38.caseOf he
      refine ⟨c, hc, hl, h.2.1, ?_⟩
      rw [fates c hc, if_neg hn, if_neg, if_neg]
      · obtain ⟨d, hd, hg⟩ := allGood.case c hc
        intro hx
        refine hg.settles _ h.2.2 ?_
        rw [fates c hc, if_neg hn, if_neg, if_pos hx]
        rintro (hu | hu)
        · rw [h.2.2] at hu; cases hu.2
        · rw [h.2.2] at hu; cases hu.2.2
      · rintro (hu | hu)
        · rw [h.2.2] at hu; cases hu.2
        · rw [h.2.2] at hu; cases hu.2.2
    · simp only [List.mem_cons, List.not_mem_nil, or_false] at he
      rcases he with rfl | rfl | rfl | rfl
      · exact ⟨Case.ldrshRegW, by simp [Case.all], rfl, hf, if_neg h1⟩
      · exact ⟨Case.ldrsbRegW, by simp [Case.all], rfl, hf, if_neg h1⟩
      · exact ⟨Case.ldrhRegW, by simp [Case.all], rfl, hf, if_neg h1⟩
      · exact ⟨Case.ldrbRegW, by simp [Case.all], rfl, hf, if_neg h1⟩

/-- **C82.** Bytes are decoded if and only if the word they start with is a valid word of an encoding of the table other than
PUSH.W, or a memory hint (which it should not be: it is taken for a load to PC). -/
theorem decodes_iff (data : List Nat) (hd : ∀ b ∈ data, b < 256) (hl : 2 ≤ data.length) (a : Int) :
    (∃ i, (trees.decode data a).1 = .ok i) ↔ ∃ w b, firstWord data = some (w, b) ∧ (Valid w b ∨ Hint w b) := by
  constructor
  · rintro ⟨i, hi⟩
    obtain ⟨c, w, b, hw, hc⟩ := C39.decoded hd hl hi
    exact ⟨w, b, hw, (some_case_iff (first_lt hd hw)).1 ⟨c, hc.mem, hc.length, hc.fits, hc.raises⟩⟩
  · rintro ⟨w, b, hw, h⟩
    obtain ⟨c, hc, h1, h2, h3⟩ := (some_case_iff (first_lt hd hw)).2 h
    obtain ⟨i, hi⟩ := search_decodes hc h1 h2 h3 a
    have hb := decode_bytes data hd hl a
    rw [hw] at hb
    rcases hb with hb | ⟨-, hb, -⟩
    · exact ⟨i, hb.trans hi⟩
    · rw [hi] at hb; cases hb

theorem raised_iff (data : List Nat) (hd : ∀ b ∈ data, b < 256) (hl : 2 ≤ data.length) (a : Int) {x : PyErr} (hx : x ≠ .decodeError)
    (h1 : x ≠ .undefinedInstruction) (h2 : x ≠ .attributeError) :
    (trees.decode data a).1 = .error x ↔ ∃ w b, firstWord data = some (w, b) ∧ ∃ c ∈ Case.all, c.enc.pat.length = (if b then 32 else 16) ∧
      fits c.enc.pat w = true ∧ c.raises (field c.enc.pat w) = some x := by
  have hb := decode_bytes data hd hl a
  constructor
  · intro h
    cases hw : firstWord data with
    | none => rw [hw, h] at hb; injection hb with hb; exact absurd hb h1
    | some p =>
      obtain ⟨w, b⟩ := p
      rw [hw] at hb
      rcases hb with hb | ⟨hb, -, -⟩
      · rw [h] at hb
        rcases search_error hb.symm with h3 | ⟨c, hc, hl, hf, hr, -⟩
        · exact absurd h3 h1
        · exact ⟨w, b, rfl, c, hc, hl, hf, hr⟩
      · rw [h] at hb; injection hb with hb; exact absurd hb h2
  · rintro ⟨w, b, hw, c, hc, hl, hf, hr⟩
    rw [hw] at hb
    have := search_rejects hc hl hf hx hr a
    rcases hb with hb | ⟨-, hb, -⟩
    · rw [hb, this]
    · rw [this] at hb; injection hb with hb; exact absurd hb h1

/-- **C82.** `UnpredictableError` is raised if and only if the word fits a diagram and breaks one of the rules that are checked. -/
theorem unpredictable_iff (data : List Nat) (hd : ∀ b ∈ data, b < 256) (hl : 2 ≤ data.length) (a : Int) :
    (trees.decode data a).1 = .error .unpredictable ↔ ∃ w b, firstWord data = some (w, b) ∧
      ∃ e ∈ encodings, e.pat.length = (if b then 32 else 16) ∧ fits e.pat w = true ∧ Unpredictable e (field e.pat w) := by
  rw [raised_iff data hd hl a (by simp) (by simp) (by simp)]
  constructor
  · rintro ⟨w, b, hw, c, hc, h1, h2, h3⟩
    refine ⟨w, b, hw, c.enc, by rw [← C38.encodings_eq]; exact List.mem_map_of_mem hc, h1, h2, ?_⟩
    rw [fates c hc] at h3
    split at h3
    · cases h3
    · split at h3
      · assumption
      · split at h3 <;> cases h3
  · rintro ⟨w, b, hw, e, he, h1, h2, h3⟩
    obtain ⟨c, hc, rfl⟩ := C38.caseOf he
    refine ⟨w, b, hw, c, hc, h1, h2, ?_⟩
    rw [fates c hc, if_neg, if_pos h3]
    intro hp
    cases same_pat hc (k' := Case.pushW) (by simp [Case.all]) hp
    rcases h3 with ⟨-, h⟩ | ⟨-, -, h⟩ <;> cases h

/-- **C82.** A `NameError` is raised if and only if the word is PUSH.W. -/
theorem name_error_iff (data : List Nat) (hd : ∀ b ∈ data, b < 256) (hl : 2 ≤ data.length) (a : Int) :
    (trees.decode data a).1 = .error .nameError ↔ ∃ w, firstWord data = some (w, true) ∧ fits pushW.pat w = true := by
  rw [raised_iff data hd hl a (by simp) (by simp) (by simp)]
  constructor
  · rintro ⟨w, b, hw, c, hc, h1, h2, h3⟩
    rw [fates c hc] at h3
    split at h3
    · next hp =>
      rw [hp] at h1 h2
      cases b
      · simp [pushW] at h1
      · exact ⟨w, hw, h2⟩
    · split at h3
      · cases h3
      · split at h3 <;> cases h3
  · rintro ⟨w, hw, hf⟩
    exact ⟨w, true, hw, Case.pushW, by simp [Case.all], rfl, hf, rfl⟩

/-- **C82.** For every other word decoding raises `UndefinedInstructionError`, or the `AttributeError` that stands for it. -/
theorem otherwise_undefined_partial (data : List Nat) (hd : ∀ b ∈ data, b < 256) (hl : 2 ≤ data.length) (a : Int)
    (h : ∀ w b, firstWord data = some (w, b) → ¬ Valid w b ∧ ¬ Hint w b ∧ ¬ (b = true ∧ fits pushW.pat w = true) ∧
      ∀ e ∈ encodings, e.pat.length = (if b then 32 else 16) → fits e.pat w = true → ¬ Unpredictable e (field e.pat w)) :
    (trees.decode data a).1 = .error .undefinedInstruction ∨
      ((trees.decode data a).1 = .error .attributeError ∧ ∃ w b, firstWord data = some (w, b) ∧ ¬ C36.Matches w b) := by
  cases hr : (trees.decode data a).1 with
  | ok i =>
    obtain ⟨w, b, hw, hv⟩ := (decodes_iff data hd hl a).1 ⟨i, hr⟩
    obtain ⟨h1, h2, -⟩ := h w b hw
    exact (hv.elim h1 h2).elim
  | error x =>
    rcases C36.errors_partial data hd hl a x hr with rfl | rfl | ⟨rfl, hm⟩ | ⟨rfl, w, hw, hf⟩
    · exact .inl rfl
    · obtain ⟨w, b, hw, e, he, h1, h2, h3⟩ := (unpredictable_iff data hd hl a).1 hr
      exact ((h w b hw).2.2.2 e he h1 h2 h3).elim
    · exact .inr ⟨rfl, hm⟩
    · exact ((h w true hw).2.2.1 ⟨rfl, hf⟩).elim

/-- **C82.** Every memory hint is taken for a load to PC. -/
theorem hint_loads_pc (data : List Nat) (hd : ∀ b ∈ data, b < 256) (hl : 2 ≤ data.length) (a : Int) (w : Nat)
    (hw : firstWord data = some (w, true)) (h : Hint w true) :
    ∃ i, (trees.decode data a).1 = .ok i ∧ ∃ size signed n m shift, (Act.load size signed 15 n (.reg m shift)).Of i := by
  obtain ⟨i, hi⟩ := (decodes_iff data hd hl a).2 ⟨w, true, hw, .inr h⟩
  refine ⟨i, hi, ?_⟩
  obtain ⟨c, w', b, hw', hc⟩ := C39.decoded hd hl hi
  rw [hw] at hw'
  injection hw' with hw'
  injection hw' with e1 e2
  subst e1 e2
  obtain ⟨-, e, he, hf, h1, h2⟩ := h
  have key : ∀ k ∈ Case.all, k.enc = e → k.raises (field k.enc.pat w) ≠ some .decodeError → (∀ q ∈ pairs, q.2 ≠ k.enc.pat) →
      (∀ k' ∈ Case.all, (k.enc.pat, k'.enc.pat) ∈ pairs → fits k'.enc.pat w = true → field k.enc.pat w 'n' = 15) → c = k := by
    intro k hk hke hr hp1 hp2
    subst hke
    have hk32 : k.enc.pat.length = 32 := by
      simp only [List.mem_cons, List.not_mem_nil, or_false] at he
      rcases he with h | h | h | h <;> rw [h] <;> rfl
    rcases meet hk hc.mem (hk32.trans hc.length.symm) hf hc.fits with h | h | h
    · exact h.symm
    · exact absurd (hp2 c hc.mem h hc.fits) h1
    · exact absurd rfl (hp1 _ h)
  have lit : ∀ k ∈ Case.all, ∀ l : Case, l ∈ Case.all → k.enc.pat.length = 32 → (∀ q ∈ pairs, q.1 = k.enc.pat → q.2 = l.enc.pat) →
      (∀ w, fits l.enc.pat w = true → field k.enc.pat w 'n' = 15) →
      ∀ k' ∈ Case.all, (k.enc.pat, k'.enc.pat) ∈ pairs → fits k'.enc.pat w = true → field k.enc.pat w 'n' = 15 := by
    intro k hk l hl2 h32 hq hfl k' hk' hp hf'
    cases same_pat hk' hl2 (hq _ hp rfl)
    exact hfl w hf'
  simp only [List.mem_cons, List.not_mem_nil, or_false] at he
  rcases he with rfl | rfl | rfl | rfl
  · cases key Case.ldrshRegW (by simp [Case.all]) rfl (by rw [show Case.ldrshRegW.raises (field Case.ldrshRegW.enc.pat w) = none from if_neg h1]; simp)
      (by decide) (lit _ (by simp [Case.all]) Case.ldrshLitW (by simp [Case.all]) rfl (by decide) fun w h => field_fixed h (by decide) (by decide))
    have := hc.act
    rw [show Case.ldrshRegW.act (field Case.ldrshRegW.enc.pat w) = Act.load 16 true (field ldrshRegW.pat w 't') (field ldrshRegW.pat w 'n')
      (.reg (field ldrshRegW.pat w 'm') (.lsl, field ldrshRegW.pat w 'i')) from rfl, h2] at this
    exact ⟨_, _, _, _, _, this⟩
  · cases key Case.ldrsbRegW (by simp [Case.all]) rfl (by rw [show Case.ldrsbRegW.raises (field Case.ldrsbRegW.enc.pat w) = none from if_neg h1]; simp)
      (by decide) (lit _ (by simp [Case.all]) Case.ldrsbLitW (by simp [Case.all]) rfl (by decide) fun w h => field_fixed h (by decide) (by decide))
    have := hc.act
    rw [show Case.ldrsbRegW.act (field Case.ldrsbRegW.enc.pat w) = Act.load 8 true (field ldrsbRegW.pat w 't') (field ldrsbRegW.pat w 'n')
      (.reg (field ldrsbRegW.pat w 'm') (.lsl, field ldrsbRegW.pat w 'i')) from rfl, h2] at this
    exact ⟨_, _, _, _, _, this⟩
  · cases key Case.ldrhRegW (by simp [Case.all]) rfl (by rw [show Case.ldrhRegW.raises (field Case.ldrhRegW.enc.pat w) = none from if_neg h1]; simp)
      (by decide) (lit _ (by simp [Case.all]) Case.ldrhLitW (by simp [Case.all]) rfl (by decide) fun w h => field_fixed h (by decide) (by decide))
    have := hc.act
    rw [show Case.ldrhRegW.act (field Case.ldrhRegW.enc.pat w) = Act.load 16 false (field ldrhRegW.pat w 't') (field ldrhRegW.pat w 'n')
      (.reg (field ldrhRegW.pat w 'm') (.lsl, field ldrhRegW.pat w 'i')) from rfl, h2] at this
    exact ⟨_, _, _, _, _, this⟩
  · cases key Case.ldrbRegW (by simp [Case.all]) rfl (by rw [show Case.ldrbRegW.raises (field Case.ldrbRegW.enc.pat w) = none from if_neg h1]; simp)
      (by decide) (lit _ (by simp [Case.all]) Case.ldrbLitW (by simp [Case.all]) rfl (by decide) fun w h => field_fixed h (by decide) (by decide))
    have := hc.act
    rw [show Case.ldrbRegW.act (field Case.ldrbRegW.enc.pat w) = Act.load 8 false (field ldrbRegW.pat w 't') (field ldrbRegW.pat w 'n')
      (.reg (field ldrbRegW.pat w 'm') (.lsl, field ldrbRegW.pat w 'i')) from rfl, h2] at this
    exact ⟨_, _, _, _, _, this⟩

/-- **C82.** LDR (literal) to PC, an instruction of the manual that jumps to an address in memory, is taken for undefined. -/
theorem ldr_pc_literal_undefined (data : List Nat) (hd : ∀ b ∈ data, b < 256) (hl : 2 ≤ data.length) (a : Int) (w : Nat)
    (hw : firstWord data = some (w, true)) (hf : fits ldrLitW.pat w = true) (ht : field ldrLitW.pat w 't' = 15) :
    (trees.decode data a).1 = .error .undefinedInstruction := by
  have hlit : Case.ldrLitW.raises (field Case.ldrLitW.enc.pat w) = some .decodeError := if_pos ht
  have none_of : ∀ c ∈ Case.all, c.enc.pat.length = 32 → fits c.enc.pat w = true → c.raises (field c.enc.pat w) = some .decodeError := by
    intro c hc h1 h2
    rcases meet hc (k' := Case.ldrLitW) (by simp [Case.all]) h1 h2 hf with rfl | hp | hp
    · exact hlit
    · have : c.enc.pat = ldrRegW.pat := by
        revert hp
        generalize c.enc.pat = p
        intro hp
        simp only [pairs, List.mem_cons, Prod.mk.injEq, List.not_mem_nil, or_false] at hp
        have e : Case.ldrLitW.enc.pat = ldrLitW.pat := rfl
        rw [e] at hp
        simp only [show ldrLitW.pat ≠ addSpRegT1.pat by decide, show ldrLitW.pat ≠ addSpRegT2.pat by decide,
          show ldrLitW.pat ≠ movsReg.pat by decide, show ldrLitW.pat ≠ svc.pat by decide, show ldrLitW.pat ≠ udf.pat by decide,
          show ldrLitW.pat ≠ ldrshLitW.pat by decide, show ldrLitW.pat ≠ ldrsbLitW.pat by decide,
          show ldrLitW.pat ≠ ldrhLitW.pat by decide, show ldrLitW.pat ≠ ldrbLitW.pat by decide,
          show ldrLitW.pat ≠ ldmW.pat by decide, and_false, false_or, or_false, and_true] at hp
        exact hp
      cases same_pat hc (k' := Case.ldrRegW) (by simp [Case.all]) this
      have : field ldrRegW.pat w 'n' = 15 := field_fixed hf (by decide) (by decide)
      exact if_pos this
    · exfalso
      have : ∀ q ∈ pairs, q.1 ≠ ldrLitW.pat := by decide
      exact this _ hp rfl
  have hb := decode_bytes data hd hl a
  rw [hw] at hb
  have ht : tryAll w a (sortedOf true) = .error .undefinedInstruction := by
    cases h : tryAll w a (sortedOf true) with
    | ok i =>
      obtain ⟨c, hc⟩ := search_ok h
      have := none_of c hc.mem hc.length hc.fits
      rw [hc.raises] at this
      cases this
    | error x =>
      rcases search_error h with rfl | ⟨c, hc, h1, h2, h3, h4⟩
      · rfl
      · rw [none_of c hc h1 h2] at h3
        injection h3 with h3
        exact absurd h3.symm h4
  rcases hb with hb | ⟨-, -, hb⟩
  · exact hb.trans ht
  · exfalso
    obtain ⟨d, hd, hg⟩ := allGood.case Case.ldrLitW (by simp [Case.all])
    have h32 : d.is32 = true := by
      have := hg.length
      revert this
      cases d.is32
      · intro h; cases h
      · intro _; rfl
    have := hb d (mem_sortedOf.mpr ⟨hd, h32⟩)
    rw [(check_iff_fits hg.same w).mpr hf] at this
    cases this

/-- `pld [r0, r1]` is decoded as `ldrb.w pc, [r0, r1]`; `ldr.w pc, [pc, #4]` is undefined; `push {}` is unpredictable;
`add sp, sp` fits three diagrams and is decoded as one; a store relative to PC fits one and is passed on to none. -/
example : ((trees.decode [0x10, 0xf8, 0x01, 0xf0] 0).1.toOption.map fun i => (i.mnemonic, i.t)) = some (c! "ldrb.w", some 15) ∧
    (trees.decode [0xdf, 0xf8, 0x04, 0xf0] 0).1.toOption.isNone = true ∧
    (trees.decode [0x00, 0xb4] 0).1 = .error .unpredictable ∧
    ((trees.decode [0xed, 0x44] 0).1.toOption.map fun i => (i.mnemonic, i.d, i.n, i.m)) = some (c! "add", some 13, some 13, some 13) ∧
    (trees.decode [0x4f, 0xf8, 0x01, 0x00] 0).1 = .error .undefinedInstruction := by
  rw [trees, decoders_eq]; decide +kernel

/-- `movs r0, r1` fits the diagram of LSL (immediate) but is no valid word of it. -/
example : fits lslsImm.pat 0x0008 = true ∧ ¬ lslsImm.Is 0x0008 ∧ movsReg.Is 0x0008 ∧ Valid 0x0008 false ∧ Hint 0xf001f810 true := by
  refine ⟨by decide, ?_, ?_, ⟨movsReg, by simp [encodings], rfl, ⟨by decide, by decide, by decide⟩, by decide⟩, rfl, ldrbRegW, by simp, ?_⟩
  · rintro ⟨-, -, h⟩
    revert h
    decide
  · exact ⟨by decide, by decide, by decide⟩
  · exact ⟨by decide, by decide, by decide⟩

end C82
end Verif
