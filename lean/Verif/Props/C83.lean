import Verif.Props.C82

/-!
# C83: unpredictable encodings

The words the ARMv7-M manual calls UNPREDICTABLE (outside of an IT block, which the simulator does not have), and which of them
the program refuses.
-/

namespace Verif
open Thumb
namespace C83

/-- SP or PC. -/
def bad (r : Nat) : Bool := r = 13 || r = 15

/-- An encoding and when it is unpredictable. -/
abbrev Rule := Enc × ((Char → Nat) → Bool)

def rule (e : Enc) (p : (Char → Nat) → Bool) : Rule := (e, p)

/-- `if ... then UNPREDICTABLE` in the decode pseudocode of the manual, for the encodings that have it. Words that the pseudocode
sends elsewhere first (`SEE ...`) or calls UNDEFINED are left out. -/
def rules : List Rule := [
  rule addRegT2 fun f => f 'd' = 15 && f 'm' = 15,
  rule cmpRegT2 fun f => (f 'n' < 8 && f 'm' < 8) || f 'n' = 15 || f 'm' = 15,
  rule blx fun f => f 'm' = 15,
  rule push fun f => f 'm' = 0 && f 'r' = 0,
  rule pop fun f => f 'p' = 0 && f 'r' = 0,
  rule ldm fun f => f 'r' = 0,
  rule stm fun f => f 'r' = 0,
  rule cps fun f => f 'p' = 0 && f 'f' = 0,
  rule rsbW fun f => bad (f 'd') || bad (f 'n'),
  rule mulW fun f => bad (f 'd') || bad (f 'n') || bad (f 'm'),
  rule adrAddW fun f => bad (f 'd'),
  rule adrSubW fun f => bad (f 'd'),
  rule uxtbW fun f => bad (f 'd') || bad (f 'm'),
  rule uxthW fun f => bad (f 'd') || bad (f 'm'),
  rule sxtbW fun f => bad (f 'd') || bad (f 'm'),
  rule sxthW fun f => bad (f 'd') || bad (f 'm'),
  rule revshW fun f => f 'm' ≠ f 'k' || bad (f 'd') || bad (f 'm'),
  rule rev16W fun f => f 'm' ≠ f 'k' || bad (f 'd') || bad (f 'm'),
  rule revW fun f => f 'm' ≠ f 'k' || bad (f 'd') || bad (f 'm'),
  rule movRegW fun f => if f 's' = 1 then bad (f 'd') || bad (f 'm') else f 'd' = 15 || f 'm' = 15 || (f 'd' = 13 && f 'm' = 13),
  rule movImmW fun f => bad (f 'd'),
  rule movw fun f => bad (f 'd'),
  rule mvnW fun f => bad (f 'd') || bad (f 'm'),
  rule cmnImm fun f => f 'n' = 15,
  rule cmpImmW fun f => f 'n' = 15,
  rule tstW fun f => bad (f 'n') || bad (f 'm'),
  rule strRegW fun f => f 'n' ≠ 15 && (f 't' = 15 || bad (f 'm')),
  rule strhRegW fun f => f 'n' ≠ 15 && (bad (f 't') || bad (f 'm')),
  rule strbRegW fun f => f 'n' ≠ 15 && (bad (f 't') || bad (f 'm')),
  rule ldrshRegW fun f => f 'n' ≠ 15 && f 't' ≠ 15 && (f 't' = 13 || bad (f 'm')),
  rule ldrsbRegW fun f => f 'n' ≠ 15 && f 't' ≠ 15 && (f 't' = 13 || bad (f 'm')),
  rule ldrRegW fun f => f 'n' ≠ 15 && bad (f 'm'),
  rule ldrhRegW fun f => f 'n' ≠ 15 && f 't' ≠ 15 && (f 't' = 13 || bad (f 'm')),
  rule ldrbRegW fun f => f 'n' ≠ 15 && f 't' ≠ 15 && (f 't' = 13 || bad (f 'm')),
  rule ldrsbLitW fun f => f 't' = 13,
  rule ldrshLitW fun f => f 't' = 13,
  rule ldrbLitW fun f => f 't' = 13,
  rule ldrhLitW fun f => f 't' = 13,
  rule pushW fun f => count (regs 0 (f 'm') (f 'r')) < 2,
  rule pushOne fun f => bad (f 't'),
  rule popW fun f => count (regs (f 'p') (f 'm') (f 'r')) < 2 || (f 'p' = 1 && f 'm' = 1),
  rule popOne fun f => f 't' = 13,
  rule stmW fun f => f 'n' = 15 || count (regs 0 (f 'm') (f 'r')) < 2 || (f 'w' = 1 && (regs 0 (f 'm') (f 'r')).getLsbD (f 'n')),
  rule ldmW fun f => !(f 'w' = 1 && f 'n' = 13) && (f 'n' = 15 || count (regs (f 'p') (f 'm') (f 'r')) < 2 || (f 'p' = 1 && f 'm' = 1) ||
    (f 'w' = 1 && (regs (f 'p') (f 'm') (f 'r')).getLsbD (f 'n'))),
  rule mrs fun f => bad (f 'd') || !special (f 's'),
  rule msr fun f => bad (f 'n') || !special (f 's') || f 'k' = 0 || (f 'k' ≠ 2 && !(f 's' < 4))]

/-- The encodings whose rule the program does not know. -/
def unknown : List Str := [
  addRegT2.pat, cmpRegT2.pat, blx.pat, adrAddW.pat, adrSubW.pat, uxtbW.pat, uxthW.pat, sxtbW.pat, sxthW.pat, movRegW.pat, movImmW.pat,
  movw.pat, mvnW.pat, cmnImm.pat, cmpImmW.pat, strRegW.pat, strhRegW.pat, strbRegW.pat, ldrshRegW.pat, ldrsbRegW.pat, ldrRegW.pat,
  ldrhRegW.pat, ldrbRegW.pat, ldrsbLitW.pat, ldrshLitW.pat, ldrbLitW.pat, ldrhLitW.pat, popOne.pat]

/-- The rules it does not apply: those it does not know; and of the byte reversals it compares the two fields for Rm, but does not
look at the registers. -/
def missed (e : Enc) (f : Char → Nat) : Bool :=
  unknown.contains e.pat || ([revshW.pat, rev16W.pat, revW.pat].contains e.pat && f 'm' = f 'k')

/-- The manual calls the word UNPREDICTABLE. -/
def Breaks (w : Nat) (b : Bool) : Prop :=
  ∃ r ∈ rules, r.1.pat.length = (if b then 32 else 16) ∧ fits r.1.pat w = true ∧ r.2 (field r.1.pat w) = true

/-- It does, by a rule that the program does not apply. -/
def Missed (w : Nat) (b : Bool) : Prop :=
  ∃ r ∈ rules, r.1.pat.length = (if b then 32 else 16) ∧ fits r.1.pat w = true ∧ r.2 (field r.1.pat w) = true ∧
    missed r.1 (field r.1.pat w) = true

/-- What becomes of the words of a rule. -/
def Outcome (r : Rule) : Prop := ∀ f, r.2 f = true →
  (C82.Unpredictable r.1 f ∧ missed r.1 f = false) ∨ (missed r.1 f = true ∧ r.1.ok f = true ∧ r.1.pat ≠ pushW.pat) ∨
    (r.1.pat = pushW.pat ∧ missed r.1 f = false)

theorem outcome_missed {e : Enc} {p : (Char → Nat) → Bool} (h : unknown.contains e.pat = true) (hp : e.pat ≠ pushW.pat)
    (ho : ∀ f, p f = true → e.ok f = true) : Outcome (rule e p) := by
  intro f hf
  refine .inr (.inl ⟨?_, ho f hf, hp⟩)
  show missed e f = true
  simp only [missed, h, Bool.true_or]

theorem outcome_checked {e : Enc} {p : (Char → Nat) → Bool} (h : e.pat ∈ C82.checked) (hm : ∀ f, missed e f = false)
    (ho : ∀ f, p f = true → e.ok f = false) : Outcome (rule e p) :=
  fun f hf => .inl ⟨.inl ⟨h, ho f hf⟩, hm f⟩

theorem not_missed {e : Enc} (h1 : unknown.contains e.pat = false) (h2 : [revshW.pat, rev16W.pat, revW.pat].contains e.pat = false)
    (f : Char → Nat) : missed e f = false := by
  simp only [missed, h1, h2, Bool.false_or, Bool.false_and]

theorem outcome_rev {e : Enc} (h : e.pat ∈ C82.checked) (hu : unknown.contains e.pat = false)
    (h2 : [revshW.pat, rev16W.pat, revW.pat].contains e.pat = true) (hp : e.pat ≠ pushW.pat)
    (ho : ∀ f, e.ok f = decide (f 'm' = f 'k')) :
    Outcome (rule e fun f => f 'm' ≠ f 'k' || bad (f 'd') || bad (f 'm')) := by
  intro f _
  by_cases hk : f 'm' = f 'k'
  · refine .inr (.inl ⟨?_, (ho f).trans (decide_eq_true hk), hp⟩)
    show missed e f = true
    simp only [missed, h2, hk, decide_true, Bool.and_true, Bool.or_true]
  · refine .inl ⟨.inl ⟨h, (ho f).trans (decide_eq_false hk)⟩, ?_⟩
    show missed e f = false
    simp only [missed, h2, hu, hk, decide_false, Bool.and_false, Bool.or_false]

set_option linter.unusedSimpArgs false in
theorem outcomes : ∀ r ∈ rules, Outcome r := by
  simp only [rules, List.forall_mem_cons]
  refine ⟨outcome_missed (by decide) (by decide) (by intro f h; simp [addRegT2, bad] at h ⊢; omega),
    outcome_missed (by decide) (by decide) (fun _ _ => rfl),
    outcome_missed (by decide) (by decide) (fun _ _ => rfl),
    outcome_checked (by decide) (not_missed (by decide) (by decide)) (by intro f h; simp [push, bad, plainReg] at h ⊢; grind),
    outcome_checked (by decide) (not_missed (by decide) (by decide)) (by intro f h; simp [pop, bad, plainReg] at h ⊢; grind),
    outcome_checked (by decide) (not_missed (by decide) (by decide)) (by intro f h; simp [ldm, bad, plainReg] at h ⊢; grind),
    outcome_checked (by decide) (not_missed (by decide) (by decide)) (by intro f h; simp [stm, bad, plainReg] at h ⊢; grind),
    outcome_checked (by decide) (not_missed (by decide) (by decide)) (by intro f h; simp [cps, bad, plainReg] at h ⊢; grind),
    outcome_checked (by decide) (not_missed (by decide) (by decide)) (by intro f h; simp [rsbW, bad, plainReg] at h ⊢; grind),
    outcome_checked (by decide) (not_missed (by decide) (by decide)) (by intro f h; simp [mulW, bad, plainReg] at h ⊢; grind),
    outcome_missed (by decide) (by decide) (fun _ _ => rfl),
    outcome_missed (by decide) (by decide) (fun _ _ => rfl),
    outcome_missed (by decide) (by decide) (fun _ _ => rfl),
    outcome_missed (by decide) (by decide) (fun _ _ => rfl),
    outcome_missed (by decide) (by decide) (fun _ _ => rfl),
    outcome_missed (by decide) (by decide) (fun _ _ => rfl),
    outcome_rev (by decide) (by decide) (by decide) (by decide) (fun _ => rfl),
    outcome_rev (by decide) (by decide) (by decide) (by decide) (fun _ => rfl),
    outcome_rev (by decide) (by decide) (by decide) (by decide) (fun _ => rfl),
    outcome_missed (by decide) (by decide) (fun _ _ => rfl),
    outcome_missed (by decide) (by decide) (fun _ _ => rfl),
    outcome_missed (by decide) (by decide) (fun _ _ => rfl),
    outcome_missed (by decide) (by decide) (fun _ _ => rfl),
    outcome_missed (by decide) (by decide) (fun _ _ => rfl),
    outcome_missed (by decide) (by decide) (fun _ _ => rfl),
    outcome_checked (by decide) (not_missed (by decide) (by decide)) (by intro f h; simp [tstW, bad, plainReg] at h ⊢; grind),
    outcome_missed (by decide) (by decide) (by intro f h; simp [strRegW, bad] at h ⊢; omega),
    outcome_missed (by decide) (by decide) (by intro f h; simp [strhRegW, bad] at h ⊢; omega),
    outcome_missed (by decide) (by decide) (by intro f h; simp [strbRegW, bad] at h ⊢; omega),
    outcome_missed (by decide) (by decide) (by intro f h; simp [ldrshRegW, bad] at h ⊢; omega),
    outcome_missed (by decide) (by decide) (by intro f h; simp [ldrsbRegW, bad] at h ⊢; omega),
    outcome_missed (by decide) (by decide) (by intro f h; simp [ldrRegW, bad] at h ⊢; omega),
    outcome_missed (by decide) (by decide) (by intro f h; simp [ldrhRegW, bad] at h ⊢; omega),
    outcome_missed (by decide) (by decide) (by intro f h; simp [ldrbRegW, bad] at h ⊢; omega),
    outcome_missed (by decide) (by decide) (by intro f h; simp [ldrsbLitW, bad] at h ⊢; omega),
    outcome_missed (by decide) (by decide) (by intro f h; simp [ldrshLitW, bad] at h ⊢; omega),
    outcome_missed (by decide) (by decide) (by intro f h; simp [ldrbLitW, bad] at h ⊢; omega),
    outcome_missed (by decide) (by decide) (by intro f h; simp [ldrhLitW, bad] at h ⊢; omega),
    fun f _ => .inr (.inr ⟨rfl, not_missed (by decide) (by decide) f⟩),
    outcome_checked (by decide) (not_missed (by decide) (by decide)) (by intro f h; simp [pushOne, bad, plainReg] at h ⊢; grind),
    outcome_checked (by decide) (not_missed (by decide) (by decide)) (by intro f h; simp [popW, bad, plainReg] at h ⊢; grind),
    outcome_missed (by decide) (by decide) (fun _ _ => rfl),
    outcome_checked (by decide) (not_missed (by decide) (by decide)) (by intro f h; simp [stmW, bad, plainReg] at h ⊢; grind),
    ?_,
    outcome_checked (by decide) (not_missed (by decide) (by decide)) (by intro f h; simp [mrs, bad, plainReg] at h ⊢; grind),
    outcome_checked (by decide) (not_missed (by decide) (by decide)) (by intro f h; simp [msr, bad, plainReg] at h ⊢; grind), by simp⟩
  intro f h
  refine .inl ⟨.inr ⟨rfl, ?_, ?_⟩, not_missed (by decide) (by decide) f⟩
  · simp only [rule, Bool.and_eq_true, Bool.not_eq_true', Bool.and_eq_false_iff, decide_eq_false_iff_not] at h
    omega
  · simp [rule, ldmW] at h ⊢
    grind


/-- What the program refuses breaks a rule. -/
def Sound (e : Enc) : Prop :=
  ∀ f, e.ok f = false → ¬ (f 'w' = 1 ∧ f 'n' = 13 ∧ e.pat = ldmW.pat) → ∃ r ∈ rules, r.1.pat = e.pat ∧ r.2 f = true

theorem sound_of {e : Enc} (i : Nat) (hi : i < rules.length) (he : (rules[i]).1.pat = e.pat)
    (h : ∀ f, e.ok f = false → ¬ (f 'w' = 1 ∧ f 'n' = 13 ∧ e.pat = ldmW.pat) → (rules[i]).2 f = true) : Sound e :=
  fun f h1 h2 => ⟨rules[i], List.getElem_mem _, he, h f h1 h2⟩

set_option linter.unusedSimpArgs false in
theorem sound {k : Case} (hk : k ∈ Case.all) (hc : k.enc.pat ∈ C82.checked ∨ k.enc.pat = ldmW.pat) : Sound k.enc := by
  have hc : k.enc.pat ∈ ldmW.pat :: C82.checked := by simpa [or_comm] using hc
  revert hc
  simp only [C82.checked, List.mem_cons, List.not_mem_nil, or_false]
  intro hc
  rcases hc with h | h | h | h | h | h | h | h | h | h | h | h | h | h | h | h | h
  · cases C82.same_pat hk (k' := Case.ldmW) (by simp [Case.all]) h
    exact sound_of (e := ldmW) 43 (by decide) rfl fun f h h2 => by
      simp [ldmW, rules, rule, bad, plainReg] at h h2 ⊢
      grind
  · cases C82.same_pat hk (k' := Case.rsbW) (by simp [Case.all]) h
    exact sound_of (e := rsbW) 8 (by decide) rfl fun f h h2 => by
      simp [rsbW, rules, rule, bad, plainReg] at h ⊢
      grind
  · cases C82.same_pat hk (k' := Case.mulW) (by simp [Case.all]) h
    exact sound_of (e := mulW) 9 (by decide) rfl fun f h h2 => by
      simp [mulW, rules, rule, bad, plainReg] at h ⊢
      grind
  · cases C82.same_pat hk (k' := Case.revshW) (by simp [Case.all]) h
    exact sound_of (e := revshW) 16 (by decide) rfl fun f h h2 => by
      simp [revshW, rules, rule, bad, plainReg] at h ⊢
      grind
  · cases C82.same_pat hk (k' := Case.rev16W) (by simp [Case.all]) h
    exact sound_of (e := rev16W) 17 (by decide) rfl fun f h h2 => by
      simp [rev16W, rules, rule, bad, plainReg] at h ⊢
      grind
  · cases C82.same_pat hk (k' := Case.revW) (by simp [Case.all]) h
    exact sound_of (e := revW) 18 (by decide) rfl fun f h h2 => by
      simp [revW, rules, rule, bad, plainReg] at h ⊢
      grind
  · cases C82.same_pat hk (k' := Case.tstW) (by simp [Case.all]) h
    exact sound_of (e := tstW) 25 (by decide) rfl fun f h h2 => by
      simp [tstW, rules, rule, bad, plainReg] at h ⊢
      grind
  · cases C82.same_pat hk (k' := Case.push) (by simp [Case.all]) h
    exact sound_of (e := push) 3 (by decide) rfl fun f h h2 => by
      simp [push, rules, rule, bad, plainReg] at h ⊢
      grind
  · cases C82.same_pat hk (k' := Case.pushOne) (by simp [Case.all]) h
    exact sound_of (e := pushOne) 39 (by decide) rfl fun f h h2 => by
      simp [pushOne, rules, rule, bad, plainReg] at h ⊢
      grind
  · cases C82.same_pat hk (k' := Case.pop) (by simp [Case.all]) h
    exact sound_of (e := pop) 4 (by decide) rfl fun f h h2 => by
      simp [pop, rules, rule, bad, plainReg] at h ⊢
      grind
  · cases C82.same_pat hk (k' := Case.popW) (by simp [Case.all]) h
    exact sound_of (e := popW) 40 (by decide) rfl fun f h h2 => by
      simp [popW, rules, rule, bad, plainReg] at h ⊢
      grind
  · cases C82.same_pat hk (k' := Case.ldm) (by simp [Case.all]) h
    exact sound_of (e := ldm) 5 (by decide) rfl fun f h h2 => by
      simp [ldm, rules, rule, bad, plainReg] at h ⊢
      grind
  · cases C82.same_pat hk (k' := Case.stm) (by simp [Case.all]) h
    exact sound_of (e := stm) 6 (by decide) rfl fun f h h2 => by
      simp [stm, rules, rule, bad, plainReg] at h ⊢
      grind
  · cases C82.same_pat hk (k' := Case.stmW) (by simp [Case.all]) h
    exact sound_of (e := stmW) 42 (by decide) rfl fun f h h2 => by
      simp [stmW, rules, rule, bad, plainReg] at h ⊢
      grind
  · cases C82.same_pat hk (k' := Case.cps) (by simp [Case.all]) h
    exact sound_of (e := cps) 7 (by decide) rfl fun f h h2 => by
      simp [cps, rules, rule, bad, plainReg] at h ⊢
      grind
  · cases C82.same_pat hk (k' := Case.mrs) (by simp [Case.all]) h
    exact sound_of (e := mrs) 44 (by decide) rfl fun f h h2 => by
      simp [mrs, rules, rule, bad, plainReg] at h ⊢
      grind
  · cases C82.same_pat hk (k' := Case.msr) (by simp [Case.all]) h
    exact sound_of (e := msr) 45 (by decide) rfl fun f h h2 => by
      simp [msr, rules, rule, bad, plainReg] at h ⊢
      grind

theorem rules_encodings : ∀ r ∈ rules, r.1 ∈ encodings := by
  simp only [rules, List.forall_mem_cons]
  refine ⟨?_, ?_, ?_, ?_, ?_, ?_, ?_, ?_, ?_, ?_, ?_, ?_, ?_, ?_, ?_, ?_, ?_, ?_, ?_, ?_, ?_, ?_, ?_, ?_, ?_, ?_, ?_, ?_, ?_, ?_, ?_, ?_, ?_,
    ?_, ?_, ?_, ?_, ?_, ?_, ?_, ?_, ?_, ?_, ?_, ?_, ?_, by simp⟩ <;> simp [rule, encodings]

/-- **C83.** Only what the manual calls unpredictable is refused as such. -/
theorem refused_is_unpredictable (data : List Nat) (hd : ∀ b ∈ data, b < 256) (hl : 2 ≤ data.length) (a : Int)
    (h : (trees.decode data a).1 = .error .unpredictable) : ∃ w b, firstWord data = some (w, b) ∧ Breaks w b := by
  obtain ⟨w, b, hw, e, he, h1, h2, h3⟩ := (C82.unpredictable_iff data hd hl a).1 h
  refine ⟨w, b, hw, ?_⟩
  obtain ⟨k, hk, rfl⟩ := C38.caseOf he
  have hs : ∃ r ∈ rules, r.1.pat = k.enc.pat ∧ r.2 (field k.enc.pat w) = true := by
    rcases h3 with ⟨hc, ho⟩ | ⟨hp, hn, ho⟩
    · refine sound hk (.inl hc) _ ho fun hx => ?_
      rw [hx.2.2] at hc
      exact absurd hc (by decide)
    · exact sound hk (.inr hp) _ ho fun hx => hn ⟨hx.1, hx.2.1⟩
  obtain ⟨r, hr, hp, hb⟩ := hs
  exact ⟨r, hr, by rw [hp]; exact h1, by rw [hp]; exact h2, by rw [hp]; exact hb⟩

/-- **C83.** A word that breaks a rule that is not applied is decoded. -/
theorem missed_decodes (data : List Nat) (hd : ∀ b ∈ data, b < 256) (hl : 2 ≤ data.length) (a : Int) (w : Nat) (b : Bool)
    (hw : firstWord data = some (w, b)) (h : Missed w b) : ∃ i, (trees.decode data a).1 = .ok i := by
  obtain ⟨r, hr, h1, h2, h3, h4⟩ := h
  refine (C82.decodes_iff data hd hl a).2 ⟨w, b, hw, .inl ⟨r.1, rules_encodings r hr, h1, ?_⟩⟩
  rcases outcomes r hr _ h3 with ⟨-, h⟩ | ⟨-, h5, h6⟩ | ⟨-, h⟩
  · rw [h] at h4; cases h4
  · exact ⟨⟨h1 ▸ C82.first_lt hd hw, h2, h5⟩, h6⟩
  · rw [h] at h4; cases h4

/-- **C83.** A word is refused as unpredictable if and only if the manual calls it so, it is not PUSH.W (which always fails), and
the rule is not one of those the program does not apply: all rules of the encodings in `unknown`, and what REV.W, REV16.W and
REVSH.W require of their registers. -/
theorem refused_iff_partial (data : List Nat) (hd : ∀ b ∈ data, b < 256) (hl : 2 ≤ data.length) (a : Int) :
    (trees.decode data a).1 = .error .unpredictable ↔
      ∃ w b, firstWord data = some (w, b) ∧ Breaks w b ∧ ¬ Missed w b ∧ ¬ (b = true ∧ fits pushW.pat w = true) := by
  constructor
  · intro h
    obtain ⟨w, b, hw, hb⟩ := refused_is_unpredictable data hd hl a h
    refine ⟨w, b, hw, hb, fun hm => ?_, ?_⟩
    · obtain ⟨i, hi⟩ := missed_decodes data hd hl a w b hw hm
      rw [h] at hi; cases hi
    · rintro ⟨rfl, hf⟩
      have := (C82.name_error_iff data hd hl a).2 ⟨w, hw, hf⟩
      rw [h] at this; cases this
  · rintro ⟨w, b, hw, ⟨r, hr, h1, h2, h3⟩, hm, hp⟩
    refine (C82.unpredictable_iff data hd hl a).2 ⟨w, b, hw, r.1, rules_encodings r hr, h1, h2, ?_⟩
    rcases outcomes r hr _ h3 with ⟨h, -⟩ | ⟨h, -⟩ | ⟨h, -⟩
    · exact h
    · exact (hm ⟨r, hr, h1, h2, h3, h⟩).elim
    · rw [h] at h1 h2
      refine (hp ⟨?_, h2⟩).elim
      cases b
      · exact absurd h1 (by decide)
      · rfl

/-- **C83.** No word is both decoded and refused by the rules that are applied: the words the manual calls unpredictable that are
decoded are exactly those of the rules not applied. -/
theorem decoded_unpredictable_iff (data : List Nat) (hd : ∀ b ∈ data, b < 256) (hl : 2 ≤ data.length) (a : Int) (w : Nat) (b : Bool)
    (hw : firstWord data = some (w, b)) (hb : Breaks w b) : (∃ i, (trees.decode data a).1 = .ok i) ↔ Missed w b := by
  refine ⟨fun ⟨i, hi⟩ => ?_, missed_decodes data hd hl a w b hw⟩
  apply Classical.byContradiction
  intro hm
  by_cases hp : b = true ∧ fits pushW.pat w = true
  · obtain ⟨rfl, hf⟩ := hp
    have := (C82.name_error_iff data hd hl a).2 ⟨w, hw, hf⟩
    rw [hi] at this; cases this
  · have := (refused_iff_partial data hd hl a).2 ⟨w, b, hw, hb, hm, hp⟩
    rw [hi] at this; cases this

/-- **C83.** `mul r13, r1, r2` is refused. `cmp r1, r2` in the form for high registers, and `rev.w pc, r1` are not, though they should be. -/
theorem some_missed : (trees.decode [0x01, 0xfb, 0x02, 0xfd] 0).1 = .error .unpredictable ∧
    (trees.decode [0x11, 0x45] 0).1.map Instr.mnemonic = .ok (c! "cmp") ∧
    (trees.decode [0x91, 0xfa, 0x81, 0xff] 0).1.map Instr.mnemonic = .ok (c! "rev.w") := by
  refine ⟨?_, ?_, ?_⟩ <;> (rw [trees, decoders_eq]; decide +kernel)

example : Missed 0x4511 false ∧ Missed 0xff81fa91 true ∧ Breaks 0xfd02fb01 true ∧ ¬ Missed 0xfd02fb01 true := by
  unfold Missed Breaks
  decide +kernel

end C83
end Verif
