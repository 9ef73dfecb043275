import Verif.Spec
import Verif.Lemmas.BV
import Verif.Props.C01

/-!
# C33: mask, match and fields partition the word

A format is a list of elements, lowest bits first. `encode` builds the word of a format
from values for its named fields; it is written without masks.
-/

namespace Verif
open BS

namespace C33

/-- Number of bits of an element. -/
def size : Elem → Nat
  | .bit _ => 1
  | .field _ s => s
  | .fixed _ v => v.width

/-- Name of an element. -/
def name? : Elem → Option Str
  | .bit _ => none
  | .field n _ => some n
  | .fixed n _ => some n

/-- Number of bits of a format. -/
def width : List Elem → Nat
  | [] => 0
  | e :: t => size e + width t

/-- Names of the fields of a format. -/
def names (l : List Elem) : List Str := l.filterMap name?

/-- The bits of an element, given values for the fields. -/
def value (vals : Str → Nat) : Elem → Nat
  | .bit b => b.toNat
  | .field n s => vals n % 2 ^ s
  | .fixed _ v => v.value

/-- The word with the given values in the fields. -/
def encode (vals : Str → Nat) : List Elem → Nat
  | [] => 0
  | e :: t => value vals e + 2 ^ size e * encode vals t

/-- The elements of the format strings of an instruction, lowest bits first. The first
string is the first halfword, which is the low half of the word. -/
def elems (spec : Str) (spec2 : Option Str) : PyRes (List Elem) := do
  let f ← parseSpec spec
  match spec2 with
  | none => .ok f.reverse
  | some s2 => do
    let f2 ← parseSpec s2
    .ok (f.reverse ++ f2.reverse)

/-- The bitstring a decoder passes to the handler under the name `n`. -/
def attr (f : Fmt) (w : Nat) (n : Str) : Option BS :=
  match f.fields.find? (·.name = n) with
  | none => none
  | some p => (p.read w).toOption

/-! ### The results of `process_fmt` in closed form -/

def maskOf : List Elem → Nat
  | [] => 0
  | .bit _ :: t => 1 ||| (maskOf t <<< 1)
  | .field _ s :: t => maskOf t <<< s
  | .fixed _ v :: t => v.mask ||| (maskOf t <<< v.width)

def matchOf : List Elem → Nat
  | [] => 0
  | .bit b :: t => b.toNat ||| (matchOf t <<< 1)
  | .field _ s :: t => matchOf t <<< s
  | .fixed _ v :: t => v.value ||| (matchOf t <<< v.width)

def fieldsOf : List Elem → Nat → List FieldPos
  | [], _ => []
  | .bit _ :: t, i => fieldsOf t (i + 1)
  | .field n s :: t, i => ⟨n, i, s⟩ :: fieldsOf t (i + s)
  | .fixed n v :: t, i => ⟨n, i, v.width⟩ :: fieldsOf t (i + v.width)

theorem processLoop_eq (off : Nat) : ∀ (t : List Elem) (i : Nat) (r : Fmt),
    processLoop off t i r = (i + width t, ⟨r.mask ||| (maskOf t <<< (i + off)), r.mtch ||| (matchOf t <<< (i + off)),
      (fieldsOf t (i + off)).foldl setField r.fields⟩) := by
  intro t
  induction t with
  | nil => intro i r; simp [processLoop, width, maskOf, matchOf, fieldsOf]
  | cons e t ih =>
    intro i r
    have ar : ∀ s, i + s + off = s + (i + off) := fun s => by omega
    have ar' : ∀ s, i + off + s = s + (i + off) := fun s => by omega
    cases e with
    | bit b =>
      simp only [processLoop, ih, width, size, maskOf, matchOf, fieldsOf, ar, ar', Nat.shiftLeft_or_distrib,
        Nat.or_assoc, ← Nat.shiftLeft_add, ← Nat.add_assoc]
    | field n s =>
      simp only [processLoop, ih, width, size, maskOf, matchOf, fieldsOf, ar, ar', List.foldl_cons,
        ← Nat.shiftLeft_add, ← Nat.add_assoc]
    | fixed n v =>
      simp only [processLoop, ih, width, size, maskOf, matchOf, fieldsOf, ar, ar', List.foldl_cons, unsigned,
        Nat.shiftLeft_or_distrib, Nat.or_assoc, ← Nat.shiftLeft_add, ← Nat.add_assoc]

theorem fieldsOf_names (t : List Elem) (i : Nat) : (fieldsOf t i).map (·.name) = names t := by
  induction t generalizing i with
  | nil => rfl
  | cons e t ih => cases e <;> simp [fieldsOf, names, name?, ih] <;> rfl

theorem foldl_setField : ∀ (l d : List FieldPos), ((d ++ l).map (·.name)).Nodup → l.foldl setField d = d ++ l := by
  intro l
  induction l with
  | nil => intro d _; simp
  | cons a l ih =>
    intro d h
    have h1 : setField d a = d ++ [a] := by
      unfold setField
      rw [if_neg]
      intro hc
      simp only [List.any_eq_true, decide_eq_true_eq] at hc
      obtain ⟨x, hx, he⟩ := hc
      rw [List.map_append, List.nodup_append] at h
      exact h.2.2 x.name (List.mem_map_of_mem hx) a.name (by simp) he
    rw [List.foldl_cons, h1, ih _ (by simpa using h)]
    simp

theorem width_append (a b : List Elem) : width (a ++ b) = width a + width b := by
  induction a with
  | nil => simp [width]
  | cons e t ih => simp [width, ih, Nat.add_assoc]

theorem maskOf_append (a b : List Elem) : maskOf (a ++ b) = maskOf a ||| (maskOf b <<< width a) := by
  induction a with
  | nil => simp [width, maskOf]
  | cons e t ih =>
    cases e <;> simp [width, maskOf, size, ih, Nat.shiftLeft_or_distrib, Nat.or_assoc, ← Nat.shiftLeft_add,
      Nat.add_comm]

theorem matchOf_append (a b : List Elem) : matchOf (a ++ b) = matchOf a ||| (matchOf b <<< width a) := by
  induction a with
  | nil => simp [width, matchOf]
  | cons e t ih =>
    cases e <;> simp [width, matchOf, size, ih, Nat.shiftLeft_or_distrib, Nat.or_assoc, ← Nat.shiftLeft_add,
      Nat.add_comm]

theorem fieldsOf_append (a b : List Elem) (i : Nat) :
    fieldsOf (a ++ b) i = fieldsOf a i ++ fieldsOf b (i + width a) := by
  induction a generalizing i with
  | nil => simp [width, fieldsOf]
  | cons e t ih => cases e <;> simp [width, fieldsOf, size, ih, Nat.add_assoc]

/-! ### Parsing only makes well formed values -/

def FixedOk (l : List Elem) : Prop := ∀ n v, .fixed n v ∈ l → v.WF

theorem fixedOk_append {a b : List Elem} (ha : FixedOk a) (hb : FixedOk b) : FixedOk (a ++ b) := by
  intro n v h; rcases List.mem_append.mp h with h | h
  · exact ha n v h
  · exact hb n v h

theorem fixedOk_field (n : Str) (s : Nat) : FixedOk [.field n s] := by intro n' v h; simp at h
theorem fixedOk_bit (b : Bool) : FixedOk [.bit b] := by intro n' v h; simp at h
theorem fixedOk_fixed {n : Str} {v : BS} (h : v.WF) : FixedOk [.fixed n v] := by
  intro n' v' h'; simp at h'; rw [h'.2]; exact h

theorem flush_fixedOk {p : ParseState} (h : FixedOk p.result) : FixedOk (flushIdent p).result := by
  unfold flushIdent; split
  · exact h
  · exact fixedOk_append h (fixedOk_field _ _)

theorem parse0_fixedOk {p q : ParseState} {c : Char} (h : FixedOk p.result) (hs : parse0 p c = .ok q) :
    FixedOk q.result := by
  unfold parse0 at hs
  repeat' split at hs
  all_goals first
    | (simp only [Except.ok.injEq] at hs; subst hs)
    | exact absurd hs (by simp)
  all_goals first
    | exact h
    | exact flush_fixedOk h
    | exact fixedOk_append (flush_fixedOk h) (fixedOk_bit _)

theorem step_fixedOk {p q : ParseState} {c : Char} (h : FixedOk p.result) (hs : parseStep p c = .ok q) :
    FixedOk q.result := by
  unfold parseStep at hs
  by_cases hf : ¬ (p.state = 0) ∧ ¬ (p.state = 1) ∧ ¬ (p.state = 2) ∧ ¬ (p.state = 3) ∧ ¬ (p.state = 4) ∧ ¬ (c = '0' ∨ c = '1')
  · obtain ⟨h0, h1, h2, h3, h4, h5⟩ := hf
    simp only [h0, h1, h2, h3, h4, h5, if_false] at hs
    cases hi : init (.str p.bits) with
    | error e => rw [hi] at hs; exact absurd hs (by simp [errBind])
    | ok v =>
      rw [hi, okBind] at hs
      simp only [Except.ok.injEq] at hs; subst hs
      exact fixedOk_append h (fixedOk_fixed (C01.init_wf hi))
  · repeat' split at hs
    all_goals first
      | exact parse0_fixedOk h hs
      | exact parse0_fixedOk (p := { p with state := 0, expecting := true }) h hs
      | (simp only [Except.ok.injEq] at hs; subst hs)
      | (exfalso; apply hf; simp_all; done)
      | exact absurd hs (by simp)
    all_goals first
      | exact h
      | exact fixedOk_append h (fixedOk_field _ _)

theorem loop_fixedOk : ∀ {s : Str} {p q : ParseState}, FixedOk p.result → parseLoop s p = .ok q → FixedOk q.result := by
  intro s
  induction s with
  | nil => intro p q h hs; simp only [parseLoop, Except.ok.injEq] at hs; subst hs; exact h
  | cons c t ih =>
    intro p q h hs
    cases hc : parseStep p c with
    | error e => simp only [parseLoop, hc] at hs; exact absurd hs (by simp [errBind])
    | ok r =>
      simp only [parseLoop, hc, okBind] at hs
      exact ih (step_fixedOk h hc) hs

theorem parse_fixedOk {s : Str} {l : List Elem} (h : parseSpec s = .ok l) : FixedOk l := by
  unfold parseSpec at h
  cases hp : parseLoop s ⟨[], 0, [], [], [], false⟩ with
  | error e => rw [hp] at h; exact absurd h (by simp [errBind])
  | ok p =>
    have hf : FixedOk p.result := loop_fixedOk (by intro n v h; simp at h) hp
    rw [hp, okBind] at h
    unfold parseEnd at h
    split at h
    · simp only [Except.ok.injEq] at h; subst h; exact hf
    · split at h
      · cases hi : init (.str p.bits) with
        | error e => rw [hi] at h; exact absurd h (by simp [errBind])
        | ok v =>
          rw [hi, okBind] at h; simp only [Except.ok.injEq] at h; subst h
          exact fixedOk_append hf (fixedOk_fixed (C01.init_wf hi))
      · simp only [Except.ok.injEq] at h; subst h; exact fixedOk_append hf (fixedOk_field _ _)

/-! ### Words -/

theorem and_split {w a b m c s : Nat} (ha : a < 2 ^ s) (hb : b < 2 ^ s) :
    w &&& (a ||| (m <<< s)) = b ||| (c <<< s) ↔ w % 2 ^ s &&& a = b ∧ w / 2 ^ s &&& m = c := by
  have bit_lo : ∀ {x j}, x < 2 ^ s → s ≤ j → x.testBit j = false := fun {x j} hx hj =>
    Nat.testBit_lt_two_pow (Nat.lt_of_lt_of_le hx (Nat.pow_le_pow_right (by omega) hj))
  constructor
  · intro h
    constructor
    · apply Nat.eq_of_testBit_eq
      intro j
      have := congrArg (fun z => z.testBit j) h
      by_cases hj : j < s
      · simp only [Nat.testBit_and, Nat.testBit_or, Nat.testBit_shiftLeft, Nat.testBit_mod_two_pow] at this ⊢
        simpa [hj, show ¬ (s ≤ j) by omega] using this
      · simp [Nat.testBit_and, Nat.testBit_mod_two_pow, hj, bit_lo hb (show s ≤ j by omega)]
    · apply Nat.eq_of_testBit_eq
      intro j
      have := congrArg (fun z => z.testBit (s + j)) h
      simp only [Nat.testBit_and, Nat.testBit_or, Nat.testBit_shiftLeft, bit_lo ha (Nat.le_add_right s j),
        bit_lo hb (Nat.le_add_right s j), Nat.testBit_div_two_pow] at this ⊢
      simpa [Nat.add_comm] using this
  · rintro ⟨rfl, rfl⟩
    apply Nat.eq_of_testBit_eq
    intro j
    by_cases hj : j < s
    · simp [Nat.testBit_and, Nat.testBit_or, Nat.testBit_shiftLeft, Nat.testBit_mod_two_pow, hj, show ¬ (s ≤ j) by omega]
    · simp [Nat.testBit_and, Nat.testBit_or, Nat.testBit_shiftLeft, Nat.testBit_mod_two_pow, hj,
        Nat.testBit_div_two_pow, show s ≤ j by omega, bit_lo ha (show s ≤ j by omega)]

theorem mod_split {w lo hi s t : Nat} (hl : lo < 2 ^ s) :
    w % 2 ^ (s + t) = lo + 2 ^ s * hi ↔ w % 2 ^ s = lo ∧ w / 2 ^ s % 2 ^ t = hi := by
  have e : w % 2 ^ (s + t) = w % 2 ^ s + 2 ^ s * (w / 2 ^ s % 2 ^ t) := by
    rw [Nat.pow_add, Nat.mod_mul]
  rw [e]
  have hp := Nat.two_pow_pos s
  have h1 := Nat.mod_lt w hp
  constructor
  · intro h
    have a := congrArg (· % 2 ^ s) h
    have b := congrArg (· / 2 ^ s) h
    simp only [Nat.add_mul_mod_self_left, Nat.mod_eq_of_lt hl, Nat.mod_eq_of_lt h1, Nat.add_mul_div_left _ _ hp,
      Nat.div_eq_of_lt hl, Nat.div_eq_of_lt h1, Nat.zero_add] at a b
    exact ⟨a, b⟩
  · rintro ⟨rfl, rfl⟩; rfl

theorem value_lt (vals : Str → Nat) {e : Elem} (h : FixedOk [e]) : value vals e < 2 ^ size e := by
  cases e with
  | bit b => cases b <;> simp [value, size]
  | field n s => exact Nat.mod_lt _ (Nat.two_pow_pos s)
  | fixed n v => exact (h n v (by simp)).1

theorem encode_lt (vals : Str → Nat) {t : List Elem} (h : FixedOk t) : encode vals t < 2 ^ width t := by
  induction t with
  | nil => simp [encode, width]
  | cons e t ih =>
    have h1 := value_lt vals (e := e) (by intro n v hv; exact h n v (by simp at hv; simp [hv]))
    have h2 := ih (by intro n v hv; exact h n v (by simp [hv]))
    rw [encode, width, Nat.pow_add]
    calc value vals e + 2 ^ size e * encode vals t < 2 ^ size e + 2 ^ size e * encode vals t := by omega
      _ = 2 ^ size e * (encode vals t + 1) := by rw [Nat.mul_add, Nat.mul_one, Nat.add_comm]
      _ ≤ _ := Nat.mul_le_mul_left _ h2

theorem fixedOk_cons {e : Elem} {t : List Elem} (h : FixedOk (e :: t)) : FixedOk [e] ∧ FixedOk t :=
  ⟨by intro n v hv; exact h n v (by simp at hv; simp [hv]), by intro n v hv; exact h n v (by simp [hv])⟩

/-- A word matches exactly if its bits are the encoding of values the fields agree with. -/
theorem check_core (vals : Str → Nat) (W : Nat) : ∀ (t : List Elem) (i : Nat), FixedOk t →
    (∀ p ∈ fieldsOf t i, vals p.name % 2 ^ p.size = W / 2 ^ p.off % 2 ^ p.size) →
    (W / 2 ^ i &&& maskOf t = matchOf t ↔ W / 2 ^ i % 2 ^ width t = encode vals t) := by
  intro t
  induction t with
  | nil => intro i _ _; simp [maskOf, matchOf, width, encode, Nat.mod_one]
  | cons e t ih =>
    intro i hf hv
    obtain ⟨hf1, hf2⟩ := fixedOk_cons hf
    have hlt := value_lt vals hf1
    have dd : ∀ s, W / 2 ^ i / 2 ^ s = W / 2 ^ (i + s) := fun s => by rw [Nat.div_div_eq_div_mul, Nat.pow_add]
    cases e with
    | bit b =>
      have := ih (i + 1) hf2 hv
      rw [maskOf, matchOf, and_split (by simp) (by cases b <;> simp), dd, this, encode, width,
        mod_split hlt, size, dd]
      simp only [value, Nat.pow_one, Nat.and_one_is_mod, Nat.mod_mod]
    | field n s =>
      have := ih (i + s) hf2 (fun p hp => hv p (by simp [fieldsOf, hp]))
      have h0 := hv ⟨n, i, s⟩ (by simp [fieldsOf])
      have e1 : maskOf (.field n s :: t) = 0 ||| (maskOf t <<< s) := by simp [maskOf]
      have e2 : matchOf (.field n s :: t) = 0 ||| (matchOf t <<< s) := by simp [matchOf]
      rw [e1, e2, and_split (Nat.two_pow_pos s) (Nat.two_pow_pos s), dd, this, encode, width,
        mod_split hlt, size, dd]
      simp only at h0
      simp [value, h0]
    | fixed n v =>
      have := ih (i + v.width) hf2 (fun p hp => hv p (by simp [fieldsOf, hp]))
      have hw := hf1 n v (by simp)
      have hm : v.mask < 2 ^ v.width := by rw [hw.2]; have := Nat.two_pow_pos v.width; omega
      rw [maskOf, matchOf, and_split hm hw.1, dd, this, encode, width, mod_split hlt, size, dd]
      simp [value, hw.2]

/-- The values of the fields of an encoded word. -/
theorem fields_core (vals : Str → Nat) (W : Nat) : ∀ (t : List Elem) (i : Nat), FixedOk t →
    W / 2 ^ i % 2 ^ width t = encode vals t →
    (∀ n s, .field n s ∈ t → ∃ p ∈ fieldsOf t i, p.name = n ∧ p.size = s ∧ W / 2 ^ p.off % 2 ^ s = vals n % 2 ^ s) ∧
    (∀ n v, .fixed n v ∈ t → ∃ p ∈ fieldsOf t i, p.name = n ∧ p.size = v.width ∧ W / 2 ^ p.off % 2 ^ v.width = v.value) := by
  intro t
  induction t with
  | nil => intro i _ _; simp
  | cons e t ih =>
    intro i hf he
    obtain ⟨hf1, hf2⟩ := fixedOk_cons hf
    have hlt := value_lt vals hf1
    have dd : ∀ s, W / 2 ^ i / 2 ^ s = W / 2 ^ (i + s) := fun s => by rw [Nat.div_div_eq_div_mul, Nat.pow_add]
    rw [encode, width, mod_split hlt, dd] at he
    have hs : ∀ x ∈ fieldsOf t (i + size e), x ∈ fieldsOf (e :: t) i := by
      cases e <;> simp [fieldsOf, size] <;> intro x hx <;> simp [hx]
    obtain ⟨a, b⟩ := ih (i + size e) hf2 he.2
    constructor
    · intro n s h
      rcases List.mem_cons.mp h with h | h
      · subst h
        exact ⟨⟨n, i, s⟩, by simp [fieldsOf], rfl, rfl, he.1⟩
      · obtain ⟨p, hp, r⟩ := a n s h; exact ⟨p, hs p hp, r⟩
    · intro n v h
      rcases List.mem_cons.mp h with h | h
      · subst h
        exact ⟨⟨n, i, v.width⟩, by simp [fieldsOf], rfl, rfl, he.1⟩
      · obtain ⟨p, hp, r⟩ := b n v h; exact ⟨p, hs p hp, r⟩

theorem read_eq (p : FieldPos) (w : Nat) : p.read w = .ok (bv p.size (w / 2 ^ p.off)) := by
  unfold FieldPos.read
  rw [init_int_width, ofInt_nat, Nat.shiftRight_eq_div_pow]

theorem find_of_nodup {l : List FieldPos} (h : (l.map (·.name)).Nodup) {p : FieldPos} (hp : p ∈ l) :
    l.find? (·.name = p.name) = some p := by
  induction l with
  | nil => simp at hp
  | cons a t ih =>
    rw [List.map_cons, List.nodup_cons] at h
    rcases List.mem_cons.mp hp with rfl | hp
    · simp
    · rw [List.find?_cons_of_neg, ih h.2 hp]
      simp only [decide_eq_true_eq]
      intro he; exact h.1 (he ▸ List.mem_map_of_mem hp)

/-- What `Decoder.__init__` computes, in closed form. -/
theorem specFmt_eq {spec : Str} {spec2 : Option Str} {F : Fmt} {is32 : Bool} (h : specFmt spec spec2 = .ok (F, is32))
    {es : List Elem} (he : elems spec spec2 = .ok es) (hn : (names es).Nodup) :
    F = ⟨maskOf es, matchOf es, fieldsOf es 0⟩ ∧ width es = (if is32 then 32 else 16) ∧ FixedOk es
      ∧ is32 = spec2.isSome := by
  unfold specFmt at h
  unfold elems at he
  cases hp : parseSpec spec with
  | error e => rw [hp] at h; exact absurd h (by simp [errBind])
  | ok f =>
    rw [hp, okBind] at h he
    have hfo := parse_fixedOk hp
    have hfo' : FixedOk f.reverse := fun n v hm => hfo n v (by simpa using hm)
    unfold processFmt at h
    rw [processLoop_eq] at h
    simp only [Nat.zero_add, Nat.add_zero, Nat.zero_or, Nat.shiftLeft_zero] at h
    by_cases hw : width f.reverse = 16
    · rw [if_pos hw, okBind] at h
      cases spec2 with
      | none =>
        simp only [Except.ok.injEq, Prod.mk.injEq] at h he
        obtain ⟨rfl, rfl⟩ := h
        subst he
        refine ⟨?_, hw, hfo', rfl⟩
        rw [foldl_setField _ [] (by simpa [fieldsOf_names] using hn)]; simp
      | some s2 =>
        simp only at h he
        cases hp2 : parseSpec s2 with
        | error e => rw [hp2] at h; exact absurd h (by simp [errBind])
        | ok f2 =>
          have hfo2 := parse_fixedOk hp2
          have hfo2' : FixedOk f2.reverse := fun n v hm => hfo2 n v (by simpa using hm)
          rw [hp2, okBind] at h he
          rw [processLoop_eq] at h
          simp only [Nat.zero_add, Nat.zero_or] at h
          by_cases hw2 : width f2.reverse = 16
          · rw [if_pos hw2, okBind] at h
            simp only [Except.ok.injEq, Prod.mk.injEq] at h he
            obtain ⟨rfl, rfl⟩ := h
            subst he
            have hn' := hn
            unfold names at hn'
            rw [List.filterMap_append] at hn'
            change (names f.reverse ++ names f2.reverse).Nodup at hn'
            have n12 := List.nodup_append.mp hn'
            refine ⟨?_, by rw [width_append, hw, hw2]; rfl, fixedOk_append hfo' hfo2', rfl⟩
            rw [foldl_setField _ [] (by simpa [fieldsOf_names] using n12.1),
              foldl_setField _ [] (by simpa [fieldsOf_names] using n12.2.1),
              List.nil_append, List.nil_append,
              foldl_setField _ _ (by rw [List.map_append, fieldsOf_names, fieldsOf_names]; exact hn'),
              maskOf_append, matchOf_append, fieldsOf_append, hw]
          · rw [if_neg hw2] at h; exact absurd h (by simp [errBind])
    · rw [if_neg hw] at h; exact absurd h (by simp [errBind])

section
variable {spec : Str} {spec2 : Option Str} {F : Fmt} {is32 : Bool} (h : specFmt spec spec2 = .ok (F, is32))
  {es : List Elem} (he : elems spec spec2 = .ok es) (hn : (names es).Nodup)
include h he hn

/-- **C33.** The elements of the format cover exactly the 16 or 32 bits of the word. -/
theorem covers : width es = (if is32 then 32 else 16) ∧ is32 = spec2.isSome :=
  ⟨(specFmt_eq h he hn).2.1, (specFmt_eq h he hn).2.2.2⟩

/-- **C33.** A word matches if and only if it is the encoding of its own fields. -/
theorem check_iff (w : Nat) (hw : w < 2 ^ (if is32 then 32 else 16)) :
    F.check w = true ↔ w = encode (fun n => ((attr F w n).map (·.value)).getD 0) es := by
  obtain ⟨rfl, h2, h3, -⟩ := specFmt_eq h he hn
  unfold Fmt.check
  rw [beq_iff_eq]
  have := check_core (fun n => ((attr ⟨maskOf es, matchOf es, fieldsOf es 0⟩ w n).map (·.value)).getD 0) w es 0 h3 (by
    intro p hp
    have hf := find_of_nodup (by rw [fieldsOf_names]; exact hn) hp
    simp only [attr, hf, read_eq, Except.toOption, Option.map_some, Option.getD_some, bv_value, Nat.mod_mod])
  simp only [Nat.pow_zero, Nat.div_one] at this
  rw [this, h2, Nat.mod_eq_of_lt hw]

/-- **C33.** The encoding of any field values matches, and every field is read back
unchanged. -/
theorem encode_check (vals : Str → Nat) : F.check (encode vals es) = true ∧
    encode vals es < 2 ^ (if is32 then 32 else 16) ∧
    (∀ n s, .field n s ∈ es → attr F (encode vals es) n = some (bv s (vals n))) ∧
    (∀ n v, .fixed n v ∈ es → attr F (encode vals es) n = some v) := by
  obtain ⟨rfl, h2, h3, -⟩ := specFmt_eq h he hn
  have hlt := encode_lt vals h3
  rw [h2] at hlt
  have hself : encode vals es / 2 ^ 0 % 2 ^ width es = encode vals es := by
    rw [Nat.pow_zero, Nat.div_one, h2, Nat.mod_eq_of_lt hlt]
  obtain ⟨ha, hb⟩ := fields_core vals (encode vals es) es 0 h3 hself
  have hnd : ((fieldsOf es 0).map (·.name)).Nodup := by rw [fieldsOf_names]; exact hn
  have rf : ∀ n s, .field n s ∈ es → attr ⟨maskOf es, matchOf es, fieldsOf es 0⟩ (encode vals es) n = some (bv s (vals n)) := by
    intro n s hm
    obtain ⟨p, hp, rfl, rfl, hv⟩ := ha n s hm
    simp only [attr, find_of_nodup hnd hp, read_eq, Except.toOption]
    rw [bv_congr hv]
  refine ⟨?_, hlt, rf, ?_⟩
  · rw [check_iff h he hn _ hlt]
    have : ∀ t, (∀ e ∈ t, e ∈ es) → encode vals t = encode (fun n =>
        ((attr ⟨maskOf es, matchOf es, fieldsOf es 0⟩ (encode vals es) n).map (·.value)).getD 0) t := by
      intro t
      induction t with
      | nil => intro _; rfl
      | cons e t ih =>
        intro hsub
        rw [encode, encode, ← ih (fun x hx => hsub x (by simp [hx]))]
        congr 1
        cases e with
        | bit b => rfl
        | field n s => simp only [value, rf n s (hsub _ (by simp)), Option.map_some, Option.getD_some, bv_value, Nat.mod_mod]
        | fixed n v => rfl
    exact this es (fun _ h => h)
  · intro n v hm
    obtain ⟨p, hp, rfl, hs, hv⟩ := hb n v hm
    simp only [attr, find_of_nodup hnd hp, read_eq, Except.toOption]
    rw [(h3 p.name v hm).eq_bv, hs]
    congr 1
    apply bv_congr
    rw [hv, Nat.mod_eq_of_lt (h3 p.name v hm).1]

/-- **C33.** Two words that match and agree on all fields are equal: nothing else is left
in the word. -/
theorem fields_determine (w w' : Nat) (hw : w < 2 ^ (if is32 then 32 else 16)) (hw' : w' < 2 ^ (if is32 then 32 else 16))
    (c : F.check w = true) (c' : F.check w' = true) (hf : ∀ n, attr F w n = attr F w' n) : w = w' := by
  rw [check_iff h he hn w hw] at c
  rw [check_iff h he hn w' hw'] at c'
  rw [c, c']
  simp only [hf]

end

/-- The condition on names is needed: with a name used twice the first field is lost and
two words with the same fields exist. -/
theorem repeated_name : ∃ F, specFmt (c! "a(8) a(8)") none = .ok (F, false) ∧ F.check 1 = true ∧ F.check 2 = true ∧
    ∀ n, attr F 1 n = attr F 2 n := by
  refine ⟨⟨0, 0, [⟨['a'], 8, 8⟩]⟩, by decide +kernel, by decide, by decide, ?_⟩
  intro n
  unfold attr
  simp only [List.find?_cons, List.find?_nil]
  by_cases h : ['a'] = n
  · subst h; decide
  · simp [h]

example : specFmt (c! "000 stype=01 imm5(5) Rm(3) Rd(3)") none = .ok (⟨0xf800, 0x0800,
    [⟨c! "Rd", 0, 3⟩, ⟨c! "Rm", 3, 3⟩, ⟨c! "imm5", 6, 5⟩, ⟨c! "stype", 11, 2⟩]⟩, false) := by decide +kernel

end C33
end Verif
