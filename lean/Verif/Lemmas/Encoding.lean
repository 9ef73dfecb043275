import Verif.Thumb
import Verif.Lemmas.Table
import Verif.Lemmas.Decoder
import Verif.Props.C33

/-!
# Reading the fields of a word

Connects the bit diagrams of `Verif/Thumb.lean` with masks and field positions of decoders.
-/

namespace Verif
open BS Thumb

/-- The `size` bits from `off`. -/
def sl (w off size : Nat) : BitVec size := BitVec.ofNat size (w / 2 ^ off)

theorem sl_toNat (w off size : Nat) : (sl w off size).toNat = w / 2 ^ off % 2 ^ size := BitVec.toNat_ofNat ..

theorem read_sl (p : FieldPos) (w : Nat) : p.read w = .ok (ofBV (sl w p.off p.size)) := by
  rw [C33.read_eq, bv_eq_ofBV]; rfl

theorem readAll_sl (w : Nat) : ∀ fs, Dec.readAll w fs = .ok (fs.map fun f => (f.name, ofBV (sl w f.off f.size)))
  | [] => rfl
  | f :: t => by
    rw [Dec.readAll, read_sl, okBind, readAll_sl w t, okBind]; rfl

/-- The fields in the order of the parameters. -/
def orderFields (fs : List FieldPos) : List Str → Option (List FieldPos)
  | [] => some []
  | p :: ps => match fs.find? (·.name == p), orderFields fs ps with
    | some f, some r => some (f :: r)
    | _, _ => none

/-- The arguments of the handler, if names and parameters agree. -/
def argsOf (d : Dec) : Option (List FieldPos) :=
  if d.fmt.fields.all (fun f => d.handler.params.contains f.name) then orderFields d.fmt.fields d.handler.params
  else none

theorem lookup_map (w : Nat) (p : Str) : ∀ fs : List FieldPos,
    (fs.map fun f => (f.name, ofBV (sl w f.off f.size))).lookup p =
      (fs.find? (·.name == p)).map fun f => ofBV (sl w f.off f.size)
  | [] => rfl
  | f :: t => by
    rw [List.map_cons, List.lookup_cons, List.find?_cons, lookup_map w p t]
    by_cases h : f.name = p
    · subst h; simp
    · have h1 : (p == f.name) = false := by simpa using fun h' => h h'.symm
      have h2 : (f.name == p) = false := by simpa using h
      rw [h1, h2]

theorem bindArgs_sl (w : Nat) (fs : List FieldPos) : ∀ {ps : List Str} {qs : List FieldPos}, orderFields fs ps = some qs →
    Dec.bindArgs (fs.map fun f => (f.name, ofBV (sl w f.off f.size))) ps = .ok (qs.map fun f => ofBV (sl w f.off f.size))
  | [], qs, h => by simp only [orderFields, Option.some.injEq] at h; subst h; rfl
  | p :: ps, qs, h => by
    unfold orderFields at h
    split at h
    · rename_i f r h1 h2
      simp only [Option.some.injEq] at h
      subst h
      simp only [Dec.bindArgs, lookup_map, h1, Option.map_some, bindArgs_sl w fs h2]
      rfl
    · cases h

/-- Decoding calls the handler on the bits of the word. -/
theorem decode_eq {d : Dec} {qs : List FieldPos} (h : argsOf d = some qs) (w : Nat) (a : Int) :
    d.decode w a = d.handler.run (qs.map fun f => ofBV (sl w f.off f.size)) (d.fresh w a) := by
  unfold argsOf at h
  split at h
  · rename_i hall
    rw [Dec.decode, readAll_sl, okBind, Dec.call, if_pos, bindArgs_sl w _ h]
    · rfl
    · simpa [List.all_map] using hall
  · cases h

/-! ### Fields of a diagram -/

/-- Consecutive bits, the highest first. -/
def run (off size : Nat) : List Nat := (List.range size).reverse.map (off + ·)

theorem foldl_run (w off : Nat) : ∀ (size v : Nat),
    (run off size).foldl (fun v k => 2 * v + (w.testBit k).toNat) v = v * 2 ^ size + w / 2 ^ off % 2 ^ size
  | 0, v => by simp [run, Nat.mod_one]
  | n + 1, v => by
    have : run off (n + 1) = (off + n) :: run off n := by simp [run, List.range_succ]
    rw [this, List.foldl_cons, foldl_run w off n, Nat.mod_pow_succ (b := 2), Nat.testBit_eq_decide_div_mod_eq, Nat.pow_add,
      ← Nat.div_div_eq_div_mul, Nat.pow_succ, Nat.add_mul]
    have h2 : w / 2 ^ off / 2 ^ n % 2 = 0 ∨ w / 2 ^ off / 2 ^ n % 2 = 1 := by omega
    have h3 : v * (2 ^ n * 2) = 2 * v * 2 ^ n := by rw [Nat.mul_comm (2 ^ n), ← Nat.mul_assoc, Nat.mul_comm v]
    rw [h3]
    rcases h2 with h | h <;> simp [h] <;> omega

theorem bitsValue_append (w : Nat) (l m : List Nat) :
    bitsValue w (l ++ m) = m.foldl (fun v k => 2 * v + (w.testBit k).toNat) (bitsValue w l) := by
  rw [bitsValue, bitsValue, List.foldl_append]

theorem bitsValue_run (w off size : Nat) : bitsValue w (run off size) = (sl w off size).toNat := by
  rw [bitsValue, foldl_run, sl_toNat]; omega

theorem toNat_append {a b : Nat} (x : BitVec a) (y : BitVec b) : (x ++ y).toNat = x.toNat * 2 ^ b + y.toNat := by
  rw [BitVec.toNat_append, ← Nat.shiftLeft_add_eq_or_of_lt y.isLt, Nat.shiftLeft_eq]

theorem bitsValue_append_run (w off size : Nat) (l : List Nat) {n : Nat} (x : BitVec n) (h : bitsValue w l = x.toNat) :
    bitsValue w (l ++ run off size) = (x ++ sl w off size).toNat := by
  rw [bitsValue_append, foldl_run, toNat_append, h, sl_toNat]

theorem field_one {pat : Str} {c : Char} (off size : Nat) (h : places pat c = run off size) (w : Nat) :
    field pat w c = (sl w off size).toNat := by rw [field, h, bitsValue_run]

theorem field_two {pat : Str} {c : Char} (o1 s1 o2 s2 : Nat) (h : places pat c = run o1 s1 ++ run o2 s2) (w : Nat) :
    field pat w c = (sl w o1 s1 ++ sl w o2 s2).toNat := by
  rw [field, h, bitsValue_append_run _ _ _ _ _ (bitsValue_run ..)]

theorem field_three {pat : Str} {c : Char} (o1 s1 o2 s2 o3 s3 : Nat)
    (h : places pat c = run o1 s1 ++ run o2 s2 ++ run o3 s3) (w : Nat) :
    field pat w c = (sl w o1 s1 ++ sl w o2 s2 ++ sl w o3 s3).toNat := by
  rw [field, h, bitsValue_append_run _ _ _ _ _ (bitsValue_append_run _ _ _ _ _ (bitsValue_run ..))]

/-! ### Diagrams and masks -/

theorem check_iff {d : Dec} {w : Nat} : d.check w = true ↔ w &&& d.fmt.mask = d.fmt.mtch := by
  simp [Dec.check, Fmt.check]

theorem fits_iff {pat : Str} {w : Nat} : fits pat w = true ↔
    ∀ k < pat.length, (letter pat k = '0' → w.testBit k = false) ∧ (letter pat k = '1' → w.testBit k = true) := by
  simp [fits, List.all_eq_true]
  constructor
  · intro h k hk
    have := h k hk
    constructor
    · intro h0; have := this.1; grind
    · intro h1; have := this.2; grind
  · intro h k hk
    have := h k hk
    grind

/-- The fixed bits of the diagram are the mask and match of the decoder. -/
def samePat (pat : Str) (d : Dec) : Bool :=
  d.fmt.mask < 2 ^ pat.length && d.fmt.mtch < 2 ^ pat.length && (List.range pat.length).all fun k =>
    if letter pat k = '0' then d.fmt.mask.testBit k && !d.fmt.mtch.testBit k
    else if letter pat k = '1' then d.fmt.mask.testBit k && d.fmt.mtch.testBit k
    else !d.fmt.mask.testBit k && !d.fmt.mtch.testBit k

theorem check_iff_fits {pat : Str} {d : Dec} (h : samePat pat d = true) (w : Nat) :
    d.check w = true ↔ fits pat w = true := by
  rw [check_iff, fits_iff]
  simp only [samePat, Bool.and_eq_true, decide_eq_true_eq, List.all_eq_true, List.mem_range] at h
  obtain ⟨⟨h1, h2⟩, h3⟩ := h
  constructor
  · intro hc k hk
    have hb := congrArg (Nat.testBit · k) hc
    simp only [Nat.testBit_and] at hb
    have := h3 k hk
    grind
  · intro hf
    apply Nat.eq_of_testBit_eq
    intro k
    rw [Nat.testBit_and]
    by_cases hk : k < pat.length
    · have := h3 k hk
      have := hf k hk
      grind
    · rw [Nat.testBit_lt_two_pow (Nat.lt_of_lt_of_le h1 (Nat.pow_le_pow_right (by omega) (by omega : pat.length ≤ k))),
        Nat.testBit_lt_two_pow (Nat.lt_of_lt_of_le h2 (Nat.pow_le_pow_right (by omega) (by omega : pat.length ≤ k)))]
      simp

/-- Some fixed bit of the two differs. -/
def clashes (d e : Dec) : Bool := d.fmt.mtch &&& (d.fmt.mask &&& e.fmt.mask) != e.fmt.mtch &&& (d.fmt.mask &&& e.fmt.mask)

theorem not_check_of_clash {d e : Dec} (h : clashes d e = true) {w : Nat} (hd : d.check w = true) : e.check w = false := by
  by_cases he : e.check w = true
  · exfalso
    rw [check_iff] at hd he
    have : d.fmt.mtch &&& (d.fmt.mask &&& e.fmt.mask) = e.fmt.mtch &&& (d.fmt.mask &&& e.fmt.mask) := by
      rw [← hd, ← he]
      apply Nat.eq_of_testBit_eq
      intro k
      simp only [Nat.testBit_and]
      grind
    simp [clashes, this] at h
  · simpa using he

/-- A run of fixed bits of a decoder that matches. -/
theorem fixed_of_check {d : Dec} {w : Nat} (hc : d.check w = true) (off size : Nat)
    (hm : d.fmt.mask / 2 ^ off % 2 ^ size = 2 ^ size - 1) :
    (sl w off size).toNat = d.fmt.mtch / 2 ^ off % 2 ^ size := by
  rw [sl_toNat, ← check_iff.mp hc]
  apply Nat.eq_of_testBit_eq
  intro k
  have hb := congrArg (Nat.testBit · k) hm
  simp only [Nat.testBit_mod_two_pow, Nat.testBit_div_two_pow, Nat.testBit_two_pow_sub_one, Nat.testBit_and] at hb ⊢
  by_cases hk : k < size
  · simp_all
  · simp [hk]

/-- In a search only the decoders that can match together with one that does matter. -/
theorem tryAll_clash {d : Dec} {w : Nat} {a : Int} (hd : d.check w = true) (s : List Dec) :
    tryAll w a (s.filter fun e => !clashes d e) = tryAll w a s := by
  apply tryAll_filter
  intro e _ he
  by_cases h : clashes d e = true
  · rw [not_check_of_clash h hd] at he; cases he
  · simpa using h

end Verif
