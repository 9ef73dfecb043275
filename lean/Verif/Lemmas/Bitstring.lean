import Verif.Bitstring
import Verif.Lemmas.Py

/-! Lemmas about the bitstring model: every operation in arithmetic form. -/

namespace Verif
namespace BS

/-- The representation invariant. -/
def WF (b : BS) : Prop := b.value < 2 ^ b.width ∧ b.mask = 2 ^ b.width - 1

/-- The bitstring of width `w` holding `v` mod `2^w`. -/
def bv (w v : Nat) : BS := ⟨w, v % 2 ^ w, 2 ^ w - 1⟩

@[simp] theorem bv_width (w v : Nat) : (bv w v).width = w := rfl
@[simp] theorem bv_value (w v : Nat) : (bv w v).value = v % 2 ^ w := rfl
@[simp] theorem bv_mask (w v : Nat) : (bv w v).mask = 2 ^ w - 1 := rfl

theorem bv_wf (w v : Nat) : (bv w v).WF :=
  ⟨Nat.mod_lt _ (Nat.two_pow_pos w), rfl⟩

theorem WF.eq_bv {b : BS} (h : b.WF) : b = bv b.width b.value := by
  cases b with
  | mk w v m =>
    obtain ⟨h1, h2⟩ := h
    simp only at h1 h2
    simp only [bv, Nat.mod_eq_of_lt h1, h2]

theorem ext_bv {b c : BS} (hb : b.WF) (hc : c.WF) (hw : b.width = c.width) (hv : b.value = c.value) :
    b = c := by
  rw [hb.eq_bv, hc.eq_bv, hw, hv]

theorem bv_inj {w v w' v' : Nat} : bv w v = bv w' v' ↔ w = w' ∧ v % 2 ^ w = v' % 2 ^ w' := by
  constructor
  · intro h
    exact ⟨congrArg width h, congrArg value h⟩
  · rintro ⟨rfl, h⟩; simp only [bv, h]

theorem bv_congr {w v v' : Nat} (h : v % 2 ^ w = v' % 2 ^ w) : bv w v = bv w v' := by
  simp only [bv, h]

@[simp] theorem bv_mod (w v : Nat) : bv w (v % 2 ^ w) = bv w v := by
  simp [bv]

theorem ofInt_eq (v : Int) (w : Nat) : ofInt v w = bv w (v % 2 ^ w).toNat := by
  have h := maskTo_lt v w
  rw [← maskTo_eq]
  simp only [ofInt, bv, Nat.mod_eq_of_lt h]

@[simp] theorem ofInt_nat (n w : Nat) : ofInt (n : Int) w = bv w n := by
  simp only [ofInt, bv, maskTo_nat]

theorem ofInt_wf (v : Int) (w : Nat) : (ofInt v w).WF := by rw [ofInt_eq]; exact bv_wf _ _

@[simp] theorem copy_bv (w v : Nat) : copy (bv w v) = bv w v := by
  simp only [copy, bv_value, bv_width, ofInt_nat, bv_mod]

theorem copy_wf {b : BS} (h : b.WF) : copy b = b := by
  rw [h.eq_bv, copy_bv]

theorem bit0_eq : bit0 = bv 1 0 := rfl
theorem bit1_eq : bit1 = bv 1 1 := rfl

/-! ### Parsing -/

/-- The number a 0/1 text denotes. -/
def strVal (s : Str) : Nat := s.foldl (fun a c => 2 * a + (if c = '1' then 1 else 0)) 0

theorem isBit_iff {c : Char} : isBit c = true ↔ c = '0' ∨ c = '1' := by simp [isBit]

theorem isSpace_bit {c : Char} (h : c = '0' ∨ c = '1') : isSpace c = false := by rcases h with rfl | rfl <;> decide

theorem takeSign_bit {c : Char} (t : Str) (h : c = '0' ∨ c = '1') : takeSign (c :: t) = (false, c :: t) := by
  rcases h with rfl | rfl <;> rfl

theorem skip0b_bits {s : Str} (h : ∀ c ∈ s, c = '0' ∨ c = '1') : skip0b s = s := by
  unfold skip0b
  split
  · next b d t =>
    rw [if_neg]
    rcases h b (by simp) with rfl | rfl <;> simp
  · rfl

theorem takeWhile_bits {s r : Str} (h : ∀ c ∈ s, c = '0' ∨ c = '1') (hr : ∀ c t, r = c :: t → isBit c = false) :
    (s ++ r).takeWhile isBit = s ∧ (s ++ r).dropWhile isBit = r := by
  induction s with
  | nil =>
    cases r with
    | nil => exact ⟨rfl, rfl⟩
    | cons c t =>
      have := hr c t rfl
      simp [List.takeWhile_cons, List.dropWhile_cons, this]
  | cons c t ih =>
    have hc : isBit c = true := isBit_iff.mpr (h c List.mem_cons_self)
    have := ih fun c hc => h c (List.mem_cons_of_mem _ hc)
    simp [List.takeWhile_cons, List.dropWhile_cons, hc, this]

theorem intBase2_bits {s : Str} (hne : s ≠ []) (h : ∀ c ∈ s, c = '0' ∨ c = '1') : intBase2 s = .ok (strVal s : Int) := by
  cases s with
  | nil => contradiction
  | cons c t =>
    have hc := h c List.mem_cons_self
    have hd : (c :: t).dropWhile isSpace = c :: t := by rw [List.dropWhile_cons, if_neg (by simp [isSpace_bit hc])]
    obtain ⟨h1, h2⟩ := takeWhile_bits (s := c :: t) (r := []) h (by simp)
    rw [List.append_nil] at h1 h2
    unfold intBase2
    simp only [hd, takeSign_bit t hc, skip0b_bits h, h1, h2]
    rw [if_neg (by simp)]
    rfl

theorem foldl_bits (s : Str) (acc : Nat) :
    s.foldl (fun a c => 2 * a + (if c = '1' then 1 else 0)) acc = acc * 2 ^ s.length + strVal s := by
  induction s generalizing acc with
  | nil => simp [strVal]
  | cons c t ih =>
    simp only [List.foldl_cons, List.length_cons, strVal]
    rw [ih, ih (2 * 0 + _)]
    simp only [Nat.pow_succ, Nat.add_mul, Nat.mul_zero, Nat.zero_add]
    generalize (2 ^ t.length) = p
    split <;> simp [Nat.mul_comm, Nat.mul_left_comm] <;> omega

theorem strVal_cons (c : Char) (t : Str) :
    strVal (c :: t) = (if c = '1' then 1 else 0) * 2 ^ t.length + strVal t := by
  have := foldl_bits t (2 * 0 + (if c = '1' then 1 else 0))
  simpa [strVal] using this

theorem strVal_append (s t : Str) : strVal (s ++ t) = strVal s * 2 ^ t.length + strVal t := by
  have := foldl_bits t (strVal s)
  simpa [strVal] using this

theorem strVal_lt (s : Str) : strVal s < 2 ^ s.length := by
  induction s with
  | nil => simp [strVal]
  | cons c t ih =>
    rw [strVal_cons, List.length_cons, Nat.pow_succ]
    split <;> omega

theorem init_str {s : Str} (hne : s ≠ []) (h : ∀ c ∈ s, c = '0' ∨ c = '1') :
    init (.str s) none = .ok (bv s.length (strVal s)) := by
  simp only [init, initRaw, intBase2_bits hne h, bind, Except.bind, Option.getD_none]
  rw [if_neg (by omega)]
  simp [ofInt_nat]

/-! ### Binary text -/

theorem binaryLoop_length (v n : Nat) : (binaryLoop v n).length = n := by
  induction n with
  | zero => rfl
  | succ n ih => simp [binaryLoop, ih]

theorem bitChar_eq (v i : Nat) : bitChar v i = if v.testBit i then '1' else '0' := by
  unfold bitChar
  have h : (v >>> i) &&& 1 = if v.testBit i then 1 else 0 := by
    rw [Nat.and_one_is_mod, Nat.shiftRight_eq_div_pow, Nat.testBit_eq_decide_div_mod_eq]
    have : v / 2 ^ i % 2 < 2 := Nat.mod_lt _ (by decide)
    by_cases hh : v / 2 ^ i % 2 = 1
    · simp [hh]
    · simp [hh]; omega
  rw [h]
  split <;> simp

theorem binaryLoop_bits (v n : Nat) : ∀ c ∈ binaryLoop v n, c = '0' ∨ c = '1' := by
  induction n with
  | zero => simp [binaryLoop]
  | succ n ih =>
    intro c hc
    rcases List.mem_cons.1 hc with rfl | hc
    · rw [bitChar_eq]; split <;> simp
    · exact ih c hc

theorem testBit_eq_mod (v i : Nat) : (if v.testBit i then 1 else 0) = v / 2 ^ i % 2 := by
  rw [Nat.testBit_eq_decide_div_mod_eq]
  have : v / 2 ^ i % 2 < 2 := Nat.mod_lt _ (by decide)
  by_cases hh : v / 2 ^ i % 2 = 1
  · simp [hh]
  · simp [hh]; omega

theorem mod_two_pow_succ' (v n : Nat) :
    v % 2 ^ (n + 1) = (if v.testBit n then 1 else 0) * 2 ^ n + v % 2 ^ n := by
  rw [testBit_eq_mod, Nat.pow_succ, Nat.mod_mul, Nat.mul_comm, Nat.add_comm]

theorem strVal_binaryLoop (v n : Nat) : strVal (binaryLoop v n) = v % 2 ^ n := by
  induction n with
  | zero => simp [binaryLoop, strVal, Nat.mod_one]
  | succ n ih =>
    rw [binaryLoop, strVal_cons, binaryLoop_length, ih, mod_two_pow_succ', bitChar_eq]
    cases v.testBit n <;> simp

theorem binaryString_length (b : BS) : b.binaryString.length = b.width := binaryLoop_length _ _

theorem init_binaryString {b : BS} (h : b.WF) (hw : b.width ≠ 0) :
    init (.str b.binaryString) none = .ok b := by
  have hne : b.binaryString ≠ [] := by
    intro h'
    have := binaryString_length b
    rw [h'] at this
    simp at this; omega
  rw [init_str hne (binaryLoop_bits _ _), binaryString_length]
  unfold binaryString
  rw [strVal_binaryLoop, bv_mod, ← h.eq_bv]

theorem binaryLoop_strVal (s : Str) (h : ∀ c ∈ s, c = '0' ∨ c = '1') (u : Nat) :
    binaryLoop (u * 2 ^ s.length + strVal s) s.length = s := by
  induction s generalizing u with
  | nil => rfl
  | cons c t ih =>
    have ht : ∀ c ∈ t, c = '0' ∨ c = '1' := fun c hc => h c (List.mem_cons_of_mem _ hc)
    have e : u * 2 ^ (c :: t).length + strVal (c :: t)
        = (2 * u + (if c = '1' then 1 else 0)) * 2 ^ t.length + strVal t := by
      rw [strVal_cons, List.length_cons, Nat.pow_succ, Nat.add_mul, ← Nat.add_assoc]
      congr 2
      rw [Nat.mul_comm (2 ^ t.length) 2, ← Nat.mul_assoc, Nat.mul_comm u 2]
    rw [e, List.length_cons, binaryLoop, ih ht]
    congr 1
    rw [bitChar_eq]
    have hlt := strVal_lt t
    have : ((2 * u + (if c = '1' then 1 else 0)) * 2 ^ t.length + strVal t) / 2 ^ t.length
        = 2 * u + (if c = '1' then 1 else 0) := by
      rw [Nat.add_comm, Nat.add_mul_div_right _ _ (Nat.two_pow_pos _), Nat.div_eq_of_lt hlt]
      simp
    rw [Nat.testBit_eq_decide_div_mod_eq, this]
    rcases h c List.mem_cons_self with rfl | rfl
    · simp
    · simp

/-! ### Bits and concatenation -/

theorem shiftRight_and_one (v i : Nat) : (v >>> i) &&& 1 = v / 2 ^ i % 2 := by
  rw [Nat.and_one_is_mod, Nat.shiftRight_eq_div_pow]

theorem getBit_nat (b : BS) (i : Nat) : b.getBit (i : Int) = .ok (bv 1 (b.value / 2 ^ i % 2)) := by
  unfold getBit
  rw [if_neg (by omega)]
  rw [if_neg (by omega), shiftRight_and_one, Int.toNat_natCast, ofInt_nat]

theorem getBit_neg (b : BS) (i : Int) (h : i < 0) (h' : 0 ≤ (b.width : Int) + i) :
    b.getBit i = .ok (bv 1 (b.value / 2 ^ ((b.width : Int) + i).toNat % 2)) := by
  unfold getBit
  rw [if_pos h]
  simp only
  rw [if_neg (by omega), shiftRight_and_one, ofInt_nat]

theorem or_shift (a b n : Nat) (h : b < 2 ^ n) : (a <<< n) ||| b = a * 2 ^ n + b := by
  rw [Nat.shiftLeft_eq, Nat.mul_comm]
  exact (Nat.two_pow_add_eq_or_of_lt h a).symm

theorem mul_pow_add_lt {a b n m : Nat} (ha : a < 2 ^ m) (hb : b < 2 ^ n) :
    a * 2 ^ n + b < 2 ^ (m + n) := by
  rw [Nat.pow_add]
  calc a * 2 ^ n + b < a * 2 ^ n + 2 ^ n := by omega
    _ = (a + 1) * 2 ^ n := by rw [Nat.add_mul, Nat.one_mul]
    _ ≤ 2 ^ m * 2 ^ n := Nat.mul_le_mul_right _ ha

theorem iconcat_bv (w v u x : Nat) :
    iconcat (bv w v) (bv u x) = bv (w + u) (v % 2 ^ w * 2 ^ u + x % 2 ^ u) := by
  have h1 : v % 2 ^ w < 2 ^ w := Nat.mod_lt _ (Nat.two_pow_pos w)
  have h2 : x % 2 ^ u < 2 ^ u := Nat.mod_lt _ (Nat.two_pow_pos u)
  simp only [iconcat, bv, or_shift _ _ _ h2, Nat.mod_eq_of_lt (mul_pow_add_lt h1 h2)]

theorem concat_bv (w v u x : Nat) :
    concat (bv w v) (bv u x) = bv (w + u) (v % 2 ^ w * 2 ^ u + x % 2 ^ u) := by
  rw [concat, copy_bv, iconcat_bv]

theorem concat_wf_eq {b c : BS} (hb : b.WF) (hc : c.WF) :
    concat b c = bv (b.width + c.width) (b.value * 2 ^ c.width + c.value) := by
  conv => lhs; rw [hb.eq_bv, hc.eq_bv]
  rw [concat_bv, Nat.mod_eq_of_lt hb.1, Nat.mod_eq_of_lt hc.1]

theorem concat_wf {b c : BS} (hb : b.WF) (hc : c.WF) : (concat b c).WF := by
  rw [concat_wf_eq hb hc]; exact bv_wf _ _

theorem concat_value {b c : BS} (hb : b.WF) (hc : c.WF) :
    (concat b c).value = b.value * 2 ^ c.width + c.value := by
  rw [concat_wf_eq hb hc, bv_value, Nat.mod_eq_of_lt (mul_pow_add_lt hb.1 hc.1)]

theorem concat_width {b c : BS} : (concat b c).width = b.width + c.width := rfl

theorem testBit_mul_add (a b n k : Nat) (h : b < 2 ^ n) :
    (a * 2 ^ n + b).testBit k = if k < n then b.testBit k else a.testBit (k - n) := by
  rw [Nat.mul_comm, Nat.testBit_two_pow_mul_add _ h]

theorem testBit_concat {b c : BS} (hb : b.WF) (hc : c.WF) (k : Nat) :
    (concat b c).value.testBit k
      = if k < c.width then c.value.testBit k else b.value.testBit (k - c.width) := by
  rw [concat_value hb hc, testBit_mul_add _ _ _ _ hc.1]

theorem testBit_of_ge {b : BS} (hb : b.WF) {k : Nat} (h : b.width ≤ k) : b.value.testBit k = false :=
  Nat.testBit_lt_two_pow (Nat.lt_of_lt_of_le hb.1 (Nat.pow_le_pow_right (by decide) h))

theorem testBit_bit (v i k : Nat) : (v / 2 ^ i % 2).testBit k = (decide (k = 0) && v.testBit i) := by
  rw [← testBit_eq_mod]
  cases v.testBit i
  · simp
  · cases k with
    | zero => simp
    | succ n => simp [Nat.testBit_succ]

/-! ### Slices -/

/-- The loop runs `n` rounds when its condition holds for exactly the first `n`. -/
theorem sliceLoop_spec (b : BS) (stop step : Int) (n : Nat) :
    ∀ (fuel : Nat) (i : Int) (r : BS), r.WF → n ≤ fuel →
    (∀ k : Nat, k < n → (if step > 0 then i + k * step < stop else i + k * step > stop)) →
    (∀ k : Nat, k < n → 0 ≤ i + k * step) →
    (fuel = n ∨ ¬ (if step > 0 then i + n * step < stop else i + n * step > stop)) →
    ∃ r', sliceLoop b stop step fuel i r = .ok r' ∧ r'.WF ∧ r'.width = r.width + n ∧
      ∀ k, r'.value.testBit k
        = if k < r.width then r.value.testBit k
          else decide (k < r.width + n) && b.value.testBit (i + ((k - r.width : Nat) : Int) * step).toNat := by
  induction n with
  | zero =>
    intro fuel i r hr _ _ _ hend
    refine ⟨r, ?_, hr, rfl, ?_⟩
    · cases fuel with
      | zero => rfl
      | succ f =>
        rcases hend with h | h
        · omega
        · simp only [sliceLoop]
          rw [if_neg]
          simpa using h
    · intro k
      split
      · rfl
      · rename_i hk
        rw [testBit_of_ge hr (by omega)]
        simp; intro; omega
  | succ n ih =>
    intro fuel i r hr hf hcond hpos hend
    cases fuel with
    | zero => omega
    | succ f =>
      have h0 := hcond 0 (by omega)
      have hi0 : 0 ≤ i := by have := hpos 0 (by omega); simpa using this
      have hcast : i = ((i.toNat : Nat) : Int) := by omega
      simp only [sliceLoop]
      rw [if_pos (by simpa using h0)]
      rw [hcast, getBit_nat]
      simp only [bind, Except.bind]
      rw [← hcast]
      have hbw := bv_wf 1 (b.value / 2 ^ i.toNat % 2)
      obtain ⟨r', e, hw, hwd, hb⟩ := ih f (i + step) (concat (bv 1 (b.value / 2 ^ i.toNat % 2)) r)
        (concat_wf hbw hr) (by omega)
        (by
          intro k hk
          have := hcond (k + 1) (by omega)
          have e : i + ((k + 1 : Nat) : Int) * step = i + step + (k : Int) * step := by
            rw [Int.natCast_add, Int.add_mul]; simp; omega
          rw [e] at this; exact this)
        (by
          intro k hk
          have := hpos (k + 1) (by omega)
          have e : i + ((k + 1 : Nat) : Int) * step = i + step + (k : Int) * step := by
            rw [Int.natCast_add, Int.add_mul]; simp; omega
          rw [e] at this; exact this)
        (by
          rcases hend with h | h
          · left; omega
          · right
            have e : i + ((n + 1 : Nat) : Int) * step = i + step + (n : Int) * step := by
              rw [Int.natCast_add, Int.add_mul]; simp; omega
            rw [e] at h; exact h)
      refine ⟨r', e, hw, ?_, ?_⟩
      · rw [hwd, concat_width, bv_width]; omega
      · intro k
        rw [hb k, testBit_concat hbw hr, concat_width, bv_width, bv_value]
        by_cases h1 : k < r.width
        · rw [if_pos (by omega), if_pos h1, if_pos h1]
        · rw [if_neg h1]
          by_cases h2 : k = r.width
          · subst h2
            rw [if_pos (by omega), if_neg (by omega), Nat.sub_self]
            have h3 : b.value / 2 ^ i.toNat % 2 % 2 ^ 1 = b.value / 2 ^ i.toNat % 2 := by
              simp
            rw [h3, testBit_bit]
            simp
          · rw [if_neg (by omega)]
            have e1 : decide (k < 1 + r.width + n) = decide (k < r.width + (n + 1)) := by
              simp only [decide_eq_decide]; omega
            have e2 : i + step + ((k - (1 + r.width) : Nat) : Int) * step
                = i + ((k - r.width : Nat) : Int) * step := by
              have : (k - r.width : Nat) = (k - (1 + r.width) : Nat) + 1 := by omega
              rw [this, Int.natCast_add, Int.add_mul]; simp; omega
            rw [e1, e2, if_neg h1]

theorem mod_div_testBit (v i n k : Nat) :
    (v / 2 ^ i % 2 ^ n).testBit k = (decide (k < n) && v.testBit (i + k)) := by
  rw [Nat.testBit_mod_two_pow, Nat.testBit_div_two_pow, Nat.add_comm]

/-- Slices with in-range bounds. -/
theorem slice_eq (b : BS) (i j : Nat) (hij : i ≤ j) (hj : j ≤ b.width) :
    b.slice i j = .ok (bv (j - i) (b.value / 2 ^ i)) := by
  have hidx : PySlice.indices ⟨some (i : Int), some (j : Int), none⟩ b.width
      = .ok ((i : Int), (j : Int), 1) := by
    simp only [PySlice.indices, Option.getD_none]
    rw [if_neg (by decide)]
    simp only [show ¬ ((1 : Int) < 0) by decide, if_false]
    rw [if_neg (by omega), if_neg (by omega), if_neg (by omega), if_neg (by omega)]
  unfold slice getSlice
  rw [hidx]
  simp only [bind, Except.bind]
  have hn : ((j : Int) - (i : Int)).natAbs = j - i := by omega
  rw [hn]
  obtain ⟨r, e, hw, hwd, hb⟩ := sliceLoop_spec b j 1 (j - i) (j - i) i (ofInt 0 0) (ofInt_wf _ _)
    (Nat.le_refl _)
    (by intro k hk; rw [if_pos (by decide)]; omega)
    (by intro k hk; omega)
    (Or.inl rfl)
  rw [e]
  congr 1
  have hwd' : r.width = j - i := by rw [hwd]; simp [ofInt]
  apply ext_bv hw (bv_wf _ _)
  · simp [hwd']
  · apply Nat.eq_of_testBit_eq
    intro k
    have h0 : (ofInt 0 0).width = 0 := rfl
    rw [hb k, bv_value, mod_div_testBit, h0]
    simp only [Nat.zero_add, Nat.sub_zero, Nat.not_lt_zero, if_false, Int.mul_one]
    congr 2

theorem slice_bv (w v i j : Nat) (hij : i ≤ j) (hj : j ≤ w) :
    (bv w v).slice i j = .ok (bv (j - i) (v / 2 ^ i)) := by
  rw [slice_eq _ _ _ hij (by simpa using hj)]
  congr 1
  apply bv_congr
  apply Nat.eq_of_testBit_eq
  intro k
  rw [bv_value, mod_div_testBit, mod_div_testBit, Nat.testBit_mod_two_pow]
  by_cases h : k < j - i
  · have : i + k < w := by omega
    simp [this]
  · simp [h]

theorem getBit_bv (w v i : Nat) (h : i < w) : (bv w v).getBit (i : Int) = .ok (bv 1 (v / 2 ^ i)) := by
  rw [getBit_nat]
  congr 1
  apply bv_congr
  rw [bv_value]
  have h1 := testBit_eq_mod (v % 2 ^ w) i
  have h2 := testBit_eq_mod v i
  rw [Nat.testBit_mod_two_pow] at h1
  simp only [h, decide_true, Bool.true_and] at h1
  rw [Nat.pow_one, ← h1, h2, Nat.mod_mod]

/-! ### Inversion and sign -/

theorem inverted_wf_eq {b : BS} (h : b.WF) : b.inverted = bv b.width (2 ^ b.width - 1 - b.value) := by
  unfold inverted
  rw [h.2, natAndNot_mask, Nat.mod_eq_of_lt h.1, ofInt_nat]

theorem inverted_wf (b : BS) : b.inverted.WF := ofInt_wf _ _

theorem inverted_value {b : BS} (h : b.WF) : b.inverted.value = 2 ^ b.width - 1 - b.value := by
  rw [inverted_wf_eq h, bv_value, Nat.mod_eq_of_lt]
  have := Nat.two_pow_pos b.width
  omega

theorem inverted_width (b : BS) : b.inverted.width = b.width := rfl

theorem inverted_inverted {b : BS} (h : b.WF) : b.inverted.inverted = b := by
  apply ext_bv (inverted_wf _) h (by rw [inverted_width, inverted_width])
  rw [inverted_value (inverted_wf _), inverted_value h, inverted_width]
  have := h.1; omega

/-- The top bit. -/
def neg (b : BS) : Prop := 2 ^ (b.width - 1) ≤ b.value

instance (b : BS) : Decidable b.neg := inferInstanceAs (Decidable (_ ≤ _))

theorem top_bit {b : BS} (h : b.WF) (hw : 2 ≤ b.width) :
    ((b.value >>> (b.width - 1)) &&& 1 ≠ 0) ↔ b.neg := by
  rw [shiftRight_and_one]
  have hp : 2 ^ b.width = 2 * 2 ^ (b.width - 1) := by
    rw [← Nat.pow_succ']; congr 1; omega
  have h1 := h.1
  unfold neg
  have hq := Nat.two_pow_pos (b.width - 1)
  generalize 2 ^ (b.width - 1) = p at *
  have hlt : b.value / p < 2 := by
    rw [Nat.div_lt_iff_lt_mul hq]; omega
  constructor
  · intro hne
    rw [← Nat.one_le_div_iff hq]
    have : b.value / p ≠ 0 := by intro h0; rw [h0] at hne; simp at hne
    exact Nat.pos_of_ne_zero this
  · intro hle
    have := (Nat.one_le_div_iff hq).2 hle
    have : b.value / p = 1 := by omega
    rw [this]; decide

theorem signed_neg {b : BS} (h : b.WF) (hw : 2 ≤ b.width) (hn : b.neg) :
    b.signed = ((b.value : Int) - 2 ^ b.width, b.inverted) := by
  unfold signed
  rw [if_neg (by omega)]
  simp only
  rw [if_pos ((top_bit h hw).2 hn)]
  have hp : 2 ^ b.width = 2 * 2 ^ (b.width - 1) := by
    rw [← Nat.pow_succ']; congr 1; omega
  have hc : ((2 ^ b.width : Nat) : Int) = (2 : Int) ^ b.width := by simp
  unfold invert
  rw [Nat.and_two_pow_sub_one_eq_mod, inverted_value h, ← hc]
  have h1 := h.1
  unfold neg at hn
  rw [Nat.mod_eq_of_lt (by omega)]
  congr 1
  omega

theorem signed_nonneg {b : BS} (h : b.WF) (hw : 2 ≤ b.width) (hn : ¬ b.neg) :
    b.signed = ((b.value : Int), b) := by
  unfold signed
  rw [if_neg (by omega)]
  simp only
  rw [if_neg (by rw [top_bit h hw]; exact hn)]
  unfold neg at hn
  rw [Nat.and_two_pow_sub_one_eq_mod, Nat.mod_eq_of_lt (by omega)]

theorem signed_small {b : BS} (hw : b.width < 2) : b.signed = (0, b) := by
  unfold signed; rw [if_pos hw]

/-! ### Extension -/

theorem foldl_shift_or (l : List Nat) (acc : Nat) (h : ∀ x ∈ l, x < 2) :
    l.foldl (fun a y => (a <<< 1) ||| y) acc = l.foldl (fun a y => 2 * a + y) acc := by
  induction l generalizing acc with
  | nil => rfl
  | cons x t ih =>
    simp only [List.foldl_cons]
    rw [or_shift _ _ _ (by simpa using h x List.mem_cons_self), Nat.pow_one, Nat.mul_comm,
      ih _ fun y hy => h y (List.mem_cons_of_mem _ hy)]

theorem foldl_replicate (n s acc : Nat) :
    (List.replicate n s).foldl (fun a y => 2 * a + y) acc = acc * 2 ^ n + s * (2 ^ n - 1) := by
  induction n generalizing acc with
  | zero => simp
  | succ n ih =>
    rw [List.replicate_succ, List.foldl_cons, ih, Nat.pow_succ, Nat.add_mul]
    have := Nat.two_pow_pos n
    have e : 2 ^ n * 2 - 1 = (2 ^ n - 1) + 2 ^ n := by omega
    rw [e, Nat.mul_add]
    have : 2 * acc * 2 ^ n = acc * (2 ^ n * 2) := by
      rw [Nat.mul_comm (2 ^ n) 2, ← Nat.mul_assoc, Nat.mul_comm acc 2]
    omega

theorem init_replicate (d s : Nat) (hd : d ≠ 0) (hs : s < 2) :
    init (.seq (List.replicate d s)) none = .ok (bv d (s * (2 ^ d - 1))) := by
  cases d with
  | zero => contradiction
  | succ d =>
    simp only [init, initRaw, List.replicate_succ, reduceSeq, bind, Except.bind, Option.getD_none]
    rw [if_neg (by omega)]
    rw [foldl_shift_or _ _ (by intro x hx; rw [List.eq_of_mem_replicate hx]; exact hs), foldl_replicate,
      ofInt_nat]
    have h1 : (s :: List.replicate d s).length = d + 1 := by simp
    rw [h1]
    congr 2
    rw [← Nat.mul_add, Nat.pow_succ]
    have := Nat.two_pow_pos d
    congr 1; omega

theorem signExtend_eq {b : BS} (h : b.WF) (w : Nat) (hw : b.width ≤ w) (h0 : 0 < b.width) :
    b.signExtend w = .ok (bv w (b.value + (if 2 ^ (b.width - 1) ≤ b.value then 2 ^ w - 2 ^ b.width else 0))) := by
  unfold signExtend
  rw [if_neg (by omega)]
  by_cases he : w = b.width
  · subst he
    rw [if_pos rfl]
    congr 1
    rw [Nat.sub_self]
    simp only [ite_self, Nat.add_zero]
    exact h.eq_bv
  · rw [if_neg (by omega), if_neg (by omega)]
    simp only [Int.toNat_natCast]
    have hs : (b.value >>> (b.width - 1)) &&& 1 = if 2 ^ (b.width - 1) ≤ b.value then 1 else 0 := by
      rw [shiftRight_and_one]
      have hp : 2 ^ b.width = 2 * 2 ^ (b.width - 1) := by
        rw [← Nat.pow_succ']; congr 1; omega
      have h1 := h.1
      have hq := Nat.two_pow_pos (b.width - 1)
      generalize 2 ^ (b.width - 1) = p at *
      have hlt : b.value / p < 2 := by
        rw [Nat.div_lt_iff_lt_mul hq]; omega
      split
      · rename_i hle
        have := (Nat.one_le_div_iff hq).2 hle
        have : b.value / p = 1 := by omega
        rw [this]
      · rw [Nat.div_eq_of_lt (by omega)]
    rw [hs]
    generalize hb : (if 2 ^ (b.width - 1) ≤ b.value then 1 else 0) = s
    have hs2 : s < 2 := by rw [← hb]; split <;> decide
    rw [init_replicate _ _ (by omega) hs2]
    simp only [bind, Except.bind]
    congr 1
    rw [concat_wf_eq (bv_wf _ _) h]
    simp only [bv_width, bv_value]
    have e : w - b.width + b.width = w := by omega
    rw [e]
    have hpw : 2 ^ w = 2 ^ (w - b.width) * 2 ^ b.width := by rw [← Nat.pow_add, e]
    have hp1 := Nat.two_pow_pos (w - b.width)
    have hval : s * (2 ^ (w - b.width) - 1) % 2 ^ (w - b.width) = s * (2 ^ (w - b.width) - 1) := by
      apply Nat.mod_eq_of_lt
      have : s = 0 ∨ s = 1 := by omega
      rcases this with h | h <;> rw [h] <;> omega
    rw [hval]
    congr 1
    rw [← hb]
    split
    · rw [Nat.one_mul, Nat.sub_mul, Nat.one_mul, ← hpw, Nat.add_comm]
    · omega

theorem zeroExtend_eq {b : BS} (h : b.WF) (w : Nat) (hw : b.width ≤ w) :
    b.zeroExtend w = .ok (bv w b.value) := by
  unfold zeroExtend
  rw [if_neg (by omega)]
  by_cases he : w = b.width
  · subst he; rw [if_pos rfl]; congr 1; exact h.eq_bv
  · rw [if_neg (by omega)]
    simp only [init, initRaw, bind, Except.bind, Option.getD_some]
    rw [if_neg (by omega), Int.toNat_natCast, ofInt_nat]

/-! ### Arithmetic -/

theorem maskOp {b : BS} (h : b.WF) (v : Int) :
    ({ b with value := (pyAnd v b.mask).toNat } : BS) = ofInt v b.width := by
  simp only [ofInt, h.2, pyAnd_mask]

theorem iadd_some {b : BS} (h : b.WF) {o : PyVal} {v : Int} (ho : operand o = .ok (some v)) :
    b.iadd o = .ok (ofInt (b.value + v) b.width) := by
  simp only [iadd, ho, bind, Except.bind]; rw [maskOp h]

theorem isub_some {b : BS} (h : b.WF) {o : PyVal} {v : Int} (ho : operand o = .ok (some v)) :
    b.isub o = .ok (ofInt (b.value - v) b.width) := by
  simp only [isub, ho, bind, Except.bind]; rw [maskOp h]

theorem imul_some {b : BS} (h : b.WF) {o : PyVal} {v : Int} (ho : operand o = .ok (some v)) :
    b.imul o = .ok (ofInt (b.value * v) b.width) := by
  simp only [imul, ho, bind, Except.bind]; rw [maskOp h]

theorem ifloordiv_some {b : BS} (h : b.WF) {o : PyVal} {v : Int} (ho : operand o = .ok (some v))
    (hv : v ≠ 0) : b.ifloordiv o = .ok (ofInt (Int.fdiv b.value v) b.width) := by
  simp only [ifloordiv, ho, bind, Except.bind]; rw [if_neg hv, maskOp h]

theorem shl_nat (b : BS) (n : Nat) : b.shl n = .ok (bv b.width (b.value * 2 ^ n)) := by
  unfold shl pyShl
  rw [if_neg (by omega)]
  simp only [bind, Except.bind, Int.toNat_natCast]
  have : (b.value : Int) * 2 ^ n = ((b.value * 2 ^ n : Nat) : Int) := by simp
  rw [this, ofInt_nat]

theorem shr_nat (b : BS) (n : Nat) : b.shr n = .ok (bv b.width (b.value / 2 ^ n)) := by
  unfold shr pyShr
  rw [if_neg (by omega)]
  simp only [bind, Except.bind, Int.toNat_natCast]
  have : (b.value : Int) / 2 ^ n = ((b.value / 2 ^ n : Nat) : Int) := by simp
  rw [this, ofInt_nat]

theorem and_bs (b c : BS) : b.and (.bs c) = .ok (bv b.width (b.value &&& c.value)) := by
  simp only [BS.and, bitOperand, bind, Except.bind, Bool.false_eq_true, if_false]
  show Except.ok (ofInt ((b.value &&& c.value : Nat) : Int) b.width) = _
  rw [ofInt_nat]

theorem or_bs (b c : BS) : b.or (.bs c) = .ok (bv (max b.width c.width) (b.value ||| c.value)) := by
  simp only [BS.or, bitOperand, bind, Except.bind, if_true]
  show Except.ok (ofInt ((b.value ||| c.value : Nat) : Int) _) = _
  rw [ofInt_nat]

theorem xor_bs (b c : BS) : b.xor (.bs c) = .ok (bv (max b.width c.width) (b.value ^^^ c.value)) := by
  simp only [BS.xor, bitOperand, bind, Except.bind, if_true]
  show Except.ok (ofInt ((b.value ^^^ c.value : Nat) : Int) _) = _
  rw [ofInt_nat]

/-! ### Equality with text -/

theorem isStr_eq {b : BS} {s : Str} (hne : s ≠ []) (h : ∀ c ∈ s, c = '0' ∨ c = '1') :
    b.isStr s = .ok (b.width == s.length && b.value == strVal s) := by
  have hs : strVal s % 2 ^ s.length = strVal s := Nat.mod_eq_of_lt (strVal_lt s)
  simp only [isStr, eqOp, init_str hne h, bind, Except.bind, truthy, bv_width, bv_value, hs]

theorem zeros_eq (n : Nat) (h : n ≠ 0) : zeros n = .ok (bv n 0) := by
  have hne : List.replicate n '0' ≠ [] := by simp [h]
  have hb : ∀ c ∈ List.replicate n '0', c = '0' ∨ c = '1' := by
    intro c hc; left; exact List.eq_of_mem_replicate hc
  unfold zeros
  rw [Int.toNat_natCast, init_str hne hb]
  have : strVal (List.replicate n '0') = 0 := by
    clear h hne hb
    induction n with
    | zero => rfl
    | succ n ih => rw [List.replicate_succ, strVal_cons, ih]; simp
  rw [this, List.length_replicate]

end BS
end Verif
