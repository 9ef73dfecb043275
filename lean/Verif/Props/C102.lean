import Verif.Props.C43to48
import Verif.Program

/-!
# C102: numbers of several words are added and subtracted
-/

namespace Verif
open BS CpuM Thumb C43

namespace C102

/-- The number these words are, the lowest first. -/
def value : List Word → Nat
  | [] => 0
  | x :: xs => x.toNat + 2 ^ 32 * value xs

/-- The registers of one addition or subtraction: destination and operands. -/
structure Regs3 where
  d : Nat
  n : Nat
  m : Nat

/-- The objects of `adds d, n, m` (or `subs`) for the lowest words and `adcs` (or `sbcs`) for the
others. -/
inductive Chain (sub : Bool) : Bool → List Instr → List Regs3 → Prop where
  | nil {carry : Bool} : Chain sub carry [] []
  | cons {carry : Bool} {i : Instr} {is : List Instr} {t : Regs3} {ts : List Regs3} : (Act.addSub sub carry true t.d t.n (.reg t.m)).Of i →
      Chain sub true is ts → Chain sub carry (i :: is) (t :: ts)

/-- The registers are R0 to R12, and no destination is an operand or a destination after it. -/
structure Apart (ts : List Regs3) : Prop where
  low : ∀ t ∈ ts, t.d < 13 ∧ t.n < 13 ∧ t.m < 13
  apart : ts.Pairwise fun t u => u.d ≠ t.d ∧ u.n ≠ t.d ∧ u.m ≠ t.d

/-- The first operand, and the second one or its complement. -/
def firsts (c : Core) (ts : List Regs3) : List Word := ts.map fun t => c.reg t.n

def seconds (c : Core) (ts : List Regs3) : List Word := ts.map fun t => c.reg t.m

/-- Word `j` of a number. -/
def word (v j : Nat) : Word := BitVec.ofNat 32 (v / 2 ^ (32 * j))

theorem word_succ (v j : Nat) : word v (j + 1) = word (v / 2 ^ 32) j := by
  unfold word
  rw [Nat.div_div_eq_div_mul, ← Nat.pow_add, show 32 + 32 * j = 32 * (j + 1) by omega]

theorem flags_c (c : Core) (r : Word) (a : Bool) (b : Option Bool) : (c.flags true r (some a) b).flag 29 = a := by
  unfold Core.flags Core.flag
  rw [if_pos rfl, core_reg_set, if_pos (.inl rfl), show keepBits 16 _ = _ from keepBits_plain (d := 16) (by decide) (by decide) _, newFlags_bit]
  rfl

theorem flags_other (c : Core) (on : Bool) (r : Word) (a b : Option Bool) {j : Int} (hj : j ≠ 16) : (c.flags on r a b).reg j = c.reg j := by
  unfold Core.flags
  split
  · rw [core_reg_set, if_neg (by omega)]
  · rfl

/-- One addition or subtraction. -/
theorem one {sub carry : Bool} {t : Regs3} {i : Instr} {s : Machine} {c : Core} (h : (Act.addSub sub carry true t.d t.n (.reg t.m)).Of i)
    (ht : t.d < 13 ∧ t.n < 13 ∧ t.m < 13) (hs : Shows s c) {v : Nat}
    (hv : v = (c.reg t.n).toNat + (if sub then ~~~c.reg t.m else c.reg t.m).toNat + (if carry then c.flag 29 else sub).toNat) :
    ∃ i' s' c', i.eval s = (.ok i', s') ∧ Shows s' c' ∧ c'.reg t.d = wrongIfNegative (BitVec.ofNat 32 v) ∧ c'.flag 29 = decide (2 ^ 32 ≤ v) ∧
      (∀ k : Int, k ≠ t.d → k ≠ 15 → k ≠ 16 → c'.reg k = c.reg k) ∧ c'.mem = c.mem := by
  obtain ⟨i', s', h1, h2⟩ := add_sub_exact h (by omega) (by omega) (show t.m < 15 by omega) hs _ _ _ rfl rfl rfl
  have hsum : C17.sum (c.reg t.n) (if sub then ~~~(Src.reg t.m).val c else (Src.reg t.m).val c) (if carry then c.flag 29 else sub) = BitVec.ofNat 32 v := by
    rw [hv]
    have : (Src.reg t.m).val c = c.reg t.m := core_rd _ (by omega)
    rw [this]
    rfl
  have hcarry : C17.carryOut (c.reg t.n) (if sub then ~~~(Src.reg t.m).val c else (Src.reg t.m).val c) (if carry then c.flag 29 else sub) =
      decide (2 ^ 32 ≤ v) := by
    rw [hv]
    have : (Src.reg t.m).val c = c.reg t.m := core_rd _ (by omega)
    rw [this]
    rfl
  rw [hsum, hcarry] at h2
  refine ⟨i', s', _, h1, h2, ?_, ?_, fun k h3 h4 h5 => ?_, ?_⟩
  · rw [result_reg (by omega), keepBits_plain (by omega) (by omega)]
  · rw [core_result (by omega)]
    show ((_ : Core).reg 16).getLsbD 29 = _
    unfold Core.next
    rw [core_reg_set, if_neg (by omega), core_reg_set, if_neg (by omega)]
    exact flags_c _ _ _ _
  · rw [core_result (by omega)]
    unfold Core.next
    rw [core_reg_set, if_neg (by omega), core_reg_set, if_neg (by omega), flags_other _ _ _ _ _ h5]
  · rw [core_result (by omega)]
    rfl

/-- The sum of the operands of a chain, with the carry it begins with. -/
def total (sub carry : Bool) (c : Core) (ts : List Regs3) : Nat :=
  value (firsts c ts) + value ((seconds c ts).map fun y => if sub then ~~~y else y) + (if carry then c.flag 29 else sub).toNat

theorem carry_next (k v : Nat) : 2 ^ (32 * k) ≤ v / 2 ^ 32 ↔ 2 ^ (32 * (k + 1)) ≤ v := by
  rw [Nat.le_div_iff_mul_le (by decide), ← Nat.pow_add, Nat.mul_succ]

/-- The chain exactly: each word of the sum, or its complement if it is negative. -/
theorem chain_exact {sub : Bool} {is : List Instr} : ∀ {carry : Bool} {ts : List Regs3}, Chain sub carry is ts → Apart ts → ∀ {s : Machine} {c : Core}, Shows s c →
    ∃ s' c', executeAll is s = (.ok (), s') ∧ Shows s' c' ∧
      (∀ j (hj : j < ts.length), c'.reg ts[j].d = wrongIfNegative (word (total sub carry c ts) j)) ∧
      (ts ≠ [] → c'.flag 29 = decide (2 ^ (32 * ts.length) ≤ total sub carry c ts)) ∧
      (∀ k : Int, (∀ t ∈ ts, k ≠ t.d) → k ≠ 15 → k ≠ 16 → c'.reg k = c.reg k) ∧ c'.mem = c.mem := by
  induction is with
  | nil =>
    intro carry ts h _ s c hs
    cases h
    exact ⟨s, c, rfl, hs, fun j hj => absurd hj (Nat.not_lt_zero j), fun h => absurd rfl h, fun _ _ _ _ => rfl, rfl⟩
  | cons i is ih =>
    intro carry ts h ha s c hs
    cases h with
    | @cons _ _ _ t ts h1 h2 =>
      obtain ⟨hlow, hap⟩ := ha
      rw [List.pairwise_cons] at hap
      obtain ⟨i', s1, c1, e1, e2, e3, e4, e5, e6⟩ := one h1 (hlow t List.mem_cons_self) hs rfl
      obtain ⟨s2, c2, f1, f2, f3, f4, f5, f6⟩ := ih h2 ⟨fun u hu => hlow u (List.mem_cons_of_mem _ hu), hap.2⟩ e2
      generalize hv : (c.reg t.n).toNat + (if sub then ~~~c.reg t.m else c.reg t.m).toNat + (if carry then c.flag 29 else sub).toNat = v at *
      have hfirsts : firsts c1 ts = firsts c ts := List.map_congr_left fun u hu => e5 _ (by have := hap.1 u hu; omega) (by have := hlow u (List.mem_cons_of_mem _ hu); omega) (by have := hlow u (List.mem_cons_of_mem _ hu); omega)
      have hseconds : seconds c1 ts = seconds c ts := List.map_congr_left fun u hu => e5 _ (by have := hap.1 u hu; omega) (by have := hlow u (List.mem_cons_of_mem _ hu); omega) (by have := hlow u (List.mem_cons_of_mem _ hu); omega)
      have hv2 : v < 2 * 2 ^ 32 := by
        have h1 := (c.reg t.n).isLt
        have h2 := (if sub then ~~~c.reg t.m else c.reg t.m).isLt
        have h3 := (if carry then c.flag 29 else sub).toNat_lt
        omega
      have htotal : total sub carry c (t :: ts) = v + 2 ^ 32 * (value (firsts c ts) + value ((seconds c ts).map fun y => if sub then ~~~y else y)) := by
        unfold total
        show ((c.reg t.n).toNat + 2 ^ 32 * value (firsts c ts)) + ((if sub then ~~~c.reg t.m else c.reg t.m).toNat + 2 ^ 32 *
          value ((seconds c ts).map fun y => if sub then ~~~y else y)) + _ = _
        rw [← hv]
        omega
      have hnext : total sub true c1 ts = total sub carry c (t :: ts) / 2 ^ 32 := by
        rw [htotal]
        unfold total
        rw [hfirsts, hseconds, if_pos rfl, e4]
        generalize value (firsts c ts) + value ((seconds c ts).map fun y => if sub then ~~~y else y) = w
        by_cases hc : 2 ^ 32 ≤ v
        · rw [decide_eq_true hc]
          show w + 1 = _
          omega
        · rw [decide_eq_false hc]
          show w + 0 = _
          omega
      refine ⟨s2, c2, ?_, f2, fun j hj => ?_, fun _ => ?_, fun k hk h15 h16 => ?_, f6.trans e6⟩
      · unfold executeAll
        rw [bind_ok e1]
        exact f1
      · match j, hj with
        | 0, _ =>
          show c2.reg t.d = _
          have htd := hlow t List.mem_cons_self
          rw [f5 _ (fun u hu => by have := (hap.1 u hu).1; omega) (by omega) (by omega), e3, htotal]
          congr 1
          apply BitVec.eq_of_toNat_eq
          unfold word
          rw [BitVec.toNat_ofNat, BitVec.toNat_ofNat]
          simp
        | j + 1, hj =>
          have hj' : j < ts.length := by simpa using hj
          show c2.reg ts[j].d = _
          rw [f3 j hj', word_succ, hnext]
      · by_cases hts : ts = []
        · subst hts
          have : c2.flag 29 = c1.flag 29 := by
            cases h2
            have : s2 = s1 := by
              have := congrArg Prod.snd f1
              exact this.symm
            subst this
            unfold Core.flag
            have q1 := f2.1 16 (by decide)
            rw [e2.1 16 (by decide)] at q1
            have : c1.reg 16 = c2.reg 16 := BitVec.eq_of_toNat_eq (Int.ofNat.inj (Option.some.inj q1))
            rw [this]
          have hz : total sub carry c [t] = v := by
            rw [htotal]
            show v + 2 ^ 32 * (0 + 0) = v
            omega
          rw [this, e4, hz]
          rfl
        · rw [f4 hts, hnext]
          exact decide_eq_decide.2 (carry_next _ _)
      · rw [f5 k (fun u hu => hk u (List.mem_cons_of_mem _ hu)) h15 h16, e5 k (hk t List.mem_cons_self) h15 h16]

/-! ### The numbers -/

theorem value_not : ∀ ys : List Word, value (ys.map fun y => ~~~y) + value ys + 1 = 2 ^ (32 * ys.length)
  | [] => rfl
  | y :: ys => by
    have ih := value_not ys
    have hy := y.isLt
    show ((~~~y).toNat + 2 ^ 32 * value (ys.map fun y => ~~~y)) + (y.toNat + 2 ^ 32 * value ys) + 1 = 2 ^ (32 * (ys.length + 1))
    rw [BitVec.toNat_not, Nat.mul_succ, Nat.pow_add, ← ih]
    omega

theorem value_lt : ∀ xs : List Word, value xs < 2 ^ (32 * xs.length)
  | [] => by decide
  | x :: xs => by
    have ih := value_lt xs
    have hx := x.isLt
    show x.toNat + 2 ^ 32 * value xs < 2 ^ (32 * (xs.length + 1))
    rw [Nat.mul_succ, Nat.pow_add]
    omega

/-- The words of a number are that number. -/
theorem value_words (k : Nat) : ∀ v, value ((List.range k).map (word v)) = v % 2 ^ (32 * k) := by
  induction k with
  | zero => intro v; simp [value, Nat.mod_one]
  | succ k ih =>
    intro v
    rw [List.range_succ_eq_map, List.map_cons, List.map_map]
    show (word v 0).toNat + 2 ^ 32 * value ((List.range k).map (word v ∘ Nat.succ)) = _
    rw [show (word v ∘ Nat.succ) = word (v / 2 ^ 32) from funext fun j => word_succ v j, ih, show 32 * (k + 1) = 32 + 32 * k by omega, Nat.pow_add,
      Nat.mod_mul]
    unfold word
    rw [BitVec.toNat_ofNat]
    simp

theorem value_inj : ∀ {xs ys : List Word}, xs.length = ys.length → value xs = value ys → xs = ys
  | [], [], _, _ => rfl
  | x :: xs, y :: ys, hl, h => by
    have hx := x.isLt
    have hy := y.isLt
    have h : x.toNat + 2 ^ 32 * value xs = y.toNat + 2 ^ 32 * value ys := h
    rw [value_inj (by simpa using hl) (show value xs = value ys by omega), BitVec.eq_of_toNat_eq (show x.toNat = y.toNat by omega)]

theorem wrong_iff (x : Word) : wrongIfNegative x = x ↔ x.msb = false := by
  constructor
  · intro h
    have h1 : (wrongIfNegative x).msb = false := spoil_msb x
    rwa [h] at h1
  · intro h
    unfold wrongIfNegative
    rw [h]
    rfl

/-- The number in the destination registers. -/
def results (c : Core) (ts : List Regs3) : List Word := ts.map fun t => c.reg t.d

/-- **C102.** Addition of numbers of any number of words, `adds` and then `adcs`: every destination
holds its word of the sum, or the complement of it if its highest bit is set; C is the carry out
of the whole. Nothing else changes but PC and the flags. -/
theorem addition_exact {is : List Instr} {ts : List Regs3} (h : Chain false false is ts) (ha : Apart ts) (hne : ts ≠ []) {s : Machine} {c : Core}
    (hs : Shows s c) : ∃ s' c', executeAll is s = (.ok (), s') ∧ Shows s' c' ∧
      (∀ j (hj : j < ts.length), c'.reg ts[j].d = wrongIfNegative (word (value (firsts c ts) + value (seconds c ts)) j)) ∧
      c'.flag 29 = decide (2 ^ (32 * ts.length) ≤ value (firsts c ts) + value (seconds c ts)) ∧
      (∀ k : Int, (∀ t ∈ ts, k ≠ t.d) → k ≠ 15 → k ≠ 16 → c'.reg k = c.reg k) ∧ c'.mem = c.mem := by
  obtain ⟨s', c', h1, h2, h3, h4, h5⟩ := chain_exact h ha hs
  have ht : total false false c ts = value (firsts c ts) + value (seconds c ts) := by
    unfold total
    simp
  rw [ht] at h3 h4
  exact ⟨s', c', h1, h2, h3, h4 hne, h5⟩

/-- **C102.** Subtraction, `subs` and then `sbcs`, in the same way. C says that nothing is
borrowed. -/
theorem subtraction_exact {is : List Instr} {ts : List Regs3} (h : Chain true false is ts) (ha : Apart ts) (hne : ts ≠ []) {s : Machine} {c : Core}
    (hs : Shows s c) : ∃ s' c', executeAll is s = (.ok (), s') ∧ Shows s' c' ∧
      (∀ j (hj : j < ts.length), c'.reg ts[j].d = wrongIfNegative (word (value (firsts c ts) + 2 ^ (32 * ts.length) - value (seconds c ts)) j)) ∧
      c'.flag 29 = decide (value (seconds c ts) ≤ value (firsts c ts)) ∧
      (∀ k : Int, (∀ t ∈ ts, k ≠ t.d) → k ≠ 15 → k ≠ 16 → c'.reg k = c.reg k) ∧ c'.mem = c.mem := by
  obtain ⟨s', c', h1, h2, h3, h4, h5⟩ := chain_exact h ha hs
  have hlen : (seconds c ts).length = ts.length := by simp [seconds]
  have hn := value_not (seconds c ts)
  rw [hlen] at hn
  have ht : total true false c ts = value (firsts c ts) + 2 ^ (32 * ts.length) - value (seconds c ts) := by
    unfold total
    simp only [if_true, Bool.false_eq_true, if_false, Bool.toNat_true]
    omega
  rw [ht] at h3 h4
  refine ⟨s', c', h1, h2, h3, ?_, h5⟩
  rw [h4 hne]
  congr 1
  apply propext
  have := value_lt (seconds c ts)
  rw [hlen] at this
  omega

theorem results_iff {ts : List Regs3} {c' : Core} {v : Nat} (h : ∀ j (hj : j < ts.length), c'.reg ts[j].d = wrongIfNegative (word v j)) :
    value (results c' ts) = v % 2 ^ (32 * ts.length) ↔ ∀ j, j < ts.length → (word v j).msb = false := by
  have hr : results c' ts = (List.range ts.length).map fun j => wrongIfNegative (word v j) := by
    apply List.ext_getElem
    · simp [results]
    · intro j h1 h2
      simp only [results, List.getElem_map, List.getElem_range]
      exact h j (by simpa [results] using h1)
  rw [hr, ← value_words]
  constructor
  · intro he j hj
    have := value_inj (by simp) he
    have := List.map_inj_left.1 this j (List.mem_range.2 hj)
    exact (wrong_iff _).1 this
  · intro hw
    congr 1
    exact List.map_congr_left fun j hj => (wrong_iff _).2 (hw j (List.mem_range.1 hj))

/-- **C102.** So the sum is right if and only if no word of it has its highest bit set. -/
theorem addition_right_iff_partial {is : List Instr} {ts : List Regs3} (h : Chain false false is ts) (ha : Apart ts) (hne : ts ≠ []) {s : Machine} {c : Core}
    (hs : Shows s c) : ∃ s' c', executeAll is s = (.ok (), s') ∧ Shows s' c' ∧
      (value (results c' ts) = (value (firsts c ts) + value (seconds c ts)) % 2 ^ (32 * ts.length) ↔
        ∀ j, j < ts.length → (word (value (firsts c ts) + value (seconds c ts)) j).msb = false) := by
  obtain ⟨s', c', h1, h2, h3, -⟩ := addition_exact h ha hne hs
  exact ⟨s', c', h1, h2, results_iff h3⟩

/-- **C102.** The same for the difference. -/
theorem subtraction_right_iff_partial {is : List Instr} {ts : List Regs3} (h : Chain true false is ts) (ha : Apart ts) (hne : ts ≠ []) {s : Machine}
    {c : Core} (hs : Shows s c) : ∃ s' c', executeAll is s = (.ok (), s') ∧ Shows s' c' ∧
      (value (results c' ts) = (value (firsts c ts) + 2 ^ (32 * ts.length) - value (seconds c ts)) % 2 ^ (32 * ts.length) ↔
        ∀ j, j < ts.length → (word (value (firsts c ts) + 2 ^ (32 * ts.length) - value (seconds c ts)) j).msb = false) := by
  obtain ⟨s', c', h1, h2, h3, -⟩ := subtraction_exact h ha hne hs
  exact ⟨s', c', h1, h2, results_iff h3⟩

/-- `adds r0, r0, r2; adcs r1, r3`: 0x1_8000_0001 + 0x2_9000_0002 = 0x4_1000_0003, and
0x0_4000_0000 + 0x0_5000_0000, which is 0x9000_0000, gives 0x6fff_ffff. -/
example :
    ((ran [0x80, 0x18] (sample [(0, 0x80000001), (1, 1), (2, 0x90000002), (3, 2)])).bind fun s => ranRegs [0x59, 0x41] s [0, 1]) =
      some [some 0x10000003, some 4] ∧
    ((ran [0x80, 0x18] (sample [(0, 0x40000000), (1, 0), (2, 0x50000000), (3, 0)])).bind fun s => ranRegs [0x59, 0x41] s [0, 1]) =
      some [some 0x6fffffff, some 0] := by
  refine ⟨?_, ?_⟩ <;> simp only [ranRegs, ran] <;> rw [trees, decoders_eq] <;> decide +kernel

end C102
end Verif
