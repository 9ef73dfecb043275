import Verif.Props.C43to48
import Verif.Props.C56to58
import Verif.Program

/-!
# C103: instructions that undo each other or do the same as another one
-/

namespace Verif
open BS CpuM Thumb C43

namespace C103

/-- Only this register has changed, to this word, besides PC and xPSR. -/
structure Only (c : Core) (d : Nat) (v : Word) (c' : Core) : Prop where
  value : c'.reg d = v
  others : ∀ k : Int, k ≠ d → k ≠ 15 → k ≠ 16 → c'.reg k = c.reg k
  mem : c'.mem = c.mem

/-- Executing these objects sets this register to this word, and nothing else besides PC and
xPSR. -/
def Puts (is : List Instr) (s : Machine) (c : Core) (d : Nat) (v : Word) : Prop :=
  ∃ s' c', executeAll is s = (.ok (), s') ∧ Shows s' c' ∧ Only c d v c'

theorem Only.trans {c c1 c2 : Core} {d : Nat} {v w : Word} (h : Only c d v c1) (h' : Only c1 d w c2) : Only c d w c2 :=
  ⟨h'.value, fun k h1 h2 h3 => (h'.others k h1 h2 h3).trans (h.others k h1 h2 h3), h'.mem.trans h.mem⟩

theorem Puts.cons {i : Instr} {is : List Instr} {s : Machine} {c : Core} {d : Nat} {v w : Word} (h : Puts [i] s c d v)
    (h' : ∀ s1 c1, Shows s1 c1 → Only c d v c1 → Puts is s1 c1 d w) : Puts (i :: is) s c d w := by
  obtain ⟨s1, c1, h1, h2, h3⟩ := h
  obtain ⟨s2, c2, h4, h5, h6⟩ := h' s1 c1 h2 h3
  refine ⟨s2, c2, ?_, h5, h3.trans h6⟩
  unfold executeAll at h1 ⊢
  cases hi : i.eval s with
  | mk r t =>
    cases r with
    | error e =>
      rw [bind_err hi] at h1
      exact absurd (congrArg Prod.fst h1) (by intro h; cases h)
    | ok i' =>
      rw [bind_ok hi] at h1 ⊢
      rw [show t = s1 from congrArg Prod.snd h1]
      exact h4

theorem only_result (c : Core) (on : Bool) (r v : Word) (a b : Option Bool) (size : Nat) {d : Nat} (hd : d < 13) :
    Only c d v ((c.flags on r a b).result size d v) := by
  have hf : ∀ k : Int, k ≠ 16 → (c.flags on r a b).reg k = c.reg k := by
    intro k hk
    unfold Core.flags
    split
    · rw [core_reg_set, if_neg (by omega)]
    · rfl
  refine ⟨by rw [result_reg (by omega), keepBits_plain (by omega) (by omega)], fun k h1 h2 h3 => ?_, ?_⟩
  · rw [core_result (by omega)]
    unfold Core.next
    rw [core_reg_set, if_neg (by omega), core_reg_set, if_neg (by omega), hf k h3]
  · rw [core_result (by omega)]
    unfold Core.flags
    split <;> rfl

theorem puts {i : Instr} {s : Machine} {c c1 : Core} (h : EndsIn i s c1) {d : Nat} {v : Word} (ho : Only c d v c1) : Puts [i] s c d v := by
  obtain ⟨i', s1, h1, h2⟩ := h
  refine ⟨s1, c1, ?_, h2, ho⟩
  unfold executeAll
  rw [bind_ok h1]
  rfl

theorem shows_reg {s : Machine} {c c' : Core} (h : Shows s c) (h' : Shows s c') {d : Nat} (hd : d < 13) : c.reg d = c'.reg d := by
  have hm : (d : Int) ∈ coreIndices := by
    have : d = 0 ∨ d = 1 ∨ d = 2 ∨ d = 3 ∨ d = 4 ∨ d = 5 ∨ d = 6 ∨ d = 7 ∨ d = 8 ∨ d = 9 ∨ d = 10 ∨ d = 11 ∨ d = 12 := by omega
    rcases this with rfl | rfl | rfl | rfl | rfl | rfl | rfl | rfl | rfl | rfl | rfl | rfl | rfl <;> decide
  have q := h.1 d hm
  rw [h'.1 d hm] at q
  exact BitVec.eq_of_toNat_eq (Int.ofNat.inj (Option.some.inj q)).symm

/-! ### The instructions one by one -/

variable {i j k : Instr} {s : Machine} {c : Core} {d n m : Nat} {f g h : Bool}

/-- The bytes in another order, for REV and REV16. -/
def reversed : RevKind → Word → Word
  | .rev, x => swap32 x
  | .rev16, x => swap16 x
  | .revsh, x => swapsh x

theorem rev_puts {kind : RevKind} (hi : (Act.rev kind d m).Of i) (hd : d < 13) (hm : m < 15) (hs : Shows s c) :
    Puts [i] s c d (reversed kind (c.reg m)) := by
  refine puts (C56.reverse_right hi (by omega) hm hs) ?_
  have : ∀ v, Only c d v ((c.set d v).next i.size) := fun v => by
    have := only_result c false v v none none i.size hd
    rwa [core_result (by omega)] at this
  cases kind <;> exact this _

theorem extend_puts {sgn : Bool} {width rotation : Nat} (hi : (Act.extend sgn width rotation d m).Of i)
    (hv : (Act.extend sgn width rotation d m).Valid) (hd : d < 13) (hm : m < 15) (hs : Shows s c) :
    Puts [i] s c d (extended sgn width ((c.reg m).rotateRight rotation).toNat) := by
  refine puts (C56.extend_right hi hv (by omega) hm hs) ?_
  have := only_result c false 0#32 (extended sgn width ((c.reg m).rotateRight rotation).toNat) none none i.size hd
  rwa [core_result (by omega)] at this

theorem mvn_puts (hi : (Act.mov true f d (.reg m)).Of i) (hd : d < 13) (hm : m < 15) (hs : Shows s c) : Puts [i] s c d (~~~c.reg m) :=
  puts (C47.move_right_partial hi (by omega) hm hs _ (by rw [if_pos rfl]; exact congrArg _ (core_rd c hm).symm)) (only_result _ _ _ _ _ _ _ hd)

theorem logic_puts {o : BitFn} (hi : (Act.logic o f d n m).Of i) (hd : d < 13) (hn : n < 15) (hm : m < 15) (hs : Shows s c) :
    Puts [i] s c d (logical o (c.reg n) (c.reg m)) :=
  puts (C44.logic_right hi (by omega) hn hm hs) (only_result _ _ _ _ _ _ _ hd)

theorem bic_puts (hi : (Act.bic f d n m).Of i) (hd : d < 13) (hn : n < 15) (hm : m < 15) (hs : Shows s c) :
    Puts [i] s c d (c.reg n &&& ~~~c.reg m) :=
  puts (C44.bit_clear_right hi (by omega) hn hm hs) (only_result _ _ _ _ _ _ _ hd)

theorem shiftReg_puts {t : SRType} (hi : (Act.shiftReg t f d n m).Of i) (ht : t ≠ .rrx) (hd : d < 13) (hn : n < 15) (hm : m < 15) (hs : Shows s c) :
    Puts [i] s c d (C18.armShift (c.reg n) (c.flag 29) t ((c.reg m).toNat % 256)).1 :=
  puts (C45.shift_register_right hi ht (by omega) hn hm hs _ rfl) (only_result _ _ _ _ _ _ _ hd)

theorem shiftImm_puts {t : SRType} {a : Nat} (hi : (Act.shiftImm t f d m a).Of i) (ht : t ≠ .rrx) (hd : d < 13) (hm : m < 15) (hs : Shows s c) :
    Puts [i] s c d (C18.armShift (c.reg m) (c.flag 29) t a).1 :=
  puts (C45.shift_immediate_right hi (fun h => absurd h ht) (by omega) hm hs _ rfl) (only_result _ _ _ _ _ _ _ hd)

theorem mul_puts (hi : (Act.mul f d n m).Of i) (hd : d < 13) (hn : n < 15) (hm : m < 15) (hs : Shows s c) : Puts [i] s c d (c.reg n * c.reg m) :=
  puts (C46.multiply_right hi (by omega) hn hm hs _ (BitVec.toNat_mul ..)) (only_result _ _ _ _ _ _ _ hd)

theorem addSub_puts {sub : Bool} {src : Src} (hi : (Act.addSub sub false f d n src).Of i) (hd : d < 13) (hn : n < 15) (hsrc : src.NoPc) (hs : Shows s c) :
    Puts [i] s c d (wrongIfNegative (if sub then c.reg n - src.val c else c.reg n + src.val c)) := by
  have := puts (add_sub_exact hi (by omega) hn hsrc hs _ _ _ rfl rfl rfl) (only_result _ _ _ _ _ _ _ hd)
  have e : C17.sum (c.reg n) (if sub then ~~~src.val c else src.val c) (if false then c.flag 29 else sub) =
      if sub then c.reg n - src.val c else c.reg n + src.val c := by
    have hsums := sums (c.reg n) (src.val c) false
    cases sub
    · exact hsums.1
    · exact hsums.2.1
  rw [e] at this
  exact this

theorem rsb_puts {imm : Word} (hi : (Act.rsb f d n imm).Of i) (hd : d < 13) (hs : Shows s c) :
    Puts [i] s c d (wrongIfNegative (imm - c.reg n)) := by
  have := puts (reverse_subtract_exact hi (by omega) hs _ rfl) (only_result _ _ _ _ _ _ _ hd)
  have hsum : C17.sum (~~~c.reg n) imm true = imm - c.reg n := by
    rw [sum_add, BitVec.not_eq_neg_add, show BitVec.ofNat 32 true.toNat = 1#32 from rfl]
    generalize c.reg n = x
    grind
  rw [hsum] at this
  exact this

/-! ### Instructions that undo each other -/

/-- **C103.** `rev d, m; rev d, d` copies the register, and so does `rev16` twice. -/
theorem reverse_twice {kind : RevKind} (hk : kind ≠ .revsh) (hi : (Act.rev kind d m).Of i) (hj : (Act.rev kind d d).Of j) (hd : d < 13) (hm : m < 15)
    (hs : Shows s c) : Puts [i, j] s c d (c.reg m) := by
  refine (rev_puts hi hd hm hs).cons fun s1 c1 h1 ho => ?_
  have := rev_puts hj hd (by omega) h1
  rw [ho.value] at this
  have e := C56.own_inverse (c.reg m)
  cases kind with
  | rev => rwa [show reversed .rev (reversed .rev (c.reg m)) = c.reg m from e.1] at this
  | rev16 => rwa [show reversed .rev16 (reversed .rev16 (c.reg m)) = c.reg m from e.2] at this
  | revsh => exact absurd rfl hk

/-- **C103.** `mvns d, m; mvns d, d` copies the register. -/
theorem complement_twice (hi : (Act.mov true f d (.reg m)).Of i) (hj : (Act.mov true g d (.reg d)).Of j) (hd : d < 13) (hm : m < 15) (hs : Shows s c) :
    Puts [i, j] s c d (c.reg m) := by
  refine (mvn_puts hi hd hm hs).cons fun s1 c1 h1 ho => ?_
  have := mvn_puts hj hd (by omega) h1
  rwa [ho.value, BitVec.not_not] at this

/-- **C103.** `eors d, n, m; eors d, d, m` copies `n`. -/
theorem exclusive_or_twice (hi : (Act.logic .xor f d n m).Of i) (hj : (Act.logic .xor g d d m).Of j) (hd : d < 13) (hn : n < 15) (hm : m < 13)
    (hne : m ≠ d) (hs : Shows s c) : Puts [i, j] s c d (c.reg n) := by
  refine (logic_puts hi hd hn (by omega) hs).cons fun s1 c1 h1 ho => ?_
  have := logic_puts hj hd (by omega) (by omega) h1
  rw [ho.value, ho.others m (by omega) (by omega) (by omega)] at this
  rwa [show logical .xor (logical .xor (c.reg n) (c.reg m)) (c.reg m) = c.reg n by
    show c.reg n ^^^ c.reg m ^^^ c.reg m = c.reg n
    rw [BitVec.xor_assoc, BitVec.xor_self, BitVec.xor_zero]] at this

/-- **C103.** `eors a, b; eors b, a; eors a, b` exchanges two registers. -/
theorem exchange {a b : Nat} (hi : (Act.logic .xor f a a b).Of i) (hj : (Act.logic .xor g b b a).Of j) (hk : (Act.logic .xor h a a b).Of k)
    (ha : a < 13) (hb : b < 13) (hne : a ≠ b) (hs : Shows s c) :
    ∃ s' c', executeAll [i, j, k] s = (.ok (), s') ∧ Shows s' c' ∧ c'.reg a = c.reg b ∧ c'.reg b = c.reg a ∧
      (∀ r : Int, r ≠ a → r ≠ b → r ≠ 15 → r ≠ 16 → c'.reg r = c.reg r) ∧ c'.mem = c.mem := by
  obtain ⟨i', s1, e1, h1⟩ := C44.logic_right hi (by omega) (by omega) (by omega) hs
  have o1 := only_result c f (logical .xor (c.reg a) (c.reg b)) (logical .xor (c.reg a) (c.reg b)) none none i.size ha
  generalize (c.flags f (logical .xor (c.reg a) (c.reg b)) none none).result i.size a (logical .xor (c.reg a) (c.reg b)) = c1 at *
  obtain ⟨j', s2, e2, h2⟩ := C44.logic_right hj (by omega) (by omega) (by omega) h1
  have o2 := only_result c1 g (logical .xor (c1.reg b) (c1.reg a)) (logical .xor (c1.reg b) (c1.reg a)) none none j.size hb
  generalize (c1.flags g (logical .xor (c1.reg b) (c1.reg a)) none none).result j.size b (logical .xor (c1.reg b) (c1.reg a)) = c2 at *
  obtain ⟨k', s3, e3, h3⟩ := C44.logic_right hk (by omega) (by omega) (by omega) h2
  have o3 := only_result c2 h (logical .xor (c2.reg a) (c2.reg b)) (logical .xor (c2.reg a) (c2.reg b)) none none k.size ha
  generalize (c2.flags h (logical .xor (c2.reg a) (c2.reg b)) none none).result k.size a (logical .xor (c2.reg a) (c2.reg b)) = c3 at *
  have a1 : c1.reg a = c.reg a ^^^ c.reg b := o1.value
  have b1 : c1.reg b = c.reg b := o1.others b (by omega) (by omega) (by omega)
  have b2 : c2.reg b = c.reg a := by
    rw [o2.value, a1, b1]
    show c.reg b ^^^ (c.reg a ^^^ c.reg b) = _
    rw [BitVec.xor_comm (c.reg a), ← BitVec.xor_assoc, BitVec.xor_self, BitVec.zero_xor]
  have a2 : c2.reg a = c.reg a ^^^ c.reg b := (o2.others a (by omega) (by omega) (by omega)).trans a1
  have a3 : c3.reg a = c.reg b := by
    rw [o3.value, a2, b2]
    show c.reg a ^^^ c.reg b ^^^ c.reg a = _
    rw [BitVec.xor_comm (c.reg a), BitVec.xor_assoc, BitVec.xor_self, BitVec.xor_zero]
  refine ⟨s3, c3, ?_, h3, a3, (o3.others b (by omega) (by omega) (by omega)).trans b2, fun r p q h15 h16 => ?_, ?_⟩
  · unfold executeAll
    rw [bind_ok e1]
    unfold executeAll
    rw [bind_ok e2]
    unfold executeAll
    rw [bind_ok e3]
    rfl
  · rw [o3.others r p h15 h16, o2.others r q h15 h16, o1.others r p h15 h16]
  · rw [o3.mem, o2.mem, o1.mem]

theorem ror_value (x : Word) (z : Bool) (a : Nat) : (C18.armShift x z .ror a).1 = x.rotateRight (a % 32) := by
  unfold C18.armShift
  dsimp only
  split
  · next h =>
    subst h
    apply BitVec.eq_of_getLsbD_eq
    intro q hq
    rw [BitVec.getLsbD_rotateRight]
    simp [hq]
  · rfl

theorem ror_ror (x : Word) {a b : Nat} (h : (a + b) % 32 = 0) : (x.rotateRight (a % 32)).rotateRight (b % 32) = x := by
  apply BitVec.eq_of_getLsbD_eq
  intro q hq
  simp only [BitVec.getLsbD_rotateRight, Nat.mod_mod]
  have : a % 32 = 0 ∧ b % 32 = 0 ∨ a % 32 = 32 - b % 32 ∧ 0 < b % 32 := by omega
  rcases this with ⟨h1, h2⟩ | ⟨h1, h2⟩
  · rw [h1, h2]
    simp [hq]
  · rw [h1]
    by_cases h3 : q < 32 - b % 32
    · rw [decide_eq_true h3, cond_true, decide_eq_false (by omega), cond_false, decide_eq_true (by omega), Bool.true_and]
      congr 1
      omega
    · rw [decide_eq_false h3, cond_false, decide_eq_true hq, Bool.true_and, decide_eq_true (by omega), cond_true]
      congr 1
      omega

/-- **C103.** A rotation by `k` and one by `32 - k` copy the register. `a` and `b` hold the
amounts. -/
theorem rotate_back {a b : Nat} (hi : (Act.shiftReg .ror f d n a).Of i) (hj : (Act.shiftReg .ror g d d b).Of j) (hd : d < 13) (hn : n < 15) (ha : a < 15)
    (hb : b < 13) (hne : b ≠ d) (hs : Shows s c) (hsum : ((c.reg a).toNat + (c.reg b).toNat) % 32 = 0) : Puts [i, j] s c d (c.reg n) := by
  refine (shiftReg_puts hi (by decide) hd hn ha hs).cons fun s1 c1 h1 ho => ?_
  have := shiftReg_puts hj (by decide) hd (by omega) (by omega) h1
  rw [ho.value, ho.others b (by omega) (by omega) (by omega), ror_value, ror_value, ror_ror _ (by omega)] at this
  exact this

/-! ### Addition and subtraction -/

theorem wrong_nat (x : Word) : (wrongIfNegative x).toNat = if 2 ^ 31 ≤ x.toNat then 2 ^ 32 - 1 - x.toNat else x.toNat := by
  have hx := x.isLt
  unfold wrongIfNegative
  rw [BitVec.msb_eq_decide]
  by_cases h : 2 ^ 31 ≤ x.toNat
  · rw [if_pos (by simpa using h), if_pos h, BitVec.toNat_not]
  · rw [if_neg (by simpa using h), if_neg h]

theorem add_then_sub (x y : Word) : wrongIfNegative (wrongIfNegative (x + y) - y) = x ↔
    x.toNat < 2 ^ 31 ∧ ((x.toNat + y.toNat) % 2 ^ 32 < 2 ^ 31 ∨ y = 0x80000000#32) := by
  rw [← BitVec.toNat_inj, ← BitVec.toNat_inj, wrong_nat, BitVec.toNat_sub, wrong_nat, BitVec.toNat_add]
  have hx := x.isLt
  have hy := y.isLt
  simp only [BitVec.toNat_ofNat]
  generalize x.toNat = x at *
  generalize y.toNat = y at *
  by_cases h : 2 ^ 31 ≤ (x + y) % 2 ^ 32
  · rw [if_pos h]
    split <;> omega
  · rw [if_neg h]
    split <;> omega

/-- **C103.** `adds d, n, m; subs d, d, m` copies `n` if and only if `n` is not negative, and the sum
is not negative or `m` is 0x80000000: two of the wrong results of C43 then make a right one. -/
theorem add_then_subtract_iff_partial (hi : (Act.addSub false false f d n (.reg m)).Of i) (hj : (Act.addSub true false g d d (.reg m)).Of j) (hd : d < 13)
    (hn : n < 15) (hm : m < 13) (hne : m ≠ d) (hs : Shows s c) :
    Puts [i, j] s c d (c.reg n) ↔
      (c.reg n).toNat < 2 ^ 31 ∧ (((c.reg n).toNat + (c.reg m).toNat) % 2 ^ 32 < 2 ^ 31 ∨ c.reg m = 0x80000000#32) := by
  have key : Puts [i, j] s c d (wrongIfNegative (wrongIfNegative (c.reg n + c.reg m) - c.reg m)) := by
    have h0 := addSub_puts hi hd hn (show m < 15 by omega) hs
    rw [show (Src.reg m).val c = c.reg m from core_rd c (by omega)] at h0
    refine h0.cons fun s1 c1 h1 ho => ?_
    have := addSub_puts hj hd (by omega) (show m < 15 by omega) h1
    rw [show (Src.reg m).val c1 = c1.reg m from core_rd c1 (by omega), ho.value, ho.others m (by omega) (by omega) (by omega)] at this
    exact this
  rw [← add_then_sub]
  constructor
  · rintro ⟨s', c', h1, h2, h3⟩
    obtain ⟨s2, c2, k1, k2, k3⟩ := key
    have : s2 = s' := congrArg Prod.snd (k1.symm.trans h1)
    subst this
    rw [← k3.value]
    refine Eq.trans ?_ h3.value
    exact shows_reg k2 h2 hd
  · intro h
    rwa [h] at key

/-- **C103.** `rsbs d, n, #0; rsbs d, d, #0` copies `n` if and only if `n` is 0. -/
theorem negate_twice_iff_partial (hi : (Act.rsb f d n 0#32).Of i) (hj : (Act.rsb g d d 0#32).Of j) (hd : d < 13) (hs : Shows s c) :
    Puts [i, j] s c d (c.reg n) ↔ c.reg n = 0#32 := by
  have key : Puts [i, j] s c d (wrongIfNegative (0#32 - wrongIfNegative (0#32 - c.reg n))) := by
    refine (rsb_puts hi hd hs).cons fun s1 c1 h1 ho => ?_
    have := rsb_puts hj hd h1
    rwa [ho.value] at this
  have : wrongIfNegative (0#32 - wrongIfNegative (0#32 - c.reg n)) = c.reg n ↔ c.reg n = 0#32 := by
    generalize c.reg n = x
    rw [← BitVec.toNat_inj, ← BitVec.toNat_inj, wrong_nat, BitVec.toNat_sub, wrong_nat, BitVec.toNat_sub]
    have hx := x.isLt
    simp only [BitVec.toNat_ofNat]
    generalize x.toNat = x at *
    by_cases h : 2 ^ 31 ≤ (2 ^ 32 - x + 0 % 2 ^ 32) % 2 ^ 32
    · rw [if_pos h]
      split <;> omega
    · rw [if_neg h]
      split <;> omega
  rw [← this]
  constructor
  · rintro ⟨s', c', h1, h2, h3⟩
    obtain ⟨s2, c2, k1, k2, k3⟩ := key
    have : s2 = s' := congrArg Prod.snd (k1.symm.trans h1)
    subst this
    rw [← k3.value]
    exact (shows_reg k2 h2 hd).trans h3.value
  · intro h
    rwa [h] at key

/-! ### Instructions that do the same as others -/

theorem lsl_value (x : Word) (z : Bool) (a : Nat) : (C18.armShift x z .lsl a).1 = x <<< a := by
  unfold C18.armShift
  dsimp only
  split
  · next h => subst h; simp
  · rfl

theorem lsr_value (x : Word) (z : Bool) (a : Nat) : (C18.armShift x z .lsr a).1 = x >>> a := by
  unfold C18.armShift
  dsimp only
  split
  · next h => subst h; simp
  · rfl

theorem asr_value (x : Word) (z : Bool) (a : Nat) : (C18.armShift x z .asr a).1 = x.sshiftRight a := by
  unfold C18.armShift
  dsimp only
  split
  · next h => subst h; simp
  · rfl

theorem rotate_zero (x : Word) : x.rotateRight 0 = x := by
  apply BitVec.eq_of_getLsbD_eq
  intro q hq
  rw [BitVec.getLsbD_rotateRight]
  simp [hq]

theorem shifts_extended {sgn : Bool} {width : Nat} (hw : width = 8 ∨ width = 16) (x : Word) :
    (if sgn then (x <<< (32 - width)).sshiftRight (32 - width) else x <<< (32 - width) >>> (32 - width)) = extended sgn width x.toNat := by
  unfold extended
  cases sgn with
  | true =>
    rw [if_pos rfl, if_pos rfl]
    apply BitVec.eq_of_getLsbD_eq
    intro q hq
    rcases hw with rfl | rfl
    · simp [BitVec.getLsbD_sshiftRight, BitVec.getLsbD_signExtend, BitVec.msb_eq_getLsbD_last]
      grind
    · simp [BitVec.getLsbD_sshiftRight, BitVec.getLsbD_signExtend, BitVec.msb_eq_getLsbD_last]
      grind
  | false =>
    rw [if_neg (by decide), if_neg (by decide)]
    apply BitVec.eq_of_getLsbD_eq
    intro q hq
    rcases hw with rfl | rfl
    · simp
      grind
    · simp
      grind

/-- **C103.** `lsls d, m, #24; lsrs d, d, #24` puts there what UXTB puts there, with 16 what UXTH does, and
with ASRS at the end what SXTB and SXTH do. -/
theorem shifts_extend {sgn : Bool} {width : Nat} (hw : width = 8 ∨ width = 16) (hi : (Act.shiftImm .lsl f d m (32 - width)).Of i)
    (hj : (Act.shiftImm (if sgn then .asr else .lsr) g d d (32 - width)).Of j) (hk : (Act.extend sgn width 0 d m).Of k)
    (hv : (Act.extend sgn width 0 d m).Valid) (hd : d < 13) (hm : m < 15) (hs : Shows s c) :
    ∃ v, Puts [i, j] s c d v ∧ Puts [k] s c d v := by
  refine ⟨_, ?_, extend_puts hk hv hd hm hs⟩
  refine (shiftImm_puts hi (by decide) hd hm hs).cons fun s1 c1 h1 ho => ?_
  have := shiftImm_puts hj (by cases sgn <;> decide) hd (by omega) h1
  rw [ho.value, lsl_value] at this
  rw [rotate_zero, ← shifts_extended hw]
  cases sgn with
  | true => rwa [if_pos rfl, asr_value] at this
  | false => rwa [if_neg (by decide), lsr_value] at this

/-- **C103.** MULS by a power of two puts there what LSLS does. -/
theorem multiply_by_power {a : Nat} (hi : (Act.mul f d n m).Of i) (hj : (Act.shiftImm .lsl g d n a).Of j) (hd : d < 13) (hn : n < 15) (hm : m < 15)
    (hs : Shows s c) (hp : (c.reg m).toNat = 2 ^ a) : ∃ v, Puts [i] s c d v ∧ Puts [j] s c d v := by
  refine ⟨_, mul_puts hi hd hn hm hs, ?_⟩
  have := shiftImm_puts hj (by decide) hd hn hs
  rw [lsl_value] at this
  rwa [show c.reg n * c.reg m = c.reg n <<< a by
    apply BitVec.eq_of_toNat_eq
    rw [BitVec.toNat_mul, hp, BitVec.toNat_shiftLeft, Nat.shiftLeft_eq]]

/-- **C103.** `bics d, n, m` puts there what `mvns d, m; ands d, d, n` does. -/
theorem clear_is_and_not {a b e : Bool} (hi : (Act.bic a d n m).Of i) (hj : (Act.mov true b d (.reg m)).Of j) (hk : (Act.logic .and e d d n).Of k)
    (hd : d < 13) (hn : n < 13) (hm : m < 15) (hne : n ≠ d) (hs : Shows s c) : ∃ v, Puts [i] s c d v ∧ Puts [j, k] s c d v := by
  refine ⟨_, bic_puts hi hd (by omega) hm hs, ?_⟩
  refine (mvn_puts hj hd hm hs).cons fun s1 c1 h1 ho => ?_
  have := logic_puts hk hd (by omega) (by omega) h1
  rw [ho.value, ho.others n (by omega) (by omega) (by omega)] at this
  rwa [BitVec.and_comm]

/-- `rev r0, r1; rev r0, r0`; `eors r0, r1; eors r1, r0; eors r0, r1`; `lsls r0, r1, #24; asrs r0, r0, #24` and
`sxtb r0, r1`. -/
example :
    ((ran [0x08, 0xba] (sample [(0, 0), (1, 0x89abcdef)])).bind fun s => ranRegs [0x00, 0xba] s [0, 1]) = some [some 0x89abcdef, some 0x89abcdef] ∧
    ((ran [0x48, 0x40] (sample [(0, 12), (1, 0xfffffff0)])).bind fun s => (ran [0x41, 0x40] s).bind fun s => ranRegs [0x48, 0x40] s [0, 1]) =
      some [some 0xfffffff0, some 12] ∧
    ((ran [0x08, 0x06] (sample [(0, 0), (1, 0x1234)])).bind fun s => ranRegs [0x00, 0x16] s [0]) = some [some 0x34] ∧
    ((ran [0x08, 0x06] (sample [(0, 0), (1, 0x12b4)])).bind fun s => ranRegs [0x00, 0x16] s [0]) = some [some 0xffffffb4] ∧
    ranRegs [0x48, 0xb2] (sample [(0, 0), (1, 0x12b4)]) [0] = some [some 0xffffffb4] := by
  refine ⟨?_, ?_, ?_, ?_, ?_⟩ <;> simp only [ranRegs, ran] <;> rw [trees, decoders_eq] <;> decide +kernel

/-- `adds r0, r1, r2; subs r0, r0, r2` with 5 and 7, with 0x7fffffff and 1, and with 5 and 0x80000000. -/
example :
    ((ran [0x88, 0x18] (sample [(0, 0), (1, 5), (2, 7)])).bind fun s => ranRegs [0x80, 0x1a] s [0]) = some [some 5] ∧
    ((ran [0x88, 0x18] (sample [(0, 0), (1, 0x7fffffff), (2, 1)])).bind fun s => ranRegs [0x80, 0x1a] s [0]) = some [some 0x7ffffffe] ∧
    ((ran [0x88, 0x18] (sample [(0, 0), (1, 5), (2, 0x80000000)])).bind fun s => ranRegs [0x80, 0x1a] s [0]) = some [some 5] := by
  refine ⟨?_, ?_, ?_⟩ <;> simp only [ranRegs, ran] <;> rw [trees, decoders_eq] <;> decide +kernel

end C103
end Verif
