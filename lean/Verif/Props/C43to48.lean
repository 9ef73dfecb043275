import Verif.Lemmas.Refine
import Verif.Lemmas.Sample

/-!
# C43 to C48: arithmetic, logic, shifts, moves and comparisons

The theorems are about any object that decoding gives for the action (`Act.Of`, see C38)
and about any state: a machine that `Shows` registers and memory.
-/

namespace Verif
open BS Thumb

theorem beq_decide (x y : Word) : (x == y) = decide (x = y) := by
  by_cases h : x = y
  · simp [h]
  · simp [h]

namespace C43

/-- What the program puts in place of a result: the complement of a negative one. -/
def wrongIfNegative (x : Word) : Word := if x.msb then ~~~x else x

theorem spoil_eq (x : Word) : C17.spoil x = wrongIfNegative x := rfl

theorem sum_add (x y : Word) (c : Bool) : C17.sum x y c = x + y + BitVec.ofNat 32 c.toNat := by
  unfold C17.sum
  rw [BitVec.ofNat_add, BitVec.ofNat_add, BitVec.ofNat_toNat, BitVec.ofNat_toNat, BitVec.setWidth_eq, BitVec.setWidth_eq]

/-- **C43.** ADD, ADC, SUB and SBC exactly: they put the sum in the destination, and set C
and V from it, except that a negative sum is replaced by its complement, also for N and Z. -/
theorem add_sub_exact {sub carry flags : Bool} {d n : Nat} {src : Src} {i : Instr} {s : Machine} {c : Core}
    (h : (Act.addSub sub carry flags d n src).Of i) (hd : d < 15) (hn : n < 15) (hs : src.NoPc) (hc : Shows s c)
    (x y : Word) (b : Bool) (hx : x = c.reg n) (hy : y = if sub then ~~~src.val c else src.val c)
    (hb : b = if carry then c.flag 29 else sub) :
    EndsIn i s ((c.flags flags (wrongIfNegative (C17.sum x y b)) (some (C17.carryOut x y b)) (some (C17.overflow x y b))).result
      i.size d (wrongIfNegative (C17.sum x y b))) := by
  obtain ⟨a, rfl, rfl, _⟩ := hc.arm
  subst hx hy hb
  have := ends_of h trivial (a := a) rfl
  rw [afterAdd_core_any a i.size flags hd] at this
  simp only [src_val hs]
  exact this

/-- **C43.** RSB exactly, with the same exception. -/
theorem reverse_subtract_exact {flags : Bool} {d n : Nat} {imm : Word} {i : Instr} {s : Machine} {c : Core}
    (h : (Act.rsb flags d n imm).Of i) (hd : d < 15) (hc : Shows s c) (x : Word) (hx : x = ~~~c.reg n) :
    EndsIn i s ((c.flags flags (wrongIfNegative (C17.sum x imm true)) (some (C17.carryOut x imm true))
      (some (C17.overflow x imm true))).result i.size d (wrongIfNegative (C17.sum x imm true))) := by
  obtain ⟨a, rfl, rfl, _⟩ := hc.arm
  subst hx
  have := ends_of h trivial (a := a) rfl
  rw [afterAdd_core_any a i.size flags hd] at this
  exact this

theorem msb_of_keep {d : Nat} (hd : d < 15) {x : Word} (h : keepBits d (wrongIfNegative x) = keepBits d x) : x.msb = false := by
  have := congrArg BitVec.msb h
  rw [keepBits_msb (by omega), keepBits_msb (by omega), ← spoil_eq, spoil_msb] at this
  exact this.symm

/-- **C43.** ADD, ADC, SUB and SBC do what the manual says if and only if the result is not
negative. -/
theorem add_sub_right_iff_partial {sub carry flags : Bool} {d n : Nat} {src : Src} {i : Instr} {s : Machine} {c : Core}
    (h : (Act.addSub sub carry flags d n src).Of i) (hd : d < 15) (hn : n < 15) (hs : src.NoPc) (hc : Shows s c) :
    Does i (.addSub sub carry flags d n src) s c ↔
      (C17.sum (c.reg n) (if sub then ~~~src.val c else src.val c) (if carry then c.flag 29 else sub)).msb = false := by
  have he := add_sub_exact h hd hn hs hc _ _ _ rfl rfl rfl
  constructor
  · intro hdo
    have := (ends_unique he hdo).1 d (core_mem (by omega))
    simp only [Act.run, core_rd _ hn] at this
    rw [result_reg hd, result_reg hd] at this
    exact msb_of_keep hd this
  · intro hm
    rw [wrongIfNegative, if_neg (by rw [hm]; decide)] at he
    unfold Does
    simp only [Act.run, core_rd _ hn]
    exact he

/-- **C43.** RSB does what the manual says if and only if the result is not negative. -/
theorem reverse_subtract_right_iff_partial {flags : Bool} {d n : Nat} {imm : Word} {i : Instr} {s : Machine} {c : Core}
    (h : (Act.rsb flags d n imm).Of i) (hd : d < 15) (hn : n < 15) (hc : Shows s c) :
    Does i (.rsb flags d n imm) s c ↔ (imm - c.reg n).msb = false := by
  have hsum : C17.sum (~~~c.reg n) imm true = imm - c.reg n := by
    rw [sum_add, BitVec.not_eq_neg_add, show BitVec.ofNat 32 true.toNat = 1#32 from rfl]
    generalize c.reg n = x
    grind
  have he := reverse_subtract_exact h hd hc _ rfl
  rw [hsum] at he
  constructor
  · intro hdo
    have := (ends_unique he hdo).1 d (core_mem (by omega))
    simp only [Act.run, core_rd _ hn, hsum] at this
    rw [result_reg hd, result_reg hd] at this
    exact msb_of_keep hd this
  · intro hm
    rw [wrongIfNegative, if_neg (by rw [hm]; decide)] at he
    unfold Does
    simp only [Act.run, core_rd _ hn, hsum]
    exact he

/-- **C43.** The sums are those meant: `x + y`, `x - y`, and with the carry. -/
theorem sums (x y : Word) (c : Bool) :
    C17.sum x y false = x + y ∧ C17.sum x (~~~y) true = x - y ∧ C17.sum x y c = x + y + (if c then 1#32 else 0#32) ∧
    C17.sum x (~~~y) c = x - y - (if c then 0#32 else 1#32) := by
  simp only [sum_add, BitVec.not_eq_neg_add]
  refine ⟨?_, ?_, ?_, ?_⟩
  · show x + y + 0#32 = x + y
    simp
  · show x + (-y - 1#32) + 1#32 = x - y
    grind
  · cases c <;> rfl
  · cases c
    · show x + (-y - 1#32) + 0#32 = x - y - 1#32
      grind
    · show x + (-y - 1#32) + 1#32 = x - y - 0#32
      grind

/-- **C43.** C after a subtraction says that nothing was borrowed, and V that the difference
of the signed numbers is not a signed word. -/
theorem subtraction_flags (x y : Word) :
    C17.carryOut x (~~~y) true = decide (y.toNat ≤ x.toNat) ∧
    C17.overflow x (~~~y) true = decide (x.toInt - y.toInt < -2 ^ 31 ∨ 2 ^ 31 ≤ x.toInt - y.toInt) := by
  constructor
  · unfold C17.carryOut
    have hy := y.isLt
    have hx := x.isLt
    rw [BitVec.toNat_not]
    congr 1
    apply propext
    simp only [Bool.toNat_true]
    omega
  · unfold C17.overflow
    have : (~~~y).toInt = -y.toInt - 1 := by
      have := y.isLt
      rw [BitVec.toInt_eq_toNat_cond, BitVec.toInt_eq_toNat_cond, BitVec.toNat_not]
      split <;> split <;> omega
    rw [this]
    congr 1
    apply propext
    simp only [Bool.toNat_true]
    omega

/-- `adds r3, r1, #1`, the same at the largest positive number, where it goes wrong,
and `subs r3, r1, #1` from 0: should be 0xffffffff with N. -/
example : ranRegs [0x4b, 0x1c] (sample [(1, 41)]) [3, 16, 15] = some [some 42, some 0, some 2] ∧
    ranRegs [0x4b, 0x1c] (sample [(1, 0x7fffffff)]) [3, 16, 15] = some [some 0x7fffffff, some 0x10000000, some 2] ∧
    ranRegs [0x4b, 0x1e] (sample [(1, 0)]) [3, 16, 15] = some [some 0, some 0x40000000, some 2] := by
  unfold ranRegs ran
  rw [trees, decoders_eq]
  decide +kernel

end C43

namespace C44

/-- **C44.** AND, EOR and ORR do what the manual says. -/
theorem logic_right {f : BitFn} {flags : Bool} {d n m : Nat} {i : Instr} {s : Machine} {c : Core}
    (h : (Act.logic f flags d n m).Of i) (hd : d < 15) (hn : n < 15) (hm : m < 15) (hc : Shows s c) :
    EndsIn i s ((c.flags flags (logical f (c.reg n) (c.reg m)) none none).result i.size d (logical f (c.reg n) (c.reg m))) := by
  obtain ⟨a, rfl, rfl, _⟩ := hc.arm
  have := ends_of h trivial (a := a) rfl
  rw [afterOp_core a i.size flags hd] at this
  exact this

/-- **C44.** BIC does what the manual says. -/
theorem bit_clear_right {flags : Bool} {d n m : Nat} {i : Instr} {s : Machine} {c : Core}
    (h : (Act.bic flags d n m).Of i) (hd : d < 15) (hn : n < 15) (hm : m < 15) (hc : Shows s c) :
    EndsIn i s ((c.flags flags (c.reg n &&& ~~~c.reg m) none none).result i.size d (c.reg n &&& ~~~c.reg m)) := by
  obtain ⟨a, rfl, rfl, _⟩ := hc.arm
  have := ends_of h trivial (a := a) rfl
  rw [afterOp_core a i.size flags hd] at this
  exact this

/-- **C44.** Setting flags without a carry: N and Z come from the result, every other bit of
xPSR stays. -/
theorem only_n_and_z (c : Core) (r : Word) :
    (c.flags true r none none).flag 31 = r.msb ∧ (c.flags true r none none).flag 30 = decide (r = 0#32) ∧
    ∀ k, k ≠ 30 → k ≠ 31 → (c.flags true r none none).flag k = c.flag k := by
  unfold Core.flag
  rw [flags_reg16]
  simp only [newFlags_bit]
  refine ⟨rfl, ?_, ?_⟩
  · simp only [show ¬ (30 = 31) by omega, if_false, if_true]
    exact beq_decide r 0#32
  · intro k h1 h2
    rw [if_neg h2, if_neg h1]
    simp only [Option.getD]
    split
    · next h => subst h; rfl
    · split
      · next h => subst h; rfl
      · rfl

/-- `bics r1, r0` and `ands r1, r0` with C and V set. -/
example : ranRegs [0x81, 0x43] (sample [(0, 0x0ff0), (1, 0xffffffff), (16, 0x30000000)]) [1, 16] =
      some [some 0xfffff00f, some 0xb0000000] ∧
    ranRegs [0x01, 0x40] (sample [(0, 0x0f0f), (1, 0xf0f0f0f0), (16, 0x30000000)]) [1, 16] = some [some 0, some 0x70000000] := by
  unfold ranRegs ran
  rw [trees, decoders_eq]
  decide +kernel

end C44

namespace C45

/-- **C45.** LSL, LSR, ASR, ROR and RRX by a constant give the Arm result and carry. -/
theorem shift_immediate_right {t : SRType} {flags : Bool} {d m k : Nat} {i : Instr} {s : Machine} {c : Core}
    (h : (Act.shiftImm t flags d m k).Of i) (hk : t = .rrx → k = 1) (hd : d < 15) (hm : m < 15) (hc : Shows s c)
    (r : Word × Bool) (hr : r = C18.armShift (c.reg m) (c.flag 29) t k) :
    EndsIn i s ((c.flags flags r.1 (some r.2) none).result i.size d r.1) := by
  obtain ⟨a, rfl, rfl, _⟩ := hc.arm
  subst hr
  have := ends_of h hk (a := a) rfl
  rw [afterOp_core a i.size flags hd] at this
  exact this

/-- **C45.** The shifts by a register use its low byte. -/
theorem shift_register_right {t : SRType} {flags : Bool} {d n m : Nat} {i : Instr} {s : Machine} {c : Core}
    (h : (Act.shiftReg t flags d n m).Of i) (ht : t ≠ .rrx) (hd : d < 15) (hn : n < 15) (hm : m < 15) (hc : Shows s c)
    (r : Word × Bool) (hr : r = C18.armShift (c.reg n) (c.flag 29) t ((c.reg m).toNat % 256)) :
    EndsIn i s ((c.flags flags r.1 (some r.2) none).result i.size d r.1) := by
  obtain ⟨a, rfl, rfl, _⟩ := hc.arm
  subst hr
  have := ends_of h ht (a := a) rfl
  rw [afterOp_core a i.size flags hd] at this
  exact this

/-- **C45.** No encoding asks for RRX by a register, or for RRX by anything but 1: the
conditions above always hold. -/
theorem conditions_hold (e : Enc) (he : e ∈ encodings) (w : Nat) (hw : e.Is w) (hx : ¬ Wrong e (field e.pat w)) :
    (∀ t flags d m k, e.act (field e.pat w) = .shiftImm t flags d m k → t = .rrx → k = 1) ∧
    (∀ t flags d n m, e.act (field e.pat w) = .shiftReg t flags d n m → t ≠ .rrx) := by
  have hv := encoding_valid e he w hw hx
  constructor
  · intro t flags d m k h
    rw [h] at hv
    exact hv
  · intro t flags d n m h
    rw [h] at hv
    exact hv

/-- `lsls r2, r1, #4` shifts a one into C, `asrs r2, r1, #32`, and `lsrs r1, r0` by 0x120,
whose low byte is 32. -/
example : ranRegs [0x0a, 0x01] (sample [(1, 0x18000001)]) [2, 16] = some [some 0x80000010, some 0xa0000000] ∧
    ranRegs [0x0a, 0x10] (sample [(1, 0x80000000)]) [2, 16] = some [some 0xffffffff, some 0xa0000000] ∧
    ranRegs [0xc1, 0x40] (sample [(1, 0x80000000), (0, 0x120)]) [1, 16] = some [some 0, some 0x60000000] := by
  unfold ranRegs ran
  rw [trees, decoders_eq]
  decide +kernel

end C45

namespace C46

/-- **C46.** MUL puts the low 32 bits of the product in the destination, and the
flag setting form sets N and Z from it. -/
theorem multiply_right {flags : Bool} {d n m : Nat} {i : Instr} {s : Machine} {c : Core}
    (h : (Act.mul flags d n m).Of i) (hd : d < 15) (hn : n < 15) (hm : m < 15) (hc : Shows s c)
    (r : Word) (hr : r.toNat = (c.reg n).toNat * (c.reg m).toNat % 2 ^ 32) :
    EndsIn i s ((c.flags flags r none none).result i.size d r) := by
  obtain ⟨a, rfl, rfl, _⟩ := hc.arm
  have hr' : r = a.reg n * a.reg m := BitVec.eq_of_toNat_eq (by rw [hr, BitVec.toNat_mul]; rfl)
  subst hr'
  have := ends_of h trivial (a := a) rfl
  rw [afterOp_core a i.size flags hd] at this
  exact this

/-- **C46.** Without flag setting xPSR is not touched. -/
theorem no_flags (c : Core) (r : Word) (cf vf : Option Bool) : c.flags false r cf vf = c := rfl

/-- `muls r0, r1, r0` with a product over 32 bits, and `mul r0, r1, r2` that leaves xPSR. -/
example : ranRegs [0x48, 0x43] (sample [(0, 0x10001), (1, 0x1ffff), (16, 0x30000000)]) [0, 16] = some [some 0xffff, some 0x30000000] ∧
    ranRegs [0x01, 0xfb, 0x02, 0xf0] (sample [(1, 3), (2, 0), (16, 0x80000000)]) [0, 16] = some [some 0, some 0x80000000] := by
  unfold ranRegs ran
  rw [trees, decoders_eq]
  decide +kernel

end C46

namespace C47

/-- **C47.** MOV, MOVS, MOVW and MVN copy or complement the operand and set N and Z only in
the flag setting forms. The remaining form, MVN with a shifted register, is
`shifted_negate_fails`; the carry of MOVS.W is `movs_w_carry`. -/
theorem move_right_partial {neg flags : Bool} {d : Nat} {src : Src} {i : Instr} {s : Machine} {c : Core}
    (h : (Act.mov neg flags d src).Of i) (hd : d < 15) (hs : src.NoPc) (hc : Shows s c) (r : Word)
    (hr : r = if neg then ~~~src.val c else src.val c) :
    EndsIn i s ((c.flags flags r none none).result i.size d r) := by
  obtain ⟨a, rfl, rfl, _⟩ := hc.arm
  subst hr
  have := ends_of h trivial (a := a) rfl
  have hs' : decide (src = .reg 15) = false := by
    apply decide_eq_false
    rintro rfl
    exact absurd (show (15 : Nat) < 15 from hs) (by omega)
  rw [afterOp_core a i.size _ hd, hs', Bool.not_false, Bool.and_true] at this
  rw [src_val hs]
  exact this

/-- **C47.** Reading PC: MOV from PC copies the address of the instruction; the manual says
that address plus 4, so it never does what the manual says. -/
theorem move_from_pc {d : Nat} {i : Instr} {s : Machine} {c : Core} (h : (Act.mov false false d (.reg 15)).Of i) (hd : d < 15)
    (hc : Shows s c) : EndsIn i s (c.result i.size d (c.reg 15)) ∧ ¬ Does i (.mov false false d (.reg 15)) s c := by
  obtain ⟨a, rfl, rfl, _⟩ := hc.arm
  have he := ends_of h trivial (a := a) rfl
  rw [afterOp_core a i.size _ hd] at he
  have he' : EndsIn i a.conc (a.core.result i.size d (a.core.reg 15)) := he
  refine ⟨he', fun hdo => ?_⟩
  have := (ends_unique he' hdo).1 d (core_mem (by omega))
  simp only [Act.run] at this
  rw [result_reg hd, result_reg hd] at this
  have h2 := congrArg (BitVec.getLsbD · 2) this
  have keep : ∀ v : Word, (keepBits d v).getLsbD 2 = v.getLsbD 2 := by
    intro v
    unfold keepBits
    rw [if_neg (by omega), if_neg (by omega)]
    split
    · rw [BitVec.getLsbD_and, show (0xfffffffc#32).getLsbD 2 = true by decide, Bool.and_true]
    · rfl
  simp only [keep] at h2
  have hv : Src.val a.core (.reg 15) = a.core.reg 15 + 4#32 := rfl
  rw [show (if false = true then ~~~Src.val a.core (Src.reg 15) else Src.val a.core (Src.reg 15)) = a.core.reg 15 + 4#32 from hv] at h2
  generalize a.core.reg 15 = x at h2
  rw [BitVec.getLsbD, BitVec.getLsbD, BitVec.toNat_add, show (4#32).toNat = 4 from rfl, Nat.testBit_mod_two_pow,
    Nat.testBit_eq_decide_div_mod_eq, Nat.testBit_eq_decide_div_mod_eq] at h2
  simp at h2
  omega

/-- **C47.** Writing PC: MOV to PC goes to the value plus the size of the instruction
instead of the value with bit 0 cleared. -/
theorem move_to_pc {src : Src} {i : Instr} {s : Machine} {c : Core} (h : (Act.mov false false 15 src).Of i) (hs : src.NoPc)
    (hc : Shows s c) : EndsIn i s (c.set 15 (src.val c + BitVec.ofNat 32 i.size)) := by
  obtain ⟨a, rfl, rfl, _⟩ := hc.arm
  have he := ends_of h trivial (a := a) rfl
  rw [src_val hs]
  have : ∀ v : Word, (a.afterOp i.size false 15 v none).core = a.core.set 15 (v + BitVec.ofNat 32 i.size) := by
    intro v
    apply Core.ext
    · funext j
      show ((a.set 15 v).set 15 _).reg j = (a.core.set 15 _).reg j
      rw [reg_set, core_reg_set, reg_set]
      split
      · rfl
      · rfl
    · rfl
  rw [Bool.false_and, this] at he
  exact he

/-- **C47.** MVN with a shifted register (`mvn.w`) always raises `NameError`, the state is
unchanged. -/
theorem shifted_negate_fails {flags : Bool} {d m : Nat} {sh : SRType × Nat} {i : Instr} {s : Machine} {c : Core}
    (h : (Act.mvnShift flags d m sh).Of i) (hk : sh.1 = .rrx → sh.2 = 1) (hc : Shows s c) :
    i.eval s = (.error .nameError, s) := by
  obtain ⟨a, rfl, rfl, _⟩ := hc.arm
  exact eval_exact h hk a

/-- **C47.** MOVS.W with a rotated constant: the manual sets C to the top bit of the
constant, the program leaves it. So it is right if and only if C has that value already. -/
theorem movs_w_carry {d : Nat} {imm12 : BitVec 12} {i : Instr} {s : Machine} {c : Core}
    (h : (Act.mov false true d (.imm (C19.armExpand imm12 false).1)).Of i) (hd : d < 15) (hc : Shows s c) :
    EndsIn i s ((c.flags true (C19.armExpand imm12 (c.flag 29)).1 (some (C19.armExpand imm12 (c.flag 29)).2) none).result i.size d
      (C19.armExpand imm12 (c.flag 29)).1) ↔ (C19.armExpand imm12 (c.flag 29)).2 = c.flag 29 := by
  have hv : (C19.armExpand imm12 (c.flag 29)).1 = (C19.armExpand imm12 false).1 := by
    unfold C19.armExpand
    split
    · rfl
    · rfl
  have he := move_right_partial h hd trivial hc (C19.armExpand imm12 false).1 rfl
  rw [hv]
  constructor
  · intro h'
    have := (ends_unique he h').1 16 (core_mem (k := 16) (by omega))
    rw [core_result hd, core_result hd, next_reg _ _ (by decide), next_reg _ _ (by decide),
      core_reg16_set _ (by omega), core_reg16_set _ (by omega), flags_reg16, flags_reg16] at this
    have := congrArg (BitVec.getLsbD · 29) this
    simp only [newFlags_bit] at this
    exact this.symm
  · intro h'
    rw [h']
    have : c.flags true (C19.armExpand imm12 false).1 (some (c.flag 29)) none = c.flags true (C19.armExpand imm12 false).1 none none := by
      unfold Core.flags
      simp only [if_true]
      congr 1
      apply BitVec.eq_of_getLsbD_eq
      intro k _
      simp only [newFlags_bit]
      simp only [Option.getD]
      rfl
    rw [this]
    exact he

/-- **C47.** The carry of the reference semantics is that of `ThumbExpandImm_C`. -/
theorem expand_carry (imm12 : BitVec 12) (b : Bool) : (expandCarry imm12.toNat).getD b = (C19.armExpand imm12 b).2 := by
  revert b
  revert imm12
  decide +kernel

/-- **C47.** Moving is right, for registers other than PC, if and only if the instruction leaves C, or sets it
to what it is. -/
theorem move_right_iff_partial {neg flags : Bool} {d : Nat} {src : Src} {carry : Option Bool} {i : Instr} {s : Machine} {c : Core}
    (h : (Act.mov neg flags d src carry).Of i) (hd : d < 15) (hs : src.NoPc) (hc : Shows s c) :
    Does i (.mov neg flags d src carry) s c ↔ (flags = true → carry.getD (c.flag 29) = c.flag 29) := by
  have he := move_right_partial h hd hs hc _ rfl
  constructor
  · rintro h' rfl
    have := (ends_unique he h').1 16 (core_mem (k := 16) (by omega))
    simp only [Act.run] at this
    rw [core_result hd, core_result hd, next_reg _ _ (by decide), next_reg _ _ (by decide),
      core_reg16_set _ (by omega), core_reg16_set _ (by omega), flags_reg16, flags_reg16] at this
    have := congrArg (BitVec.getLsbD · 29) this
    simp only [newFlags_bit] at this
    exact this.symm
  · intro h'
    unfold Does
    simp only [Act.run]
    rw [flags_carry _ _ _ h']
    exact he

/-- **C47.** Constants that are not rotated leave C, so the condition is about rotated ones
only: the top two bits of imm12 are not both zero. -/
theorem movs_w_not_rotated (imm12 : BitVec 12) (b : Bool) (h : imm12.toNat < 1024) : (C19.armExpand imm12 b).2 = b := by
  revert b
  revert imm12
  decide +kernel

/-- `mov r1, pc` at 0x100 should give 0x104, and `mov pc, r1` should go to 0x200. -/
example : ranRegs [0x79, 0x46] (sample [(15, 0x100)]) [1, 15] = some [some 0x100, some 0x102] ∧
    ranRegs [0x8f, 0x46] (sample [(1, 0x200), (15, 0x100)]) [1, 15] = some [some 0x200, some 0x202] := by
  refine ⟨?_, ?_⟩ <;> unfold ranRegs ran <;> rw [trees, decoders_eq] <;> decide +kernel

/-- `movs r0, #200`, `mvns r0, r1`, and `movs.w r0, #0x80000000`, which should set C. -/
example : ranRegs [0xc8, 0x20] (sample [(16, 0xf0000000)]) [0, 16] = some [some 200, some 0x30000000] ∧
    ranRegs [0xc8, 0x43] (sample [(1, 0x0000ffff)]) [0, 16] = some [some 0xffff0000, some 0x80000000] ∧
    ranRegs [0x5f, 0xf0, 0x00, 0x40] (sample []) [0, 16] = some [some 0x80000000, some 0x80000000] ∧
    (C19.armExpand 0x400#12 false) = (0x80000000#32, true) := by
  refine ⟨?_, ?_, ?_, by decide⟩ <;> unfold ranRegs ran <;> rw [trees, decoders_eq] <;> decide +kernel

end C47

namespace C48

/-- **C48.** CMP and CMN exactly: only flags change; C and V are right; N is never set, and Z
is set if the result is 0 or -1. -/
theorem compare_exact {sub : Bool} {n : Nat} {src : Src} {i : Instr} {s : Machine} {c : Core}
    (h : (Act.cmp sub n src).Of i) (hn : n < 15) (hs : src.NoPc) (hc : Shows s c)
    (x y : Word) (hx : x = c.reg n) (hy : y = if sub then ~~~src.val c else src.val c) :
    EndsIn i s ((c.set 16 (newFlags (c.reg 16) false (decide (C17.sum x y sub = 0#32 ∨ C17.sum x y sub = 0xffffffff#32))
      (some (C17.carryOut x y sub)) (some (C17.overflow x y sub)))).next i.size) := by
  obtain ⟨a, rfl, rfl, _⟩ := hc.arm
  subst hx hy
  have := ends_of h trivial (a := a) rfl
  simp only [src_val hs]
  have hz : ∀ r : Word, ((C17.spoil r) == 0#32) = decide (r = 0#32 ∨ r = 0xffffffff#32) := by
    intro r
    rw [beq_decide]
    congr 1
    apply propext
    unfold C17.spoil
    split
    · next hm =>
      constructor
      · intro h
        right
        have := congrArg (~~~ ·) h
        simp only [BitVec.not_not] at this
        rw [this]; decide
      · rintro (h | h)
        · rw [h] at hm; exact absurd hm (by decide)
        · rw [h]; decide
    · next hm =>
      constructor
      · exact .inl
      · rintro (h | h)
        · exact h
        · rw [h] at hm; exact absurd (by decide) hm
  rw [next_core] at this
  unfold Arm.flags at this
  rw [if_pos rfl, spoil_msb, hz] at this
  exact this

/-- **C48.** CMP and CMN do what the manual says if and only if the result is not negative. -/
theorem compare_right_iff_partial {sub : Bool} {n : Nat} {src : Src} {i : Instr} {s : Machine} {c : Core}
    (h : (Act.cmp sub n src).Of i) (hn : n < 15) (hs : src.NoPc) (hc : Shows s c) :
    Does i (.cmp sub n src) s c ↔ (C17.sum (c.reg n) (if sub then ~~~src.val c else src.val c) sub).msb = false := by
  have he := compare_exact h hn hs hc _ _ rfl rfl
  constructor
  · intro hdo
    have := (ends_unique he hdo).1 16 (core_mem (k := 16) (by omega))
    simp only [Act.run, core_rd _ hn] at this
    rw [next_reg _ _ (by decide), next_reg _ _ (by decide), flags_reg16] at this
    have h31 : ∀ v : Word, (c.set 16 v).reg 16 = v := fun v => rfl
    rw [h31] at this
    have := congrArg (BitVec.getLsbD · 31) this
    simp only [newFlags_bit, if_true] at this
    exact this.symm
  · intro hm
    obtain ⟨a, rfl, rfl, _⟩ := hc.arm
    simp only [src_val hs, core_reg] at hm
    have := ends_of h trivial (a := a) rfl
    rw [next_core, spoil_of hm] at this
    unfold Does
    simp only [Act.run, core_rd _ hn, src_val hs]
    exact this

/-- **C48.** TST sets N, Z and C from the conjunction with the shifted operand. -/
theorem test_right {n m : Nat} {sh : SRType × Nat} {i : Instr} {s : Machine} {c : Core}
    (h : (Act.tst n m sh).Of i) (hk : sh.1 = .rrx → sh.2 = 1) (hn : n < 15) (hm : m < 15) (hc : Shows s c)
    (r : Word × Bool) (hr : r = C18.armShift (c.reg m) (c.flag 29) sh.1 sh.2) :
    EndsIn i s ((c.flags true (c.reg n &&& r.1) (some r.2) none).next i.size) := by
  obtain ⟨a, rfl, rfl, _⟩ := hc.arm
  subst hr
  exact ends_of h hk (a := a) rfl

/-- **C48.** No register but xPSR and PC changes in any of them. -/
theorem no_register_changes (c : Core) (v : Word) (size : Nat) (k : Int) (h : k ≠ 15) (h' : k ≠ 16) :
    ((c.set 16 v).next size).reg k = c.reg k := by
  rw [next_reg _ _ h, core_reg_set, if_neg (by omega)]

/-- `cmp r1, #7` with 9, 7 and 6: the last should set N and not Z. `cmp r1, r2` compares
r1 with itself (C38). `tst r1, r2`. -/
example : ranRegs [0x07, 0x29] (sample [(1, 9)]) [1, 16] = some [some 9, some 0x20000000] ∧
    ranRegs [0x07, 0x29] (sample [(1, 7)]) [1, 16] = some [some 7, some 0x60000000] ∧
    ranRegs [0x07, 0x29] (sample [(1, 6)]) [1, 16] = some [some 6, some 0x40000000] ∧
    ranRegs [0x91, 0x42] (sample [(1, 6), (2, 9)]) [1, 16] = some [some 6, some 0x60000000] ∧
    ranRegs [0x11, 0x42] (sample [(1, 6), (2, 9), (16, 0x20000000)]) [1, 2, 16] = some [some 6, some 9, some 0x60000000] := by
  refine ⟨?_, ?_, ?_, ?_, ?_⟩ <;> unfold ranRegs ran <;> rw [trees, decoders_eq] <;> decide +kernel

end C48
end Verif
