import Verif.Props.C72to73
import Verif.Props.C82
import Verif.Props.C43to48
import Verif.Props.C49to51
import Verif.Props.C52to55
import Verif.Props.C56to58

/-!
# C81: exactly when executing an instruction gives the result of the manual

C72 gives conditions under which decoding and executing a word does what the manual says.
Here the conditions are exact: in every other state it does something else. Words that are
decoded wrongly and uses of PC are included. Left out are words that name PC where the
manual calls that unpredictable, and accesses outside memory, for which the manual says
nothing (they are in C52 and C53).
-/

namespace Verif
open BS CpuM Thumb
namespace C81

/-! ### Comparing two results -/

theorem shows_congr {s : Machine} {c c' : Core} (h : Shows s c) (hr : ∀ k ∈ coreIndices, c.reg k = c'.reg k) (hm : c.mem = c'.mem) :
    Shows s c' :=
  ⟨fun k hk => by rw [h.1 k hk, hr k hk], h.2.trans hm⟩

theorem ends_congr {i : Instr} {s : Machine} {c c' : Core} (h : EndsIn i s c) :
    EndsIn i s c' ↔ (∀ k ∈ coreIndices, c.reg k = c'.reg k) ∧ c.mem = c'.mem := by
  constructor
  · exact ends_unique h
  · rintro ⟨hr, hm⟩
    obtain ⟨i', s', h1, h2⟩ := h
    exact ⟨i', s', h1, shows_congr h2 hr hm⟩

theorem set15_iff {c : Core} {v w : Word} :
    ((∀ k ∈ coreIndices, (c.set 15 v).reg k = (c.set 15 w).reg k) ∧ (c.set 15 v).mem = (c.set 15 w).mem) ↔ v = w := by
  constructor
  · intro h
    have := h.1 15 (core_mem (k := 15) (by omega))
    simpa [core_reg_set, keepBits] using this
  · rintro rfl
    exact ⟨fun _ _ => rfl, rfl⟩

theorem result_iff {c : Core} {size d : Nat} (hd : d < 15) {v w : Word} :
    ((∀ k ∈ coreIndices, (c.result size d v).reg k = (c.result size d w).reg k) ∧ (c.result size d v).mem = (c.result size d w).mem) ↔
      keepBits d v = keepBits d w := by
  constructor
  · intro h
    have := h.1 d (core_mem (by omega))
    rwa [result_reg hd, result_reg hd] at this
  · intro h
    have : c.set d v = c.set d w := by
      apply Core.ext
      · funext j
        simp only [core_reg_set, h]
      · rfl
    rw [core_result hd, core_result hd, this]
    exact ⟨fun _ _ => rfl, rfl⟩

/-! ### Arithmetic -/

theorem clear_nat (v : Word) : (v &&& ~~~1#32).toNat = v.toNat / 2 * 2 := by
  have hv := v.isLt
  have e : v &&& ~~~1#32 = BitVec.ofNat 32 (v.toNat / 2 * 2) := by
    apply BitVec.eq_of_getLsbD_eq
    intro k hk
    have e : (~~~1#32).getLsbD k = decide (1 ≤ k) := by
      have : ∀ k : Fin 32, (~~~1#32).getLsbD k = decide (1 ≤ k.val) := by decide
      exact this ⟨k, hk⟩
    rw [BitVec.getLsbD_and, e, BitVec.getLsbD_ofNat, decide_eq_true hk, Bool.true_and]
    unfold BitVec.getLsbD
    rw [show v.toNat / 2 * 2 = (v.toNat / 2 ^ 1) * 2 ^ 1 from rfl, Nat.testBit_mul_two_pow]
    by_cases h2 : 1 ≤ k
    · rw [decide_eq_true h2, Bool.and_true, Bool.true_and, Nat.testBit_div_two_pow, Nat.sub_add_cancel h2]
    · rw [decide_eq_false h2, Bool.and_false, Bool.false_and]
  rw [e, BitVec.toNat_ofNat]
  omega

theorem align_nat (v : Word) : (v &&& 0xfffffffc#32).toNat = v.toNat / 4 * 4 := by
  have hv := v.isLt
  have := C57.align4_eq v
  unfold align4 at this
  rw [show (0xfffffffc#32) = ~~~3#32 by decide, this, BitVec.toNat_ofNat]
  omega

theorem msb_nat (v : Word) : v.msb = decide (2 ^ 31 ≤ v.toNat) := BitVec.msb_eq_decide v

theorem spoil_nat (v : Word) : (C17.spoil v).toNat = if 2 ^ 31 ≤ v.toNat then 2 ^ 32 - 1 - v.toNat else v.toNat := by
  unfold C17.spoil
  rw [msb_nat]
  by_cases h : 2 ^ 31 ≤ v.toNat
  · rw [if_pos (decide_eq_true h), if_pos h, BitVec.toNat_not]
  · rw [if_neg (by simpa using h), if_neg h]

/-- Adding the size after writing PC never gives the value with bit 0 cleared. -/
theorem plus_size {v : Word} {size : Nat} (h : size = 2 ∨ size = 4) : v + BitVec.ofNat 32 size ≠ v &&& ~~~1#32 := by
  intro e
  have := congrArg BitVec.toNat e
  rw [clear_nat, BitVec.toNat_add, BitVec.toNat_ofNat] at this
  have := v.isLt
  omega

theorem plus_two (v : Word) : v + 2#32 ≠ (v + 4#32) &&& ~~~1#32 := by
  intro e
  have := congrArg BitVec.toNat e
  rw [clear_nat, BitVec.toNat_add, BitVec.toNat_add] at this
  simp only [BitVec.toNat_ofNat] at this
  have := v.isLt
  omega

theorem plus_four (v : Word) : v &&& ~~~1#32 ≠ (v + 4#32) &&& ~~~1#32 := by
  intro e
  have := congrArg BitVec.toNat e
  rw [clear_nat, clear_nat, BitVec.toNat_add] at this
  simp only [BitVec.toNat_ofNat] at this
  have := v.isLt
  omega

theorem spoil_plus_four {v : Word} : C17.spoil v ≠ v + 4#32 := by
  intro e
  have := congrArg BitVec.toNat e
  rw [spoil_nat, BitVec.toNat_add] at this
  simp only [BitVec.toNat_ofNat] at this
  have hv := v.isLt
  split at this <;> omega

theorem spoil_plus_four_sp {v : Word} : C17.spoil v &&& 0xfffffffc#32 = (v + 4#32) &&& 0xfffffffc#32 ↔ 0xfffffffc ≤ v.toNat := by
  rw [← BitVec.toNat_inj, align_nat, align_nat, spoil_nat, BitVec.toNat_add]
  simp only [BitVec.toNat_ofNat]
  have := v.isLt
  split <;> omega

theorem spoil_jump {v : Word} : C17.spoil v + 2#32 = (v + 4#32) &&& ~~~1#32 ↔ v = 0xffffffff#32 := by
  rw [← BitVec.toNat_inj, ← BitVec.toNat_inj, clear_nat, BitVec.toNat_add, BitVec.toNat_add, spoil_nat]
  simp only [BitVec.toNat_ofNat]
  have := v.isLt
  split <;> omega

/-! ### The conditions -/

/-- Uses of PC that the manual defines, besides those in register lists: `add d, m`, `add d, sp, d`,
`mov d, m` of 16 bits, `bx pc`, LDR of a word to PC. -/
def PcDefined (size : Nat) : Act → Prop
  | .addSub sub carry flags d n (.reg m) =>
    sub = false ∧ carry = false ∧ flags = false ∧ size = 2 ∧ d ≤ 15 ∧ m ≤ 15 ∧ (n = d ∨ (n = 13 ∧ m = d)) ∧
      ((n = 15 ∧ m < 15) ∨ (n < 15 ∧ m = 15))
  | .mov neg flags d (.reg m) _ => neg = false ∧ flags = false ∧ size = 2 ∧ ((d < 15 ∧ m = 15) ∨ (d = 15 ∧ m ≤ 15))
  | .bx m => m = 15
  | .load sz sgn t n off => sz = 32 ∧ sgn = false ∧ size = 4 ∧ t = 15 ∧ n < 15 ∧ off.NoPc
  | _ => False

/-- What the instruction accesses lies in memory. -/
def InMemory (mem : List Region) (c : Core) : Act → Prop
  | .load sz _ _ n off => Inside mem (c.reg n + off.val c).toNat (sz / 8)
  | .store sz _ n off => Inside mem (c.reg n + off.val c).toNat (sz / 8)
  | .loadLit sz _ add _ imm => Inside mem (C57.address (c.reg 15) add imm).toNat (sz / 8)
  | .push r => Words mem (c.reg 13 - w32 (4 * count r)) (count r)
  | .pop r => Words mem (c.reg 13) (count r)
  | .ldm n _ r => Words mem (c.reg n) (count r)
  | .stm n _ r => Words mem (c.reg n) (count r)
  | _ => True

/-- PC is not loaded with an odd address by a register list. -/
def EvenLast (c : Core) (r : BitVec 16) (x : Word) : Prop :=
  r.getLsbD 15 = true → c.read (x + w32 (4 * (count r - 1))) 4 % 2 = 0

/-- When ADD, ADC, SUB and SBC are right: the sum is not negative. `add sp, pc` is right only for the last
addresses, adding to PC is right only if the sum is -1, adding PC to another register never. -/
def AddRight (c : Core) (sub carry : Bool) (d n : Nat) (src : Src) : Prop :=
  if d ≠ 15 ∧ n ≠ 15 ∧ src ≠ .reg 15 then
    (C17.sum (c.reg n) (if sub then ~~~src.val c else src.val c) (if carry then c.flag 29 else sub)).msb = false
  else match src with
    | .reg m =>
      if d = 13 then 0xfffffffc ≤ (c.reg n + c.reg m).toNat
      else d = 15 ∧ c.reg n + c.reg m = 0xffffffff#32
    | .imm _ => False

/-- When executing the object of an instruction gives the result of the manual.

* Sums must not be negative; with PC see `AddRight`.
* MVN with a shift never; MOVS of a rotated constant only if C is the top bit of the constant already;
  MOV never from or to PC; BX never with PC; LDR never to PC.
* BLX with LR only if LR happens to hold the return address.
* Loading PC from a list only if the value is even.
* CPS only if privileged or if the masks have these values already.
* MRS never of APSR; of IPSR only if bits 6 to 8 are clear.
* MSR only if it changes nothing. -/
def Exactly (c : Core) : Act → Prop
  | .addSub sub carry _ d n src => AddRight c sub carry d n src
  | .rsb _ _ n imm => (imm - c.reg n).msb = false
  | .cmp sub n src => (C17.sum (c.reg n) (if sub then ~~~src.val c else src.val c) sub).msb = false
  | .mvnShift _ _ _ _ => False
  | .mov _ flags d src carry => d ≠ 15 ∧ src ≠ .reg 15 ∧ (flags = true → carry.getD (c.flag 29) = c.flag 29)
  | .bx m => m ≠ 15
  | .blx m => m = 14 → (c.reg 14 &&& ~~~1#32) = (c.reg 15 + 2#32) &&& ~~~1#32
  | .load _ _ t _ _ => t ≠ 15
  | .pop r => EvenLast c r (c.reg 13)
  | .ldm n _ r => EvenLast c r (c.reg n)
  | .cps enable pri fault => c.privileged = true ∨
      ((pri = true → c.reg (-1) = if enable then 0#32 else 1#32) ∧ (fault = true → c.reg (-3) = if enable then 0#32 else 1#32))
  | .mrs _ sysm => ¬ sysm.toNat < 4 ∧ ((sysm.toNat = 5 ∨ sysm.toNat = 7) → c.reg 16 &&& 0x1c0#32 = 0#32)
  | .msr n mask sysm => ∀ k ∈ coreIndices, (c.writeSpecial mask.toNat sysm.toNat (c.reg n)).reg k = c.reg k
  | _ => True

theorem src_ne {src : Src} (h : src.NoPc) : src ≠ .reg 15 := by
  rintro rfl
  exact absurd (show (15 : Nat) < 15 from h) (by decide)

theorem evenLast_iff (c : Core) (r : BitVec 16) (x : Word) : EvenPc c r x ↔ EvenLast c r x := by
  unfold EvenPc EvenLast
  constructor
  · intro h h15
    have := h h15
    rw [count_eq, h15]
    rw [Bool.toNat_true, Nat.add_sub_cancel]
    rw [w32, BitVec.getLsbD_ofNat, Nat.testBit_zero] at this
    simpa using this
  · intro h h15
    have := h h15
    rw [count_eq, h15] at this
    rw [Bool.toNat_true, Nat.add_sub_cancel] at this
    rw [w32, BitVec.getLsbD_ofNat, Nat.testBit_zero]
    simpa using this

/-! ### No PC -/

theorem blx_lr_iff {i : Instr} {s : Machine} {c : Core} (h : (Act.blx 14).Of i) (hs : Shows s c) :
    Does i (.blx 14) s c ↔ (c.reg 14 &&& ~~~1#32) = (c.reg 15 + 2#32) &&& ~~~1#32 := by
  have he := C51.blx_lr h hs
  unfold Does
  rw [ends_congr he]
  simp only [Act.run, core_rd15, core_rd _ (show 14 < 15 by decide)]
  rw [show c.reg 15 + 4#32 - 2#32 = c.reg 15 + 2#32 by generalize c.reg 15 = x; grind, set15_iff]
  exact eq_comm

theorem noPc_iff {act : Act} {i : Instr} (h : act.Of i) (hv : act.Valid) (hp : act.NoPc) (hl : C72.NoPcStored act) {s : Machine}
    {c : Core} (hs : Shows s c) (hm : MemOK s.mem) (hin : InMemory s.mem c act) : Does i act s c ↔ Exactly c act := by
  have right : act.Right s.mem c → Does i act s c := fun hr => (does_well h hv hp hs hm hr).ends
  cases act with
  | addSub sub carry flags d n src =>
    obtain ⟨h1, h2, h3⟩ := hp
    rw [C43.add_sub_right_iff_partial h h1 h2 h3 hs]
    show _ ↔ AddRight c sub carry d n src
    unfold AddRight
    rw [if_pos (show d ≠ 15 ∧ n ≠ 15 ∧ src ≠ .reg 15 from ⟨by omega, by omega, src_ne h3⟩)]
  | rsb flags d n imm => exact C43.reverse_subtract_right_iff_partial h hp.1 hp.2 hs
  | cmp sub n src => exact C48.compare_right_iff_partial h hp.1 hp.2 hs
  | mvnShift flags d m sh =>
    refine ⟨fun hd => ?_, False.elim⟩
    obtain ⟨i', s', h1, -⟩ := hd
    rw [C47.shifted_negate_fails h hv hs] at h1
    cases h1
  | mov neg flags d src carry =>
    rw [C47.move_right_iff_partial h hp.1 hp.2 hs]
    exact ⟨fun hc => ⟨fun e => absurd hp.1 (by omega), src_ne hp.2, hc⟩, fun he => he.2.2⟩
  | bx m => exact ⟨fun _ e => absurd hp (by show ¬ m < 15; omega), fun _ => right trivial⟩
  | blx m =>
    by_cases h14 : m = 14
    · subst h14
      rw [blx_lr_iff h hs]
      exact ⟨fun h _ => h, fun h => h rfl⟩
    · exact ⟨fun _ h => absurd h h14, fun _ => right h14⟩
  | load sz sgn t n off => exact ⟨fun _ e => absurd hp.1 (by omega), fun _ => right hin⟩
  | store sz t n off => exact ⟨fun _ => trivial, fun _ => right hin⟩
  | loadLit sz sgn add t imm =>
    refine ⟨fun _ => trivial, fun _ => right ?_⟩
    show Inside _ _ _
    rw [C57.address_eq]
    exact hin
  | push r => exact ⟨fun _ => trivial, fun _ => right ⟨hl, hin⟩⟩
  | stm n wback r => exact ⟨fun _ => trivial, fun _ => right ⟨hl, hin⟩⟩
  | pop r =>
    by_cases h15 : r.getLsbD 15 = true
    · rw [C55.pop_pc_right_iff_partial h hs hm h15 hin]
      exact ⟨fun h _ => h, fun h => h h15⟩
    · exact ⟨fun _ h => absurd h h15, fun h => right ⟨hin, (evenLast_iff _ _ _).2 h⟩⟩
  | ldm n wback r =>
    by_cases h15 : r.getLsbD 15 = true
    · rw [C55.load_multiple_pc h hp hs hm h15 hin]
      exact ⟨fun h _ => h, fun h => h h15⟩
    · exact ⟨fun _ h => absurd h h15, fun h => right ⟨hin, (evenLast_iff _ _ _).2 h⟩⟩
  | cps enable pri fault => exact C58.cps_right_iff_partial h hs hm
  | mrs d sysm => exact C58.mrs_right_iff_partial h hp hs hm
  | msr n mask sysm => exact C58.msr_right_iff_partial h hs
  | _ => exact ⟨fun _ => trivial, fun _ => right trivial⟩

/-! ### Uses of PC -/

theorem set_twice (a : Arm) (v : Word) (size : Nat) : ((a.set 15 v).next size).core = a.core.set 15 (v + BitVec.ofNat 32 size) := by
  apply Core.ext
  · funext j
    show ((a.set 15 v).set 15 _).reg j = (a.core.set 15 _).reg j
    rw [reg_set, core_reg_set]
    split
    · rw [reg_set, if_pos (.inl rfl)]
      rfl
    · next h =>
      rw [reg_set, if_neg h]
      rfl
  · rfl

theorem mov_pc {d m : Nat} {i : Instr} {s : Machine} {c : Core} (h : (Act.mov false false d (.reg m)).Of i) (hz : i.size = 2)
    (hd : (d < 15 ∧ m = 15) ∨ (d = 15 ∧ m ≤ 15)) (hs : Shows s c) : ¬ Does i (.mov false false d (.reg m)) s c := by
  rcases hd with ⟨hd, rfl⟩ | ⟨rfl, hm⟩
  · exact (C47.move_from_pc h hd hs).2
  · obtain ⟨a, rfl, rfl, _⟩ := hs.arm
    have he := ends_of h trivial (a := a) rfl
    have he' : EndsIn i a.conc (a.core.set 15 (a.reg m + BitVec.ofNat 32 i.size)) := by
      rw [← set_twice]; exact he
    unfold Does
    rw [ends_congr he']
    have hr : (Act.mov false false 15 (.reg m)).run i.size a.core = a.core.set 15 (a.core.rd m &&& ~~~1#32) := rfl
    rw [hr, set15_iff, hz]
    by_cases h15 : m = 15
    · subst h15
      exact plus_two _
    · rw [core_rd _ (by omega)]
      exact plus_size (.inl rfl)

theorem bx_pc {i : Instr} {s : Machine} {c : Core} (h : (Act.bx 15).Of i) (hs : Shows s c) : ¬ Does i (.bx 15) s c := by
  obtain ⟨a, rfl, rfl, _⟩ := hs.arm
  have he : EndsIn i a.conc (a.core.set 15 (a.core.reg 15 &&& ~~~1#32)) := ends_of h trivial (a := a) rfl
  unfold Does
  rw [ends_congr he]
  have hr : (Act.bx 15).run i.size a.core = a.core.set 15 ((a.core.reg 15 + 4#32) &&& ~~~1#32) := rfl
  rw [hr, set15_iff]
  exact plus_four _

theorem load_pc {n : Nat} {off : Off} {i : Instr} {s : Machine} {c : Core} (h : (Act.load 32 false 15 n off).Of i) (hv : off.Valid)
    (hz : i.size = 4) (hn : n < 15) (ho : off.NoPc) (hs : Shows s c) (hm : MemOK s.mem) (hin : Inside s.mem (c.reg n + off.val c).toNat 4) :
    ¬ Does i (.load 32 false 15 n off) s c := by
  obtain ⟨a, rfl, rfl, _⟩ := hs.arm
  rw [off_val ho] at hin
  obtain ⟨u, h1, h2⟩ := peek_word hm (by decide) hin a.reg
  have he : (Act.load 32 false 15 n off).effect i.size a = (.ok (), a.afterWrite i.size 15 (extended false 32 u)) := by
    show a.loadTo i.size 32 false 15 (a.reg n + off.got a) = _
    unfold Arm.loadTo
    have h1' : peek a.mem (a.reg n + off.got a).toNat (32 / 8) = .ok u := h1
    rw [h1']
  have he' := ends_of h ⟨by unfold SizeOK; decide, hv⟩ he
  have hc : (a.afterWrite i.size 15 (extended false 32 u)).core = a.core.set 15 (extended false 32 u + BitVec.ofNat 32 i.size) :=
    set_twice _ _ _
  rw [hc] at he'
  unfold Does
  rw [ends_congr he']
  have hr : (Act.load 32 false 15 n off).run i.size a.core =
      a.core.set 15 (extended false 32 (a.core.read (a.core.rd n + off.val a.core) 4) &&& ~~~1#32) := rfl
  have h3 : a.core.read (a.core.rd n + off.val a.core) 4 = u % 2 ^ 32 := by
    rw [off_val ho, core_rd _ hn]
    exact h2.symm
  rw [hr, set15_iff, hz, h3, extended_mod]
  exact plus_size (.inr rfl)

theorem add_pc {d n m : Nat} {i : Instr} {s : Machine} {c : Core} (h : (Act.addSub false false false d n (.reg m)).Of i) (hz : i.size = 2)
    (hd : d ≤ 15) (hn : (n = 15 ∧ m < 15) ∨ (n < 15 ∧ m = 15)) (hs : Shows s c) :
    Does i (.addSub false false false d n (.reg m)) s c ↔ AddRight c false false d n (.reg m) := by
  obtain ⟨a, rfl, rfl, _⟩ := hs.arm
  have he := ends_of h trivial (a := a) rfl
  have hsum : ∀ x y : Word, C17.sum x y false = x + y := by
    intro x y
    rw [C43.sum_add]
    simp
  have hY : a.core.rd n + a.core.rd m = a.reg n + a.reg m + 4#32 := by
    rcases hn with ⟨rfl, hm⟩ | ⟨hn, rfl⟩
    · rw [core_rd _ hm, core_rd15, core_reg, core_reg]
      generalize a.reg 15 = x
      generalize a.reg m = y
      show x + 4#32 + y = x + y + 4#32
      grind
    · rw [core_rd _ hn, core_rd15, core_reg, core_reg]
      generalize a.reg 15 = x
      generalize a.reg n = y
      show y + (x + 4#32) = y + x + 4#32
      grind
  unfold AddRight
  rw [if_neg (by rintro ⟨_, h1, h2⟩; rcases hn with ⟨rfl, hm⟩ | ⟨hn, rfl⟩; exact h1 rfl; exact h2 rfl)]
  simp only
  unfold Does
  by_cases hd15 : d = 15
  · subst hd15
    have he' : EndsIn i a.conc (a.core.set 15 (C17.spoil (C17.sum (a.reg n) (a.reg m) false) + BitVec.ofNat 32 i.size)) := by
      rw [← set_twice]; exact he
    rw [ends_congr he']
    have hr : (Act.addSub false false false 15 n (.reg m)).run i.size a.core =
        a.core.set 15 (C17.sum (a.core.rd n) (a.core.rd m) false &&& ~~~1#32) := rfl
    rw [hr, set15_iff, hz, hsum, hsum, hY, if_neg (by decide)]
    rw [show BitVec.ofNat 32 2 = 2#32 from rfl, spoil_jump]
    exact ⟨fun h => ⟨rfl, h⟩, fun h => h.2⟩
  · have hd' : d < 15 := by omega
    have he' : EndsIn i a.conc (a.core.result i.size d (C17.spoil (C17.sum (a.reg n) (a.reg m) false))) := by
      rw [core_result hd']; exact he
    rw [ends_congr he']
    have hr : (Act.addSub false false false d n (.reg m)).run i.size a.core =
        a.core.result i.size d (C17.sum (a.core.rd n) (a.core.rd m) false) := rfl
    rw [hr, result_iff hd', hsum, hsum, hY]
    by_cases h13 : d = 13
    · subst h13
      rw [if_pos rfl]
      exact spoil_plus_four_sp
    · rw [if_neg h13, keepBits_plain (by omega) h13, keepBits_plain (by omega) h13]
      exact ⟨fun h => absurd h spoil_plus_four, fun h => absurd h.1 hd15⟩

/-- **C81.** Any object that decoding gives for an instruction, executed with what it accesses in memory, gives
the result of the manual if and only if `Exactly` holds. -/
theorem execute_iff {act : Act} {i : Instr} (h : act.Of i) (hv : act.Valid) (hp : act.NoPc ∨ PcDefined i.size act)
    (hl : C72.NoPcStored act) {s : Machine} {c : Core} (hs : Shows s c) (hm : MemOK s.mem) (hin : InMemory s.mem c act) :
    Does i act s c ↔ Exactly c act := by
  rcases hp with hp | hp
  · exact noPc_iff h hv hp hl hs hm hin
  · cases act with
    | addSub sub carry flags d n src =>
      cases src with
      | reg m =>
        obtain ⟨rfl, rfl, rfl, h1, h2, -, -, h3⟩ := hp
        exact add_pc h h1 h2 h3 hs
      | imm v => exact hp.elim
    | mov neg flags d src =>
      cases src with
      | reg m =>
        obtain ⟨rfl, rfl, h1, h2⟩ := hp
        refine ⟨fun hd => absurd hd (mov_pc h h1 h2 hs), fun he => ?_⟩
        rcases h2 with ⟨_, rfl⟩ | ⟨rfl, _⟩
        · exact absurd rfl he.2.1
        · exact absurd rfl he.1
      | imm v => exact hp.elim
    | bx m =>
      cases hp
      exact ⟨fun hd => absurd hd (bx_pc h hs), fun he => absurd rfl he⟩
    | load sz sgn t n off =>
      obtain ⟨rfl, rfl, h1, rfl, h2, h3⟩ := hp
      exact ⟨fun hd => absurd hd (load_pc h hv.2 h1 h2 h3 hs hm hin), fun he => absurd rfl he⟩
    | _ => exact hp.elim

/-! ### Words that are decoded wrongly -/

/-- Comparing `x` with `z` as the program does leaves the flags of comparing `x` with `y`. -/
def SameFlags (sub : Bool) (x y z : Word) : Prop :=
  let r := C17.sum x (if sub then ~~~y else y) sub
  let r' := C17.sum x (if sub then ~~~z else z) sub
  r.msb = false ∧ (r = 0#32 ↔ r' = 0#32 ∨ r' = 0xffffffff#32) ∧
    C17.carryOut x (if sub then ~~~y else y) sub = C17.carryOut x (if sub then ~~~z else z) sub ∧
    C17.overflow x (if sub then ~~~y else y) sub = C17.overflow x (if sub then ~~~z else z) sub

theorem newFlags_iff {x : Word} {n z c v n' z' c' v' : Bool} :
    newFlags x n z (some c) (some v) = newFlags x n' z' (some c') (some v') ↔ n = n' ∧ z = z' ∧ c = c' ∧ v = v' := by
  constructor
  · intro h
    have h1 := congrArg (BitVec.getLsbD · 31) h
    have h2 := congrArg (BitVec.getLsbD · 30) h
    have h3 := congrArg (BitVec.getLsbD · 29) h
    have h4 := congrArg (BitVec.getLsbD · 28) h
    simp only [newFlags_bit] at h1 h2 h3 h4
    exact ⟨h1, h2, h3, h4⟩
  · rintro ⟨rfl, rfl, rfl, rfl⟩
    rfl

theorem compare_other {sub : Bool} {n m z : Nat} {i : Instr} {s : Machine} {c : Core} (h : (Act.cmp sub n (.reg z)).Of i) (hn : n < 15)
    (hm : m < 15) (hz : z < 15) (hs : Shows s c) :
    Does i (.cmp sub n (.reg m)) s c ↔ SameFlags sub (c.reg n) (c.reg m) (c.reg z) := by
  have he := C48.compare_exact h hn (show Src.NoPc (.reg z) from hz) hs _ _ rfl rfl
  unfold Does
  rw [ends_congr he]
  have hv : ∀ k, k < 15 → Src.val c (.reg k) = c.reg k := fun k hk => core_rd c hk
  have hr : (Act.cmp sub n (.reg m)).run i.size c = (c.set 16 (newFlags (c.reg 16)
      (C17.sum (c.reg n) (if sub then ~~~c.reg m else c.reg m) sub).msb
      (C17.sum (c.reg n) (if sub then ~~~c.reg m else c.reg m) sub == 0#32)
      (some (C17.carryOut (c.reg n) (if sub then ~~~c.reg m else c.reg m) sub))
      (some (C17.overflow (c.reg n) (if sub then ~~~c.reg m else c.reg m) sub)))).next i.size := by
    simp only [Act.run, core_rd _ hn, hv m hm]
    rfl
  rw [hr, hv z hz]
  have key : ∀ v w : Word, ((∀ k ∈ coreIndices, ((c.set 16 v).next i.size).reg k = ((c.set 16 w).next i.size).reg k) ∧
      ((c.set 16 v).next i.size).mem = ((c.set 16 w).next i.size).mem) ↔ v = w := by
    intro v w
    constructor
    · intro h
      have := h.1 16 (core_mem (k := 16) (by omega))
      rw [next_reg _ _ (by decide), next_reg _ _ (by decide)] at this
      exact this
    · rintro rfl
      exact ⟨fun _ _ => rfl, rfl⟩
  rw [key, newFlags_iff]
  unfold SameFlags
  simp only
  rw [beq_decide]
  generalize C17.sum (c.reg n) (if sub then ~~~c.reg m else c.reg m) sub = r
  generalize C17.sum (c.reg n) (if sub then ~~~c.reg z else c.reg z) sub = r'
  constructor
  · rintro ⟨h1, h2, h3, h4⟩
    rw [decide_eq_decide] at h2
    exact ⟨h1.symm, h2.symm, h3.symm, h4.symm⟩
  · rintro ⟨h1, h2, h3, h4⟩
    refine ⟨h1.symm, ?_, h3.symm, h4.symm⟩
    rw [decide_eq_decide]
    exact h2.symm

/-- When decoding the word and executing the object gives the result of the manual.

* PUSH.W with a register list never.
* CMP and CMN of two registers compare the first with another register (itself, or for the second encoding
  of CMP the one its last three bits name); so only if the flags happen to be the same.
* Backward conditional branches only if not taken; backward B and BL never.
* All others as `Exactly` says. -/
def RightWord (e : Enc) (f : Char → Nat) (c : Core) : Prop :=
  if e.pat = Thumb.pushW.pat then False
  else if e.pat = Thumb.cmpRegT1.pat then SameFlags true (c.reg (f 'n')) (c.reg (f 'm')) (c.reg (f 'n'))
  else if e.pat = Thumb.cmpRegT2.pat then SameFlags true (c.reg (f 'n')) (c.reg (f 'm')) (c.reg ((f 'n' % 8 : Nat) : Int))
  else if e.pat = Thumb.cmnReg.pat then SameFlags false (c.reg (f 'n')) (c.reg (f 'm')) (c.reg (f 'n'))
  else if e.pat = Thumb.bCond.pat ∧ 128 ≤ f 'i' then c.holds (f 'c') = false
  else if (e.pat = Thumb.b.pat ∧ 1024 ≤ f 'i') ∨ (e.pat = Thumb.bl.pat ∧ f 's' = 1) then False
  else Exactly c (e.act f)

theorem decoded_iff {bytes : List Nat} {address : Int} {i : Instr} (h : (trees.decode bytes address).1 = .ok i) (P : Instr → Prop) :
    (∃ j, (trees.decode bytes address).1 = .ok j ∧ P j) ↔ P i := by
  rw [h]
  constructor
  · rintro ⟨j, h1, h2⟩
    cases h1
    exact h2
  · exact fun hp => ⟨i, rfl, hp⟩

theorem taken_wrong {cond : Nat} {offset : Word} {i : Instr} {s : Machine} {c : Core} (h : (Act.branch cond (C17.spoil offset)).Of i)
    (hb : offset.msb = true) (hs : Shows s c) : Does i (.branch cond offset) s c ↔ c.holds cond = false := by
  have he := C49.taken_iff h hs
  unfold Does
  rw [ends_congr he]
  have hr : (Act.branch cond offset).run i.size c = if c.holds cond then c.set 15 (c.reg 15 + 4#32 + offset) else c.next i.size := rfl
  rw [hr]
  have hh : condPassed (c.flag 31) (c.flag 30) (c.flag 29) (c.flag 28) cond = c.holds cond := rfl
  rw [hh]
  cases c.holds cond
  · simp only [Bool.false_eq_true, if_false, iff_true]
    exact ⟨fun _ _ => by first | trivial | rfl, by first | trivial | rfl⟩
  · simp only [if_true]
    rw [set15_iff]
    have := C50.target_right_iff_partial (c.reg 15) offset
    rw [hb] at this
    exact ⟨fun h => absurd (this.1 h) (by decide), fun h => by cases h⟩

/-- **C81.** For every encoding, every valid word of it, whatever bytes follow it, and every state: the bytes are
decoded, and executing the object gives exactly the registers and the memory that the manual says, if and only if
`RightWord` holds. PC may be used where the manual defines it; what is accessed lies in memory. -/
theorem decode_execute_iff_partial (e : Enc) (he : e ∈ encodings) (w : Nat) (h : e.Is w)
    (hp : (e.act (field e.pat w)).NoPc ∨ PcDefined (e.pat.length / 8) (e.act (field e.pat w)))
    (rest : List Nat) (hr : ∀ b ∈ rest, b < 256) (address : Int) {s : Machine} {c : Core}
    (hs : Shows s c) (hm : MemOK s.mem) (hin : InMemory s.mem c (e.act (field e.pat w))) :
    (∃ i, (trees.decode (C38.bytesOf e w ++ rest) address).1 = .ok i ∧ Does i (e.act (field e.pat w)) s c) ↔
      RightWord e (field e.pat w) c := by
  obtain ⟨k, hk, rfl⟩ := C38.caseOf he
  unfold RightWord
  by_cases c1 : k.enc.pat = Thumb.pushW.pat
  · rw [if_pos c1]
    cases C82.same_pat hk (k' := Case.pushW) (by simp [Case.all]) c1
    have := C38.push_w_fails w h rest hr address
    constructor
    · rintro ⟨i, h1, -⟩
      have h1' : (trees.decode (C38.bytesOf Thumb.pushW w ++ rest) address).1 = .ok i := h1
      rw [this] at h1'
      cases h1'
    · exact False.elim
  rw [if_neg c1]
  by_cases c2 : k.enc.pat = Thumb.cmpRegT1.pat
  · rw [if_pos c2]
    cases C82.same_pat hk (k' := Case.cmpRegT1) (by simp [Case.all]) c2
    obtain ⟨i, h1, h2, h3⟩ := case_decodes hk h rfl rest hr address
    rw [decoded_iff h1 fun i => Does i _ s c]
    rcases hp with hp | hp
    · exact compare_other h2 hp.1 hp.2 hp.1 hs
    · exact hp.elim
  rw [if_neg c2]
  by_cases c3 : k.enc.pat = Thumb.cmpRegT2.pat
  · rw [if_pos c3]
    cases C82.same_pat hk (k' := Case.cmpRegT2) (by simp [Case.all]) c3
    obtain ⟨i, h1, h2, h3⟩ := case_decodes hk h rfl rest hr address
    rw [decoded_iff h1 fun i => Does i _ s c]
    rcases hp with hp | hp
    · exact compare_other h2 hp.1 hp.2 (Nat.lt_of_lt_of_le (Nat.mod_lt _ (by decide)) (by decide)) hs
    · exact hp.elim
  rw [if_neg c3]
  by_cases c4 : k.enc.pat = Thumb.cmnReg.pat
  · rw [if_pos c4]
    cases C82.same_pat hk (k' := Case.cmnReg) (by simp [Case.all]) c4
    obtain ⟨i, h1, h2, h3⟩ := case_decodes hk h rfl rest hr address
    rw [decoded_iff h1 fun i => Does i _ s c]
    rcases hp with hp | hp
    · exact compare_other h2 hp.1 hp.2 hp.1 hs
    · exact hp.elim
  rw [if_neg c4]
  by_cases c5 : k.enc.pat = Thumb.bCond.pat ∧ 128 ≤ field k.enc.pat w 'i'
  · rw [if_pos c5]
    obtain ⟨c5, hi⟩ := c5
    cases C82.same_pat hk (k' := Case.bCond) (by simp [Case.all]) c5
    obtain ⟨i, h1, h2, h3⟩ := case_decodes hk h rfl rest hr address
    rw [decoded_iff h1 fun i => Does i _ s c]
    have hb := C72.field_lt Thumb.bCond.pat w 'i' 8 (by decide)
    have hm := signed_msb (n := 9) (v := 2 * field Thumb.bCond.pat w 'i') (by omega) (by omega) (by omega)
    refine taken_wrong h2 ?_ hs
    have hi' : 128 ≤ field Thumb.bCond.pat w 'i' := hi
    exact hm.trans (decide_eq_true (by omega))
  rw [if_neg c5]
  by_cases c6 : (k.enc.pat = Thumb.b.pat ∧ 1024 ≤ field k.enc.pat w 'i') ∨ (k.enc.pat = Thumb.bl.pat ∧ field k.enc.pat w 's' = 1)
  · rw [if_pos c6]
    rcases c6 with ⟨c6, hi⟩ | ⟨c6, hi⟩
    · cases C82.same_pat hk (k' := Case.b) (by simp [Case.all]) c6
      obtain ⟨i, h1, h2, h3⟩ := case_decodes hk h rfl rest hr address
      rw [decoded_iff h1 fun i => Does i _ s c]
      have hb := C72.field_lt Thumb.b.pat w 'i' 11 (by decide)
      have hm := signed_msb (n := 12) (v := 2 * field Thumb.b.pat w 'i') (by omega) (by omega) (by omega)
      have hi' : 1024 ≤ field Thumb.b.pat w 'i' := hi
      have := taken_wrong h2 (hm.trans (decide_eq_true (by omega))) hs
      refine ⟨fun hd => ?_, False.elim⟩
      have := this.1 hd
      cases this
    · cases C82.same_pat hk (k' := Case.bl) (by simp [Case.all]) c6
      obtain ⟨i, h1, h2⟩ := C50.bl_target w h rest hr address hs
      refine (decoded_iff h1 fun i => Does i (Thumb.bl.act (field Thumb.bl.pat w)) s c).trans ?_
      have hi' : field Thumb.bl.pat w 's' = 1 := hi
      have hb := C72.field_lt Thumb.bl.pat w 'i' 21 (by decide)
      have hm := blOffset_msb (s := field Thumb.bl.pat w 's') (j := field Thumb.bl.pat w 'j') (k := field Thumb.bl.pat w 'k')
        (by omega) hb
      refine ⟨fun hd => ?_, False.elim⟩
      unfold Does at hd
      rw [ends_congr h2] at hd
      have := set15_iff.1 hd
      have := (C50.target_right_iff_partial _ _).1 this
      rw [hm, hi'] at this
      cases this
  rw [if_neg c6]
  have hx : ¬ Wrong k.enc (field k.enc.pat w) := by
    rintro (h | ⟨h, _⟩ | ⟨h, _⟩ | ⟨h, _⟩ | h | h | h)
    · exact c1 h
    · exact c2 h
    · exact c4 h
    · exact c3 h
    · exact c5 h
    · exact c6 (.inl h)
    · exact c6 (.inr h)
  obtain ⟨ha, hn⟩ := (agrees k hk w h.2.1 h.2.2).1 hx
  obtain ⟨i, h1, h2, h3⟩ := case_decodes hk h hn rest hr address
  rw [decoded_iff h1 fun i => Does i _ s c]
  have hl := C72.lists k hk w h.2.2
  have hv := sound k hk w
  rw [ha] at h2 hl hv
  exact execute_iff h2 hv (by rw [h3]; exact hp) hl hs hm hin

/-- **C81.** The first encoding of CMP (register) is right if and only if the registers hold the same. -/
theorem same_flags_self (x y : Word) : SameFlags true x y x ↔ x = y := by
  have hs : ∀ z : Word, C17.sum x (~~~z) true = x - z := by
    intro z
    rw [C43.sum_add, BitVec.not_eq_neg_add, show BitVec.ofNat 32 true.toNat = 1#32 from rfl]
    grind
  unfold SameFlags
  simp only [if_true, hs]
  constructor
  · rintro ⟨-, h, -⟩
    have h0 : x - y = 0#32 := h.2 (.inl (by grind))
    grind
  · rintro rfl
    refine ⟨?_, ?_, rfl, rfl⟩
    · rw [show x - x = 0#32 by grind]; decide
    · exact ⟨.inl, fun h => by grind⟩

/-- `add r1, pc` at 0x100 gives 0x110 and not 0x114; `add pc, r1` is right if the sum is -1, as a jump to address 2;
`mov pc, r1` jumps two bytes too far. -/
example : ranRegs [0x79, 0x44] (sample [(1, 16), (15, 0x100)]) [1, 15] = some [some 0x110, some 0x102] ∧
    ranRegs [0x8f, 0x44] (sample [(1, 0xfffffeff), (15, 0x100)]) [15] = some [some 2] ∧
    ranRegs [0x8f, 0x44] (sample [(1, 0x80), (15, 0x100)]) [15] = some [some 0x182] ∧
    ranRegs [0x8f, 0x46] (sample [(1, 0x200), (15, 0x100)]) [15] = some [some 0x202] := by
  unfold ranRegs ran
  rw [trees, decoders_eq]; decide +kernel

/-- `cmp r0, r1` says that they are equal, whether they are or not. -/
example : ranRegs [0x88, 0x42] (sample [(0, 5), (1, 5)]) [16] = some [some 0x60000000] ∧
    ranRegs [0x88, 0x42] (sample [(0, 5), (1, 7)]) [16] = some [some 0x60000000] ∧
    SameFlags true 5#32 5#32 5#32 ∧ ¬ SameFlags true 5#32 7#32 5#32 := by
  refine ⟨?_, ?_, (same_flags_self _ _).2 rfl, fun h => absurd ((same_flags_self _ _).1 h) (by decide)⟩
  · unfold ranRegs ran
    rw [trees, decoders_eq]; decide +kernel
  · unfold ranRegs ran
    rw [trees, decoders_eq]; decide +kernel

/-- `movs.w r0, #0x80000000` is right if and only if C is set already. -/
example (c : Core) : RightWord Thumb.movImmW (field Thumb.movImmW.pat 0x4000f05f) c ↔ c.flag 29 = true := by
  unfold RightWord
  rw [if_neg (by decide), if_neg (by decide), if_neg (by decide), if_neg (by decide), if_neg (by decide), if_neg (by decide)]
  rw [show Thumb.movImmW.act (field Thumb.movImmW.pat 0x4000f05f) = .mov false true 0 (.imm 0x80000000#32) (some true) by decide +kernel]
  exact ⟨fun h => (h.2.2 rfl).symm, fun h => ⟨by decide, by decide, fun _ => h.symm⟩⟩

/-- `RightWord` for `movs r0, #5` holds in every state, for `b` backwards in none. -/
example (c : Core) : RightWord Thumb.movsImm (field Thumb.movsImm.pat 0x2005) c ∧ ¬ RightWord Thumb.b (field Thumb.b.pat 0xe7fe) c := by
  constructor
  · unfold RightWord
    rw [if_neg (by decide), if_neg (by decide), if_neg (by decide), if_neg (by decide), if_neg (by decide), if_neg (by decide)]
    exact ⟨by decide, by decide, fun _ => rfl⟩
  · unfold RightWord
    rw [if_neg (by decide), if_neg (by decide), if_neg (by decide), if_neg (by decide), if_neg (by decide), if_pos (by decide)]
    exact id

end C81
end Verif
