import Verif.Program
import Verif.Lemmas.Changes
import Verif.Props.C56to58
import Verif.Lemmas.Sample

/-!
# C31 and C59 to C62: what holds for executing every instruction
-/

namespace Verif
open BS CpuM Thumb

/-- All registers hold 32-bit values. -/
def Regs32 (s : Machine) : Prop := ∀ k ∈ coreIndices, ∃ v : Int, s.regs (some k) = some v ∧ 0 ≤ v ∧ v < 2 ^ 32

/-- The object is one that decoding some bytes at some address gives. -/
def FromBytes (i : Instr) : Prop := ∃ (data : List Nat) (address : Int), (∀ b ∈ data, b < 256) ∧ (trees.decode data address).1 = .ok i

/-- The objects of these bytes. -/
def objects (l : List (List Nat)) : List Instr := l.filterMap fun b => (trees.decode b 0).1.toOption

theorem conc_regs32 (a : Arm) : Regs32 a.conc := fun k hk =>
  ⟨(a.reg k).toNat, if_pos hk, by omega, by have := (a.reg k).isLt; omega⟩

theorem conc_core (a : Arm) {k : Int} (h : k ∈ coreIndices) : a.conc.regs (some k) = some ((a.reg k).toNat : Int) := if_pos h

theorem Regs32.arm {s : Machine} (h : Regs32 s) : ∃ a : Arm, s = a.conc := by
  have : Shows s ⟨fun k => BitVec.ofInt 32 ((s.regs (some k)).getD 0), flat s.mem⟩ := by
    refine ⟨fun k hk => ?_, rfl⟩
    obtain ⟨v, hv, h1, h2⟩ := h k hk
    simp only [hv, Option.getD_some, BitVec.toNat_ofInt]
    congr 1
    omega
  obtain ⟨a, ha, -, -⟩ := this.arm
  exact ⟨a, ha⟩

theorem outcome_snd (i : Instr) (p : PyRes Unit × Arm) : (outcome i p).2 = p.2.conc := by
  rcases p with ⟨_ | _, a⟩ <;> rfl

theorem outcome_ok {i i' : Instr} {p : PyRes Unit × Arm} {s : Machine} (h : outcome i p = (.ok i', s)) :
    i' = i ∧ s = p.2.conc ∧ p.1 = .ok () := by
  rcases p with ⟨e | u, a⟩
  · cases h
  · cases h; exact ⟨rfl, rfl, rfl⟩

theorem outcome_error {i : Instr} {p : PyRes Unit × Arm} {e : PyErr} {s : Machine} (h : outcome i p = (.error e, s)) :
    p.1 = .error e ∧ s = p.2.conc := by
  rcases p with ⟨e | u, a⟩
  · cases h; exact ⟨rfl, rfl⟩
  · cases h

namespace C31

/-- **C31.** Every decoded object is the object of one of the actions of the manual. -/
theorem decoded_act {i : Instr} (h : FromBytes i) : ∃ act : Act, act.Of i ∧ act.Valid := by
  obtain ⟨data, a, hd, h⟩ := h
  obtain ⟨c, w, b, -, hc⟩ := C39.decoded hd (C39.length_of_ok h) h
  exact ⟨_, hc.act, sound c hc.mem w⟩

/-- **C31.** One instruction, whether it ends normally or raises: all registers hold
32-bit values afterwards. -/
theorem one {i : Instr} {act : Act} (h : act.Of i) (hv : act.Valid) {s : Machine} (hs : Regs32 s) : Regs32 (i.eval s).2 := by
  obtain ⟨a, rfl⟩ := hs.arm
  rw [eval_exact h hv, outcome_snd]
  exact conc_regs32 _

/-- **C31.** Programs: executing decoded instructions one after the other, whether this
ends normally or raises, leaves all registers holding 32-bit values. -/
theorem program : ∀ (is : List Instr), (∀ i ∈ is, FromBytes i) → ∀ {s : Machine}, Regs32 s → Regs32 (executeAll is s).2
  | [], _, _, hs => hs
  | i :: rest, h, s, hs => by
    obtain ⟨act, ha, hv⟩ := decoded_act (h i List.mem_cons_self)
    have h1 := one ha hv hs
    unfold executeAll
    cases he : i.eval s with
    | mk r s' =>
      rw [he] at h1
      cases r with
      | ok i' =>
        rw [bind_ok he]
        exact program rest (fun j hj => h j (List.mem_cons_of_mem _ hj)) h1
      | error e => rw [bind_err he]; exact h1

/-- **C31.** The same object may be executed any number of times, also if it changes. -/
theorem repeated : ∀ (n : Nat) {i : Instr} {act : Act}, act.Of i → act.Valid → ∀ {s : Machine}, Regs32 s →
    Regs32 (executeTimes n i s).2
  | 0, _, _, _, _, _, hs => hs
  | n + 1, i, act, h, hv, s, hs => by
    have h1 := one h hv hs
    unfold executeTimes
    cases he : i.eval s with
    | mk r s' =>
      rw [he] at h1
      cases r with
      | ok i' =>
        rw [bind_ok he]
        obtain ⟨a, rfl⟩ := hs.arm
        rw [eval_exact h hv] at he
        obtain ⟨rfl, -, -⟩ := outcome_ok he
        obtain ⟨act', h', hv'⟩ := leaves_of h hv a
        exact repeated n h' hv' h1
      | error e => rw [bind_err he]; exact h1

/-- `movs r0, #1; mvns r0, r0; lsls r0, r0, #4` -/
example : (objects [[0x01, 0x20], [0xc0, 0x43], [0x00, 0x01]]).length = 3 ∧
    (executeAll (objects [[0x01, 0x20], [0xc0, 0x43], [0x00, 0x01]]) (sample [(15, 0x100)])).2.regs (some 0) = some 0xffffffe0 ∧
    (executeAll (objects [[0x01, 0x20], [0xc0, 0x43], [0x00, 0x01]]) (sample [(15, 0x100)])).2.regs (some 15) = some 0x106 := by
  unfold objects
  rw [trees, decoders_eq]
  refine ⟨?_, ?_, ?_⟩ <;> decide +kernel

end C31

namespace C59

/-- **C59.** Registers: one that is not PC, not xPSR and not a target of the action has
the same value afterwards, also if the execution raises. Nothing is added beside the
registers. -/
theorem registers {i : Instr} {act : Act} (h : act.Of i) (hv : act.Valid) {s : Machine} (hs : Regs32 s) {k : Option Int}
    (h15 : k ≠ some 15) (h16 : k ≠ some 16) (hk : ∀ j, k = some j → ∀ t ∈ act.targets, Apart j t) :
    (i.eval s).2.regs k = s.regs k := by
  obtain ⟨a, rfl⟩ := hs.arm
  rw [eval_exact h hv, outcome_snd]
  unfold Arm.conc
  simp only [effect_extra]
  cases k with
  | none => rfl
  | some j => simp only [effect_apart (by simpa using h15) (by simpa using h16) (hk j rfl)]

/-- **C59.** Flags: the bits of xPSR that the action does not define stay as they are. -/
theorem psr {i : Instr} {act : Act} (h : act.Of i) (hv : act.Valid) {s : Machine} (hs : Regs32 s) {b : Nat}
    (hb : b ∉ act.flagBits) : ∃ x y : Int, s.regs (some 16) = some x ∧ (i.eval s).2.regs (some 16) = some y ∧
      y / 2 ^ b % 2 = x / 2 ^ b % 2 := by
  obtain ⟨a, rfl⟩ := hs.arm
  rw [eval_exact h hv, outcome_snd]
  refine ⟨_, _, conc_core _ (by decide), conc_core _ (by decide), ?_⟩
  have h16 : ∀ k ∈ act.targets, Apart 16 k := fun k hk => by
    have := targets_of h k hk
    exact ⟨by omega, by omega, by omega⟩
  have := effect_flagBits h16 hb i.size a
  rw [BitVec.getLsbD, BitVec.getLsbD, Nat.testBit_eq_decide_div_mod_eq, Nat.testBit_eq_decide_div_mod_eq] at this
  have h2 := decide_eq_decide.1 this
  have e : ∀ n : Nat, ((n : Int) / 2 ^ b % 2) = ((n / 2 ^ b % 2 : Nat) : Int) := fun n => by
    rw [Int.natCast_emod, Int.natCast_ediv, Int.natCast_pow]; rfl
  rw [e, e]
  omega

/-- **C59.** Memory: only STR, STRB, STRH, PUSH and STM change it, and these only the
bytes they address. This holds for any regions, also if they overlap or the store
reaches past their end, but not if the base or offset register is PC. -/
theorem memory {i : Instr} {act : Act} (h : act.Of i) (hv : act.Valid) (hp : act.NoPc) {s : Machine} {c : Core} (hs : Shows s c)
    (hm : MemFull s.mem) {y : Int} (hy : ¬ act.stored c y) : flat (i.eval s).2.mem y = flat s.mem y := by
  obtain ⟨a, rfl, rfl, ha⟩ := hs.arm
  rw [eval_exact h hv, outcome_snd]
  exact effect_flat_other i.size hm hp hy

/-- **C59.** An action that does not store leaves memory as it is, with any operands. -/
theorem memory_same {i : Instr} {act : Act} (h : act.Of i) (hv : act.Valid) (ha : ¬ act.Stores) {s : Machine} (hs : Regs32 s) :
    (i.eval s).2.mem = s.mem := by
  obtain ⟨a, rfl⟩ := hs.arm
  rw [eval_exact h hv, outcome_snd]
  exact effect_mem ha _ _

/-- `cmp r0, r1` changes N, Z, C and V but not Q (bit 27) nor the registers; `ldm r0!, {r1, r3}`
changes r0, r1 and r3 but not r2. -/
example : ranRegs [0x88, 0x42] (sample [(0, 5), (1, 5), (16, 0x9800000b)]) [0, 1, 16] = some [some 5, some 5, some 0x6800000b] ∧
    ranRegs [0x0a, 0xc8] (sample [(0, 0x10), (2, 77)] [⟨0x10, 0x1f, [1, 0, 0, 0, 2, 0, 0, 0, 3, 0, 0, 0, 4, 0, 0, 0]⟩]) [0, 1, 2, 3] =
      some [some 0x18, some 1, some 77, some 2] := by
  refine ⟨?_, ?_⟩ <;> simp only [ranRegs, ran] <;> rw [trees, decoders_eq] <;> decide +kernel

/-- `strh r1, [r0, #2]` changes two bytes. -/
example : ranMem [0x41, 0x80] (sample [(0, 0x10), (1, 0x12345678)] [⟨0x10, 0x17, [1, 2, 3, 4, 5, 6, 7, 8]⟩]) =
    some [[1, 2, 0x78, 0x56, 5, 6, 7, 8]] := by
  simp only [ranMem, ran]; rw [trees, decoders_eq]; decide +kernel

end C59

namespace Thumb

/-- The action sets PC: a branch that is taken, a load or move to PC. -/
def Act.Jumps (holds : Nat → Bool) : Act → Prop
  | .branch cond _ => holds cond = true
  | .bl _ => True
  | .blx _ => True
  | .bx _ => True
  | act => 15 ∈ act.targets

end Thumb

namespace C60

theorem next15 (a : Arm) (size : Nat) : (a.next size).reg 15 = a.reg 15 + BitVec.ofNat 32 size := by
  unfold Arm.next Arm.set
  simp [keepBits]

theorem apart_of {d : Nat} (h : (15 : Int) ∉ [(d : Int)]) : Apart 15 d := by
  simp only [List.mem_singleton] at h
  exact ⟨h, by omega, by omega⟩

theorem flags15 (a : Arm) (on : Bool) (r : Word) (c v : Option Bool) : (a.flags on r c v).reg 15 = a.reg 15 :=
  flags_apart (by decide) _ _ _ _

theorem loadTo15 {a b : Arm} {size sz t : Nat} {sgn : Bool} {x : Word} (h : (15 : Int) ∉ [(t : Int)])
    (hl : a.loadTo size sz sgn t x = (.ok (), b)) : b.reg 15 = a.reg 15 + BitVec.ofNat 32 size := by
  unfold Arm.loadTo at hl
  cases hp : peek a.mem x.toNat (sz / 8) with
  | ok v =>
    rw [hp] at hl
    cases hl
    exact (next15 _ _).trans (by rw [set_apart (apart_of h)])
  | error e => rw [hp] at hl; cases hl

theorem loadRegs15 {a b : Arm} {size : Nat} {r : BitVec 16} {x : Word} (h : 15 ∉ listed r)
    (hl : a.loadRegs size r x = (.ok (), b)) : b.reg 15 = a.reg 15 + BitVec.ofNat 32 size := by
  have h15 : r.getLsbD 15 = false := by
    cases hr : r.getLsbD 15 with
    | false => rfl
    | true => exact absurd (List.mem_filter.2 ⟨List.mem_range.2 (by decide), hr⟩) h
  unfold Arm.loadRegs at hl
  have h1 := loadAll_apart (j := 15) (low15 r) x a fun k hk => by
    have := List.mem_range.1 (List.mem_filter.1 hk).1
    exact ⟨by omega, by omega, by omega⟩
  cases ha : a.loadAll (low15 r) x with
  | mk res b' =>
    rw [ha] at hl h1
    cases res with
    | ok y =>
      simp only [Arm.loadPc] at hl h1
      rw [if_neg (by rw [h15]; simp)] at hl
      cases hl
      rw [next15, h1]
    | error e => cases hl

theorem effect_pc {act : Act} {a b : Arm} {size : Nat} (h : act.effect size a = (.ok (), b)) (hj : ¬ act.Jumps a.holds) :
    b.reg 15 = a.reg 15 + BitVec.ofNat 32 size := by
  have hw : ∀ (d : Nat) (r : Word), (15 : Int) ∉ [(d : Int)] → ((a.set d r).next size).reg 15 = a.reg 15 + BitVec.ofNat 32 size := by
    intro d r hd
    rw [next15, set_apart (apart_of hd)]
  have hf : ∀ (d : Nat) (r r' : Word) (on : Bool) (c v : Option Bool), (15 : Int) ∉ [(d : Int)] →
      (((a.set d r).flags on r' c v).next size).reg 15 = a.reg 15 + BitVec.ofNat 32 size := by
    intro d r r' on c v hd
    rw [next15, flags15, set_apart (apart_of hd)]
  cases act with
  | addSub => cases h; exact hf _ _ _ _ _ _ hj
  | rsb => cases h; exact hf _ _ _ _ _ _ hj
  | logic => cases h; exact hf _ _ _ _ _ _ hj
  | bic => cases h; exact hf _ _ _ _ _ _ hj
  | shiftImm => cases h; exact hf _ _ _ _ _ _ hj
  | shiftReg => cases h; exact hf _ _ _ _ _ _ hj
  | mul => cases h; exact hf _ _ _ _ _ _ hj
  | mov => cases h; exact hf _ _ _ _ _ _ hj
  | adr => cases h; exact hw _ _ hj
  | extend => cases h; exact hw _ _ hj
  | rev => cases h; exact hw _ _ hj
  | mvnShift => cases h
  | cmp => cases h; rw [next15, flags15]
  | tst => cases h; rw [next15, flags15]
  | branch cond offset =>
    have : a.holds cond = false := by simpa [Act.Jumps] using hj
    simp only [Act.effect, this] at h
    cases h
    exact next15 _ _
  | bl => exact absurd trivial hj
  | blx => exact absurd trivial hj
  | bx => exact absurd trivial hj
  | load sz sgn t n off => exact loadTo15 hj h
  | loadLit sz sgn add t imm => exact loadTo15 hj h
  | store sz t n off => cases h; exact next15 _ _
  | push r =>
    cases h
    rw [next15, storeAll_reg, set_apart ⟨by decide, by decide, by decide⟩]
  | pop r =>
    have h15 : 15 ∉ listed r := fun hc => hj (List.mem_cons_of_mem _ (List.mem_map.2 ⟨15, hc, rfl⟩))
    rw [loadRegs15 h15 h, set_apart ⟨by decide, by decide, by decide⟩]
  | ldm n wback r =>
    have h15 : 15 ∉ listed r := fun hc => hj (List.mem_append_right _ (List.mem_map.2 ⟨15, hc, rfl⟩))
    simp only [Act.effect, Arm.ldm] at h
    cases hl : a.loadRegs size r (a.reg n) with
    | mk res b' =>
      rw [hl] at h
      cases res with
      | ok u =>
        cases h
        rw [← loadRegs15 h15 hl]
        unfold Arm.writeBack
        cases wback with
        | false => rfl
        | true =>
          split
          · exact set_apart (apart_of fun hc => hj (List.mem_append_left _ hc)) _
          · rfl
      | error e => cases h
  | stm n wback r =>
    cases h
    rw [next15]
    congr 1
    unfold Arm.stm
    cases wback with
    | false => rw [if_neg (by simp), storeAll_reg]
    | true => rw [if_pos rfl, set_apart (apart_of hj), storeAll_reg]
  | cps enable pri fault =>
    cases h
    rw [next15]
    congr 1
    unfold Arm.cps
    cases pri <;> cases fault <;> rfl
  | mrs d sysm =>
    simp only [Act.effect, Arm.mrs] at h
    cases hs : a.special sysm.toNat with
    | ok v => rw [hs] at h; cases h; exact hw _ _ hj
    | error e => rw [hs] at h; cases h
  | msr n mask sysm => cases h; exact next15 _ _
  | plain => cases h; exact next15 _ _

/-- **C60.** If an instruction ends normally and is not a taken branch and PC is none of
its destinations, then PC is advanced by its size. -/
theorem pc_advances {i i' : Instr} {act : Act} (h : act.Of i) (hv : act.Valid) {s s' : Machine} {c : Core} (hs : Shows s c)
    (he : i.eval s = (.ok i', s')) (hj : ¬ act.Jumps c.holds) :
    s'.regs (some 15) = some ((c.reg 15 + BitVec.ofNat 32 i.size).toNat : Int) := by
  obtain ⟨a, rfl, rfl, ha⟩ := hs.arm
  rw [eval_exact h hv] at he
  obtain ⟨-, rfl, h1⟩ := outcome_ok he
  have := effect_pc (b := (act.effect i.size a).2) (Prod.ext h1 rfl) hj
  rw [conc_core _ (by decide), this]
  rfl

/-- **C60.** The size is two or four bytes. -/
theorem size_of (i : Instr) : i.size = 2 ∨ i.size = 4 := by
  unfold Instr.size
  cases i.is32 <;> simp

/-- `mov.w r0, #1` at the end of the address space, and `beq` not taken. -/
example : ranRegs [0x4f, 0xf0, 0x01, 0x00] (sample [(15, 0xfffffffe)]) [0, 15] = some [some 1, some 2] ∧
    ranRegs [0x10, 0xd0] (sample [(15, 0x100)]) [15] = some [some 0x102] := by
  refine ⟨?_, ?_⟩ <;> simp only [ranRegs, ran] <;> rw [trees, decoders_eq] <;> decide +kernel

end C60

namespace Thumb

/-- The action does not change its object: no negative constant is added, subtracted or
compared, none is negated, and PC is not moved with flags. -/
def Act.KeepsObject (i : Instr) : Act → Prop
  | .addSub _ _ _ _ _ (.imm v) => v.msb = false
  | .rsb _ _ _ imm => imm.msb = false
  | .cmp _ _ (.imm v) => v.msb = false
  | .mov neg _ _ (.imm _) _ => neg = false
  | .mov _ _ _ (.reg m) _ => m = 15 → i.setflags = some .never
  | _ => True

end Thumb

namespace C61

theorem spoil_eq_iff (x : Word) : C17.spoil x = x ↔ x.msb = false := by
  constructor
  · intro h
    have := spoil_msb x
    rwa [h] at this
  · exact spoil_of

theorem not_ne (v : Word) : ~~~v ≠ v := by
  intro h
  have := congrArg (·.getLsbD 0) h
  simp at this

theorem spoil_inv (sub : Bool) (v : Word) : C17.spoil (if sub then ~~~v else v) = v ↔ v.msb = false := by
  cases sub with
  | false => exact spoil_eq_iff v
  | true =>
    rw [if_pos rfl]
    unfold C17.spoil
    rw [BitVec.msb_not]
    cases hv : v.msb with
    | false => simp
    | true => simpa using not_ne v

theorem imm_eq_iff {i : Instr} {v w : Word} (h : i.imm32 = some (ofBV v)) : { i with imm32 := some (ofBV w) } = i ↔ w = v := by
  constructor
  · intro he
    have := congrArg Instr.imm32 he
    rw [h] at this
    injection this with this
    exact ofBV_inj.1 this
  · rintro rfl
    rw [← h]

/-- **C61.** Exactly when the object is the same after an execution that ends normally. -/
theorem unchanged_iff {i i' : Instr} {act : Act} (h : act.Of i) (hv : act.Valid) {s s' : Machine} (hs : Regs32 s)
    (he : i.eval s = (.ok i', s')) : i' = i ↔ act.KeepsObject i := by
  obtain ⟨a, rfl⟩ := hs.arm
  rw [eval_exact h hv] at he
  obtain ⟨rfl, -, -⟩ := outcome_ok he
  cases act with
  | addSub sub carry flags d n src =>
    cases src with
    | reg m => simp only [Act.leaves, withImm_none h.2.2.2.2.2.2.1, Act.KeepsObject]
    | imm v =>
      simp only [Act.leaves, withImm_some h.2.2.2.2.2.2.2, Act.KeepsObject, imm_eq_iff h.2.2.2.2.2.2.2, Src.got, spoil_inv]
  | rsb flags d n imm => simp only [Act.leaves, withImm_some h.2.2.2.2, Act.KeepsObject, imm_eq_iff h.2.2.2.2, spoil_eq_iff]
  | cmp sub n src =>
    cases src with
    | reg m => simp only [Act.leaves, withImm_none h.2.2.2.1, Act.KeepsObject]
    | imm v => simp only [Act.leaves, withImm_some h.2.2.2.2, Act.KeepsObject, imm_eq_iff h.2.2.2.2, Src.got, spoil_inv]
  | mov neg flags d src =>
    cases src with
    | reg m =>
      simp only [Act.leaves, movedInstr, Act.KeepsObject]
      by_cases hm : m = 15
      · rw [if_pos hm]
        constructor
        · intro e _
          rw [← congrArg Instr.setflags e]
        · intro e
          rw [← e hm]
      · rw [if_neg hm]
        simp [hm]
    | imm v =>
      simp only [Act.leaves, movedInstr, Act.KeepsObject]
      cases neg with
      | false => simp
      | true => simp only [if_true, withImm_some h.2.2.2.2.2, imm_eq_iff h.2.2.2.2.2]; simpa using not_ne v
  | _ => simp only [Act.leaves, Act.KeepsObject]

/-- **C61.** If the object is the same, then executing it again does the same from every
state. -/
theorem again {i i' : Instr} {act : Act} (h : act.Of i) (hv : act.Valid) (hk : act.KeepsObject i) {s s' : Machine} (hs : Regs32 s)
    (he : i.eval s = (.ok i', s')) (t : Machine) : i'.eval t = i.eval t := by
  rw [(unchanged_iff h hv hs he).2 hk]

/-- **C61.** Moving PC changes the object, but the second execution does the same. -/
theorem again_mov_pc {i i' : Instr} {neg flags : Bool} {d : Nat} (h : (Act.mov neg flags d (.reg 15)).Of i) {s s' t : Machine}
    (hs : Regs32 s) (ht : Regs32 t) (he : i.eval s = (.ok i', s')) : (i'.eval t).2 = (i.eval t).2 := by
  obtain ⟨a, rfl⟩ := hs.arm
  obtain ⟨b, rfl⟩ := ht.arm
  rw [eval_exact h trivial] at he
  obtain ⟨rfl, -, -⟩ := outcome_ok he
  have h' : (Act.mov neg false d (.reg 15)).Of ((Act.mov neg flags d (.reg 15)).leaves a i) := by
    obtain ⟨h1, h2, h3, h4, h5⟩ := h
    exact ⟨h1, h2, ⟨.never, rfl, rfl⟩, h4, h5⟩
  rw [eval_exact h' trivial, eval_exact h trivial, outcome_snd, outcome_snd]
  simp [Act.effect, Act.leaves, movedInstr, Instr.size]

/-- No negative constant is added, subtracted or compared, and none is negated. -/
def Steady : Act → Prop
  | .addSub _ _ _ _ _ (.imm v) => v.msb = false
  | .rsb _ _ _ imm => imm.msb = false
  | .cmp _ _ (.imm v) => v.msb = false
  | .mov neg _ _ (.imm _) _ => neg = false
  | _ => True

/-- **C61.** Executing an object without negative constants a second time does what
executing it the first time does, from every state. -/
theorem steady_again {i i' : Instr} {act : Act} (h : act.Of i) (hv : act.Valid) (hk : Steady act) {s s' t : Machine}
    (hs : Regs32 s) (ht : Regs32 t) (he : i.eval s = (.ok i', s')) : (i'.eval t).2 = (i.eval t).2 := by
  by_cases hq : act.KeepsObject i
  · rw [again h hv hq hs he]
  · cases act with
    | mov neg flags d src =>
      cases src with
      | reg m =>
        by_cases hm : m = 15
        · subst hm; exact again_mov_pc h hs ht he
        · exact absurd (fun e => absurd e hm) hq
      | imm v => exact absurd hk hq
    | addSub sub carry flags d n src =>
      cases src with
      | reg m => exact absurd trivial hq
      | imm v => exact absurd hk hq
    | cmp sub n src =>
      cases src with
      | reg m => exact absurd trivial hq
      | imm v => exact absurd hk hq
    | rsb => exact absurd hk hq
    | _ => exact absurd trivial hq

/-- The encodings with modified constants that are added or compared: RSB, CMN and CMP. -/
def changing : List Str := [c! "11110i01110snnnn0iiiddddiiiiiiii", c! "11110i010001nnnn0iii1111iiiiiiii",
  c! "11110i011011nnnn0iii1111iiiiiiii"]

theorem w32_msb {n : Nat} (h : n < 2 ^ 31) : (w32 n).msb = false := by
  rw [BitVec.msb_eq_decide]
  simp only [w32, BitVec.toNat_ofNat, decide_eq_false_iff_not]
  omega

theorem field_msb {pat : Str} {c : Char} (w : Nat) (h : (places pat c).length ≤ 12) : (w32 (field pat w c)).msb = false := by
  have h1 := field_bound pat w c rfl
  have h2 : 2 ^ (places pat c).length ≤ 2 ^ 12 := Nat.pow_le_pow_right (by decide) h
  exact w32_msb (by omega)

theorem field_msb4 {pat : Str} {c : Char} (w : Nat) (h : (places pat c).length ≤ 12) : (w32 (4 * field pat w c)).msb = false := by
  have h1 := field_bound pat w c rfl
  have h2 : 2 ^ (places pat c).length ≤ 2 ^ 12 := Nat.pow_le_pow_right (by decide) h
  exact w32_msb (by omega)

/-- **C61.** All but three encodings have no negative constants. -/
theorem steady_encodings : ∀ c ∈ Case.all, c.enc.pat ∉ changing → ∀ w, Steady (c.act (field c.enc.pat w)) := by
  simp only [Case.all, List.forall_mem_cons]
  repeat' refine And.intro ?_ ?_
  all_goals first
    | exact fun _ w => trivial
    | exact fun h => absurd (by decide) h
    | (intro _ w; show (w32 _).msb = false; with_reducible refine field_msb w ?_; decide)
    | (intro _ w; show (w32 _).msb = false; with_reducible refine field_msb4 w ?_; decide)
    | exact fun _ w => Eq.refl false
    | exact fun c hc => absurd hc (List.not_mem_nil)

/-- **C61.** The claim fails for CMP with a negative constant: if the register holds it,
the first execution finds them equal, and the second, from the same state, does not. -/
theorem cmp_twice {i i' : Instr} {n : Nat} {v : Word} (h : (Act.cmp true n (.imm v)).Of i) (hv : v.msb = true) (h1 : v ≠ 0xffffffff#32)
    {s s' : Machine} {c : Core} (hs : Shows s c) (hc : c.reg n = v) (he : i.eval s = (.ok i', s')) :
    (∃ x : Int, s'.regs (some 16) = some x ∧ x / 2 ^ 30 % 2 = 1) ∧
    ∃ y : Int, (i'.eval s).2.regs (some 16) = some y ∧ y / 2 ^ 30 % 2 = 0 := by
  obtain ⟨a, rfl, rfl, ha⟩ := hs.arm
  rw [core_reg] at hc
  rw [eval_exact h trivial] at he
  obtain ⟨rfl, rfl, -⟩ := outcome_ok he
  have hsp : C17.spoil (~~~v) = ~~~v := by simp [C17.spoil, hv]
  have h' : (Act.cmp true n (.imm (~~~v))).Of ((Act.cmp true n (.imm v)).leaves a i) := by
    obtain ⟨h1, h2, h3, h4, h5⟩ := h
    simp only [Act.leaves, Src.got, if_true, hsp, Exec.withImm, h5]
    exact ⟨h1, h2, h3, h4, rfl⟩
  rw [eval_exact h' trivial, outcome_snd]
  have key : ∀ (r : Word) (cf vf : Option Bool) (size : Nat), ((a.flags true r cf vf).next size).conc.regs (some 16) =
      some ((newFlags (a.reg 16) r.msb (r == 0#32) cf vf).toNat : Int) := by
    intro r cf vf size
    rw [conc_core _ (by decide), next16]
    unfold Arm.flags
    rw [if_pos rfl, set16_reg]
  have bit : ∀ (x : Word), ((x.toNat : Int) / 2 ^ 30 % 2) = (x.getLsbD 30).toNat := by
    intro x
    rw [BitVec.getLsbD, Nat.toNat_testBit]
    omega
  refine ⟨⟨_, key _ _ _ _, ?_⟩, ⟨_, key _ _ _ _, ?_⟩⟩
  · rw [bit, newFlags_bit]
    have : C17.sum v (~~~v) true = 0#32 := by
      apply BitVec.eq_of_toNat_eq
      simp only [C17.sum, BitVec.toNat_ofNat, BitVec.toNat_not, Bool.toNat_true]
      have := v.isLt
      omega
    simp only [Src.got, if_true, hc, this]
    decide
  · rw [bit, newFlags_bit]
    have hl := v.isLt
    have hm : 2 ^ 31 ≤ v.toNat := by rw [BitVec.msb_eq_decide] at hv; simpa using hv
    have hne : v.toNat ≠ 0xffffffff := fun e => h1 (BitVec.eq_of_toNat_eq e)
    have : C17.spoil (C17.sum v v true) ≠ 0#32 := by
      have e : (C17.sum v v true).toNat = 2 * v.toNat + 1 - 2 ^ 32 := by
        simp only [C17.sum, BitVec.toNat_ofNat, Bool.toNat_true]
        omega
      unfold C17.spoil
      split
      · intro hz
        have := congrArg BitVec.toNat hz
        rw [BitVec.toNat_not, e] at this
        simp at this
        omega
      · intro hz
        have := congrArg BitVec.toNat hz
        rw [e] at this
        simp at this
        omega
    have h3 : (C17.spoil (C17.sum v v true) == 0#32) = false := by simpa using this
    simp only [Src.got, if_true, hc, BitVec.not_not, h3]
    rfl

/-- `cmp.w r0, #0xff000000` is such an instruction: its object is different afterwards. -/
example : ((objects [[0xb0, 0xf1, 0x7f, 0x4f]]).map fun i => (i.imm32, (i.eval (sample [(0, 0xff000000)])).1.toOption.map (·.imm32))) =
    [(some (bv 32 0xff000000), some (some (bv 32 0x00ffffff)))] := by
  unfold objects
  rw [trees, decoders_eq]
  decide +kernel

end C61

namespace C62

theorem byteAt_error {data : List Nat} {k : Nat} {e : PyErr} (h : byteAt data k = .error e) : e = .indexError := by
  unfold byteAt at h
  split at h
  · cases h
  · cases h; rfl

theorem le16_error {data : List Nat} {e : PyErr} (h : bytesToLe16 data = .error e) : e = .indexError := by
  unfold bytesToLe16 at h
  cases h0 : byteAt data 0 with
  | error e0 => rw [h0] at h; cases h; exact byteAt_error h0
  | ok b0 =>
    rw [h0] at h
    cases h1 : byteAt data (0 + 1) with
    | error e1 => simp only [Bind.bind, Except.bind, h1] at h; cases h; exact byteAt_error h1
    | ok b1 => simp only [Bind.bind, Except.bind, h1] at h; cases h

theorem le32_error {data : List Nat} {e : PyErr} (h : bytesToLe32 data = .error e) : e = .indexError := by
  unfold bytesToLe32 at h
  cases h0 : byteAt data 0 with
  | error e0 => simp only [Bind.bind, Except.bind, h0] at h; cases h; exact byteAt_error h0
  | ok b0 =>
  cases h1 : byteAt data (0 + 1) with
  | error e1 => simp only [Bind.bind, Except.bind, h0, h1] at h; cases h; exact byteAt_error h1
  | ok b1 =>
  cases h2 : byteAt data (0 + 2) with
  | error e2 => simp only [Bind.bind, Except.bind, h0, h1, h2] at h; cases h; exact byteAt_error h2
  | ok b2 =>
  cases h3 : byteAt data (0 + 3) with
  | error e3 => simp only [Bind.bind, Except.bind, h0, h1, h2, h3] at h; cases h; exact byteAt_error h3
  | ok b3 => simp only [Bind.bind, Except.bind, h0, h1, h2, h3] at h; cases h

theorem peek_error {mem : List Region} {x : Int} {n : Nat} {e : PyErr} (h : peek mem x n = .error e) : e = .indexError := by
  unfold peek at h
  cases hf : findMem mem x with
  | none => rw [hf] at h; cases h
  | some p =>
    rw [hf] at h
    simp only at h
    split at h
    · cases h
    · split at h
      · exact le16_error h
      · exact le32_error h

theorem loadTo_error {a b : Arm} {size sz t : Nat} {sgn : Bool} {x : Word} {e : PyErr}
    (h : a.loadTo size sz sgn t x = (.error e, b)) : e = .indexError ∧ b = a := by
  unfold Arm.loadTo at h
  cases hp : peek a.mem x.toNat (sz / 8) with
  | ok v => rw [hp] at h; cases h
  | error e' => rw [hp] at h; cases h; exact ⟨peek_error hp, rfl⟩

theorem loadAll_error : ∀ (ks : List Nat) (x : Word) (a b : Arm) {e : PyErr}, a.loadAll ks x = (.error e, b) → e = .indexError
  | [], _, _, _, _, h => by cases h
  | k :: ks, x, a, b, e, h => by
    unfold Arm.loadAll at h
    cases hp : peek a.mem x.toNat 4 with
    | ok v => rw [hp] at h; exact loadAll_error ks _ _ _ h
    | error e' => rw [hp] at h; cases h; exact peek_error hp

theorem loadRegs_error {a b : Arm} {size : Nat} {r : BitVec 16} {x : Word} {e : PyErr} (h : a.loadRegs size r x = (.error e, b)) :
    e = .indexError := by
  unfold Arm.loadRegs at h
  cases hl : a.loadAll (low15 r) x with
  | mk res b' =>
    rw [hl] at h
    cases res with
    | ok y =>
      simp only [Arm.loadPc] at h
      split at h
      · cases hp : peek b'.mem y.toNat 4 with
        | ok v => rw [hp] at h; cases h
        | error e' => rw [hp] at h; cases h; exact peek_error hp
      · cases h
    | error e' => cases h; exact loadAll_error _ _ _ _ hl

theorem special_error {a : Arm} {n : Nat} {e : PyErr} (h : a.special n = .error e) : e = .typeError ∧ n < 4 := by
  unfold Arm.special at h
  split at h
  · split at h
    · cases h; exact ⟨rfl, by omega⟩
    · cases h
  · split at h
    · cases h
    · split at h <;> cases h

theorem effect_error {act : Act} {size : Nat} {a b : Arm} {e : PyErr} (h : act.effect size a = (.error e, b)) :
    (e = .indexError ∧ (((∃ sz sgn t n off, act = .load sz sgn t n off) ∨ ∃ sz sgn add t imm, act = .loadLit sz sgn add t imm) ∧ b = a ∨
      (∃ r, act = .pop r) ∨ ∃ n wback r, act = .ldm n wback r)) ∨
    (e = .nameError ∧ b = a ∧ ∃ flags d m sh, act = .mvnShift flags d m sh) ∨
    (e = .typeError ∧ b = a ∧ ∃ d sysm, act = .mrs d sysm ∧ sysm.toNat < 4) := by
  cases act with
  | load sz sgn t n off =>
    obtain ⟨h1, h2⟩ := loadTo_error h
    exact .inl ⟨h1, .inl ⟨.inl ⟨_, _, _, _, _, rfl⟩, h2⟩⟩
  | loadLit sz sgn add t imm =>
    obtain ⟨h1, h2⟩ := loadTo_error h
    exact .inl ⟨h1, .inl ⟨.inr ⟨_, _, _, _, _, rfl⟩, h2⟩⟩
  | pop r => exact .inl ⟨loadRegs_error h, .inr (.inl ⟨_, rfl⟩)⟩
  | ldm n wback r =>
    simp only [Act.effect, Arm.ldm] at h
    cases hl : a.loadRegs size r (a.reg n) with
    | mk res b' =>
      rw [hl] at h
      cases res with
      | ok u => cases h
      | error e' => cases h; exact .inl ⟨loadRegs_error hl, .inr (.inr ⟨_, _, _, rfl⟩)⟩
  | mvnShift flags d m sh => cases h; exact .inr (.inl ⟨rfl, rfl, _, _, _, _, rfl⟩)
  | mrs d sysm =>
    simp only [Act.effect, Arm.mrs] at h
    cases hs : a.special sysm.toNat with
    | ok v => rw [hs] at h; cases h
    | error e' =>
      rw [hs] at h
      cases h
      exact .inr (.inr ⟨(special_error hs).1, rfl, _, _, rfl, (special_error hs).2⟩)
  | _ => cases h

/-- **C62.** What can raise: reading memory past the end of a region (`IndexError`),
MVN.W (`NameError`) and MRS of APSR, IAPSR, EAPSR, XPSR (`TypeError`). -/
theorem which {i : Instr} {act : Act} (h : act.Of i) (hv : act.Valid) {s s' : Machine} (hs : Regs32 s) {e : PyErr}
    (he : i.eval s = (.error e, s')) :
    (e = .indexError ∧ ((∃ sz sgn t n off, act = .load sz sgn t n off) ∨ (∃ sz sgn add t imm, act = .loadLit sz sgn add t imm) ∨
      (∃ r, act = .pop r) ∨ ∃ n wback r, act = .ldm n wback r)) ∨
    (e = .nameError ∧ ∃ flags d m sh, act = .mvnShift flags d m sh) ∨
    (e = .typeError ∧ ∃ d sysm, act = .mrs d sysm ∧ sysm.toNat < 4) := by
  obtain ⟨a, rfl⟩ := hs.arm
  rw [eval_exact h hv] at he
  obtain ⟨h1, -⟩ := outcome_error he
  rcases effect_error (b := (act.effect i.size a).2) (Prod.ext h1 rfl) with ⟨h2, ⟨h3 | h3, -⟩ | h3 | h3⟩ | ⟨h2, -, h3⟩ | ⟨h2, -, h3⟩
  · exact .inl ⟨h2, .inl h3⟩
  · exact .inl ⟨h2, .inr (.inl h3)⟩
  · exact .inl ⟨h2, .inr (.inr (.inl h3))⟩
  · exact .inl ⟨h2, .inr (.inr (.inr h3))⟩
  · exact .inr (.inl ⟨h2, h3⟩)
  · exact .inr (.inr ⟨h2, h3⟩)

/-- **C62.** Memory is never changed by an instruction that raises. -/
theorem memory_same {i : Instr} {act : Act} (h : act.Of i) (hv : act.Valid) {s s' : Machine} (hs : Regs32 s) {e : PyErr}
    (he : i.eval s = (.error e, s')) : s'.mem = s.mem := by
  have hw := which h hv hs he
  have := C59.memory_same h hv (s := s) (by
    rcases hw with ⟨-, ⟨_, _, _, _, _, rfl⟩ | ⟨_, _, _, _, _, rfl⟩ | ⟨_, rfl⟩ | ⟨_, _, _, rfl⟩⟩ | ⟨-, _, _, _, _, rfl⟩ |
      ⟨-, _, _, rfl, -⟩ <;> exact id) hs
  rwa [he] at this

/-- **C62.** Nothing is changed by an instruction that raises and is not POP or LDM. -/
theorem unchanged_partial {i : Instr} {act : Act} (h : act.Of i) (hv : act.Valid) {s s' : Machine} (hs : Regs32 s) {e : PyErr}
    (he : i.eval s = (.error e, s')) (hp : ∀ r, act ≠ .pop r) (hl : ∀ n wback r, act ≠ .ldm n wback r) : s' = s := by
  obtain ⟨a, rfl⟩ := hs.arm
  rw [eval_exact h hv] at he
  obtain ⟨h1, rfl⟩ := outcome_error he
  rcases effect_error (b := (act.effect i.size a).2) (Prod.ext h1 rfl) with ⟨-, ⟨-, h3⟩ | ⟨r, h3⟩ | ⟨n, wback, r, h3⟩⟩ | ⟨-, h3, -⟩ |
    ⟨-, h3, -⟩
  · rw [h3]
  · exact absurd h3 (hp r)
  · exact absurd h3 (hl n wback r)
  · rw [h3]
  · rw [h3]

/-- **C62.** A load raises exactly if it starts in a region and reaches past its end. -/
theorem load_raises_iff {i : Instr} {sz t n : Nat} {sgn : Bool} {off : Off} (h : (Act.load sz sgn t n off).Of i)
    (hv : (Act.load sz sgn t n off).Valid) (hp : (Act.load sz sgn t n off).NoPc) {s : Machine} {c : Core} (hs : Shows s c)
    (hm : MemOK s.mem) : (∃ e s', i.eval s = (.error e, s')) ↔ Past s.mem (c.reg n + off.val c).toNat (sz / 8) := by
  obtain ⟨a, rfl, rfl, ha⟩ := hs.arm
  have hn : sz / 8 = 1 ∨ sz / 8 = 2 ∨ sz / 8 = 4 := by rcases hv.1 with h | h | h <;> simp [h]
  rw [eval_exact h hv, off_val hp.2.2]
  show _ ↔ Past a.mem (a.reg n + off.got a).toNat _
  simp only [Act.effect, Arm.loadTo]
  cases hpk : peek a.mem (a.reg n + off.got a).toNat (sz / 8) with
  | error e =>
    refine ⟨fun _ => ?_, fun _ => ⟨_, _, rfl⟩⟩
    rcases where_is a.mem (a.reg n + off.got a).toNat (sz / 8) (by omega) with hw | hw | hw
    · rw [peek_unmapped hw] at hpk; cases hpk
    · obtain ⟨u, hu, -⟩ := peek_word hm hn hw a.reg
      exact absurd (hu.symm.trans hpk) (by simp)
    · exact hw
  | ok v =>
    refine ⟨fun h => (by obtain ⟨e, s', he⟩ := h; cases he), fun hpast => ?_⟩
    exact absurd ((peek_past (mem := a.mem) hm hn hpast).symm.trans hpk) (by simp)

/-- **C62.** POP that raises has moved SP behind the list, so that the claim fails. -/
theorem pop_moves_sp {i : Instr} {r : BitVec 16} (h : (Act.pop r).Of i) {s s' : Machine} {c : Core} (hs : Shows s c) {e : PyErr}
    (he : i.eval s = (.error e, s')) (h13 : r.getLsbD 13 = false) :
    s'.regs (some 13) = some ((c.reg 13 + w32 (4 * count r) &&& 0xfffffffc#32).toNat : Int) := by
  obtain ⟨a, rfl, rfl, ha⟩ := hs.arm
  rw [eval_exact h trivial] at he
  obtain ⟨h1, rfl⟩ := outcome_error he
  rw [conc_core _ (by decide)]
  congr 3
  show ((a.set 13 (a.reg 13 + w32 (4 * count r))).loadRegs i.size r (a.reg 13)).2.reg 13 = _
  rw [loadRegs_apart _ (by decide)]
  · unfold Arm.set
    simp [keepBits]
    rfl
  · intro k hk
    have hk' := List.mem_filter.1 hk
    have := List.mem_range.1 hk'.1
    refine ⟨?_, by omega, by omega⟩
    intro hc
    have : k = 13 := by omega
    subst this
    rw [h13] at hk'
    simp at hk'

/-- What is left of a machine when executing the object of these bytes raises. -/
def left (bytes : List Nat) (s : Machine) (ks : List Int) : Option (PyErr × List (Option Int)) :=
  match objects [bytes] with
  | [i] => match i.eval s with
    | (.error e, s') => some (e, ks.map fun k => s'.regs (some k))
    | _ => none
  | _ => none

/-- **C62.** The claim fails: `pop {r0, r1}` and `ldm r2!, {r0, r1}` with the second word
past the end of memory change SP and r0. `ldr r0, [r2, #4]` there changes nothing. -/
theorem pop_ldm_fail :
    left [0x03, 0xbc] (sample [(13, 0x10), (15, 0x100)] [⟨0x10, 0x15, [1, 0, 0, 0, 2, 0]⟩]) [0, 1, 13, 15] =
      some (.indexError, [some 1, some 0, some 0x18, some 0x100]) ∧
    left [0x03, 0xca] (sample [(2, 0x10), (15, 0x100)] [⟨0x10, 0x15, [1, 0, 0, 0, 2, 0]⟩]) [0, 1, 2, 15] =
      some (.indexError, [some 1, some 0, some 0x10, some 0x100]) ∧
    left [0x50, 0x68] (sample [(2, 0x10), (15, 0x100)] [⟨0x10, 0x15, [1, 0, 0, 0, 2, 0]⟩]) [0, 1, 2, 15] =
      some (.indexError, [some 0, some 0, some 0x10, some 0x100]) := by
  unfold left objects
  rw [trees, decoders_eq]
  refine ⟨?_, ?_, ?_⟩ <;> decide +kernel

end C62

end Verif
