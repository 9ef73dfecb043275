import Verif.Props.C81

/-!
# C89: exceptions of the processor
-/

namespace Verif
open BS CpuM Thumb

namespace C89

/-- The instructions that make the processor take an exception: a supervisor call, a breakpoint, and the
encodings that the manual keeps undefined. -/
def traps : List Enc := [Thumb.svc, Thumb.bkpt, Thumb.udf, Thumb.udfW]

theorem trap_plain {e : Enc} (he : e ∈ traps) (f : Char → Nat) : e.act f = .plain := by
  simp only [traps, List.mem_cons, List.not_mem_nil, or_false] at he
  rcases he with rfl | rfl | rfl | rfl <;> rfl

/-- **C89.** SVC, BKPT and UDF are decoded, and executing them only goes on to the next instruction. -/
theorem trap_goes_on (e : Enc) (he : e ∈ traps) (w : Nat) (h : e.Is w) (rest : List Nat) (hr : ∀ b ∈ rest, b < 256) (address : Int)
    {s : Machine} {c : Core} (hs : Shows s c) (hm : MemOK s.mem) :
    ∃ i i' s', (trees.decode (C38.bytesOf e w ++ rest) address).1 = .ok i ∧ i.eval s = (.ok i', s') ∧
      Shows s' (c.next (e.pat.length / 8)) := by
  have hen : e ∈ encodings := by
    simp only [traps, List.mem_cons, List.not_mem_nil, or_false] at he
    rcases he with rfl | rfl | rfl | rfl <;> simp [encodings]
  have hx : ¬ Wrong e (field e.pat w) := by
    simp only [traps, List.mem_cons, List.not_mem_nil, or_false] at he
    rcases he with rfl | rfl | rfl | rfl <;> exact not_wrong (by decide) _
  obtain ⟨i, i', s', h1, h2, h3, -⟩ := C72.decode_execute_partial e hen w h hx (by rw [trap_plain he]; trivial) rest hr address hs hm
    (by rw [trap_plain he]; trivial)
  rw [trap_plain he] at h3
  exact ⟨i, i', s', h1, h2, h3⟩

/-! ### When executing raises an exception of Python -/

theorem not_both {mem : List Region} (hm : MemOK mem) {x : Int} {n : Nat} (hn : n = 1 ∨ n = 2 ∨ n = 4) (h1 : Inside mem x n)
    (h2 : Past mem x n) : False := by
  obtain ⟨_, _, _, u, h3, _⟩ := peek_inside hm hn h1
  rw [peek_past hm hn h2] at h3
  cases h3

theorem peek_raises_iff {mem : List Region} (hm : MemOK mem) {x : Int} {n : Nat} (hn : n = 1 ∨ n = 2 ∨ n = 4) :
    (∃ e, peek mem x n = .error e) ↔ Past mem x n := by
  constructor
  · rintro ⟨e, he⟩
    rcases where_is mem x n (by omega) with h | h | h
    · rw [peek_unmapped h] at he; cases he
    · obtain ⟨_, _, _, u, h3, _⟩ := peek_inside hm hn h
      rw [h3] at he; cases he
    · exact h
  · exact fun h => ⟨_, peek_past hm hn h⟩

theorem loadAll_raises_iff : ∀ (ks : List Nat) (x : Word) (a : Arm), MemOK a.mem →
    ((∃ e, (a.loadAll ks x).1 = .error e) ↔ ∃ j, j < ks.length ∧ Past a.mem (x + w32 (4 * j)).toNat 4) ∧
    ∀ y, (a.loadAll ks x).1 = .ok y → y = x + w32 (4 * ks.length)
  | [], x, a, _ => by
    refine ⟨⟨fun ⟨e, h⟩ => (by cases h), fun ⟨j, h, _⟩ => (by simp at h)⟩, fun y h => ?_⟩
    cases h
    simp [w32]
  | k :: ks, x, a, hm => by
    have hstep : ∀ j : Nat, x + w32 (4 * (j + 1)) = x + 4#32 + w32 (4 * j) := by
      intro j
      rw [BitVec.add_assoc]
      congr 1
      unfold w32
      rw [Nat.mul_succ, BitVec.ofNat_add, BitVec.add_comm]
    have h0 : x + w32 (4 * 0) = x := by simp [w32]
    unfold Arm.loadAll
    cases hp : peek a.mem x.toNat 4 with
    | error e =>
      refine ⟨⟨fun _ => ⟨0, by simp, ?_⟩, fun _ => ⟨e, rfl⟩⟩, fun y h => by cases h⟩
      rw [h0]
      exact (peek_raises_iff hm (by omega)).1 ⟨e, hp⟩
    | ok v =>
      have ih := loadAll_raises_iff ks (x + 4#32) (a.set k (w32 v)) hm
      refine ⟨?_, fun y h => ?_⟩
      · simp only
        rw [ih.1]
        constructor
        · rintro ⟨j, h1, h2⟩
          exact ⟨j + 1, by simp; omega, by rw [hstep]; exact h2⟩
        · rintro ⟨j, h1, h2⟩
          cases j with
          | zero =>
            rw [h0] at h2
            obtain ⟨e, he⟩ := (peek_raises_iff hm (by omega)).2 h2
            rw [hp] at he
            cases he
          | succ j => exact ⟨j, by simp at h1; omega, by rw [← hstep]; exact h2⟩
      · rw [ih.2 y h, List.length_cons, hstep]

theorem loadRegs_raises_iff {a : Arm} (hm : MemOK a.mem) (size : Nat) (r : BitVec 16) (x : Word) :
    (∃ e, (a.loadRegs size r x).1 = .error e) ↔ ∃ j, j < count r ∧ Past a.mem (x + w32 (4 * j)).toNat 4 := by
  obtain ⟨h1, h2⟩ := loadAll_raises_iff (low15 r) x a hm
  have hmem := loadAll_mem (low15 r) x a
  unfold Arm.loadRegs
  rw [count_eq]
  cases hl : a.loadAll (low15 r) x with
  | mk res b =>
    rw [hl] at h1 h2 hmem
    simp only at h1 h2 hmem
    cases res with
    | error e =>
      obtain ⟨j, g1, g2⟩ := h1.1 ⟨e, rfl⟩
      exact ⟨fun _ => ⟨j, by omega, g2⟩, fun _ => ⟨e, rfl⟩⟩
    | ok y =>
      have hno : ∀ j, j < (low15 r).length → ¬ Past a.mem (x + w32 (4 * j)).toNat 4 := fun j hj hp => by
        obtain ⟨e, he⟩ := h1.2 ⟨j, hj, hp⟩
        cases he
      have hy := h2 y rfl
      simp only [Arm.loadPc]
      cases h15 : r.getLsbD 15
      · simp only [Bool.false_eq_true, if_false, Bool.toNat_false, Nat.add_zero]
        exact ⟨fun ⟨e, h⟩ => (by cases h), fun ⟨j, g1, g2⟩ => absurd g2 (hno j g1)⟩
      · simp only [if_true, Bool.toNat_true]
        have hp := peek_raises_iff (mem := b.mem) (hmem ▸ hm) (x := y.toNat) (n := 4) (by omega)
        cases hpk : peek b.mem y.toNat 4 with
        | ok v =>
          refine ⟨fun ⟨e, h⟩ => (by cases h), fun ⟨j, g1, g2⟩ => ?_⟩
          by_cases hj : j < (low15 r).length
          · exact absurd g2 (hno j hj)
          · rw [show j = (low15 r).length by omega, ← hy, ← hmem] at g2
            obtain ⟨e, he⟩ := hp.2 g2
            rw [hpk] at he
            cases he
        | error e =>
          refine ⟨fun _ => ⟨(low15 r).length, by omega, ?_⟩, fun _ => ⟨e, rfl⟩⟩
          rw [← hy, ← hmem]
          exact hp.1 ⟨e, hpk⟩

/-- When executing raises: a load that starts in a region of memory and reaches past its end, MVN.W, and MRS of
APSR and its combinations. Nothing is said about addresses that are no multiples of the size of the access. -/
def Raises (mem : List Region) (c : Core) : Act → Prop
  | .load sz _ _ n off => Past mem (c.reg n + off.val c).toNat (sz / 8)
  | .loadLit sz _ add _ imm => Past mem (C57.address (c.reg 15) add imm).toNat (sz / 8)
  | .pop r => ∃ j, j < count r ∧ Past mem (c.reg 13 + w32 (4 * j)).toNat 4
  | .ldm n _ r => ∃ j, j < count r ∧ Past mem (c.reg n + w32 (4 * j)).toNat 4
  | .mvnShift _ _ _ _ => True
  | .mrs _ sysm => sysm.toNat < 4
  | _ => False

theorem outcome_raises_iff (i : Instr) (p : PyRes Unit × Arm) : (∃ e s', outcome i p = (.error e, s')) ↔ ∃ e, p.1 = .error e := by
  rcases p with ⟨_ | _, a⟩
  · exact ⟨fun _ => ⟨_, rfl⟩, fun _ => ⟨_, _, rfl⟩⟩
  · exact ⟨fun ⟨e, s', h⟩ => (by cases h), fun ⟨e, h⟩ => (by cases h)⟩

/-- **C89, exactly.** When executing an instruction raises an exception, for every action. -/
theorem raises_iff {i : Instr} {act : Act} (h : act.Of i) (hv : act.Valid) (hp : act.NoPc) {s : Machine} {c : Core} (hs : Shows s c)
    (hm : MemOK s.mem) : (∃ e s', i.eval s = (.error e, s')) ↔ Raises s.mem c act := by
  obtain ⟨a, rfl, rfl, -⟩ := hs.arm
  replace hm : MemOK a.mem := hm
  rw [eval_exact h hv, outcome_raises_iff]
  have hload : ∀ (size sz : Nat) (sgn : Bool) (t : Nat) (x : Word), SizeOK sz →
      ((∃ e, (a.loadTo size sz sgn t x).1 = .error e) ↔ Past a.mem x.toNat (sz / 8)) := by
    intro size sz sgn t x hz
    rw [← peek_raises_iff hm (by rcases hz with rfl | rfl | rfl <;> decide)]
    unfold Arm.loadTo
    cases peek a.mem x.toNat (sz / 8) with
    | ok v => exact ⟨fun ⟨e, h⟩ => (by cases h), fun ⟨e, h⟩ => (by cases h)⟩
    | error e => exact ⟨fun _ => ⟨e, rfl⟩, fun _ => ⟨e, rfl⟩⟩
  cases act with
  | load sz sgn t n off =>
    show (∃ e, (a.loadTo i.size sz sgn t (a.reg n + off.got a)).1 = .error e) ↔ Past a.mem (a.reg n + off.val a.core).toNat (sz / 8)
    rw [off_val hp.2.2]
    exact hload _ _ _ _ _ hv.1
  | loadLit sz sgn add t imm =>
    show _ ↔ Past a.mem (C57.address (a.core.reg 15) add imm).toNat (sz / 8)
    rw [← C57.address_eq]
    exact hload _ _ _ _ _ hv
  | pop r => exact loadRegs_raises_iff (a := a.set 13 (a.reg 13 + w32 (4 * count r))) hm i.size r (a.reg 13)
  | ldm n wback r =>
    have := loadRegs_raises_iff hm i.size r (a.reg n)
    show (∃ e, (a.ldm i.size n wback r).1 = .error e) ↔ ∃ j, j < count r ∧ Past a.mem (a.reg n + w32 (4 * j)).toNat 4
    rw [← this]
    unfold Arm.ldm
    rcases a.loadRegs i.size r (a.reg n) with ⟨_ | _, b⟩
    · exact ⟨fun _ => ⟨_, rfl⟩, fun _ => ⟨_, rfl⟩⟩
    · exact ⟨fun ⟨e, h⟩ => (by cases h), fun ⟨e, h⟩ => (by cases h)⟩
  | mvnShift flags d m sh => exact ⟨fun _ => trivial, fun _ => ⟨_, rfl⟩⟩
  | mrs d sysm =>
    show (∃ e, (a.mrs i.size d sysm).1 = .error e) ↔ sysm.toNat < 4
    unfold Arm.mrs
    cases hsp : a.special sysm.toNat with
    | error e => exact ⟨fun _ => (C62.special_error hsp).2, fun _ => ⟨_, rfl⟩⟩
    | ok v =>
      refine ⟨fun ⟨e, h⟩ => (by cases h), fun h => ?_⟩
      unfold Arm.special at hsp
      rw [if_pos (by omega), if_pos (by omega)] at hsp
      cases hsp
  | _ => exact ⟨fun ⟨e, h⟩ => (by cases h), False.elim⟩

/-- **C89.** PUSH, POP, LDM and STM with their words in memory go on, whether or not the address is a multiple
of four; the processor always takes a fault if it is not. -/
theorem multiple_goes_on {i : Instr} {act : Act} (h : act.Of i) (hp : act.NoPc)
    (ha : (∃ r, act = .push r) ∨ (∃ r, act = .pop r) ∨ (∃ n wback r, act = .ldm n wback r) ∨ ∃ n wback r, act = .stm n wback r)
    {s : Machine} {c : Core} (hs : Shows s c) (hm : MemOK s.mem) (hin : C81.InMemory s.mem c act) : ∃ i' s', i.eval s = (.ok i', s') := by
  have hv : act.Valid := by rcases ha with ⟨_, rfl⟩ | ⟨_, rfl⟩ | ⟨_, _, _, rfl⟩ | ⟨_, _, _, rfl⟩ <;> trivial
  have hr : ¬ Raises s.mem c act := by
    rcases ha with ⟨_, rfl⟩ | ⟨_, rfl⟩ | ⟨_, _, _, rfl⟩ | ⟨_, _, _, rfl⟩
    · exact id
    · rintro ⟨j, h1, h2⟩
      exact not_both hm (by omega) (hin j h1) h2
    · rintro ⟨j, h1, h2⟩
      exact not_both hm (by omega) (hin j h1) h2
    · exact id
  rw [← raises_iff h hv hp hs hm] at hr
  cases he : i.eval s with
  | mk res s' =>
    cases res with
    | ok i' => exact ⟨i', s', rfl⟩
    | error e => exact absurd ⟨e, s', he⟩ hr

/-- **C89.** No instruction changes the Thumb bit (bit 24 of xPSR), also not BX, BLX and loads to PC with an even
address, after which the processor takes a fault. -/
theorem thumb_bit_kept {i : Instr} {act : Act} (h : act.Of i) (hv : act.Valid) {s : Machine} (hs : Regs32 s) :
    ∃ x y : Int, s.regs (some 16) = some x ∧ (i.eval s).2.regs (some 16) = some y ∧ y / 2 ^ 24 % 2 = x / 2 ^ 24 % 2 :=
  C59.psr h hv hs (by
    cases act with
    | _ => simp only [Act.flagBits]; (try split) <;> decide)

/-- **C89.** The claim fails: SVC and UDF step over themselves, LDM reads words at 0x11, and BX to the even
address 0x200 leaves the Thumb bit set. -/
theorem full_claim_false :
    ranRegs [0x00, 0xdf] (sample [(15, 0x100)]) [15] = some [some 0x102] ∧
    ranRegs [0x00, 0xde] (sample [(15, 0x100)]) [15] = some [some 0x102] ∧
    ranRegs [0x02, 0xc8] (sample [(0, 0x11), (15, 0x100)] [⟨0x10, 0x17, [1, 2, 3, 4, 5, 6, 7, 8]⟩]) [0, 1, 15] =
      some [some 0x15, some 0x05040302, some 0x102] ∧
    ranRegs [0x00, 0x47] (sample [(0, 0x200), (15, 0x100), (16, 0x1000000)]) [15, 16] = some [some 0x200, some 0x1000000] := by
  refine ⟨?_, ?_, ?_, ?_⟩ <;> simp only [ranRegs, ran] <;> rw [trees, decoders_eq] <;> decide +kernel

end C89
end Verif
