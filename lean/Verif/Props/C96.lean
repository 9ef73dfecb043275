import Verif.Lemmas.Depends
import Verif.Props.C59to62

/-!
# C96: an instruction depends on its operands only
-/

namespace Verif
open BS CpuM Thumb

namespace C96

/-- Bit `n` of xPSR. -/
def psrBit (s : Machine) (n : Nat) : Option Bool := (s.regs (some 16)).map fun v => v.toNat.testBit n

/-- The registers as words, and the memory. -/
def view (s : Machine) : Arm where
  reg k := match s.regs (some k) with
    | some v => BitVec.ofInt 32 v
    | none => 0#32
  extra := s.regs
  mem := s.mem

/-- The places an action reads in a state: address and number of bytes of each. -/
def reads (act : Act) (s : Machine) : List (Word × Nat) := act.loaded (view s)

/-- Two states agree on what an action looks at: PC, its operands, the flags it uses and
what it reads from memory. -/
structure Agree (act : Act) (s t : Machine) : Prop where
  pc : s.regs (some 15) = t.regs (some 15)
  regs : ∀ k ∈ act.sources, s.regs (some k) = t.regs (some k)
  bits : ∀ n ∈ act.flagsRead, psrBit s n = psrBit t n
  mem : ∀ p ∈ reads act s, (readMemory (.int p.1.toNat) (8 * p.2) s).1 = (readMemory (.int p.1.toNat) (8 * p.2) t).1

theorem psrBit_conc (a : Arm) (n : Nat) : psrBit a.conc n = some (a.flag n) := by
  unfold psrBit
  rw [conc_core a (by decide)]
  rfl

theorem reg_iff {a b : Arm} {k : Int} (h : k ∈ coreIndices) : a.conc.regs (some k) = b.conc.regs (some k) ↔ a.reg k = b.reg k := by
  rw [conc_core a h, conc_core b h]
  constructor
  · intro e
    apply BitVec.eq_of_toNat_eq
    injection e with e
    omega
  · intro e; rw [e]

/-- The operands are registers. -/
theorem sources_core {act : Act} {i : Instr} (h : act.Of i) : ∀ k ∈ act.sources, k ∈ coreIndices := fun k hk => by
  have := sources_of h k hk
  exact mem_core.2 (by omega)

theorem view_reg (a : Arm) {k : Int} (h : k ∈ coreIndices) : (view a.conc).reg k = a.reg k := by
  show (match a.conc.regs (some k) with | some v => BitVec.ofInt 32 v | none => 0#32) = _
  rw [conc_core a h]
  simp

theorem reads_conc {act : Act} {i : Instr} (h : act.Of i) (a : Arm) : reads act a.conc = act.loaded a :=
  loaded_alike (view_reg a (by decide)) (fun k hk => view_reg a (sources_core h k hk)) fun n _ => by
    unfold Arm.flag
    rw [view_reg a (by decide)]

/-- The words view of agreeing states. -/
theorem Agree.alike {i : Instr} {act : Act} (h : act.Of i) (hv : act.Valid) {a b : Arm} (hst : Agree act a.conc b.conc) : act.Alike a b := by
  refine ⟨(reg_iff (by decide)).1 hst.pc, fun k hk => (reg_iff (sources_core h k hk)).1 (hst.regs k hk), fun n hn => ?_, fun p hp => ?_⟩
  · have := hst.bits n hn
    rw [psrBit_conc, psrBit_conc] at this
    injection this
  · have := hst.mem p (by rw [reads_conc h]; exact hp)
    rw [readMemory_peek _ _ (loaded_size hv a p hp), readMemory_peek _ _ (loaded_size hv a p hp)] at this
    exact this

/-- **C96.** Executing an object in two states that agree on PC, the operands, the flags
used and what is read from memory: either both end normally or both raise the same exception,
the same object is left, every register and every bit of xPSR that is changed has the
same value in both afterwards, and memory is the same afterwards if it was before. -/
theorem depends {i : Instr} {act : Act} (h : act.Of i) (hv : act.Valid) {s t : Machine} (hs : Regs32 s) (ht : Regs32 t)
    (hst : Agree act s t) :
    (i.eval s).1 = (i.eval t).1 ∧
    (∀ k ∈ coreIndices, k ≠ 16 → (i.eval s).2.regs (some k) = (i.eval t).2.regs (some k) ∨
      ((i.eval s).2.regs (some k) = s.regs (some k) ∧ (i.eval t).2.regs (some k) = t.regs (some k))) ∧
    (∀ n, psrBit (i.eval s).2 n = psrBit (i.eval t).2 n ∨
      (psrBit (i.eval s).2 n = psrBit s n ∧ psrBit (i.eval t).2 n = psrBit t n)) ∧
    (s.mem = t.mem → (i.eval s).2.mem = (i.eval t).2.mem) := by
  obtain ⟨a, rfl⟩ := hs.arm
  obtain ⟨b, rfl⟩ := ht.arm
  have hab := hst.alike h hv
  have htg : ∀ k ∈ act.targets, k ≠ 16 := fun k hk => by have := targets_of h k hk; omega
  obtain ⟨h1, h2, h3⟩ := effect_alike hv htg hab i.size
  rw [eval_exact h hv, eval_exact h hv, leaves_alike hab, outcome_snd, outcome_snd]
  refine ⟨?_, fun k hk hk16 => ?_, fun n => ?_, fun e => by
    show (act.effect i.size a).2.mem = (act.effect i.size b).2.mem
    rw [effect_pokes, effect_pokes, h3, show a.mem = b.mem from e]⟩
  · generalize act.effect i.size a = p at h1
    generalize act.effect i.size b = q at h1
    obtain ⟨p1, p2⟩ := p
    obtain ⟨q1, q2⟩ := q
    cases h1
    cases p1 <;> rfl
  · rw [reg_iff hk, reg_iff hk, reg_iff hk]
    exact h2.regs k hk16
  · simp only [psrBit_conc, Option.some.injEq]
    exact h2.bits n

/-- **C96.** Memory: in two states that agree on what the action looks at, with the same
regions, every byte of memory has the same value in both afterwards or stayed as it was in
both. -/
theorem memory {i : Instr} {act : Act} (h : act.Of i) (hv : act.Valid) {s t : Machine} (hs : Regs32 s) (ht : Regs32 t)
    (hst : Agree act s t) (hms : MemFull s.mem) (hmt : MemFull t.mem) (hmap : SameMap s.mem t.mem) :
    SameMap (i.eval s).2.mem (i.eval t).2.mem ∧ ∀ y, flat (i.eval s).2.mem y = flat (i.eval t).2.mem y ∨
      (flat (i.eval s).2.mem y = flat s.mem y ∧ flat (i.eval t).2.mem y = flat t.mem y) := by
  obtain ⟨a, rfl⟩ := hs.arm
  obtain ⟨b, rfl⟩ := ht.arm
  have hab := hst.alike h hv
  rw [eval_exact h hv, eval_exact h hv, outcome_snd, outcome_snd]
  show SameMap (act.effect i.size a).2.mem (act.effect i.size b).2.mem ∧ ∀ y, flat (act.effect i.size a).2.mem y = flat (act.effect i.size b).2.mem y ∨
    (flat (act.effect i.size a).2.mem y = flat a.mem y ∧ flat (act.effect i.size b).2.mem y = flat b.mem y)
  rw [effect_pokes, effect_pokes, written_alike hab.regs hab.bits]
  exact pokes_alike _ hms hmt hmap

/-- Two states that agree except for the registers `X` and the bits `N` of xPSR. -/
structure Except (X : Int → Prop) (N : Nat → Prop) (s t : Machine) : Prop where
  regs : ∀ k ∈ coreIndices, k ≠ 16 → ¬ X k → s.regs (some k) = t.regs (some k)
  bits : ∀ n, ¬ N n → psrBit s n = psrBit t n
  mem : s.mem = t.mem

/-- **C96.** Registers and flags that an instruction does not look at have no influence
on anything else. -/
theorem confined {i : Instr} {act : Act} (h : act.Of i) (hv : act.Valid) {X : Int → Prop} {N : Nat → Prop} (h15 : ¬ X 15)
    (hX : ∀ k ∈ act.sources, ¬ X k) (hN : ∀ n ∈ act.flagsRead, ¬ N n) {s t : Machine} (hs : Regs32 s) (ht : Regs32 t)
    (hst : Except X N s t) : (i.eval s).1 = (i.eval t).1 ∧ Except X N (i.eval s).2 (i.eval t).2 := by
  have h16 : ∀ k ∈ act.sources, k ≠ 16 := fun k hk => (sources_of h k hk).2.2
  obtain ⟨h1, h2, h3, h4⟩ := depends h hv hs ht ⟨hst.regs 15 (by decide) (by decide) h15,
    fun k hk => hst.regs k (sources_core h k hk) (h16 k hk) (hX k hk), fun n hn => hst.bits n (hN n hn), fun p hp => by
      obtain ⟨a, rfl⟩ := hs.arm
      obtain ⟨b, rfl⟩ := ht.arm
      have hz := loaded_size hv a p (by rw [← reads_conc h]; exact hp)
      rw [readMemory_peek _ _ hz, readMemory_peek _ _ hz, hst.mem]⟩
  refine ⟨h1, ⟨fun k hk hk16 hx => ?_, fun n hn => ?_, h4 hst.mem⟩⟩
  · rcases h2 k hk hk16 with e | ⟨e, e'⟩
    · exact e
    · rw [e, e']; exact hst.regs k hk hk16 hx
  · rcases h3 n with e | ⟨e, e'⟩
    · exact e
    · rw [e, e']; exact hst.bits n hn

/-- **C96.** Programs: what no instruction of the program looks at has no influence on
how it ends, on the other registers and flags, or on memory. -/
theorem program {X : Int → Prop} {N : Nat → Prop} (h15 : ¬ X 15) : ∀ (is : List Instr),
    (∀ i ∈ is, ∃ act : Act, act.Of i ∧ act.Valid ∧ (∀ k ∈ act.sources, ¬ X k) ∧ ∀ n ∈ act.flagsRead, ¬ N n) →
    ∀ {s t : Machine}, Regs32 s → Regs32 t → Except X N s t →
    (executeAll is s).1 = (executeAll is t).1 ∧ Except X N (executeAll is s).2 (executeAll is t).2
  | [], _, _, _, _, _, hst => ⟨rfl, hst⟩
  | i :: rest, h, s, t, hs, ht, hst => by
    obtain ⟨act, ha, hv, hX, hN⟩ := h i List.mem_cons_self
    obtain ⟨h1, h2⟩ := confined ha hv h15 hX hN hs ht hst
    have hs' := C31.one ha hv hs
    have ht' := C31.one ha hv ht
    unfold executeAll
    cases es : i.eval s with
    | mk r s' =>
      cases et : i.eval t with
      | mk r' t' =>
        rw [es] at h1 h2 hs'
        rw [et] at h1 h2 ht'
        simp only at h1 h2 hs' ht'
        subst h1
        cases r with
        | ok i' =>
          rw [bind_ok es, bind_ok et]
          exact program h15 rest (fun j hj => h j (List.mem_cons_of_mem _ hj)) hs' ht' h2
        | error e => rw [bind_err es, bind_err et]; exact ⟨rfl, h2⟩

/-- `adcs r0, r1` looks at C but not at N: with other N and another r2 the result is the
same, with another C it is not. `lsls r0, r2` by nothing passes C on. -/
example : ranRegs [0x48, 0x41] (sample [(0, 5), (1, 6), (2, 7), (16, 0xa0000000)]) [0, 2, 16] = some [some 12, some 7, some 0] ∧
    ranRegs [0x48, 0x41] (sample [(0, 5), (1, 6), (2, 9), (16, 0x20000000)]) [0, 2, 16] = some [some 12, some 9, some 0] ∧
    ranRegs [0x48, 0x41] (sample [(0, 5), (1, 6), (2, 7), (16, 0)]) [0, 2, 16] = some [some 11, some 7, some 0] ∧
    ranRegs [0x90, 0x40] (sample [(0, 5), (2, 0), (16, 0x20000000)]) [0, 16] = some [some 5, some 0x20000000] ∧
    ranRegs [0x90, 0x40] (sample [(0, 5), (2, 0), (16, 0)]) [0, 16] = some [some 5, some 0] := by
  refine ⟨?_, ?_, ?_, ?_, ?_⟩ <;> simp only [ranRegs, ran] <;> rw [trees, decoders_eq] <;> decide +kernel

/-- `ldr r0, [r1, #4]` reads one word: other bytes, and other regions, make no difference. -/
example :
    ranRegs [0x48, 0x68] (sample [(1, 0x10)] [⟨0x10, 0x17, [9, 9, 9, 9, 1, 2, 3, 4]⟩]) [0] = some [some 0x04030201] ∧
    ranRegs [0x48, 0x68] (sample [(1, 0x10)] [⟨0x14, 0x18, [1, 2, 3, 4, 5]⟩]) [0] = some [some 0x04030201] ∧
    reads (.load 32 false 0 1 (.imm 4#32)) (sample [(1, 0x10)] []) = [(0x14#32, 4)] ∧
    reads (.pop 0x8003#16) (sample [(13, 0x20)] []) = [(0x20#32, 4), (0x24#32, 4), (0x28#32, 4)] := by
  refine ⟨?_, ?_, ?_, ?_⟩ <;> first | decide +kernel | (simp only [ranRegs, ran]; rw [trees, decoders_eq]; decide +kernel)

/-- The operands of some actions. -/
example : (Act.addSub false true true 0 0 (.reg 1)).sources = [0, 1] ∧ (Act.addSub false true true 0 0 (.reg 1)).flagsRead = [29] ∧
    (Act.store 32 1 13 (.imm 4#32)).sources = [1, 13] ∧ (Act.store 32 1 13 (.imm 4#32)).flagsRead = [] ∧
    (Act.push 0x4003#16).sources = [13, 0, 1, 14] ∧ (Act.branch 12 8#32).flagsRead = [30, 31, 28] ∧
    (Act.mrs 0 20#8).sources = [-4] := by decide

end C96
end Verif
