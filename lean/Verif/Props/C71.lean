import Verif.Props.C69

/-!
# C71: the console's reset
-/

namespace Verif
open Console Typed BS

namespace C71

/-- The machine went to the addresses in the vector table: `pc` is the word at 4, `sp` the
word at 0. PC is set if its new value is an address in memory, SP (13 and 17) if the word
below the new stack is in memory; the two low bits of SP stay 0. -/
structure FromTable (mem : Flat) (pc sp : Nat) (s s' : Machine) : Prop where
  pc : s'.regs (some 15) = if (mem pc).isSome then some (pc : Int) else s.regs (some 15)
  sp : ∀ k : Int, k = 13 ∨ k = 17 → s'.regs (some k) = if (mem ((sp : Int) - 4)).isSome then some ((sp - sp % 4 : Nat) : Int) else s.regs (some k)
  rest : ∀ k ∈ coreIndices, k ≠ 15 → k ≠ 13 → k ≠ 17 → s'.regs (some k) = s.regs (some k)
  memory : s'.mem = s.mem

theorem and_clear (x : BitVec 32) : x &&& 0xfffffffc#32 = (x >>> 2) <<< 2 := by
  apply BitVec.eq_of_getLsbD_eq
  intro k hk
  have hc : ∀ j, j < 32 → (0xfffffffc#32).getLsbD j = decide (2 ≤ j) := by decide
  rw [BitVec.getLsbD_and, hc k hk, BitVec.getLsbD_shiftLeft, BitVec.getLsbD_ushiftRight]
  by_cases h : 2 ≤ k
  · rw [show 2 + (k - 2) = k by omega]
    simp [h, hk]
  · simp [h, hk]

theorem keep13 {v : Nat} (h : v < 2 ^ 32) : (keepBits 13 (BitVec.ofNat 32 v)).toNat = v - v % 4 := by
  show (BitVec.ofNat 32 v &&& 0xfffffffc#32).toNat = _
  rw [and_clear, BitVec.toNat_shiftLeft, BitVec.toNat_ushiftRight, BitVec.toNat_ofNat, Nat.shiftLeft_eq, Nat.shiftRight_eq_div_pow]
  omega

theorem fromTable {s s' : Machine} {c : Core} {pc sp : Nat} (hs : Shows s c) (hp : c.read 4 4 = pc) (hsp : c.read 0 4 = sp) (h1 : pc < 2 ^ 32)
    (h2 : sp < 2 ^ 32) (hm : s'.mem = s.mem) (h : Shows s' (vectors c)) : FromTable c.mem pc sp s s' := by
  have ep : (BitVec.ofNat 32 pc).toNat = pc := by rw [BitVec.toNat_ofNat, Nat.mod_eq_of_lt h1]
  have es : (BitVec.ofNat 32 sp).toNat = sp := by rw [BitVec.toNat_ofNat, Nat.mod_eq_of_lt h2]
  unfold vectors at h
  simp only [hp, hsp, ep, es] at h
  refine ⟨?_, ?_, ?_, hm⟩
  · rw [h.1 15 (by decide), hs.1 15 (by decide)]
    by_cases a : (c.mem (pc : Int)).isSome <;> by_cases b : (c.mem ((sp : Int) - 4)).isSome
    · rw [if_pos a, if_pos a, if_pos b, core_reg_set, if_neg (by decide), core_reg_set, if_pos (.inl rfl)]
      exact congrArg (fun n : Nat => some (n : Int)) ep
    · rw [if_pos a, if_pos a, if_neg b, core_reg_set, if_pos (.inl rfl)]
      exact congrArg (fun n : Nat => some (n : Int)) ep
    · rw [if_neg a, if_neg a, if_pos b, core_reg_set, if_neg (by decide)]
    · rw [if_neg a, if_neg a, if_neg b]
  · intro k hk
    have hc : k ∈ coreIndices := by rw [mem_core]; omega
    have hr : (if (c.mem (pc : Int)).isSome then c.set 15 (BitVec.ofNat 32 pc) else c).reg k = c.reg k := by
      split
      · rw [core_reg_set, if_neg (by omega)]
      · rfl
    rw [h.1 k hc, hs.1 k hc]
    by_cases b : (c.mem ((sp : Int) - 4)).isSome
    · rw [if_pos b, if_pos b, core_reg_set, if_pos (by omega), keep13 h2]
    · rw [if_neg b, if_neg b, hr]
  · intro k hc h15 h13 h17
    rw [h.1 k hc, hs.1 k hc]
    have hr : (if (c.mem (pc : Int)).isSome then c.set 15 (BitVec.ofNat 32 pc) else c).reg k = c.reg k := by
      split
      · rw [core_reg_set, if_neg (by omega)]
      · rfl
    by_cases b : (c.mem ((sp : Int) - 4)).isSome
    · rw [if_pos b, core_reg_set, if_neg (by omega), hr]
    · rw [if_neg b, hr]

/-- **C71.** `reset_sim`, as it is called at the start: PC and SP are loaded from the vector
table; nothing else changes. Missing: the `reset` command does not do this
(`command_fails`). -/
theorem reset_partial {s : Machine} {c : Core} (hs : Shows s c) (hm : MemOK s.mem) (h0 : Inside s.mem 0 4) (h4 : Inside s.mem 4 4)
    (out : List Output) : ∃ (s' : Machine) (pc sp : Nat), flatRead c.mem 4 4 = some pc ∧ flatRead c.mem 0 4 = some sp ∧
      resetSim ⟨s, out⟩ = (.ok (), ⟨s', out ++ [.line (c! "CPU model reset."), .line (c! "PC = 0x" ++ hexPad 8 pc),
        .line (c! "SP = 0x" ++ hexPad 8 sp)]⟩) ∧ FromTable c.mem pc sp s s' := by
  obtain ⟨pc, p1, p2, -⟩ := readMemory_inside (s := s) (addr := .int 4) hm (n := 4) (by simp) h4
  obtain ⟨sp, q1, q2, -⟩ := readMemory_inside (s := s) (addr := .int 0) hm (n := 4) (by simp) h0
  have p1 : flatRead c.mem 4 4 = some pc := by rw [← hs.2]; exact p1
  have q1 : flatRead c.mem 0 4 = some sp := by rw [← hs.2]; exact q1
  have hp : c.read 4 4 = pc := by
    show (flatRead c.mem 4 4).getD 0 = _
    rw [p1]; rfl
  have hq : c.read 0 4 = sp := by
    show (flatRead c.mem 0 4).getD 0 = _
    rw [q1]; rfl
  obtain ⟨s', e1, e2, e3⟩ := resetSim_ok hs hm h0 h4 out
  refine ⟨s', pc, sp, p1, q1, ?_, fromTable hs hp hq p2 q2 e2 e3⟩
  rw [e1]
  unfold resetLines
  rw [hp, hq, BitVec.toNat_ofNat, BitVec.toNat_ofNat, Nat.mod_eq_of_lt p2, Nat.mod_eq_of_lt q2]

/-- **C71.** The `reset` command never does anything but report a `TypeError`. -/
theorem command_fails (python : Python) {cmd : Str} {args : List Str} (h : Says cmd (c! "reset") args) (w : World) :
    processCommand python cmd w = (.ok (), { w with out := w.out ++ [.report (.py .typeError)] }) := by
  rw [C67.command_runs python h (c := .reset) (by decide)]
  rfl

/-- **C71.** The command does not load PC from the vector table. -/
theorem full_claim_false : ∃ (w : World) (c : Core), Shows w.cpu c ∧ MemOK w.cpu.mem ∧ flatRead c.mem 4 4 = some 2 ∧ (c.mem 2).isSome ∧
    ∀ python, (processCommand python (c! "reset") w).2.cpu.regs (some 15) = some 0 := by
  let mem : List Region := [⟨0, 7, [0, 0, 0, 0, 2, 0, 0, 0]⟩]
  refine ⟨⟨{ Machine.new with mem := mem }, []⟩, _, shows_new mem, ⟨?_, List.pairwise_singleton _ _⟩, by decide +kernel, by decide +kernel, fun python => ?_⟩
  · intro m h
    rw [List.mem_singleton] at h
    subst h
    exact ⟨by decide, by decide⟩
  · rw [command_fails python (args := []) ⟨c! "reset", words_iff.1 (by decide), by decide⟩]
    rfl

/-- **C71.** The start of the program: whatever the binary file, its first two words are
loaded into SP and PC, and then the lines typed are processed. -/
theorem start_loads (python : Python) {binary : List Nat} (hb : ∀ b ∈ binary, b < 256) (hl : binary.length ≤ 0x1fff8000) (lines : List Str) :
    ∃ s, MemOK s.mem ∧ flat s.mem = image binary (wordAt binary 0) ∧
      FromTable (image binary (wordAt binary 0)) (wordAt binary 4) (wordAt binary 0) { Machine.new with mem := s.mem } s ∧
      toolBody python binary lines ⟨Machine.new, []⟩ = session python lines [] ⟨s, [.line (c! "CPU model reset."),
        .line (c! "PC = 0x" ++ hexPad 8 (wordAt binary 4)), .line (c! "SP = 0x" ++ hexPad 8 (wordAt binary 0))]⟩ := by
  obtain ⟨s, h1, h2, h3, h4⟩ := start_ok hb hl []
  have hf : ∀ x : Nat, x < 8 → image binary (wordAt binary 0) x = some (binary.getD x 0) := by
    intro x hx
    unfold image
    rw [if_pos (by unfold flashSize; omega)]
    rfl
  have hp : (blank (image binary (wordAt binary 0))).read 4 4 = wordAt binary 4 := by
    show (flatRead (image binary (wordAt binary 0)) ((4 : Nat) : Int) 4).getD 0 = _
    rw [flatRead_image hf (by decide)]; rfl
  have hq : (blank (image binary (wordAt binary 0))).read 0 4 = wordAt binary 0 := by
    show (flatRead (image binary (wordAt binary 0)) ((0 : Nat) : Int) 4).getD 0 = _
    rw [flatRead_image hf (by decide)]; rfl
  refine ⟨s, h1, h2, ?_, ?_⟩
  · have hb0 := shows_new s.mem
    rw [h2] at hb0
    exact fromTable hb0 hp hq (wordAt_lt hb 4) (wordAt_lt hb 0) rfl h3
  · have hr : resetLines (blank (image binary (wordAt binary 0))) = [.line (c! "CPU model reset."),
        .line (c! "PC = 0x" ++ hexPad 8 (wordAt binary 4)), .line (c! "SP = 0x" ++ hexPad 8 (wordAt binary 0))] := by
      unfold resetLines
      rw [hp, hq, BitVec.toNat_ofNat, BitVec.toNat_ofNat, Nat.mod_eq_of_lt (wordAt_lt hb 4), Nat.mod_eq_of_lt (wordAt_lt hb 0)]
    rw [hr, List.nil_append] at h4
    unfold toolBody
    rw [ConM.bind_def] at h4
    rw [ConM.bind_def]
    cases hc : cpu (createSim binary) ⟨Machine.new, []⟩ with
    | mk r w =>
      rw [hc] at h4
      cases r with
      | error e => cases h4
      | ok u =>
        simp only at h4
        simp only
        rw [ConM.bind_ok h4]

/-- **C71.** A stack in RAM or in the flash memory is always used: memory is made large
enough for it. -/
theorem stack_mapped {binary : List Nat} (h : 0x1fff8004 ≤ wordAt binary 0 ∨ (4 ≤ wordAt binary 0 ∧ wordAt binary 0 < 0x10004)) :
    (image binary (wordAt binary 0) ((wordAt binary 0 : Int) - 4)).isSome = true := by
  unfold image flashSize ramSize
  split
  · rfl
  · rw [if_pos (by omega)]
    rfl

/-- A program whose stack ends at 0x20001000 and that starts at 8, in Thumb state. -/
def program : List Nat := [0x00, 0x10, 0x00, 0x20, 0x09, 0x00, 0x00, 0x00, 0x4b, 0x1c]

example (python : Python) (lines : List Str) : ∃ s, s.regs (some 15) = some 9 ∧ s.regs (some 13) = some 0x20001000 ∧ s.regs (some 3) = some 0 ∧
    toolBody python program lines ⟨Machine.new, []⟩ = session python lines [] ⟨s, [.line (c! "CPU model reset."),
      .line (c! "PC = 0x00000009"), .line (c! "SP = 0x20001000")]⟩ := by
  obtain ⟨s, -, -, h, h2⟩ := start_loads python (binary := program) (by decide) (by decide) lines
  refine ⟨s, ?_, ?_, ?_, ?_⟩
  · rw [h.pc, if_pos]
    · rfl
    · show (image program (wordAt program 0) 9).isSome = true
      unfold image
      rw [if_pos ⟨by decide, by decide⟩]
      rfl
  · rw [h.sp 13 (.inl rfl), if_pos (stack_mapped (.inl (by decide)))]
    rfl
  · rw [h.rest 3 (by decide) (by decide) (by decide) (by decide)]
    rfl
  · rw [h2]
    have e1 : hexPad 8 (wordAt program 4) = c! "00000009" := by decide +kernel
    have e2 : hexPad 8 (wordAt program 0) = c! "20001000" := by decide +kernel
    rw [e1, e2]
    rfl

end C71
end Verif
