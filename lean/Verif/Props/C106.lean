import Verif.Props.C71
import Verif.Props.C79to80
import Verif.Props.C99

/-!
# C106: a file is simulated
-/

namespace Verif
open Console Typed BS Thumb C70

namespace C106

/-- Memory after the start. -/
def regions (binary : List Nat) : List Region := [flashRegion binary, ramRegion (wordAt binary 0)]

/-- The state in which the manual lets the program in a file begin: PC and SP from its first two words if there is
memory, all other registers zero. -/
def begins (binary : List Nat) : Core where
  reg k :=
    if k = 15 then (if (image binary (wordAt binary 0) (wordAt binary 4)).isSome then BitVec.ofNat 32 (wordAt binary 4) else 0#32)
    else if k = 13 ∨ k = 17 then
      (if (image binary (wordAt binary 0) ((wordAt binary 0 : Int) - 4)).isSome then align4 (BitVec.ofNat 32 (wordAt binary 0)) else 0#32)
    else if k = 16 then 0x01000000#32
    else 0#32
  mem := image binary (wordAt binary 0)

theorem image_low (binary : List Nat) (x : Nat) (hx : x < 0x10000) : image binary (wordAt binary 0) (x : Int) = some (binary.getD x 0) := by
  unfold image
  rw [if_pos (by unfold flashSize; omega)]
  rfl

theorem word_low (binary : List Nat) {x : Nat} (hx : x + 4 ≤ 0x10000) :
    flatRead (image binary (wordAt binary 0)) (x : Int) 4 = some (wordAt binary x) := by
  have h0 := image_low binary x (by omega)
  have h1 := image_low binary (x + 1) (by omega)
  have h2 := image_low binary (x + 2) (by omega)
  have h3 := image_low binary (x + 3) (by omega)
  simp only [Int.natCast_add] at h1 h2 h3
  unfold flatRead flatRead flatRead flatRead flatRead
  rw [show (x : Int) + 1 + 1 = x + ((2 : Nat) : Int) by omega, show (x : Int) + ((2 : Nat) : Int) + 1 = x + ((3 : Nat) : Int) by omega]
  rw [h0, h2, h3, show (x : Int) + 1 = x + ((1 : Nat) : Int) from rfl, h1]
  simp [wordAt]

theorem vectors_begins {binary : List Nat} (hb : ∀ b ∈ binary, b < 256) : vectors (blank (image binary (wordAt binary 0))) = begins binary := by
  have hp : (blank (image binary (wordAt binary 0))).read 4 4 = wordAt binary 4 := by
    show (flatRead (image binary (wordAt binary 0)) ((4 : Nat) : Int) 4).getD 0 = _
    rw [word_low binary (by decide)]; rfl
  have hq : (blank (image binary (wordAt binary 0))).read 0 4 = wordAt binary 0 := by
    show (flatRead (image binary (wordAt binary 0)) ((0 : Nat) : Int) 4).getD 0 = _
    rw [word_low binary (by decide)]; rfl
  have h4 := wordAt_lt hb 4
  have h0 := wordAt_lt hb 0
  unfold vectors begins
  rw [hp, hq]
  simp only [BitVec.toNat_ofNat, Nat.mod_eq_of_lt h4, Nat.mod_eq_of_lt h0]
  have hm : (blank (image binary (wordAt binary 0))).mem = image binary (wordAt binary 0) := rfl
  rw [hm]
  apply Core.ext
  · funext k
    generalize (image binary (wordAt binary 0) (wordAt binary 4 : Int)).isSome = b1
    generalize (image binary (wordAt binary 0) ((wordAt binary 0 : Int) - 4)).isSome = b2
    cases b1 <;> cases b2 <;>
      simp only [Bool.false_eq_true, if_false, if_true, core_reg_set, blank] <;>
      by_cases k15 : k = 15 <;> by_cases k13 : k = 13 <;> by_cases k17 : k = 17 <;> by_cases k16 : k = 16 <;>
      simp_all [keepBits, align4]
  · split <;> split <;> rfl

theorem starts (python : Python) {binary : List Nat} (hb : ∀ b ∈ binary, b < 256) (hl : binary.length ≤ 0x1fff8000) (lines : List Str) :
    ∃ s, s.mem = regions binary ∧ MemOK s.mem ∧ Shows s (begins binary) ∧
      toolBody python binary lines ⟨Machine.new, []⟩ = session python lines [] ⟨s, [.line (c! "CPU model reset."),
        .line (c! "PC = 0x" ++ hexPad 8 (wordAt binary 4)), .line (c! "SP = 0x" ++ hexPad 8 (wordAt binary 0))]⟩ := by
  have h1 := createSim_ok hb Machine.new rfl
  have hm := memory_ok hb hl (wordAt binary 0)
  have hf := flat_memory binary (wordAt binary 0)
  have hs := shows_new [flashRegion binary, ramRegion (wordAt binary 0)]
  have hin : ∀ x : Int, 0 ≤ x → x ≤ 4 → Inside [flashRegion binary, ramRegion (wordAt binary 0)] x 4 := by
    intro x hx0 hx4
    refine ⟨_, List.mem_cons_self, ?_⟩
    have : 0x10000 ≤ flashSize binary := by unfold flashSize; omega
    unfold flashRegion
    simp only
    omega
  rw [hf] at hs
  obtain ⟨s, e, m, h⟩ := resetSim_ok hs hm (hin 0 (by decide) (by decide)) (hin 4 (by decide) (by decide)) []
  refine ⟨s, m, by rw [m]; exact hm, by rw [← vectors_begins hb]; exact h, ?_⟩
  unfold toolBody
  rw [ConM.bind_ok (cpu_ok h1)]
  rw [ConM.bind_ok e]
  have hp : (blank (image binary (wordAt binary 0))).read 4 4 = wordAt binary 4 := by
    show (flatRead (image binary (wordAt binary 0)) ((4 : Nat) : Int) 4).getD 0 = _
    rw [word_low binary (by decide)]; rfl
  have hq : (blank (image binary (wordAt binary 0))).read 0 4 = wordAt binary 0 := by
    show (flatRead (image binary (wordAt binary 0)) ((0 : Nat) : Int) 4).getD 0 = _
    rw [word_low binary (by decide)]; rfl
  unfold resetLines
  rw [hp, hq, BitVec.toNat_ofNat, BitVec.toNat_ofNat, Nat.mod_eq_of_lt (wordAt_lt hb 4), Nat.mod_eq_of_lt (wordAt_lt hb 0)]
  rfl

/-! ### Lines that are typed -/

/-- A step command. -/
def Step (cmd : Str) : Prop := ∃ name ∈ stepNames, ∃ args, Says cmd name args

/-- These lines, after this last line, are `n` step commands: some in a line, with semicolons, or empty lines that
repeat a line with one command. -/
inductive Lines : Str → List Str → Nat → Prop where
  | done {last : Str} : Lines last [] 0
  | line {last l t : Str} {cmds rest : List Str} {n : Nat} : Stripped l t → t ≠ [] → Parts t cmds → (∀ cmd ∈ cmds, Step cmd) →
      Lines t rest n → Lines last (l :: rest) (cmds.length + n)
  | again {last e : Str} {rest : List Str} {n : Nat} : (∀ c ∈ e, Blank c) → last ≠ [] → Step last → Lines last rest n →
      Lines last (e :: rest) (1 + n)
  | nothing {e : Str} {rest : List Str} {n : Nat} : (∀ c ∈ e, Blank c) → Lines [] rest n → Lines [] (e :: rest) n

theorem goes_split {mem : List Region} : ∀ {m n : Nat} {c d : Core}, Goes mem (m + n) c d → ∃ b, Goes mem m c b ∧ Goes mem n b d
  | 0, n, c, d, h => ⟨c, .done, by simpa using h⟩
  | m + 1, n, c, d, h => by
    rw [Nat.add_right_comm] at h
    cases h with
    | more h1 h2 =>
      obtain ⟨b, g1, g2⟩ := goes_split h2
      exact ⟨b, .more h1 g1, g2⟩

theorem session_steps (python : Python) {last : Str} {lines : List Str} {n : Nat} (h : Lines last lines n) : ∀ {mem : List Region} {c d : Core},
    Goes mem n c d → ∀ {w : World}, w.cpu.mem = mem → Shows w.cpu c → MemOK w.cpu.mem →
    ∃ s' ls, session python lines last w = (.ok (), ⟨s', w.out ++ ls ++ [.line []]⟩) ∧ ls.length = n ∧ Shows s' d ∧ MemOK s'.mem := by
  induction h with
  | done =>
    intro mem c d hg w he hs hm
    cases hg
    exact ⟨w.cpu, [], by rw [List.append_nil]; rfl, rfl, hs, hm⟩
  | @line last l t cmds rest n h1 h2 h3 h4 _ ih =>
    intro mem c d hg w he hs hm
    obtain ⟨b, g1, g2⟩ := goes_split hg
    obtain ⟨s1, ls, e1, e2, e3, e4, e5⟩ := steps_well python g1 he hs hm rfl h4
    subst he
    obtain ⟨s2, ls', f1, f2, f3, f4⟩ := ih (goes_congr (fun y k => (e5 y k).symm) g2) (w := ⟨s1, w.out ++ ls⟩) rfl e3 e4
    refine ⟨s2, ls ++ ls', ?_, by rw [List.length_append, e2, f2], f3, f4⟩
    rw [C80.session_line python h1 h2]
    have e1' : processCommandLine python t w = (.ok (), ⟨s1, w.out ++ ls⟩) := by
      unfold processCommandLine
      rw [parts_of h3]
      exact e1
    rw [ConM.bind_ok e1', f1]
    simp only [List.append_assoc]
  | @again last e rest n h1 h2 h3 _ ih =>
    intro mem c d hg w he hs hm
    obtain ⟨b, g1, g2⟩ := goes_split hg
    obtain ⟨s1, ls, e1, e2, e3, e4, e5⟩ := steps_well python g1 he hs hm (cmds := [last]) rfl (fun cmd h => by
      rw [List.mem_singleton] at h; subst h; exact h3)
    subst he
    obtain ⟨s2, ls', f1, f2, f3, f4⟩ := ih (goes_congr (fun y k => (e5 y k).symm) g2) (w := ⟨s1, w.out ++ ls⟩) rfl e3 e4
    refine ⟨s2, ls ++ ls', ?_, by rw [List.length_append, e2, f2], f3, f4⟩
    rw [C80.session_empty python h1 rest h2]
    have e1' : processCommand python last w = (.ok (), ⟨s1, w.out ++ ls⟩) := by
      unfold processCommands at e1
      rw [ConM.bind_def] at e1
      cases hx : processCommand python last w with
      | mk r w' =>
        rw [hx] at e1
        cases r with
        | error x => cases e1
        | ok u => exact e1
    rw [ConM.bind_ok e1', f1]
    simp only [List.append_assoc]
  | @nothing e rest n h1 _ ih =>
    intro mem c d hg w he hs hm
    have := C80.nothing_to_repeat python (es := [e]) (fun x hx => by rw [List.mem_singleton] at hx; subst hx; exact h1) rest
    rw [List.singleton_append] at this
    rw [this]
    exact ih hg he hs hm

/-- **C106.** From the file to the last state: if the program is started with a file, and the lines typed are `n` step
commands, it ends with exit code 0, and registers and memory are what the manual says after `n` instructions from
reset. It prints PC and SP and a line for each instruction. Missing: instructions that are executed otherwise than in the manual, see
C70 and C72. -/
theorem simulates_partial (python : Python) {binary : List Nat} (hb : ∀ b ∈ binary, b < 256) (hl : binary.length ≤ 0x1fff8000)
    {lines : List Str} {n : Nat} (ht : Lines [] lines n) {d : Core} (hg : Goes (regions binary) n (begins binary) d) :
    ∃ s' ls, Console.run python binary lines = (.ok 0, ⟨s', [.line (c! "CPU model reset."), .line (c! "PC = 0x" ++ hexPad 8 (wordAt binary 4)),
        .line (c! "SP = 0x" ++ hexPad 8 (wordAt binary 0))] ++ ls ++ [.line []]⟩) ∧ ls.length = n ∧ Shows s' d ∧ MemOK s'.mem := by
  obtain ⟨s, h1, h2, h3, h4⟩ := starts python hb hl lines
  obtain ⟨s', ls, e1, e2, e3, e4⟩ := session_steps python ht hg (w := ⟨s, _⟩) h1 h3 h2
  refine ⟨s', ls, ?_, e2, e3, e4⟩
  unfold Console.run
  rw [h4, e1]

/-! ### A file that copies -/

/-- The code at 8 of a file that copies: it loads r0, r1, r2 and r7 from the words at 36, 40, 44 and 48 and goes to the
loop of C99, which is at 20.

    ldr r0, [pc, #24]; ldr r1, [pc, #28]; ldr r2, [pc, #28]; ldr r7, [pc, #32]; bx r7; nop; … -/
def copier : List Nat := [0x06, 0x48, 0x07, 0x49, 0x07, 0x4a, 0x08, 0x4f, 0x38, 0x47, 0x00, 0xbf] ++ C99.copyLoop

/-- PC is at this address, or one further. -/
def PcAt (c : Core) (x : Nat) : Prop := (c.reg 15).toNat / 2 * 2 = x

/-- An instruction of a program that lies in memory, the next one is an instruction too. -/
theorem stands_at {mem : List Region} {c : Core} {x : Nat} {bs : List Nat} (h : C99.Lies c.mem x bs) (hin : Inside mem x bs.length)
    {j : Nat} (hpc : PcAt c (x + j)) {e e' : Enc} {a b a' b' : Nat} (ha : bs[j]? = some a) (hb : bs[j + 1]? = some b)
    (ha' : bs[j + 2]? = some a') (hb' : bs[j + 3]? = some b') (he : e ∈ encodings) (hl : e.pat.length = 16) (hi : e.Is (a + 256 * b))
    (he' : e' ∈ encodings) (hl' : e'.pat.length = 16) (hi' : e'.Is (a' + 256 * b')) (hw : ¬ Wrong e (field e.pat (a + 256 * b)))
    (hp : (e.act (field e.pat (a + 256 * b))).NoPc) (hf : C72.Fine mem c (e.act (field e.pat (a + 256 * b)))) :
    Stands mem c e (a + 256 * b) := by
  have hat : at_ c = ((x + j : Nat) : Int) := by
    unfold at_
    unfold PcAt at hpc
    omega
  have hlen := (List.getElem?_eq_some_iff.1 hb').1
  have h2 := C99.lies_halfword h (j := j + 2) ha' hb'
  refine ⟨he, hi, ?_, ?_, hw, hp, hf, fun _ => .short (h := a' + 256 * b') (e := e') ?_ ?_ he' hl' hi'⟩
  · rw [hat, hl]
    exact C99.inside_part hin (by omega) (by omega)
  · rw [hat, hl]
    exact C99.lies_halfword h ha hb
  · rw [hat]
    exact C99.inside_part hin (by omega) (by omega)
  · rw [hat, show ((x + j : Nat) : Int) + 2 = ((x + (j + 2) : Nat) : Int) by omega]
    exact h2

/-- The word at the literal. -/
theorem literal_run {c : Core} {x k v : Nat} (hpc : PcAt c x) (hx : x + 4 + k < 2 ^ 31) {t : Nat} (ht : t < 8)
    (hr : flatRead c.mem (((x + 4) / 4 * 4 + k : Nat) : Int) 4 = some v) (hv : v < 2 ^ 32) :
    (align4 (c.rd 15) + w32 k).toNat = (x + 4) / 4 * 4 + k ∧
    ∃ c', (Act.loadLit 32 false true t (w32 k)).run 2 c = c' ∧ PcAt c' (x + 2) ∧ (∀ j : Nat, j < 8 → j ≠ t → c'.reg j = c.reg j) ∧
      (c'.reg t).toNat = v ∧ c'.mem = c.mem := by
  have hax : (align4 (c.rd 15) + w32 k).toNat = (x + 4) / 4 * 4 + k := by
    unfold PcAt at hpc
    rw [BitVec.toNat_add, C65.align4_toNat, core_rd15, BitVec.toNat_add, w32, BitVec.toNat_ofNat]
    simp
    omega
  refine ⟨hax, _, rfl, ?_, ?_, ?_, ?_⟩ <;>
    simp only [Act.run, core_result (show t < 15 by omega), if_true]
  · unfold PcAt at hpc ⊢
    rw [C99.next_pc, C99.set_other _ ht (by omega), BitVec.toNat_add]
    simp
    omega
  · intro j hj hjk
    rw [C99.next_reg _ _ (by omega), C99.set_other _ ht (by omega)]
  · rw [C99.next_reg _ _ (by omega), C99.set_low _ ht]
    have : c.read (align4 (c.rd 15) + w32 k) (32 / 8) = v := by
      unfold Core.read
      rw [hax, hr]
      rfl
    rw [this]
    simp [extended]
    omega
  · rfl

theorem inside_image {binary : List Nat} {x : Int} (h : (image binary (wordAt binary 0) x).isSome = true) : Inside (regions binary) x 1 := by
  unfold image at h
  by_cases h1 : 0 ≤ x ∧ x < flashSize binary
  · refine ⟨flashRegion binary, List.mem_cons_self, ?_⟩
    unfold flashRegion
    simp only
    omega
  · rw [if_neg h1] at h
    by_cases h2 : 0x1fff8000 ≤ x ∧ x < 0x1fff8000 + ramSize (wordAt binary 0)
    · refine ⟨ramRegion (wordAt binary 0), List.mem_cons_of_mem _ List.mem_cons_self, ?_⟩
      unfold ramRegion
      simp only
      omega
    · rw [if_neg h2] at h
      cases h

theorem inside_low (binary : List Nat) {x k : Nat} (h : x + k ≤ 0x10000) : Inside (regions binary) (x : Int) k := by
  refine ⟨flashRegion binary, List.mem_cons_self, ?_⟩
  have : 0x10000 ≤ flashSize binary := by unfold flashSize; omega
  unfold flashRegion
  simp only
  omega

/-- The file begins with a vector table to this code. -/
structure Copies (binary : List Nat) (dst src n : Nat) : Prop where
  bytes : ∀ b ∈ binary, b < 256
  size : binary.length ≤ 0x1fff8000
  pc : wordAt binary 4 = 8 ∨ wordAt binary 4 = 9
  code : (binary.drop 8).take 28 = copier
  dst : wordAt binary 36 = dst
  src : wordAt binary 40 = src
  count : wordAt binary 44 = n
  loop : wordAt binary 48 = 20 ∨ wordAt binary 48 = 21

theorem copies_lies {binary : List Nat} {dst src n : Nat} (h : Copies binary dst src n) : C99.Lies (image binary (wordAt binary 0)) 8 copier := by
  intro j hj
  have hj' : j < 28 := hj
  rw [image_low binary (8 + j) (by omega), ← h.code, List.getElem?_take, if_pos hj', List.getElem?_drop]
  have hlen : (List.take 28 (binary.drop 8)).length = 28 := by rw [h.code]; rfl
  rw [List.length_take, List.length_drop] at hlen
  rw [List.getD_eq_getElem?_getD, List.getElem?_eq_getElem (by omega)]
  rfl

theorem setup {binary : List Nat} {dst src n : Nat} (h : Copies binary dst src n) :
    ∃ c, Goes (regions binary) 5 (begins binary) c ∧ C99.At (regions binary) c 20 20 dst src n ∧ c.mem = image binary (wordAt binary 0) := by
  have hlies := copies_lies h
  have hin : Inside (regions binary) ((8 : Nat) : Int) copier.length := inside_low binary (by decide)
  have hp0 : PcAt (begins binary) (8 + 0) := by
    have : (begins binary).reg 15 = BitVec.ofNat 32 (wordAt binary 4) := by
      show (if (image binary (wordAt binary 0) (wordAt binary 4)).isSome then _ else _) = _
      rw [image_low binary _ (by rcases h.pc with e | e <;> omega)]
      rfl
    unfold PcAt
    rw [this]
    rcases h.pc with e | e <;> rw [e] <;> decide
  have fine : ∀ {c : Core} {t k : Nat}, (align4 (c.rd 15) + w32 k).toNat + 4 ≤ 0x10000 →
      C72.Fine (regions binary) c (.loadLit 32 false true t (w32 k)) := fun {c t k} hk => inside_low binary hk
  have lit : ∀ {x : Nat}, wordAt binary x < 2 ^ 32 := fun {x} => wordAt_lt h.bytes x
  -- ldr r0
  have a0 : Thumb.ldrLit.act (field Thumb.ldrLit.pat (0x06 + 256 * 0x48)) = .loadLit 32 false true 0 (w32 24) := by decide +kernel
  obtain ⟨x0, c1, r0, p1, o1, v1, m1⟩ := literal_run (k := 24) hp0 (by decide) (t := 0) (by decide) (word_low binary (x := 36) (by decide)) lit
  have g0 := C99.goes_one (stands_at (mem := regions binary) hlies hin (j := 0) hp0 (e := Thumb.ldrLit) (a' := 0x07) (b' := 0x49) (e' := Thumb.ldrLit) rfl rfl rfl rfl
    (by simp [encodings]) rfl ⟨by decide, by decide, by decide⟩ (by simp [encodings]) rfl ⟨by decide, by decide, by decide⟩ (not_wrong (by decide) _)
    (by rw [a0]; exact (by decide : 0 < 15)) (by rw [a0]; exact fine (by rw [x0]; decide))) a0 rfl
  rw [r0] at g0
  have m1 : c1.mem = image binary (wordAt binary 0) := m1
  -- ldr r1
  have a1 : Thumb.ldrLit.act (field Thumb.ldrLit.pat (0x07 + 256 * 0x49)) = .loadLit 32 false true 1 (w32 28) := by decide +kernel
  obtain ⟨x1, c2, r1, p2, o2, v2, m2⟩ := literal_run (k := 28) p1 (by decide) (t := 1) (by decide) (by rw [m1]; exact word_low binary (x := 40) (by decide)) lit
  have g1 := C99.goes_one (stands_at (mem := regions binary) (c := c1) (by rw [m1]; exact hlies) hin (j := 2) p1 (e := Thumb.ldrLit) (a' := 0x07) (b' := 0x4a) (e' := Thumb.ldrLit) rfl rfl rfl rfl
    (by simp [encodings]) rfl ⟨by decide, by decide, by decide⟩ (by simp [encodings]) rfl ⟨by decide, by decide, by decide⟩ (not_wrong (by decide) _)
    (by rw [a1]; exact (by decide : 1 < 15)) (by rw [a1]; exact fine (by rw [x1]; decide))) a1 rfl
  rw [r1] at g1
  rw [m1] at m2
  -- ldr r2
  have a2 : Thumb.ldrLit.act (field Thumb.ldrLit.pat (0x07 + 256 * 0x4a)) = .loadLit 32 false true 2 (w32 28) := by decide +kernel
  obtain ⟨x2, c3, r2, p3, o3, v3, m3⟩ := literal_run (k := 28) p2 (by decide) (t := 2) (by decide) (by rw [m2]; exact word_low binary (x := 44) (by decide)) lit
  have g2 := C99.goes_one (stands_at (mem := regions binary) (c := c2) (by rw [m2]; exact hlies) hin (j := 4) p2 (e := Thumb.ldrLit) (a' := 0x08) (b' := 0x4f) (e' := Thumb.ldrLit) rfl rfl rfl rfl
    (by simp [encodings]) rfl ⟨by decide, by decide, by decide⟩ (by simp [encodings]) rfl ⟨by decide, by decide, by decide⟩ (not_wrong (by decide) _)
    (by rw [a2]; exact (by decide : 2 < 15)) (by rw [a2]; exact fine (by rw [x2]; decide))) a2 rfl
  rw [r2] at g2
  rw [m2] at m3
  -- ldr r7
  have a3 : Thumb.ldrLit.act (field Thumb.ldrLit.pat (0x08 + 256 * 0x4f)) = .loadLit 32 false true 7 (w32 32) := by decide +kernel
  obtain ⟨x3, c4, r3, p4, o4, v4, m4⟩ := literal_run (k := 32) p3 (by decide) (t := 7) (by decide) (by rw [m3]; exact word_low binary (x := 48) (by decide)) lit
  have g3 := C99.goes_one (stands_at (mem := regions binary) (c := c3) (by rw [m3]; exact hlies) hin (j := 6) p3 (e := Thumb.ldrLit) (a' := 0x38) (b' := 0x47) (e' := Thumb.bx) rfl rfl rfl rfl
    (by simp [encodings]) rfl ⟨by decide, by decide, by decide⟩ (by simp [encodings]) rfl ⟨by decide, by decide, by decide⟩ (not_wrong (by decide) _)
    (by rw [a3]; exact (by decide : 7 < 15)) (by rw [a3]; exact fine (by rw [x3]; decide))) a3 rfl
  rw [r3] at g3
  rw [m3] at m4
  -- bx r7
  have a4 : Thumb.bx.act (field Thumb.bx.pat (0x38 + 256 * 0x47)) = .bx 7 := by decide +kernel
  have g4 := C99.goes_one (stands_at (mem := regions binary) (c := c4) (by rw [m4]; exact hlies) hin (j := 8) p4 (e := Thumb.bx) (a' := 0x00) (b' := 0xbf) (e' := Thumb.nop) rfl rfl rfl rfl
    (by simp [encodings]) rfl ⟨by decide, by decide, by decide⟩ (by simp [encodings]) rfl ⟨by decide, by decide, by decide⟩ (not_wrong (by decide) _)
    (by rw [a4]; exact (by decide : 7 < 15)) (by rw [a4]; trivial)) a4 rfl
  have h7 : (c4.reg 7 &&& ~~~1#32).toNat = 20 := by
    rw [C81.clear_nat]
    rw [show c4.reg 7 = c4.reg ((7 : Nat) : Int) from rfl, v4]
    rcases h.loop with e | e <;> rw [e]
  refine ⟨_, C99.goes_trans (C99.goes_trans (C99.goes_trans (C99.goes_trans g0 g1) g2) g3) g4, ⟨?_, ?_, ?_, ?_, ?_, ?_, ?_⟩, ?_⟩
  · intro j hj
    show c4.mem _ = _
    have := hlies (12 + j) (by have : j < 16 := hj; show 12 + j < 28; omega)
    rw [m4, show 20 + j = 8 + (12 + j) by omega, this]
    unfold copier
    rw [List.getElem?_append_right (by simp)]
    simp
  · show (keepBits 15 (c4.reg 7 &&& ~~~1#32)).toNat = 20
    rw [show keepBits 15 (c4.reg 7 &&& ~~~1#32) = c4.reg 7 &&& ~~~1#32 from keepBits_plain (d := 15) (by decide) (by decide) _]
    exact h7
  · show (c4.reg ((0 : Nat) : Int)).toNat = dst
    rw [o4 0 (by decide) (by decide), o3 0 (by decide) (by decide), o2 0 (by decide) (by decide), v1, h.dst]
  · show (c4.reg ((1 : Nat) : Int)).toNat = src
    rw [o4 1 (by decide) (by decide), o3 1 (by decide) (by decide), v2, h.src]
  · show (c4.reg ((2 : Nat) : Int)).toNat = n
    rw [o4 2 (by decide) (by decide), v3, h.count]
  · exact h7
  · show C99.Full (regions binary) c4.mem
    rw [m4, ← flat_memory]
    exact C99.full_flat (memory_ok h.bytes h.size _)
  · exact m4

/-- **C106.** Such a file copies: with any vector table for this code, any words at 36, 40 and 44 that give a destination, a
source and a number of bytes in the simulated memory, and any further contents, `7 * n + 4` step commands copy the `n`
bytes and change nothing else in memory. Missing: addresses from 2 ^ 31 on, see C99. -/
theorem file_copies_partial (python : Python) {binary : List Nat} {dst src n : Nat} (h : Copies binary dst src n) (hn : 0 < n)
    (hsrc : ∀ j, j < n → (image binary (wordAt binary 0) (src + j : Nat)).isSome = true)
    (hdst : ∀ j, j < n → (image binary (wordAt binary 0) (dst + j : Nat)).isSome = true)
    (hlow : src + n < 2 ^ 31 ∧ dst + n < 2 ^ 31) (hapart : ∀ j, j < n → dst + j < 20 ∨ 36 ≤ dst + j) (hover : dst ≤ src ∨ src + n ≤ dst)
    {lines : List Str} (ht : Lines [] lines (7 * n + 4)) :
    ∃ s' out, Console.run python binary lines = (.ok 0, ⟨s', out⟩) ∧ out.length = 7 * n + 8 ∧
      ∀ y : Int, flat s'.mem y = if (dst : Int) ≤ y ∧ y < dst + (n : Int) then image binary (wordAt binary 0) (src + (y - dst))
        else image binary (wordAt binary 0) y := by
  obtain ⟨c, g, ha, hm⟩ := setup h
  obtain ⟨k, rfl⟩ : ∃ k, n = k + 1 := ⟨n - 1, by omega⟩
  have hr : C99.Room (regions binary) 20 dst src (k + 1) :=
    ⟨by decide, inside_low binary (by decide), by decide, fun j hj => inside_image (hsrc j hj), fun j hj => inside_image (hdst j hj), hlow,
      by omega, hapart⟩
  obtain ⟨d, g', hd, hmem⟩ := C99.loop k dst src ha hr hover
  have hg := C99.goes_trans g g'
  rw [show 7 * (k + 1) + 4 = 5 + (7 * k + 6) by omega] at ht
  obtain ⟨s', ls, e1, e2, e3, -⟩ := simulates_partial python h.bytes h.size ht hg
  refine ⟨s', _, e1, ?_, fun y => ?_⟩
  · rw [List.length_append, List.length_append, e2]
    simp only [List.length_cons, List.length_nil]
    omega
  · rw [e3.2, hmem, hm]

/-- A file that copies the three bytes after the code to the beginning of RAM. -/
def file : List Nat := [0x00, 0x00, 0x00, 0x20, 0x09, 0x00, 0x00, 0x00] ++ copier ++
  [0x00, 0x80, 0xff, 0x1f, 0x34, 0x00, 0x00, 0x00, 0x03, 0x00, 0x00, 0x00, 0x15, 0x00, 0x00, 0x00] ++ [0xaa, 0xbb, 0xcc]

theorem replicate_lines {t : Str} (hn : t ≠ []) (h : Step t) : ∀ n, Lines t (List.replicate n []) n
  | 0 => .done
  | n + 1 => by
    rw [List.replicate_succ, Nat.add_comm]
    exact .again (fun _ h => by cases h) hn h (replicate_lines hn h n)

/-- `s` is typed, and then the return key 24 times. -/
example (python : Python) : ∃ s' out, Console.run python file (c! "s" :: List.replicate 24 []) = (.ok 0, ⟨s', out⟩) ∧ out.length = 29 ∧
    flat s'.mem 0x1fff8000 = some 0xaa ∧ flat s'.mem 0x1fff8001 = some 0xbb ∧ flat s'.mem 0x1fff8002 = some 0xcc ∧
    flat s'.mem 0x1fff8003 = some 0 := by
  have hc : Copies file 0x1fff8000 52 3 := ⟨by decide, by decide, .inr (by decide), by decide, by decide, by decide, by decide, .inr (by decide)⟩
  have hs : Step (c! "s") := ⟨c! "s", by decide, [], c! "s", words_iff.1 (by decide), by decide⟩
  have hw : wordAt file 0 = 0x20000000 := by decide
  have hl : Lines [] (c! "s" :: List.replicate 24 []) (1 + 24) :=
    .line (l := c! "s") (t := c! "s") (cmds := [c! "s"]) (.full (pre := []) (t := c! "s") (post := []) (fun _ h => by cases h) (fun _ h => by cases h) (by decide)
      (by decide) (by decide)) (by decide) (.last (by decide)) (fun cmd h => by rw [List.mem_singleton] at h; subst h; exact hs)
      (replicate_lines (by decide) hs 24)
  have him : ∀ x : Nat, x < 55 → image file (wordAt file 0) (x : Int) = some (file.getD x 0) := fun x hx => image_low file x (by omega)
  have hram : ∀ x : Int, 0x1fff8000 ≤ x → x < 0x1fff8010 → image file (wordAt file 0) x = some 0 := fun x h1 h2 => by
    rw [hw]
    unfold image flashSize ramSize
    have : file.length = 55 := rfl
    rw [if_neg (by omega), if_pos (by omega)]
  obtain ⟨s', out, e1, e2, e3⟩ := file_copies_partial python hc (by decide) (fun j hj => by rw [him _ (by omega)]; rfl)
    (fun j hj => by rw [hram _ (by omega) (by omega)]; rfl) (by decide) (fun j hj => by omega) (.inr (by decide)) hl
  refine ⟨s', out, e1, e2, ?_, ?_, ?_, ?_⟩
  · rw [e3, if_pos (by decide)]
    exact him 52 (by decide)
  · rw [e3, if_pos (by decide)]
    exact him 53 (by decide)
  · rw [e3, if_pos (by decide)]
    exact him 54 (by decide)
  · rw [e3, if_neg (by decide)]
    exact hram _ (by decide) (by decide)

end C106
end Verif
