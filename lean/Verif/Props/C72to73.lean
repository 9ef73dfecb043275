import Verif.Props.C59to62
import Verif.Props.C40to42

/-!
# C72 and C73: decoding and executing, and programs
-/

namespace Verif
open BS CpuM Thumb

theorem ofNat_bit15 {n : Nat} (h : n < 2 ^ 15) : (BitVec.ofNat 16 n).getLsbD 15 = false := by
  rw [BitVec.getLsbD_ofNat]
  simp [Nat.testBit_lt_two_pow h]

namespace C72

/-- The register lists of PUSH and STM do not name PC. -/
def NoPcStored : Act → Prop
  | .push r => r.getLsbD 15 = false
  | .stm _ _ r => r.getLsbD 15 = false
  | _ => True

theorem regs_bit15 {m r : Nat} (hm : m < 2) (hr : r < 2 ^ 13) : (regs 0 m r).getLsbD 15 = false :=
  ofNat_bit15 (by omega)

theorem field_lt (pat : Str) (w : Nat) (c : Char) (n : Nat) (h : (places pat c).length ≤ n) : field pat w c < 2 ^ n :=
  Nat.lt_of_lt_of_le (field_bound pat w c rfl) (Nat.pow_le_pow_right (by decide) h)

theorem single_bit15 : ∀ t : Fin 16, t ≠ 15 → (single t).getLsbD 15 = false := by decide

theorem lists : ∀ c ∈ Case.all, ∀ w, c.enc.ok (field c.enc.pat w) = true → NoPcStored (c.act (field c.enc.pat w)) := by
  simp only [Case.all, List.forall_mem_cons]
  repeat' refine And.intro ?_ ?_
  all_goals first
    | exact fun w _ => trivial
    | exact fun c hc => absurd hc (List.not_mem_nil)
    | skip
  · exact fun w _ => regs_bit15 (field_lt _ w 'm' 1 (by decide)) (field_lt _ w 'r' 13 (by decide))
  · exact fun w _ => regs_bit15 (field_lt _ w 'm' 1 (by decide)) (field_lt _ w 'r' 13 (by decide))
  rotate_left
  · exact fun w _ => regs_bit15 (by decide) (field_lt _ w 'r' 13 (by decide))
  · exact fun w _ => regs_bit15 (field_lt _ w 'm' 1 (by decide)) (field_lt _ w 'r' 13 (by decide))
  · intro w h
    have h1 := field_lt Thumb.pushOne.pat w 't' 4 (by decide)
    refine single_bit15 ⟨_, h1⟩ ?_
    intro e
    have e' : field Thumb.pushOne.pat w 't' = 15 := congrArg Fin.val e
    have h2 : plainReg (field Thumb.pushOne.pat w 't') = true := h
    rw [e'] at h2
    exact absurd h2 (by decide)

/-- A condition on the state for the instruction to do what the manual says, besides no
register being PC: sums are not negative, addresses lie in memory, PC is not loaded with
an odd address; and some instructions never do, or never with some operands. -/
def Fine (mem : List Region) (c : Core) : Act → Prop
  | .push r => Words mem (c.reg 13 - w32 (4 * count r)) (count r)
  | .stm n _ r => Words mem (c.reg n) (count r)
  | act => act.Right mem c

theorem fine_right {act : Act} {mem : List Region} {c : Core} (h : Fine mem c act) (hl : NoPcStored act) : act.Right mem c := by
  cases act with
  | push r => exact ⟨hl, h⟩
  | stm n wback r => exact ⟨hl, h⟩
  | _ => exact h

/-- **C72.** For every encoding, every valid word of it, whatever bytes follow it, and every
state: decoding the bytes and executing the object gives exactly the registers and the
memory the manual says, if the word is not one that is decoded wrongly, no register named
in it is PC, and the state is `Fine`. -/
theorem decode_execute_partial (e : Enc) (he : e ∈ encodings) (w : Nat) (h : e.Is w) (hx : ¬ Wrong e (field e.pat w))
    (hp : (e.act (field e.pat w)).NoPc) (rest : List Nat) (hr : ∀ b ∈ rest, b < 256) (address : Int) {s : Machine} {c : Core}
    (hs : Shows s c) (hm : MemOK s.mem) (hf : Fine s.mem c (e.act (field e.pat w))) :
    ∃ i i' s', (trees.decode (C38.bytesOf e w ++ rest) address).1 = .ok i ∧ i.eval s = (.ok i', s') ∧
      Shows s' ((e.act (field e.pat w)).run (e.pat.length / 8) c) ∧ MemOK s'.mem := by
  obtain ⟨k, hk, rfl⟩ := C38.caseOf he
  obtain ⟨ha, hn⟩ := (agrees k hk w h.2.1 h.2.2).1 hx
  obtain ⟨i, h1, h2, h3⟩ := case_decodes hk h hn rest hr address
  have hl := lists k hk w h.2.2
  have hv := sound k hk w
  rw [ha] at h2 hl hv
  obtain ⟨i', s', h4, h5, h6, -⟩ := does_well h2 hv hp hs hm (fine_right hf hl)
  rw [h3] at h5
  exact ⟨i, i', s', h1, h4, h5, h6⟩

/-- `ldrh r1, [r0, #2]` from its encoding, at 0x10. -/
example {s : Machine} {c : Core} (hs : Shows s c) (hm : s.mem = [⟨0x10, 0x13, [1, 2, 3, 4]⟩]) (h0 : c.reg 0 = 0x10#32) :
    ∃ i i' s', (trees.decode [0x41, 0x88] 0).1 = .ok i ∧ i.eval s = (.ok i', s') ∧
      s'.regs (some 1) = some 0x403 ∧ s'.regs (some 15) = some (c.reg 15 + 2#32).toNat := by
  have hok : MemOK s.mem := by
    rw [hm]
    refine ⟨?_, List.pairwise_singleton _ _⟩
    intro m h
    rw [List.mem_singleton] at h
    subst h
    exact ⟨by decide, by decide⟩
  have hin : Inside s.mem (c.reg 0 + w32 2).toNat 2 := by
    rw [hm, h0]
    exact ⟨_, List.mem_cons_self, by decide, by decide⟩
  obtain ⟨i, i', s', h1, h2, h3, -⟩ := decode_execute_partial Thumb.ldrhImm (by simp [encodings]) 0x8841 ⟨by decide, by decide, by decide⟩
    (not_wrong (by decide) _) ⟨by decide, by decide, trivial⟩ [] (by simp) 0 hs hok hin
  have ha : Thumb.ldrhImm.act (field Thumb.ldrhImm.pat 0x8841) = .load 16 false 1 0 (.imm (w32 2)) := by decide +kernel
  rw [ha] at h3
  have hr : c.read (0x10#32 + w32 2) 2 = 0x403 := by
    unfold Core.read
    rw [← hs.2, hm]
    decide +kernel
  refine ⟨i, i', s', h1, h2, ?_, ?_⟩
  · rw [h3.1 1 (by decide)]
    show some (((c.result 2 1 (extended false 16 (c.read (c.reg 0 + w32 2) 2))).reg 1).toNat : Int) = _
    rw [h0, hr]
    rw [show (c.result 2 1 (extended false 16 0x403)).reg 1 = extended false 16 0x403 from result_reg (d := 1) (by decide) _]
    decide
  · rw [h3.1 15 (by decide)]
    rfl

end C72

namespace C73
open C72

/-- What the manual says instructions one after the other do. -/
def runAll : List (Enc × Nat) → Core → Core
  | [], c => c
  | (e, w) :: t, c => runAll t ((e.act (field e.pat w)).run (e.pat.length / 8) c)

/-- Each instruction meets the conditions of C72 in the state it is executed in. -/
def AllFine (mem : List Region) : List (Enc × Nat) → Core → Prop
  | [], _ => True
  | (e, w) :: t, c => (e.act (field e.pat w)).NoPc ∧ Fine mem c (e.act (field e.pat w)) ∧
    AllFine mem t ((e.act (field e.pat w)).run (e.pat.length / 8) c)

theorem fine_congr {m m' : List Region} (h : ∀ y k, Inside m y k ↔ Inside m' y k) (act : Act) (c : Core) :
    Fine m c act ↔ Fine m' c act := by
  cases act <;> simp only [Fine, Act.Right, Words, h]

theorem allFine_congr {m m' : List Region} (h : ∀ y k, Inside m y k ↔ Inside m' y k) : ∀ (ps : List (Enc × Nat)) (c : Core),
    AllFine m ps c ↔ AllFine m' ps c
  | [], _ => Iff.rfl
  | (e, w) :: t, c => by
    unfold AllFine
    rw [fine_congr h, allFine_congr h t]

/-- The bytes of the words. -/
def code (ps : List (Enc × Nat)) : List Nat := ps.flatMap fun p => C38.bytesOf p.1 p.2

theorem lengths : ∀ e ∈ encodings, e.pat.length = 16 ∨ e.pat.length = 32 := by decide +kernel

theorem code_lt {ps : List (Enc × Nat)} (h : ∀ p ∈ ps, p.1 ∈ encodings ∧ p.1.Is p.2) : ∀ b ∈ code ps, b < 256 := by
  intro b hb
  obtain ⟨p, hp, hb⟩ := List.mem_flatMap.1 hb
  exact C38.bytesOf_lt (lengths _ (h p hp).1) (h p hp).2.1 b hb

theorem bytesOf_length {e : Enc} (h : e ∈ encodings) (w : Nat) : (C38.bytesOf e w).length = e.pat.length / 8 := by
  unfold C38.bytesOf
  rcases lengths e h with h | h <;> simp [h]

/-- **C73.** Programs: for every sequence of valid words of encodings, disassembling their
bytes and executing the objects one after the other, as `CpuModel.execute` does, gives
exactly the registers and memory that the manual says for the instructions in a row. The
conditions are those of C72 in the state each of them is executed in. -/
theorem program_partial : ∀ (ps : List (Enc × Nat)),
    (∀ p ∈ ps, p.1 ∈ encodings ∧ p.1.Is p.2 ∧ ¬ Wrong p.1 (field p.1.pat p.2)) → ∀ (address : Int) {s : Machine} {c : Core},
    Shows s c → MemOK s.mem → AllFine s.mem ps c →
    (disasm trees (code ps) address).2 = none ∧ (disasm trees (code ps) address).1.length = ps.length ∧
    ∃ s', executeAll (disasm trees (code ps) address).1 s = (.ok (), s') ∧ Shows s' (runAll ps c) ∧ MemOK s'.mem := by
  intro ps
  induction ps with
  | nil =>
    intro _ address s c hs hm _
    have : disasm trees (code []) address = ([], none) := by
      rw [disasm_dis trees C40.trees_self]
      rfl
    rw [this]
    exact ⟨rfl, rfl, s, rfl, hs, hm⟩
  | cons p t ih =>
    intro hps address s c hs hm hf
    obtain ⟨e, w⟩ := p
    obtain ⟨he, hi, hx⟩ := hps _ List.mem_cons_self
    obtain ⟨hp, hf1, hf2⟩ := hf
    obtain ⟨k, hk, rfl⟩ := C38.caseOf he
    obtain ⟨ha, hn⟩ := (agrees k hk w hi.2.1 hi.2.2).1 hx
    obtain ⟨i, h1, h2, h3⟩ := case_decodes hk hi hn (code t)
      (code_lt fun p hp => let h := hps p (List.mem_cons_of_mem _ hp); ⟨h.1, h.2.1⟩) address
    have hl := lists k hk w hi.2.2
    have hv := sound k hk w
    rw [ha] at h2 hl hv
    obtain ⟨i', s', h4, h5, h6, h7⟩ := does_well h2 hv hp hs hm (fine_right hf1 hl)
    rw [h3] at h5
    obtain ⟨j1, j2, s'', j3, j4, j5⟩ := ih (fun p hp => hps p (List.mem_cons_of_mem _ hp)) (address + i.size) h5 h6
      ((allFine_congr h7 t _).2 hf2)
    have hlen : (C38.bytesOf k.enc w).length = i.size := (bytesOf_length he w).trans h3.symm
    have hd : disasm trees (code ((k.enc, w) :: t)) address =
        (disasm trees (code t) (address + i.size)).cons i := by
      rw [disasm_dis trees C40.trees_self, disasm_dis trees C40.trees_self, dis_eq]
      have hcode : code ((k.enc, w) :: t) = C38.bytesOf k.enc w ++ code t := by simp [code]
      rw [hcode, if_neg (by
        intro e
        have h8 := congrArg List.length e
        have h9 := size_pos i
        rw [List.length_append, List.length_nil] at h8
        omega)]
      have hda : decodeAt (C38.bytesOf k.enc w ++ code t) address = .ok i := h1
      rw [hda]
      simp only
      rw [← hlen, List.drop_left]
    rw [hd]
    refine ⟨j1, by simpa [Yields.cons] using j2, s'', ?_, j4, j5⟩
    show executeAll (i :: (disasm trees (code t) (address + i.size)).1) s = _
    unfold executeAll
    rw [bind_ok h4]
    exact j3

/-- `movs r0, #5; movs r1, #3; muls r0, r1, r0; adds r0, r0, r1`: 18 in r0. -/
example {s : Machine} {c : Core} (hs : Shows s c) (hm : MemOK s.mem) :
    ∃ s', executeAll (disasm trees [0x05, 0x20, 0x03, 0x21, 0x48, 0x43, 0x40, 0x18] 0x100).1 s = (.ok (), s') ∧
      s'.regs (some 0) = some 18 ∧ s'.regs (some 1) = some 3 ∧ s'.regs (some 15) = some (c.reg 15 + 2#32 + 2#32 + 2#32 + 2#32).toNat := by
  have a1 : movsImm.act (field movsImm.pat 0x2005) = .mov false true 0 (.imm 5#32) := by decide +kernel
  have a2 : movsImm.act (field movsImm.pat 0x2103) = .mov false true 1 (.imm 3#32) := by decide +kernel
  have a3 : muls.act (field muls.pat 0x4348) = .mul true 0 1 0 := by decide +kernel
  have a4 : addsReg.act (field addsReg.pat 0x1840) = .addSub false false true 0 0 (.reg 1) := by decide +kernel
  have key := (program_partial [(movsImm, 0x2005), (movsImm, 0x2103), (muls, 0x4348), (addsReg, 0x1840)] ?_ 0x100 hs hm ?_).2.2
  · obtain ⟨s', h1, h2, -⟩ := key
    simp only [runAll, a1, a2, a3, a4] at h2
    refine ⟨s', h1, ?_, ?_, ?_⟩
    · rw [h2.1 0 (by decide)]
      rfl
    · rw [h2.1 1 (by decide)]
      rfl
    · rw [h2.1 15 (by decide)]
      rfl
  · intro p hp
    simp only [List.mem_cons, List.not_mem_nil, or_false] at hp
    rcases hp with rfl | rfl | rfl | rfl <;>
      exact ⟨by simp [encodings], ⟨by decide, by decide, by decide⟩, not_wrong (by decide) _⟩
  · simp only [AllFine, a1, a2, a3, a4]
    refine ⟨⟨by decide, trivial⟩, fun _ => rfl, ⟨by decide, trivial⟩, fun _ => rfl, ⟨by decide, by decide, by decide⟩, trivial,
      ⟨by decide, by decide, by show (1 : Nat) < 15; decide⟩, ?_, trivial⟩
    show (C17.sum 15#32 3#32 false).msb = false
    decide

end C73
end Verif
