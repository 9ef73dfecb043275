import Verif.Props.C72to73
import Verif.Props.C43to48

/-!
# C73: programs, also with negative results

The conditions of C72 on sums are dropped; the result is what the code really computes.
-/

namespace Verif
open BS CpuM Thumb C43

namespace C73

/-- What an instruction really does: as the manual says, but negative sums are complemented (C43, C48). -/
def real (size : Nat) (c : Core) : Act → Core
  | .addSub sub carry flags d n src =>
    let x := c.reg n
    let y := if sub then ~~~src.val c else src.val c
    let b := if carry then c.flag 29 else sub
    (c.flags flags (wrongIfNegative (C17.sum x y b)) (some (C17.carryOut x y b)) (some (C17.overflow x y b))).result size d
      (wrongIfNegative (C17.sum x y b))
  | .rsb flags d n imm =>
    let x := ~~~c.reg n
    (c.flags flags (wrongIfNegative (C17.sum x imm true)) (some (C17.carryOut x imm true)) (some (C17.overflow x imm true))).result size d
      (wrongIfNegative (C17.sum x imm true))
  | .cmp sub n src =>
    let x := c.reg n
    let y := if sub then ~~~src.val c else src.val c
    (c.set 16 (newFlags (c.reg 16) false (decide (C17.sum x y sub = 0#32 ∨ C17.sum x y sub = 0xffffffff#32))
      (some (C17.carryOut x y sub)) (some (C17.overflow x y sub)))).next size
  | act => act.run size c

/-- The conditions of C72 without those on sums. -/
def Fair (mem : List Region) (c : Core) : Act → Prop
  | .addSub .. => True
  | .rsb .. => True
  | .cmp .. => True
  | act => C72.Fine mem c act

theorem ends_well {act : Act} {i : Instr} (h : act.Of i) (hv : act.Valid) (hst : ¬ act.Stores) {s : Machine} {c d : Core} (hs : Shows s c)
    (hm : MemOK s.mem) (he : EndsIn i s d) : EndsWell i s d := by
  obtain ⟨a, rfl, rfl, ha⟩ := hs.arm
  rw [← ha] at hm
  obtain ⟨i', s', h1, h2⟩ := he
  have hmem := effect_mem hst i.size a
  have h4 := effect_inside act i.size a
  have h5 : s'.mem = (act.effect i.size a).2.mem := by
    have := eval_exact h hv a
    rw [h1] at this
    generalize act.effect i.size a = p at this
    obtain ⟨r, b⟩ := p
    cases r with
    | ok u => exact congrArg (fun p => p.2.mem) this
    | error e => cases this
  refine ⟨i', s', h1, h2, ?_, ?_⟩
  · rw [h5, hmem]
    exact hm
  · rw [h5]
    exact h4

theorem does_fair {act : Act} {i : Instr} (h : act.Of i) (hv : act.Valid) (hp : act.NoPc) {s : Machine} {c : Core} (hs : Shows s c)
    (hm : MemOK s.mem) (hr : Fair s.mem c act) (hl : C72.NoPcStored act) : EndsWell i s (real i.size c act) := by
  cases act with
  | addSub sub carry flags d n src => exact ends_well h hv id hs hm (add_sub_exact h hp.1 hp.2.1 hp.2.2 hs _ _ _ rfl rfl rfl)
  | rsb flags d n imm => exact ends_well h hv id hs hm (reverse_subtract_exact h hp.1 hs _ rfl)
  | cmp sub n src => exact ends_well h hv id hs hm (C48.compare_exact h hp.1 hp.2 hs _ _ rfl rfl)
  | _ => exact does_well h hv hp hs hm (C72.fine_right hr hl)

/-- What instructions one after the other really do. -/
def realAll : List (Enc × Nat) → Core → Core
  | [], c => c
  | (e, w) :: t, c => realAll t (real (e.pat.length / 8) c (e.act (field e.pat w)))

/-- Each instruction meets the conditions in the state it is executed in. -/
def AllFair (mem : List Region) : List (Enc × Nat) → Core → Prop
  | [], _ => True
  | (e, w) :: t, c => (e.act (field e.pat w)).NoPc ∧ Fair mem c (e.act (field e.pat w)) ∧
    AllFair mem t (real (e.pat.length / 8) c (e.act (field e.pat w)))

theorem fair_congr {m m' : List Region} (h : ∀ y k, Inside m y k ↔ Inside m' y k) (act : Act) (c : Core) :
    Fair m c act ↔ Fair m' c act := by
  cases act <;> simp only [Fair, C72.Fine, Act.Right, Words, h]

theorem allFair_congr {m m' : List Region} (h : ∀ y k, Inside m y k ↔ Inside m' y k) : ∀ (ps : List (Enc × Nat)) (c : Core),
    AllFair m ps c ↔ AllFair m' ps c
  | [], _ => Iff.rfl
  | (e, w) :: t, c => by
    unfold AllFair
    rw [fair_congr h, allFair_congr h t]

/-- **C73.** Programs exactly, also where sums are negative: disassembling the bytes of valid words and executing the objects one
after the other gives what the manual says, with every negative result of ADD, ADC, SUB, SBC, RSB, CMP and CMN complemented,
and N and Z taken from the complement. Missing from the full claim: the other conditions of C72. -/
theorem program_exact_partial : ∀ (ps : List (Enc × Nat)),
    (∀ p ∈ ps, p.1 ∈ encodings ∧ p.1.Is p.2 ∧ ¬ Wrong p.1 (field p.1.pat p.2)) → ∀ (address : Int) {s : Machine} {c : Core},
    Shows s c → MemOK s.mem → AllFair s.mem ps c →
    (disasm trees (code ps) address).2 = none ∧ (disasm trees (code ps) address).1.length = ps.length ∧
    ∃ s', executeAll (disasm trees (code ps) address).1 s = (.ok (), s') ∧ Shows s' (realAll ps c) ∧ MemOK s'.mem := by
  intro ps
  induction ps with
  | nil =>
    intro _ address s c hs hm _
    have : disasm trees (code []) address = ([], none) := by
      rw [disasm_dis trees C40.trees_self]
      rfl
    rw [this]
    exact ⟨rfl, rfl, s, rfl, hs, hm⟩
  | cons p t ih =>
    intro hps address s c hs hm hf
    obtain ⟨e, w⟩ := p
    obtain ⟨he, hi, hx⟩ := hps _ List.mem_cons_self
    obtain ⟨hp, hf1, hf2⟩ := hf
    obtain ⟨k, hk, rfl⟩ := C38.caseOf he
    obtain ⟨ha, hn⟩ := (agrees k hk w hi.2.1 hi.2.2).1 hx
    obtain ⟨i, h1, h2, h3⟩ := case_decodes hk hi hn (code t)
      (code_lt fun p hp => let h := hps p (List.mem_cons_of_mem _ hp); ⟨h.1, h.2.1⟩) address
    have hl := C72.lists k hk w hi.2.2
    have hv := sound k hk w
    rw [ha] at h2 hl hv
    obtain ⟨i', s', h4, h5, h6, h7⟩ := does_fair h2 hv hp hs hm hf1 hl
    rw [h3] at h5
    obtain ⟨j1, j2, s'', j3, j4, j5⟩ := ih (fun p hp => hps p (List.mem_cons_of_mem _ hp)) (address + i.size) h5 h6
      ((allFair_congr h7 t _).2 hf2)
    have hlen : (C38.bytesOf k.enc w).length = i.size := (bytesOf_length he w).trans h3.symm
    have hd : disasm trees (code ((k.enc, w) :: t)) address =
        (disasm trees (code t) (address + i.size)).cons i := by
      rw [disasm_dis trees C40.trees_self, disasm_dis trees C40.trees_self, dis_eq]
      have hcode : code ((k.enc, w) :: t) = C38.bytesOf k.enc w ++ code t := by simp [code]
      rw [hcode, if_neg (by
        intro e
        have h8 := congrArg List.length e
        have h9 := size_pos i
        rw [List.length_append, List.length_nil] at h8
        omega)]
      have hda : decodeAt (C38.bytesOf k.enc w ++ code t) address = .ok i := h1
      rw [hda]
      simp only
      rw [← hlen, List.drop_left]
    rw [hd]
    refine ⟨j1, by simpa [Yields.cons] using j2, s'', ?_, j4, j5⟩
    show executeAll (i :: (disasm trees (code t) (address + i.size)).1) s = _
    unfold executeAll
    rw [bind_ok h4]
    exact j3

/-- `movs r0, #3; subs r0, #5; adds r0, #1` gives 2: 3 - 5 is complemented to 1. -/
example {s : Machine} {c : Core} (hs : Shows s c) (hm : MemOK s.mem) :
    ∃ s', executeAll (disasm trees [0x03, 0x20, 0x05, 0x38, 0x01, 0x30] 0x100).1 s = (.ok (), s') ∧ s'.regs (some 0) = some 2 := by
  have a1 : movsImm.act (field movsImm.pat 0x2003) = .mov false true 0 (.imm 3#32) := by decide +kernel
  have a2 : subsImmT2.act (field subsImmT2.pat 0x3805) = .addSub true false true 0 0 (.imm 5#32) := by decide +kernel
  have a3 : addsImmT2.act (field addsImmT2.pat 0x3001) = .addSub false false true 0 0 (.imm 1#32) := by decide +kernel
  have key := (program_exact_partial [(movsImm, 0x2003), (subsImmT2, 0x3805), (addsImmT2, 0x3001)] ?_ 0x100 hs hm ?_).2.2
  · obtain ⟨s', h1, h2, -⟩ := key
    simp only [realAll, a1, a2, a3] at h2
    refine ⟨s', h1, ?_⟩
    rw [h2.1 0 (by decide)]
    have plain0 : ∀ v : Word, keepBits 0 v = v := fun v => keepBits_plain (d := 0) (by decide) (by decide) v
    have imm : ∀ (size : Nat) (c : Core) (sub : Bool) (v : Word), (real size c (.addSub sub false true 0 0 (.imm v))).reg 0 =
        wrongIfNegative (C17.sum (c.reg 0) (if sub then ~~~v else v) sub) := fun size c sub v =>
      (result_reg (d := 0) (by decide) _).trans (plain0 _)
    have mov : ∀ (size : Nat) (c : Core) (v : Word), (real size c (.mov false true 0 (.imm v))).reg 0 = v := fun size c v =>
      (result_reg (d := 0) (by decide) _).trans (plain0 _)
    rw [imm, imm, mov]
    decide +kernel
  · intro p hp
    simp only [List.mem_cons, List.not_mem_nil, or_false] at hp
    rcases hp with rfl | rfl | rfl
    all_goals exact ⟨by simp [encodings], ⟨by decide, by decide, by decide⟩, not_wrong (by decide) _⟩
  · simp only [AllFair, a1, a2, a3]
    exact ⟨⟨by decide, trivial⟩, fun _ => rfl, ⟨by decide, by decide, trivial⟩, trivial, ⟨by decide, by decide, trivial⟩, trivial, trivial⟩

end C73
end Verif
