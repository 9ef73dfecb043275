import Verif.Props.C106
import Verif.Props.C73Exact

/-!
# C70 and C106, also with negative results

The conditions on sums are dropped; the result is what the code really computes (`C73.real`).
-/

namespace Verif
open Console Typed BS Thumb C70

namespace C106
open C73

/-- An instruction at PC that is decoded as it should be and does not use PC otherwise than the manual allows; nothing
about sums. -/
structure Stood (mem : List Region) (c : Core) (e : Enc) (w : Nat) : Prop where
  placed : Placed mem c e w
  noPc : (e.act (field e.pat w)).NoPc
  fair : Fair mem c (e.act (field e.pat w))

theorem placed_congr {m m' : List Region} (h : ∀ y k, Inside m y k ↔ Inside m' y k) {c : Core} {e : Enc} {w : Nat} (hs : Placed m c e w) :
    Placed m' c e w := by
  obtain ⟨h1, h2, h3, h4, h5, h8⟩ := hs
  refine ⟨h1, h2, (h _ _).1 h3, h4, h5, fun hl => ?_⟩
  cases h8 hl with
  | last a => exact .last fun b => a ((h _ _).2 b)
  | long a b c => exact .long ((h _ _).1 a) b c
  | short a b c d e => exact .short ((h _ _).1 a) b c d e

theorem stood_congr {m m' : List Region} (h : ∀ y k, Inside m y k ↔ Inside m' y k) {c : Core} {e : Enc} {w : Nat} (hs : Stood m c e w) :
    Stood m' c e w := ⟨placed_congr h hs.placed, hs.noPc, (fair_congr h _ _).1 hs.fair⟩

/-- One instruction after the other, as they are really executed. -/
inductive Really (mem : List Region) : Nat → Core → Core → Prop where
  | done {c : Core} : Really mem 0 c c
  | more {n : Nat} {c d : Core} {e : Enc} {w : Nat} : Stood mem c e w → Really mem n (real (e.pat.length / 8) c (e.act (field e.pat w))) d →
      Really mem (n + 1) c d

theorem really_congr {m m' : List Region} (h : ∀ y k, Inside m y k ↔ Inside m' y k) {n : Nat} {c d : Core} (hg : Really m n c d) : Really m' n c d := by
  induction hg with
  | done => exact .done
  | more h1 _ ih => exact .more (stood_congr h h1) ih

theorem really_trans {mem : List Region} {m n : Nat} {c d b : Core} (h1 : Really mem m c b) (h2 : Really mem n b d) : Really mem (m + n) c d := by
  induction h1 with
  | done => rw [Nat.zero_add]; exact h2
  | more h _ ih =>
    rw [Nat.add_right_comm]
    exact .more h (ih h2)

theorem really_split {mem : List Region} : ∀ {m n : Nat} {c d : Core}, Really mem (m + n) c d → ∃ b, Really mem m c b ∧ Really mem n b d
  | 0, n, c, d, h => ⟨c, .done, by simpa using h⟩
  | m + 1, n, c, d, h => by
    rw [Nat.add_right_comm] at h
    cases h with
    | more h1 h2 =>
      obtain ⟨b, g1, g2⟩ := really_split h2
      exact ⟨b, .more h1 g1, g2⟩

/-- **C70.** The step command exactly, also where sums are negative: registers and memory are what the manual says, with negative
results complemented as in C43 and C48. It prints one line. Missing from the full claim: the other conditions of `step_partial`. -/
theorem step_exact_partial (python : Python) {w : World} {c : Core} (hs : Shows w.cpu c) (hm : MemOK w.cpu.mem) {cmd name : Str} {args : List Str}
    (hname : name ∈ stepNames) (hcmd : Says cmd name args) {e : Enc} {v : Nat} (h : Stood w.cpu.mem c e v) :
    ∃ s' text l, processCommand python cmd w = (.ok (), ⟨s', w.out ++ [stepLine (at_ c) text]⟩) ∧
      Shows s' (real (e.pat.length / 8) c (e.act (field e.pat v))) ∧ MemOK s'.mem ∧ (∀ y k, Inside s'.mem y k ↔ Inside w.cpu.mem y k) ∧
      Reader.line text = some l ∧ l.words = C64.halfwords (C38.bytesOf e v) ∧ l.mnemonic = e.mnem (field e.pat v) ∧
      (Written e (field e.pat v) (at_ c) l.operands ↔ ¬ Misread e (field e.pat v) (at_ c)) := by
  obtain ⟨i, text, l, h2, hv, h3, hl, hrun, h4⟩ := step_executes python hs hm hname hcmd h.placed
  obtain ⟨j, s', e1, e2, e3, e4⟩ := does_fair h2 hv h.noPc hs hm h.fair hl
  rw [h3] at e2
  exact ⟨s', text, l, hrun j s' e1, e2, e3, e4, h4⟩

theorem steps_really (python : Python) {mem : List Region} {n : Nat} {c d : Core} (hg : Really mem n c d) : ∀ {w : World} {cmds : List Str}, w.cpu.mem = mem →
    Shows w.cpu c → MemOK w.cpu.mem → cmds.length = n → (∀ cmd ∈ cmds, ∃ name ∈ stepNames, ∃ args, Says cmd name args) →
    ∃ s' ls, processCommands python cmds w = (.ok (), ⟨s', w.out ++ ls⟩) ∧ ls.length = n ∧ Shows s' d ∧ MemOK s'.mem ∧
      ∀ y k, Inside s'.mem y k ↔ Inside w.cpu.mem y k := by
  induction n generalizing mem c with
  | zero =>
    intro w cmds _ hs hm hl _
    cases hg
    rw [List.length_eq_zero_iff] at hl
    subst hl
    exact ⟨w.cpu, [], by rw [List.append_nil]; rfl, rfl, hs, hm, fun _ _ => Iff.rfl⟩
  | succ n ih =>
    intro w cmds he hs hm hl hc
    subst he
    cases hg with
    | more h1 h2 =>
      match cmds, hl, hc with
      | cmd :: t, hl, hc =>
        obtain ⟨name, hname, args, hcmd⟩ := hc cmd List.mem_cons_self
        obtain ⟨s1, text, l, e1, e2, e3, e4, -⟩ := step_exact_partial python hs hm hname hcmd h1
        obtain ⟨s2, ls, f1, f2, f3, f4, f5⟩ := ih (really_congr (fun y k => (e4 y k).symm) h2) (w := ⟨s1, w.out ++ [stepLine (at_ c) text]⟩) (cmds := t) rfl e2 e3
          (by simpa using hl) (fun cmd h => hc cmd (List.mem_cons_of_mem _ h))
        refine ⟨s2, stepLine (at_ c) text :: ls, ?_, by rw [List.length_cons, f2], f3, f4, fun y k => (f5 y k).trans (e4 y k)⟩
        unfold processCommands
        rw [ConM.bind_ok e1, f1]
        simp only [List.append_assoc, List.singleton_append]

theorem session_really (python : Python) {last : Str} {lines : List Str} {n : Nat} (h : Lines last lines n) : ∀ {mem : List Region} {c d : Core},
    Really mem n c d → ∀ {w : World}, w.cpu.mem = mem → Shows w.cpu c → MemOK w.cpu.mem →
    ∃ s' ls, session python lines last w = (.ok (), ⟨s', w.out ++ ls ++ [.line []]⟩) ∧ ls.length = n ∧ Shows s' d ∧ MemOK s'.mem := by
  induction h with
  | done =>
    intro mem c d hg w he hs hm
    cases hg
    exact ⟨w.cpu, [], by rw [List.append_nil]; rfl, rfl, hs, hm⟩
  | @line last l t cmds rest n h1 h2 h3 h4 _ ih =>
    intro mem c d hg w he hs hm
    obtain ⟨b, g1, g2⟩ := really_split hg
    obtain ⟨s1, ls, e1, e2, e3, e4, e5⟩ := steps_really python g1 he hs hm rfl h4
    subst he
    obtain ⟨s2, ls', f1, f2, f3, f4⟩ := ih (really_congr (fun y k => (e5 y k).symm) g2) (w := ⟨s1, w.out ++ ls⟩) rfl e3 e4
    refine ⟨s2, ls ++ ls', ?_, by rw [List.length_append, e2, f2], f3, f4⟩
    rw [C80.session_line python h1 h2]
    have e1' : processCommandLine python t w = (.ok (), ⟨s1, w.out ++ ls⟩) := by
      unfold processCommandLine
      rw [parts_of h3]
      exact e1
    rw [ConM.bind_ok e1', f1]
    simp only [List.append_assoc]
  | @again last e rest n h1 h2 h3 _ ih =>
    intro mem c d hg w he hs hm
    obtain ⟨b, g1, g2⟩ := really_split hg
    obtain ⟨s1, ls, e1, e2, e3, e4, e5⟩ := steps_really python g1 he hs hm (cmds := [last]) rfl (fun cmd h => by
      rw [List.mem_singleton] at h; subst h; exact h3)
    subst he
    obtain ⟨s2, ls', f1, f2, f3, f4⟩ := ih (really_congr (fun y k => (e5 y k).symm) g2) (w := ⟨s1, w.out ++ ls⟩) rfl e3 e4
    refine ⟨s2, ls ++ ls', ?_, by rw [List.length_append, e2, f2], f3, f4⟩
    rw [C80.session_empty python h1 rest h2]
    have e1' : processCommand python last w = (.ok (), ⟨s1, w.out ++ ls⟩) := by
      unfold processCommands at e1
      rw [ConM.bind_def] at e1
      cases hx : processCommand python last w with
      | mk r w' =>
        rw [hx] at e1
        cases r with
        | error x => cases e1
        | ok u => exact e1
    rw [ConM.bind_ok e1', f1]
    simp only [List.append_assoc]
  | @nothing e rest n h1 _ ih =>
    intro mem c d hg w he hs hm
    have := C80.nothing_to_repeat python (es := [e]) (fun x hx => by rw [List.mem_singleton] at hx; subst hx; exact h1) rest
    rw [List.singleton_append] at this
    rw [this]
    exact ih hg he hs hm

/-- **C106.** From the file to the last state, also with negative results: registers and memory are what the instructions really
do, one after the other from reset. Missing: instructions that are decoded otherwise than in the manual, and those that use PC,
see C70 and C72. -/
theorem simulates_exact_partial (python : Python) {binary : List Nat} (hb : ∀ b ∈ binary, b < 256) (hl : binary.length ≤ 0x1fff8000)
    {lines : List Str} {n : Nat} (ht : Lines [] lines n) {d : Core} (hg : Really (regions binary) n (begins binary) d) :
    ∃ s' ls, Console.run python binary lines = (.ok 0, ⟨s', [.line (c! "CPU model reset."), .line (c! "PC = 0x" ++ hexPad 8 (wordAt binary 4)),
        .line (c! "SP = 0x" ++ hexPad 8 (wordAt binary 0))] ++ ls ++ [.line []]⟩) ∧ ls.length = n ∧ Shows s' d ∧ MemOK s'.mem := by
  obtain ⟨s, h1, h2, h3, h4⟩ := starts python hb hl lines
  obtain ⟨s', ls, e1, e2, e3, e4⟩ := session_really python ht hg (w := ⟨s, _⟩) h1 h3 h2
  refine ⟨s', ls, ?_, e2, e3, e4⟩
  unfold Console.run
  rw [h4, e1]

/-- An instruction of a program that lies in memory, the next one is an instruction too. -/
theorem stood_at {mem : List Region} {c : Core} {x : Nat} {bs : List Nat} (h : C99.Lies c.mem x bs) (hin : Inside mem x bs.length)
    {j : Nat} (hpc : PcAt c (x + j)) {e e' : Enc} {a b a' b' : Nat} (ha : bs[j]? = some a) (hb : bs[j + 1]? = some b)
    (ha' : bs[j + 2]? = some a') (hb' : bs[j + 3]? = some b') (he : e ∈ encodings) (hl : e.pat.length = 16) (hi : e.Is (a + 256 * b))
    (he' : e' ∈ encodings) (hl' : e'.pat.length = 16) (hi' : e'.Is (a' + 256 * b')) (hw : ¬ Wrong e (field e.pat (a + 256 * b)))
    (hp : (e.act (field e.pat (a + 256 * b))).NoPc) (hf : Fair mem c (e.act (field e.pat (a + 256 * b)))) :
    Stood mem c e (a + 256 * b) := by
  have hat : at_ c = ((x + j : Nat) : Int) := by
    unfold at_
    unfold PcAt at hpc
    omega
  have hlen := (List.getElem?_eq_some_iff.1 hb').1
  have h2 := C99.lies_halfword h (j := j + 2) ha' hb'
  refine ⟨⟨he, hi, ?_, ?_, hw, fun _ => .short (h := a' + 256 * b') (e := e') ?_ ?_ he' hl' hi'⟩, hp, hf⟩
  · rw [hat, hl]
    exact C99.inside_part hin (by omega) (by omega)
  · rw [hat, hl]
    exact C99.lies_halfword h ha hb
  · rw [hat]
    exact C99.inside_part hin (by omega) (by omega)
  · rw [hat, show ((x + j : Nat) : Int) + 2 = ((x + (j + 2) : Nat) : Int) by omega]
    exact h2

/-- A file with `subs r0, #1; nop`. -/
def minus : List Nat := [0x00, 0x00, 0x00, 0x20, 0x09, 0x00, 0x00, 0x00, 0x01, 0x38, 0x00, 0xbf]

/-- One step: 0 - 1 gives 0. -/
example (python : Python) {lines : List Str} (ht : Lines [] lines 1) :
    ∃ s' out, Console.run python minus lines = (.ok 0, ⟨s', out⟩) ∧ out.length = 5 ∧ s'.regs (some 0) = some 0 := by
  have ha : Thumb.subsImmT2.act (field Thumb.subsImmT2.pat (0x01 + 256 * 0x38)) = .addSub true false true 0 0 (.imm (w32 1)) := by decide +kernel
  have st := stood_at (mem := regions minus) (c := begins minus) (x := 8) (bs := [0x01, 0x38, 0x00, 0xbf]) (j := 0) (by
      intro j hj
      rw [show (begins minus).mem = image minus (wordAt minus 0) from rfl, image_low minus (8 + j) (by have : j < 4 := hj; omega)]
      match j, hj with
      | 0, _ => rfl
      | 1, _ => rfl
      | 2, _ => rfl
      | 3, _ => rfl) (inside_low minus (by decide)) rfl
    (e := Thumb.subsImmT2) (e' := Thumb.nop) (a' := 0x00) (b' := 0xbf) rfl rfl rfl rfl
    (by simp [encodings]) rfl ⟨by decide, by decide, by decide⟩ (by simp [encodings]) rfl ⟨by decide, by decide, by decide⟩ (not_wrong (by decide) _)
    (by rw [ha]; exact ⟨by decide, by decide, trivial⟩) (by rw [ha]; trivial)
  obtain ⟨s', ls, e1, e2, e3, -⟩ := simulates_exact_partial python (binary := minus) (by decide) (by decide) ht (.more st .done)
  refine ⟨s', _, e1, by rw [List.length_append, List.length_append, e2]; rfl, ?_⟩
  rw [e3.1 0 (by decide), ha]
  decide +kernel

end C106
end Verif
