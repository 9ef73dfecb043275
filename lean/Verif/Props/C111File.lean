import Verif.Props.C111
import Verif.Props.C106Exact

/-!
# C111, continued: files that compute

A binary file with the code of an expression, from the start of the program to its end.
-/

namespace Verif
open Console BS CpuM Thumb C43 C70

namespace C111
open C73 C106

/-- Instructions with 16 bits that are decoded as they should be. -/
def Plain (ps : List (Enc × Nat)) : Prop := ∀ p ∈ ps, p.1.pat.length = 16 ∧ p.1 ∈ encodings ∧ p.1.Is p.2 ∧ ¬ Wrong p.1 (field p.1.pat p.2)

theorem code_cons {e : Enc} {w : Nat} (h : e.pat.length = 16) (t : List (Enc × Nat)) : code ((e, w) :: t) = w % 256 :: w / 256 :: code t := by
  show C38.bytesOf e w ++ code t = _
  unfold C38.bytesOf
  rw [h]
  rfl

theorem code_append (ps qs : List (Enc × Nat)) : code (ps ++ qs) = code ps ++ code qs := List.flatMap_append

theorem code_length : ∀ {ps : List (Enc × Nat)}, Plain ps → (code ps).length = 2 * ps.length
  | [], _ => rfl
  | (e, w) :: t, h => by
    have := code_length (ps := t) (fun p hp => h p (List.mem_cons_of_mem _ hp))
    rw [code_cons (h _ List.mem_cons_self).1]
    simp only [List.length_cons]
    omega

/-- The bytes of an instruction. -/
theorem code_at {pre : List (Enc × Nat)} (h : Plain pre) {e : Enc} (w : Nat) (he : e.pat.length = 16) (t : List (Enc × Nat)) :
    (code (pre ++ (e, w) :: t))[2 * pre.length]? = some (w % 256) ∧ (code (pre ++ (e, w) :: t))[2 * pre.length + 1]? = some (w / 256) := by
  have hl := code_length h
  rw [code_append, code_cons he, ← hl]
  constructor
  · rw [List.getElem?_append_right (by omega)]
    simp
  · rw [List.getElem?_append_right (by omega)]
    simp

/-- Straight code that lies in memory, with an instruction after it, is executed, and PC is at that instruction then. -/
theorem linear_goes {mem : List Region} {x : Nat} {bs : List Nat} (hin : Inside mem x bs.length) (hx : x + bs.length < 2 ^ 32) {post : List (Enc × Nat)}
    (hne : post ≠ []) (hpost : Plain post) :
    ∀ (ps pre : List (Enc × Nat)) (c : Core), bs = code (pre ++ ps ++ post) → Plain pre → Plain ps →
      C99.Lies c.mem x bs → PcAt c (x + 2 * pre.length) → AllFair mem ps c → Straight x (x + bs.length) ps c →
      Really mem ps.length c (realAll ps c) ∧ PcAt (realAll ps c) (x + 2 * (pre.length + ps.length))
  | [], _, _, _, _, _, _, hpc, _, _ => ⟨.done, hpc⟩
  | (e, w) :: t, pre, c, hbs, hpre, hps, hlies, hpc, ⟨s1, s2, s3⟩, ⟨⟨s4, s5⟩, s6⟩ => by
    obtain ⟨p1, p2, p3, p4⟩ := hps _ List.mem_cons_self
    simp only at p1 p2 p3 p4
    have hw : w % 256 + 256 * (w / 256) = w := by omega
    have hpre' : Plain (pre ++ [(e, w)]) := by
      intro p hp
      rcases List.mem_append.1 hp with hp | hp
      · exact hpre p hp
      · rw [List.mem_singleton.1 hp]
        exact ⟨p1, p2, p3, p4⟩
    have hlen' : (pre ++ [(e, w)]).length = pre.length + 1 := by simp
    -- the next instruction
    obtain ⟨e', w', t', ht', q1, q2, q3⟩ : ∃ e' w' t', t ++ post = (e', w') :: t' ∧ e'.pat.length = 16 ∧ e' ∈ encodings ∧ e'.Is w' := by
      cases t with
      | nil =>
        cases post with
        | nil => exact absurd rfl hne
        | cons p t' =>
          obtain ⟨r1, r2, r3, -⟩ := hpost p List.mem_cons_self
          exact ⟨p.1, p.2, t', rfl, r1, r2, r3⟩
      | cons p t =>
        obtain ⟨r1, r2, r3, -⟩ := hps p (List.mem_cons_of_mem _ List.mem_cons_self)
        exact ⟨p.1, p.2, t ++ post, rfl, r1, r2, r3⟩
    have hw' : w' % 256 + 256 * (w' / 256) = w' := by omega
    obtain ⟨b0, b1⟩ := code_at hpre w p1 (t ++ post)
    obtain ⟨b2, b3⟩ := code_at hpre' w' q1 t'
    rw [show pre ++ (e, w) :: (t ++ post) = pre ++ (e, w) :: t ++ post by simp, ← hbs] at b0 b1
    rw [← ht', show pre ++ [(e, w)] ++ (t ++ post) = pre ++ (e, w) :: t ++ post by simp, ← hbs, hlen'] at b2 b3
    have st := stood_at (mem := mem) hlies hin (j := 2 * pre.length) hpc (e := e) (e' := e') b0 b1 b2 b3 p2 p1 (by rw [hw]; exact p3)
      q2 q1 (by rw [hw']; exact q3) (by rw [hw]; exact p4) (by rw [hw]; exact s1) (by rw [hw]; exact s2)
    rw [hw] at st
    have hlast := (List.getElem?_eq_some_iff.1 b3).1
    have ih := linear_goes hin hx hne hpost t (pre ++ [(e, w)]) _ (by rw [hbs]; simp) hpre' (fun p hp => hps p (List.mem_cons_of_mem _ hp))
      (by
        intro j hj
        rw [s5 _ (by omega) (by omega)]
        exact hlies j hj)
      (by
        unfold PcAt at hpc ⊢
        rw [s4, hlen', BitVec.toNat_add]
        have : (2#32).toNat = 2 := rfl
        omega)
      s3 s6
    refine ⟨Really.more st ih.1, ?_⟩
    · have := ih.2
      rw [hlen', show pre.length + 1 + t.length = pre.length + ((e, w) :: t).length by simp only [List.length_cons]; omega] at this
      exact this

theorem nop_plain : Plain [(Thumb.nop, 0xbf00)] := by
  intro p hp
  rw [List.mem_singleton.1 hp]
  exact ⟨rfl, by simp [encodings], ⟨by decide, by decide, by decide⟩, not_wrong (by decide) _⟩

theorem plain {e : Expr} (h : e.Well) : Plain e.compile := by
  have h16 : ∀ e : Expr, ∀ p ∈ e.compile, p.1.pat.length = 16 := by
    intro e
    induction e with
    | const n => intro p hp; rw [List.mem_singleton.1 hp]; rfl
    | var k => intro p hp; rw [List.mem_singleton.1 hp]; rfl
    | not e ih =>
      intro p hp
      rcases List.mem_append.1 hp with hp | hp
      · exact ih p hp
      · rw [List.mem_singleton.1 hp]; rfl
    | op o a b iha ihb =>
      intro p hp
      simp only [Expr.compile, List.mem_append, List.mem_cons, List.not_mem_nil, or_false] at hp
      rcases hp with hp | rfl | hp | rfl | rfl
      · exact iha p hp
      · rfl
      · exact ihb p hp
      · rfl
      · cases o <;> rfl
  exact fun p hp => ⟨h16 e p hp, good h p hp⟩

/-- A file with this code at 8 and a `nop` after it, and this many words of stack. -/
structure Contains (binary : List Nat) (ps : List (Enc × Nat)) (words : Nat) : Prop where
  bytes : ∀ b ∈ binary, b < 256
  size : binary.length ≤ 0x10000
  pc : wordAt binary 4 = 8 ∨ wordAt binary 4 = 9
  code : ∃ head tail, binary = head ++ code (ps ++ [(Thumb.nop, 0xbf00)]) ++ tail ∧ head.length = 8
  ram : 0x1fff8004 ≤ wordAt binary 0
  stack : 0x1fff8000 + 4 * words ≤ wordAt binary 0

section
variable {binary : List Nat} {ps : List (Enc × Nat)} {words : Nat} (h : Contains binary ps words)
include h

theorem begins_sp : ((begins binary).reg 13).toNat = wordAt binary 0 / 4 * 4 := by
  have hsp := wordAt_lt h.bytes 0
  have hram := h.ram
  have hr : (begins binary).reg 13 = align4 (BitVec.ofNat 32 (wordAt binary 0)) := by
    show (if (image binary (wordAt binary 0) ((wordAt binary 0 : Int) - 4)).isSome then _ else _) = _
    rw [if_pos]
    have hsz := h.size
    unfold image
    rw [if_neg (by unfold flashSize; omega), if_pos (by unfold ramSize; omega)]
    rfl
  rw [hr, C65.align4_toNat, BitVec.toNat_ofNat, Nat.mod_eq_of_lt hsp]

theorem begins_room : Room (regions binary) ((begins binary).reg 13) words := by
  have hstack := h.stack
  have hrn := begins_sp h
  refine ⟨by rw [hrn]; omega, by rw [hrn]; omega, fun j hj => ⟨ramRegion (wordAt binary 0), List.mem_cons_of_mem _ List.mem_cons_self, ?_⟩⟩
  rw [hrn]
  unfold ramRegion ramSize
  simp only
  omega

/-- Straight code in a file is executed. -/
theorem file_runs (python : Python) (hp : Plain ps) (hf : AllFair (regions binary) ps (begins binary))
    (hs : ∀ hi : Int, hi ≤ 0x10000 → Straight 8 hi ps (begins binary))
    {lines : List Str} (ht : Lines [] lines ps.length) :
    ∃ s' out, Console.run python binary lines = (.ok 0, ⟨s', out⟩) ∧ out.length = ps.length + 4 ∧ Shows s' (realAll ps (begins binary)) := by
  obtain ⟨head, tail, hbin, hhead⟩ := h.code
  have hlen : 8 + (code (ps ++ [(Thumb.nop, 0xbf00)])).length ≤ 0x10000 := by
    have := h.size
    rw [hbin] at this
    simp only [List.length_append] at this
    omega
  have hin : Inside (regions binary) ((8 : Nat) : Int) (code (ps ++ [(Thumb.nop, 0xbf00)])).length := inside_low binary hlen
  obtain ⟨hg, -⟩ := linear_goes hin (by omega) (by simp) nop_plain ps [] (begins binary) rfl (fun _ hp => by cases hp) hp
    (by
      intro j hj
      show image binary (wordAt binary 0) ((8 + j : Nat) : Int) = _
      rw [image_low binary (8 + j) (by omega), List.getD_eq_getElem?_getD, hbin, List.append_assoc, List.getElem?_append_right (by omega),
        List.getElem?_append_left (by omega), show 8 + j - head.length = j by omega, List.getElem?_eq_getElem hj]
      rfl)
    (by
      have : (begins binary).reg 15 = BitVec.ofNat 32 (wordAt binary 4) := by
        show (if (image binary (wordAt binary 0) (wordAt binary 4)).isSome then _ else _) = _
        rw [image_low binary _ (by rcases h.pc with e | e <;> omega)]
        rfl
      unfold PcAt
      rw [this]
      rcases h.pc with e | e <;> rw [e] <;> rfl)
    hf (hs _ (by omega))
  obtain ⟨s', ls, e1, e2, e3, -⟩ := simulates_exact_partial python h.bytes (by have := h.size; omega) ht hg
  refine ⟨s', _, e1, ?_, e3⟩
  rw [List.length_append, List.length_append, e2]
  simp only [List.length_cons, List.length_nil]
  omega

end

theorem begins_low (binary : List Nat) (k : Nat) (k2 : k < 13) : (begins binary).reg k = 0#32 := by
  unfold begins
  simp only
  rw [if_neg (by omega), if_neg (by omega), if_neg (by omega)]

/-- **C111.** A file with the code of an expression, started and stepped through with as many step commands as the code has
instructions, exactly: R0 is the value of the expression with negative sums and differences complemented, and R2 to R12 zero;
of the memory only the stack may have changed. -/
theorem file_exact (python : Python) {binary : List Nat} {e : Expr} (h : Contains binary e.compile e.depth) (hw : e.Well)
    {lines : List Str} (ht : Lines [] lines e.compile.length) :
    ∃ s' out, Console.run python binary lines = (.ok 0, ⟨s', out⟩) ∧ out.length = e.compile.length + 4 ∧
      s'.regs (some 0) = some ((e.machine fun _ => 0#32).toNat : Int) ∧
      ∀ y : Int, y < (wordAt binary 0 / 4 * 4 : Nat) - 4 * e.depth ∨ ((wordAt binary 0 / 4 * 4 : Nat) : Int) ≤ y →
        flat s'.mem y = image binary (wordAt binary 0) y := by
  have hstack := h.stack
  have hrn := begins_sp h
  obtain ⟨hf, ha, hstraight⟩ := compiled e (begins binary) hw (begins_room h)
  have hv : ∀ k, 2 ≤ k → k < 13 → (fun _ : Nat => 0#32) k = (fun k : Nat => (begins binary).reg k) k := fun k _ k2 => (begins_low binary k k2).symm
  obtain ⟨s', out, e1, e2, e3⟩ := file_runs h python (plain hw) hf (fun hi h1 => hstraight _ _ (.inl (by rw [hrn]; omega))) ht
  refine ⟨s', _, e1, e2, ?_, fun y hy => ?_⟩
  · rw [e3.1 0 (by decide), ha.r0, ← machine_congr hv hw]
  · rw [e3.2, ha.mem y (by rw [hrn]; exact hy)]
    rfl

/-- **C111.** Such a file computes the value of the expression. Missing: sums and differences with the highest bit set, see
`file_exact`. -/
theorem file_computes_partial (python : Python) {binary : List Nat} {e : Expr} (h : Contains binary e.compile e.depth) (hw : e.Well)
    (hs : e.Small fun _ => 0#32) {lines : List Str} (ht : Lines [] lines e.compile.length) :
    ∃ s' out, Console.run python binary lines = (.ok 0, ⟨s', out⟩) ∧ out.length = e.compile.length + 4 ∧
      s'.regs (some 0) = some ((e.value fun _ => 0#32).toNat : Int) ∧
      ∀ y : Int, y < (wordAt binary 0 / 4 * 4 : Nat) - 4 * e.depth ∨ ((wordAt binary 0 / 4 * 4 : Nat) : Int) ≤ y →
        flat s'.mem y = image binary (wordAt binary 0) y := by
  rw [← machine_eq hs]
  exact file_exact python h hw ht

/-- A file that computes `6 * 7`. -/
def answer : Expr := .op .mul (.const 6) (.const 7)

def answerFile : List Nat := [0x00, 0x00, 0x00, 0x20, 0x09, 0x00, 0x00, 0x00] ++
  [0x06, 0x20, 0x01, 0xb4, 0x07, 0x20, 0x02, 0xbc, 0x48, 0x43] ++ [0x00, 0xbf]

/-- Five times `step`. -/
example (python : Python) {lines : List Str} (ht : Lines [] lines 5) :
    ∃ s' out, Console.run python answerFile lines = (.ok 0, ⟨s', out⟩) ∧ out.length = 9 ∧ s'.regs (some 0) = some 42 := by
  obtain ⟨s', out, h1, h2, h3, -⟩ := file_computes_partial python (binary := answerFile) (e := answer)
    ⟨by decide, by decide, by decide, ⟨[0x00, 0x00, 0x00, 0x20, 0x09, 0x00, 0x00, 0x00], [], by decide +kernel, rfl⟩, by decide, by decide⟩
    ⟨(by decide : 6 < 256), (by decide : 7 < 256)⟩ ⟨trivial, trivial, by decide⟩ ht
  exact ⟨s', out, h1, h2, h3⟩

end C111
end Verif
