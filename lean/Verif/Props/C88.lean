import Verif.Props.C69

/-!
# C88: the addresses in front of a memory dump
-/

namespace Verif
open Console Typed BS

namespace C88
open C69

theorem dump_line {n : Nat} {x : Nat} {vs : List Nat} {ls : List Str} (h : Dump n x vs ls) : ∀ (j : Nat) (l : Str), ls[j]? = some l →
    ∃ a ts ws, WordsOf l ((a ++ c! ":") :: ts) ∧ Reader.nat 16 a = some (x + C69.perLine n * j) ∧ C69.Shown n ts ws ∧ ws ≠ [] ∧
      ∀ i, i < ws.length → vs[C69.perLine n * j + i]? = ws[i]? := by
  induction h with
  | done => intro j l h; simp at h
  | @line x l a ts ws rest ls h1 h2 h3 h4 h5 h6 ih =>
    intro j l' hl
    cases j with
    | zero =>
      simp only [List.getElem?_cons_zero, Option.some.injEq] at hl
      subst hl
      refine ⟨a, ts, ws, h1, by simpa using h2, h3, h4, fun i hi => ?_⟩
      rw [Nat.mul_zero, Nat.zero_add, List.getElem?_append_left hi]
    | succ j =>
      rw [List.getElem?_cons_succ] at hl
      rcases h5 with h5 | ⟨_, rfl⟩
      · obtain ⟨a', ts', ws', g1, g2, g3, g4, g5⟩ := ih j l' hl
        refine ⟨a', ts', ws', g1, ?_, g3, g4, fun i hi => ?_⟩
        · rw [g2, h5, Nat.mul_succ]
          congr 1
          omega
        · rw [← g5 i hi, List.getElem?_append_right (by rw [h5, Nat.mul_succ]; omega)]
          congr 1
          rw [h5, Nat.mul_succ]
          omega
      · have : ls = [] := by
          generalize hr : ([] : List Nat) = r at h6
          cases h6 with
          | done => rfl
          | line _ _ _ h _ _ =>
            have := congrArg List.length hr
            rw [List.length_append] at this
            exact absurd (List.length_eq_zero_iff.1 (Nat.eq_zero_of_add_eq_zero_right this.symm)) h
        rw [this] at hl
        simp at hl

/-- A line of a dump says that the values `ws` are at the address `x`. -/
def Says (n : Nat) (l : Str) (x : Nat) (ws : List Nat) : Prop :=
  ∃ a ts, WordsOf l ((a ++ c! ":") :: ts) ∧ Reader.nat 16 a = some x ∧ C69.Shown n ts ws

theorem says_unique {n : Nat} {l : Str} {x y : Nat} {ws ws' : List Nat} (h : Says n l x ws) (h' : Says n l y ws') : x = y := by
  obtain ⟨a, ts, h1, h2, _⟩ := h
  obtain ⟨b, us, g1, g2, _⟩ := h'
  have := (words_of h1).symm.trans (words_of g1)
  simp only [List.cons.injEq, List.append_cancel_right_eq] at this
  rw [this.1, g2] at h2
  exact (Option.some.inj h2).symm

/-- **C88, exactly.** A read command prints lines of sixteen bytes each. Line `j` shows the values
at `x + 16 * j`, and the number in front of it is `x` plus the number of *values* on the lines before. -/
theorem lines (python : Python) {w : World} {c : Core} (hs : Shows w.cpu c) (hm : MemOK w.cpu.mem) {n : Nat} (hn : n = 1 ∨ n = 2 ∨ n = 4)
    {cmd name a : Str} {args : List Str} {x k : Nat} (hname : name ∈ readNames n) (hcmd : Typed.Says cmd name (a :: args))
    (hx : C68.Value w.cpu.mem c a x) (hk : Asked w.cpu.mem c n args k) (h0 : 0 < k) (hin : Inside w.cpu.mem x (n * k)) :
    ∃ (ls : List Output) (dump : List Str), processCommand python cmd w = (.ok (), ⟨w.cpu, w.out ++ ls ++ dump.map .line⟩) ∧ ∀ j l, dump[j]? = some l →
      ∃ ws, C88.Says n l (x + 16 / n * j) ws ∧ ws ≠ [] ∧
        ∀ i v, ws[i]? = some v → flatRead c.mem (x + (16 * j + n * i : Nat)) n = some v := by
  obtain ⟨ls, dump, vs, h1, h2, h3, h4⟩ := C69.read python hs hm hn hname hcmd hx hk h0 hin
  refine ⟨ls, dump, h1, fun j l hl => ?_⟩
  obtain ⟨a', ts, ws, g1, g2, g3, g4, g5⟩ := dump_line h2 j l hl
  refine ⟨ws, ⟨a', ts, g1, g2, g3⟩, g4, fun i v hv => ?_⟩
  have hi : i < ws.length := by
    rcases Nat.lt_or_ge i ws.length with h | h
    · exact h
    · rw [List.getElem?_eq_none h] at hv; cases hv
  have h5 := g5 i hi
  rw [hv] at h5
  have h6 : C69.perLine n * j + i < k := by
    rcases Nat.lt_or_ge (C69.perLine n * j + i) k with h | h
    · exact h
    · rw [List.getElem?_eq_none (by omega)] at h5; cases h5
  have h7 := h4 _ h6
  rw [h5] at h7
  rw [← h7]
  have : 16 * j + n * i = n * (C69.perLine n * j + i) := by
    rw [Nat.mul_add, ← Nat.mul_assoc]
    rcases hn with rfl | rfl | rfl <;> rfl
  rw [this]

/-- **C88.** The number in front of a line is the address of its first value exactly for the first line
and for `read8`. -/
theorem address_right_iff_partial {n : Nat} (hn : n = 1 ∨ n = 2 ∨ n = 4) {l : Str} {x j : Nat} {ws : List Nat} (h : C88.Says n l (x + 16 / n * j) ws) :
    (∃ ws', C88.Says n l (x + 16 * j) ws') ↔ n = 1 ∨ j = 0 := by
  constructor
  · rintro ⟨ws', h'⟩
    have := says_unique h h'
    rcases hn with rfl | rfl | rfl
    · exact .inl rfl
    · right; simp only [Nat.reduceDiv] at this; omega
    · right; simp only [Nat.reduceDiv] at this; omega
  · rintro (rfl | rfl)
    · exact ⟨ws, h⟩
    · exact ⟨ws, by simpa using h⟩

/-- The machine of the example: eight words at 0x1000. -/
def exWorld : World := ⟨{ Machine.new with mem := [⟨0x1000, 0x101f, (List.range 32)⟩] }, []⟩

/-- **C88.** The second line of `read32 0x1000 32` shows the words at 0x1010 and says 0x1004. -/
theorem full_claim_false : ∀ python, processCommand python (c! "read32 0x1000 32") exWorld = (.ok (), { exWorld with out := [
    .line (c! "00001000:  03020100 07060504 0b0a0908 0f0e0d0c"),
    .line (c! "00001004:  13121110 17161514 1b1a1918 1f1e1d1c")] }) := by
  intro python
  rfl

/-- **C88.** The text of a number, negative ones included, has at least the width asked for, no more than
that unless it needs more, and can be read back: a sign, and then the digits of the absolute value. -/
theorem address_text (k : Nat) (v : Int) :
    ∃ sign digits, hexPad k v = sign ++ digits ∧ sign = (if v < 0 then ['-'] else []) ∧ Reader.nat 16 digits = some v.natAbs ∧
      (hexPad k v).length = max k (sign.length + (natText 16 v.natAbs).length) := by
  by_cases hv : v < 0
  · refine ⟨['-'], List.replicate (k - 1 - (natText 16 v.natAbs).length) '0' ++ natText 16 v.natAbs, ?_, by rw [if_pos hv], ?_, ?_⟩
    · unfold hexPad
      simp only [if_pos hv]
      rfl
    · have := nat_hexPad (k - 1) v.natAbs
      rwa [hexPad_nat] at this
    · unfold hexPad
      simp only [if_pos hv, List.length_append, List.length_replicate]
      have : (c! "-").length = 1 := rfl
      simp only [this, List.length_singleton]
      omega
  · obtain ⟨n, rfl⟩ := Int.eq_ofNat_of_zero_le (Int.not_lt.1 hv)
    refine ⟨[], hexPad k n, rfl, by rw [if_neg hv], nat_hexPad k n, ?_⟩
    rw [hexPad_nat, List.length_append, List.length_replicate]
    simp only [List.length_nil, Int.natAbs_natCast]
    omega

/-- `"%08x" % -1` -/
example : hexPad 8 (-1) = c! "-0000001" := rfl

/-- Two lines of bytes -/
example : C88.Says 1 (c! "00002010:  aa 0b") (0x2000 + 16 / 1 * 1) [0xaa, 0x0b] :=
  ⟨c! "00002010", [c! "aa", c! "0b"], words_iff.1 rfl, rfl, .cons ⟨rfl, rfl⟩ (.cons ⟨rfl, rfl⟩ .nil)⟩

end C88
end Verif
