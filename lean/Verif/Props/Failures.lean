import Verif.Props.C76to77
import Verif.Props.C78

/-!
# C36, C68, C69, C77 and C78: what goes wrong, and how the table of registers is set
-/

namespace Verif
open Console Typed BS

attribute [local irreducible] trees disasm Instr.eval Instr.format

/-! ### C36: handlers that do not fit -/

namespace C36

theorem bindArgs_missing {attrs : List (Str × BS)} : ∀ {ps : List Str} {p : Str}, p ∈ ps → attrs.lookup p = none →
    Dec.bindArgs attrs ps = .error .typeError
  | q :: ps, p, hp, hl => by
    unfold Dec.bindArgs
    cases hq : attrs.lookup q with
    | none => rfl
    | some v =>
      rcases List.mem_cons.1 hp with rfl | hp
      · rw [hl] at hq; cases hq
      · simp only
        rw [bindArgs_missing hp hl]
        rfl

/-- **C36.** An encoding with a field that its handler does not take, or without one that it takes, raises
TypeError for every word (C36 has that no encoding of the table does). -/
theorem wrong_arguments (h : Handler) (i : Instr) (attrs : List (Str × BS))
    (hw : (∃ a ∈ attrs, a.1 ∉ h.params) ∨ ∃ p ∈ h.params, ∀ a ∈ attrs, a.1 ≠ p) : Dec.call h i attrs = .error .typeError := by
  unfold Dec.call
  split
  · rename_i ha
    rcases hw with ⟨a, ha1, ha2⟩ | ⟨p, hp, hn⟩
    · rw [List.all_eq_true] at ha
      exact absurd (List.contains_iff_mem.1 (ha a ha1)) ha2
    · have hl : attrs.lookup p = none := by
        rw [List.lookup_eq_none_iff]
        intro a ha
        simpa using fun e => hn a ha e.symm
      rw [bindArgs_missing hp hl]
      rfl
  · rfl

end C36

/-! ### C68: addresses that are not mapped -/

namespace C68

/-- **C68.** A value in brackets with an address that is not mapped raises TypeError, which the console reports; nothing
changes. -/
theorem unmapped {w : World} {c : Core} (hs : Shows w.cpu c) {arg a : Str} {x : Char} {b : Int} (h : plain arg = '[' :: (a ++ [x]))
    (hc : ',' ∉ a) (hd : Denotes c a b) (hu : ∀ r ∈ w.cpu.mem, ¬ (r.start ≤ b ∧ b ≤ r.stop)) :
    (convertValue arg w).1 = .error (.py .typeError) ∧ (convertValue arg w).2.cpu = w.cpu := by
  refine ⟨?_, keeps_convertValue _ _⟩
  have hp : derefParts (a ++ [x]).dropLast = .ok (a, 0) := by
    rw [List.dropLast_concat]
    exact derefParts_iff.2 (.inl ⟨hc, rfl, rfl⟩)
  rw [convertValue_brackets h, ConM.bind_ok (expr_ok hp _)]
  have hk := keeps_plainValue a w
  have h1 := (plainValue_iff hs).2 hd
  unfold inBrackets
  cases hv : plainValue a w with
  | mk r w' =>
    rw [hv] at hk h1
    simp only at hk h1
    subst h1
    rw [ConM.bind_ok hv]
    have hf : findMem w'.cpu.mem (b + 0) = none := by
      unfold findMem
      rw [Option.map_eq_none_iff, List.find?_eq_none, hk]
      intro r hr hh
      exact hu r hr (by have := has_iff.1 hh; omega)
    have hr : readBlock (b + 0) 4 w'.cpu = (.ok none, w'.cpu) := by
      rw [readBlock_four]
      unfold readMemoryBlock
      rw [hf]
    rw [ConM.bind_ok (cpu_ok hr)]
    rfl

/-- In a machine without memory. -/
example : (convertValue (c! "[0x20]") ⟨Machine.new, []⟩).1 = .error (.py .typeError) :=
  (unmapped (w := ⟨Machine.new, []⟩) (c := blank (flat [])) (arg := c! "[0x20]") (a := c! "0x20") (x := ']') (b := 32) (shows_new []) (by decide) (by decide)
    ((plainValue_iff (w := ⟨Machine.new, []⟩) (shows_new [])).1 (by rfl)) (fun r hr => by cases hr)).1

end C68

/-! ### C69: negative lengths -/

namespace C69

/-- **C69.** A negative number of bytes, `-k`, counts back from the address: nothing is read, but if the
address is less than `k` bytes behind the start of its region, the rest of the region without the last bytes is read, `k` bytes less than the
region has. -/
theorem negative_length {s : Machine} {addr : Int} {m : Region} {off k : Nat} (hf : s.mem.find? (·.has addr) = some m)
    (ho : addr = m.start + off) (hk : 0 < k) :
    ∃ l, readBlock addr (-(k : Int)) s = (.ok (some l), s) ∧ (k ≤ off → l = []) ∧
      (off < k → l.length = m.data.length - k ∧ ∀ j < l.length, l[j]? = m.data[off + j]?) := by
  unfold readBlock
  rw [if_neg (by omega)]
  unfold readBlockBack findMem
  rw [hf]
  simp only [Option.map_some]
  have he : (addr - m.start).toNat = off := by omega
  rw [he]
  refine ⟨_, rfl, fun h => ?_, fun h => ?_⟩
  · rw [if_neg (by omega), List.drop_eq_nil_iff]
    simp only [List.length_take]
    omega
  · rw [if_pos (by omega)]
    have hl : (List.drop off (List.take ((off : Int) + -(k : Int) + m.data.length).toNat m.data)).length = m.data.length - k := by
      simp only [List.length_drop, List.length_take]
      omega
    refine ⟨hl, fun j hj => ?_⟩
    rw [hl] at hj
    rw [List.getElem?_drop, List.getElem?_take]
    rw [if_pos (by omega)]

/-- `-3` bytes from the second byte of a region of eight, and from the fourth. -/
example : (readBlock 0x101 (-3) ⟨fun _ => none, [⟨0x100, 0x107, [1, 2, 3, 4, 5, 6, 7, 8]⟩]⟩).1 = .ok (some [2, 3, 4, 5, 6]) ∧
    (readBlock 0x103 (-3) ⟨fun _ => none, [⟨0x100, 0x107, [1, 2, 3, 4, 5, 6, 7, 8]⟩]⟩).1 = .ok (some []) := by
  refine ⟨rfl, rfl⟩

end C69

/-! ### C77: columns -/

namespace C77

theorem padLeft_text {n : Nat} {s : Str} (h : s.length ≤ n) : ∃ k, k + s.length = n ∧ padLeft n s = List.replicate k ' ' ++ s :=
  ⟨n - s.length, by omega, rfl⟩

/-- How wide the name with its colon is set in a column. -/
def nameWidth (col : Nat) : Nat := if col = 3 then 10 else 4

/-- The cells of a row from a column on: the name right-justified, a blank, the contents with eight digits, a blank. -/
inductive Columns (c : Core) : Nat → List (Str × Int) → List Str → Prop where
  | nil {col : Nat} : Columns c col [] []
  | cons {col k : Nat} {n h : Str} {i : Int} {t : List (Str × Int)} {cells : List Str} : k + (n.length + 1) = nameWidth col →
      C69.Hex 4 h (c.reg i).toNat → Columns c (col + 1) t cells →
      Columns c col ((n, i) :: t) ((List.replicate k ' ' ++ n ++ c! ": 0x" ++ h ++ c! " ") :: cells)

/-- The lines of a table. -/
inductive Lines (c : Core) : List (List (Str × Int)) → List Output → Prop where
  | nil : Lines c [] []
  | cons {row : List (Str × Int)} {cells : List Str} {t : List (List (Str × Int))} {ls : List Output} : Columns c 0 row cells → Lines c t ls →
      Lines c (row :: t) (.line (List.intercalate (c! " ") cells) :: ls)

/-- Every name fits into its column. -/
def Fitting : Nat → List (Str × Int) → Prop
  | _, [] => True
  | col, p :: t => p.1.length + 1 ≤ nameWidth col ∧ Fitting (col + 1) t

theorem columns_run {c : Core} : ∀ {row : List (Str × Int)}, (∀ p ∈ row, p ∈ C68.names) → ∀ (col : Nat) {w : World}, Fitting col row → Shows w.cpu c →
    ∃ cells, registerCells col (row.map Prod.fst) w = (.ok cells, w) ∧ Columns c col row cells
  | [], _, _, _, _, _ => ⟨[], rfl, .nil⟩
  | (n, i) :: t, h, col, w, hf, hs => by
    have hk := h _ List.mem_cons_self
    obtain ⟨cells, e1, e2⟩ := columns_run (fun p hp => h p (List.mem_cons_of_mem _ hp)) (col + 1) hf.2 hs
    obtain ⟨k, hk1, hk2⟩ := padLeft_text (n := nameWidth col) (s := n ++ c! ":") (by simpa using hf.1)
    refine ⟨(padLeft (nameWidth col) (n ++ c! ":") ++ c! " " ++ altHex ((c.reg i).toNat : Int) ++ c! " ") :: cells, ?_, ?_⟩
    · rw [List.map_cons, registerCells, ConM.bind_ok (cpu_ok (C68.readRegister_shows hs hk))]
      simp only
      rw [ConM.bind_ok e1]
      rfl
    · rw [hk2, altHex_nat]
      have e : List.replicate k ' ' ++ (n ++ c! ":") ++ c! " " ++ (c! "0x" ++ hexPad 8 ((c.reg i).toNat : Int)) ++ c! " " =
          List.replicate k ' ' ++ n ++ c! ": 0x" ++ hexPad 8 ((c.reg i).toNat : Int) ++ c! " " := by
        simp
      rw [e]
      exact .cons (by simpa using hk1) (hex_word _) e2

theorem lines_run {c : Core} : ∀ {rows : List (List (Str × Int))}, (∀ row ∈ rows, (∀ p ∈ row, p ∈ C68.names) ∧ Fitting 0 row) → ∀ {w : World}, Shows w.cpu c →
    ∃ ls, dumpRegisters (rows.map (·.map Prod.fst)) w = (.ok (), { w with out := w.out ++ ls }) ∧ Lines c rows ls
  | [], _, w, _ => ⟨[], by rw [List.append_nil]; rfl, .nil⟩
  | row :: rows, h, w, hs => by
    obtain ⟨cells, e1, e2⟩ := columns_run (h row List.mem_cons_self).1 0 (h row List.mem_cons_self).2 hs
    obtain ⟨ls, e3, e4⟩ := lines_run (fun r hr => h r (List.mem_cons_of_mem _ hr))
      (w := { w with out := w.out ++ [.line (joinWith (c! " ") cells)] }) hs
    refine ⟨.line (joinWith (c! " ") cells) :: ls, ?_, .cons e2 e4⟩
    rw [List.map_cons, dumpRegisters, ConM.bind_ok e1]
    have : print (joinWith (c! " ") cells) w = (.ok (), { w with out := w.out ++ [.line (joinWith (c! " ") cells)] }) := rfl
    show (print (joinWith (c! " ") cells) >>= fun _ => dumpRegisters (rows.map (·.map Prod.fst))) w = _
    rw [ConM.bind_ok this, e3]
    simp

theorem fitting : ∀ row ∈ shownRegisters, Fitting 0 row := by
  intro row hr
  simp only [shownRegisters, List.mem_cons, List.not_mem_nil, or_false] at hr
  rcases hr with rfl | rfl | rfl | rfl | rfl | rfl <;> simp [Fitting, nameWidth]

/-- **C77.** The table is set in columns: every name ends at the same place as the names above it, since the names
are filled with blanks to four characters, in the last column to ten; all values have eight digits. -/
theorem reg_columns (python : Python) {w : World} {c : Core} (hs : Shows w.cpu c) {cmd : Str} (h : Says cmd (c! "reg") []) :
    ∃ ls, processCommand python cmd w = (.ok (), { w with out := w.out ++ ls }) ∧ Lines c shownRegisters ls := by
  have hn : ∀ row ∈ shownRegisters, ∀ p ∈ row, p ∈ C68.names := by decide +kernel
  obtain ⟨ls, e1, e2⟩ := lines_run (c := c) (rows := shownRegisters) (fun row hr => ⟨hn row hr, fitting row hr⟩) hs
  refine ⟨ls, ?_, e2⟩
  rw [C67.command_runs python h (c := .reg) (by decide)]
  have : handle .reg [] w = (.ok (), { w with out := w.out ++ ls }) := e1
  unfold catching
  rw [this]

/-- The fourth line of a new machine. -/
example : (processCommand C67.noPython (c! "reg") ⟨Machine.new, []⟩).2.out[3]? =
    some (.line (c! " r3: 0x00000000   r9: 0x00000000   pc: 0x00000000  faultmask: 0x00000000 ")) := by decide +kernel

end C77

/-! ### C78: addresses that are not mapped -/

namespace C78

/-- **C78.** `disasm` of an address that is not mapped reports a TypeError, and changes nothing. -/
theorem unmapped (python : Python) {w : World} {c : Core} (hs : Shows w.cpu c) (hm : MemOK w.cpu.mem) {cmd name : Str} {args : List Str}
    (hname : name ∈ disasmNames) (hcmd : Says cmd name args) {x n : Int} (hx : Range w.cpu.mem c args x n)
    (hu : ∀ r ∈ w.cpu.mem, ¬ (r.start ≤ x ∧ x ≤ r.stop)) :
    ∃ out, processCommand python cmd w = (.ok (), ⟨w.cpu, w.out ++ out ++ [.report (.py .typeError)]⟩) := by
  obtain ⟨out, e⟩ := range_run hs hm hx
  refine ⟨out, ?_⟩
  have hh : (name, Command.disasm) ∈ commandList := by
    clear hcmd
    revert hname
    revert name
    decide +kernel
  rw [C67.command_runs python hcmd hh]
  have hf : findMem w.cpu.mem x = none := by
    unfold findMem
    rw [Option.map_eq_none_iff, List.find?_eq_none]
    exact fun r hr hh => hu r hr (has_iff.1 hh)
  have hr : readBlock x n w.cpu = (.ok none, w.cpu) := by
    unfold readBlock
    split
    · unfold readMemoryBlock; rw [hf]
    · unfold readBlockBack; rw [hf]
  have key : handle .disasm args w = (.error (.py .typeError), { w with out := w.out ++ out }) := by
    show handleDisasm args w = _
    rw [e, ConM.bind_ok (cpu_ok (w := { w with out := w.out ++ out }) hr)]
    unfold printDisasm
    rw [ConM.bind_ok (C70.evenPc_run (w := { w with out := w.out ++ out }) hs)]
    rfl
  unfold catching
  rw [key]
  rfl

end C78
end Verif
