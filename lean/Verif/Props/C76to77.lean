import Verif.Props.C75
import Verif.Props.C27to30

/-!
# C76, C77: the console's commands for registers
-/

namespace Verif
open Console Typed BS

namespace C76

/-- The registers read as these words. -/
def Reads (s : Machine) (c : Core) : Prop := ∀ j ∈ coreIndices, readRegister (.idx j) s = (.ok (ofBV (c.reg j)), s)

theorem toLower_idem (c : Char) : c.toLower.toLower = c.toLower := by
  unfold Char.toLower
  split
  · rename_i h
    rw [dif_neg]
    rintro ⟨h1, h2⟩
    simp only [UInt32.le_iff_toNat_le, UInt32.toNat_add, UInt32.toNat_sub] at h h1 h2
    simp at h h1 h2
    omega
  · rfl

theorem lower_idem (s : Str) : lower (small s) = small s := by
  show (s.map Char.toLower).map Char.toLower = s.map Char.toLower
  rw [List.map_map]
  exact List.map_congr_left fun c _ => toLower_idem c

theorem kept_mod (k v : Int) : kept k v % 2 ^ 32 = kept k (v % 2 ^ 32) := by
  unfold kept
  split
  · omega
  · split
    · omega
    · split <;> omega

theorem kept_le {k v : Int} (h : v ≤ 2 ^ 32) : kept k v ≤ 2 ^ 32 := by
  unfold kept
  split
  · omega
  · split
    · omega
    · split <;> omega

theorem ofInt_kept (k v : Int) : BitVec.ofInt 32 (kept k v) = keepBits k (BitVec.ofInt 32 v) := by
  have h1 := maskReg_word k (BitVec.ofInt 32 v)
  rw [maskReg_eq] at h1
  have h2 : ((BitVec.ofInt 32 v).toNat : Int) = v % 2 ^ 32 := by
    rw [BitVec.toNat_ofInt]
    omega
  rw [h2, ← kept_mod] at h1
  apply BitVec.eq_of_toNat_eq
  rw [BitVec.toNat_ofInt]
  omega

theorem init_small {v : Int} (h : v ≤ 2 ^ 32) : init (.int v) = .ok (ofBV (BitVec.ofInt 32 v)) := by
  have : initRaw (.int v) = .ok (32, v) := by
    rw [initRaw, if_neg (show ¬ v > 2 ^ 32 by omega)]
  unfold init
  rw [this]
  show (.ok (ofInt v 32) : PyRes BS) = _
  rw [ofInt_ofBV]

theorem init_large {v : Int} (h : 2 ^ 32 < v) : init (.int v) = .ok (ofBV (BitVec.ofInt 64 v)) := by
  have : initRaw (.int v) = .ok (64, v) := by
    rw [initRaw, if_pos (show v > 2 ^ 32 by omega)]
  unfold init
  rw [this]
  show (.ok (ofInt v 64) : PyRes BS) = _
  rw [ofInt_ofBV]

theorem reads_of {s : Machine} {k : Int} {v : Int} (h : s.regs (some k) = some v) : readRegister (.idx k) s = (init (.int v), s) := by
  unfold readRegister
  have : delegateReadRegister (registerIndex (.idx k)) s = (.ok v, s) := by
    unfold delegateReadRegister
    rw [show registerIndex (.idx k) = some k from rfl, h]
  rw [CpuM.bind_ok this]
  rfl

/-- `wreg` with a name and a value, before the console looks at the result. -/
theorem wreg_runs (python : Python) {w : World} {c : Core} (hs : Shows w.cpu c) (hm : MemOK w.cpu.mem) {cmd r arg : Str} {rest : List Str}
    (h : Says cmd (c! "wreg") (r :: arg :: rest)) {v : Int} (hv : C68.Value w.cpu.mem c arg v) :
    ∃ ls, processCommand python cmd w = catching (cpu (writeRegister (.name (small r)) (.int v))) { w with out := w.out ++ ls } := by
  obtain ⟨ls, e⟩ := C69.value_run hs hm hv
  refine ⟨ls, ?_⟩
  rw [C67.command_runs python h (c := .wreg) (by decide)]
  have : handle .wreg (r :: arg :: rest) w = cpu (writeRegister (.name (small r)) (.int v)) { w with out := w.out ++ ls } := by
    show handleWriteReg (r :: arg :: rest) w = _
    rw [handleWriteReg, ConM.bind_ok e]
    rfl
  unfold catching
  rw [this]

/-- **C76.** `wreg REG VALUE` for a value up to 2**32, also a negative one: afterwards every
register reads as the manual's machine does after the register was set to the value modulo
2**32 (SP and the masks keep only some bits, SP and MSP are the same), and memory is
as it was. If the value is not negative and below 2**32, the register holds it. Missing:
larger values (`too_large`, `full_claim_false`). -/
theorem wreg_partial (python : Python) {w : World} {c : Core} (hs : Shows w.cpu c) (hm : MemOK w.cpu.mem) {cmd r arg : Str} {rest : List Str}
    (h : Says cmd (c! "wreg") (r :: arg :: rest)) {k : Int} (hk : (small r, k) ∈ C68.names) {v : Int} (hv : C68.Value w.cpu.mem c arg v)
    (hle : v ≤ 2 ^ 32) :
    ∃ s' ls, processCommand python cmd w = (.ok (), ⟨s', w.out ++ ls⟩) ∧ s'.mem = w.cpu.mem ∧ Reads s' (c.set k (BitVec.ofInt 32 v)) ∧
      (0 ≤ v → v < 2 ^ 32 → Shows s' (c.set k (BitVec.ofInt 32 v))) := by
  obtain ⟨ls, e⟩ := wreg_runs python hs hm h hv
  obtain ⟨i1, i2, -⟩ := C68.names_index _ hk
  obtain ⟨s', e1, e2, e3, e4, e5, e6⟩ := C28.write_spec w.cpu (r := .name (small r)) i1 (.int v)
  simp only [Num.toInt] at e3 e4 e5
  have key : ∀ j ∈ coreIndices, s'.regs (some j) = some (if j = k ∨ (k = 13 ∧ j = 17) ∨ (k = 17 ∧ j = 13) then kept k v else ((c.reg j).toNat : Int)) := by
    intro j hj
    split
    · rename_i hc
      rcases hc with rfl | ⟨rfl, rfl⟩ | ⟨rfl, rfl⟩
      · exact e3
      · exact e4 rfl
      · exact e5 rfl
    · rename_i hc
      rw [← hs.1 j hj]
      refine e6 (some j) (fun he => hc (.inl (Option.some.inj he))) (fun he => hc (.inr (.inl ⟨he.1, Option.some.inj he.2⟩)))
        (fun he => hc (.inr (.inr ⟨he.1, Option.some.inj he.2⟩)))
  refine ⟨s', ls, ?_, e2, ?_, ?_⟩
  · rw [e]
    unfold catching
    rw [cpu_ok (w := { w with out := w.out ++ ls }) e1]
  · intro j hj
    rw [reads_of (key j hj), core_reg_set]
    by_cases hc : j = k ∨ (k = 13 ∧ j = 17) ∨ (k = 17 ∧ j = 13)
    · rw [if_pos hc, if_pos hc, init_small (kept_le hle), ofInt_kept]
    · rw [if_neg hc, if_neg hc, init_small (by have := (c.reg j).isLt; omega)]
      simp
  · intro h0 h1
    refine ⟨fun j hj => ?_, by rw [e2]; exact hs.2⟩
    rw [key j hj, core_reg_set]
    by_cases hc : j = k ∨ (k = 13 ∧ j = 17) ∨ (k = 17 ∧ j = 13)
    · rw [if_pos hc, if_pos hc, ← ofInt_kept, BitVec.toNat_ofInt]
      have : 0 ≤ kept k v ∧ kept k v < 2 ^ 32 := by
        unfold kept
        split
        · omega
        · split
          · omega
          · split <;> omega
      congr 1
      omega
    · rw [if_neg hc, if_neg hc]

/-- **C76.** A value above 2**32 is stored as it is; the register then reads as 64 bits. -/
theorem too_large (python : Python) {w : World} {c : Core} (hs : Shows w.cpu c) (hm : MemOK w.cpu.mem) {cmd r arg : Str} {rest : List Str}
    (h : Says cmd (c! "wreg") (r :: arg :: rest)) {k : Int} (hk : (small r, k) ∈ C68.names) (hn : k ∉ [-3, -2, -1, 13, 17, 18])
    {v : Int} (hv : C68.Value w.cpu.mem c arg v) (hle : 2 ^ 32 < v) :
    readRegister (.idx k) (processCommand python cmd w).2.cpu = (.ok (ofBV (BitVec.ofInt 64 v)), (processCommand python cmd w).2.cpu) := by
  obtain ⟨ls, e⟩ := wreg_runs python hs hm h hv
  obtain ⟨i1, i2, -⟩ := C68.names_index _ hk
  obtain ⟨s', e1, -, e3, -⟩ := C28.write_spec w.cpu (r := .name (small r)) i1 (.int v)
  have hkept : kept k v = v := by
    simp only [List.mem_cons, List.not_mem_nil, or_false, not_or] at hn
    unfold kept
    rw [if_neg (by omega), if_neg (by omega), if_neg (by omega)]
  have : (processCommand python cmd w).2.cpu = s' := by
    rw [e]
    unfold catching
    rw [cpu_ok (w := { w with out := w.out ++ ls }) e1]
  rw [this, reads_of e3]
  show (init (.int (kept k v)), s') = _
  rw [hkept, init_large hle]

/-- **C76.** A name that is no register: no register and no memory changes, and there is no
message. -/
theorem unknown_register (python : Python) {w : World} {c : Core} (hs : Shows w.cpu c) (hm : MemOK w.cpu.mem) {cmd r arg : Str} {rest : List Str}
    (h : Says cmd (c! "wreg") (r :: arg :: rest)) (hk : ∀ k, (small r, k) ∉ C68.names) {v : Int} (hv : C68.Value w.cpu.mem c arg v) :
    ∃ s' ls, convertValue arg w = (.ok v, ⟨w.cpu, w.out ++ ls⟩) ∧ processCommand python cmd w = (.ok (), ⟨s', w.out ++ ls⟩) ∧
      s'.mem = w.cpu.mem ∧ ∀ j, s'.regs (some j) = w.cpu.regs (some j) := by
  obtain ⟨ls, e⟩ := C69.value_run hs hm hv
  have hr : registerIndex (.name (small r)) = none := by
    show Option.map _ (coreRegister.find? _) = none
    rw [Option.map_eq_none_iff, List.find?_eq_none]
    rintro ⟨t, k⟩ hp ht
    simp only [decide_eq_true_eq] at ht
    have : lower (small r) = small r := lower_idem r
    rw [this] at ht
    exact hk k (by rw [← ht]; exact C68.names_perm.2 _ hp)
  obtain ⟨f1, f2, f3⟩ := C28.write_unknown w.cpu hr (.int v)
  cases hw : writeRegister (.name (small r)) (.int v) w.cpu with
  | mk res s' =>
    rw [hw] at f1 f2 f3
    simp only at f1 f2 f3
    subst f1
    refine ⟨s', ls, e, ?_, f2, f3⟩
    rw [C67.command_runs python h (c := .wreg) (by decide)]
    have : handle .wreg (r :: arg :: rest) w = (.ok (), ⟨s', w.out ++ ls⟩) := by
      show handleWriteReg (r :: arg :: rest) w = _
      rw [handleWriteReg, ConM.bind_ok e, show lower r = small r from rfl, cpu_ok (w := { w with out := w.out ++ ls }) hw]
    unfold catching
    rw [this]

/-- **C76.** With an argument missing or one that means nothing, the machine stays as it is and
there is a message. -/
theorem refused (python : Python) {w : World} {c : Core} (hs : Shows w.cpu c) (hm : MemOK w.cpu.mem) {cmd : Str} {args : List Str}
    (h : Says cmd (c! "wreg") args) (ha : ∀ r arg rest, args = r :: arg :: rest → ∀ v, ¬ C68.Value w.cpu.mem c arg v) :
    ∃ ls e, processCommand python cmd w = (.ok (), ⟨w.cpu, w.out ++ ls ++ [.report e]⟩) := by
  rw [C67.command_runs python h (c := .wreg) (by decide)]
  match args, ha with
  | [], _ => exact ⟨[], .toolError, by rw [List.append_nil]; rfl⟩
  | [_], _ => exact ⟨[], .toolError, by rw [List.append_nil]; rfl⟩
  | r :: arg :: rest, ha =>
    obtain ⟨h1, h2⟩ := C68.no_value hs hm arg
    obtain ⟨e, he⟩ := h2 (ha r arg rest rfl)
    obtain ⟨ls, h3⟩ := adds_convertValue arg w
    cases hx : convertValue arg w with
    | mk res w' =>
      rw [hx] at h1 he h3
      simp only at h1 he h3
      subst he
      refine ⟨ls, .py e, ?_⟩
      have : handle .wreg (r :: arg :: rest) w = (.error (.py e), w') := by
        show handleWriteReg (r :: arg :: rest) w = _
        rw [handleWriteReg, ConM.bind_err hx]
      unfold catching
      rw [this]
      show (_, World.mk w'.cpu (w'.out ++ [_])) = _
      rw [h1, h3]

/-- **C76.** A register does not always read as the value given modulo 2**32. -/
theorem full_claim_false : ∃ w : World, ∀ python,
    readRegister (.idx 0) (processCommand python (c! "wreg r0 0x100000005") w).2.cpu ≠
      (.ok (ofBV (BitVec.ofInt 32 0x100000005)), (processCommand python (c! "wreg r0 0x100000005") w).2.cpu) := by
  refine ⟨⟨Machine.new, []⟩, fun python h => ?_⟩
  have h2 := too_large python (w := ⟨Machine.new, []⟩) (shows_new []) ⟨by simp [Machine.new], by simp [Machine.new]⟩
    (cmd := c! "wreg r0 0x100000005") (r := c! "r0") (arg := c! "0x100000005") (rest := []) ⟨c! "wreg", words_iff.1 (by decide), by decide⟩ (k := 0)
    (by decide +kernel) (by decide) (.direct (by decide) (.number (.plain (.hex (s := c! "100000005") (v := 0x100000005) (by decide))))) (by decide)
  rw [h2] at h
  have := congrArg (fun p => match p.1 with | .ok b => b.width | .error _ => 0) h
  cases this

/-- `wreg r3 -1` -/
example {c : Core} {s : Machine} (hs : Shows s c) (hm : MemOK s.mem) :
    ∃ s' ls, processCommand C67.noPython (c! "wreg R3 -1") ⟨s, []⟩ = (.ok (), ⟨s', ls⟩) ∧
      (readRegister (.idx 3) s').1 = .ok (ofBV 0xffffffff#32) ∧ readRegister (.idx 2) s' = (.ok (ofBV (c.reg 2)), s') := by
  obtain ⟨s', ls, h1, -, h2, -⟩ := wreg_partial C67.noPython (w := ⟨s, []⟩) hs hm (cmd := c! "wreg R3 -1") (r := c! "R3") (arg := c! "-1") (rest := [])
    ⟨c! "wreg", words_iff.1 (by decide), by decide⟩ (k := 3) (by decide +kernel)
    (.direct (by decide) (.number (.minus (s := c! "1") (v := 1) (.decimal (by decide) (by decide))))) (by decide)
  refine ⟨s', ls, h1, ?_, ?_⟩
  · rw [h2 3 (by decide), core_reg_set, if_pos (.inl rfl)]
    rfl
  · rw [h2 2 (by decide), core_reg_set, if_neg (by decide)]

end C76

namespace C77

/-- A line that shows a register: its name, its contents in hexadecimal and in decimal. -/
def RegLine (l name : Str) (v : Nat) : Prop :=
  ∃ h d, l = name ++ c! " = 0x" ++ h ++ c! " (" ++ d ++ c! ")" ∧ C69.Hex 4 h v ∧ Reader.nat 10 d = some v

theorem hex_word (v : Word) : C69.Hex 4 (hexPad 8 (v.toNat : Int)) v.toNat :=
  ⟨C69.hexPad_length (by have := v.isLt; omega) (by decide), C69.nat_hexPad _ _⟩

theorem handleReg_ok {w : World} {c : Core} (hs : Shows w.cpu c) {r : Str} {rest : List Str} {k : Int} (hk : (small r, k) ∈ C68.names) :
    ∃ l, handleReg (r :: rest) w = (.ok (), { w with out := w.out ++ [.line l] }) ∧ RegLine l (small r) (c.reg k).toNat := by
  refine ⟨_, ?_, hexPad 8 ((c.reg k).toNat : Int), intText 10 ((c.reg k).toNat : Int), rfl, hex_word _, ?_⟩
  · rw [handleReg, show lower r = small r from rfl, if_pos (C68.isRegister_iff.2 ⟨k, hk⟩), ConM.bind_ok (cpu_ok (C68.readRegister_shows hs hk))]
    rfl
  · unfold intText
    rw [if_neg (by omega), Int.natAbs_natCast]
    exact Reader.nat_natText (by decide) (by decide) _

/-- **C77.** `reg NAME` shows the contents of the register and changes nothing. -/
theorem reg_one (python : Python) {w : World} {c : Core} (hs : Shows w.cpu c) {cmd r : Str} {rest : List Str}
    (h : Says cmd (c! "reg") (r :: rest)) {k : Int} (hk : (small r, k) ∈ C68.names) :
    ∃ l, processCommand python cmd w = (.ok (), { w with out := w.out ++ [.line l] }) ∧ RegLine l (small r) (c.reg k).toNat := by
  obtain ⟨l, h1, h2⟩ := handleReg_ok hs (rest := rest) hk
  refine ⟨l, ?_, h2⟩
  rw [C67.command_runs python h (c := .reg) (by decide)]
  unfold catching
  rw [show handle .reg (r :: rest) w = _ from h1]

theorem names_dollar : ∀ p ∈ C68.names, p.1.head? ≠ some '$' ∧ p.1 ≠ c! "?" ∧ p.1 ≠ c! "help" := by decide +kernel

/-- **C77.** The name of a register, as a command, does the same. -/
theorem register_command (python : Python) {w : World} {c : Core} (hs : Shows w.cpu c) {cmd r : Str} {args : List Str}
    (h : Says cmd r args) {k : Int} (hk : (r, k) ∈ C68.names) :
    ∃ l, processCommand python cmd w = (.ok (), { w with out := w.out ++ [.line l] }) ∧ RegLine l r (c.reg k).toNat := by
  obtain ⟨a, h1, rfl⟩ := h
  obtain ⟨n1, n2, n3⟩ := names_dollar _ hk
  simp only at n1 n2 n3
  have hd : a.head? ≠ some '$' := by
    intro hd
    apply n1
    cases a with
    | nil => cases hd
    | cons x t =>
      simp only [List.head?_cons, Option.some.injEq] at hd
      subst hd
      rfl
  have hsm : small (small a) = small a := C76.lower_idem a
  obtain ⟨l, h3, h4⟩ := handleReg_ok hs (r := small a) (rest := []) (k := k) (by rw [hsm]; exact hk)
  rw [hsm] at h4
  refine ⟨l, ?_, h4⟩
  unfold processCommand
  rw [dispatch_named python h1 hd, lower_small]
  unfold named catching
  rw [if_neg (by simp [n2, n3]), if_pos (C68.isRegister_iff.2 ⟨k, hk⟩), h3]

/-- **C77.** A name that is no register is refused. -/
theorem reg_unknown (python : Python) (w : World) {cmd r : Str} {rest : List Str} (h : Says cmd (c! "reg") (r :: rest))
    (hk : ∀ k, (small r, k) ∉ C68.names) : processCommand python cmd w = (.ok (), { w with out := w.out ++ [.report .toolError] }) := by
  rw [C67.command_runs python h (c := .reg) (by decide)]
  have : handle .reg (r :: rest) w = (.error .toolError, w) := by
    show handleReg (r :: rest) w = _
    rw [handleReg, if_neg]
    · rfl
    · intro hr
      obtain ⟨k, hk'⟩ := C68.isRegister_iff.1 hr
      exact hk k hk'
  unfold catching
  rw [this]
  rfl

/-- The table of registers that `reg` shows: all core registers and special registers, none
twice. -/
def shownRegisters : List (List (Str × Int)) := [
  [(c! "r0", 0), (c! "r6", 6), (c! "r12", 12), (c! "xpsr", 16)],
  [(c! "r1", 1), (c! "r7", 7), (c! "sp", 13), (c! "control", -4)],
  [(c! "r2", 2), (c! "r8", 8), (c! "lr", 14), (c! "primask", -1)],
  [(c! "r3", 3), (c! "r9", 9), (c! "pc", 15), (c! "faultmask", -3)],
  [(c! "r4", 4), (c! "r10", 10), (c! "msp", 17), (c! "basepri", -2)],
  [(c! "r5", 5), (c! "r11", 11), (c! "psp", 18)]]

/-- The words of a row: names with a colon, and the contents. -/
inductive Cells (c : Core) : List (Str × Int) → List Str → Prop where
  | nil : Cells c [] []
  | cons {n h : Str} {k : Int} {t : List (Str × Int)} {ws : List Str} : C69.Hex 4 h (c.reg k).toNat → Cells c t ws →
      Cells c ((n, k) :: t) ((n ++ c! ":") :: (c! "0x" ++ h) :: ws)

/-- Lines that show rows. -/
inductive Rows (c : Core) : List (List (Str × Int)) → List Output → Prop where
  | nil : Rows c [] []
  | cons {row : List (Str × Int)} {rows : List (List (Str × Int))} {l : Str} {ws : List Str} {ls : List Output} : WordsOf l ws → Cells c row ws →
      Rows c rows ls → Rows c (row :: rows) (.line l :: ls)

theorem altHex_nat (n : Nat) : altHex (n : Int) = c! "0x" ++ hexPad 8 (n : Int) := by
  rw [C69.hexPad_nat]
  unfold altHex
  rw [if_neg (by omega)]
  simp

theorem words_blank : ∀ (n : Nat) (s : Str), words (List.replicate n ' ' ++ s) = words s
  | 0, _ => rfl
  | n + 1, s => by
    have := C69.words_append (d := ' ') (by decide) [] (List.replicate n ' ' ++ s)
    rw [List.nil_append] at this
    rw [List.replicate_succ, List.cons_append, this, words_blank n s]
    rfl

theorem words_join : ∀ (l : List Str), words (joinWith (c! " ") l) = l.flatMap words
  | [] => by simp [joinWith, List.intercalate, words, splitBy]
  | [a] => by simp [Reader.joinWith_single]
  | a :: b :: t => by
    rw [Reader.joinWith_cons, List.append_assoc, show c! " " ++ joinWith (c! " ") (b :: t) = ' ' :: joinWith (c! " ") (b :: t) from rfl,
      C69.words_append (by decide), words_join (b :: t)]
    rfl

theorem words_cell {n : Str} (h0 : ∀ c ∈ n, ¬ Blank c) (width : Nat) (v : Word) :
    words (padLeft width (n ++ c! ":") ++ c! " " ++ altHex (v.toNat : Int) ++ c! " ") = [n ++ c! ":", c! "0x" ++ hexPad 8 (v.toNat : Int)] := by
  rw [show c! " " = ' ' :: [] from rfl, C69.words_append (by decide), List.append_assoc,
    show ' ' :: [] ++ altHex (v.toNat : Int) = ' ' :: altHex (v.toNat : Int) from rfl, C69.words_append (by decide), altHex_nat]
  unfold padLeft
  rw [words_blank, C69.words_one, C69.words_one]
  · rfl
  · simp
  · intro c hc
    rw [List.mem_append] at hc
    rcases hc with hc | hc
    · revert c
      decide
    · exact C69.hexPad_blank c hc
  · simp
  · intro c hc
    rw [List.mem_append] at hc
    rcases hc with hc | hc
    · exact h0 c hc
    · rw [List.mem_singleton] at hc
      rw [hc]
      decide

theorem names_blank : ∀ p ∈ C68.names, ∀ c ∈ p.1, ¬ Blank c := by decide +kernel

theorem cells_run {c : Core} : ∀ {row : List (Str × Int)}, (∀ p ∈ row, p ∈ C68.names) → ∀ (col : Nat) {w : World}, Shows w.cpu c →
    ∃ cells, registerCells col (row.map Prod.fst) w = (.ok cells, w) ∧ Cells c row (cells.flatMap words)
  | [], _, _, _, _ => ⟨[], rfl, .nil⟩
  | (n, k) :: t, h, col, w, hs => by
    have hk := h _ List.mem_cons_self
    obtain ⟨cells, e1, e2⟩ := cells_run (fun p hp => h p (List.mem_cons_of_mem _ hp)) (col + 1) hs
    refine ⟨(padLeft (if col = 3 then 10 else 4) (n ++ c! ":") ++ c! " " ++ altHex ((c.reg k).toNat : Int) ++ c! " ") :: cells, ?_, ?_⟩
    · rw [List.map_cons, registerCells, ConM.bind_ok (cpu_ok (C68.readRegister_shows hs hk))]
      simp only
      rw [ConM.bind_ok e1]
      rfl
    · rw [List.flatMap_cons, words_cell (names_blank _ hk)]
      exact .cons (hex_word _) e2

theorem dump_run {c : Core} : ∀ {rows : List (List (Str × Int))}, (∀ row ∈ rows, ∀ p ∈ row, p ∈ C68.names) → ∀ {w : World}, Shows w.cpu c →
    ∃ ls, dumpRegisters (rows.map (·.map Prod.fst)) w = (.ok (), { w with out := w.out ++ ls }) ∧ Rows c rows ls
  | [], _, w, _ => ⟨[], by rw [List.append_nil]; rfl, .nil⟩
  | row :: rows, h, w, hs => by
    obtain ⟨cells, e1, e2⟩ := cells_run (h row List.mem_cons_self) 0 hs
    obtain ⟨ls, e3, e4⟩ := dump_run (fun r hr => h r (List.mem_cons_of_mem _ hr))
      (w := { w with out := w.out ++ [.line (joinWith (c! " ") cells)] }) hs
    refine ⟨.line (joinWith (c! " ") cells) :: ls, ?_, .cons (words_iff.1 rfl) (by rw [words_join]; exact e2) e4⟩
    rw [List.map_cons, dumpRegisters, ConM.bind_ok e1]
    show (ConM.bind (print _) _) w = _
    have : print (joinWith (c! " ") cells) w = (.ok (), { w with out := w.out ++ [.line (joinWith (c! " ") cells)] }) := rfl
    show (print (joinWith (c! " ") cells) >>= fun _ => dumpRegisters (rows.map (·.map Prod.fst))) w = _
    rw [ConM.bind_ok this, e3]
    simp

/-- **C77.** `reg` alone shows the contents of all core registers and special registers, each
after its name, and changes nothing. -/
theorem reg_all (python : Python) {w : World} {c : Core} (hs : Shows w.cpu c) {cmd : Str} (h : Says cmd (c! "reg") []) :
    ∃ ls, processCommand python cmd w = (.ok (), { w with out := w.out ++ ls }) ∧ Rows c shownRegisters ls := by
  obtain ⟨ls, e1, e2⟩ := dump_run (c := c) (rows := shownRegisters) (by decide +kernel) hs
  refine ⟨ls, ?_, e2⟩
  rw [C67.command_runs python h (c := .reg) (by decide)]
  have : handle .reg [] w = (.ok (), { w with out := w.out ++ ls }) := e1
  unfold catching
  rw [this]

/-- The table has every register from -4 to 18 (the core and special registers) exactly once. -/
theorem all_shown : ∀ k ∈ coreIndices, k ≤ 18 → ((shownRegisters.flatMap id).filter (·.2 = k)).length = 1 := by decide +kernel

/-- `R7` typed as a command, then `reg` of a name that does not exist. -/
example {c : Core} {s : Machine} (hs : Shows s c) (h : c.reg 7 = 0xfffffffe#32) :
    processCommand C67.noPython (c! "R7") ⟨s, []⟩ = (.ok (), ⟨s, [.line (c! "r7 = 0xfffffffe (4294967294)")]⟩) := by
  have h1 : WordsOf (c! "R7") [c! "R7"] := words_iff.1 (by decide)
  unfold processCommand catching
  rw [dispatch_named C67.noPython h1 (by decide)]
  unfold named
  rw [if_neg (by decide), if_pos (by decide +kernel), handleReg]
  rw [if_pos (by decide +kernel), ConM.bind_ok (cpu_ok (C68.readRegister_shows hs (show (lower (lower (c! "R7")), (7 : Int)) ∈ C68.names by decide +kernel))), h]
  have : c! "r7" ++ c! " = 0x" ++ hexPad 8 ((ofBV 0xfffffffe#32).value : Nat) ++ c! " (" ++ intText 10 ((ofBV 0xfffffffe#32).value : Nat) ++ c! ")" =
    c! "r7 = 0xfffffffe (4294967294)" := by decide +kernel
  exact congrArg (fun l => ((.ok (), ⟨s, [.line l]⟩) : Except Exn Unit × World)) this

end C77
end Verif
