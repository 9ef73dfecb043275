import Verif.Props.C65to66
import Verif.Props.C72to73
import Verif.Props.C69

/-!
# C70: the console's step command
-/

namespace Verif
open Console Typed BS Thumb

/-! ### Formatting and executing -/

theorem format_fields {i i' : Instr} {t : Str} (h : i.format = .ok (t, i')) : ∃ os m, i' = { i with operands := os, mask := m } := by
  unfold Instr.format at h
  cases h1 : byteString i.bytes with
  | error e => rw [h1] at h; cases h
  | ok bs =>
    rw [h1] at h
    cases h2 : formatEach (Operand.format i) i.operands with
    | error e => rw [h2] at h; cases h
    | ok p =>
      obtain ⟨ss, cs, os⟩ := p
      rw [h2] at h
      simp only [Bind.bind, Except.bind] at h
      split at h
      · injection h with h
        injection h with _ h
        exact ⟨_, _, h.symm⟩
      · injection h with h
        injection h with _ h
        exact ⟨_, _, h.symm⟩

/-- The operands and the mask make no difference to what executing does. -/
theorem eval_fields {act : Act} {i : Instr} (h : act.Of i) (hv : act.Valid) (os : List Operand) (m : Option BS) (a : Arm) :
    ({ i with operands := os, mask := m } : Instr).eval a.conc =
      outcome (act.leaves a { i with operands := os, mask := m }) (act.effect i.size a) := by
  have key : (∃ n k s, act = .msr n k s) ∨ act.Of { i with operands := os, mask := m } := by
    cases act
    case msr n k s => exact .inl ⟨n, k, s, rfl⟩
    all_goals right
    all_goals unfold Act.Of at h ⊢
    all_goals first
      | exact h
      | (rename_i x; cases x <;> exact h)
  rcases key with ⟨n, k, s, rfl⟩ | key
  · have e : ({ i with operands := os, mask := m } : Instr).eval = Exec.plain { i with operands := os, mask := m } := by
      unfold Instr.eval
      simp only [h.1]
    have e' : i.eval = Exec.plain i := by
      unfold Instr.eval
      simp only [h.1]
    have h1 := eval_exact h hv a
    rw [e'] at h1
    rw [e]
    unfold Exec.plain at h1 ⊢
    have ha : Exec.advance { i with operands := os, mask := m } = Exec.advance i := rfl
    rw [ha]
    rw [CpuM.bind_def] at h1 ⊢
    cases hx : Exec.advance i a.conc with
    | mk r s' =>
      rw [hx] at h1
      cases r with
      | ok u =>
        have : s' = (a.next i.size).conc := (Prod.mk.inj h1).2
        subst this
        rfl
      | error e => cases (Prod.mk.inj h1).1
  · exact eval_exact key hv a

namespace C64

/-- **C64.** Formatting a decoded instruction does not change what executing it does: the same
machine afterwards, and the same exception if there is one. -/
theorem executes_the_same {i i' : Instr} {t : Str} (h : FromBytes i) (hf : i.format = .ok (t, i')) {s : Machine} {c : Core} (hs : Shows s c) :
    (i'.eval s).2 = (i.eval s).2 ∧ ∀ e, (i'.eval s).1 = .error e ↔ (i.eval s).1 = .error e := by
  obtain ⟨act, h1, hv⟩ := C31.decoded_act h
  obtain ⟨os, m, rfl⟩ := format_fields hf
  obtain ⟨a, rfl, -, -⟩ := hs.arm
  rw [eval_fields h1 hv, eval_exact h1 hv]
  cases act.effect i.size a with
  | mk r b =>
    cases r with
    | ok u => exact ⟨rfl, fun e => by constructor <;> (intro h; cases h)⟩
    | error x => exact ⟨rfl, fun e => Iff.rfl⟩

end C64

namespace C70

/-- The address of the next instruction: PC without its lowest bit. -/
def at_ (c : Core) : Int := ((c.reg 15).toNat / 2 * 2 : Nat)

/-- The names of the command. -/
def stepNames : List Str := [c! "step", c! "s"]

/-- What comes after a 16-bit instruction does not disturb the command: the region ends, or
there is the first half of a 32-bit instruction, or a 16-bit instruction. -/
inductive NextFine (mem : List Region) (f : Flat) (x : Int) : Prop where
  | last : ¬ Inside mem x 3 → NextFine mem f x
  | long {h : Nat} : Inside mem x 4 → flatRead f (x + 2) 2 = some h → 0xe800 ≤ h → NextFine mem f x
  | short {h : Nat} {e : Enc} : Inside mem x 4 → flatRead f (x + 2) 2 = some h → e ∈ encodings → e.pat.length = 16 → e.Is h → NextFine mem f x

theorem step_handler {name : Str} (h : name ∈ stepNames) : (name, Command.step) ∈ commandList := by
  revert name
  decide +kernel

theorem evenPc_run {w : World} {c : Core} (hs : Shows w.cpu c) : evenPc w = (.ok (at_ c), w) := by
  unfold evenPc
  rw [ConM.bind_ok (cpu_ok (C68.readRegister_shows hs (t := c! "pc") (k := 15) (by decide +kernel)))]
  have h := C20.and_not_low ((c.reg 15).toNat : Int) 1
  have e : pyAnd (((ofBV (c.reg 15)).unsigned : Nat) : Int) (pyNot 1) = at_ c := by
    rw [show (pyNot 1) = pyNot (2 ^ 1 - 1) from rfl]
    show pyAnd ((c.reg 15).toNat : Int) _ = _
    rw [h]
    unfold at_
    omega
  rw [e]
  rfl

/-- The bytes the command reads: at most four, to the end of the region. -/
theorem block_four {s : Machine} (hm : MemOK s.mem) {x : Int} (hin : Inside s.mem x 1) :
    ∃ d, readMemoryBlock x 4 s = (.ok (some d), s) ∧ d.length ≤ 4 ∧ (∀ b ∈ d, b < 256) ∧
      (∀ k, k ≤ 4 → (k ≤ d.length ↔ Inside s.mem x k ∨ k = 0)) ∧ ∀ j, j < d.length → d[j]? = flat s.mem (x + (j : Nat)) := by
  obtain ⟨m, hmem, hf, h1, h2, hb⟩ := find_inside hm (n := 1) (by decide) hin
  have hl := hm.1 m hmem
  have hlen : (getBytes m.data (x - m.start).toNat 4).length = min 4 (m.data.length - (x - m.start).toNat) := by
    unfold getBytes
    rw [List.length_take, List.length_drop]
  refine ⟨getBytes m.data (x - m.start).toNat 4, ?_, ?_, ?_, ?_, ?_⟩
  · unfold readMemoryBlock
    rw [show findMem s.mem x = some (m, (x - m.start).toNat) by unfold findMem; rw [hf]; rfl]
  · omega
  · intro b h
    unfold getBytes at h
    exact hl.2 b (List.mem_of_mem_drop (List.mem_of_mem_take h))
  · intro k hk
    constructor
    · intro h
      by_cases h0 : k = 0
      · exact .inr h0
      · refine .inl ⟨m, hmem, h1, ?_⟩
        have := hl.1
        omega
    · rintro (h | h)
      · by_cases h0 : k = 0
        · omega
        · obtain ⟨m', -, hf', h1', h2', -⟩ := find_inside hm (by omega) h
          rw [hf] at hf'
          cases hf'
          have := hl.1
          omega
      · omega
  · intro j hj
    have hj4 : j < 4 := by omega
    rw [C26.getElem_getBytes _ _ _ _ hj4]
    have hin' : Inside s.mem x (j + 1) := by
      have := hl.1
      exact ⟨m, hmem, h1, by omega⟩
    obtain ⟨m', -, hf', h1', h2', hb'⟩ := find_inside hm (by omega) hin'
    rw [hf] at hf'
    cases hf'
    obtain ⟨b, h3, h4, -⟩ := hb' j (by omega)
    rw [h3, h4]

theorem dis_nil (a : Int) : dis [] a = ([], none) := by
  rw [dis_eq, if_pos rfl]

theorem dis_ok {data : List Nat} {a : Int} {i : Instr} (h : (trees.decode data a).1 = .ok i) (h0 : data ≠ []) :
    dis data a = (dis (data.drop i.size) (a + i.size)).cons i := by
  rw [dis_eq, if_neg h0]
  unfold decodeAt
  rw [h]

theorem dis_undefined {data : List Nat} {a : Int} (h : (trees.decode data a).1 = .error .undefinedInstruction) (hl : data.length < 4) :
    dis data a = ([], none) := by
  rw [dis_eq]
  unfold decodeAt
  rw [h]
  simp only [hl, if_true, ite_self]

theorem is32_of {h : Nat} (h1 : 0xe800 ≤ h) (h2 : h < 65536) : is32bit h = true := by
  have : h &&& 0xf800 = h / 2048 * 2048 := by
    apply Nat.eq_of_testBit_eq
    intro i
    rw [Nat.testBit_and]
    have e1 : h / 2048 * 2048 = (h >>> 11) <<< 11 := by
      rw [Nat.shiftRight_eq_div_pow, Nat.shiftLeft_eq]
    rw [e1, Nat.testBit_shiftLeft, Nat.testBit_shiftRight]
    by_cases hi : i < 16
    · have : ∀ i < 16, (0xf800).testBit i = decide (11 ≤ i) := by decide
      rw [this i hi]
      by_cases h11 : 11 ≤ i
      · simp [h11, show 11 + (i - 11) = i by omega]
      · simp [h11]
    · have hh : h.testBit i = false := Nat.testBit_lt_two_pow (Nat.lt_of_lt_of_le h2 (Nat.pow_le_pow_right (n := 2) (by decide) (show 16 ≤ i by omega)))
      rw [show 11 + (i - 11) = i by omega, hh]
      simp
  unfold is32bit
  rw [this]
  have h3 : h / 2048 = 29 ∨ h / 2048 = 30 ∨ h / 2048 = 31 := by omega
  rcases h3 with e | e | e <;> rw [e] <;> decide

/-- What follows does not disturb. -/
theorem rest_fine {mem : List Region} {f : Flat} {x : Int} {b0 b1 : Nat} (h : NextFine mem f x) (hin : Inside mem x 3) (h0 : f (x + 2) = some b0)
    (h1 : f (x + 3) = some b1) (hb0 : b0 < 256) (hb1 : b1 < 256) (a : Int) : (dis [b0, b1] a).2 = none := by
  have hr : flatRead f (x + 2) 2 = some (b0 + 256 * b1) := by
    simp [flatRead, h0, show x + 2 + 1 = x + 3 by omega, h1]
  have hd : ∀ b ∈ [b0, b1], b < 256 := by
    intro b hb
    simp only [List.mem_cons, List.not_mem_nil, or_false] at hb
    rcases hb with rfl | rfl <;> assumption
  cases h with
  | last h => exact absurd hin h
  | @long h _ hh hl =>
    rw [hr] at hh
    cases hh
    have hw : firstWord [b0, b1] = none := by
      unfold firstWord
      simp only
      rw [if_pos (is32_of hl (by omega))]
    have := decode_bytes [b0, b1] hd (by simp) a
    rw [hw] at this
    rw [dis_undefined this (by simp)]
  | @short h e _ hh he hlen hi =>
    rw [hr] at hh
    cases hh
    have hne : e.pat ≠ Thumb.pushW.pat := by
      intro e1
      rw [e1] at hlen
      revert hlen
      decide
    obtain ⟨i, -, -, -, h1, -⟩ := C74.line_of he hi hne (rest := []) (by simp) a
    have hbytes : C38.bytesOf e (b0 + 256 * b1) = [b0, b1] := by
      unfold C38.bytesOf
      rw [if_neg (by omega), show (b0 + 256 * b1) % 256 = b0 by omega, show (b0 + 256 * b1) / 256 = b1 by omega]
    rw [hbytes, List.append_nil] at h1
    rw [dis_ok h1 (by simp)]
    have h2 := size_pos i
    rw [List.drop_eq_nil_of_le (by simpa using h2), dis_nil]
    rfl

/-! ### The command -/

/-- The line the command prints. -/
def stepLine (x : Int) (text : Str) : Output := .line (altHex x ++ c! ":  " ++ text)

theorem stepBody_some {w : World} {x : Int} {d : List Nat} (h1 : readMemoryBlock x 4 w.cpu = (.ok (some d), w.cpu)) :
    stepBody x w = match disasm trees d x with
      | (_, some e) => (.error (.py e), w)
      | ([], none) => print (c! "No instructions found!") w
      | (i :: _, none) => (expr i.format >>= fun p => do
          print (altHex p.2.address ++ c! ":  " ++ p.1)
          let _ ← cpu p.2.eval
          pure ()) w := by
  unfold stepBody
  rw [ConM.bind_ok (cpu_ok h1)]
  simp only
  generalize disasm trees d x = r
  match r with
  | (_, some e) => rfl
  | ([], none) => rfl
  | (i :: _, none) => rfl

theorem show_and_execute {w : World} {i i' : Instr} {t : Str} (h : i.format = .ok (t, i')) :
    (expr i.format >>= fun p => do
          print (altHex p.2.address ++ c! ":  " ++ p.1)
          let _ ← cpu p.2.eval
          pure ()) w =
      match i'.eval w.cpu with
      | (.ok _, s') => (.ok (), ⟨s', w.out ++ [stepLine i'.address t]⟩)
      | (.error e, s') => (.error (.py e), ⟨s', w.out ++ [stepLine i'.address t]⟩) := by
  have hp : print (altHex i'.address ++ c! ":  " ++ t) w = (.ok (), ⟨w.cpu, w.out ++ [stepLine i'.address t]⟩) := rfl
  rw [ConM.bind_ok (C68.expr_ok h w), ConM.bind_ok hp]
  cases he : i'.eval w.cpu with
  | mk r s' =>
    cases r with
    | ok j =>
      rw [ConM.bind_ok (cpu_ok (w := ⟨w.cpu, w.out ++ [stepLine i'.address t]⟩) he)]
      rfl
    | error e =>
      rw [ConM.bind_err (cpu_err (w := ⟨w.cpu, w.out ++ [stepLine i'.address t]⟩) he)]

/-- The instruction at PC, and what is needed for it to be executed rightly. -/
structure Stands (mem : List Region) (c : Core) (e : Enc) (w : Nat) : Prop where
  encoding : e ∈ encodings
  valid : e.Is w
  inside : Inside mem (at_ c) (e.pat.length / 8)
  bytes : flatRead c.mem (at_ c) (e.pat.length / 8) = some w
  right : ¬ Wrong e (field e.pat w)
  noPc : (e.act (field e.pat w)).NoPc
  fine : C72.Fine mem c (e.act (field e.pat w))
  next : e.pat.length = 16 → NextFine mem c.mem (at_ c)

/-- The instruction at PC: where it is and what follows it, and nothing about the state it is
executed in. -/
structure Placed (mem : List Region) (c : Core) (e : Enc) (w : Nat) : Prop where
  encoding : e ∈ encodings
  valid : e.Is w
  inside : Inside mem (at_ c) (e.pat.length / 8)
  bytes : flatRead c.mem (at_ c) (e.pat.length / 8) = some w
  right : ¬ Wrong e (field e.pat w)
  next : e.pat.length = 16 → NextFine mem c.mem (at_ c)

theorem Stands.placed {mem : List Region} {c : Core} {e : Enc} {w : Nat} (h : Stands mem c e w) : Placed mem c e w :=
  ⟨h.encoding, h.valid, h.inside, h.bytes, h.right, h.next⟩

theorem stands_congr {m m' : List Region} (h : ∀ y k, Inside m y k ↔ Inside m' y k) {c : Core} {e : Enc} {w : Nat} (hs : Stands m c e w) :
    Stands m' c e w := by
  obtain ⟨h1, h2, h3, h4, h5, h6, h7, h8⟩ := hs
  refine ⟨h1, h2, (h _ _).1 h3, h4, h5, h6, (C73.fine_congr h _ _).1 h7, fun hl => ?_⟩
  cases h8 hl with
  | last a => exact .last fun b => a ((h _ _).2 b)
  | long a b c => exact .long ((h _ _).1 a) b c
  | short a b c d e => exact .short ((h _ _).1 a) b c d e

/-- The bytes read begin with those of the instruction, and what is after them does not
disturb. -/
theorem fetched {s : Machine} {c : Core} (hs : Shows s c) (hm : MemOK s.mem) {e : Enc} {w : Nat} (h : Placed s.mem c e w) :
    ∃ rest, readMemoryBlock (at_ c) 4 s = (.ok (some (C38.bytesOf e w ++ rest)), s) ∧ (∀ b ∈ rest, b < 256) ∧
      ∀ a, (dis rest a).2 = none := by
  obtain ⟨h1, h2, h3, h4, -, h8⟩ := h
  have hlen := C73.lengths e h1
  have hin1 : Inside s.mem (at_ c) 1 := by
    obtain ⟨m, hm, a, b⟩ := h3
    exact ⟨m, hm, a, by omega⟩
  obtain ⟨d, k1, k2, k3, k4, k5⟩ := block_four hm hin1
  rw [hs.2] at k5
  rcases hlen with hl | hl
  · -- two bytes
    rw [hl] at h3 h4
    have hd2 : 2 ≤ d.length := (k4 2 (by decide)).2 (.inl h3)
    match d, hd2 with
    | b0 :: b1 :: rest, _ =>
      have g0 := k5 0 (by simp)
      have g1 := k5 1 (by simp)
      have c0 := k3 b0 (by simp)
      have c1 := k3 b1 (by simp)
      simp at g0 g1
      have hw : w = b0 + 256 * b1 := by
        simp [flatRead, ← g0, ← g1] at h4
        omega
      have hbytes : C38.bytesOf e w = [b0, b1] := by
        unfold C38.bytesOf
        rw [if_neg (by omega), hw, show (b0 + 256 * b1) % 256 = b0 by omega, show (b0 + 256 * b1) / 256 = b1 by omega]
      refine ⟨rest, by rw [hbytes]; exact k1, fun b hb => k3 b (by simp [hb]), fun a => ?_⟩
      have hn := h8 hl
      match rest, k2, k3, k4, k5 with
      | [], _, _, _, _ => rw [dis_nil]
      | [b2], _, _, k4, _ =>
        exfalso
        have h3' : Inside s.mem (at_ c) 3 := by
          rcases (k4 3 (by decide)).1 (by simp) with h | h
          · exact h
          · cases h
        have h4' : ¬ Inside s.mem (at_ c) 4 := fun h => by simpa using (k4 4 (by decide)).2 (.inl h)
        cases hn with
        | last h => exact h h3'
        | long h => exact h4' h
        | short h => exact h4' h
      | [b2, b3], _, k3, k4, k5 =>
        have h3' : Inside s.mem (at_ c) 3 := by
          rcases (k4 3 (by decide)).1 (by simp) with h | h
          · exact h
          · cases h
        have g2 := k5 2 (by simp)
        have g3 := k5 3 (by simp)
        simp at g2 g3
        exact rest_fine hn h3' g2.symm g3.symm (k3 b2 (by simp)) (k3 b3 (by simp)) a
      | _ :: _ :: _ :: _, k2, _, _, _ =>
        simp at k2
  · rw [hl] at h3 h4
    have hd4 : 4 ≤ d.length := (k4 4 (by decide)).2 (.inl h3)
    match d, hd4, k2 with
    | [b0, b1, b2, b3], _, _ =>
      have g0 := k5 0 (by simp)
      have g1 := k5 1 (by simp)
      have g2 := k5 2 (by simp)
      have g3 := k5 3 (by simp)
      have c0 := k3 b0 (by simp)
      have c1 := k3 b1 (by simp)
      have c2 := k3 b2 (by simp)
      have c3 := k3 b3 (by simp)
      simp at g0 g1 g2 g3
      have e2 : at_ c + 1 + 1 = at_ c + 2 := by omega
      have e3 : at_ c + 2 + 1 = at_ c + 3 := by omega
      have hw : w = b0 + 256 * (b1 + 256 * (b2 + 256 * b3)) := by
        simp [flatRead, e2, e3, ← g0, ← g1, ← g2, ← g3] at h4
        omega
      have hbytes : C38.bytesOf e w = [b0, b1, b2, b3] := by
        unfold C38.bytesOf
        rw [if_pos hl, hw, show (b0 + 256 * (b1 + 256 * (b2 + 256 * b3))) % 256 = b0 by omega,
          show (b0 + 256 * (b1 + 256 * (b2 + 256 * b3))) / 256 % 256 = b1 by omega,
          show (b0 + 256 * (b1 + 256 * (b2 + 256 * b3))) / 65536 % 256 = b2 by omega,
          show (b0 + 256 * (b1 + 256 * (b2 + 256 * b3))) / 16777216 = b3 by omega]
      refine ⟨[], by rw [hbytes]; exact k1, by simp, fun a => by rw [dis_nil]⟩
    | _ :: _ :: _ :: _ :: _ :: _, _, k2 =>
      simp at k2

/-- The step command executes the instruction at PC, if that ends normally. -/
theorem step_executes (python : Python) {w : World} {c : Core} (hs : Shows w.cpu c) (hm : MemOK w.cpu.mem) {cmd name : Str} {args : List Str}
    (hname : name ∈ stepNames) (hcmd : Says cmd name args) {e : Enc} {v : Nat} (h : Placed w.cpu.mem c e v) :
    ∃ i text l, (e.act (field e.pat v)).Of i ∧ (e.act (field e.pat v)).Valid ∧ i.size = e.pat.length / 8 ∧ C72.NoPcStored (e.act (field e.pat v)) ∧
      (∀ j s', i.eval w.cpu = (.ok j, s') → processCommand python cmd w = (.ok (), ⟨s', w.out ++ [stepLine (at_ c) text]⟩)) ∧
      Reader.line text = some l ∧ l.words = C64.halfwords (C38.bytesOf e v) ∧ l.mnemonic = e.mnem (field e.pat v) ∧
      (Written e (field e.pat v) (at_ c) l.operands ↔ ¬ Misread e (field e.pat v) (at_ c)) := by
  obtain ⟨rest, k1, k2, k3⟩ := fetched hs hm h
  obtain ⟨he, hi, -, -, hx, -⟩ := h
  have hne : e.pat ≠ Thumb.pushW.pat := fun q => hx (.inl q)
  obtain ⟨i, text, i', l, d1, d2, d3, d4, d5, d6, -⟩ := C74.line_of he hi hne k2 (at_ c)
  obtain ⟨k, hk, rfl⟩ := C38.caseOf he
  obtain ⟨ha, hn⟩ := (agrees k hk v hi.2.1 hi.2.2).1 hx
  obtain ⟨i2, h1, h2, h3⟩ := case_decodes hk hi hn rest k2 (at_ c)
  rw [d1] at h1
  cases h1
  have hl := C72.lists k hk v hi.2.2
  have hv := sound k hk v
  rw [ha] at h2 hl hv
  refine ⟨i, text, l, h2, hv, h3, hl, fun j s' e1 => ?_, d3, d4, d5, d6⟩
  have hb : ∀ b ∈ C38.bytesOf k.enc v ++ rest, b < 256 := by
    intro b hb
    rcases List.mem_append.1 hb with hb | hb
    · exact C38.bytesOf_lt (C73.lengths _ he) hi.1 b hb
    · exact k2 b hb
  have hfrom : FromBytes i := ⟨_, _, hb, d1⟩
  obtain ⟨x1, x2⟩ := C64.executes_the_same hfrom d2 hs
  have haddr : i'.address = at_ c := by
    obtain ⟨os, m, rfl⟩ := format_fields d2
    exact (C39.bytes_and_size _ hb _ i d1).2.2.2
  rw [C67.command_runs python hcmd (step_handler hname)]
  apply C69.catching_ok
  show handleStep w = _
  unfold handleStep
  rw [ConM.bind_ok (evenPc_run hs)]
  unfold stepTry
  have hdis : disasm trees (C38.bytesOf k.enc v ++ rest) (at_ c) = (i :: (dis rest (at_ c + i.size)).1, none) := by
    rw [disasm_dis trees C40.trees_self, dis_ok d1 (by
      intro h0
      have := C73.bytesOf_length he v
      rw [List.append_eq_nil_iff] at h0
      rw [h0.1] at this
      rcases C73.lengths _ he with q | q <;> rw [q] at this <;> cases this)]
    rw [List.drop_left' (by rw [C73.bytesOf_length he v, h3])]
    cases hr : dis rest (at_ c + i.size) with
    | mk is r =>
      have := k3 (at_ c + i.size)
      rw [hr] at this
      simp only at this
      rw [this]
      rfl
  rw [stepBody_some k1, hdis]
  simp only
  rw [show_and_execute d2, haddr]
  rw [e1] at x1 x2
  cases hr : i'.eval w.cpu with
  | mk r s2 =>
    rw [hr] at x1 x2
    simp only at x1 x2
    rw [x1]
    cases r with
    | ok _ => rfl
    | error x => exact absurd ((x2 x).1 rfl) (by simp)

/-- **C70.** The step command executes the instruction at PC (with its lowest bit cleared) and
no other: registers and memory are afterwards what the manual says. It prints one line, the
address and the instruction. The instruction must be one that C72 covers, and what follows a
16-bit instruction must not disturb; see `disturbed`. -/
theorem step_partial (python : Python) {w : World} {c : Core} (hs : Shows w.cpu c) (hm : MemOK w.cpu.mem) {cmd name : Str} {args : List Str}
    (hname : name ∈ stepNames) (hcmd : Says cmd name args) {e : Enc} {v : Nat} (h : Stands w.cpu.mem c e v) :
    ∃ s' text l, processCommand python cmd w = (.ok (), ⟨s', w.out ++ [stepLine (at_ c) text]⟩) ∧
      Shows s' ((e.act (field e.pat v)).run (e.pat.length / 8) c) ∧ MemOK s'.mem ∧ (∀ y k, Inside s'.mem y k ↔ Inside w.cpu.mem y k) ∧
      Reader.line text = some l ∧ l.words = C64.halfwords (C38.bytesOf e v) ∧ l.mnemonic = e.mnem (field e.pat v) ∧
      (Written e (field e.pat v) (at_ c) l.operands ↔ ¬ Misread e (field e.pat v) (at_ c)) := by
  obtain ⟨i, text, l, h2, hv, h3, hl, hrun, h4⟩ := step_executes python hs hm hname hcmd h.placed
  obtain ⟨j, s', e1, e2, e3, e4⟩ := does_well h2 hv h.noPc hs hm (C72.fine_right h.fine hl)
  rw [h3] at e2
  exact ⟨s', text, l, hrun j s' e1, e2, e3, e4, h4⟩

/-- One instruction after the other, each with the conditions of `Stands`. -/
inductive Goes (mem : List Region) : Nat → Core → Core → Prop where
  | done {c : Core} : Goes mem 0 c c
  | more {n : Nat} {c d : Core} {e : Enc} {w : Nat} : Stands mem c e w → Goes mem n ((e.act (field e.pat w)).run (e.pat.length / 8) c) d →
      Goes mem (n + 1) c d

theorem goes_congr {m m' : List Region} (h : ∀ y k, Inside m y k ↔ Inside m' y k) {n : Nat} {c d : Core} (hg : Goes m n c d) : Goes m' n c d := by
  induction hg with
  | done => exact .done
  | more h1 _ ih => exact .more (stands_congr h h1) ih

theorem steps_well (python : Python) {mem : List Region} {n : Nat} {c d : Core} (hg : Goes mem n c d) : ∀ {w : World} {cmds : List Str}, w.cpu.mem = mem →
    Shows w.cpu c → MemOK w.cpu.mem → cmds.length = n → (∀ cmd ∈ cmds, ∃ name ∈ stepNames, ∃ args, Says cmd name args) →
    ∃ s' ls, processCommands python cmds w = (.ok (), ⟨s', w.out ++ ls⟩) ∧ ls.length = n ∧ Shows s' d ∧ MemOK s'.mem ∧
      ∀ y k, Inside s'.mem y k ↔ Inside w.cpu.mem y k := by
  induction n generalizing mem c with
  | zero =>
    intro w cmds _ hs hm hl _
    cases hg
    rw [List.length_eq_zero_iff] at hl
    subst hl
    exact ⟨w.cpu, [], by rw [List.append_nil]; rfl, rfl, hs, hm, fun _ _ => Iff.rfl⟩
  | succ n ih =>
    intro w cmds he hs hm hl hc
    subst he
    cases hg with
    | more h1 h2 =>
      match cmds, hl, hc with
      | cmd :: t, hl, hc =>
        obtain ⟨name, hname, args, hcmd⟩ := hc cmd List.mem_cons_self
        obtain ⟨s1, text, l, e1, e2, e3, e4, -⟩ := step_partial python hs hm hname hcmd h1
        obtain ⟨s2, ls, f1, f2, f3, f4, f5⟩ := ih (goes_congr (fun y k => (e4 y k).symm) h2) (w := ⟨s1, w.out ++ [stepLine (at_ c) text]⟩) (cmds := t) rfl e2 e3
          (by simpa using hl) (fun cmd h => hc cmd (List.mem_cons_of_mem _ h))
        refine ⟨s2, stepLine (at_ c) text :: ls, ?_, by rw [List.length_cons, f2], f3, f4, fun y k => (f5 y k).trans (e4 y k)⟩
        unfold processCommands
        rw [ConM.bind_ok e1, f1]
        simp only [List.append_assoc, List.singleton_append]

/-- **C70.** `n` step commands execute the `n` instructions that PC leads through, branches
included, and print `n` lines. -/
theorem steps_partial (python : Python) {mem : List Region} {n : Nat} {c d : Core} (hg : Goes mem n c d) : ∀ {w : World} {cmds : List Str}, w.cpu.mem = mem →
    Shows w.cpu c → MemOK w.cpu.mem → cmds.length = n → (∀ cmd ∈ cmds, ∃ name ∈ stepNames, ∃ args, Says cmd name args) →
    ∃ s' ls, processCommands python cmds w = (.ok (), ⟨s', w.out ++ ls⟩) ∧ ls.length = n ∧ Shows s' d ∧ MemOK s'.mem := by
  intro w cmds he hs hm hl hc
  obtain ⟨s', ls, h1, h2, h3, h4, -⟩ := steps_well python hg he hs hm hl hc
  exact ⟨s', ls, h1, h2, h3, h4⟩

/-- **C70.** In every state the step command either leaves the machine as it is, or executes
one instruction, decoded from the bytes at PC. The console goes on. -/
theorem at_most_one (python : Python) {w : World} {c : Core} (hs : Shows w.cpu c) (hm : MemOK w.cpu.mem) {cmd name : Str} {args : List Str}
    (hname : name ∈ stepNames) (hcmd : Says cmd name args) :
    ∃ w', processCommand python cmd w = (.ok (), w') ∧ (w'.cpu = w.cpu ∨
      ∃ d i text, (∀ j, j < d.length → d[j]? = c.mem (at_ c + (j : Nat))) ∧ (∀ b ∈ d, b < 256) ∧ (trees.decode d (at_ c)).1 = .ok i ∧
        w'.cpu = (i.eval w.cpu).2 ∧ (w.out ++ [stepLine (at_ c) text]) <+: w'.out) := by
  rw [C67.command_runs python hcmd (step_handler hname)]
  show ∃ w', catching handleStep w = _ ∧ _
  have hcatch : ∀ {e : PyErr} {w' : World}, handleStep w = (.error (.py e), w') →
      catching handleStep w = (.ok (), ⟨w'.cpu, w'.out ++ [.report (.py e)]⟩) := fun h => C69.catching_py h
  have hstep : handleStep w = stepTry (at_ c) w := by
    unfold handleStep
    rw [ConM.bind_ok (evenPc_run hs)]
  rw [hstep] at hcatch
  have hok : ∀ {w' : World}, stepTry (at_ c) w = (.ok (), w') → catching handleStep w = (.ok (), w') := fun h => C69.catching_ok (hstep ▸ h)
  by_cases hin : Inside w.cpu.mem (at_ c) 1
  · obtain ⟨d, k1, k2, k3, k4, k5⟩ := block_four hm hin
    rw [hs.2] at k5
    have hbody := stepBody_some k1
    have hdis := disasm_dis trees C40.trees_self d (at_ c)
    cases hr : disasm trees d (at_ c) with
    | mk is r =>
      rw [hr] at hbody hdis
      cases r with
      | some e =>
        simp only at hbody
        by_cases he : e = .undefinedInstruction
        · subst he
          exact ⟨_, hok (w' := ⟨w.cpu, w.out ++ [.line (c! "Undefined instruction")]⟩) (by unfold stepTry; rw [hbody]; rfl), .inl rfl⟩
        · refine ⟨_, hcatch (e := e) (w' := w) ?_, .inl rfl⟩
          unfold stepTry
          rw [hbody]
          cases e <;> first | rfl | exact absurd rfl he
      | none =>
        cases is with
        | nil =>
          simp only at hbody
          exact ⟨_, hok (w' := ⟨w.cpu, w.out ++ [.line (c! "No instructions found!")]⟩) (by unfold stepTry; rw [hbody]; rfl), .inl rfl⟩
        | cons i t =>
          simp only at hbody
          have hd : (trees.decode d (at_ c)).1 = .ok i := by
            rw [dis_eq] at hdis
            unfold decodeAt at hdis
            split at hdis
            · cases hdis
            · split at hdis
              · split at hdis <;> cases hdis
              · cases hdis
              · next h =>
                rw [h]
                have := (Prod.mk.inj hdis).1
                simp only [List.cons.injEq] at this
                rw [this.1]
          obtain ⟨text, i', hf⟩ : ∃ text i', i.format = .ok (text, i') := by
            obtain ⟨words, rest, i', hf, -⟩ := C64.always d k3 (at_ c) i hd
            exact ⟨_, i', hf⟩
          have haddr : i'.address = at_ c := by
            obtain ⟨os, m, rfl⟩ := format_fields hf
            exact (C39.bytes_and_size _ k3 _ i hd).2.2.2
          rw [show_and_execute hf, haddr] at hbody
          have hsame := (C64.executes_the_same ⟨d, at_ c, k3, hd⟩ hf hs).1
          cases he : i'.eval w.cpu with
          | mk r s' =>
            rw [he] at hbody hsame
            simp only at hsame
            cases r with
            | ok j =>
              exact ⟨_, hok (w' := ⟨s', _⟩) (by unfold stepTry; rw [hbody]), .inr ⟨d, i, text, k5, k3, hd, hsame, List.prefix_rfl⟩⟩
            | error e =>
              by_cases hu : e = .undefinedInstruction
              · subst hu
                exact ⟨_, hok (w' := ⟨s', w.out ++ [stepLine (at_ c) text] ++ [.line (c! "Undefined instruction")]⟩) (by unfold stepTry; rw [hbody]; rfl), .inr ⟨d, i, text, k5, k3, hd, hsame, List.prefix_append _ _⟩⟩
              · refine ⟨_, hcatch (e := e) (w' := ⟨s', w.out ++ [stepLine (at_ c) text]⟩) ?_, .inr ⟨d, i, text, k5, k3, hd, hsame, List.prefix_append _ _⟩⟩
                unfold stepTry
                rw [hbody]
                cases e <;> first | rfl | exact absurd rfl hu
  · have hnone : readMemoryBlock (at_ c) 4 w.cpu = (.ok none, w.cpu) := by
      refine (C26.block_unmapped (fun m hmem hx => hin ⟨m, hmem, ?_⟩) 4 []).1
      omega
    refine ⟨_, hcatch (e := .typeError) (w' := w) ?_, .inl rfl⟩
    unfold stepTry stepBody
    rw [ConM.bind_ok (cpu_ok hnone)]
    rfl

/-- **C70.** An error in what follows the instruction stops the command: it reports the error
and executes nothing. -/
theorem disturbed (python : Python) {w : World} {c : Core} (hs : Shows w.cpu c) {cmd name : Str} {args : List Str}
    (hname : name ∈ stepNames) (hcmd : Says cmd name args) {d : List Nat} (h : readMemoryBlock (at_ c) 4 w.cpu = (.ok (some d), w.cpu)) {e : PyErr}
    (he : (disasm trees d (at_ c)).2 = some e) (hu : e ≠ .undefinedInstruction) :
    processCommand python cmd w = (.ok (), { w with out := w.out ++ [.report (.py e)] }) := by
  rw [C67.command_runs python hcmd (step_handler hname)]
  apply C69.catching_py (w' := w)
  show handleStep w = _
  unfold handleStep
  rw [ConM.bind_ok (evenPc_run hs)]
  unfold stepTry
  rw [stepBody_some h]
  cases hr : disasm trees d (at_ c) with
  | mk is r =>
    rw [hr] at he
    simp only at he
    subst he
    simp only
    cases e <;> first | rfl | exact absurd rfl hu

theorem says_step : Says (c! "step") (c! "step") [] := ⟨c! "step", words_iff.1 (by decide), by decide⟩

/-- `adds r3, r1, #1` at PC, but after it 0xb100 -/
def disturbedMem : List Region := [⟨0, 3, [0x4b, 0x1c, 0x00, 0xb1]⟩]

/-- **C70.** The command does not always execute the instruction at PC. -/
theorem full_claim_false : ∃ (w : World) (c : Core), Shows w.cpu c ∧ MemOK w.cpu.mem ∧ at_ c = 0 ∧ flatRead c.mem 0 2 = some 0x1c4b ∧
    Thumb.addsImmT1.Is 0x1c4b ∧ ∀ python, processCommand python (c! "step") w = (.ok (), { w with out := w.out ++ [.report (.py .attributeError)] }) := by
  have hs := shows_new disturbedMem
  refine ⟨⟨{ Machine.new with mem := disturbedMem }, []⟩, _, hs, ⟨?_, List.pairwise_singleton _ _⟩, rfl, by decide +kernel,
    ⟨by decide, by decide, by decide⟩, fun python => ?_⟩
  · intro m h
    simp only [disturbedMem, List.mem_cons, List.not_mem_nil, or_false] at h
    subst h
    exact ⟨by decide, by decide⟩
  · refine disturbed python (w := ⟨{ Machine.new with mem := disturbedMem }, []⟩) hs (name := c! "step") (by decide) says_step (d := [0x4b, 0x1c, 0x00, 0xb1]) ?_ ?_ (by decide)
    · rfl
    · show (disasm trees [0x4b, 0x1c, 0x00, 0xb1] 0).2 = _
      rw [trees, decoders_eq]
      decide +kernel

/-- `adds r3, r1, #1` at PC, and after it the region ends. -/
example (python : Python) {s : Machine} {c : Core} (hs : Shows s c) (hm : s.mem = [⟨0, 1, [0x4b, 0x1c]⟩]) (hpc : c.reg 15 = 1#32) (h1 : c.reg 1 = 5#32) :
    ∃ s' text, processCommand python (c! "step") ⟨s, []⟩ = (.ok (), ⟨s', [stepLine 0 text]⟩) ∧ s'.regs (some 3) = some 6 ∧ s'.regs (some 15) = some 3 := by
  have hat : at_ c = 0 := by
    unfold at_
    rw [hpc]
    rfl
  have hok : MemOK s.mem := by
    rw [hm]
    refine ⟨?_, List.pairwise_singleton _ _⟩
    intro m h
    simp only [List.mem_cons, List.not_mem_nil, or_false] at h
    subst h
    exact ⟨by decide, by decide⟩
  have ha : Thumb.addsImmT1.act (field Thumb.addsImmT1.pat 0x1c4b) = .addSub false false true 3 1 (.imm (w32 1)) := by decide +kernel
  have st : Stands s.mem c Thumb.addsImmT1 0x1c4b := by
    refine ⟨by simp [encodings], ⟨by decide, by decide, by decide⟩, ?_, ?_, not_wrong (by decide) _, ?_, ?_, fun _ => .last ?_⟩
    · rw [hm, hat]
      exact ⟨_, List.mem_cons_self, by decide, by decide⟩
    · rw [hat, ← hs.2, hm]
      decide +kernel
    · rw [ha]
      exact ⟨by decide, by decide, trivial⟩
    · rw [ha]
      show (C17.sum (c.reg 1) (w32 1) false).msb = false
      rw [h1]
      decide
    · rw [hm, hat]
      rintro ⟨m, h, h2, h3⟩
      simp only [List.mem_cons, List.not_mem_nil, or_false] at h
      subst h
      simp at h3
  obtain ⟨s', text, l, e1, e2, -⟩ := step_partial python (w := ⟨s, []⟩) hs hok (name := c! "step") (by decide) says_step st
  rw [hat] at e1
  refine ⟨s', text, e1, ?_, ?_⟩
  · rw [e2.1 3 (by decide), ha]
    show some ((((c.flags true (C17.sum (c.rd 1) (w32 1) false) _ _).result 2 3 (C17.sum (c.rd 1) (w32 1) false)).reg (3 : Nat)).toNat : Int) = _
    rw [result_reg, core_rd c (by decide), show c.reg ((1 : Nat) : Int) = 5#32 from h1]
    all_goals decide
  · rw [e2.1 15 (by decide), ha]
    show some ((((c.flags true (C17.sum (c.rd 1) (w32 1) false) _ _).result 2 3 (C17.sum (c.rd 1) (w32 1) false)).reg 15).toNat : Int) = _
    rw [core_result (by decide)]
    show some ((keepBits 15 (c.reg 15 + 2#32)).toNat : Int) = _
    rw [hpc]
    decide

end C70
end Verif
