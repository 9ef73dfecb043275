import Verif.Props.C70
import Verif.Props.C76to77

/-!
# C78: the console's listing of instructions
-/

namespace Verif
open Console Typed BS Thumb

namespace C78
open C70

/-- The names of the command. -/
def disasmNames : List Str := [c! "disasm", c! "d"]

/-- An argument that is not an option. -/
abbrev Operand' (a : Str) : Prop := a.head? ≠ some '-'

/-- What the arguments ask for: an address, PC if there is none, and a number of bytes, 6 if
there is none. -/
inductive Asked (mem : List Region) (c : Core) : List Str → Int → Int → Prop where
  | pc : Asked mem c [] (c.reg 15).toNat 6
  | addr {a : Str} {v : Int} : Operand' a → C68.Value mem c a v → Asked mem c [a] v 6
  | both {a b : Str} {v n : Int} : Operand' a → Operand' b → C68.Value mem c a v → C68.Value mem c b n → Asked mem c [a, b] v n

/-- The same with an option: the address is in the middle. The listing begins at an even
address. -/
inductive Range (mem : List Region) (c : Core) : List Str → Int → Int → Prop where
  | start {args : List Str} {v n : Int} : Asked mem c args v n → Range mem c args (v / 2 * 2) n
  | center {o : Str} {args : List Str} {v n : Int} : o ∈ [c! "-c", c! "--center"] → Asked mem c args v n →
      Range mem c (o :: args) ((v - n / 2) / 2 * 2) n

/-- The instructions that stand in memory from `x` to `y`. -/
inductive Placed (f : Flat) : Int → List (Enc × Nat) → Int → Prop where
  | nil {x : Int} : Placed f x [] x
  | cons {x y : Int} {e : Enc} {w : Nat} {ps : List (Enc × Nat)} : e ∈ encodings → e.Is w → e.pat ≠ Thumb.pushW.pat →
      flatRead f x (e.pat.length / 8) = some w → Placed f (x + (e.pat.length / 8 : Nat)) ps y → Placed f x ((e, w) :: ps) y

/-- What stands in the `r` bytes after them: nothing; half an instruction; or something that is
not decoded. -/
inductive Ending (f : Flat) (y : Int) (r : Nat) : Option PyErr → Prop where
  | done : r = 0 → Ending f y r none
  | half {h : Nat} : r = 2 ∨ r = 3 → flatRead f y 2 = some h → 0xe800 ≤ h → Ending f y r none
  | fails {d : List Nat} {x : PyErr} : d.length = r → (∀ j, j < r → d[j]? = f (y + (j : Nat))) → (trees.decode d y).1 = .error x →
      (x = .undefinedInstruction → 4 ≤ r) → r ≠ 0 → Ending f y r (some x)

/-- A line for the instruction `w` of the encoding `e` at `x`: the address, a mark if PC is
there, and text that says which instruction it is. -/
def Listed (pc x : Int) (e : Enc) (w : Nat) (s : Str) : Prop :=
  ∃ h text l, s = c! "0x" ++ h ++ c! ":" ++ (if pc = x then c! "*" else c! " ") ++ c! " " ++ text ∧ C69.Hex 4 h x.toNat ∧
    Reader.line text = some l ∧ l.words = C64.halfwords (C38.bytesOf e w) ∧ l.mnemonic = e.mnem (field e.pat w) ∧
    (Written e (field e.pat w) x l.operands ↔ ¬ Misread e (field e.pat w) x)

/-- A listing: one line for each instruction, in order. -/
inductive Listing (pc : Int) : Int → List (Enc × Nat) → List Str → Prop where
  | nil {x : Int} : Listing pc x [] []
  | cons {x : Int} {e : Enc} {w : Nat} {ps : List (Enc × Nat)} {s : Str} {ls : List Str} : Listed pc x e w s →
      Listing pc (x + (e.pat.length / 8 : Nat)) ps ls → Listing pc x ((e, w) :: ps) (s :: ls)

/-! ### The listing of bytes -/

/-- The bytes of a word that stands in memory. -/
theorem starts {e : Enc} {w : Nat} {data : List Nat} {f : Flat} {x : Int} (he : e ∈ encodings) (hf : flatRead f x (e.pat.length / 8) = some w)
    (hl : e.pat.length / 8 ≤ data.length) (hd : ∀ j, j < data.length → data[j]? = f (x + (j : Nat))) (hb : ∀ b ∈ data, b < 256) :
    data = C38.bytesOf e w ++ data.drop (e.pat.length / 8) := by
  rcases C73.lengths e he with h | h
  · rw [h] at hf hl ⊢
    match data, hl with
    | b0 :: b1 :: rest, _ =>
      have g0 := hd 0 (by simp)
      have g1 := hd 1 (by simp)
      have c0 := hb b0 (by simp)
      have c1 := hb b1 (by simp)
      simp at g0 g1
      have hw : w = b0 + 256 * b1 := by
        simp [flatRead, ← g0, ← g1] at hf
        omega
      unfold C38.bytesOf
      rw [if_neg (by omega), hw, show (b0 + 256 * b1) % 256 = b0 by omega, show (b0 + 256 * b1) / 256 = b1 by omega]
      rfl
  · rw [h] at hf hl ⊢
    match data, hl with
    | b0 :: b1 :: b2 :: b3 :: rest, _ =>
      have g0 := hd 0 (by simp)
      have g1 := hd 1 (by simp)
      have g2 := hd 2 (by simp)
      have g3 := hd 3 (by simp)
      have c0 := hb b0 (by simp)
      have c1 := hb b1 (by simp)
      have c2 := hb b2 (by simp)
      have c3 := hb b3 (by simp)
      simp at g0 g1 g2 g3
      have e2 : x + 1 + 1 = x + 2 := by omega
      have e3 : x + 2 + 1 = x + 3 := by omega
      have hw : w = b0 + 256 * b1 + 65536 * (b2 + 256 * b3) := by
        simp [flatRead, e2, e3, ← g0, ← g1, ← g2, ← g3] at hf
        omega
      unfold C38.bytesOf
      rw [if_pos h, hw]
      simp
      omega

theorem hex_address {x : Int} (h0 : 0 ≤ x) (h : x < 2 ^ 32) : altHex x = c! "0x" ++ hexPad 8 x ∧ C69.Hex 4 (hexPad 8 x) x.toNat := by
  obtain ⟨k, rfl⟩ : ∃ k : Nat, x = k := ⟨x.toNat, by omega⟩
  exact ⟨C77.altHex_nat _, C69.hexPad_length (by omega) (by decide), by rw [C69.nat_hexPad, Int.toNat_natCast]⟩

theorem size_of {e : Enc} (he : e ∈ encodings) {w : Nat} (h : e.Is w) (hp : e.pat ≠ Thumb.pushW.pat) {rest : List Nat}
    (hr : ∀ b ∈ rest, b < 256) {a : Int} {i : Instr} (hi : (trees.decode (C38.bytesOf e w ++ rest) a).1 = .ok i) : i.size = e.pat.length / 8 := by
  obtain ⟨k, hk, rfl⟩ := C38.caseOf he
  obtain ⟨i', h1, -, h3⟩ := case_decodes hk h (C74.raises_none k hk hp w h.2.1 h.2.2) rest hr a
  rw [hi] at h1
  cases h1
  exact h3

theorem placed_le {f : Flat} {x y : Int} {ps : List (Enc × Nat)} (h : Placed f x ps y) : x ≤ y := by
  induction h with
  | nil => exact Int.le_refl _
  | cons => omega

/-- The listing of the bytes that stand in memory. -/
theorem dis_listing {f : Flat} (pc : Int) {x y : Int} {ps : List (Enc × Nat)} (h : Placed f x ps y) : ∀ {data : List Nat} {err : Option PyErr},
    (∀ b ∈ data, b < 256) → (∀ j, j < data.length → data[j]? = f (x + (j : Nat))) → y ≤ x + data.length →
    Ending f y (x + data.length - y).toNat err → 0 ≤ x → x + data.length ≤ 2 ^ 32 →
    ∃ ls, listing pc (dis data x).1 = .ok ls ∧ (dis data x).2 = err ∧ Listing pc x ps ls := by
  induction h with
  | @nil x =>
    intro data err hb hd hy he h0 h32
    refine ⟨[], ?_⟩
    have hlen : (x + data.length - x).toNat = data.length := by omega
    rw [hlen] at he
    have key : dis data x = ([], err) := by
      cases he with
      | done h =>
        rw [List.eq_nil_of_length_eq_zero h, dis_nil]
      | @half h hr hf hh =>
        have hund : (trees.decode data x).1 = .error .undefinedInstruction := by
          match data, hr with
          | b0 :: b1 :: rest, hr =>
            have g0 := hd 0 (by simp)
            have g1 := hd 1 (by simp)
            have c0 := hb b0 (by simp)
            have c1 := hb b1 (by simp)
            simp at g0 g1
            have hw : h = b0 + 256 * b1 := by
              simp [flatRead, ← g0, ← g1] at hf
              omega
            have hw' : firstWord (b0 :: b1 :: rest) = none := by
              unfold firstWord
              simp only
              rw [if_pos (is32_of (hw ▸ hh) (by omega))]
              match rest, hr with
              | [], _ => rfl
              | [_], _ => rfl
              | _ :: _ :: _, hr => simp at hr
            have := decode_bytes (b0 :: b1 :: rest) hb (by simp) x
            rw [hw'] at this
            exact this
        exact dis_undefined hund (by omega)
      | @fails d z hl hdj hz h4 hne =>
        have : d = data := by
          apply List.ext_getElem? fun j => ?_
          by_cases hj : j < data.length
          · rw [hdj j hj, hd j hj]
          · rw [List.getElem?_eq_none (by omega), List.getElem?_eq_none (by omega)]
        subst this
        rw [dis_eq, if_neg (by rintro rfl; exact hne hl.symm)]
        unfold decodeAt
        rw [hz]
        by_cases hu : z = .undefinedInstruction
        · subst hu
          simp only
          rw [if_neg (by have := h4 rfl; omega)]
        · cases z <;> first | rfl | exact absurd rfl hu
    rw [key]
    exact ⟨rfl, rfl, .nil⟩
  | @cons x y e w ps he hi hp hf hpl ih =>
    intro data err hb hd hy hend h0 h32
    have hxy : x + (e.pat.length / 8 : Nat) ≤ y := by
      exact placed_le hpl
    have hsz : e.pat.length / 8 ≤ data.length := by omega
    have hst := starts he hf hsz hd hb
    have hbr : ∀ b ∈ data.drop (e.pat.length / 8), b < 256 := fun b h => hb b (List.mem_of_mem_drop h)
    obtain ⟨i, text, i', l, h1, h2, h3, h4, h5, h6, -⟩ := C74.line_of he hi hp hbr x
    have hsize := size_of he hi hp hbr h1
    rw [← hst] at h1
    obtain ⟨-, -, -, hia⟩ := C39.bytes_and_size data hb x i h1
    have hpos := size_pos i
    have hne : data ≠ [] := by
      rintro rfl
      simp at hsz
      omega
    have hdl : (data.drop (e.pat.length / 8)).length = data.length - e.pat.length / 8 := List.length_drop
    obtain ⟨ls, k1, k2, k3⟩ := ih (data := data.drop (e.pat.length / 8)) (err := err) hbr (fun j hj => by
        rw [List.getElem?_drop, hd _ (by omega)]
        congr 1
        omega) (by omega) (by
        have : (x + (e.pat.length / 8 : Nat) + (data.drop (e.pat.length / 8)).length - y).toNat = (x + data.length - y).toNat := by omega
        rw [this]
        exact hend) (by omega) (by omega)
    rw [dis_ok h1 hne, hsize]
    obtain ⟨a1, a2⟩ := hex_address h0 (by omega)
    refine ⟨_, ?_, k2, .cons ⟨hexPad 8 x, text, l, rfl, a2, h3, h4, h5, h6⟩ k3⟩
    show listing pc (i :: (dis _ _).1) = _
    rw [listing, h2]
    show (listing pc (dis (data.drop (e.pat.length / 8)) (x + (e.pat.length / 8 : Nat))).1 >>= _) = _
    rw [k1, hia, ← a1]
    rfl

/-! ### The command -/

theorem parse_plain : ∀ {args : List Str}, (∀ a ∈ args, Operand' a) → parseOptions args = some (false, args)
  | [], _ => rfl
  | a :: t, h => by
    have ha := h a List.mem_cons_self
    have ht := parse_plain fun b hb => h b (List.mem_cons_of_mem _ hb)
    unfold parseOptions
    rw [ht]
    match a, ha with
    | [], _ => simp
    | x :: s, ha =>
      have hx : x ≠ '-' := fun e => ha (by rw [e]; rfl)
      have hx' : '-' ≠ x := fun e => hx e.symm
      simp [List.isPrefixOf, hx, hx']

theorem asked_operands {mem : List Region} {c : Core} {args : List Str} {v n : Int} (h : Asked mem c args v n) : ∀ a ∈ args, Operand' a := by
  cases h with
  | pc => simp
  | addr h => simpa using h
  | both h1 h2 => simp [h1, h2]

theorem asked_run {w : World} {c : Core} (hs : Shows w.cpu c) (hm : MemOK w.cpu.mem) {args : List Str} {v n : Int} (h : Asked w.cpu.mem c args v n)
    {α : Type} (k : Int → Int → ConM α) :
    ∃ ls, (convertValue (args.headD (c! "pc")) >>= fun a => count 6 (args.drop 1).head? >>= fun n => k a n) w =
      k v n { w with out := w.out ++ ls } := by
  cases h with
  | pc =>
    have hv : C68.Value w.cpu.mem c (c! "pc") ((c.reg 15).toNat : Int) := .direct (by decide) (.register (k := 15) (by decide +kernel))
    obtain ⟨l, e⟩ := C69.value_run hs hm hv
    exact ⟨l, by rw [ConM.bind_ok (show convertValue (([] : List Str).headD (c! "pc")) w = _ from e)]; rfl⟩
  | @addr a v h1 hv =>
    obtain ⟨l, e⟩ := C69.value_run hs hm hv
    exact ⟨l, by rw [ConM.bind_ok (show convertValue (([a] : List Str).headD (c! "pc")) w = _ from e)]; rfl⟩
  | @both a b v n h1 h2 hv hn =>
    obtain ⟨l, e⟩ := C69.value_run hs hm hv
    obtain ⟨l', e'⟩ := C69.value_run (w := { w with out := w.out ++ l }) hs hm hn
    refine ⟨l ++ l', ?_⟩
    rw [ConM.bind_ok (show convertValue (([a, b] : List Str).headD (c! "pc")) w = _ from e),
      ConM.bind_ok (show count 6 (([a, b] : List Str).drop 1).head? { w with out := w.out ++ l } = _ from e'), ← List.append_assoc]

theorem even (v : Int) : pyAnd v (pyNot 1) = v / 2 * 2 := by
  have h := C20.and_not_low v 1
  rw [show (pyNot 1) = pyNot (2 ^ 1 - 1) from rfl, h]
  rfl

theorem range_run {w : World} {c : Core} (hs : Shows w.cpu c) (hm : MemOK w.cpu.mem) {args : List Str} {x n : Int} (h : Range w.cpu.mem c args x n) :
    ∃ ls, handleDisasm args w = (cpu (readBlock x n) >>= fun data => printDisasm data x) { w with out := w.out ++ ls } := by
  cases h with
  | @start _ v _ h =>
    obtain ⟨ls, e⟩ := asked_run hs hm h fun a n => cpu (readBlock (pyAnd a (pyNot 1)) n) >>= fun data => printDisasm data (pyAnd a (pyNot 1))
    refine ⟨ls, ?_⟩
    rw [even] at e
    rw [← e]
    unfold handleDisasm
    rw [parse_plain (asked_operands h)]
    rfl
  | @center o args v n ho h =>
    obtain ⟨ls, e⟩ := asked_run hs hm h fun a n => cpu (readBlock (pyAnd (a - n / 2) (pyNot 1)) n) >>= fun data => printDisasm data (pyAnd (a - n / 2) (pyNot 1))
    refine ⟨ls, ?_⟩
    rw [even] at e
    rw [← e]
    have hp : parseOptions (o :: args) = some (true, args) := by
      unfold parseOptions
      rw [parse_plain (asked_operands h)]
      simp only [List.mem_cons, List.not_mem_nil, or_false] at ho
      rcases ho with rfl | rfl <;> rfl
    unfold handleDisasm
    rw [hp]
    rfl

/-- What the command does before the listing is shown. -/
theorem runs (python : Python) {w : World} {c : Core} (hs : Shows w.cpu c) (hm : MemOK w.cpu.mem) {cmd name : Str} {args : List Str}
    (hname : name ∈ disasmNames) (hcmd : Says cmd name args) {x : Int} {n : Nat} (hx : Range w.cpu.mem c args x n) (h0 : 0 ≤ x)
    (h32 : x + n ≤ 2 ^ 32) (hn : 0 < n) (hin : Inside w.cpu.mem x n) {ps : List (Enc × Nat)} {y : Int} (hp : Placed c.mem x ps y) (hy : y ≤ x + n)
    {err : Option PyErr} (hend : Ending c.mem y (x + n - y).toNat err) :
    ∃ out ls, processCommand python cmd w = catching (showListing ls err) { w with out := w.out ++ out } ∧ Listing (at_ c) x ps ls := by
  obtain ⟨out, e⟩ := range_run hs hm hx
  obtain ⟨data, e3, hlen, hd⟩ := C26.block_read hm hn hin
  have hb : ∀ b ∈ data, b < 256 := by
    intro b h
    obtain ⟨j, hj, rfl⟩ := List.getElem_of_mem h
    obtain ⟨m, -, -, -, -, h5⟩ := find_inside hm hn hin
    obtain ⟨b', h6, -, h7⟩ := h5 j (by omega)
    have h8 := hd j (by omega)
    rw [List.getElem?_eq_getElem hj, h6] at h8
    rw [Option.some.inj h8]
    exact h7
  rw [hs.2] at hd
  obtain ⟨ls, k1, k2, k3⟩ := dis_listing (at_ c) hp (data := data) (err := err) hb (by rw [hlen]; exact hd) (by omega) (by rw [hlen]; exact hend) h0 (by omega)
  refine ⟨out, ls, ?_, k3⟩
  have hh : (name, Command.disasm) ∈ commandList := by
    clear hcmd
    revert hname
    revert name
    decide +kernel
  rw [C67.command_runs python hcmd hh]
  have hblock : readBlock x (n : Int) w.cpu = (.ok (some data), w.cpu) := by
    unfold readBlock
    rw [if_pos (Int.natCast_nonneg _), Int.toNat_natCast]
    exact e3
  have key : handle .disasm args w = showListing ls err { w with out := w.out ++ out } := by
    show handleDisasm args w = _
    rw [e, ConM.bind_ok (cpu_ok (w := { w with out := w.out ++ out }) hblock)]
    unfold printDisasm
    rw [ConM.bind_ok (evenPc_run (w := { w with out := w.out ++ out }) hs)]
    simp only
    rw [disasm_dis trees C40.trees_self, k2, ConM.bind_ok (C68.expr_ok k1 _)]
  unfold catching
  rw [key]

/-- **C78.** `disasm` shows the instructions that stand in memory from the address given, one
line for each, in order: its address, a mark if PC is there, its bytes, and the text of the
instruction, which can be read back (but see `Misread`). It changes nothing. It may be that the
number of bytes ends within an instruction. Missing: what follows in this file. -/
theorem listing_partial (python : Python) {w : World} {c : Core} (hs : Shows w.cpu c) (hm : MemOK w.cpu.mem) {cmd name : Str} {args : List Str}
    (hname : name ∈ disasmNames) (hcmd : Says cmd name args) {x : Int} {n : Nat} (hx : Range w.cpu.mem c args x n) (h0 : 0 ≤ x)
    (h32 : x + n ≤ 2 ^ 32) (hn : 0 < n) (hin : Inside w.cpu.mem x n) {ps : List (Enc × Nat)} {y : Int} (hp : Placed c.mem x ps y) (hy : y ≤ x + n)
    (hend : Ending c.mem y (x + n - y).toNat none) (hne : ps ≠ []) :
    ∃ out ls, processCommand python cmd w = (.ok (), ⟨w.cpu, w.out ++ out ++ ls.map .line⟩) ∧ Listing (at_ c) x ps ls := by
  obtain ⟨out, ls, e, hl⟩ := runs python hs hm hname hcmd hx h0 h32 hn hin hp hy hend
  refine ⟨out, ls, ?_, hl⟩
  have : ls ≠ [] := by
    cases hl with
    | nil => exact absurd rfl hne
    | cons => simp
  rw [e]
  apply C69.catching_ok
  rw [showListing, if_neg this]
  rfl

/-- **C78.** If the instructions are followed by a word that is reported as undefined, the
listing ends there, and the message is above the listing. -/
theorem undefined_listing (python : Python) {w : World} {c : Core} (hs : Shows w.cpu c) (hm : MemOK w.cpu.mem) {cmd name : Str} {args : List Str}
    (hname : name ∈ disasmNames) (hcmd : Says cmd name args) {x : Int} {n : Nat} (hx : Range w.cpu.mem c args x n) (h0 : 0 ≤ x)
    (h32 : x + n ≤ 2 ^ 32) (hn : 0 < n) (hin : Inside w.cpu.mem x n) {ps : List (Enc × Nat)} {y : Int} (hp : Placed c.mem x ps y) (hy : y ≤ x + n)
    (hend : Ending c.mem y (x + n - y).toNat (some .undefinedInstruction)) (hne : ps ≠ []) :
    ∃ out ls, processCommand python cmd w = (.ok (), ⟨w.cpu, w.out ++ out ++ [.line (c! "Undefined instruction")] ++ ls.map .line⟩) ∧
      Listing (at_ c) x ps ls := by
  obtain ⟨out, ls, e, hl⟩ := runs python hs hm hname hcmd hx h0 h32 hn hin hp hy hend
  refine ⟨out, ls, ?_, hl⟩
  have : ls ≠ [] := by
    cases hl with
    | nil => exact absurd rfl hne
    | cons => simp
  rw [e]
  apply C69.catching_ok
  rw [showListing, if_pos rfl]
  have hp : print (c! "Undefined instruction") { w with out := w.out ++ out } = (.ok (), ⟨w.cpu, w.out ++ out ++ [.line (c! "Undefined instruction")]⟩) := rfl
  rw [ConM.bind_ok hp, if_neg this]
  rfl

/-- **C78.** If they are followed by a word for which decoding fails otherwise (C36), the
listing is lost. -/
theorem lost_listing (python : Python) {w : World} {c : Core} (hs : Shows w.cpu c) (hm : MemOK w.cpu.mem) {cmd name : Str} {args : List Str}
    (hname : name ∈ disasmNames) (hcmd : Says cmd name args) {x : Int} {n : Nat} (hx : Range w.cpu.mem c args x n) (h0 : 0 ≤ x)
    (h32 : x + n ≤ 2 ^ 32) (hn : 0 < n) (hin : Inside w.cpu.mem x n) {ps : List (Enc × Nat)} {y : Int} (hp : Placed c.mem x ps y) (hy : y ≤ x + n)
    {z : PyErr} (hend : Ending c.mem y (x + n - y).toNat (some z)) (hz : z ≠ .undefinedInstruction) :
    ∃ out, processCommand python cmd w = (.ok (), ⟨w.cpu, w.out ++ out ++ [.report (.py z)]⟩) := by
  obtain ⟨out, ls, e, hl⟩ := runs python hs hm hname hcmd hx h0 h32 hn hin hp hy hend
  refine ⟨out, ?_⟩
  rw [e]
  refine C69.catching_py (w' := ⟨w.cpu, w.out ++ out⟩) ?_
  rw [showListing, if_neg hz]
  rfl

/-- **C78.** If there is no instruction to show, an `IndexError` is reported. -/
theorem empty_listing (python : Python) {w : World} {c : Core} (hs : Shows w.cpu c) (hm : MemOK w.cpu.mem) {cmd name : Str} {args : List Str}
    (hname : name ∈ disasmNames) (hcmd : Says cmd name args) {x : Int} {n : Nat} (hx : Range w.cpu.mem c args x n) (h0 : 0 ≤ x)
    (h32 : x + n ≤ 2 ^ 32) (hn : 0 < n) (hin : Inside w.cpu.mem x n) {err : Option PyErr}
    (hend : Ending c.mem x n err) (hz : err = none ∨ err = some .undefinedInstruction) :
    ∃ out, processCommand python cmd w = (.ok (), ⟨w.cpu, w.out ++ out ++ [.report (.py .indexError)]⟩) := by
  obtain ⟨out, ls, e, hl⟩ := runs python hs hm hname hcmd hx h0 h32 hn hin .nil (by omega) (err := err)
    (by rw [show (x + n - x).toNat = n by omega]; exact hend)
  cases hl
  rw [e]
  rcases hz with rfl | rfl
  · exact ⟨out, C69.catching_py (w' := ⟨w.cpu, w.out ++ out⟩) rfl⟩
  · refine ⟨out ++ [.line (c! "Undefined instruction")], ?_⟩
    rw [← List.append_assoc]
    exact C69.catching_py (w' := ⟨w.cpu, w.out ++ out ++ [.line (c! "Undefined instruction")]⟩) rfl

/-- `movs r0, #0`, `push.w {r4, r5}`. -/
def pushMem : List Region := [⟨0, 5, [0x00, 0x20, 0x2d, 0xe9, 0x30, 0x00]⟩]

/-- **C78.** The full claim is false: of `movs r0, #0` and `push.w {r4, r5}` nothing is shown. -/
theorem full_claim_false : ∃ (w : World) (c : Core), Shows w.cpu c ∧ MemOK w.cpu.mem ∧ Inside w.cpu.mem 0 6 ∧
    flatRead c.mem 0 2 = some 0x2000 ∧ Thumb.movsImm.Is 0x2000 ∧ flatRead c.mem 2 4 = some 0x0030e92d ∧ Thumb.pushW.Is 0x0030e92d ∧
    ∀ python, ∃ out, processCommand python (c! "disasm 0x0") w = (.ok (), ⟨w.cpu, out ++ [.report (.py .nameError)]⟩) := by
  have hs := shows_new pushMem
  have hm : MemOK pushMem := by
    refine ⟨?_, List.pairwise_singleton _ _⟩
    intro m h
    simp only [pushMem, List.mem_cons, List.not_mem_nil, or_false] at h
    subst h
    exact ⟨by decide, by decide⟩
  have hin : Inside pushMem 0 6 := ⟨_, List.mem_cons_self, by decide, by decide⟩
  refine ⟨⟨{ Machine.new with mem := pushMem }, []⟩, _, hs, hm, hin, by decide +kernel, ⟨by decide, by decide, by decide⟩, by decide +kernel,
    ⟨by decide, by decide, by decide⟩, fun python => ?_⟩
  have hr : Range pushMem (blank (flat pushMem)) [c! "0x0"] (0 / 2 * 2) 6 :=
    .start (.addr (by decide) (.direct (by decide) (.number (.plain (.hex (s := c! "0") (v := 0) (by decide))))))
  exact lost_listing python (w := ⟨{ Machine.new with mem := pushMem }, []⟩) hs hm (name := c! "disasm") (by decide)
    ⟨c! "disasm", words_iff.1 (by decide), by decide⟩ (n := 6) hr (by decide) (by decide) (by decide) hin
    (.cons (e := Thumb.movsImm) (w := 0x2000) (by simp [encodings]) ⟨by decide, by decide, by decide⟩ (by decide) (by decide +kernel) .nil) (by decide)
    (.fails (d := [0x2d, 0xe9, 0x30, 0x00]) rfl (by decide +kernel) (by rw [trees, decoders_eq]; decide +kernel) (by decide) (by decide)) (by decide)

/-- Two instructions and half of a third, PC at the second. -/
example : (listing 0x102 (disasm trees [0x05, 0x20, 0x4b, 0x1c, 0x2d, 0xe9] 0x100).1).toOption = some [
    c! "0x00000100:  2005         movs    r0, #5",
    c! "0x00000102:* 1c4b         adds    r3, r1, #1"] := by
  rw [trees, decoders_eq]
  decide +kernel

end C78
end Verif
