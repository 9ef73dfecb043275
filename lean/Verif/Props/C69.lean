import Verif.Props.C67
import Verif.Props.C68
import Verif.Lemmas.Startup

/-!
# C69: the console's commands for memory
-/

namespace Verif
open Console Typed BS

namespace C69

/-- The names of the commands that write, for the number of bytes of a value. -/
def writeNames : Nat → List Str
  | 1 => [c! "write", c! "write8", c! "w", c! "wb"]
  | 2 => [c! "write16", c! "w16", c! "wh"]
  | 4 => [c! "write32", c! "w32", c! "ww"]
  | _ => []

/-- The names of the commands that read. -/
def readNames : Nat → List Str
  | 1 => [c! "read", c! "read8", c! "r", c! "rb"]
  | 2 => [c! "read16", c! "r16", c! "rh"]
  | 4 => [c! "read32", c! "r32", c! "rw"]
  | _ => []

/-- Arguments and their values. -/
inductive Values (mem : List Region) (c : Core) : List Str → List Int → Prop where
  | nil : Values mem c [] []
  | cons {a : Str} {l : List Str} {v : Int} {vs : List Int} : C68.Value mem c a v → Values mem c l vs → Values mem c (a :: l) (v :: vs)

/-- Storing values of `n` bytes one after the other. -/
def stores (n : Nat) : Flat → Int → List Int → Flat
  | f, _, [] => f
  | f, x, v :: t => stores n (flatWrite f x n v) (x + n) t

/-- What comes after the address in a read command: nothing, for one value, or the number of
*bytes* of `k` values; further words mean nothing. -/
inductive Asked (mem : List Region) (c : Core) (n : Nat) : List Str → Nat → Prop where
  | one : Asked mem c n [] 1
  | some {len : Str} {rest : List Str} {k : Nat} : C68.Value mem c len ((n * k : Nat) : Int) → Asked mem c n (len :: rest) k

/-- How many values there are on a line. -/
def perLine (n : Nat) : Nat := 16 / n

/-- The text of a byte, halfword or word: two hexadecimal digits for each byte. -/
def Hex (n : Nat) (s : Str) (v : Nat) : Prop := s.length = 2 * n ∧ Reader.nat 16 s = some v

/-- Texts and the values they show. -/
inductive Shown (n : Nat) : List Str → List Nat → Prop where
  | nil : Shown n [] []
  | cons {s : Str} {l : List Str} {v : Nat} {vs : List Nat} : Hex n s v → Shown n l vs → Shown n (s :: l) (v :: vs)

/-- A hexadecimal dump: lines that show these values, sixteen bytes on each but the last, and
before them an address and a colon. The numbers in front go up by the number of *values*
on a line. -/
inductive Dump (n : Nat) : Nat → List Nat → List Str → Prop where
  | done {x : Nat} : Dump n x [] []
  | line {x : Nat} {l a : Str} {ts : List Str} {vs rest : List Nat} {ls : List Str} : WordsOf l ((a ++ c! ":") :: ts) →
      Reader.nat 16 a = some x → Shown n ts vs → vs ≠ [] → vs.length = perLine n ∨ vs.length < perLine n ∧ rest = [] →
      Dump n (x + vs.length) rest ls → Dump n x (vs ++ rest) (l :: ls)

/-! ### Texts -/

theorem splitBy_append (p : Char → Bool) {d : Char} (hd : p d = true) : ∀ s t : Str, splitBy p (s ++ d :: t) = splitBy p s ++ splitBy p t
  | [], t => by
    rw [List.nil_append]
    conv => lhs; rw [splitBy]
    rw [if_pos hd]
    rfl
  | c :: s, t => by
    rw [List.cons_append, splitBy, splitBy_append p hd s t]
    conv => rhs; rw [splitBy]
    split
    · rfl
    · cases h : splitBy p s with
      | nil => exact absurd h (splitBy_ne p s)
      | cons a l => rfl

theorem words_append {d : Char} (hd : Blank d) (s t : Str) : words (s ++ d :: t) = words s ++ words t := by
  unfold words
  rw [splitBy_append _ (isSpace_iff.2 hd), List.filter_append]

theorem words_one {a : Str} (h0 : a ≠ []) (h : ∀ c ∈ a, ¬ Blank c) : words a = [a] := by
  have := words_of (.word (pre := []) (rest := []) (by simp) h0 h (by simp) (.none (by simp)))
  simpa using this

theorem natText_blank {c : Char} {n : Nat} (h : c ∈ natText 16 n) : ¬ Blank c := by
  intro hb
  have := Reader.hex_digit h
  unfold Blank at hb
  simp only [List.mem_cons, List.not_mem_nil, or_false] at hb
  rcases hb with rfl | rfl | rfl | rfl | rfl | rfl <;> revert this <;> decide

theorem hexPad_nat (k n : Nat) : hexPad k (n : Int) = List.replicate (k - (natText 16 n).length) '0' ++ natText 16 n := by
  unfold hexPad
  rw [if_neg (by omega)]
  simp

theorem hexPad_blank {k n : Nat} : ∀ c ∈ hexPad k (n : Int), ¬ Blank c := by
  intro c h
  rw [hexPad_nat, List.mem_append] at h
  rcases h with h | h
  · rw [List.eq_of_mem_replicate h]
    decide
  · exact natText_blank h

theorem hexPad_ne {k n : Nat} : hexPad k (n : Int) ≠ [] := by
  rw [hexPad_nat]
  simp [natText, Nat.toDigits_ne_nil]

theorem nat_hexPad (k n : Nat) : Reader.nat 16 (hexPad k (n : Int)) = some n := by
  rw [hexPad_nat, Reader.nat, if_neg (by simp [natText, Nat.toDigits_ne_nil]), Reader.digits_zeros 16 (by decide)]
  exact Reader.digits_toDigits (by decide) (by decide) n

theorem hexPad_length {k n : Nat} (h : n < 16 ^ k) (hk : 0 < k) : (hexPad k (n : Int)).length = k := by
  rw [hexPad_nat, List.length_append, List.length_replicate]
  have : (natText 16 n).length ≤ k := by
    unfold natText
    exact (Nat.length_toDigits_le_iff (by decide) hk).2 h
  omega

theorem shown_append {n : Nat} {ts : List Str} {vs : List Nat} (h : Shown n ts vs) {s : Str} {v : Nat} (hs : Hex n s v) :
    Shown n (ts ++ [s]) (vs ++ [v]) := by
  induction h with
  | nil => exact .cons hs .nil
  | cons h1 _ ih => exact .cons h1 ih

/-- A dump of which the first line is already begun, with some values on it. -/
theorem dumpLines_spec {n : Nat} (hn : n = 1 ∨ n = 2 ∨ n = 4) (start : Nat) : ∀ (data : List Nat), (∀ v ∈ data, v < 256 ^ n) → ∀ (i : Nat),
    (i % perLine n = 0 → Dump n (start + i) data (dumpLines (start : Int) (8 * n) data i none)) ∧
    (∀ (l a : Str) (ts : List Str) (vs : List Nat), WordsOf l ((a ++ c! ":") :: ts) → Reader.nat 16 a = some (start + (i - vs.length)) → Shown n ts vs →
      vs ≠ [] → vs.length = i % perLine n → Dump n (start + (i - vs.length)) (vs ++ data) (dumpLines (start : Int) (8 * n) data i (some l)))
  | [], _, i => by
    refine ⟨fun _ => .done, fun l a ts vs h1 h2 h3 h4 h5 => ?_⟩
    refine .line h1 h2 h3 h4 (.inr ⟨?_, rfl⟩) .done
    rw [h5]
    refine Nat.mod_lt _ ?_
    rcases hn with rfl | rfl | rfl <;> decide
  | d :: t, hv, i => by
    have hper : Console.perLine (8 * n) = perLine n := by rcases hn with rfl | rfl | rfl <;> rfl
    have hpos : 1 < perLine n := by rcases hn with rfl | rfl | rfl <;> decide
    have ih := dumpLines_spec hn start t (fun v h => hv v (List.mem_cons_of_mem _ h)) (i + 1)
    have hd : Hex n (hexPad (8 * n / 4) (d : Int)) d := by
      have h4 : 8 * n / 4 = 2 * n := by omega
      rw [h4]
      refine ⟨hexPad_length ?_ (by omega), nat_hexPad _ _⟩
      rw [Nat.pow_mul]
      exact hv d List.mem_cons_self
    -- the words after the next value is written
    have hwords : ∀ (l : Str) (ws : List Str), words l = ws →
        words (l ++ c! " " ++ hexPad (8 * n / 4) (d : Int) ++ (if 8 * n = 8 ∧ (i + 1) % 4 = 0 then c! " " else [])) =
          ws ++ [hexPad (8 * n / 4) (d : Int)] := by
      intro l ws h
      have hw1 : words (hexPad (8 * n / 4) (d : Int)) = [hexPad (8 * n / 4) (d : Int)] := words_one hexPad_ne hexPad_blank
      split
      · rw [words_append (d := ' ') (by decide) _ []]
        rw [List.append_assoc, show c! " " ++ hexPad (8 * n / 4) (d : Int) = ' ' :: hexPad (8 * n / 4) (d : Int) from rfl,
          words_append (by decide), h, hw1]
        simp [show words ([] : Str) = [] from rfl]
      · rw [List.append_nil, List.append_assoc, show c! " " ++ hexPad (8 * n / 4) (d : Int) = ' ' :: hexPad (8 * n / 4) (d : Int) from rfl,
          words_append (by decide), h, hw1]
    -- one step, for a line with some values
    have step : ∀ (l a : Str) (ts : List Str) (vs : List Nat), WordsOf l ((a ++ c! ":") :: ts) → Reader.nat 16 a = some (start + (i - vs.length)) →
        Shown n ts vs → vs.length = i % perLine n →
        Dump n (start + (i - vs.length)) (vs ++ d :: t) (
          let l' := l ++ c! " " ++ hexPad (8 * n / 4) (d : Int) ++ (if 8 * n = 8 ∧ (i + 1) % 4 = 0 then c! " " else [])
          if (i + 1) % Console.perLine (8 * n) = 0 then l' :: dumpLines (start : Int) (8 * n) t (i + 1) none
          else dumpLines (start : Int) (8 * n) t (i + 1) (some l')) := by
      intro l a ts vs h1 h2 h3 h5
      have hle : vs.length ≤ i := by rw [h5]; exact Nat.mod_le _ _
      have hw := words_iff.1 (hwords l _ (words_of h1))
      have hs := shown_append h3 hd
      have hdiff : i + 1 - (vs ++ [d]).length = i - vs.length := by simp
      have hcons : vs ++ d :: t = (vs ++ [d]) ++ t := by simp
      rw [hper]
      simp only
      by_cases hz : (i + 1) % perLine n = 0
      · rw [if_pos hz, hcons]
        refine .line hw h2 hs (by simp) (.inl ?_) ?_
        · rw [List.length_append, List.length_singleton, h5]
          have h7 := Nat.add_mod i 1 (perLine n)
          rw [hz, Nat.mod_eq_of_lt hpos] at h7
          have h8 := Nat.mod_lt i (show 0 < perLine n by omega)
          by_cases h9 : i % perLine n + 1 < perLine n
          · rw [Nat.mod_eq_of_lt h9] at h7
            omega
          · omega
        · have := ih.1 hz
          rwa [show start + (i - vs.length) + (vs ++ [d]).length = start + (i + 1) by simp; omega]
      · rw [if_neg hz, hcons]
        have := ih.2 _ a (ts ++ [hexPad (8 * n / 4) (d : Int)]) (vs ++ [d]) hw (by rw [hdiff]; exact h2) hs (by simp) (by
          rw [List.length_append, List.length_singleton, h5]
          rw [Nat.add_mod, Nat.mod_eq_of_lt hpos] at hz ⊢
          have h8 := Nat.mod_lt i (show 0 < perLine n by omega)
          by_cases h9 : i % perLine n + 1 < perLine n
          · rw [Nat.mod_eq_of_lt h9]
          · exfalso
            apply hz
            rw [show i % perLine n + 1 = perLine n by omega, Nat.mod_self])
        rwa [hdiff] at this
    refine ⟨fun hz => ?_, fun l a ts vs h1 h2 h3 _ h5 => ?_⟩
    · have hl : WordsOf (hexPad 8 ((start : Int) + i) ++ c! ": ") ((hexPad 8 ((start : Int) + i) ++ c! ":") :: []) := by
        rw [← Int.natCast_add]
        apply words_iff.1
        rw [show c! ": " = c! ":" ++ ' ' :: [] from rfl, ← List.append_assoc, words_append (by decide)]
        rw [words_one (by simp) (by
          intro c hc
          rw [List.mem_append] at hc
          rcases hc with hc | hc
          · exact hexPad_blank c hc
          · rw [List.mem_singleton] at hc
            rw [hc]
            decide)]
        rfl
      have := step _ _ [] [] hl (by rw [← Int.natCast_add]; exact nat_hexPad _ _) .nil hz.symm
      simpa [dumpLines] using this
    · have := step l a ts vs h1 h2 h3 h5
      simpa [dumpLines] using this

/-! ### Arguments -/

theorem value_run {w : World} {c : Core} (hs : Shows w.cpu c) (hm : MemOK w.cpu.mem) {arg : Str} {v : Int} (h : C68.Value w.cpu.mem c arg v) :
    ∃ ls, convertValue arg w = (.ok v, { w with out := w.out ++ ls }) := by
  have h1 := (C68.value_iff hs hm arg v).2 h
  have h2 := keeps_convertValue arg w
  obtain ⟨ls, h3⟩ := adds_convertValue arg w
  refine ⟨ls, ?_⟩
  cases hx : convertValue arg w with
  | mk r w' =>
    rw [hx] at h1 h2 h3
    cases w' with
    | mk s o =>
      simp only at h1 h2 h3
      rw [h1, h2, h3]

theorem values_run {c : Core} {mem : List Region} {args : List Str} {vs : List Int} (h : Values mem c args vs) :
    ∀ {w : World}, w.cpu.mem = mem → Shows w.cpu c → MemOK w.cpu.mem → (∀ v ∈ vs, 0 ≤ v ∧ v < 256) →
      ∃ ls, byteValues args w = (.ok (vs.map Int.toNat), { w with out := w.out ++ ls }) := by
  induction h with
  | nil =>
    intro w _ _ _ _
    exact ⟨[], by rw [List.append_nil]; rfl⟩
  | @cons a l v vs h1 h2 ih =>
    intro w he hs hm hv
    subst he
    obtain ⟨l1, e1⟩ := value_run hs hm h1
    obtain ⟨l2, e2⟩ := ih (w := { w with out := w.out ++ l1 }) rfl hs hm (fun v h => hv v (List.mem_cons_of_mem _ h))
    refine ⟨l1 ++ l2, ?_⟩
    unfold byteValues
    rw [ConM.bind_ok e1, if_pos (hv v List.mem_cons_self), ConM.bind_ok e2]
    rw [← List.append_assoc]
    rfl

theorem values_bad {c : Core} {mem : List Region} {args : List Str} {vs : List Int} (h : Values mem c args vs) :
    ∀ {w : World}, w.cpu.mem = mem → Shows w.cpu c → MemOK w.cpu.mem → (∃ v ∈ vs, ¬ (0 ≤ v ∧ v < 256)) →
      ∃ ls, byteValues args w = (.error (.py .valueError), { w with out := w.out ++ ls }) := by
  induction h with
  | nil =>
    intro w _ _ _ ⟨_, hv, _⟩
    cases hv
  | @cons a l v vs h1 h2 ih =>
    intro w he hs hm hv
    subst he
    obtain ⟨l1, e1⟩ := value_run hs hm h1
    unfold byteValues
    rw [ConM.bind_ok e1]
    by_cases hb : 0 ≤ v ∧ v < 256
    · have hv' : ∃ v ∈ vs, ¬ (0 ≤ v ∧ v < 256) := by
        obtain ⟨y, hy, hn⟩ := hv
        cases hy with
        | head => exact absurd hb hn
        | tail _ hy => exact ⟨y, hy, hn⟩
      obtain ⟨l2, e2⟩ := ih (w := { w with out := w.out ++ l1 }) rfl hs hm hv'
      refine ⟨l1 ++ l2, ?_⟩
      rw [if_pos hb, ConM.bind_err e2, ← List.append_assoc]
    · refine ⟨l1, ?_⟩
      rw [if_neg hb]
      rfl

theorem values_length {c : Core} {mem : List Region} {args : List Str} {vs : List Int} (h : Values mem c args vs) : vs.length = args.length := by
  induction h with
  | nil => rfl
  | cons _ _ ih => rw [List.length_cons, List.length_cons, ih]

/-! ### Bytes -/

theorem leByte_byteOf (v : Int) (i : Nat) : leByte v i = byteOf v i := by
  rw [C21.leByte_eq, byteOf]
  have : (2 : Int) ^ (i * 8) = 256 ^ i := by
    rw [Nat.mul_comm, Int.pow_mul]
    rfl
  rw [this]

theorem range_two {α : Type} (f : Nat → α) : (List.range 2).map f = [f 0, f 1] := rfl
theorem range_four {α : Type} (f : Nat → α) : (List.range 4).map f = [f 0, f 1, f 2, f 3] := rfl

theorem dataBytes_eq {n : Nat} (hn : n = 1 ∨ n = 2 ∨ n = 4) {vs : List Int} (hv : ∀ v ∈ vs, 0 ≤ v ∧ v < 256) :
    dataBytes (8 * n) (vs.map Int.toNat) = vs.flatMap fun v => (List.range n).map (byteOf v) := by
  have hback : (vs.map Int.toNat).map Int.ofNat = vs := by
    rw [List.map_map]
    conv => rhs; rw [← List.map_id vs]
    refine List.map_congr_left fun v h => ?_
    have := hv v h
    show (v.toNat : Int) = v
    omega
  rcases hn with rfl | rfl | rfl
  · show vs.map Int.toNat = _
    clear hback
    induction vs with
    | nil => rfl
    | cons v t ih =>
      rw [List.map_cons, List.flatMap_cons, ih fun v h => hv v (List.mem_cons_of_mem _ h)]
      have h1 := hv v List.mem_cons_self
      have : byteOf v 0 = v.toNat := by
        unfold byteOf
        simp
        omega
      show v.toNat :: _ = byteOf v 0 :: _
      rw [this]
      rfl
  · show u16leListToByteList ((vs.map Int.toNat).map Int.ofNat) = _
    rw [hback]
    unfold u16leListToByteList
    simp only [range_two, leByte_byteOf]
  · show u32leListToByteList ((vs.map Int.toNat).map Int.ofNat) = _
    rw [hback]
    unfold u32leListToByteList
    simp only [range_four, leByte_byteOf]

theorem bytes_length (n : Nat) (vs : List Int) : (vs.flatMap fun v => (List.range n).map (byteOf v)).length = n * vs.length := by
  induction vs with
  | nil => rfl
  | cons v t ih =>
    rw [List.flatMap_cons, List.length_append, ih, List.length_map, List.length_range, List.length_cons, Nat.mul_succ, Nat.add_comm]

theorem byteOf_lt (v : Int) (i : Nat) : byteOf v i < 256 := by
  unfold byteOf
  omega

theorem bytes_lt {n : Nat} {vs : List Int} : ∀ b ∈ vs.flatMap fun v => (List.range n).map (byteOf v), b < 256 := by
  intro b hb
  rw [List.mem_flatMap] at hb
  obtain ⟨v, -, hb⟩ := hb
  rw [List.mem_map] at hb
  obtain ⟨i, -, rfl⟩ := hb
  exact byteOf_lt v i

theorem stores_eq (n : Nat) : ∀ (vs : List Int) (f : Flat) (x y : Int), stores n f x vs y =
    if x ≤ y ∧ y < x + (n * vs.length : Nat) then (vs.flatMap fun v => (List.range n).map (byteOf v))[(y - x).toNat]? else f y
  | [], f, x, y => by
    rw [stores, if_neg]
    simp
  | v :: t, f, x, y => by
    rw [stores, stores_eq n t, List.flatMap_cons, List.length_cons, Nat.mul_succ]
    by_cases h1 : x + n ≤ y ∧ y < x + n + (n * t.length : Nat)
    · rw [if_pos h1, if_pos (by omega), List.getElem?_append_right (by simp; omega)]
      simp only [List.length_map, List.length_range]
      congr 1
      omega
    · rw [if_neg h1, flatWrite]
      by_cases h2 : x ≤ y ∧ y < x + n
      · rw [if_pos h2, if_pos (by omega), List.getElem?_append_left (by simp; omega), List.getElem?_map, List.getElem?_range (by omega)]
        rfl
      · rw [if_neg h2, if_neg (by omega)]

theorem stores_other {n : Nat} {vs : List Int} {f : Flat} {x y : Int} (h : y < x ∨ x + (n * vs.length : Nat) ≤ y) : stores n f x vs y = f y := by
  rw [stores_eq, if_neg (by omega)]

/-- Values stored one after the other are all there afterwards. -/
theorem stores_read (n : Nat) : ∀ (vs : List Int) (f : Flat) (x : Int) (i : Nat), (∀ v ∈ vs, 0 ≤ v ∧ v < 256 ^ n) → (h : i < vs.length) →
    flatRead (stores n f x vs) (x + (n * i : Nat)) n = some vs[i].toNat
  | v :: t, f, x, 0, hv, _ => by
    have h1 := flatRead_flatWrite f x n v
    have h2 := hv v List.mem_cons_self
    rw [Int.emod_eq_of_lt h2.1 h2.2] at h1
    rw [stores]
    show flatRead _ (x + (n * 0 : Nat)) n = some v.toNat
    rw [← h1, Nat.mul_zero, Int.natCast_zero, Int.add_zero]
    refine flatRead_congr fun y h3 h4 => ?_
    rw [stores_other (by omega)]
  | v :: t, f, x, i + 1, hv, h => by
    have := stores_read n t (flatWrite f x n v) (x + n) i (fun v h => hv v (List.mem_cons_of_mem _ h)) (by simpa using h)
    rw [stores]
    rw [show x + ((n * (i + 1) : Nat) : Int) = x + n + (n * i : Nat) by rw [Nat.mul_succ]; omega]
    simpa using this

/-! ### Writing -/

theorem write_handler {n : Nat} (hn : n = 1 ∨ n = 2 ∨ n = 4) {name : Str} (h : name ∈ writeNames n) : (name, Command.write (8 * n)) ∈ commandList := by
  rcases hn with rfl | rfl | rfl <;> revert name <;> decide +kernel

theorem read_handler {n : Nat} (hn : n = 1 ∨ n = 2 ∨ n = 4) {name : Str} (h : name ∈ readNames n) : (name, Command.read (8 * n)) ∈ commandList := by
  rcases hn with rfl | rfl | rfl <;> revert name <;> decide +kernel

theorem catching_ok {x : ConM Unit} {w w' : World} (h : x w = (.ok (), w')) : catching x w = (.ok (), w') := by
  unfold catching
  rw [h]

theorem catching_py {x : ConM Unit} {w w' : World} {e : PyErr} (h : x w = (.error (.py e), w')) :
    catching x w = (.ok (), { w' with out := w'.out ++ [.report (.py e)] }) := by
  unfold catching
  rw [h]
  rfl

/-- **C69.** A write command whose values are bytes stores each of them in one, two or four
bytes, one after the other, and changes nothing else. What the console says before is about
the arguments. Values above 255 are refused, also by `write16` and `write32` (see
`write_refused`). -/
theorem write_partial (python : Python) {w : World} {c : Core} (hs : Shows w.cpu c) (hm : MemOK w.cpu.mem) {n : Nat} (hn : n = 1 ∨ n = 2 ∨ n = 4)
    {cmd name a : Str} {ds : List Str} {x : Int} {vs : List Int} (hname : name ∈ writeNames n) (hcmd : Says cmd name (a :: ds)) (h0 : ds ≠ [])
    (hx : C68.Value w.cpu.mem c a x) (hvs : Values w.cpu.mem c ds vs) (hv : ∀ v ∈ vs, 0 ≤ v ∧ v < 256)
    (hin : Inside w.cpu.mem x (n * vs.length)) :
    ∃ s' ls, processCommand python cmd w = (.ok (), ⟨s', w.out ++ ls⟩) ∧ Shows s' { c with mem := stores n c.mem x vs } ∧
      s'.regs = w.cpu.regs ∧ MemOK s'.mem ∧ ∀ y k, Inside s'.mem y k ↔ Inside w.cpu.mem y k := by
  obtain ⟨l1, e1⟩ := value_run hs hm hx
  obtain ⟨l2, e2⟩ := values_run hvs (w := { w with out := w.out ++ l1 }) rfl hs hm hv
  have hlen := values_length hvs
  have hpos : 0 < n * vs.length := by
    have : 0 < ds.length := List.length_pos_iff.2 h0
    exact Nat.mul_pos (by omega) (by omega)
  have hbl := bytes_length n vs
  have hd0 : (vs.flatMap fun v => (List.range n).map (byteOf v)) ≠ [] := by
    rw [← List.length_pos_iff, hbl]
    exact hpos
  obtain ⟨p, hp⟩ := findMem_inside hm hpos hin
  have hwr : writeMemoryBlock x (vs.flatMap fun v => (List.range n).map (byteOf v)) w.cpu =
      (.ok (), { w.cpu with mem := updMem x (n * vs.length) (vs.flatMap fun v => (List.range n).map (byteOf v)) w.cpu.mem }) := by
    unfold writeMemoryBlock
    rw [hp, hbl]
  refine ⟨{ w.cpu with mem := updMem x (n * vs.length) (vs.flatMap fun v => (List.range n).map (byteOf v)) w.cpu.mem }, l1 ++ l2, ?_,
    ⟨hs.1, ?_⟩, rfl, updMem_ok hm hbl hpos hin bytes_lt, fun y k => inside_updMem⟩
  · rw [C67.command_runs python hcmd (write_handler hn hname)]
    apply catching_ok
    show doWrite (8 * n) (a :: ds) w = _
    rw [doWrite]
    rw [ConM.bind_ok e1, if_neg h0, ConM.bind_ok e2, dataBytes_eq hn hv, ← List.append_assoc]
    exact cpu_ok hwr
  · funext y
    show flat (updMem x (n * vs.length) _ w.cpu.mem) y = stores n c.mem x vs y
    rw [flat_updMem hm hbl hpos hin y, stores_eq, hs.2]

/-- **C69.** A write command with a value outside 0..255 is refused, whatever the width, and
the machine stays as it was. -/
theorem write_refused (python : Python) {w : World} {c : Core} (hs : Shows w.cpu c) (hm : MemOK w.cpu.mem) {n : Nat} (hn : n = 1 ∨ n = 2 ∨ n = 4)
    {cmd name a : Str} {ds : List Str} {x : Int} {vs : List Int} (hname : name ∈ writeNames n) (hcmd : Says cmd name (a :: ds))
    (hx : C68.Value w.cpu.mem c a x) (hvs : Values w.cpu.mem c ds vs) (hv : ∃ v ∈ vs, ¬ (0 ≤ v ∧ v < 256)) :
    ∃ ls, processCommand python cmd w = (.ok (), ⟨w.cpu, w.out ++ ls ++ [.report (.py .valueError)]⟩) := by
  obtain ⟨l1, e1⟩ := value_run hs hm hx
  obtain ⟨l2, e2⟩ := values_bad hvs (w := { w with out := w.out ++ l1 }) rfl hs hm hv
  have h0 : ds ≠ [] := by
    rintro rfl
    cases hvs
    obtain ⟨_, h, _⟩ := hv
    cases h
  refine ⟨l1 ++ l2, ?_⟩
  rw [C67.command_runs python hcmd (write_handler hn hname)]
  show catching (doWrite (8 * n) (a :: ds)) w = _
  rw [catching_py (e := .valueError) (w' := ⟨w.cpu, w.out ++ (l1 ++ l2)⟩)]
  rw [doWrite]
  rw [ConM.bind_ok e1, if_neg h0, ConM.bind_err e2, ← List.append_assoc]

/-! ### Reading -/

theorem items_spec {n : Nat} (hn : n = 1 ∨ n = 2 ∨ n = 4) : ∀ (k : Nat) (data : List Nat) (f : Flat) (x : Int), data.length = n * k →
    (∀ j, j < n * k → data[j]? = f (x + (j : Nat))) → (∀ b ∈ data, b < 256) →
    ∃ vs, items (8 * n) (some data) = .ok vs ∧ vs.length = k ∧ (∀ v ∈ vs, v < 256 ^ n) ∧ ∀ i, i < k → flatRead f (x + (n * i : Nat)) n = vs[i]?
  | 0, data, f, x, hl, _, _ => by
    have : data = [] := List.eq_nil_of_length_eq_zero (by omega)
    subst this
    refine ⟨[], ?_, rfl, fun v (h : v ∈ []) => absurd h List.not_mem_nil, fun i h => by omega⟩
    rcases hn with rfl | rfl | rfl <;> rfl
  | k + 1, data, f, x, hl, hf, hb => by
    have next : ∀ (hd t : List Nat), data = hd ++ t → hd.length = n → ∃ vs, items (8 * n) (some t) = .ok vs ∧ vs.length = k ∧
        (∀ v ∈ vs, v < 256 ^ n) ∧ ∀ i, i < k → flatRead f (x + n + (n * i : Nat)) n = vs[i]? := by
      intro hd t e hlen
      refine items_spec hn k t f (x + n) ?_ ?_ fun b h => hb b (by rw [e]; exact List.mem_append_right _ h)
      · rw [e, List.length_append, Nat.mul_succ] at hl
        omega
      · intro j hj
        have := hf (n + j) (by rw [Nat.mul_succ]; omega)
        rw [e, List.getElem?_append_right (by omega)] at this
        rw [show n + j - hd.length = j by omega] at this
        rw [this]
        congr 1
        omega
    have rest : ∀ {v : Nat} {vs : List Nat}, flatRead f x n = some v → (∀ i, i < k → flatRead f (x + n + (n * i : Nat)) n = vs[i]?) →
        ∀ i, i < k + 1 → flatRead f (x + (n * i : Nat)) n = (v :: vs)[i]? := by
      intro v vs h1 h2 i hi
      cases i with
      | zero =>
        rw [Nat.mul_zero, Int.natCast_zero, Int.add_zero]
        exact h1
      | succ i =>
        rw [show x + ((n * (i + 1) : Nat) : Int) = x + n + (n * i : Nat) by rw [Nat.mul_succ]; omega]
        exact h2 i (by omega)
    rcases hn with rfl | rfl | rfl
    · match data, hl, hf, hb, next with
      | [], hl, _, _, _ => simp at hl
      | b0 :: t, hl, hf, hb, next =>
        obtain ⟨vs, h1, h2, h3, h4⟩ := next [b0] t rfl rfl
        have f0 := hf 0 (by omega)
        have g0 := hb b0 (by simp)
        simp at f0
        refine ⟨b0 :: vs, ?_, by simp [h2], ?_, rest (by simp [flatRead, ← f0]) h4⟩
        · have : vs = t := by
            simp [items] at h1
            exact h1.symm
          rw [this]
          rfl
        · intro v hv
          cases hv with
          | head => omega
          | tail _ hv => exact h3 v hv
    · match data, hl, hf, hb, next with
      | [], hl, _, _, _ => simp at hl
      | [_], hl, _, _, _ => simp at hl; omega
      | b0 :: b1 :: t, hl, hf, hb, next =>
        obtain ⟨vs, h1, h2, h3, h4⟩ := next [b0, b1] t rfl rfl
        have f0 := hf 0 (by omega)
        have f1 := hf 1 (by omega)
        have g0 := hb b0 (by simp)
        have g1 := hb b1 (by simp)
        simp at f0 f1
        refine ⟨(b0 ||| (b1 <<< 8)) :: vs, ?_, by simp [h2], ?_, rest ?_ h4⟩
        · simp [items] at h1
          simp [items, byteListToU16leList, h1]
        · intro v hv
          cases hv with
          | head => rw [C21.word16 g0]; omega
          | tail _ hv => exact h3 v hv
        · rw [C21.word16 g0]
          simp [flatRead, ← f0, ← f1]
    · match data, hl, hf, hb, next with
      | [], hl, _, _, _ => simp at hl
      | [_], hl, _, _, _ => simp at hl; omega
      | [_, _], hl, _, _, _ => simp at hl; omega
      | [_, _, _], hl, _, _, _ => simp at hl; omega
      | b0 :: b1 :: b2 :: b3 :: t, hl, hf, hb, next =>
        obtain ⟨vs, h1, h2, h3, h4⟩ := next [b0, b1, b2, b3] t rfl rfl
        have f0 := hf 0 (by omega)
        have f1 := hf 1 (by omega)
        have f2 := hf 2 (by omega)
        have f3 := hf 3 (by omega)
        have g0 := hb b0 (by simp)
        have g1 := hb b1 (by simp)
        have g2 := hb b2 (by simp)
        have g3 := hb b3 (by simp)
        have e2 : x + 1 + 1 = x + 2 := by omega
        have e3 : x + 2 + 1 = x + 3 := by omega
        simp at f0 f1 f2 f3
        refine ⟨(b0 ||| (b1 <<< 8) ||| (b2 <<< 16) ||| (b3 <<< 24)) :: vs, ?_, by simp [h2], ?_, rest ?_ h4⟩
        · simp [items] at h1
          simp [items, byteListToU32leList, h1]
        · intro v hv
          cases hv with
          | head => rw [C21.word32 g0 g1 g2]; omega
          | tail _ hv => exact h3 v hv
        · rw [C21.word32 g0 g1 g2]
          simp [flatRead, e2, e3, ← f0, ← f1, ← f2, ← f3]
          omega

theorem asked_run {w : World} {c : Core} (hs : Shows w.cpu c) (hm : MemOK w.cpu.mem) {n k : Nat} {args : List Str}
    (h : Asked w.cpu.mem c n args k) : ∃ ls, count (n : Int) args.head? w = (.ok ((n * k : Nat) : Int), { w with out := w.out ++ ls }) := by
  cases h with
  | one => exact ⟨[], by rw [List.append_nil, Nat.mul_one]; rfl⟩
  | some h => exact value_run hs hm h

/-- **C69.** A read command shows the values in memory, in hexadecimal, and changes nothing.
The length is a number of bytes. -/
theorem read (python : Python) {w : World} {c : Core} (hs : Shows w.cpu c) (hm : MemOK w.cpu.mem) {n : Nat} (hn : n = 1 ∨ n = 2 ∨ n = 4)
    {cmd name a : Str} {args : List Str} {x k : Nat} (hname : name ∈ readNames n) (hcmd : Says cmd name (a :: args))
    (hx : C68.Value w.cpu.mem c a x) (hk : Asked w.cpu.mem c n args k) (h0 : 0 < k) (hin : Inside w.cpu.mem x (n * k)) :
    ∃ ls dump vs, processCommand python cmd w = (.ok (), ⟨w.cpu, w.out ++ ls ++ dump.map .line⟩) ∧ Dump n x vs dump ∧ vs.length = k ∧
      ∀ i, i < k → flatRead c.mem (x + (n * i : Nat)) n = vs[i]? := by
  obtain ⟨l1, e1⟩ := value_run hs hm hx
  obtain ⟨l2, e2⟩ := asked_run (w := { w with out := w.out ++ l1 }) hs hm hk
  obtain ⟨data, e3, hlen, hd⟩ := C26.block_read hm (addr := x) (Nat.mul_pos (show 0 < n by omega) h0) hin
  have hb : ∀ b ∈ data, b < 256 := by
    intro b h
    obtain ⟨j, hj, rfl⟩ := List.getElem_of_mem h
    obtain ⟨m, -, -, -, -, h5⟩ := find_inside hm (Nat.mul_pos (show 0 < n by omega) h0) hin
    obtain ⟨b', h6, -, h7⟩ := h5 j (by omega)
    have h8 := hd j (by omega)
    rw [List.getElem?_eq_getElem hj, h6] at h8
    rw [Option.some.inj h8]
    exact h7
  obtain ⟨vs, h1, h2, h3, h4⟩ := items_spec hn k data (flat w.cpu.mem) x hlen (fun j hj => hd j hj) hb
  refine ⟨l1 ++ l2, dumpLines x (8 * n) vs 0 none, vs, ?_, (dumpLines_spec hn x vs h3 0).1 (Nat.zero_mod _), h2, ?_⟩
  · rw [C67.command_runs python hcmd (read_handler hn hname)]
    apply catching_ok
    show doRead (8 * n) (a :: args) w = _
    have hdef : ((8 * n / 8 : Nat) : Int) = n := by
      rw [Nat.mul_div_cancel_left n (by decide)]
    have hblock : readBlock (x : Int) ((n * k : Nat) : Int) w.cpu = (.ok (some data), w.cpu) := by
      unfold readBlock
      rw [if_pos (Int.natCast_nonneg _), Int.toNat_natCast]
      exact e3
    rw [doRead]
    rw [ConM.bind_ok e1, hdef, ConM.bind_ok e2, ConM.bind_ok (cpu_ok (w := ⟨w.cpu, w.out ++ l1 ++ l2⟩) hblock), ConM.bind_ok (C68.expr_ok h1 _), ← List.append_assoc]
    rfl
  · rw [← hs.2]
    exact h4

/-- **C69.** After a write command a read command of the same width shows the values
written. -/
theorem write_then_read_partial (python : Python) {w : World} {c : Core} (hs : Shows w.cpu c) (hm : MemOK w.cpu.mem) {n : Nat}
    (hn : n = 1 ∨ n = 2 ∨ n = 4) {cmd name a cmd' name' a' len : Str} {ds : List Str} {x : Nat} {vs : List Int}
    (hname : name ∈ writeNames n) (hcmd : Says cmd name (a :: ds)) (hx : C68.Value w.cpu.mem c a x)
    (hvs : Values w.cpu.mem c ds vs) (h0 : ds ≠ []) (hv : ∀ v ∈ vs, 0 ≤ v ∧ v < 256) (hin : Inside w.cpu.mem x (n * vs.length))
    (hname' : name' ∈ readNames n) (hcmd' : Says cmd' name' [a', len]) (hx' : Number (plain a') x) (hlen : Number (plain len) (n * vs.length : Nat)) :
    ∃ s' ls dump, processCommands python [cmd, cmd'] w = (.ok (), ⟨s', w.out ++ ls ++ dump.map .line⟩) ∧ Dump n x (vs.map Int.toNat) dump := by
  obtain ⟨s', l1, e1, hs', -, hm', hi⟩ := write_partial python hs hm hn hname hcmd h0 hx hvs hv hin
  have num : ∀ {t : Str} {v : Int}, Number (plain t) v → C68.Value s'.mem { c with mem := stores n c.mem x vs } t v := by
    intro t v h
    have h1 := (C68.value_iff (w := ⟨s', w.out ++ l1⟩) hs' hm' t v).1
    apply h1
    rw [C68.number_value h]
  have hl := values_length hvs
  have hpos : 0 < vs.length := by
    have := List.length_pos_iff.2 h0
    omega
  obtain ⟨l2, dump, us, e2, hd, hlen', hus⟩ := read python (w := ⟨s', w.out ++ l1⟩) hs' hm' hn hname' hcmd' (num hx') (.some (num hlen)) hpos
    ((hi x (n * vs.length)).2 hin)
  have hues : us = vs.map Int.toNat := by
    apply List.ext_getElem? fun i => ?_
    by_cases hlt : i < vs.length
    · rw [← hus i hlt, stores_read n vs _ _ i (fun v h => ?_) hlt, List.getElem?_map, List.getElem?_eq_getElem hlt]
      · rfl
      · have := hv v h
        refine ⟨this.1, ?_⟩
        rcases hn with rfl | rfl | rfl <;> omega
    · rw [List.getElem?_eq_none (by omega), List.getElem?_eq_none (by simp; omega)]
  refine ⟨s', l1 ++ l2, dump, ?_, hues ▸ hd⟩
  unfold processCommands
  rw [ConM.bind_ok e1]
  unfold processCommands
  rw [ConM.bind_ok e2, ← List.append_assoc]
  rfl

/-- **C69.** The halfword 256 cannot be written, though there is memory for it. -/
theorem full_claim_false : ∃ (w : World) (c : Core), Shows w.cpu c ∧ MemOK w.cpu.mem ∧ Inside w.cpu.mem 0x2000 2 ∧ ∀ python,
    processCommand python (c! "write16 0x2000 256") w = (.ok (), { w with out := w.out ++ [.report (.py .valueError)] }) := by
  let s : Machine := { Machine.new with mem := exMem }
  refine ⟨⟨s, []⟩, ?_⟩
  have hm : MemOK s.mem := exMem_ok
  refine ⟨_, shows_new exMem, hm, ⟨_, List.mem_cons_of_mem _ List.mem_cons_self, by decide, by decide⟩, fun python => ?_⟩
  rfl

/-- `ww 0x1004 1 0xff` in the example memory -/
example : stores 4 (flat exMem) 0x1004 [1, 0xff] 0x1008 = some 0xff ∧ stores 4 (flat exMem) 0x1004 [1, 0xff] 0x1005 = some 0 := by
  decide +kernel

/-- A dump of five words takes two lines; the number before the second line is wrong by 12. -/
example : Dump 4 0x1000 [1, 2, 3, 4, 0xabcdef01] [c! "00001000:  00000001 00000002 00000003 00000004", c! "00001004:  abcdef01"] :=
  (dumpLines_spec (.inr (.inr rfl)) 0x1000 [1, 2, 3, 4, 0xabcdef01] (by decide) 0).1 rfl

end C69
end Verif
